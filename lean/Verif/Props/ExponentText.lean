import Verif.Props.FloatText
import Verif.Props.FloorCeil
import Verif.Props.Scientific

/-!
# C126: reading what is shown with an exponent

The library shows very small and very large floats with an exponent. What the parser makes of that.
-/

namespace Pbrt

open Spec Proof
open Float.Model (UnpackedFloat Format)

section
variable {T : Type} [Elem T] [As T T] [FloatFns T] [IEEE T]

local notation "𝔽" => IEEE.fmt T
local notation "ε" => unitRoundoff T
local notation "η" => tiny T

/-- A text with an exponent: one digit, perhaps a point and more digits, and the exponent -/
theorem exponent_text {f : T} (hf : IsFinite f) (he : 'e' ∈ (rustFloat true f).toList) :
    ∃ (s : Sign) (a b : List Char) (k : ℤ),
      (rustFloat true f).toList = s.text ++ (a ++ (if b = [] then [] else '.' :: b) ++ 'e' :: intDigits k) ∧
      a.length = 1 ∧ (∀ x ∈ a ++ b, IsDigit x) ∧ 1 ≤ |decimal s a b| ∧ |decimal s a b| < 10 ∧
      (grid 𝔽).RN (decimal s a b * 10 ^ k) = val f ∧ (k < -4 ∨ 16 ≤ k) := by
  have h0 : val f ≠ 0 := by
    intro h0
    rcases rustFloat_finite hf true with ⟨s, -, h⟩ | ⟨s, m, e, hm, hu, -⟩
    · rw [h] at he
      cases s <;> exact absurd he (by decide)
    · have hq : (0 : ℝ) < m * 2 ^ e := mul_pos (by exact_mod_cast hm) (two_zpow_pos e)
      unfold val at h0
      rw [hu, uval_finite] at h0
      cases s <;> simp only [sgn] at h0 <;> linarith
  obtain ⟨s, a, b, -, -, h3, h | ⟨h4, a', b', k, h5, h6, h7, h8, h9, h10⟩⟩ := exponent_forms hf h0
  · rw [h.2.2] at he
    exact absurd he (C125_no_exponents hf)
  · refine ⟨s, a', b', k, h5, h6, h7, h8, h9, by rw [h10, h3], ?_⟩
    have ht : (0 : ℝ) < 10 ^ k := zpow_pos (by norm_num) k
    rw [← h10, abs_mul, abs_of_pos ht] at h4
    rcases h4 with h4 | h4
    · left
      refine (zpow_lt_zpow_iff_right₀ (by norm_num : (1 : ℝ) < 10)).1 ?_
      nlinarith
    · right
      have : (10 : ℝ) ^ (16 : ℤ) < 10 ^ (k + 1) := by
        rw [zpow_add_one₀ (by norm_num)]
        nlinarith
      have := (zpow_lt_zpow_iff_right₀ (by norm_num : (1 : ℝ) < 10)).1 this
      omega

/-- What a number rounds to is not far from it. -/
theorem rounds_near {f : T} {x : ℝ} (h : (grid 𝔽).RN x = val f) : |val f - x| ≤ ε * |x| + η := by
  rw [← h]
  exact RN_error _ x

/-- Integers that round to a float are converted to it. -/
theorem fromInt_rounds {f : T} (hf : IsFinite f) (h0 : val f ≠ 0) {n : ℤ} (h : (grid 𝔽).RN n = val f) :
    (Elem.fromInt n : T) = f := by
  have hr := (normalize_rounded (fmt := 𝔽) (n := n) (e := 0) (z := .positive) (x := n) (by simp)).1
  have h1 := uext_over IEEE.heb hr
  have e : (Elem.fromInt n : T) = IEEE.pk (.normalize 𝔽 n 0 .positive) := IEEE.int_eq n
  rw [← up_pk (T := T) hr.canon, ← e] at h1
  have hb : |(grid 𝔽).RN n| < big 𝔽 := by
    rw [h, ← RN_rep (rep_val f)]
    exact inSpan_lt_big ⟨f, f, hf, hf, le_rfl, le_rfl⟩
  have hrnd : rnd 𝔽 (n : ℝ) = ((grid 𝔽).RN n : ℝ) := by
    unfold rnd
    rw [abs_lt] at hb
    rw [if_neg (by linarith), if_neg (by linarith)]
  obtain ⟨g1, g2⟩ := finite_of_ext (a := (Elem.fromInt n : T)) (by rw [nan_iff]; exact h1.2) (h1.1.trans hrnd)
  rw [h] at g2
  refine eq_of_val g1 hf g2 ?_
  rcases lt_or_gt_of_ne h0 with hn | hp
  · rw [(sign_of_val hf).2 hn, (sign_of_val g1).2 (by rw [g2]; exact hn)]
  · rw [(sign_of_val hf).1 hp, (sign_of_val g1).1 (by rw [g2]; exact hp)]

/-- Texts without a point: `d * 10^k` for a digit `d` -/
theorem digit_text {f : T} (hf : IsFinite f) (he : 'e' ∈ (rustFloat true f).toList)
    (hp : '.' ∉ (rustFloat true f).toList) : ∃ (s : Sign) (a : List Char) (k : ℤ),
      (rustFloat true f).toList = s.text ++ a ++ 'e' :: intDigits k ∧ a ≠ [] ∧ (∀ x ∈ a, IsDigit x) ∧
      1 ≤ decVal a ∧ decVal a < 10 ∧ (grid 𝔽).RN (s.apply (decVal a) * 10 ^ k) = val f ∧ (k < -4 ∨ 16 ≤ k) := by
  obtain ⟨s, a, b, k, h1, h2, h3, h4, h5, h6, h7⟩ := exponent_text hf he
  obtain rfl : b = [] := by
    by_contra hb
    rw [if_neg hb] at h1
    exact hp (by rw [h1]; simp)
  have hd : decimal s a [] = s.apply (decVal a) := by unfold decimal; simp
  have ha : |decimal s a []| = decVal a := by rw [hd]; cases s <;> simp [Sign.apply]
  rw [ha] at h4 h5
  rw [hd] at h6
  refine ⟨s, a, k, by rw [h1]; simp, by rintro rfl; simp at h2, by simpa using h3, by exact_mod_cast h4, by exact_mod_cast h5, h6, h7⟩

/-- With a coarse look at the format: it has `1/2`, `63 * 2^57` and `2^63`. -/
theorem digit_exponent {f : T} (hT : (𝔽).minExponent ≤ -1) (hT' : 63 ≤ 2 ^ (𝔽).mantissaBits) (h1 : 1 ≤ |val f|)
    {s : Sign} {d : ℕ} {k : ℤ} (hd : 1 ≤ d) (hd' : d < 10) (hk : k < -4 ∨ 16 ≤ k)
    (h : (grid 𝔽).RN (s.apply d * 10 ^ k) = val f) :
    16 ≤ k ∧ (|val f| < 2 ^ 63 ↔ k ≤ 18) ∧ (|val f| < 2 ^ 1024 → k < 400) := by
  have ht : (0 : ℝ) < 10 ^ k := zpow_pos (by norm_num) k
  have hd1 : (1 : ℝ) ≤ d := by exact_mod_cast hd
  have hd9 : (d : ℝ) ≤ 9 := by exact_mod_cast Nat.le_of_lt_succ hd'
  have habs : (grid 𝔽).RN (d * 10 ^ k) = |val f| := by
    rw [← h]
    have := RN_nonneg (g := grid 𝔽) (x := d * 10 ^ k) (by positivity)
    cases s <;> simp only [Sign.apply, Int.cast_natCast, Int.cast_neg, neg_mul, RN_neg, abs_neg, abs_of_nonneg this]
  have rep : ∀ (m e : ℤ), |m| ≤ 63 → -1 ≤ e → (grid 𝔽).RN (m * 2 ^ e) = m * 2 ^ e := fun m e hm he =>
    RN_rep ⟨m, e, hm.trans (by exact_mod_cast hT'), hT.trans he, rfl⟩
  have hk16 : 16 ≤ k := by
    refine hk.resolve_left fun hk => ?_
    have h4 : (10 : ℝ) ^ k ≤ 10 ^ (-4 : ℤ) := zpow_le_zpow_right₀ (by norm_num) hk.le
    have := RN_mono (g := grid 𝔽) (x := d * 10 ^ k) (y := (1 : ℤ) * 2 ^ (-1 : ℤ)) (by norm_num at h4 ⊢; nlinarith)
    rw [habs, rep 1 (-1) (by norm_num) le_rfl] at this
    norm_num at this
    linarith
  refine ⟨hk16, ⟨fun hlt => ?_, fun hle => ?_⟩, fun hlt => ?_⟩
  · by_contra hk
    have h4 : (10 : ℝ) ^ (19 : ℤ) ≤ 10 ^ k := zpow_le_zpow_right₀ (by norm_num) (by omega)
    have := RN_mono (g := grid 𝔽) (x := (1 : ℤ) * 2 ^ (63 : ℤ)) (y := d * 10 ^ k) (by norm_num at h4 ⊢; nlinarith)
    rw [habs, rep 1 63 (by norm_num) (by norm_num)] at this
    norm_num at this hlt
    linarith
  · have h4 : (10 : ℝ) ^ k ≤ 10 ^ (18 : ℤ) := zpow_le_zpow_right₀ (by norm_num) hle
    have := RN_mono (g := grid 𝔽) (x := d * 10 ^ k) (y := (63 : ℤ) * 2 ^ (57 : ℤ)) (by norm_num at h4 ⊢; nlinarith)
    rw [habs, rep 63 57 (by norm_num) (by norm_num)] at this
    norm_num at this ⊢
    linarith
  · by_contra hk
    have h4 : (10 : ℝ) ^ (400 : ℤ) ≤ 10 ^ k := zpow_le_zpow_right₀ (by norm_num) (by omega)
    have hten : (2 : ℝ) ^ 1024 ≤ 10 ^ (400 : ℤ) := calc
      (2 : ℝ) ^ 1024 ≤ 2 ^ (3 * 400) := pow_le_pow_right₀ (by norm_num) (by norm_num)
      _ = (2 ^ 3) ^ 400 := pow_mul _ _ _
      _ ≤ 10 ^ 400 := pow_le_pow_left₀ (by norm_num) (by norm_num) _
      _ = 10 ^ (400 : ℤ) := (zpow_ofNat _ _).symm
    have := RN_mono (g := grid 𝔽) (x := (1 : ℤ) * 2 ^ (1024 : ℤ)) (y := d * 10 ^ k) (by
      rw [Int.cast_one, one_mul, show (2 : ℝ) ^ (1024 : ℤ) = 2 ^ 1024 from zpow_ofNat _ _]
      exact (hten.trans h4).trans (le_mul_of_one_le_left ht.le hd1))
    rw [habs, rep 1 1024 (by norm_num) (by norm_num), Int.cast_one, one_mul,
      show (2 : ℝ) ^ (1024 : ℤ) = 2 ^ 1024 from zpow_ofNat _ _] at this
    exact absurd hlt (not_lt.2 this)

/-- Large floats that are shown without a point -/
theorem large_text {f : T} (hT : (𝔽).minExponent ≤ -1) (hT' : 63 ≤ 2 ^ (𝔽).mantissaBits) (hf : IsFinite f)
    (he : 'e' ∈ (rustFloat true f).toList) (hp : '.' ∉ (rustFloat true f).toList) (h1 : 1 ≤ |val f|) (checks : Bool) :
    (|val f| < 2 ^ 63 → ∃ n : ℤ, NumLit (ieeeEnv T checks) (rustFloat true f).toList (.Int n) ∧ (Elem.fromInt n : T) = f) ∧
    (2 ^ 63 ≤ |val f| → |val f| < 2 ^ 1024 → tokenize (ieeeEnv T true) (rustFloat true f).toList = .panic) := by
  obtain ⟨s, a, k, h2, h3, h4, h5, h6, h7, h8⟩ := digit_text hf he hp
  obtain ⟨h9, h10, h11⟩ := digit_exponent hT hT' h1 h5 h6 h8 h7
  have h0 : val f ≠ 0 := by intro h; rw [h, abs_zero] at h1; linarith
  have fits : Fits (s.apply (decVal a)) := by unfold Fits; cases s <;> simp only [Sign.apply] <;> omega
  lift k to ℕ using (by omega) with j hj
  constructor
  · intro hlt
    have hj18 : j ≤ 18 := by exact_mod_cast h10.1 hlt
    have hten : (10 : ℤ) ^ j ≤ 10 ^ 18 := pow_le_pow_right₀ (by norm_num) hj18
    have hpos : (0 : ℤ) < 10 ^ j := by positivity
    refine ⟨s.apply (decVal a) * 10 ^ j, ?_, fromInt_rounds hf h0 ?_⟩
    · rw [h2]
      refine NumLit.intExp s a _ j _ h3 h4 fits (intDigits_numLit (by unfold Fits; omega)) (by omega) ⟨10 ^ j, .inl ⟨?_, ?_⟩, .inl ⟨?_, rfl⟩⟩
      · rw [Int.toNat_natCast, Nat.mod_eq_of_lt (by omega)]
        unfold Fits; omega
      · rw [Int.toNat_natCast, Nat.mod_eq_of_lt (by omega)]
      · have h9' : (decVal a : ℤ) ≤ 9 := by omega
        have h0' : (0 : ℤ) ≤ decVal a := by omega
        unfold Fits
        cases s <;> simp only [Sign.apply] <;> constructor <;> nlinarith
    · rw [← h7]
      push_cast
      rfl
  · intro hge hmax
    have hj19 : 19 ≤ j := by
      by_contra hcon
      have := h10.2 (by omega)
      linarith
    rw [h2]
    have hj32 : (j : ℤ) < 2 ^ 32 := (h11 hmax).trans (by norm_num)
    refine C09_overflow_panics (ieeeEnv_sane true) rfl s a _ j h3 h4 (intDigits_numLit (by unfold Fits; omega)) (by omega) hj32 fits
      (.inl ?_)
    rw [Int.toNat_natCast]
    have : (10 : ℤ) ^ 19 ≤ 10 ^ j := pow_le_pow_right₀ (by norm_num) hj19
    unfold Fits
    omega
omit [Elem T] [As T T] [FloatFns T] [IEEE T] in
/-- An integer with an exponent that is not negative is not read as a float. -/
theorem whole_not_float {E : Env T} (hE : Sane E) {s : Sign} {ds x : List Char} {k : ℤ} {r : T} (hne : ds ≠ [])
    (hds : ∀ c ∈ ds, IsDigit c) (hm : Fits (s.apply (decVal ds))) (hx : NumLit E x (.Int k)) (hk : 0 ≤ k) (hk' : k < 2 ^ 32) :
    ¬ NumLit E (s.text ++ ds ++ 'e' :: x) (.Float r) := by
  intro h
  have hmod : k.toNat % 2 ^ 32 = k.toNat := Nat.mod_eq_of_lt (by omega)
  have int : ∀ {v : ℤ}, ScaledBy E (s.apply (decVal ds)) k v → False := fun hv => by
    have := numLit_unique hE h (.intExp s ds x k _ hne hds hm hx hk hv)
    cases this
  cases hc : E.overflowChecks with
  | true =>
    by_cases hv : ¬ Fits (10 ^ k.toNat) ∨ ¬ Fits (s.apply (decVal ds) * 10 ^ k.toNat)
    · have := C09_overflow_panics hE hc s ds x k hne hds hx hk hk' hm hv
      rw [tokenize_numLit hE h] at this
      cases this
    · rw [not_or, not_not, not_not] at hv
      exact int (v := s.apply (decVal ds) * 10 ^ k.toNat) ⟨10 ^ k.toNat, .inl ⟨by rw [hmod]; exact hv.1, by rw [hmod]⟩, .inl ⟨hv.2, rfl⟩⟩
  | false =>
    have mach : ∀ y : Int, ∃ v, Machine E y v := by
      intro y
      by_cases hy : Fits y
      · exact ⟨y, .inl ⟨hy, rfl⟩⟩
      · exact ⟨wrapIsize y, .inr ⟨hy, hc, wrapIsize_fits y⟩⟩
    obtain ⟨p, hp⟩ := mach (10 ^ (k.toNat % 2 ^ 32))
    obtain ⟨v, hv⟩ := mach (s.apply (decVal ds) * p)
    exact int ⟨p, hp, hv⟩

/-- The number shown is close to the float, and what is read is close to the number shown. -/
theorem close_text {f r : T} (hf : IsFinite f) (he : 'e' ∈ (rustFloat true f).toList) {checks : Bool}
    (hn : NumLit (ieeeEnv T checks) (rustFloat true f).toList (.Float r)) (hr : IsFinite r) (hs : InSpan T 10) (hs' : InSpan T (-10)) :
    ∃ (D : ℝ) (k : ℤ), 10 ^ k ≤ |D| ∧ |D| < 10 ^ (k + 1) ∧ |val f - D| ≤ ε * |D| + η ∧
      (|k| < 2 ^ (𝔽).mantissaBits → |k| < 2 ^ 32 → |val r - D| ≤ ((1 + ε) ^ 3 - 1) * |D| + (η * |D| + 10 * η + η * η + η) * (1 + ε) ^ 3) := by
  obtain ⟨s, a, b, k, h1, h2, h3, h4, h5, h6, h7⟩ := exponent_text hf he
  have ht : (0 : ℝ) < 10 ^ k := zpow_pos (by norm_num) k
  have hη := tiny_pos (T := T)
  have hε := eps_pos (T := T)
  have habs : |decimal s a b * 10 ^ k| = |decimal s a b| * 10 ^ k := by rw [abs_mul, abs_of_pos ht]
  have hlo : (10 : ℝ) ^ k ≤ |decimal s a b * 10 ^ k| := by rw [habs]; nlinarith
  refine ⟨decimal s a b * 10 ^ k, k, hlo, ?_, rounds_near h6, fun hk hk' => ?_⟩
  · rw [habs, zpow_add_one₀ (by norm_num)]; nlinarith
  have hne : a ++ b ≠ [] := by
    intro h
    rw [(List.append_eq_nil_iff.1 h).1] at h2
    simp at h2
  have hin : InSpan T (decimal s a b) := by
    obtain ⟨x, -, hx, -, hx', -⟩ := hs'
    obtain ⟨-, y, -, hy, -, hy'⟩ := hs
    rw [abs_lt] at h5
    exact ⟨x, y, hx, hy, by linarith, by linarith⟩
  have fits : Fits k := by rw [abs_lt] at hk'; unfold Fits; omega
  have main : |val r - decimal s a b * 10 ^ k| ≤ ((1 + ε) ^ 3 - 1) * |decimal s a b * 10 ^ k| +
      (η * 10 ^ k + |decimal s a b| * η + η * η + η) * (1 + ε) ^ 3 := by
    refine C70_exponent (j := 1) (ieeeEnv_sane checks) (ieeeEnv_rounds checks) (ieeeEnv_pow checks) s a b (intDigits k)
      (a ++ if b = [] then [] else '.' :: b) k r h3 hne hin ?_ (intDigits_numLit fits) hk ?_ hr
    · by_cases hb : b = []
      · right
        refine ⟨by simp [hb], hb, ?_⟩
        by_contra hk0
        subst hb
        rw [h1, if_pos rfl, List.append_nil, ← List.append_assoc] at hn
        have hd : |decimal s a []| = decVal a := by unfold decimal; cases s <;> simp [Sign.apply]
        rw [hd] at h5
        have h5 : decVal a < 10 := by exact_mod_cast h5
        exact whole_not_float (ieeeEnv_sane checks) (by simpa using hne) (by simpa using h3)
          (by unfold Fits; cases s <;> simp only [Sign.apply] <;> omega) (intDigits_numLit fits) (not_lt.1 hk0) (abs_lt.1 hk').2 hn
      · left; rw [if_neg hb]
    · rw [h1] at hn
      simpa using hn
  refine main.trans ?_
  have h10 : |decimal s a b| * η ≤ 10 * η := by nlinarith
  have hk1 : η * 10 ^ k ≤ η * |decimal s a b * 10 ^ k| := mul_le_mul_of_nonneg_left hlo hη.le
  have h3 : (0 : ℝ) ≤ (1 + ε) ^ 3 := by positivity
  have := mul_le_mul_of_nonneg_right (show η * 10 ^ k + |decimal s a b| * η + η * η + η ≤
    η * |decimal s a b * 10 ^ k| + 10 * η + η * η + η by linarith) h3
  linarith

/-- Large floats that are shown without a point: what is read -/
theorem large_read {f : T} (hT : (𝔽).minExponent ≤ -1) (hT' : 63 ≤ 2 ^ (𝔽).mantissaBits) (hmax : ∀ x, InSpan T x → |x| < 2 ^ 1024)
    (hf : IsFinite f) (he : 'e' ∈ (rustFloat true f).toList) (hp : '.' ∉ (rustFloat true f).toList) (h1 : 1 ≤ |val f|) (checks : Bool) :
    (|val f| < 2 ^ 63 → (∃ n, tokenize (ieeeEnv T checks) (rustFloat true f).toList = .ok [⟨⟨1, 1⟩, .Int n⟩]) ∧
      ReadAs (ieeeEnv T checks) (rustFloat true f).toList f) ∧
    (2 ^ 63 ≤ |val f| → tokenize (ieeeEnv T true) (rustFloat true f).toList = .panic) := by
  obtain ⟨l1, l2⟩ := large_text hT hT' hf he hp h1 checks
  refine ⟨fun h => ?_, fun h => l2 h (hmax _ ⟨f, f, hf, hf, le_rfl, le_rfl⟩)⟩
  obtain ⟨n, h2, h3⟩ := l1 h
  exact ⟨⟨n, tokenize_numLit (ieeeEnv_sane checks) h2⟩, ⟨1, 1⟩, _, h2, ⟨1, 1⟩, .inr ⟨n, rfl, h3.symm⟩⟩

/-- Ten to a negative power, rounded correctly -/
theorem ieeePow_neg {k : ℤ} (hk : |k| < 2 ^ (𝔽).mantissaBits) (h0 : k < 0) :
    ieeePow (Elem.fromInt k : T) = IEEE.pk (ratio 𝔽 false 1 (10 ^ k.natAbs)) := by
  obtain ⟨f1, f2⟩ := fromInt_exact (T := T) k hk
  rw [isFinite_iff] at f1
  unfold val at f2
  unfold ieeePow
  have hneg : (k : ℝ) < 0 := by exact_mod_cast h0
  cases hu : up (Elem.fromInt k : T) with
  | infinity s => rw [hu] at f1; exact f1.elim
  | notANumber => rw [hu] at f1; exact f1.elim
  | zero s =>
    rw [hu] at f2
    have : k = 0 := by simpa [uval] using f2.symm
    omega
  | finite s m e hm =>
    rw [hu, uval_finite] at f2
    have hp : (0 : ℝ) < m * 2 ^ e := mul_pos (by exact_mod_cast hm) (two_zpow_pos e)
    cases s with
    | positive => simp only [sgn, one_mul] at f2; linarith
    | negative =>
      simp only [sgn] at f2
      have key : (if 0 ≤ e then m * 2 ^ e.toNat else m / 2 ^ (-e).toNat) = k.natAbs := by
        have h : (m : ℝ) * 2 ^ e = (k.natAbs : ℕ) := by
          have : ((k.natAbs : ℕ) : ℝ) = -(k : ℝ) := by
            rw [Nat.cast_natAbs, abs_of_neg h0]; push_cast; ring
          rw [this]; linarith
        split_ifs with he
        · have e1 : e = (e.toNat : ℤ) := by omega
          rw [e1, zpow_natCast] at h
          exact_mod_cast h
        · have e1 : e = -((-e).toNat : ℤ) := by omega
          rw [e1, zpow_neg, zpow_natCast, ← div_eq_mul_inv, div_eq_iff (by positivity)] at h
          have h2 : m = k.natAbs * 2 ^ (-e).toNat := by exact_mod_cast h
          rw [h2, Nat.mul_div_cancel _ (by positivity)]
      simp only [key]

/-- Small floats are read as finite floats. -/
theorem small_read {f : T} (hT : (𝔽).minExponent ≤ 0) (hs : ∀ x : ℝ, |x| ≤ 10 → InSpan T x) (K : ℕ) (hK : K + 1 < 2 ^ (𝔽).mantissaBits)
    (hK' : K + 1 < 2 ^ 32) (hlow : (10 : ℝ) ^ (-K : ℤ) * 4 ≤ 2 ^ (𝔽).minExponent) (hf : IsFinite f)
    (he : 'e' ∈ (rustFloat true f).toList) (h1 : |val f| < 1) (checks : Bool) :
    ∃ r, NumLit (ieeeEnv T checks) (rustFloat true f).toList (.Float r) ∧ IsFinite r := by
  obtain ⟨s, a, b, k, t1, t2, t3, t4, t5, t6, t7⟩ := exponent_text hf he
  have ht : (0 : ℝ) < 10 ^ k := zpow_pos (by norm_num) k
  have hη := tiny_pos (T := T)
  have one : (grid 𝔽).RN 1 = 1 := RN_rep ⟨1, 0, by rw [abs_one]; exact one_le_pow₀ (by norm_num), hT, by simp⟩
  have habs : |decimal s a b * 10 ^ k| = |decimal s a b| * 10 ^ k := by rw [abs_mul, abs_of_pos ht]
  have hRN : (grid 𝔽).RN |decimal s a b * 10 ^ k| = |val f| := by
    rw [← t6]
    rcases abs_cases (decimal s a b * 10 ^ k) with ⟨e1, e2⟩ | ⟨e1, e2⟩ <;> rw [e1]
    · rw [abs_of_nonneg (RN_nonneg e2)]
    · rw [RN_neg, ← abs_neg, abs_of_nonneg]
      rw [← RN_neg]; exact RN_nonneg (by linarith)
  have hk4 : k < -4 := by
    refine t7.resolve_right fun hk => ?_
    have : (1 : ℝ) ≤ 10 ^ k := one_le_zpow₀ (by norm_num) (by omega)
    have := RN_mono (g := grid 𝔽) (x := 1) (y := |decimal s a b * 10 ^ k|) (by rw [habs]; nlinarith)
    rw [one, hRN] at this
    linarith
  have hkK : -K - 1 < k := by
    by_contra hcon
    have h2 : (10 : ℝ) ^ (k + 1) ≤ 10 ^ (-K : ℤ) := zpow_le_zpow_right₀ (by norm_num) (by omega)
    rw [zpow_add_one₀ (by norm_num)] at h2
    have h3 : |decimal s a b * 10 ^ k| * 4 < 2 ^ (𝔽).minExponent := by rw [habs]; nlinarith
    have h4 := RN_error (grid 𝔽) |decimal s a b * 10 ^ k|
    rw [hRN, abs_abs] at h4
    have h5 : (2 : ℝ) ^ (-((grid 𝔽).p : ℤ)) ≤ 1 := zpow_le_one_of_nonpos₀ (by norm_num) (by omega)
    have h6 : (2 : ℝ) ^ ((grid 𝔽).emin - 1) = 2 ^ (𝔽).minExponent / 2 := zpow_sub_one₀ (by norm_num) _
    rw [h6] at h4
    have h7 : (2 : ℝ) ^ (𝔽).minExponent ≤ |val f| := by
      rcases rustFloat_finite hf true with ⟨s, -, h⟩ | ⟨s, m, e, hm, hu, -⟩
      · rw [h] at he
        cases s <;> exact absurd he (by decide)
      · have hc := (canon_pos hu).2.1
        have hq : (0 : ℝ) < m * 2 ^ e := mul_pos (by exact_mod_cast hm) (two_zpow_pos e)
        have : |val f| = m * 2 ^ e := by
          unfold val
          rw [hu, uval_finite, abs_mul, abs_of_pos hq]
          cases s <;> simp [sgn]
        rw [this]
        refine (zpow_le_zpow_right₀ (by norm_num : (1 : ℝ) ≤ 2) hc).trans ?_
        exact le_mul_of_one_le_left (two_zpow_pos e).le (by exact_mod_cast hm)
    have h8 := mul_le_mul_of_nonneg_right h5 (abs_nonneg (decimal s a b * 10 ^ k))
    have h9 := (abs_le.1 h4).2
    linarith
  have hk : |k| < K + 1 := abs_lt.2 ⟨by omega, by omega⟩
  have hkp : |k| < 2 ^ (𝔽).mantissaBits := hk.trans (by exact_mod_cast hK)
  have fits : Fits k := by unfold Fits; omega
  have hne : a ++ b ≠ [] := by
    intro h
    rw [(List.append_eq_nil_iff.1 h).1] at t2
    simp at t2
  have fin : ∀ m : T, Nearest m (decimal s a b) → IsFinite ((ieeeEnv T checks).fmul m ((ieeeEnv T checks).powf10 ((ieeeEnv T checks).ofIsize k))) := by
    intro m hm
    have hmul : (ieeeEnv T checks).fmul m ((ieeeEnv T checks).powf10 ((ieeeEnv T checks).ofIsize k)) =
        fmul m (IEEE.pk (ratio 𝔽 false 1 (10 ^ k.natAbs))) := by
      rw [← ieeePow_neg hkp (by omega)]
      have := ((ieeeEnv_rounds checks).mul m (ieeePow (Elem.fromInt k))).symm.trans (fmul_ok _ _)
      simp only [Except.ok.injEq] at this
      exact this
    rw [hmul]
    have hr := ratio_rounded 𝔽 false 1 (10 ^ k.natAbs) (by positivity)
    have hx0 : (0 : ℝ) ≤ ((1 : ℕ) : ℝ) / ((10 ^ k.natAbs : ℕ) : ℝ) := by positivity
    have hx1 : ((1 : ℕ) : ℝ) / ((10 ^ k.natAbs : ℕ) : ℝ) ≤ 1 := by
      rw [Nat.cast_one, div_le_one (by positivity)]
      exact_mod_cast Nat.one_le_pow _ _ (by norm_num)
    simp only [Bool.false_eq_true, if_false, one_mul] at hr
    obtain ⟨p1, p2⟩ := pk_rounded (T := T) hr (inSpan_lt_big (hs _ (by rw [abs_of_nonneg hx0]; linarith)))
    have p3 : 0 ≤ val (IEEE.pk (ratio 𝔽 false 1 (10 ^ k.natAbs)) : T) := by rw [p2]; exact RN_nonneg hx0
    have p4 : val (IEEE.pk (ratio 𝔽 false 1 (10 ^ k.natAbs)) : T) ≤ 1 := by
      rw [p2, ← one]; exact RN_mono hx1
    obtain ⟨f1, f2⟩ := fmul_rnd hm.1 p1
    have hb : |(grid 𝔽).RN (val m * val (IEEE.pk (ratio 𝔽 false 1 (10 ^ k.natAbs)) : T))| < big 𝔽 := by
      have hle : |val m * val (IEEE.pk (ratio 𝔽 false 1 (10 ^ k.natAbs)) : T)| ≤ |val m| := by
        rw [abs_mul, abs_of_nonneg p3]
        exact mul_le_of_le_one_right (abs_nonneg _) p4
      refine lt_of_le_of_lt ?_ (val_lt_big hm.1)
      have hrep : (grid 𝔽).RN |val m| = |val m| := by
        rcases abs_choice (val m) with h | h <;> rw [h]
        · exact RN_rep (rep_val m)
        · rw [RN_neg, RN_rep (rep_val m)]
      rw [abs_le] at hle ⊢
      have l := RN_mono (g := grid 𝔽) hle.1
      have u := RN_mono (g := grid 𝔽) hle.2
      rw [RN_neg, hrep] at l
      rw [hrep] at u
      exact ⟨l, u⟩
    have hrnd : rnd 𝔽 (val m * val (IEEE.pk (ratio 𝔽 false 1 (10 ^ k.natAbs)) : T)) =
        ((grid 𝔽).RN (val m * val (IEEE.pk (ratio 𝔽 false 1 (10 ^ k.natAbs)) : T)) : ℝ) := by
      unfold rnd
      rw [abs_lt] at hb
      rw [if_neg (by linarith), if_neg (by linarith)]
    rw [hrnd] at f2
    exact (finite_of_ext f1 f2).1
  have hin := hs (decimal s a b) t5.le
  rw [t1]
  by_cases hb : b = []
  · subst hb
    rw [List.append_nil] at t3 hne
    obtain ⟨m, m1, m2⟩ := (ieeeEnv_rounds checks).whole s a t3 hne hin
    refine ⟨_, ?_, fin m m2⟩
    have := NumLit.negExp s a (intDigits k) m k (by simp [hne])
      (fun c hc => (ieeeEnv_sane checks).digit c (t3 c hc).1 (t3 c hc).2) m1 (intDigits_numLit fits) (by omega)
    simpa using this
  · obtain ⟨m, m1, m2⟩ := (ieeeEnv_rounds checks).point s a b t3 hne hin
    refine ⟨_, ?_, fin m m2⟩
    have := NumLit.fracExp s _ (intDigits k) m k (fracBody_digits (ieeeEnv_sane checks) t3) m1 (intDigits_numLit fits)
    rw [if_neg hb]
    simpa using this

/-- Ten to a positive power, rounded correctly -/
theorem ieeePow_pos {k : ℤ} (hk : |k| < 2 ^ (𝔽).mantissaBits) (h0 : 0 < k) :
    ieeePow (Elem.fromInt k : T) = IEEE.pk (ratio 𝔽 false (10 ^ k.natAbs) 1) := by
  obtain ⟨f1, f2⟩ := fromInt_exact (T := T) k hk
  rw [isFinite_iff] at f1
  unfold val at f2
  unfold ieeePow
  have hpos : (0 : ℝ) < (k : ℝ) := by exact_mod_cast h0
  cases hu : up (Elem.fromInt k : T) with
  | infinity s => rw [hu] at f1; exact f1.elim
  | notANumber => rw [hu] at f1; exact f1.elim
  | zero s =>
    rw [hu] at f2
    have : k = 0 := by simpa [uval] using f2.symm
    omega
  | finite s m e hm =>
    rw [hu, uval_finite] at f2
    have hp : (0 : ℝ) < m * 2 ^ e := mul_pos (by exact_mod_cast hm) (two_zpow_pos e)
    cases s with
    | negative => simp only [sgn] at f2; linarith
    | positive =>
      simp only [sgn, one_mul] at f2
      have key : (if 0 ≤ e then m * 2 ^ e.toNat else m / 2 ^ (-e).toNat) = k.natAbs := by
        have h : (m : ℝ) * 2 ^ e = (k.natAbs : ℕ) := by
          rw [f2, Nat.cast_natAbs, abs_of_pos h0]
        split_ifs with he
        · have e1 : e = (e.toNat : ℤ) := by omega
          rw [e1, zpow_natCast] at h
          exact_mod_cast h
        · have e1 : e = -((-e).toNat : ℤ) := by omega
          rw [e1, zpow_neg, zpow_natCast, ← div_eq_mul_inv, div_eq_iff (by positivity)] at h
          have h2 : m = k.natAbs * 2 ^ (-e).toNat := by exact_mod_cast h
          rw [h2, Nat.mul_div_cancel _ (by positivity)]
      simp only [key]

theorem RN_abs' (x : ℝ) : (grid 𝔽).RN |x| = |(grid 𝔽).RN x| := by
  rcases abs_cases x with ⟨e1, e2⟩ | ⟨e1, e2⟩ <;> rw [e1]
  · rw [abs_of_nonneg (RN_nonneg e2)]
  · rw [← abs_neg, ← RN_neg, abs_of_nonneg (RN_nonneg (by linarith))]

/-- A product of floats whose rounding is in range is finite. -/
theorem fmul_in {a b : T} (ha : IsFinite a) (hb : IsFinite b) (h : (grid 𝔽).RN |val a * val b| < big 𝔽) : IsFinite (fmul a b) := by
  obtain ⟨f1, f2⟩ := fmul_rnd ha hb
  have hrnd : rnd 𝔽 (val a * val b) = ((grid 𝔽).RN (val a * val b) : ℝ) := by
    rw [RN_abs', abs_lt] at h
    unfold rnd
    rw [if_neg (by linarith), if_neg (by linarith)]
  rw [hrnd] at f2
  exact (finite_of_ext f1 f2).1

/-- A finite float is in range before rounding. -/
theorem in_of_rnd {a : T} {x : ℝ} (ha : IsFinite a) (h : ext a = rnd 𝔽 x) : |(grid 𝔽).RN x| < big 𝔽 := by
  rw [ha.ext] at h
  unfold rnd at h
  rw [abs_lt]
  split_ifs at h with h2 h3
  · simp at h
  · simp at h
  · constructor <;> linarith

theorem ratio_val {n d : ℕ} (hd : 0 < d) (h : IsFinite (IEEE.pk (ratio 𝔽 false n d) : T)) :
    val (IEEE.pk (ratio 𝔽 false n d) : T) = (grid 𝔽).RN (n / d) ∧ (grid 𝔽).RN (n / d) < big 𝔽 := by
  have hp := ratio_rounded 𝔽 false n d hd
  simp only [Bool.false_eq_true, if_false, one_mul] at hp
  have h3 := uext_over IEEE.heb hp
  have hu : up (IEEE.pk (ratio 𝔽 false n d) : T) = over 𝔽 (ratio 𝔽 false n d) := up_pk hp.canon
  have := in_of_rnd h (x := n / d) (by unfold ext; rw [hu]; exact h3.1)
  exact ⟨(pk_rounded hp this).2, (abs_lt.1 this).2⟩

theorem usign_pos {a : T} (h : 0 < val a) : usign (up a) = .positive := by
  unfold val at h
  cases hu : up a with
  | finite s m e hm =>
    rw [hu, uval_finite] at h
    have hp : (0 : ℝ) < m * 2 ^ e := mul_pos (by exact_mod_cast hm) (two_zpow_pos e)
    cases s with
    | negative => simp only [sgn] at h; linarith
    | positive => rfl
  | _ => rw [hu] at h; simp [uval] at h

theorem usign_neg {a : T} (h : val a < 0) : usign (up a) = .negative := by
  unfold val at h
  cases hu : up a with
  | finite s m e hm =>
    rw [hu, uval_finite] at h
    have hp : (0 : ℝ) < m * 2 ^ e := mul_pos (by exact_mod_cast hm) (two_zpow_pos e)
    cases s with
    | negative => rfl
    | positive => simp only [sgn] at h; linarith
  | _ => rw [hu] at h; simp [uval] at h

theorem rep_big : (grid 𝔽).Rep (big 𝔽) :=
  ⟨1, emax 𝔽 + (𝔽).mantissaBits, by simp; exact one_le_pow₀ (by norm_num), by
    show (𝔽).minExponent ≤ _
    have h0 : 2 ≤ (𝔽).exponentBits := IEEE.heb
    have h1 : (2 : ℤ) ^ 1 ≤ 2 ^ ((𝔽).exponentBits - 1) := pow_le_pow_right₀ (by norm_num) (by omega)
    unfold emax Format.minExponent
    omega, by unfold big; simp⟩

/-- Large floats that are shown with a point are read as finite floats. Here `n / d` is a bound for the digits of those with
    the largest exponent. -/
theorem point_read {f : T} (hs : ∀ x : ℝ, |x| ≤ 10 → InSpan T x) (K n d : ℕ) (hd0 : 0 < d) (hK : K < 2 ^ (𝔽).mantissaBits)
    (hK' : K < 2 ^ 32) (hbig : big 𝔽 ≤ 10 ^ (K + 1))
    (hB' : ∀ D : ℝ, 0 ≤ D → (grid 𝔽).RN (D * 10 ^ K) = |val f| → D ≤ n / d)
    (hpow : IsFinite (IEEE.pk (ratio 𝔽 false (10 ^ K) 1) : T))
    (hpow' : IsFinite (IEEE.pk (ratio 𝔽 false (10 ^ (K - 1)) 1) : T))
    (hten : IsFinite (IEEE.pk (ratio 𝔽 false 10 1) : T)) (hnd : IsFinite (IEEE.pk (ratio 𝔽 false n d) : T))
    (h10 : IsFinite (fmul (IEEE.pk (ratio 𝔽 false 10 1)) (IEEE.pk (ratio 𝔽 false (10 ^ (K - 1)) 1)) : T))
    (htop : IsFinite (fmul (IEEE.pk (ratio 𝔽 false n d)) (IEEE.pk (ratio 𝔽 false (10 ^ K) 1)) : T))
    (hf : IsFinite f) (he : 'e' ∈ (rustFloat true f).toList) (hp : '.' ∈ (rustFloat true f).toList) (h1 : 1 ≤ |val f|)
    (checks : Bool) : ∃ r, NumLit (ieeeEnv T checks) (rustFloat true f).toList (.Float r) ∧ IsFinite r := by
  have h10 := (abs_lt.1 (in_of_rnd h10 (fmul_rnd hten hpow').2)).2
  have htop := (abs_lt.1 (in_of_rnd htop (fmul_rnd hnd hpow).2)).2
  obtain ⟨e1, hpow⟩ := ratio_val one_pos hpow
  rw [(ratio_val one_pos hten).1, (ratio_val one_pos hpow').1] at h10
  rw [(ratio_val hd0 hnd).1, e1] at htop
  simp only [Nat.cast_one, div_one, Nat.cast_pow, Nat.cast_ofNat] at h10 htop hpow
  obtain ⟨s, a, b, k, t1, t2, t3, t4, t5, t6, t7⟩ := exponent_text hf he
  have ht : (0 : ℝ) < 10 ^ k := zpow_pos (by norm_num) k
  have habs : |decimal s a b * 10 ^ k| = |decimal s a b| * 10 ^ k := by rw [abs_mul, abs_of_pos ht]
  have hRN : (grid 𝔽).RN (|decimal s a b| * 10 ^ k) = |val f| := by rw [← habs, RN_abs', t6]
  have hk16 : 16 ≤ k := by
    refine t7.resolve_left fun hk => ?_
    have h4 : (10 : ℝ) ^ (k + 1) ≤ 10 ^ (-4 : ℤ) := zpow_le_zpow_right₀ (by norm_num) (by omega)
    rw [zpow_add_one₀ (by norm_num)] at h4
    have h5 : |decimal s a b| * 10 ^ k < 1 / 1000 := by norm_num at h4 ⊢; nlinarith
    have h6 : 0 ≤ |decimal s a b| * 10 ^ k := by positivity
    have h7 := RN_nearest (g := grid 𝔽) (x := |decimal s a b| * 10 ^ k) (r := 0) (by rw [← RN_zero (g := grid 𝔽)]; exact rep_RN _)
    rw [hRN, zero_sub, abs_neg, abs_of_nonneg h6] at h7
    have := (abs_le.1 h7).2
    linarith
  lift k to ℕ using (by omega) with j hj
  rw [zpow_natCast] at *
  have hjK : j ≤ K := by
    have h2 : |decimal s a b| * 10 ^ j < big 𝔽 := by
      refine lt_of_not_ge fun h => ?_
      have := RN_mono (g := grid 𝔽) h
      rw [RN_rep rep_big, hRN] at this
      exact absurd (val_lt_big hf) (not_lt.2 this)
    have : (10 : ℝ) ^ j < 10 ^ (K + 1) := by nlinarith
    have := (pow_lt_pow_iff_right₀ (by norm_num : (1 : ℝ) < 10)).1 this
    omega
  have hkp : |(j : ℤ)| < 2 ^ (𝔽).mantissaBits := by
    rw [abs_of_nonneg (by omega)]
    exact_mod_cast lt_of_le_of_lt hjK hK
  have fits : Fits (j : ℤ) := by unfold Fits; omega
  have hne : a ++ b ≠ [] := by
    intro h
    rw [(List.append_eq_nil_iff.1 h).1] at t2
    simp at t2
  have hb : b ≠ [] := by
    rintro rfl
    rw [t1, if_pos rfl, List.append_nil] at hp
    have hdot : ¬ IsDigit '.' := by unfold IsDigit; decide
    simp only [List.mem_append, List.mem_cons] at hp
    rcases hp with hp | hp | hp | hp
    · cases s <;> simp [Sign.text] at hp
    · exact hdot (t3 _ (by simpa using hp))
    · exact absurd hp (by decide)
    · rcases intDigits_chars _ _ hp with h | h
      · exact hdot h
      · exact absurd h (by decide)
  rw [if_neg hb] at t1
  have hm := ratio_rounded 𝔽 s.isMinus (decVal (a ++ b)) (10 ^ b.length) (by positivity)
  rw [← decimal_eq] at hm
  obtain ⟨m1, m2⟩ := pk_rounded (T := T) hm (inSpan_lt_big (hs _ t5.le))
  have hp := ratio_rounded 𝔽 false (10 ^ j) 1 (by norm_num)
  simp only [Bool.false_eq_true, if_false, one_mul, Nat.cast_one, div_one, Nat.cast_pow, Nat.cast_ofNat] at hp
  have hp0 : 0 ≤ (grid 𝔽).RN (10 ^ j) := RN_nonneg (by positivity)
  have hple : (grid 𝔽).RN (10 ^ j) ≤ (grid 𝔽).RN (10 ^ K) := RN_mono (pow_le_pow_right₀ (by norm_num) hjK)
  obtain ⟨p1, p2⟩ := pk_rounded (T := T) hp (by rw [abs_of_nonneg hp0]; linarith)
  have hread := NumLit.fracExp (E := ieeeEnv T checks) s _ (intDigits j) _ j (fracBody_digits (ieeeEnv_sane checks) t3)
    (ieeeParse_body s a b _ t3 hne (.inl rfl)) (intDigits_numLit fits)
  refine ⟨_, by rw [t1]; simpa using hread, ?_⟩
  have hmul : ∀ x y : T, (ieeeEnv T checks).fmul x y = fmul x y := fun x y => by
    have := ((ieeeEnv_rounds checks).mul x y).symm.trans (fmul_ok _ _)
    simp only [Except.ok.injEq] at this
    exact this
  rw [hmul]
  have hpw : (ieeeEnv T checks).powf10 ((ieeeEnv T checks).ofIsize j) = IEEE.pk (ratio 𝔽 false (10 ^ j) 1) := by
    have := ieeePow_pos (T := T) hkp (by omega)
    rwa [Int.natAbs_natCast] at this
  rw [hpw]
  refine fmul_in m1 p1 ?_
  rw [m2, p2, abs_mul, abs_of_nonneg hp0, ← RN_abs']
  rcases hjK.lt_or_eq with hlt | rfl
  · refine lt_of_le_of_lt (RN_mono (mul_le_mul (RN_mono t5.le) (RN_mono ?_) hp0 (RN_nonneg (by norm_num)))) h10
    exact pow_le_pow_right₀ (by norm_num) (by omega)
  · have := hB' _ (abs_nonneg _) hRN
    exact lt_of_le_of_lt (RN_mono (mul_le_mul_of_nonneg_right (RN_mono this) hp0)) htop

theorem fromInt_val {n : ℤ} (h : IsFinite (Elem.fromInt n : T)) : val (Elem.fromInt n : T) = (grid 𝔽).RN n := by
  have hr := (normalize_rounded (fmt := 𝔽) (n := n) (e := 0) (z := .positive) (x := n) (by simp)).1
  have h1 := uext_over IEEE.heb hr
  have e : (Elem.fromInt n : T) = IEEE.pk (.normalize 𝔽 n 0 .positive) := IEEE.int_eq n
  rw [← up_pk (T := T) hr.canon, ← e] at h1
  have hb := in_of_rnd h h1.1
  rw [e]
  exact (pk_rounded hr hb).2

omit [Elem T] [As T T] [FloatFns T] [IEEE T] in
theorem machine_exists {E : Env T} (hE : E.overflowChecks = false) (x : ℤ) : ∃ v, Machine E x v ∧ (2 ^ 64 : ℤ) ∣ x - v ∧ Fits v := by
  by_cases h : Fits x
  · exact ⟨x, .inl ⟨h, rfl⟩, by simp, h⟩
  · have h1 : Fits ((x + 2 ^ 63) % 2 ^ 64 - 2 ^ 63) := by unfold Fits; omega
    have h2 : (2 ^ 64 : ℤ) ∣ x - ((x + 2 ^ 63) % 2 ^ 64 - 2 ^ 63) := by omega
    exact ⟨_, .inr ⟨h, hE, h1, h2⟩, h2, h1⟩

/-- Without overflow checks the integers are wrong. -/
theorem wrap_read {f : T} (hT : (𝔽).minExponent ≤ -1) (hT' : 63 ≤ 2 ^ (𝔽).mantissaBits) (hmax : |val f| < 2 ^ 1024)
    (hf : IsFinite f) (he : 'e' ∈ (rustFloat true f).toList) (hp : '.' ∉ (rustFloat true f).toList) (h63 : 2 ^ 63 ≤ |val f|) :
    ∃ n : ℤ, NumLit (ieeeEnv T false) (rustFloat true f).toList (.Int n) ∧ (Elem.fromInt n : T) ≠ f ∧ (10 ^ 65 ≤ |val f| → n = 0) := by
  obtain ⟨s, a, k, h2, h3, h4, h5, h6, h7, h8⟩ := digit_text hf he hp
  obtain ⟨h9, h10, h11⟩ := digit_exponent hT hT' (by norm_num at h63 ⊢; linarith) h5 h6 h8 h7
  have fits : Fits (s.apply (decVal a)) := by unfold Fits; cases s <;> simp only [Sign.apply] <;> omega
  have hk400 := h11 hmax
  lift k to ℕ using (by omega) with j hj
  have hj19 : 19 ≤ j := by
    by_contra hcon
    have := h10.2 (by omega)
    linarith
  have hd1 : (1 : ℝ) ≤ decVal a := by exact_mod_cast h5
  have hd9 : (decVal a : ℝ) ≤ 9 := by exact_mod_cast Nat.le_of_lt_succ h6
  have habs : (grid 𝔽).RN (decVal a * 10 ^ j) = |val f| := by
    rw [← h7, zpow_natCast]
    have := RN_nonneg (g := grid 𝔽) (x := decVal a * 10 ^ j) (by positivity)
    cases s <;> simp only [Sign.apply, Int.cast_natCast, Int.cast_neg, neg_mul, RN_neg, abs_neg, abs_of_nonneg this]
  have rep : ∀ (m e : ℤ), |m| ≤ 63 → -1 ≤ e → (grid 𝔽).RN (m * 2 ^ e) = m * 2 ^ e := fun m e hm he =>
    RN_rep ⟨m, e, hm.trans (by exact_mod_cast hT'), hT.trans he, rfl⟩
  obtain ⟨p, p1, p2, -⟩ := machine_exists (E := ieeeEnv T false) rfl (10 ^ j)
  obtain ⟨n, n1, n2, n3⟩ := machine_exists (E := ieeeEnv T false) rfl (s.apply (decVal a) * p)
  refine ⟨n, ?_, ?_, ?_⟩
  · rw [h2]
    refine NumLit.intExp s a _ j _ h3 h4 fits (intDigits_numLit (by unfold Fits; omega)) (by omega) ⟨p, ?_, n1⟩
    rwa [Int.toNat_natCast, Nat.mod_eq_of_lt (by omega)]
  · rintro rfl
    have h4 : (10 : ℝ) ^ 19 ≤ 10 ^ j := pow_le_pow_right₀ (by norm_num) hj19
    have l1 := RN_mono (g := grid 𝔽) (x := (33 : ℤ) * 2 ^ (58 : ℤ)) (y := decVal a * 10 ^ j) (by norm_num at h4 ⊢; nlinarith)
    rw [habs, rep 33 58 (by norm_num) (by norm_num), fromInt_val hf, ← RN_abs'] at l1
    have n4 : |n| ≤ 2 ^ 63 := by unfold Fits at n3; rw [abs_le]; omega
    have n5 : |(n : ℝ)| ≤ (1 : ℤ) * 2 ^ (63 : ℤ) := by
      have : |(n : ℝ)| ≤ 2 ^ 63 := by exact_mod_cast n4
      norm_num at this ⊢; exact this
    have l2 := l1.trans (RN_mono n5)
    rw [rep 1 63 (by norm_num) (by norm_num)] at l2
    norm_num at l2
  · intro h65
    have hj64 : 64 ≤ j := by
      by_contra hcon
      have h4 : (10 : ℝ) ^ j ≤ 10 ^ 63 := pow_le_pow_right₀ (by norm_num) (by omega)
      have l1 := RN_mono (g := grid 𝔽) (x := decVal a * 10 ^ j) (y := (1 : ℤ) * 2 ^ (213 : ℤ)) (by norm_num at h4 ⊢; nlinarith)
      rw [habs, rep 1 213 (by norm_num) (by norm_num)] at l1
      have := h65.trans l1
      norm_num at this
    have d1 : (2 ^ 64 : ℤ) ∣ 10 ^ j :=
      (show (2 ^ 64 : ℤ) ∣ 10 ^ 64 from ⟨5 ^ 64, by norm_num⟩).trans (pow_dvd_pow _ hj64)
    have d2 : (2 ^ 64 : ℤ) ∣ p := (Int.dvd_iff_dvd_of_dvd_sub p2).1 d1
    have d3 : (2 ^ 64 : ℤ) ∣ n := (Int.dvd_iff_dvd_of_dvd_sub n2).1 (d2.mul_left _)
    unfold Fits at n3
    omega

end

/-- **C126**: a large float that is shown as one digit and an exponent is read as an integer if it is below `2^63`, and
    this integer is converted to the float again. If it is larger the parser panics (with overflow checks). -/
theorem C126_large32 {f : Float32.Model} (hf : IsFinite f) (he : 'e' ∈ (rustFloat true f).toList)
    (hp : '.' ∉ (rustFloat true f).toList) (h1 : 1 ≤ |val f|) (checks : Bool) :
    (|val f| < 2 ^ 63 → (∃ n, tokenize (ieeeEnv Float32.Model checks) (rustFloat true f).toList = .ok [⟨⟨1, 1⟩, .Int n⟩]) ∧
      ReadAs (ieeeEnv Float32.Model checks) (rustFloat true f).toList f) ∧
    (2 ^ 63 ≤ |val f| → tokenize (ieeeEnv Float32.Model true) (rustFloat true f).toList = .panic) := by
  refine large_read (by decide) (by decide) (fun x hx => ?_) hf he hp h1 checks
  refine ((C70_range32 x).1 hx).trans_lt ?_
  calc ((2 : ℝ) ^ 24 - 1) * 2 ^ 104 < 2 ^ 128 := by norm_num
    _ ≤ 2 ^ 1024 := pow_le_pow_right₀ (by norm_num) (by norm_num)

theorem C126_large64 {f : Float.Model} (hf : IsFinite f) (he : 'e' ∈ (rustFloat true f).toList)
    (hp : '.' ∉ (rustFloat true f).toList) (h1 : 1 ≤ |val f|) (checks : Bool) :
    (|val f| < 2 ^ 63 → (∃ n, tokenize (ieeeEnv Float.Model checks) (rustFloat true f).toList = .ok [⟨⟨1, 1⟩, .Int n⟩]) ∧
      ReadAs (ieeeEnv Float.Model checks) (rustFloat true f).toList f) ∧
    (2 ^ 63 ≤ |val f| → tokenize (ieeeEnv Float.Model true) (rustFloat true f).toList = .panic) := by
  refine large_read (by decide) (by decide) (fun x hx => ?_) hf he hp h1 checks
  refine ((C70_range64 x).1 hx).trans_lt ?_
  rw [show (2 : ℝ) ^ 1024 = 2 ^ 53 * 2 ^ 971 by rw [← pow_add]]
  exact mul_lt_mul_of_pos_right (by linarith) (by positivity)

/-- **C126**: what is read as a (finite) float is at most five times half a unit in the last place away, if the float is not
    tiny. -/
theorem C126_close32 {f r : Float32.Model} (hf : IsFinite f) (he : 'e' ∈ (rustFloat true f).toList) (h1 : 1 / 10 ^ 30 ≤ |val f|)
    {checks : Bool} (hn : NumLit (ieeeEnv Float32.Model checks) (rustFloat true f).toList (.Float r)) (hr : IsFinite r) :
    |val r - val f| ≤ 5 * 2 ^ (-24 : ℤ) * |val f| := by
  have hten : ∀ x : ℝ, |x| ≤ 10 → InSpan Float32.Model x := fun x hx => (C70_range32 x).2 (hx.trans (by norm_num))
  have hmax : |val f| < 2 ^ 128 :=
    ((C70_range32 _).1 ⟨f, f, hf, hf, le_rfl, le_rfl⟩).trans_lt (by norm_num)
  obtain ⟨D, k, h2, h3, h4, h5⟩ := close_text hf he hn hr (hten _ (by norm_num)) (hten _ (by norm_num))
  have e1 : unitRoundoff Float32.Model = 1 / 2 ^ 24 := by
    show (2 : ℝ) ^ (-24 : ℤ) = _
    norm_num
  have e2 : tiny Float32.Model = 1 / 2 ^ 150 := by
    show (2 : ℝ) ^ (-150 : ℤ) = _
    norm_num
  rw [e1, e2] at h4 h5
  have h6 := abs_sub_abs_le_abs_sub (val f) D
  have h7 := abs_sub_abs_le_abs_sub D (val f)
  rw [abs_sub_comm D] at h7
  have lo : 1 / 10 ^ 31 < |D| := by norm_num at h1 h4 ⊢; linarith
  have hi : |D| < 10 ^ 40 := by norm_num at hmax h4 ⊢; linarith
  have hk : -32 < k := by
    have : (10 : ℝ) ^ (-31 : ℤ) < 10 ^ (k + 1) := lt_trans (by norm_num at lo ⊢; exact lo) h3
    have := (zpow_lt_zpow_iff_right₀ (by norm_num : (1 : ℝ) < 10)).1 this
    omega
  have hk' : k < 40 := by
    refine (zpow_lt_zpow_iff_right₀ (by norm_num : (1 : ℝ) < 10)).1 (h2.trans_lt ?_)
    norm_num at hi ⊢; exact hi
  have hkk : |k| < 40 := abs_lt.2 ⟨by omega, hk'⟩
  have h8 := h5 (hkk.trans (by decide)) (hkk.trans (by norm_num))
  have h9 := abs_sub_le (val r) D (val f)
  rw [abs_sub_comm D] at h9
  norm_num at h8 h4 lo ⊢
  linarith

theorem C126_close64 {f r : Float.Model} (hf : IsFinite f) (he : 'e' ∈ (rustFloat true f).toList) (h1 : 1 / 10 ^ 290 ≤ |val f|)
    {checks : Bool} (hn : NumLit (ieeeEnv Float.Model checks) (rustFloat true f).toList (.Float r)) (hr : IsFinite r) :
    |val r - val f| ≤ 5 * 2 ^ (-53 : ℤ) * |val f| := by
  have hten : ∀ x : ℝ, |x| ≤ 10 → InSpan Float.Model x := fun x hx => (C70_range64 x).2 (hx.trans (by
    calc (10 : ℝ) ≤ (2 ^ 53 - 1) * 1 := by norm_num
      _ ≤ (2 ^ 53 - 1) * 2 ^ 971 := mul_le_mul_of_nonneg_left (one_le_pow₀ (by norm_num)) (by norm_num)))
  have hmax : |val f| < 2 ^ 1024 := by
    refine ((C70_range64 _).1 ⟨f, f, hf, hf, le_rfl, le_rfl⟩).trans_lt ?_
    rw [show (2 : ℝ) ^ 1024 = 2 ^ 53 * 2 ^ 971 by rw [← pow_add]]
    exact mul_lt_mul_of_pos_right (by linarith) (by positivity)
  obtain ⟨D, k, h2, h3, h4, h5⟩ := close_text hf he hn hr (hten _ (by norm_num)) (hten _ (by norm_num))
  have e1 : unitRoundoff Float.Model = 1 / 2 ^ 53 := by
    show (2 : ℝ) ^ (-53 : ℤ) = _
    norm_num
  have hη := tiny_pos (T := Float.Model)
  have e2 : tiny Float.Model ≤ 1 / 10 ^ 290 * (1 / 10 ^ 20) := by
    show (2 : ℝ) ^ (-1075 : ℤ) ≤ _
    rw [zpow_neg, zpow_ofNat, div_mul_div_comm, ← pow_add, one_mul, ← one_div]
    refine one_div_le_one_div_of_le (by positivity) ?_
    calc (10 : ℝ) ^ (290 + 20) ≤ 10 ^ (3 * 104) := pow_le_pow_right₀ (by norm_num) (by norm_num)
      _ = (10 ^ 3) ^ 104 := pow_mul _ _ _
      _ ≤ (2 ^ 10) ^ 104 := pow_le_pow_left₀ (by norm_num) (by norm_num) _
      _ = 2 ^ (10 * 104) := (pow_mul _ _ _).symm
      _ ≤ 2 ^ 1075 := pow_le_pow_right₀ (by norm_num) (by norm_num)
  have ht : (1 : ℝ) / 10 ^ 290 ≤ 1 := by
    rw [div_le_one (by positivity)]
    exact one_le_pow₀ (by norm_num)
  have ht0 : (0 : ℝ) < 1 / 10 ^ 290 := by positivity
  have hlast : (10 : ℝ) ^ (-291 : ℤ) = 1 / 10 ^ 290 / 10 := by
    rw [show (-291 : ℤ) = -290 - 1 by norm_num, zpow_sub_one₀ (by norm_num), zpow_neg, zpow_ofNat, one_div, div_eq_mul_inv]
  have hbig : (2 : ℝ) * 2 ^ 1024 ≤ 10 ^ (342 : ℤ) := by
    rw [zpow_ofNat, ← pow_succ']
    calc (2 : ℝ) ^ (1024 + 1) ≤ 2 ^ (3 * 342) := pow_le_pow_right₀ (by norm_num) (by norm_num)
      _ = (2 ^ 3) ^ 342 := pow_mul _ _ _
      _ ≤ 10 ^ 342 := pow_le_pow_left₀ (by norm_num) (by norm_num) _
  have h1024 : (1 : ℝ) ≤ 2 ^ 1024 := one_le_pow₀ (by norm_num)
  rw [e1] at h4 h5
  generalize tiny Float.Model = η at *
  generalize (1 : ℝ) / 10 ^ 290 = t at *
  generalize (2 : ℝ) ^ 1024 = M at *
  have h6 := abs_sub_abs_le_abs_sub (val f) D
  have h7 := abs_sub_abs_le_abs_sub D (val f)
  rw [abs_sub_comm D] at h7
  norm_num at e2 h4
  have lo : t / 10 < |D| := by linarith
  have hi : |D| < 2 * M := by linarith
  have hk : -292 < k := by
    have : (10 : ℝ) ^ (-291 : ℤ) < 10 ^ (k + 1) := by rw [hlast]; exact lo.trans h3
    have := (zpow_lt_zpow_iff_right₀ (by norm_num : (1 : ℝ) < 10)).1 this
    omega
  have hk' : k < 342 :=
    (zpow_lt_zpow_iff_right₀ (by norm_num : (1 : ℝ) < 10)).1 (h2.trans_lt (hi.trans_le hbig))
  have hkk : |k| < 342 := abs_lt.2 ⟨by omega, hk'⟩
  have h8 := h5 (hkk.trans (by decide)) (hkk.trans (by norm_num))
  have h9 := abs_sub_le (val r) D (val f)
  rw [abs_sub_comm D] at h9
  have hηη : η * η ≤ η := by nlinarith
  have hηD : η * |D| ≤ 1 / 10 ^ 20 * |D| := mul_le_mul_of_nonneg_right (by norm_num; linarith) (abs_nonneg D)
  norm_num at h8 hηD ⊢
  linarith

theorem small_numLit32 {f : Float32.Model} (hf : IsFinite f) (he : 'e' ∈ (rustFloat true f).toList) (h1 : |val f| < 1) (checks : Bool) :
    ∃ r, NumLit (ieeeEnv Float32.Model checks) (rustFloat true f).toList (.Float r) ∧ IsFinite r :=
  small_read (T := Float32.Model) (by decide) (fun x hx => (C70_range32 x).2 (hx.trans (by norm_num))) 46
    (by decide) (by norm_num) (by
      show _ ≤ (2 : ℝ) ^ (-149 : ℤ)
      norm_num) hf he h1 checks

/-- **C126**: small floats are read as finite floats, -/
theorem C126_small32 {f : Float32.Model} (hf : IsFinite f) (he : 'e' ∈ (rustFloat true f).toList) (h1 : |val f| < 1) (checks : Bool) :
    ∃ r, tokenize (ieeeEnv Float32.Model checks) (rustFloat true f).toList = .ok [⟨⟨1, 1⟩, .Float r⟩] ∧ IsFinite r ∧
      (1 / 10 ^ 30 ≤ |val f| → |val r - val f| ≤ 5 * 2 ^ (-24 : ℤ) * |val f|) := by
  obtain ⟨r, h2, h3⟩ := small_numLit32 hf he h1 checks
  exact ⟨r, tokenize_numLit (ieeeEnv_sane checks) h2, h3, fun h => C126_close32 hf he h h2 h3⟩

theorem small_numLit64 {f : Float.Model} (hf : IsFinite f) (he : 'e' ∈ (rustFloat true f).toList) (h1 : |val f| < 1) (checks : Bool) :
    ∃ r, NumLit (ieeeEnv Float.Model checks) (rustFloat true f).toList (.Float r) ∧ IsFinite r :=
  small_read (T := Float.Model) (by decide) (fun x hx => (C70_range64 x).2 (hx.trans (by
      calc (10 : ℝ) ≤ (2 ^ 53 - 1) * 1 := by norm_num
        _ ≤ (2 ^ 53 - 1) * 2 ^ 971 := mul_le_mul_of_nonneg_left (one_le_pow₀ (by norm_num)) (by norm_num)))) 400
    (by decide) (by norm_num) (by
      show _ ≤ (2 : ℝ) ^ (-1074 : ℤ)
      have h8 : (10 : ℝ) ^ (-(400 : ℕ) : ℤ) ≤ 2 ^ (-1200 : ℤ) := by
        rw [show (-1200 : ℤ) = 3 * (-400) by norm_num, zpow_mul, zpow_neg, zpow_neg]
        refine inv_anti₀ (by positivity) ?_
        exact_mod_cast pow_le_pow_left₀ (by norm_num) (by norm_num) 400
      have h4 : (2 : ℝ) ^ (-1200 : ℤ) * 4 = 2 ^ (-1198 : ℤ) := by
        rw [show (-1198 : ℤ) = -1200 + 2 by norm_num, zpow_add₀ (by norm_num)]; norm_num
      have h5 : (2 : ℝ) ^ (-1198 : ℤ) ≤ 2 ^ (-1074 : ℤ) := zpow_le_zpow_right₀ (by norm_num) (by norm_num)
      linarith) hf he h1 checks

theorem C126_small64 {f : Float.Model} (hf : IsFinite f) (he : 'e' ∈ (rustFloat true f).toList) (h1 : |val f| < 1) (checks : Bool) :
    ∃ r, tokenize (ieeeEnv Float.Model checks) (rustFloat true f).toList = .ok [⟨⟨1, 1⟩, .Float r⟩] ∧ IsFinite r ∧
      (1 / 10 ^ 290 ≤ |val f| → |val r - val f| ≤ 5 * 2 ^ (-53 : ℤ) * |val f|) := by
  obtain ⟨r, h2, h3⟩ := small_numLit64 hf he h1 checks
  exact ⟨r, tokenize_numLit (ieeeEnv_sane checks) h2, h3, fun h => C126_close64 hf he h h2 h3⟩

/-- **C126**: without overflow checks such a float from `2^63` on is read as an integer that is not converted to the float
    again; from `10^65` on as zero. -/
theorem C126_wrapped32 {f : Float32.Model} (hf : IsFinite f) (he : 'e' ∈ (rustFloat true f).toList)
    (hp : '.' ∉ (rustFloat true f).toList) (h63 : 2 ^ 63 ≤ |val f|) :
    ∃ n : ℤ, tokenize (ieeeEnv Float32.Model false) (rustFloat true f).toList = .ok [⟨⟨1, 1⟩, .Int n⟩] ∧
      (Elem.fromInt n : Float32.Model) ≠ f := by
  obtain ⟨n, h1, h2, -⟩ := wrap_read (by decide) (by decide) (by
    refine ((C70_range32 _).1 ⟨f, f, hf, hf, le_rfl, le_rfl⟩).trans_lt ?_
    calc ((2 : ℝ) ^ 24 - 1) * 2 ^ 104 < 2 ^ 128 := by norm_num
      _ ≤ 2 ^ 1024 := pow_le_pow_right₀ (by norm_num) (by norm_num)) hf he hp h63
  exact ⟨n, tokenize_numLit (ieeeEnv_sane false) h1, h2⟩

theorem C126_wrapped64 {f : Float.Model} (hf : IsFinite f) (he : 'e' ∈ (rustFloat true f).toList)
    (hp : '.' ∉ (rustFloat true f).toList) (h63 : 2 ^ 63 ≤ |val f|) :
    ∃ n : ℤ, tokenize (ieeeEnv Float.Model false) (rustFloat true f).toList = .ok [⟨⟨1, 1⟩, .Int n⟩] ∧
      (Elem.fromInt n : Float.Model) ≠ f ∧ (10 ^ 65 ≤ |val f| → n = 0) := by
  obtain ⟨n, h1, h2, h3⟩ := wrap_read (by decide) (by decide) (by
    refine ((C70_range64 _).1 ⟨f, f, hf, hf, le_rfl, le_rfl⟩).trans_lt ?_
    rw [show (2 : ℝ) ^ 1024 = 2 ^ 53 * 2 ^ 971 by rw [← pow_add]]
    exact mul_lt_mul_of_pos_right (by linarith) (by positivity)) hf he hp h63
  exact ⟨n, tokenize_numLit (ieeeEnv_sane false) h1, h2, h3⟩

def shownHuge64 : Float.Model := .pack (.finite .positive 6525304467998525 180 (by norm_num))
def largest32 : Float32.Model := .pack (.finite .positive 16777215 104 (by norm_num))
def largest32' : Float32.Model := .pack (.finite .positive 16777214 104 (by norm_num))

/-- **C126**: a large float that is shown with a point and an exponent is read as a finite float close to it. -/
theorem C126_point64 {f : Float.Model} (hf : IsFinite f) (he : 'e' ∈ (rustFloat true f).toList)
    (hp : '.' ∈ (rustFloat true f).toList) (h1 : 1 ≤ |val f|) (checks : Bool) :
    ∃ r, tokenize (ieeeEnv Float.Model checks) (rustFloat true f).toList = .ok [⟨⟨1, 1⟩, .Float r⟩] ∧ IsFinite r ∧
      |val r - val f| ≤ 5 * 2 ^ (-53 : ℤ) * |val f| := by
  have hten : ∀ x : ℝ, |x| ≤ 10 → InSpan Float.Model x := fun x hx => (C70_range64 x).2 (hx.trans (by
    calc (10 : ℝ) ≤ (2 ^ 53 - 1) * 1 := by norm_num
      _ ≤ (2 ^ 53 - 1) * 2 ^ 971 := mul_le_mul_of_nonneg_left (one_le_pow₀ (by norm_num)) (by norm_num)))
  have hb : big (IEEE.fmt Float.Model) = 2 ^ 54 * 2 ^ 970 := by
    rw [← pow_add]
    exact zpow_natCast (2 : ℝ) 1024
  suffices h : ∃ r, NumLit (ieeeEnv Float.Model checks) (rustFloat true f).toList (.Float r) ∧ IsFinite r by
    obtain ⟨r, h2, h3⟩ := h
    refine ⟨r, tokenize_numLit (ieeeEnv_sane checks) h2, h3, C126_close64 hf he (le_trans ?_ h1) h2 h3⟩
    rw [div_le_one (by positivity)]
    exact one_le_pow₀ (by norm_num)
  refine point_read hten 308 ((2 ^ 54 - 1) * 2 ^ 970) (10 ^ 308) (by positivity) (by decide) (by norm_num) ?_ ?_ (by decide +kernel)
    (by decide +kernel) (by decide +kernel) (by decide +kernel) (by decide +kernel) (by decide +kernel) hf he hp h1 checks
  · rw [hb, ← pow_add]
    have h := (Nat.cast_le (α := ℝ)).2 (show (2 ^ (54 + 970) : ℕ) ≤ 10 ^ (308 + 1) by decide +kernel)
    rwa [Nat.cast_pow, Nat.cast_pow, Nat.cast_ofNat, Nat.cast_ofNat] at h
  · intro D h0 hD
    rw [le_div_iff₀ (by positivity), Nat.cast_mul, Nat.cast_pow, Nat.cast_pow, Nat.cast_ofNat, Nat.cast_ofNat]
    have hv : |val f| ≤ (2 ^ 53 - 1) * 2 ^ 971 := (C70_range64 _).1 ⟨f, f, hf, hf, le_rfl, le_rfl⟩
    have h2 := RN_nearest (x := D * 10 ^ 308) (rep_big (T := Float.Model))
    have h3 : D * 10 ^ 308 < big (IEEE.fmt Float.Model) := by
      refine lt_of_not_ge fun h => ?_
      have := RN_mono (g := grid (IEEE.fmt Float.Model)) h
      rw [RN_rep rep_big, hD] at this
      exact absurd (val_lt_big hf) (not_lt.2 this)
    rw [hD, abs_of_pos (sub_pos.2 h3), hb] at h2
    have h4 := (abs_le.1 h2).1
    rw [show (2 : ℝ) ^ 971 = 2 * 2 ^ 970 by rw [← pow_succ']] at hv
    generalize (2 : ℝ) ^ 970 = t at *
    generalize (10 : ℝ) ^ 308 = u at *
    norm_num at *
    linarith

theorem C126_point32 {f : Float32.Model} (hf : IsFinite f) (he : 'e' ∈ (rustFloat true f).toList)
    (hp : '.' ∈ (rustFloat true f).toList) (h1 : 1 ≤ |val f|) (checks : Bool) :
    ∃ r, tokenize (ieeeEnv Float32.Model checks) (rustFloat true f).toList = .ok [⟨⟨1, 1⟩, .Float r⟩] ∧ IsFinite r ∧
      |val r - val f| ≤ 5 * 2 ^ (-24 : ℤ) * |val f| := by
  have hten : ∀ x : ℝ, |x| ≤ 10 → InSpan Float32.Model x := fun x hx => (C70_range32 x).2 (hx.trans (by norm_num))
  have hv : |val f| ≤ (2 ^ 24 - 1) * 2 ^ 104 := (C70_range32 _).1 ⟨f, f, hf, hf, le_rfl, le_rfl⟩
  have hmax : (grid (IEEE.fmt Float32.Model)).RN (34028235 / 10000000 * 10 ^ 38) = (2 ^ 24 - 1) * 2 ^ 104 := by
    have h2 := (ratio_val (T := Float32.Model) (n := 34028235 * 10 ^ 31) one_pos (by decide +kernel)).1
    have h3 : (IEEE.pk (ratio (IEEE.fmt Float32.Model) false (34028235 * 10 ^ 31) 1) : Float32.Model) = largest32 := by
      decide +kernel
    rw [h3] at h2
    unfold val at h2
    rw [show up largest32 = .finite .positive 16777215 104 (by norm_num) from rfl, uval_finite] at h2
    simp only [sgn] at h2
    rw [show (34028235 / 10000000 * 10 ^ 38 : ℝ) = ((34028235 * 10 ^ 31 : ℕ) : ℝ) / (1 : ℕ) by norm_num, ← h2]
    norm_num
  rcases hv.lt_or_eq with hlt | heq
  · suffices h : ∃ r, NumLit (ieeeEnv Float32.Model checks) (rustFloat true f).toList (.Float r) ∧ IsFinite r by
      obtain ⟨r, h2, h3⟩ := h
      exact ⟨r, tokenize_numLit (ieeeEnv_sane checks) h2, h3, C126_close32 hf he (le_trans (by norm_num) h1) h2 h3⟩
    refine point_read hten 38 34028235 (10 ^ 7) (by positivity) (by decide) (by norm_num) ?_ ?_ (by decide +kernel)
      (by decide +kernel) (by decide +kernel) (by decide +kernel) (by decide +kernel) (by decide +kernel) hf he hp h1 checks
    · show (2 : ℝ) ^ (128 : ℤ) ≤ _
      norm_num
    · intro D h0 hD
      refine le_of_not_gt fun h => ?_
      push_cast at h
      have := RN_mono (g := grid (IEEE.fmt Float32.Model)) (mul_le_mul_of_nonneg_right h.le (by norm_num : (0 : ℝ) ≤ 10 ^ 38))
      rw [hD, hmax] at this
      linarith
  · have hval : val largest32 = (2 ^ 24 - 1) * 2 ^ 104 := by
      unfold val
      rw [show up largest32 = .finite .positive 16777215 104 (by norm_num) from rfl, uval_finite]
      norm_num [sgn]
    have hval' : val (Float32.Model.pack (.finite .negative 16777215 104 (by norm_num))) = -((2 ^ 24 - 1) * 2 ^ 104) := by
      unfold val
      rw [show up (Float32.Model.pack (.finite .negative 16777215 104 (by norm_num))) = .finite .negative 16777215 104 (by norm_num) from rfl,
        uval_finite]
      norm_num [sgn]
    have key : f = largest32 ∨ f = .pack (.finite .negative 16777215 104 (by norm_num)) := by
      rcases abs_choice (val f) with h | h
      · left
        rw [h] at heq
        refine eq_of_val hf (by decide +kernel) (heq.trans hval.symm) ?_
        exact usign_pos (by linarith)
      · right
        rw [h] at heq
        exact eq_of_val hf (by decide +kernel) (by rw [hval']; linarith) (usign_neg (by linarith))
    rw [heq]
    rcases key with rfl | rfl
    · refine ⟨largest32', by cases checks <;> decide +kernel, by decide +kernel, ?_⟩
      rw [hval]
      unfold val
      rw [show up largest32' = .finite .positive 16777214 104 (by norm_num) from rfl, uval_finite]
      norm_num [sgn]
    · refine ⟨.pack (.finite .negative 16777214 104 (by norm_num)), by cases checks <;> decide +kernel, by decide +kernel, ?_⟩
      rw [hval']
      unfold val
      rw [show up (Float32.Model.pack (.finite .negative 16777214 104 (by norm_num))) = .finite .negative 16777214 104 (by norm_num)
        from rfl, uval_finite]
      norm_num [sgn]

/-! ### Where it fails -/

def smallest64 : Float.Model := .pack (.finite .positive 1 (-1074) (by norm_num))
def second32 : Float32.Model := .pack (.finite .positive 2 (-149) (by norm_num))
def third32 : Float32.Model := .pack (.finite .positive 3 (-149) (by norm_num))

/-- **C126** (an expectation that fails): tiny floats are not read as something near. The smallest `f64` is shown as `5e-324`,
    which is read as zero; the second smallest `f32` is shown as `3e-45`, which is read as the third smallest. The
    largest `f32` is shown as `3.4028235e38`, which is read as the one below. -/
theorem C126_refuted :
    (rustFloat true smallest64 = "5e-324" ∧ val smallest64 ≠ 0 ∧
      tokenize (ieeeEnv Float.Model true) "5e-324".toList = .ok [⟨⟨1, 1⟩, .Float (Elem.fromInt 0)⟩]) ∧
    (rustFloat true second32 = "3e-45" ∧ val third32 = val second32 * (3 / 2) ∧
      tokenize (ieeeEnv Float32.Model true) "3e-45".toList = .ok [⟨⟨1, 1⟩, .Float third32⟩]) ∧
    (rustFloat true largest32 = "3.4028235e38" ∧ largest32' ≠ largest32 ∧
      tokenize (ieeeEnv Float32.Model true) "3.4028235e38".toList = .ok [⟨⟨1, 1⟩, .Float largest32'⟩]) := by
  refine ⟨⟨by decide +kernel, ?_, by decide +kernel⟩, ⟨by decide +kernel, ?_, by decide +kernel⟩, by decide +kernel, by decide +kernel, by decide +kernel⟩
  · unfold val
    rw [show up smallest64 = .finite .positive 1 (-1074) (by norm_num) from rfl, uval_finite]
    simp [sgn]
  · unfold val
    rw [show up third32 = .finite .positive 3 (-149) (by norm_num) from rfl,
      show up second32 = .finite .positive 2 (-149) (by norm_num) from rfl, uval_finite, uval_finite]
    simp only [sgn]
    push_cast
    ring

-- the hypotheses of the theorems above
example : IsFinite shownLarge32 ∧ 'e' ∈ (rustFloat true shownLarge32).toList ∧ '.' ∉ (rustFloat true shownLarge32).toList := by
  decide +kernel
example : 1 ≤ |val shownLarge32| ∧ |val shownLarge32| < 2 ^ 63 := by
  unfold val
  rw [show up shownLarge32 = .finite .positive 9313226 30 (by norm_num) from rfl, uval_finite]
  norm_num [sgn, abs_of_pos]
example : IsFinite shownLarge64 ∧ 'e' ∈ (rustFloat true shownLarge64).toList ∧ '.' ∉ (rustFloat true shownLarge64).toList := by
  decide +kernel
example : 2 ^ 63 ≤ |val shownLarge64| := by
  unfold val
  rw [show up shownLarge64 = .finite .positive 4882812500000000 11 (by norm_num) from rfl, uval_finite]
  norm_num [sgn, abs_of_pos]
example : IsFinite shownSmall32 ∧ IsFinite shownSmall32' ∧ 'e' ∈ (rustFloat true shownSmall32).toList ∧
    tokenize (ieeeEnv Float32.Model true) (rustFloat true shownSmall32).toList = .ok [⟨⟨1, 1⟩, .Float shownSmall32'⟩] := by
  decide +kernel
example : 1 / 10 ^ 30 ≤ |val shownSmall32| ∧ val shownSmall32' ≠ val shownSmall32 := by
  unfold val
  rw [show up shownSmall32 = .finite .positive 14293651 (-40) (by norm_num) from rfl,
    show up shownSmall32' = .finite .positive 14293650 (-40) (by norm_num) from rfl, uval_finite, uval_finite]
  norm_num [sgn, abs_of_pos]
example : IsFinite shownSmall64 ∧ IsFinite shownSmall64' ∧ 'e' ∈ (rustFloat true shownSmall64).toList ∧
    tokenize (ieeeEnv Float.Model true) (rustFloat true shownSmall64).toList = .ok [⟨⟨1, 1⟩, .Float shownSmall64'⟩] := by
  decide +kernel
example : |val shownSmall32| < 1 := by
  unfold val
  rw [show up shownSmall32 = .finite .positive 14293651 (-40) (by norm_num) from rfl, uval_finite]
  norm_num [sgn, abs_of_pos]
example : IsFinite largest32 ∧ 'e' ∈ (rustFloat true largest32).toList ∧ '.' ∈ (rustFloat true largest32).toList := by
  decide +kernel
example : 1 ≤ |val largest32| := by
  unfold val
  rw [show up largest32 = .finite .positive 16777215 104 (by norm_num) from rfl, uval_finite]
  norm_num [sgn, abs_of_pos]
-- the digits and an exponent do not always denote another float
example : rustFloat true (Elem.fromInt 20000000000000000 : Float.Model) = "2e16" ∧
    tokenize (ieeeEnv Float.Model true) "2e16".toList = .ok [⟨⟨1, 1⟩, .Int 20000000000000000⟩] := by decide +kernel
example : rustFloat true shownHuge64 = "1e70" ∧ IsFinite shownHuge64 ∧ 'e' ∈ (rustFloat true shownHuge64).toList ∧
    '.' ∉ (rustFloat true shownHuge64).toList ∧
    tokenize (ieeeEnv Float.Model false) "1e70".toList = .ok [⟨⟨1, 1⟩, .Int 0⟩] := by decide +kernel
example : 10 ^ 65 ≤ |val shownHuge64| := by
  unfold val
  rw [show up shownHuge64 = .finite .positive 6525304467998525 180 (by norm_num) from rfl, uval_finite]
  norm_num [sgn, abs_of_pos]

end Pbrt
