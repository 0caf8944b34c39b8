import Verif.Proof.Nearest
import Verif.Props.FloorCeil
import Verif.Props.Lexing

/-!
# C70: the floats that number literals denote

For `f32` and `f64`, every decimal literal and every library that rounds correctly (`Rounds`).
-/

namespace Pbrt

open Float.Model (UnpackedFloat Format)
open Pbrt.Spec Pbrt.Proof

section
variable {T : Type} [Elem T] [As T T] [FloatFns T] [IEEE T]

local notation "𝔽" => IEEE.fmt T
local notation "ε" => unitRoundoff T
local notation "η" => tiny T

/-! ### A library that rounds correctly -/

theorem digit_ne {c : Char} (h : IsDigit c) : c ≠ '.' ∧ c ≠ '-' := by
  constructor <;> rintro rfl <;> revert h <;> unfold IsDigit <;> decide

theorem takeWhile_digits {a : List Char} (h : ∀ c ∈ a, IsDigit c) (b : List Char) :
    (a ++ '.' :: b).takeWhile (· != '.') = a ∧ (a ++ '.' :: b).dropWhile (· != '.') = '.' :: b ∧
    a.takeWhile (· != '.') = a ∧ a.dropWhile (· != '.') = [] := by
  have h1 : ∀ c ∈ a, (c != '.') = true := fun c hc => by simpa using (digit_ne (h c hc)).1
  refine ⟨?_, ?_, ?_, ?_⟩
  · rw [List.takeWhile_append_of_pos h1]; simp
  · rw [List.dropWhile_append_of_pos h1]; simp
  · simpa using List.takeWhile_append_of_pos (l₂ := []) h1
  · simpa using List.dropWhile_append_of_pos (l₂ := []) h1

/-- Does the sign make the number negative? -/
def _root_.Pbrt.Spec.Sign.isMinus : Sign → Bool
  | .minus => true
  | _ => false

theorem ieeeParse_body (s : Sign) (a b x : List Char) (hd : ∀ c ∈ a ++ b, IsDigit c) (hne : a ++ b ≠ [])
    (hx : x = a ++ '.' :: b ∨ x = a ∧ b = []) :
    ieeeParse T (s.kept ++ x) = .ok (IEEE.pk (ratio 𝔽 s.isMinus (decVal (a ++ b)) (10 ^ b.length))) := by
  have ha : ∀ c ∈ a, IsDigit c := fun c hc => hd c (by simp [hc])
  obtain ⟨t1, t2, t3, t4⟩ := takeWhile_digits ha b
  have hall : ((a ++ b).all fun c => decide ('0' ≤ c ∧ c ≤ '9')) = true := by
    rw [List.all_eq_true]
    intro c hc
    simpa [IsDigit] using hd c hc
  have hhead : x.head? ≠ some '-' := by
    rcases hx with rfl | ⟨rfl, rfl⟩
    · cases a with
      | nil => simp
      | cons c a => simpa using (digit_ne (ha c (by simp))).2
    · cases x with
      | nil => simp at hne
      | cons c a => simpa using (digit_ne (ha c (by simp))).2
  have htake : x.takeWhile (· != '.') = a := by rcases hx with rfl | ⟨rfl, rfl⟩; exact t1; exact t3
  have hdrop : (x.dropWhile (· != '.')).tail = b := by
    rcases hx with rfl | ⟨rfl, rfl⟩
    · rw [t2]; rfl
    · rw [t4]; rfl
  unfold ieeeParse
  cases s with
  | minus =>
    simp only [Sign.kept, List.cons_append, List.nil_append, List.head?_cons, decide_true, if_true,
      List.tail_cons, htake, hdrop]
    rw [if_pos ⟨hall, hne⟩]
    rfl
  | none =>
    simp only [Sign.kept, List.nil_append, hhead, decide_false, Bool.false_eq_true, if_false, htake, hdrop]
    rw [if_pos ⟨hall, hne⟩]
    rfl
  | plus =>
    simp only [Sign.kept, List.nil_append, hhead, decide_false, Bool.false_eq_true, if_false, htake, hdrop]
    rw [if_pos ⟨hall, hne⟩]
    rfl

theorem decimal_eq (s : Sign) (a b : List Char) :
    decimal s a b = (if s.isMinus then -1 else 1) * ((decVal (a ++ b) : ℝ) / (10 ^ b.length : ℕ)) := by
  unfold decimal
  cases s <;> simp [Sign.apply, Sign.isMinus, neg_div]

theorem ieeeEnv_rounds (b : Bool) : Rounds (ieeeEnv T b) where
  point s x y hd hne hx := by
    refine ⟨_, ieeeParse_body s x y _ hd hne (Or.inl rfl), ?_⟩
    rw [decimal_eq] at hx ⊢
    exact pk_nearest (ratio_rounded _ _ _ _ (by positivity)) hx
  whole s x hd hne hx := by
    refine ⟨_, ieeeParse_body s x [] _ (by simpa using hd) (by simpa using hne) (Or.inr ⟨rfl, rfl⟩), ?_⟩
    rw [decimal_eq] at hx ⊢
    exact pk_nearest (ratio_rounded _ _ _ _ (by positivity)) hx
  isize i hi hx := by
    show Nearest (Elem.fromInt i : T) i
    rw [IEEE.int_eq]
    exact pk_nearest (normalize_rounded (fmt := 𝔽) (n := i) (e := 0) (z := .positive) (x := i) (by simp)).1 hx
  mul x y := fmul_ok x y

theorem pk_err {u : UnpackedFloat} {x : ℝ} (h : Rounded 𝔽 x u) (hf : IsFinite (IEEE.pk u : T)) :
    |val (IEEE.pk u : T) - x| ≤ ε * |x| + η := by
  have h1 := (uext_over IEEE.heb h).1
  rw [← up_pk h.canon] at h1
  have h2 : Pbrt.ext (IEEE.pk u : T) = rnd 𝔽 x := h1
  rw [hf.ext] at h2
  have h3 : val (IEEE.pk u : T) = (grid 𝔽).RN x := by
    unfold rnd at h2
    split_ifs at h2
    · simp at h2
    · simp at h2
    · exact_mod_cast h2
  rw [h3]
  exact RN_error _ x

theorem ieeeEnv_pow (b : Bool) : PowWithin (ieeeEnv T b) 1 := by
  intro k hk hf
  obtain ⟨f1, f2⟩ := fromInt_exact (T := T) k hk
  change IsFinite (ieeePow (Elem.fromInt k : T)) at hf
  change |val (ieeePow (Elem.fromInt k : T)) - _| ≤ _
  have hη := tiny_pos (T := T)
  have hε := eps_pos (T := T)
  have main : |val (ieeePow (Elem.fromInt k : T)) - (10 : ℝ) ^ k| ≤ ε * |(10 : ℝ) ^ k| + η := by
    rw [isFinite_iff] at f1
    have key : ∀ (m : ℕ) (e : ℤ), (m : ℝ) * 2 ^ e = (|k| : ℤ) →
        (if 0 ≤ e then m * 2 ^ e.toNat else m / 2 ^ (-e).toNat) = k.natAbs := by
      intro m e h
      rw [Int.abs_eq_natAbs] at h
      split_ifs with he
      · have e1 : e = (e.toNat : ℤ) := by omega
        rw [e1, zpow_natCast] at h
        exact_mod_cast h
      · have e1 : e = -((-e).toNat : ℤ) := by omega
        rw [e1, zpow_neg, zpow_natCast, ← div_eq_mul_inv, div_eq_iff (by positivity)] at h
        have h2 : m = k.natAbs * 2 ^ (-e).toNat := by exact_mod_cast h
        rw [h2, Nat.mul_div_cancel _ (by positivity)]
    unfold val at f2
    unfold ieeePow at hf ⊢
    cases hu : up (Elem.fromInt k : T) with
    | infinity s => rw [hu] at f1; exact f1.elim
    | notANumber => rw [hu] at f1; exact f1.elim
    | zero s =>
      rw [hu] at f2
      have : k = 0 := by simpa [uval] using f2.symm
      subst this
      simp only [val_one, zpow_zero, sub_self, abs_zero, abs_one, mul_one]
      linarith
    | finite s m e hm =>
      rw [hu, uval_finite] at f2
      rw [hu] at hf
      have hp : (0 : ℝ) < m * 2 ^ e := mul_pos (by exact_mod_cast hm) (two_zpow_pos e)
      cases s with
      | positive =>
        simp only [sgn, one_mul] at f2
        have hk0 : 0 < k := by rw [f2] at hp; exact_mod_cast hp
        simp only at hf ⊢
        rw [key m e (by rw [f2, abs_of_pos hk0])] at hf ⊢
        have := pk_err (ratio_rounded 𝔽 false (10 ^ k.natAbs) 1 (by norm_num)) hf
        have e1 : (10 : ℝ) ^ k = 10 ^ k.natAbs := by
          rw [← zpow_natCast]; congr 1; omega
        rw [e1]
        simpa using this
      | negative =>
        simp only [sgn] at f2
        have hk0 : k < 0 := by
          have : (k : ℝ) < 0 := by rw [← f2]; linarith
          exact_mod_cast this
        simp only at hf ⊢
        rw [key m e (by rw [abs_of_neg hk0]; push_cast; rw [← f2]; ring)] at hf ⊢
        have := pk_err (ratio_rounded 𝔽 false 1 (10 ^ k.natAbs) (by positivity)) hf
        have e1 : (10 : ℝ) ^ k = 1 / 10 ^ k.natAbs := by
          rw [one_div, ← zpow_natCast, ← zpow_neg]; congr 1; omega
        rw [e1]
        simpa using this
  refine main.trans ?_
  rw [abs_of_pos (show (0 : ℝ) < 10 ^ k from zpow_pos (by norm_num) k)]
  nlinarith

theorem ieeeEnv_sane (b : Bool) : Sane (ieeeEnv T b) :=
  ⟨(exEnv_sane b).digit, (exEnv_sane b).letter, (exEnv_sane b).space, (exEnv_sane b).punct,
    (exEnv_sane b).white⟩

/-! ### The range -/

theorem val_le_max (a : T) : |val a| ≤ (2 ^ (𝔽).mantissaBits - 1) * 2 ^ emax 𝔽 := by
  have hc := up_canon a
  have hi := up_range a
  have h1 : (1 : ℝ) ≤ 2 ^ (𝔽).mantissaBits := one_le_pow₀ (by norm_num)
  have h2 := two_zpow_pos (emax 𝔽)
  have h0 : (0 : ℝ) ≤ (2 ^ (𝔽).mantissaBits - 1) * 2 ^ emax 𝔽 := mul_nonneg (by linarith) h2.le
  unfold val
  cases hu : up a with
  | infinity s => simpa [uval] using h0
  | notANumber => simpa [uval] using h0
  | zero s => simpa [uval] using h0
  | finite s m e hm =>
    rw [hu] at hc hi
    have h3 : (m : ℝ) ≤ 2 ^ (𝔽).mantissaBits - 1 := by
      have : m + 1 ≤ 2 ^ (𝔽).mantissaBits := hc.1
      have : (m : ℝ) + 1 ≤ 2 ^ (𝔽).mantissaBits := by exact_mod_cast this
      linarith
    have h4 : (2 : ℝ) ^ e ≤ 2 ^ emax 𝔽 := zpow_le_zpow_right₀ (by norm_num) hi
    have h5 : |uval (.finite s m e hm)| = m * 2 ^ e := by
      rw [uval_finite, abs_mul, abs_of_pos (mul_pos (by exact_mod_cast hm) (two_zpow_pos e))]
      cases s <;> simp [sgn]
    rw [h5]
    exact mul_le_mul h3 h4 (two_zpow_pos e).le (by linarith)

/-- **C70**: the numbers not beyond the largest finite float -/
theorem C70_range (x : ℝ) : InSpan T x ↔ |x| ≤ (2 ^ (𝔽).mantissaBits - 1) * 2 ^ emax 𝔽 := by
  constructor
  · rintro ⟨a, b, ha, hb, h1, h2⟩
    have := abs_le.1 (val_le_max (T := T) a)
    have := abs_le.1 (val_le_max (T := T) b)
    rw [abs_le]
    constructor <;> linarith
  · intro h
    have hp : 2 ≤ (𝔽).mantissaBits := by unfold Format.mantissaBits; have := (𝔽).hm; omega
    have hr : (grid 𝔽).Rep ((2 ^ (𝔽).mantissaBits - 1) * 2 ^ emax 𝔽) := by
      refine ⟨2 ^ (𝔽).mantissaBits - 1, emax 𝔽, ?_, ?_, by push_cast; rfl⟩
      · have : (1 : ℤ) ≤ 2 ^ (𝔽).mantissaBits := one_le_pow₀ (by norm_num)
        rw [abs_of_nonneg (by omega)]
        exact Int.sub_le_self _ (by norm_num)
      · have heb := IEEE.heb (T := T)
        have h4 : (2 : ℤ) ^ 1 ≤ 2 ^ ((𝔽).exponentBits - 1) := pow_le_pow_right₀ (by norm_num) (by omega)
        show (𝔽).minExponent ≤ _
        unfold Format.minExponent emax
        omega
    have hb : |(2 ^ (𝔽).mantissaBits - 1) * (2 : ℝ) ^ emax 𝔽| < big 𝔽 := by
      have h1 : (1 : ℝ) ≤ 2 ^ (𝔽).mantissaBits := one_le_pow₀ (by norm_num)
      have h2 := two_zpow_pos (emax 𝔽)
      rw [abs_of_nonneg (mul_nonneg (by linarith) h2.le)]
      unfold big
      rw [zpow_add₀ (by norm_num), zpow_natCast]
      linarith
    obtain ⟨f, hf, hv⟩ := exists_float (T := T) hr hb
    rw [abs_le, ← hv, ← val_fneg] at h
    exact ⟨fneg f, f, fneg_finite hf, hf, h.1, h.2⟩

/-- **C70**: the range of `f32` -/
theorem C70_range32 (x : ℝ) : InSpan Float32.Model x ↔ |x| ≤ (2 ^ 24 - 1) * 2 ^ 104 := by
  rw [C70_range, show emax (IEEE.fmt Float32.Model) = (104 : ℕ) from rfl,
    show (IEEE.fmt Float32.Model).mantissaBits = 24 from rfl, zpow_natCast]

/-- **C70**: the range of `f64` -/
theorem C70_range64 (x : ℝ) : InSpan Float.Model x ↔ |x| ≤ (2 ^ 53 - 1) * 2 ^ 971 := by
  rw [C70_range, show emax (IEEE.fmt Float.Model) = (971 : ℕ) from rfl,
    show (IEEE.fmt Float.Model).mantissaBits = 53 from rfl, zpow_natCast]

/-! ### Literals -/

variable {E : Env T}

omit [Elem T] [As T T] [FloatFns T] [IEEE T] in
theorem numLit_unique (hE : Sane E) {l : List Char} {t u : TokenType T} (h : NumLit E l t)
    (h' : NumLit E l u) : t = u := by
  have := (tokenize_numLit hE h).symm.trans (tokenize_numLit hE h')
  simpa using this

omit [Elem T] [As T T] [FloatFns T] [IEEE T] in
theorem fracBody_digits (hE : Sane E) {a b : List Char} (hd : ∀ c ∈ a ++ b, IsDigit c) :
    FracBody E (a ++ '.' :: b) :=
  ⟨a, b, rfl, fun c hc => hE.digit c (hd c (by simp [hc])).1 (hd c (by simp [hc])).2,
    fun c hc => hE.digit c (hd c (by simp [hc])).1 (hd c (by simp [hc])).2⟩

/-- **C70**: a literal with a decimal point is one token, and it denotes a float nearest to the
    number written. -/
theorem C70_decimal (hE : Sane E) (hR : Rounds E) (s : Sign) (a b : List Char)
    (hd : ∀ c ∈ a ++ b, IsDigit c) (hne : a ++ b ≠ []) (hx : InSpan T (decimal s a b)) :
    ∃ f, tokenize E (s.text ++ (a ++ '.' :: b)) = .ok [⟨⟨1, 1⟩, .Float f⟩] ∧
      NumLit E (s.text ++ (a ++ '.' :: b)) (.Float f) ∧ Nearest f (decimal s a b) := by
  obtain ⟨f, hf, hn⟩ := hR.point s a b hd hne hx
  have := NumLit.frac s _ f (fracBody_digits hE hd) hf
  exact ⟨f, tokenize_numLit hE this, this, hn⟩

/-- **C70**: wherever a float is expected, a decimal or integer literal denotes a float, and it is
    nearest to the number written. -/
theorem C70_nearest (hE : Sane E) (hR : Rounds E) {s : Sign} {a b l : List Char} (hl : Written s a b l)
    (hx : InSpan T (decimal s a b)) :
    (∃ f, ReadAs E l f) ∧ ∀ f, ReadAs E l f → Nearest f (decimal s a b) := by
  obtain ⟨hd, hne, rfl | ⟨rfl, rfl, hfit⟩⟩ := hl
  · obtain ⟨f, _, h1, h2⟩ := C70_decimal hE hR s a b hd hne hx
    refine ⟨⟨f, ⟨1, 1⟩, _, h1, _, Or.inl rfl⟩, ?_⟩
    rintro g ⟨p, t, ht, q, h⟩
    have := numLit_unique hE ht h1
    subst this
    rcases h with h | ⟨i, h, -⟩
    · have : f = g := by simpa using congrArg (List.map (·.ty)) h
      rw [← this]; exact h2
    · simp at h
  · rw [List.append_nil] at hd hne
    have h1 := NumLit.int (E := E) s a hne hd hfit
    refine ⟨⟨_, ⟨1, 1⟩, _, h1, _, Or.inr ⟨_, rfl, rfl⟩⟩, ?_⟩
    rintro g ⟨p, t, ht, q, h⟩
    have := numLit_unique hE ht h1
    subst this
    rcases h with h | ⟨i, h, rfl⟩
    · simp at h
    · have e : decimal s a [] = ((s.apply (decVal a) : ℤ) : ℝ) := by simp [decimal]
      have : s.apply (decVal a) = i := by simpa using congrArg (List.map (·.ty)) h
      rw [← this]
      rw [e] at hx ⊢
      exact hR.isize _ hfit hx

/-- **C70**: literals keep their order. -/
theorem C70_monotone (hE : Sane E) (hR : Rounds E) {s s' : Sign} {a b l a' b' l' : List Char} {f g : T}
    (hl : Written s a b l) (hl' : Written s' a' b' l') (hx : InSpan T (decimal s a b))
    (hx' : InSpan T (decimal s' a' b')) (hf : ReadAs E l f) (hg : ReadAs E l' g)
    (h : decimal s a b < decimal s' a' b') : Elem.le f g = true := by
  have h1 := (C70_nearest hE hR hl hx).2 f hf
  have h2 := (C70_nearest hE hR hl' hx').2 g hg
  exact (le_iff_val h1.1 h2.1).2 (nearest_mono h1 h2 h)

/-- **C70**: a number `n 2^e` of at most `p` bits (24 for `f32`, 53 for `f64`) is read exactly. -/
theorem C70_exact (hE : Sane E) (hR : Rounds E) {s : Sign} {a b l : List Char} {f : T}
    (hl : Written s a b l) (hx : InSpan T (decimal s a b)) (hf : ReadAs E l f) (n e : ℤ)
    (hn : |n| ≤ 2 ^ (𝔽).mantissaBits) (he : (𝔽).minExponent ≤ e) (h : decimal s a b = n * 2 ^ e) :
    val f = decimal s a b := by
  have hr : (grid 𝔽).Rep (decimal s a b) := ⟨n, e, hn, he, h⟩
  have hb := inSpan_lt_big hx
  rw [RN_rep hr] at hb
  obtain ⟨g, h1, h2⟩ := exists_float (T := T) hr hb
  exact nearest_exact ((C70_nearest hE hR hl hx).2 f hf) h1 h2

/-- **C70**: the error of a literal is at most half a unit in the last place. -/
theorem C70_error (hE : Sane E) (hR : Rounds E) {s : Sign} {a b l : List Char} {f : T}
    (hl : Written s a b l) (hx : InSpan T (decimal s a b)) (hf : ReadAs E l f) :
    |val f - decimal s a b| ≤ ε * |decimal s a b| + η :=
  nearest_error ((C70_nearest hE hR hl hx).2 f hf) hx

/-- **C70**: an exponent literal is off by the errors of its mantissa, of the power of ten and of
    their product. -/
theorem C70_exponent (hE : Sane E) (hR : Rounds E) {j : ℕ} (hP : PowWithin E j) (s : Sign)
    (a b x l : List Char) (k : ℤ) (r : T)
    (hd : ∀ c ∈ a ++ b, IsDigit c) (hne : a ++ b ≠ []) (hx : InSpan T (decimal s a b))
    (hl : l = a ++ '.' :: b ∨ l = a ∧ b = [] ∧ k < 0)
    (hk : NumLit E x (.Int k)) (hk' : |k| < 2 ^ (𝔽).mantissaBits)
    (ht : NumLit E (s.text ++ l ++ 'e' :: x) (.Float r)) (hr : IsFinite r) :
    |val r - decimal s a b * 10 ^ k| ≤ ((1 + ε) ^ (j + 2) - 1) * |decimal s a b * 10 ^ k| +
      (η * 10 ^ k + |decimal s a b| * η + η * η + η) * (1 + ε) ^ (j + 2) := by
  have hp : (0 : ℝ) < 10 ^ k := zpow_pos (by norm_num) k
  have hη := tiny_pos (T := T)
  have hε := eps_pos (T := T)
  obtain ⟨m, hm, hmr⟩ : ∃ m, Nearest m (decimal s a b) ∧ r = E.fmul m (E.powf10 (E.ofIsize k)) := by
    rcases hl with rfl | ⟨rfl, rfl, hk0⟩
    · obtain ⟨m, h1, h2⟩ := hR.point s a b hd hne hx
      have := numLit_unique hE ht (NumLit.fracExp s _ x m k (fracBody_digits hE hd) h1 hk)
      exact ⟨m, h2, TokenType.Float.inj this⟩
    · rw [List.append_nil] at hd hne
      obtain ⟨m, h1, h2⟩ := hR.whole s l hd hne hx
      have := numLit_unique hE ht (NumLit.negExp s l x m k (by simp [hne])
        (fun c hc => hE.digit c (hd c hc).1 (hd c hc).2) h1 hk hk0)
      exact ⟨m, h2, TokenType.Float.inj this⟩
  have hmul : E.fmul m (E.powf10 (E.ofIsize k)) = fmul m (E.powf10 (E.ofIsize k)) := by
    have := (hR.mul m (E.powf10 (E.ofIsize k))).symm.trans (fmul_ok _ _)
    simpa using this
  rw [hmr, hmul] at hr ⊢
  have h1 : Within T 1 η (val m) (decimal s a b) |decimal s a b| := by
    refine ⟨le_refl _, hη.le, (nearest_error hm hx).trans ?_⟩
    nlinarith [abs_nonneg (decimal s a b)]
  have h2 : Within T j η (val (E.powf10 (E.ofIsize k))) (10 ^ k) (10 ^ k) :=
    ⟨by rw [abs_of_pos hp], hη.le, hP k hk' (fmul_finite hr).2⟩
  have := (h1.fmul h2 hr).err
  rw [abs_mul, abs_of_pos hp]
  rwa [show 1 + j + 1 = j + 2 by ring] at this

end

/-! ### Examples, and what is not true -/

/-- `0.3`, read as an `f64`, and the float next above it -/
def three64 : Float.Model := .pack (.finite .positive 5404319552844595 (-54) (by norm_num))
def three64' : Float.Model := .pack (.finite .positive 5404319552844596 (-54) (by norm_num))

/-- `0.9`, read as an `f32`, and the float next above it -/
def nine32 : Float32.Model := .pack (.finite .positive 15099494 (-24) (by norm_num))
def nine32' : Float32.Model := .pack (.finite .positive 15099495 (-24) (by norm_num))

/-- **C70** (an expectation that fails): an exponent literal need not denote a float nearest to the
    number written. With correctly rounded powers of ten, `3e-1` is not the `f64` that `0.3` is, and
    `9e-1` is not the `f32` that `0.9` is; the float nearest to the number is that of the decimal
    literal. -/
theorem C70_exponent_refuted :
    (tokenize (ieeeEnv Float.Model true) "3e-1".toList = .ok [⟨⟨1, 1⟩, .Float three64'⟩] ∧
      tokenize (ieeeEnv Float.Model true) "0.3".toList = .ok [⟨⟨1, 1⟩, .Float three64⟩] ∧
      Nearest three64 (3 / 10) ∧ ¬ Nearest three64' (3 / 10)) ∧
    (tokenize (ieeeEnv Float32.Model true) "9e-1".toList = .ok [⟨⟨1, 1⟩, .Float nine32'⟩] ∧
      tokenize (ieeeEnv Float32.Model true) "0.9".toList = .ok [⟨⟨1, 1⟩, .Float nine32⟩] ∧
      Nearest nine32 (9 / 10) ∧ ¬ Nearest nine32' (9 / 10)) := by
  have t64 : tokenize (ieeeEnv Float.Model true) "0.3".toList = .ok [⟨⟨1, 1⟩, .Float three64⟩] := by
    decide +kernel
  have t32 : tokenize (ieeeEnv Float32.Model true) "0.9".toList = .ok [⟨⟨1, 1⟩, .Float nine32⟩] := by
    decide +kernel
  have v64 : val three64 = 5404319552844595 / 2 ^ 54 := by
    unfold val
    rw [show up three64 = .finite .positive 5404319552844595 (-54) (by norm_num) from rfl, uval_finite]
    norm_num [sgn]
  have v64' : val three64' = 5404319552844596 / 2 ^ 54 := by
    unfold val
    rw [show up three64' = .finite .positive 5404319552844596 (-54) (by norm_num) from rfl, uval_finite]
    norm_num [sgn]
  have v32 : val nine32 = 15099494 / 2 ^ 24 := by
    unfold val
    rw [show up nine32 = .finite .positive 15099494 (-24) (by norm_num) from rfl, uval_finite]
    norm_num [sgn]
  have v32' : val nine32' = 15099495 / 2 ^ 24 := by
    unfold val
    rw [show up nine32' = .finite .positive 15099495 (-24) (by norm_num) from rfl, uval_finite]
    norm_num [sgn]
  have n64 : Nearest three64 (3 / 10) := by
    have e : decimal .none ['0'] ['3'] = 3 / 10 := by
      rw [decimal, show Sign.none.apply (decVal (['0'] ++ ['3'])) = 3 from rfl]; norm_num
    obtain ⟨f, h1, _, h2⟩ := C70_decimal (ieeeEnv_sane true) (ieeeEnv_rounds true) .none ['0'] ['3']
      (T := Float.Model) (by unfold IsDigit; decide) (by simp)
      (by
        have h : (1 : ℝ) ≤ 2 ^ 971 := one_le_pow₀ (by norm_num)
        rw [e, C70_range64, abs_of_pos (by norm_num)]
        exact le_trans (by norm_num) (mul_le_mul_of_nonneg_left h (by norm_num)))
    have := t64.symm.trans h1
    have : three64 = f := by simpa using this
    rw [this, ← e]
    exact h2
  have n32 : Nearest nine32 (9 / 10) := by
    have e : decimal .none ['0'] ['9'] = 9 / 10 := by
      rw [decimal, show Sign.none.apply (decVal (['0'] ++ ['9'])) = 9 from rfl]; norm_num
    obtain ⟨f, h1, _, h2⟩ := C70_decimal (ieeeEnv_sane true) (ieeeEnv_rounds true) .none ['0'] ['9']
      (T := Float32.Model) (by unfold IsDigit; decide) (by simp)
      (by rw [e, C70_range32]; norm_num [abs_of_pos])
    have := t32.symm.trans h1
    have : nine32 = f := by simpa using this
    rw [this, ← e]
    exact h2
  refine ⟨⟨by decide +kernel, t64, n64, fun h => ?_⟩, ⟨by decide +kernel, t32, n32, fun h => ?_⟩⟩
  · have := h.2 three64 (by decide +kernel)
    rw [v64, v64'] at this
    norm_num [abs_of_pos, abs_of_neg] at this
  · have := h.2 nine32 (by decide +kernel)
    rw [v32, v32'] at this
    norm_num [abs_of_pos, abs_of_neg] at this

/-- **C70**, refuted: zero with a large exponent is read as NaN (with `f32` already `0.0e39`), because
    the power of ten is infinite.  A negative exponent does no harm. -/
theorem C70_zero_refuted :
    (∃ f, tokenize (ieeeEnv Float32.Model true) "0.0e39".toList = .ok [⟨⟨1, 1⟩, .Float f⟩] ∧ ¬ NotNan f) ∧
    (∃ f, tokenize (ieeeEnv Float.Model true) "0.0e309".toList = .ok [⟨⟨1, 1⟩, .Float f⟩] ∧ ¬ NotNan f) ∧
    tokenize (ieeeEnv Float32.Model true) "0.0e-39".toList = .ok [⟨⟨1, 1⟩, .Float (Elem.fromInt 0)⟩] := by
  refine ⟨⟨fdiv (Elem.fromInt 0) (Elem.fromInt 0), ?_⟩, ⟨fdiv (Elem.fromInt 0) (Elem.fromInt 0), ?_⟩, ?_⟩ <;>
    (try unfold NotNan) <;> decide +kernel

-- the hypotheses of the theorems above, for a decimal literal, an integer and an exponent literal
example : Written .minus ['1', '2'] ['5'] "-12.5".toList ∧ decimal .minus ['1', '2'] ['5'] = (-25 : ℤ) * 2 ^ (-1 : ℤ) ∧
    Written .none ['7'] [] ['7'] := by
  refine ⟨⟨by unfold IsDigit; decide, by simp, Or.inl rfl⟩, ?_,
    ⟨by unfold IsDigit; decide, by simp, Or.inr ⟨rfl, rfl, by unfold Fits; decide⟩⟩⟩
  rw [decimal, show Sign.minus.apply (decVal (['1', '2'] ++ ['5'])) = -125 from rfl]
  norm_num

example : tokenize (ieeeEnv Float32.Model true) "-12.5".toList =
    .ok [⟨⟨1, 1⟩, .Float (.pack (.finite .negative 13107200 (-20) (by norm_num)))⟩] := by decide +kernel
example : tokenize (ieeeEnv Float32.Model true) "2.5e3".toList =
    .ok [⟨⟨1, 1⟩, .Float (Elem.fromInt 2500)⟩] := by decide +kernel
example : NumLit (ieeeEnv Float.Model true) ['3'] (.Int 3) :=
  NumLit.int .none ['3'] (by simp) (by unfold IsDigit; decide) (by unfold Fits; decide)

end Pbrt
