import Verif.Props.Literals
import Verif.Spec.Scientific

/-!
# C123: numbers in scientific notation
-/

namespace Pbrt

open Spec Proof
open Float.Model (UnpackedFloat)

section
variable {T : Type} [Elem T] [As T T] [FloatFns T] [IEEE T] {E : Env T}

local notation "𝔽" => IEEE.fmt T

/-- A literal with a point and an exponent is the product of its mantissa and a power of ten. -/
theorem scientific_product (hE : Sane E) (hR : Rounds E) {s : Sign} {a b x : List Char} {p r : T}
    (hd : ∀ c ∈ a ++ b, IsDigit c) (hne : a ++ b ≠ []) (hs : InSpan T (decimal s a b)) (hx : ReadAs E x p)
    (hr : NumLit E (s.text ++ (a ++ '.' :: b) ++ 'e' :: x) (.Float r)) :
    ∃ m, Nearest m (decimal s a b) ∧ r = fmul m (E.powf10 p) := by
  obtain ⟨m, h1, h2⟩ := hR.point s a b hd hne hs
  have hmul : E.fmul m (E.powf10 p) = fmul m (E.powf10 p) := by
    have := (hR.mul m (E.powf10 p)).symm.trans (fmul_ok _ _)
    simpa using this
  refine ⟨m, h2, ?_⟩
  rw [← hmul]
  obtain ⟨_, t, h3, _, h4⟩ := hx
  rcases h4 with h4 | ⟨i, h4, rfl⟩
  · obtain ⟨⟨_, rfl⟩, _⟩ := List.cons.inj h4
    have := numLit_unique hE hr (NumLit.floatExp s _ x m p (by simp) (.inr (fracBody_digits hE hd)) h1 h3)
    exact TokenType.Float.inj this
  · obtain ⟨⟨_, rfl⟩, _⟩ := List.cons.inj h4
    have := numLit_unique hE hr (NumLit.fracExp s _ x m i (fracBody_digits hE hd) h1 h3)
    exact TokenType.Float.inj this

/-- The mantissa is in the span of the format if the number is. -/
theorem span_mantissa {v : ℝ} {k : ℕ} (h : InSpan T (v * 10 ^ k)) : InSpan T v := by
  rw [C70_range] at h ⊢
  refine le_trans ?_ h
  rw [abs_mul]
  have : (1 : ℝ) ≤ |10 ^ k| := by
    rw [abs_of_pos (by positivity)]
    exact one_le_pow₀ (by norm_num)
  nlinarith [abs_nonneg v]

/-- **C123**: a mantissa that the format has exactly, with an exponent up to 10 (`f32`) or 22
    (`f64`), denotes a float nearest to the number written. -/
theorem C123_nearest (hE : Sane E) (hR : Rounds E) (hP : PowExact E) {s : Sign} {a b x : List Char}
    {r : T} {k : ℕ} (hd : ∀ c ∈ a ++ b, IsDigit c) (hne : a ++ b ≠ []) (hx : NumLit E x (.Int k))
    (hk : 5 ^ k ≤ 2 ^ (𝔽).mantissaBits) (n e : ℤ) (hn : |n| ≤ 2 ^ (𝔽).mantissaBits)
    (he : (𝔽).minExponent ≤ e) (hm : decimal s a b = n * 2 ^ e)
    (hs : InSpan T (decimal s a b * 10 ^ k))
    (hr : NumLit E (s.text ++ (a ++ '.' :: b) ++ 'e' :: x) (.Float r)) :
    Nearest r (decimal s a b * 10 ^ k) := by
  have hs' := span_mantissa hs
  obtain ⟨m, h1, rfl⟩ := scientific_product hE hR hd hne hs'
    (p := E.ofIsize k) ⟨⟨1, 1⟩, _, hx, ⟨1, 1⟩, .inr ⟨k, rfl, rfl⟩⟩ hr
  obtain ⟨p1, p2⟩ := hP k hk
  have hrep : (grid 𝔽).Rep (decimal s a b) := ⟨n, e, hn, he, hm⟩
  have hv : val m = decimal s a b := by
    have hb := inSpan_lt_big hs'
    rw [RN_rep hrep] at hb
    obtain ⟨g, h3, h4⟩ := exists_float (T := T) hrep hb
    exact nearest_exact h1 h3 h4
  obtain ⟨f1, f2⟩ := fmul_rnd h1.1 p1
  rw [p2, hv] at f2
  have hb := inSpan_lt_big hs
  have hrnd : rnd 𝔽 (decimal s a b * 10 ^ k) = ((grid 𝔽).RN (decimal s a b * 10 ^ k) : ℝ) := by
    unfold rnd
    rw [abs_lt] at hb
    rw [if_neg (by linarith), if_neg (by linarith)]
  rw [hrnd] at f2
  obtain ⟨g1, g2⟩ := finite_of_ext f1 f2
  refine ⟨g1, fun y _ => ?_⟩
  rw [g2]
  exact RN_nearest (rep_val y)

/-- **C123**: if the number written is one of the format it is read exactly. -/
theorem C123_exact (hE : Sane E) (hR : Rounds E) (hP : PowExact E) {s : Sign} {a b x : List Char}
    {r : T} {k : ℕ} (hd : ∀ c ∈ a ++ b, IsDigit c) (hne : a ++ b ≠ []) (hx : NumLit E x (.Int k))
    (hk : 5 ^ k ≤ 2 ^ (𝔽).mantissaBits) (n e n' e' : ℤ) (hn : |n| ≤ 2 ^ (𝔽).mantissaBits)
    (he : (𝔽).minExponent ≤ e) (hm : decimal s a b = n * 2 ^ e)
    (hs : InSpan T (decimal s a b * 10 ^ k)) (hn' : |n'| ≤ 2 ^ (𝔽).mantissaBits)
    (he' : (𝔽).minExponent ≤ e') (hm' : decimal s a b * 10 ^ k = n' * 2 ^ e')
    (hr : NumLit E (s.text ++ (a ++ '.' :: b) ++ 'e' :: x) (.Float r)) :
    val r = decimal s a b * 10 ^ k := by
  have h := C123_nearest hE hR hP hd hne hx hk n e hn he hm hs hr
  have hrep : (grid 𝔽).Rep (decimal s a b * 10 ^ k) := ⟨n', e', hn', he', hm'⟩
  have hb := inSpan_lt_big hs
  rw [RN_rep hrep] at hb
  obtain ⟨g, h3, h4⟩ := exists_float (T := T) hrep hb
  exact nearest_exact h h3 h4

/-- **C123**: literals with the same exponent keep the order of their mantissas. -/
theorem C123_monotone (hE : Sane E) (hR : Rounds E) (hP : PowNonneg E) {s s' : Sign}
    {a b a' b' x : List Char} {p r r' : T} (hd : ∀ c ∈ a ++ b, IsDigit c) (hne : a ++ b ≠ [])
    (hd' : ∀ c ∈ a' ++ b', IsDigit c) (hne' : a' ++ b' ≠ []) (hs : InSpan T (decimal s a b))
    (hs' : InSpan T (decimal s' a' b')) (hx : ReadAs E x p)
    (hr : NumLit E (s.text ++ (a ++ '.' :: b) ++ 'e' :: x) (.Float r)) (hf : IsFinite r)
    (hr' : NumLit E (s'.text ++ (a' ++ '.' :: b') ++ 'e' :: x) (.Float r')) (hf' : IsFinite r')
    (h : decimal s a b < decimal s' a' b') : val r ≤ val r' := by
  obtain ⟨m, h1, rfl⟩ := scientific_product hE hR hd hne hs hx hr
  obtain ⟨m', h2, rfl⟩ := scientific_product hE hR hd' hne' hs' hx hr'
  have hp := fmul_finite hf
  have hp' := fmul_finite hf'
  rw [val_of_rnd (fmul_rnd hp.1 hp.2) hf, val_of_rnd (fmul_rnd hp'.1 hp'.2) hf']
  exact RN_mono (mul_le_mul_of_nonneg_right (nearest_mono h1 h2 h) (hP p hp.2))
end

/-! ### A library with exact powers of ten -/

/-- Whether an unpacked float is a natural number -/
def isNumber (n : ℕ) : UnpackedFloat → Bool
  | .finite .positive m e _ => if 0 ≤ e then m * 2 ^ e.toNat == n else m == n * 2 ^ (-e).toNat
  | _ => false

section
variable {T : Type} [Elem T] [As T T] [FloatFns T] [IEEE T]

theorem isNumber_val {n : ℕ} {f : T} (h : isNumber n (up f) = true) : IsFinite f ∧ val f = n := by
  rw [isFinite_iff]
  unfold val
  cases hu : up f with
  | infinity s => rw [hu] at h; simp [isNumber] at h
  | notANumber => rw [hu] at h; simp [isNumber] at h
  | zero s => rw [hu] at h; simp [isNumber] at h
  | finite s m e hm =>
    rw [hu] at h
    refine ⟨trivial, ?_⟩
    rw [uval_finite]
    cases s with
    | negative => simp [isNumber] at h
    | positive =>
      simp only [isNumber] at h
      simp only [sgn, one_mul]
      split_ifs at h with he
      · have e1 : e = (e.toNat : ℤ) := by omega
        rw [e1, zpow_natCast]
        exact_mod_cast (beq_iff_eq.1 h)
      · have e1 : e = -((-e).toNat : ℤ) := by omega
        rw [e1, zpow_neg, zpow_natCast, ← div_eq_mul_inv, div_eq_iff (by positivity)]
        exact_mod_cast (beq_iff_eq.1 h)
end

/-- The powers of ten that `f32` has are exact. -/
theorem ieeeEnv_powExact32 (c : Bool) : PowExact (ieeeEnv Float32.Model c) := by
  intro k hk
  have hk' : k ∈ List.range 11 := by
    rw [List.mem_range]
    by_contra h
    have h1 : 5 ^ 11 ≤ 5 ^ k := Nat.pow_le_pow_right (by norm_num) (by omega)
    have h2 : (5 : ℕ) ^ k ≤ 2 ^ 24 := hk
    norm_num at h1 h2
    omega
  have hall : ∀ k ∈ List.range 11, isNumber (10 ^ k) (up (ieeePow (Elem.fromInt k : Float32.Model))) = true := by
    decide +kernel
  simpa [ieeeEnv] using isNumber_val (hall k hk')

/-- The powers of ten that `f64` has are exact. -/
theorem ieeeEnv_powExact64 (c : Bool) : PowExact (ieeeEnv Float.Model c) := by
  intro k hk
  have hk' : k ∈ List.range 23 := by
    rw [List.mem_range]
    by_contra h
    have h1 : 5 ^ 23 ≤ 5 ^ k := Nat.pow_le_pow_right (by norm_num) (by omega)
    have h2 : (5 : ℕ) ^ k ≤ 2 ^ 53 := hk
    norm_num at h1 h2
    omega
  have hall : ∀ k ∈ List.range 23, isNumber (10 ^ k) (up (ieeePow (Elem.fromInt k : Float.Model))) = true := by
    decide +kernel
  simpa [ieeeEnv] using isNumber_val (hall k hk')

/-- A quotient of natural numbers, rounded, is not negative. -/
theorem ratio_nonneg {T : Type} [Elem T] [As T T] [FloatFns T] [IEEE T] (n d : ℕ) (hd : 0 < d)
    (hf : IsFinite (IEEE.pk (ratio (IEEE.fmt T) false n d) : T)) :
    0 ≤ val (IEEE.pk (ratio (IEEE.fmt T) false n d) : T) := by
  have h : Rounded (IEEE.fmt T) ((n : ℝ) / d) (ratio (IEEE.fmt T) false n d) := by
    simpa using ratio_rounded (IEEE.fmt T) false n d hd
  have hv : (0 : ℝ) ≤ (n : ℝ) / d := by positivity
  generalize (n : ℝ) / d = v at h hv
  have h1 := (uext_over IEEE.heb h).1
  rw [← up_pk h.canon] at h1
  have h2 : Pbrt.ext (IEEE.pk (ratio (IEEE.fmt T) false n d) : T) = rnd (IEEE.fmt T) v := h1
  rw [hf.ext] at h2
  unfold rnd at h2
  split_ifs at h2
  · simp at h2
  · simp at h2
  · have h3 : val (IEEE.pk (ratio (IEEE.fmt T) false n d) : T) =
        (grid (IEEE.fmt T)).RN v := by exact_mod_cast h2
    rw [h3]
    exact RN_nonneg hv

theorem ieeeEnv_powNonneg {T : Type} [Elem T] [As T T] [FloatFns T] [IEEE T] (c : Bool) :
    PowNonneg (ieeeEnv T c) := by
  intro x
  change IsFinite (ieeePow x) → 0 ≤ val (ieeePow x)
  unfold ieeePow
  intro hf
  cases hu : up x with
  | finite s m e hm =>
    rw [hu] at hf
    cases s
    · exact ratio_nonneg _ _ (by positivity) hf
    · exact ratio_nonneg _ _ (by positivity) hf
  | zero s =>
    have := (fromInt_exact (T := T) 1 (by
      rw [abs_one]; exact one_lt_pow₀ (by norm_num) (by unfold Float.Model.Format.mantissaBits; omega))).2
    simp only [this]
    norm_num
  | infinity s =>
    rw [hu] at hf
    cases s with
    | positive =>
      rw [isFinite_iff, hu] at hf
      exact hf.elim
    | negative =>
      have := (fromInt_exact (T := T) 0 (by simp)).2
      simp only [this]
      norm_num
  | notANumber =>
    rw [hu] at hf
    rw [isFinite_iff, hu] at hf
    exact hf.elim

/-- **C123**: there is a library with all that is assumed. -/
theorem C123_library (c : Bool) :
    (Sane (ieeeEnv Float32.Model c) ∧ Rounds (ieeeEnv Float32.Model c) ∧
      PowExact (ieeeEnv Float32.Model c) ∧ PowNonneg (ieeeEnv Float32.Model c)) ∧
    (Sane (ieeeEnv Float.Model c) ∧ Rounds (ieeeEnv Float.Model c) ∧
      PowExact (ieeeEnv Float.Model c) ∧ PowNonneg (ieeeEnv Float.Model c)) :=
  ⟨⟨ieeeEnv_sane c, ieeeEnv_rounds c, ieeeEnv_powExact32 c, ieeeEnv_powNonneg c⟩,
    ⟨ieeeEnv_sane c, ieeeEnv_rounds c, ieeeEnv_powExact64 c, ieeeEnv_powNonneg c⟩⟩

-- a literal that is read exactly
example (r : Float32.Model) (hr : NumLit (ieeeEnv Float32.Model true) "-2.5e3".toList (.Float r)) :
    val r = -2500 := by
  have hd : decimal .minus ['2'] ['5'] = (-5 : ℤ) * 2 ^ (-1 : ℤ) := by
    rw [decimal, show Sign.minus.apply (decVal (['2'] ++ ['5'])) = -25 from by decide]
    norm_num
  have hx : NumLit (ieeeEnv Float32.Model true) ['3'] (.Int ((3 : ℕ) : ℤ)) :=
    NumLit.int .none ['3'] (by decide) (by unfold IsDigit; decide) (by unfold Fits; decide)
  have := C123_exact (ieeeEnv_sane true) (ieeeEnv_rounds true) (ieeeEnv_powExact32 true) (s := .minus)
    (a := ['2']) (b := ['5']) (x := ['3']) (r := r) (k := 3) (by unfold IsDigit; decide)
    (by decide) hx (by decide) (-5) (-1) (-2500) 0 (by decide) (by decide) hd
    (by rw [hd, C70_range32]; norm_num [abs_of_neg]) (by decide) (by decide)
    (by rw [hd]; norm_num) hr
  rw [this, hd]
  norm_num

/-! ### What is not true -/

/-- The `f64` above 110, and the `f32` above 120 -/
def above110 : Float.Model := .pack (.finite .positive 7740561859543041 (-46) (by norm_num))
def above120 : Float32.Model := .pack (.finite .positive 15728641 (-17) (by norm_num))

/-- **C123** (an expectation that fails): `1.1e2` is not 110 in double precision and `1.2e2` is not
    120 in single precision, although `11e1` and `12e1` are, and `110.0` and `120.0`. -/
theorem C123_refuted :
    (tokenize (ieeeEnv Float.Model true) "1.1e2".toList = .ok [⟨⟨1, 1⟩, .Float above110⟩] ∧
      val above110 ≠ 110 ∧
      tokenize (ieeeEnv Float.Model true) "110.0".toList = .ok [⟨⟨1, 1⟩, .Float (Elem.fromInt 110)⟩] ∧
      tokenize (ieeeEnv Float.Model true) "11e1".toList = .ok [⟨⟨1, 1⟩, .Int 110⟩]) ∧
    (tokenize (ieeeEnv Float32.Model true) "1.2e2".toList = .ok [⟨⟨1, 1⟩, .Float above120⟩] ∧
      val above120 ≠ 120 ∧
      tokenize (ieeeEnv Float32.Model true) "120.0".toList = .ok [⟨⟨1, 1⟩, .Float (Elem.fromInt 120)⟩] ∧
      tokenize (ieeeEnv Float32.Model true) "12e1".toList = .ok [⟨⟨1, 1⟩, .Int 120⟩]) := by
  refine ⟨⟨by decide +kernel, ?_, by decide +kernel, by decide +kernel⟩,
    ⟨by decide +kernel, ?_, by decide +kernel, by decide +kernel⟩⟩
  · unfold val
    rw [show up above110 = .finite .positive 7740561859543041 (-46) (by norm_num) from rfl, uval_finite]
    norm_num [sgn]
  · unfold val
    rw [show up above120 = .finite .positive 15728641 (-17) (by norm_num) from rfl, uval_finite]
    norm_num [sgn]

end Pbrt
