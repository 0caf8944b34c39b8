import Verif.Proof.Rounding
import Verif.Proof.FloatOrder
import Verif.Spec.FloatValue
import Mathlib.Data.Nat.Log

/-!
# The float model rounds correctly

Lean core's float model computes with mantissas, round bits and sticky bits; here its rounding is
shown to be `Grid.RN`.
-/

namespace Pbrt

open Float.Model (UnpackedFloat Format totalExponent)
open Float.Model.UnpackedFloat (Sign Accuracy ExtendedMantissa shiftToTargetExponent shiftToExponent
  roundWithAccuracy decreaseExponent normalize)

/-- The precision and smallest exponent of a format -/
def grid (fmt : Format) : Grid := ⟨fmt.mantissaBits, by unfold Format.mantissaBits; omega, fmt.minExponent⟩

/-- The number an approximation stands for: `y` is `m`, or lies between `m` and `m + 1` in the way
    the accuracy says. -/
def Approx (m : ℕ) (acc : Accuracy) (y : ℝ) : Prop :=
  match acc with
  | .exact => y = m
  | .inexact .lt => m < y ∧ y < m + 1 / 2
  | .inexact .eq => y = m + 1 / 2
  | .inexact .gt => m + 1 / 2 < y ∧ y < m + 1

theorem Approx.bounds {m : ℕ} {acc : Accuracy} {y : ℝ} (h : Approx m acc y) : m ≤ y ∧ y < m + 1 := by
  rcases acc with _ | (_|_|_) <;> simp only [Approx] at h
  · subst h; constructor <;> linarith
  · constructor <;> linarith
  · constructor <;> linarith
  · constructor <;> linarith

theorem Approx.rne {m : ℕ} {acc : Accuracy} {y : ℝ} (h : Approx m acc y) :
    (acc.roundToNearestEven m : ℤ) = rne y := by
  have hb := h.bounds
  have hf : ⌊y⌋ = m := Int.floor_eq_iff.2 ⟨by exact_mod_cast hb.1, by exact_mod_cast hb.2⟩
  unfold Pbrt.rne
  rw [hf]
  rcases acc with _ | (_|_|_) <;> simp only [Approx] at h <;>
    simp only [Accuracy.roundToNearestEven, Int.cast_natCast]
  · rw [if_pos (by rw [h]; norm_num)]
  · rw [if_pos (by linarith)]
  · rw [if_neg (by rw [h]; norm_num), if_neg (by rw [h]; norm_num)]; push_cast; rfl
  · rw [if_neg (by linarith), if_pos (by linarith)]; push_cast; rfl

/-- What an extended mantissa stands for -/
def EmApprox (em : ExtendedMantissa) (y : ℝ) : Prop := Approx em.mantissa em.accuracy y

theorem EmApprox.shift {em : ExtendedMantissa} {y : ℝ} (h : EmApprox em y) :
    EmApprox em.shiftRightOne (y / 2) := by
  obtain ⟨m, r, s⟩ := em
  have hd : (m : ℝ) = 2 * (m / 2 : ℕ) + (m % 2 : ℕ) := by exact_mod_cast (Nat.div_add_mod m 2).symm
  unfold EmApprox at h ⊢
  rcases Nat.mod_two_eq_zero_or_one m with hm | hm <;> rw [hm] at hd <;>
    cases r <;> cases s <;>
    simp only [ExtendedMantissa.shiftRightOne, ExtendedMantissa.accuracy, Approx, hm, Bool.or_true,
      Bool.or_false, bne_self_eq_false, show ((1 : ℕ) != 0) = true from rfl] at h ⊢ <;>
    push_cast at hd ⊢ <;>
    first | linarith | (constructor <;> linarith)

theorem EmApprox.shiftN {em : ExtendedMantissa} {y : ℝ} (n : ℕ) (h : EmApprox em y) :
    EmApprox (em >>> n) (y / 2 ^ n) := by
  show EmApprox (n.repeat ExtendedMantissa.shiftRightOne em) _
  induction n with
  | zero => rw [pow_zero, div_one]; exact h
  | succ n ih =>
    have := ih.shift
    rw [div_div, ← pow_succ] at this
    exact this

theorem emApprox_ofMantissa {m : ℕ} {acc : Accuracy} {y : ℝ} (h : Approx m acc y) :
    EmApprox (ExtendedMantissa.ofMantissaAndAccuracy m acc) y := by
  rcases acc with _ | (_|_|_) <;> exact h

theorem shift_exact {m n : ℕ} (hn : 2 ^ n ∣ m) :
    ((ExtendedMantissa.ofMantissaAndAccuracy m .exact) >>> n).mantissa = m / 2 ^ n := by
  have h := (emApprox_ofMantissa (show Approx m .exact (m : ℝ) from rfl)).shiftN n
  have hb := h.bounds
  obtain ⟨k, rfl⟩ := hn
  rw [Nat.mul_div_cancel_left _ (by positivity)]
  have : ((2 ^ n * k : ℕ) : ℝ) / 2 ^ n = k := by push_cast; field_simp
  rw [this] at hb
  have h1 := hb.1
  have h2 := hb.2
  have h3 : ((ExtendedMantissa.ofMantissaAndAccuracy (2 ^ n * k) .exact) >>> n).mantissa ≤ k := by exact_mod_cast h1
  have h4 : k < ((ExtendedMantissa.ofMantissaAndAccuracy (2 ^ n * k) .exact) >>> n).mantissa + 1 := by exact_mod_cast h2
  omega

/-- A sign as a factor -/
def sgn : Sign → ℝ
  | .negative => -1
  | .positive => 1

theorem uval_finite (s : Sign) (m : ℕ) (e : ℤ) (h) : uval (.finite s m e h) = sgn s * (m * 2 ^ e) := by
  cases s <;> simp [uval, sgn, Sign.apply]

/-- The form of a correctly rounded float: at most `p` bits, no more than the smallest exponent
    requires -/
def Canon (fmt : Format) : UnpackedFloat → Prop
  | .finite _ m e _ => m < 2 ^ fmt.mantissaBits ∧ fmt.minExponent ≤ e ∧
      (2 ^ (fmt.mantissaBits - 1) ≤ m ∨ e = fmt.minExponent)
  | _ => True

/-- A zero or a finite number, with the given sign -/
def HasSign (s : Sign) : UnpackedFloat → Prop
  | .zero s' => s' = s
  | .finite s' _ _ _ => s' = s
  | _ => False

theorem log2_eq (m : ℕ) : m.log2 = Nat.log 2 m := Nat.log2_eq_log_two

theorem target_eq {fmt : Format} {m : ℕ} {e : ℤ} {y : ℝ} (hm : 0 < m) (h : m ≤ y ∧ y < m + 1) :
    fmt.targetExponent (totalExponent m e) = (grid fmt).ulpExp (y * 2 ^ e) := by
  have hy : 0 < y := lt_of_lt_of_le (by exact_mod_cast hm) h.1
  have hpos : 0 < y * 2 ^ e := mul_pos hy (two_zpow_pos e)
  have hlog : Int.log 2 (y * 2 ^ e) = m.log2 + e := by
    apply le_antisymm
    · rw [← Int.lt_add_one_iff, ← Int.lt_zpow_iff_log_lt (by norm_num) hpos]
      push_cast
      rw [show (m.log2 : ℤ) + e + 1 = ((m.log2 + 1 : ℕ) : ℤ) + e by push_cast; ring,
        zpow_add₀ (by norm_num), zpow_natCast]
      refine mul_lt_mul_of_pos_right ?_ (two_zpow_pos e)
      have : m + 1 ≤ 2 ^ (m.log2 + 1) := by
        have := Nat.lt_log2_self (n := m); omega
      have : (m : ℝ) + 1 ≤ 2 ^ (m.log2 + 1) := by exact_mod_cast this
      linarith
    · rw [← Int.zpow_le_iff_le_log (by norm_num) hpos]
      push_cast
      rw [zpow_add₀ (by norm_num), zpow_natCast]
      refine mul_le_mul_of_nonneg_right ?_ (two_zpow_pos e).le
      have : (2 : ℝ) ^ m.log2 ≤ m := by exact_mod_cast Nat.log2_self_le hm.ne'
      linarith
  unfold Grid.ulpExp Format.targetExponent totalExponent
  rw [abs_of_pos hpos, hlog]
  show max _ _ = max (_ + 1 - (fmt.mantissaBits : ℤ)) fmt.minExponent
  congr 1
  ring

theorem target_eq_zero {fmt : Format} {e : ℤ} {y : ℝ} (hy : 0 < y) (hy1 : y < 1)
    (he : e + 1 - fmt.mantissaBits ≤ fmt.minExponent) :
    fmt.targetExponent (totalExponent 0 e) = (grid fmt).ulpExp (y * 2 ^ e) := by
  have hpos : 0 < y * 2 ^ e := mul_pos hy (two_zpow_pos e)
  have hlog : Int.log 2 (y * 2 ^ e) < e := by
    rw [← Int.lt_zpow_iff_log_lt (by norm_num) hpos]
    push_cast
    have := mul_lt_mul_of_pos_right hy1 (two_zpow_pos e)
    linarith
  unfold Grid.ulpExp Format.targetExponent totalExponent
  rw [abs_of_pos hpos]
  show max _ _ = max (_ + 1 - (fmt.mantissaBits : ℤ)) fmt.minExponent
  have : (Nat.log2 0 : ℤ) = 0 := by simp
  rw [this]
  omega

theorem shiftToExponent_le {m : ℕ} {e t : ℤ} {acc : Accuracy} (h : t ≤ e) :
    shiftToExponent m e acc t = (ExtendedMantissa.ofMantissaAndAccuracy m acc, e) := by
  unfold shiftToExponent
  have : (t - e).toNat = 0 := by omega
  simp only [this]
  simp only [Nat.cast_zero, add_zero]
  rfl

/-- Rounding with an accuracy rounds the number that the accuracy describes. -/
theorem roundWithAccuracy_spec {fmt : Format} {s : Sign} {m : ℕ} {e : ℤ} {acc : Accuracy} {y : ℝ}
    (h : Approx m acc y) (hy : 0 < y)
    (hm : 0 < m ∨ e + 1 - fmt.mantissaBits ≤ fmt.minExponent)
    (he : e ≤ fmt.targetExponent (totalExponent m e)) :
    Canon fmt (roundWithAccuracy fmt s m e acc) ∧ HasSign s (roundWithAccuracy fmt s m e acc) ∧
      uval (roundWithAccuracy fmt s m e acc) = sgn s * (grid fmt).RN (y * 2 ^ e) := by
  have ht : fmt.targetExponent (totalExponent m e) = (grid fmt).ulpExp (y * 2 ^ e) := by
    rcases Nat.eq_zero_or_pos m with rfl | h0
    · have := h.bounds
      exact target_eq_zero hy (by simpa using this.2) (hm.resolve_left (by omega))
    · exact target_eq h0 h.bounds
  set t := (grid fmt).ulpExp (y * 2 ^ e) with htdef
  set x := y * 2 ^ e with hx
  have hxpos : 0 < x := mul_pos hy (two_zpow_pos e)
  rw [ht] at he
  obtain ⟨k, hk⟩ : ∃ k : ℕ, t = e + k := ⟨(t - e).toNat, by omega⟩
  have h1 : shiftToTargetExponent fmt m e acc =
      ((ExtendedMantissa.ofMantissaAndAccuracy m acc) >>> k, t) := by
    unfold shiftToTargetExponent shiftToExponent
    simp only [ht]
    have : (t - e).toNat = k := by omega
    rw [this, ← hk]
  set em := (ExtendedMantissa.ofMantissaAndAccuracy m acc) >>> k with hem
  have hap : EmApprox em (x / 2 ^ t) := by
    have := (emApprox_ofMantissa h).shiftN k
    have e2 : x / 2 ^ t = y / 2 ^ k := by
      rw [hx, hk, zpow_add₀ (by norm_num), zpow_natCast]
      have := two_zpow_pos e
      field_simp
    rw [e2]
    exact this
  set r := em.roundedMantissa with hr
  have hrne : (r : ℤ) = rne (x / 2 ^ t) := hap.rne
  have hRN : (grid fmt).RN x = r * 2 ^ t := by
    unfold Grid.RN
    rw [← htdef, ← hrne]
    push_cast
    rfl
  have htpos := two_zpow_pos t
  set p := fmt.mantissaBits with hp
  have hp1 : 1 ≤ p := by rw [hp]; unfold Format.mantissaBits; omega
  have hrle : r ≤ 2 ^ p := by
    have : (r : ℤ) ≤ 2 ^ p := by
      rw [hrne]
      refine rne_le ?_
      rw [div_le_iff₀ htpos]
      have := abs_lt_ulp (g := grid fmt) x
      rw [← htdef, abs_of_pos hxpos, zpow_add₀ (by norm_num), zpow_natCast] at this
      push_cast
      rw [mul_comm]
      exact this.le
    exact_mod_cast this
  have hemin : fmt.minExponent ≤ t := emin_le_ulpExp x
  have hnorm : 2 ^ (p - 1) ≤ r ∨ t = fmt.minExponent := by
    by_cases hte : t = fmt.minExponent
    · exact Or.inr hte
    left
    have htl : t = Int.log 2 x + 1 - p := by
      have : t = max (Int.log 2 x + 1 - p) fmt.minExponent := by
        rw [htdef]; unfold Grid.ulpExp; rw [abs_of_pos hxpos]; rfl
      omega
    have : ((2 ^ (p - 1) : ℕ) : ℤ) ≤ r := by
      rw [hrne]
      refine le_rne ?_
      rw [le_div_iff₀ htpos]
      have := Int.zpow_log_le_self (b := 2) (by norm_num) hxpos
      refine le_trans (le_of_eq ?_) this
      push_cast
      rw [← zpow_natCast, ← zpow_add₀ (by norm_num)]
      congr 1
      omega
    exact_mod_cast this
  have hround : roundWithAccuracy fmt s m e acc =
      if h : (shiftToTargetExponent fmt r t .exact).1.mantissa = 0 then .zero s
      else .finite s _ (shiftToTargetExponent fmt r t .exact).2 (Nat.pos_of_ne_zero h) := by
    unfold roundWithAccuracy
    rw [h1]
  rw [hRN, hround]
  clear_value r
  clear hround hr hRN
  rcases Nat.eq_zero_or_pos r with rfl | hrpos
  · have : (shiftToTargetExponent fmt 0 t .exact).1.mantissa = 0 := by
      unfold shiftToTargetExponent shiftToExponent
      rw [shift_exact (dvd_zero _), Nat.zero_div]
    rw [dif_pos this]
    simp [Canon, HasSign, uval]
  rcases hrle.lt_or_eq with hlt | rfl
  · have hl : r.log2 + 1 ≤ p := by
      have := (Nat.log2_lt hrpos.ne').2 hlt
      omega
    have : shiftToTargetExponent fmt r t .exact =
        (ExtendedMantissa.ofMantissaAndAccuracy r .exact, t) := by
      unfold shiftToTargetExponent
      refine shiftToExponent_le ?_
      unfold Format.targetExponent totalExponent
      rw [← hp]
      omega
    have h0 : ¬ (shiftToTargetExponent fmt r t .exact).1.mantissa = 0 := by
      rw [this]; exact hrpos.ne'
    rw [dif_neg h0]
    simp only [this]
    refine ⟨⟨hlt, hemin, hnorm⟩, rfl, uval_finite ..⟩
  · have hl : (2 ^ p).log2 = p := Nat.log2_two_pow
    have : shiftToTargetExponent fmt (2 ^ p) t .exact =
        ((ExtendedMantissa.ofMantissaAndAccuracy (2 ^ p) .exact) >>> 1, t + 1) := by
      unfold shiftToTargetExponent shiftToExponent Format.targetExponent totalExponent
      rw [hl, ← hp]
      have : (max ((p : ℤ) + 1 + t - p) fmt.minExponent - t).toNat = 1 := by omega
      simp only [this]
      rfl
    have hmant : ((ExtendedMantissa.ofMantissaAndAccuracy (2 ^ p) .exact) >>> 1).mantissa = 2 ^ (p - 1) := by
      obtain ⟨q, hq⟩ : ∃ q, p = q + 1 := ⟨p - 1, by omega⟩
      rw [shift_exact (by rw [hq]; exact pow_dvd_pow 2 (by omega)), hq]
      rw [pow_succ, pow_one, Nat.mul_div_cancel _ (by norm_num)]
      rfl
    have h0 : ¬ (shiftToTargetExponent fmt (2 ^ p) t .exact).1.mantissa = 0 := by
      rw [this]; simp only [hmant]; positivity
    rw [dif_neg h0]
    simp only [this]
    refine ⟨⟨?_, by omega, Or.inl ?_⟩, rfl, ?_⟩
    · rw [hmant]; exact Nat.pow_lt_pow_right (by norm_num) (by omega)
    · rw [hmant]
    · rw [uval_finite, hmant]
      push_cast
      rw [zpow_add₀ (by norm_num), zpow_one]
      have : (2 : ℝ) ^ p = 2 ^ (p - 1) * 2 := by rw [← pow_succ]; congr 1; omega
      rw [this]
      ring

theorem totalExponent_shift {m : ℕ} (hm : 0 < m) (e : ℤ) (k : ℕ) :
    totalExponent (m <<< k) (e - k) = totalExponent m e := by
  unfold totalExponent
  have : (m <<< k).log2 = m.log2 + k := by
    rw [Nat.shiftLeft_eq, Nat.log2_eq_iff (by positivity)]
    constructor
    · rw [pow_add]; exact Nat.mul_le_mul_right _ (Nat.log2_self_le hm.ne')
    · rw [show m.log2 + k + 1 = m.log2 + 1 + k by omega, pow_add]
      exact Nat.mul_lt_mul_of_pos_right Nat.lt_log2_self (by positivity)
  rw [this]
  push_cast
  ring

theorem round_spec {fmt : Format} {s : Sign} {m : ℕ} {e : ℤ} (hm : 0 < m) :
    Canon fmt (UnpackedFloat.round fmt s m e) ∧ HasSign s (UnpackedFloat.round fmt s m e) ∧
      uval (UnpackedFloat.round fmt s m e) = sgn s * (grid fmt).RN (m * 2 ^ e) := by
  unfold UnpackedFloat.round decreaseExponent
  set k := (e - fmt.targetExponent (totalExponent m e)).toNat with hk
  have hpos : 0 < m <<< k := by rw [Nat.shiftLeft_eq]; positivity
  have h := roundWithAccuracy_spec (fmt := fmt) (s := s) (m := m <<< k) (e := e - k) (acc := .exact)
    (y := (m <<< k : ℕ)) rfl (by exact_mod_cast hpos) (Or.inl hpos)
    (by rw [totalExponent_shift hm]; omega)
  have e2 : ((m <<< k : ℕ) : ℝ) * 2 ^ (e - k) = m * 2 ^ e := by
    rw [Nat.shiftLeft_eq, zpow_sub₀ (by norm_num), zpow_natCast]
    push_cast
    field_simp
  rw [e2] at h
  exact h

/-- A zero, or a finite number -/
def IsFin : UnpackedFloat → Prop
  | .zero _ => True
  | .finite .. => True
  | _ => False

theorem HasSign.isFin {s : Sign} {u : UnpackedFloat} (h : HasSign s u) : IsFin u := by
  cases u <;> simp [HasSign, IsFin] at *

theorem normalize_spec {fmt : Format} {n : ℤ} {e : ℤ} {z : Sign} :
    Canon fmt (normalize fmt n e z) ∧ IsFin (normalize fmt n e z) ∧
      uval (normalize fmt n e z) = (grid fmt).RN (n * 2 ^ e) ∧
      (n = 0 → normalize fmt n e z = .zero z) ∧
      (0 < n → HasSign .positive (normalize fmt n e z)) ∧
      (n < 0 → HasSign .negative (normalize fmt n e z)) := by
  rcases lt_trichotomy n 0 with h | rfl | h
  · have hc : compare n 0 = .lt := compare_lt_iff_lt.2 h
    have hpos : 0 < (-n).toNat := by omega
    have hr := round_spec (fmt := fmt) (s := .negative) (e := e) hpos
    have e2 : (((-n).toNat : ℕ) : ℝ) = -n := by
      have : (((-n).toNat : ℕ) : ℤ) = -n := by omega
      exact_mod_cast congrArg (Int.cast : ℤ → ℝ) this
    unfold normalize
    rw [hc]
    simp only
    refine ⟨hr.1, hr.2.1.isFin, ?_, by omega, by omega, fun _ => hr.2.1⟩
    rw [hr.2.2, e2, neg_mul, RN_neg, sgn]
    ring
  · unfold normalize
    simp [Canon, IsFin, uval, RN_zero]
  · have hc : compare n 0 = .gt := compare_gt_iff_gt.2 h
    have hpos : 0 < n.toNat := by omega
    have hr := round_spec (fmt := fmt) (s := .positive) (e := e) hpos
    have e2 : ((n.toNat : ℕ) : ℝ) = n := by
      have : ((n.toNat : ℕ) : ℤ) = n := by omega
      exact_mod_cast congrArg (Int.cast : ℤ → ℝ) this
    unfold normalize
    rw [hc]
    simp only
    refine ⟨hr.1, hr.2.1.isFin, ?_, by omega, fun _ => hr.2.1, by omega⟩
    rw [hr.2.2, e2, sgn, one_mul]

theorem Canon.rep {fmt : Format} {u : UnpackedFloat} (h : Canon fmt u) : (grid fmt).Rep (uval u) := by
  cases u with
  | finite s m e hm =>
    refine ⟨s.apply m, e, ?_, h.2.1, rfl⟩
    have := h.1
    have h2 : ((m : ℕ) : ℤ) ≤ 2 ^ fmt.mantissaBits := by exact_mod_cast this.le
    cases s <;> simp only [Sign.apply, abs_neg] <;> rw [abs_of_nonneg (by omega)] <;> exact h2
  | _ => exact ⟨0, fmt.minExponent, by simp, le_refl _, by simp [uval]⟩

theorem RN_uval {fmt : Format} {u : UnpackedFloat} (h : Canon fmt u) : (grid fmt).RN (uval u) = uval u :=
  RN_rep h.rep

theorem uval_neg (u : UnpackedFloat) : uval u.neg = - uval u := by
  cases u with
  | finite s m e hm => cases s <;> simp [UnpackedFloat.neg, uval, Sign.apply, show -Sign.negative = Sign.positive from rfl, show -Sign.positive = Sign.negative from rfl]
  | _ => simp [UnpackedFloat.neg, uval]

theorem uval_abs (u : UnpackedFloat) : uval u.abs = |uval u| := by
  cases u with
  | finite s m e hm =>
    cases s <;> simp only [UnpackedFloat.abs, uval, Sign.apply] <;>
      rw [abs_mul, abs_of_pos (two_zpow_pos e)] <;> simp
  | _ => simp [UnpackedFloat.abs, uval]

theorem Canon.neg {fmt : Format} {u : UnpackedFloat} (h : Canon fmt u) : Canon fmt u.neg := by
  cases u <;> exact h

theorem Canon.abs {fmt : Format} {u : UnpackedFloat} (h : Canon fmt u) : Canon fmt u.abs := by
  cases u <;> exact h

/-- The sign of a finite float that is not zero -/
theorem uval_pos {s : Sign} {m : ℕ} {e : ℤ} {h} : 0 < sgn s * uval (.finite s m e h) := by
  rw [uval_finite]
  have : (0 : ℝ) < m * 2 ^ e := mul_pos (by exact_mod_cast h) (two_zpow_pos e)
  cases s <;> simp only [sgn] <;> linarith

theorem apply_cast (s : Sign) (m : ℕ) : ((s.apply m : ℤ) : ℝ) = sgn s * m := by
  cases s <;> simp [Sign.apply, sgn]

/-- What is known about the exact sum of two finite numbers, rounded: `z` is the sign of an exact
    zero sum. -/
structure Rounded (fmt : Format) (x : ℝ) (u : UnpackedFloat) : Prop where
  canon : Canon fmt u
  fin : IsFin u
  val : uval u = (grid fmt).RN x
  pos : 0 < x → HasSign .positive u
  neg : x < 0 → HasSign .negative u

theorem Rounded.of_canon {fmt : Format} {u : UnpackedFloat} (h : Canon fmt u) (hf : IsFin u) :
    Rounded fmt (uval u) u := by
  refine ⟨h, hf, (RN_uval h).symm, ?_, ?_⟩ <;> cases u with
  | finite s m e hm =>
    have := uval_pos (s := s) (m := m) (e := e) (h := hm)
    cases s <;> simp only [sgn, HasSign] at this ⊢ <;> intro h <;> first | trivial | (exfalso; linarith)
  | _ => simp [uval]

theorem decrease_val (m : ℕ) (e t : ℤ) (h : t ≤ e) :
    ((decreaseExponent m e t).1 : ℝ) * 2 ^ t = m * 2 ^ e := by
  unfold decreaseExponent
  simp only [Nat.shiftLeft_eq]
  push_cast
  rw [mul_assoc, ← zpow_natCast, ← zpow_add₀ (by norm_num)]
  congr 2
  omega

theorem normalize_rounded {fmt : Format} {n : ℤ} {e : ℤ} {z : Sign} {x : ℝ} (h : x = n * 2 ^ e) :
    Rounded fmt x (normalize fmt n e z) ∧ (x = 0 → normalize fmt n e z = .zero z) := by
  have hs := normalize_spec (fmt := fmt) (n := n) (e := e) (z := z)
  have hp := two_zpow_pos e
  subst h
  refine ⟨⟨hs.1, hs.2.1, hs.2.2.1, fun h => hs.2.2.2.2.1 ?_, fun h => hs.2.2.2.2.2 ?_⟩, fun h => hs.2.2.2.1 ?_⟩
  · have := (mul_pos_iff_of_pos_right hp).1 h
    exact_mod_cast this
  · have := (mul_neg_iff.1 h)
    have : (n : ℝ) < 0 := by rcases this with h | h <;> [linarith; exact h.1]
    exact_mod_cast this
  · have := (mul_eq_zero.1 h).resolve_right hp.ne'
    exact_mod_cast this

theorem exact_sum (s s' : Sign) (m m' : ℕ) (e e' : ℤ) (h h') :
    uval (.finite s m e h) + uval (.finite s' m' e' h') =
      ((s.apply (decreaseExponent m e (min e e')).1 + s'.apply (decreaseExponent m' e' (min e e')).1 : ℤ) : ℝ) *
        2 ^ min e e' := by
  rw [uval_finite, uval_finite, Int.cast_add, apply_cast, apply_cast, add_mul, mul_assoc, mul_assoc,
    decrease_val _ _ _ (min_le_left _ _), decrease_val _ _ _ (min_le_right _ _)]

theorem add_spec {fmt : Format} {a b : UnpackedFloat} (ha : Canon fmt a) (hb : Canon fmt b)
    (fa : IsFin a) (fb : IsFin b) : Rounded fmt (uval a + uval b) (UnpackedFloat.add fmt a b) := by
  cases a with
  | infinity _ => exact fa.elim
  | notANumber => exact fa.elim
  | zero s =>
    cases b with
    | infinity _ => exact fb.elim
    | notANumber => exact fb.elim
    | zero s' =>
      rw [show uval (.zero s) + uval (.zero s') = 0 by simp [uval]]
      cases s <;> cases s' <;> exact ⟨trivial, trivial, by simp [uval, RN_zero, UnpackedFloat.add], by simp, by simp⟩
    | finite s' m e h =>
      simpa [uval, UnpackedFloat.add] using Rounded.of_canon hb fb
  | finite s m e h =>
    cases b with
    | infinity _ => exact fb.elim
    | notANumber => exact fb.elim
    | zero s' => simpa [uval, UnpackedFloat.add] using Rounded.of_canon ha fa
    | finite s' m' e' h' =>
      refine (normalize_rounded ?_).1
      exact exact_sum ..

/-- An exact zero sum is `+0`, unless both summands are `-0`. -/
theorem add_zero_sum {fmt : Format} {a b : UnpackedFloat} 
    (fa : IsFin a) (fb : IsFin b) (h0 : uval a + uval b = 0) :
    UnpackedFloat.add fmt a b = .zero .positive ∨
      (a = .zero .negative ∧ b = .zero .negative ∧ UnpackedFloat.add fmt a b = .zero .negative) := by
  cases a with
  | infinity _ => exact fa.elim
  | notANumber => exact fa.elim
  | zero s =>
    cases b with
    | infinity _ => exact fb.elim
    | notANumber => exact fb.elim
    | zero s' => cases s <;> cases s' <;> simp [UnpackedFloat.add]
    | finite s' m e h =>
      have := uval_pos (s := s') (m := m) (e := e) (h := h)
      rw [show uval (.zero s) = 0 from rfl, zero_add] at h0
      rw [h0] at this
      simp at this
  | finite s m e h =>
    cases b with
    | infinity _ => exact fb.elim
    | notANumber => exact fb.elim
    | zero s' =>
      have := uval_pos (s := s) (m := m) (e := e) (h := h)
      rw [show uval (.zero s') = 0 from rfl, add_zero] at h0
      rw [h0] at this
      simp at this
    | finite s' m' e' h' =>
      refine Or.inl ((normalize_rounded (x := uval (.finite s m e h) + uval (.finite s' m' e' h')) ?_).2 h0)
      exact exact_sum ..

theorem fsub_eq (fmt : Format) (a b : UnpackedFloat) :
    UnpackedFloat.sub fmt a b = UnpackedFloat.add fmt a b.neg := by
  cases a <;> cases b <;> simp only [UnpackedFloat.sub, UnpackedFloat.add, UnpackedFloat.neg] 
  rename_i s m e h s' m' e' h'
  congr 1
  cases s' <;> simp [Sign.apply, show -Sign.negative = Sign.positive from rfl,
    show -Sign.positive = Sign.negative from rfl] <;> omega

theorem smm : Sign.negative * Sign.negative = .positive := rfl
theorem smp : Sign.negative * Sign.positive = .negative := rfl
theorem spm : Sign.positive * Sign.negative = .negative := rfl
theorem spp : Sign.positive * Sign.positive = .positive := rfl

theorem sgn_mul (s t : Sign) : sgn (s * t) = sgn s * sgn t := by
  cases s <;> cases t <;> simp only [sgn, smm, smp, spm, spp] <;> norm_num

theorem IsFin.neg {u : UnpackedFloat} (h : IsFin u) : IsFin u.neg := by cases u <;> exact h

theorem sub_spec {fmt : Format} {a b : UnpackedFloat} (ha : Canon fmt a) (hb : Canon fmt b)
    (fa : IsFin a) (fb : IsFin b) : Rounded fmt (uval a - uval b) (UnpackedFloat.sub fmt a b) := by
  rw [fsub_eq, sub_eq_add_neg, ← uval_neg]
  exact add_spec ha hb.neg fa fb.neg

/-- The sign of a nonzero product -/
theorem sgn_of_pos {s : Sign} {y : ℝ} (hy : 0 < y) : (0 < sgn s * y → s = .positive) ∧ (sgn s * y < 0 → s = .negative) := by
  cases s <;> simp only [sgn] <;> constructor <;> intro h <;> first | trivial | (exfalso; linarith)

theorem RN_sgn (g : Grid) (s : Sign) (x : ℝ) : g.RN (sgn s * x) = sgn s * g.RN x := by
  cases s <;> simp [sgn, RN_neg]

theorem rounded_of {fmt : Format} {s : Sign} {y : ℝ} {u : UnpackedFloat} (hy : 0 < y)
    (h : Canon fmt u ∧ HasSign s u ∧ uval u = sgn s * (grid fmt).RN y) : Rounded fmt (sgn s * y) u := by
  refine ⟨h.1, h.2.1.isFin, by rw [h.2.2, RN_sgn], fun h0 => ?_, fun h0 => ?_⟩
  · rw [← (sgn_of_pos hy).1 h0]; exact h.2.1
  · rw [← (sgn_of_pos hy).2 h0]; exact h.2.1

theorem minExponent_le {fmt : Format} : fmt.minExponent ≤ 1 := by
  unfold Format.minExponent Format.mantissaBits
  have : (1 : ℤ) ≤ 2 ^ (fmt.exponentBits - 1) := one_le_pow₀ (by norm_num)
  have := fmt.hm
  push_cast
  omega

theorem mul_finite {fmt : Format} {s s' : Sign} {m m' : ℕ} {e e' : ℤ} {h : 0 < m} {h' : 0 < m'}
    (ha : Canon fmt (.finite s m e h)) (hb : Canon fmt (.finite s' m' e' h')) :
    Rounded fmt (uval (.finite s m e h) * uval (.finite s' m' e' h'))
      (UnpackedFloat.mul fmt (.finite s m e h) (.finite s' m' e' h')) ∧
    HasSign (s * s') (UnpackedFloat.mul fmt (.finite s m e h) (.finite s' m' e' h')) := by
  have hpos : 0 < m * m' := Nat.mul_pos h h'
  have hp1 : 1 ≤ fmt.mantissaBits := by unfold Format.mantissaBits; omega
  have hb2 : 2 ≤ fmt.mantissaBits := by unfold Format.mantissaBits; have := fmt.hm; omega
  have he0 : fmt.minExponent ≤ 0 := by
    unfold Format.minExponent
    have : (1 : ℤ) ≤ 2 ^ (fmt.exponentBits - 1) := one_le_pow₀ (by norm_num)
    omega
  have key : e + e' ≤ fmt.targetExponent (totalExponent (m * m') (e + e')) := by
    unfold Format.targetExponent totalExponent
    by_cases hn : 2 ^ (fmt.mantissaBits - 1) ≤ m ∨ 2 ^ (fmt.mantissaBits - 1) ≤ m'
    · have : 2 ^ (fmt.mantissaBits - 1) ≤ m * m' := by
        rcases hn with hn | hn
        · exact hn.trans (Nat.le_mul_of_pos_right _ h')
        · exact hn.trans (Nat.le_mul_of_pos_left _ h)
      have : fmt.mantissaBits - 1 ≤ (m * m').log2 := (Nat.le_log2 hpos.ne').2 this
      omega
    · have h1 := ha.2.2.resolve_left (by tauto)
      have h2 := hb.2.2.resolve_left (by tauto)
      omega
  have hr := roundWithAccuracy_spec (fmt := fmt) (s := s * s') (m := m * m') (e := e + e') (acc := .exact)
    (y := (m * m' : ℕ)) rfl (by exact_mod_cast hpos) (Or.inl hpos) key
  have hy : (0 : ℝ) < (m * m' : ℕ) * 2 ^ (e + e') := mul_pos (by exact_mod_cast hpos) (two_zpow_pos _)
  refine ⟨?_, hr.2.1⟩
  have := rounded_of hy hr
  have e2 : uval (.finite s m e h) * uval (.finite s' m' e' h') =
      sgn (s * s') * ((m * m' : ℕ) * 2 ^ (e + e')) := by
    rw [uval_finite, uval_finite, sgn_mul, zpow_add₀ (by norm_num)]
    push_cast
    ring
  rw [e2]
  exact this

/-- The sign of a float that is not NaN -/
def usign : UnpackedFloat → Sign
  | .finite s .. => s
  | .zero s => s
  | .infinity s => s
  | .notANumber => .positive

theorem rounded_zero {fmt : Format} (s : Sign) : Rounded fmt 0 (.zero s) :=
  ⟨trivial, trivial, by simp [uval, RN_zero], by simp, by simp⟩

theorem mul_spec {fmt : Format} {a b : UnpackedFloat} (ha : Canon fmt a) (hb : Canon fmt b)
    (fa : IsFin a) (fb : IsFin b) : Rounded fmt (uval a * uval b) (UnpackedFloat.mul fmt a b) ∧
      HasSign (usign a * usign b) (UnpackedFloat.mul fmt a b) := by
  cases a with
  | infinity _ => exact fa.elim
  | notANumber => exact fa.elim
  | zero s =>
    cases b with
    | infinity _ => exact fb.elim
    | notANumber => exact fb.elim
    | zero s' => simp [uval, UnpackedFloat.mul, rounded_zero, HasSign, usign]
    | finite s' m e h => simp [uval, UnpackedFloat.mul, rounded_zero, HasSign, usign]
  | finite s m e h =>
    cases b with
    | infinity _ => exact fb.elim
    | notANumber => exact fb.elim
    | zero s' => simp [uval, UnpackedFloat.mul, rounded_zero, HasSign, usign]
    | finite s' m' e' h' => exact mul_finite ha hb

theorem fmul_comm (fmt : Format) (a b : UnpackedFloat) :
    UnpackedFloat.mul fmt a b = UnpackedFloat.mul fmt b a := by
  have hs : ∀ s t : Sign, s * t = t * s := by intro s t; cases s <;> cases t <;> rfl
  cases a <;> cases b <;> simp only [UnpackedFloat.mul]
  all_goals try (rw [hs])
  rw [Nat.mul_comm, Int.add_comm]

theorem fadd_comm (fmt : Format) (a b : UnpackedFloat) :
    UnpackedFloat.add fmt a b = UnpackedFloat.add fmt b a := by
  cases a with
  | infinity s => cases b <;> simp only [UnpackedFloat.add] <;> rename_i s' <;> cases s <;> cases s' <;> rfl
  | notANumber => cases b <;> rfl
  | zero s =>
    cases b with
    | zero s' => cases s <;> cases s' <;> rfl
    | _ => rfl
  | finite s m e h =>
    cases b with
    | finite s' m' e' h' =>
      simp only [UnpackedFloat.add]
      rw [min_comm, Int.add_comm]
    | _ => rfl

end Pbrt
