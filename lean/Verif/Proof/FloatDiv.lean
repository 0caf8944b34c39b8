import Verif.Proof.FloatRound
import Mathlib.Analysis.Real.Sqrt

/-!
# Division and square root of the float model round correctly
-/

namespace Pbrt

open Float.Model (UnpackedFloat Format totalExponent)
open Float.Model.UnpackedFloat (Sign Accuracy accuracyOfFraction divCore sqrtCore roundWithAccuracy)

theorem approx_fraction {m d : ℕ} (hd : 0 < d) :
    Approx (m / d) (accuracyOfFraction (m % d) d) ((m : ℝ) / d) := by
  have hd' : (0 : ℝ) < d := by exact_mod_cast hd
  have hm : (m : ℝ) = d * (m / d : ℕ) + (m % d : ℕ) := by exact_mod_cast (Nat.div_add_mod m d).symm
  have hy : (m : ℝ) / d = (m / d : ℕ) + (m % d : ℕ) / d := by
    rw [div_eq_iff hd'.ne', add_mul, div_mul_cancel₀ _ hd'.ne', mul_comm]; exact hm
  have hlt : ((m % d : ℕ) : ℝ) / d < 1 := by
    rw [div_lt_one hd']; exact_mod_cast Nat.mod_lt m hd
  rw [hy]
  generalize m / d = q at *
  generalize m % d = r at *
  unfold accuracyOfFraction
  split
  · next h => subst h; simp [Approx]
  · next h =>
    have hr : (0 : ℝ) < r := by exact_mod_cast Nat.pos_of_ne_zero h
    have hrd : (0 : ℝ) < r / d := div_pos hr hd'
    rcases lt_trichotomy (2 * r) d with hc | hc | hc
    · rw [Nat.compare_eq_lt.2 hc]
      have hc' : 2 * (r : ℝ) < d := by exact_mod_cast hc
      have : (r : ℝ) / d < 1 / 2 := by rw [div_lt_iff₀ hd']; linarith
      exact ⟨by linarith, by linarith⟩
    · rw [Nat.compare_eq_eq.2 hc]
      have hc' : 2 * (r : ℝ) = d := by exact_mod_cast hc
      have : (r : ℝ) / d = 1 / 2 := by rw [div_eq_iff hd'.ne']; linarith
      show _ = _
      rw [this]
    · rw [Nat.compare_eq_gt.2 hc]
      have hc' : (d : ℝ) < 2 * r := by exact_mod_cast hc
      have : 1 / 2 < (r : ℝ) / d := by rw [lt_div_iff₀ hd']; linarith
      exact ⟨by linarith, by linarith⟩

theorem log2_shift {m : ℕ} (hm : 0 < m) (k : ℕ) : (m <<< k).log2 = m.log2 + k := by
  have := totalExponent_shift hm 0 k
  unfold totalExponent at this
  omega

theorem sgn_div (s t : Sign) : sgn (s / t) = sgn s / sgn t := by
  cases s <;> cases t <;>
    simp only [sgn, show Sign.negative / Sign.negative = .positive from rfl,
      show Sign.negative / Sign.positive = .negative from rfl,
      show Sign.positive / Sign.negative = .negative from rfl,
      show Sign.positive / Sign.positive = .positive from rfl] <;> norm_num

theorem div_finite {fmt : Format} {s s' : Sign} {m m' : ℕ} {e e' : ℤ} {h : 0 < m} {h' : 0 < m'} :
    Rounded fmt (uval (.finite s m e h) / uval (.finite s' m' e' h'))
      (UnpackedFloat.div fmt (.finite s m e h) (.finite s' m' e' h')) ∧
    HasSign (s / s') (UnpackedFloat.div fmt (.finite s m e h) (.finite s' m' e' h')) := by
  have hp1 : 1 ≤ fmt.mantissaBits := by unfold Format.mantissaBits; omega
  unfold UnpackedFloat.div divCore
  simp only
  set te := min (e - e') (fmt.targetExponent (totalExponent m e - totalExponent m' e')) with hte
  set k := (e - e' - te).toNat with hk
  have hkz : (k : ℤ) = e - e' - te := by omega
  have hM : 0 < m <<< k := by rw [Nat.shiftLeft_eq]; positivity
  set M := m <<< k with hMdef
  have hlogM : M.log2 = m.log2 + k := log2_shift h k
  have hap := approx_fraction (m := M) h'
  have hy : (0 : ℝ) < (M : ℝ) / m' := div_pos (by exact_mod_cast hM) (by exact_mod_cast h')
  have hT : fmt.targetExponent (totalExponent m e - totalExponent m' e') =
      max (m.log2 - m'.log2 + e - e' - fmt.mantissaBits) fmt.minExponent := by
    unfold Format.targetExponent totalExponent
    congr 1
    omega
  -- the quotient has enough bits
  have hq : ∀ n : ℕ, m'.log2 + n + 1 ≤ M.log2 → 2 ^ n ≤ M / m' := by
    intro n hn
    rw [Nat.le_div_iff_mul_le h']
    have h1 : m' ≤ 2 ^ (m'.log2 + 1) := Nat.lt_log2_self.le
    have h2 : 2 ^ M.log2 ≤ M := Nat.log2_self_le hM.ne'
    calc 2 ^ n * m' ≤ 2 ^ n * 2 ^ (m'.log2 + 1) := Nat.mul_le_mul_left _ h1
      _ = 2 ^ (m'.log2 + n + 1) := by rw [← pow_add]; congr 1; omega
      _ ≤ 2 ^ M.log2 := Nat.pow_le_pow_right (by norm_num) hn
      _ ≤ M := h2
  have hmle : te ≤ fmt.minExponent ∨ 2 ^ (fmt.mantissaBits - 1) ≤ M / m' := by
    by_cases hc : te ≤ fmt.minExponent
    · exact Or.inl hc
    · right
      refine hq _ ?_
      rw [hlogM]
      rw [hT] at hte
      omega
  have hr := roundWithAccuracy_spec (fmt := fmt) (s := s / s') (m := M / m') (e := te) (y := (M : ℝ) / m')
    hap hy
    (by
      rcases hmle with h1 | h1
      · right; omega
      · left; exact lt_of_lt_of_le (by positivity) h1)
    (by
      unfold Format.targetExponent totalExponent
      rcases hmle with h1 | h1
      · omega
      · have : fmt.mantissaBits - 1 ≤ (M / m').log2 :=
          (Nat.le_log2 (by have : 0 < 2 ^ (fmt.mantissaBits - 1) := by positivity
                           omega)).2 h1
        omega)
  have hy' : (0 : ℝ) < (M : ℝ) / m' * 2 ^ te := mul_pos hy (two_zpow_pos _)
  refine ⟨?_, hr.2.1⟩
  have := rounded_of hy' hr
  have e2 : uval (.finite s m e h) / uval (.finite s' m' e' h') = sgn (s / s') * ((M : ℝ) / m' * 2 ^ te) := by
    rw [uval_finite, uval_finite, sgn_div, hMdef, Nat.shiftLeft_eq]
    have : te = e - e' - k := by omega
    rw [this, zpow_sub₀ (by norm_num), zpow_sub₀ (by norm_num), zpow_natCast]
    push_cast
    have h1 : (m' : ℝ) ≠ 0 := by exact_mod_cast h'.ne'
    have h2 := (two_zpow_pos e').ne'
    have h3 : sgn s' ≠ 0 := by cases s' <;> simp [sgn]
    field_simp
  rw [e2]
  exact this

theorem approx_sqrt {M : ℕ} :
    Approx (Nat.sqrt M) (if M - Nat.sqrt M * Nat.sqrt M = 0 then .exact
      else .inexact (if M - Nat.sqrt M * Nat.sqrt M ≤ Nat.sqrt M then .lt else .gt)) (Real.sqrt M) := by
  have h1 : Nat.sqrt M * Nat.sqrt M ≤ M := Nat.sqrt_le M
  have h2 : M < (Nat.sqrt M + 1) * (Nat.sqrt M + 1) := Nat.lt_succ_sqrt M
  generalize Nat.sqrt M = r at *
  obtain ⟨d, rfl⟩ := Nat.exists_eq_add_of_le h1
  rw [Nat.add_sub_cancel_left]
  have hr : (0 : ℝ) ≤ r := Nat.cast_nonneg r
  have hd2 : d ≤ 2 * r := by nlinarith
  have hM : (0 : ℝ) ≤ ((r * r + d : ℕ) : ℝ) := Nat.cast_nonneg _
  have hup : Real.sqrt ((r * r + d : ℕ) : ℝ) < r + 1 := by
    rw [Real.sqrt_lt' (by linarith)]
    have : (d : ℝ) ≤ 2 * r := by exact_mod_cast hd2
    push_cast
    nlinarith
  split
  · next h =>
    subst h
    show _ = _
    push_cast
    rw [add_zero, Real.sqrt_mul_self hr]
  · next h =>
    have hd : (1 : ℝ) ≤ d := by exact_mod_cast Nat.one_le_iff_ne_zero.2 h
    have hlo : (r : ℝ) < Real.sqrt ((r * r + d : ℕ) : ℝ) := by
      rw [Real.lt_sqrt hr]
      push_cast
      nlinarith
    split
    · next h3 =>
      have h3' : (d : ℝ) ≤ r := by exact_mod_cast h3
      refine ⟨hlo, ?_⟩
      rw [Real.sqrt_lt' (by linarith)]
      push_cast
      nlinarith
    · next h3 =>
      have h3' : (r : ℝ) + 1 ≤ d := by
        have : r + 1 ≤ d := by omega
        exact_mod_cast this
      refine ⟨?_, hup⟩
      rw [Real.lt_sqrt (by linarith)]
      push_cast
      nlinarith

theorem sqrt_finite {fmt : Format} {m : ℕ} {e : ℤ} {h : 0 < m} :
    Rounded fmt (Real.sqrt (uval (.finite .positive m e h)))
      (UnpackedFloat.sqrt fmt (.finite .positive m e h)) ∧
    HasSign .positive (UnpackedFloat.sqrt fmt (.finite .positive m e h)) := by
  have hp1 : 1 ≤ fmt.mantissaBits := by unfold Format.mantissaBits; omega
  unfold UnpackedFloat.sqrt sqrtCore
  simp only
  set te := min (e.ediv 2) (fmt.targetExponent ((totalExponent m e + 1).ediv 2)) with hte
  have hediv : 2 * e.ediv 2 ≤ e := by
    have : e.ediv 2 = e / 2 := rfl
    omega
  have hte2 : 2 * te ≤ e := by omega
  set k := (e - 2 * te).toNat with hk
  have hkz : (k : ℤ) = e - 2 * te := by omega
  have hM : 0 < m <<< k := by rw [Nat.shiftLeft_eq]; positivity
  set M := m <<< k with hMdef
  have hlogM : M.log2 = m.log2 + k := log2_shift h k
  have hap := approx_sqrt (M := M)
  have hMr : (0 : ℝ) < M := by exact_mod_cast hM
  have hy : (0 : ℝ) < Real.sqrt M := Real.sqrt_pos.2 hMr
  have hroot : ∀ n : ℕ, 2 * n ≤ M.log2 → 2 ^ n ≤ Nat.sqrt M := by
    intro n hn
    by_contra hc
    have h1 : Nat.sqrt M + 1 ≤ 2 ^ n := by omega
    have h2 : M < (Nat.sqrt M + 1) * (Nat.sqrt M + 1) := Nat.lt_succ_sqrt M
    have h3 : (Nat.sqrt M + 1) * (Nat.sqrt M + 1) ≤ 2 ^ n * 2 ^ n := Nat.mul_le_mul h1 h1
    have h4 : 2 ^ (n + n) ≤ 2 ^ M.log2 := Nat.pow_le_pow_right (by norm_num) (by omega)
    have h5 : 2 ^ M.log2 ≤ M := Nat.log2_self_le hM.ne'
    rw [pow_add] at h4
    omega
  have hT : fmt.targetExponent ((totalExponent m e + 1).ediv 2) =
      max ((m.log2 + 1 + e + 1) / 2 - fmt.mantissaBits) fmt.minExponent := by
    unfold Format.targetExponent totalExponent
    rfl
  have hpos : 0 < Nat.sqrt M := lt_of_lt_of_le Nat.one_pos (hroot 0 (by omega))
  have hr := roundWithAccuracy_spec (fmt := fmt) (s := .positive) (m := Nat.sqrt M) (e := te)
    (y := Real.sqrt M) hap hy (Or.inl hpos)
    (by
      unfold Format.targetExponent totalExponent
      by_cases hc : te ≤ fmt.minExponent
      · omega
      · have : fmt.mantissaBits - 1 ≤ (Nat.sqrt M).log2 := by
          refine (Nat.le_log2 hpos.ne').2 (hroot _ ?_)
          rw [hlogM]
          rw [hT] at hte
          omega
        omega)
  have hy' : (0 : ℝ) < Real.sqrt M * 2 ^ te := mul_pos hy (two_zpow_pos _)
  refine ⟨?_, hr.2.1⟩
  have := rounded_of hy' hr
  have e2 : Real.sqrt (uval (.finite .positive m e h)) = sgn .positive * (Real.sqrt M * 2 ^ te) := by
    rw [uval_finite, hMdef, Nat.shiftLeft_eq]
    simp only [sgn, one_mul]
    rw [← Real.sqrt_sq (two_zpow_pos te).le, ← Real.sqrt_mul (Nat.cast_nonneg _)]
    congr 1
    push_cast
    rw [← zpow_natCast (2 : ℝ) k, mul_assoc, ← zpow_natCast ((2 : ℝ) ^ te), ← zpow_mul,
      ← zpow_add₀ (by norm_num)]
    congr 2
    push_cast
    omega
  rw [e2]
  exact this

end Pbrt
