import Verif.Proof.Stability
import Verif.Props.Inversion
import Verif.Props.FloatError

/-!
# C80: `inverse` on well conditioned matrices of floats

C73 shows that on floats `inverse` may panic on a regular matrix, or return on a singular one.  The
examples there are matrices that a small change makes singular, or matrices near the end of the range.
Here: on all other matrices `inverse` returns, and the result is the inverse up to rounding errors.
-/

namespace Pbrt

open Spec UnitTests
open Float.Model (UnpackedFloat Format)

section
variable {T : Type} [Elem T] [As T T] [FloatFns T] [IEEE T]
variable {U : Type} [As U T]

local notation "𝔽" => IEEE.fmt T
local notation "ε" => unitRoundoff T

theorem conditioned_inverse {m : Matrix4 U} {a κ : ℝ} (h : Conditioned T m a κ)
    (he : ε ≤ 1 / 1000000) (hcond : 2000 * ε * a * κ ≤ 1) (ha : 32 * a * minNormal T ≤ 1)
    (hκ : 32 * κ * minNormal T ≤ 1) (hbig : 4 ≤ big 𝔽 * minNormal T) (hmin : minNormal T ≤ 1 / 100) :
    ∃ b : Matrix4 T, m.inverse = .ok b ∧ NearInverse m κ (1000 * ε * a * κ) b := by
  have hu : IsUnit (m.vals T).det := h.regular.isUnit
  obtain ⟨b, hb, hf, hr⟩ := stable_inverse (T := T) m (A := m.vals T) (N := ((m.vals T)⁻¹ : Matrix (Fin 4) (Fin 4) ℝ)) h.finite
    (fun i j => rfl) h.entries (fun i j => by
      have := congrFun (congrFun (Matrix.mul_nonsing_inv _ hu) i) j
      rw [Matrix.mul_apply, Matrix.one_apply] at this
      exact this) h.columns he hcond ha hκ hbig hmin
  have hp : ∀ i j, |(b.vals T * m.vals T - 1) i j| ≤ 1000 * ε * a * κ := fun i j => by
    have := hr i j
    rw [Matrix.sub_apply, Matrix.mul_apply, Matrix.one_apply]
    simp only [Matrix4.vals, Matrix.of_apply, IEEE.as_eq] at this ⊢
    exact this
  refine ⟨b, hb, hf, hp, fun i j => ?_⟩
  have e : b.vals T - (m.vals T)⁻¹ = (b.vals T * m.vals T - 1) * (m.vals T)⁻¹ := by
    rw [sub_mul, one_mul, Matrix.mul_assoc, Matrix.mul_nonsing_inv _ hu, mul_one]
  have e' := congrFun (congrFun e i) j
  rw [Matrix.sub_apply, Matrix.mul_apply] at e'
  rw [e']
  refine (Finset.abs_sum_le_sum_abs _ _).trans ?_
  have hr0 : 0 ≤ 1000 * ε * a * κ := (abs_nonneg _).trans (hp 0 0)
  calc ∑ k, |(b.vals T * m.vals T - 1) i k * (m.vals T)⁻¹ k j|
      ≤ ∑ k, 1000 * ε * a * κ * |(m.vals T)⁻¹ k j| := Finset.sum_le_sum fun k _ => by
        rw [abs_mul]
        exact mul_le_mul_of_nonneg_right (hp i k) (abs_nonneg _)
    _ = 1000 * ε * a * κ * ∑ k, |(m.vals T)⁻¹ k j| := by rw [Finset.mul_sum]
    _ ≤ 1000 * ε * a * κ * κ := mul_le_mul_of_nonneg_left (h.columns j) hr0

theorem Conditioned.nonneg {m : Matrix4 U} {a κ : ℝ} (h : Conditioned T m a κ) : 0 ≤ a ∧ 0 ≤ κ :=
  ⟨(abs_nonneg _).trans (h.entries 0 0), (Finset.sum_nonneg fun _ _ => abs_nonneg _).trans (h.columns 0)⟩

end

theorem minNormal32 : minNormal Float32.Model = (2 ^ 126)⁻¹ := by
  unfold minNormal
  show (2 : ℝ) ^ ((-149 : ℤ) + 24 - 1) = (2 ^ 126)⁻¹
  rw [show ((-149 : ℤ) + 24 - 1) = -(126 : ℕ) by norm_num, zpow_neg, zpow_natCast]

theorem minNormal64 : minNormal Float.Model = (2 ^ 1022)⁻¹ := by
  unfold minNormal
  show (2 : ℝ) ^ ((-1074 : ℤ) + 53 - 1) = (2 ^ 1022)⁻¹
  rw [show ((-1074 : ℤ) + 53 - 1) = -(1022 : ℕ) by norm_num, zpow_neg, zpow_natCast]

theorem big32 : big (IEEE.fmt Float32.Model) = 2 ^ 128 := by
  unfold big
  rw [show emax (IEEE.fmt Float32.Model) + ((IEEE.fmt Float32.Model).mantissaBits : ℤ) = ((128 : ℕ) : ℤ) from rfl,
    zpow_natCast]

theorem big64 : big (IEEE.fmt Float.Model) = 2 ^ 1024 := by
  unfold big
  rw [show emax (IEEE.fmt Float.Model) + ((IEEE.fmt Float.Model).mantissaBits : ℤ) = ((1024 : ℕ) : ℤ) from rfl,
    zpow_natCast]

section
variable {U : Type}

/-- **C80**: with `f32`, `inverse` returns for every matrix whose entries and inverse are in range,
    unless the product of the two bounds (a condition number) exceeds `2 ^ 13`.  The result is the
    inverse up to `1000 a κ` units of rounding. -/
theorem C80_inverse_f32 [As U Float32.Model] (m : Matrix4 U) {a κ : ℝ} (h : Conditioned Float32.Model m a κ)
    (ha : a ≤ 2 ^ 121) (hκ : κ ≤ 2 ^ 121) (hc : a * κ ≤ 2 ^ 13) :
    ∃ b : Matrix4 Float32.Model, m.inverse = .ok b ∧ NearInverse m κ (1000 * 2 ^ (-24 : ℤ) * a * κ) b := by
  have e : unitRoundoff Float32.Model = 2 ^ (-24 : ℤ) := rfl
  have := conditioned_inverse h (by rw [e]; norm_num)
    (by rw [e, mul_assoc]; calc 2000 * (2 : ℝ) ^ (-24 : ℤ) * (a * κ) ≤ 2000 * (2 : ℝ) ^ (-24 : ℤ) * 2 ^ 13 :=
          mul_le_mul_of_nonneg_left hc (by positivity)
        _ ≤ 1 := by norm_num)
    (by rw [minNormal32, ← div_eq_mul_inv, div_le_one (by positivity)]; linarith)
    (by rw [minNormal32, ← div_eq_mul_inv, div_le_one (by positivity)]; linarith)
    (by rw [minNormal32, big32]; norm_num) (by rw [minNormal32]; norm_num)
  rwa [e] at this

/-- **C80**: the same with `f64`, up to the condition number `2 ^ 42`. -/
theorem C80_inverse_f64 [As U Float.Model] (m : Matrix4 U) {a κ : ℝ} (h : Conditioned Float.Model m a κ)
    (ha : a ≤ 2 ^ 1017) (hκ : κ ≤ 2 ^ 1017) (hc : a * κ ≤ 2 ^ 42) :
    ∃ b : Matrix4 Float.Model, m.inverse = .ok b ∧ NearInverse m κ (1000 * 2 ^ (-53 : ℤ) * a * κ) b := by
  have e : unitRoundoff Float.Model = 2 ^ (-53 : ℤ) := rfl
  have p1 : (2 : ℝ) ^ 1022 = 32 * 2 ^ 1017 := by rw [show 1022 = 5 + 1017 from rfl, pow_add]; congr 1; norm_num1
  have p2 : (2 : ℝ) ^ 1024 = 4 * 2 ^ 1022 := by rw [show 1024 = 2 + 1022 from rfl, pow_add]; congr 1; norm_num1
  have p3 : (100 : ℝ) ≤ 2 ^ 1022 :=
    (by norm_num : (100 : ℝ) ≤ 2 ^ 7).trans (pow_le_pow_right₀ (by norm_num) (by norm_num))
  have := conditioned_inverse h (by rw [e]; norm_num)
    (by rw [e, mul_assoc]; calc 2000 * (2 : ℝ) ^ (-53 : ℤ) * (a * κ) ≤ 2000 * (2 : ℝ) ^ (-53 : ℤ) * 2 ^ 42 :=
          mul_le_mul_of_nonneg_left hc (by positivity)
        _ ≤ 1 := by norm_num)
    (by rw [minNormal64, ← div_eq_mul_inv, div_le_one (by positivity), p1]; linarith)
    (by rw [minNormal64, ← div_eq_mul_inv, div_le_one (by positivity), p1]; linarith)
    (by rw [minNormal64, big64, ← div_eq_mul_inv, le_div_iff₀ (by positivity), p2])
    (by rw [minNormal64, one_div]; exact inv_anti₀ (by norm_num) p3)
  rwa [e] at this

end

/-- **C80**: `Transform::new_` then keeps the matrix and stores that inverse, with `f32`. -/
theorem C80_new_f32 (m : Matrix4 Float32.Model) {a κ : ℝ} (h : Conditioned Float32.Model m a κ)
    (ha : a ≤ 2 ^ 121) (hκ : κ ≤ 2 ^ 121) (hc : a * κ ≤ 2 ^ 13) :
    ∃ t, Transform.new_ m = .ok t ∧ t.m = m ∧ NearInverse m κ (1000 * 2 ^ (-24 : ℤ) * a * κ) t.mInv := by
  obtain ⟨b, hb, hn⟩ := C80_inverse_f32 m h ha hκ hc
  exact ⟨⟨m, b⟩, by unfold Transform.new_; rw [hb]; rfl, rfl, hn⟩

/-- **C80**: the same with `f64`. -/
theorem C80_new_f64 (m : Matrix4 Float.Model) {a κ : ℝ} (h : Conditioned Float.Model m a κ)
    (ha : a ≤ 2 ^ 1017) (hκ : κ ≤ 2 ^ 1017) (hc : a * κ ≤ 2 ^ 42) :
    ∃ t, Transform.new_ m = .ok t ∧ t.m = m ∧ NearInverse m κ (1000 * 2 ^ (-53 : ℤ) * a * κ) t.mInv := by
  obtain ⟨b, hb, hn⟩ := C80_inverse_f64 m h ha hκ hc
  exact ⟨⟨m, b⟩, by unfold Transform.new_; rw [hb]; rfl, rfl, hn⟩

/-! ### Rigid motions -/

namespace RigidUpTo
variable {A : Matrix (Fin 4) (Fin 4) ℝ} {τ : ℝ}

theorem entry (h : RigidUpTo A τ) (i j : Fin 3) : |A i.castSucc j.castSucc| ≤ 1.02 := by
  have h1 := (abs_le.1 (h.axes j j)).2
  rw [if_pos rfl] at h1
  have h2 : A i.castSucc j.castSucc * A i.castSucc j.castSucc ≤
      ∑ i : Fin 3, A i.castSucc j.castSucc * A i.castSucc j.castSucc :=
    Finset.single_le_sum (f := fun i : Fin 3 => A i.castSucc j.castSucc * A i.castSucc j.castSucc)
      (fun i _ => mul_self_nonneg _) (Finset.mem_univ i)
  refine abs_le_of_sq_le_sq ?_ (by norm_num)
  rw [sq]
  norm_num at *
  linarith

/-- The size of a vector, from the size of its image -/
theorem bound (h : RigidUpTo A τ) (x y : Fin 4 → ℝ) (hxy : ∀ i, ∑ k, A i k * x k = y i) :
    x 3 = y 3 ∧ |x 0| + |x 1| + |x 2| ≤ 3.4 * (|y 0| + |y 1| + |y 2| + 3 * τ * |y 3|) := by
  have h3 : x 3 = y 3 := by
    have := hxy 3
    simp only [h.last, Fin.sum_univ_four] at this
    simpa using this
  refine ⟨h3, ?_⟩
  -- one component
  have hcomp : ∀ j : Fin 3, |x j.castSucc| ≤
      1.02 * (|y 0| + |y 1| + |y 2| + 3 * τ * |y 3|) + 1 / 30 * (|x 0| + |x 1| + |x 2|) := fun j => by
    have hw : ∀ i : Fin 3, ∑ k : Fin 3, A i.castSucc k.castSucc * x k.castSucc =
        y i.castSucc - A i.castSucc 3 * y 3 := fun i => by
      have := hxy i.castSucc
      rw [Fin.sum_univ_castSucc] at this
      rw [← this, ← h3]
      exact (add_sub_cancel_right _ _).symm
    have hj : x j.castSucc = ∑ i : Fin 3, A i.castSucc j.castSucc * (y i.castSucc - A i.castSucc 3 * y 3) -
        ∑ k : Fin 3, ((∑ i : Fin 3, A i.castSucc j.castSucc * A i.castSucc k.castSucc) - if j = k then 1 else 0) *
          x k.castSucc := by
      simp only [← hw, sub_mul, Finset.sum_sub_distrib, Finset.mul_sum, Finset.sum_mul]
      rw [Finset.sum_comm]
      simp [mul_assoc]
    have hy : ∀ i : Fin 3, |y i.castSucc - A i.castSucc 3 * y 3| ≤ |y i.castSucc| + τ * |y 3| := fun i => by
      refine (abs_sub _ _).trans (add_le_add le_rfl ?_)
      rw [abs_mul]
      exact mul_le_mul_of_nonneg_right (h.offset i) (abs_nonneg _)
    rw [hj]
    refine (abs_sub _ _).trans (add_le_add ?_ ?_)
    · refine (Finset.abs_sum_le_sum_abs _ _).trans ?_
      calc ∑ i : Fin 3, |A i.castSucc j.castSucc * (y i.castSucc - A i.castSucc 3 * y 3)|
          ≤ ∑ i : Fin 3, 1.02 * (|y i.castSucc| + τ * |y 3|) := Finset.sum_le_sum fun i _ => by
            rw [abs_mul]
            exact mul_le_mul (h.entry i j) (hy i) (abs_nonneg _) (by norm_num)
        _ = 1.02 * (|y 0| + |y 1| + |y 2| + 3 * τ * |y 3|) := by
            rw [Fin.sum_univ_three]
            show 1.02 * (|y 0| + τ * |y 3|) + 1.02 * (|y 1| + τ * |y 3|) + 1.02 * (|y 2| + τ * |y 3|) = _
            ring
    · refine (Finset.abs_sum_le_sum_abs _ _).trans ?_
      calc _ ≤ ∑ k : Fin 3, 1 / 30 * |x k.castSucc| := Finset.sum_le_sum fun k _ => by
            rw [abs_mul]
            exact mul_le_mul_of_nonneg_right (h.axes j k) (abs_nonneg _)
        _ = 1 / 30 * (|x 0| + |x 1| + |x 2|) := by
            rw [Fin.sum_univ_three]
            show 1 / 30 * |x 0| + 1 / 30 * |x 1| + 1 / 30 * |x 2| = _
            ring
  have h0 := hcomp 0
  have h1 := hcomp 1
  have h2 := hcomp 2
  simp only [Fin.castSucc_zero] at h0
  change |x 1| ≤ _ at h1
  change |x 2| ≤ _ at h2
  linarith

theorem regular (h : RigidUpTo A τ) : A.det ≠ 0 := by
  intro h0
  obtain ⟨v, hv, hAv⟩ := Matrix.exists_mulVec_eq_zero_iff.2 h0
  obtain ⟨h3, h4⟩ := h.bound v 0 fun i => congrFun hAv i
  simp only [Pi.zero_apply, abs_zero, mul_zero, add_zero] at h3 h4
  have n0 := abs_nonneg (v 0)
  have n1 := abs_nonneg (v 1)
  have n2 := abs_nonneg (v 2)
  refine hv (funext fun i => ?_)
  fin_cases i
  · exact abs_eq_zero.1 (le_antisymm (by linarith) n0 : |v 0| = 0)
  · exact abs_eq_zero.1 (le_antisymm (by linarith) n1 : |v 1| = 0)
  · exact abs_eq_zero.1 (le_antisymm (by linarith) n2 : |v 2| = 0)
  · exact h3

theorem entries (h : RigidUpTo A τ) (hτ : 1 ≤ τ) (i j : Fin 4) : |A i j| ≤ 1.02 * τ := by
  induction i using Fin.lastCases with
  | last =>
    rw [show Fin.last 3 = 3 from rfl, h.last]
    split
    · rw [abs_one]; linarith
    · rw [abs_zero]; linarith
  | cast i =>
    induction j using Fin.lastCases with
    | last => exact (h.offset i).trans (by linarith)
    | cast j => exact (h.entry i j).trans (by linarith)

theorem columns (h : RigidUpTo A τ) (hτ : 1 ≤ τ) (j : Fin 4) : ∑ i, |A⁻¹ i j| ≤ 12 * τ := by
  have hu : IsUnit A.det := h.regular.isUnit
  obtain ⟨h3, h4⟩ := h.bound (fun k => A⁻¹ k j) (fun i => if i = j then 1 else 0) fun i => by
    have := congrFun (congrFun (Matrix.mul_nonsing_inv A hu) i) j
    rw [Matrix.mul_apply, Matrix.one_apply] at this
    exact this
  rw [Fin.sum_univ_four, h3]
  revert h4
  fin_cases j <;> simp <;> intro h4 <;> linarith

end RigidUpTo

theorem rigid_conditioned {T U : Type} [Elem T] [As T T] [FloatFns T] [IEEE T] [As U T] {m : Matrix4 U} {τ : ℝ}
    (hf : ∀ i j, IsFinite (As.as_ (m.mat i j) : T)) (h : RigidUpTo (m.vals T) τ) (hτ : 1 ≤ τ) :
    Conditioned T m (1.02 * τ) (12 * τ) :=
  ⟨hf, h.regular, h.entries hτ, h.columns hτ⟩

/-- **C80**: `new_` does not panic on a rigid motion by at most 25 along each axis, with `f32`. -/
theorem C80_rigid_f32 (m : Matrix4 Float32.Model) {τ : ℝ} (hf : ∀ i j, IsFinite (m.mat i j))
    (h : RigidUpTo (m.vals Float32.Model) τ) (hτ : 1 ≤ τ) (hτ' : τ ≤ 25) :
    ∃ t, Transform.new_ m = .ok t ∧ t.m = m ∧ (∀ i j, IsFinite (t.mInv.mat i j)) ∧
      ∀ i j, |t.mInv.vals Float32.Model i j - (m.vals Float32.Model)⁻¹ i j| ≤ 150000 * 2 ^ (-24 : ℤ) * τ ^ 3 := by
  obtain ⟨t, ht, hm, hn⟩ := C80_new_f32 m (rigid_conditioned (fun i j => by rw [IEEE.as_eq]; exact hf i j) h hτ)
    (by norm_num; linarith) (by norm_num; linarith) (by nlinarith)
  refine ⟨t, ht, hm, hn.finite, fun i j => (hn.entries i j).trans ?_⟩
  have : 0 ≤ (2 : ℝ) ^ (-24 : ℤ) * τ ^ 3 := by positivity
  calc _ = 146880 * (2 ^ (-24 : ℤ) * τ ^ 3) := by ring
    _ ≤ 150000 * (2 ^ (-24 : ℤ) * τ ^ 3) := by linarith
    _ = _ := by ring

/-- **C80**: with `f64`, by at most `2 ^ 19`. -/
theorem C80_rigid_f64 (m : Matrix4 Float.Model) {τ : ℝ} (hf : ∀ i j, IsFinite (m.mat i j))
    (h : RigidUpTo (m.vals Float.Model) τ) (hτ : 1 ≤ τ) (hτ' : τ ≤ 2 ^ 19) :
    ∃ t, Transform.new_ m = .ok t ∧ t.m = m ∧ (∀ i j, IsFinite (t.mInv.mat i j)) ∧
      ∀ i j, |t.mInv.vals Float.Model i j - (m.vals Float.Model)⁻¹ i j| ≤ 150000 * 2 ^ (-53 : ℤ) * τ ^ 3 := by
  have p : (2 : ℝ) ^ 42 ≤ 2 ^ 1017 := pow_le_pow_right₀ (by norm_num) (by norm_num)
  have q : 12 * τ ≤ 2 ^ 42 := by norm_num at *; linarith
  obtain ⟨t, ht, hm, hn⟩ := C80_new_f64 m (rigid_conditioned (fun i j => by rw [IEEE.as_eq]; exact hf i j) h hτ)
    (le_trans (by linarith) (q.trans p)) (q.trans p) (by nlinarith)
  refine ⟨t, ht, hm, hn.finite, fun i j => (hn.entries i j).trans ?_⟩
  have : 0 ≤ (2 : ℝ) ^ (-53 : ℤ) * τ ^ 3 := by positivity
  calc _ = 146880 * (2 ^ (-53 : ℤ) * τ ^ 3) := by ring
    _ ≤ 150000 * (2 ^ (-53 : ℤ) * τ ^ 3) := by linarith
    _ = _ := by ring

/-! ### Examples -/

namespace StabilityExamples

/-- A matrix that is not monomial -/
def sheared (T : Type) [Elem T] : Matrix4 T :=
  intMatrix T ![![2, 1, 0, 0], ![1, 2, 0, 0], ![0, 0, 1, 3], ![0, 0, 0, 1]]

theorem sheared_vals : (sheared Float32.Model).vals Float32.Model =
    !![2, 1, 0, 0; 1, 2, 0, 0; 0, 0, 1, 3; 0, 0, 0, 1] := by
  rw [vals_rat, show ratMatrix (sheared Float32.Model) = !![2, 1, 0, 0; 1, 2, 0, 0; 0, 0, 1, 3; 0, 0, 0, 1] by
    decide +kernel]
  ext i j
  fin_cases i <;> fin_cases j <;> simp

theorem sheared_inv : ((sheared Float32.Model).vals Float32.Model)⁻¹ =
    !![2 / 3, -1 / 3, 0, 0; -1 / 3, 2 / 3, 0, 0; 0, 0, 1, -3; 0, 0, 0, 1] := by
  rw [sheared_vals]
  refine Matrix.inv_eq_right_inv ?_
  ext i j
  fin_cases i <;> fin_cases j <;> simp [Matrix.mul_apply, Fin.sum_univ_four, Matrix.one_apply] <;> norm_num

/-- The hypotheses of `C80_inverse_f32` and `C80_new_f32` hold, with the bounds 3 and 4. -/
theorem sheared_conditioned : Conditioned Float32.Model (sheared Float32.Model) 3 4 where
  finite := by decide +kernel
  regular := by
    rw [det_rat, det4_eq]
    exact_mod_cast (by decide +kernel : det4 (ratMatrix (sheared Float32.Model)) ≠ 0)
  entries i j := by
    rw [sheared_vals]
    fin_cases i <;> fin_cases j <;> norm_num
  columns j := by
    rw [sheared_inv]
    fin_cases j <;> simp [Fin.sum_univ_four, abs_div] <;> norm_num

example : ∃ b : Matrix4 Float32.Model, (sheared Float32.Model).inverse = .ok b ∧
    NearInverse (sheared Float32.Model) 4 (1000 * 2 ^ (-24 : ℤ) * 3 * 4) b :=
  C80_inverse_f32 _ sheared_conditioned (by norm_num) (by norm_num) (by norm_num)

/-- A rotation about the `z` axis (with rounded entries), and a translation -/
def motion (T : Type) [Elem T] [As T T] [FloatFns T] [IEEE T] : Matrix4 T :=
  ⟨fun i j => fdiv (Elem.fromInt (![![3, -4, 0, 35], ![4, 3, 0, -10], ![0, 0, 5, 1], ![0, 0, 0, 5]] i j)) (Elem.fromInt 5)⟩

theorem rigid_rat {T : Type} [Elem T] [As T T] [FloatFns T] [IEEE T] {a : Matrix4 T} {τ : ℚ}
    (h1 : ∀ j k : Fin 3, |(∑ i : Fin 3, ratMatrix a i.castSucc j.castSucc * ratMatrix a i.castSucc k.castSucc) -
      if j = k then 1 else 0| ≤ 1 / 30)
    (h2 : ∀ i : Fin 3, |ratMatrix a i.castSucc 3| ≤ τ) (h3 : ∀ j, ratMatrix a 3 j = if j = 3 then 1 else 0) :
    RigidUpTo (a.vals T) τ := by
  rw [vals_rat]
  refine ⟨fun j k => ?_, fun i => ?_, fun j => ?_⟩
  · have := h1 j k
    simp only [Matrix.map_apply]
    rw [← Rat.cast_le (K := ℝ)] at this
    push_cast [apply_ite ((↑) : ℚ → ℝ)] at this
    exact this
  · have := h2 i
    rw [← Rat.cast_le (K := ℝ)] at this
    push_cast at this
    exact this
  · rw [Matrix.map_apply, h3]
    split <;> simp

theorem motion_rigid32 : RigidUpTo ((motion Float32.Model).vals Float32.Model) 7 :=
  rigid_rat (τ := 7) (by decide +kernel) (by decide +kernel) (by decide +kernel)

theorem motion_rigid64 : RigidUpTo ((motion Float.Model).vals Float.Model) 7 :=
  rigid_rat (τ := 7) (by decide +kernel) (by decide +kernel) (by decide +kernel)

/-- The hypotheses of `C80_rigid_f32`, `C80_rigid_f64`, and with `rigid_conditioned` those of
    `C80_inverse_f64` and `C80_new_f64` hold. -/
example : ∃ t, Transform.new_ (motion Float32.Model) = .ok t ∧ t.m = motion Float32.Model ∧
    (∀ i j, IsFinite (t.mInv.mat i j)) ∧ ∀ i j, |t.mInv.vals Float32.Model i j -
      ((motion Float32.Model).vals Float32.Model)⁻¹ i j| ≤ 150000 * 2 ^ (-24 : ℤ) * 7 ^ 3 :=
  C80_rigid_f32 _ (by decide +kernel) motion_rigid32 (by norm_num) (by norm_num)

example : ∃ t, Transform.new_ (motion Float.Model) = .ok t ∧ t.m = motion Float.Model ∧
    (∀ i j, IsFinite (t.mInv.mat i j)) ∧ ∀ i j, |t.mInv.vals Float.Model i j -
      ((motion Float.Model).vals Float.Model)⁻¹ i j| ≤ 150000 * 2 ^ (-53 : ℤ) * 7 ^ 3 :=
  C80_rigid_f64 _ (by decide +kernel) motion_rigid64 (by norm_num) (by norm_num)

example : Conditioned Float.Model (motion Float.Model) (1.02 * 7) (12 * 7) :=
  rigid_conditioned (by decide +kernel) motion_rigid64 (by norm_num)

end StabilityExamples

end Pbrt
