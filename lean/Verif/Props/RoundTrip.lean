import Verif.Props.Stability

/-!
# C81: transforming a vector and transforming it back

`Vector3::transform` uses the upper left 3 × 3 block of the matrix.  The stored inverse of an affine
transform takes a transformed vector back, up to rounding errors (C80 and C69).
-/

namespace Pbrt

open Spec UnitTests

/-- Errors of two matrix products in real numbers -/
theorem back_error {A B : Matrix (Fin 4) (Fin 4) ℝ} {v w u : Fin 3 → ℝ} {a b r γ η V : ℝ}
    (hA : ∀ i j, |A i j| ≤ a) (hB : ∀ i j, |B i j| ≤ b)
    (hR : ∀ i n : Fin 3, |∑ k : Fin 3, B i.castSucc k.castSucc * A k.castSucc n.castSucc - if i = n then 1 else 0| ≤ r)
    (hV : ∀ i, |v i| ≤ V) (hγ : 0 ≤ γ)
    (hw : ∀ i : Fin 3, |w i - ∑ n : Fin 3, A i.castSucc n.castSucc * v n| ≤
      γ * ∑ n : Fin 3, |A i.castSucc n.castSucc * v n| + η)
    (hu : ∀ i : Fin 3, |u i - ∑ n : Fin 3, B i.castSucc n.castSucc * w n| ≤
      γ * ∑ n : Fin 3, |B i.castSucc n.castSucc * w n| + η) (i : Fin 3) :
    |u i - v i| ≤ 3 * r * V + 3 * b * (3 * γ * a * V + η) + 3 * γ * b * (3 * a * V + (3 * γ * a * V + η)) + η := by
  have ha0 : 0 ≤ a := (abs_nonneg _).trans (hA 0 0)
  have hb0 : 0 ≤ b := (abs_nonneg _).trans (hB 0 0)
  have hr0 : 0 ≤ r := (abs_nonneg _).trans (hR 0 0)
  have hV0 : 0 ≤ V := (abs_nonneg _).trans (hV 0)
  have hAv : ∀ i : Fin 3, ∑ n : Fin 3, |A i.castSucc n.castSucc * v n| ≤ 3 * (a * V) := fun i => by
    refine (Finset.sum_le_sum fun n _ => ?_ : _ ≤ ∑ _n : Fin 3, a * V).trans (by simp)
    rw [abs_mul]
    exact mul_le_mul (hA _ _) (hV n) (abs_nonneg _) ha0
  have he : ∀ k : Fin 3, |w k - ∑ n : Fin 3, A k.castSucc n.castSucc * v n| ≤ 3 * γ * a * V + η := fun k =>
    (hw k).trans (by have := mul_le_mul_of_nonneg_left (hAv k) hγ; linarith)
  have hwk : ∀ k : Fin 3, |w k| ≤ 3 * a * V + (3 * γ * a * V + η) := fun k => by
    have h1 := (Finset.abs_sum_le_sum_abs _ _).trans (hAv k)
    have h2 := abs_sub_abs_le_abs_sub (w k) (∑ n : Fin 3, A k.castSucc n.castSucc * v n)
    have h3 := he k
    linarith
  have hBw : ∑ n : Fin 3, |B i.castSucc n.castSucc * w n| ≤ 3 * (b * (3 * a * V + (3 * γ * a * V + η))) := by
    refine (Finset.sum_le_sum fun n _ => ?_ : _ ≤ ∑ _n : Fin 3, b * (3 * a * V + (3 * γ * a * V + η))).trans (by simp)
    rw [abs_mul]
    exact mul_le_mul (hB _ _) (hwk n) (abs_nonneg _) hb0
  set R : Fin 3 → ℝ := fun n =>
    ∑ k : Fin 3, B i.castSucc k.castSucc * A k.castSucc n.castSucc - if i = n then 1 else 0 with hRdef
  have key : u i - v i = (u i - ∑ n : Fin 3, B i.castSucc n.castSucc * w n) +
      (∑ k : Fin 3, B i.castSucc k.castSucc * (w k - ∑ n : Fin 3, A k.castSucc n.castSucc * v n) +
        ∑ n : Fin 3, R n * v n) := by
    have h1 : ∑ n : Fin 3, R n * v n =
        ∑ k : Fin 3, B i.castSucc k.castSucc * ∑ n : Fin 3, A k.castSucc n.castSucc * v n - v i := by
      simp only [hRdef, sub_mul, Finset.sum_sub_distrib, Finset.sum_mul, Finset.mul_sum]
      rw [Finset.sum_comm]
      simp [mul_assoc]
    rw [h1]
    simp only [mul_sub, Finset.sum_sub_distrib]
    ring
  rw [key]
  have t1 := hu i
  have t2 : |∑ k : Fin 3, B i.castSucc k.castSucc * (w k - ∑ n : Fin 3, A k.castSucc n.castSucc * v n)| ≤
      3 * (b * (3 * γ * a * V + η)) := by
    refine (Finset.abs_sum_le_sum_abs _ _).trans ?_
    refine (Finset.sum_le_sum fun n _ => ?_ : _ ≤ ∑ _n : Fin 3, b * (3 * γ * a * V + η)).trans (by simp)
    rw [abs_mul]
    exact mul_le_mul (hB _ _) (he n) (abs_nonneg _) hb0
  have t3 : |∑ n : Fin 3, R n * v n| ≤ 3 * (r * V) := by
    refine (Finset.abs_sum_le_sum_abs _ _).trans ?_
    refine (Finset.sum_le_sum fun n _ => ?_ : _ ≤ ∑ _n : Fin 3, r * V).trans (by simp)
    rw [abs_mul]
    exact mul_le_mul (hR i n) (hV n) (abs_nonneg _) hr0
  have t4 := mul_le_mul_of_nonneg_left hBw hγ
  refine (abs_add_le _ _).trans ?_
  have t5 := abs_add_le (∑ k : Fin 3, B i.castSucc k.castSucc * (w k - ∑ n : Fin 3, A k.castSucc n.castSucc * v n))
    (∑ n : Fin 3, R n * v n)
  linarith

section
variable {T : Type} [Elem T] [As T T] [FloatFns T] [IEEE T]

local notation "ε" => unitRoundoff T
local notation "η" => tiny T

/-- If the transformed vector is finite, so was the vector. -/
theorem transform_finite {v w : Vector3 T} {t : Transform T} (h : v.transform t = .ok w) {i : Fin 3}
    (hf : IsFinite (w.get i)) (j : Fin 3) : IsFinite (v.get j) := by
  simp only [Vector3.transform, IEEE.as_eq, fmul_ok, fadd_ok, ok_bind, pure_ok, Except.ok.injEq] at h
  subst h
  have key : ∀ {a b c x y q : T}, IsFinite (fadd (fadd (fmul a x) (fmul b y)) (fmul c q)) →
      IsFinite x ∧ IsFinite y ∧ IsFinite q := fun h => by
    obtain ⟨h1, h2⟩ := fadd_finite h
    obtain ⟨h3, h4⟩ := fadd_finite h1
    exact ⟨(fmul_finite h3).2, (fmul_finite h4).2, (fmul_finite h2).2⟩
  have : IsFinite v.x ∧ IsFinite v.y ∧ IsFinite v.z := by
    fin_cases i <;> exact key hf
  fin_cases j
  · exact this.1
  · exact this.2.1
  · exact this.2.2

/-- The product with an affine matrix, in the upper left 3 × 3 block -/
theorem upper_product {B : Matrix (Fin 4) (Fin 4) ℝ} {m : Matrix4 T} (i n : Fin 3) (haff : m.Affine) :
    ∑ k : Fin 3, B i.castSucc k.castSucc * m.vals T k.castSucc n.castSucc - (if i = n then 1 else 0) =
      (B * m.vals T - 1) i.castSucc n.castSucc := by
  rw [Matrix.sub_apply, Matrix.mul_apply, Matrix.one_apply,
    Fin.sum_univ_castSucc (fun k : Fin 4 => B i.castSucc k * m.vals T k n.castSucc)]
  have : m.vals T (Fin.last 3) n.castSucc = 0 := by
    simp only [Matrix4.vals, Matrix.of_apply, IEEE.as_eq]
    exact haff n
  rw [this]
  simp

theorem there_and_back {t : Transform T} {a κ V : ℝ} (h : Conditioned T t.m a κ)
    (hn : NearInverse t.m κ (1000 * ε * a * κ) t.mInv) (haff : t.m.Affine) (he : ε ≤ 1 / 1000000)
    (hc : 2000 * ε * a * κ ≤ 1) {v w u : Vector3 T} (hv : ∀ i, |val (v.get i)| ≤ V)
    (hw : v.transform t = .ok w) (hu : w.transform t.inverse = .ok u) (hf : ∀ i, IsFinite (u.get i)) (i : Fin 3) :
    |val (u.get i) - val (v.get i)| ≤ 3100 * ε * a * κ * V + (15 * κ + 4) * η := by
  have e0 := eps_pos (T := T)
  have t0 := tiny_pos (T := T)
  have ha0 : 0 ≤ a := (abs_nonneg _).trans (h.entries 0 0)
  have hκ0 : 0 ≤ κ := (Finset.sum_nonneg fun _ _ => abs_nonneg _).trans (h.columns 0)
  have hV0 : 0 ≤ V := (abs_nonneg _).trans (hv 0)
  have hfw : ∀ i, IsFinite (w.get i) := fun j => transform_finite hu (hf 0) j
  have e2 : ε * ε ≤ 1 / 1000000 * ε := mul_le_mul_of_nonneg_right he e0.le
  have e3 : ε * ε * ε ≤ 1 / 1000000 * ε * ε := mul_le_mul_of_nonneg_right e2 e0.le
  have g1 : (1 + ε) ^ 3 - 1 ≤ 3.01 * ε := by
    rw [show (1 + ε) ^ 3 - 1 = 3 * ε + 3 * (ε * ε) + ε * ε * ε by ring]
    linarith
  have g2 : (1 + ε) ^ 3 ≤ 1.01 := by linarith
  have hN : ∀ i j, |(t.m.vals T)⁻¹ i j| ≤ κ := fun i j =>
    (Finset.single_le_sum (f := fun i => |(t.m.vals T)⁻¹ i j|) (fun _ _ => abs_nonneg _) (Finset.mem_univ i)).trans
      (h.columns j)
  have hB : ∀ i j, |t.mInv.vals T i j| ≤ 1.5 * κ := fun i j => by
    have h1 := hn.entries i j
    have h2 := hN i j
    have h3 := abs_sub_abs_le_abs_sub (t.mInv.vals T i j) ((t.m.vals T)⁻¹ i j)
    have h4 : 1000 * ε * a * κ * κ ≤ 1 / 2 * κ := mul_le_mul_of_nonneg_right (by linarith) hκ0
    linarith
  have er : ∀ (t : Transform T) (v w : Vector3 T), v.transform t = .ok w → (∀ i, IsFinite (w.get i)) → ∀ i : Fin 3,
      |val (w.get i) - ∑ n : Fin 3, t.m.vals T i.castSucc n.castSucc * val (v.get n)| ≤
      3.01 * ε * ∑ n : Fin 3, |t.m.vals T i.castSucc n.castSucc * val (v.get n)| + 3.03 * η := fun t v w ht hfw i => by
    have h1 := C69_transform v w t ht i (hfw i)
    simp only [Matrix4.vals, Matrix.of_apply, IEEE.as_eq]
    have h2 := mul_le_mul_of_nonneg_right g1 (Finset.sum_nonneg (s := Finset.univ) fun (n : Fin 3) _ =>
      abs_nonneg (val (t.m.mat i.castSucc n.castSucc) * val (v.get n)))
    have h3 := mul_le_mul_of_nonneg_left g2 t0.le
    linarith
  have := back_error (A := t.m.vals T) (B := t.mInv.vals T) (v := fun i => val (v.get i)) (w := fun i => val (w.get i))
    (u := fun i => val (u.get i)) h.entries hB
    (fun i n => by rw [upper_product i n haff]; exact hn.product _ _) hv (by positivity)
    (er t v w hw hfw) (er t.inverse w u hu hf) i
  refine this.trans ?_
  have p1 : 0 ≤ ε * a * κ * V := by positivity
  have p2 : ε * (ε * a * κ * V) ≤ 1 / 1000000 * (ε * a * κ * V) := mul_le_mul_of_nonneg_right he p1
  have p3 : ε * (κ * η) ≤ 1 / 1000000 * (κ * η) := mul_le_mul_of_nonneg_right he (by positivity)
  have p4 : 0 ≤ κ * η := by positivity
  nlinarith

end

/-- **C81**: with `f32`, the stored inverse of an affine, well conditioned transform (see C80) takes a
    transformed vector back, up to the stated error.  `V` bounds the components of the vector. -/
theorem C81_there_and_back_f32 (m : Matrix4 Float32.Model) {a κ V : ℝ} (h : Conditioned Float32.Model m a κ)
    (ha : a ≤ 2 ^ 121) (hκ : κ ≤ 2 ^ 121) (hc : a * κ ≤ 2 ^ 13) (haff : m.Affine) :
    ∃ t, Transform.new_ m = .ok t ∧ ∀ v w u : Vector3 Float32.Model, (∀ i, |val (v.get i)| ≤ V) →
      v.transform t = .ok w → w.transform t.inverse = .ok u → (∀ i, IsFinite (u.get i)) →
      ∀ i, |val (u.get i) - val (v.get i)| ≤
        3100 * 2 ^ (-24 : ℤ) * a * κ * V + (15 * κ + 4) * 2 ^ (-150 : ℤ) := by
  obtain ⟨t, ht, rfl, hn⟩ := C80_new_f32 m h ha hκ hc
  refine ⟨t, ht, fun v w u hv hw hu hf i => ?_⟩
  refine there_and_back h hn haff (by show (2 : ℝ) ^ (-24 : ℤ) ≤ _; norm_num) ?_ hv hw hu hf i
  show 2000 * (2 : ℝ) ^ (-24 : ℤ) * a * κ ≤ 1
  rw [mul_assoc]
  calc 2000 * (2 : ℝ) ^ (-24 : ℤ) * (a * κ) ≤ 2000 * (2 : ℝ) ^ (-24 : ℤ) * 2 ^ 13 :=
        mul_le_mul_of_nonneg_left hc (by positivity)
    _ ≤ 1 := by norm_num

/-- **C81**: the same with `f64`. -/
theorem C81_there_and_back_f64 (m : Matrix4 Float.Model) {a κ V : ℝ} (h : Conditioned Float.Model m a κ)
    (ha : a ≤ 2 ^ 1017) (hκ : κ ≤ 2 ^ 1017) (hc : a * κ ≤ 2 ^ 42) (haff : m.Affine) :
    ∃ t, Transform.new_ m = .ok t ∧ ∀ v w u : Vector3 Float.Model, (∀ i, |val (v.get i)| ≤ V) →
      v.transform t = .ok w → w.transform t.inverse = .ok u → (∀ i, IsFinite (u.get i)) →
      ∀ i, |val (u.get i) - val (v.get i)| ≤
        3100 * 2 ^ (-53 : ℤ) * a * κ * V + (15 * κ + 4) * 2 ^ (-1075 : ℤ) := by
  obtain ⟨t, ht, rfl, hn⟩ := C80_new_f64 m h ha hκ hc
  refine ⟨t, ht, fun v w u hv hw hu hf i => ?_⟩
  refine there_and_back h hn haff (by show (2 : ℝ) ^ (-53 : ℤ) ≤ _; norm_num) ?_ hv hw hu hf i
  show 2000 * (2 : ℝ) ^ (-53 : ℤ) * a * κ ≤ 1
  rw [mul_assoc]
  calc 2000 * (2 : ℝ) ^ (-53 : ℤ) * (a * κ) ≤ 2000 * (2 : ℝ) ^ (-53 : ℤ) * 2 ^ 42 :=
        mul_le_mul_of_nonneg_left hc (by positivity)
    _ ≤ 1 := by norm_num

/-- **C81**: rotations and reflections of vectors, with `f32`: there and back, a component changes by at
    most `38000` units of roundoff times the largest component (0.3 %). -/
theorem C81_rotation_f32 (m : Matrix4 Float32.Model) {V : ℝ} (hf : ∀ i j, IsFinite (m.mat i j))
    (h : RigidUpTo (m.vals Float32.Model) 1) :
    ∃ t, Transform.new_ m = .ok t ∧ ∀ v w u : Vector3 Float32.Model, (∀ i, |val (v.get i)| ≤ V) →
      v.transform t = .ok w → w.transform t.inverse = .ok u → (∀ i, IsFinite (u.get i)) →
      ∀ i, |val (u.get i) - val (v.get i)| ≤ 38000 * 2 ^ (-24 : ℤ) * V + 184 * 2 ^ (-150 : ℤ) := by
  have hc := rigid_conditioned (fun i j => by rw [IEEE.as_eq]; exact hf i j) h le_rfl
  have haff : m.Affine := fun j => by
    have := h.last j.castSucc
    rw [if_neg (by fin_cases j <;> decide)] at this
    simpa only [Matrix4.vals, Matrix.of_apply, IEEE.as_eq] using this
  obtain ⟨t, ht, hb⟩ := C81_there_and_back_f32 m (V := V) hc (by norm_num) (by norm_num) (by norm_num) haff
  refine ⟨t, ht, fun v w u hv hw hu hf i => (hb v w u hv hw hu hf i).trans ?_⟩
  have : 0 ≤ (2 : ℝ) ^ (-24 : ℤ) * V := mul_nonneg (by positivity) ((abs_nonneg _).trans (hv 0))
  generalize (2 : ℝ) ^ (-24 : ℤ) = e at *
  generalize (2 : ℝ) ^ (-150 : ℤ) = d at *
  linarith

/-- **C81**: the same with `f64`. -/
theorem C81_rotation_f64 (m : Matrix4 Float.Model) {V : ℝ} (hf : ∀ i j, IsFinite (m.mat i j))
    (h : RigidUpTo (m.vals Float.Model) 1) :
    ∃ t, Transform.new_ m = .ok t ∧ ∀ v w u : Vector3 Float.Model, (∀ i, |val (v.get i)| ≤ V) →
      v.transform t = .ok w → w.transform t.inverse = .ok u → (∀ i, IsFinite (u.get i)) →
      ∀ i, |val (u.get i) - val (v.get i)| ≤ 38000 * 2 ^ (-53 : ℤ) * V + 184 * 2 ^ (-1075 : ℤ) := by
  have hc := rigid_conditioned (fun i j => by rw [IEEE.as_eq]; exact hf i j) h le_rfl
  have haff : m.Affine := fun j => by
    have := h.last j.castSucc
    rw [if_neg (by fin_cases j <;> decide)] at this
    simpa only [Matrix4.vals, Matrix.of_apply, IEEE.as_eq] using this
  have p : (2 : ℝ) ^ 4 ≤ 2 ^ 1017 := pow_le_pow_right₀ (by norm_num) (by norm_num)
  obtain ⟨t, ht, hb⟩ := C81_there_and_back_f64 m (V := V) hc (le_trans (by norm_num) p) (le_trans (by norm_num) p) (by norm_num) haff
  refine ⟨t, ht, fun v w u hv hw hu hf i => (hb v w u hv hw hu hf i).trans ?_⟩
  have : 0 ≤ (2 : ℝ) ^ (-53 : ℤ) * V := mul_nonneg (by positivity) ((abs_nonneg _).trans (hv 0))
  generalize (2 : ℝ) ^ (-53 : ℤ) = e at *
  generalize (2 : ℝ) ^ (-1075 : ℤ) = d at *
  linarith

/-- **C81**, refuted without `Affine`: for a projective transform the vector `(1, 0, 0)` comes back as
    `(2, 0, 0)`, although nothing is rounded. -/
theorem C81_projective_refuted :
    let m := intMatrix Float32.Model ![![1, 0, 0, 1], ![0, 1, 0, 0], ![0, 0, 1, 0], ![1, 0, 0, 2]]
    (do
      let t ← Transform.new_ m
      let p ← t.m.mul t.mInv
      pure (p.eq (intMatrix Float32.Model fun i j => if i = j then 1 else 0))) = .ok true ∧
    (do
      let t ← Transform.new_ m
      let w ← (fv 1 0 0).transform t
      w.transform t.inverse) = .ok (fv 2 0 0) := by
  constructor <;> decide +kernel

/-! ### Examples -/

namespace RoundTripExamples

open StabilityExamples

/-- A rotation about the `z` axis (with rounded entries) -/
def rotation (T : Type) [Elem T] [As T T] [FloatFns T] [IEEE T] : Matrix4 T :=
  ⟨fun i j => fdiv (Elem.fromInt (![![3, -4, 0, 0], ![4, 3, 0, 0], ![0, 0, 5, 0], ![0, 0, 0, 5]] i j)) (Elem.fromInt 5)⟩

example : RigidUpTo ((rotation Float32.Model).vals Float32.Model) 1 ∧ RigidUpTo ((rotation Float.Model).vals Float.Model) 1 := by
  constructor
  · exact_mod_cast rigid_rat (a := rotation Float32.Model) (τ := 1) (by decide +kernel) (by decide +kernel) (by decide +kernel)
  · exact_mod_cast rigid_rat (a := rotation Float.Model) (τ := 1) (by decide +kernel) (by decide +kernel) (by decide +kernel)

-- the vector `(3, 7, 1)` does not come back exactly, and the result is finite
example : (do
    let t ← Transform.new_ (rotation Float32.Model)
    let w ← (fv 3 7 1).transform t
    let u ← w.transform t.inverse
    pure (decide (u = fv 3 7 1), decide (∀ i, IsFinite (u.get i)))) = .ok (false, true) := by decide +kernel

-- the hypotheses of `C81_there_and_back_f32` (see `StabilityExamples.sheared_conditioned`)
example : (sheared Float32.Model).Affine := fun j => by
  have := congrFun (congrFun sheared_vals 3) j.castSucc
  simp only [Matrix4.vals, Matrix.of_apply, IEEE.as_eq] at this
  rw [this]
  fin_cases j <;> rfl

end RoundTripExamples

end Pbrt
