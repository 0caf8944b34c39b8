import Verif.Props.Vectors
import Mathlib.LinearAlgebra.Matrix.NonsingularInverse

/-!
# C110: triple products, parallel vectors, and coordinates in a frame
-/

namespace Pbrt

section
variable {T : Type} [Elem T] [CommRing T] [ExactRing T]

/-- **C110**: `u x (v x w) = v (u . w) - w (u . v)`. -/
theorem C110_triple_vector (u v w : Vector3 T) :
    (do u.cross (← v.cross w)) = (do (← v.mul (← u.dot w)).sub (← w.mul (← u.dot v))) := by
  simp [Vector3.cross, Vector3.dot, Vector3.mul, Vector3.sub]
  refine ⟨?_, ?_, ?_⟩ <;> ring

theorem C110_triple_normal (u v w : Normal3 T) :
    (do u.cross (← v.cross w)) = (do (← v.mul (← u.dot w)).sub (← w.mul (← u.dot v))) := by
  simp [Normal3.cross, Normal3.dot, Normal3.mul, Normal3.sub]
  refine ⟨?_, ?_, ?_⟩ <;> ring

/-- **C110**: the three ways to put `u`, `v`, `w` into a triple cross product add up to zero. -/
theorem C110_jacobi_vector (u v w : Vector3 T) :
    (do (← (← u.cross (← v.cross w)).add (← v.cross (← w.cross u))).add (← w.cross (← u.cross v))) =
      .ok ⟨0, 0, 0⟩ := by
  simp [Vector3.cross, Vector3.add]
  refine ⟨?_, ?_, ?_⟩ <;> ring

theorem C110_jacobi_normal (u v w : Normal3 T) :
    (do (← (← u.cross (← v.cross w)).add (← v.cross (← w.cross u))).add (← w.cross (← u.cross v))) =
      .ok ⟨0, 0, 0⟩ := by
  simp [Normal3.cross, Normal3.add]
  refine ⟨?_, ?_, ?_⟩ <;> ring

/-- **C110**: the volume spanned by three vectors does not change if they are rotated. -/
theorem C110_rotate_vector (u v w : Vector3 T) : (do (← u.cross v).dot w) = (do (← v.cross w).dot u) := by
  simp [Vector3.cross, Vector3.dot]
  ring

theorem C110_rotate_normal (u v w : Normal3 T) : (do (← u.cross v).dot w) = (do (← v.cross w).dot u) := by
  simp [Normal3.cross, Normal3.dot]
  ring

/-- **C110**: `(a x b) . (c x d) = (a . c) (b . d) - (a . d) (b . c)`. -/
theorem C110_four_vector (a b c d : Vector3 T) : (do (← a.cross b).dot (← c.cross d)) =
    (do Elem.sub (← Elem.mul (← a.dot c) (← b.dot d)) (← Elem.mul (← a.dot d) (← b.dot c))) := by
  simp [Vector3.cross, Vector3.dot]
  ring

theorem C110_four_normal (a b c d : Normal3 T) : (do (← a.cross b).dot (← c.cross d)) =
    (do Elem.sub (← Elem.mul (← a.dot c) (← b.dot d)) (← Elem.mul (← a.dot d) (← b.dot c))) := by
  simp [Normal3.cross, Normal3.dot]
  ring

end

section
variable {K : Type} [Field K] [LinearOrder K] [IsStrictOrderedRing K]

omit [IsStrictOrderedRing K] in
/-- **C110**: the cross product is zero exactly if one of the two is a multiple of the other. -/
theorem C110_parallel (u v : Vector3 K) : u.cross v = .ok ⟨0, 0, 0⟩ ↔ u = ⟨0, 0, 0⟩ ∨ ∃ s, u.mul s = .ok v := by
  obtain ⟨a, b, c⟩ := u
  obtain ⟨x, y, z⟩ := v
  simp only [Vector3.cross, Vector3.mul, mul_ok, sub_ok, ok_bind, pure_ok, Except.ok.injEq, Vector3.mk.injEq]
  constructor
  · rintro ⟨h1, h2, h3⟩
    by_cases ha : a = 0
    · by_cases hb : b = 0
      · by_cases hc : c = 0
        · exact .inl ⟨ha, hb, hc⟩
        · right
          refine ⟨z / c, ?_, ?_, by field_simp⟩ <;> field_simp
          · linear_combination -h2
          · linear_combination h1
      · right
        refine ⟨y / b, ?_, by field_simp, ?_⟩ <;> field_simp
        · linear_combination h3
        · linear_combination -h1
    · right
      refine ⟨x / a, by field_simp, ?_, ?_⟩ <;> field_simp
      · linear_combination -h3
      · linear_combination h2
  · rintro (⟨rfl, rfl, rfl⟩ | ⟨s, rfl, rfl, rfl⟩) <;> refine ⟨?_, ?_, ?_⟩ <;> ring

theorem cross_lenSq (u v : Vector3 K) (du dv d : K) (hu : u.lenSq = .ok du) (hv : v.lenSq = .ok dv) (hd : u.dot v = .ok d) :
    ∃ c e, u.cross v = .ok c ∧ c.lenSq = .ok e ∧ d ^ 2 + e = du * dv ∧ 0 ≤ e ∧ (e = 0 ↔ c = ⟨0, 0, 0⟩) := by
  obtain ⟨a, b, c⟩ := u
  obtain ⟨x, y, z⟩ := v
  simp only [Vector3.lenSq, Vector3.dot, mul_ok, add_ok, ok_bind, Except.ok.injEq] at hu hv hd
  subst hu hv hd
  refine ⟨_, _, by simp [Vector3.cross]; rfl, by simp [Vector3.lenSq]; rfl, by ring, ?_, ?_⟩
  · exact add_nonneg (add_nonneg (mul_self_nonneg _) (mul_self_nonneg _)) (mul_self_nonneg _)
  simp only [Vector3.mk.injEq]
  constructor
  · intro h
    have h1 := mul_self_nonneg (b * z - c * y)
    have h2 := mul_self_nonneg (c * x - a * z)
    have h3 := mul_self_nonneg (a * y - b * x)
    exact ⟨mul_self_eq_zero.1 (by linarith), mul_self_eq_zero.1 (by linarith), mul_self_eq_zero.1 (by linarith)⟩
  · rintro ⟨h1, h2, h3⟩
    rw [h1, h2, h3]
    ring

/-- **C110**: the square of a dot product is at most the product of the squared lengths, with equality exactly if
    one vector is a multiple of the other. -/
theorem C110_cauchy (u v : Vector3 K) (du dv d : K) (hu : u.lenSq = .ok du) (hv : v.lenSq = .ok dv)
    (hd : u.dot v = .ok d) :
    d ^ 2 ≤ du * dv ∧ (d ^ 2 = du * dv ↔ u = ⟨0, 0, 0⟩ ∨ ∃ s, u.mul s = .ok v) := by
  obtain ⟨c, e, h1, h2, h3, h4, h5⟩ := cross_lenSq u v du dv d hu hv hd
  refine ⟨by linarith, ?_⟩
  rw [← C110_parallel, h1, Except.ok.injEq, ← h5]
  constructor <;> intro h <;> linarith

end

/-! ### Frames -/

/-- Three vectors that are orthogonal to each other and of length one -/
structure Orthonormal3 (a b c : Vector3 ℝ) : Prop where
  aa : a.dot a = .ok 1
  bb : b.dot b = .ok 1
  cc : c.dot c = .ok 1
  ab : a.dot b = .ok 0
  ac : a.dot c = .ok 0
  bc : b.dot c = .ok 0

theorem Orthonormal3.columns {a b c : Vector3 ℝ} (h : Orthonormal3 a b c) (i j : Fin 3) :
    a.get i * a.get j + b.get i * b.get j + c.get i * c.get j = if i = j then 1 else 0 := by
  let M : Matrix (Fin 3) (Fin 3) ℝ := ![a.get, b.get, c.get]
  have e : ∀ u v : Vector3 ℝ, ∀ r : ℝ, u.dot v = .ok r → u.get 0 * v.get 0 + u.get 1 * v.get 1 + u.get 2 * v.get 2 = r := by
    intro u v r hr
    rw [C50_dot_value_vector, Fin.sum_univ_three] at hr
    exact Except.ok.inj hr
  have h1 : M * M.transpose = 1 := by
    ext k l
    rw [Matrix.mul_apply, Fin.sum_univ_three, Matrix.one_apply]
    simp only [Matrix.transpose_apply]
    fin_cases k <;> fin_cases l <;> simp [M]
    · exact e _ _ _ h.aa
    · exact e _ _ _ h.ab
    · exact e _ _ _ h.ac
    · linarith [e _ _ _ h.ab]
    · exact e _ _ _ h.bb
    · exact e _ _ _ h.bc
    · linarith [e _ _ _ h.ac]
    · linarith [e _ _ _ h.bc]
    · exact e _ _ _ h.cc
  have h2 : M.transpose * M = 1 := mul_eq_one_comm.1 h1
  have := congrFun (congrFun h2 i) j
  rw [Matrix.mul_apply, Fin.sum_univ_three, Matrix.one_apply] at this
  exact this

/-- **C110**: the vectors of `coordinate_system` of a unit vector are an orthonormal frame; the cross product of two
    in a row is the third. -/
theorem C110_frame (v1 : Vector3 ℝ) (h : v1.lenSq = .ok 1) : ∃ v2 v3 : Vector3 ℝ, v1.coordinateSystem = .ok (v2, v3) ∧
    Orthonormal3 v1 v2 v3 ∧ v1.cross v2 = .ok v3 ∧ v2.cross v3 = .ok v1 ∧ v3.cross v1 = .ok v2 := by
  obtain ⟨v2, v3, h1, h2, h3, h4, h5, h6, h7⟩ := C55_orthonormal v1 h
  refine ⟨v2, v3, h1, ⟨h, h2, h3, h4, h5, h6⟩, h7, ?_, ?_⟩
  · have := C110_triple_vector v2 v1 v2
    rw [h7, ok_bind, C50_dot_symm_vector v2 v1, h4, show v2.dot v2 = .ok 1 from h2] at this
    rw [this]
    simp [Vector3.mul, Vector3.sub]
  · have := C110_triple_vector v1 v1 v2
    rw [h7, ok_bind, h4, show v1.dot v1 = .ok 1 from h] at this
    rw [C50_cross_antisymm_vector, this]
    simp [Vector3.mul, Vector3.sub, Vector3.neg]

/-- **C110**: every vector is the sum of its parts along the three vectors of a frame. -/
theorem C110_coordinates (a b c w : Vector3 ℝ) (h : Orthonormal3 a b c) :
    (do
      let x ← a.mul (← w.dot a)
      let y ← b.mul (← w.dot b)
      let z ← c.mul (← w.dot c)
      (← x.add y).add z) = .ok w := by
  have k := h.columns
  have k00 := k 0 0; have k11 := k 1 1; have k22 := k 2 2
  have k01 := k 0 1; have k02 := k 0 2; have k12 := k 1 2
  rw [if_pos rfl] at k00 k11 k22
  rw [if_neg (by decide)] at k01 k02 k12
  simp only [Vector3.get] at k00 k11 k22 k01 k02 k12
  simp [Vector3.mul, Vector3.dot, Vector3.add]
  obtain ⟨x, y, z⟩ := w
  simp only [Vector3.mk.injEq]
  refine ⟨?_, ?_, ?_⟩
  · linear_combination x * k00 + y * k01 + z * k02
  · linear_combination x * k01 + y * k11 + z * k12
  · linear_combination x * k02 + y * k12 + z * k22

/-- **C110**: dot products can be computed from the coordinates in a frame. -/
theorem C110_isometry (a b c v w : Vector3 ℝ) (h : Orthonormal3 a b c) (x y z x' y' z' : ℝ) (hx : v.dot a = .ok x)
    (hy : v.dot b = .ok y) (hz : v.dot c = .ok z) (hx' : w.dot a = .ok x') (hy' : w.dot b = .ok y')
    (hz' : w.dot c = .ok z') : v.dot w = (⟨x, y, z⟩ : Vector3 ℝ).dot ⟨x', y', z'⟩ := by
  have k := h.columns
  have k00 := k 0 0; have k11 := k 1 1; have k22 := k 2 2
  have k01 := k 0 1; have k02 := k 0 2; have k12 := k 1 2
  rw [if_pos rfl] at k00 k11 k22
  rw [if_neg (by decide)] at k01 k02 k12
  simp only [Vector3.get] at k00 k11 k22 k01 k02 k12
  simp only [Vector3.dot, mul_ok, add_ok, ok_bind, Except.ok.injEq] at *
  subst hx hy hz hx' hy' hz'
  obtain ⟨p, q, r⟩ := v
  obtain ⟨p', q', r'⟩ := w
  dsimp only
  linear_combination -(p * p' * k00) - q * q' * k11 - r * r' * k22 - (p * q' + q * p') * k01 - (p * r' + r * p') * k02 -
    (q * r' + r * q') * k12

/-- **C110**: coordinates are read back from the vector that is put together from them. -/
theorem C110_read_back (a b c : Vector3 ℝ) (h : Orthonormal3 a b c) (x y z : ℝ) :
    ∃ w, (do (← (← a.mul x).add (← b.mul y)).add (← c.mul z) : Outcome (Vector3 ℝ)) = .ok w ∧
      w.dot a = .ok x ∧ w.dot b = .ok y ∧ w.dot c = .ok z := by
  refine ⟨_, by simp [Vector3.mul, Vector3.add]; rfl, ?_⟩
  obtain ⟨aa, bb, cc, ab, ac, bc⟩ := h
  simp only [Vector3.dot, mul_ok, add_ok, ok_bind, Except.ok.injEq] at *
  refine ⟨?_, ?_, ?_⟩
  · linear_combination x * aa + y * ab + z * ac
  · linear_combination x * ab + y * bb + z * bc
  · linear_combination x * ac + y * bc + z * cc

/-! ### Concrete cases -/

example : (do (⟨1, 2, 3⟩ : Vector3 ℚ).cross (← (⟨4, -5, 6⟩ : Vector3 ℚ).cross ⟨1, 0, 2⟩)) = .ok ⟨16, -35, 18⟩ := by
  decide +kernel

example := C110_parallel (⟨1, 2, 3⟩ : Vector3 ℚ) ⟨-2, -4, -6⟩
example : (⟨1, 2, 3⟩ : Vector3 ℚ).cross ⟨-2, -4, -6⟩ = .ok ⟨0, 0, 0⟩ := by decide +kernel

example := C110_cauchy (⟨1, 2, 3⟩ : Vector3 ℚ) ⟨4, -5, 6⟩ 14 77 12 (by decide +kernel) (by decide +kernel) (by decide +kernel)

/-- The frame of a unit vector, and a vector in it -/
example : ∃ v2 v3 : Vector3 ℝ, (⟨3 / 5, 0, -4 / 5⟩ : Vector3 ℝ).coordinateSystem = .ok (v2, v3) ∧
    Orthonormal3 ⟨3 / 5, 0, -4 / 5⟩ v2 v3 := by
  obtain ⟨v2, v3, h1, h2, _⟩ := C110_frame ⟨3 / 5, 0, -4 / 5⟩ (by simp [Vector3.lenSq]; norm_num)
  exact ⟨v2, v3, h1, h2⟩

end Pbrt
