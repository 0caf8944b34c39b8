import Verif.Proof.Exact
import Verif.Proof.Order
import Verif.Proof.FloatOrder
import Verif.Spec.Samples
import Mathlib.LinearAlgebra.CrossProduct
import Mathlib.Tactic.LinearCombination

/-!
# Vectors, normals and points (C46, C50-C55, C58, C59)

The algebraic laws are equations between programs (`do` blocks of the modelled functions) over any
exact commutative ring: exact numbers, and `i64` with wrapping arithmetic.  With overflow checks
`i64` arithmetic is exact or panics; those theorems are suffixed `_checked`.
-/

namespace Pbrt

/-! ### C46, C50, C51, C53: vectors and normals (the two modules have the same code) -/

/-! #### Vector3 -/

section
variable {T : Type} [CommRing T] [Elem T] [ExactRing T]

/-- **C50**: `dot` is the sum of the products of the components. -/
theorem C50_dot_value_vector (u v : Vector3 T) : u.dot v = .ok (∑ i, u.get i * v.get i) := by
  simp [Vector3.dot, Vector3.get, Fin.sum_univ_three]

example : (⟨1, 2, 3⟩ : Vector3 ℚ).dot ⟨4, -5, 6⟩ = .ok 12 := by decide +kernel

theorem C50_dot_symm_vector (u v : Vector3 T) : u.dot v = v.dot u := by
  simp [Vector3.dot]; ring

theorem C50_dot_add_vector (u v w : Vector3 T) :
    (do (← u.add v).dot w) = (do Elem.add (← u.dot w) (← v.dot w)) := by
  simp [Vector3.dot, Vector3.add]; ring

example : (do (← (⟨1, 2, 3⟩ : Vector3 ℚ).add ⟨1, 1, 1⟩).dot ⟨4, -5, 6⟩) = .ok 17 ∧
    (⟨1, 2, 3⟩ : Vector3 ℚ).dot ⟨4, -5, 6⟩ = .ok 12 ∧ (⟨1, 1, 1⟩ : Vector3 ℚ).dot ⟨4, -5, 6⟩ = .ok 5 := by
  decide +kernel

theorem C50_dot_scale_vector (u w : Vector3 T) (s : T) :
    (do (← u.mul s).dot w) = (do Elem.mul s (← u.dot w)) := by
  simp [Vector3.dot, Vector3.mul]; ring

omit [CommRing T] [ExactRing T] in
/-- **C50**: `len_sq` is `dot` with itself. -/
theorem C50_len_sq_vector (v : Vector3 T) : v.lenSq = v.dot v := rfl

/-- **C50**: `cross` is the cross product. -/
theorem C50_cross_value_vector (u v : Vector3 T) :
    ∃ w, u.cross v = .ok w ∧ w.get = crossProduct u.get v.get := by
  refine ⟨_, by simp [Vector3.cross]; rfl, ?_⟩
  rw [cross_apply]
  funext i
  fin_cases i <;> simp [Vector3.get]

example : (⟨1, 2, 3⟩ : Vector3 ℚ).cross ⟨4, -5, 6⟩ = .ok ⟨27, 6, -13⟩ := by decide +kernel

theorem C50_cross_antisymm_vector (u v : Vector3 T) :
    u.cross v = (do (← v.cross u).neg) := by
  simp [Vector3.cross, Vector3.neg]; ring_nf; simp

theorem C50_cross_add_vector (u v w : Vector3 T) :
    (do (← u.add v).cross w) = (do (← u.cross w).add (← v.cross w)) ∧
    (do w.cross (← u.add v)) = (do (← w.cross u).add (← w.cross v)) := by
  simp [Vector3.cross, Vector3.add]; ring_nf; simp

theorem C50_cross_scale_vector (u v : Vector3 T) (s : T) :
    (do (← u.mul s).cross v) = (do (← u.cross v).mul s) ∧
    (do u.cross (← v.mul s)) = (do (← u.cross v).mul s) := by
  simp [Vector3.cross, Vector3.mul]; ring_nf; simp

/-- **C50**: `cross` is orthogonal to both factors. -/
theorem C50_cross_orthogonal_vector (u v : Vector3 T) :
    (do (← u.cross v).dot u) = .ok 0 ∧ (do (← u.cross v).dot v) = .ok 0 := by
  simp [Vector3.cross, Vector3.dot]; constructor <;> ring

/-- **C50**: |u x v|^2 + (u . v)^2 = |u|^2 |v|^2 -/
theorem C50_lagrange_vector (u v : Vector3 T) :
    (do
      let c ← (← u.cross v).lenSq
      let d ← u.dot v
      Elem.add c (← Elem.mul d d)) =
    (do Elem.mul (← u.lenSq) (← v.lenSq)) := by
  simp [Vector3.cross, Vector3.dot, Vector3.lenSq]; ring

end

section
variable {K : Type} [Field K] [LinearOrder K] [IsStrictOrderedRing K]

/-- **C50**: in exact arithmetic `len_sq` is not negative, and zero only for the zero vector. -/
theorem C50_len_sq_zero_vector (v : Vector3 K) :
    ∃ l, v.lenSq = .ok l ∧ 0 ≤ l ∧ (l = 0 ↔ v = ⟨0, 0, 0⟩) := by
  refine ⟨v.x * v.x + v.y * v.y + v.z * v.z, by simp [Vector3.lenSq], add_nonneg (add_nonneg (mul_self_nonneg _) (mul_self_nonneg _)) (mul_self_nonneg _), ?_⟩
  constructor
  · intro h
    have hx := mul_self_nonneg v.x
    have hy := mul_self_nonneg v.y
    have hz := mul_self_nonneg v.z
    have x0 : v.x = 0 := mul_self_eq_zero.1 (by linarith)
    have y0 : v.y = 0 := mul_self_eq_zero.1 (by linarith)
    have z0 : v.z = 0 := mul_self_eq_zero.1 (by linarith)
    cases v; simp_all
  · rintro rfl; simp

example : (⟨1, -2, 2⟩ : Vector3 ℚ).lenSq = .ok 9 := by decide +kernel

/-- **C51**: `face_forward` returns `v` or `-v`, the one whose product with `w` is not negative,
    and `v` itself if its product is not negative. -/
theorem C51_face_forward_vector (v w : Vector3 K) :
    ∃ r d e, v.faceForward w = .ok r ∧ v.dot w = .ok d ∧ r.dot w = .ok e ∧ 0 ≤ e ∧
      (r = v ∨ v.neg = .ok r) ∧ (0 ≤ d → r = v) := by
  have hd : v.dot w = .ok (v.x * w.x + v.y * w.y + v.z * w.z) := by simp [Vector3.dot]
  by_cases h : v.x * w.x + v.y * w.y + v.z * w.z < 0
  · refine ⟨⟨-v.x, -v.y, -v.z⟩, _, -(v.x * w.x + v.y * w.y + v.z * w.z), ?_, hd, ?_, by linarith,
      Or.inr ?_, fun h' => absurd h (not_lt.2 h')⟩
    · simp [Vector3.faceForward, hd, h, Vector3.neg]
    · simp [Vector3.dot]; ring
    · simp [Vector3.neg]
  · refine ⟨v, _, _, ?_, hd, hd, not_lt.1 h, Or.inl rfl, fun _ => rfl⟩
    simp [Vector3.faceForward, hd, h]

example : (⟨1, 2, 3⟩ : Vector3 ℚ).faceForward ⟨-1, 0, 0⟩ = .ok ⟨-1, -2, -3⟩ := by decide +kernel

end

/-! **C46** -/

section
variable {T : Type} [Elem T] [LawfulOrder T]

/-- **C46**: `max_dimension` is an axis with the greatest component, the last such axis. -/
theorem C46_max_dimension_vector (v : Vector3 T) (h : ∀ i, NotNan (v.get i)) :
    ∃ i : Fin 3, v.maxDimension = i ∧ (∀ j, Le (v.get j) (v.get i)) ∧
      (∀ j, i < j → Lt (v.get j) (v.get i)) := by
  have hx : NotNan v.x := h 0
  have hy : NotNan v.y := h 1
  have hz : NotNan v.z := h 2
  unfold Vector3.maxDimension
  by_cases h1 : Elem.gt v.x v.y = true
  · by_cases h2 : Elem.gt v.x v.z = true
    · refine ⟨0, by simp [h1, h2], fun j => ?_, fun j hj => ?_⟩
      · fin_cases j
        exacts [.refl hx, Lt.le h1, Lt.le h2]
      · fin_cases j
        exacts [absurd hj (by decide), h1, h2]
    · have h3 : Le v.x v.z := notLt_le hz hx h2
      refine ⟨2, by simp [h1, h2], fun j => ?_, fun j hj => ?_⟩
      · fin_cases j
        exacts [h3, (Lt.le h1).trans h3, .refl hz]
      · fin_cases j <;> exact absurd hj (by decide)
  · have h3 : Le v.x v.y := notLt_le hy hx h1
    by_cases h2 : Elem.gt v.y v.z = true
    · refine ⟨1, by simp [h1, h2], fun j => ?_, fun j hj => ?_⟩
      · fin_cases j
        exacts [h3, .refl hy, Lt.le h2]
      · fin_cases j
        exacts [absurd hj (by decide), absurd hj (by decide), h2]
    · have h4 : Le v.y v.z := notLt_le hz hy h2
      refine ⟨2, by simp [h1, h2], fun j => ?_, fun j hj => ?_⟩
      · fin_cases j
        exacts [h3.trans h4, h4, .refl hz]
      · fin_cases j <;> exact absurd hj (by decide)

example := C46_max_dimension_vector (⟨f32 9, f32 3, f32 8⟩ : Vector3 Float32.Model) (by decide +kernel)

end

/-! **C53** -/

section
variable {T : Type}

/-- **C53**: indexing returns the component for 0, 1, 2 and panics for every other index. -/
theorem C53_index_vector (v : Vector3 T) :
    (∀ i : Fin 3, v.index i = .ok (v.get i)) ∧ (∀ n, 3 ≤ n → v.index n = .error .assertion) := by
  constructor
  · intro i; fin_cases i <;> rfl
  · intro n hn; simp [Vector3.index]; omega

/-- **C53**: `permute` panics exactly if some index is out of range, and otherwise picks the named
    components. -/
theorem C53_permute_vector (v : Vector3 T) (a b c : Nat) :
    (3 ≤ a ∨ 3 ≤ b ∨ 3 ≤ c → v.permute a b c = .error .assertion) ∧
    (∀ i j k : Fin 3, a = i → b = j → c = k →
      v.permute a b c = .ok ⟨v.get i, v.get j, v.get k⟩) := by
  obtain ⟨h1, h2⟩ := C53_index_vector v
  constructor
  · intro h
    unfold Vector3.permute
    by_cases ha : 3 ≤ a
    · simp [h2 a ha]
    by_cases hb : 3 ≤ b
    · have := h1 ⟨a, by omega⟩
      simp only at this
      simp [this, h2 b hb]
    have hc : 3 ≤ c := by omega
    have e1 := h1 ⟨a, by omega⟩
    have e2 := h1 ⟨b, by omega⟩
    simp only at e1 e2
    simp [e1, e2, h2 c hc]
  · rintro i j k rfl rfl rfl
    simp [Vector3.permute, h1]

theorem C53_permute_id_vector (v : Vector3 T) : v.permute 0 1 2 = .ok v := rfl

/-- **C53**: permutations compose. -/
theorem C53_permute_comp_vector (v : Vector3 T) (s t : Fin 3 → Fin 3) :
    (do (← v.permute (s 0) (s 1) (s 2)).permute (t 0) (t 1) (t 2)) =
      v.permute (s (t 0)) (s (t 1)) (s (t 2)) := by
  have hw := (C53_permute_vector v (s 0) (s 1) (s 2)).2 _ _ _ rfl rfl rfl
  have hg : ∀ i, (⟨v.get (s 0), v.get (s 1), v.get (s 2)⟩ : Vector3 T).get i = v.get (s i) := by
    intro i; fin_cases i <;> rfl
  rw [hw, ok_bind, (C53_permute_vector _ _ _ _).2 _ _ _ rfl rfl rfl, hg, hg, hg,
    (C53_permute_vector _ _ _ _).2 _ _ _ rfl rfl rfl]

end

/-! #### Normal3 -/

section
variable {T : Type} [CommRing T] [Elem T] [ExactRing T]

/-- **C50**: `dot` is the sum of the products of the components. -/
theorem C50_dot_value_normal (u v : Normal3 T) : u.dot v = .ok (∑ i, u.get i * v.get i) := by
  simp [Normal3.dot, Normal3.get, Fin.sum_univ_three]

example : (⟨1, 2, 3⟩ : Normal3 ℚ).dot ⟨4, -5, 6⟩ = .ok 12 := by decide +kernel

theorem C50_dot_symm_normal (u v : Normal3 T) : u.dot v = v.dot u := by
  simp [Normal3.dot]; ring

theorem C50_dot_add_normal (u v w : Normal3 T) :
    (do (← u.add v).dot w) = (do Elem.add (← u.dot w) (← v.dot w)) := by
  simp [Normal3.dot, Normal3.add]; ring

example : (do (← (⟨1, 2, 3⟩ : Normal3 ℚ).add ⟨1, 1, 1⟩).dot ⟨4, -5, 6⟩) = .ok 17 ∧
    (⟨1, 2, 3⟩ : Normal3 ℚ).dot ⟨4, -5, 6⟩ = .ok 12 ∧ (⟨1, 1, 1⟩ : Normal3 ℚ).dot ⟨4, -5, 6⟩ = .ok 5 := by
  decide +kernel

theorem C50_dot_scale_normal (u w : Normal3 T) (s : T) :
    (do (← u.mul s).dot w) = (do Elem.mul s (← u.dot w)) := by
  simp [Normal3.dot, Normal3.mul]; ring

omit [CommRing T] [ExactRing T] in
/-- **C50**: `len_sq` is `dot` with itself. -/
theorem C50_len_sq_normal (v : Normal3 T) : v.lenSq = v.dot v := rfl

/-- **C50**: `cross` is the cross product. -/
theorem C50_cross_value_normal (u v : Normal3 T) :
    ∃ w, u.cross v = .ok w ∧ w.get = crossProduct u.get v.get := by
  refine ⟨_, by simp [Normal3.cross]; rfl, ?_⟩
  rw [cross_apply]
  funext i
  fin_cases i <;> simp [Normal3.get]

example : (⟨1, 2, 3⟩ : Normal3 ℚ).cross ⟨4, -5, 6⟩ = .ok ⟨27, 6, -13⟩ := by decide +kernel

theorem C50_cross_antisymm_normal (u v : Normal3 T) :
    u.cross v = (do (← v.cross u).neg) := by
  simp [Normal3.cross, Normal3.neg]; ring_nf; simp

theorem C50_cross_add_normal (u v w : Normal3 T) :
    (do (← u.add v).cross w) = (do (← u.cross w).add (← v.cross w)) ∧
    (do w.cross (← u.add v)) = (do (← w.cross u).add (← w.cross v)) := by
  simp [Normal3.cross, Normal3.add]; ring_nf; simp

theorem C50_cross_scale_normal (u v : Normal3 T) (s : T) :
    (do (← u.mul s).cross v) = (do (← u.cross v).mul s) ∧
    (do u.cross (← v.mul s)) = (do (← u.cross v).mul s) := by
  simp [Normal3.cross, Normal3.mul]; ring_nf; simp

/-- **C50**: `cross` is orthogonal to both factors. -/
theorem C50_cross_orthogonal_normal (u v : Normal3 T) :
    (do (← u.cross v).dot u) = .ok 0 ∧ (do (← u.cross v).dot v) = .ok 0 := by
  simp [Normal3.cross, Normal3.dot]; constructor <;> ring

/-- **C50**: |u x v|^2 + (u . v)^2 = |u|^2 |v|^2 -/
theorem C50_lagrange_normal (u v : Normal3 T) :
    (do
      let c ← (← u.cross v).lenSq
      let d ← u.dot v
      Elem.add c (← Elem.mul d d)) =
    (do Elem.mul (← u.lenSq) (← v.lenSq)) := by
  simp [Normal3.cross, Normal3.dot, Normal3.lenSq]; ring

end

section
variable {K : Type} [Field K] [LinearOrder K] [IsStrictOrderedRing K]

/-- **C50**: in exact arithmetic `len_sq` is not negative, and zero only for the zero vector. -/
theorem C50_len_sq_zero_normal (v : Normal3 K) :
    ∃ l, v.lenSq = .ok l ∧ 0 ≤ l ∧ (l = 0 ↔ v = ⟨0, 0, 0⟩) := by
  refine ⟨v.x * v.x + v.y * v.y + v.z * v.z, by simp [Normal3.lenSq], add_nonneg (add_nonneg (mul_self_nonneg _) (mul_self_nonneg _)) (mul_self_nonneg _), ?_⟩
  constructor
  · intro h
    have hx := mul_self_nonneg v.x
    have hy := mul_self_nonneg v.y
    have hz := mul_self_nonneg v.z
    have x0 : v.x = 0 := mul_self_eq_zero.1 (by linarith)
    have y0 : v.y = 0 := mul_self_eq_zero.1 (by linarith)
    have z0 : v.z = 0 := mul_self_eq_zero.1 (by linarith)
    cases v; simp_all
  · rintro rfl; simp

example : (⟨1, -2, 2⟩ : Normal3 ℚ).lenSq = .ok 9 := by decide +kernel

/-- **C51**: `face_forward` returns `v` or `-v`, the one whose product with `w` is not negative,
    and `v` itself if its product is not negative. -/
theorem C51_face_forward_normal (v w : Normal3 K) :
    ∃ r d e, v.faceForward w = .ok r ∧ v.dot w = .ok d ∧ r.dot w = .ok e ∧ 0 ≤ e ∧
      (r = v ∨ v.neg = .ok r) ∧ (0 ≤ d → r = v) := by
  have hd : v.dot w = .ok (v.x * w.x + v.y * w.y + v.z * w.z) := by simp [Normal3.dot]
  by_cases h : v.x * w.x + v.y * w.y + v.z * w.z < 0
  · refine ⟨⟨-v.x, -v.y, -v.z⟩, _, -(v.x * w.x + v.y * w.y + v.z * w.z), ?_, hd, ?_, by linarith,
      Or.inr ?_, fun h' => absurd h (not_lt.2 h')⟩
    · simp [Normal3.faceForward, hd, h, Normal3.neg]
    · simp [Normal3.dot]; ring
    · simp [Normal3.neg]
  · refine ⟨v, _, _, ?_, hd, hd, not_lt.1 h, Or.inl rfl, fun _ => rfl⟩
    simp [Normal3.faceForward, hd, h]

example : (⟨1, 2, 3⟩ : Normal3 ℚ).faceForward ⟨-1, 0, 0⟩ = .ok ⟨-1, -2, -3⟩ := by decide +kernel

end

/-! **C46** -/

section
variable {T : Type} [Elem T] [LawfulOrder T]

/-- **C46**: `max_dimension` is an axis with the greatest component, the last such axis. -/
theorem C46_max_dimension_normal (v : Normal3 T) (h : ∀ i, NotNan (v.get i)) :
    ∃ i : Fin 3, v.maxDimension = i ∧ (∀ j, Le (v.get j) (v.get i)) ∧
      (∀ j, i < j → Lt (v.get j) (v.get i)) := by
  have hx : NotNan v.x := h 0
  have hy : NotNan v.y := h 1
  have hz : NotNan v.z := h 2
  unfold Normal3.maxDimension
  by_cases h1 : Elem.gt v.x v.y = true
  · by_cases h2 : Elem.gt v.x v.z = true
    · refine ⟨0, by simp [h1, h2], fun j => ?_, fun j hj => ?_⟩
      · fin_cases j
        exacts [.refl hx, Lt.le h1, Lt.le h2]
      · fin_cases j
        exacts [absurd hj (by decide), h1, h2]
    · have h3 : Le v.x v.z := notLt_le hz hx h2
      refine ⟨2, by simp [h1, h2], fun j => ?_, fun j hj => ?_⟩
      · fin_cases j
        exacts [h3, (Lt.le h1).trans h3, .refl hz]
      · fin_cases j <;> exact absurd hj (by decide)
  · have h3 : Le v.x v.y := notLt_le hy hx h1
    by_cases h2 : Elem.gt v.y v.z = true
    · refine ⟨1, by simp [h1, h2], fun j => ?_, fun j hj => ?_⟩
      · fin_cases j
        exacts [h3, .refl hy, Lt.le h2]
      · fin_cases j
        exacts [absurd hj (by decide), absurd hj (by decide), h2]
    · have h4 : Le v.y v.z := notLt_le hz hy h2
      refine ⟨2, by simp [h1, h2], fun j => ?_, fun j hj => ?_⟩
      · fin_cases j
        exacts [h3.trans h4, h4, .refl hz]
      · fin_cases j <;> exact absurd hj (by decide)

example := C46_max_dimension_normal (⟨f32 9, f32 3, f32 8⟩ : Normal3 Float32.Model) (by decide +kernel)

end

/-! **C53** -/

section
variable {T : Type}

/-- **C53**: indexing returns the component for 0, 1, 2 and panics for every other index. -/
theorem C53_index_normal (v : Normal3 T) :
    (∀ i : Fin 3, v.index i = .ok (v.get i)) ∧ (∀ n, 3 ≤ n → v.index n = .error .assertion) := by
  constructor
  · intro i; fin_cases i <;> rfl
  · intro n hn; simp [Normal3.index]; omega

/-- **C53**: `permute` panics exactly if some index is out of range, and otherwise picks the named
    components. -/
theorem C53_permute_normal (v : Normal3 T) (a b c : Nat) :
    (3 ≤ a ∨ 3 ≤ b ∨ 3 ≤ c → v.permute a b c = .error .assertion) ∧
    (∀ i j k : Fin 3, a = i → b = j → c = k →
      v.permute a b c = .ok ⟨v.get i, v.get j, v.get k⟩) := by
  obtain ⟨h1, h2⟩ := C53_index_normal v
  constructor
  · intro h
    unfold Normal3.permute
    by_cases ha : 3 ≤ a
    · simp [h2 a ha]
    by_cases hb : 3 ≤ b
    · have := h1 ⟨a, by omega⟩
      simp only at this
      simp [this, h2 b hb]
    have hc : 3 ≤ c := by omega
    have e1 := h1 ⟨a, by omega⟩
    have e2 := h1 ⟨b, by omega⟩
    simp only at e1 e2
    simp [e1, e2, h2 c hc]
  · rintro i j k rfl rfl rfl
    simp [Normal3.permute, h1]

theorem C53_permute_id_normal (v : Normal3 T) : v.permute 0 1 2 = .ok v := rfl

/-- **C53**: permutations compose. -/
theorem C53_permute_comp_normal (v : Normal3 T) (s t : Fin 3 → Fin 3) :
    (do (← v.permute (s 0) (s 1) (s 2)).permute (t 0) (t 1) (t 2)) =
      v.permute (s (t 0)) (s (t 1)) (s (t 2)) := by
  have hw := (C53_permute_normal v (s 0) (s 1) (s 2)).2 _ _ _ rfl rfl rfl
  have hg : ∀ i, (⟨v.get (s 0), v.get (s 1), v.get (s 2)⟩ : Normal3 T).get i = v.get (s i) := by
    intro i; fin_cases i <;> rfl
  rw [hw, ok_bind, (C53_permute_normal _ _ _ _).2 _ _ _ rfl rfl rfl, hg, hg, hg,
    (C53_permute_normal _ _ _ _).2 _ _ _ rfl rfl rfl]

end

/-! #### C50, C51: examples and integers -/

example : (iv 1 2 3).dot (iv 4 (-5) 6) = .ok (i64 12) ∧
    (iv 1 2 3).cross (iv 4 (-5) 6) = .ok (iv 27 6 (-13)) ∧ (iv 1 2 3).lenSq = .ok (i64 14) ∧
    (iv 1 2 3).faceForward (iv (-1) 0 0) = .ok (iv (-1) (-2) (-3)) := by decide +kernel

/-- **C50** with overflow checks: if `dot` and `cross` return, they are exact. -/
theorem C50_dot_checked (u v : Vector3 (I64 true)) (d : I64 true) (h : u.dot v = .ok d) :
    d.toInt = ∑ i, (u.get i).toInt * (v.get i).toInt := by
  simp only [Vector3.dot, bind_eq_ok, I64.mul_checked, I64.add_checked] at h
  obtain ⟨a, ha, b, hb, ab, hab, c, hc, hd⟩ := h
  rw [Fin.sum_univ_three, ← hd, ← hab, ← ha, ← hb, ← hc]
  rfl

example := C50_dot_checked (iv 1 2 3) (iv 4 (-5) 6) (i64 12) (by decide +kernel)

theorem C50_cross_checked (u v w : Vector3 (I64 true)) (h : u.cross v = .ok w) (i : Fin 3) :
    (w.get i).toInt =
      crossProduct (fun j => (u.get j).toInt) (fun j => (v.get j).toInt) i := by
  simp only [Vector3.cross, bind_eq_ok, I64.mul_checked, I64.sub_checked, pure_ok,
    Except.ok.injEq] at h
  obtain ⟨a, ha, b, hb, c, hc, d, hd, e, he, f, hf, g, hg, k, hk, l, hl, rfl⟩ := h
  rw [cross_apply]
  fin_cases i
  · show c.toInt = _; rw [← hc, ← ha, ← hb]; rfl
  · show f.toInt = _; rw [← hf, ← hd, ← he]; rfl
  · show l.toInt = _; rw [← hl, ← hg, ← hk]; rfl

example := C50_cross_checked (iv 1 2 3) (iv 4 (-5) 6) (iv 27 6 (-13)) (by decide +kernel)

/-- **C50**, a limit: with wrapping arithmetic a vector other than zero can have `len_sq` zero. -/
theorem C50_wrapping_len_sq : ∃ v : Vector3 (I64 false), v ≠ ⟨.ofInt 0, .ofInt 0, .ofInt 0⟩ ∧
    v.lenSq = .ok (.ofInt 0) := by
  refine ⟨⟨.ofInt 4294967296, .ofInt 0, .ofInt 0⟩, ?_⟩
  decide +kernel

example : (iv 3 9 9).maxDimension = 2 ∧ (iv 9 9 3).maxDimension = 1 ∧ (iv 9 3 9).maxDimension = 2 ∧
    (iv 9 3 8).maxDimension = 0 ∧ (fv 9 3 8).maxDimension = 0 ∧ ∀ i, NotNan ((fv 9 3 8).get i) := by
  decide +kernel

example : (iv 7 8 9).index 1 = .ok (i64 8) ∧ (iv 7 8 9).index 3 = .error .assertion ∧
    (iv 7 8 9).permute 2 0 1 = .ok (iv 9 7 8) ∧ (iv 7 8 9).permute 2 0 5 = .error .assertion := by
  decide +kernel

/-- **C53** for 2D vectors. -/
theorem C53_index_vector2 {T : Type} (v : Vector2 T) :
    v.index 0 = .ok v.x ∧ v.index 1 = .ok v.y ∧ ∀ n, 2 ≤ n → v.index n = .error .assertion := by
  refine ⟨rfl, rfl, fun n hn => ?_⟩
  simp [Vector2.index]; omega

/-! ### C46, boxes -/

/-- **C46**: `maximum_extent` is an axis on which the box is longest, the last such axis. -/
theorem C46_maximum_extent {T : Type} [Elem T] [LawfulOrder T] (b : Bounds3 T) (d : Vector3 T)
    (hd : b.diagonal = .ok d) (h : ∀ i, NotNan (d.get i)) :
    ∃ i : Fin 3, b.maximumExtent = .ok i.val ∧ (∀ j, Le (d.get j) (d.get i)) ∧
      (∀ j, i < j → Lt (d.get j) (d.get i)) := by
  obtain ⟨i, hi, h1, h2⟩ := C46_max_dimension_vector d h
  refine ⟨i, ?_, h1, h2⟩
  rw [← hi]
  have hx : NotNan d.x := h 0
  have hy : NotNan d.y := h 1
  have hz : NotNan d.z := h 2
  simp only [Bounds3.maximumExtent, hd, ok_bind, pure_ok, Vector3.maxDimension, Bool.and_eq_true]
  by_cases a1 : Elem.gt d.x d.y = true <;> by_cases a2 : Elem.gt d.x d.z = true <;>
    by_cases a3 : Elem.gt d.y d.z = true <;> simp [a1, a2, a3]
  exact a2 (Lt.trans_le a3 (Lt.le a1))

example := C46_maximum_extent (⟨ip 0 0 0, ip 3 7 7⟩ : Bounds3 (I64 true)) (iv 3 7 7) (by decide +kernel)
  (by decide +kernel)

/-- **C46**: whatever the components (NaN included), `max_dimension` is an axis, so indexing with it
    does not panic. -/
theorem C46_axis {T : Type} [Elem T] (v : Vector3 T) (n : Normal3 T) :
    (∃ i : Fin 3, v.maxDimension = i ∧ v.index v.maxDimension = .ok (v.get i)) ∧
    ∃ i : Fin 3, n.maxDimension = i ∧ n.index n.maxDimension = .ok (n.get i) := by
  constructor
  · have h : v.maxDimension < 3 := by
      unfold Vector3.maxDimension
      split <;> split <;> decide
    exact ⟨⟨_, h⟩, rfl, (C53_index_vector v).1 ⟨_, h⟩⟩
  · have h : n.maxDimension < 3 := by
      unfold Normal3.maxDimension
      split <;> split <;> decide
    exact ⟨⟨_, h⟩, rfl, (C53_index_normal n).1 ⟨_, h⟩⟩

/-- **C46**: whatever the components (NaN included), `maximum_extent` is `max_dimension` of the
    diagonal. -/
theorem C46_same_axis {T : Type} [Elem T] [LawfulOrder T] (b : Bounds3 T) :
    b.maximumExtent = (do pure (← b.diagonal).maxDimension) := by
  rw [Bounds3.maximumExtent]
  rcases b.diagonal with e | d
  · rfl
  · simp only [ok_bind, pure_ok, Vector3.maxDimension, Bool.and_eq_true]
    by_cases a1 : Elem.gt d.x d.y = true <;> by_cases a2 : Elem.gt d.x d.z = true <;>
      by_cases a3 : Elem.gt d.y d.z = true <;> simp [a1, a2, a3]
    exact a2 (Lt.trans_le a3 (Lt.le a1))

/-- A limit of **C46**: with a NaN component `max_dimension` may name an axis whose component is not
    the greatest of the others. -/
theorem C46_nan_refuted : ∃ v : Vector3 Float32.Model,
    (∃ i j, v.maxDimension = i.val ∧ Lt (v.get i) (v.get j)) ∧ ∃ i, ¬ NotNan (v.get i) :=
  ⟨⟨f32 5, nan32, f32 1⟩, ⟨2, 0, by decide +kernel, by unfold Lt; decide +kernel⟩, 1, by
    unfold NotNan; decide +kernel⟩

example : let b : Bounds3 (I64 true) := ⟨ip 0 0 0, ip 3 7 7⟩
    b.diagonal = .ok (iv 3 7 7) ∧ b.maximumExtent = .ok 2 := by decide +kernel

/-! ### C52 -/

section
variable {K : Type} [Field K] [LinearOrder K]

/-- **C52**, violated: `v / s` multiplies.  The result is the quotient exactly if `s * s = 1` or
    the vector is zero. -/
theorem C52_div_refuted (v : Vector2 K) (s : K) (hs : s ≠ 0) :
    v.div s = .ok ⟨v.x * s, v.y * s⟩ ∧
    (v.div s = .ok ⟨v.x / s, v.y / s⟩ ↔ s * s = 1 ∨ (v.x = 0 ∧ v.y = 0)) := by
  have h : v.div s = .ok ⟨v.x * s, v.y * s⟩ := by simp [Vector2.div, hs]
  refine ⟨h, ?_⟩
  rw [h]
  simp only [Except.ok.injEq, Vector2.mk.injEq, eq_div_iff hs]
  constructor
  · rintro ⟨h1, h2⟩
    by_cases hx : v.x = 0
    · by_cases hy : v.y = 0
      · exact Or.inr ⟨hx, hy⟩
      · left
        have : v.y * (s * s) = v.y * 1 := by rw [← mul_assoc, h2, mul_one]
        exact mul_left_cancel₀ hy this
    · left
      have : v.x * (s * s) = v.x * 1 := by rw [← mul_assoc, h1, mul_one]
      exact mul_left_cancel₀ hx this
  · rintro (h | ⟨h1, h2⟩)
    · rw [mul_assoc, mul_assoc, h]; simp
    · simp [h1, h2]

example := C52_div_refuted (⟨6, 4⟩ : Vector2 ℚ) 2 (by norm_num)

end

/-- **C52**: for every element type, `v / s` fails its assertion exactly if `s == 0` (provided the
    products do not panic with that very value, which no element type does). -/
theorem C52_div_zero {T : Type} [Elem T] (v : Vector2 T) (s : T) :
    (Same s (Elem.fromInt 0) → v.div s = .error .assertion) ∧
    (¬ Same s (Elem.fromInt 0) → v.div s = (do
      let x ← Elem.mul v.x s
      let y ← Elem.mul v.y s
      pure ⟨x, y⟩)) := by
  unfold Same
  constructor <;> intro h <;> simp [Vector2.div, h]

-- (6, 4) / 2 is (12, 8), also on integers and floats
example : (⟨6, 4⟩ : Vector2 ℚ).div 2 = .ok ⟨12, 8⟩ ∧
    (⟨i64 6, i64 4⟩ : Vector2 (I64 true)).div (i64 2) = .ok ⟨i64 12, i64 8⟩ ∧
    (⟨f32 6, f32 4⟩ : Vector2 Float32.Model).div (f32 2) = .ok ⟨f32 12, f32 8⟩ ∧
    (⟨f32 6, f32 4⟩ : Vector2 Float32.Model).div negZero32 = .error .assertion := by
  decide +kernel

/-! ### C54 -/

section
variable {T : Type} [CommRing T] [Elem T] [ExactRing T]

/-- **C54**: `q + (p - q) = p` -/
theorem C54_sub_add (p q : Point3 T) : (do q.add (← p.sub q)) = .ok p := by
  simp [Point3.sub, Point3.add]

/-- **C54**: `(p + v) - p = v` -/
theorem C54_add_sub (p : Point3 T) (v : Vector3 T) : (do (← p.add v).sub p) = .ok v := by
  simp [Point3.sub, Point3.add]

/-- **C54**: `(p + v) + w = p + (v + w)` -/
theorem C54_add_assoc (p : Point3 T) (v w : Vector3 T) :
    (do (← p.add v).add w) = (do p.add (← v.add w)) := by
  simp [Vector3.add, Point3.add, add_assoc]

/-- **C54**: `p - v = p + (-v)` -/
theorem C54_sub_neg (p : Point3 T) (v : Vector3 T) : p.subVec v = (do p.add (← v.neg)) := by
  simp [Point3.subVec, Point3.add, Vector3.neg, sub_eq_add_neg]

/-- **C54**: `(p + v) - v = p`, `u - v + v = u`, `u + v = v + u` -/
theorem C54_cancel (p : Point3 T) (u v : Vector3 T) :
    (do (← p.add v).subVec v) = .ok p ∧ (do (← u.sub v).add v) = .ok u ∧ u.add v = v.add u := by
  refine ⟨by simp [Point3.subVec, Point3.add], by simp [Vector3.sub, Vector3.add], ?_⟩
  simp [Vector3.add, add_comm]

end

/-- **C54** with overflow checks: if the difference exists, adding it back gives the point. -/
theorem C54_sub_add_checked (p q : Point3 (I64 true)) (v : Vector3 (I64 true)) :
    (p.sub q = .ok v ↔ q.add v = .ok p) ∧ (p.subVec v = .ok q ↔ q.add v = .ok p) := by
  cases p; cases q; cases v
  simp only [Point3.sub, Point3.subVec, Point3.add, bind_eq_ok, I64.sub_checked, I64.add_checked,
    pure_ok, Except.ok.injEq, Vector3.mk.injEq, Point3.mk.injEq]
  constructor
  · constructor
    · rintro ⟨_, h1, _, h2, _, h3, rfl, rfl, rfl⟩
      exact ⟨_, by rw [← h1]; ring, _, by rw [← h2]; ring, _, by rw [← h3]; ring, rfl, rfl, rfl⟩
    · rintro ⟨_, h1, _, h2, _, h3, rfl, rfl, rfl⟩
      exact ⟨_, by rw [← h1]; ring, _, by rw [← h2]; ring, _, by rw [← h3]; ring, rfl, rfl, rfl⟩
  · constructor
    · rintro ⟨_, h1, _, h2, _, h3, rfl, rfl, rfl⟩
      exact ⟨_, by rw [← h1]; ring, _, by rw [← h2]; ring, _, by rw [← h3]; ring, rfl, rfl, rfl⟩
    · rintro ⟨_, h1, _, h2, _, h3, rfl, rfl, rfl⟩
      exact ⟨_, by rw [← h1]; ring, _, by rw [← h2]; ring, _, by rw [← h3]; ring, rfl, rfl, rfl⟩

/-- **C54**: conversions keep the components; converting a point to 2D drops `z` and panics exactly
    if some coordinate is NaN. -/
theorem C54_conversions {T : Type} [Elem T] (p : Point3 T) (v : Vector3 T) :
    (Vector3.ofPoint p).get = p.get ∧ (Point3.ofVector v).get = v.get ∧
    (Normal3.ofVector v).get = v.get ∧
    (p.Proper → p.toPoint2 = .ok ⟨p.get 0, p.get 1⟩) ∧
    (¬ p.Proper → p.toPoint2 = .error .assertion) := by
  refine ⟨by funext i; fin_cases i <;> rfl, by funext i; fin_cases i <;> rfl,
    by funext i; fin_cases i <;> rfl, fun h => ?_, fun h => ?_⟩
  · have hx : Elem.isNan p.x = false := h 0
    have hy : Elem.isNan p.y = false := h 1
    have hz : Elem.isNan p.z = false := h 2
    simp [Point3.toPoint2, Point3.hasNan, hx, hy, hz, Point3.get]
  · have : p.hasNan = true := by
      refine Classical.by_contradiction fun hn => h ?_
      simp only [Point3.hasNan, Bool.or_eq_true, not_or, Bool.not_eq_true] at hn
      exact forall_axis.2 ⟨hn.1.1, hn.1.2, hn.2⟩
    simp [Point3.toPoint2, this]

example : (ip 5 6 7).sub (ip 1 1 9) = .ok (iv 4 5 (-2)) ∧
    (ip 1 1 9).add (iv 4 5 (-2)) = .ok (ip 5 6 7) ∧
    (ip 9223372036854775807 0 0).add (iv 1 0 0) = .error .overflow ∧
    (fp 5 6 7).toPoint2 = .ok ⟨f32 5, f32 6⟩ ∧
    (⟨f32 5, f32 6, nan32⟩ : Point3 Float32.Model).toPoint2 = .error .assertion := by
  decide +kernel

/-! ### C55 -/

/-- **C55**: for a vector that is not zero, `coordinate_system` returns a unit vector `v2`
    orthogonal to `v1`, and `v3 = v1 x v2`, orthogonal to both and as long as `v1`.  For the zero
    vector it divides by zero. -/
theorem C55_frame (v1 : Vector3 ℝ) :
    (v1 = ⟨0, 0, 0⟩ → v1.coordinateSystem = .error .undefined) ∧
    (v1 ≠ ⟨0, 0, 0⟩ → ∃ v2 v3 : Vector3 ℝ, v1.coordinateSystem = .ok (v2, v3) ∧
      v2.dot v2 = .ok 1 ∧ v1.dot v2 = .ok 0 ∧ v1.dot v3 = .ok 0 ∧ v2.dot v3 = .ok 0 ∧
      v3.lenSq = v1.lenSq ∧ v1.cross v2 = .ok v3) := by
  constructor
  · rintro rfl
    have : (FloatFns.sqrt (0 * 0 + 0 * 0 : ℝ) : Outcome ℝ) = .ok 0 := by
      rw [sqrt_ok (by norm_num)]; simp
    simp only [Vector3.coordinateSystem, abs_ok, ok_bind, gt_exact, lt_self_iff_false, decide_false,
      Bool.false_eq_true, if_false, neg_ok, mul_ok, add_ok, this, Vector3.div, div_zero_error,
      error_bind]
  · intro hne
    -- the common part: a unit vector orthogonal to `v1` completes to a frame
    have frame : ∀ v2 : Vector3 ℝ, v2.x * v2.x + v2.y * v2.y + v2.z * v2.z = 1 →
        v1.x * v2.x + v1.y * v2.y + v1.z * v2.z = 0 →
        ∃ v3, v1.cross v2 = .ok v3 ∧ v2.dot v2 = .ok 1 ∧ v1.dot v2 = .ok 0 ∧ v1.dot v3 = .ok 0 ∧
          v2.dot v3 = .ok 0 ∧ v3.lenSq = v1.lenSq := by
      intro v2 h1 h2
      refine ⟨_, by simp [Vector3.cross]; rfl, by simp [Vector3.dot, h1], by simp [Vector3.dot, h2],
        by simp [Vector3.dot]; ring, by simp [Vector3.dot]; ring, ?_⟩
      simp only [Vector3.lenSq, mul_ok, add_ok, ok_bind, Except.ok.injEq]
      linear_combination (v1.x * v1.x + v1.y * v1.y + v1.z * v1.z) * h1 -
        (v1.x * v2.x + v1.y * v2.y + v1.z * v2.z) * h2
    by_cases hc : |v1.y| < |v1.x|
    · have hx : v1.x ≠ 0 := fun h => by
        rw [h, abs_zero] at hc; exact absurd hc (not_lt.2 (abs_nonneg _))
      have hs : 0 < v1.x * v1.x + v1.z * v1.z := by
        have := mul_self_pos.2 hx
        have := mul_self_nonneg v1.z
        linarith
      have hr : Real.sqrt (v1.x * v1.x + v1.z * v1.z) ≠ 0 := (Real.sqrt_pos.2 hs).ne'
      have hrr := Real.mul_self_sqrt hs.le
      set r := Real.sqrt (v1.x * v1.x + v1.z * v1.z) with hrdef
      obtain ⟨v3, e, hf⟩ := frame ⟨-v1.z / r, 0 / r, v1.x / r⟩
        (by simp only; field_simp; nlinarith [hrr]) (by simp only; field_simp; ring)
      refine ⟨_, v3, ?_, hf.1, hf.2.1, hf.2.2.1, hf.2.2.2.1, hf.2.2.2.2, e⟩
      simp only [Vector3.coordinateSystem, abs_ok, ok_bind, gt_exact, hc, decide_true, if_true,
        neg_ok, mul_ok, add_ok, sqrt_ok hs.le, ← hrdef, Vector3.div, div_ok _ hr, fromInt_cast,
        Int.cast_zero, pure_ok, e]
    · have hs : 0 < v1.y * v1.y + v1.z * v1.z := by
        by_contra hn
        have hy := mul_self_nonneg v1.y
        have hz := mul_self_nonneg v1.z
        have y0 : v1.y = 0 := mul_self_eq_zero.1 (by linarith)
        have z0 : v1.z = 0 := mul_self_eq_zero.1 (by linarith)
        have x0 : v1.x = 0 := by
          rw [y0, abs_zero] at hc
          exact abs_eq_zero.1 (le_antisymm (not_lt.1 hc) (abs_nonneg _))
        exact hne (by cases v1; simp_all)
      have hr : Real.sqrt (v1.y * v1.y + v1.z * v1.z) ≠ 0 := (Real.sqrt_pos.2 hs).ne'
      have hrr := Real.mul_self_sqrt hs.le
      set r := Real.sqrt (v1.y * v1.y + v1.z * v1.z) with hrdef
      obtain ⟨v3, e, hf⟩ := frame ⟨0 / r, v1.z / r, -v1.y / r⟩
        (by simp only; field_simp; nlinarith [hrr]) (by simp only; field_simp; ring)
      refine ⟨_, v3, ?_, hf.1, hf.2.1, hf.2.2.1, hf.2.2.2.1, hf.2.2.2.2, e⟩
      simp only [Vector3.coordinateSystem, abs_ok, ok_bind, gt_exact, hc, decide_false,
        Bool.false_eq_true, if_false,
        neg_ok, mul_ok, add_ok, sqrt_ok hs.le, ← hrdef, Vector3.div, div_ok _ hr, fromInt_cast,
        Int.cast_zero, pure_ok, e]

/-- **C55**: for a unit vector all three vectors have unit length. -/
theorem C55_orthonormal (v1 : Vector3 ℝ) (h : v1.lenSq = .ok 1) :
    ∃ v2 v3 : Vector3 ℝ, v1.coordinateSystem = .ok (v2, v3) ∧ v2.lenSq = .ok 1 ∧ v3.lenSq = .ok 1 ∧
      v1.dot v2 = .ok 0 ∧ v1.dot v3 = .ok 0 ∧ v2.dot v3 = .ok 0 ∧ v1.cross v2 = .ok v3 := by
  have hne : v1 ≠ ⟨0, 0, 0⟩ := by
    rintro rfl
    simp [Vector3.lenSq] at h
  obtain ⟨v2, v3, h1, h2, h3, h4, h5, h6, h7⟩ := (C55_frame v1).2 hne
  exact ⟨v2, v3, h1, h2, h6.trans h, h3, h4, h5, h7⟩

example : (⟨3 / 5, 0, -4 / 5⟩ : Vector3 ℝ).lenSq = .ok 1 := by simp [Vector3.lenSq]; norm_num

/-! ### C58 -/

section
variable {K : Type} [Field K] [LinearOrder K]

theorem lerp_exact (t a b : K) : lerp t a b = .ok ((1 - t) * a + t * b) := by simp [lerp]

/-- **C58**: interpolation starts at `a` and ends at `b`. -/
theorem C58_lerp_ends (a b : K) : lerp 0 a b = .ok a ∧ lerp 1 a b = .ok b := by
  simp [lerp_exact]

/-- **C58**: for `t` between 0 and 1 the result lies between `a` and `b`. -/
theorem C58_lerp_between [IsStrictOrderedRing K] (t a b : K) (h0 : 0 ≤ t) (h1 : t ≤ 1) :
    ∃ r, lerp t a b = .ok r ∧ min a b ≤ r ∧ r ≤ max a b := by
  refine ⟨_, lerp_exact t a b, ?_, ?_⟩
  · have h2 := mul_le_mul_of_nonneg_left (min_le_left a b) (sub_nonneg.2 h1)
    have h3 := mul_le_mul_of_nonneg_left (min_le_right a b) h0
    linarith
  · have h2 := mul_le_mul_of_nonneg_left (le_max_left a b) (sub_nonneg.2 h1)
    have h3 := mul_le_mul_of_nonneg_left (le_max_right a b) h0
    linarith

example := C58_lerp_between (1 / 4 : ℚ) 2 10 (by norm_num) (by norm_num)

/-- **C58**: `lerp` is monotone in `t` if `a <= b`. -/
theorem C58_lerp_mono [IsStrictOrderedRing K] (s t a b r q : K) (hst : s ≤ t) (hab : a ≤ b)
    (hr : lerp s a b = .ok r) (hq : lerp t a b = .ok q) : r ≤ q := by
  rw [lerp_exact] at hr hq
  cases hr; cases hq
  nlinarith [mul_nonneg (sub_nonneg.2 hst) (sub_nonneg.2 hab)]

example := C58_lerp_mono (1 / 4 : ℚ) (1 / 2) 2 10 4 6 (by norm_num) (by norm_num) (by decide +kernel)
  (by decide +kernel)

/-- **C58** for points: `lerp` interpolates every coordinate. -/
theorem C58_lerp_points (t : K) (p q : Point3 K) :
    ∃ r, Point3.lerp t p q = .ok r ∧ ∀ i, lerp t (p.get i) (q.get i) = .ok (r.get i) := by
  refine ⟨⟨(1 - t) * p.x + t * q.x, (1 - t) * p.y + t * q.y, (1 - t) * p.z + t * q.z⟩, ?_, ?_⟩
  · simp [Point3.lerp, Point3.mul, Point3.add, Vector3.ofPoint]
  · intro i
    rw [lerp_exact]
    fin_cases i <;> rfl
end

example : lerp (1 / 4 : ℚ) 2 10 = .ok 4 := by decide +kernel

/-! ### C59 -/

section
variable {T : Type} [Elem T]

theorem pminFrom_mem (m : T) (es : List T) : pminFrom m es ∈ m :: es := by
  induction es generalizing m with
  | nil => simp [pminFrom]
  | cons e es ih =>
    rw [pminFrom]
    have := ih (if Elem.lt e m = true then e else m)
    simp only [List.mem_cons] at this ⊢
    split at this <;> rename_i h <;> simp only [h, if_true, Bool.false_eq_true, if_false] at this ⊢ <;> tauto

theorem pmaxFrom_mem (m : T) (es : List T) : pmaxFrom m es ∈ m :: es := by
  induction es generalizing m with
  | nil => simp [pmaxFrom]
  | cons e es ih =>
    rw [pmaxFrom]
    have := ih (if Elem.gt e m = true then e else m)
    simp only [List.mem_cons] at this ⊢
    split at this <;> rename_i h <;> simp only [h, if_true, Bool.false_eq_true, if_false] at this ⊢ <;> tauto

variable [LawfulOrder T]

theorem pminFrom_le (m : T) (es : List T) (hm : NotNan m) :
    ∀ e ∈ m :: es, NotNan e → Le (pminFrom m es) e := by
  induction es generalizing m with
  | nil => intro e he _; simp at he; subst he; exact .refl hm
  | cons e es ih =>
    intro x hx hxn
    have hm' : NotNan (min2 m e) := min2_notNan hm
    have step := ih (min2 m e) hm'
    show Le (pminFrom (min2 m e) es) x
    rcases List.mem_cons.1 hx with rfl | hx
    · exact (step _ (by simp) hm').trans (min2_left hm)
    · rcases List.mem_cons.1 hx with rfl | hx
      · exact (step _ (by simp) hm').trans (min2_right hm hxn)
      · exact step x (by simp [hx]) hxn

theorem le_pmaxFrom (m : T) (es : List T) (hm : NotNan m) :
    ∀ e ∈ m :: es, NotNan e → Le e (pmaxFrom m es) := by
  induction es generalizing m with
  | nil => intro e he _; simp at he; subst he; exact .refl hm
  | cons e es ih =>
    intro x hx hxn
    have hm' : NotNan (max2 m e) := max2_notNan hm
    have step := ih (max2 m e) hm'
    show Le x (pmaxFrom (max2 m e) es)
    rcases List.mem_cons.1 hx with rfl | hx
    · exact (max2_left hm).trans (step _ (by simp) hm')
    · rcases List.mem_cons.1 hx with rfl | hx
      · exact (max2_right hm hxn).trans (step _ (by simp) hm')
      · exact step x (by simp [hx]) hxn

theorem pminFrom_nan (m : T) (es : List T) (hm : ¬ NotNan m) : pminFrom m es = m := by
  induction es with
  | nil => rfl
  | cons e es ih =>
    show pminFrom (min2 m e) es = m
    rw [min2_nan_left hm, ih]

theorem pmaxFrom_nan (m : T) (es : List T) (hm : ¬ NotNan m) : pmaxFrom m es = m := by
  induction es with
  | nil => rfl
  | cons e es ih =>
    show pmaxFrom (max2 m e) es = m
    rw [max2_nan_left hm, ih]

/-- **C59**: on a non-empty slice `pmin` returns an element; it is `<=` every element that is not
    NaN if the first is not NaN, and the first element if that is NaN. -/
theorem C59_pmin (e : T) (es : List T) :
    ∃ m, pmin (e :: es) = .ok m ∧ m ∈ e :: es ∧
      (NotNan e → NotNan m ∧ ∀ x ∈ e :: es, NotNan x → Le m x) ∧ (¬ NotNan e → m = e) :=
  ⟨_, rfl, pminFrom_mem e es,
    fun h => ⟨(pminFrom_le e es h e (by simp) h).left, pminFrom_le e es h⟩, pminFrom_nan e es⟩

/-- **C59**: the same for `pmax`. -/
theorem C59_pmax (e : T) (es : List T) :
    ∃ m, pmax (e :: es) = .ok m ∧ m ∈ e :: es ∧
      (NotNan e → NotNan m ∧ ∀ x ∈ e :: es, NotNan x → Le x m) ∧ (¬ NotNan e → m = e) :=
  ⟨_, rfl, pmaxFrom_mem e es,
    fun h => ⟨(le_pmaxFrom e es h e (by simp) h).right, le_pmaxFrom e es h⟩, pmaxFrom_nan e es⟩

omit [LawfulOrder T] in
/-- **C59**: they panic exactly on the empty slice. -/
theorem C59_empty (es : List T) :
    (pmin es = .error .index ↔ es = []) ∧ (pmax es = .error .index ↔ es = []) ∧
    (es ≠ [] → ∃ a b, pmin es = .ok a ∧ pmax es = .ok b) := by
  cases es <;> simp [pmin, pmax]
end

example : pmin [f32 3, nan32, f32 1, f32 2] = .ok (f32 1) ∧
    pmax [f32 3, nan32, f32 1, f32 4] = .ok (f32 4) ∧ pmin [nan32, f32 1] = .ok nan32 ∧
    NotNan (f32 3) ∧ ¬ NotNan nan32 ∧ pmin [i64 3, i64 (-1)] = .ok (i64 (-1)) := by decide +kernel

/-! Components: the smallest and the greatest component, componentwise minimum and maximum. -/

/-- **C59** applied: `min_component`, `max_component`. -/
theorem C59_components {T : Type} [Elem T] [LawfulOrder T] (v : Vector3 T)
    (h : ∀ i, NotNan (v.get i)) :
    (∃ i, v.minComponent = v.get i) ∧ (∀ i, Le v.minComponent (v.get i)) ∧
    (∃ i, v.maxComponent = v.get i) ∧ (∀ i, Le (v.get i) v.maxComponent) := by
  have hx : NotNan v.x := h 0
  have hmem : ∀ i, v.get i ∈ [v.x, v.y, v.z] := by intro i; fin_cases i <;> simp [Vector3.get]
  have hget : ∀ y ∈ [v.x, v.y, v.z], ∃ i, y = v.get i := by
    intro y hy
    simp only [List.mem_cons, List.not_mem_nil, or_false] at hy
    rcases hy with rfl | rfl | rfl
    exacts [⟨0, rfl⟩, ⟨1, rfl⟩, ⟨2, rfl⟩]
  exact ⟨hget _ (pminFrom_mem v.x [v.y, v.z]), fun i => pminFrom_le _ _ hx _ (hmem i) (h i),
    hget _ (pmaxFrom_mem v.x [v.y, v.z]), fun i => le_pmaxFrom _ _ hx _ (hmem i) (h i)⟩

example := C59_components (⟨f32 9, f32 3, f32 8⟩ : Vector3 Float32.Model) (by decide +kernel)

end Pbrt
