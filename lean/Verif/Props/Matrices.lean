import Verif.Proof.Gauss
import Verif.Proof.Order
import Verif.Proof.FloatOrder
import Verif.Spec.Samples
import Mathlib.LinearAlgebra.Matrix.Determinant.Basic

/-!
# Matrices and transforms (C30-C36)

`Matrix4.toMatrix` is the matrix of Mathlib with the same entries.
-/

namespace Pbrt

/-- The identity matrix -/
def Matrix4.one (T : Type) [Elem T] : Matrix4 T :=
  ⟨fun i j => if i = j then Elem.fromInt 1 else Elem.fromInt 0⟩

/-! ### C30, C31 -/

section
variable {K : Type} [Field K] [LinearOrder K] [IsStrictOrderedRing K]

omit [IsStrictOrderedRing K] in
theorem one_toMatrix : (Matrix4.one K).toMatrix = 1 := by
  ext i j
  simp [Matrix4.one, Matrix4.toMatrix, Matrix.one_apply]

/-- **C30**: what `inverse` returns is the inverse, from both sides.  The entries of the input are
    converted with `as_float` before. -/
theorem C30_inverse {T : Type} [Elem T] [As T K] (a : Matrix4 T) (b : Matrix4 K)
    (h : a.inverse = .ok b) :
    b.mul ⟨fun i j => As.as_ (a.mat i j)⟩ = .ok (Matrix4.one K) ∧
    (⟨fun i j => As.as_ (a.mat i j)⟩ : Matrix4 K).mul b = .ok (Matrix4.one K) := by
  have key : b.toMatrix * (⟨fun i j => As.as_ (a.mat i j)⟩ : Matrix4 K).toMatrix = 1 := by
    rcases inverse_spec (K := K) a with ⟨b', h1, h2⟩ | ⟨h1, _⟩
    · obtain rfl : b' = b := by simpa using h1.symm.trans h
      exact h2
    · rw [h1] at h; cases h
  obtain ⟨c, h1, h2⟩ := mul_toMatrix b (⟨fun i j => As.as_ (a.mat i j)⟩ : Matrix4 K)
  obtain ⟨d, h3, h4⟩ := mul_toMatrix (⟨fun i j => As.as_ (a.mat i j)⟩ : Matrix4 K) b
  rw [h1, h3]
  constructor
  · congr 1
    exact Matrix4.ext_toMatrix (by rw [h2, key, one_toMatrix])
  · congr 1
    exact Matrix4.ext_toMatrix (by rw [h4, mul_eq_one_comm.1 key, one_toMatrix])

/-- **C30**, for matrices of exact numbers. -/
theorem C30_inverse_exact (a b : Matrix4 K) (h : a.inverse = .ok b) :
    b.mul a = .ok (Matrix4.one K) ∧ a.mul b = .ok (Matrix4.one K) :=
  C30_inverse a b h

/-- **C31**: `inverse` panics exactly on the matrices with determinant 0, and always with the
    message of matrix.rs:70; in particular the panic at matrix.rs:55 is unreachable. -/
theorem C31_panics {T : Type} [Elem T] [As T K] (a : Matrix4 T) :
    ((∃ e, (a.inverse : Outcome (Matrix4 K)) = .error e) ↔
      (Matrix.of fun i j => (As.as_ (a.mat i j) : K)).det = 0) ∧
    ∀ e, (a.inverse : Outcome (Matrix4 K)) = .error e → e = .singularZeroPivot := by
  rcases inverse_spec (K := K) a with ⟨b, h1, h2⟩ | ⟨h1, h2⟩
  · refine ⟨⟨fun ⟨e, he⟩ => ?_, fun hd => ?_⟩, fun e he => ?_⟩
    · rw [h1] at he; cases he
    · exfalso
      have := congrArg Matrix.det h2
      rw [Matrix.det_mul, Matrix.det_one] at this
      rw [show (toMat4f a : Matrix4 K).toMatrix.det = 0 from hd, mul_zero] at this
      exact zero_ne_one this
    · rw [h1] at he; cases he
  · refine ⟨⟨fun _ => h2, fun _ => ⟨_, h1⟩⟩, fun e he => ?_⟩
    rw [h1] at he; cases he; rfl

/-- **C31**: and it returns exactly on the invertible matrices; inverting the result gives the
    matrix back. -/
theorem C31_returns (a : Matrix4 K) :
    ((∃ b : Matrix4 K, a.inverse = .ok b) ↔ a.toMatrix.det ≠ 0) ∧
    ∀ b : Matrix4 K, a.inverse = .ok b → b.inverse = .ok a := by
  constructor
  · have h := (C31_panics (K := K) a).1
    constructor
    · rintro ⟨b, hb⟩ hd
      obtain ⟨e, he⟩ := h.2 hd
      rw [hb] at he; cases he
    · intro hd
      cases hr : (a.inverse : Outcome (Matrix4 K)) with
      | ok b => exact ⟨b, rfl⟩
      | error e => exact absurd (h.1 ⟨e, hr⟩) hd
  · intro b hb
    have h1 := (C30_inverse_exact a b hb).2
    obtain ⟨c, hc, hc'⟩ := mul_toMatrix a b
    rw [hc] at h1; cases h1
    rw [one_toMatrix] at hc'
    rcases inverse_spec (K := K) b with ⟨a', h3, h4⟩ | ⟨_, h4⟩
    · rw [h3]
      congr 1
      refine Matrix4.ext_toMatrix ?_
      have hba : b.toMatrix * a.toMatrix = 1 := mul_eq_one_comm.1 hc'.symm
      have h4' : a'.toMatrix * b.toMatrix = 1 := h4
      calc a'.toMatrix = a'.toMatrix * (b.toMatrix * a.toMatrix) := by rw [hba, mul_one]
        _ = a.toMatrix := by rw [← mul_assoc, h4', one_mul]
    · exfalso
      have h4' : b.toMatrix.det = 0 := h4
      have := congrArg Matrix.det hc'
      rw [Matrix.det_mul, Matrix.det_one, h4', mul_zero] at this
      exact one_ne_zero this
end

/-- A matrix given by its rows -/
abbrev rows4 {T : Type} (l : Fin 4 → Fin 4 → T) : Matrix4 T := ⟨l⟩

/-- `==` of outcomes, for the examples: matrices are functions -/
def sameMat {T : Type} [DecidableEq T] (a : Outcome (Matrix4 T)) (b : Matrix4 T) : Bool :=
  match a with
  | .ok a => decide (∀ i j, a.mat i j = b.mat i j)
  | .error _ => false

/-- A matrix that needs swaps of rows. -/
example : sameMat (rows4 ![![(0 : ℚ), 2, 0, 0], ![1, 0, 0, 1], ![0, 0, 0, 4], ![0, 0, 8, 0]]).inverse
    (rows4 ![![(0 : ℚ), 1, -1 / 4, 0], ![1 / 2, 0, 0, 0], ![0, 0, 0, 1 / 8], ![0, 0, 1 / 4, 0]]) = true := by
  decide +kernel

/-- A singular matrix. -/
example : (rows4 ![![(1 : ℚ), 2, 3, 4], ![2, 4, 6, 8], ![0, 0, 1, 0], ![0, 0, 0, 1]]).inverse
    (F := ℚ) matches .error .singularZeroPivot := by decide +kernel

/-- A limit of **C31**: with floats the panic at matrix.rs:55 is reachable, by NaN. -/
theorem C31_float_first_panic : ∃ a : Matrix4 Float32.Model,
    (a.inverse : Outcome (Matrix4 Float32.Model)) matches .error .singularPivotTwice :=
  ⟨rows4 fun _ _ => nan32, by decide +kernel⟩

/-- A limit of **C31**: with floats a matrix with determinant 0 may be inverted, into something
    that is not an inverse. -/
theorem C31_float_rounding : ∃ m : Fin 4 → Fin 4 → Int, (Matrix.of m).det = 0 ∧
    let a : Matrix4 Float32.Model := ⟨fun i j => f32 (m i j)⟩
    ((a.inverse : Outcome (Matrix4 Float32.Model)) matches .ok _) ∧
      sameMat (do a.mul (← a.inverse)) (Matrix4.one _) = false := by
  refine ⟨![![1, 1, 7, 0], ![5, 1, 3, 0], ![6, 2, 10, 0], ![0, 0, 0, 1]], ?_, ?_⟩
  · decide +kernel
  · decide +kernel

/-! ### C32 -/

section
variable {T : Type} [CommRing T] [Elem T] [ExactRing T]

theorem one_toMatrix' : (Matrix4.one T).toMatrix = 1 := by
  ext i j
  simp [Matrix4.one, Matrix4.toMatrix, Matrix.one_apply]

theorem mul_ok_iff {a b c : Matrix4 T} : a.mul b = .ok c ↔ c.toMatrix = a.toMatrix * b.toMatrix := by
  obtain ⟨d, h1, h2⟩ := mul_toMatrix a b
  rw [h1]
  constructor
  · intro h; cases h; exact h2
  · intro h; rw [Matrix4.ext_toMatrix (h2.trans h.symm)]

theorem add_ok_iff {a b c : Matrix4 T} : a.add b = .ok c ↔ c.toMatrix = a.toMatrix + b.toMatrix := by
  obtain ⟨d, h1, h2⟩ := add_toMatrix a b
  rw [h1]
  constructor
  · intro h; cases h; exact h2
  · intro h; rw [Matrix4.ext_toMatrix (h2.trans h.symm)]

/-- **C32**: `Mul` is the product and `Add` the sum of matrices, `transpose` the transpose. -/
theorem C32_values (a b : Matrix4 T) :
    (∃ c, a.mul b = .ok c ∧ c.toMatrix = a.toMatrix * b.toMatrix) ∧
    (∃ c, a.add b = .ok c ∧ c.toMatrix = a.toMatrix + b.toMatrix) ∧
    a.transpose.toMatrix = a.toMatrix.transpose :=
  ⟨mul_toMatrix a b, add_toMatrix a b, transpose_toMatrix a⟩

theorem C32_mul_assoc (a b c : Matrix4 T) :
    (do (← a.mul b).mul c) = (do a.mul (← b.mul c)) := by
  obtain ⟨ab, h1, h1'⟩ := mul_toMatrix a b
  obtain ⟨bc, h2, h2'⟩ := mul_toMatrix b c
  obtain ⟨d, h3, h3'⟩ := mul_toMatrix a bc
  rw [h1, h2, ok_bind, ok_bind, h3, mul_ok_iff, h3', h1', h2', mul_assoc]

theorem C32_one_mul (a : Matrix4 T) :
    (Matrix4.one T).mul a = .ok a ∧ a.mul (Matrix4.one T) = .ok a := by
  rw [mul_ok_iff, mul_ok_iff, one_toMatrix', one_mul, mul_one]
  exact ⟨rfl, rfl⟩

theorem C32_distrib (a b c : Matrix4 T) :
    (do a.mul (← b.add c)) = (do (← a.mul b).add (← a.mul c)) ∧
    (do (← b.add c).mul a) = (do (← b.mul a).add (← c.mul a)) := by
  obtain ⟨s, h1, h1'⟩ := add_toMatrix b c
  obtain ⟨ab, h2, h2'⟩ := mul_toMatrix a b
  obtain ⟨ac, h3, h3'⟩ := mul_toMatrix a c
  obtain ⟨ba, h4, h4'⟩ := mul_toMatrix b a
  obtain ⟨ca, h5, h5'⟩ := mul_toMatrix c a
  obtain ⟨l, h6, h6'⟩ := add_toMatrix ab ac
  obtain ⟨r, h7, h7'⟩ := add_toMatrix ba ca
  simp only [h1, h2, h3, h4, h5, ok_bind, h6, h7, mul_ok_iff]
  rw [h6', h7', h1', h2', h3', h4', h5', mul_add, add_mul]
  exact ⟨rfl, rfl⟩

theorem C32_add_comm (a b : Matrix4 T) : a.add b = b.add a := by
  obtain ⟨c, h, h'⟩ := add_toMatrix b a
  rw [h, add_ok_iff, h', add_comm]

theorem C32_add_assoc (a b c : Matrix4 T) :
    (do (← a.add b).add c) = (do a.add (← b.add c)) := by
  obtain ⟨ab, h1, h1'⟩ := add_toMatrix a b
  obtain ⟨bc, h2, h2'⟩ := add_toMatrix b c
  obtain ⟨d, h3, h3'⟩ := add_toMatrix a bc
  rw [h1, h2, ok_bind, ok_bind, h3, add_ok_iff, h3', h1', h2', add_assoc]

theorem C32_transpose_mul (a b : Matrix4 T) :
    (do pure (← a.mul b).transpose) = b.transpose.mul a.transpose := by
  obtain ⟨ab, h1, h1'⟩ := mul_toMatrix a b
  rw [h1, ok_bind, pure_ok, eq_comm, mul_ok_iff]
  simp only [transpose_toMatrix, h1', Matrix.transpose_mul]

theorem C32_transpose_add (a b : Matrix4 T) :
    (do pure (← a.add b).transpose) = a.transpose.add b.transpose := by
  obtain ⟨ab, h1, h1'⟩ := add_toMatrix a b
  rw [h1, ok_bind, pure_ok, eq_comm, add_ok_iff]
  simp only [transpose_toMatrix, h1', Matrix.transpose_add]
end

theorem C32_transpose_twice {T : Type} (a : Matrix4 T) : a.transpose.transpose = a :=
  Matrix4.ext_toMatrix (by simp only [transpose_toMatrix, Matrix.transpose_transpose])

/-- **C32**: indexing gives the rows, and panics on other indices. -/
theorem C32_index {T : Type} (a : Matrix4 T) (i : Nat) :
    (∀ h : i < 4, a.index i = .ok (a.mat ⟨i, h⟩)) ∧
    (4 ≤ i → ∃ e, a.index i = .error e) := by
  constructor
  · intro h; simp [Matrix4.index, h]
  · intro h; exact ⟨_, by simp [Matrix4.index, Nat.not_lt.2 h]; rfl⟩

/-- Filling an array: it succeeds if and only if all entries can be computed. -/
theorem fill_iff {T : Type} {z m : Mat44 T} {f : Fin 4 → Fin 4 → Outcome T} :
    (for4 z fun r mat => for4 mat fun c mat => do
      let v ← f r c
      pure (mat.set r c v)) = .ok m ↔ ∀ r c, f r c = .ok (m r c) := by
  have hrow : ∀ (z m : Mat44 T) (r : Fin 4), (for4 z fun c mat => do
      let v ← f r c
      pure (mat.set r c v)) = .ok m ↔
        (∀ c, f r c = .ok (m r c)) ∧ ∀ i, i ≠ r → m i = z i := by
    intro z m r
    constructor
    · intro h
      rw [for4_eq] at h
      obtain ⟨s0, h0, h⟩ := bind_eq_ok.1 h
      obtain ⟨s1, h1, h⟩ := bind_eq_ok.1 h
      obtain ⟨s2, h2, h3⟩ := bind_eq_ok.1 h
      obtain ⟨v0, e0, h0⟩ := bind_eq_ok.1 h0
      obtain ⟨v1, e1, h1⟩ := bind_eq_ok.1 h1
      obtain ⟨v2, e2, h2⟩ := bind_eq_ok.1 h2
      obtain ⟨v3, e3, h3⟩ := bind_eq_ok.1 h3
      cases h0; cases h1; cases h2; cases h3
      refine ⟨fun c => ?_, fun i hi => ?_⟩
      · fin_cases c <;> simp [Mat44.set, e0, e1, e2, e3]
      · funext k; simp [Mat44.set, hi]
    · rintro ⟨h, h'⟩
      rw [for4_ok (g := fun c mat => mat.set r c (m r c)) (fun c mat => by rw [h]; rfl),
        fold4_const_row]
      congr 1
      funext i k
      by_cases hi : i = r
      · simp [hi]
      · simp [hi, h' i hi]
  constructor
  · intro h
    rw [for4_eq] at h
    obtain ⟨s0, h0, h⟩ := bind_eq_ok.1 h
    obtain ⟨s1, h1, h⟩ := bind_eq_ok.1 h
    obtain ⟨s2, h2, h3⟩ := bind_eq_ok.1 h
    rw [hrow] at h0 h1 h2 h3
    intro r c
    fin_cases r
    · rw [h3.2 _ (by decide), h2.2 _ (by decide), h1.2 _ (by decide)]; exact h0.1 c
    · rw [h3.2 _ (by decide), h2.2 _ (by decide)]; exact h1.1 c
    · rw [h3.2 _ (by decide)]; exact h2.1 c
    · exact h3.1 c
  · intro h
    rw [for4_ok (g := fun r mat i k => if i = r then m r k else mat i k) fun r mat => ?_, fold4_fill]
    rw [hrow]
    exact ⟨fun c => by simpa using h r c, fun i hi => by simp [hi]⟩

/-- **C32** with overflow checks: if the product of two integer matrices returns, it is the product
    over the integers, and likewise for the sum. -/
theorem C32_checked (a b c : Matrix4 (I64 true)) :
    (a.mul b = .ok c → ∀ i j, (c.mat i j).toInt = ∑ k, (a.mat i k).toInt * (b.mat k j).toInt) ∧
    (a.add b = .ok c ↔ ∀ i j, (c.mat i j).toInt = (a.mat i j).toInt + (b.mat i j).toInt) := by
  constructor
  · intro h i j
    obtain ⟨m, hm, h'⟩ := bind_eq_ok.1 h
    cases h'
    have := fill_iff.1 hm i j
    rw [for4_eq] at this
    obtain ⟨s0, h0, this⟩ := bind_eq_ok.1 this
    obtain ⟨s1, h1, this⟩ := bind_eq_ok.1 this
    obtain ⟨s2, h2, h3⟩ := bind_eq_ok.1 this
    obtain ⟨p0, e0, h0⟩ := bind_eq_ok.1 h0
    obtain ⟨p1, e1, h1⟩ := bind_eq_ok.1 h1
    obtain ⟨p2, e2, h2⟩ := bind_eq_ok.1 h2
    obtain ⟨p3, e3, h3⟩ := bind_eq_ok.1 h3
    rw [I64.mul_checked] at e0 e1 e2 e3
    rw [I64.add_checked] at h0 h1 h2 h3
    have hz : (Elem.fromInt 0 : I64 true).toInt = 0 := by decide +kernel
    rw [Fin.sum_univ_four, e0, e1, e2, e3, ← h3, ← h2, ← h1, ← h0, hz]
    ring
  · have : a.add b = .ok c ↔ ∀ i j, Elem.add (a.mat i j) (b.mat i j) = .ok (c.mat i j) := by
      unfold Matrix4.add
      constructor
      · intro h
        obtain ⟨m, hm, h'⟩ := bind_eq_ok.1 h
        cases h'
        exact fill_iff.1 hm
      · intro h
        rw [fill_iff.2 h]; rfl
    rw [this]
    simp only [I64.add_checked, eq_comm]

example : sameMat ((rows4 ![![i64 1, i64 2, i64 0, i64 0], ![i64 0, i64 1, i64 0, i64 0],
      ![i64 0, i64 0, i64 1, i64 0], ![i64 0, i64 0, i64 0, i64 1]]).mul
    (rows4 ![![i64 3, i64 0, i64 0, i64 5], ![i64 0, i64 1, i64 0, i64 7],
      ![i64 0, i64 0, i64 1, i64 0], ![i64 0, i64 0, i64 0, i64 1]]))
    (rows4 ![![i64 3, i64 2, i64 0, i64 19], ![i64 0, i64 1, i64 0, i64 7],
      ![i64 0, i64 0, i64 1, i64 0], ![i64 0, i64 0, i64 0, i64 1]]) = true := by decide +kernel

/-! ### C33 -/

section
variable {K : Type} [Field K] [LinearOrder K] [IsStrictOrderedRing K]

/-- The two matrices of the transform are inverse to each other. -/
def Transform.Consistent (t : Transform K) : Prop :=
  t.m.mul t.mInv = .ok (Matrix4.one K) ∧ t.mInv.mul t.m = .ok (Matrix4.one K)

/-- The transforms built by any sequence of these functions -/
inductive Transform.Built : Transform K → Prop
  | new_ {m : Matrix4 K} {t : Transform K} : Transform.new_ m = .ok t → Built t
  | translate {d : Vector3 K} {t : Transform K} : Transform.translate d = .ok t → Built t
  | inverse {t : Transform K} : Built t → Built t.inverse
  | transpose {t : Transform K} : Built t → Built t.transpose

omit [IsStrictOrderedRing K] in
theorem consistent_iff (t : Transform K) :
    t.Consistent ↔ t.m.toMatrix * t.mInv.toMatrix = 1 := by
  unfold Transform.Consistent
  rw [mul_ok_iff, mul_ok_iff, one_toMatrix]
  constructor
  · exact fun h => h.1.symm
  · exact fun h => ⟨h.symm, (mul_eq_one_comm.1 h).symm⟩

/-- **C33**: every transform built by `new_`, `translate`, `inverse` and `transpose` is
    consistent. -/
theorem C33_consistent (t : Transform K) (h : t.Built) : t.Consistent := by
  induction h with
  | @new_ m t h =>
    obtain ⟨i, h1, h2⟩ := bind_eq_ok.1 h
    cases h2
    exact ⟨(C30_inverse_exact m i h1).2, (C30_inverse_exact m i h1).1⟩
  | @translate d t h =>
    have h' : t = ⟨⟨Mat44.ofRows 1 0 0 d.x 0 1 0 d.y 0 0 1 d.z 0 0 0 1⟩,
        ⟨Mat44.ofRows 1 0 0 (-d.x) 0 1 0 (-d.y) 0 0 1 (-d.z) 0 0 0 1⟩⟩ := by
      simpa [Transform.translate] using h.symm
    rw [consistent_iff, h']
    ext i j
    fin_cases i <;> fin_cases j <;>
      simp [Matrix4.toMatrix, Matrix.mul_apply, Fin.sum_univ_four, Mat44.ofRows]
  | inverse _ ih => exact ⟨ih.2, ih.1⟩
  | @transpose t _ ih =>
    rw [consistent_iff] at ih ⊢
    show t.m.transpose.toMatrix * t.mInv.transpose.toMatrix = 1
    rw [transpose_toMatrix, transpose_toMatrix, ← Matrix.transpose_mul,
      mul_eq_one_comm.1 ih, Matrix.transpose_one]

omit [Field K] [LinearOrder K] [IsStrictOrderedRing K] in
/-- **C33**: inverting, or transposing, twice gives back the transform, and the two commute. -/
theorem C33_twice (t : Transform K) : t.inverse.inverse = t ∧ t.transpose.transpose = t ∧
    t.inverse.transpose = t.transpose.inverse := by
  refine ⟨rfl, ?_, rfl⟩
  show Transform.mk t.m.transpose.transpose t.mInv.transpose.transpose = t
  rw [C32_transpose_twice, C32_transpose_twice]

/-- **C33**: `new_` returns for every invertible matrix, and keeps the matrix. -/
theorem C33_new (m : Matrix4 K) :
    ((∃ t, Transform.new_ m = .ok t) ↔ m.toMatrix.det ≠ 0) ∧
    ∀ t, Transform.new_ m = .ok t → t.m = m := by
  refine ⟨?_, fun t h => ?_⟩
  · rw [← (C31_returns m).1]
    constructor
    · rintro ⟨t, h⟩
      obtain ⟨i, h1, _⟩ := bind_eq_ok.1 h
      exact ⟨i, h1⟩
    · rintro ⟨b, h⟩
      exact ⟨_, by unfold Transform.new_; rw [h]; rfl⟩
  · obtain ⟨i, h1, h2⟩ := bind_eq_ok.1 h
    cases h2; rfl

omit [IsStrictOrderedRing K] in
/-- **C33**: `translate` is translation by `d`, its stored inverse translation by `-d`. -/
theorem C33_translate (d : Vector3 K) : ∃ t, Transform.translate d = .ok t ∧
    (∀ i j : Fin 4, t.m.mat i j = if i = j then 1 else if h : j = 3 ∧ i.val < 3 then
      d.get ⟨i.val, h.2⟩ else 0) ∧
    (do Transform.translate (← d.neg)) = .ok t.inverse := by
  refine ⟨_, by simp [Transform.translate]; rfl, fun i j => ?_, ?_⟩
  · fin_cases i <;> fin_cases j <;> simp [Mat44.ofRows, Vector3.get]
  · simp [Transform.translate, Vector3.neg, Transform.inverse]

/-! ### C34 -/

omit [IsStrictOrderedRing K] in
theorem scale_value {x y z : K} (hx : x ≠ 0) (hy : y ≠ 0) (hz : z ≠ 0) :
    Transform.scale x y z = .ok ⟨⟨Mat44.ofRows x 0 0 0 0 y 0 0 0 0 z 0 0 0 0 1⟩,
      ⟨Mat44.ofRows x⁻¹ 0 0 0 0 y⁻¹ 0 0 0 0 z⁻¹ 0 0 0 z 1⟩⟩ := by
  simp [Transform.scale, div_ok _ hx, div_ok _ hy, div_ok _ hz]

omit [IsStrictOrderedRing K] in
/-- **C34**, violated: `scale` is inconsistent for all non-zero factors. -/
theorem C34_scale_refuted (x y z : K) (hx : x ≠ 0) (hy : y ≠ 0) (hz : z ≠ 0) :
    ∃ t, Transform.scale x y z = .ok t ∧ ¬ t.Consistent := by
  refine ⟨_, scale_value hx hy hz, ?_⟩
  rw [consistent_iff]
  intro h
  have := congrFun (congrFun h 3) 2
  simp [Matrix4.toMatrix, Matrix.mul_apply, Fin.sum_univ_four, Mat44.ofRows] at this
  exact hz this

omit [IsStrictOrderedRing K] in
/-- The value of `transform` on every axis -/
theorem transform_get {T : Type} [Elem T] [As T K] (v : Vector3 T) (t : Transform K) :
    ∃ w, v.transform t = .ok w ∧
    ∀ i : Fin 3, w.get i = ∑ j : Fin 3, t.m.mat i.castSucc j.castSucc * As.as_ (v.get j) := by
  refine ⟨_, by simp [Vector3.transform]; rfl, fun i => ?_⟩
  fin_cases i <;> simp [Vector3.get, Fin.sum_univ_three]

/-- The 3x3 parts of the two matrices are inverse to each other. -/
def Transform.BlocksConsistent (t : Transform K) : Prop :=
  ∀ i j : Fin 3, (∑ k : Fin 3, t.m.mat i.castSucc k.castSucc * t.mInv.mat k.castSucc j.castSucc =
      if i = j then 1 else 0) ∧
    (∑ k : Fin 3, t.mInv.mat i.castSucc k.castSucc * t.m.mat k.castSucc j.castSucc =
      if i = j then 1 else 0)

/-- The transforms built by any sequence of these functions; the factors of `scale` are not zero
    (exact division returns). -/
inductive Transform.BuiltScale : Transform K → Prop
  | translate {d : Vector3 K} {t : Transform K} : Transform.translate d = .ok t → BuiltScale t
  | scale {x y z : K} {t : Transform K} : Transform.scale x y z = .ok t → BuiltScale t
  | inverse {t : Transform K} : BuiltScale t → BuiltScale t.inverse
  | transpose {t : Transform K} : BuiltScale t → BuiltScale t.transpose

omit [IsStrictOrderedRing K] in
/-- **C34**, what holds: in every transform built by `translate`, `scale`, `inverse` and `transpose`
    the parts of the matrices that vectors see are inverse to each other. -/
theorem C34_blocks (t : Transform K) (h : t.BuiltScale) : t.BlocksConsistent := by
  induction h with
  | @translate d t h =>
    have h' : t = ⟨⟨Mat44.ofRows 1 0 0 d.x 0 1 0 d.y 0 0 1 d.z 0 0 0 1⟩,
        ⟨Mat44.ofRows 1 0 0 (-d.x) 0 1 0 (-d.y) 0 0 1 (-d.z) 0 0 0 1⟩⟩ := by
      simpa [Transform.translate] using h.symm
    rw [h']
    intro i j
    fin_cases i <;> fin_cases j <;> simp [Fin.sum_univ_three, Mat44.ofRows]
  | @scale x y z t h =>
    by_cases hx : x = 0
    · simp [Transform.scale, hx, div_zero_error] at h
    by_cases hy : y = 0
    · simp [Transform.scale, hy, div_zero_error, div_ok _ hx] at h
    by_cases hz : z = 0
    · simp [Transform.scale, hz, div_zero_error, div_ok _ hx, div_ok _ hy] at h
    rw [scale_value hx hy hz] at h
    cases h
    intro i j
    fin_cases i <;> fin_cases j <;> simp [Fin.sum_univ_three, Mat44.ofRows, hx, hy, hz]
  | inverse _ ih => exact fun i j => ⟨(ih i j).2, (ih i j).1⟩
  | @transpose t _ ih =>
    intro i j
    have hm : ∀ (a : Matrix4 K) i j, a.transpose.mat i j = a.mat j i := fun a i j => by
      have := congrFun (congrFun (transpose_toMatrix a) i) j
      simpa [Matrix4.toMatrix] using this
    simp only [Transform.transpose, hm]
    have h1 := ih j i
    simp only [eq_comm (a := j)] at h1
    refine ⟨?_, ?_⟩
    · rw [← h1.2]; exact Finset.sum_congr rfl fun k _ => mul_comm _ _
    · rw [← h1.1]; exact Finset.sum_congr rfl fun k _ => mul_comm _ _

omit [IsStrictOrderedRing K] in
/-- **C34**, what holds: on vectors, such a transform followed by its inverse, or the other way
    round, is the identity. -/
theorem C34_round_trip (t : Transform K) (h : t.BuiltScale) (v : Vector3 K) :
    (do (← (v.transform t : Outcome (Vector3 K))).transform t.inverse) = .ok v ∧
    (do (← (v.transform t.inverse : Outcome (Vector3 K))).transform t) = .ok v := by
  have key : ∀ t : Transform K, t.BlocksConsistent →
      (do (← (v.transform t : Outcome (Vector3 K))).transform t.inverse) = .ok v := by
    intro t hb
    obtain ⟨w, h1, h2⟩ := transform_get v t
    obtain ⟨u, h3, h4⟩ := transform_get w t.inverse
    rw [h1, ok_bind, h3]
    congr 1
    have : ∀ i, u.get i = v.get i := fun i => by
      rw [h4]
      have e : ∀ x : K, (As.as_ x : K) = x := fun _ => rfl
      simp only [e, h2, Finset.mul_sum]
      rw [Finset.sum_comm]
      have : ∀ j, ∑ k : Fin 3, t.inverse.m.mat i.castSucc k.castSucc *
          (t.m.mat k.castSucc j.castSucc * v.get j) = (if i = j then 1 else 0) * v.get j := by
        intro j
        rw [← (hb i j).2, Finset.sum_mul]
        exact Finset.sum_congr rfl fun k _ => (mul_assoc _ _ _).symm
      simp [this]
    cases u; cases v
    simp only [Vector3.mk.injEq]
    exact ⟨this 0, this 1, this 2⟩
  refine ⟨key t (C34_blocks t h), ?_⟩
  have := key t.inverse (C34_blocks _ (.inverse h))
  rwa [(C33_twice t).1] at this

omit [IsStrictOrderedRing K] in
/-- **C34**: `scale` multiplies the components. -/
theorem C34_scale_vector (x y z : K) (t : Transform K) (h : Transform.scale x y z = .ok t)
    (v : Vector3 K) : v.transform t = .ok (⟨x * v.x, y * v.y, z * v.z⟩ : Vector3 K) := by
  by_cases hx : x = 0
  · simp [Transform.scale, hx, div_zero_error] at h
  by_cases hy : y = 0
  · simp [Transform.scale, hy, div_zero_error, div_ok _ hx] at h
  by_cases hz : z = 0
  · simp [Transform.scale, hz, div_zero_error, div_ok _ hx, div_ok _ hy] at h
  rw [scale_value hx hy hz] at h
  cases h
  have e : ∀ x : K, (As.as_ x : K) = x := fun _ => rfl
  simp [Vector3.transform, Mat44.ofRows, e]

/-! ### C35 -/

omit [IsStrictOrderedRing K] in
/-- **C35**: `transform` multiplies with the upper left 3x3 part, whatever the other entries are;
    the components are converted with `as_float` before. -/
theorem C35_value {T : Type} [Elem T] [As T K] (v : Vector3 T) (t : Transform K) :
    ∃ w, v.transform t = .ok w ∧
    ∀ i : Fin 3, w.get i = ∑ j : Fin 3, t.m.mat i.castSucc j.castSucc * As.as_ (v.get j) :=
  transform_get v t

omit [IsStrictOrderedRing K] in
theorem C35_ignores_rest {T : Type} [Elem T] [As T K] (v : Vector3 T) (t t' : Transform K)
    (h : ∀ i j : Fin 3, t.m.mat i.castSucc j.castSucc = t'.m.mat i.castSucc j.castSucc) :
    (v.transform t : Outcome (Vector3 K)) = v.transform t' := by
  obtain ⟨w, h1, h2⟩ := transform_get v t
  obtain ⟨w', h1', h2'⟩ := transform_get v t'
  rw [h1, h1']
  congr 1
  have : ∀ i, w.get i = w'.get i := fun i => by rw [h2, h2']; simp only [h]
  cases w; cases w'
  simp only [Vector3.mk.injEq]
  exact ⟨this 0, this 1, this 2⟩

omit [IsStrictOrderedRing K] in
/-- **C35**: translations do not change vectors. -/
theorem C35_translate (d v : Vector3 K) :
    (do v.transform (← Transform.translate d)) = .ok v := by
  have e : ∀ x : K, (As.as_ x : K) = x := fun _ => rfl
  simp [Transform.translate, Vector3.transform, Mat44.ofRows, e]

omit [IsStrictOrderedRing K] in
/-- **C35**: `transform` is additive and homogeneous. -/
theorem C35_linear (u v : Vector3 K) (s : K) (t : Transform K) :
    (do (← u.add v).transform t) =
      (do (← (u.transform t : Outcome (Vector3 K))).add (← (v.transform t : Outcome (Vector3 K)))) ∧
    (do (← u.mul s).transform t) = (do (← (u.transform t : Outcome (Vector3 K))).mul s) := by
  have e : ∀ x : K, (As.as_ x : K) = x := fun _ => rfl
  constructor
  · simp [Vector3.transform, Vector3.add, e]
    refine ⟨?_, ?_, ?_⟩ <;> ring
  · simp [Vector3.transform, Vector3.mul, e]
    refine ⟨?_, ?_, ?_⟩ <;> ring

omit [IsStrictOrderedRing K] in
/-- **C35**: transforming by a product is transforming twice, if the bottom row of the factor
    applied first is affine (the fourth entry does not matter). -/
theorem C35_product (v : Vector3 K) (a b c : Transform K) (hc : a.m.mul b.m = .ok c.m)
    (hb : ∀ j : Fin 3, b.m.mat 3 j.castSucc = 0) :
    (do (← (v.transform b : Outcome (Vector3 K))).transform a) =
      (v.transform c : Outcome (Vector3 K)) := by
  have e : ∀ x : K, (As.as_ x : K) = x := fun _ => rfl
  rw [mul_value] at hc
  have hm : ∀ i j, c.m.mat i j = ∑ k, a.m.mat i k * b.m.mat k j := fun i j => by
    rw [← (Except.ok.inj hc)]
  have h0 : b.m.mat 3 0 = 0 := hb 0
  have h1 : b.m.mat 3 1 = 0 := hb 1
  have h2 : b.m.mat 3 2 = 0 := hb 2
  simp [Vector3.transform, e, hm, Fin.sum_univ_four, h0, h1, h2]
  refine ⟨?_, ?_, ?_⟩ <;> ring

/-- A limit of **C35**: the condition is needed. -/
theorem C35_product_needs_affine : ∃ (v : Vector3 ℚ) (a b c : Transform ℚ),
    sameMat (a.m.mul b.m) c.m = true ∧
    (do (← (v.transform b : Outcome (Vector3 ℚ))).transform a) ≠
      (v.transform c : Outcome (Vector3 ℚ)) := by
  refine ⟨⟨1, 0, 0⟩,
    ⟨rows4 ![![1, 0, 0, 1], ![0, 1, 0, 0], ![0, 0, 1, 0], ![0, 0, 0, 1]], Matrix4.one _⟩,
    ⟨rows4 ![![1, 0, 0, 0], ![0, 1, 0, 0], ![0, 0, 1, 0], ![1, 0, 0, 1]], Matrix4.one _⟩,
    ⟨rows4 ![![2, 0, 0, 1], ![0, 1, 0, 0], ![0, 0, 1, 0], ![1, 0, 0, 1]], Matrix4.one _⟩, ?_⟩
  decide +kernel
end

/-! ### C36 -/

/-- **C36**: `is_identity` compares all entries with those of the identity matrix. -/
theorem C36_is_identity {F : Type} [Elem F] (t : Transform F) :
    t.isIdentity = true ↔ ∀ i j, Same (t.m.mat i j) ((Matrix4.one F).mat i j) := by
  unfold Transform.isIdentity Matrix4.eq Same
  simp only [List.all_cons, List.all_nil, Bool.and_true, Bool.and_eq_true]
  constructor
  · rintro ⟨⟨h00, h01, h02, h03⟩, ⟨h10, h11, h12, h13⟩, ⟨h20, h21, h22, h23⟩, h30, h31, h32, h33⟩ i j
    fin_cases i <;> fin_cases j <;> assumption
  · intro h
    exact ⟨⟨h 0 0, h 0 1, h 0 2, h 0 3⟩, ⟨h 1 0, h 1 1, h 1 2, h 1 3⟩, ⟨h 2 0, h 2 1, h 2 2, h 2 3⟩,
      h 3 0, h 3 1, h 3 2, h 3 3⟩

/-- **C36**, for exact numbers. -/
theorem C36_is_identity_exact {K : Type} [Field K] [LinearOrder K] (t : Transform K) :
    t.isIdentity = true ↔ t.m = Matrix4.one K := by
  rw [C36_is_identity]
  simp only [Same_exact]
  constructor
  · intro h
    cases ht : t.m with | mk m =>
    rw [ht] at h
    unfold Matrix4.one at h ⊢
    congr 1
    funext i j
    exact h i j
  · intro h; rw [h]; exact fun _ _ => rfl

/-- **C36**: what `has_scale` decides: whether the square of the length of the image of some unit
    vector lies outside `[0.999, 1.001]`. -/
theorem C36_has_scale_value (t : Transform ℝ) : ∃ r, t.hasScale = .ok r ∧
    (r = true ↔ ∃ j : Fin 3, let l := ∑ i : Fin 3, t.m.mat i.castSucc j.castSucc ^ 2
      l < 999 / 1000 ∨ 1001 / 1000 < l) := by
  have e : ∀ x : ℝ, (As.as_ x : ℝ) = x := fun _ => rfl
  have key : t.hasScale = .ok
      (notOne (∑ i : Fin 3, t.m.mat i.castSucc 0 ^ 2) || notOne (∑ i : Fin 3, t.m.mat i.castSucc 1 ^ 2) ||
        notOne (∑ i : Fin 3, t.m.mat i.castSucc 2 ^ 2)) := by
    simp [Transform.hasScale, Vector3.transform, Vector3.lenSq, Fin.sum_univ_three, e, sq]
  refine ⟨_, key, ?_⟩
  have hn : ∀ l : ℝ, notOne l = true ↔ l < 999 / 1000 ∨ 1001 / 1000 < l := fun l => by
    simp [notOne, FloatFns.lit999, FloatFns.lit1001, Elem.gt]
  simp only [Bool.or_eq_true, hn]
  constructor
  · rintro ((h | h) | h)
    · exact ⟨0, h⟩
    · exact ⟨1, h⟩
    · exact ⟨2, h⟩
  · rintro ⟨j, h⟩
    fin_cases j
    · exact Or.inl (Or.inl h)
    · exact Or.inl (Or.inr h)
    · exact Or.inr h

/-- **C36**: a scale has scale if and only if the square of some factor is outside
    `[0.999, 1.001]`. -/
theorem C36_scale (x y z : ℝ) (t : Transform ℝ) (h : Transform.scale x y z = .ok t) :
    ∃ r, t.hasScale = .ok r ∧
      (r = true ↔ ∃ f ∈ [x, y, z], f ^ 2 < 999 / 1000 ∨ 1001 / 1000 < f ^ 2) := by
  obtain ⟨r, h1, h2⟩ := C36_has_scale_value t
  refine ⟨r, h1, h2.trans ?_⟩
  by_cases hx : x = 0
  · simp [Transform.scale, hx, div_zero_error] at h
  by_cases hy : y = 0
  · simp [Transform.scale, hy, div_zero_error, div_ok _ hx] at h
  by_cases hz : z = 0
  · simp [Transform.scale, hz, div_zero_error, div_ok _ hx, div_ok _ hy] at h
  rw [scale_value hx hy hz] at h
  cases h
  simp [Fin.exists_fin_succ, Fin.sum_univ_three, Mat44.ofRows]

/-- **C36**: translations, and the identity matrix, have no scale. -/
theorem C36_translate (d : Vector3 ℝ) (t : Transform ℝ)
    (h : Transform.translate d = .ok t ∨ t.m = Matrix4.one ℝ) : t.hasScale = .ok false := by
  obtain ⟨r, h1, h2⟩ := C36_has_scale_value t
  rw [h1]
  have : ¬ (r = true) := by
    rw [h2]
    rintro ⟨j, hj⟩
    have hone : ∀ i j : Fin 3, t.m.mat i.castSucc j.castSucc = if i = j then 1 else 0 := by
      rcases h with h | h
      · simp [Transform.translate] at h
        subst h
        intro i j
        fin_cases i <;> fin_cases j <;> simp [Mat44.ofRows]
      · rw [h]; intro i j; fin_cases i <;> fin_cases j <;> simp [Matrix4.one]
    simp only [hone] at hj
    simp at hj
    rcases hj with hj | hj <;> norm_num at hj
  simpa using this

/-- **C36**, with floats: no translation has scale, not even by infinity or NaN. -/
theorem C36_translate_float (d : Vector3 Float32.Model) (t : Transform Float32.Model)
    (h : Transform.translate d = .ok t) : t.hasScale = .ok false := by
  have hm : ∃ i, t = ⟨⟨Mat44.ofRows (f32 1) (f32 0) (f32 0) d.x (f32 0) (f32 1) (f32 0) d.y
      (f32 0) (f32 0) (f32 1) d.z (f32 0) (f32 0) (f32 0) (f32 1)⟩, i⟩ := by
    obtain ⟨_, _, h⟩ := bind_eq_ok.1 h
    obtain ⟨_, _, h⟩ := bind_eq_ok.1 h
    obtain ⟨_, _, h⟩ := bind_eq_ok.1 h
    cases h
    exact ⟨_, rfl⟩
  obtain ⟨i, rfl⟩ := hm
  have : (Transform.mk ⟨Mat44.ofRows (f32 1) (f32 0) (f32 0) (f32 0) (f32 0) (f32 1) (f32 0) (f32 0)
      (f32 0) (f32 0) (f32 1) (f32 0) (f32 0) (f32 0) (f32 0) (f32 1)⟩
      ⟨fun _ _ => f32 0⟩).hasScale = .ok false := by decide +kernel
  exact this

example : (do (← Transform.scale (f32 2) (f32 1) (f32 1)).hasScale) = .ok true ∧
    (do (← Transform.scale (f32 1) (f32 (-1)) (f32 1)).hasScale) = .ok false := by decide +kernel

/-! ### A case of each theorem with hypotheses -/

/-- a matrix and its inverse -/
def invertible : Matrix4 ℚ := rows4 ![![0, 2, 0, 0], ![1, 0, 0, 1], ![0, 0, 0, 4], ![0, 0, 8, 0]]

example : ∃ b, invertible.inverse = .ok b ∧ b.mul invertible = .ok (Matrix4.one ℚ) := by
  obtain ⟨b, h⟩ := (C31_returns (K := ℚ) invertible).1.2 (by decide +kernel)
  exact ⟨b, h, (C30_inverse_exact invertible b h).1⟩

example := C34_scale_refuted (2 : ℚ) (-3) (1 / 2) (by norm_num) (by norm_num) (by norm_num)
example : ∃ t, Transform.scale (2 : ℚ) (-3) (1 / 2) = .ok t ∧
    (⟨1, 2, 3⟩ : Vector3 ℚ).transform t = .ok (⟨2 * 1, -3 * 2, 1 / 2 * 3⟩ : Vector3 ℚ) := by
  obtain ⟨t, h, -⟩ := C34_scale_refuted (2 : ℚ) (-3) (1 / 2) (by norm_num) (by norm_num) (by norm_num)
  exact ⟨t, h, C34_scale_vector _ _ _ t h ⟨1, 2, 3⟩⟩
example := C35_ignores_rest (K := ℚ) (⟨1, 2, 3⟩ : Vector3 ℚ) ⟨⟨fun i j => (i.val : ℚ) * 7 - j.val⟩, Matrix4.one _⟩
  ⟨⟨fun i j => if i = 3 then 5 else if j = 3 then 4 else (i.val : ℚ) * 7 - j.val⟩, Matrix4.one _⟩ (by decide +kernel)
example : ∃ t, Transform.scale (2 : ℝ) (-3) (1 / 2) = .ok t ∧ t.hasScale = .ok true := by
  obtain ⟨t, h, -⟩ := C34_scale_refuted (2 : ℝ) (-3) (1 / 2) (by norm_num) (by norm_num) (by norm_num)
  obtain ⟨r, hr, hi⟩ := C36_scale 2 (-3) (1 / 2) t h
  exact ⟨t, h, by rw [hr, hi.2 ⟨2, by simp, .inr (by norm_num)⟩]⟩
example : ∃ t, Transform.translate (⟨2, -3, 1 / 2⟩ : Vector3 ℝ) = .ok t ∧ t.hasScale = .ok false :=
  ⟨_, rfl, C36_translate ⟨2, -3, 1 / 2⟩ _ (.inl rfl)⟩

end Pbrt
