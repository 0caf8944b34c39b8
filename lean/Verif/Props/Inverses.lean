import Verif.Props.Matrices

/-!
# C93: calculating with inverse matrices
-/

namespace Pbrt

section
variable {K : Type} [Field K] [LinearOrder K] [IsStrictOrderedRing K]

theorem inverse_ok_iff {a b : Matrix4 K} : a.inverse = .ok b ↔ a.toMatrix * b.toMatrix = 1 := by
  constructor
  · intro h
    have := (C30_inverse_exact a b h).2
    rw [mul_ok_iff] at this
    rw [← this, one_toMatrix]
  · intro h
    have hd : a.toMatrix.det ≠ 0 := by
      intro hd
      have := congrArg Matrix.det h
      rw [Matrix.det_mul, hd, zero_mul, Matrix.det_one] at this
      exact zero_ne_one this
    obtain ⟨c, hc⟩ := (C31_returns a).1.mpr hd
    have h' := (C30_inverse_exact a c hc).1
    rw [mul_ok_iff, one_toMatrix] at h'
    rw [hc]
    congr 1
    apply Matrix4.ext_toMatrix
    calc c.toMatrix = c.toMatrix * (a.toMatrix * b.toMatrix) := by rw [h, mul_one]
      _ = b.toMatrix := by rw [← mul_assoc, ← h', one_mul]

theorem inverse_error_iff {a : Matrix4 K} :
    (a.inverse : Outcome (Matrix4 K)) = .error .singularZeroPivot ↔ a.toMatrix.det = 0 := by
  obtain ⟨h1, h2⟩ := C31_panics (K := K) a
  constructor
  · intro h; exact h1.mp ⟨_, h⟩
  · intro h
    obtain ⟨e, he⟩ := h1.mpr h
    rw [he, h2 e he]

/-- **C93**: a matrix that is an inverse from one side is the inverse. -/
theorem C93_unique (a b : Matrix4 K) :
    (a.mul b = .ok (Matrix4.one K) ↔ a.inverse = .ok b) ∧
    (b.mul a = .ok (Matrix4.one K) ↔ a.inverse = .ok b) := by
  rw [inverse_ok_iff, mul_ok_iff, mul_ok_iff, one_toMatrix, eq_comm, and_iff_right Iff.rfl, eq_comm]
  exact mul_eq_one_comm

/-- **C93**: the inverse of a product is the product of the inverses in the other order; it is
    defined exactly if both are. -/
theorem C93_product (a b : Matrix4 K) :
    (do (← a.mul b).inverse) = (do (← (b.inverse : Outcome (Matrix4 K))).mul (← (a.inverse : Outcome (Matrix4 K)))) := by
  obtain ⟨c, hc, hc'⟩ := mul_toMatrix a b
  rw [hc, ok_bind]
  by_cases hb : b.toMatrix.det = 0
  · rw [inverse_error_iff.mpr hb, inverse_error_iff.mpr (by rw [hc', Matrix.det_mul, hb, mul_zero])]
    rfl
  by_cases ha : a.toMatrix.det = 0
  · obtain ⟨b', hb'⟩ := (C31_returns b).1.mpr hb
    rw [inverse_error_iff.mpr ha, hb', ok_bind,
      inverse_error_iff.mpr (by rw [hc', Matrix.det_mul, ha, zero_mul])]
    rfl
  obtain ⟨a', ha'⟩ := (C31_returns a).1.mpr ha
  obtain ⟨b', hb'⟩ := (C31_returns b).1.mpr hb
  obtain ⟨d, hd, hd'⟩ := mul_toMatrix b' a'
  rw [ha', hb', ok_bind, ok_bind, hd, inverse_ok_iff, hc', hd']
  rw [inverse_ok_iff] at ha' hb'
  rw [mul_assoc, ← mul_assoc b.toMatrix, hb', one_mul, ha']

/-- **C93**: inverting and transposing can be exchanged. -/
theorem C93_transpose (a : Matrix4 K) :
    a.transpose.inverse = (do pure (← (a.inverse : Outcome (Matrix4 K))).transpose) := by
  by_cases ha : a.toMatrix.det = 0
  · rw [inverse_error_iff.mpr ha, inverse_error_iff.mpr (by rw [transpose_toMatrix, Matrix.det_transpose, ha])]
    rfl
  · obtain ⟨a', ha'⟩ := (C31_returns a).1.mpr ha
    rw [ha', ok_bind, pure_ok, inverse_ok_iff, transpose_toMatrix, transpose_toMatrix, ← Matrix.transpose_mul]
    rw [inverse_ok_iff] at ha'
    rw [mul_eq_one_comm.mp ha', Matrix.transpose_one]

/-- **C93**: in particular the inverse of a symmetric matrix is symmetric. -/
theorem C93_symmetric (a b : Matrix4 K) (ha : a.transpose = a) (h : a.inverse = .ok b) : b.transpose = b := by
  have := C93_transpose a
  rw [ha, h, ok_bind, pure_ok] at this
  exact (Except.ok.inj this).symm

/-- **C93**: the inverse solves equations, from the left and from the right. -/
theorem C93_solves (a b x c : Matrix4 K) (h : a.inverse = .ok b) :
    (a.mul x = .ok c ↔ b.mul c = .ok x) ∧ (x.mul a = .ok c ↔ c.mul b = .ok x) := by
  have h' := inverse_ok_iff.mp h
  have h'' := mul_eq_one_comm.mp h'
  simp only [mul_ok_iff]
  refine ⟨⟨fun e => ?_, fun e => ?_⟩, ⟨fun e => ?_, fun e => ?_⟩⟩
  · rw [e, ← mul_assoc, h'', one_mul]
  · rw [e, ← mul_assoc, h', one_mul]
  · rw [e, mul_assoc, h', mul_one]
  · rw [e, mul_assoc, h'', mul_one]

/-- **C93**: the identity is its own inverse. -/
theorem C93_identity : (Matrix4.one K).inverse = .ok (Matrix4.one K) := by
  rw [inverse_ok_iff, one_toMatrix, mul_one]

end

theorem sameMat_eq {T : Type} [DecidableEq T] {a b : Matrix4 T} (h : sameMat (.ok a) b = true) : a = b :=
  Matrix4.ext_toMatrix (by ext i j; exact of_decide_eq_true h i j)

/-- A plane matrix in the upper left corner -/
def corner (a b c d : Int) : Matrix4 Float32.Model :=
  rows4 ![![f32 a, f32 b, f32 0, f32 0], ![f32 c, f32 d, f32 0, f32 0], ![f32 0, f32 0, f32 1, f32 0],
    ![f32 0, f32 0, f32 0, f32 1]]

/-- **C93** (an expectation that fails): with floats the inverse of a symmetric matrix need not be
    symmetric, so that inverting and transposing cannot be exchanged. -/
theorem C93_symmetric_refuted : (corner 1 3 3 2).transpose = corner 1 3 3 2 ∧
    ∃ b : Matrix4 Float32.Model, (corner 1 3 3 2).inverse = .ok b ∧ ¬ Same (b.mat 0 1) (b.mat 1 0) := by
  refine ⟨?_, ?_⟩
  · have : sameMat (.ok (corner 1 3 3 2).transpose) (corner 1 3 3 2) = true := by decide +kernel
    exact sameMat_eq this
  · have h : (match ((corner 1 3 3 2).inverse : Outcome (Matrix4 Float32.Model)) with
      | .ok b => !(Elem.eq (b.mat 0 1) (b.mat 1 0))
      | _ => false) = true := by decide +kernel
    revert h
    generalize ((corner 1 3 3 2).inverse : Outcome (Matrix4 Float32.Model)) = r
    rcases r with e | b
    · simp
    · intro h
      exact ⟨b, rfl, by simpa [Same] using h⟩

/-- **C93** (an expectation that fails): with floats, inverting twice need not give the matrix back. -/
theorem C93_twice_refuted : ∃ b c : Matrix4 Float32.Model, (corner 7 0 0 1).inverse = .ok b ∧ b.inverse = .ok c ∧
    ¬ Same (c.mat 0 0) ((corner 7 0 0 1).mat 0 0) := by
  have h : (match ((corner 7 0 0 1).inverse : Outcome (Matrix4 Float32.Model)) with
    | .ok b => (match (b.inverse : Outcome (Matrix4 Float32.Model)) with
      | .ok c => !(Elem.eq (c.mat 0 0) ((corner 7 0 0 1).mat 0 0))
      | _ => false)
    | _ => false) = true := by decide +kernel
  revert h
  generalize ((corner 7 0 0 1).inverse : Outcome (Matrix4 Float32.Model)) = r
  rcases r with e | b
  · simp
  · rcases hr : (b.inverse : Outcome (Matrix4 Float32.Model)) with e | c
    · simp [hr]
    · intro h
      simp only [hr] at h
      exact ⟨b, c, rfl, hr, by simpa [Same] using h⟩

/-- **C93** (an expectation that fails): with floats, the inverse of a product need not be the
    product of the inverses. -/
theorem C93_product_refuted : ∃ b c : Matrix4 Float32.Model,
    (do (← (corner 3 0 0 1).mul (corner 3 0 0 1)).inverse) = .ok b ∧
    (do (← ((corner 3 0 0 1).inverse : Outcome (Matrix4 Float32.Model))).mul (← (corner 3 0 0 1).inverse)) = .ok c ∧
    ¬ Same (b.mat 0 0) (c.mat 0 0) := by
  have h : (match (do (← (corner 3 0 0 1).mul (corner 3 0 0 1)).inverse : Outcome (Matrix4 Float32.Model)),
      (do (← ((corner 3 0 0 1).inverse : Outcome (Matrix4 Float32.Model))).mul (← (corner 3 0 0 1).inverse)) with
    | .ok b, .ok c => !(Elem.eq (b.mat 0 0) (c.mat 0 0))
    | _, _ => false) = true := by decide +kernel
  revert h
  generalize (do (← (corner 3 0 0 1).mul (corner 3 0 0 1)).inverse : Outcome (Matrix4 Float32.Model)) = r
  generalize (do (← ((corner 3 0 0 1).inverse : Outcome (Matrix4 Float32.Model))).mul (← (corner 3 0 0 1).inverse)) = r'
  rcases r with e | b <;> rcases r' with e' | c
  · simp
  · simp
  · simp
  · intro h
    exact ⟨b, c, rfl, rfl, by simpa [Same] using h⟩

-- two invertible matrices that do not commute, and a symmetric one
example : (∃ b : Matrix4 ℚ, (rows4 ![![(1 : ℚ), 2, 0, 0], ![0, 1, 0, 0], ![0, 0, 1, 0], ![0, 0, 0, 1]]).inverse = .ok b) ∧
    (∃ b : Matrix4 ℚ, (rows4 ![![(0 : ℚ), 1, 0, 0], ![1, 0, 0, 0], ![0, 0, 3, 0], ![0, 0, 0, 1]]).inverse = .ok b) ∧
    (rows4 ![![(0 : ℚ), 1, 0, 0], ![1, 0, 0, 0], ![0, 0, 3, 0], ![0, 0, 0, 1]]).transpose =
      rows4 ![![(0 : ℚ), 1, 0, 0], ![1, 0, 0, 0], ![0, 0, 3, 0], ![0, 0, 0, 1]] := by
  refine ⟨?_, ?_, ?_⟩
  · rw [(C31_returns _).1]; decide +kernel
  · rw [(C31_returns _).1]; decide +kernel
  · have : sameMat (.ok (rows4 ![![(0 : ℚ), 1, 0, 0], ![1, 0, 0, 0], ![0, 0, 3, 0], ![0, 0, 0, 1]]).transpose)
        (rows4 ![![(0 : ℚ), 1, 0, 0], ![1, 0, 0, 0], ![0, 0, 3, 0], ![0, 0, 0, 1]]) = true := by decide +kernel
    exact sameMat_eq this

end Pbrt
