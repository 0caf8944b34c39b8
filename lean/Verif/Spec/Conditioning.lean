import Verif.Spec.FloatValue
import Verif.Model.Matrix
import Mathlib.LinearAlgebra.Matrix.NonsingularInverse

/-!
# Matrices of floats as matrices of real numbers

The inverse and the determinant are Mathlib's.
-/

namespace Pbrt

/-- The matrix of numbers a matrix stands for, after the conversion to the floats `T` -/
noncomputable def Matrix4.vals (T : Type) {U : Type} [Elem T] [As T T] [FloatFns T] [IEEE T] [As U T]
    (a : Matrix4 U) : Matrix (Fin 4) (Fin 4) ℝ :=
  .of fun i j => val (As.as_ (a.mat i j) : T)

/-- A regular matrix of finite floats (after the conversion to `T`), where `a` bounds the entries, and
    `κ` the sums of the entries of a column of the inverse -/
structure Conditioned (T : Type) {U : Type} [Elem T] [As T T] [FloatFns T] [IEEE T] [As U T]
    (m : Matrix4 U) (a κ : ℝ) : Prop where
  finite : ∀ i j, IsFinite (As.as_ (m.mat i j) : T)
  regular : (m.vals T).det ≠ 0
  entries : ∀ i j, |m.vals T i j| ≤ a
  columns : ∀ j, ∑ i, |(m.vals T)⁻¹ i j| ≤ κ

/-- `b` is the inverse of `m`, up to errors of `r` in the product `b m` -/
structure NearInverse {T U : Type} [Elem T] [As T T] [FloatFns T] [IEEE T] [As U T]
    (m : Matrix4 U) (κ r : ℝ) (b : Matrix4 T) : Prop where
  /-- No entry is infinite or NaN. -/
  finite : ∀ i j, IsFinite (b.mat i j)
  /-- The product with the matrix is the identity, up to `r`. -/
  product : ∀ i j, |(b.vals T * m.vals T - 1) i j| ≤ r
  /-- The entries are those of the inverse, up to `r κ`. -/
  entries : ∀ i j, |b.vals T i j - (m.vals T)⁻¹ i j| ≤ r * κ

/-- A rotation or reflection, followed by a translation of at most `τ` along each axis; the lengths and
    angles of the axes may be off by 1 / 30. -/
structure RigidUpTo (A : Matrix (Fin 4) (Fin 4) ℝ) (τ : ℝ) : Prop where
  axes : ∀ j k : Fin 3, |(∑ i : Fin 3, A i.castSucc j.castSucc * A i.castSucc k.castSucc) - if j = k then 1 else 0| ≤ 1 / 30
  offset : ∀ i : Fin 3, |A i.castSucc 3| ≤ τ
  last : ∀ j, A 3 j = if j = 3 then 1 else 0

/-- The last row of the matrix is `0, 0, 0, x`. -/
def Matrix4.Affine {T : Type} [Elem T] [As T T] [FloatFns T] [IEEE T] (m : Matrix4 T) : Prop :=
  ∀ j : Fin 3, val (m.mat 3 j.castSucc) = 0

end Pbrt
