import Verif.Model.Transform

/-!
# `==` on the geometric types

Derived `PartialEq` compares the fields in the order of their declaration, with `&&`.
`Matrix4` is in `Model/Matrix`.
-/

namespace Pbrt

variable {T : Type} [Elem T]

/-- `==` on `Vector2` (derived, vector.rs:5) -/
def Vector2.eq (a b : Vector2 T) : Bool := Elem.eq a.x b.x && Elem.eq a.y b.y

/-- `==` on `Vector3` (derived, vector.rs:40) -/
def Vector3.eq (a b : Vector3 T) : Bool := Elem.eq a.x b.x && Elem.eq a.y b.y && Elem.eq a.z b.z

/-- `==` on `Point2` (derived, point.rs:5) -/
def Point2.eq (a b : Point2 T) : Bool := Elem.eq a.x b.x && Elem.eq a.y b.y

/-- `==` on `Point3` (derived, point.rs:21) -/
def Point3.eq (a b : Point3 T) : Bool := Elem.eq a.x b.x && Elem.eq a.y b.y && Elem.eq a.z b.z

/-- `==` on `Normal3` (derived, normal.rs:4) -/
def Normal3.eq (a b : Normal3 T) : Bool := Elem.eq a.x b.x && Elem.eq a.y b.y && Elem.eq a.z b.z

/-- `==` on `Matrix3` (derived, matrix.rs:4): the rows are compared in order. -/
def Matrix3.eq (a b : Matrix3 T) : Bool :=
  (Elem.eq a.m00 b.m00 && Elem.eq a.m01 b.m01 && Elem.eq a.m02 b.m02) &&
  (Elem.eq a.m10 b.m10 && Elem.eq a.m11 b.m11 && Elem.eq a.m12 b.m12) &&
  (Elem.eq a.m20 b.m20 && Elem.eq a.m21 b.m21 && Elem.eq a.m22 b.m22)

/-- `==` on `Transform` (derived, transform.rs:3) -/
def Transform.eq (a b : Transform T) : Bool := a.m.eq b.m && a.mInv.eq b.mInv

end Pbrt
