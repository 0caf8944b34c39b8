import Verif.Model.Equality
import Verif.Spec.Geometry
import Verif.Spec.Laws
import Mathlib.Data.List.FinRange

/-!
# What `==` should mean
-/

namespace Pbrt

variable {T : Type} [Elem T]

/-- `eq` holds of `a` and `b` if the numbers `parts a` are pairwise equal to the numbers `parts b`. -/
structure Comparison {S : Type} (parts : S → List T) (eq : S → S → Bool) : Prop where
  pointwise : ∀ a b, eq a b = true ↔ List.Forall₂ Same (parts a) (parts b)
  symm : ∀ a b, eq a b = eq b a
  trans : ∀ a b c, eq a b = true → eq b c = true → eq a c = true
  /-- Only values with a NaN differ from themselves. -/
  refl : ∀ a, eq a a = true ↔ ∀ x ∈ parts a, NotNan x

def Vector2.parts (a : Vector2 T) : List T := [a.x, a.y]
def Vector3.parts (a : Vector3 T) : List T := [a.x, a.y, a.z]
def Point2.parts (a : Point2 T) : List T := [a.x, a.y]
def Point3.parts (a : Point3 T) : List T := [a.x, a.y, a.z]
def Normal3.parts (a : Normal3 T) : List T := [a.x, a.y, a.z]
def Matrix3.parts (a : Matrix3 T) : List T := [a.m00, a.m01, a.m02, a.m10, a.m11, a.m12, a.m20, a.m21, a.m22]
def Matrix4.parts (a : Matrix4 T) : List T := (List.finRange 4).flatMap fun i => (List.finRange 4).map (a.mat i)
def Transform.parts (a : Transform T) : List T := a.m.parts ++ a.mInv.parts

end Pbrt
