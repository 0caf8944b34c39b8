import Verif.Model.Bounds
import Verif.Model.Transform
import Verif.Model.Floats
import Mathlib.Algebra.Order.Group.Unbundled.Int

/-!
# The same computation on another element type

`f : T → T'` relates two element types if every operation that returns on `T` returns the image on
`T'`, and comparisons have the same answer.  The two cases of interest are `i64` with overflow checks
related to `i64` without, and to the mathematical integers.
-/

namespace Pbrt

/-- The mathematical integers as an element type: nothing overflows; division truncates, and
    panics for zero. -/
instance intElem : Elem ℤ where
  add a b := .ok (a + b)
  sub a b := .ok (a - b)
  mul a b := .ok (a * b)
  div a b := if b = 0 then .error .divZero else .ok (a.tdiv b)
  neg a := .ok (-a)
  abs a := .ok |a|
  lt a b := decide (a < b)
  le a b := decide (a ≤ b)
  eq a b := decide (a = b)
  isNan _ := false
  fromInt i := i

/-- If `x` returns `c` then `y` returns the image of `c`. -/
def Follows {α β : Type} (f : α → β) (x : Outcome α) (y : Outcome β) : Prop :=
  ∀ c, x = .ok c → y = .ok (f c)

/-- The operations on `T'` do what those on `T` do, as long as those return. -/
structure Sim {T T' : Type} [Elem T] [Elem T'] (f : T → T') : Prop where
  add : ∀ a b, Follows f (Elem.add a b) (Elem.add (f a) (f b))
  sub : ∀ a b, Follows f (Elem.sub a b) (Elem.sub (f a) (f b))
  mul : ∀ a b, Follows f (Elem.mul a b) (Elem.mul (f a) (f b))
  div : ∀ a b, Follows f (Elem.div a b) (Elem.div (f a) (f b))
  neg : ∀ a, Follows f (Elem.neg a) (Elem.neg (f a))
  abs : ∀ a, Follows f (Elem.abs a) (Elem.abs (f a))
  lt : ∀ a b, Elem.lt (f a) (f b) = Elem.lt a b
  le : ∀ a b, Elem.le (f a) (f b) = Elem.le a b
  eq : ∀ a b, Elem.eq (f a) (f b) = Elem.eq a b
  isNan : ∀ a, Elem.isNan (f a) = Elem.isNan a
  fromInt : ∀ i : ℤ, 0 ≤ i → i ≤ 2 → f (Elem.fromInt i) = Elem.fromInt i

section
variable {T T' : Type} (f : T → T')

def Vector2.map (v : Vector2 T) : Vector2 T' := ⟨f v.x, f v.y⟩
def Vector3.map (v : Vector3 T) : Vector3 T' := ⟨f v.x, f v.y, f v.z⟩
def Normal3.map (v : Normal3 T) : Normal3 T' := ⟨f v.x, f v.y, f v.z⟩
def Point2.map (v : Point2 T) : Point2 T' := ⟨f v.x, f v.y⟩
def Point3.map (v : Point3 T) : Point3 T' := ⟨f v.x, f v.y, f v.z⟩
def Bounds2.map (b : Bounds2 T) : Bounds2 T' := ⟨b.pMin.map f, b.pMax.map f⟩
def Bounds3.map (b : Bounds3 T) : Bounds3 T' := ⟨b.pMin.map f, b.pMax.map f⟩
def Bounds2Iter.map (b : Bounds2Iter T) : Bounds2Iter T' := ⟨b.pMax.map f, f b.x, f b.y⟩
def Matrix4.map (a : Matrix4 T) : Matrix4 T' := ⟨fun r c => f (a.mat r c)⟩
end

/-- The same 64 bits in a build without overflow checks -/
def I64.release (a : I64 true) : I64 false := ⟨a.bits⟩

end Pbrt
