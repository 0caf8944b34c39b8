import Verif.Spec.FloatValue
import Verif.Spec.Geometry
import Verif.Model.Transform

/-!
# The same scene in another unit

Changing the unit of length multiplies all the coordinates by a constant.  Here the constant is a
power of two, `2 ^ k`, so that the coordinates in the new unit are floats again.
-/

namespace Pbrt

section
variable (T : Type) [Elem T] [As T T] [FloatFns T] [IEEE T]

/-- The smallest positive float of full precision -/
noncomputable def minNormal : ℝ := 2 ^ ((IEEE.fmt T).minExponent + (IEEE.fmt T).mantissaBits - 1)

/-- A number that is rounded with full precision: zero, or not below the smallest such float -/
def NoUnderflow (x : ℝ) : Prop := x = 0 ∨ minNormal T ≤ |x|
end

variable {T : Type} [Elem T] [As T T] [FloatFns T] [IEEE T]

/-- `a` and `b` are the same finite quantity, where `b` is measured in a unit `2 ^ k` times smaller. -/
def InUnits (k : ℤ) (a b : T) : Prop := IsFinite a ∧ IsFinite b ∧ val b = 2 ^ k * val a

/-- The same, unless one of the two numbers is infinite or NaN -/
def Rescaled (k : ℤ) (a b : T) : Prop := IsFinite a → IsFinite b → val b = 2 ^ k * val a

def Point3.InUnits (k : ℤ) (p q : Point3 T) : Prop := ∀ i, Pbrt.InUnits k (p.get i) (q.get i)
def Vector3.InUnits (k : ℤ) (u v : Vector3 T) : Prop := ∀ i, Pbrt.InUnits k (u.get i) (v.get i)
def Normal3.InUnits (k : ℤ) (u v : Normal3 T) : Prop := ∀ i, Pbrt.InUnits k (u.get i) (v.get i)
def Bounds3.InUnits (k : ℤ) (a b : Bounds3 T) : Prop := a.pMin.InUnits k b.pMin ∧ a.pMax.InUnits k b.pMax
/-- Row `i` of the matrix gives a quantity of unit `r i`, column `j` takes one of unit `c j`. -/
def Matrix4.InUnits (r c : Fin 4 → ℤ) (a b : Matrix4 T) : Prop :=
  ∀ i j, Pbrt.InUnits (r i - c j) (a.mat i j) (b.mat i j)

def Point3.Rescaled (k : ℤ) (p q : Point3 T) : Prop := ∀ i, Pbrt.Rescaled k (p.get i) (q.get i)
def Vector3.Rescaled (k : ℤ) (u v : Vector3 T) : Prop := ∀ i, Pbrt.Rescaled k (u.get i) (v.get i)
def Normal3.Rescaled (k : ℤ) (u v : Normal3 T) : Prop := ∀ i, Pbrt.Rescaled k (u.get i) (v.get i)
def Matrix4.Rescaled (r c : Fin 4 → ℤ) (a b : Matrix4 T) : Prop :=
  ∀ i j, Pbrt.Rescaled (r i - c j) (a.mat i j) (b.mat i j)

/-- The products of the components of two vectors do not underflow. -/
def Vector3.Fine (u v : Vector3 T) : Prop := ∀ i j, NoUnderflow T (val (u.get i) * val (v.get j))
def Normal3.Fine (u v : Normal3 T) : Prop := ∀ i j, NoUnderflow T (val (u.get i) * val (v.get j))
/-- The products that make up a product of matrices do not underflow. -/
def Matrix4.Fine (a b : Matrix4 T) : Prop := ∀ i j l, NoUnderflow T (val (a.mat i l) * val (b.mat l j))

/-- All coordinates are finite. -/
def Point3.Finite (p : Point3 T) : Prop := ∀ i, IsFinite (p.get i)
def Vector3.Finite (v : Vector3 T) : Prop := ∀ i, IsFinite (v.get i)

/-- Nothing overflows or underflows on the way to the centre of a box, and the squares of the
    distances from there to the upper corner do not underflow. -/
def Bounds3.SphereFine (b : Bounds3 T) : Prop :=
  ∀ s c d, b.pMin.add (.ofPoint b.pMax) = .ok s → s.div (Elem.fromInt 2) = .ok c → c.sub b.pMax = .ok d →
    c.Finite ∧ (∀ i, NoUnderflow T (val (s.get i) / 2)) ∧ d.Fine d

/-- The units of the rows and columns of an affine matrix, where the unit of length is `2 ^ k` times
    smaller: the last coordinate is not a length. -/
def lengthUnits (k : ℤ) : Fin 4 → ℤ := fun i => if i = 3 then 0 else k

/-- The offsets of the auxiliary rays of a ray differential from the ray itself, times `s`, do not
    underflow. -/
def RayDifferential.Fine (r : RayDifferential T) (s : T) : Prop :=
  (∀ d, r.rxOrigin.sub r.ray.o = .ok d → ∀ i, NoUnderflow T (val s * val (d.get i))) ∧
  (∀ d, r.ryOrigin.sub r.ray.o = .ok d → ∀ i, NoUnderflow T (val s * val (d.get i))) ∧
  (∀ d, r.rxDirection.sub r.ray.d = .ok d → ∀ i, NoUnderflow T (val s * val (d.get i))) ∧
  (∀ d, r.ryDirection.sub r.ray.d = .ok d → ∀ i, NoUnderflow T (val s * val (d.get i)))

end Pbrt
