import Verif.Model.Bounds

/-!
# What boxes and coordinates mean

Everything is stated one axis at a time; `get` names the coordinate of an axis.
-/

namespace Pbrt

variable {T : Type}

/-- The coordinate of a point on an axis. -/
def Point3.get (p : Point3 T) : Fin 3 → T
  | 0 => p.x
  | 1 => p.y
  | 2 => p.z

/-- The component of a vector on an axis. -/
def Vector3.get (v : Vector3 T) : Fin 3 → T
  | 0 => v.x
  | 1 => v.y
  | 2 => v.z

/-- The component of a normal on an axis. -/
def Normal3.get (v : Normal3 T) : Fin 3 → T
  | 0 => v.x
  | 1 => v.y
  | 2 => v.z

variable [Elem T]

/-- `a <= b` -/
def Le (a b : T) : Prop := Elem.le a b = true
/-- `a < b` -/
def Lt (a b : T) : Prop := Elem.lt a b = true
/-- `a == b`; on floats this holds of `-0.0` and `0.0`. -/
def Same (a b : T) : Prop := Elem.eq a b = true
/-- not NaN -/
def NotNan (a : T) : Prop := Elem.isNan a = false

instance (a b : T) : Decidable (Le a b) := inferInstanceAs (Decidable (_ = true))
instance (a b : T) : Decidable (Lt a b) := inferInstanceAs (Decidable (_ = true))
instance (a b : T) : Decidable (Same a b) := inferInstanceAs (Decidable (_ = true))
instance (a : T) : Decidable (NotNan a) := inferInstanceAs (Decidable (_ = false))

/-- No coordinate is NaN. -/
def Point3.Proper (p : Point3 T) : Prop := ∀ i, NotNan (p.get i)
/-- `==` in every coordinate -/
def Point3.Same (p q : Point3 T) : Prop := ∀ i, Pbrt.Same (p.get i) (q.get i)

/-- The lower corner is `<=` the upper corner on every axis. -/
def Bounds3.WellFormed (b : Bounds3 T) : Prop := ∀ i, Le (b.pMin.get i) (b.pMax.get i)
/-- The point lies in the closed box. -/
def Bounds3.Has (b : Bounds3 T) (p : Point3 T) : Prop :=
  ∀ i, Le (b.pMin.get i) (p.get i) ∧ Le (p.get i) (b.pMax.get i)
/-- The point lies in the box, upper faces excluded. -/
def Bounds3.HasOpen (b : Bounds3 T) (p : Point3 T) : Prop :=
  ∀ i, Le (b.pMin.get i) (p.get i) ∧ Lt (p.get i) (b.pMax.get i)
/-- Every point of `a` is a point of `b`. -/
def Bounds3.Sub (a b : Bounds3 T) : Prop := ∀ p, a.Has p → b.Has p
/-- `==` on boxes -/
def Bounds3.Same (a b : Bounds3 T) : Prop := a.pMin.Same b.pMin ∧ a.pMax.Same b.pMax

instance (p : Point3 T) : Decidable p.Proper := inferInstanceAs (Decidable (∀ _, _))
instance (p q : Point3 T) : Decidable (p.Same q) := inferInstanceAs (Decidable (∀ _, _))
instance (b : Bounds3 T) : Decidable b.WellFormed := inferInstanceAs (Decidable (∀ _, _))
instance (b : Bounds3 T) (p : Point3 T) : Decidable (b.Has p) := inferInstanceAs (Decidable (∀ _, _))
instance (a b : Bounds3 T) : Decidable (a.Same b) := inferInstanceAs (Decidable (_ ∧ _))

omit [Elem T] in
/-- The point with one coordinate changed -/
def Point3.with (p : Point3 T) (i : Fin 3) (v : T) : Point3 T :=
  let c (j : Fin 3) := if j = i then v else p.get j
  ⟨c 0, c 1, c 2⟩

end Pbrt
