import Verif.Spec.Geometry

/-!
# Changing the coordinates axis by axis

A change of coordinates is given by a relation between old and new coordinates on each axis: some operations
have no result for some numbers.
-/

namespace Pbrt

variable {T U : Type}

/-- `q` is `p` with changed coordinates. -/
def Point3.Moved (R : Fin 3 → T → U → Prop) (p : Point3 T) (q : Point3 U) : Prop := ∀ i, R i (p.get i) (q.get i)
/-- `c` is `b` with changed corners. -/
def Bounds3.Moved (R : Fin 3 → T → U → Prop) (b : Bounds3 T) (c : Bounds3 U) : Prop :=
  b.pMin.Moved R c.pMin ∧ b.pMax.Moved R c.pMax

section
variable [Elem T] [Elem U]

/-- What is `<=` before is `<=` after: numbers may fall together, but not change places. -/
def Keeps (R : Fin 3 → T → U → Prop) : Prop :=
  ∀ i a b a' b', R i a a' → R i b b' → Le a b → Le a' b'
/-- What is `<=` after was `<=` before. -/
def Reflects (R : Fin 3 → T → U → Prop) : Prop :=
  ∀ i a b a' b', R i a a' → R i b b' → Le a' b' → Le a b
end

section
variable [Elem T]

/-- Adding the components of a vector -/
def Plus (v : Vector3 T) : Fin 3 → T → T → Prop := fun i a a' => Elem.add a (v.get i) = .ok a'
/-- Subtracting the components of a vector -/
def Minus (v : Vector3 T) : Fin 3 → T → T → Prop := fun i a a' => Elem.sub a (v.get i) = .ok a'
/-- Multiplying with a number -/
def Times (s : T) : Fin 3 → T → T → Prop := fun _ a a' => Elem.mul s a = .ok a'
/-- Dividing by a number -/
def Over (s : T) : Fin 3 → T → T → Prop := fun _ a a' => Elem.div a s = .ok a'
end

section
variable [FloatFns T]

/-- Rounding down -/
def Down : Fin 3 → T → T → Prop := fun _ a a' => FloatFns.floor a = a'
/-- Rounding up -/
def Up : Fin 3 → T → T → Prop := fun _ a a' => FloatFns.ceil a = a'
end

end Pbrt
