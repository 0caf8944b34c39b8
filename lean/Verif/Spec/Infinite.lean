import Verif.Spec.Nan

/-!
# Infinite floats
-/

namespace Pbrt.Spec

section
variable {T : Type} [Elem T] [As T T] [FloatFns T] [IEEE T]

/-- The float is `+∞`. -/
def PosInf (a : T) : Prop := uext (up a) = ⊤

/-- The float is `-∞`. -/
def NegInf (a : T) : Prop := uext (up a) = ⊥

/-- A side of a box that has a length (it is no point), but reaches infinity -/
def Unbounded (b : Bounds3 T) (i : Fin 3) : Prop :=
  Lt (b.pMin.get i) (b.pMax.get i) ∧ (NegInf (b.pMin.get i) ∨ PosInf (b.pMax.get i))

end

end Pbrt.Spec
