import Verif.Spec.FloatValue
import Verif.Spec.Geometry
import Verif.Model.Transform
import Mathlib.Algebra.BigOperators.Fin

/-!
# Vectors and columns of transforms, for C78
-/

namespace Pbrt

/-- The unit vector of an axis -/
def Vector3.axis {T : Type} [Elem T] (j : Fin 3) : Vector3 T :=
  ⟨Elem.fromInt (if j = 0 then 1 else 0), Elem.fromInt (if j = 1 then 1 else 0), Elem.fromInt (if j = 2 then 1 else 0)⟩

/-- The square of the exact length of what a transform makes of the unit vector of an axis -/
noncomputable def Transform.stretch {T : Type} [Elem T] [As T T] [FloatFns T] [IEEE T] (t : Transform T)
    (j : Fin 3) : ℝ := ∑ i : Fin 3, val (t.m.mat i.castSucc j.castSucc) ^ 2

end Pbrt
