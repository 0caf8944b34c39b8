import Verif.Spec.FloatValue
import Verif.Model.Transform
import Verif.Spec.Geometry

/-!
# Not a number
-/

namespace Pbrt.Spec

/-- The value is NaN. -/
def IsNan {T : Type} [Elem T] (a : T) : Prop := Elem.isNan a = true

/-- There is a result, and it satisfies `P`. -/
def Gives {α : Type} (x : Outcome α) (P : α → Prop) : Prop := ∃ r, x = .ok r ∧ P r

/-- An entry of the matrix is NaN. -/
def NanIn {T : Type} [Elem T] (m : Matrix4 T) : Prop := ∃ r c, IsNan (m.mat r c)

instance {T : Type} [Elem T] (a : T) : Decidable (IsNan a) := inferInstanceAs (Decidable (_ = true))

end Pbrt.Spec
