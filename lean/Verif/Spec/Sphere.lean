import Verif.Spec.FloatValue
import Verif.Spec.Geometry
import Mathlib.Analysis.Real.Sqrt
import Mathlib.Algebra.BigOperators.Fin

/-!
# Boxes of floats as regions of real space
-/

namespace Pbrt

variable {T : Type} [Elem T] [As T T] [FloatFns T] [IEEE T]

/-- The real coordinates of a point of floats -/
noncomputable def Point3.at (p : Point3 T) (i : Fin 3) : ℝ := val (p.get i)

/-- The real points of a box with finite corners -/
def Bounds3.Region (b : Bounds3 T) (p : Fin 3 → ℝ) : Prop := ∀ i, b.pMin.at i ≤ p i ∧ p i ≤ b.pMax.at i

/-- The distance of two points of real space -/
noncomputable def distance (p q : Fin 3 → ℝ) : ℝ := √(∑ i, (p i - q i) ^ 2)

end Pbrt
