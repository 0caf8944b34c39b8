import Verif.Spec.Laws
import Verif.Spec.Geometry
import Verif.Model.Transform
import Mathlib.Algebra.BigOperators.Fin

/-!
# Transforms and lengths
-/

namespace Pbrt

/-- The square of the length of a vector -/
def Spec.normSq (v : Vector3 ℝ) : ℝ := ∑ i, v.get i ^ 2

/-- Squares of lengths change by a thousandth at most. -/
def Spec.KeepsLengths (t : Transform ℝ) : Prop :=
  ∀ v w : Vector3 ℝ, v.transform t = .ok w →
    999 / 1000 * Spec.normSq v ≤ Spec.normSq w ∧ Spec.normSq w ≤ 1001 / 1000 * Spec.normSq v

/-- The images of the three axes are orthogonal to each other. -/
def Spec.RightAngles (t : Transform ℝ) : Prop :=
  ∀ j k : Fin 3, j ≠ k → ∑ i : Fin 3, t.m.mat i.castSucc j.castSucc * t.m.mat i.castSucc k.castSucc = 0

/-- Lengths do not change at all. -/
def Spec.Rigid (t : Transform ℝ) : Prop :=
  ∀ v w : Vector3 ℝ, v.transform t = .ok w → Spec.normSq w = Spec.normSq v

end Pbrt
