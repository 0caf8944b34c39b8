import Verif.Spec.FloatValue
import Verif.Spec.Geometry
import Verif.Model.Vector
import Mathlib.Algebra.BigOperators.Fin

/-!
# Frames of floats

What it means that three vectors of floats are a right-handed frame up to rounding.
-/

namespace Pbrt

section
variable {T : Type} [Elem T] [As T T] [FloatFns T] [IEEE T]

local notation "ε" => unitRoundoff T

/-- The frame `v1`, `v2`, `v3` of floats is orthonormal up to `ε`, with `v3` near `v1 × v2`. -/
structure NearFrame (v1 v2 v3 : Vector3 T) : Prop where
  finite : ∀ i, IsFinite (v2.get i) ∧ IsFinite (v3.get i)
  unit : |∑ i, val (v2.get i) ^ 2 - 1| ≤ 7 * ε
  dot12 : |∑ i, val (v1.get i) * val (v2.get i)| ≤ 3 / 2 * ε
  dot13 : |∑ i, val (v1.get i) * val (v3.get i)| ≤ 5 * ε
  dot23 : |∑ i, val (v2.get i) * val (v3.get i)| ≤ 3 * ε
  len3 : |∑ i, val (v3.get i) ^ 2 - ∑ i, val (v1.get i) ^ 2| ≤ 12 * ε * ∑ i, val (v1.get i) ^ 2
  cross : ∀ i : Fin 3, |val (v3.get i) - (val (v1.get (i + 1)) * val (v2.get (i + 2)) -
    val (v1.get (i + 2)) * val (v2.get (i + 1)))| ≤ 6 * ε

/-- `w` is nearly the vector of length one in the direction of `v`, where the three components are given. -/
structure NearUnit (v w : Fin 3 → T) : Prop where
  finite : ∀ i, IsFinite (w i)
  unit : |∑ i, val (w i) ^ 2 - 1| ≤ 8 * ε
  direction : ∀ i, |val (w i) - val (v i) / Real.sqrt (∑ j, val (v j) ^ 2)| ≤ 4 * ε

/-- The vector of the numbers the floats stand for -/
noncomputable def Vector3.vals (v : Vector3 T) : Vector3 ℝ := ⟨val v.x, val v.y, val v.z⟩

end

end Pbrt
