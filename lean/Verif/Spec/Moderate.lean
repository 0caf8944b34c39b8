import Verif.Spec.FloatValue
import Verif.Spec.Numbers

/-!
# Floats far from the ends of the range
-/

namespace Pbrt.Spec

variable {T : Type} [Elem T] [As T T] [FloatFns T] [IEEE T]

/-- A finite float of absolute value at most `M` -/
def Moderate (M : ℝ) (a : T) : Prop := IsFinite a ∧ |val a| ≤ M

/-- There is room for the cube of `M` in the range of the floats, and they have at least ten bits. -/
structure Ample (T : Type) [Elem T] [As T T] [FloatFns T] [IEEE T] (M : ℝ) : Prop where
  large : 2 ≤ M
  room : ∃ m : T, IsFinite m ∧ 32 * M ^ 3 ≤ val m
  precise : unitRoundoff T ≤ 1 / 1000
  gradual : tiny T ≤ unitRoundoff T ^ 3

end Pbrt.Spec
