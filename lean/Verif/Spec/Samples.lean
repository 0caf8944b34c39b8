import Verif.Model.Floats
import Verif.Model.Transform

/-!
# Constants for the examples about geometry
-/

namespace Pbrt

/-- an integer (overflow checks on) -/
def i64 (n : Int) : I64 true := .ofInt n
/-- an integer point -/
def ip (x y z : Int) : Point3 (I64 true) := ⟨i64 x, i64 y, i64 z⟩
/-- an integer vector -/
def iv (x y z : Int) : Vector3 (I64 true) := ⟨i64 x, i64 y, i64 z⟩
/-- a binary32 float -/
def f32 (n : Int) : Float32.Model := .ofInt n
/-- a float point -/
def fp (x y z : Int) : Point3 Float32.Model := ⟨f32 x, f32 y, f32 z⟩
/-- a float vector -/
def fv (x y z : Int) : Vector3 Float32.Model := ⟨f32 x, f32 y, f32 z⟩
/-- NaN -/
def nan32 : Float32.Model := .pack .notANumber
/-- infinity -/
def inf32 : Float32.Model := .pack (.infinity .positive)
/-- negative zero -/
def negZero32 : Float32.Model := .pack (.zero .negative)

/-- `Except` has no `DecidableEq` in core; the examples compare outcomes. -/
instance {α : Type} [DecidableEq α] : DecidableEq (Outcome α)
  | .ok a, .ok b => decidable_of_iff (a = b) (by simp)
  | .error a, .error b => decidable_of_iff (a = b) (by simp)
  | .ok _, .error _ => isFalse (by simp)
  | .error _, .ok _ => isFalse (by simp)

end Pbrt
