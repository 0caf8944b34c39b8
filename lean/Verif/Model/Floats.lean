import Verif.Model.Ints

/-!
# The element type `Float` (`/repo/src/core/mod.rs` lines 31-39, 61-77, 101-105)

`Float` is `f32`, or `f64` with the feature `float_as_f64`.  `Float32.Model` and `Float.Model` are
Lean core's logical models of IEEE binary32 and binary64 (round to nearest even, subnormals,
infinities, signed zeros; all NaNs are identified).  `f32::floor`/`ceil` are not part of these
models and are defined here.
-/

namespace Pbrt

open Float.Model (UnpackedFloat Format)
open Float.Model.UnpackedFloat (Sign)

/-- The floor (`up = false`) or ceiling (`up = true`) of `± mantissa * 2 ^ exponent`, for a
    negative exponent: an integer. -/
def roundInt (up : Bool) (s : Sign) (mantissa : Nat) (k : Nat) : Int :=
  let n : Int := s.apply mantissa
  if up then -((-n).fdiv (2 ^ k)) else n.fdiv (2 ^ k)

/-- `floor`/`ceil` of a float: an integral float is returned as it is, and a zero result has the
    sign of the argument. -/
def roundFloat (fmt : Format) (up : Bool) : UnpackedFloat → UnpackedFloat
  | .finite s m e hm =>
    if 0 ≤ e then .finite s m e hm
    else
      let i := roundInt up s m e.natAbs
      if i = 0 then .zero s else UnpackedFloat.ofInt fmt i
  | x => x

/-- mod.rs:61-77 `impl ElemType for Float`, `Float = f32` -/
instance : Elem Float32.Model where
  add a b := .ok (a.add b)
  sub a b := .ok (a.sub b)
  mul a b := .ok (a.mul b)
  div a b := .ok (a.div b)
  neg a := .ok a.neg
  abs a := .ok a.abs
  lt a b := a.lt b
  le a b := a.le b
  eq a b := a.beq b
  isNan a := a.isNaN
  fromInt i := .ofInt i

instance : Extremes Float32.Model where
  maxValue := .pack (.infinity .positive)
  minValue := .pack (.infinity .negative)

instance : As Float32.Model Float32.Model := ⟨id⟩
/-- `i64 as f32` -/
instance {checks : Bool} : As (I64 checks) Float32.Model := ⟨fun i => .ofInt i.toInt⟩

instance : FloatFns Float32.Model where
  sqrt a := .ok a.sqrt
  floor a := .pack (roundFloat Format.binary32 false a.unpack)
  ceil a := .pack (roundFloat Format.binary32 true a.unpack)
  lit999 := .ofScientific 999 (-3)
  lit1001 := .ofScientific 1001 (-3)

/-- mod.rs:61-77 `impl ElemType for Float`, `Float = f64` -/
instance : Elem Float.Model where
  add a b := .ok (a.add b)
  sub a b := .ok (a.sub b)
  mul a b := .ok (a.mul b)
  div a b := .ok (a.div b)
  neg a := .ok a.neg
  abs a := .ok a.abs
  lt a b := a.lt b
  le a b := a.le b
  eq a b := a.beq b
  isNan a := a.isNaN
  fromInt i := .ofInt i

instance : Extremes Float.Model where
  maxValue := .pack (.infinity .positive)
  minValue := .pack (.infinity .negative)

instance : As Float.Model Float.Model := ⟨id⟩
/-- `i64 as f64` -/
instance {checks : Bool} : As (I64 checks) Float.Model := ⟨fun i => .ofInt i.toInt⟩

instance : FloatFns Float.Model where
  sqrt a := .ok a.sqrt
  floor a := .pack (roundFloat Format.binary64 false a.unpack)
  ceil a := .pack (roundFloat Format.binary64 true a.unpack)
  lit999 := .ofScientific 999 (-3)
  lit1001 := .ofScientific 1001 (-3)

end Pbrt
