import Verif.Model.Elem

/-!
# The element type `i64` (`/repo/src/core/mod.rs` lines 79-95, 107-111)
-/

namespace Pbrt

/-- `i64`: 64 bits, in two's complement.  `checks` says whether the program was built with overflow
    checks (as debug builds are) or without (arithmetic wraps). -/
structure I64 (checks : Bool) where
  bits : BitVec 64
deriving DecidableEq

variable {checks : Bool}

/-- The integer denoted by the 64 bits. -/
def I64.toInt (a : I64 checks) : Int := a.bits.toInt

/-- The 64 bits of an integer (wrapped around if it is out of range). -/
def I64.ofInt (i : Int) : I64 checks := ⟨BitVec.ofInt 64 i⟩

/-- A result that is checked for overflow if checks are on. -/
def I64.checked (overflows : Bool) (v : BitVec 64) : Outcome (I64 checks) :=
  if checks && overflows then .error .overflow else .ok ⟨v⟩

/-- mod.rs:79-95 `impl ElemType for i64`; the operators are those of `i64`.  Division by zero and
    `i64::MIN / -1` panic in every build. -/
instance : Elem (I64 checks) where
  add a b := I64.checked (a.bits.saddOverflow b.bits) (a.bits + b.bits)
  sub a b := I64.checked (a.bits.ssubOverflow b.bits) (a.bits - b.bits)
  mul a b := I64.checked (a.bits.smulOverflow b.bits) (a.bits * b.bits)
  div a b :=
    if b.bits = 0#64 then .error .divZero
    else if a.bits.sdivOverflow b.bits then .error .overflow
    else .ok ⟨a.bits.sdiv b.bits⟩
  neg a := I64.checked a.bits.negOverflow (-a.bits)
  abs a := I64.checked a.bits.negOverflow a.bits.abs
  lt a b := a.bits.slt b.bits
  le a b := a.bits.sle b.bits
  eq a b := decide (a = b)
  isNan _ := false
  fromInt i := I64.ofInt i

/-- mod.rs:84-90 `i64::max_value()`, `i64::min_value()` -/
instance : Extremes (I64 checks) where
  maxValue := ⟨BitVec.intMax 64⟩
  minValue := ⟨BitVec.intMin 64⟩

end Pbrt
