/-!
# Element types and the functions of `/repo/src/core/mod.rs`

The geometry code is generic over `T: ElemType`; the two instances are `Float` (`f32`, or `f64`
with the feature `float_as_f64`) and `i64`.  The model is generic in the same way: the operations
of the trait are the fields of the class `Elem`.  Its instances are

* `I64 checks` (`Model/Ints.lean`): 64-bit integers, with and without overflow checks;
* `Float32.Model`, `Float.Model` (`Model/Floats.lean`): IEEE binary32 and binary64;
* every ordered field (`Spec/Laws.lean`): exact arithmetic, the idealisation of `Float` without
  rounding.

Arithmetic can panic (integer overflow with checks on, integer division by zero).  So an
arithmetic operation returns an `Outcome`, and a function that uses arithmetic does too.
-/

namespace Pbrt

/-- Why a geometry function did not return. -/
inductive Panic where
  /-- integer arithmetic out of range, overflow checks on -/
  | overflow
  /-- integer division by zero -/
  | divZero
  /-- a failed `assert!` -/
  | assertion
  /-- an index out of bounds -/
  | index
  /-- matrix.rs:55, `panic!("Singular matrix in Matrix4::inverse")` -/
  | singularPivotTwice
  /-- matrix.rs:70, `panic!("Singular matrix in Matrix::inverse")` -/
  | singularZeroPivot
  /-- Only in exact arithmetic: the operation has no value (division by zero, square root of a
      negative number).  IEEE floats return an infinity or NaN instead. -/
  | undefined
deriving DecidableEq

/-- A value or a panic. -/
abbrev Outcome (α : Type) : Type := Except Panic α

/-- mod.rs:41-59 `trait ElemType` with the operators of its supertraits (`PartialEq`,
    `PartialOrd`, `num::Signed`, `ClosedAdd`, `ClosedSub`, `ClosedMul`, `ClosedDiv`).
    `max_value` and `min_value` are in `Extremes`. -/
class Elem (T : Type) where
  add : T → T → Outcome T
  sub : T → T → Outcome T
  mul : T → T → Outcome T
  div : T → T → Outcome T
  neg : T → Outcome T
  /-- `Signed::abs` -/
  abs : T → Outcome T
  lt : T → T → Bool
  le : T → T → Bool
  eq : T → T → Bool
  isNan : T → Bool
  /-- `from_int`; also the float literals `0.`, `1.`, `2.` -/
  fromInt : Int → T

/-- mod.rs:56-57 `ElemType::max_value`, `ElemType::min_value` -/
class Extremes (T : Type) where
  maxValue : T
  minValue : T

/-- `AsPrimitive<F>`: the cast `x.as_()` from `T` to `F` (mod.rs:51). -/
class As (T F : Type) where
  as_ : T → F

/-- Functions that exist on `Float` only, and the literals of `not_one` (mod.rs:154-156). -/
class FloatFns (F : Type) where
  sqrt : F → Outcome F
  floor : F → F
  ceil : F → F
  /-- the literal `0.999` -/
  lit999 : F
  /-- the literal `1.001` -/
  lit1001 : F

section
variable {T : Type} [Elem T]

/-- `a > b` on a `PartialOrd` whose comparison is symmetric -/
def Elem.gt (a b : T) : Bool := Elem.lt b a
/-- `a >= b` -/
def Elem.ge (a b : T) : Bool := Elem.le b a

/-- mod.rs:135-141, the loop of `pmin` after `let mut min = &elems[0]` -/
def pminFrom (min : T) : List T → T
  | [] => min
  | e :: es => pminFrom (if Elem.lt e min then e else min) es

/-- mod.rs:134-142 `pmin`; `elems[0]` panics on the empty slice.  The calls with an array literal
    `pmin(&[a, b])` are written `pminFrom a [b]` in the model. -/
def pmin : List T → Outcome T
  | [] => .error .index
  | e :: es => .ok (pminFrom e es)

/-- mod.rs:145-151, the loop of `pmax` after `let mut max = &elems[0]` -/
def pmaxFrom (max : T) : List T → T
  | [] => max
  | e :: es => pmaxFrom (if Elem.gt e max then e else max) es

/-- mod.rs:144-152 `pmax` -/
def pmax : List T → Outcome T
  | [] => .error .index
  | e :: es => .ok (pmaxFrom e es)
end

section
variable {F : Type} [Elem F]

/-- mod.rs:20-22 `lerp` -/
def lerp (t v1 v2 : F) : Outcome F := do
  let s ← Elem.sub (Elem.fromInt 1) t
  let a ← Elem.mul s v1
  let b ← Elem.mul t v2
  Elem.add a b

/-- mod.rs:154-156 `not_one` -/
def notOne [FloatFns F] (x : F) : Bool :=
  Elem.lt x FloatFns.lit999 || Elem.gt x FloatFns.lit1001
end

end Pbrt
