import Verif.Spec.Literals
import Verif.Spec.Laws
import Verif.Spec.Geometry
import Mathlib.Analysis.Real.Sqrt
import Mathlib.Data.EReal.Basic

/-!
# What the number types of the program compute
-/

namespace Pbrt.Spec

open Float.Model (UnpackedFloat)

/-- The outcome of an `i64` operation with the exact result `x`: that number if 64 bits can hold it;
    otherwise a panic with overflow checks, and the number wrapped around without them. -/
def Returns {checks : Bool} (x : ℤ) (o : Outcome (I64 checks)) : Prop :=
  if -2 ^ 63 ≤ x ∧ x < 2 ^ 63 then ∃ c, o = .ok c ∧ c.toInt = x
  else if checks then o = .error .overflow
  else ∃ c, o = .ok c ∧ -2 ^ 63 ≤ c.toInt ∧ c.toInt < 2 ^ 63 ∧ ∃ k : ℤ, c.toInt = x + k * 2 ^ 64

/-- `i64` computes with integers of 64 bits. -/
structure IntegerArith (checks : Bool) : Prop where
  range : ∀ a : I64 checks, -2 ^ 63 ≤ a.toInt ∧ a.toInt < 2 ^ 63
  inj : ∀ a b : I64 checks, a.toInt = b.toInt → a = b
  add : ∀ a b : I64 checks, Returns (a.toInt + b.toInt) (Elem.add a b)
  sub : ∀ a b : I64 checks, Returns (a.toInt - b.toInt) (Elem.sub a b)
  mul : ∀ a b : I64 checks, Returns (a.toInt * b.toInt) (Elem.mul a b)
  neg : ∀ a : I64 checks, Returns (-a.toInt) (Elem.neg a)
  abs : ∀ a : I64 checks, Returns |a.toInt| (Elem.abs a)
  div : ∀ a b : I64 checks, b.toInt ≠ 0 → ¬ (a.toInt = -2 ^ 63 ∧ b.toInt = -1) →
    ∃ c, Elem.div a b = .ok c ∧ c.toInt = a.toInt.tdiv b.toInt
  div_zero : ∀ a b : I64 checks, b.toInt = 0 → Elem.div a b = .error .divZero
  div_min : ∀ a b : I64 checks, a.toInt = -2 ^ 63 → b.toInt = -1 → Elem.div a b = .error .overflow
  le : ∀ a b : I64 checks, Elem.le a b = true ↔ a.toInt ≤ b.toInt
  lt : ∀ a b : I64 checks, Elem.lt a b = true ↔ a.toInt < b.toInt
  eq : ∀ a b : I64 checks, Elem.eq a b = true ↔ a.toInt = b.toInt
  nan : ∀ a : I64 checks, Elem.isNan a = false
  max : (Extremes.maxValue : I64 checks).toInt = 2 ^ 63 - 1
  min : (Extremes.minValue : I64 checks).toInt = -2 ^ 63
  int : ∀ i : ℤ, -2 ^ 63 ≤ i → i < 2 ^ 63 → (Elem.fromInt i : I64 checks).toInt = i

section
variable {T : Type} [Elem T] [As T T] [FloatFns T] [IEEE T]

/-- `x` rounded: a nearest finite float, or an infinity if `x` is beyond all of them -/
def RoundedTo (r : T) (x : ℝ) : Prop :=
  Nearest r x ∨ up r = .infinity .positive ∧ (∀ y : T, IsFinite y → val y < x) ∨
    up r = .infinity .negative ∧ (∀ y : T, IsFinite y → x < val y)

/-- The place of a float (other than NaN) on the number line with both ends -/
noncomputable def place (a : T) : EReal :=
  match up a with
  | .infinity .positive => ⊤
  | .infinity .negative => ⊥
  | _ => (val a : ℝ)

variable (T) in
/-- Floats compute with real numbers, rounding every result. -/
structure FloatArith [Extremes T] : Prop where
  add : ∀ a b : T, IsFinite a → IsFinite b → ∃ c, Elem.add a b = .ok c ∧ RoundedTo c (val a + val b)
  sub : ∀ a b : T, IsFinite a → IsFinite b → ∃ c, Elem.sub a b = .ok c ∧ RoundedTo c (val a - val b)
  mul : ∀ a b : T, IsFinite a → IsFinite b → ∃ c, Elem.mul a b = .ok c ∧ RoundedTo c (val a * val b)
  div : ∀ a b : T, IsFinite a → IsFinite b → val b ≠ 0 →
    ∃ c, Elem.div a b = .ok c ∧ RoundedTo c (val a / val b)
  sqrt : ∀ a : T, IsFinite a → 0 ≤ val a → ∃ c, FloatFns.sqrt a = .ok c ∧ RoundedTo c √(val a)
  neg : ∀ a : T, ∃ c, Elem.neg a = .ok c ∧ up c = (up a).neg
  abs : ∀ a : T, ∃ c, Elem.abs a = .ok c ∧ up c = (up a).abs
  int : ∀ i : ℤ, RoundedTo (Elem.fromInt i : T) i
  le : ∀ a b : T, Elem.le a b = true ↔ NotNan a ∧ NotNan b ∧ place a ≤ place b
  lt : ∀ a b : T, Elem.lt a b = true ↔ NotNan a ∧ NotNan b ∧ place a < place b
  eq : ∀ a b : T, Elem.eq a b = true ↔ NotNan a ∧ NotNan b ∧ place a = place b
  nan : ∀ a : T, Elem.isNan a = true ↔ up a = .notANumber
  max : up (Extremes.maxValue : T) = .infinity .positive
  min : up (Extremes.minValue : T) = .infinity .negative
  cast : ∀ a : T, As.as_ a = a
  /-- Sum and product do not depend on the order of the operands, and a difference is a sum. -/
  comm : ∀ a b : T, Elem.add a b = Elem.add b a ∧ Elem.mul a b = Elem.mul b a ∧
    ∃ c, Elem.neg b = .ok c ∧ Elem.sub a b = Elem.add a c
  /-- NaN spreads. -/
  spread : ∀ a b : T, up a = .notANumber → (∃ c, Elem.add a b = .ok c ∧ up c = .notANumber) ∧
    (∃ c, Elem.mul a b = .ok c ∧ up c = .notANumber) ∧ (∃ c, Elem.div a b = .ok c ∧ up c = .notANumber) ∧
    (∃ c, Elem.div b a = .ok c ∧ up c = .notANumber) ∧ ∃ c, FloatFns.sqrt a = .ok c ∧ up c = .notANumber
  add_inf : ∀ (a b : T) (s : UnpackedFloat.Sign), up a = .infinity s →
    (IsFinite b ∨ up b = .infinity s → ∃ c, Elem.add a b = .ok c ∧ up c = .infinity s) ∧
    (up b = .infinity (-s) → ∃ c, Elem.add a b = .ok c ∧ up c = .notANumber)
  mul_inf : ∀ (a b : T) (s : UnpackedFloat.Sign), up a = .infinity s →
    (place b > 0 → ∃ c, Elem.mul a b = .ok c ∧ up c = .infinity s) ∧
    (place b < 0 → ∃ c, Elem.mul a b = .ok c ∧ up c = .infinity (-s)) ∧
    (IsFinite b → val b = 0 → ∃ c, Elem.mul a b = .ok c ∧ up c = .notANumber)
  div_inf : ∀ (a b : T) (s : UnpackedFloat.Sign), up a = .infinity s →
    (IsFinite b → val b > 0 → ∃ c, Elem.div a b = .ok c ∧ up c = .infinity s) ∧
    (IsFinite b → val b < 0 → ∃ c, Elem.div a b = .ok c ∧ up c = .infinity (-s)) ∧
    (IsFinite b → ∃ c, Elem.div b a = .ok c ∧ IsFinite c ∧ val c = 0) ∧
    (¬ IsFinite b → ∃ c, Elem.div a b = .ok c ∧ up c = .notANumber)
  div_zero : ∀ (a b : T) (s : UnpackedFloat.Sign), up b = .zero s →
    (place a > 0 → ∃ c, Elem.div a b = .ok c ∧ up c = .infinity s) ∧
    (place a < 0 → ∃ c, Elem.div a b = .ok c ∧ up c = .infinity (-s)) ∧
    (IsFinite a → val a = 0 → ∃ c, Elem.div a b = .ok c ∧ up c = .notANumber)
  sqrt_neg : ∀ a : T, place a < 0 → ∃ c, FloatFns.sqrt a = .ok c ∧ up c = .notANumber
  sqrt_inf : ∀ a : T, up a = .infinity .positive → FloatFns.sqrt a = .ok a

end

end Pbrt.Spec
