import Verif.Spec.Lexical
import Verif.Spec.Scene
import Verif.Spec.FloatValue

/-!
# The numbers that literals are written for

The value of a decimal literal as a real number, what it means for a float to be nearest to a
number, and the facts about the standard library that the theorems on literals assume: its float
parser and its conversion of integers round correctly. `ieeeEnv` is a library for which they are
proved (`ieeeEnv_rounds`, `ieeeEnv_pow`), for `f32` and `f64`.
-/

namespace Pbrt.Spec

open Float.Model (UnpackedFloat Format)

section
variable {T : Type} [Elem T] [As T T] [FloatFns T] [IEEE T]

/-- No finite float is closer to `x` than the finite float `f`. -/
def Nearest (f : T) (x : ℝ) : Prop := IsFinite f ∧ ∀ y : T, IsFinite y → |val f - x| ≤ |val y - x|

variable (T) in
/-- `x` is not beyond the largest finite floats. -/
def InSpan (x : ℝ) : Prop := ∃ a b : T, IsFinite a ∧ IsFinite b ∧ val a ≤ x ∧ x ≤ val b

/-- The number written as the digits `a`, a point and the digits `b` (`b` may be empty, and then
    the point may be missing). -/
noncomputable def decimal (s : Sign) (a b : List Char) : ℝ := (s.apply (decVal (a ++ b)) : ℤ) / 10 ^ b.length

/-- A literal with a point, or an integer literal -/
def Written (s : Sign) (a b l : List Char) : Prop :=
  (∀ c ∈ a ++ b, IsDigit c) ∧ a ++ b ≠ [] ∧
  (l = s.text ++ (a ++ '.' :: b) ∨ l = s.text ++ a ∧ b = [] ∧ Fits (s.apply (decVal a)))

/-- The literal `l` denotes the float `f` where a float is expected. -/
def ReadAs (E : Env T) (l : List Char) (f : T) : Prop := ∃ p t, NumLit E l t ∧ NumTok E [⟨p, t⟩] f

/-- The standard library rounds correctly: `str::parse::<Float>` of a decimal number returns a
    nearest float, so does the conversion of an `isize`, and `*` is the product of the format. -/
structure Rounds (E : Env T) : Prop where
  point (s : Sign) (a b : List Char) (hd : ∀ c ∈ a ++ b, IsDigit c) (hne : a ++ b ≠ [])
    (hx : InSpan T (decimal s a b)) :
    ∃ f, E.parseFloat (s.kept ++ (a ++ '.' :: b)) = .ok f ∧ Nearest f (decimal s a b)
  whole (s : Sign) (a : List Char) (hd : ∀ c ∈ a, IsDigit c) (hne : a ≠ [])
    (hx : InSpan T (decimal s a [])) :
    ∃ f, E.parseFloat (s.kept ++ a) = .ok f ∧ Nearest f (decimal s a [])
  isize (i : Int) (hi : Fits i) (hx : InSpan T i) : Nearest (E.ofIsize i) i
  mul (x y : T) : Elem.mul x y = .ok (E.fmul x y)

/-- The library function `powf` is within `j` roundings of the powers of ten (correct rounding is
    `j = 1`). -/
def PowWithin (E : Env T) (j : ℕ) : Prop :=
  ∀ k : ℤ, |k| < 2 ^ (IEEE.fmt T).mantissaBits → IsFinite (E.powf10 (E.ofIsize k)) →
    |val (E.powf10 (E.ofIsize k)) - (10 : ℝ) ^ k| ≤
      ((1 + unitRoundoff T) ^ j - 1) * (10 : ℝ) ^ k + tiny T * (1 + unitRoundoff T) ^ j

/-! ### A correctly rounding library -/

/-- The fraction `n / d`, rounded to the format -/
def ratio (fmt : Format) (neg : Bool) (n d : ℕ) : UnpackedFloat :=
  if hn : 0 < n then
    if hd : 0 < d then
      .div fmt (.finite (if neg then .negative else .positive) n 0 hn) (.finite .positive d 0 hd)
    else .notANumber
  else .zero (if neg then .negative else .positive)

variable (T) in
/-- Decimal digits with at most one point, after an optional minus sign -/
def ieeeParse (cs : List Char) : Except String T :=
  let neg : Bool := cs.head? = some '-'
  let body := if neg then cs.tail else cs
  let a := body.takeWhile (· != '.')
  let b := (body.dropWhile (· != '.')).tail
  if (a ++ b).all (fun c => '0' ≤ c ∧ c ≤ '9') ∧ a ++ b ≠ [] then
    .ok (IEEE.pk (ratio (IEEE.fmt T) neg (decVal (a ++ b)) (10 ^ b.length)))
  else .error "invalid float literal"

/-- Ten to an integer power (other arguments are cut to integers) -/
def ieeePow (x : T) : T :=
  match up x with
  | .finite s m e _ =>
    let k := if 0 ≤ e then m * 2 ^ e.toNat else m / 2 ^ (-e).toNat
    match s with
    | .positive => IEEE.pk (ratio (IEEE.fmt T) false (10 ^ k) 1)
    | .negative => IEEE.pk (ratio (IEEE.fmt T) false 1 (10 ^ k))
  | .zero _ => Elem.fromInt 1
  | .infinity .positive => x
  | .infinity .negative => Elem.fromInt 0
  | .notANumber => x

variable (T) in
/-- ASCII classes, IEEE floats -/
def ieeeEnv (checks : Bool) : Env T where
  isNumeric c := '0' ≤ c ∧ c ≤ '9'
  isAlphabetic c := ('a' ≤ c ∧ c ≤ 'z') ∨ ('A' ≤ c ∧ c ≤ 'Z')
  isWhitespace c := c ∈ [' ', '\n', '\t', '\r']
  parseFloat := ieeeParse T
  parseIntError _ := "invalid integer literal"
  fmul a b := IEEE.pk (UnpackedFloat.mul (IEEE.fmt T) (up a) (up b))
  powf10 := ieeePow
  ofIsize := Elem.fromInt
  dbgFloat _ := "float"
  dbgStr s := s
  overflowChecks := checks

end

end Pbrt.Spec
