import Verif.Spec.DebugText
import Verif.Spec.Printer

/-!
# Floats as the standard library shows them

What `{:?}` writes for a float (`core::fmt::float`, not part of the repository): the shortest decimal
that reads back as the float.
-/

namespace Pbrt.Spec

open Float.Model (UnpackedFloat Format)

/-- `n / d`, rounded to the format, is `m * 2^e`. -/
def isRead (fmt : Format) (m : ℕ) (e : ℤ) (n d : ℕ) : Bool :=
  match ratio fmt false n d with
  | .finite _ m' e' _ => m' = m ∧ e' = e
  | _ => false

/-- `c * 10^s` reads as `m * 2^e`. -/
def readsAt (fmt : Format) (m : ℕ) (e s : ℤ) (c : ℕ) : Bool :=
  isRead fmt m e (c * 10 ^ s.toNat) (10 ^ (-s).toNat)

/-- Among the multiples of `10^s` just below and just above `m * 2^e`, one that reads as `m * 2^e`; the
    closer one if both do (the upper one of two that are as close) -/
def nearPlace (fmt : Format) (m : ℕ) (e s : ℤ) : Option ℕ :=
  let n := m * 2 ^ e.toNat * 10 ^ (-s).toNat
  let d := 2 ^ (-e).toNat * 10 ^ s.toNat
  let c := n / d
  if readsAt fmt m e s c then
    if readsAt fmt m e s (c + 1) ∧ d ≤ 2 * (n % d) then some (c + 1) else some c
  else if readsAt fmt m e s (c + 1) then some (c + 1) else none

/-- A power of ten above `m * 2^e` -/
def topPlace (m : ℕ) (e : ℤ) : ℕ := (m * 2 ^ e.toNat / 2 ^ (-e).toNat).log2 / 3 + 1

/-- The highest place that will do: the number of places below `topPlace` -/
def placesDown (fmt : Format) (m : ℕ) (e : ℤ) : ℕ :=
  ((List.range (topPlace m e + (-e).toNat + 1)).find? fun (i : ℕ) =>
    (nearPlace fmt m e (topPlace m e - i)).isSome).getD 0

/-- The shortest decimal `c * 10^s` that reads as `m * 2^e`: `c` and `s` -/
def shortest (fmt : Format) (m : ℕ) (e : ℤ) : ℕ × ℤ :=
  ((nearPlace fmt m e (topPlace m e - placesDown fmt m e)).getD 0, topPlace m e - placesDown fmt m e)

/-- The digits of `c * 10^s` before and after the point, at least one of each -/
def plainDigits (c : ℕ) (s : ℤ) : List Char × List Char :=
  if 0 ≤ s then (Nat.toDigits 10 (c * 10 ^ s.toNat), ['0']) else pointDigits (-s).toNat c

/-- `c * 10^s` with an exponent: one digit before the point, which is written if digits follow -/
def scientificText (c : ℕ) (s : ℤ) : List Char :=
  let ds := Nat.toDigits 10 c
  ds.take 1 ++ (if ds.length = 1 then [] else '.' :: ds.drop 1) ++ 'e' :: intDigits (s + (ds.length - 1 : ℕ))

/-- `c * 10^s` is less than `10^-4`, or at least `10^16`. -/
def isExtreme (c : ℕ) (s : ℤ) : Bool :=
  let top := s + (Nat.toDigits 10 c).length
  top < -3 ∨ 16 < top

/-- `c * 10^s`, without an exponent or (with the parameter `true`, and if the number is very small or
    large) with one -/
def decimalText (exponents : Bool) (c : ℕ) (s : ℤ) : List Char :=
  if exponents ∧ isExtreme c s then scientificText c s
  else (plainDigits c s).1 ++ '.' :: (plainDigits c s).2

section
variable {T : Type} [Elem T] [As T T] [FloatFns T] [IEEE T]

/-- `{:?}` of a float. Releases of the library since 2022 write exponents (`true`), earlier ones do not. -/
def rustFloat (exponents : Bool) (f : T) : String :=
  match up f with
  | .infinity .positive => "inf"
  | .infinity .negative => "-inf"
  | .notANumber => "NaN"
  | .zero s => String.ofList ((floatSign s).text ++ ['0', '.', '0'])
  | .finite s m e _ => String.ofList ((floatSign s).text ++
      decimalText exponents (shortest (IEEE.fmt T) m e).1 (shortest (IEEE.fmt T) m e).2)

/-- Strings and paths as `D` and `D'` show them, and floats as above -/
def rustLeaves (T : Type) [Elem T] [As T T] [FloatFns T] [IEEE T] (exponents : Bool) (D D' : DebugTable) : DebugLeaves T :=
  ⟨rustFloat exponents, D.str, D'.str⟩

end

end Pbrt.Spec
