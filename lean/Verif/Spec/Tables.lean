import Verif.Model.Parser

/-!
# Two versions of the Unicode tables

`char::is_numeric`, `char::is_alphabetic` and `char::is_whitespace` of the standard library follow
the version of Unicode the compiler was made with.
-/

namespace Pbrt.Spec

variable {F : Type}

/-- Two standard libraries with the same arithmetic that classify the characters in `C` alike, and
    read the same numbers from strings of them. -/
structure AgreeOn (C : Char → Prop) (E E' : Env F) : Prop where
  numeric : ∀ c, C c → E.isNumeric c = E'.isNumeric c
  alphabetic : ∀ c, C c → E.isAlphabetic c = E'.isAlphabetic c
  whitespace : ∀ c, C c → E.isWhitespace c = E'.isWhitespace c
  parseFloat : ∀ cs, (∀ c ∈ cs, C c) → E.parseFloat cs = E'.parseFloat cs
  parseIntError : ∀ cs, (∀ c ∈ cs, C c) → E.parseIntError cs = E'.parseIntError cs
  fmul : E.fmul = E'.fmul
  powf10 : E.powf10 = E'.powf10
  ofIsize : E.ofIsize = E'.ofIsize
  dbgFloat : E.dbgFloat = E'.dbgFloat
  overflowChecks : E.overflowChecks = E'.overflowChecks

/-- The ASCII characters -/
def IsAscii (c : Char) : Prop := c.toNat < 128

/-- What every version of Unicode says about the ASCII characters: the digits are the numeric ones,
    the letters are the alphabetic ones, and the white space is the blank and the five characters
    from the tabulator to the carriage return. -/
structure AsciiTables (E : Env F) : Prop where
  numeric : ∀ c, IsAscii c → (E.isNumeric c = true ↔ 48 ≤ c.toNat ∧ c.toNat ≤ 57)
  alphabetic : ∀ c, IsAscii c →
    (E.isAlphabetic c = true ↔ (65 ≤ c.toNat ∧ c.toNat ≤ 90) ∨ (97 ≤ c.toNat ∧ c.toNat ≤ 122))
  whitespace : ∀ c, IsAscii c → (E.isWhitespace c = true ↔ c.toNat = 32 ∨ (9 ≤ c.toNat ∧ c.toNat ≤ 13))

/-- Two standard libraries that differ at most in their tables and in how they quote a string -/
structure SameNumbers (E E' : Env F) : Prop where
  parseFloat : E.parseFloat = E'.parseFloat
  parseIntError : E.parseIntError = E'.parseIntError
  fmul : E.fmul = E'.fmul
  powf10 : E.powf10 = E'.powf10
  ofIsize : E.ofIsize = E'.ofIsize
  dbgFloat : E.dbgFloat = E'.dbgFloat
  overflowChecks : E.overflowChecks = E'.overflowChecks

end Pbrt.Spec
