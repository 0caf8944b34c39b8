import Verif.Spec.Scene

/-!
# What an error message of the parser should say

A message names the position of the token at which the parser gave up.  A good parser gives up at
the first token that is wrong: the tokens before it are the start of some scene.
-/

namespace Pbrt.Spec

variable {F : Type}

/-- The first line of the message of `parse_many` for numbers. -/
def floatsHeader : String := "parse_many_floats(): error while processing floats:\n  "

/-- The message starts with the position `p`, possibly after the line above. -/
def Names (m : String) (p : Pos) : Prop :=
  ∃ txt, m = p.fmt ++ txt ∨ m = floatsHeader ++ (p.fmt ++ txt)

/-- The messages that say that the text ended too early. -/
def eofMessages : List String :=
  ["parse_string(): EOF while processing string",
   "parse_identifier(): EOF while processing identifier",
   floatsHeader ++ "parse_float(): EOF while parsing float"]

/-- `Blames ok ts m`: the message names a token of `ts` such that the tokens before it are `ok`, or
    it says that the text ended too early, and all of `ts` is `ok`. -/
inductive Blames (ok : List (Token F) → Prop) (ts : List (Token F)) (m : String) : Prop
  | token (done : List (Token F)) (t : Token F) (rest : List (Token F))
      (h : ts = done ++ t :: rest) (hn : Names m t.pos) (hok : ok done)
  | eof (hm : m ∈ eofMessages) (hok : ok ts)

/-- The tokens are the start of some scene. -/
def Viable (E : Env F) (toks : List (Token F)) : Prop :=
  ∃ more pre w, Accepts E (toks ++ more) pre w

end Pbrt.Spec
