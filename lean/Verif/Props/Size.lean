import Verif.Proof.Size
import Verif.Props.Parsing
import Verif.Spec.Concrete

/-!
# C90: a scene is no larger than its text
-/

namespace Pbrt
open Pbrt.Spec Pbrt.Proof

variable {F : Type} {E : Env F}

/-- **C90**: the tokens of a text are together no larger than the text. -/
theorem C90_tokens (hE : Sane E) {input : List Char} {toks : List (Token F)}
    (h : tokenize E input = .ok toks) : toksSize toks ≤ input.length :=
  Nat.le_trans (lex_size ((tokenize_iff hE input toks).1 h)) (replaceCrlf_length input)

/-- **C90**: what the parser makes of a token list is smaller than the list, by at least the eight
    characters of `WorldEnd`. -/
theorem C90_scene {toks : List (Token F)} {pre : List (PreDirective F)} {w : Directive F}
    (h : parseTokens E toks = .ok (pre, w)) : sceneSize pre w + 8 ≤ toksSize toks :=
  accepts_size ((parseTokens_iff E toks pre w).1 h)

/-- **C90**: a scene is smaller than its text, by at least the eight characters of `WorldEnd`. -/
theorem C90_bounded (hE : Sane E) {input : List Char} {pre : List (PreDirective F)}
    {w : Directive F} (h : parse E input = .ok (pre, w)) :
    sceneSize pre w + 8 ≤ input.length := by
  obtain ⟨toks, h1, h2⟩ := parse_ok h
  exact Nat.le_trans (C90_scene h2) (C90_tokens hE h1)

/-- The size of what the example environment parses -/
def exSize (text : String) : Option Nat :=
  match parse (exEnv true) text.toList with
  | .ok (pre, w) => some (sceneSize pre w)
  | _ => none

/-- The smallest scene: only one separator more than the bound -/
example : "WorldBegin WorldEnd".toList.length = 19 ∧ exSize "WorldBegin WorldEnd" = some 10 := by
  decide +kernel

/-- Keywords, the nine numbers, the type, and the name and values of the parameter are counted:
    6 + 9, 10, 5 + 3, 3 + 3. -/
example :
    let text := "LookAt 1 2 3 4 5 6 7 8 9 WorldBegin Shape\"s\"\"rgb L\"[1 2 3]WorldEnd"
    text.toList.length = 66 ∧ exSize text = some 39 := by
  decide +kernel

/-- Comments, spaces, escapes, brackets, types and dropped parameters are not part of the scene. -/
example :
    let text := "Film\"a\\\"b\" \"float x\" WorldBegin # comment\n Include\"f\" WorldEnd more"
    text.toList.length = 67 ∧ exSize text = some 29 := by
  decide +kernel

example : Sane (exEnv true) := exEnv_sane true

end Pbrt
