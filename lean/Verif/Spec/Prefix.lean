import Verif.Spec.Faults
import Verif.Spec.Messages

/-!
# Texts that break off inside a string
-/

namespace Pbrt.Spec

variable {F : Type}

/-- The text consists of lexemes and separators up to a quote, and the string behind the quote is not closed
    (its last character may be a lone backslash). -/
def OpenString (E : Env F) (text : List Char) : Prop :=
  ∃ a toks body s tail, text = a ++ ('"' :: body ++ tail) ∧ LexTo E [] a toks ('"' :: body ++ tail) ∧
    Unesc body s ∧ (tail = [] ∨ tail = ['\\'])

end Pbrt.Spec
