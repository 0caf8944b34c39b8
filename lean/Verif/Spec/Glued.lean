import Verif.Spec.Scene
import Verif.Spec.Lexical

/-!
# Lexemes that need a separator between them
-/

namespace Pbrt.Spec

variable {F : Type}

/-- The character `c`, directly behind a lexeme with the value `v`, belongs to it. -/
def Sticks (E : Env F) (v : TokenType F) (c : Char) : Prop :=
  match v with
  | .Identifier _ => IdChar E c
  | .Int _ | .Float _ => E.isNumeric c = true ∨ c = '.' ∨ c = 'e'
  | _ => False

/-- No keyword starts with `c`. -/
def StartsNoKey (c : Char) : Prop :=
  ∀ k ∈ preKeys ++ dirKeys ++ ["AttributeEnd", "TransformEnd", "WorldEnd"], k.toList.head? ≠ some c

instance (c : Char) : Decidable (StartsNoKey c) := inferInstanceAs (Decidable (∀ _ ∈ _, _))

end Pbrt.Spec
