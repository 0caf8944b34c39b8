import Verif.Spec.Lexical
import Verif.Model.Parser

/-!
# How deep a text and a scene are nested

What a reader of a scene file can count: comments, exponents in a row, blocks that are opened, and
blocks inside of blocks.
-/

namespace Pbrt.Spec

variable {F : Type}

/-- May the character occur in a number? -/
def numChar (E : Env F) (c : Char) : Bool :=
  E.isNumeric c || c == '.' || c == 'e' || c == '+' || c == '-'

/-- No stretch of the text that consists of characters of numbers has more than `m` letters `e`. -/
def Exponents (E : Env F) (m : Nat) (text : List Char) : Prop :=
  ∀ a w b, text = a ++ w ++ b → (∀ c ∈ w, numChar E c = true) → w.count 'e' ≤ m

/-- Does the token open a block? -/
def opensBlock (t : Token F) : Bool :=
  match t.ty with
  | .Identifier s => s == "AttributeBegin" || s == "TransformBegin" || s == "WorldBegin"
  | _ => false

mutual
/-- The number of directives inside of each other; 1 for a directive that is no block. -/
def height : Directive F → Nat
  | .Attribute _ ds => 1 + heightAll ds
  | .Transform _ ds => 1 + heightAll ds
  | .World _ ds => 1 + heightAll ds
  | _ => 1
/-- The greatest height of a list of directives. -/
def heightAll : List (Directive F) → Nat
  | [] => 0
  | d :: ds => max (height d) (heightAll ds)
end

end Pbrt.Spec
