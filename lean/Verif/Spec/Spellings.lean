import Mathlib.Data.List.Forall2
import Verif.Spec.Reorder

/-!
# Several ways to write the same thing
-/

namespace Pbrt.Spec

variable {F : Type}

/-- `Single E ty t`: the token is one value of a type whose values may stand without brackets. -/
inductive Single (E : Env F) : String → TokenType F → Prop
  | int (i) : Single E "integer" (.Int i)
  | float (x) : Single E "float" (.Float x)
  | number (i) : Single E "float" (.Int i)
  | yes : Single E "bool" (.Str "true")
  | no : Single E "bool" (.Str "false")
  | str (s) : Single E "string" (.Str s)

/-- `OtherWay E u v`: two ways to write one parameter: without and with brackets, or with other
    blanks in the declaration. -/
inductive OtherWay (E : Env F) : List (Token F) → List (Token F) → Prop
  | brackets (p q r s decl ty name t) (hd : TwoWords E decl ty name) (ht : Single E ty t) :
      OtherWay E [⟨p, .Str decl⟩, ⟨q, t⟩] [⟨p, .Str decl⟩, ⟨r, .LBracket⟩, ⟨q, t⟩, ⟨s, .RBracket⟩]
  | blanks (p decl decl' ty name vs v) (hd : TwoWords E decl ty name) (hd' : TwoWords E decl' ty name)
      (hv : ValText E ty vs v) : OtherWay E (⟨p, .Str decl⟩ :: vs) (⟨p, .Str decl'⟩ :: vs)

/-- `IntFor E t u`: the same token, or an integer where the other has the float it is converted to. -/
def IntFor (E : Env F) (t u : Token F) : Prop :=
  t = u ∨ ∃ p i, t = ⟨p, .Int i⟩ ∧ u = ⟨p, .Float (E.ofIsize i)⟩

end Pbrt.Spec
