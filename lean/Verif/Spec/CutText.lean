import Verif.Spec.Reports

/-!
# Texts that are cut off, or to which something is added, in the middle of a token
-/

namespace Pbrt.Spec

variable {F : Type}

/-- The three block ends as strings -/
def closers : List String := ["AttributeEnd", "TransformEnd", "WorldEnd"]

/-- The identifier `s` is the first part of the longer identifier `s'`. -/
def Shorter (s s' : String) : Prop := s.toList <+: s'.toList ∧ s ≠ s'

/-- `Cut t u`: at the same place, `t` is read if the text ends inside of the token `u`. -/
inductive Cut : Token F → Token F → Prop
  | ident (p s s') (h : Shorter s s') : Cut ⟨p, .Identifier s⟩ ⟨p, .Identifier s'⟩
  | number (t u : Token F) (hp : t.pos = u.pos) (ht : IsNumber t) (hu : IsNumber u) : Cut t u

end Pbrt.Spec
