import Verif.Spec.Scene
import Mathlib.Data.List.Forall2

/-!
# Small vocabulary for the parser properties
-/

namespace Pbrt.Spec

variable {F : Type}

/-- The reader has consumed `done` and stands in front of `ts`. -/
def reading (done ts : List (Token F)) : Parser F := ⟨done ++ ts, done.length⟩

/-- The element readers of the parser and the tokens they are meant for. -/
inductive ElemReader (E : Env F) : {T : Type} → PM F T → (List (Token F) → T → Prop) → Prop
  | int : ElemReader E (parseInt E) IntTok
  | float : ElemReader E (parseFloat E) (NumTok E)
  | string : ElemReader E (parseString E) StrTok
  | bool : ElemReader E (parseBool E) BoolTok
  | point : ElemReader E (parsePoint2f E) (PointTok E)
  | vector : ElemReader E (parseVector2f E) (VectorTok E)

/-- The directives that take numbers only, and how many. -/
def xformArity : List (String × Nat) :=
  [("Translate", 3), ("Scale", 3), ("Rotate", 4), ("LookAt", 9), ("Transform", 9),
   ("ConcatTransform", 9), ("TransformTimes", 2)]

/-- The directive a keyword and its numbers denote. -/
def xform (p : Pos) : String → List F → Option (PreDirective F)
  | "Translate", [x, y, z] => some (.Translate p ⟨x, y, z⟩)
  | "Scale", [x, y, z] => some (.Scale p ⟨x, y, z⟩)
  | "Rotate", [t, x, y, z] => some (.Rotate p t ⟨x, y, z⟩)
  | "LookAt", [a, b, c, d, e, f, g, h, i] => some (.LookAt p ⟨a, b, c, d, e, f, g, h, i⟩)
  | "Transform", [a, b, c, d, e, f, g, h, i] => some (.Transform p ⟨a, b, c, d, e, f, g, h, i⟩)
  | "ConcatTransform", [a, b, c, d, e, f, g, h, i] =>
    some (.ConcatTransform p ⟨a, b, c, d, e, f, g, h, i⟩)
  | "TransformTimes", [a, b] => some (.TransformTimes p a b)
  | _, _ => none

/-- The same tokens, except that block ends may be other block ends. -/
def EndSwap (ts us : List (Token F)) : Prop :=
  List.Forall₂ (fun t u => t = u ∨ (IsEnd t ∧ IsEnd u)) ts us

end Pbrt.Spec
