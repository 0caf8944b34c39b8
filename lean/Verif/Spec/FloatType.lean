import Mathlib.Data.List.Forall2
import Verif.Spec.SceneEquality

/-!
# Two float types

`Float` is `f32` or `f64`, depending on a feature of the crate (`/repo/src/core/mod.rs:31-34`).
What two builds have in common: the characters, the integers, the texts that are numbers, and
operations that take related numbers to related numbers.
-/

namespace Pbrt.Spec

variable {F G : Type}

/-- Two standard libraries that agree on everything but the floats, and whose floats are related
    by `R` wherever they come from the same text or from the same operation. -/
structure Alike (R : F → G → Prop) (E : Env F) (E' : Env G) : Prop where
  numeric : E.isNumeric = E'.isNumeric
  alphabetic : E.isAlphabetic = E'.isAlphabetic
  whitespace : E.isWhitespace = E'.isWhitespace
  intError : E.parseIntError = E'.parseIntError
  quoted : E.dbgStr = E'.dbgStr
  checks : E.overflowChecks = E'.overflowChecks
  literal : ∀ cs, (∃ x y, E.parseFloat cs = .ok x ∧ E'.parseFloat cs = .ok y ∧ R x y) ∨
    ∃ m, E.parseFloat cs = .error m ∧ E'.parseFloat cs = .error m
  times : ∀ a b a' b', R a a' → R b b' → R (E.fmul a b) (E'.fmul a' b')
  power : ∀ a a', R a a' → R (E.powf10 a) (E'.powf10 a')
  ofInt : ∀ i, R (E.ofIsize i) (E'.ofIsize i)

/-- Related numbers are displayed alike. -/
def ShownAlike (R : F → G → Prop) (E : Env F) (E' : Env G) : Prop :=
  ∀ x y, R x y → E.dbgFloat x = E'.dbgFloat y

/-- Two tokens at the same place that differ at most by related numbers -/
inductive AlikeToken (R : F → G → Prop) : Token F → Token G → Prop
  | identifier (p s) : AlikeToken R ⟨p, .Identifier s⟩ ⟨p, .Identifier s⟩
  | int (p i) : AlikeToken R ⟨p, .Int i⟩ ⟨p, .Int i⟩
  | float (p x y) (h : R x y) : AlikeToken R ⟨p, .Float x⟩ ⟨p, .Float y⟩
  | str (p s) : AlikeToken R ⟨p, .Str s⟩ ⟨p, .Str s⟩
  | lbracket (p) : AlikeToken R ⟨p, .LBracket⟩ ⟨p, .LBracket⟩
  | rbracket (p) : AlikeToken R ⟨p, .RBracket⟩ ⟨p, .RBracket⟩

/-- Two scenes that differ at most by related numbers -/
def AlikeScene (R : F → G → Prop) (a : List (PreDirective F) × Directive F)
    (b : List (PreDirective G) × Directive G) : Prop :=
  shapeScene a = shapeScene b ∧ List.Forall₂ R (sceneFloats a) (sceneFloats b) ∧
    scenePaths a = scenePaths b

/-- Two messages of the same kind, which are the same message if `same` -/
inductive AlikeError (same : Prop) : ParserError → ParserError → Prop
  | str (m m') (h : same → m = m') : AlikeError same (.Str m) (.Str m')
  | eof : AlikeError same .Eof .Eof

/-- The same for tokenizing -/
inductive AlikeTokenizerError (same : Prop) : TokenizerError → TokenizerError → Prop
  | str (m m') (h : same → m = m') : AlikeTokenizerError same (.Str m) (.Str m')
  | eof : AlikeTokenizerError same .Eof .Eof

/-- Two outcomes of the same kind, with related values or related errors -/
inductive AlikeOutcome {ε α α' : Type} (K : ε → ε → Prop) (A : α → α' → Prop) :
    Res ε α → Res ε α' → Prop
  | ok (a a') (h : A a a') : AlikeOutcome K A (.ok a) (.ok a')
  | err (e e') (h : K e e') : AlikeOutcome K A (.err e) (.err e')
  | panic : AlikeOutcome K A .panic .panic
  | diverge : AlikeOutcome K A .diverge .diverge

end Pbrt.Spec
