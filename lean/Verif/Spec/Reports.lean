import Verif.Spec.Messages

/-!
# What the parser reports about token lists that are no scene

`SceneFault E toks m`: reading `toks` from the left, every keyword with its arguments is as it should
be up to the first one that is not, and `m` is what is said about it.  Together with `Accepts` and
`Unfinished` this covers every list of tokens.
-/

namespace Pbrt.Spec

variable {F : Type}

/-- How a message shows a token -/
def shown (E : Env F) : TokenType F → String
  | .Identifier s => "Identifier(" ++ E.dbgStr s ++ ")"
  | .Int i => "Int(" ++ toString i ++ ")"
  | .Float f => "Float(" ++ E.dbgFloat f ++ ")"
  | .Str s => "Str(" ++ E.dbgStr s ++ ")"
  | .LBracket => "LBracket"
  | .RBracket => "RBracket"

def IsNumber (t : Token F) : Prop := (∃ i, t.ty = .Int i) ∨ ∃ f, t.ty = .Float f

def IsStr (t : Token F) : Prop := ∃ s, t.ty = .Str s

/-- `a` is the longest prefix of `ts` with the property `P`. -/
def Longest (P : List (Token F) → Prop) (ts a : List (Token F)) : Prop :=
  a <+: ts ∧ P a ∧ ∀ b, b <+: ts → P b → b.length ≤ a.length

/-- The keywords that take numbers, with their number -/
def numKeys : List (String × Nat) :=
  [("Translate", 3), ("Scale", 3), ("Rotate", 4), ("LookAt", 9), ("Transform", 9),
   ("ConcatTransform", 9), ("TransformTimes", 2)]

/-- The keywords that take one string and nothing else -/
def nameKeys : List (String × Nat) :=
  [("CoordinateSystem", 1), ("CoordSysTransform", 1), ("Include", 1)]

/-- The keywords that open a block -/
def blockKeys : List String := ["AttributeBegin", "TransformBegin", "WorldBegin"]

/-- `Args E s v w`: the tokens `v` behind the keyword `s` start with its arguments, and `w` is left. -/
inductive Args (E : Env F) : String → List (Token F) → List (Token F) → Prop
  | none (v) : Args E "Identity" v v
  /-- as many numbers as it takes, and no more -/
  | numbers (s n a w) (hs : (s, n) ∈ numKeys) (ha : ∀ t ∈ a, IsNumber t) (hn : a.length = n)
      (hw : ∀ t, w.head? = some t → ¬ IsNumber t) : Args E s (a ++ w) w
  | name (s n t w) (hs : (s, n) ∈ nameKeys) (ht : IsStr t) : Args E s (t :: w) w
  | active (t w) (ht : IsId t) : Args E "ActiveTransform" (t :: w) w
  /-- strings, and then everything that can be taken for parameters, dropped ones included -/
  | params (s n a b w) (hs : (s, n) ∈ paramKeys) (ha : ∀ t ∈ a, IsStr t) (hn : a.length = n)
      (hb : Longest (fun b => ∃ ps, ParamsText E b ps) (b ++ w) b) : Args E s (a ++ (b ++ w)) w

/-- `ArgsFault E p s v m`: behind the keyword `s` at `p` an argument is missing or wrong. -/
inductive ArgsFault (E : Env F) (p : Pos) : String → List (Token F) → String → Prop
  | noNumber (s n) (hs : (s, n) ∈ numKeys) :
      ArgsFault E p s [] (floatsHeader ++ "parse_float(): EOF while parsing float")
  | notNumber (s n t w) (hs : (s, n) ∈ numKeys) (ht : ¬ IsNumber t) :
      ArgsFault E p s (t :: w)
        (floatsHeader ++ (t.pos.fmt ++ " parse_float(): expected float but got " ++ shown E t.ty))
  | count (s n a w) (hs : (s, n) ∈ numKeys) (ha : ∀ t ∈ a, IsNumber t) (h0 : a ≠ [])
      (hn : a.length ≠ n) (hw : ∀ t, w.head? = some t → ¬ IsNumber t) :
      ArgsFault E p s (a ++ w)
        (p.fmt ++ " parse_predirective(): " ++ s ++ " expects " ++ toString n ++
          " floats but was given " ++ toString a.length)
  | noString (s n a) (hs : (s, n) ∈ nameKeys ++ paramKeys) (ha : ∀ t ∈ a, IsStr t)
      (hn : a.length < n) : ArgsFault E p s a "parse_string(): EOF while processing string"
  | notString (s n a t w) (hs : (s, n) ∈ nameKeys ++ paramKeys) (ha : ∀ t ∈ a, IsStr t)
      (hn : a.length < n) (ht : ¬ IsStr t) :
      ArgsFault E p s (a ++ t :: w)
        (t.pos.fmt ++ " parse_string(): expected string but got " ++ shown E t.ty)
  | noIdentifier :
      ArgsFault E p "ActiveTransform" [] "parse_identifier(): EOF while processing identifier"
  | notIdentifier (t w) (ht : ¬ IsId t) :
      ArgsFault E p "ActiveTransform" (t :: w)
        (t.pos.fmt ++ " parse_identifier(): expected identifier but got " ++ shown E t.ty)

/-- Behind the keyword of a block -/
inductive BodyFault (E : Env F) : List (Token F) → String → Prop
  | notKey (t w) (ht : ¬ IsId t) :
      BodyFault E (t :: w) (t.pos.fmt ++
        " parse_directives(): expected identifier or block close but got " ++ shown E t.ty)
  | unknown (p s w) (hs : s ∉ dirKeys) (he : ¬ IsEnd (F := F) (kw p s)) :
      BodyFault E (kw p s :: w) (p.fmt ++ " parse_directive(): unknown identifier " ++ s)
  | args (p s v m) (hs : s ∈ dirKeys) (h : ArgsFault E p s v m) : BodyFault E (kw p s :: v) m
  | later (p s v w m) (hs : s ∈ dirKeys) (h : Args E s v w) (hw : BodyFault E w m) :
      BodyFault E (kw p s :: v) m
  /-- (a nested block that is closed closes this one, too, and then all is well) -/
  | nested (p s v m) (hs : s ∈ blockKeys) (h : BodyFault E v m) : BodyFault E (kw p s :: v) m

inductive SceneFault (E : Env F) : List (Token F) → String → Prop
  | notKey (t w) (ht : ¬ IsId t) :
      SceneFault E (t :: w)
        (t.pos.fmt ++ " parse_predirectives(): expected predirective but got " ++ shown E t.ty)
  | unknown (p s w) (hs : s ∉ preKeys) (hw : s ≠ "WorldBegin") :
      SceneFault E (kw p s :: w) (p.fmt ++ " parse_predirective(): Unknown predirective: " ++ s)
  | args (p s v m) (hs : s ∈ preKeys) (h : ArgsFault E p s v m) : SceneFault E (kw p s :: v) m
  | later (p s v w m) (hs : s ∈ preKeys) (h : Args E s v w) (hw : SceneFault E w m) :
      SceneFault E (kw p s :: v) m
  | body (p v m) (h : BodyFault E v m) : SceneFault E (kw p "WorldBegin" :: v) m

end Pbrt.Spec
