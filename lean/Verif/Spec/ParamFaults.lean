import Verif.Spec.Reports

/-!
# Why a parameter is malformed

The texts the parser composes when something that should be a parameter is none.
-/

namespace Pbrt.Spec

variable {F : Type}

/-- `ItemFault E name ts m`: the tokens `ts` do not start with an item of the kind `name`, which is
    described by `m`. -/
inductive ItemFault (E : Env F) : String → List (Token F) → String → Prop
  | noInt : ItemFault E "int" [] "parse_int(): EOF while parsing int"
  | int (t w) (h : ¬ ∃ i, t.ty = .Int i) :
      ItemFault E "int" (t :: w) (t.pos.fmt ++ " parse_int(): expected int but got " ++ shown E t.ty)
  | noFloat : ItemFault E "float" [] "parse_float(): EOF while parsing float"
  | float (t w) (h : ¬ IsNumber t) : ItemFault E "float" (t :: w)
      (t.pos.fmt ++ " parse_float(): expected float but got " ++ shown E t.ty)
  | noString : ItemFault E "string" [] "parse_string(): EOF while processing string"
  | string (t w) (h : ¬ IsStr t) : ItemFault E "string" (t :: w)
      (t.pos.fmt ++ " parse_string(): expected string but got " ++ shown E t.ty)
  | noBool : ItemFault E "bool" [] "parse_bool(): EOF while parsing bool"
  | bool (t w) (h : ¬ IsStr t) : ItemFault E "bool" (t :: w)
      (t.pos.fmt ++ " parse_bool(): expected int but got " ++ shown E t.ty)
  | otherWord (p s w) (h : s ∉ ["true", "false"]) : ItemFault E "bool" (⟨p, .Str s⟩ :: w)
      (p.fmt ++ " parse_bool(): expected bool but got " ++ E.dbgStr s)
  | first (name ts m) (hn : name ∈ ["point2f", "vector2f"]) (h : ItemFault E "float" ts m) :
      ItemFault E name ts
        ("parse_2_floats(): error while processing floats:\n  " ++ ("Str(" ++ E.dbgStr m ++ ")"))
  | second (name t ts m) (hn : name ∈ ["point2f", "vector2f"]) (ht : IsNumber t)
      (h : ItemFault E "float" ts m) : ItemFault E name (t :: ts)
        ("parse_2_floats(): error while processing floats:\n  " ++ ("Str(" ++ E.dbgStr m ++ ")"))

/-- The tokens do not start with a bracketed list of items of the kind `name`. -/
inductive ListFault {α : Type} (E : Env F) (name : String) (R : List (Token F) → α → Prop) :
    List (Token F) → String → Prop
  | eof : ListFault E name R [] ("parse_list_" ++ name ++ "(): EOF while processing list")
  | noOpen (t w) (h : t.ty ≠ .LBracket) : ListFault E name R (t :: w)
      (t.pos.fmt ++ " parse_list_" ++ name ++ "(): expected '[' but got " ++ shown E t.ty)
  | noItem (p w m) (h : ItemFault E name w m) : ListFault E name R (⟨p, .LBracket⟩ :: w)
      ("parse_many_" ++ name ++ "s(): error while processing " ++ name ++ "s:\n  " ++ m)
  | unfinished (p a xs) (h : Many R a xs) (hne : xs ≠ []) : ListFault E name R (⟨p, .LBracket⟩ :: a)
      ("parse_list_" ++ name ++ "(): EOF while processing list")
  | noClose (p a xs t w m) (h : Many R a xs) (hne : xs ≠ []) (ht : t.ty ≠ .RBracket)
      (hf : ItemFault E name (t :: w) m) : ListFault E name R (⟨p, .LBracket⟩ :: (a ++ t :: w))
      (t.pos.fmt ++ " parse_list_" ++ name ++ "(): expected ']' but got " ++ shown E t.ty)

/-- Neither an item nor a list -/
inductive OneFault {α : Type} (E : Env F) (name : String) (R : List (Token F) → α → Prop) :
    List (Token F) → String → Prop
  | eof : OneFault E name R [] ("parse_one_or_list_" ++ name ++ "(): EOF while processing list")
  | list (p w m) (h : ListFault E name R (⟨p, .LBracket⟩ :: w) m) :
      OneFault E name R (⟨p, .LBracket⟩ :: w) m
  | one (t w m) (ht : t.ty ≠ .LBracket) (h : ItemFault E name (t :: w) m) :
      OneFault E name R (t :: w) m

/-- Not `n` numbers in brackets -/
inductive FixedFault (E : Env F) (n : Nat) : List (Token F) → String → Prop
  | eof : FixedFault E n [] "parse_list_of_n_float(): EOF while processing list"
  | noOpen (t w) (h : t.ty ≠ .LBracket) : FixedFault E n (t :: w)
      (t.pos.fmt ++ " parse_list_of_n_floats(): expected '[' but got " ++ shown E t.ty)
  | few (p a w m) (ha : ∀ t ∈ a, IsNumber t) (hl : a.length < n) (h : ItemFault E "float" w m) :
      FixedFault E n (⟨p, .LBracket⟩ :: (a ++ w)) ("parse_" ++ toString n ++
        "_floats(): error while processing floats:\n  " ++ ("Str(" ++ E.dbgStr m ++ ")"))
  | unfinished (p a) (ha : ∀ t ∈ a, IsNumber t) (hl : a.length = n) :
      FixedFault E n (⟨p, .LBracket⟩ :: a) "parse_list_of_n_floats(): EOF while processing list"
  | noClose (p a t w) (ha : ∀ t ∈ a, IsNumber t) (hl : a.length = n) (ht : t.ty ≠ .RBracket) :
      FixedFault E n (⟨p, .LBracket⟩ :: (a ++ t :: w)) (t.pos.fmt ++ " parse_list_of_" ++ toString n
        ++ "_floats(): expected ']' but got " ++ shown E t.ty)

/-- Neither a file name nor pairs of numbers in brackets -/
inductive SpectrumFault (E : Env F) : List (Token F) → String → Prop
  | eof : SpectrumFault E [] "parse_spectrum(): EOF while processing spectrum"
  | other (t w) (h : t.ty ≠ .LBracket) (hs : ¬ IsStr t) : SpectrumFault E (t :: w)
      (t.pos.fmt ++ " parse_spectrum(): expected '[' or string but got " ++ shown E t.ty)
  | list (p w m) (h : ListFault E "float" (NumTok E) (⟨p, .LBracket⟩ :: w) m) :
      SpectrumFault E (⟨p, .LBracket⟩ :: w) m
  | odd (p q a w) (ha : ∀ t ∈ a, IsNumber t) (hl : a.length % 2 = 1) :
      SpectrumFault E (⟨p, .LBracket⟩ :: (a ++ ⟨q, .RBracket⟩ :: w))
      (p.fmt ++ " parse_spectrum(): Expected an even number of floats but got " ++ toString a.length)

/-- Not a value of the type -/
inductive ValFault (E : Env F) : String → List (Token F) → String → Prop
  | ints (ts m) (h : OneFault E "int" IntTok ts m) : ValFault E "integer" ts m
  | floats (ts m) (h : OneFault E "float" (NumTok E) ts m) : ValFault E "float" ts m
  | point2s (ts m) (h : ListFault E "point2f" (PointTok E) ts m) : ValFault E "point2" ts m
  | vector2s (ts m) (h : ListFault E "vector2f" (VectorTok E) ts m) : ValFault E "vector2" ts m
  | bools (ts m) (h : OneFault E "bool" BoolTok ts m) : ValFault E "bool" ts m
  | strings (ts m) (h : OneFault E "string" StrTok ts m) : ValFault E "string" ts m
  | rgb (ts m) (h : FixedFault E 3 ts m) : ValFault E "rgb" ts m
  | xyz (ts m) (h : FixedFault E 3 ts m) : ValFault E "xyz" ts m
  | blackbody (ts m) (h : FixedFault E 2 ts m) : ValFault E "blackbody" ts m
  | spectrum (ts m) (h : SpectrumFault E ts m) : ValFault E "spectrum" ts m
  | texture (ts m) (h : ItemFault E "string" ts m) : ValFault E "texture" ts m

/-- Not a parameter -/
inductive ParamFault (E : Env F) : List (Token F) → String → Prop
  | eof : ParamFault E [] "parse_param_list(): EOF while processing param list"
  | noString (t w) (h : ¬ IsStr t) : ParamFault E (t :: w)
      (t.pos.fmt ++ " parse_param_list(): expected param list, got " ++ shown E t.ty)
  | words (p s w) (h : ¬ ∃ ty name, TwoWords E s ty name) : ParamFault E (⟨p, .Str s⟩ :: w)
      (p.fmt ++ " parse_param_list(): expecting a string with two arguments but got " ++ s)
  | type (p s w ty name) (h : TwoWords E s ty name) (ht : ty ∉ paramTypes) :
      ParamFault E (⟨p, .Str s⟩ :: w)
      (p.fmt ++ " parse_param_list(): expecting a type but got " ++ ty)
  | value (p s w ty name m) (h : TwoWords E s ty name) (hv : ValFault E ty w m) :
      ParamFault E (⟨p, .Str s⟩ :: w) m

end Pbrt.Spec
