import Verif.Model.Debug
import Verif.Spec.Reports
import Verif.Spec.Literals
import Verif.Spec.Printer

/-!
# The tokens that error messages show

The messages of the parser that show a token, and what the standard library must grant so that the token
can be read off.
-/

namespace Pbrt.Spec

variable {F : Type}

/-- The text of a string or a float, as shown, says where it ends and which string or float it is. -/
structure Readable (E : Env F) : Prop where
  str : ∀ s t a b : String, E.dbgStr s ++ a = E.dbgStr t ++ b → s = t ∧ a = b
  float : ∀ f g : F, E.dbgFloat f = E.dbgFloat g → f = g
  close : ∀ f : F, ')' ∉ (E.dbgFloat f).toList

/-- What the parser may be looking for when it shows a token instead -/
inductive Wanting where
  | number
  | string
  | identifier
  | keyword
  | predirective
deriving DecidableEq

/-- The tokens it would have taken -/
def Wanting.Takes : Wanting → Token F → Prop
  | .number, t => IsNumber t
  | .string, t => IsStr t
  | _, t => IsId t

/-- Its words -/
def Wanting.words : Wanting → String
  | .number => " parse_float(): expected float but got "
  | .string => " parse_string(): expected string but got "
  | .identifier => " parse_identifier(): expected identifier but got "
  | .keyword => " parse_directives(): expected identifier or block close but got "
  | .predirective => " parse_predirectives(): expected predirective but got "

/-- The message with the position and the token -/
def Wanting.message (w : Wanting) (p : Pos) (x : String) : String :=
  (if w = .number then floatsHeader else "") ++ (p.fmt ++ (w.words ++ x))

/-- `Said E toks m`: what the parser says about a list of tokens, with what is the case then. -/
inductive Said (E : Env F) (toks : List (Token F)) : String → Prop
  /-- a token is shown that stands there and is not of the wanted kind -/
  | got (w : Wanting) (t : Token F) (ht : t ∈ toks) (hw : ¬ w.Takes t) :
      Said E toks (w.message t.pos (shown E t.ty))
  /-- a name is shown that stands there and is none of the directives -/
  | unknown (p : Pos) (s : String) (ht : kw p s ∈ toks) (hs : s ∉ dirKeys) (he : ¬ IsEnd (F := F) (kw p s)) :
      Said E toks (p.fmt ++ (" parse_directive(): unknown identifier " ++ s))
  | unknownPre (p : Pos) (s : String) (ht : kw p s ∈ toks) (hs : s ∉ preKeys) (hw : s ≠ "WorldBegin") :
      Said E toks (p.fmt ++ (" parse_predirective(): Unknown predirective: " ++ s))
  /-- a keyword is named that stands there with the number of numbers behind it -/
  | count (p : Pos) (s : String) (n : Nat) (u a w : List (Token F)) (ht : toks = u ++ kw p s :: (a ++ w))
      (hs : (s, n) ∈ numKeys) (ha : ∀ t ∈ a, IsNumber t) (h0 : a ≠ []) (hn : a.length ≠ n)
      (hw : ∀ t, w.head? = some t → ¬ IsNumber t) :
      Said E toks (p.fmt ++ (" parse_predirective(): " ++ s ++ " expects " ++ toString n ++
        " floats but was given " ++ toString a.length))
  /-- the text ends: behind a keyword that takes numbers, -/
  | noNumber (p : Pos) (s : String) (n : Nat) (u : List (Token F)) (ht : toks = u ++ [kw p s]) (hs : (s, n) ∈ numKeys) :
      Said E toks (floatsHeader ++ "parse_float(): EOF while parsing float")
  /-- in the strings of a directive, -/
  | noString (p : Pos) (s : String) (n : Nat) (u a : List (Token F)) (ht : toks = u ++ kw p s :: a)
      (hs : (s, n) ∈ nameKeys ++ paramKeys) (ha : ∀ t ∈ a, IsStr t) (hn : a.length < n) :
      Said E toks "parse_string(): EOF while processing string"
  /-- behind `ActiveTransform`. -/
  | noIdentifier (p : Pos) (u : List (Token F)) (ht : toks = u ++ [kw p "ActiveTransform"]) :
      Said E toks "parse_identifier(): EOF while processing identifier"

/-- The starts of messages about parameters: of the functions for lists, integers, truth values, spectra and
    parameters -/
def paramHeads : List String :=
  ["parse_param_list()", "parse_list_", "parse_one_or_list_", "parse_int()", "parse_bool()", "parse_spectrum()",
   "parse_2_", "parse_3_"]

/-! ### A library -/

section
open Float.Model (UnpackedFloat)
variable {T : Type} [Elem T] [As T T] [FloatFns T] [IEEE T]

/-- A float with all its digits -/
def digitsFloat (f : T) : String :=
  match up f with
  | .infinity .positive => "inf"
  | .infinity .negative => "-inf"
  | .notANumber => "NaN"
  | _ => String.ofList (floatText f)

/-- `ieeeEnv` with strings shown as the standard library does, and floats with all their digits -/
def showEnv (T : Type) [Elem T] [As T T] [FloatFns T] [IEEE T] (D : DebugTable) (checks : Bool) : Env T :=
  { ieeeEnv T checks with dbgStr := D.str, dbgFloat := digitsFloat }

end

/-- ASCII, with the conventions of the library at the time of the code -/
def asciiTable : DebugTable := ⟨fun c => ' ' ≤ c ∧ c ≤ '~', true, false⟩

end Pbrt.Spec
