import Verif.Proof.Reports
import Verif.Props.Faults
import Verif.Props.Parsing

/-!
# Property C72: what the parser reports for every list of tokens that is no scene
-/

namespace Pbrt
open Pbrt.Spec Pbrt.Proof

variable {F : Type} {E : Env F}

/-- C72: the parser fails with a message exactly if the tokens have a fault with that message. -/
theorem C72_error (E : Env F) (toks : List (Token F)) (m : String) :
    parseTokens E toks = .err (.Str m) ↔ SceneFault E toks m :=
  parseTokens_str_iff E toks m

/-- C72: every list of tokens is a scene, the start of one without its end, or has a fault; only one
    of the three, and only one fault. -/
theorem C72_exactly_one (E : Env F) (toks : List (Token F)) :
    ((∃ pre w, Accepts E toks pre w) ∨ Unfinished E toks ∨ ∃ m, SceneFault E toks m) ∧
    (∀ pre w, Accepts E toks pre w → ¬ Unfinished E toks) ∧
    (∀ pre w m, Accepts E toks pre w → ¬ SceneFault E toks m) ∧
    (∀ m, Unfinished E toks → ¬ SceneFault E toks m) ∧
    (∀ m m', SceneFault E toks m → SceneFault E toks m' → m = m') := by
  simp only [← parseTokens_iff, ← parseTokens_eof_iff, ← parseTokens_str_iff]
  refine ⟨?_, ?_, ?_, ?_, ?_⟩
  · generalize h : parseTokens E toks = r
    match r with
    | .ok (pre, w) => exact .inl ⟨pre, w, rfl⟩
    | .err .Eof => exact .inr (.inl rfl)
    | .err (.Str m) => exact .inr (.inr ⟨m, rfl⟩)
    | .panic => exact absurd h (parseTokens_ne toks).2
    | .diverge => exact absurd h (parseTokens_ne toks).1
  · intro pre w h; simp [h]
  · intro pre w m h; simp [h]
  · intro m h; simp [h]
  · intro m m' h; simp [h]

/-- C72: what is reported about a text is the first fault of the text, or, if it has none, the first
    fault of its tokens. -/
theorem C72_text (hE : Sane E) (input : List Char) (m : String) :
    parse E input = .err (.Str m) ↔ ∃ text, Norm input text ∧
      (TextFault E text (.error m) ∨ ∃ toks, Lex E [] text toks ∧ SceneFault E toks m) := by
  constructor
  · intro h
    refine ⟨_, (norm_iff _ _).2 rfl, ?_⟩
    unfold parse at h
    generalize ht : tokenize E input = t at h
    match t with
    | .ok toks => exact .inr ⟨toks, (tokenize_iff hE input toks).1 ht, (C72_error E toks m).1 h⟩
    | .err (.Str m') =>
      have : m' = m := by simpa [ParserError.ofTokenizer] using h
      subst this
      exact .inl ((tokenize_fault_iff hE input (.error m')).1 ht)
    | .err .Eof => simp [ParserError.ofTokenizer] at h
    | .panic => simp at h
    | .diverge => simp at h
  · rintro ⟨text, hn, hf | ⟨toks, hl, hf⟩⟩
    · exact (C71_parse hE input text hn).1 m hf
    · rw [norm_iff] at hn
      subst hn
      rw [parse, tokenize_complete hE input toks hl]
      exact (C72_error E toks m).2 hf

/-- C72: the four outcomes of the parser for a text, by its tokens. -/
theorem C72_outcomes (hE : Sane E) (input text : List Char) (hn : Norm input text)
    (toks : List (Token F)) (hl : Lex E [] text toks) :
    (∀ pre w, parse E input = .ok (pre, w) ↔ Accepts E toks pre w) ∧
    (parse E input = .err .Eof ↔ Unfinished E toks) ∧
    (∀ m, parse E input = .err (.Str m) ↔ SceneFault E toks m) ∧
    parse E input ≠ .panic := by
  rw [norm_iff] at hn
  subst hn
  rw [parse, tokenize_complete hE input toks hl]
  exact ⟨parseTokens_iff E toks, parseTokens_eof_iff E toks, C72_error E toks, (parseTokens_ne toks).2⟩

/-! ### Cases of every kind -/

/-- The message of an error -/
def report (r : Res ParserError (List (PreDirective Rat) × Directive Rat)) : String :=
  match r with
  | .err (.Str m) => m
  | .err .Eof => "Eof"
  | _ => ""

theorem fault_of_report {text m : String} (h0 : m ≠ "") (he : m ≠ "Eof")
    (h : report (parse (exEnv true) text.toList) = m) :
    parse (exEnv true) text.toList = .err (.Str m) := by
  generalize parse (exEnv true) text.toList = r at h
  match r with
  | .err (.Str m') => exact congrArg _ (congrArg _ h)
  | .err .Eof => exact absurd h.symm he
  | .ok _ => exact absurd h.symm h0
  | .panic => exact absurd h.symm h0
  | .diverge => exact absurd h.symm h0

/-- A number where a keyword belongs, before the world and in it. -/
example : parse (exEnv true) "Identity 12".toList =
      .err (.Str "(1, 10) parse_predirectives(): expected predirective but got Int(12)") ∧
    parse (exEnv true) "WorldBegin [".toList = .err (.Str
      "(1, 12) parse_directives(): expected identifier or block close but got LBracket") :=
  ⟨fault_of_report (by decide) (by decide) (by decide +kernel),
   fault_of_report (by decide) (by decide) (by decide +kernel)⟩

/-- Unknown keywords; those of the world are unknown before it, and the other way round. -/
example : parse (exEnv true) "Material \"a\" WorldBegin WorldEnd".toList =
      .err (.Str "(1, 1) parse_predirective(): Unknown predirective: Material") ∧
    parse (exEnv true) "WorldBegin\n AttributeBegin Identity".toList =
      .err (.Str "(2, 17) parse_directive(): unknown identifier Identity") :=
  ⟨fault_of_report (by decide) (by decide) (by decide +kernel),
   fault_of_report (by decide) (by decide) (by decide +kernel)⟩

/-- Too many numbers, none, and the end. -/
example : parse (exEnv true) "Scale 1 2 3 4 Identity".toList =
      .err (.Str "(1, 1) parse_predirective(): Scale expects 3 floats but was given 4") ∧
    parse (exEnv true) "Scale \"a\"".toList = .err (.Str
      "parse_many_floats(): error while processing floats:\n  (1, 7) parse_float(): expected float but got Str(a)") ∧
    parse (exEnv true) "Scale".toList = .err (.Str
      "parse_many_floats(): error while processing floats:\n  parse_float(): EOF while parsing float") :=
  ⟨fault_of_report (by decide) (by decide) (by decide +kernel),
   fault_of_report (by decide) (by decide) (by decide +kernel),
   fault_of_report (by decide) (by decide) (by decide +kernel)⟩

/-- Strings and identifiers that are missing. -/
example : parse (exEnv true) "WorldBegin Texture \"a\" \"b\"".toList =
      .err (.Str "parse_string(): EOF while processing string") ∧
    parse (exEnv true) "WorldBegin Texture \"a\" \"b\" Shape".toList =
      .err (.Str "(1, 28) parse_string(): expected string but got Identifier(Shape)") ∧
    parse (exEnv true) "ActiveTransform".toList =
      .err (.Str "parse_identifier(): EOF while processing identifier") ∧
    parse (exEnv true) "ActiveTransform 1".toList =
      .err (.Str "(1, 17) parse_identifier(): expected identifier but got Int(1)") :=
  ⟨fault_of_report (by decide) (by decide) (by decide +kernel),
   fault_of_report (by decide) (by decide) (by decide +kernel),
   fault_of_report (by decide) (by decide) (by decide +kernel),
   fault_of_report (by decide) (by decide) (by decide +kernel)⟩

/-- A parameter that is cut off is dropped; what stands behind it is reported as no keyword. -/
example : parse (exEnv true) "Camera \"a\" \"float x\" [1 2 \"b\"".toList =
    .err (.Str "(1, 27) parse_predirectives(): expected predirective but got Str(b)") :=
  fault_of_report (by decide) (by decide) (by decide +kernel)

/-- The fault read off the specification alone. -/
example (E : Env F) (p q r : Pos) :
    SceneFault E [kw p "Identity", kw q "Translate", ⟨r, .Int 1⟩, ⟨r, .Int 2⟩, kw r "Identity"]
      (q.fmt ++ " parse_predirective(): " ++ "Translate" ++ " expects " ++ toString 3 ++
        " floats but was given " ++ toString 2) :=
  .later p "Identity" _ _ _ (by decide) (.none _)
    (.args q "Translate" _ _ (by decide)
      (.count "Translate" 3 [⟨r, .Int 1⟩, ⟨r, .Int 2⟩] [kw r "Identity"] (by decide)
        (by intro t ht; simp at ht; rcases ht with rfl | rfl <;> exact .inl ⟨_, rfl⟩) (by simp)
        (by simp) (by intro t ht; simp at ht; subst ht; rintro (⟨_, h⟩ | ⟨_, h⟩) <;> cases h)))

/-- The start of a scene, and a scene followed by rubbish, have no fault. -/
example : report (parse (exEnv true) "WorldBegin AttributeBegin".toList) = "Eof" ∧
    report (parse (exEnv true) "WorldBegin AttributeBegin WorldEnd ] 12".toList) = "" := by
  constructor <;> decide +kernel

end Pbrt
