import Verif.Props.Parsing

/-!
# Property C63: parser errors say where
-/

namespace Pbrt
open Pbrt.Spec Pbrt.Proof

variable {F : Type} {E : Env F}

/-- C63: an error message names the position of a token, and all tokens before that token are the
    start of some scene; or it says that the text ended too early, and then the whole text is the
    start of some scene. -/
theorem C63_first_error (toks : List (Token F)) (m : String)
    (h : parseTokens E toks = .err (.Str m)) : Blames (Viable E) toks m := by
  have := parseTokensFuel_out E toks _ (Nat.le_refl _)
  rw [parseTokens] at h
  rw [h] at this
  exact this

/-- C63: `Eof` is only reported for the start of some scene, which any block end, or a world,
    completes. -/
theorem C63_eof (toks : List (Token F)) (h : parseTokens E toks = .err .Eof) (p q : Pos) :
    (∃ pre, Accepts E (toks ++ [kw p "WorldBegin", kw q "WorldEnd"]) pre (.World p [])) ∨
    (∃ pre w, Accepts E (toks ++ [kw q "WorldEnd"]) pre w) := by
  rw [parseTokens_eof_iff] at h
  rcases h with ⟨pre, hm⟩ | ⟨a, r, body, pre, ds, rfl, hm, hd⟩
  · exact .inl ⟨pre, toks, p, [], _, [], [], by simp, hm, .nil, ⟨q, "WorldEnd", rfl, by simp⟩, rfl⟩
  · exact .inr ⟨pre, _, a, r, body, _, [], ds, by simp, hm, hd, ⟨q, "WorldEnd", rfl, by simp⟩, rfl⟩

/-- C63: an error of `parse` comes from the tokenizer (C13 says what it names) or is one of the
    above for the tokens of the text. -/
theorem C63_text (input : List Char) (e : ParserError) (h : parse E input = .err e) :
    (∃ e', tokenize E input = .err e' ∧ e = .ofTokenizer e') ∨
    (∃ toks, tokenize E input = .ok toks ∧
      ((e = .Eof ∧ Viable E toks) ∨ ∃ m, e = .Str m ∧ Blames (Viable E) toks m)) := by
  unfold parse at h
  generalize ht : tokenize E input = t at h
  match t with
  | .ok toks =>
    refine .inr ⟨toks, rfl, ?_⟩
    have h' : parseTokens E toks = .err e := h
    match e with
    | .Eof =>
      rcases C63_eof toks h' ⟨0, 0⟩ ⟨0, 0⟩ with ⟨pre, ha⟩ | ⟨pre, w, ha⟩
      · exact .inl ⟨rfl, _, pre, _, ha⟩
      · exact .inl ⟨rfl, _, pre, w, ha⟩
    | .Str m => exact .inr ⟨m, rfl, C63_first_error toks m h'⟩
  | .err e' =>
    have h' : Res.err (ParserError.ofTokenizer e') = Res.err e := h
    injection h' with h'
    exact .inl ⟨e', rfl, h'.symm⟩
  | .panic => simp at h
  | .diverge => simp at h

/-- The bad token is named, and what stands before it could have been continued. -/
example : (match parseTokens (exEnv true) [kw ⟨1, 1⟩ "Include", ⟨⟨1, 9⟩, .Int 5⟩] with
    | .err (.Str m) => m | _ => "") = "(1, 9) parse_string(): expected string but got Int(5)" := by
  decide +kernel

/-- Too few numbers: the keyword is named. -/
example : (match parseTokens (exEnv true) [kw ⟨3, 2⟩ "Scale", ⟨⟨3, 8⟩, .Int 5⟩, ⟨⟨3, 9⟩, .Int 5⟩,
      kw ⟨4, 1⟩ "WorldBegin"] with
    | .err (.Str m) => m | _ => "") =
      "(3, 2) parse_predirective(): Scale expects 3 floats but was given 2" := by
  decide +kernel

/-- The text ended too early. -/
example : (match parseTokens (exEnv true) [kw ⟨1, 1⟩ "Scale"] with
    | .err (.Str m) => m | _ => "") ∈ eofMessages := by
  decide +kernel

/-- The named token itself need not be wrong: in a list of an `rgb` parameter with only two
    numbers, the first number is named, and is not what a directive starts with. -/
example : (match parseTokens (exEnv true) [kw ⟨1, 1⟩ "Camera", ⟨⟨1, 8⟩, .Str "a"⟩,
      ⟨⟨1, 12⟩, .Str "rgb c"⟩, ⟨⟨1, 20⟩, .LBracket⟩, ⟨⟨1, 21⟩, .Int 5⟩, ⟨⟨1, 23⟩, .Int 6⟩,
      ⟨⟨1, 24⟩, .RBracket⟩, kw ⟨2, 1⟩ "WorldBegin"] with
    | .err (.Str m) => m | _ => "") =
      "(1, 21) parse_predirectives(): expected predirective but got Int(5)" := by
  decide +kernel

end Pbrt
