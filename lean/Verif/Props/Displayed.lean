import Verif.Props.Reports

/-!
# C72: what a user is shown
-/

namespace Pbrt

open Spec Proof

variable {F : Type} {E : Env F}

theorem args_long {p : Pos} {s m : String} {v : List (Token F)} (h : ArgsFault E p s v m) : 3 < m.length := by
  have h1 : 3 < " parse_float(): expected float but got ".length := by decide
  have h2 : 3 < floatsHeader.length := by decide
  have h3 : 3 < " parse_predirective(): ".length := by decide
  have h4 : 3 < " parse_string(): expected string but got ".length := by decide
  have h5 : 3 < " parse_identifier(): expected identifier but got ".length := by decide
  cases h with
  | noNumber => rw [String.length_append]; omega
  | notNumber => rw [String.length_append]; omega
  | count => simp only [String.length_append]; omega
  | noString => decide
  | notString => simp only [String.length_append]; omega
  | noIdentifier => decide
  | notIdentifier => simp only [String.length_append]; omega

theorem body_long {m : String} {v : List (Token F)} (h : BodyFault E v m) : 3 < m.length := by
  have h1 : 3 < " parse_directives(): expected identifier or block close but got ".length := by decide
  have h2 : 3 < " parse_directive(): unknown identifier ".length := by decide
  induction h with
  | notKey => simp only [String.length_append]; omega
  | unknown => simp only [String.length_append]; omega
  | args _ _ _ _ _ h => exact args_long h
  | later _ _ _ _ _ _ _ _ ih => exact ih
  | nested _ _ _ _ _ _ ih => exact ih

theorem scene_long {m : String} {v : List (Token F)} (h : SceneFault E v m) : 3 < m.length := by
  have h1 : 3 < " parse_predirectives(): expected predirective but got ".length := by decide
  have h2 : 3 < " parse_predirective(): Unknown predirective: ".length := by decide
  induction h with
  | notKey => simp only [String.length_append]; omega
  | unknown => simp only [String.length_append]; omega
  | args _ _ _ _ _ h => exact args_long h
  | later _ _ _ _ _ _ _ _ ih => exact ih
  | body _ _ _ h => exact body_long h

/-- **C72**: what is shown (`Display`) for a token list that is no scene is `EOF` if and only if it is the start of a
    scene without its end, and the message about its fault otherwise. -/
theorem C72_displayed (E : Env F) (toks : List (Token F)) (m : String) :
    (∃ e, parseTokens E toks = .err e ∧ e.display = m) ↔
      if m = "EOF" then Unfinished E toks else SceneFault E toks m := by
  have h0 : ∀ v, ¬ SceneFault E v "EOF" := fun v h => absurd (scene_long h) (by decide)
  constructor
  · rintro ⟨e, h, rfl⟩
    cases e with
    | Eof => exact (if_pos (c := ParserError.Eof.display = "EOF") rfl).mpr ((parseTokens_eof_iff E toks).1 h)
    | Str s =>
      have := (C72_error E toks s).1 h
      rw [if_neg]
      · exact this
      · rintro rfl
        exact h0 _ this
  · intro h
    split at h
    · next e => exact ⟨.Eof, (parseTokens_eof_iff E toks).2 h, e.symm⟩
    · exact ⟨.Str m, (C72_error E toks m).2 h, rfl⟩

/-- Both cases occur. -/
example : (∃ e, parseTokens (exEnv true) [kw ⟨1, 1⟩ "WorldBegin"] = .err e ∧ e.display = "EOF") ∧
    ∃ e, parseTokens (exEnv true) [kw ⟨1, 1⟩ "Nothing"] = .err e ∧
      e.display = "(1, 1) parse_predirective(): Unknown predirective: Nothing" :=
  ⟨⟨.Eof, rfl, rfl⟩, ⟨_, rfl, by decide +kernel⟩⟩

end Pbrt
