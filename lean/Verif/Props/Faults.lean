import Verif.Proof.Faults
import Verif.Props.Layout

/-!
# Property C71: what the tokenizer reports for every text outside the lexical language
-/

namespace Pbrt
open Pbrt.Spec Pbrt.Proof

variable {F : Type} {E : Env F}

/-- C71: the tokenizer fails with a message exactly if the text has a fault with that message. -/
theorem C71_error (hE : Sane E) (input : List Char) (e : TokenizerError) :
    tokenize E input = .err e ↔
      ∃ text m, Norm input text ∧ TextFault E text (.error m) ∧ e = .Str m := by
  constructor
  · intro h
    cases e with
    | Str m =>
      exact ⟨_, m, (norm_iff _ _).2 rfl, (tokenize_fault_iff hE input (.error m)).1 h, rfl⟩
    | Eof =>
      have := tokenize_out hE input
      rw [h] at this
      exact this.elim
  · rintro ⟨text, m, hn, hf, rfl⟩
    rw [norm_iff] at hn
    subst hn
    exact (tokenize_fault_iff hE input (.error m)).2 hf

/-- C71: it panics exactly if everything before an overflowing literal is in order. -/
theorem C71_panic (hE : Sane E) (input : List Char) :
    tokenize E input = .panic ↔ ∃ text, Norm input text ∧ TextFault E text .overflow := by
  constructor
  · intro h
    exact ⟨_, (norm_iff _ _).2 rfl, (tokenize_fault_iff hE input .overflow).1 h⟩
  · rintro ⟨text, hn, hf⟩
    rw [norm_iff] at hn
    subst hn
    exact (tokenize_fault_iff hE input .overflow).2 hf

/-- C71: every text is a sequence of lexemes or has a fault, not both, and the fault is unique. -/
theorem C71_exactly_one (hE : Sane E) (text : List Char) (hc : NoCrlf text) :
    ((∃ toks, Lex E [] text toks) ∨ ∃ f, TextFault E text f) ∧
    (∀ toks f, Lex E [] text toks → ¬ TextFault E text f) ∧
    (∀ f g, TextFault E text f → TextFault E text g → f = g) := by
  refine ⟨lex_or_fault E text, ?_, ?_⟩
  · intro toks f hl hf
    have h1 := tokenize_complete hE text toks (by rw [replaceCrlf_id hc]; exact hl)
    have h2 := textFault_run hE (input := text) (by rw [replaceCrlf_id hc]; exact hf)
    rw [h1] at h2
    cases f <;> simp [faultRes] at h2
  · intro f g hf hg
    have h1 := textFault_run hE (input := text) (by rw [replaceCrlf_id hc]; exact hf)
    have h2 := textFault_run hE (input := text) (by rw [replaceCrlf_id hc]; exact hg)
    rw [h1] at h2
    cases f <;> cases g <;> simp [faultRes] at h2
    · rw [h2]
    · rfl

/-- C71: the parser hands a fault of the text on unchanged. -/
theorem C71_parse (hE : Sane E) (input text : List Char) (hn : Norm input text) :
    (∀ m, TextFault E text (.error m) → parse E input = .err (.Str m)) ∧
    (TextFault E text .overflow ↔ parse E input = .panic) := by
  constructor
  · intro m h
    rw [parse, (C71_error hE input _).2 ⟨text, m, hn, h, rfl⟩]
    rfl
  · rw [norm_iff] at hn
    subst hn
    constructor
    · intro h
      rw [parse, (tokenize_fault_iff hE input .overflow).2 h]
      rfl
    · intro h
      refine (tokenize_fault_iff hE input .overflow).1 ?_
      show tokenize E input = .panic
      unfold parse at h
      generalize ht : tokenize E input = t at h
      match t with
      | .ok toks => exact absurd h (by simpa using (parseTokens_ne (E := E) toks).2)
      | .err _ => simp at h
      | .panic => rfl
      | .diverge => simp at h

/-- A character that starts nothing, after two lexemes and on the second line. -/
example : TextFault (exEnv true) "ab 12\n &x".toList
    (.error "(2, 2) tokenize_one(): unexpected char '&'") :=
  (tokenize_fault_iff (exEnv_sane true) "ab 12\n &x".toList _).1 (by decide +kernel)

/-- The position of the second point, not of the number. -/
example : TextFault (exEnv true) "1.5.2".toList
    (.error "(1, 4) tokenize_num(): unexpected char '.'") :=
  ⟨[], [], _, rfl, .nil _ _, .number _ _ _ ⟨'1', rfl, by decide, by decide⟩
    (.secondPoint [] .none "1.5".toList ['2'] ⟨['1'], ['5'], rfl, by unfold IntBody; decide,
      by unfold IntBody; decide⟩)⟩

/-- An `e` without an exponent: the place after it is named. -/
example : tokenize (exEnv true) "12e".toList =
    .err (.Str "(1, 4) tokenize_num(): no number") := by decide +kernel

/-- A fault in the exponent hides one in the mantissa. -/
example : tokenize (exEnv true) "99999999999999999999e+ ".toList =
    .err (.Str "(1, 23) tokenize_num(): no number") := by decide +kernel

/-- A string that ends in a backslash, and one that just ends. -/
example : tokenize (exEnv true) "\"a\\".toList =
      .err (.Str "(1, 3) tokenize_str(): EOF while processing escape seq") ∧
    tokenize (exEnv true) "\"a".toList =
      .err (.Str "(1, 3) tokenize_str(): EOF while processing string") := by
  constructor <;> decide +kernel

/-- An overflow counts only if everything before it is in order. -/
example : TextFault (exEnv true) "1e19 $".toList .overflow ∧
    TextFault (exEnv true) "$ 1e19".toList (.error "(1, 1) tokenize_one(): unexpected char '$'") :=
  ⟨(tokenize_fault_iff (exEnv_sane true) "1e19 $".toList _).1 (by decide +kernel),
   (tokenize_fault_iff (exEnv_sane true) "$ 1e19".toList _).1 (by decide +kernel)⟩

end Pbrt
