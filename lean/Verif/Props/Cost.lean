import Verif.Proof.CostBound
import Verif.Proof.LexProps
import Verif.Proof.LexText
import Verif.Spec.Concrete

/-!
# C89: the number of reads
-/

namespace Pbrt
open Pbrt.Spec Pbrt.Proof Pbrt.Cost

variable {F : Type} {E : Env F}

/-- **C89**: counting does not change what is returned. -/
theorem C89_same (E : Env F) :
    (∀ input, (Cost.tokenize E input).1 = Pbrt.tokenize E input) ∧
    (∀ toks, (Cost.parseTokens E toks).1 = Pbrt.parseTokens E toks) ∧
    ∀ input, (Cost.parse E input).1 = Pbrt.parse E input := by
  have h1 : ∀ input, (Cost.tokenize E input).1 = Pbrt.tokenize E input :=
    fun input => (sim_tokenizeLoop E _ _ _ ⟨Tokenizer.new input, 0⟩).1
  have h2 : ∀ toks, (Cost.parseTokens E toks).1 = Pbrt.parseTokens E toks :=
    fun toks => (sim_parseTokensFuel E _ ⟨⟨toks, 0⟩, 0⟩).1
  refine ⟨h1, h2, fun input => ?_⟩
  rw [Cost.parse, Pbrt.parse, ← h1]
  rcases Cost.tokenize E input with ⟨r, n⟩
  cases r with
  | ok toks => exact h2 toks
  | err e => rfl
  | panic => rfl
  | diverge => rfl

/-- **C89**: tokenizing reads at most five characters per character of the text, and three more. -/
theorem C89_characters (E : Env F) (input : List Char) :
    (Cost.tokenize E input).2 ≤ 5 * input.length + 3 := by
  have h := at_tokenizeLoop E (lexFuel input) (lexFuel input) [] ⟨Tokenizer.new input, 0⟩
  have hc : Cheap 3 ⟨Tokenizer.new input, 0⟩
      (Cost.tokenizeLoop E (lexFuel input) (lexFuel input) [] ⟨Tokenizer.new input, 0⟩).2 := by
    rw [At] at h
    split at h <;> exact h
  obtain ⟨g1, g2, g3⟩ := hc
  have g1 := g1 (Nat.zero_le _)
  rw [g2] at g1
  have hl : Positioned.len (Tokenizer.new input) = (replaceCrlf input).length := rfl
  have h0 : Positioned.at' (Tokenizer.new input) = 0 := rfl
  have := replaceCrlf_length input
  rw [hl] at g1
  rw [h0] at g3
  show (Cost.tokenizeLoop E (lexFuel input) (lexFuel input) [] ⟨Tokenizer.new input, 0⟩).2.reads ≤ _
  simp only [] at g3
  omega

/-- **C89**: parsing reads at most five tokens per token, and three more. -/
theorem C89_tokens (E : Env F) (toks : List (Token F)) :
    (Cost.parseTokens E toks).2 ≤ 5 * toks.length + 3 ∧
    ∀ r, Pbrt.parseTokens E toks = .ok r → (Cost.parseTokens E toks).2 ≤ 5 * toks.length := by
  have h := at_parseTokensFuel (E := E) (fuel := parseFuel toks) (s := ⟨⟨toks, 0⟩, 0⟩)
  have key : ∀ c : Nat, Cheap c ⟨(⟨toks, 0⟩ : Parser F), 0⟩
      (Cost.parseTokensFuel E (parseFuel toks) ⟨⟨toks, 0⟩, 0⟩).2 →
      (Cost.parseTokens E toks).2 ≤ 5 * toks.length + c := by
    rintro c ⟨g1, g2, g3⟩
    have g1 := g1 (Nat.zero_le _)
    rw [g2] at g1
    have hl : Positioned.len (⟨toks, 0⟩ : Parser F) = toks.length := rfl
    have h0 : Positioned.at' (⟨toks, 0⟩ : Parser F) = 0 := rfl
    rw [hl] at g1
    rw [h0] at g3
    show (Cost.parseTokensFuel E (parseFuel toks) ⟨⟨toks, 0⟩, 0⟩).2.reads ≤ _
    simp only [] at g3
    omega
  constructor
  · apply key
    rw [At] at h
    split at h
    · exact h.mono (by omega)
    · exact h
  · intro r hr
    apply key 0
    rw [← (C89_same E).2.1] at hr
    rw [At] at h
    rw [show (Cost.parseTokensFuel E (parseFuel toks) ⟨⟨toks, 0⟩, 0⟩).1 = .ok r from hr] at h
    exact h

/-- **C89**: tokenizing and parsing a text takes a number of reads of characters and tokens that is
    linear in the length of the text, whether or not the text is a scene. -/
theorem C89_linear (hE : Sane E) (input : List Char) :
    (Cost.parse E input).2 ≤ 10 * input.length + 6 := by
  have h1 := C89_characters E input
  have hs := (C89_same E).1 input
  rw [Cost.parse]
  rcases hr : Cost.tokenize E input with ⟨r, n⟩
  rw [hr] at h1 hs
  cases r with
  | ok toks =>
    have h2 := (C89_tokens E toks).1
    have h3 := lex_length ((tokenize_iff hE input toks).1 hs.symm)
    have := replaceCrlf_length input
    simp only [] at h1 ⊢
    omega
  | err e => simp only [] at h1 ⊢; omega
  | panic => simp only [] at h1 ⊢; omega
  | diverge => simp only [] at h1 ⊢; omega

/-! ### The factor five is reached -/

theorem peek_at {s : Counted (Parser F)} {t} (h : Tok s t) :
    Cost.peek s = (.ok t, ⟨s.state, s.reads + 1⟩) := by
  rcases peek_run s with ⟨t', h'⟩ | h'
  · have := peek_ok h'
    rw [Tok] at h this
    rw [h] at this
    rw [h', Option.some.inj this]
  · simp only [Cost.peek, counting, Pbrt.peek] at h'
    split at h'
    · split at h' <;> simp at h'
    · next he =>
      simp only [Bool.not_eq_true', Bool.not_eq_false, Parser.isEmpty, decide_eq_true_eq] at he
      rw [Tok, List.getElem?_eq_none he] at h
      cases h

theorem pos_at {s : Counted (Parser F)} {t} (h : Tok s t) :
    Cost.pos s = (.ok t.pos, ⟨s.state, s.reads + 1⟩) := by
  have hi : ¬ s.state.index ≥ s.state.tokens.length := by
    intro hi
    rw [Tok, List.getElem?_eq_none hi] at h
    cases h
  simp only [Cost.pos, counting, Pbrt.pos, if_neg hi]
  rw [h]

theorem next_at {s : Counted (Parser F)} {t} (h : Tok s t) :
    Cost.next s = (.ok t, ⟨⟨s.state.tokens, s.state.index + 1⟩, s.reads + 1⟩) := by
  have hi : ¬ s.state.index ≥ s.state.tokens.length := by
    intro hi
    rw [Tok, List.getElem?_eq_none hi] at h
    cases h
  simp only [Cost.next, counting, Pbrt.next, Parser.isEmpty, decide_eq_true_eq, if_neg hi]
  rw [h]

theorem identifier_at {s : Counted (Parser F)} {p i} (h : Tok s ⟨p, .Identifier i⟩) :
    Cost.parseIdentifier E s = (.ok i, ⟨⟨s.state.tokens, s.state.index + 1⟩, s.reads + 2⟩) := by
  rw [Cost.parseIdentifier, M.bind_apply, M.attempt_apply, peek_at h]
  simp only []
  rw [M.bind_apply, M.attempt_apply, next_at (s := ⟨s.state, s.reads + 1⟩) h]
  rfl

/-- `n` blocks inside a world that are never closed but by the end of the world -/
def openBlocks (n : Nat) : List (Token F) :=
  ⟨⟨1, 1⟩, .Identifier "WorldBegin"⟩ ::
    (List.replicate n ⟨⟨1, 1⟩, .Identifier "AttributeBegin"⟩ ++ [⟨⟨1, 1⟩, .Identifier "WorldEnd"⟩])

theorem directives_openBlocks (n : Nat) : ∀ (k r fuel : Nat) (toks : List (Token F)) ds,
    2 * n + 1 ≤ fuel →
    (∀ i, i < n → toks[k + i]? = some ⟨⟨1, 1⟩, .Identifier "AttributeBegin"⟩) →
    toks[k + n]? = some ⟨⟨1, 1⟩, .Identifier "WorldEnd"⟩ →
    ∃ v, Cost.directivesLoop E fuel ds ⟨⟨toks, k⟩, r⟩ = (.ok v, ⟨⟨toks, k + n⟩, r + 5 * n + 1⟩) := by
  induction n with
  | zero =>
    intro k r fuel toks ds hf _ hw
    obtain ⟨fuel, rfl⟩ : ∃ m, fuel = m + 1 := ⟨fuel - 1, by omega⟩
    refine ⟨ds, ?_⟩
    rw [Cost.directivesLoop, M.bind_apply, peek_at (s := ⟨⟨toks, k⟩, r⟩) hw]
    rfl
  | succ n ih =>
    intro k r fuel toks ds hf hb hw
    obtain ⟨fuel, rfl⟩ : ∃ m, fuel = m + 3 := ⟨fuel - 3, by omega⟩
    have h0 : toks[k]? = some ⟨⟨1, 1⟩, .Identifier "AttributeBegin"⟩ := hb 0 (by omega)
    obtain ⟨v, hv⟩ := ih (k + 1) (r + 4) (fuel + 1) toks [] (by omega)
      (fun i hi => by rw [Nat.add_assoc, Nat.add_comm 1]; exact hb (i + 1) (by omega))
      (by rw [Nat.add_assoc, Nat.add_comm 1]; exact hw)
    have hd : Cost.parseDirective E (fuel + 2) ⟨⟨toks, k⟩, r + 1⟩ =
        (.ok (.Attribute ⟨1, 1⟩ v), ⟨⟨toks, k + 1 + n⟩, r + 4 + 5 * n + 1⟩) := by
      rw [Cost.parseDirective, M.bind_apply, pos_at (s := ⟨⟨toks, k⟩, r + 1⟩) h0]
      simp only []
      rw [M.bind_apply, identifier_at (s := ⟨⟨toks, k⟩, r + 1 + 1⟩) h0]
      simp only []
      rw [if_neg (by decide), if_neg (by decide), if_neg (by decide), if_neg (by decide), if_pos True.intro,
        M.bind_apply, hv]
      rfl
    refine ⟨ds ++ [.Attribute ⟨1, 1⟩ v], ?_⟩
    rw [Cost.directivesLoop, M.bind_apply, peek_at (s := ⟨⟨toks, k⟩, r⟩) h0]
    simp only []
    rw [if_neg (by decide), M.bind_apply, hd]
    simp only []
    rw [Cost.directivesLoop, M.bind_apply,
      peek_at (s := ⟨⟨toks, k + 1 + n⟩, r + 4 + 5 * n + 1⟩) (t := ⟨⟨1, 1⟩, .Identifier "WorldEnd"⟩)
        (by rw [Tok, Nat.add_assoc, Nat.add_comm 1]; exact hw)]
    simp only []
    rw [if_pos (by decide), M.pure_apply]
    rw [show k + 1 + n = k + (n + 1) by omega,
      show r + 4 + 5 * n + 1 + 1 = r + 5 * (n + 1) + 1 by omega]

/-- **C89**: for texts of every length there are scenes that are read five times per token, but for the
    last token (whose block is closed by it). -/
theorem C89_reached (E : Env F) (n : Nat) :
    (∃ r, Pbrt.parseTokens E (openBlocks n) = .ok r) ∧
    (openBlocks (F := F) n).length = n + 2 ∧
    (Cost.parseTokens E (openBlocks n)).2 = 5 * (n + 1) := by
  have hl : (openBlocks (F := F) n).length = n + 2 := by simp [openBlocks]
  have h0 : (openBlocks (F := F) n)[0]? = some ⟨⟨1, 1⟩, .Identifier "WorldBegin"⟩ := rfl
  obtain ⟨v, hv⟩ := directives_openBlocks (E := E) n 1 4 (2 * n + 5) (openBlocks n) [] (by omega)
    (fun i hi => by
      rw [openBlocks, Nat.add_comm 1, List.getElem?_cons_succ, List.getElem?_append_left (by simpa using hi)]
      simp [hi])
    (by
      rw [openBlocks, Nat.add_comm 1, List.getElem?_cons_succ, List.getElem?_append_right (by simp)]
      simp)
  have hd : Cost.parseDirective E (2 * n + 6) ⟨⟨openBlocks n, 0⟩, 1⟩ =
      (.ok (.World ⟨1, 1⟩ v), ⟨⟨openBlocks n, 1 + n⟩, 4 + 5 * n + 1⟩) := by
    rw [Cost.parseDirective, M.bind_apply, pos_at (s := ⟨⟨openBlocks n, 0⟩, 1⟩) h0]
    simp only []
    rw [M.bind_apply, identifier_at (s := ⟨⟨openBlocks n, 0⟩, 1 + 1⟩) h0]
    simp only []
    rw [if_neg (by decide), if_neg (by decide), if_neg (by decide), if_neg (by decide),
      if_neg (by decide), if_neg (by decide), if_pos True.intro, M.bind_apply, hv]
    rfl
  have hp : Cost.parseTokensFuel E (parseFuel (openBlocks (F := F) n)) ⟨⟨openBlocks n, 0⟩, 0⟩ =
      (.ok ([], .World ⟨1, 1⟩ v), ⟨⟨openBlocks n, 1 + n⟩, 4 + 5 * n + 1⟩) := by
    rw [parseFuel, hl, show 2 * (n + 2) + 2 = 2 * n + 6 by omega, Cost.parseTokensFuel, M.bind_apply,
      Cost.predirectivesLoop, M.bind_apply, peek_at (s := ⟨⟨openBlocks n, 0⟩, 0⟩) h0]
    simp only []
    rw [if_pos True.intro, M.pure_apply]
    simp only []
    rw [M.bind_apply, hd]
    rfl
  have he : Cost.parseTokens E (openBlocks n) = (.ok ([], .World ⟨1, 1⟩ v), 4 + 5 * n + 1) := by
    unfold Cost.parseTokens
    rw [hp]
  refine ⟨⟨([], .World ⟨1, 1⟩ v), ?_⟩, hl, ?_⟩
  · rw [← (C89_same E).2.1, he]
  · rw [he, Nat.mul_add]
    omega

/-- An ordinary scene of 92 characters and 14 tokens: 201 reads of characters, 40 of tokens -/
example :
    let text := ("Translate 1 2 3 Film \"image\" WorldBegin Shape \"sphere\" \"float radius\" [ 1.5 ] " ++
      "WorldEnd # end").toList
    text.length = 92 ∧ (Cost.tokenize (exEnv true) text).2 = 201 ∧
      (Cost.parse (exEnv true) text).2 = 241 := by
  decide +kernel

/-- A list that is too short, where the parser goes back -/
example :
    let text := "WorldBegin Shape \"s\" \"rgb L\" [ 1 2 ]".toList
    (Cost.tokenize (exEnv true) text).2 = 86 ∧ (Cost.parse (exEnv true) text).2 = 106 := by
  decide +kernel

/-- One-digit numbers take four and a half reads for every character. -/
example : (Cost.tokenize (exEnv true) "1 1 1 1".toList).2 = 32 := by
  decide +kernel

example : Sane (exEnv true) := exEnv_sane true

end Pbrt
