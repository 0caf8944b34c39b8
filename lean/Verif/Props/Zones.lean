import Verif.Proof.Zones
import Verif.Props.Tables
import Verif.Props.Edit

/-!
# C101: comments and strings may contain any character
-/

namespace Pbrt

open Spec Proof Proof.FloatType

section
variable {F : Type} {E E' : Env F}

/-- **C101**: two versions of the tables that agree on the characters outside of strings and comments
    give the same tokens, or the same message: which characters stand in comments and strings, and
    what the tables say about them, does not matter. -/
theorem C101_tokens (hd : Delimiters E) {text : List Char} (h : AgreeOn (fun c => c ∈ bareText text) E E') :
    tokenize E text = tokenize E' text :=
  (Zoned.tokens_agree (W := fun _ => True) hd h (fun _ h => h) trivial fun _ _ => trivial).1

/-- **C101**: they read the same scene, or both reject the text, with the same message if they quote
    strings alike, or both panic, as soon as they find the same white space between quotes (a
    parameter is declared by a type and a name with white space between them). -/
theorem C101_parse (hd : Delimiters E) {text : List Char} (h : AgreeOn (fun c => c ∈ bareText text) E E')
    (hw : ∀ c, c ∈ quotedText text ∨ c = '\n' → E.isWhitespace c = E'.isWhitespace c) :
    AlikeOutcome (AlikeError (E.dbgStr = E'.dbgStr)) Eq (parse E text) (parse E' text) := by
  obtain ⟨h1, h2⟩ := Zoned.tokens_agree (W := fun c => c ∈ quotedText text ∨ c = '\n') hd h (fun _ h => h)
    (.inr rfl) fun _ h => .inl h
  rw [parse, parse, ← h1]
  cases ht : tokenize E text with
  | err e =>
    refine .err _ _ ?_
    cases e with
    | Str m => exact .str _ _ fun _ => rfl
    | Eof => exact .eof
  | panic => exact .panic
  | diverge => exact .diverge
  | ok ts =>
    have hts : List.Forall₂ (TokenOn (fun c => c ∈ quotedText text ∨ c = '\n') Eq) ts ts := by
      have := h2 ts ht
      clear ht
      induction ts with
      | nil => exact .nil
      | cons t ts ih =>
        refine .cons ?_ (ih fun t' ht' => this t' (List.mem_cons_of_mem _ ht'))
        have ht := this t List.mem_cons_self
        obtain ⟨p, ty⟩ := t
        cases ty with
        | Identifier s => exact .identifier p s
        | Int i => exact .int p i
        | Float x => exact .float p x x rfl
        | Str s => exact .str p s (ht s rfl)
        | LBracket => exact .lbracket p
        | RBracket => exact .rbracket p
    have := rel_parseTokens (R := Eq) (q := E.dbgStr = E'.dbgStr) (E := E) (E' := E') ⟨hw, fun i => by rw [h.ofIsize]⟩
      (fun hq => ⟨fun _ _ e => by rw [e, h.dbgFloat], hq⟩) hts
    show AlikeOutcome _ _ (parseTokens E ts) (parseTokens E' ts)
    generalize parseTokens E ts = x at this
    generalize parseTokens E' ts = y at this
    cases this with
    | ok a a' h =>
      obtain ⟨h1, h2, h3⟩ := h
      rw [List.forall₂_eq_eq_eq] at h2
      let _ : Elem F := ⟨fun a _ => .ok a, fun a _ => .ok a, fun a _ => .ok a, fun a _ => .ok a, fun a => .ok a,
        fun a => .ok a, fun _ _ => true, fun _ _ => true, fun _ _ => true, fun _ => true, E.ofIsize⟩
      exact .ok _ _ (C88_complete a a' h1 h2 h3)
    | err e e' h => exact .err _ _ h
    | panic => exact .panic
    | diverge => exact .diverge

/-- **C101**: if strings are quoted alike, nothing at all can be told apart. -/
theorem C101_same (hd : Delimiters E) {text : List Char} (h : AgreeOn (fun c => c ∈ bareText text) E E')
    (hw : ∀ c, c ∈ quotedText text ∨ c = '\n' → E.isWhitespace c = E'.isWhitespace c)
    (hq : E.dbgStr = E'.dbgStr) : parse E text = parse E' text := by
  have := C101_parse hd h hw
  generalize parse E text = x at this
  generalize parse E' text = y at this
  cases this with
  | ok a a' h => rw [h]
  | err e e' h =>
    cases h with
    | str m m' h => rw [h hq]
    | eof => rfl
  | panic => rfl
  | diverge => rfl

theorem ascii_delimiters (hE : AsciiTables E) : Delimiters E := by
  have h1 : IsAscii '#' := by show _ < _; decide
  have h2 : IsAscii '"' := by show _ < _; decide
  have n1 := hE.numeric _ h1
  have n2 := hE.numeric _ h2
  have a1 := hE.alphabetic _ h1
  have a2 := hE.alphabetic _ h2
  have w1 := hE.whitespace _ h1
  have w2 := hE.whitespace _ h2
  simp only [show ('#').toNat = 35 from rfl, show ('"').toNat = 34 from rfl] at n1 n2 a1 a2 w1 w2
  refine ⟨⟨?_, ?_⟩, ⟨?_, ?_⟩, ⟨?_, ?_⟩⟩ <;> rw [← Bool.not_eq_true]
  · rw [n1]; omega
  · rw [n2]; omega
  · rw [a1]; omega
  · rw [a2]; omega
  · rw [w1]; omega
  · rw [w2]; omega

/-- **C101**, for texts that are ASCII but for their comments and strings: the tokens are the same for
    all versions of Unicode, and so is the scene if the versions agree about what is white space. -/
theorem C101_ascii (hE : AsciiTables E) (hE' : AsciiTables E') (hn : SameNumbers E E') {text : List Char}
    (ht : ∀ c ∈ bareText text, IsAscii c) :
    tokenize E text = tokenize E' text ∧
    (E.isWhitespace = E'.isWhitespace → ∀ s, parse E text = .ok s ↔ parse E' text = .ok s) ∧
    (E.isWhitespace = E'.isWhitespace → E.dbgStr = E'.dbgStr → parse E text = parse E' text) := by
  have h : AgreeOn (fun c => c ∈ bareText text) E E' := {
    numeric := fun c h => Bool.eq_iff_iff.2 ((hE.numeric c (ht c h)).trans (hE'.numeric c (ht c h)).symm)
    alphabetic := fun c h =>
      Bool.eq_iff_iff.2 ((hE.alphabetic c (ht c h)).trans (hE'.alphabetic c (ht c h)).symm)
    whitespace := fun c h =>
      Bool.eq_iff_iff.2 ((hE.whitespace c (ht c h)).trans (hE'.whitespace c (ht c h)).symm)
    parseFloat := fun cs _ => by rw [hn.parseFloat]
    parseIntError := fun cs _ => by rw [hn.parseIntError]
    fmul := hn.fmul
    powf10 := hn.powf10
    ofIsize := hn.ofIsize
    dbgFloat := hn.dbgFloat
    overflowChecks := hn.overflowChecks }
  have hd := ascii_delimiters hE
  refine ⟨C101_tokens hd h, fun hw s => ?_, fun hw => C101_same hd h fun c _ => by rw [hw]⟩
  have := C101_parse hd h fun c _ => by rw [hw]
  generalize parse E text = x at this
  generalize parse E' text = y at this
  cases this with
  | ok a a' h => rw [h]
  | err e e' h => simp
  | panic => simp
  | diverge => simp
end

/-- **C101** (what the places mean): without `#` and quotes, every character stands outside of strings
    and comments. -/
theorem C101_bare {text : List Char} (h : ∀ c ∈ text, c ≠ '#' ∧ c ≠ '"') : bareText text = text ∧ quotedText text = [] := by
  rw [bareText, quotedText]
  induction text with
  | nil => exact ⟨rfl, rfl⟩
  | cons c cs ih =>
    obtain ⟨h1, h2⟩ := h c List.mem_cons_self
    obtain ⟨i1, i2⟩ := ih fun d hd => h d (List.mem_cons_of_mem _ hd)
    rw [zones, show Zone.after .code c = .code by simp [Zone.after, h1, h2]]
    exact ⟨by simpa using i1, by simpa using i2⟩

/-- ASCII tables in which the Mongolian vowel separator is white space, as it was before Unicode 6.3 -/
def mongolianEnv : Env Rat :=
  { asciiEnv with isWhitespace := fun c => asciiEnv.isWhitespace c ∨ c = '᠎' }

/-- **C101** (the condition on white space is needed): the tokens are the same, the scenes are not. -/
theorem C101_white_refuted :
    let text := "WorldBegin Shape \"s\" \"float᠎r\" 1 WorldEnd".toList
    tokenize asciiEnv text = tokenize mongolianEnv text ∧
    outcomeKind (parse asciiEnv text) = 1 ∧ outcomeKind (parse mongolianEnv text) = 0 := by
  decide +kernel

/-- A scene with a file name, a comment and a quoted quote in other alphabets -/
def greekScene : List Char :=
  "# αρχή \"٣\n Film \"é\\\"٣\" # ٣ τέλος\nWorldBegin Shape \"s\" \"string file\" \"٣.obj\" WorldEnd".toList

/-- **C101**, a case: the Arabic digits do not matter there. -/
example : parse asciiEnv greekScene = parse asciiEnv' greekScene :=
  (C101_ascii asciiEnv_tables asciiEnv'_tables ⟨rfl, rfl, rfl, rfl, rfl, rfl, rfl⟩
    (by unfold greekScene IsAscii; decide +kernel)).2.2 rfl rfl

example : bareText greekScene =
      "# Film \" #WorldBegin Shape \" \" \" WorldEnd".toList ∧
    quotedText greekScene = "é\\\"٣\"s\"string file\"٣.obj\"".toList ∧
    outcomeKind (parse asciiEnv greekScene) = 0 := by
  decide +kernel

end Pbrt
