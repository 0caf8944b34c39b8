import Verif.Spec.Tables
import Verif.Proof.FloatTypeParser
import Verif.Props.SceneEquality
import Verif.Spec.Concrete
import Verif.Spec.Literals

/-!
# C97: the Unicode tables matter only for the characters of the text
-/

namespace Pbrt

open Spec Proof Proof.FloatType

section
variable {F : Type} {E E' : Env F}

theorem agree_on {C : Char → Prop} (hC : C '\n') (h : AgreeOn C E E') : AlikeOn C Eq E E' where
  line := hC
  numeric := h.numeric
  alphabetic := h.alphabetic
  whitespace := h.whitespace
  intError := h.parseIntError
  checks := h.overflowChecks
  literal cs hc := by
    rw [h.parseFloat cs hc]
    cases E'.parseFloat cs with
    | ok x => exact .inl ⟨x, x, rfl, rfl, rfl⟩
    | error m => exact .inr ⟨m, rfl, rfl⟩
  times _ _ _ _ h1 h2 := by rw [h1, h2, h.fmul]
  power _ _ h1 := by rw [h1, h.powf10]
  ofInt _ := by rw [h.ofIsize]

/-- Tokens related by equality of floats are equal. -/
theorem token_eq {t t' : Token F} (h : AlikeToken Eq t t') : t = t' := by
  cases h with
  | float p x y h => rw [h]
  | _ => rfl

/-- **C97**: two versions of the tables that agree on the characters of the text and on the line
    break (which `\n` in a string stands for) give the same tokens, or the same message. -/
theorem C97_tokens {text : List Char} (h : AgreeOn (fun c => c ∈ text ∨ c = '\n') E E') :
    tokenize E text = tokenize E' text := by
  have := rel_tokenize (agree_on (.inr rfl) h) True (text := text) fun _ => .inl
  generalize tokenize E text = x at this
  generalize tokenize E' text = y at this
  cases this with
  | ok a a' h =>
    have : List.Forall₂ Eq a a' := h.imp fun _ _ h => token_eq h.alike
    rw [List.forall₂_eq_eq_eq] at this
    rw [this]
  | err e e' h =>
    cases h with
    | str m m' h => rw [h trivial]
    | eof => rfl
  | panic => rfl
  | diverge => rfl

/-- **C97**: they read the same scene, or both reject the text, with the same message if they quote
    strings alike, or both panic. -/
theorem C97_parse {text : List Char} (h : AgreeOn (fun c => c ∈ text ∨ c = '\n') E E') :
    AlikeOutcome (AlikeError (E.dbgStr = E'.dbgStr)) Eq (parse E text) (parse E' text) := by
  have := rel_parse (agree_on (.inr rfl) h) (text := text) fun _ => .inl
  generalize parse E text = x at this
  generalize parse E' text = y at this
  cases this with
  | ok a a' h =>
    obtain ⟨h1, h2, h3⟩ := h
    rw [List.forall₂_eq_eq_eq] at h2
    let _ : Elem F := ⟨fun a _ => .ok a, fun a _ => .ok a, fun a _ => .ok a, fun a _ => .ok a, fun a => .ok a,
      fun a => .ok a, fun _ _ => true, fun _ _ => true, fun _ _ => true, fun _ => true, E.ofIsize⟩
    exact .ok _ _ (C88_complete a a' h1 h2 h3)
  | err e e' h' =>
    refine .err _ _ ?_
    cases h' with
    | str m m' h' => exact .str _ _ fun hh => h' ⟨fun _ _ e => by rw [e, h.dbgFloat], hh⟩
    | eof => exact .eof
  | panic => exact .panic
  | diverge => exact .diverge

/-- **C97**: if strings are quoted alike, nothing at all can be told apart. -/
theorem C97_same {text : List Char} (h : AgreeOn (fun c => c ∈ text ∨ c = '\n') E E')
    (hq : E.dbgStr = E'.dbgStr) : parse E text = parse E' text := by
  have := C97_parse h
  generalize parse E text = x at this
  generalize parse E' text = y at this
  cases this with
  | ok a a' h => rw [h]
  | err e e' h =>
    cases h with
    | str m m' h => rw [h hq]
    | eof => rfl
  | panic => rfl
  | diverge => rfl

/-- **C97**, for ASCII: the tokens and the scene of an ASCII text are the same for all versions of
    Unicode. -/
theorem C97_ascii (hE : AsciiTables E) (hE' : AsciiTables E') (hn : SameNumbers E E') {text : List Char}
    (ht : ∀ c ∈ text, IsAscii c) :
    tokenize E text = tokenize E' text ∧
    (∀ s, parse E text = .ok s ↔ parse E' text = .ok s) ∧
    (E.dbgStr = E'.dbgStr → parse E text = parse E' text) := by
  have hc : ∀ c, c ∈ text ∨ c = '\n' → IsAscii c := by
    rintro c (h | rfl)
    · exact ht c h
    · show _ < _; decide
  have h : AgreeOn (fun c => c ∈ text ∨ c = '\n') E E' := {
    numeric := fun c h => Bool.eq_iff_iff.2 ((hE.numeric c (hc c h)).trans (hE'.numeric c (hc c h)).symm)
    alphabetic := fun c h =>
      Bool.eq_iff_iff.2 ((hE.alphabetic c (hc c h)).trans (hE'.alphabetic c (hc c h)).symm)
    whitespace := fun c h =>
      Bool.eq_iff_iff.2 ((hE.whitespace c (hc c h)).trans (hE'.whitespace c (hc c h)).symm)
    parseFloat := fun cs _ => by rw [hn.parseFloat]
    parseIntError := fun cs _ => by rw [hn.parseIntError]
    fmul := hn.fmul
    powf10 := hn.powf10
    ofIsize := hn.ofIsize
    dbgFloat := hn.dbgFloat
    overflowChecks := hn.overflowChecks }
  refine ⟨C97_tokens h, fun s => ?_, C97_same h⟩
  have := C97_parse h
  generalize parse E text = x at this
  generalize parse E' text = y at this
  cases this with
  | ok a a' h => rw [h]
  | err e e' h => simp
  | panic => simp
  | diverge => simp

/-- The ASCII tables, for every other environment -/
def withAscii (E : Env F) : Env F where
  __ := E
  isNumeric c := '0' ≤ c ∧ c ≤ '9'
  isAlphabetic c := ('a' ≤ c ∧ c ≤ 'z') ∨ ('A' ≤ c ∧ c ≤ 'Z')
  isWhitespace c := c ∈ [' ', '\n', '\t', '\r']

theorem char_le_iff {a b : Char} : a ≤ b ↔ a.toNat ≤ b.toNat := by
  rw [Char.le_def, UInt32.le_iff_toNat_le]; rfl

theorem char_eq_iff {a b : Char} : a = b ↔ a.toNat = b.toNat :=
  ⟨fun h => by rw [h], fun h => Char.ext (UInt32.toNat_inj.1 h)⟩

/-- **C97**, for the examples of this development: they are computed with tables that only know
    ASCII.  Whatever the tables of the compiler, the result is the same on ASCII texts without the
    two rare white space characters line tabulation and form feed. -/
theorem C97_examples (hE : AsciiTables E) {text : List Char}
    (ht : ∀ c ∈ text, IsAscii c ∧ c.toNat ≠ 11 ∧ c.toNat ≠ 12) :
    tokenize E text = tokenize (withAscii E) text ∧ parse E text = parse (withAscii E) text := by
  have hc : ∀ c, c ∈ text ∨ c = '\n' → IsAscii c ∧ c.toNat ≠ 11 ∧ c.toNat ≠ 12 := by
    rintro c (h | rfl)
    · exact ht c h
    · exact ⟨by show _ < _; decide, by decide, by decide⟩
  have h : AgreeOn (fun c => c ∈ text ∨ c = '\n') E (withAscii E) := {
    numeric := fun c h => Bool.eq_iff_iff.2 ((hE.numeric c (hc c h).1).trans (by
      simp only [withAscii, decide_eq_true_eq, char_le_iff]; rfl))
    alphabetic := fun c h => Bool.eq_iff_iff.2 ((hE.alphabetic c (hc c h).1).trans (by
      simp only [withAscii, decide_eq_true_eq, char_le_iff]; exact or_comm))
    whitespace := fun c h => Bool.eq_iff_iff.2 ((hE.whitespace c (hc c h).1).trans (by
      have := hc c h
      simp only [withAscii, decide_eq_true_eq, List.mem_cons, List.not_mem_nil, or_false, char_eq_iff]
      simp only [show (' ').toNat = 32 from rfl, show ('\n').toNat = 10 from rfl,
        show ('\t').toNat = 9 from rfl, show ('\r').toNat = 13 from rfl]
      omega))
    parseFloat := fun cs _ => rfl
    parseIntError := fun cs _ => rfl
    fmul := rfl
    powf10 := rfl
    ofIsize := rfl
    dbgFloat := rfl
    overflowChecks := rfl }
  exact ⟨C97_tokens h, C97_same h rfl⟩
end

/-- ASCII tables, with the Arabic digits as well -/
def arabicEnv : Env Rat :=
  { exEnv true with isNumeric := fun c => ('0' ≤ c ∧ c ≤ '9') ∨ ('٠' ≤ c ∧ c ≤ '٩') }

/-- **C97** (the condition is needed): for a character of the text the tables do matter, even for the
    number of tokens; the two libraries differ in no other character. -/
theorem C97_characters_refuted :
    tokenize (exEnv true) "a٣".toList = .err (.Str "(1, 2) tokenize_one(): unexpected char '٣'") ∧
    tokenize arabicEnv "a٣".toList = .ok [⟨⟨1, 1⟩, .Identifier "a٣"⟩] := by
  decide +kernel

/-- **C97**, a case: the Arabic digits make no difference to a text without them. -/
example : tokenize (exEnv true) "Film \"image\" 1.5 # é".toList =
    tokenize arabicEnv "Film \"image\" 1.5 # é".toList := by
  refine C97_tokens ⟨?_, fun _ _ => rfl, fun _ _ => rfl, fun _ _ => rfl, fun _ _ => rfl, rfl, rfl, rfl, rfl, rfl⟩
  rintro c (h | rfl)
  · revert c
    decide +kernel
  · decide +kernel

/-- What Unicode says about ASCII, and nothing else -/
def asciiEnv : Env Rat :=
  { exEnv true with isWhitespace := fun c => c ∈ [' ', '\t', '\n', '\u000b', '\u000c', '\r'] }

theorem asciiEnv_tables : AsciiTables asciiEnv := by
  constructor
  · intro c h
    simp only [asciiEnv, exEnv, decide_eq_true_eq, char_le_iff]; rfl
  · intro c h
    simp only [asciiEnv, exEnv, decide_eq_true_eq, char_le_iff]; exact or_comm
  · intro c h
    simp only [asciiEnv, decide_eq_true_eq, List.mem_cons, List.not_mem_nil, or_false, char_eq_iff]
    simp only [show (' ').toNat = 32 from rfl, show ('\n').toNat = 10 from rfl,
      show ('\t').toNat = 9 from rfl, show ('\r').toNat = 13 from rfl,
      show ('\u000b').toNat = 11 from rfl, show ('\u000c').toNat = 12 from rfl]
    omega

/-- The same, and the Arabic digits as well -/
def asciiEnv' : Env Rat :=
  { asciiEnv with isNumeric := fun c => ('0' ≤ c ∧ c ≤ '9') ∨ ('٠' ≤ c ∧ c ≤ '٩') }

theorem asciiEnv'_tables : AsciiTables asciiEnv' := by
  refine ⟨fun c h => ?_, asciiEnv_tables.alphabetic, asciiEnv_tables.whitespace⟩
  simp only [asciiEnv', decide_eq_true_eq, char_le_iff]
  simp only [IsAscii] at h
  simp only [show ('0').toNat = 48 from rfl, show ('9').toNat = 57 from rfl, show ('٠').toNat = 1632 from rfl,
    show ('٩').toNat = 1641 from rfl]
  omega

/-- A small scene -/
def asciiScene : List Char := "LookAt 0 0 5 0 0 0 0 1 0 # eye\nWorldBegin Shape \"a\\nb\" \"float r\" 1e-2 WorldEnd".toList

/-- **C97**, a case: all versions of Unicode read the small scene alike. -/
example : parse asciiEnv asciiScene = parse asciiEnv' asciiScene :=
  (C97_ascii asciiEnv_tables asciiEnv'_tables ⟨rfl, rfl, rfl, rfl, rfl, rfl, rfl⟩
    (by unfold asciiScene IsAscii; decide +kernel)).2.2 rfl

/-- **C97**, a case: and as the tables of the examples of this development do. -/
example : parse asciiEnv' asciiScene = parse (exEnv true) asciiScene :=
  (C97_examples asciiEnv'_tables (by unfold asciiScene IsAscii; decide +kernel)).2

example (T : Type) [Elem T] [As T T] [FloatFns T] [IEEE T] (checks : Bool) :
    withAscii (ieeeEnv T checks) = ieeeEnv T checks := rfl

/-- **C97**, a case: a vertical tab is white space for the compiler, not for those tables. -/
example : tokenize asciiEnv "a\u000bb".toList = .ok [⟨⟨1, 1⟩, .Identifier "a"⟩, ⟨⟨1, 3⟩, .Identifier "b"⟩] ∧
    tokenize (withAscii asciiEnv) "a\u000bb".toList =
      .err (.Str "(1, 2) tokenize_one(): unexpected char '\u000b'") := by
  decide +kernel

end Pbrt
