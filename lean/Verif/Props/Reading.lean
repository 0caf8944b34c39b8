import Verif.Spec.Reading
import Verif.Spec.Literals
import Verif.Props.Messages
import Verif.Props.Reports
import Verif.Props.Faults
import Verif.Proof.Contents
import Std.Data.String.ToNat

/-!
# C107: what can be read from an error message
-/

namespace Pbrt
open Spec Proof

variable {F : Type} {E : Env F}

theorem digits_cancel {m n : Nat} {c d : Char} {a b : List Char} (hc : c.isDigit = false) (hd : d.isDigit = false)
    (h : Nat.toDigits 10 m ++ c :: a = Nat.toDigits 10 n ++ d :: b) : m = n ∧ c :: a = d :: b := by
  have dig : ∀ k, ∀ x ∈ Nat.toDigits 10 k, x.isDigit = true := fun k x hx =>
    Nat.isDigit_of_mem_toDigits (by decide) (by decide) hx
  have h1 := congrArg (List.takeWhile Char.isDigit) h
  have h2 := congrArg (List.dropWhile Char.isDigit) h
  rw [List.takeWhile_append_of_pos (dig m), List.takeWhile_append_of_pos (dig n),
    List.takeWhile_cons_of_neg (by simp [hc]), List.takeWhile_cons_of_neg (by simp [hd]), List.append_nil,
    List.append_nil] at h1
  rw [List.dropWhile_append_of_pos (dig m), List.dropWhile_append_of_pos (dig n),
    List.dropWhile_cons_of_neg (by simp [hc]), List.dropWhile_cons_of_neg (by simp [hd])] at h2
  refine ⟨?_, h2⟩
  have := congrArg (Nat.ofDigitChars 10 · 0) h1
  simpa [Nat.ofDigitChars_ten_toDigits] using this

theorem fmt_toList (p : Pos) (a : String) : (p.fmt ++ a).toList =
    '(' :: (Nat.toDigits 10 p.r ++ ',' :: ' ' :: (Nat.toDigits 10 p.c ++ ')' :: a.toList)) := by
  simp [Pos.fmt, String.toList_append, toString, Nat.repr]

/-- **C107**: the position at the start of a message can be read back. -/
theorem C107_position (p q : Pos) (a b : String) (h : p.fmt ++ a = q.fmt ++ b) : p = q ∧ a = b := by
  have h := congrArg String.toList h
  rw [fmt_toList, fmt_toList] at h
  obtain ⟨h1, h⟩ := digits_cancel (by decide) (by decide) (List.cons.inj h).2
  obtain ⟨h2, h⟩ := digits_cancel (by decide) (by decide) (List.cons.inj (List.cons.inj h).2).2
  refine ⟨?_, String.toList_inj.1 (List.cons.inj h).2⟩
  cases p; cases q
  cases h1; cases h2; rfl

theorem append_ne {a b : String} (n : Nat) (ha : n ≤ a.toList.length) (hb : n ≤ b.toList.length)
    (h : a.toList.take n ≠ b.toList.take n) (x y : String) : a ++ x ≠ b ++ y := fun e => by
  have := congrArg (fun s => s.toList.take n) e
  simp only [String.toList_append] at this
  rw [List.take_append_of_le_length ha, List.take_append_of_le_length hb] at this
  exact h this

theorem fmt_ne_header (p : Pos) (a b : String) : p.fmt ++ a ≠ floatsHeader ++ b := by
  rw [Pos.fmt, String.append_assoc, String.append_assoc, String.append_assoc, String.append_assoc]
  exact append_ne 1 (by decide) (by decide) (by decide) _ _

theorem fmt_ne (p : Pos) (a : String) {s : String} (hs : s.toList.head? ≠ some '(') : p.fmt ++ a ≠ s := fun h => by
  have h := congrArg (fun s => s.toList.head?) h
  simp only [fmt_toList, List.head?_cons] at h
  exact hs h.symm

/-- **C107**: a message names at most one position. -/
theorem C107_names_one (m : String) (p q : Pos) (hp : Names m p) (hq : Names m q) : p = q := by
  obtain ⟨a, rfl | rfl⟩ := hp <;> obtain ⟨b, h | h⟩ := hq
  · exact (C107_position _ _ _ _ h).1
  · exact absurd h (fmt_ne_header _ _ _)
  · exact absurd h.symm (fmt_ne_header _ _ _)
  · exact (C107_position _ _ _ _ (String.append_right_inj _ |>.1 h)).1

/-- **C107**: a message about the end of the text names no position. -/
theorem C107_eof (m : String) (hm : m ∈ eofMessages) (p : Pos) : ¬ Names m p := by
  rintro ⟨a, h⟩
  simp only [eofMessages, List.mem_cons, List.not_mem_nil, or_false] at hm
  rcases hm with rfl | rfl | rfl <;> rcases h with h | h
  · exact fmt_ne p a (by decide +kernel) h.symm
  · rw [← String.append_empty (s := "parse_string(): EOF while processing string")] at h
    exact append_ne 7 (by decide +kernel) (by decide +kernel) (by decide +kernel) _ _ h
  · exact fmt_ne p a (by decide +kernel) h.symm
  · rw [← String.append_empty (s := "parse_identifier(): EOF while processing identifier")] at h
    exact append_ne 7 (by decide +kernel) (by decide +kernel) (by decide +kernel) _ _ h
  · exact fmt_ne p a (by decide +kernel) h.symm
  · exact fmt_ne p a (by decide +kernel) (String.append_right_inj _ |>.1 h).symm

/-- **C107**: if the parser reports a message that names a position, there is a token at this position,
    and the tokens before it are the start of some scene. -/
theorem C107_token (toks : List (Token F)) (m : String) (p : Pos) (h : parseTokens E toks = .err (.Str m))
    (hp : Names m p) : ∃ a t b, toks = a ++ t :: b ∧ t.pos = p ∧ Viable E a := by
  rcases C63_first_error toks m h with ⟨a, t, b, e, hn, hv⟩ | ⟨hm, -⟩
  · exact ⟨a, t, b, e, C107_names_one m _ _ hn hp, hv⟩
  · exact absurd hp (C107_eof m hm p)

theorem posOf_unique {text a b : List Char} (ha : a <+: text) (hb : b <+: text) (h : posOf a = posOf b) : a = b := by
  have key : ∀ {i j : Nat}, i < j → j ≤ text.length → posOf (text.take i) ≠ posOf (text.take j) := fun hij hj e => by
    have := posOf_take_before text hij hj
    rw [e] at this
    rcases this with h | h <;> omega
  rw [List.prefix_iff_eq_take.1 ha, List.prefix_iff_eq_take.1 hb] at h ⊢
  rcases Nat.lt_trichotomy a.length b.length with hl | hl | hl
  · exact absurd h (key hl hb.length_le)
  · rw [hl]
  · exact absurd h.symm (key hl ha.length_le)

/-- **C107**: the position named by a message is that of exactly one place of the text. -/
theorem C107_place (hE : Sane E) (hP : Plain E) (input text : List Char) (hn : Norm input text) (m : String) (p : Pos)
    (h : parse E input = .err (.Str m)) (hp : Names m p) : ∃! a, a <+: text ∧ posOf a = p := by
  have ex : ∃ a, a <+: text ∧ posOf a = p := by
    rcases C63_text input _ h with ⟨e', h1, h2⟩ | ⟨toks, h1, h2⟩
    · obtain ⟨m', rfl, hm⟩ := C13_error_positions hE input e' h1
      cases h2
      rcases hm with hm | ⟨text', a, b, txt, hn', rfl, rfl⟩
      · exact absurd hp (hP _ _ hm)
      · rw [norm_iff] at hn hn'
        exact ⟨a, ⟨b, by rw [← hn, hn']⟩, C107_names_one _ _ _ ⟨txt, .inl rfl⟩ hp⟩
    · rcases h2 with ⟨h2, -⟩ | ⟨m', h2, h3⟩
      · cases h2
      · cases h2
        rcases h3 with ⟨a, t, b, e, hn', hv⟩ | ⟨hm, -⟩
        · obtain ⟨text', offs, hn'', -, hf⟩ := C04_positions hE input toks h1
          have ht : t ∈ toks := e ▸ by simp
          obtain ⟨hl, hg⟩ := List.forall₂_iff_get.1 hf
          obtain ⟨o, hpos⟩ : ∃ o, t.pos = posOf (text'.take o) := by
            obtain ⟨i, hi, rfl⟩ := List.mem_iff_getElem.1 ht
            exact ⟨_, (hg i (hl ▸ hi) hi).2.1⟩
          rw [norm_iff] at hn hn''
          refine ⟨text'.take o, ?_, ?_⟩
          · rw [← hn, hn'']; exact List.take_prefix _ _
          · rw [← hpos]; exact C107_names_one _ _ _ hn' hp
        · exact absurd hp (C107_eof _ hm p)
  obtain ⟨a, h1, h2⟩ := ex
  exact ⟨a, ⟨h1, h2⟩, fun b ⟨h3, h4⟩ => posOf_unique h3 h1 (h4.trans h2.symm)⟩

/-- No lexeme and no separator starts with this character. -/
def Spec.StartsNothing (E : Env F) (c : Char) : Prop :=
  E.isNumeric c = false ∧ E.isAlphabetic c = false ∧ E.isWhitespace c = false ∧
    c ∉ ['#', '"', '[', ']', '-', '+', '.']

/-- The messages of faults of numbers: those of the standard library, or a position followed by the name
    of the function -/
theorem numFault_message {pre text : List Char} {f : Fault} (h : NumFault E pre text f) (m : String)
    (hm : f = .error m) : ConvErr E m ∨ ∃ p a, m = Pos.fmt p ++ (" tokenize_num(): " ++ a) := by
  induction h with
  | noNumber pre s rest =>
    cases hm
    exact .inr ⟨_, "no number", by rw [show " tokenize_num(): " ++ "no number" = " tokenize_num(): no number" by decide +kernel]⟩
  | secondPoint pre s ds rest =>
    cases hm
    exact .inr ⟨_, "unexpected char '.'", by
      rw [show " tokenize_num(): " ++ "unexpected char '.'" = " tokenize_num(): unexpected char '.'" by decide +kernel]⟩
  | whole => cases hm; exact .inl ⟨_, .inl rfl⟩
  | point _ _ _ _ m' _ h => cases hm; exact .inl ⟨_, .inr h⟩
  | exponent _ _ _ _ _ _ _ _ ih => exact ih hm
  | wholeMantissa => cases hm; exact .inl ⟨_, .inl rfl⟩
  | floatMantissa _ _ _ _ _ _ m' _ _ _ _ h => cases hm; exact .inl ⟨_, .inr h⟩
  | overflow => cases hm

/-- Two messages with a position and different words -/
theorem fmt_words_ne {w v : String} (n : Nat) (hw : n ≤ w.toList.length) (hv : n ≤ v.toList.length)
    (h : w.toList.take n ≠ v.toList.take n) (p q : Pos) (a b : String) : p.fmt ++ (w ++ a) ≠ q.fmt ++ (v ++ b) := fun e =>
  append_ne n hw hv h _ _ (C107_position _ _ _ _ e).2

/-- The words behind the position in messages about arguments -/
def argWords : List String :=
  [" parse_string(): expected string but got ", " parse_identifier(): expected identifier but got "] ++
    numKeys.map fun k => " parse_predirective(): " ++ k.1 ++ " expects "

theorem argsFault_words {p : Pos} {s : String} {v : List (Token F)} {m : String} (h : ArgsFault E p s v m) :
    (∃ q w a, w ∈ argWords ∧ m = Pos.fmt q ++ (w ++ a)) ∨ m.toList.head? ≠ some '(' := by
  cases h with
  | noNumber => exact .inr (by rw [String.toList_append]; decide +kernel)
  | notNumber s n t =>
    right
    rw [String.toList_append, List.head?_append_of_ne_nil _ (by decide +kernel)]
    decide +kernel
  | count s n a w hs =>
    refine .inl ⟨p, " parse_predirective(): " ++ s ++ " expects ", toString n ++ " floats but was given " ++ toString a.length,
      List.mem_append_right _ (List.mem_map.2 ⟨_, hs, rfl⟩), ?_⟩
    simp only [String.append_assoc]
  | noString => exact .inr (by decide +kernel)
  | notString s n a t w =>
    exact .inl ⟨t.pos, _, shown E t.ty, List.mem_append_left _ (.head _), by simp only [String.append_assoc]⟩
  | noIdentifier => exact .inr (by decide +kernel)
  | notIdentifier t w =>
    exact .inl ⟨t.pos, _, shown E t.ty, List.mem_append_left _ (.tail _ (.head _)), by simp only [String.append_assoc]⟩

theorem argsFault_ne {p : Pos} {s : String} {v : List (Token F)} {m : String} (h : ArgsFault E p s v m) {w : String}
    (hl : 24 ≤ w.toList.length) (hw : ∀ x ∈ argWords, 24 ≤ x.toList.length ∧ x.toList.take 24 ≠ w.toList.take 24)
    (q : Pos) (b : String) : m ≠ q.fmt ++ (w ++ b) := fun e => by
  rcases argsFault_words h with ⟨q', x, a, hx, rfl⟩ | h
  · exact fmt_words_ne 24 (hw x hx).1 hl (hw x hx).2 _ _ _ _ e
  · exact fmt_ne q _ h e.symm

theorem args_suffix {s : String} {v w : List (Token F)} (h : Args E s v w) : w <:+ v := by
  cases h with
  | none => exact List.suffix_refl _
  | numbers => exact List.suffix_append _ _
  | name => exact List.suffix_cons _ _
  | active => exact List.suffix_cons _ _
  | params s n a b w => exact (List.suffix_append b w).trans (List.suffix_append a _)

theorem bodyFault_unknown {toks : List (Token F)} {m : String} (h : BodyFault E toks m) {q : Pos} {s : String}
    (hm : m = q.fmt ++ (" parse_directive(): unknown identifier " ++ s)) :
    kw q s ∈ toks ∧ s ∉ dirKeys ∧ ¬ IsEnd (F := F) (kw q s) := by
  induction h with
  | notKey t w =>
    rw [String.append_assoc] at hm
    exact absurd hm (fmt_words_ne 17 (by decide +kernel) (by decide +kernel) (by decide +kernel) _ _ _ _)
  | unknown p s' w hs he =>
    rw [String.append_assoc] at hm
    obtain ⟨rfl, h⟩ := C107_position _ _ _ _ hm
    obtain rfl := (String.append_right_inj _).1 h
    exact ⟨.head _, hs, he⟩
  | args p s' v m hs h => exact absurd hm (argsFault_ne h (by decide +kernel) (by decide +kernel) _ _)
  | later p s' v w m hs h _ ih =>
    obtain ⟨h1, h2⟩ := ih hm
    exact ⟨.tail _ ((args_suffix h).subset h1), h2⟩
  | nested p s' v m hs _ ih =>
    obtain ⟨h1, h2⟩ := ih hm
    exact ⟨.tail _ h1, h2⟩

theorem bodyFault_ne {toks : List (Token F)} {m : String} (h : BodyFault E toks m) {w : String}
    (hl : 24 ≤ w.toList.length) (hw : ∀ x ∈ argWords ++ [" parse_directive(): unknown identifier ",
      " parse_directives(): expected identifier or block close but got "],
      24 ≤ x.toList.length ∧ x.toList.take 24 ≠ w.toList.take 24)
    (q : Pos) (b : String) : m ≠ q.fmt ++ (w ++ b) := by
  induction h with
  | notKey t v =>
    rw [String.append_assoc]
    obtain ⟨h1, h2⟩ := hw _ (List.mem_append_right _ (.tail _ (.head _)))
    exact fmt_words_ne 24 h1 hl h2 _ _ _ _
  | unknown p s' v hs he =>
    rw [String.append_assoc]
    obtain ⟨h1, h2⟩ := hw _ (List.mem_append_right _ (.head _))
    exact fmt_words_ne 24 h1 hl h2 _ _ _ _
  | args p s' v m hs h => exact argsFault_ne h hl (fun x hx => hw x (List.mem_append_left _ hx)) _ _
  | later p s' v w m hs h _ ih => exact ih
  | nested p s' v m hs _ ih => exact ih

theorem sceneFault_directive {toks : List (Token F)} {m : String} (h : SceneFault E toks m) {q : Pos} {s : String}
    (hm : m = q.fmt ++ (" parse_directive(): unknown identifier " ++ s)) :
    kw q s ∈ toks ∧ s ∉ dirKeys ∧ ¬ IsEnd (F := F) (kw q s) := by
  induction h with
  | notKey t w =>
    rw [String.append_assoc] at hm
    exact absurd hm (fmt_words_ne 17 (by decide +kernel) (by decide +kernel) (by decide +kernel) _ _ _ _)
  | unknown p s' w hs he =>
    rw [String.append_assoc] at hm
    exact absurd hm (fmt_words_ne 17 (by decide +kernel) (by decide +kernel) (by decide +kernel) _ _ _ _)
  | args p s' v m hs h => exact absurd hm (argsFault_ne h (by decide +kernel) (by decide +kernel) _ _)
  | later p s' v w m hs h _ ih =>
    obtain ⟨h1, h2⟩ := ih hm
    exact ⟨.tail _ ((args_suffix h).subset h1), h2⟩
  | body p v m h =>
    obtain ⟨h1, h2⟩ := bodyFault_unknown h hm
    exact ⟨.tail _ h1, h2⟩

theorem sceneFault_predirective {toks : List (Token F)} {m : String} (h : SceneFault E toks m) {q : Pos} {s : String}
    (hm : m = q.fmt ++ (" parse_predirective(): Unknown predirective: " ++ s)) :
    kw q s ∈ toks ∧ s ∉ preKeys ∧ s ≠ "WorldBegin" := by
  induction h with
  | notKey t w =>
    rw [String.append_assoc] at hm
    exact absurd hm (fmt_words_ne 20 (by decide +kernel) (by decide +kernel) (by decide +kernel) _ _ _ _)
  | unknown p s' w hs he =>
    rw [String.append_assoc] at hm
    obtain ⟨rfl, h⟩ := C107_position _ _ _ _ hm
    obtain rfl := (String.append_right_inj _).1 h
    exact ⟨.head _, hs, he⟩
  | args p s' v m hs h => exact absurd hm (argsFault_ne h (by decide +kernel) (by decide +kernel) _ _)
  | later p s' v w m hs h _ ih =>
    obtain ⟨h1, h2⟩ := ih hm
    exact ⟨.tail _ ((args_suffix h).subset h1), h2⟩
  | body p v m h => exact absurd hm (bodyFault_ne h (by decide +kernel) (by decide +kernel) _ _)

theorem sceneFault_ne {toks : List (Token F)} {m : String} (h : SceneFault E toks m) (q : Pos) (b : String) :
    m ≠ q.fmt ++ (" tokenize_one(): unexpected char '" ++ b) := by
  induction h with
  | notKey t w =>
    rw [String.append_assoc]
    exact fmt_words_ne 2 (by decide +kernel) (by decide +kernel) (by decide +kernel) _ _ _ _
  | unknown p s' w hs he =>
    rw [String.append_assoc]
    exact fmt_words_ne 2 (by decide +kernel) (by decide +kernel) (by decide +kernel) _ _ _ _
  | args p s' v m hs h => exact argsFault_ne h (by decide +kernel) (by decide +kernel) _ _
  | later p s' v w m hs h _ ih => exact ih
  | body p v m h => exact bodyFault_ne h (by decide +kernel) (by decide +kernel) _ _

/-- A fault of the text is not reported in the words of the parser. -/
theorem textFault_ne (hP : Plain E) {text : List Char} {m : String} (h : TextFault E text (.error m)) (q : Pos) (b : String) :
    m ≠ q.fmt ++ (" parse_" ++ b) := fun e => by
  obtain ⟨a, toks, r, -, -, hb⟩ := h
  generalize hf : Fault.error m = f at hb
  cases hb with
  | char pre c rest =>
    cases hf
    rw [String.append_assoc, String.append_assoc] at e
    exact fmt_words_ne 2 (by decide +kernel) (by decide +kernel) (by decide +kernel) _ _ _ _ e
  | number _ _ hs h =>
    rcases numFault_message h m hf.symm with hc | ⟨p, a, rfl⟩
    · exact hP m q hc ⟨_, .inl e⟩
    · exact fmt_words_ne 2 (by decide +kernel) (by decide +kernel) (by decide +kernel) _ _ _ _ e
  | string =>
    cases hf
    rw [← String.append_empty (s := " tokenize_str(): EOF while processing string")] at e
    exact fmt_words_ne 2 (by decide +kernel) (by decide +kernel) (by decide +kernel) _ _ _ _ e
  | escape =>
    cases hf
    rw [← String.append_empty (s := " tokenize_str(): EOF while processing escape seq")] at e
    exact fmt_words_ne 2 (by decide +kernel) (by decide +kernel) (by decide +kernel) _ _ _ _ e

theorem token_unique {text : List Char} {toks : List (Token F)} (hl : Lex E [] text toks) {s t : Token F}
    (hs : s ∈ toks) (ht : t ∈ toks) (h : s.pos = t.pos) : s = t := by
  have hp := lex_before hl
  obtain ⟨i, hi, rfl⟩ := List.mem_iff_getElem.1 hs
  obtain ⟨j, hj, rfl⟩ := List.mem_iff_getElem.1 ht
  have irr : ∀ {p q : Pos}, Before p q → p ≠ q := fun hb e => by
    subst e
    rcases hb with h | h <;> omega
  rcases Nat.lt_trichotomy i j with hij | rfl | hij
  · exact absurd h (irr (List.pairwise_iff_getElem.1 hp i j hi hj hij))
  · rfl
  · exact absurd h.symm (irr (List.pairwise_iff_getElem.1 hp j i hj hi hij))

/-- **C107**: an unexpected character is reported exactly if everything before the position in the message is
    in order and the character in the message stands there. -/
theorem C107_char (hE : Sane E) (hP : Plain E) (input text : List Char) (hn : Norm input text) (p : Pos) (c : Char) :
    parse E input = .err (.Str (p.fmt ++ " tokenize_one(): unexpected char '" ++ String.singleton c ++ "'")) ↔
      ∃ a rest toks, text = a ++ c :: rest ∧ posOf a = p ∧ LexTo E [] a toks (c :: rest) ∧ StartsNothing E c := by
  constructor
  · intro h
    obtain ⟨text', hn', h | ⟨toks, -, h⟩⟩ := (C72_text hE input _).1 h
    · rw [norm_iff] at hn hn'
      obtain rfl : text = text' := hn.symm.trans hn'
      obtain ⟨a, toks, r, rfl, hl, hb⟩ := h
      rw [String.append_assoc, String.append_assoc] at hb
      generalize hf : Fault.error _ = f at hb
      cases hb with
      | char c' rest hc =>
        rw [String.append_assoc, String.append_assoc, Fault.error.injEq] at hf
        obtain ⟨rfl, e⟩ := C107_position _ _ _ _ hf
        have e := (String.append_right_inj _).1 e
        have e := congrArg (fun s => s.toList.head?) e
        simp [String.toList_append] at e
        subst e
        exact ⟨a, rest, toks, rfl, rfl, hl, hc⟩
      | number _ _ hs h =>
        rcases numFault_message h _ hf.symm with hc | ⟨p, a, e⟩
        · exact absurd ⟨_, .inl rfl⟩ (hP _ p hc)
        · exact absurd e (fmt_words_ne 11 (by decide +kernel) (by decide +kernel) (by decide +kernel) _ _ _ _)
      | string =>
        rw [Fault.error.injEq, ← String.append_empty (s := " tokenize_str(): EOF while processing string")] at hf
        exact absurd hf (fmt_words_ne 11 (by decide +kernel) (by decide +kernel) (by decide +kernel) _ _ _ _)
      | escape =>
        rw [Fault.error.injEq, ← String.append_empty (s := " tokenize_str(): EOF while processing escape seq")] at hf
        exact absurd hf (fmt_words_ne 11 (by decide +kernel) (by decide +kernel) (by decide +kernel) _ _ _ _)
    · exact absurd (by rw [String.append_assoc, String.append_assoc]) (sceneFault_ne h p (String.singleton c ++ "'"))
  · rintro ⟨a, rest, toks, rfl, rfl, hl, hc⟩
    exact (C72_text hE input _).2 ⟨_, hn, .inl ⟨a, toks, _, rfl, hl, .char a c rest hc⟩⟩

/-- **C107**: if an unknown directive is reported, the text consists of tokens, the reported name stands at the
    reported position, it is the name of no directive and no block end, and the tokens before it are the
    start of some scene. -/
theorem C107_directive (hE : Sane E) (hP : Plain E) (input text : List Char) (hn : Norm input text) (p : Pos) (s : String)
    (h : parse E input = .err (.Str (p.fmt ++ " parse_directive(): unknown identifier " ++ s))) :
    ∃ a b, Lex E [] text (a ++ kw p s :: b) ∧ Viable E a ∧ s ∉ dirKeys ∧ ¬ IsEnd (F := F) (kw p s) := by
  obtain ⟨text', hn', h | ⟨toks, hl, h⟩⟩ := (C72_text hE input _).1 h
  · refine absurd ?_ (textFault_ne hP h p ("directive(): unknown identifier " ++ s))
    rw [String.append_assoc, ← String.append_assoc (s₁ := " parse_"),
      show " parse_" ++ "directive(): unknown identifier " = " parse_directive(): unknown identifier " by decide +kernel]
  · rw [norm_iff] at hn hn'
    obtain rfl : text = text' := hn.symm.trans hn'
    obtain ⟨h1, h2⟩ := sceneFault_directive h (String.append_assoc ..)
    obtain ⟨a, t, b, rfl, ht, hv⟩ := C107_token toks _ p ((C72_error E toks _).2 h) ⟨_, .inl (String.append_assoc ..)⟩
    obtain rfl : t = kw p s := token_unique hl (by simp) h1 ht
    exact ⟨a, b, hl, hv, h2⟩

/-- **C107**: the same for the part before the world. -/
theorem C107_predirective (hE : Sane E) (hP : Plain E) (input text : List Char) (hn : Norm input text) (p : Pos) (s : String)
    (h : parse E input = .err (.Str (p.fmt ++ " parse_predirective(): Unknown predirective: " ++ s))) :
    ∃ a b, Lex E [] text (a ++ kw p s :: b) ∧ Viable E a ∧ s ∉ preKeys ∧ s ≠ "WorldBegin" := by
  obtain ⟨text', hn', h | ⟨toks, hl, h⟩⟩ := (C72_text hE input _).1 h
  · refine absurd ?_ (textFault_ne hP h p ("predirective(): Unknown predirective: " ++ s))
    rw [String.append_assoc, ← String.append_assoc (s₁ := " parse_"),
      show " parse_" ++ "predirective(): Unknown predirective: " = " parse_predirective(): Unknown predirective: " by
        decide +kernel]
  · rw [norm_iff] at hn hn'
    obtain rfl : text = text' := hn.symm.trans hn'
    obtain ⟨h1, h2⟩ := sceneFault_predirective h (String.append_assoc ..)
    obtain ⟨a, t, b, rfl, ht, hv⟩ := C107_token toks _ p ((C72_error E toks _).2 h) ⟨_, .inl (String.append_assoc ..)⟩
    obtain rfl : t = kw p s := token_unique hl (by simp) h1 ht
    exact ⟨a, b, hl, hv, h2⟩

/-! ### Concrete cases -/

theorem literal_unnamed {m : String} (hm : m = "invalid integer literal" ∨ m = "invalid float literal") (p : Pos) :
    ¬ Names m p := by
  rintro ⟨a, e⟩
  rcases hm with rfl | rfl <;> rcases e with e | e
  · exact fmt_ne p a (by decide +kernel) e.symm
  · rw [← String.append_empty (s := "invalid integer literal")] at e
    exact append_ne 1 (by decide +kernel) (by decide +kernel) (by decide +kernel) _ _ e
  · exact fmt_ne p a (by decide +kernel) e.symm
  · rw [← String.append_empty (s := "invalid float literal")] at e
    exact append_ne 1 (by decide +kernel) (by decide +kernel) (by decide +kernel) _ _ e

theorem exEnv_plain (b : Bool) : Plain (exEnv b) := by
  rintro m p ⟨xs, h⟩
  refine literal_unnamed ?_ p
  rcases h with h | h
  · exact .inl h
  · right
    replace h : exParse xs = .error m := h
    unfold exParse at h
    dsimp only at h
    by_cases hc : xs.head? = some '-' <;> simp only [hc, if_true, if_false] at h <;> split at h <;>
      first | exact (Except.error.inj h).symm | cases h

/-- The same for a library that rounds correctly -/
theorem ieeeEnv_plain (T : Type) [Elem T] [As T T] [FloatFns T] [IEEE T] (b : Bool) : Plain (ieeeEnv T b) := by
  rintro m p ⟨xs, h⟩
  refine literal_unnamed ?_ p
  rcases h with h | h
  · exact .inl h
  · right
    replace h : ieeeParse T xs = .error m := h
    unfold ieeeParse at h
    dsimp only at h
    split at h <;> split at h <;> first | exact (Except.error.inj h).symm | cases h

example : parse (exEnv true) "Identity\r\n ?".toList =
    .err (.Str ((⟨2, 2⟩ : Pos).fmt ++ " tokenize_one(): unexpected char '" ++ String.singleton '?' ++ "'")) :=
  (fault_of_report (by decide +kernel) (by decide +kernel) (by decide +kernel))

example := (C107_char (exEnv_sane true) (exEnv_plain true) "Identity\r\n ?".toList _ ((norm_iff _ _).2 rfl) ⟨2, 2⟩ '?').1
  (fault_of_report (by decide +kernel) (by decide +kernel) (by decide +kernel))

example := C107_directive (exEnv_sane true) (exEnv_plain true) "WorldBegin\n Cube WorldEnd".toList _ ((norm_iff _ _).2 rfl)
  ⟨2, 2⟩ "Cube" (fault_of_report (by decide +kernel) (by decide +kernel) (by decide +kernel))

example := C107_predirective (exEnv_sane true) (exEnv_plain true) "Identity\n Cube WorldEnd".toList _ ((norm_iff _ _).2 rfl)
  ⟨2, 2⟩ "Cube" (fault_of_report (by decide +kernel) (by decide +kernel) (by decide +kernel))

example := C107_place (exEnv_sane true) (exEnv_plain true) "Identity Scale 1 2".toList _ ((norm_iff _ _).2 rfl)
  ((⟨1, 10⟩ : Pos).fmt ++ " parse_predirective(): Scale expects 3 floats but was given 2") ⟨1, 10⟩ (fault_of_report (by decide +kernel) (by decide +kernel) (by decide +kernel))
  ⟨_, .inl rfl⟩

/-- **C107**, refuted for numbers: the message about an integer that is too large names no position; these
    texts with faults at different places give the same message. -/
theorem C107_number_refuted : ∃ m, (∀ p, ¬ Names m p) ∧
    parse (exEnv true) "99999999999999999999".toList = .err (.Str m) ∧
    parse (exEnv true) "Scale 1 1\n99999999999999999999".toList = .err (.Str m) :=
  ⟨"invalid integer literal", fun p => exEnv_plain true _ p ⟨[], .inl rfl⟩, (fault_of_report (by decide +kernel) (by decide +kernel) (by decide +kernel)), (fault_of_report (by decide +kernel) (by decide +kernel) (by decide +kernel))⟩

/-- **C107**, refuted for the end of the text: neither keyword nor position is named if a string is missing
    at the end. -/
theorem C107_end_refuted : ∃ m, (∀ p, ¬ Names m p) ∧
    parse (exEnv true) "Camera".toList = .err (.Str m) ∧
    parse (exEnv true) "Identity\nInclude".toList = .err (.Str m) :=
  ⟨"parse_string(): EOF while processing string", C107_eof _ (by decide +kernel), (fault_of_report (by decide +kernel) (by decide +kernel) (by decide +kernel)), (fault_of_report (by decide +kernel) (by decide +kernel) (by decide +kernel))⟩

end Pbrt
