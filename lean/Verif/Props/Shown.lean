import Verif.Spec.Shown
import Verif.Props.Reading
import Verif.Props.Printer

/-!
# C112: the token that an error message shows
-/

namespace Pbrt
open Spec Proof

/-! ### Strings between quotes -/

theorem digitChar_inj16 : ∀ {i j : Nat}, i < 16 → j < 16 → i.digitChar = j.digitChar → i = j := by
  have : ∀ i j : Fin 16, i.1.digitChar = j.1.digitChar → i = j := by decide
  exact fun {_ _} hi hj h => congrArg Fin.val (this ⟨_, hi⟩ ⟨_, hj⟩ h)

theorem hex_inj : ∀ (m n : Nat), Nat.toDigits 16 m = Nat.toDigits 16 n → m = n := by
  intro m
  induction m using Nat.strong_induction_on with
  | _ m ih =>
    intro n h
    have one : ∀ k, 16 ≤ k → 2 ≤ (Nat.toDigits 16 k).length := fun k hk => by
      rw [Nat.toDigits_of_base_le (by decide) hk, List.length_append]
      have := Nat.length_toDigits_pos (b := 16) (n := k / 16)
      simp only [List.length_singleton]
      omega
    rcases Nat.lt_or_ge m 16 with hm | hm <;> rcases Nat.lt_or_ge n 16 with hn | hn
    · rw [Nat.toDigits_of_lt_base hm, Nat.toDigits_of_lt_base hn] at h
      exact digitChar_inj16 hm hn (List.cons.inj h).1
    · have := one n hn
      rw [← h, Nat.toDigits_of_lt_base hm] at this
      simp at this
    · have := one m hm
      rw [h, Nat.toDigits_of_lt_base hn] at this
      simp at this
    · rw [Nat.toDigits_of_base_le (by decide) hm, Nat.toDigits_of_base_le (by decide) hn] at h
      obtain ⟨h1, h2⟩ := List.append_inj' h rfl
      have h3 := digitChar_inj16 (Nat.mod_lt _ (by decide)) (Nat.mod_lt _ (by decide)) (List.cons.inj h2).1
      have h4 := ih (m / 16) (Nat.div_lt_self (by omega) (by decide)) _ h1
      omega

theorem hex_chars (n : Nat) : ∀ c ∈ Nat.toDigits 16 n, c ≠ '}' := by
  induction n using Nat.strong_induction_on with
  | _ n ih =>
    intro c hc
    have dig : ∀ i : Fin 16, i.1.digitChar ≠ '}' := by decide
    rcases Nat.lt_or_ge n 16 with hn | hn
    · rw [Nat.toDigits_of_lt_base hn, List.mem_singleton] at hc
      exact hc ▸ dig ⟨n, hn⟩
    · rw [Nat.toDigits_of_base_le (by decide) hn, List.mem_append, List.mem_singleton] at hc
      rcases hc with hc | rfl
      · exact ih _ (Nat.div_lt_self (by omega) (by decide)) c hc
      · exact dig ⟨n % 16, Nat.mod_lt _ (by decide)⟩

/-- Cut at the first character `z`. -/
theorem cut_at {z : Char} {x y a b : List Char} (hx : ∀ c ∈ x, c ≠ z) (hy : ∀ c ∈ y, c ≠ z)
    (h : x ++ z :: a = y ++ z :: b) : x = y ∧ a = b := by
  induction x generalizing y with
  | nil =>
    cases y with
    | nil => exact ⟨rfl, (List.cons.inj h).2⟩
    | cons c y => exact absurd (List.cons.inj h).1.symm (hy c (.head _))
  | cons c x ih =>
    cases y with
    | nil => exact absurd (List.cons.inj h).1 (hx c (.head _))
    | cons d y =>
      obtain ⟨h1, h2⟩ := List.cons.inj h
      obtain ⟨h3, h4⟩ := ih (fun c hc => hx c (.tail _ hc)) (fun c hc => hy c (.tail _ hc)) h2
      exact ⟨by rw [h1, h3], h4⟩

/-- Which character a letter stands for -/
def unletter (l : Char) : Char :=
  if l = 't' then '\t' else if l = 'r' then '\r' else if l = 'n' then '\n' else if l = '0' then Char.ofNat 0 else l

theorem letter_spec (D : DebugTable) (c l : Char) (h : D.letter c = some l) : unletter l = c ∧ l ≠ 'u' := by
  unfold DebugTable.letter at h
  by_cases h1 : c = '\t'
  · subst h1; simp only [if_true, Option.some.injEq] at h; subst h; decide
  by_cases h2 : c = '\r'
  · subst h2; simp only [h1, if_true, if_false, Option.some.injEq] at h; subst h; decide
  by_cases h3 : c = '\n'
  · subst h3; simp only [h1, h2, if_true, if_false, Option.some.injEq] at h; subst h; decide
  by_cases h4 : c = '"'
  · subst h4; simp only [h1, h2, h3, if_true, if_false, Option.some.injEq] at h; subst h; decide
  by_cases h5 : c = '\\'
  · subst h5; simp only [h1, h2, h3, h4, if_true, if_false, Option.some.injEq] at h; subst h; decide
  by_cases h6 : c = '\''
  · subst h6; simp only [h1, h2, h3, h4, h5, if_true, if_false] at h
    split at h
    · cases h; decide
    · cases h
  by_cases h7 : c = Char.ofNat 0
  · subst h7; simp only [h1, h2, h3, h4, h5, h6, if_true, if_false] at h
    split at h
    · cases h; decide
    · cases h
  simp only [h1, h2, h3, h4, h5, h6, h7, if_false] at h
  cases h

theorem letter_special (D : DebugTable) (c : Char) (h : D.letter c = none) : c ≠ '"' ∧ c ≠ '\\' := by
  constructor <;> rintro rfl <;> simp [DebugTable.letter] at h

/-- The code of a character says where it ends. -/
theorem escape_cancel (D : DebugTable) (c d : Char) (a b : List Char) (h : D.escape c ++ a = D.escape d ++ b) :
    c = d ∧ a = b := by
  unfold DebugTable.escape at h
  rcases hc : D.letter c with _ | l <;> rcases hd : D.letter d with _ | l' <;> rw [hc, hd] at h <;> dsimp only at h
  · obtain ⟨-, c2⟩ := letter_special D c hc
    obtain ⟨-, d2⟩ := letter_special D d hd
    rcases pc : D.plain c <;> rcases pd : D.plain d <;> simp only [pc, pd, if_true, Bool.false_eq_true, if_false] at h
    · simp only [List.cons_append, List.append_assoc, List.nil_append, List.cons.injEq, true_and] at h
      obtain ⟨h1, h2⟩ := cut_at (hex_chars _) (hex_chars _) h
      exact ⟨Char.toNat_inj.1 (hex_inj _ _ h1), h2⟩
    · exact absurd (List.cons.inj h).1.symm d2
    · exact absurd (List.cons.inj h).1 c2
    · exact List.cons.inj h
  · obtain ⟨-, c2⟩ := letter_special D c hc
    rcases pc : D.plain c <;> simp only [pc, if_true, Bool.false_eq_true, if_false] at h
    · exact absurd (List.cons.inj (List.cons.inj h).2).1.symm (letter_spec D d l' hd).2
    · exact absurd (List.cons.inj h).1 c2
  · obtain ⟨-, d2⟩ := letter_special D d hd
    rcases pd : D.plain d <;> simp only [pd, if_true, Bool.false_eq_true, if_false] at h
    · exact absurd (List.cons.inj (List.cons.inj h).2).1 (letter_spec D c l hc).2
    · exact absurd (List.cons.inj h).1.symm d2
  · simp only [List.cons_append, List.nil_append, List.cons.injEq, true_and] at h
    obtain ⟨rfl, h⟩ := h
    exact ⟨(letter_spec D c l hc).1.symm.trans (letter_spec D d l hd).1, h⟩

theorem escape_head (D : DebugTable) (c : Char) : ∃ x y, D.escape c = x :: y ∧ x ≠ '"' := by
  unfold DebugTable.escape
  rcases hc : D.letter c with _ | l <;> dsimp only
  · rcases pc : D.plain c <;> simp only [if_true, Bool.false_eq_true, if_false]
    · exact ⟨_, _, rfl, by decide⟩
    · exact ⟨c, [], rfl, (letter_special D c hc).1⟩
  · exact ⟨_, _, rfl, by decide⟩

theorem escapes_cancel (D : DebugTable) (x y : List Char) (a b : List Char)
    (h : x.flatMap D.escape ++ '"' :: a = y.flatMap D.escape ++ '"' :: b) : x = y ∧ a = b := by
  induction x generalizing y with
  | nil =>
    cases y with
    | nil => exact ⟨rfl, (List.cons.inj h).2⟩
    | cons d y =>
      obtain ⟨u, v, e, hu⟩ := escape_head D d
      rw [List.flatMap_cons, e] at h
      exact absurd (List.cons.inj h).1.symm hu
  | cons c x ih =>
    cases y with
    | nil =>
      obtain ⟨u, v, e, hu⟩ := escape_head D c
      rw [List.flatMap_cons, e] at h
      exact absurd (List.cons.inj h).1 hu
    | cons d y =>
      rw [List.flatMap_cons, List.flatMap_cons, List.append_assoc, List.append_assoc] at h
      obtain ⟨h1, h2⟩ := escape_cancel D c d _ _ h
      obtain ⟨h3, h4⟩ := ih y h2
      exact ⟨by rw [h1, h3], h4⟩

/-- **C112**: a string shown in a message says where it ends and which string it is, whatever characters the
    library writes as they are. -/
theorem C112_string (D : DebugTable) (s t a b : String) (h : D.str s ++ a = D.str t ++ b) : s = t ∧ a = b := by
  have h := congrArg String.toList h
  simp only [DebugTable.str, String.toList_append, String.toList_ofList, List.cons_append, List.append_assoc,
    List.cons.injEq, true_and, List.nil_append] at h
  obtain ⟨h1, h2⟩ := escapes_cancel D _ _ _ _ h
  exact ⟨String.toList_inj.1 h1, String.toList_inj.1 h2⟩

/-- **C112**: a string of characters that the library writes as they are, without quotes and backslashes, is
    shown as it is between quotes. -/
theorem C112_plain (D : DebugTable) (s : String) (h : ∀ c ∈ s.toList, D.letter c = none ∧ D.plain c = true) :
    D.str s = "\"" ++ s ++ "\"" := by
  have : ∀ l : List Char, (∀ c ∈ l, D.letter c = none ∧ D.plain c = true) → l.flatMap D.escape = l := by
    intro l hl
    induction l with
    | nil => rfl
    | cons c l ih =>
      rw [List.flatMap_cons, ih fun c hc => hl c (.tail _ hc), DebugTable.escape, (hl c (.head _)).1]
      simp [(hl c (.head _)).2]
  refine String.toList_inj.1 ?_
  simp [DebugTable.str, this _ h]

/-! ### Tokens in messages -/

variable {F : Type} {E : Env F}

theorem int_chars (i : Int) : ∀ c ∈ (toString i).toList, c ≠ ')' := by
  have nat : ∀ n : Nat, ∀ c ∈ (toString n).toList, c.isDigit = true := fun n c hc =>
    Nat.isDigit_of_mem_toDigits (b := 10) (n := n) (by decide) (by decide) (by simpa [toString, Nat.repr] using hc)
  intro c hc e
  subst e
  cases i with
  | ofNat n => exact absurd (nat n _ hc) (by decide)
  | negSucc n =>
    have hc : ')' ∈ ("-" ++ toString (n + 1)).toList := hc
    rw [String.toList_append, List.mem_append] at hc
    rcases hc with hc | hc
    · exact absurd hc (by decide)
    · exact absurd (nat _ _ hc) (by decide)

theorem nat_text_inj {m n : Nat} (h : toString m = toString n) : m = n := by
  have := congrArg (fun s => Nat.ofDigitChars 10 s.toList 0) h
  simpa [toString, Nat.repr, Nat.ofDigitChars_ten_toDigits] using this

theorem int_text_inj {i j : Int} (h : toString i = toString j) : i = j := by
  have minus : ∀ m n : Nat, toString m ≠ "-" ++ toString (n + 1) := fun m n e => by
    have hm : '-' ∈ (toString m).toList := by rw [e]; simp
    have := Nat.isDigit_of_mem_toDigits (b := 10) (n := m) (c := '-') (by decide) (by decide) (by simpa [toString, Nat.repr] using hm)
    exact absurd this (by decide)
  cases i with
  | ofNat m =>
    cases j with
    | ofNat n => exact congrArg _ (nat_text_inj h)
    | negSucc n => exact absurd h (minus m n)
  | negSucc m =>
    cases j with
    | ofNat n => exact absurd h.symm (minus n m)
    | negSucc n =>
      have := nat_text_inj ((String.append_right_inj _).1 (show "-" ++ toString (m + 1) = "-" ++ toString (n + 1) from h))
      rw [Nat.add_right_cancel this]

theorem cut_paren {x y a b : String} (hx : ∀ c ∈ x.toList, c ≠ ')') (hy : ∀ c ∈ y.toList, c ≠ ')')
    (h : x ++ (")" ++ a) = y ++ (")" ++ b)) : x = y ∧ a = b := by
  have h := congrArg String.toList h
  simp only [String.toList_append] at h
  obtain ⟨h1, h2⟩ := cut_at hx hy h
  exact ⟨String.toList_inj.1 h1, String.toList_inj.1 h2⟩

/-- **C112**: a token shown in a message says where it ends and which token it is. -/
theorem C112_shown (hR : Readable E) (t u : TokenType F) (a b : String) (h : shown E t ++ a = shown E u ++ b) :
    t = u ∧ a = b := by
  have ne : ∀ {k l : String} {x y : String}, (4 ≤ k.toList.length ∧ 4 ≤ l.toList.length ∧ k.toList.take 4 ≠ l.toList.take 4) →
      k ++ x = l ++ y → False := fun hk e => append_ne 4 hk.1 hk.2.1 hk.2.2 _ _ e
  cases t <;> cases u <;> simp only [shown, String.append_assoc] at h <;>
    first
    | exact (ne (by decide +kernel) h).elim
    | skip
  · obtain ⟨rfl, h'⟩ := hR.str _ _ _ _ ((String.append_right_inj _).1 h)
    exact ⟨rfl, (String.append_right_inj _).1 h'⟩
  · obtain ⟨h1, h2⟩ := cut_paren (int_chars _) (int_chars _) ((String.append_right_inj _).1 h)
    exact ⟨congrArg _ (int_text_inj h1), h2⟩
  · obtain ⟨h1, h2⟩ := cut_paren (fun c hc e => hR.close _ (e ▸ hc)) (fun c hc e => hR.close _ (e ▸ hc))
      ((String.append_right_inj _).1 h)
    exact ⟨congrArg _ (hR.float _ _ h1), h2⟩
  · obtain ⟨rfl, h'⟩ := hR.str _ _ _ _ ((String.append_right_inj _).1 h)
    exact ⟨rfl, (String.append_right_inj _).1 h'⟩
  · exact ⟨rfl, (String.append_right_inj _).1 h⟩
  · exact ⟨rfl, (String.append_right_inj _).1 h⟩

/-! ### The forms of messages -/

theorem Spec.Said.before {toks : List (Token F)} {m : String} (h : Said E toks m) (x : List (Token F)) : Said E (x ++ toks) m := by
  cases h with
  | got w t ht hw => exact .got w t (List.mem_append_right _ ht) hw
  | unknown p s ht hs he => exact .unknown p s (List.mem_append_right _ ht) hs he
  | unknownPre p s ht hs hw => exact .unknownPre p s (List.mem_append_right _ ht) hs hw
  | count p s n u a w ht hs ha h0 hn hw => exact .count p s n (x ++ u) a w (by rw [ht, List.append_assoc]) hs ha h0 hn hw
  | noNumber p s n u ht hs => exact .noNumber p s n (x ++ u) (by rw [ht, List.append_assoc]) hs
  | noString p s n u a ht hs ha hn => exact .noString p s n (x ++ u) a (by rw [ht, List.append_assoc]) hs ha hn
  | noIdentifier p u ht => exact .noIdentifier p (x ++ u) (by rw [ht, List.append_assoc])

theorem said_args {p : Pos} {s : String} {v : List (Token F)} {m : String} (h : ArgsFault E p s v m) :
    Said E (kw p s :: v) m := by
  cases h with
  | noNumber s n hs => exact .noNumber p s n [] rfl hs
  | notNumber s n t w hs ht =>
    rw [String.append_assoc]
    exact .got .number t (.tail _ (.head _)) ht
  | count s n a w hs ha h0 hn hw =>
    have := Said.count (E := E) p s n [] a w rfl hs ha h0 hn hw
    simpa only [String.append_assoc, List.nil_append] using this
  | noString s n a hs ha hn => exact .noString p s n [] v rfl hs ha hn
  | notString s n a t w hs ha hn ht =>
    have := Said.got (E := E) .string t (toks := kw p s :: (a ++ t :: w)) (by simp) ht
    simpa only [Wanting.message, Wanting.words, reduceCtorEq, if_false, String.empty_append, String.append_assoc] using this
  | noIdentifier => exact .noIdentifier p [] rfl
  | notIdentifier t w ht =>
    have := Said.got (E := E) .identifier t (toks := kw p "ActiveTransform" :: t :: w) (by simp) ht
    simpa only [Wanting.message, Wanting.words, reduceCtorEq, if_false, String.empty_append, String.append_assoc] using this

theorem Spec.Said.later {s : String} {p : Pos} {v w : List (Token F)} {m : String} (h : Args E s v w) (hm : Said E w m) :
    Said E (kw p s :: v) m := by
  obtain ⟨x, rfl⟩ := args_suffix h
  exact hm.before (kw p s :: x)

theorem said_body {toks : List (Token F)} {m : String} (h : BodyFault E toks m) : Said E toks m := by
  induction h with
  | notKey t w ht =>
    have := Said.got (E := E) .keyword t (toks := t :: w) (by simp) ht
    simpa only [Wanting.message, Wanting.words, reduceCtorEq, if_false, String.empty_append, String.append_assoc] using this
  | unknown p s w hs he => rw [String.append_assoc]; exact .unknown p s (by simp) hs he
  | args p s v m hs h => exact said_args h
  | later p s v w m hs h _ ih => exact ih.later h
  | nested p s v m hs _ ih => exact ih.before [_]

theorem said_scene {toks : List (Token F)} {m : String} (h : SceneFault E toks m) : Said E toks m := by
  induction h with
  | notKey t w ht =>
    have := Said.got (E := E) .predirective t (toks := t :: w) (by simp) ht
    simpa only [Wanting.message, Wanting.words, reduceCtorEq, if_false, String.empty_append, String.append_assoc] using this
  | unknown p s w hs he => rw [String.append_assoc]; exact .unknownPre p s (by simp) hs he
  | args p s v m hs h => exact said_args h
  | later p s v w m hs h _ ih => exact ih.later h
  | body p v m h => exact (said_body h).before [_]

/-- **C112**: what the parser says about a list of tokens has one of seven forms, and each of them says what is
    the case: a token that is shown stands at the position and is not of the wanted kind; a name that is said
    to be unknown stands there and is unknown; a keyword with a wrong number of numbers stands there with so
    many behind it; and if the end is reported, the list ends where the named kind of token is wanted. -/
theorem C112_said (toks : List (Token F)) (m : String) (h : parseTokens E toks = .err (.Str m)) : Said E toks m :=
  said_scene ((C72_error E toks m).1 h)

theorem wanting_words (w v : Wanting) (h : w ≠ v) : w.words.toList.take 24 ≠ v.words.toList.take 24 := by
  revert h
  cases w <;> cases v <;> decide +kernel

theorem words_long (w : Wanting) : 24 ≤ w.words.toList.length := by cases w <;> decide +kernel

/-- A message of this kind tells what was wanted, the position and what was shown. -/
theorem message_inj {w v : Wanting} {p q : Pos} {x y : String} (h : w.message p x = v.message q y) :
    w = v ∧ p = q ∧ x = y := by
  have core : p.fmt ++ (w.words ++ x) = q.fmt ++ (v.words ++ y) → w = v ∧ p = q ∧ x = y := fun h => by
    obtain ⟨hp, h⟩ := C107_position _ _ _ _ h
    by_cases e : w = v
    · subst e
      exact ⟨rfl, hp, (String.append_right_inj _).1 h⟩
    · exact absurd h (append_ne 24 (words_long w) (words_long v) (wanting_words w v e) _ _)
  unfold Wanting.message at h
  by_cases hw : w = .number <;> by_cases hv : v = .number <;> simp only [hw, hv, if_true, if_false, String.empty_append] at h
  · subst hw hv
    exact core ((String.append_right_inj _).1 h)
  · exact absurd h.symm (fmt_ne_header _ _ _)
  · exact absurd h (fmt_ne_header _ _ _)
  · exact core h

theorem message_ne {w : Wanting} {p q : Pos} {x y v : String} (hl : 24 ≤ v.toList.length)
    (hv : ∀ w : Wanting, w.words.toList.take 24 ≠ v.toList.take 24) : w.message p x ≠ q.fmt ++ (v ++ y) := fun h => by
  unfold Wanting.message at h
  by_cases hw : w = .number <;> simp only [hw, if_true, if_false, String.empty_append] at h
  · exact fmt_ne_header _ _ _ h.symm
  · exact fmt_words_ne 24 (words_long w) hl (hv w) _ _ _ _ h

theorem message_ne_eof {w : Wanting} {p : Pos} {x : String} : w.message p x ∉ eofMessages := fun h => by
  refine C107_eof _ h p ?_
  unfold Wanting.message
  by_cases hw : w = .number <;> simp only [hw, if_true, if_false, String.empty_append]
  · exact ⟨_, .inr rfl⟩
  · exact ⟨_, .inl rfl⟩

/-- The words of `count`, split so that they are recognised by their first 24 characters -/
theorem count_words (s : String) (n : Nat) (x : String) :
    " parse_predirective(): " ++ s ++ " expects " ++ toString n ++ " floats but was given " ++ x =
      (" parse_predirective(): " ++ s ++ " expects ") ++ (toString n ++ (" floats but was given " ++ x)) := by
  simp only [String.append_assoc]

theorem count_word_ok {s : String} {n : Nat} (hs : (s, n) ∈ numKeys) :
    24 ≤ (" parse_predirective(): " ++ s ++ " expects ").toList.length ∧
    (∀ w : Wanting, w.words.toList.take 24 ≠ (" parse_predirective(): " ++ s ++ " expects ").toList.take 24) ∧
    (" parse_predirective(): Unknown predirective: ").toList.take 24 ≠
      (" parse_predirective(): " ++ s ++ " expects ").toList.take 24 ∧
    (" parse_directive(): unknown identifier ").toList.take 24 ≠
      (" parse_predirective(): " ++ s ++ " expects ").toList.take 24 := by
  simp only [numKeys, List.mem_cons, List.not_mem_nil, or_false, Prod.mk.injEq] at hs
  have all : ∀ (P : Wanting → Prop), P .number → P .string → P .identifier → P .keyword → P .predirective → ∀ w, P w :=
    fun P h1 h2 h3 h4 h5 w => by cases w <;> assumption
  rcases hs with ⟨rfl, -⟩ | ⟨rfl, -⟩ | ⟨rfl, -⟩ | ⟨rfl, -⟩ | ⟨rfl, -⟩ | ⟨rfl, -⟩ | ⟨rfl, -⟩ <;>
    refine ⟨by decide +kernel, all _ ?_ ?_ ?_ ?_ ?_, by decide +kernel, by decide +kernel⟩ <;> decide +kernel

theorem said_got {toks : List (Token F)} {m : String} (h : Said E toks m) {w : Wanting} {p : Pos} {x : String}
    (hm : m = w.message p x) : ∃ ty, x = shown E ty ∧ ⟨p, ty⟩ ∈ toks ∧ ¬ w.Takes (F := F) ⟨p, ty⟩ := by
  have all : ∀ (P : Wanting → Prop), P .number → P .string → P .identifier → P .keyword → P .predirective → ∀ w, P w :=
    fun P h1 h2 h3 h4 h5 w => by cases w <;> assumption
  cases h with
  | got v t ht hv =>
    obtain ⟨rfl, rfl, rfl⟩ := message_inj hm
    exact ⟨t.ty, rfl, ht, hv⟩
  | unknown q s =>
    exact absurd hm.symm (message_ne (by decide +kernel) (all _ (by decide +kernel) (by decide +kernel)
      (by decide +kernel) (by decide +kernel) (by decide +kernel)))
  | unknownPre q s =>
    exact absurd hm.symm (message_ne (by decide +kernel) (all _ (by decide +kernel) (by decide +kernel)
      (by decide +kernel) (by decide +kernel) (by decide +kernel)))
  | count q s n u a b ht hs =>
    rw [count_words] at hm
    exact absurd hm.symm (message_ne (count_word_ok hs).1 (count_word_ok hs).2.1)
  | noNumber => exact absurd (hm ▸ by simp [eofMessages]) (message_ne_eof (w := w) (p := p) (x := x))
  | noString => exact absurd (hm ▸ by simp [eofMessages]) (message_ne_eof (w := w) (p := p) (x := x))
  | noIdentifier => exact absurd (hm ▸ by simp [eofMessages]) (message_ne_eof (w := w) (p := p) (x := x))

/-- A fault of the text is not reported in such words. -/
theorem textFault_message (hP : Plain E) {text : List Char} {m : String} (h : TextFault E text (.error m)) (w : Wanting)
    (p : Pos) (x : String) : m ≠ w.message p x := fun e => by
  by_cases hw : w = .number
  · subst hw
    rw [Wanting.message, if_pos rfl] at e
    obtain ⟨a, toks, r, -, -, hb⟩ := h
    generalize hf : Fault.error m = f at hb
    cases hb with
    | char pre c rest =>
      cases hf
      rw [String.append_assoc, String.append_assoc] at e
      exact fmt_ne_header _ _ _ e
    | number _ _ hs h =>
      rcases numFault_message h m hf.symm with hc | ⟨q, a, rfl⟩
      · exact hP m p hc ⟨_, .inr e⟩
      · exact fmt_ne_header _ _ _ e
    | string => cases hf; exact fmt_ne_header _ _ _ e
    | escape => cases hf; exact fmt_ne_header _ _ _ e
  · have hx : w.message p x = p.fmt ++ (" parse_" ++ ((w.words.drop 7).toString ++ x)) := by
      rw [Wanting.message, if_neg hw, String.empty_append, ← String.append_assoc (s₁ := " parse_")]
      cases w <;> first | exact absurd rfl hw | (refine congrArg _ (congrArg (· ++ x) ?_); decide +kernel)
    exact textFault_ne hP h p _ (e.trans hx)

/-- **C112**: if the parser says that it got something at a position instead of what it wanted, a token that is
    shown so stands at this position, it is not of the wanted kind, and the tokens before it are the start of
    some scene. -/
theorem C112_got_any (hE : Sane E) (hP : Plain E) (input text : List Char) (hn : Norm input text) (w : Wanting) (p : Pos)
    (x : String) (h : parse E input = .err (.Str (w.message p x))) :
    ∃ a ty b, Lex E [] text (a ++ ⟨p, ty⟩ :: b) ∧ x = shown E ty ∧ Viable E a ∧ ¬ w.Takes (F := F) ⟨p, ty⟩ := by
  obtain ⟨text', hn', h | ⟨toks, hl, h⟩⟩ := (C72_text hE input _).1 h
  · exact absurd rfl (textFault_message hP h w p x)
  · rw [norm_iff] at hn hn'
    obtain rfl : text = text' := hn.symm.trans hn'
    have h := (C72_error E toks _).2 h
    obtain ⟨ty, hx, h1, h2⟩ := said_got (C112_said toks _ h) rfl
    have hnames : Names (w.message p x) p := by
      unfold Wanting.message
      by_cases hw : w = .number <;> simp only [hw, if_true, if_false, String.empty_append]
      · exact ⟨_, .inr rfl⟩
      · exact ⟨_, .inl rfl⟩
    obtain ⟨a, t, b, rfl, ht, hv⟩ := C107_token toks _ p h hnames
    obtain rfl : t = ⟨p, ty⟩ := token_unique hl (by simp) h1 ht
    exact ⟨a, ty, b, hl, hx, hv, h2⟩

/-- **C112**: so the token can be read off the message. -/
theorem C112_got (hE : Sane E) (hP : Plain E) (hR : Readable E) (input text : List Char) (hn : Norm input text)
    (w : Wanting) (p : Pos) (ty : TokenType F) (h : parse E input = .err (.Str (w.message p (shown E ty)))) :
    ∃ a b, Lex E [] text (a ++ ⟨p, ty⟩ :: b) ∧ Viable E a ∧ ¬ w.Takes (F := F) ⟨p, ty⟩ := by
  obtain ⟨a, ty', b, h1, h2, h3, h4⟩ := C112_got_any hE hP input text hn w p _ h
  obtain ⟨rfl, -⟩ := C112_shown hR ty ty' "" "" (congrArg (· ++ "") h2)
  exact ⟨a, b, h1, h3, h4⟩

theorem numKey_text {s : String} {n : Nat} (hs : (s, n) ∈ numKeys) : ∀ c ∈ s.toList, c ≠ ' ' := by
  have : ∀ k ∈ numKeys, ∀ c ∈ k.1.toList, c ≠ ' ' := by decide +kernel
  exact this _ hs

theorem expects_toList (x y : String) : (x ++ (" expects " ++ y)).toList = x.toList ++ ' ' :: ("expects ".toList ++ y.toList) := by
  rw [String.toList_append, String.toList_append]
  rfl

/-- **C112**: if the parser says that a keyword was given `k` numbers, the keyword stands at the position,
    exactly `k` numbers stand behind it, and it takes another number of them. -/
theorem C112_count (toks : List (Token F)) (p : Pos) (s : String) (n k : Nat) (hs : (s, n) ∈ numKeys)
    (h : parseTokens E toks = .err (.Str (p.fmt ++ (" parse_predirective(): " ++ s ++ " expects " ++ toString n ++
      " floats but was given " ++ toString k)))) :
    ∃ u a w, toks = u ++ kw p s :: (a ++ w) ∧ (∀ t ∈ a, IsNumber t) ∧ a.length = k ∧ k ≠ n ∧ 0 < k ∧
      ∀ t, w.head? = some t → ¬ IsNumber t := by
  obtain ⟨l1, l2, l3, l4⟩ := count_word_ok hs
  have h := C112_said toks _ h
  rw [count_words] at h
  generalize hm : Pos.fmt p ++ _ = m at h
  cases h with
  | got w t => exact absurd hm.symm (message_ne l1 l2)
  | unknown q s' => exact absurd hm (fmt_words_ne 24 l1 (by decide +kernel) l4.symm _ _ _ _)
  | unknownPre q s' => exact absurd hm (fmt_words_ne 24 l1 (by decide +kernel) l3.symm _ _ _ _)
  | count q s' n' u a w ht hs' ha h0 hn hw =>
    obtain ⟨rfl, e⟩ := C107_position _ _ _ _ hm
    simp only [String.append_assoc] at e
    have e := congrArg String.toList ((String.append_right_inj _).1 e)
    rw [expects_toList, expects_toList] at e
    obtain ⟨e1, e2⟩ := cut_at (numKey_text hs) (numKey_text hs') e
    obtain rfl := String.toList_inj.1 e1
    obtain rfl : n = n' := by
      have : ∀ k ∈ numKeys, ∀ l ∈ numKeys, k.1 = l.1 → k.2 = l.2 := by decide +kernel
      exact this _ hs _ hs' rfl
    have e2 := List.append_cancel_left e2
    have e3 := (String.append_right_inj _).1 ((String.append_right_inj _).1 (String.toList_inj.1 e2))
    have e4 := nat_text_inj e3
    exact ⟨u, a, w, ht, ha, e4.symm, e4 ▸ hn, by rw [e4]; exact List.length_pos_iff.2 h0, hw⟩
  | noNumber =>
    refine absurd ⟨_, .inl hm.symm⟩ (C107_eof (floatsHeader ++ "parse_float(): EOF while parsing float") (by simp [eofMessages]) p)
  | noString => exact absurd ⟨_, .inl hm.symm⟩ (C107_eof "parse_string(): EOF while processing string" (by simp [eofMessages]) p)
  | noIdentifier =>
    exact absurd ⟨_, .inl hm.symm⟩ (C107_eof "parse_identifier(): EOF while processing identifier" (by simp [eofMessages]) p)

/-- **C112**: if the parser says that the text ended too early, all tokens are the start of a scene, and the
    last keyword has not got all its strings, its identifier or any number, as the message says. -/
theorem C112_end (toks : List (Token F)) (m : String) (h : parseTokens E toks = .err (.Str m)) (hm : m ∈ eofMessages) :
    Viable E toks ∧
    (m = "parse_string(): EOF while processing string" → ∃ u p s n a, toks = u ++ kw p s :: a ∧
      (s, n) ∈ nameKeys ++ paramKeys ∧ (∀ t ∈ a, IsStr t) ∧ a.length < n) ∧
    (m = "parse_identifier(): EOF while processing identifier" → ∃ u p, toks = u ++ [kw p "ActiveTransform"]) ∧
    (m = floatsHeader ++ "parse_float(): EOF while parsing float" → ∃ u p s n, toks = u ++ [kw p s] ∧ (s, n) ∈ numKeys) := by
  refine ⟨?_, ?_⟩
  · rcases C63_first_error toks m h with ⟨a, t, b, e, hn, hv⟩ | ⟨-, hv⟩
    · exact absurd hn (C107_eof m hm _)
    · exact hv
  · have head : ∀ y : String, (floatsHeader ++ y).toList.take 8 = "parse_ma".toList := fun y => by
      rw [String.toList_append, List.take_append_of_le_length (by decide +kernel)]; decide +kernel
    cases C112_said toks m h with
    | got => exact absurd hm message_ne_eof
    | unknown p s => exact absurd ⟨_, .inl rfl⟩ (C107_eof _ hm p)
    | unknownPre p s => exact absurd ⟨_, .inl rfl⟩ (C107_eof _ hm p)
    | count p s => exact absurd ⟨_, .inl rfl⟩ (C107_eof _ hm p)
    | noNumber p s n u ht hs =>
      refine ⟨fun e => ?_, fun e => ?_, fun _ => ⟨u, p, s, n, ht, hs⟩⟩ <;>
      · have := head "parse_float(): EOF while parsing float"
        rw [e] at this
        exact absurd this (by decide +kernel)
    | noString p s n u a ht hs ha hn =>
      refine ⟨fun _ => ⟨u, p, s, n, a, ht, hs, ha, hn⟩, fun e => absurd e (by decide +kernel), fun e => ?_⟩
      have := head "parse_float(): EOF while parsing float"
      rw [← e] at this
      exact absurd this (by decide +kernel)
    | noIdentifier p u ht =>
      refine ⟨fun e => absurd e (by decide +kernel), fun _ => ⟨u, p, ht⟩, fun e => ?_⟩
      have := head "parse_float(): EOF while parsing float"
      rw [← e] at this
      exact absurd this (by decide +kernel)

/-- **C112**: the messages of the functions that read parameters are never seen: what is wrong inside of a
    parameter is not explained. -/
theorem C112_hidden (toks : List (Token F)) (m : String) (h : parseTokens E toks = .err (.Str m)) (f : String)
    (hf : f ∈ paramHeads) (p : Pos) (x : String) : m ≠ p.fmt ++ (" " ++ f ++ x) ∧ m ≠ f ++ x := by
  have l1 : ∀ f ∈ paramHeads, 9 ≤ (" " ++ f).toList.length ∧ 8 ≤ f.toList.length ∧ f.toList.head? ≠ some '(' ∧
      (" parse_predirective(): ").toList.take 9 ≠ (" " ++ f).toList.take 9 ∧
      (" parse_directive(): unknown identifier ").toList.take 9 ≠ (" " ++ f).toList.take 9 ∧
      floatsHeader.toList.take 8 ≠ f.toList.take 8 ∧
      "parse_string(): EOF while processing string".toList.take 8 ≠ f.toList.take 8 ∧
      "parse_identifier(): EOF while processing identifier".toList.take 8 ≠ f.toList.take 8 := by decide +kernel
  have l2 : ∀ w : Wanting, ∀ f ∈ paramHeads, w.words.toList.take 9 ≠ (" " ++ f).toList.take 9 := by
    intro w; cases w <;> decide +kernel
  obtain ⟨f1, f2, f3, f4, f5, f6, f7, f8⟩ := l1 f hf
  have f3 : ∀ x : String, (f ++ x).toList.head? ≠ some '(' := fun x => by
    rw [String.toList_append, List.head?_append_of_ne_nil _ (by intro e; rw [e] at f2; simp at f2)]
    exact f3
  have cnt : ∀ (q : Pos) (y : String), q.fmt ++ (" parse_predirective(): " ++ y) ≠ p.fmt ++ (" " ++ f ++ x) ∧
      q.fmt ++ (" parse_predirective(): " ++ y) ≠ f ++ x := fun q y =>
    ⟨fmt_words_ne 9 (by decide +kernel) f1 f4 _ _ _ _, fun e => fmt_ne q _ (f3 x) e⟩
  cases C112_said toks m h with
  | got w t =>
    unfold Wanting.message
    by_cases hw : w = .number <;> simp only [hw, if_true, if_false, String.empty_append]
    · exact ⟨(fmt_ne_header _ _ _).symm, append_ne 8 (by decide +kernel) f2 f6 _ _⟩
    · exact ⟨fmt_words_ne 9 (Nat.le_trans (by decide) (words_long w)) f1 (l2 w f hf) _ _ _ _, fun e => fmt_ne _ _ (f3 x) e⟩
  | unknown q s => exact ⟨fmt_words_ne 9 (by decide +kernel) f1 f5 _ _ _ _, fun e => fmt_ne q _ (f3 x) e⟩
  | unknownPre q s =>
    have := cnt q ("Unknown predirective: " ++ s)
    rwa [← String.append_assoc (s₁ := " parse_predirective(): "), show " parse_predirective(): " ++ "Unknown predirective: " =
      " parse_predirective(): Unknown predirective: " by decide +kernel] at this
  | count q s n u a w =>
    have := cnt q (s ++ " expects " ++ toString n ++ " floats but was given " ++ toString a.length)
    simpa only [String.append_assoc] using this
  | noNumber => exact ⟨(fmt_ne_header _ _ _).symm, append_ne 8 (by decide +kernel) f2 f6 _ _⟩
  | noString =>
    refine ⟨(fmt_ne p _ (by decide +kernel)).symm, ?_⟩
    rw [← String.append_empty (s := "parse_string(): EOF while processing string")]
    exact append_ne 8 (by decide +kernel) f2 f7 _ _
  | noIdentifier =>
    refine ⟨(fmt_ne p _ (by decide +kernel)).symm, ?_⟩
    rw [← String.append_empty (s := "parse_identifier(): EOF while processing identifier")]
    exact append_ne 8 (by decide +kernel) f2 f8 _ _

/-! ### A library that meets the assumptions -/

section
open Float.Model (UnpackedFloat)
variable {T : Type} [Elem T] [As T T] [FloatFns T] [IEEE T]

theorem floatText_chars {f : T} (hf : IsFinite f) : '.' ∈ floatText f ∧ ')' ∉ floatText f := by
  obtain ⟨s, a, b, h, -, hd, -⟩ := C98_exact hf
  rw [h]
  refine ⟨by simp, fun hc => ?_⟩
  rw [List.mem_append, List.mem_append, List.mem_cons] at hc
  have dig : ¬ IsDigit ')' := fun h => absurd h.1 (by decide)
  rcases hc with hc | hc | hc | hc
  · cases s <;> exact absurd hc (by decide)
  · exact dig (hd _ (List.mem_append_left _ hc))
  · exact absurd hc (by decide)
  · exact dig (hd _ (List.mem_append_right _ hc))

theorem digitsFloat_cases (f : T) : (IsFinite f ∧ digitsFloat f = String.ofList (floatText f)) ∨
    (up f = .infinity .positive ∧ digitsFloat f = "inf") ∨ (up f = .infinity .negative ∧ digitsFloat f = "-inf") ∨
    (up f = .notANumber ∧ digitsFloat f = "NaN") := by
  unfold digitsFloat IsFinite
  rcases up f with (_ | _) | _ | _ | _ <;> simp [UnpackedFloat.isFinite]

theorem digitsFloat_inj (f g : T) (h : digitsFloat f = digitsFloat g) : f = g := by
  have dot : ∀ {f : T} {s : String}, IsFinite f → '.' ∉ s.toList → String.ofList (floatText f) ≠ s := fun hf hs e => by
    have := (floatText_chars hf).1
    rw [← String.toList_ofList (l := floatText _), e] at this
    exact hs this
  rcases digitsFloat_cases f with ⟨hf, e⟩ | ⟨hf, e⟩ | ⟨hf, e⟩ | ⟨hf, e⟩ <;>
    rcases digitsFloat_cases g with ⟨hg, e'⟩ | ⟨hg, e'⟩ | ⟨hg, e'⟩ | ⟨hg, e'⟩ <;> rw [e, e'] at h
  · exact C98_injective hf hg (String.ofList_injective h)
  all_goals first
    | exact absurd h (dot hf (by decide))
    | exact absurd h.symm (dot hg (by decide))
    | exact up_inj (hf.trans hg.symm)
    | exact absurd h (by decide)

/-- **C112**: strings as the standard library shows them, whatever its tables are, and floats shown with all
    their digits can be read off. -/
theorem C112_readable (D : DebugTable) (b : Bool) : Readable (showEnv T D b) where
  str := C112_string D
  float := digitsFloat_inj
  close f := by
    show ')' ∉ (digitsFloat f).toList
    rcases digitsFloat_cases f with ⟨hf, e⟩ | ⟨hf, e⟩ | ⟨hf, e⟩ | ⟨hf, e⟩ <;> rw [e]
    · rw [String.toList_ofList]; exact (floatText_chars hf).2
    all_goals decide

theorem showEnv_sane (D : DebugTable) (b : Bool) : Sane (showEnv T D b) :=
  ⟨(exEnv_sane b).digit, (exEnv_sane b).letter, (exEnv_sane b).space, (exEnv_sane b).punct, (exEnv_sane b).white⟩

theorem showEnv_plain (D : DebugTable) (b : Bool) : Plain (showEnv T D b) := fun m p h => ieeeEnv_plain T b m p h

end

/-! ### Concrete cases -/

/-- What a string with a tab, quotes, a backslash, an apostrophe and an umlaut looks like -/
example : asciiTable.str "a\t\"b\" \\ 'c' ü" = "\"a\\t\\\"b\\\" \\\\ \\'c\\' \\u{fc}\"" := by decide +kernel

example := C112_plain asciiTable "perspective" (by decide +kernel)

abbrev sampleEnv : Env Float32.Model := showEnv Float32.Model asciiTable true

/-- The message of a failed parse -/
def messageOf {F : Type} (r : Res ParserError (List (PreDirective F) × Directive F)) : Option String :=
  match r with
  | .err (.Str m) => some m
  | _ => none

theorem err_of_message {F : Type} {r : Res ParserError (List (PreDirective F) × Directive F)} {m : String}
    (h : messageOf r = some m) : r = .err (.Str m) := by
  match r with
  | .err (.Str m') => exact congrArg _ (congrArg _ (Option.some.inj h))
  | .err .Eof | .ok _ | .panic | .diverge => cases h

example : parse sampleEnv "Scale 1 2 3\n \"a\"".toList =
    .err (.Str "(2, 2) parse_predirectives(): expected predirective but got Str(\"a\")") :=
  err_of_message (by decide +kernel)

example := C112_got (showEnv_sane asciiTable true) (showEnv_plain asciiTable true) (C112_readable asciiTable true)
  "Camera 2.5".toList _ ((norm_iff _ _).2 rfl) .string ⟨1, 8⟩ (.Float (Float32.Model.div (f32 5) (f32 2)))
  (err_of_message (by decide +kernel))

/-- `Scale` with two numbers -/
example := C112_count (E := exEnv true) [kw ⟨1, 1⟩ "Scale", ⟨⟨1, 7⟩, .Int 1⟩, ⟨⟨1, 9⟩, .Int 2⟩, kw ⟨2, 1⟩ "WorldBegin"] ⟨1, 1⟩
  "Scale" 3 2 (by decide +kernel) (err_of_message (by decide +kernel))

/-- `LightSource` without its string -/
example := C112_end (E := exEnv true) [kw ⟨1, 1⟩ "WorldBegin", kw ⟨2, 1⟩ "LightSource"]
  "parse_string(): EOF while processing string" (err_of_message (by decide +kernel)) (by simp [eofMessages])

example := C112_end (E := exEnv true) [kw ⟨1, 1⟩ "Identity", kw ⟨2, 1⟩ "ActiveTransform"]
  "parse_identifier(): EOF while processing identifier" (err_of_message (by decide +kernel)) (by simp [eofMessages])

example := C112_end (E := exEnv true) [kw ⟨1, 1⟩ "Identity", kw ⟨2, 1⟩ "Rotate"]
  (floatsHeader ++ "parse_float(): EOF while parsing float") (err_of_message (by decide +kernel)) (by simp [eofMessages])

/-- **C112**, an expectation that fails: a list of three colours with two numbers only, a truth value that is
    none, and a misspelt type are not reported as such; the message only says that no directive starts at some
    token of the parameter. -/
theorem C112_parameter_refuted :
    parse (exEnv true) "Camera \"c\" \"rgb n\" [1 2] WorldBegin WorldEnd".toList =
      .err (.Str "(1, 21) parse_predirectives(): expected predirective but got Int(1)") ∧
    parse (exEnv true) "Camera \"c\" \"bool b\" \"yes\" WorldBegin WorldEnd".toList =
      .err (.Str "(1, 21) parse_predirectives(): expected predirective but got Str(yes)") ∧
    parse (exEnv true) "Camera \"c\" \"intger n\" [1] WorldBegin WorldEnd".toList =
      .err (.Str "(1, 12) parse_predirectives(): expected predirective but got Str(intger n)") :=
  ⟨err_of_message (by decide +kernel), err_of_message (by decide +kernel), err_of_message (by decide +kernel)⟩

example := C112_hidden (E := exEnv true) [kw ⟨1, 1⟩ "Camera", ⟨⟨1, 8⟩, .Str "c"⟩, ⟨⟨1, 12⟩, .Str "bool b"⟩, ⟨⟨1, 21⟩, .Str "yes"⟩]
  "(1, 21) parse_predirectives(): expected predirective but got Str(yes)" (err_of_message (by decide +kernel))
  "parse_bool()" (by decide +kernel) ⟨1, 21⟩ ": expected bool but got yes"

end Pbrt
