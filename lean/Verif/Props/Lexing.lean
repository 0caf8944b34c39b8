import Verif.Proof.LexProps
import Verif.Spec.Concrete

/-!
# Properties C01–C13: the tokenizer

Every theorem is for an arbitrary standard library parameter `E` satisfying `Sane` (ten facts
about character classes, true of Unicode; `exEnv_sane` is an instance) and an arbitrary text.
After each theorem an `example` shows a concrete case that meets its hypotheses.
-/

namespace Pbrt
open Pbrt.Spec Pbrt.Proof

variable {F : Type} {E : Env F}

/-! ### C01 -/

/-- C01: parsing terminates on every text. -/
theorem C01_parse_terminates (hE : Sane E) (input : List Char) : parse E input ≠ .diverge :=
  parse_ne_diverge hE input

/-- C01: no loop and no recursion of the tokenizer makes more than `2 n + 2` steps on a text of
    length `n`: giving more steps changes nothing. -/
theorem C01_tokenize_bound (hE : Sane E) (input : List Char) (steps : Nat)
    (h : steps ≥ 2 * input.length + 2) :
    tokenizeFuel E steps input = tokenize E input ∧ tokenize E input ≠ .diverge :=
  ⟨tokenizeFuel_mono E input h (tokenize_ne_diverge hE input), tokenize_ne_diverge hE input⟩

example := C01_tokenize_bound (exEnv_sane true) "# a\n12 \"b".toList 22 (by decide)

/-- C01: there are at most as many tokens as characters, and no loop and no recursion of the
    parser makes more than `2 n + 2` steps on `n` tokens. -/
theorem C01_parse_bound (hE : Sane E) (input : List Char) (toks : List (Token F))
    (h : tokenize E input = .ok toks) (steps : Nat) (hs : steps ≥ 2 * toks.length + 2) :
    toks.length ≤ input.length ∧
    (parseTokensFuel E steps ⟨toks, 0⟩).1 = parseTokens E toks ∧
    parseTokens E toks ≠ .diverge := by
  refine ⟨?_, parseTokensFuel_stable toks hs, (parseTokens_ne toks).1⟩
  exact Nat.le_trans (lex_length ((tokenize_iff hE input toks).1 h)) (replaceCrlf_length input)

example : tokenize (exEnv true) "Shape \"s\" [ 1 ]".toList =
    .ok [⟨⟨1, 1⟩, .Identifier "Shape"⟩, ⟨⟨1, 7⟩, .Str "s"⟩, ⟨⟨1, 11⟩, .LBracket⟩, ⟨⟨1, 13⟩, .Int 1⟩,
      ⟨⟨1, 15⟩, .RBracket⟩] := by decide +kernel

/-! ### C02 -/

/-- C02: without overflow checks parsing never panics. -/
theorem C02_release_never_panics (hE : Sane E) (hc : E.overflowChecks = false)
    (input : List Char) : parse E input ≠ .panic := by
  intro h
  have := (parse_panic hE h).1
  rw [hc] at this
  exact absurd this (by simp)

/-- C02: if parsing panics, the text contains an integer literal with an exponent, `m e k`, whose
    power `10^k` or value `m * 10^k` does not fit. -/
theorem C02_panic_only_on_overflow (hE : Sane E) (input : List Char)
    (h : parse E input = .panic) :
    E.overflowChecks = true ∧ ∃ a l b, input = a ++ l ++ b ∧ OverflowLit E l :=
  parse_panic hE h

/-- C02: a text without the letter `e` never makes parsing panic. -/
theorem C02_no_e_never_panics (hE : Sane E) (input : List Char) (he : 'e' ∉ input) :
    parse E input ≠ .panic := by
  intro h
  obtain ⟨_, a, l, b, rfl, s, ds, x, k, rfl, _⟩ := parse_panic hE h
  exact he (by simp)

example := C02_no_e_never_panics (exEnv_sane true) "Translat 99999999999999999999 1".toList (by decide)

/-- C02: on no list of tokens whatsoever does the parser itself panic. -/
theorem C02_parser_never_panics (toks : List (Token F)) : parseTokens E toks ≠ .panic :=
  (parseTokens_ne toks).2

/-- The exception of C02 is real. -/
example : parse (exEnv true) "Translate 1e19".toList = .panic ∧
    OverflowLit (exEnv true) "1e19".toList := by
  refine ⟨?_, .none, ['1'], ['1', '9'], 19, rfl, by simp, by unfold IsDigit; decide,
    ?_, by decide, .inl (by unfold Fits; decide)⟩
  · have h : tokenize (exEnv true) "Translate 1e19".toList = .panic := by decide +kernel
    unfold parse
    rw [h]
  exact NumLit.int (E := exEnv true) .none ['1', '9'] (by simp) (by unfold IsDigit; decide)
    (by unfold Fits; decide)

/-! ### C03 -/

/-- C03: writing CRLF for every line feed changes nothing in the result. -/
theorem C03_crlf (hE : Sane E) (t : List Char) (h : NoCrlf t) :
    parse E (toCrlf t) = parse E t ∧ tokenize E (toCrlf t) = tokenize E t := by
  have : tokenize E (toCrlf t) = tokenize E t :=
    tokenize_congr hE (by rw [replaceCrlf_toCrlf, replaceCrlf_id h])
  refine ⟨?_, this⟩
  unfold parse
  rw [this]

example : NoCrlf "a\n\"x\ny\"".toList ∧ toCrlf "a\n\"x\ny\"".toList = "a\r\n\"x\r\ny\"".toList := by
  refine ⟨?_, by decide +kernel⟩
  rintro ⟨a, b, h⟩
  have : '\r' ∈ "a\n\"x\ny\"".toList := by rw [h]; simp
  exact absurd this (by decide +kernel)

/-! ### C04 -/

/-- C04: every token carries the row and column of the first character of its lexeme, and the
    lexemes come in strictly increasing text order. -/
theorem C04_positions (hE : Sane E) (input : List Char) (toks : List (Token F))
    (h : tokenize E input = .ok toks) :
    ∃ text offs, Norm input text ∧ offs.Pairwise (· < ·) ∧
      List.Forall₂ (fun o t => o < text.length ∧ t.pos = posOf (text.take o) ∧
        ∃ l rest, text.drop o = l ++ rest ∧ Lexeme E l t.ty rest) offs toks := by
  obtain ⟨offs, h1, h2⟩ := lex_offsets ((tokenize_iff hE input toks).1 h)
  exact ⟨replaceCrlf input, offs, (norm_iff _ _).2 rfl, h2, h1.imp fun o t ⟨_, h⟩ => h⟩

example : tokenize (exEnv true) "# c\r\n a \"x\ny\" [".toList =
    .ok [⟨⟨2, 2⟩, .Identifier "a"⟩, ⟨⟨2, 4⟩, .Str "x\ny"⟩, ⟨⟨3, 4⟩, .LBracket⟩] := by
  decide +kernel

/-! ### C05 -/

/-- C05: the values of the tokens of a sequence of lexemes do not depend on the separators. -/
theorem C05_separators (hE : Sane E) (ls : List (List Char)) (vs : List (TokenType F))
    (h : List.Forall₂ (fun l v => Lexeme E l v [] ∧ NoCrlf l) ls vs)
    (lead text : List Char) (hlead : Sep E lead) (htext : Layout E ls text) :
    ∃ toks, tokenize E (lead ++ text) = .ok toks ∧ toks.map Token.ty = vs := by
  obtain ⟨hh, ts, hl, ht⟩ := lex_layout hE htext vs (replaceCrlf lead) h
  refine ⟨ts, tokenize_complete hE _ _ ?_, ht⟩
  rw [replaceCrlf_append fun h => hh h.2]
  exact lex_sep (pre := []) (sep_replace hlead) hl

example : ∃ toks, tokenize (exEnv true) (" ".toList ++ "a#\"[\r\n1".toList) = .ok toks ∧
    toks.map Token.ty = [.Identifier "a", .Int 1] := by
  refine C05_separators (exEnv_sane _) ["a".toList, "1".toList] _ ?_ _ _ ?_ ?_
  · refine .cons ⟨?_, by rintro ⟨a, b, h⟩; have := congrArg List.length h; simp at this; omega⟩
      (.cons ⟨?_, by rintro ⟨a, b, h⟩; have := congrArg List.length h; simp at this; omega⟩ .nil)
    · exact .ident 'a' [] [] ⟨by decide, by decide, by decide, by decide⟩ (by simp) (by simp)
    · exact .num ['1'] [] (.Int 1)
        (NumLit.int (E := exEnv true) .none ['1'] (by simp) (by unfold IsDigit; decide)
          (by unfold Fits; decide)) ⟨'1', rfl, by unfold NumStart; decide⟩ (numFollow_nil _)
  · exact .blank _ _ (by unfold Blank; decide) .nil
  · exact .cons ['a'] "#\"[\r\n".toList ['1'] [['1']]
      (.comment "\"[\r".toList [] (by decide) .nil) (by decide) (.one _)

/-! ### C06 -/

/-- C06: quoting a string and tokenizing gives one string token that holds it. -/
theorem C06_quote_roundtrip (hE : Sane E) (s : List Char) :
    tokenize E (quote s) = .ok [⟨⟨1, 1⟩, .Str (String.ofList s)⟩] :=
  tokenize_lexeme hE (.str _ s [] (unesc_quote s)) (noCrlf_of_noLf (quote_noLf s))

/-- C06: every literal denotes the string in which `\n` is a line feed and a backslash before any
    other character is that character. -/
theorem C06_literal (hE : Sane E) (body s : List Char) (h : Unesc body s)
    (hc : NoCrlf ('"' :: body ++ ['"'])) :
    tokenize E ('"' :: body ++ ['"']) = .ok [⟨⟨1, 1⟩, .Str (String.ofList s)⟩] :=
  tokenize_lexeme hE (.str _ s [] h) hc

example : quote "a\"\\\n#é".toList = "\"a\\\"\\\\\\n#é\"".toList := by decide +kernel
example : Unesc "\\n\\t\\\"".toList "\nt\"".toList :=
  .newline _ _ (.other 't' _ _ (by decide) (.other '"' _ _ (by decide) .nil))

/-! ### C07 -/

/-- C07: a text whose last string literal is not closed does not tokenize. -/
theorem C07_unterminated (hE : Sane E) (input a body : List Char) (toks : List (Token F))
    (hi : Norm input (a ++ '"' :: body)) (ha : LexTo E [] a toks ('"' :: body))
    (hb : UnclosedStr body) : ∃ m, tokenize E input = .err (.Str m) := by
  rw [norm_iff] at hi
  have hl := replaceCrlf_length input
  rw [hi, List.length_append, List.length_cons] at hl
  rw [tokenize_lexTo hE hi ha (lexFuel input + 1) (lexFuel input + 1) (by omega) (by omega),
    tokenizeLoop_step, if_neg (by simp), tokenizeOne_quote, tokenizeStr_eq]
  have := strLoop_out (F := F) body.length (lexFuel input + 1) (posOf a) [] (a ++ ['"']) body
    (Nat.le_refl _) (by unfold lexFuel; omega)
  generalize strLoop (F := F) (lexFuel input + 1) (posOf a) [] (St (a ++ ['"']) body) = r at this
  match r, this with
  | (.ok t, s), ⟨b', rest, str, h1, h2, _, _⟩ => exact absurd ⟨b', rest, str, h1, h2⟩ hb
  | (.err (.Str m), s), _ => exact ⟨m, rfl⟩

example : UnclosedStr "ab\\\"".toList ∧ LexTo (exEnv true) [] ['['] [⟨⟨1, 1⟩, .LBracket⟩] "\"ab\\\"".toList := by
  refine ⟨?_, .tok [] ['['] [] .LBracket [] _ (.lbracket _) (.nil _ _)⟩
  rintro ⟨a, b, s, h, hu⟩
  have h : ['a', 'b', '\\', '"'] = a ++ '"' :: b := h
  rcases a with _ | ⟨c₁, _ | ⟨c₂, _ | ⟨c₃, _ | ⟨c₄, a⟩⟩⟩⟩ <;> simp at h
  obtain ⟨rfl, rfl, rfl, rfl⟩ := h
  cases hu with
  | plain _ _ _ _ _ h => cases h with
    | plain _ _ _ _ _ h => cases h with
      | plain _ _ _ _ hb => exact hb rfl

/-! ### C08 -/

/-- The decimal text of an integer: a sign, leading zeros, the digits of the absolute value. -/
def Spec.intText (s : Sign) (zeros n : Nat) : List Char :=
  s.text ++ (List.replicate zeros '0' ++ Nat.toDigits 10 n)

theorem Proof.intText_digits (zeros n : Nat) :
    List.replicate zeros '0' ++ Nat.toDigits 10 n ≠ [] ∧
    (∀ c ∈ List.replicate zeros '0' ++ Nat.toDigits 10 n, IsDigit c) ∧
    decVal (List.replicate zeros '0' ++ Nat.toDigits 10 n) = n := by
  refine ⟨by simp, ?_, ?_⟩
  · intro c hc
    rcases List.mem_append.1 hc with hc | hc
    · rw [(List.mem_replicate.1 hc).2]; unfold IsDigit; decide
    · have := Nat.isDigit_of_mem_toDigits (by decide) (by decide) hc
      simp only [Char.isDigit, Bool.and_eq_true, decide_eq_true_eq, ge_iff_le] at this
      exact this
  · show Nat.ofDigitChars 10 _ 0 = n
    rw [Nat.ofDigitChars_append, Nat.ofDigitChars_replicate_zero, Nat.mul_zero,
      Nat.ofDigitChars_ten_toDigits]

/-- C08: the decimal text of an integer in range, with a sign and leading zeros, is that
    integer. -/
theorem C08_exact (hE : Sane E) (s : Sign) (zeros n : Nat) (h : Fits (s.apply n)) :
    tokenize E (intText s zeros n) = .ok [⟨⟨1, 1⟩, .Int (s.apply n)⟩] := by
  obtain ⟨h1, h2, h3⟩ := intText_digits zeros n
  have := NumLit.int (E := E) s _ h1 h2 (by rw [h3]; exact h)
  rw [h3] at this
  exact tokenize_numLit hE this

/-- C08: the decimal text of an integer outside the range is an error. -/
theorem C08_rejected (hE : Sane E) (s : Sign) (zeros n : Nat) (h : ¬ Fits (s.apply n)) :
    ∃ m, tokenize E (intText s zeros n) = .err (.Str m) := by
  obtain ⟨h1, h2, h3⟩ := intText_digits zeros n
  unfold intText
  generalize List.replicate zeros '0' ++ Nat.toDigits 10 n = ds at h1 h2 h3
  have hb := intBody_of_digits hE h2
  obtain ⟨c, cs, hc, hs⟩ := numStart_text hE (s := s) (.inl ⟨rfl, hb⟩) (by simp [h1]) []
  have hno : NoCrlf (s.text ++ ds) := by
    apply noCrlf_of_noLf
    intro hm
    rcases List.mem_append.1 hm with hm | hm
    · cases s <;> simp [Sign.text] at hm
    · exact absurd (h2 _ hm) (by unfold IsDigit; decide)
  have hfull := (tokenize_num_fail hE (input := s.text ++ ds) (a := []) (ts := []) (c := c) (cs := cs)
    (by rw [replaceCrlf_id hno, ← hc]; simp) (.nil _ _) hs (ds.length + 2)
    (fun fuel hf => by
      rw [← hc]
      exact tokenizeNum_range hE s h1 h2 (by rw [h3]; exact h) fuel [] [] hf (numFollow_nil E))
    (by simp)).2.2 _ rfl
  exact ⟨_, hfull⟩

/-- Every integer has such a text. -/
example (i : Int) : ∃ s n, Sign.apply s n = i :=
  ⟨if i < 0 then .minus else .none, i.natAbs, by
    by_cases h : i < 0 <;> simp [h, Sign.apply] <;> omega⟩
example : intText .plus 2 42 = "+0042".toList ∧ Fits (Sign.plus.apply 42) ∧
    intText .none 0 9223372036854775808 = "9223372036854775808".toList ∧
    ¬ Fits (Sign.none.apply 9223372036854775808) ∧ Fits (Sign.minus.apply 9223372036854775808) := by
  refine ⟨by decide +kernel, ?_, by decide +kernel, ?_, ?_⟩ <;> unfold Fits <;> decide

/-! ### C09 -/

/-- C09: `m e k` with integers `m`, `k >= 0` denotes `m * 10^k` when everything fits. The exponent
    may be any integer literal. -/
theorem C09_integer_exponent (hE : Sane E) (s : Sign) (ds x : List Char) (k : Int) (hne : ds ≠ [])
    (hds : ∀ c ∈ ds, IsDigit c) (hx : NumLit E x (.Int k)) (hk : 0 ≤ k)
    (hm : Fits (s.apply (decVal ds))) (hp : Fits (10 ^ k.toNat))
    (hv : Fits (s.apply (decVal ds) * 10 ^ k.toNat)) :
    tokenize E (s.text ++ ds ++ 'e' :: x) =
      .ok [⟨⟨1, 1⟩, .Int (s.apply (decVal ds) * 10 ^ k.toNat)⟩] := by
  refine tokenize_numLit hE (.intExp s ds x k _ hne hds hm hx hk ⟨10 ^ k.toNat, .inl ⟨?_, ?_⟩, .inl ⟨hv, rfl⟩⟩)
  · rw [Nat.mod_eq_of_lt (by have := pow_fits_lt hp; omega)]; exact hp
  · rw [Nat.mod_eq_of_lt (by have := pow_fits_lt hp; omega)]

theorem Proof.noCrlf_exp (hE : Sane E) {s : Sign} {ds x : List Char} {k : Int}
    (hds : ∀ c ∈ ds, IsDigit c) (hx : NumLit E x (.Int k)) : NoCrlf (s.text ++ ds ++ 'e' :: x) := by
  apply noCrlf_of_noLf
  intro hm
  simp only [List.mem_append, List.mem_cons] at hm
  rcases hm with (hm | hm) | hm | hm
  · cases s <;> simp [Sign.text] at hm
  · exact absurd (hds _ hm) (by unfold IsDigit; decide)
  · exact absurd hm (by decide)
  · exact numLit_noWhite hE hx (hE.space '\n' (by simp)) hm

/-- C09: with overflow checks, a value that does not fit panics (for `k < 2^32`). -/
theorem C09_overflow_panics (hE : Sane E) (hc : E.overflowChecks = true) (s : Sign)
    (ds x : List Char) (k : Int) (hne : ds ≠ []) (hds : ∀ c ∈ ds, IsDigit c)
    (hx : NumLit E x (.Int k)) (hk : 0 ≤ k) (hk' : k < 2 ^ 32) (hm : Fits (s.apply (decVal ds)))
    (hv : ¬ Fits (10 ^ k.toNat) ∨ ¬ Fits (s.apply (decVal ds) * 10 ^ k.toNat)) :
    tokenize E (s.text ++ ds ++ 'e' :: x) = .panic := by
  have hb := intBody_of_digits hE hds
  obtain ⟨c, cs, hcs, hs⟩ := numStart_text hE (s := s) (.inl ⟨rfl, hb⟩) (by simp [hne]) ('e' :: x)
  have hno := noCrlf_exp (s := s) hE hds hx
  exact (tokenize_num_fail hE (a := []) (ts := []) (c := c) (cs := cs)
    (by rw [replaceCrlf_id hno, ← hcs]; simp) (.nil _ _) hs _
    (fun fuel hf => by
      rw [← hcs]
      have := tokenizeNum_overflow hE hc s hne hds hm hx hk hk' hv fuel [] [] (numFollow_nil E) hf
      rw [List.append_nil] at this
      exact this)
    (by simp)).2.1 rfl

example := C09_overflow_panics (exEnv_sane true) rfl .minus ['1', '2'] ['1', '8'] 18 (by simp) (by unfold IsDigit; decide)
  (NumLit.int (E := exEnv true) .none ['1', '8'] (by simp) (by unfold IsDigit; decide) (by unfold Fits; decide))
  (by decide) (by decide) (by unfold Fits; decide) (.inr (by unfold Fits; decide))

/-- C09: without overflow checks, a value that does not fit silently becomes another integer. -/
theorem C09_overflow_wraps (hE : Sane E) (hc : E.overflowChecks = false) (s : Sign)
    (ds x : List Char) (k : Int) (hne : ds ≠ []) (hds : ∀ c ∈ ds, IsDigit c)
    (hx : NumLit E x (.Int k)) (hk : 0 ≤ k) (hm : Fits (s.apply (decVal ds)))
    (hv : ¬ Fits (s.apply (decVal ds) * 10 ^ k.toNat)) :
    ∃ v, tokenize E (s.text ++ ds ++ 'e' :: x) = .ok [⟨⟨1, 1⟩, .Int v⟩] ∧
      v ≠ s.apply (decVal ds) * 10 ^ k.toNat := by
  have mach : ∀ y : Int, ∃ v, Machine E y v := by
    intro y
    by_cases hy : Fits y
    · exact ⟨y, .inl ⟨hy, rfl⟩⟩
    · exact ⟨wrapIsize y, .inr ⟨hy, hc, wrapIsize_fits y⟩⟩
  obtain ⟨p, hp⟩ := mach (10 ^ (k.toNat % 2 ^ 32))
  obtain ⟨v, hv'⟩ := mach (s.apply (decVal ds) * p)
  refine ⟨v, tokenize_numLit hE (.intExp s ds x k v hne hds hm hx hk ⟨p, hp, hv'⟩), ?_⟩
  rintro rfl
  rcases hv' with ⟨h, h'⟩ | ⟨_, _, h, _⟩
  · rw [h'] at hv; exact hv h
  · exact hv h

example := C09_overflow_wraps (exEnv_sane false) rfl .minus ['1', '2'] ['1', '8'] 18 (by simp) (by unfold IsDigit; decide)
  (NumLit.int (E := exEnv false) .none ['1', '8'] (by simp) (by unfold IsDigit; decide) (by unfold Fits; decide))
  (by decide) (by unfold Fits; decide) (by unfold Fits; decide)

/-- C09: the exponent is cut to 32 bits: `1e4294967296` is read as `1` in both build modes. -/
theorem C09_exponent_cut (hE : Sane E) :
    tokenize E "1e4294967296".toList = .ok [⟨⟨1, 1⟩, .Int 1⟩] := by
  have hx := NumLit.int (E := E) .none "4294967296".toList (by decide) (by unfold IsDigit; decide)
    (by unfold Fits; decide)
  exact tokenize_numLit hE (.intExp .none ['1'] _ _ 1 (by simp) (by unfold IsDigit; decide)
    (by unfold Fits; decide) hx (by decide)
    ⟨1, .inl ⟨by unfold Fits; decide, by decide⟩, .inl ⟨by unfold Fits; decide, by decide⟩⟩)

example : tokenize (exEnv true) "-12e2".toList = .ok [⟨⟨1, 1⟩, .Int (-1200)⟩] := by decide +kernel
example : NumLit (exEnv true) ['2'] (.Int 2) ∧ Fits (Sign.minus.apply (decVal ['1', '2']) * 10 ^ 2) :=
  ⟨NumLit.int (E := exEnv true) .none ['2'] (by simp) (by unfold IsDigit; decide)
    (by unfold Fits; decide), by unfold Fits; decide⟩

/-! ### C10 -/

/-- C10: a literal with a decimal point is the value of the standard float parser. -/
theorem C10_decimal (hE : Sane E) (s : Sign) (ds : List Char) (f : F) (hds : FracBody E ds)
    (hf : E.parseFloat (s.kept ++ ds) = .ok f) :
    tokenize E (s.text ++ ds) = .ok [⟨⟨1, 1⟩, .Float f⟩] :=
  tokenize_numLit hE (.frac s ds f hds hf)

/-- C10: a float, or a negative exponent, multiplies the mantissa by ten to that power. -/
theorem C10_exponent (hE : Sane E) (s : Sign) (ds x : List Char) (m : F)
    (hds : IntBody E ds ∨ FracBody E ds) (hne : s.kept ++ ds ≠ [])
    (hm : E.parseFloat (s.kept ++ ds) = .ok m) :
    (∀ f, NumLit E x (.Float f) →
      tokenize E (s.text ++ ds ++ 'e' :: x) = .ok [⟨⟨1, 1⟩, .Float (E.fmul m (E.powf10 f))⟩]) ∧
    (∀ k, NumLit E x (.Int k) → k < 0 ∨ FracBody E ds →
      tokenize E (s.text ++ ds ++ 'e' :: x) =
        .ok [⟨⟨1, 1⟩, .Float (E.fmul m (E.powf10 (E.ofIsize k)))⟩]) := by
  constructor
  · intro f hx
    exact tokenize_numLit hE (.floatExp s ds x m f hne hds hm hx)
  · intro k hx hk
    rcases hds with hds | hds
    · rcases hk with hk | hk
      · exact tokenize_numLit hE (.negExp s ds x m k hne hds hm hx hk)
      · exact tokenize_numLit hE (.fracExp s ds x m k hk hm hx)
    · exact tokenize_numLit hE (.fracExp s ds x m k hds hm hx)

/-- C10: a second decimal point is an error, wherever the number stands. -/
theorem C10_second_point (hE : Sane E) (input a z : List Char) (toks : List (Token F)) (s : Sign)
    (ds : List Char) (hds : FracBody E ds) (hi : Norm input (a ++ (s.text ++ ds ++ '.' :: z)))
    (ha : LexTo E [] a toks (s.text ++ ds ++ '.' :: z)) :
    ∃ m, tokenize E input = .err (.Str m) := by
  rw [norm_iff] at hi
  obtain ⟨m, hm⟩ := tokenizeNum_twoPoints hE s hds a z
  obtain ⟨c, cs, hc, hs⟩ := numStart_text hE (s := s) (.inr ⟨rfl, hds⟩)
    (by obtain ⟨x, y, rfl, _⟩ := hds; simp) ('.' :: z)
  rw [hc] at hi ha
  exact ⟨m, (tokenize_num_fail hE hi ha hs _ (fun fuel hf => by rw [← hc]; exact hm fuel hf)
    (by simp)).2.2 m rfl⟩

/-- C10: a literal whose conversion fails is an error, never some other value. -/
theorem C10_conversion_error (hE : Sane E) (s : Sign) (ds : List Char) (e : String)
    (hds : FracBody E ds) (hf : E.parseFloat (s.kept ++ ds) = .error e) (hc : NoCrlf (s.text ++ ds)) :
    tokenize E (s.text ++ ds) = .err (.Str e) := by
  have hne : ds ≠ [] := by obtain ⟨x, y, rfl, _⟩ := hds; simp
  obtain ⟨c, cs, hcs, hs⟩ := numStart_text hE (s := s) (.inr ⟨rfl, hds⟩) (by simp [hne]) []
  refine (tokenize_num_fail hE (a := []) (ts := []) (c := c) (cs := cs)
    (by rw [replaceCrlf_id hc, ← hcs]; simp) (.nil _ _) hs (ds.length + 2)
    (fun fuel hfu => ?_) (r := .err (.Str e)) (s := St (s.text ++ ds) []) (by simp)).2.2 e rfl
  rw [← hcs, tokenizeNum_plain hE s (.inr ⟨rfl, hds⟩) hne fuel [] [] hfu (numFollow_nil E)]
  unfold numFinish
  rw [if_neg (by simp [hne]), if_pos rfl, bind_err (parseFloatM_err hf _)]
  rfl

/-- C10: a sign without digits is an error: `body` is nothing or a lone point. The standard float
    parser rejects strings without digits. -/
theorem C10_no_digits (hE : Sane E)
    (hpf : ∀ xs ∈ [['-'], ['.'], ['-', '.']], ∃ e, E.parseFloat xs = .error e)
    (input a z : List Char) (toks : List (Token F)) (s : Sign) (body : List Char)
    (hb : body = [] ∨ body = ['.']) (hne : s.text ++ body ≠ [])
    (hz : ∀ c, z.head? = some c → E.isNumeric c = false ∧ c ≠ '.' ∧ c ≠ '+' ∧ c ≠ '-')
    (hi : Norm input (a ++ (s.text ++ body ++ z)))
    (ha : LexTo E [] a toks (s.text ++ body ++ z)) :
    ∀ us, tokenize E input ≠ .ok us := by
  rw [norm_iff] at hi
  obtain ⟨b, hbody⟩ : ∃ b, Body E b body := by
    rcases hb with rfl | rfl
    · exact ⟨false, .inl ⟨rfl, by intro c hc; simp at hc⟩⟩
    · exact ⟨true, .inr ⟨rfl, [], [], rfl, by intro c hc; simp at hc, by intro c hc; simp at hc⟩⟩
  obtain ⟨c, cs, hc, hs⟩ := numStart_text hE hbody hne z
  -- what the number reader does
  have hnum : ∀ fuel t, (tokenizeNum E fuel (St a (s.text ++ body ++ z))).1 ≠ .ok t := by
    intro fuel t h
    have hint : parseIsize (s.kept ++ body) = none := by
      rcases hb with rfl | rfl <;> cases s <;> rfl
    have hflt : s.kept ++ body ≠ [] → ∃ e, E.parseFloat (s.kept ++ body) = .error e := by
      intro hk
      apply hpf
      rcases hb with rfl | rfl <;> cases s <;> simp [Sign.kept] at hk ⊢
    have hmore := FLe.mono (x := fun k => tokenizeNum E k) (fun k => (fle_num E k).1)
      (Nat.le_max_left fuel ((0 + 1) + body.length + 1)) (St a (s.text ++ body ++ z))
      (by rw [h]; simp)
    obtain ⟨f, hf⟩ : ∃ f, max fuel ((0 + 1) + body.length + 1) = (f + 1) + body.length + 1 :=
      ⟨max fuel ((0 + 1) + body.length + 1) - body.length - 2, by omega⟩
    have hmore' : (tokenizeNum E (f + 1 + body.length + 1) (St a (s.text ++ body ++ z))).1 = .ok t := by
      rw [← hf, ← h]; exact congrArg Prod.fst hmore
    rw [List.append_assoc, tokenizeNum_start, numLoop_body hE hbody] at hmore'
    · cases z with
      | nil =>
        rw [numLoop_end _ _ _ _ _ _ (numFollow_nil E)] at hmore'
        unfold numFinish at hmore'
        by_cases hk : s.kept ++ body = []
        · rw [if_pos hk, bind_ok (tkPos_St ..)] at hmore'
          simp [M.throw_apply] at hmore'
        · rw [if_neg hk] at hmore'
          obtain ⟨e, he⟩ := hflt hk
          cases b
          · rw [if_neg (by simp), bind_err (parseIntM_err hint _)] at hmore'
            simp at hmore'
          · rw [if_pos rfl, bind_err (parseFloatM_err he _)] at hmore'
            simp at hmore'
      | cons d z =>
        obtain ⟨h1, h2, _⟩ := hz d rfl
        by_cases hd : d = 'e'
        · subst hd
          by_cases hk : s.kept ++ body = []
          · rw [hk, numLoop_exp_err hE] at hmore'
            simp at hmore'
          · rw [numLoop_exp hE _ _ _ _ _ _ hk] at hmore'
            obtain ⟨e, he⟩ := hflt hk
            rcases hr : tokenizeNum E f (St (a ++ s.text ++ body ++ ['e']) z) with ⟨r, s'⟩
            cases r with
            | ok t' =>
              rw [bind_ok hr] at hmore'
              have key : ∀ x : TokenType F, ((match x with
                  | .Float f => do
                    let m ← parseFloatM E (s.kept ++ body)
                    pure ⟨posOf a, .Float (E.fmul m (E.powf10 f))⟩
                  | .Int i =>
                    if i ≥ 0 ∧ b = false then do
                      let m ← parseIntM E (s.kept ++ body)
                      let p ← pow10M E i
                      let v ← isizeOp E (m * p)
                      pure ⟨posOf a, .Int v⟩
                    else do
                      let m ← parseFloatM E (s.kept ++ body)
                      pure ⟨posOf a, .Float (E.fmul m (E.powf10 (E.ofIsize i)))⟩
                  | _ => M.throw (noNumber (posOf a)) : TM (Token F)) s').1 ≠ .ok t := by
                intro x
                cases x with
                | Float f =>
                  show ((parseFloatM E (s.kept ++ body) >>= fun m =>
                    pure ⟨posOf a, .Float (E.fmul m (E.powf10 f))⟩ : TM (Token F)) s').1 ≠ _
                  rw [bind_err (parseFloatM_err he _)]; simp
                | Int i =>
                  by_cases hi : i ≥ 0 ∧ b = false
                  · show ((if _ then _ else _ : TM (Token F)) _).1 ≠ _
                    rw [if_pos hi, bind_err (parseIntM_err hint _)]; simp
                  · show ((if _ then _ else _ : TM (Token F)) _).1 ≠ _
                    rw [if_neg hi, bind_err (parseFloatM_err he _)]; simp
                | _ => simp [M.throw_apply]
              exact key _ hmore'
            | err e => rw [bind_err hr] at hmore'; simp at hmore'
            | panic => rw [bind_panic hr] at hmore'; simp at hmore'
            | diverge => rw [bind_diverge hr] at hmore'; simp at hmore'
        · rw [numLoop_end _ _ _ _ _ _ (by
            intro x hx; simp at hx; subst hx; exact ⟨h1, h2, hd⟩)] at hmore'
          unfold numFinish at hmore'
          by_cases hk : s.kept ++ body = []
          · rw [if_pos hk, bind_ok (tkPos_St ..)] at hmore'
            simp [M.throw_apply] at hmore'
          · rw [if_neg hk] at hmore'
            obtain ⟨e, he⟩ := hflt hk
            cases b
            · rw [if_neg (by simp), bind_err (parseIntM_err hint _)] at hmore'
              simp at hmore'
            · rw [if_pos rfl, bind_err (parseFloatM_err he _)] at hmore'
              simp at hmore'
    · apply body_head hE hbody
      constructor
      · intro h'; exact (hz _ h').2.2.2 rfl
      · intro h'; exact (hz _ h').2.2.1 rfl
  rw [hc] at hi ha hnum
  -- the fuel does not matter, so the reader has one result
  have hst : ∀ fuel, fuel ≥ 2 * (c :: cs).length + 2 →
      tokenizeNum E fuel (St a (c :: cs)) = tokenizeNum E (2 * (c :: cs).length + 2) (St a (c :: cs)) := by
    intro fuel hf
    refine FLe.mono (x := fun k => tokenizeNum E k) (fun k => (fle_num E k).1) hf _ ?_
    intro hd
    have := tokenizeNum_out hE _ (2 * (c :: cs).length + 2) a (c :: cs) (Nat.le_refl _) (Nat.le_refl _)
    generalize tokenizeNum E (2 * (c :: cs).length + 2) (St a (c :: cs)) = r at this hd
    obtain ⟨r, s⟩ := r
    simp only at hd; subst hd
    exact this
  exact (tokenize_num_fail hE hi ha hs _ (r := (tokenizeNum E (2 * (c :: cs).length + 2) (St a (c :: cs))).1)
    (s := (tokenizeNum E (2 * (c :: cs).length + 2) (St a (c :: cs))).2)
    (fun fuel hf => hst fuel hf) (fun t => hnum _ t)).1

example : FracBody (exEnv true) "1.25".toList ∧
    (exEnv true).parseFloat (Sign.minus.kept ++ "1.25".toList) = .ok (-5 / 4) ∧
    (∀ xs ∈ [['-'], ['.'], ['-', '.']], ∃ e, (exEnv true).parseFloat xs = .error e) := by
  refine ⟨⟨['1'], ['2', '5'], rfl, by unfold IntBody; decide, by unfold IntBody; decide⟩, by decide +kernel, ?_⟩
  intro xs hxs
  refine ⟨"invalid float literal", ?_⟩
  simp only [List.mem_cons, List.not_mem_nil, or_false] at hxs
  rcases hxs with rfl | rfl | rfl <;> decide +kernel
example : tokenize (exEnv true) "+1.5e-1".toList = .ok [⟨⟨1, 1⟩, .Float (3 / 20)⟩] ∧
    tokenize (exEnv true) "1e-2e1".toList = .ok [⟨⟨1, 1⟩, .Float (1 / 100000000000000000000)⟩] := by
  constructor <;> decide +kernel
example : (∃ m, tokenize (exEnv true) "[ 1.2.3".toList = .err (.Str m)) ∧
    (∃ m, tokenize (exEnv true) "+".toList = .err (.Str m)) ∧
    (∃ m, tokenize (exEnv true) "-. ]".toList = .err (.Str m)) :=
  ⟨⟨"(1, 6) tokenize_num(): unexpected char '.'", by decide +kernel⟩,
   ⟨"(1, 2) tokenize_num(): no number", by decide +kernel⟩,
   ⟨"invalid float literal", by decide +kernel⟩⟩

/-! ### C11 -/

/-- C11: the tokenizer accepts exactly the lexical grammar, with these tokens. -/
theorem C11_grammar (hE : Sane E) (input : List Char) (toks : List (Token F)) :
    tokenize E input = .ok toks ↔ ∃ text, Norm input text ∧ Lex E [] text toks := by
  rw [tokenize_iff hE]
  constructor
  · intro h; exact ⟨_, (norm_iff _ _).2 rfl, h⟩
  · rintro ⟨text, h1, h2⟩
    rw [norm_iff] at h1
    rw [h1]; exact h2

/-- C11: the grammar is unambiguous. -/
theorem C11_deterministic (hE : Sane E) (text : List Char) (ts us : List (Token F)) (h : NoCrlf text)
    (h1 : Lex E [] text ts) (h2 : Lex E [] text us) : ts = us := by
  have e1 := tokenize_complete hE text ts (by rw [replaceCrlf_id h]; exact h1)
  have e2 := tokenize_complete hE text us (by rw [replaceCrlf_id h]; exact h2)
  rw [e1] at e2
  injection e2

/-- C11: a text outside the grammar is an error (or panics on an overflowing literal). -/
theorem C11_rejects (hE : Sane E) (input : List Char)
    (h : ∀ text toks, Norm input text → ¬ Lex E [] text toks) :
    (∃ m, tokenize E input = .err (.Str m)) ∨ tokenize E input = .panic := by
  have ho := tokenize_out hE input
  generalize hr : tokenize E input = r at ho
  match r, ho with
  | .ok ts, ho => exact absurd ho (h _ ts ((norm_iff _ _).2 rfl))
  | .err (.Str m), _ => exact .inl ⟨m, rfl⟩
  | .panic, _ => exact .inr rfl

example : tokenize (exEnv true) "abc1[".toList =
    .ok [⟨⟨1, 1⟩, .Identifier "abc1"⟩, ⟨⟨1, 5⟩, .LBracket⟩] := by decide +kernel
example : ∃ m, tokenize (exEnv true) "a$".toList = .err (.Str m) :=
  ⟨"(1, 2) tokenize_one(): unexpected char '$'", by decide +kernel⟩

/-! ### C12 -/

/-- Move a token down by `n` rows. -/
def Spec.down (n : Nat) (t : Token F) : Token F := ⟨⟨t.pos.r + n, t.pos.c⟩, t.ty⟩

/-- C12: tokenizing is compositional at line boundaries.  `(a ++ "\n").count '\n'` is the number
    of lines of `a`. -/
theorem C12_lines (hE : Sane E) (a b : List Char) (ta : List (Token F))
    (ha : tokenize E a = .ok ta) :
    (∀ tb, tokenize E b = .ok tb →
      tokenize E (a ++ '\n' :: b) = .ok (ta ++ tb.map (down ((a ++ ['\n']).count '\n')))) ∧
    ((∀ tb, tokenize E b ≠ .ok tb) → ∀ t, tokenize E (a ++ '\n' :: b) ≠ .ok t) := by
  rw [tokenize_iff hE] at ha
  -- the normalised text and its first part
  obtain ⟨a', h1, h2, h3⟩ : ∃ a', replaceCrlf (a ++ '\n' :: b) = (a' ++ ['\n']) ++ replaceCrlf b ∧
      Lex E [] a' ta ∧ (a' ++ ['\n']).count '\n' = (a ++ ['\n']).count '\n' := by
    have cnt : ∀ t : List Char, (replaceCrlf t).count '\n' = t.count '\n' := by
      intro t
      fun_induction replaceCrlf t with
      | case1 cs ih => simp [ih]
      | case2 c cs h ih => simp [List.count_cons, ih]
      | case3 => rfl
    by_cases hcr : a.getLast? = some '\r'
    · obtain ⟨a₀, rfl⟩ : ∃ a₀, a = a₀ ++ ['\r'] := by
        rcases List.eq_nil_or_concat a with rfl | ⟨x, c, rfl⟩
        · simp at hcr
        · rw [List.concat_eq_append] at hcr ⊢
          simp at hcr
          exact ⟨x, by rw [hcr]⟩
      rw [replaceCrlf_append (by simp)] at ha
      refine ⟨replaceCrlf a₀, ?_, lex_dropCr hE ha _ rfl, ?_⟩
      · rw [List.append_assoc, replaceCrlf_append (by simp)]
        simp [replaceCrlf]
      · simp [List.count_append, cnt]
    · refine ⟨replaceCrlf a, ?_, ha, ?_⟩
      · rw [replaceCrlf_append (fun h => hcr h.1), replaceCrlf_cons (by simp)]
        simp
      · simp [List.count_append, cnt]
  have key := fun us => tokenize_lexTo_ok hE h1 (lexTo_of_lex hE h2 (replaceCrlf b)) us
  constructor
  · intro tb hb
    rw [tokenize_iff hE] at hb
    rw [key]
    have := lex_shift a' hb
    rw [h3] at this
    exact ⟨_, rfl, this⟩
  · intro hb t ht
    rw [key] at ht
    obtain ⟨us', rfl, h⟩ := ht
    obtain ⟨tb, htb⟩ := lex_unshift a' h [] rfl
    exact hb tb ((tokenize_iff hE b tb).2 htb)

example : tokenize (exEnv true) "# a\nb".toList = .ok [⟨⟨2, 1⟩, .Identifier "b"⟩] ∧
    tokenize (exEnv true) "c\n1".toList = .ok [⟨⟨1, 1⟩, .Identifier "c"⟩, ⟨⟨2, 1⟩, .Int 1⟩] ∧
    tokenize (exEnv true) "# a\nb\nc\n1".toList = .ok [⟨⟨2, 1⟩, .Identifier "b"⟩,
      ⟨⟨3, 1⟩, .Identifier "c"⟩, ⟨⟨4, 1⟩, .Int 1⟩] := by
  refine ⟨?_, ?_, ?_⟩ <;> decide +kernel

/-! ### C13 -/

/-- C13: every tokenizer error is a number conversion error or starts with the position of a
    character of the text or the position just after it. -/
theorem C13_error_positions (hE : Sane E) (input : List Char) (e : TokenizerError)
    (h : tokenize E input = .err e) :
    ∃ m, e = .Str m ∧ (ConvErr E m ∨ ∃ text a b txt, Norm input text ∧ text = a ++ b ∧
      m = (posOf a).fmt ++ txt) := by
  have ho := tokenize_out hE input
  rw [h] at ho
  cases e with
  | Eof => exact ho.elim
  | Str m =>
    refine ⟨m, rfl, ?_⟩
    rcases ho with ⟨a, b, txt, h1, h2⟩ | ho
    · exact .inr ⟨_, a, b, txt, (norm_iff _ _).2 rfl, h1, by simpa using h2⟩
    · exact .inl ho

example : tokenize (exEnv true) "a\n \"x".toList =
    .err (.Str ("(2, 4) tokenize_str(): EOF while processing string")) ∧
    (posOf "a\n \"x".toList).fmt = "(2, 4)" := by
  constructor <;> decide +kernel

end Pbrt
