import Verif.Proof.LexText
import Verif.Proof.ParseDir

/-!
# Lemmas for the theorems about the tokenizer
-/

namespace Pbrt.Proof
open Pbrt.Spec

variable {F : Type}

/-- A text has at least as many characters as tokens. -/
theorem lex_length {E : Env F} {pre text : List Char} {ts : List (Token F)}
    (h : Lex E pre text ts) : ts.length ≤ text.length := by
  induction h with
  | eof => simp
  | blank => simp; omega
  | comment => simp; omega
  | lastComment => simp
  | tok pre l rest v ts hl h ih =>
    have := List.length_pos_iff.2 (lexeme_ne_nil hl)
    simp; omega

/-- Offsets of the tokens. -/
theorem lex_offsets {E : Env F} {pre text : List Char} {ts : List (Token F)}
    (h : Lex E pre text ts) :
    ∃ offs : List Nat, List.Forall₂ (fun o t => pre.length ≤ o ∧ o < (pre ++ text).length ∧
        t.pos = posOf ((pre ++ text).take o) ∧
        ∃ l rest, (pre ++ text).drop o = l ++ rest ∧ Lexeme E l t.ty rest) offs ts ∧
      offs.Pairwise (· < ·) := by
  have weak : ∀ {pre pre' all : List Char} {offs : List Nat} {ts : List (Token F)},
      pre'.length ≤ pre.length →
      List.Forall₂ (fun o t => pre.length ≤ o ∧ o < all.length ∧
        t.pos = posOf (all.take o) ∧
        ∃ l rest, all.drop o = l ++ rest ∧ Lexeme E l t.ty rest) offs ts →
      List.Forall₂ (fun o t => pre'.length ≤ o ∧ o < all.length ∧
        t.pos = posOf (all.take o) ∧
        ∃ l rest, all.drop o = l ++ rest ∧ Lexeme E l t.ty rest) offs ts := by
    intro pre pre' all offs ts hle h
    exact h.imp fun o t ⟨h1, h2⟩ => ⟨Nat.le_trans hle h1, h2⟩
  induction h with
  | eof => exact ⟨[], .nil, .nil⟩
  | blank pre c cs ts hc h ih =>
    obtain ⟨offs, h1, h2⟩ := ih
    rw [List.append_assoc] at h1
    exact ⟨offs, weak (by simp) h1, h2⟩
  | comment pre body cs ts hb h ih =>
    obtain ⟨offs, h1, h2⟩ := ih
    rw [show pre ++ '#' :: body ++ ['\n'] ++ cs = pre ++ ('#' :: body ++ '\n' :: cs) by simp] at h1
    exact ⟨offs, weak (by simp) h1, h2⟩
  | lastComment => exact ⟨[], .nil, .nil⟩
  | tok pre l rest v ts hl h ih =>
    obtain ⟨offs, h1, h2⟩ := ih
    rw [List.append_assoc] at h1
    have hp := List.length_pos_iff.2 (lexeme_ne_nil hl)
    refine ⟨pre.length :: offs, .cons ⟨Nat.le_refl _, by simp; omega, by simp, l, rest, by simp, hl⟩
      (weak (by simp) h1), ?_⟩
    refine List.pairwise_cons.2 ⟨?_, h2⟩
    intro o ho
    clear h2 h
    induction h1 with
    | nil => simp at ho
    | cons h1 _ ih =>
      rcases List.mem_cons.1 ho with rfl | ho
      · have := h1.1
        simp at this
        omega
      · exact ih ho

theorem parse_ne_diverge {E : Env F} (hE : Sane E) (input : List Char) :
    parse E input ≠ .diverge := by
  have h1 := tokenize_out hE input
  unfold parse
  generalize tokenize E input = r at h1
  match r, h1 with
  | .ok ts, _ =>
    intro h
    have := parseTokensFuel_out E ts _ (Nat.le_refl _)
    simp only [parseTokens] at h
    rw [h] at this
    exact this
  | .err (.Str m), _ => simp
  | .panic, _ => simp

theorem tokenize_ne_diverge {E : Env F} (hE : Sane E) (input : List Char) :
    tokenize E input ≠ .diverge := by
  have h1 := tokenize_out hE input
  intro h
  rw [h] at h1
  exact h1

theorem parseTokens_ne {E : Env F} (ts : List (Token F)) :
    parseTokens E ts ≠ .diverge ∧ parseTokens E ts ≠ .panic := by
  have := parseTokensFuel_out E ts _ (Nat.le_refl _)
  constructor
  · intro h
    rw [parseTokens] at h
    rw [h] at this
    exact this
  · intro h
    rw [parseTokens] at h
    rw [h] at this
    exact this

theorem parseTokensFuel_stable {E : Env F} (ts : List (Token F)) {fuel : Nat}
    (hf : fuel ≥ parseFuel ts) : (parseTokensFuel E fuel ⟨ts, 0⟩).1 = parseTokens E ts := by
  have := FLe.mono (x := fun k => parseTokensFuel E k) (fun k => fle_parseTokens E k) hf ⟨ts, 0⟩
    (parseTokens_ne ts).1
  exact congrArg Prod.fst this

theorem overflowLit_noLf {E : Env F} (hE : Sane E) {l : List Char} (h : OverflowLit E l) :
    '\n' ∉ l := by
  obtain ⟨s, ds, x, k, rfl, hne, hds, hx, _⟩ := h
  have hn : E.isWhitespace '\n' = true := hE.space _ (by simp)
  intro hm
  simp only [List.mem_append, List.mem_cons] at hm
  rcases hm with (hm | hm) | hm | hm
  · cases s <;> simp [Sign.text] at hm
  · have := hds _ hm
    exact absurd this (by unfold IsDigit; decide)
  · exact absurd hm (by decide)
  · exact numLit_noWhite hE hx hn hm

theorem tokenize_panic {E : Env F} (hE : Sane E) {input : List Char}
    (h : tokenize E input = .panic) :
    E.overflowChecks = true ∧ ∃ a l b, input = a ++ l ++ b ∧ OverflowLit E l := by
  have h1 := tokenize_out hE input
  rw [h] at h1
  obtain ⟨hc, a, l, b, he, hl⟩ := h1
  rw [List.append_assoc] at he
  obtain ⟨x, t', rfl, h2⟩ := replaceCrlf_suffix _ _ _ he
  obtain ⟨b', rfl⟩ := replaceCrlf_prefix _ _ _ (overflowLit_noLf hE hl) h2
  exact ⟨hc, x, l, b', by simp, hl⟩

theorem parse_panic {E : Env F} (hE : Sane E) {input : List Char} (h : parse E input = .panic) :
    E.overflowChecks = true ∧ ∃ a l b, input = a ++ l ++ b ∧ OverflowLit E l := by
  apply tokenize_panic hE
  unfold parse at h
  have h1 := tokenize_out hE input
  generalize tokenize E input = r at h1 h
  match r, h1, h with
  | .ok ts, _, h => exact absurd h (parseTokens_ne ts).2
  | .panic, _, _ => rfl

/-- The result depends on the normalised text only. -/
theorem tokenize_congr {E : Env F} (hE : Sane E) {s t : List Char}
    (h : replaceCrlf s = replaceCrlf t) : tokenize E s = tokenize E t := by
  have key : ∀ u : List Char, ∀ n, n ≥ lexFuel u → tokenizeFuel E n u = tokenize E u := by
    intro u n hn
    exact tokenizeFuel_mono E u hn (tokenize_ne_diverge hE u)
  rw [← key s (max (lexFuel s) (lexFuel t)) (Nat.le_max_left _ _),
    ← key t (max (lexFuel s) (lexFuel t)) (Nat.le_max_right _ _)]
  unfold tokenizeFuel
  rw [new_eq, new_eq, h]

/-! ### Strings -/

theorem unesc_quote (s : List Char) :
    Unesc (s.flatMap fun c => if c = '"' ∨ c = '\\' then ['\\', c]
      else if c = '\n' then ['\\', 'n'] else [c]) s := by
  induction s with
  | nil => exact .nil
  | cons c s ih =>
    rw [List.flatMap_cons]
    by_cases h1 : c = '"' ∨ c = '\\'
    · rw [if_pos h1]
      exact .other c _ _ (by rcases h1 with rfl | rfl <;> decide) ih
    · rw [if_neg h1]
      by_cases h2 : c = '\n'
      · rw [if_pos h2, h2]; exact .newline _ _ ih
      · rw [if_neg h2]
        simp only [not_or] at h1
        exact .plain c _ _ h1.1 h1.2 ih

theorem quote_noLf (s : List Char) : '\n' ∉ quote s := by
  unfold quote
  simp only [List.cons_append, List.mem_cons, List.mem_append, List.mem_flatMap, List.not_mem_nil,
    or_false, not_or]
  refine ⟨by decide, ?_, by decide⟩
  rintro ⟨c, _, hc⟩
  by_cases h1 : c = '"' ∨ c = '\\'
  · rw [if_pos h1] at hc
    rcases h1 with rfl | rfl <;> exact absurd hc (by decide)
  · rw [if_neg h1] at hc
    by_cases h2 : c = '\n'
    · rw [if_pos h2] at hc; exact absurd hc (by decide)
    · rw [if_neg h2] at hc
      simp at hc
      exact h2 hc.symm

theorem tokenize_lexeme {E : Env F} (hE : Sane E) {l : List Char} {v : TokenType F}
    (h : Lexeme E l v []) (hc : NoCrlf l) : tokenize E l = .ok [⟨⟨1, 1⟩, v⟩] := by
  apply tokenize_complete hE
  rw [replaceCrlf_id hc]
  have := Lex.tok (E := E) [] l [] v [] h (.eof _)
  rwa [List.append_nil] at this

theorem numLit_noCrlf {E : Env F} (hE : Sane E) {l : List Char} {v : TokenType F}
    (h : NumLit E l v) : NoCrlf l :=
  noCrlf_of_noLf (numLit_noWhite hE h (hE.space _ (by simp)))

theorem numLit_head {E : Env F} (hE : Sane E) {l : List Char} {v : TokenType F}
    (h : NumLit E l v) : ∃ c, l.head? = some c ∧ (NumStart E c ∨ c = 'e') := by
  cases l with
  | nil => exact absurd rfl (numLit_ne_nil h)
  | cons c l =>
    refine ⟨c, rfl, ?_⟩
    have nbr : E.isNumeric c = true ∨ c ∈ ['-', '+', '.'] → NumStart E c := by
      intro hc
      refine ⟨hc, ?_⟩
      intro hm
      have hf : E.isNumeric c = false := (hE.punct c (by
        simp only [List.mem_cons, List.not_mem_nil, or_false] at hm ⊢
        rcases hm with h | h | h | h <;> simp [h])).1
      rcases hc with hc | hc
      · rw [hf] at hc; exact absurd hc (by simp)
      · simp only [List.mem_cons, List.not_mem_nil, or_false] at hc hm
        rcases hc with rfl | rfl | rfl <;> revert hm <;> decide
    rcases numLit_chars hE h c (by simp) with h' | h'
    · exact .inl (nbr (.inl h'))
    · simp only [List.mem_cons, List.not_mem_nil, or_false] at h'
      rcases h' with rfl | rfl | rfl | rfl
      · exact .inl (nbr (.inr (by simp)))
      · exact .inr rfl
      · exact .inl (nbr (.inr (by simp)))
      · exact .inl (nbr (.inr (by simp)))

theorem numLit_not_e {E : Env F} (hE : Sane E) {l : List Char} {v : TokenType F}
    (h : NumLit E l v) : l.head? ≠ some 'e' := by
  have he := sane_e hE
  have body : ∀ (s : Sign) (ds r : List Char), s.kept ++ ds ≠ [] →
      (∀ c, ds.head? = some c → E.isNumeric c = true ∨ c = '.') →
      (s.text ++ ds ++ r).head? ≠ some 'e' := by
    intro s ds r hne hh
    cases s with
    | plus => simp [Sign.text]
    | minus => simp [Sign.text]
    | none =>
      cases ds with
      | nil => simp [Sign.kept] at hne
      | cons c ds =>
        simp only [Sign.text, List.nil_append, List.cons_append, List.head?_cons, ne_eq,
          Option.some.injEq]
        rintro rfl
        rcases hh 'e' rfl with h | h
        · rw [he] at h; exact absurd h (by simp)
        · exact absurd h (by decide)
  have ib : ∀ ds, IntBody E ds → ∀ c, ds.head? = some c → E.isNumeric c = true ∨ c = '.' :=
    fun ds h c hc => .inl (h c (List.mem_of_mem_head? (by rw [hc]; rfl)))
  have fb : ∀ ds, FracBody E ds → ∀ c, ds.head? = some c → E.isNumeric c = true ∨ c = '.' := by
    rintro ds ⟨a, b, rfl, ha, hb⟩ c hc
    cases a with
    | nil => simp at hc; exact .inr hc.symm
    | cons d a => simp at hc; subst hc; exact .inl (ha d (by simp))
  cases h with
  | int s ds hne hds _ =>
    have := body s ds [] (by simp [hne]) (ib _ (intBody_of_digits hE hds))
    rwa [List.append_nil] at this
  | frac s ds f hds _ =>
    have := body s ds [] (kept_ne_of_frac hds) (fb _ hds)
    rwa [List.append_nil] at this
  | intExp s ds x k v hne hds => exact body s ds _ (by simp [hne]) (ib _ (intBody_of_digits hE hds))
  | negExp s ds x m k hne hds => exact body s ds _ hne (ib _ hds)
  | fracExp s ds x m k hds => exact body s ds _ (kept_ne_of_frac hds) (fb _ hds)
  | floatExp s ds x m f hne hds =>
    rcases hds with hds | hds
    · exact body s ds _ hne (ib _ hds)
    · exact body s ds _ hne (fb _ hds)

/-- Every number literal is a lexeme. -/
theorem lexeme_of_numLit {E : Env F} (hE : Sane E) {l rest : List Char} {v : TokenType F}
    (h : NumLit E l v) (hr : NumFollow E rest) : Lexeme E l v rest := by
  obtain ⟨c, hc, hs⟩ := numLit_head hE h
  rcases hs with hs | rfl
  · exact .num l rest v h ⟨c, hc, hs⟩ hr
  · exact absurd hc (numLit_not_e hE h)

theorem numFollow_nil (E : Env F) : NumFollow E [] := by intro c hc; simp at hc

theorem tokenize_numLit {E : Env F} (hE : Sane E) {l : List Char} {v : TokenType F}
    (h : NumLit E l v) : tokenize E l = .ok [⟨⟨1, 1⟩, v⟩] :=
  tokenize_lexeme hE (lexeme_of_numLit hE h (numFollow_nil E)) (numLit_noCrlf hE h)

/-! ### Texts whose next lexeme is a number -/

/-- The outcome of the whole text if the number reader fails. -/
theorem tokenize_num_fail {E : Env F} (hE : Sane E) {input a : List Char} {ts : List (Token F)}
    {c : Char} {cs : List Char} (hi : replaceCrlf input = a ++ c :: cs)
    (h : LexTo E [] a ts (c :: cs)) (hs : NumStart E c) (k : Nat)
    {r : Res TokenizerError (Token F)} {s : Tokenizer}
    (ho : ∀ fuel, fuel ≥ k → tokenizeNum E fuel (St a (c :: cs)) = (r, s))
    (hr : ∀ t, r ≠ .ok t) :
    (∀ us, tokenize E input ≠ .ok us) ∧ (r = .panic → tokenize E input = .panic) ∧
    (∀ m, r = .err (.Str m) → tokenize E input = .err (.Str m)) := by
  have hl := replaceCrlf_length input
  have e := tokenize_lexTo hE hi h (k + lexFuel input + 1) (lexFuel input + 1) (by omega) (by omega)
  rw [tokenizeLoop_step, if_neg (by simp), tokenizeOne_other _ _ _ _ hs.2, if_pos, ho _ (by omega)]
    at e
  · rw [e]
    cases r with
    | ok t => exact absurd rfl (hr t)
    | err x =>
      cases x with
      | Str m => exact ⟨by simp, by simp, fun m' hm => by simpa using hm⟩
      | Eof =>
        exfalso
        have := tokenizeNum_out hE _ (max k (2 * (c :: cs).length + 2)) a (c :: cs) (Nat.le_refl _)
          (by simp only [List.length_cons] at *; omega)
        rw [ho _ (by omega)] at this
        exact this
    | panic => exact ⟨by simp, by simp, by simp⟩
    | diverge =>
      exfalso
      have := tokenizeNum_out hE _ (max k (2 * (c :: cs).length + 2)) a (c :: cs) (Nat.le_refl _)
        (by simp only [List.length_cons] at *; omega)
      rw [ho _ (by omega)] at this
      exact this
  · have h1 := hs.1
    simp only [List.mem_cons, List.not_mem_nil, or_false] at h1
    rcases h1 with h | h | h | h
    · exact .inr (.inr (.inr h))
    · exact .inl h
    · exact .inr (.inl h)
    · exact .inr (.inr (.inl h))

theorem numStart_text {E : Env F} (hE : Sane E) {s : Sign} {b : Bool} {ds : List Char}
    (hb : Body E b ds) (hne : s.text ++ ds ≠ []) (z : List Char) :
    ∃ c cs, s.text ++ ds ++ z = c :: cs ∧ NumStart E c := by
  have num : ∀ c, E.isNumeric c = true → NumStart E c := by
    intro c hc
    refine ⟨.inl hc, ?_⟩
    intro hm
    have hf : E.isNumeric c = false := (hE.punct c (by
      simp only [List.mem_cons, List.not_mem_nil, or_false] at hm ⊢
      rcases hm with h | h | h | h <;> simp [h])).1
    rw [hf] at hc; exact absurd hc (by simp)
  have pm : ∀ c ∈ ['-', '+', '.'], NumStart E c := by
    intro c hc
    refine ⟨.inr hc, ?_⟩
    simp only [List.mem_cons, List.not_mem_nil, or_false] at hc ⊢
    rcases hc with rfl | rfl | rfl <;> decide
  cases s with
  | plus => exact ⟨'+', ds ++ z, rfl, pm _ (by simp)⟩
  | minus => exact ⟨'-', ds ++ z, rfl, pm _ (by simp)⟩
  | none =>
    cases ds with
    | nil => simp [Sign.text] at hne
    | cons c ds =>
      refine ⟨c, ds ++ z, rfl, ?_⟩
      rcases hb with ⟨_, hb⟩ | ⟨_, a, b, he, ha, hb⟩
      · exact num c (hb c (by simp))
      · cases a with
        | nil => simp at he; exact pm c (by simp [he.1])
        | cons d a => simp at he; rw [he.1]; exact num d (ha d (by simp))

theorem parseIntM_err {E : Env F} {cs : List Char} (h : parseIsize cs = none) (s : Tokenizer) :
    parseIntM E cs s = (.err (.Str (E.parseIntError cs)), s) := by
  unfold parseIntM; rw [h]; rfl

theorem parseFloatM_err {E : Env F} {cs : List Char} {m : String} (h : E.parseFloat cs = .error m)
    (s : Tokenizer) : parseFloatM E cs s = (.err (.Str m), s) := by
  unfold parseFloatM; rw [h]; rfl

theorem isizeOp_panic {E : Env F} {x : Int} (hc : E.overflowChecks = true) (h : ¬ Fits x)
    (s : Tokenizer) : isizeOp E x s = (.panic, s) := by
  rcases isizeOp_cases E x s with ⟨v, hv, _⟩ | ⟨_, _, h'⟩
  · rcases hv with ⟨hf, _⟩ | ⟨_, hf, _⟩
    · exact absurd hf h
    · rw [hc] at hf; exact absurd hf (by simp)
  · exact h'

/-- Digits whose value does not fit are an error. -/
theorem tokenizeNum_range {E : Env F} (hE : Sane E) (s : Sign) {ds : List Char} (hne : ds ≠ [])
    (hds : ∀ c ∈ ds, IsDigit c) (hf : ¬ Fits (s.apply (decVal ds))) (fuel : Nat)
    (pre rest : List Char) (hfuel : fuel ≥ ds.length + 2) (hr : NumFollow E rest) :
    tokenizeNum E fuel (St pre (s.text ++ ds ++ rest)) =
      (.err (.Str (E.parseIntError (s.kept ++ ds))), St (pre ++ (s.text ++ ds)) rest) := by
  have hb := intBody_of_digits hE hds
  rw [tokenizeNum_plain hE s (.inl ⟨rfl, hb⟩) hne fuel pre rest hfuel hr]
  unfold numFinish
  have hs := noSign_of_body hE hb
  have hn : parseIsize (s.kept ++ ds) = none := by
    cases h : parseIsize (s.kept ++ ds) with
    | none => rfl
    | some i => exact absurd ((parseIsize_spec s ds hs.1 hs.2 i).1 h).2.2.1 hf
  rw [if_neg (by simp [hne]), if_neg (by simp), bind_err (parseIntM_err hn _)]

/-- A literal `m e k` that overflows panics with checks on. -/
theorem tokenizeNum_overflow {E : Env F} (hE : Sane E) (hc : E.overflowChecks = true) (s : Sign)
    {ds x : List Char} {k : Int} (hne : ds ≠ []) (hds : ∀ c ∈ ds, IsDigit c)
    (hfit : Fits (s.apply (decVal ds))) (hx : NumLit E x (.Int k)) (hk : 0 ≤ k) (hk' : k < 2 ^ 32)
    (hv : ¬ Fits (10 ^ k.toNat) ∨ ¬ Fits (s.apply (decVal ds) * 10 ^ k.toNat))
    (fuel : Nat) (pre rest : List Char) (hr : NumFollow E rest)
    (hfuel : fuel ≥ 2 * (s.text ++ ds ++ 'e' :: x).length + 2) :
    tokenizeNum E fuel (St pre (s.text ++ ds ++ 'e' :: x ++ rest)) =
      (.panic, St (pre ++ (s.text ++ ds ++ 'e' :: x)) rest) := by
  simp only [List.length_append, List.length_cons] at hfuel
  obtain ⟨f, rfl⟩ : ∃ f, fuel = (f + 1) + ds.length + 1 := ⟨fuel - ds.length - 2, by omega⟩
  rw [show s.text ++ ds ++ 'e' :: x ++ rest = s.text ++ ds ++ 'e' :: (x ++ rest) by simp]
  rw [tokenizeNum_upto_exp hE s (.inl ⟨rfl, intBody_of_digits hE hds⟩)]
  rw [numLoop_exp hE _ _ _ _ _ _ (by simp [hne]),
    bind_ok (tokenizeNum_complete hE hx f (pre ++ (s.text ++ ds) ++ ['e']) rest (by omega) hr)]
  simp only [Token.removePos]
  rw [if_pos ⟨hk, by simp⟩]
  have hcut : k.toNat % 4294967296 = k.toNat := Nat.mod_eq_of_lt (by omega)
  rw [bind_ok (parseIntM_ok (parseIsize_of hE hne hds hfit) _)]
  by_cases hp : Fits (10 ^ k.toNat)
  · have hp' : pow10M E k (St (pre ++ (s.text ++ ds) ++ ['e'] ++ x) rest) = (.ok (10 ^ k.toNat), St (pre ++ (s.text ++ ds) ++ ['e'] ++ x) rest) := by
      unfold pow10M
      rw [hcut]
      exact isizeOp_ok (.inl ⟨hp, rfl⟩) _
    rw [bind_ok hp', bind_panic (isizeOp_panic hc (hv.resolve_left (fun h => h hp)) _)]
    simp
  · have hp' : pow10M E k (St (pre ++ (s.text ++ ds) ++ ['e'] ++ x) rest) =
        (.panic, St (pre ++ (s.text ++ ds) ++ ['e'] ++ x) rest) := by
      unfold pow10M
      rw [hcut]
      exact isizeOp_panic hc hp _
    rw [bind_panic hp']
    simp

/-- A second point. -/
theorem tokenizeNum_twoPoints {E : Env F} (hE : Sane E) (s : Sign) {ds : List Char}
    (hds : FracBody E ds) (pre z : List Char) :
    ∃ m, ∀ fuel, fuel ≥ ds.length + 2 →
      tokenizeNum E fuel (St pre (s.text ++ ds ++ '.' :: z)) =
        (.err (.Str m), St (pre ++ (s.text ++ ds)) ('.' :: z)) := by
  obtain ⟨txt, h0⟩ := numLoop_dot_err hE 0 (posOf pre) (s.kept ++ ds) (pre ++ (s.text ++ ds)) z
  refine ⟨(posOf (pre ++ (s.text ++ ds))).fmt ++ txt, fun fuel hf => ?_⟩
  obtain ⟨f, rfl⟩ : ∃ f, fuel = (f + 1) + ds.length + 1 := ⟨fuel - ds.length - 2, by omega⟩
  rw [List.append_assoc, tokenizeNum_start, numLoop_body hE (.inr ⟨rfl, hds⟩)]
  · have : numLoop E (f + 1) (posOf pre) (s.kept ++ ds) true (St (pre ++ s.text ++ ds) ('.' :: z)) =
        (.err (.Str ((posOf (pre ++ (s.text ++ ds))).fmt ++ txt)),
          St (pre ++ (s.text ++ ds)) ('.' :: z)) := by
      rw [← h0, List.append_assoc]
      rw [numLoop, numLoop, bind_ok (attempt_ok (tkPeek_cons ..)),
        bind_ok (attempt_ok (tkPeek_cons ..))]
      simp only [(hE.punct '.' (by simp)).1, if_true]
      rfl
    exact this
  · exact body_head hE (.inr ⟨rfl, hds⟩) (by constructor <;> simp)

end Pbrt.Proof
