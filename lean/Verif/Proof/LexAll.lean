import Verif.Proof.LexOne
import Verif.Proof.Fuel

/-!
# The tokenizer accepts exactly the lexical language
-/

namespace Pbrt.Proof
open Pbrt.Spec

variable {F : Type}

theorem blank_of_white {E : Env F} (hE : Sane E) {c : Char} (h : E.isWhitespace c = true) :
    Blank E c := by
  refine ⟨h, (hE.white c h).1, ?_⟩
  intro hc
  have : E.isWhitespace c = false := by
    refine (hE.punct c ?_).2.2
    simp only [List.mem_cons, List.not_mem_nil, or_false] at hc ⊢
    rcases hc with h | h | h | h | h | h | h <;> simp [h]
  rw [h] at this
  exact absurd this (by simp)

theorem sep_of_white {E : Env F} (hE : Sane E) {ws : List Char}
    (h : ∀ c ∈ ws, E.isWhitespace c = true) : Sep E ws := by
  induction ws with
  | nil => exact .nil
  | cons c ws ih =>
    exact .blank c ws (blank_of_white hE (h c (by simp))) (ih fun d hd => h d (by simp [hd]))

theorem sep_append {E : Env F} {a b : List Char} (ha : Sep E a) (hb : Sep E b) : Sep E (a ++ b) := by
  induction ha with
  | nil => exact hb
  | blank c cs hc _ ih => exact .blank c _ hc ih
  | comment body cs hbd _ ih =>
    have : '#' :: body ++ '\n' :: cs ++ b = '#' :: body ++ '\n' :: (cs ++ b) := by simp
    rw [this]
    exact .comment body _ hbd ih

theorem lex_sep {E : Env F} {sep : List Char} (h : Sep E sep) : ∀ {pre cs : List Char}
    {ts : List (Token F)}, Lex E (pre ++ sep) cs ts → Lex E pre (sep ++ cs) ts := by
  induction h with
  | nil => intro pre cs ts h; simpa using h
  | blank c cs hc _ ih =>
    intro pre cs' ts h
    exact .blank pre c _ ts hc (ih (by simpa using h))
  | comment body cs hb _ ih =>
    intro pre cs' ts h
    have : '#' :: body ++ '\n' :: cs ++ cs' = '#' :: body ++ '\n' :: (cs ++ cs') := by simp
    rw [this]
    exact .comment pre body _ ts hb (ih (by simpa using h))

/-! ### `tokenize_one`: every outcome -/

def TokOut (E : Env F) (pre cs : List Char) :
    Res TokenizerError (Token F) × Tokenizer → Prop
  | (.ok t, s) => ∃ sep l rest, cs = sep ++ l ++ rest ∧ Sep E sep ∧ Lexeme E l t.ty rest ∧
      l ≠ [] ∧ t.pos = posOf (pre ++ sep) ∧ s = St (pre ++ sep ++ l) rest
  | (.err .Eof, s) => Lex E pre cs [] ∧ s = St (pre ++ cs) []
  | (.err (.Str m), _) => PosErr pre cs m ∨ ConvErr E m
  | (.panic, _) => E.overflowChecks = true ∧ ∃ a l b, cs = a ++ l ++ b ∧ OverflowLit E l
  | (.diverge, _) => False

theorem tokOut_sep {E : Env F} {pre sep cs : List Char} (hs : Sep E sep) :
    ∀ {r}, TokOut E (pre ++ sep) cs r → TokOut E pre (sep ++ cs) r
  | (.ok t, s), ⟨sep', l, rest, h1, h2, h3, h4, h5, h6⟩ =>
    ⟨sep ++ sep', l, rest, by simp [h1], sep_append hs h2, h3, h4, by simp [h5], by simp [h6]⟩
  | (.err .Eof, s), ⟨h1, h2⟩ => ⟨lex_sep hs h1, by simp [h2]⟩
  | (.err (.Str m), s), h => by
    rcases h with ⟨a, b, txt, h1, h2⟩ | h
    · exact .inl ⟨sep ++ a, b, txt, by simp [h1], by simp [h2]⟩
    · exact .inr h
  | (.panic, s), ⟨hc, a, l, b, h1, h2⟩ => ⟨hc, sep ++ a, l, b, by simp [h1], h2⟩
  | (.diverge, s), h => h.elim

theorem numLit_ne_nil {E : Env F} {l : List Char} {v : TokenType F} (h : NumLit E l v) :
    l ≠ [] := by
  cases h with
  | int s ds hne => simp [hne]
  | frac s ds f hds => obtain ⟨a, b, rfl, _, _⟩ := hds; simp
  | _ => simp

theorem splitAt_newline (cs : List Char) :
    (∃ a b, cs = a ++ '\n' :: b ∧ '\n' ∉ a) ∨ '\n' ∉ cs := by
  obtain ⟨a, b, rfl, ha, hb⟩ := span_exists (fun c => c != '\n') cs
  have ha' : '\n' ∉ a := by
    intro h
    have := ha _ h
    simp at this
  cases b with
  | nil => exact .inr (by simpa using ha')
  | cons c b =>
    have := hb c rfl
    simp at this
    subst this
    exact .inl ⟨a, b, rfl, ha'⟩

theorem tokenizeOne_out {E : Env F} (hE : Sane E) (n : Nat) :
    ∀ (fuel : Nat) (pre cs : List Char), cs.length ≤ n → fuel ≥ 2 * cs.length + 2 →
      TokOut E pre cs (tokenizeOne E fuel (St pre cs)) := by
  induction n using Nat.strongRecOn with
  | ind n IH =>
  intro fuel pre cs hn hfuel
  obtain ⟨fuel, rfl⟩ : ∃ f, fuel = f + 1 := ⟨fuel - 1, by omega⟩
  cases cs with
  | nil => rw [tokenizeOne_nil]; exact ⟨.eof _, by simp⟩
  | cons c cs =>
    simp only [List.length_cons] at hn hfuel
    by_cases h1 : c = '#'
    · subst h1
      rw [tokenizeOne_comment]
      rcases splitAt_newline cs with ⟨body, rest, rfl, hb⟩ | hb
      · have hsk := skipComment_line ('#' :: body) (by simpa using hb) (fuel + 1) pre rest
          (by simp only [List.length_append, List.length_cons] at hfuel; simp; omega)
        rw [List.cons_append] at hsk
        rw [bind_ok hsk]
        have := tokOut_sep (E := E) (pre := pre) (sep := '#' :: body ++ '\n' :: []) (cs := rest)
          (.comment body [] hb .nil)
          (IH rest.length (by simp only [List.length_append, List.length_cons] at hn; omega)
            fuel _ rest (Nat.le_refl _) (by
              simp only [List.length_append, List.length_cons] at hfuel; omega))
        simpa using this
      · have hsk := skipComment_eof ('#' :: cs) (by simpa using hb) (fuel + 1) pre (by simp; omega)
        rw [bind_ok hsk]
        obtain ⟨fuel, rfl⟩ : ∃ f, fuel = f + 1 := ⟨fuel - 1, by omega⟩
        rw [tokenizeOne_nil]
        exact ⟨.lastComment pre cs hb, rfl⟩
    by_cases h2 : c = '"'
    · subst h2
      rw [tokenizeOne_quote, tokenizeStr_eq]
      have := strLoop_out (F := F) cs.length (fuel + 1) (posOf pre) [] (pre ++ ['"']) cs
        (Nat.le_refl _) (by omega)
      generalize strLoop (F := F) (fuel + 1) (posOf pre) [] (St (pre ++ ['"']) cs) = r at this
      match r, this with
      | (.ok t, s), ⟨body, rest, str, h1, h2, h3, h4⟩ =>
        subst h1 h3 h4
        exact ⟨[], '"' :: body ++ ['"'], rest, by simp, .nil, by simpa using .str body str rest h2,
          by simp, by simp, by simp⟩
      | (.err (.Str m), s), ⟨a, b, txt, h1, h2⟩ =>
        exact .inl ⟨'"' :: a, b, txt, by simp [h1], by simp [h2]⟩
    by_cases h3 : c = '['
    · subst h3
      rw [tokenizeOne_lb]
      exact ⟨[], ['['], cs, rfl, .nil, .lbracket _, by simp, by simp, by simp⟩
    by_cases h4 : c = ']'
    · subst h4
      rw [tokenizeOne_rb]
      exact ⟨[], [']'], cs, rfl, .nil, .rbracket _, by simp, by simp, by simp⟩
    have hnot : c ∉ ['#', '"', '[', ']'] := by simp [h1, h2, h3, h4]
    rw [tokenizeOne_other _ _ _ _ hnot]
    by_cases hnum : c = '-' ∨ c = '+' ∨ c = '.' ∨ E.isNumeric c = true
    · rw [if_pos hnum]
      have hstart : NumStart E c := by
        refine ⟨?_, hnot⟩
        rcases hnum with h | h | h | h
        · exact .inr (by simp [h])
        · exact .inr (by simp [h])
        · exact .inr (by simp [h])
        · exact .inl h
      have := tokenizeNum_out hE (cs.length + 1) (fuel + 1) pre (c :: cs) (by simp) (by simp; omega)
      generalize tokenizeNum E (fuel + 1) (St pre (c :: cs)) = r at this
      match r, this with
      | (.ok t, s), ⟨hp, l, rest, e1, e2, e3, e4⟩ =>
        have hl := numLit_ne_nil e3
        refine ⟨[], l, rest, by simpa using e1, .nil, .num l rest _ e3 ?_ e4, hl, by simpa using hp,
          by simpa using e2⟩
        cases l with
        | nil => exact absurd rfl hl
        | cons d l => simp at e1; exact ⟨d, rfl, e1.1 ▸ hstart⟩
      | (.err (.Str m), s), h => exact h
      | (.err .Eof, s), h => exact h.elim
      | (.panic, s), h => exact h
    · rw [if_neg hnum]
      simp only [not_or] at hnum
      by_cases hws : E.isWhitespace c = true
      · rw [if_pos hws]
        obtain ⟨ws, rest, hcs, hall, hr⟩ := span_exists E.isWhitespace cs
        subst hcs
        simp only [List.length_append] at hn hfuel
        have hall' : ∀ d ∈ c :: ws, E.isWhitespace d = true := by
          intro d hd
          rcases List.mem_cons.1 hd with rfl | hd
          · exact hws
          · exact hall d hd
        have hsk := skipWhitespace_run (c :: ws) hall' (fuel + 1) pre rest (by simp; omega) hr
        rw [List.cons_append] at hsk
        rw [bind_ok hsk]
        have := tokOut_sep (E := E) (pre := pre) (sep := c :: ws) (cs := rest)
          (sep_of_white hE hall')
          (IH rest.length (by omega) fuel _ rest (Nat.le_refl _) (by omega))
        simpa using this
      · rw [if_neg hws]
        by_cases hal : E.isAlphabetic c = true
        · rw [if_pos hal]
          obtain ⟨w, rest, rfl, hall, hr⟩ := span_exists E.isAlphanumeric cs
          simp only [List.length_append] at hn hfuel
          have hw : ∀ d ∈ w, IdChar E d := fun d hd => (alnum_iff d).1 (hall d hd)
          have hr' : ∀ d, rest.head? = some d → ¬ IdChar E d :=
            fun d hd => (alnum_false_iff d).1 (hr d hd)
          have he := tokenizeId_eq (fuel + 1) pre c w rest hw hr' (by omega)
          rw [List.cons_append] at he
          rw [he]
          refine ⟨[], c :: w, rest, rfl, .nil, .ident c w rest ⟨hal, ?_, ?_, ?_⟩ hw hr',
            by simp, by simp, by simp⟩
          · simpa using hnum.2.2.2
          · simpa using hws
          · simp [h1, h2, h3, h4, hnum.1, hnum.2.1, hnum.2.2.1]
        · rw [if_neg hal, bind_ok (tkPos_St ..)]
          refine .inl ⟨[], c :: cs, " tokenize_one(): unexpected char '" ++ String.singleton c ++ "'",
            rfl, ?_⟩
          simp only [List.append_nil, String.append_assoc]

/-! ### `tokenize_one` reads every lexeme -/

theorem tokenizeOne_lexeme {E : Env F} (hE : Sane E) {l rest : List Char} {v : TokenType F}
    (h : Lexeme E l v rest) (fuel : Nat) (pre : List Char) (hfuel : fuel ≥ 2 * l.length + 2) :
    tokenizeOne E fuel (St pre (l ++ rest)) = (.ok ⟨posOf pre, v⟩, St (pre ++ l) rest) := by
  obtain ⟨fuel, rfl⟩ : ∃ f, fuel = f + 1 := ⟨fuel - 1, by omega⟩
  cases h with
  | lbracket => exact tokenizeOne_lb ..
  | rbracket => exact tokenizeOne_rb ..
  | str body s rest h =>
    simp only [List.length_append, List.length_cons] at hfuel
    have : '"' :: body ++ ['"'] ++ rest = '"' :: (body ++ '"' :: rest) := by simp
    rw [this, tokenizeOne_quote, tokenizeStr_eq, strLoop_complete h _ _ _ _ _ (by omega)]
    simp
  | num l rest v h hstart hrest =>
    obtain ⟨c, hc, hs, hnot⟩ := hstart
    obtain ⟨l', rfl⟩ : ∃ l', l = c :: l' := by
      cases l with
      | nil => simp at hc
      | cons d l' => simp at hc; subst hc; exact ⟨l', rfl⟩
    rw [List.cons_append, tokenizeOne_other _ _ _ _ hnot, if_pos]
    · have := tokenizeNum_complete hE h (fuel + 1) pre rest hfuel hrest
      rwa [List.cons_append] at this
    · simp only [List.mem_cons, List.not_mem_nil, or_false] at hs
      rcases hs with h | h | h | h
      · exact .inr (.inr (.inr h))
      · exact .inl h
      · exact .inr (.inl h)
      · exact .inr (.inr (.inl h))
  | ident c cs rest hc hcs hrest =>
    simp only [List.length_cons] at hfuel
    obtain ⟨h1, h2, h3, h4⟩ := hc
    simp only [List.mem_cons, List.not_mem_nil, or_false, not_or] at h4
    rw [List.cons_append, tokenizeOne_other _ _ _ _ (by simp [h4]), if_neg (by simp [h4, h2]),
      if_neg (by simp [h3]), if_pos h1]
    exact tokenizeId_eq (fuel + 1) pre c cs rest hcs hrest (by omega)

/-- The fuel does not matter. -/
theorem tokenizeOne_fuel {E : Env F} (hE : Sane E) (f g : Nat) (pre cs : List Char)
    (hf : f ≥ 2 * cs.length + 2) (hg : g ≥ 2 * cs.length + 2) :
    tokenizeOne E f (St pre cs) = tokenizeOne E g (St pre cs) := by
  have nd : ∀ k, k ≥ 2 * cs.length + 2 → (tokenizeOne E k (St pre cs)).1 ≠ .diverge := by
    intro k hk hd
    have := tokenizeOne_out hE cs.length k pre cs (Nat.le_refl _) hk
    generalize tokenizeOne E k (St pre cs) = r at this hd
    obtain ⟨r, s⟩ := r
    simp only at hd
    subst hd
    exact this
  have mono := fun {m n : Nat} (h : m ≤ n) => FLe.mono (x := fun k => tokenizeOne E k)
    (fun k => fle_one E k) h
  rcases Nat.le_total f g with h | h
  · exact (mono h _ (nd f hf)).symm
  · exact mono h _ (nd g hg)

theorem tokenizeOne_blank {E : Env F} (hE : Sane E) {c : Char} (hc : Blank E c) (f : Nat)
    (pre cs : List Char) (hf : f ≥ 2 * cs.length + 4) :
    tokenizeOne E f (St pre (c :: cs)) = tokenizeOne E f (St (pre ++ [c]) cs) := by
  obtain ⟨f, rfl⟩ : ∃ k, f = k + 1 := ⟨f - 1, by omega⟩
  obtain ⟨hw, hn, hx⟩ := hc
  simp only [List.mem_cons, List.not_mem_nil, or_false, not_or] at hx
  rw [tokenizeOne_other _ _ _ _ (by simp [hx]), if_neg (by simp [hx, hn]), if_pos hw]
  obtain ⟨ws, rest, rfl, hall, hr⟩ := span_exists E.isWhitespace cs
  simp only [List.length_append] at hf
  have hall' : ∀ d ∈ c :: ws, E.isWhitespace d = true := by
    intro d hd
    rcases List.mem_cons.1 hd with rfl | hd
    · exact hw
    · exact hall d hd
  have hsk := skipWhitespace_run (c :: ws) hall' (f + 1) pre rest (by simp; omega) hr
  rw [List.cons_append] at hsk
  rw [bind_ok hsk]
  cases ws with
  | nil => exact tokenizeOne_fuel hE _ _ _ _ (by omega) (by simp; omega)
  | cons d ws =>
    have hwd := hall d (by simp)
    obtain ⟨hw', hn', hx'⟩ := blank_of_white hE hwd
    simp only [List.mem_cons, List.not_mem_nil, or_false, not_or] at hx'
    rw [List.cons_append, tokenizeOne_other _ _ _ _ (by simp [hx']), if_neg (by simp [hx', hn']),
      if_pos hwd]
    simp only [List.length_cons] at hf
    have hsk' := skipWhitespace_run (d :: ws) hall (f + 1) (pre ++ [c]) rest (by simp; omega) hr
    rw [List.cons_append] at hsk'
    rw [bind_ok hsk']
    simp

theorem tokenizeOne_skipComment {E : Env F} (hE : Sane E) {body : List Char} (hb : '\n' ∉ body)
    (f : Nat) (pre cs : List Char) (hf : f ≥ 2 * (body.length + cs.length) + 6) :
    tokenizeOne E f (St pre ('#' :: body ++ '\n' :: cs)) =
      tokenizeOne E f (St (pre ++ ('#' :: body ++ ['\n'])) cs) := by
  obtain ⟨f, rfl⟩ : ∃ k, f = k + 1 := ⟨f - 1, by omega⟩
  rw [List.cons_append, tokenizeOne_comment]
  have hsk := skipComment_line ('#' :: body) (by simpa using hb) (f + 1) pre cs
    (by simp; omega)
  rw [List.cons_append] at hsk
  rw [bind_ok hsk]
  rw [show pre ++ '#' :: body ++ ['\n'] = pre ++ ('#' :: body ++ ['\n']) by simp]
  exact tokenizeOne_fuel hE _ _ _ _ (by omega) (by omega)

/-! ### The whole text -/

/-- The tokenizer loop, with the token fuel, on a state: what happens next. -/
theorem tokenizeLoop_step {E : Env F} (g f : Nat) (ts : List (Token F)) (pre cs : List Char) :
    tokenizeLoop E g (f + 1) ts (St pre cs) =
      if cs = [] then (.ok ts, St pre cs) else
        match tokenizeOne E g (St pre cs) with
        | (.ok t, s) => tokenizeLoop E g f (ts ++ [t]) s
        | (.err .Eof, s) => (.ok ts, s)
        | (.err e, s) => (.err e, s)
        | (.panic, s) => (.panic, s)
        | (.diverge, s) => (.diverge, s) := by
  rw [tokenizeLoop, bind_ok (M.get_apply _), isEmpty_St]
  cases cs with
  | nil => rfl
  | cons c cs =>
    rw [if_pos (by simp), if_neg (by simp)]
    rcases h : tokenizeOne E g (St pre (c :: cs)) with ⟨r, s⟩
    cases r with
    | ok t => rw [bind_ok (attempt_ok h)]
    | err e => cases e <;> rw [bind_ok (attempt_err h)] <;> rfl
    | panic => rw [bind_panic (attempt_panic h)]
    | diverge => rw [bind_diverge (attempt_diverge h)]

/-- Every outcome of the loop. -/
def LoopOut (E : Env F) (acc : List (Token F)) (pre cs : List Char) :
    Res TokenizerError (List (Token F)) × Tokenizer → Prop
  | (.ok ts, _) => ∃ ts', ts = acc ++ ts' ∧ Lex E pre cs ts'
  | (.err .Eof, _) => False
  | (.err (.Str m), _) => PosErr pre cs m ∨ ConvErr E m
  | (.panic, _) => E.overflowChecks = true ∧ ∃ a l b, cs = a ++ l ++ b ∧ OverflowLit E l
  | (.diverge, _) => False

theorem tokenizeLoop_out {E : Env F} (hE : Sane E) (n : Nat) :
    ∀ (g f : Nat) (acc : List (Token F)) (pre cs : List Char), cs.length ≤ n →
      g ≥ 2 * cs.length + 2 → f ≥ cs.length + 1 →
      LoopOut E acc pre cs (tokenizeLoop E g f acc (St pre cs)) := by
  induction n using Nat.strongRecOn with
  | ind n IH =>
  intro g f acc pre cs hn hg hf
  obtain ⟨f, rfl⟩ : ∃ k, f = k + 1 := ⟨f - 1, by omega⟩
  rw [tokenizeLoop_step]
  by_cases hcs : cs = []
  · rw [if_pos hcs]; subst hcs; exact ⟨[], by simp, .eof _⟩
  rw [if_neg hcs]
  have ho := tokenizeOne_out hE cs.length g pre cs (Nat.le_refl _) hg
  generalize tokenizeOne E g (St pre cs) = r at ho
  match r, ho with
  | (.ok t, s), ⟨sep, l, rest, h1, h2, h3, h4, h5, h6⟩ =>
    subst h1 h6
    have hl : l.length ≠ 0 := by simpa using h4
    simp only [List.length_append] at hn hg hf
    have ih := IH rest.length (by omega) g f (acc ++ [t]) (pre ++ sep ++ l) rest (Nat.le_refl _)
      (by omega) (by omega)
    show LoopOut E acc pre _ (tokenizeLoop E g f (acc ++ [t]) (St (pre ++ sep ++ l) rest))
    generalize tokenizeLoop E g f (acc ++ [t]) (St (pre ++ sep ++ l) rest) = r at ih
    match r, ih with
    | (.ok ts, s), ⟨ts', e1, e2⟩ =>
      refine ⟨t :: ts', by simp [e1], ?_⟩
      rw [List.append_assoc]
      refine lex_sep h2 ?_
      have : t = ⟨posOf (pre ++ sep), t.ty⟩ := by rw [← h5]
      rw [this]
      exact .tok _ _ _ _ _ h3 e2
    | (.err (.Str m), s), h =>
      rcases h with ⟨a, b, txt, e1, e2⟩ | h
      · exact .inl ⟨sep ++ l ++ a, b, txt, by simp [e1], by simp [e2]⟩
      · exact .inr h
    | (.panic, s), ⟨hc, a, l', b, e1, e2⟩ =>
      exact ⟨hc, sep ++ l ++ a, l', b, by simp [e1], e2⟩
  | (.err .Eof, s), ⟨h1, h2⟩ => exact ⟨[], by simp, h1⟩
  | (.err (.Str m), s), h => exact h
  | (.panic, s), h => exact h
  | (.diverge, s), h => exact h.elim

theorem tokenizeOne_last {E : Env F} {body : List Char} (hb : '\n' ∉ body) (f : Nat)
    (pre : List Char) (hf : f ≥ 2 * body.length + 4) :
    tokenizeOne E f (St pre ('#' :: body)) = (.err .Eof, St (pre ++ '#' :: body) []) := by
  obtain ⟨f, rfl⟩ : ∃ k, f = k + 1 + 1 := ⟨f - 2, by omega⟩
  rw [tokenizeOne_comment,
    bind_ok (skipComment_eof ('#' :: body) (by simpa using hb) (f + 1 + 1) pre (by simp; omega)),
    tokenizeOne_nil]

/-- Characterisation of the loop's next step under separators: the loop does not see them. -/
theorem tokenizeLoop_complete {E : Env F} (hE : Sane E) {pre cs : List Char} {ts : List (Token F)}
    (h : Lex E pre cs ts) : ∀ (g f : Nat) (acc : List (Token F)),
      g ≥ 2 * cs.length + 2 → f ≥ cs.length + 1 →
      (tokenizeLoop E g f acc (St pre cs)).1 = .ok (acc ++ ts) := by
  induction h with
  | eof pre =>
    intro g f acc hg hf
    obtain ⟨f, rfl⟩ : ∃ k, f = k + 1 := ⟨f - 1, by omega⟩
    rw [tokenizeLoop_step, if_pos rfl]; simp
  | blank pre c cs ts hc h ih =>
    intro g f acc hg hf
    simp only [List.length_cons] at hg hf
    have ih := ih g f acc (by omega) (by omega)
    obtain ⟨f, rfl⟩ : ∃ k, f = k + 1 := ⟨f - 1, by omega⟩
    rw [← ih, tokenizeLoop_step, tokenizeLoop_step, if_neg (by simp),
      tokenizeOne_blank hE hc _ _ _ (by omega)]
    by_cases hcs : cs = []
    · subst hcs
      obtain ⟨g, rfl⟩ : ∃ k, g = k + 1 := ⟨g - 1, by omega⟩
      rw [tokenizeOne_nil, if_pos rfl]
    · rw [if_neg hcs]
  | comment pre body cs ts hb h ih =>
    intro g f acc hg hf
    simp only [List.length_cons, List.length_append] at hg hf
    have ih := ih g f acc (by omega) (by omega)
    obtain ⟨f, rfl⟩ : ∃ k, f = k + 1 := ⟨f - 1, by omega⟩
    rw [← ih, tokenizeLoop_step, tokenizeLoop_step, if_neg (by simp),
      tokenizeOne_skipComment hE hb _ _ _ (by omega), ← List.append_assoc]
    by_cases hcs : cs = []
    · subst hcs
      obtain ⟨g, rfl⟩ : ∃ k, g = k + 1 := ⟨g - 1, by omega⟩
      rw [tokenizeOne_nil, if_pos rfl]
    · rw [if_neg hcs]
  | lastComment pre body hb =>
    intro g f acc hg hf
    simp only [List.length_cons] at hg hf
    obtain ⟨f, rfl⟩ : ∃ k, f = k + 1 := ⟨f - 1, by omega⟩
    rw [tokenizeLoop_step, if_neg (by simp), tokenizeOne_last hb _ _ (by omega)]
    simp
  | tok pre l rest v ts hl h ih =>
    intro g f acc hg hf
    simp only [List.length_append] at hg hf
    have hlen : l.length ≠ 0 := by
      have : l ≠ [] := by
        cases hl with
        | num _ _ _ h => exact numLit_ne_nil h
        | _ => simp
      simpa using this
    obtain ⟨f, rfl⟩ : ∃ k, f = k + 1 := ⟨f - 1, by omega⟩
    rw [tokenizeLoop_step, if_neg (by intro h; rw [List.append_eq_nil_iff] at h; simp [h.1] at hlen),
      tokenizeOne_lexeme hE hl _ _ (by omega)]
    show (tokenizeLoop E g f (acc ++ [⟨posOf pre, v⟩]) (St (pre ++ l) rest)).1 = _
    rw [ih g f _ (by omega) (by omega)]
    simp

theorem replaceCrlf_length (cs : List Char) : (replaceCrlf cs).length ≤ cs.length := by
  fun_induction replaceCrlf cs with
  | case1 cs ih => simp; omega
  | case2 c cs h ih => simp; omega
  | case3 => simp

/-- Outcomes of tokenizing a text. -/
def TextOut (E : Env F) (cs : List Char) : Res TokenizerError (List (Token F)) → Prop
  | .ok ts => Lex E [] cs ts
  | .err .Eof => False
  | .err (.Str m) => PosErr [] cs m ∨ ConvErr E m
  | .panic => E.overflowChecks = true ∧ ∃ a l b, cs = a ++ l ++ b ∧ OverflowLit E l
  | .diverge => False

theorem tokenizeFuel_out {E : Env F} (hE : Sane E) (input : List Char) (fuel : Nat)
    (hf : fuel ≥ lexFuel input) : TextOut E (replaceCrlf input) (tokenizeFuel E fuel input) := by
  unfold tokenizeFuel
  unfold lexFuel at hf
  have hl := replaceCrlf_length input
  rw [new_eq]
  have := tokenizeLoop_out hE _ fuel fuel [] [] (replaceCrlf input) (Nat.le_refl _) (by omega)
    (by omega)
  generalize tokenizeLoop E fuel fuel [] (St [] (replaceCrlf input)) = r at this
  match r, this with
  | (.ok ts, s), ⟨ts', h1, h2⟩ => subst h1; exact h2
  | (.err (.Str m), s), h => exact h
  | (.panic, s), h => exact h

theorem tokenize_out {E : Env F} (hE : Sane E) (input : List Char) :
    TextOut E (replaceCrlf input) (tokenize E input) :=
  tokenizeFuel_out hE input _ (Nat.le_refl _)

theorem tokenize_complete {E : Env F} (hE : Sane E) (input : List Char) (ts : List (Token F))
    (h : Lex E [] (replaceCrlf input) ts) : tokenize E input = .ok ts := by
  unfold tokenize tokenizeFuel
  have hl := replaceCrlf_length input
  rw [new_eq, tokenizeLoop_complete hE h]
  · simp
  · unfold lexFuel; omega
  · unfold lexFuel; omega

end Pbrt.Proof
