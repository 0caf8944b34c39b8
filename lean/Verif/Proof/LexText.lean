import Verif.Proof.LexAll
import Mathlib.Data.List.Forall2
import Mathlib.Data.List.Induction

/-!
# Line ends, pieces of texts, shifted positions
-/

namespace Pbrt.Proof
open Pbrt.Spec

variable {F : Type}

/-! ### `str::replace("\r\n", "\n")` -/

theorem replaceCrlf_cons {c : Char} {t : List Char} (h : ¬ (c = '\r' ∧ t.head? = some '\n')) :
    replaceCrlf (c :: t) = c :: replaceCrlf t := by
  cases t with
  | nil => simp [replaceCrlf]
  | cons d t =>
    rw [replaceCrlf]
    intro cs hc hd
    simp only [List.cons.injEq] at hd
    exact h ⟨hc, by simp [hd.1]⟩

theorem norm_iff (t u : List Char) : Norm t u ↔ replaceCrlf t = u := by
  constructor
  · intro h
    induction h with
    | nil => rfl
    | crlf t u h ih => rw [replaceCrlf, ih]
    | other c t u hc h ih => rw [replaceCrlf_cons hc, ih]
  · rintro rfl
    fun_induction replaceCrlf t with
    | case1 cs ih => exact .crlf _ _ ih
    | case2 c cs h ih =>
      refine .other _ _ _ ?_ ih
      rintro ⟨rfl, hd⟩
      cases cs with
      | nil => simp at hd
      | cons d cs => simp at hd; subst hd; exact h cs rfl rfl
    | case3 => exact .nil

theorem noCrlf_cons {c : Char} {t : List Char} (h : NoCrlf (c :: t)) :
    NoCrlf t ∧ ¬ (c = '\r' ∧ t.head? = some '\n') := by
  constructor
  · rintro ⟨a, b, rfl⟩; exact h ⟨c :: a, b, by simp⟩
  · rintro ⟨rfl, hd⟩
    cases t with
    | nil => simp at hd
    | cons d t => simp at hd; subst hd; exact h ⟨[], t, rfl⟩

theorem replaceCrlf_id {t : List Char} (h : NoCrlf t) : replaceCrlf t = t := by
  induction t with
  | nil => rfl
  | cons c t ih =>
    obtain ⟨h1, h2⟩ := noCrlf_cons h
    rw [replaceCrlf_cons h2, ih h1]

theorem noCrlf_of_noLf {t : List Char} (h : '\n' ∉ t) : NoCrlf t := by
  rintro ⟨a, b, rfl⟩; simp at h

theorem toCrlf_cons (c : Char) (t : List Char) :
    toCrlf (c :: t) = (if c = '\n' then ['\r', '\n'] else [c]) ++ toCrlf t := by
  simp [toCrlf]

theorem toCrlf_head (t : List Char) : (toCrlf t).head? ≠ some '\n' := by
  cases t with
  | nil => simp [toCrlf]
  | cons c t =>
    rw [toCrlf_cons]
    by_cases h : c = '\n'
    · simp [h]
    · simp [h]

theorem replaceCrlf_toCrlf (t : List Char) : replaceCrlf (toCrlf t) = t := by
  induction t with
  | nil => rfl
  | cons c t ih =>
    rw [toCrlf_cons]
    by_cases h : c = '\n'
    · rw [if_pos h, h]
      show replaceCrlf ('\r' :: '\n' :: toCrlf t) = _
      rw [replaceCrlf, ih]
    · rw [if_neg h]
      show replaceCrlf (c :: toCrlf t) = _
      rw [replaceCrlf_cons (fun hh => toCrlf_head t hh.2), ih]

/-- What follows a piece of the normalised text comes from a suffix of the text. -/
theorem replaceCrlf_suffix (t a r : List Char) (h : replaceCrlf t = a ++ r) :
    ∃ x t', t = x ++ t' ∧ replaceCrlf t' = r := by
  fun_induction replaceCrlf t generalizing a with
  | case1 cs ih =>
    cases a with
    | nil => exact ⟨[], _, rfl, by rw [replaceCrlf]; simpa using h⟩
    | cons c a =>
      simp at h
      obtain ⟨x, t', rfl, h'⟩ := ih a h.2
      exact ⟨'\r' :: '\n' :: x, t', rfl, h'⟩
  | case2 c cs hn ih =>
    cases a with
    | nil => exact ⟨[], c :: cs, rfl, by rw [replaceCrlf]; exact h; exact hn⟩
    | cons d a =>
      simp at h
      obtain ⟨x, t', rfl, h'⟩ := ih a h.2
      exact ⟨c :: x, t', rfl, h'⟩
  | case3 => exact ⟨[], [], rfl, by simp at h; simp [h, replaceCrlf]⟩

/-- A piece of the normalised text without line feed stands like that in the text. -/
theorem replaceCrlf_prefix (t l b : List Char) (hl : '\n' ∉ l) (h : replaceCrlf t = l ++ b) :
    ∃ b', t = l ++ b' := by
  induction l generalizing t with
  | nil => exact ⟨t, rfl⟩
  | cons c l ih =>
    simp only [List.mem_cons, not_or] at hl
    fun_cases replaceCrlf t with
    | case1 cs => rw [replaceCrlf] at h; simp at h; exact absurd h.1 hl.1
    | case2 d cs hn =>
      rw [replaceCrlf.eq_2 _ _ hn] at h
      simp at h
      obtain ⟨b', rfl⟩ := ih cs hl.2 h.2
      exact ⟨b', by rw [h.1]; rfl⟩
    | case3 => simp [replaceCrlf] at h

theorem replaceCrlf_append {a b : List Char}
    (h : ¬ (a.getLast? = some '\r' ∧ b.head? = some '\n')) :
    replaceCrlf (a ++ b) = replaceCrlf a ++ replaceCrlf b := by
  fun_induction replaceCrlf a with
  | case1 cs ih =>
    show replaceCrlf ('\r' :: '\n' :: (cs ++ b)) = _
    rw [replaceCrlf, ih]
    · rfl
    · rintro ⟨h1, h2⟩
      refine h ⟨?_, h2⟩
      cases cs with
      | nil => simp at h1
      | cons c cs => rw [List.getLast?_cons_cons, List.getLast?_cons_cons]; exact h1
  | case2 c cs hn ih =>
    rw [List.cons_append, replaceCrlf_cons, ih]
    · rfl
    · rintro ⟨h1, h2⟩
      refine h ⟨?_, h2⟩
      cases cs with
      | nil => simp at h1
      | cons d cs => rw [List.getLast?_cons_cons]; exact h1
    · rintro ⟨rfl, hd⟩
      cases cs with
      | nil => exact h ⟨rfl, by simpa using hd⟩
      | cons d cs => simp at hd; subst hd; exact hn cs rfl rfl
  | case3 => rfl

/-! ### Characters of lexemes -/

theorem numLit_chars {E : Env F} (hE : Sane E) {l : List Char} {v : TokenType F}
    (h : NumLit E l v) : ∀ c ∈ l, E.isNumeric c = true ∨ c ∈ ['.', 'e', '+', '-'] := by
  have sgn : ∀ s : Sign, ∀ c ∈ s.text, E.isNumeric c = true ∨ c ∈ ['.', 'e', '+', '-'] := by
    intro s c hc
    cases s <;> simp [Sign.text] at hc <;> simp [hc]
  have ints : ∀ ds, IntBody E ds → ∀ c ∈ ds, E.isNumeric c = true ∨ c ∈ ['.', 'e', '+', '-'] :=
    fun ds h c hc => .inl (h c hc)
  have fr : ∀ ds, FracBody E ds → ∀ c ∈ ds, E.isNumeric c = true ∨ c ∈ ['.', 'e', '+', '-'] := by
    rintro ds ⟨a, b, rfl, ha, hb⟩ c hc
    simp only [List.mem_append, List.mem_cons] at hc
    rcases hc with hc | rfl | hc
    · exact .inl (ha c hc)
    · simp
    · exact .inl (hb c hc)
  have app : ∀ {a b : List Char}, (∀ c ∈ a, E.isNumeric c = true ∨ c ∈ ['.', 'e', '+', '-']) →
      (∀ c ∈ b, E.isNumeric c = true ∨ c ∈ ['.', 'e', '+', '-']) →
      ∀ c ∈ a ++ b, E.isNumeric c = true ∨ c ∈ ['.', 'e', '+', '-'] := by
    intro a b ha hb c hc
    rcases List.mem_append.1 hc with hc | hc
    · exact ha c hc
    · exact hb c hc
  have ee : ∀ {b : List Char}, (∀ c ∈ b, E.isNumeric c = true ∨ c ∈ ['.', 'e', '+', '-']) →
      ∀ c ∈ 'e' :: b, E.isNumeric c = true ∨ c ∈ ['.', 'e', '+', '-'] := by
    intro b hb c hc
    rcases List.mem_cons.1 hc with rfl | hc
    · simp
    · exact hb c hc
  induction h with
  | int s ds _ hds _ => exact app (sgn s) (ints _ (intBody_of_digits hE hds))
  | frac s ds f hds _ => exact app (sgn s) (fr _ hds)
  | intExp s ds x k v _ hds _ _ _ _ ih =>
    exact app (app (sgn s) (ints _ (intBody_of_digits hE hds))) (ee ih)
  | negExp s ds x m k _ hds _ _ _ ih => exact app (app (sgn s) (ints _ hds)) (ee ih)
  | fracExp s ds x m k hds _ _ ih => exact app (app (sgn s) (fr _ hds)) (ee ih)
  | floatExp s ds x m f _ hds _ _ ih =>
    rcases hds with hds | hds
    · exact app (app (sgn s) (ints _ hds)) (ee ih)
    · exact app (app (sgn s) (fr _ hds)) (ee ih)

/-- No whitespace in a number. -/
theorem numLit_noWhite {E : Env F} (hE : Sane E) {l : List Char} {v : TokenType F}
    (h : NumLit E l v) {c : Char} (hc : E.isWhitespace c = true) : c ∉ l := by
  intro hm
  rcases numLit_chars hE h c hm with hn | hn
  · rw [(hE.white c hc).1] at hn; exact absurd hn (by simp)
  · simp only [List.mem_cons, List.not_mem_nil, or_false] at hn
    have : E.isWhitespace c = false := by
      rcases hn with rfl | rfl | rfl | rfl
      · exact (hE.punct _ (by simp)).2.2
      · exact (hE.letter _ (by decide)).2.2
      · exact (hE.punct _ (by simp)).2.2
      · exact (hE.punct _ (by simp)).2.2
    rw [hc] at this; exact absurd this (by simp)

theorem lexeme_ne_nil {E : Env F} {l rest : List Char} {v : TokenType F}
    (h : Lexeme E l v rest) : l ≠ [] := by
  cases h with
  | num _ _ _ h => exact numLit_ne_nil h
  | _ => simp

/-- A lexeme does not end in whitespace. -/
theorem lexeme_last {E : Env F} (hE : Sane E) {l rest : List Char} {v : TokenType F}
    (h : Lexeme E l v rest) {c : Char} (hc : E.isWhitespace c = true) : l.getLast? ≠ some c := by
  have no : ∀ d ∈ ['[', ']', '"'], d ≠ c := by
    rintro d hd rfl
    have : E.isWhitespace d = false := (hE.punct d (by
      simp only [List.mem_cons, List.not_mem_nil, or_false] at hd ⊢
      rcases hd with h | h | h <;> simp [h])).2.2
    rw [hc] at this; exact absurd this (by simp)
  cases h with
  | lbracket => intro h; exact no '[' (by simp) (by simpa using h)
  | rbracket => intro h; exact no ']' (by simp) (by simpa using h)
  | str body s rest h =>
    intro h
    rw [List.getLast?_append] at h
    exact no '"' (by simp) (by simpa using h)
  | num l rest v h _ _ =>
    intro hl
    exact numLit_noWhite hE h hc (List.mem_of_mem_getLast? (by rw [hl]; rfl))
  | ident d cs rest hd hcs _ =>
    intro hl
    have hm : c ∈ d :: cs := List.mem_of_mem_getLast? (by rw [hl]; rfl)
    have hw := hE.white c hc
    rcases List.mem_cons.1 hm with rfl | hm
    · rw [hd.2.2.1] at hc; exact absurd hc (by simp)
    · rcases hcs c hm with h | h
      · rw [hw.2] at h; exact absurd h (by simp)
      · rw [hw.1] at h; exact absurd h (by simp)

/-- A lexeme does not start with whitespace. -/
theorem lexeme_head {E : Env F} (hE : Sane E) {l rest : List Char} {v : TokenType F}
    (h : Lexeme E l v rest) {c : Char} (hc : E.isWhitespace c = true) : l.head? ≠ some c := by
  have no : ∀ d ∈ ['[', ']', '"'], d ≠ c := by
    rintro d hd rfl
    have : E.isWhitespace d = false := (hE.punct d (by
      simp only [List.mem_cons, List.not_mem_nil, or_false] at hd ⊢
      rcases hd with h | h | h <;> simp [h])).2.2
    rw [hc] at this; exact absurd this (by simp)
  cases h with
  | lbracket => intro h; exact no '[' (by simp) (by simpa using h)
  | rbracket => intro h; exact no ']' (by simp) (by simpa using h)
  | str body s rest h => intro h; exact no '"' (by simp) (by simpa using h)
  | num l rest v h _ _ =>
    intro hl
    exact numLit_noWhite hE h hc (List.mem_of_mem_head? (by rw [hl]; rfl))
  | ident d cs rest hd hcs _ =>
    intro hl
    simp at hl; subst hl
    rw [hd.2.2.1] at hc; exact absurd hc (by simp)

/-- What follows a lexeme matters only through its first character. -/
theorem lexeme_follow {E : Env F} {l rest rest' : List Char} {v : TokenType F}
    (h : Lexeme E l v rest)
    (hr : ∀ d, rest'.head? = some d → rest.head? = some d ∨
      (¬ IdChar E d ∧ d ≠ '.' ∧ d ≠ 'e')) : Lexeme E l v rest' := by
  cases h with
  | lbracket => exact .lbracket _
  | rbracket => exact .rbracket _
  | str body s rest h => exact .str body s _ h
  | num l rest v h hs hf =>
    refine .num l _ v h hs ?_
    intro d hd
    rcases hr d hd with h' | ⟨h1, h2, h3⟩
    · exact hf d h'
    · refine ⟨?_, h2, h3⟩
      cases hn : E.isNumeric d
      · rfl
      · exact absurd (.inr hn) h1
  | ident c cs rest hc hcs hf =>
    refine .ident c cs _ hc hcs ?_
    intro d hd
    rcases hr d hd with h' | ⟨h1, _⟩
    · exact hf d h'
    · exact h1

theorem blank_follow {E : Env F} (hE : Sane E) {c : Char} (h : E.isWhitespace c = true) :
    ¬ IdChar E c ∧ c ≠ '.' ∧ c ≠ 'e' := by
  have hw := hE.white c h
  refine ⟨?_, ?_, ?_⟩
  · rintro (h' | h')
    · rw [hw.2] at h'; exact absurd h' (by simp)
    · rw [hw.1] at h'; exact absurd h' (by simp)
  · rintro rfl
    rw [(hE.punct '.' (by simp)).2.2] at h; exact absurd h (by simp)
  · rintro rfl
    rw [(hE.letter 'e' (by decide)).2.2] at h; exact absurd h (by simp)

theorem hash_follow {E : Env F} (hE : Sane E) : ¬ IdChar E '#' ∧ '#' ≠ '.' ∧ '#' ≠ 'e' := by
  refine ⟨?_, by decide, by decide⟩
  have := hE.punct '#' (by simp)
  rintro (h | h)
  · rw [this.2.1] at h; exact absurd h (by simp)
  · rw [this.1] at h; exact absurd h (by simp)

theorem sep_follow {E : Env F} (hE : Sane E) {sep : List Char} (h : Sep E sep) :
    ∀ d, sep.head? = some d → ¬ IdChar E d ∧ d ≠ '.' ∧ d ≠ 'e' := by
  intro d hd
  cases h with
  | nil => simp at hd
  | blank c cs hc _ => simp at hd; subst hd; exact blank_follow hE hc.1
  | comment body cs hb _ => simp at hd; subst hd; exact hash_follow hE

/-! ### Shifting a text -/

theorem posOf_append_line (pre x : List Char) :
    posOf (pre ++ '\n' :: x) = ⟨(posOf x).r + (pre ++ ['\n']).count '\n', (posOf x).c⟩ := by
  induction x using List.reverseRecOn with
  | nil => rw [posOf_snoc, if_pos rfl]; simp [posOf]; omega
  | append_singleton x c ih =>
    rw [← List.cons_append, ← List.append_assoc, posOf_snoc, ih, posOf_snoc]
    by_cases hc : c = '\n'
    · simp [hc]; omega
    · simp [hc]

/-- Move a token down by `n` rows. -/
def shiftTok (n : Nat) (t : Token F) : Token F := ⟨⟨t.pos.r + n, t.pos.c⟩, t.ty⟩

theorem lex_shift {E : Env F} (a : List Char) {pre text : List Char} {ts : List (Token F)}
    (h : Lex E pre text ts) :
    Lex E (a ++ '\n' :: pre) text (ts.map (shiftTok ((a ++ ['\n']).count '\n'))) := by
  induction h with
  | eof pre => exact .eof _
  | blank pre c cs ts hc h ih => exact .blank _ c cs _ hc (by simpa using ih)
  | comment pre body cs ts hb h ih => exact .comment _ body cs _ hb (by simpa using ih)
  | lastComment pre body hb => exact .lastComment _ body hb
  | tok pre l rest v ts hl h ih =>
    have := Lex.tok (E := E) (a ++ '\n' :: pre) l rest v _ hl (by simpa using ih)
    rw [posOf_append_line] at this
    simpa [shiftTok] using this

theorem lex_unshift {E : Env F} (a : List Char) {pre' text : List Char} {ts : List (Token F)}
    (h : Lex E pre' text ts) : ∀ pre, pre' = a ++ '\n' :: pre → ∃ ts', Lex E pre text ts' := by
  induction h with
  | eof pre => intro p _; exact ⟨[], .eof _⟩
  | blank pre c cs ts hc h ih =>
    rintro p rfl
    obtain ⟨ts', h'⟩ := ih (p ++ [c]) (by simp)
    exact ⟨ts', .blank _ c cs _ hc h'⟩
  | comment pre body cs ts hb h ih =>
    rintro p rfl
    obtain ⟨ts', h'⟩ := ih (p ++ '#' :: body ++ ['\n']) (by simp)
    exact ⟨ts', .comment _ body cs _ hb h'⟩
  | lastComment pre body hb => intro p _; exact ⟨[], .lastComment _ body hb⟩
  | tok pre l rest v ts hl h ih =>
    rintro p rfl
    obtain ⟨ts', h'⟩ := ih (p ++ l) (by simp)
    exact ⟨_, .tok p l rest v ts' hl h'⟩

/-! ### A piece of text at the start -/

/-- The fuel of the loop does not matter. -/
theorem tokenizeLoop_fuel {E : Env F} (hE : Sane E) (g f f' : Nat) (acc : List (Token F))
    (pre cs : List Char) (hg : g ≥ 2 * cs.length + 2) (hf : f ≥ cs.length + 1)
    (hf' : f' ≥ cs.length + 1) :
    (tokenizeLoop E g f acc (St pre cs)).1 = (tokenizeLoop E g f' acc (St pre cs)).1 := by
  suffices ∀ n f f' acc pre cs, cs.length ≤ n → g ≥ 2 * cs.length + 2 → f ≥ cs.length + 1 →
      f' ≥ cs.length + 1 →
      (tokenizeLoop E g f acc (St pre cs)).1 = (tokenizeLoop E g f' acc (St pre cs)).1 from
    this _ f f' acc pre cs (Nat.le_refl _) hg hf hf'
  clear hg hf hf' f f' acc pre cs
  intro n
  induction n using Nat.strongRecOn with
  | ind n IH =>
  intro f f' acc pre cs hn hg hf hf'
  obtain ⟨f, rfl⟩ : ∃ k, f = k + 1 := ⟨f - 1, by omega⟩
  obtain ⟨f', rfl⟩ : ∃ k, f' = k + 1 := ⟨f' - 1, by omega⟩
  rw [tokenizeLoop_step, tokenizeLoop_step]
  by_cases hcs : cs = []
  · rw [if_pos hcs, if_pos hcs]
  rw [if_neg hcs, if_neg hcs]
  have ho := tokenizeOne_out hE cs.length g pre cs (Nat.le_refl _) hg
  generalize tokenizeOne E g (St pre cs) = r at ho
  match r, ho with
  | (.ok t, s), ⟨sep, l, rest, h1, h2, h3, h4, h5, h6⟩ =>
    subst h1 h6
    have hl : l.length ≠ 0 := by simpa using h4
    simp only [List.length_append] at hn hg hf hf'
    exact IH rest.length (by omega) f f' (acc ++ [t]) (pre ++ sep ++ l) rest (Nat.le_refl _)
      (by omega) (by omega) (by omega)
  | (.err .Eof, s), _ => rfl
  | (.err (.Str m), s), h => rfl
  | (.panic, s), h => rfl
  | (.diverge, s), h => exact h.elim

theorem tokenizeLoop_lexTo {E : Env F} (hE : Sane E) {pre cs rest : List Char}
    {ts : List (Token F)} (h : LexTo E pre cs ts rest) : ∀ (g f : Nat) (acc : List (Token F)),
      g ≥ 2 * (cs ++ rest).length + 2 → f ≥ (cs ++ rest).length + 1 →
      (tokenizeLoop E g f acc (St pre (cs ++ rest))).1 =
        (tokenizeLoop E g f (acc ++ ts) (St (pre ++ cs) rest)).1 := by
  induction h with
  | nil pre rest => intro g f acc _ _; simp
  | blank pre c cs ts rest hc h ih =>
    intro g f acc hg hf
    simp only [List.length_cons, List.length_append, List.cons_append] at hg hf ih ⊢
    have ih := ih g f acc (by omega) (by omega)
    rw [show pre ++ c :: cs = pre ++ [c] ++ cs by simp, ← ih]
    obtain ⟨f, rfl⟩ : ∃ k, f = k + 1 := ⟨f - 1, by omega⟩
    rw [tokenizeLoop_step, tokenizeLoop_step, if_neg (by simp),
      tokenizeOne_blank hE hc _ _ _ (by simp only [List.length_append]; omega)]
    by_cases hcs : cs ++ rest = []
    · rw [hcs]
      obtain ⟨g, rfl⟩ : ∃ k, g = k + 1 := ⟨g - 1, by omega⟩
      rw [tokenizeOne_nil, if_pos rfl]
    · rw [if_neg hcs]
  | comment pre body cs ts rest hb h ih =>
    intro g f acc hg hf
    rw [show '#' :: body ++ '\n' :: cs ++ rest = '#' :: body ++ '\n' :: (cs ++ rest) by simp]
      at hg hf ⊢
    simp only [List.length_cons, List.length_append] at hg hf ih
    have ih := ih g f acc (by omega) (by omega)
    rw [show pre ++ ('#' :: body ++ '\n' :: cs) = pre ++ '#' :: body ++ ['\n'] ++ cs by simp, ← ih]
    obtain ⟨f, rfl⟩ : ∃ k, f = k + 1 := ⟨f - 1, by omega⟩
    rw [tokenizeLoop_step, tokenizeLoop_step, if_neg (by simp),
      tokenizeOne_skipComment hE hb _ _ _ (by simp only [List.length_append]; omega),
      ← List.append_assoc]
    by_cases hcs : cs ++ rest = []
    · rw [hcs]
      obtain ⟨g, rfl⟩ : ∃ k, g = k + 1 := ⟨g - 1, by omega⟩
      rw [tokenizeOne_nil, if_pos rfl]
    · rw [if_neg hcs]
  | tok pre l cs v ts rest hl h ih =>
    intro g f acc hg hf
    rw [show l ++ cs ++ rest = l ++ (cs ++ rest) by simp] at hg hf ⊢
    simp only [List.length_append] at hg hf ih
    have hlen : l.length ≠ 0 := by simpa using lexeme_ne_nil hl
    obtain ⟨f, rfl⟩ : ∃ k, f = k + 1 := ⟨f - 1, by omega⟩
    rw [tokenizeLoop_step, if_neg (by intro h; rw [List.append_eq_nil_iff] at h; simp [h.1] at hlen),
      tokenizeOne_lexeme hE hl _ _ (by omega)]
    show (tokenizeLoop E g f (acc ++ [⟨posOf pre, v⟩]) (St (pre ++ l) (cs ++ rest))).1 = _
    rw [ih g f _ (by omega) (by omega)]
    rw [show acc ++ [⟨posOf pre, v⟩] ++ ts = acc ++ ⟨posOf pre, v⟩ :: ts by simp,
      show pre ++ l ++ cs = pre ++ (l ++ cs) by simp]
    exact tokenizeLoop_fuel hE _ _ _ _ _ _ (by omega) (by omega) (by omega)

/-- Tokenizing a text with a complete piece at its start. -/
theorem tokenize_lexTo {E : Env F} (hE : Sane E) {input a rest : List Char} {ts : List (Token F)}
    (hi : replaceCrlf input = a ++ rest) (h : LexTo E [] a ts rest) (g f : Nat)
    (hg : g ≥ lexFuel input) (hf : f ≥ lexFuel input) :
    tokenize E input = (tokenizeLoop E g f ts (St a rest)).1 := by
  have hl := replaceCrlf_length input
  unfold lexFuel at hg hf
  unfold tokenize tokenizeFuel
  rw [new_eq]
  have e1 : (tokenizeLoop E (lexFuel input) (lexFuel input) [] (St [] (replaceCrlf input))).1 =
      (tokenizeLoop E g f [] (St [] (replaceCrlf input))).1 := by
    have h1 := FLe.mono (x := fun k => tokenizeLoop E k k []) (fun k => fle_loop E k k [])
      (m := lexFuel input) (n := max g (lexFuel input)) (by omega) (Tokenizer.new input) ?_
    · have h2 := tokenizeLoop_fuel hE g f (max g (lexFuel input)) [] [] (replaceCrlf input)
        (by omega) (by omega) (by unfold lexFuel; omega)
      rw [new_eq] at h1
      rw [h2]
      rw [show (max g (lexFuel input)) = g by unfold lexFuel; omega] at h1 ⊢
      rw [h1]
    · intro hd
      have := tokenize_out hE input
      rw [show tokenize E input = .diverge from hd] at this
      exact this
  rw [e1, hi, tokenizeLoop_lexTo hE h g f [] (by rw [← hi]; omega) (by rw [← hi]; omega)]
  simp

theorem tokenize_iff {E : Env F} (hE : Sane E) (input : List Char) (ts : List (Token F)) :
    tokenize E input = .ok ts ↔ Lex E [] (replaceCrlf input) ts := by
  constructor
  · intro h
    have := tokenize_out hE input
    rw [h] at this
    exact this
  · exact tokenize_complete hE input ts

/-- If a piece at the start is fine, the whole text tokenizes exactly if the rest does. -/
theorem tokenize_lexTo_ok {E : Env F} (hE : Sane E) {input a rest : List Char}
    {ts : List (Token F)} (hi : replaceCrlf input = a ++ rest) (h : LexTo E [] a ts rest)
    (us : List (Token F)) :
    tokenize E input = .ok us ↔ ∃ us', us = ts ++ us' ∧ Lex E a rest us' := by
  have hl := replaceCrlf_length input
  rw [tokenize_lexTo hE hi h _ _ (Nat.le_refl _) (Nat.le_refl _)]
  rw [hi, List.length_append] at hl
  constructor
  · intro ho
    have := tokenizeLoop_out hE _ (lexFuel input) (lexFuel input) ts a rest (Nat.le_refl _)
      (by unfold lexFuel; omega) (by unfold lexFuel; omega)
    generalize tokenizeLoop E (lexFuel input) (lexFuel input) ts (St a rest) = r at this ho
    obtain ⟨r, s⟩ := r
    simp only at ho
    subst ho
    exact this
  · rintro ⟨us', rfl, h'⟩
    exact tokenizeLoop_complete hE h' _ _ _ (by unfold lexFuel; omega) (by unfold lexFuel; omega)

/-- A text that tokenizes is a complete piece when a line feed follows. -/
theorem lexTo_of_lex {E : Env F} (hE : Sane E) {pre a : List Char} {ts : List (Token F)}
    (h : Lex E pre a ts) (rest : List Char) : LexTo E pre (a ++ ['\n']) ts rest := by
  have hn : E.isWhitespace '\n' = true := hE.space _ (by simp)
  induction h with
  | eof pre => exact .blank _ _ _ _ _ (blank_of_white hE hn) (.nil _ _)
  | blank pre c cs ts hc h ih => exact .blank _ _ _ _ _ hc ih
  | comment pre body cs ts hb h ih =>
    have := LexTo.comment (E := E) pre body (cs ++ ['\n']) ts rest hb ih
    simpa using this
  | lastComment pre body hb =>
    exact LexTo.comment (E := E) pre body [] [] rest hb (.nil _ _)
  | tok pre l rs v ts hl h ih =>
    rw [List.append_assoc]
    refine .tok _ _ _ _ _ _ (lexeme_follow hl ?_) ih
    intro d hd
    cases rs with
    | nil => simp at hd; subst hd; exact .inr (blank_follow hE hn)
    | cons c rs => simp at hd; subst hd; exact .inl rfl

theorem lex_nil {E : Env F} {pre : List Char} {ts : List (Token F)} (h : Lex E pre [] ts) :
    ts = [] := by
  generalize hx : ([] : List Char) = x at h
  cases h with
  | eof => rfl
  | blank => simp at hx
  | comment => simp at hx
  | lastComment => rfl
  | tok pre l rest v ts hl h =>
    exact absurd (List.append_eq_nil_iff.1 hx.symm).1 (lexeme_ne_nil hl)

/-- Dropping a trailing carriage return changes nothing. -/
theorem lex_dropCr {E : Env F} (hE : Sane E) {pre t : List Char} {ts : List (Token F)}
    (h : Lex E pre t ts) : ∀ a, t = a ++ ['\r'] → Lex E pre a ts := by
  have hr : E.isWhitespace '\r' = true := hE.space _ (by simp)
  induction h with
  | eof pre => intro a ha; simp at ha
  | blank pre c cs ts hc h ih =>
    intro a ha
    cases a with
    | nil =>
      simp at ha
      obtain ⟨rfl, rfl⟩ := ha
      rw [lex_nil h]
      exact .eof _
    | cons d a =>
      simp at ha
      obtain ⟨rfl, rfl⟩ := ha
      exact .blank _ _ _ _ hc (ih a rfl)
  | comment pre body cs ts hb h ih =>
    intro a ha
    have hcs : cs = [] ∨ ∃ cs', cs = cs' ++ ['\r'] := by
      rcases List.eq_nil_or_concat cs with h | ⟨cs', c, rfl⟩
      · exact .inl h
      · right
        have := congrArg List.getLast? ha
        rw [List.concat_eq_append, ← List.cons_append, ← List.append_assoc, List.getLast?_append,
          List.getLast?_append] at this
        simp at this
        exact ⟨cs', by rw [this]; simp⟩
    rcases hcs with rfl | ⟨cs', rfl⟩
    · have := congrArg List.getLast? ha
      rw [List.getLast?_append, List.getLast?_append] at this
      simp at this
    · have : a = '#' :: body ++ '\n' :: cs' := by
        have h2 : '#' :: body ++ '\n' :: (cs' ++ ['\r']) = ('#' :: body ++ '\n' :: cs') ++ ['\r'] := by
          simp
        rw [h2] at ha
        exact (List.append_cancel_right ha).symm
      subst this
      exact .comment _ _ _ _ hb (ih cs' rfl)
  | lastComment pre body hb =>
    intro a ha
    cases a with
    | nil => simp at ha
    | cons d a =>
      simp at ha
      obtain ⟨rfl, rfl⟩ := ha
      exact .lastComment _ _ (by simp at hb; exact hb)
  | tok pre l rest v ts hl h ih =>
    intro a ha
    rcases List.eq_nil_or_concat rest with rfl | ⟨rest', c, rfl⟩
    · rw [List.append_nil] at ha
      have := lexeme_last hE hl hr
      rw [ha] at this
      simp at this
    · rw [List.concat_eq_append, ← List.append_assoc] at ha
      have hc := congrArg List.getLast? ha
      rw [List.getLast?_append, List.getLast?_append] at hc
      simp at hc
      subst hc
      have := List.append_cancel_right ha
      subst this
      refine .tok _ _ _ _ _ (lexeme_follow hl ?_) (ih rest' (by simp))
      intro d hd
      left
      cases rest' with
      | nil => simp at hd
      | cons e r => simpa using hd

/-! ### Separators and line ends -/

theorem replaceCrlf_comment {body : List Char} (hb : '\n' ∉ body) (cs : List Char) :
    ∃ body', '\n' ∉ body' ∧ replaceCrlf (body ++ '\n' :: cs) = body' ++ '\n' :: replaceCrlf cs := by
  induction body with
  | nil => exact ⟨[], by simp, by simp [replaceCrlf_cons]⟩
  | cons c body ih =>
    simp only [List.mem_cons, not_or] at hb
    by_cases h : c = '\r' ∧ (body ++ '\n' :: cs).head? = some '\n'
    · obtain ⟨rfl, h⟩ := h
      cases body with
      | nil => exact ⟨[], by simp, by simp [replaceCrlf]⟩
      | cons d body => simp at h; subst h; simp at hb
    · obtain ⟨b', h1, h2⟩ := ih hb.2
      refine ⟨c :: b', by simp [hb.1, h1], ?_⟩
      rw [List.cons_append, replaceCrlf_cons h, h2]
      rfl

theorem sep_replace {E : Env F} {sep : List Char} (h : Sep E sep) :
    Sep E (replaceCrlf sep) := by
  suffices ∀ n, ∀ sep : List Char, sep.length ≤ n → Sep E sep → Sep E (replaceCrlf sep) from
    this _ sep (Nat.le_refl _) h
  clear h sep
  intro n
  induction n with
  | zero =>
    intro sep hn h
    have : sep = [] := by simpa using hn
    subst this; exact .nil
  | succ n IH =>
    intro sep hn h
    cases h with
    | nil => exact .nil
    | blank c cs hc h =>
      simp only [List.length_cons] at hn
      by_cases hh : c = '\r' ∧ cs.head? = some '\n'
      · obtain ⟨rfl, hh⟩ := hh
        cases h with
        | nil => simp at hh
        | blank d cs hd h =>
          simp at hh; subst hh
          simp only [List.length_cons] at hn
          rw [replaceCrlf]
          exact .blank _ _ hd (IH cs (by omega) h)
        | comment body cs hb h => simp at hh
      · rw [replaceCrlf_cons hh]
        exact .blank _ _ hc (IH cs (by omega) h)
    | comment body cs hb h =>
      simp only [List.length_append, List.length_cons] at hn
      obtain ⟨b', h1, h2⟩ := replaceCrlf_comment hb cs
      rw [List.cons_append, replaceCrlf_cons (by simp), h2]
      exact .comment b' _ h1 (IH cs (by omega) h)

theorem replaceCrlf_ne_nil {t : List Char} (h : t ≠ []) : replaceCrlf t ≠ [] := by
  fun_cases replaceCrlf t with
  | case1 cs => simp
  | case2 c cs hn => simp
  | case3 => exact absurd rfl h

/-- Two sequences that agree on which tokens they hold. -/
theorem lex_layout {E : Env F} (hE : Sane E) {ls : List (List Char)} {text : List Char}
    (h : Layout E ls text) : ∀ (vs : List (TokenType F)) (pre : List Char),
      List.Forall₂ (fun l v => Lexeme E l v [] ∧ NoCrlf l) ls vs →
      text.head? ≠ some '\n' ∧ ∃ ts, Lex E pre (replaceCrlf text) ts ∧ ts.map Token.ty = vs := by
  have hn : E.isWhitespace '\n' = true := hE.space _ (by simp)
  have hr : E.isWhitespace '\r' = true := hE.space _ (by simp)
  induction h with
  | nil =>
    intro vs pre h
    cases h
    exact ⟨by simp, [], .eof _, rfl⟩
  | one l =>
    intro vs pre h
    cases h with
    | cons h1 h2 =>
      cases h2
      refine ⟨lexeme_head hE h1.1 hn, ?_⟩
      rw [replaceCrlf_id h1.2]
      have := Lex.tok (E := E) pre l [] _ [] h1.1 (.eof _)
      rw [List.append_nil] at this
      exact ⟨_, this, rfl⟩
  | cons l sep text ls hs hne h ih =>
    intro vs pre h
    cases h with
    | @cons _ v _ vs h1 h2 =>
      have hh : (l ++ sep ++ text).head? ≠ some '\n' := by
        have := lexeme_head hE h1.1 hn
        cases l with
        | nil => exact absurd rfl (lexeme_ne_nil h1.1)
        | cons c l => simpa using this
      refine ⟨hh, ?_⟩
      obtain ⟨hnl, ts, hl, ht⟩ := ih vs (pre ++ l ++ replaceCrlf sep) h2
      refine ⟨⟨posOf pre, v⟩ :: ts, ?_, by simp [ht]⟩
      rw [List.append_assoc, replaceCrlf_append, replaceCrlf_append, replaceCrlf_id h1.2]
      · refine .tok _ _ _ _ _ (lexeme_follow h1.1 ?_) (lex_sep (sep_replace hs) hl)
        intro d hd
        have hne' := replaceCrlf_ne_nil hne
        have hsep := sep_replace hs
        generalize replaceCrlf sep = s' at hd hne' hsep
        cases s' with
        | nil => exact absurd rfl hne'
        | cons e s' => exact .inr (sep_follow hE hsep d (by simpa using hd))
      · rintro ⟨_, h⟩; exact hnl h
      · rintro ⟨h, _⟩; exact lexeme_last hE h1.1 hr h

end Pbrt.Proof
