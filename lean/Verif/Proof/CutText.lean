import Verif.Spec.CutText
import Verif.Props.BreakOff

/-!
# Texts that are cut off in the middle of a token: proofs
-/

namespace Pbrt.Proof.CutText

open Spec Proof Proof.BreakOff

variable {F : Type} {E : Env F}

/-- What is read of a text that may go on: all of it, all of it up to a comment, or all of it up to a number or
    an identifier at its end. -/
theorem lex_last (hE : Sane E) {pre x : List Char} {ts : List (Token F)} (h : Lex E pre x ts) (y : List Char) :
    LexTo E pre x ts y ∨
    (∃ x0 z, x = x0 ++ z ∧ LexTo E pre x0 ts (z ++ y)) ∨
    ∃ x0 l v ts0, x = x0 ++ l ∧ LexTo E pre x0 ts0 (l ++ y) ∧ ts = ts0 ++ [⟨posOf (pre ++ x0), v⟩] ∧
      Lexeme E l v [] ∧ ((∃ s, v = .Identifier s) ∨ (∃ i, v = .Int i) ∨ ∃ f, v = .Float f) := by
  induction h with
  | eof pre => exact .inl (.nil _ _)
  | blank pre c cs ts hc _ ih =>
    rcases ih with ih | ⟨x0, z, rfl, ih⟩ | ⟨x0, l, v, ts0, rfl, ih, rfl, hl, hv⟩
    · exact .inl (.blank _ _ _ _ _ hc ih)
    · exact .inr (.inl ⟨c :: x0, z, rfl, .blank _ _ _ _ _ hc ih⟩)
    · exact .inr (.inr ⟨c :: x0, l, v, ts0, rfl, .blank _ _ _ _ _ hc ih, by simp, hl, hv⟩)
  | comment pre body cs ts hb _ ih =>
    rcases ih with ih | ⟨x0, z, rfl, ih⟩ | ⟨x0, l, v, ts0, rfl, ih, rfl, hl, hv⟩
    · exact .inl (.comment _ _ _ _ _ hb ih)
    · exact .inr (.inl ⟨'#' :: body ++ '\n' :: x0, z, by simp, .comment _ _ _ _ _ hb ih⟩)
    · exact .inr (.inr ⟨'#' :: body ++ '\n' :: x0, l, v, ts0, by simp, .comment _ _ _ _ _ hb ih, by simp, hl, hv⟩)
  | lastComment pre body hb => exact .inr (.inl ⟨[], '#' :: body, rfl, .nil _ _⟩)
  | tok pre l rest v ts hl hr ih =>
    by_cases hne : rest = []
    · subst hne
      obtain rfl := lex_nil hr
      have whole : Lexeme E l v y → LexTo E pre (l ++ []) [⟨posOf pre, v⟩] y := fun h =>
        .tok pre l [] v [] y (by simpa using h) (.nil _ _)
      have last : ((∃ s, v = .Identifier s) ∨ (∃ i, v = .Int i) ∨ ∃ f, v = .Float f) →
          ∃ x0 l' v' ts0, l ++ [] = x0 ++ l' ∧ LexTo E pre x0 ts0 (l' ++ y) ∧
            [(⟨posOf pre, v⟩ : Token F)] = ts0 ++ [⟨posOf (pre ++ x0), v'⟩] ∧
            Lexeme E l' v' [] ∧ ((∃ s, v' = .Identifier s) ∨ (∃ i, v' = .Int i) ∨ ∃ f, v' = .Float f) :=
        fun hv => ⟨[], l, v, [], by simp, .nil _ _, by simp, hl, hv⟩
      cases hl with
      | lbracket => exact .inl (whole (.lbracket _))
      | rbracket => exact .inl (whole (.rbracket _))
      | str body s _ h => exact .inl (whole (.str body s _ h))
      | num _ _ _ h hs _ =>
        refine .inr (.inr (last ?_))
        cases h with
        | int => exact .inr (.inl ⟨_, rfl⟩)
        | intExp => exact .inr (.inl ⟨_, rfl⟩)
        | _ => exact .inr (.inr ⟨_, rfl⟩)
      | ident => exact .inr (.inr (last (.inl ⟨_, rfl⟩)))
    · have hl' : ∀ z w, rest = z ++ w → Lexeme E l v (z ++ (w ++ y)) := by
        rintro z w rfl
        refine lexeme_follow hl fun d hd => .inl ?_
        rw [← hd, ← List.append_assoc, List.head?_append_of_ne_nil _ hne]
      rcases ih with ih | ⟨x0, z, e, ih⟩ | ⟨x0, l', v', ts0, e, ih, rfl, hl2, hv⟩
      · exact .inl (.tok _ _ _ _ _ _ (by simpa using hl' rest [] (by simp)) ih)
      · exact .inr (.inl ⟨l ++ x0, z, by rw [e]; simp, .tok _ _ _ _ _ _ (hl' x0 z e) ih⟩)
      · exact .inr (.inr ⟨l ++ x0, l', v', _ :: ts0, by rw [e]; simp, .tok _ _ _ _ _ _ (hl' x0 l' e) ih, by simp, hl2, hv⟩)

/-- A text that does not start with a blank or a comment starts with a lexeme. -/
theorem lex_head {pre t : List Char} {us : List (Token F)} (h : Lex E pre t us) {c : Char} (hc : t.head? = some c)
    (hb : ¬ Blank E c) (hh : c ≠ '#') :
    ∃ l v r us', t = l ++ r ∧ Lexeme E l v r ∧ us = ⟨posOf pre, v⟩ :: us' ∧ Lex E (pre ++ l) r us' := by
  cases h with
  | eof => simp at hc
  | blank _ c' cs ts hc' h => simp at hc; subst hc; exact absurd hc' hb
  | comment => simp at hc; exact absurd hc.symm hh
  | lastComment => simp at hc; exact absurd hc.symm hh
  | tok _ l rest v ts hl h => exact ⟨l, v, rest, ts, rfl, hl, rfl, h⟩

/-- The same token, or a cut one. -/
theorem lexeme_cut {l l' r' y : List Char} {v v' : TokenType F} (p : Pos) (h : Lexeme E l v [])
    (hv : (∃ s, v = .Identifier s) ∨ (∃ i, v = .Int i) ∨ ∃ f, v = .Float f) (h' : Lexeme E l' v' r')
    (e : l ++ y = l' ++ r') : v = v' ∨ Cut (⟨p, v⟩ : Token F) ⟨p, v'⟩ := by
  have num : ∀ {l : List Char} {v : TokenType F}, NumLit E l v → IsNumber (⟨p, v⟩ : Token F) := by
    intro l v h
    cases h with
    | int => exact .inl ⟨_, rfl⟩
    | intExp => exact .inl ⟨_, rfl⟩
    | _ => exact .inr ⟨_, rfl⟩
  cases h with
  | lbracket => simp at hv
  | rbracket => simp at hv
  | str => simp at hv
  | num _ _ _ h hs _ =>
    obtain ⟨c, hc, hn, hno⟩ := hs
    have hc' : (l' ++ r').head? = some c := by
      rw [← e, List.head?_append, hc]; rfl
    right
    cases h' with
    | lbracket => simp at hc'; subst hc'; simp at hno
    | rbracket => simp at hc'; subst hc'; simp at hno
    | str => simp at hc'; subst hc'; simp at hno
    | num _ _ _ h2 _ _ => exact .number _ _ rfl (num h) (num h2)
    | ident d cs _ hd _ _ =>
      simp at hc'
      subst hc'
      rcases hn with hn | hn
      · rw [hd.2.1] at hn; simp at hn
      · exact absurd (by simp at hn ⊢; tauto) hd.2.2.2
  | ident c cs _ hc hcs _ =>
    have hc' : (l' ++ r').head? = some c := by rw [← e]; rfl
    have no : ∀ d ∈ ['#', '"', '[', ']', '-', '+', '.'], c ≠ d := by
      rintro d hd rfl
      exact hc.2.2.2 hd
    cases h' with
    | lbracket => simp at hc'; exact absurd hc'.symm (no _ (by simp))
    | rbracket => simp at hc'; exact absurd hc'.symm (no _ (by simp))
    | str => simp at hc'; exact absurd hc'.symm (no _ (by simp))
    | num _ _ _ _ hs _ =>
      obtain ⟨d, hd, hn, _⟩ := hs
      rw [List.head?_append, hd] at hc'
      simp at hc'
      subst hc'
      rcases hn with hn | hn
      · rw [hc.2.1] at hn; simp at hn
      · exact absurd rfl (no d (by simp at hn ⊢; tauto))
    | ident d ds _ hd hds hf =>
      simp only [List.cons_append, List.cons.injEq] at e
      obtain ⟨rfl, e⟩ := e
      by_cases hs : String.ofList (c :: cs) = String.ofList (c :: ds)
      · exact .inl (by rw [hs])
      · refine .inr (.ident _ _ _ ⟨?_, hs⟩)
        simp only [String.toList_ofList]
        rcases List.append_eq_append_iff.1 e with ⟨z, rfl, _⟩ | ⟨z, rfl, h2⟩
        · exact ⟨z, by simp⟩
        · cases z with
          | nil => exact ⟨[], by simp⟩
          | cons x z => exact absurd (hcs x (by simp)) (hf x (by simp [h2]))

theorem lex_more (hE : Sane E) {x y : List Char} {input : List Char} (hi : replaceCrlf input = x ++ y)
    {ts us : List (Token F)} (h : Lex E [] x ts) (hu : tokenize E input = .ok us) :
    ts <+: us ∨ ∃ c t u r, ts = c ++ [t] ∧ us = c ++ u :: r ∧ Cut t u := by
  have hlast := lex_last hE h y
  clear h
  rcases hlast with h | ⟨x0, z, rfl, h⟩ | ⟨x0, l, v, ts0, rfl, h, rfl, hl, hv⟩
  · obtain ⟨us', rfl, _⟩ := (tokenize_lexTo_ok hE hi h us).1 hu
    exact .inl ⟨us', rfl⟩
  · obtain ⟨us', rfl, _⟩ := (tokenize_lexTo_ok hE (by rw [hi, List.append_assoc]) h us).1 hu
    exact .inl ⟨us', rfl⟩
  · obtain ⟨us', rfl, h2⟩ := (tokenize_lexTo_ok hE (by rw [hi, List.append_assoc]) h us).1 hu
    have hne := lexeme_ne_nil hl
    obtain ⟨c, l0, rfl⟩ := List.exists_cons_of_ne_nil hne
    have hb : ¬ Blank E c := fun hb => lexeme_head hE hl hb.1 rfl
    have hh : c ≠ '#' := by
      rintro rfl
      cases hl with
      | num _ _ _ _ hs _ => obtain ⟨d, hd, hn⟩ := hs; simp at hd; subst hd; simp [NumStart] at hn
      | ident _ _ _ hc => simp [IdStart] at hc
    obtain ⟨l', v', r, us'', e, hl', rfl, _⟩ := lex_head h2 (c := c) rfl hb hh
    rcases lexeme_cut (posOf x0) hl hv hl' e with rfl | hc
    · exact .inl ⟨us'', by simp⟩
    · exact .inr ⟨ts0, _, _, us'', by simp, rfl, hc⟩

/-- The tokens of a text and of the same text with something added. -/
theorem tokens_more (hE : Sane E) {a b : List Char} {ta tb : List (Token F)} (ha : tokenize E a = .ok ta)
    (hb : tokenize E (a ++ b) = .ok tb) :
    ta <+: tb ∨ ∃ c t u r, ta = c ++ [t] ∧ tb = c ++ u :: r ∧ Cut t u := by
  rw [tokenize_iff hE] at ha
  by_cases hx : a.getLast? = some '\r' ∧ b.head? = some '\n'
  · obtain ⟨h1, h2⟩ := hx
    obtain ⟨a, rfl⟩ := List.getLast?_eq_some_iff.1 h1
    obtain ⟨b, rfl⟩ : ∃ b', b = '\n' :: b' := by
      cases b with
      | nil => simp at h2
      | cons c b => simp at h2; exact ⟨b, by rw [h2]⟩
    have e1 : replaceCrlf (a ++ ['\r']) = replaceCrlf a ++ ['\r'] := replaceCrlf_append (by simp)
    rw [e1] at ha
    have e2 : replaceCrlf (a ++ ['\r'] ++ '\n' :: b) = replaceCrlf a ++ '\n' :: replaceCrlf b := by
      rw [List.append_assoc, replaceCrlf_append (by simp)]
      simp [replaceCrlf]
    exact lex_more hE e2 (lex_dropCr hE ha _ rfl) hb
  · exact lex_more hE (replaceCrlf_append hx) ha hb

/-- The first part of a text that is a sequence of tokens is one, or ends inside of a string or a number. -/
theorem lex_part (hE : Sane E) {pre t : List Char} {us : List (Token F)} (h : Lex E pre t us) :
    ∀ a b, t = a ++ b → (∃ ts, Lex E pre a ts) ∨
      ∃ x ts l l' r v, a = x ++ l ∧ l ++ b = l' ++ r ∧ l ≠ [] ∧ l.length < l'.length ∧ LexTo E pre x ts (l ++ b) ∧
        Lexeme E l' v r ∧ ((∃ s, v = .Str s) ∨ IsNumber (⟨posOf (pre ++ x), v⟩ : Token F)) := by
  induction h with
  | eof pre =>
    intro a b e
    obtain ⟨rfl, rfl⟩ := List.append_eq_nil_iff.1 e.symm
    exact .inl ⟨[], .eof _⟩
  | blank pre c cs ts hc _ ih =>
    intro a b e
    cases a with
    | nil => exact .inl ⟨[], .eof _⟩
    | cons d a =>
      simp only [List.cons_append, List.cons.injEq] at e
      obtain ⟨rfl, rfl⟩ := e
      rcases ih a b rfl with ⟨ts, ih⟩ | ⟨x, ts, l, l', r, v, rfl, h1, h2, h3, h4, h5, h6⟩
      · exact .inl ⟨ts, .blank _ _ _ _ hc ih⟩
      · exact .inr ⟨c :: x, ts, l, l', r, v, rfl, h1, h2, h3, .blank _ _ _ _ _ hc h4, h5, by simpa using h6⟩
  | comment pre body cs ts hb _ ih =>
    intro a b e
    cases a with
    | nil => exact .inl ⟨[], .eof _⟩
    | cons d a =>
      simp only [List.cons_append, List.cons.injEq] at e
      obtain ⟨rfl, e⟩ := e
      rcases List.append_eq_append_iff.1 e with ⟨z, rfl, h2⟩ | ⟨z, rfl, _⟩
      · cases z with
        | nil => exact .inl ⟨[], by simpa using Lex.lastComment pre body hb⟩
        | cons y z =>
          simp only [List.cons_append, List.cons.injEq] at h2
          obtain ⟨rfl, rfl⟩ := h2
          rcases ih z b rfl with ⟨ts, ih⟩ | ⟨x, ts, l, l', r, v, rfl, h1, h2, h3, h4, h5, h6⟩
          · exact .inl ⟨ts, .comment _ _ _ _ hb ih⟩
          · exact .inr ⟨'#' :: body ++ '\n' :: x, ts, l, l', r, v, by simp, h1, h2, h3, .comment _ _ _ _ _ hb h4, h5,
              by simpa using h6⟩
      · exact .inl ⟨[], .lastComment pre a (fun h => hb (by simp [h]))⟩
  | lastComment pre body hb =>
    intro a b e
    cases a with
    | nil => exact .inl ⟨[], .eof _⟩
    | cons d a =>
      simp only [List.cons_append, List.cons.injEq] at e
      obtain ⟨rfl, rfl⟩ := e
      exact .inl ⟨[], .lastComment pre a (fun h => hb (by simp [h]))⟩
  | tok pre l0 rest v ts hl hr ih =>
    intro a b e
    rcases List.append_eq_append_iff.1 e with ⟨z, rfl, rfl⟩ | ⟨z, rfl, h2⟩
    · have hl' : ∀ z', z' <+: z → Lexeme E l0 v z' := fun z' hz => lexeme_follow hl fun d hd => .inl (by
        obtain ⟨w, rfl⟩ := hz
        cases z' with
        | nil => simp at hd
        | cons c z' => simpa using hd)
      rcases ih z b rfl with ⟨ts, ih⟩ | ⟨x, ts, l, l', r, v', rfl, h1, h2, h3, h4, h5, h6⟩
      · exact .inl ⟨_, .tok _ _ _ _ _ (hl' z (List.prefix_refl _)) ih⟩
      · have hl2 : Lexeme E l0 v (x ++ (l ++ b)) := lexeme_follow hl fun d hd => .inl (by simpa using hd)
        exact .inr ⟨l0 ++ x, ⟨posOf pre, v⟩ :: ts, l, l', r, v', by simp, h1, h2, h3, .tok _ _ _ _ _ _ hl2 h4, h5,
          by simpa using h6⟩
    · by_cases hz : z = []
      · subst hz
        simp only [List.append_nil] at *
        refine .inl ⟨[⟨posOf pre, v⟩], ?_⟩
        have := Lex.tok pre a [] v [] (lexeme_follow hl fun d hd => by simp at hd) (.eof _)
        simpa using this
      by_cases ha : a = []
      · subst ha
        exact .inl ⟨[], .eof _⟩
      have hlen := List.length_pos_iff.2 hz
      have cut : ((∃ s, v = .Str s) ∨ IsNumber (⟨posOf pre, v⟩ : Token F)) →
          ∃ x ts l l' r v, a = x ++ l ∧ l ++ b = l' ++ r ∧ l ≠ [] ∧ l.length < l'.length ∧ LexTo E pre x ts (l ++ b) ∧
          Lexeme E l' v r ∧ ((∃ s, v = .Str s) ∨ IsNumber (⟨posOf (pre ++ x), v⟩ : Token F)) := fun hv =>
        ⟨[], [], a, a ++ z, rest, v, rfl, by rw [h2]; simp, ha, by simp; omega, .nil _ _, hl, by simpa using hv⟩
      generalize hla : a ++ z = l0 at hl
      cases hl with
      | lbracket =>
        have := congrArg List.length hla
        have h3 := List.length_pos_iff.2 ha
        simp at this; omega
      | rbracket =>
        have := congrArg List.length hla
        have h3 := List.length_pos_iff.2 ha
        simp at this; omega
      | str body s _ h => exact .inr (cut (.inl ⟨_, rfl⟩))
      | num _ _ _ h hs _ =>
        refine .inr (cut (.inr ?_))
        cases h with
        | int => exact .inl ⟨_, rfl⟩
        | intExp => exact .inl ⟨_, rfl⟩
        | _ => exact .inr ⟨_, rfl⟩
      | ident c cs _ hc hcs _ =>
        cases a with
        | nil => exact absurd rfl ha
        | cons d a =>
          simp only [List.cons_append, List.cons.injEq] at hla
          obtain ⟨rfl, rfl⟩ := hla
          refine .inl ⟨[⟨posOf pre, .Identifier (String.ofList (d :: a))⟩], ?_⟩
          have := Lex.tok pre (d :: a) [] _ [] (Lexeme.ident (E := E) d a [] hc (fun x hx => hcs x (by simp [hx])) (by simp)) (.eof _)
          simpa using this

end Pbrt.Proof.CutText
