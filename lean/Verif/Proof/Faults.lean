import Verif.Spec.Faults
import Verif.Proof.LexProps

/-!
# The tokenizer on texts outside the lexical language
-/

namespace Pbrt.Proof
open Pbrt.Spec

variable {F : Type}

/-- The fault as an outcome. -/
def faultRes {α : Type} : Fault → Res TokenizerError α
  | .error m => .err (.Str m)
  | .overflow => .panic

/-! ### Numbers: every fault is reported -/

theorem tokenizeNum_start' {E : Env F} (fuel : Nat) (s : Sign) (pre cs : List Char)
    (hh : s = .none → ∀ c, cs.head? = some c → c ≠ '+' ∧ c ≠ '-') :
    tokenizeNum E (fuel + 1) (St pre (s.text ++ cs)) =
      numLoop E fuel (posOf pre) s.kept false (St (pre ++ s.text) cs) := by
  cases s with
  | none =>
    exact tokenizeNum_start fuel .none pre cs
      ⟨fun h => (hh rfl _ h).2 rfl, fun h => (hh rfl _ h).1 rfl⟩
  | minus =>
    rw [tokenizeNum, bind_ok (tkPos_St ..), bind_ok (a := ['-']) (s' := St (pre ++ ['-']) cs)]
    · rfl
    · show (M.attempt tkPeek >>= fun _ => _) (St pre ('-' :: cs)) = _
      rw [bind_ok (attempt_ok (tkPeek_cons ..))]
      show (M.attempt tkNext >>= fun _ => _) _ = _
      rw [bind_ok (attempt_ok (tkNext_cons ..))]; rfl
  | plus =>
    rw [tokenizeNum, bind_ok (tkPos_St ..), bind_ok (a := []) (s' := St (pre ++ ['+']) cs)]
    · rfl
    · show (M.attempt tkPeek >>= fun _ => _) (St pre ('+' :: cs)) = _
      rw [bind_ok (attempt_ok (tkPeek_cons ..))]
      show (M.attempt tkNext >>= fun _ => _) _ = _
      rw [bind_ok (attempt_ok (tkNext_cons ..))]; rfl

/-- A sign and a body that are not both missing. -/
theorem tokenizeNum_body {E : Env F} (hE : Sane E) (s : Sign) {b : Bool} {ds : List Char}
    (hb : Body E b ds) (hne : s.kept ++ ds ≠ []) (fuel : Nat) (pre rest : List Char)
    (hfuel : fuel ≥ ds.length + 1) :
    tokenizeNum E fuel (St pre (s.text ++ ds ++ rest)) =
      numLoop E (fuel - ds.length - 1) (posOf pre) (s.kept ++ ds) b
        (St (pre ++ (s.text ++ ds)) rest) := by
  obtain ⟨f, rfl⟩ : ∃ f, fuel = f + ds.length + 1 := ⟨fuel - ds.length - 1, by omega⟩
  rw [show f + ds.length + 1 - ds.length - 1 = f by omega]
  rw [List.append_assoc, tokenizeNum_start', numLoop_body hE hb]
  · simp
  · rintro rfl c hc
    cases ds with
    | nil => exact absurd rfl hne
    | cons d ds =>
      simp only [List.cons_append, List.head?_cons, Option.some.injEq] at hc
      subst hc
      have := body_head hE hb (rest := []) (by simp)
      exact ⟨by simpa using this.2, by simpa using this.1⟩

theorem body_of {E : Env F} {ds : List Char} (h : IntBody E ds ∨ FracBody E ds) :
    ∃ b, Body E b ds := by
  rcases h with h | h
  · exact ⟨false, .inl ⟨rfl, h⟩⟩
  · exact ⟨true, .inr ⟨rfl, h⟩⟩

theorem not_frac_of_int {E : Env F} (hE : Sane E) {ds : List Char} (h : IntBody E ds) :
    ¬ FracBody E ds := by
  rintro ⟨a, b, rfl, _, _⟩
  have := h '.' (by simp)
  rw [(hE.punct '.' (by simp)).1] at this
  exact absurd this (by simp)

theorem parseIsize_wholeOk {E : Env F} (hE : Sane E) {s : Sign} {ds : List Char} (h : WholeOk s ds) :
    parseIsize (s.kept ++ ds) = some (s.apply (decVal ds)) := parseIsize_of hE h.1 h.2.1 h.2.2

theorem parseIsize_not_wholeOk {E : Env F} (hE : Sane E) {s : Sign} {ds : List Char}
    (hds : IntBody E ds) (h : ¬ WholeOk s ds) : parseIsize (s.kept ++ ds) = none := by
  have hs := noSign_of_body hE hds
  cases hp : parseIsize (s.kept ++ ds) with
  | none => rfl
  | some i =>
    obtain ⟨h1, h2, h3, _⟩ := (parseIsize_spec s ds hs.1 hs.2 i).1 hp
    exact absurd ⟨h1, h2, h3⟩ h

theorem numFault_run {E : Env F} (hE : Sane E) {pre cs : List Char} {f : Fault}
    (h : NumFault E pre cs f) : ∀ fuel, fuel ≥ 2 * cs.length + 2 →
      (tokenizeNum E fuel (St pre cs)).1 = faultRes f := by
  induction h with
  | noNumber pre s rest hk hs hrest =>
    intro fuel hfuel
    obtain ⟨fuel, rfl⟩ : ∃ k, fuel = k + 1 + 1 := ⟨fuel - 2, by omega⟩
    rw [tokenizeNum_start' _ _ _ _ hs, hk]
    by_cases he : rest.head? = some 'e'
    · obtain ⟨x, rfl⟩ : ∃ x, rest = 'e' :: x := by
        cases rest with
        | nil => simp at he
        | cons c x => simp at he; subst he; exact ⟨x, rfl⟩
      rw [numLoop_exp_err hE]; rfl
    · rw [numLoop_end]
      · unfold numFinish
        rw [if_pos rfl, bind_ok (tkPos_St ..)]
        rfl
      · intro c hc
        exact ⟨(hrest c hc).1, (hrest c hc).2, by rintro rfl; exact he hc⟩
  | secondPoint pre s ds rest hds =>
    intro fuel hfuel
    simp only [List.length_append, List.length_cons] at hfuel
    rw [tokenizeNum_body hE s (.inr ⟨rfl, hds⟩) (kept_ne_of_frac hds) _ _ _ (by omega)]
    obtain ⟨k, hk⟩ : ∃ k, fuel - ds.length - 1 = k + 1 := ⟨fuel - ds.length - 2, by omega⟩
    rw [hk, numLoop, bind_ok (attempt_ok (tkPeek_cons ..))]
    simp only [(hE.punct '.' (by simp)).1, if_true]
    show ((tkPos >>= fun p => _) _).1 = _
    rw [bind_ok (tkPos_St ..)]
    simp only [M.throw_apply, String.append_assoc, faultRes]
    rw [List.append_assoc]
    rfl
  | whole pre s ds rest hne hds hbad hrest =>
    intro fuel hfuel
    simp only [List.length_append] at hfuel
    rw [tokenizeNum_body hE s (.inl ⟨rfl, hds⟩) hne _ _ _ (by omega)]
    obtain ⟨k, hk⟩ : ∃ k, fuel - ds.length - 1 = k + 1 := ⟨fuel - ds.length - 2, by omega⟩
    rw [hk, numLoop_end _ _ _ _ _ _ hrest]
    unfold numFinish
    rw [if_neg hne, if_neg (by simp), bind_err (parseIntM_err (parseIsize_not_wholeOk hE hds hbad) _)]
    rfl
  | point pre s ds rest m hds hm hrest =>
    intro fuel hfuel
    simp only [List.length_append] at hfuel
    rw [tokenizeNum_body hE s (.inr ⟨rfl, hds⟩) (kept_ne_of_frac hds) _ _ _ (by omega)]
    obtain ⟨k, hk⟩ : ∃ k, fuel - ds.length - 1 = k + 1 := ⟨fuel - ds.length - 2, by omega⟩
    rw [hk, numLoop_end _ _ _ _ _ _ hrest]
    unfold numFinish
    rw [if_neg (kept_ne_of_frac hds), if_pos rfl, bind_err (parseFloatM_err hm _)]
    rfl
  | exponent pre s ds x f hne hds h ih =>
    intro fuel hfuel
    simp only [List.length_append, List.length_cons] at hfuel
    obtain ⟨b, hb⟩ := body_of hds
    rw [tokenizeNum_body hE s hb hne _ _ _ (by omega)]
    obtain ⟨k, hk⟩ : ∃ k, fuel - ds.length - 1 = k + 1 := ⟨fuel - ds.length - 2, by omega⟩
    rw [hk, numLoop_exp hE _ _ _ _ _ _ hne]
    have ih := ih k (by omega)
    rw [show pre ++ s.text ++ ds ++ ['e'] = pre ++ (s.text ++ ds) ++ ['e'] by simp] at ih
    generalize hT : tokenizeNum E k (St (pre ++ (s.text ++ ds) ++ ['e']) x) = T at ih
    obtain ⟨r, st⟩ := T
    simp only at ih
    subst ih
    cases f with
    | error m => rw [bind_err hT]; rfl
    | overflow => rw [bind_panic hT]; rfl
  | wholeMantissa pre s ds x rest k hne hds hbad hx hk hrest =>
    intro fuel hfuel
    simp only [List.length_append, List.length_cons] at hfuel
    rw [show s.text ++ ds ++ 'e' :: x ++ rest = s.text ++ ds ++ 'e' :: (x ++ rest) by simp]
    rw [tokenizeNum_body hE s (.inl ⟨rfl, hds⟩) hne _ _ _ (by omega)]
    obtain ⟨j, hj⟩ : ∃ k, fuel - ds.length - 1 = k + 1 := ⟨fuel - ds.length - 2, by omega⟩
    rw [hj, numLoop_exp hE _ _ _ _ _ _ hne,
      bind_ok (tokenizeNum_complete hE hx j (pre ++ (s.text ++ ds) ++ ['e']) rest (by omega) hrest)]
    simp only [Token.removePos]
    rw [if_pos ⟨hk, by simp⟩, bind_err (parseIntM_err (parseIsize_not_wholeOk hE hds hbad) _)]
    rfl
  | floatMantissa pre s ds x rest v m hne hds hx hv hm hrest =>
    intro fuel hfuel
    simp only [List.length_append, List.length_cons] at hfuel
    rw [show s.text ++ ds ++ 'e' :: x ++ rest = s.text ++ ds ++ 'e' :: (x ++ rest) by simp]
    obtain ⟨b, hb⟩ := body_of hds
    rw [tokenizeNum_body hE s hb hne _ _ _ (by omega)]
    obtain ⟨j, hj⟩ : ∃ k, fuel - ds.length - 1 = k + 1 := ⟨fuel - ds.length - 2, by omega⟩
    rw [hj, numLoop_exp hE _ _ _ _ _ _ hne,
      bind_ok (tokenizeNum_complete hE hx j (pre ++ (s.text ++ ds) ++ ['e']) rest (by omega) hrest)]
    rcases numLit_kind hx with ⟨i, rfl⟩ | ⟨g, rfl⟩
    · simp only [Token.removePos]
      rw [if_neg, bind_err (parseFloatM_err hm _)]
      · rfl
      · rintro ⟨hi, rfl⟩
        rcases hv with ⟨g, hg⟩ | ⟨k, hk, hlt⟩ | hfr
        · simp at hg
        · simp only [TokenType.Int.injEq] at hk; omega
        · rcases hb with ⟨_, hb⟩ | ⟨hb, _⟩
          · exact not_frac_of_int hE hb hfr
          · simp at hb
    · simp only [Token.removePos]
      rw [bind_err (parseFloatM_err hm _)]
      rfl
  | overflow pre s ds x rest k hc hok hx hk hv hrest =>
    intro fuel hfuel
    simp only [List.length_append, List.length_cons] at hfuel
    rw [show s.text ++ ds ++ 'e' :: x ++ rest = s.text ++ ds ++ 'e' :: (x ++ rest) by simp]
    have hne : s.kept ++ ds ≠ [] := by simp [hok.1]
    rw [tokenizeNum_body hE s (.inl ⟨rfl, intBody_of_digits hE hok.2.1⟩) hne _ _ _ (by omega)]
    obtain ⟨j, hj⟩ : ∃ k, fuel - ds.length - 1 = k + 1 := ⟨fuel - ds.length - 2, by omega⟩
    rw [hj, numLoop_exp hE _ _ _ _ _ _ hne,
      bind_ok (tokenizeNum_complete hE hx j (pre ++ (s.text ++ ds) ++ ['e']) rest (by omega) hrest)]
    simp only [Token.removePos]
    rw [if_pos ⟨hk, by simp⟩, bind_ok (parseIntM_ok (parseIsize_wholeOk hE hok) _)]
    generalize St (pre ++ (s.text ++ ds) ++ ['e'] ++ x) rest = st
    by_cases hp : Fits (10 ^ (k.toNat % 2 ^ 32))
    · have hp' : pow10M E k st = (.ok (10 ^ (k.toNat % 2 ^ 32)), st) :=
        isizeOp_ok (.inl ⟨hp, rfl⟩) _
      rw [bind_ok hp', bind_panic (isizeOp_panic hc (hv.resolve_left (fun h => h hp)) _)]
      rfl
    · have hp' : pow10M E k st = (.panic, st) := isizeOp_panic hc hp _
      rw [bind_panic hp']
      rfl

/-! ### Numbers: every text either starts with a number or has a fault -/

/-- What the tail of a number decides. -/
theorem num_total_body {E : Env F} (s : Sign) {ds rest : List Char}
    (pre : List Char) (hne : s.kept ++ ds ≠ []) (hds : IntBody E ds ∨ FracBody E ds)
    (hnum : ∀ c, rest.head? = some c → E.isNumeric c = false)
    (hdot : rest.head? = some '.' → FracBody E ds)
    (ih : ∀ pre' x, x.length < rest.length →
      (∃ l v r, x = l ++ r ∧ NumLit E l v ∧ NumFollow E r) ∨ ∃ f, NumFault E pre' x f) :
    (∃ l v r, s.text ++ ds ++ rest = l ++ r ∧ NumLit E l v ∧ NumFollow E r) ∨
      ∃ f, NumFault E pre (s.text ++ ds ++ rest) f := by
  by_cases hf : NumFollow E rest
  · rcases hds with hds | hds
    · by_cases hw : WholeOk s ds
      · exact .inl ⟨_, _, rest, rfl, .int s ds hw.1 hw.2.1 hw.2.2, hf⟩
      · exact .inr ⟨_, .whole pre s ds rest hne hds hw hf⟩
    · cases hm : E.parseFloat (s.kept ++ ds) with
      | ok g => exact .inl ⟨_, _, rest, rfl, .frac s ds g hds hm, hf⟩
      | error m => exact .inr ⟨_, .point pre s ds rest m hds hm hf⟩
  · obtain ⟨c, x, rfl, hc⟩ : ∃ c x, rest = c :: x ∧ (c = '.' ∨ c = 'e') := by
      cases rest with
      | nil => exact absurd (fun c hc => by simp at hc) hf
      | cons c x =>
        refine ⟨c, x, rfl, ?_⟩
        apply Classical.byContradiction
        intro hh
        refine hf fun d hd => ?_
        simp at hd
        subst hd
        exact ⟨hnum c rfl, fun h => hh (.inl h), fun h => hh (.inr h)⟩
    rcases hc with rfl | rfl
    · exact .inr ⟨_, .secondPoint pre s ds x (hdot rfl)⟩
    · rcases ih (pre ++ s.text ++ ds ++ ['e']) x (by simp) with ⟨l, v, r, rfl, hl, hr⟩ | ⟨f, h⟩
      · have e : s.text ++ ds ++ 'e' :: (l ++ r) = (s.text ++ ds ++ 'e' :: l) ++ r := by simp
        rw [e]
        -- the float conversion decides
        have fl : ((∃ f, v = .Float f) ∨ (∃ k, v = .Int k ∧ k < 0) ∨ FracBody E ds) →
            (∃ l' w r', (s.text ++ ds ++ 'e' :: l) ++ r = l' ++ r' ∧ NumLit E l' w ∧
              NumFollow E r') ∨ ∃ f, NumFault E pre ((s.text ++ ds ++ 'e' :: l) ++ r) f := by
          intro hv
          cases hm : E.parseFloat (s.kept ++ ds) with
          | error m => exact .inr ⟨_, .floatMantissa pre s ds l r v m hne hds hl hv hm hr⟩
          | ok g =>
            refine .inl ?_
            rcases hv with ⟨f, rfl⟩ | ⟨k, rfl, hk⟩ | hfr
            · exact ⟨_, _, r, rfl, .floatExp s ds l g f hne hds hm hl, hr⟩
            · rcases hds with hds | hds
              · exact ⟨_, _, r, rfl, .negExp s ds l g k hne hds hm hl hk, hr⟩
              · exact ⟨_, _, r, rfl, .fracExp s ds l g k hds hm hl, hr⟩
            · rcases numLit_kind hl with ⟨k, rfl⟩ | ⟨f, rfl⟩
              · exact ⟨_, _, r, rfl, .fracExp s ds l g k hfr hm hl, hr⟩
              · exact ⟨_, _, r, rfl, .floatExp s ds l g f hne hds hm hl, hr⟩
        rcases numLit_kind hl with ⟨k, rfl⟩ | ⟨f, rfl⟩
        · rcases hds with hds | hds
          · by_cases hk : k < 0
            · exact fl (.inr (.inl ⟨k, rfl, hk⟩))
            · have hk : 0 ≤ k := by omega
              by_cases hw : WholeOk s ds
              · by_cases hv : ∃ v, ScaledBy E (s.apply (decVal ds)) k v
                · obtain ⟨v, hv⟩ := hv
                  exact .inl ⟨_, _, r, rfl, .intExp s ds l k v hw.1 hw.2.1 hw.2.2 hl hk hv, hr⟩
                · refine .inr ⟨_, .overflow pre s ds l r k ?_ hw hl hk ?_ hr⟩
                  · cases hc : E.overflowChecks with
                    | true => rfl
                    | false =>
                      exfalso
                      have mach : ∀ x, ∃ v, Machine E x v := by
                        intro x
                        rcases isizeOp_cases E x (St [] []) with ⟨v, h, _⟩ | ⟨h, _⟩
                        · exact ⟨v, h⟩
                        · rw [hc] at h; exact absurd h (by simp)
                      obtain ⟨p, hp⟩ := mach (10 ^ (k.toNat % 2 ^ 32))
                      obtain ⟨v, hv'⟩ := mach (s.apply (decVal ds) * p)
                      exact hv ⟨v, p, hp, hv'⟩
                  · by_cases hp : Fits (10 ^ (k.toNat % 2 ^ 32))
                    · refine .inr fun hm => hv ⟨_, _, .inl ⟨hp, rfl⟩, .inl ⟨hm, rfl⟩⟩
                    · exact .inl hp
              · exact .inr ⟨_, .wholeMantissa pre s ds l r k hne hds hw hl hk hr⟩
          · exact fl (.inr (.inr hds))
        · exact fl (.inl ⟨f, rfl⟩)
      · exact .inr ⟨f, .exponent pre s ds x f hne hds h⟩

theorem num_total {E : Env F} (n : Nat) : ∀ (pre cs : List Char), cs.length ≤ n →
    (∃ l v r, cs = l ++ r ∧ NumLit E l v ∧ NumFollow E r) ∨ ∃ f, NumFault E pre cs f := by
  induction n using Nat.strongRecOn with
  | ind n IH =>
  intro pre cs hn
  -- the sign
  obtain ⟨s, z, rfl, hs⟩ : ∃ (s : Sign) (z : List Char), cs = s.text ++ z ∧
      (s = .none → ∀ c, z.head? = some c → c ≠ '+' ∧ c ≠ '-') := by
    cases cs with
    | nil => exact ⟨.none, [], rfl, by simp⟩
    | cons c cs =>
      by_cases hp : c = '+'
      · exact ⟨.plus, cs, by simp [Sign.text, hp], by simp⟩
      by_cases hm : c = '-'
      · exact ⟨.minus, cs, by simp [Sign.text, hm], by simp⟩
      exact ⟨.none, c :: cs, rfl, by rintro - d hd; simp at hd; subst hd; exact ⟨hp, hm⟩⟩
  obtain ⟨a, r, rfl, ha, hr⟩ := span_exists E.isNumeric z
  simp only [List.length_append] at hn
  by_cases hd : r.head? = some '.'
  · obtain ⟨r1, rfl⟩ : ∃ r1, r = '.' :: r1 := by
      cases r with
      | nil => simp at hd
      | cons c r1 => simp at hd; subst hd; exact ⟨r1, rfl⟩
    obtain ⟨a2, r2, rfl, ha2, hr2⟩ := span_exists E.isNumeric r1
    simp only [List.length_append, List.length_cons] at hn
    have hfr : FracBody E (a ++ '.' :: a2) := ⟨a, a2, rfl, ha, ha2⟩
    have := num_total_body s (ds := a ++ '.' :: a2) (rest := r2) pre (kept_ne_of_frac hfr)
      (.inr hfr) hr2 (fun _ => hfr)
      (fun pre' x hx => IH x.length (by omega) pre' x (Nat.le_refl _))
    simpa using this
  · by_cases hne : s.kept ++ a = []
    · have hk : s.kept = [] := by simp at hne; exact hne.1
      have : a = [] := text_eq_nil_of hne
      subst this
      refine .inr ⟨_, .noNumber pre s r hk (by simpa using hs) fun c hc => ⟨hr c hc, ?_⟩⟩
      rintro rfl
      exact hd hc
    · have := num_total_body s (ds := a) (rest := r) pre hne (.inl ha) hr
        (fun h => absurd h hd)
        (fun pre' x hx => IH x.length (by omega) pre' x (Nat.le_refl _))
      simpa using this

/-! ### Strings -/

theorem strLoop_unesc {body str : List Char} (h : Unesc body str) :
    ∀ (fuel : Nat) (sp : Pos) (sc pre rest : List Char),
    (strLoop (fuel + body.length) sp sc (St pre (body ++ rest)) :
        Res TokenizerError (Token F) × Tokenizer) =
      strLoop (fuel + (body.length - str.length)) sp (sc ++ str) (St (pre ++ body) rest) := by
  induction h with
  | nil => intro fuel sp sc pre rest; simp
  | plain c body s hq hb h ih =>
    intro fuel sp sc pre rest
    rw [List.length_cons, ← Nat.add_assoc, List.cons_append, strLoop_plain _ _ _ _ _ _ hq hb, ih]
    simp
  | newline body s h ih =>
    intro fuel sp sc pre rest
    have hl : s.length ≤ body.length := by
      clear ih
      induction h <;> simp <;> omega
    rw [show fuel + ('\\' :: 'n' :: body).length = (fuel + 1 + body.length) + 1 by simp; omega]
    rw [List.cons_append, List.cons_append, strLoop_esc_n, ih]
    rw [show fuel + 1 + (body.length - s.length) =
      fuel + (('\\' :: 'n' :: body).length - ('\n' :: s).length) by simp; omega]
    simp
  | other c body s hn h ih =>
    intro fuel sp sc pre rest
    have hl : s.length ≤ body.length := by
      clear ih
      induction h <;> simp <;> omega
    rw [show fuel + ('\\' :: c :: body).length = (fuel + 1 + body.length) + 1 by simp; omega]
    rw [List.cons_append, List.cons_append, strLoop_esc _ _ _ _ _ _ hn, ih]
    rw [show fuel + 1 + (body.length - s.length) =
      fuel + (('\\' :: c :: body).length - (c :: s).length) by simp; omega]
    simp

/-- Every text is a string body up to a quote, up to its end, or up to a last backslash. -/
theorem str_total (n : Nat) : ∀ cs : List Char, cs.length ≤ n →
    (∃ body s rest, Unesc body s ∧ cs = body ++ '"' :: rest) ∨ (∃ s, Unesc cs s) ∨
    (∃ body s, Unesc body s ∧ cs = body ++ ['\\']) := by
  induction n using Nat.strongRecOn with
  | ind n IH =>
  intro cs hn
  match cs, hn with
  | [], _ => exact .inr (.inl ⟨_, .nil⟩)
  | c :: cs, hn =>
    simp only [List.length_cons] at hn
    by_cases hq : c = '"'
    · subst hq; exact .inl ⟨[], [], cs, .nil, rfl⟩
    by_cases hb : c = '\\'
    · subst hb
      match cs, hn with
      | [], _ => exact .inr (.inr ⟨[], [], .nil, rfl⟩)
      | d :: cs, hn =>
        simp only [List.length_cons] at hn
        have ih := IH cs.length (by omega) cs (Nat.le_refl _)
        by_cases hd : d = 'n'
        · subst hd
          rcases ih with ⟨b, s, r, h, rfl⟩ | ⟨s, h⟩ | ⟨b, s, h, rfl⟩
          · exact .inl ⟨_, _, r, .newline b s h, rfl⟩
          · exact .inr (.inl ⟨_, .newline _ s h⟩)
          · exact .inr (.inr ⟨_, _, .newline b s h, rfl⟩)
        · rcases ih with ⟨b, s, r, h, rfl⟩ | ⟨s, h⟩ | ⟨b, s, h, rfl⟩
          · exact .inl ⟨_, _, r, .other d b s hd h, rfl⟩
          · exact .inr (.inl ⟨_, .other d _ s hd h⟩)
          · exact .inr (.inr ⟨_, _, .other d b s hd h, rfl⟩)
    · have ih := IH cs.length (by omega) cs (Nat.le_refl _)
      rcases ih with ⟨b, s, r, h, rfl⟩ | ⟨s, h⟩ | ⟨b, s, h, rfl⟩
      · exact .inl ⟨_, _, r, .plain c b s hq hb h, rfl⟩
      · exact .inr (.inl ⟨_, .plain c _ s hq hb h⟩)
      · exact .inr (.inr ⟨_, _, .plain c b s hq hb h, rfl⟩)

/-! ### One lexeme -/

theorem bad_ne_nil {E : Env F} {pre b : List Char} {f : Fault} (h : Bad E pre b f) : b ≠ [] := by
  cases h with
  | number text f hs h =>
    obtain ⟨c, hc, _⟩ := hs
    rintro rfl
    simp at hc
  | _ => simp

theorem bad_run {E : Env F} (hE : Sane E) {pre b : List Char} {f : Fault} (h : Bad E pre b f)
    (fuel : Nat) (hfuel : fuel ≥ 2 * b.length + 2) :
    (tokenizeOne E fuel (St pre b)).1 = faultRes f := by
  obtain ⟨fuel, rfl⟩ : ∃ k, fuel = k + 1 := ⟨fuel - 1, by omega⟩
  cases h with
  | char c rest hc =>
    obtain ⟨h1, h2, h3, h4⟩ := hc
    simp only [List.mem_cons, List.not_mem_nil, or_false, not_or] at h4
    rw [tokenizeOne_other _ _ _ _ (by simp [h4]), if_neg (by simp [h4, h1]), if_neg (by simp [h3]),
      if_neg (by simp [h2]), bind_ok (tkPos_St ..)]
    rfl
  | number text f hs h =>
    obtain ⟨c, hc, hs, hnot⟩ := hs
    obtain ⟨cs, rfl⟩ : ∃ cs, b = c :: cs := by
      cases b with
      | nil => simp at hc
      | cons d cs => simp at hc; subst hc; exact ⟨cs, rfl⟩
    rw [tokenizeOne_other _ _ _ _ hnot, if_pos]
    · exact numFault_run hE h _ hfuel
    · simp only [List.mem_cons, List.not_mem_nil, or_false] at hs
      rcases hs with h | h | h | h
      · exact .inr (.inr (.inr h))
      · exact .inl h
      · exact .inr (.inl h)
      · exact .inr (.inr (.inl h))
  | string body s h =>
    simp only [List.length_cons] at hfuel
    rw [tokenizeOne_quote, tokenizeStr_eq]
    have := strLoop_unesc (F := F) h (fuel - body.length + 1) (posOf pre) [] (pre ++ ['"']) []
    rw [show fuel - body.length + 1 + body.length = fuel + 1 by omega, List.append_nil] at this
    rw [this, show fuel - body.length + 1 + (body.length - s.length) =
      (fuel - body.length + (body.length - s.length)) + 1 by omega, strLoop_nil]
    simp [faultRes]
  | escape body s h =>
    simp only [List.length_cons, List.length_append] at hfuel
    rw [List.cons_append, tokenizeOne_quote, tokenizeStr_eq]
    have := strLoop_unesc (F := F) h (fuel - body.length + 1) (posOf pre) [] (pre ++ ['"']) ['\\']
    rw [show fuel - body.length + 1 + body.length = fuel + 1 by omega] at this
    rw [this, show fuel - body.length + 1 + (body.length - s.length) =
      (fuel - body.length + (body.length - s.length)) + 1 by omega, strLoop_esc_nil]
    simp [faultRes]

/-- Any text: nothing, a separator, a lexeme, or a fault. -/
theorem one_total {E : Env F} (pre cs : List Char) :
    cs = [] ∨ (∃ c r, cs = c :: r ∧ Blank E c) ∨
    (∃ body r, cs = '#' :: body ++ '\n' :: r ∧ '\n' ∉ body) ∨
    (∃ body, cs = '#' :: body ∧ '\n' ∉ body) ∨
    (∃ l v r, cs = l ++ r ∧ Lexeme E l v r ∧ l ≠ []) ∨ (∃ f, Bad E pre cs f) := by
  cases cs with
  | nil => exact .inl rfl
  | cons c cs =>
    refine .inr ?_
    by_cases h1 : c = '#'
    · subst h1
      rcases splitAt_newline cs with ⟨body, rest, rfl, hb⟩ | hb
      · exact .inr (.inl ⟨body, rest, rfl, hb⟩)
      · exact .inr (.inr (.inl ⟨cs, rfl, hb⟩))
    by_cases h2 : c = '"'
    · subst h2
      rcases str_total cs.length cs (Nat.le_refl _) with ⟨b, s, r, h, rfl⟩ | ⟨s, h⟩ | ⟨b, s, h, rfl⟩
      · exact .inr (.inr (.inr (.inl ⟨'"' :: b ++ ['"'], _, r, by simp, .str b s r h, by simp⟩)))
      · exact .inr (.inr (.inr (.inr ⟨_, .string pre cs s h⟩)))
      · exact .inr (.inr (.inr (.inr ⟨_, .escape pre b s h⟩)))
    by_cases h3 : c = '['
    · subst h3; exact .inr (.inr (.inr (.inl ⟨['['], _, cs, rfl, .lbracket cs, by simp⟩)))
    by_cases h4 : c = ']'
    · subst h4; exact .inr (.inr (.inr (.inl ⟨[']'], _, cs, rfl, .rbracket cs, by simp⟩)))
    have hnot : c ∉ ['#', '"', '[', ']'] := by simp [h1, h2, h3, h4]
    by_cases hnum : E.isNumeric c = true ∨ c ∈ ['-', '+', '.']
    · have hstart : NumStart E c := ⟨hnum, hnot⟩
      refine .inr (.inr (.inr ?_))
      rcases num_total (c :: cs).length pre (c :: cs) (Nat.le_refl _) with
        ⟨l, v, r, e, hl, hr⟩ | ⟨f, h⟩
      · refine .inl ⟨l, v, r, e, .num l r v hl ?_ hr, numLit_ne_nil hl⟩
        cases l with
        | nil => exact absurd rfl (numLit_ne_nil hl)
        | cons d l => simp at e; exact ⟨d, rfl, e.1 ▸ hstart⟩
      · exact .inr ⟨f, .number pre _ f ⟨c, rfl, hstart⟩ h⟩
    simp only [not_or, Bool.not_eq_true] at hnum
    have hx : c ∉ ['#', '"', '[', ']', '-', '+', '.'] := by
      have := hnum.2
      simp only [List.mem_cons, List.not_mem_nil, or_false, not_or] at this
      simp [h1, h2, h3, h4, this]
    by_cases hws : E.isWhitespace c = true
    · exact .inl ⟨c, cs, rfl, hws, hnum.1, hx⟩
    simp only [Bool.not_eq_true] at hws
    refine .inr (.inr (.inr ?_))
    by_cases hal : E.isAlphabetic c = true
    · obtain ⟨w, rest, rfl, hall, hr⟩ := span_exists E.isAlphanumeric cs
      exact .inl ⟨c :: w, _, rest, rfl, .ident c w rest ⟨hal, hnum.1, hws, hx⟩
        (fun d hd => (alnum_iff d).1 (hall d hd)) (fun d hd => (alnum_false_iff d).1 (hr d hd)),
        by simp⟩
    · simp only [Bool.not_eq_true] at hal
      exact .inr ⟨_, .char pre c cs ⟨hnum.1, hal, hws, hx⟩⟩

/-! ### The whole text -/

theorem text_total {E : Env F} (n : Nat) : ∀ pre cs : List Char, cs.length ≤ n →
    (∃ ts, Lex E pre cs ts) ∨
    (∃ a ts b f, cs = a ++ b ∧ LexTo E pre a ts b ∧ Bad E (pre ++ a) b f) := by
  induction n using Nat.strongRecOn with
  | ind n IH =>
  intro pre cs hn
  rcases one_total pre cs with rfl | ⟨c, r, rfl, hc⟩ | ⟨body, r, rfl, hb⟩ | ⟨body, rfl, hb⟩ |
    ⟨l, v, r, rfl, hl, hne⟩ | ⟨f, h⟩
  · exact .inl ⟨_, .eof pre⟩
  · simp only [List.length_cons] at hn
    rcases IH r.length (by omega) (pre ++ [c]) r (Nat.le_refl _) with ⟨ts, h⟩ | ⟨a, ts, b, f, rfl, h, hbad⟩
    · exact .inl ⟨ts, .blank pre c r ts hc h⟩
    · exact .inr ⟨c :: a, ts, b, f, rfl, .blank pre c a ts b hc h, by simpa using hbad⟩
  · simp only [List.length_cons, List.length_append] at hn
    rcases IH r.length (by omega) (pre ++ '#' :: body ++ ['\n']) r (Nat.le_refl _) with
      ⟨ts, h⟩ | ⟨a, ts, b, f, rfl, h, hbad⟩
    · exact .inl ⟨ts, .comment pre body r ts hb h⟩
    · exact .inr ⟨'#' :: body ++ '\n' :: a, ts, b, f, by simp, .comment pre body a ts b hb h,
        by simpa using hbad⟩
  · exact .inl ⟨_, .lastComment pre body hb⟩
  · have hl' : l.length ≠ 0 := by simpa using hne
    simp only [List.length_append] at hn
    rcases IH r.length (by omega) (pre ++ l) r (Nat.le_refl _) with ⟨ts, h⟩ | ⟨a, ts, b, f, rfl, h, hbad⟩
    · exact .inl ⟨_, .tok pre l r v ts hl h⟩
    · exact .inr ⟨l ++ a, _, b, f, by simp, .tok pre l a v ts b hl h, by simpa using hbad⟩
  · exact .inr ⟨[], [], cs, f, rfl, .nil pre cs, by simpa using h⟩

theorem textFault_run {E : Env F} (hE : Sane E) {input : List Char} {f : Fault}
    (h : TextFault E (replaceCrlf input) f) : tokenize E input = faultRes f := by
  obtain ⟨a, toks, b, hi, ht, hb⟩ := h
  have hl := replaceCrlf_length input
  rw [hi, List.length_append] at hl
  rw [tokenize_lexTo hE hi ht (lexFuel input) (lexFuel input + 1) (Nat.le_refl _) (by omega),
    tokenizeLoop_step, if_neg (bad_ne_nil hb)]
  have hr := bad_run hE hb (lexFuel input) (by unfold lexFuel; omega)
  generalize tokenizeOne E (lexFuel input) (St a b) = r at hr
  obtain ⟨r, s⟩ := r
  simp only at hr
  subst hr
  cases f <;> rfl

theorem lex_or_fault (E : Env F) (text : List Char) :
    (∃ toks, Lex E [] text toks) ∨ ∃ f, TextFault E text f := by
  rcases text_total text.length [] text (Nat.le_refl _) with h | ⟨a, ts, b, f, e, h1, h2⟩
  · exact .inl h
  · exact .inr ⟨f, a, ts, b, e, h1, by simpa using h2⟩

theorem tokenize_fault_iff {E : Env F} (hE : Sane E) (input : List Char) (f : Fault) :
    tokenize E input = faultRes f ↔ TextFault E (replaceCrlf input) f := by
  constructor
  · intro h
    rcases lex_or_fault E (replaceCrlf input) with ⟨toks, hl⟩ | ⟨g, hg⟩
    · rw [tokenize_complete hE input toks hl] at h
      cases f <;> simp [faultRes] at h
    · have := textFault_run hE hg
      rw [h] at this
      cases f <;> cases g <;> simp [faultRes] at this
      · rw [this]; exact hg
      · exact hg
  · exact textFault_run hE

end Pbrt.Proof
