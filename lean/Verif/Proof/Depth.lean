import Verif.Model.Depth
import Verif.Spec.Depth
import Verif.Proof.Fuel
import Verif.Proof.LexAll
import Verif.Proof.ParseDir

/-!
# The recursive functions with a limited call stack
-/

namespace Pbrt.Proof
open Pbrt.Spec

variable {F : Type}

/-! ### A limited stack changes nothing until it is exhausted -/

theorem fle_numAt (E : Env F) (fuel : Nat) : ∀ d,
    FLe (tokenizeNumAt E fuel d) (tokenizeNum E fuel) ∧
    ∀ sp nc b, FLe (numLoopAt E fuel d sp nc b) (numLoop E fuel sp nc b) := by
  induction fuel with
  | zero =>
    intro d
    constructor
    · rw [tokenizeNumAt]; exact FLe.diverge _
    · intro sp nc b; rw [numLoopAt]; exact FLe.diverge _
  | succ n ih =>
    intro d
    constructor
    · cases d with
      | zero => rw [tokenizeNumAt]; exact FLe.diverge _
      | succ d =>
        rw [tokenizeNumAt, tokenizeNum]
        exact FLe.bind (FLe.refl _) fun _ => FLe.bind (FLe.refl _) fun _ => (ih d).2 _ _ _
    · intro sp nc b
      rw [numLoopAt, numLoop]
      refine FLe.bind (FLe.refl _) fun r => ?_
      cases r with
      | error e => cases e <;> exact FLe.refl _
      | ok ch =>
        refine FLe.ite (FLe.bind (FLe.refl _) fun _ => (ih d).2 _ _ _) (FLe.ite (FLe.ite (FLe.refl _)
          (FLe.bind (FLe.refl _) fun _ => (ih d).2 _ _ _)) (FLe.ite (FLe.ite (FLe.refl _) ?_)
            (FLe.refl _)))
        exact FLe.bind (FLe.refl _) fun _ => FLe.bind (ih d).1 fun _ => FLe.refl _

theorem fle_oneAt (E : Env F) (fuel : Nat) : ∀ d,
    FLe (tokenizeOneAt E fuel d) (tokenizeOne E fuel) := by
  induction fuel with
  | zero => intro d; rw [tokenizeOneAt]; exact FLe.diverge _
  | succ n ih =>
    intro d
    cases d with
    | zero => rw [tokenizeOneAt]; exact FLe.diverge _
    | succ d =>
      rw [tokenizeOneAt, tokenizeOne]
      refine FLe.bind (FLe.refl _) fun r => ?_
      split
      · exact FLe.bind (FLe.refl _) fun _ => ih d
      · exact FLe.refl _
      · exact FLe.refl _
      · exact FLe.refl _
      · simp only []
        split
        · exact (fle_numAt E _ _).1
        · split
          · exact FLe.bind (FLe.refl _) fun _ => ih d
          · split <;> exact FLe.refl _
      · exact FLe.refl _

theorem fle_loopAt (E : Env F) (d g fuel : Nat) : ∀ ts,
    FLe (tokenizeLoopAt E d g fuel ts) (tokenizeLoop E g fuel ts) := by
  induction fuel with
  | zero => intro ts; rw [tokenizeLoopAt]; exact FLe.diverge _
  | succ n ih =>
    intro ts
    rw [tokenizeLoopAt, tokenizeLoop]
    refine FLe.bind (FLe.refl _) fun s => FLe.ite ?_ (FLe.refl _)
    refine FLe.bind (FLe.attempt (fle_oneAt E g d)) fun r => ?_
    rcases r with e | t
    · cases e <;> exact FLe.refl _
    · exact ih _

theorem fle_directivesAt (E : Env F) (fuel : Nat) : ∀ d,
    FLe (parseDirectiveAt E fuel d) (parseDirective E fuel) ∧
    ∀ ds, FLe (directivesLoopAt E fuel d ds) (directivesLoop E fuel ds) := by
  induction fuel with
  | zero =>
    intro d
    constructor
    · rw [parseDirectiveAt]; exact FLe.diverge _
    · intro ds; rw [directivesLoopAt]; exact FLe.diverge _
  | succ n ih =>
    intro d
    constructor
    · cases d with
      | zero => rw [parseDirectiveAt]; exact FLe.diverge _
      | succ d =>
        rw [parseDirectiveAt, parseDirective]
        refine FLe.bind (FLe.refl _) fun p => FLe.bind (FLe.refl _) fun s => ?_
        refine FLe.ite (FLe.refl _) (FLe.ite (FLe.refl _) (FLe.ite (FLe.refl _) (FLe.ite (FLe.refl _)
          (FLe.ite ?_ (FLe.ite ?_ (FLe.ite ?_ (FLe.ite (FLe.refl _) (FLe.ite (FLe.refl _) (FLe.refl _)))))))))
        all_goals exact FLe.bind ((ih d).2 _) fun _ => FLe.refl _
    · intro ds
      rw [directivesLoopAt, directivesLoop]
      refine FLe.bind (FLe.refl _) fun t => ?_
      rcases t with ⟨p, _ | _ | _ | _ | _ | _⟩
      · exact FLe.ite (FLe.refl _) (FLe.bind (ih d).1 fun _ => (ih d).2 _)
      all_goals exact FLe.refl _

/-! ### More room -/

theorem more_numAt (E : Env F) (fuel : Nat) : ∀ d,
    FLe (tokenizeNumAt E fuel d) (tokenizeNumAt E fuel (d + 1)) ∧
    ∀ sp nc b, FLe (numLoopAt E fuel d sp nc b) (numLoopAt E fuel (d + 1) sp nc b) := by
  induction fuel with
  | zero =>
    intro d
    constructor
    · rw [tokenizeNumAt]; exact FLe.diverge _
    · intro sp nc b; rw [numLoopAt]; exact FLe.diverge _
  | succ n ih =>
    intro d
    constructor
    · cases d with
      | zero => rw [tokenizeNumAt]; exact FLe.diverge _
      | succ d =>
        rw [tokenizeNumAt, tokenizeNumAt]
        exact FLe.bind (FLe.refl _) fun _ => FLe.bind (FLe.refl _) fun _ => (ih d).2 _ _ _
    · intro sp nc b
      rw [numLoopAt, numLoopAt]
      refine FLe.bind (FLe.refl _) fun r => ?_
      cases r with
      | error e => cases e <;> exact FLe.refl _
      | ok ch =>
        refine FLe.ite (FLe.bind (FLe.refl _) fun _ => (ih d).2 _ _ _) (FLe.ite (FLe.ite (FLe.refl _)
          (FLe.bind (FLe.refl _) fun _ => (ih d).2 _ _ _)) (FLe.ite (FLe.ite (FLe.refl _) ?_)
            (FLe.refl _)))
        exact FLe.bind (FLe.refl _) fun _ => FLe.bind (ih d).1 fun _ => FLe.refl _

theorem more_oneAt (E : Env F) (fuel : Nat) : ∀ d,
    FLe (tokenizeOneAt E fuel d) (tokenizeOneAt E fuel (d + 1)) := by
  induction fuel with
  | zero => intro d; rw [tokenizeOneAt]; exact FLe.diverge _
  | succ n ih =>
    intro d
    cases d with
    | zero => rw [tokenizeOneAt]; exact FLe.diverge _
    | succ d =>
      rw [tokenizeOneAt, tokenizeOneAt]
      refine FLe.bind (FLe.refl _) fun r => ?_
      split
      · exact FLe.bind (FLe.refl _) fun _ => ih d
      · exact FLe.refl _
      · exact FLe.refl _
      · exact FLe.refl _
      · exact FLe.ite (more_numAt E _ _).1 (FLe.ite (FLe.bind (FLe.refl _) fun _ => ih d)
          (FLe.ite (FLe.refl _) (FLe.refl _)))
      · exact FLe.refl _

theorem more_loopAt (E : Env F) (d g fuel : Nat) : ∀ ts,
    FLe (tokenizeLoopAt E d g fuel ts) (tokenizeLoopAt E (d + 1) g fuel ts) := by
  induction fuel with
  | zero => intro ts; rw [tokenizeLoopAt]; exact FLe.diverge _
  | succ n ih =>
    intro ts
    rw [tokenizeLoopAt, tokenizeLoopAt]
    refine FLe.bind (FLe.refl _) fun s => FLe.ite ?_ (FLe.refl _)
    refine FLe.bind (FLe.attempt (more_oneAt E g d)) fun r => ?_
    split
    · exact ih _
    · exact FLe.refl _
    · exact FLe.refl _

theorem more_directivesAt (E : Env F) (fuel : Nat) : ∀ d,
    FLe (parseDirectiveAt E fuel d) (parseDirectiveAt E fuel (d + 1)) ∧
    ∀ ds, FLe (directivesLoopAt E fuel d ds) (directivesLoopAt E fuel (d + 1) ds) := by
  induction fuel with
  | zero =>
    intro d
    constructor
    · rw [parseDirectiveAt]; exact FLe.diverge _
    · intro ds; rw [directivesLoopAt]; exact FLe.diverge _
  | succ n ih =>
    intro d
    constructor
    · cases d with
      | zero => rw [parseDirectiveAt]; exact FLe.diverge _
      | succ d =>
        rw [parseDirectiveAt, parseDirectiveAt]
        refine FLe.bind (FLe.refl _) fun p => FLe.bind (FLe.refl _) fun s => ?_
        refine FLe.ite (FLe.refl _) (FLe.ite (FLe.refl _) (FLe.ite (FLe.refl _) (FLe.ite (FLe.refl _)
          (FLe.ite ?_ (FLe.ite ?_ (FLe.ite ?_ (FLe.ite (FLe.refl _) (FLe.ite (FLe.refl _) (FLe.refl _)))))))))
        all_goals exact FLe.bind ((ih d).2 _) fun _ => FLe.refl _
    · intro ds
      rw [directivesLoopAt, directivesLoopAt]
      refine FLe.bind (FLe.refl _) fun t => ?_
      split
      · exact FLe.ite (FLe.refl _) (FLe.bind (ih d).1 fun _ => (ih d).2 _)
      · exact FLe.refl _

/-! ### Numbers: one call, and one more for every exponent -/

/-- The letters `e` among the leading characters of numbers. -/
def exps (E : Env F) (cs : List Char) : Nat := (cs.takeWhile (numChar E)).count 'e'

theorem exps_cons {E : Env F} {c : Char} (cs : List Char) (h : numChar E c = true) (he : c ≠ 'e') :
    exps E (c :: cs) = exps E cs := by
  simp [exps, h, he]

theorem exps_e {E : Env F} (cs : List Char) : exps E ('e' :: cs) = exps E cs + 1 := by
  have : numChar E 'e' = true := by simp [numChar]
  simp [exps, this]

/-- The optional sign of a number, parser.rs:364-373. -/
def signPart : TM (List Char) := do
  match ← M.attempt tkPeek with
  | .ok '-' =>
    let _ ← M.attempt tkNext
    pure ['-']
  | .ok '+' =>
    let _ ← M.attempt tkNext
    pure []
  | _ => pure []

theorem signPart_other (pre cs : List Char) (c : Char) (h1 : c ≠ '-') (h2 : c ≠ '+') :
    signPart (St pre (c :: cs)) = (.ok [], St pre (c :: cs)) := by
  unfold signPart
  rw [bind_ok (attempt_ok (tkPeek_cons ..))]
  have h : ∀ x : TM (List Char), x = pure [] → x (St pre (c :: cs)) = (.ok [], St pre (c :: cs)) := by
    rintro x rfl; rfl
  refine h _ ?_
  split
  · rename_i heq; simp at heq; exact absurd heq h1
  · rename_i heq; simp at heq; exact absurd heq h2
  · rfl

theorem signPart_eq (E : Env F) (pre cs : List Char) : ∃ nc pre' cs',
    signPart (St pre cs) = (.ok nc, St pre' cs') ∧ exps E cs' = exps E cs := by
  unfold signPart
  cases cs with
  | nil => exact ⟨[], pre, [], by rw [bind_ok (attempt_err (tkPeek_nil ..))]; rfl, rfl⟩
  | cons c cs =>
    by_cases h1 : c = '-'
    · subst h1
      refine ⟨['-'], pre ++ ['-'], cs, ?_, (exps_cons _ (by simp [numChar]) (by decide)).symm⟩
      rw [bind_ok (attempt_ok (tkPeek_cons ..))]
      show (M.attempt tkNext >>= fun _ => pure ['-']) _ = _
      rw [bind_ok (attempt_ok (tkNext_cons ..))]; rfl
    · by_cases h2 : c = '+'
      · subst h2
        refine ⟨[], pre ++ ['+'], cs, ?_, (exps_cons _ (by simp [numChar]) (by decide)).symm⟩
        rw [bind_ok (attempt_ok (tkPeek_cons ..))]
        show (M.attempt tkNext >>= fun _ => pure []) _ = _
        rw [bind_ok (attempt_ok (tkNext_cons ..))]; rfl
      · exact ⟨[], pre, c :: cs, signPart_other pre cs c h1 h2, rfl⟩

theorem numAt_eq {E : Env F} (hE : Sane E) (fuel : Nat) : ∀ (d : Nat) (pre cs : List Char),
    (exps E cs < d → tokenizeNumAt E fuel d (St pre cs) = tokenizeNum E fuel (St pre cs)) ∧
    (exps E cs ≤ d → ∀ sp nc b, numLoopAt E fuel d sp nc b (St pre cs) = numLoop E fuel sp nc b (St pre cs)) := by
  induction fuel with
  | zero =>
    intro d pre cs
    exact ⟨fun _ => by rw [tokenizeNumAt, tokenizeNum], fun _ sp nc b => by rw [numLoopAt, numLoop]⟩
  | succ n ih =>
    intro d pre cs
    constructor
    · intro hd
      obtain ⟨d, rfl⟩ : ∃ k, d = k + 1 := ⟨d - 1, by omega⟩
      rw [tokenizeNumAt, tokenizeNum, bind_ok (tkPos_St ..), bind_ok (tkPos_St ..)]
      obtain ⟨nc, pre', cs', h1, h2⟩ := signPart_eq E pre cs
      refine (bind_ok h1).trans (Eq.trans ?_ (bind_ok h1).symm)
      exact (ih d pre' cs').2 (by omega) _ _ _
    · intro hd sp nc b
      rw [numLoopAt, numLoop]
      cases cs with
      | nil => rw [bind_ok (attempt_err (tkPeek_nil ..)), bind_ok (attempt_err (tkPeek_nil ..))]
      | cons c cs =>
        rw [bind_ok (attempt_ok (tkPeek_cons ..)), bind_ok (attempt_ok (tkPeek_cons ..))]
        simp only []
        by_cases h1 : E.isNumeric c = true
        · rw [if_pos h1, if_pos h1]
          rw [bind_ok (tkNext_cons ..), bind_ok (tkNext_cons ..)]
          have he : c ≠ 'e' := by rintro rfl; rw [sane_e hE] at h1; cases h1
          rw [exps_cons _ (by simp [numChar, h1]) he] at hd
          exact (ih d _ cs).2 hd _ _ _
        · rw [if_neg h1, if_neg h1]
          by_cases h2 : c = '.'
          · subst h2
            simp only [if_true]
            cases b
            · simp only [Bool.false_eq_true, if_false]
              rw [bind_ok (tkNext_cons ..), bind_ok (tkNext_cons ..)]
              rw [exps_cons _ (by simp [numChar]) (by decide)] at hd
              exact (ih d _ cs).2 hd _ _ _
            · rfl
          · rw [if_neg h2, if_neg h2]
            by_cases h3 : c = 'e'
            · subst h3
              rw [if_pos rfl, if_pos rfl]
              by_cases h4 : nc = []
              · rw [if_pos h4, if_pos h4]
              · rw [if_neg h4, if_neg h4]
                rw [bind_ok (attempt_ok (tkNext_cons ..)), bind_ok (attempt_ok (tkNext_cons ..))]
                rw [exps_e] at hd
                rw [M.bind_apply, M.bind_apply, (ih d (pre ++ ['e']) cs).1 (by omega)]
                rcases tokenizeNum E n (St (pre ++ ['e']) cs) with ⟨r, s⟩
                rcases r with ⟨p, _ | _ | _ | _ | _ | _⟩ | _ | _ | _ <;> rfl
            · simp only [h3, if_false]

/-! ### One token -/

theorem exps_le {E : Env F} {m : Nat} {cs : List Char} (h : Exponents E m cs) : exps E cs ≤ m :=
  h [] (cs.takeWhile (numChar E)) (cs.dropWhile (numChar E)) (by simp)
    fun c hc => by simpa using List.all_eq_true.1 (List.all_takeWhile (p := numChar E) (l := cs)) c hc

theorem Exponents.suffix {E : Env F} {m : Nat} {a b : List Char} (h : Exponents E m (a ++ b)) :
    Exponents E m b := fun x w y e hw => h (a ++ x) w y (by simp [e]) hw

theorem oneAt_nil {E : Env F} (fuel d : Nat) (pre : List Char) :
    tokenizeOneAt E (fuel + 1) (d + 1) (St pre []) = (.err .Eof, St pre []) := by
  rw [tokenizeOneAt, bind_ok (attempt_err (tkPeek_nil ..))]; rfl

theorem oneAt_comment {E : Env F} (fuel d : Nat) (pre cs : List Char) :
    tokenizeOneAt E (fuel + 1) (d + 1) (St pre ('#' :: cs)) =
      (skipComment (fuel + 1) >>= fun _ => tokenizeOneAt E fuel d) (St pre ('#' :: cs)) := by
  rw [tokenizeOneAt, bind_ok (attempt_ok (tkPeek_cons ..))]; rfl

theorem oneAt_other {E : Env F} (fuel d : Nat) (pre cs : List Char) (c : Char)
    (h : c ∉ ['#', '"', '[', ']']) :
    tokenizeOneAt E (fuel + 1) (d + 1) (St pre (c :: cs)) =
      (if c = '-' ∨ c = '+' ∨ c = '.' ∨ E.isNumeric c = true then tokenizeNumAt E (fuel + 1) d
      else if E.isWhitespace c then do
        skipWhitespace E (fuel + 1)
        tokenizeOneAt E fuel d
      else if E.isAlphabetic c then tokenizeId E (fuel + 1)
      else do
        let p ← tkPos
        M.throw (.Str (p.fmt ++ " tokenize_one(): unexpected char '" ++ String.singleton c ++ "'")))
      (St pre (c :: cs)) := by
  simp only [List.mem_cons, List.not_mem_nil, or_false, not_or] at h
  rw [tokenizeOneAt, bind_ok (attempt_ok (tkPeek_cons ..))]
  refine congrFun (α := Tokenizer) (β := fun _ => _) ?_ _
  split
  · rename_i heq; simp at heq; exact absurd heq h.1
  · rename_i heq; simp at heq; exact absurd heq h.2.1
  · rename_i heq; simp at heq; exact absurd heq h.2.2.1
  · rename_i heq; simp at heq; exact absurd heq h.2.2.2
  · rename_i heq; simp at heq; subst heq; rfl
  · rename_i heq; cases heq

/-- Does the rest begin with white space? -/
def blankHead (E : Env F) (cs : List Char) : Nat :=
  match cs with
  | [] => 0
  | c :: _ => if E.isWhitespace c then 1 else 0

theorem blankHead_le (E : Env F) (cs : List Char) : blankHead E cs ≤ 1 := by
  unfold blankHead; split
  · omega
  · split <;> omega

theorem oneAt_eq {E : Env F} (hE : Sane E) (m : Nat) (fuel : Nat) : ∀ (d : Nat) (pre cs : List Char),
    fuel ≥ 2 * cs.length + 2 → Exponents E m cs → 2 * cs.count '#' + blankHead E cs + m + 2 ≤ d →
    tokenizeOneAt E fuel d (St pre cs) = tokenizeOne E fuel (St pre cs) := by
  induction fuel with
  | zero => intro d pre cs hf; omega
  | succ n ih =>
    intro d pre cs hf hm hd
    obtain ⟨d, rfl⟩ : ∃ k, d = k + 1 := ⟨d - 1, by omega⟩
    cases cs with
    | nil => rw [oneAt_nil, tokenizeOne_nil]
    | cons c cs =>
      simp only [List.length_cons] at hf
      by_cases h1 : c = '#'
      · subst h1
        rw [oneAt_comment, tokenizeOne_comment]
        have hcnt : ∀ l : List Char, ('#' :: l).count '#' = l.count '#' + 1 := fun l => by simp
        rcases splitAt_newline cs with ⟨body, rest, rfl, hb⟩ | hb
        · have hs := skipComment_line ('#' :: body) (by simp [hb]) (n + 1) pre rest
            (by simp only [List.length_append, List.length_cons] at hf ⊢; omega)
          rw [List.cons_append] at hs
          rw [bind_ok hs, bind_ok hs]
          simp only [List.length_append, List.length_cons] at hf
          have hm' : Exponents E m rest :=
            Exponents.suffix (a := '#' :: body ++ ['\n']) (by simpa using hm)
          refine ih d _ rest (by omega) hm' ?_
          have := blankHead_le E rest
          rw [hcnt, List.count_append] at hd
          have : rest.count '#' ≤ ('\n' :: rest).count '#' := by simp
          omega
        · have hs := skipComment_eof ('#' :: cs) (by simp [hb]) (n + 1) pre
            (by simp only [List.length_cons]; omega)
          rw [bind_ok hs, bind_ok hs]
          rw [hcnt] at hd
          refine ih d _ [] (by simp only [List.length_nil]; omega) ?_ ?_
          · intro a w b e _
            have : w = [] := by
              have := congrArg List.length e
              simp only [List.length_nil, List.length_append] at this
              exact List.eq_nil_of_length_eq_zero (by omega)
            simp [this]
          · show 2 * 0 + 0 + m + 2 ≤ d
            omega
      · by_cases h2 : c = '"'
        · subst h2
          rw [tokenizeOne_quote, tokenizeOneAt, bind_ok (attempt_ok (tkPeek_cons ..))]; rfl
        · by_cases h3 : c = '['
          · subst h3
            rw [tokenizeOneAt, tokenizeOne, bind_ok (attempt_ok (tkPeek_cons ..)),
              bind_ok (attempt_ok (tkPeek_cons ..))]; rfl
          · by_cases h4 : c = ']'
            · subst h4
              rw [tokenizeOneAt, tokenizeOne, bind_ok (attempt_ok (tkPeek_cons ..)),
                bind_ok (attempt_ok (tkPeek_cons ..))]; rfl
            · have hc : c ∉ ['#', '"', '[', ']'] := by simp [h1, h2, h3, h4]
              rw [oneAt_other _ _ _ _ _ hc, tokenizeOne_other _ _ _ _ hc]
              by_cases h5 : c = '-' ∨ c = '+' ∨ c = '.' ∨ E.isNumeric c = true
              · rw [if_pos h5, if_pos h5]
                refine (numAt_eq hE _ d pre _).1 ?_
                have := exps_le hm
                omega
              · rw [if_neg h5, if_neg h5]
                by_cases h6 : E.isWhitespace c = true
                · rw [if_pos h6, if_pos h6]
                  obtain ⟨ws, rest, hcs, hws, hr⟩ := span_exists E.isWhitespace cs
                  have hs := skipWhitespace_run (E := E) (c :: ws)
                    (fun x hx => (List.mem_cons.1 hx).elim (fun e => e ▸ h6) (hws x))
                    (n + 1) pre rest
                    (by rw [hcs] at hf; simp only [List.length_append, List.length_cons] at hf ⊢; omega) hr
                  rw [List.cons_append, ← hcs] at hs
                  rw [bind_ok hs, bind_ok hs]
                  have hb1 : blankHead E (c :: cs) = 1 := by simp [blankHead, h6]
                  rw [hb1, hcs] at hd
                  subst hcs
                  simp only [List.length_append] at hf
                  refine ih d _ rest (by omega)
                    (Exponents.suffix (a := c :: ws) (by simpa using hm)) ?_
                  have hb0 : blankHead E rest = 0 := by
                    cases rest with
                    | nil => rfl
                    | cons x _ => simp [blankHead, hr x rfl]
                  have : rest.count '#' ≤ (c :: (ws ++ rest)).count '#' := by
                    rw [← List.cons_append, List.count_append]; omega
                  omega
                · rw [if_neg h6, if_neg h6]

/-! ### The tokenizer -/

theorem loopAt_step {E : Env F} (d g f : Nat) (ts : List (Token F)) (pre cs : List Char) :
    tokenizeLoopAt E d g (f + 1) ts (St pre cs) =
      if cs = [] then (.ok ts, St pre cs) else
        match tokenizeOneAt E g d (St pre cs) with
        | (.ok t, s) => tokenizeLoopAt E d g f (ts ++ [t]) s
        | (.err .Eof, s) => (.ok ts, s)
        | (.err e, s) => (.err e, s)
        | (.panic, s) => (.panic, s)
        | (.diverge, s) => (.diverge, s) := by
  rw [tokenizeLoopAt, bind_ok (M.get_apply _), isEmpty_St]
  cases cs with
  | nil => rfl
  | cons c cs =>
    rw [if_pos (by simp), if_neg (by simp)]
    rcases h : tokenizeOneAt E g d (St pre (c :: cs)) with ⟨r, s⟩
    cases r with
    | ok t => rw [bind_ok (attempt_ok h)]
    | err e => cases e <;> rw [bind_ok (attempt_err h)] <;> rfl
    | panic => rw [bind_panic (attempt_panic h)]
    | diverge => rw [bind_diverge (attempt_diverge h)]

theorem loopAt_eq {E : Env F} (hE : Sane E) (m d g : Nat) (f : Nat) : ∀ (ts : List (Token F)) (pre cs : List Char),
    g ≥ 2 * cs.length + 2 → Exponents E m cs → 2 * cs.count '#' + m + 3 ≤ d →
    tokenizeLoopAt E d g f ts (St pre cs) = tokenizeLoop E g f ts (St pre cs) := by
  induction f with
  | zero => intro ts pre cs _ _ _; rw [tokenizeLoopAt, tokenizeLoop]
  | succ f ih =>
    intro ts pre cs hg hm hd
    rw [loopAt_step, tokenizeLoop_step]
    by_cases h0 : cs = []
    · rw [if_pos h0, if_pos h0]
    rw [if_neg h0, if_neg h0]
    have := blankHead_le E cs
    rw [oneAt_eq hE m g d pre cs hg hm (by omega)]
    have hout := tokenizeOne_out hE cs.length g pre cs (Nat.le_refl _) hg
    rcases h : tokenizeOne E g (St pre cs) with ⟨r, s⟩
    rw [h] at hout
    cases r with
    | ok t =>
      obtain ⟨sep, l, rest, hcs, -, -, -, -, hs⟩ := hout
      subst hs hcs
      simp only [List.length_append] at hg
      refine ih _ _ _ (by omega) (Exponents.suffix (a := sep ++ l) hm) ?_
      rw [List.count_append] at hd
      omega
    | err e => cases e <;> rfl
    | panic => rfl
    | diverge => rfl

/-! ### Directives: one call for every directive inside of another -/

theorem bind_inv {σ ε α β : Type} {x : M σ ε α} {f : α → M σ ε β} {s s' : σ} {b : β}
    (h : (x >>= f) s = (.ok b, s')) : ∃ a s1, x s = (.ok a, s1) ∧ f a s1 = (.ok b, s') := by
  rw [M.bind_apply] at h
  rcases hx : x s with ⟨r, s1⟩
  rw [hx] at h
  cases r with
  | ok a => exact ⟨a, s1, rfl, h⟩
  | err e => cases h
  | panic => cases h
  | diverge => cases h

theorem bind_out {σ ε α β : Type} {x : M σ ε α} {f : α → M σ ε β} {s : σ}
    (h : (x s).1 = .diverge) : ((x >>= f) s).1 = .diverge := by
  rw [M.bind_apply]
  rcases hx : x s with ⟨r, s1⟩
  rw [hx] at h
  cases (show r = .diverge from h)
  rfl

theorem pure_inv {σ ε α : Type} {a b : α} {s s' : σ} (h : (pure a : M σ ε α) s = (.ok b, s')) : a = b ∧ s = s' := by
  rw [M.pure_apply] at h
  simpa using h

/-- A reader that does not look at the stack. -/
theorem leaf_height {x : PM F (Directive F)} {d : Nat} {s s' : Parser F} {a : Directive F}
    (h : x s = (.ok a, s')) (ha : height a = 1) :
    (height a ≤ d + 1 → x s = (.ok a, s')) ∧ (d + 1 < height a → (x s).1 = .diverge) :=
  ⟨fun _ => h, fun hd => by omega⟩

theorem block_height {C : List (Directive F) → Directive F} (hC : ∀ ds, height (C ds) = 1 + heightAll ds)
    {x y : PM F (List (Directive F))} {d : Nat} {s s' : Parser F} {a : Directive F}
    (ih : ∀ r s', x s = (.ok r, s') → ∃ ds, r = [] ++ ds ∧ (heightAll ds ≤ d → y s = (.ok r, s')) ∧
      (d < heightAll ds → (y s).1 = .diverge))
    (h : (x >>= fun ds => pure (C ds)) s = (.ok a, s')) :
    (height a ≤ d + 1 → (y >>= fun ds => pure (C ds)) s = (.ok a, s')) ∧
      (d + 1 < height a → ((y >>= fun ds => pure (C ds)) s).1 = .diverge) := by
  obtain ⟨r, s1, h1, h2⟩ := bind_inv h
  obtain ⟨rfl, rfl⟩ := pure_inv h2
  obtain ⟨ds, e, h3, h4⟩ := ih r s1 h1
  rw [List.nil_append] at e
  subst e
  rw [hC]
  refine ⟨fun hd => ?_, fun hd => bind_out (h4 (by omega))⟩
  rw [bind_ok (h3 (by omega))]; rfl

theorem heightAll_append (a b : List (Directive F)) : heightAll (a ++ b) = max (heightAll a) (heightAll b) := by
  induction a with
  | nil => simp [heightAll]
  | cons x a ih => simp only [List.cons_append, heightAll, ih]; omega

theorem dirAt_height (E : Env F) (fuel : Nat) : ∀ d,
    (∀ s a s', parseDirective E fuel s = (.ok a, s') →
      (height a ≤ d → parseDirectiveAt E fuel d s = (.ok a, s')) ∧
      (d < height a → (parseDirectiveAt E fuel d s).1 = .diverge)) ∧
    (∀ s acc r s', directivesLoop E fuel acc s = (.ok r, s') → ∃ ds, r = acc ++ ds ∧
      (heightAll ds ≤ d → directivesLoopAt E fuel d acc s = (.ok r, s')) ∧
      (d < heightAll ds → (directivesLoopAt E fuel d acc s).1 = .diverge)) := by
  induction fuel with
  | zero =>
    intro d
    exact ⟨fun s a s' h => (by rw [parseDirective] at h; cases h),
      fun s acc r s' h => (by rw [directivesLoop] at h; cases h)⟩
  | succ n ih =>
    intro d
    constructor
    · intro s a s' h
      rw [parseDirective] at h
      obtain ⟨p, s1, h1, h⟩ := bind_inv h
      obtain ⟨id, s2, h2, h⟩ := bind_inv h
      cases d with
      | zero =>
        have : 1 ≤ height a := by cases a <;> simp [height]
        exact ⟨fun hd => by omega, fun _ => by rw [parseDirectiveAt]; rfl⟩
      | succ d =>
        rw [parseDirectiveAt, bind_ok h1, bind_ok h2]
        have typed : ∀ (C : String → ParamSet F → Directive F), (∀ ty ps, height (C ty ps) = 1) →
            (do let ty ← parseString E; let ps ← parseParamLists E .default; pure (C ty ps)) s2 = (.ok a, s') →
            height a = 1 := by
          intro C hC h
          obtain ⟨ty, s3, -, h⟩ := bind_inv h
          obtain ⟨ps, s4, -, h⟩ := bind_inv h
          obtain ⟨rfl, -⟩ := pure_inv h
          exact hC _ _
        have loop := fun r s'' (hr : directivesLoop E n [] s2 = (.ok r, s'')) => (ih d).2 s2 [] r s'' hr
        by_cases c1 : id = "Material"
        · rw [if_pos c1] at h ⊢
          exact leaf_height h (typed _ (fun _ _ => rfl) h)
        rw [if_neg c1] at h ⊢
        by_cases c2 : id = "Shape"
        · rw [if_pos c2] at h ⊢
          exact leaf_height h (typed _ (fun _ _ => rfl) h)
        rw [if_neg c2] at h ⊢
        by_cases c3 : id = "LightSource"
        · rw [if_pos c3] at h ⊢
          exact leaf_height h (typed _ (fun _ _ => rfl) h)
        rw [if_neg c3] at h ⊢
        by_cases c4 : id = "AreaLightSource"
        · rw [if_pos c4] at h ⊢
          exact leaf_height h (typed _ (fun _ _ => rfl) h)
        rw [if_neg c4] at h ⊢
        by_cases c5 : id = "AttributeBegin"
        · rw [if_pos c5] at h ⊢
          exact block_height (C := fun ds => .Attribute p ds) (fun _ => by simp [height]) loop h
        rw [if_neg c5] at h ⊢
        by_cases c6 : id = "TransformBegin"
        · rw [if_pos c6] at h ⊢
          exact block_height (C := fun ds => .Transform p ds) (fun _ => by simp [height]) loop h
        rw [if_neg c6] at h ⊢
        by_cases c7 : id = "WorldBegin"
        · rw [if_pos c7] at h ⊢
          exact block_height (C := fun ds => .World p ds) (fun _ => by simp [height]) loop h
        rw [if_neg c7] at h ⊢
        by_cases c8 : id = "Include"
        · rw [if_pos c8] at h ⊢
          refine leaf_height h ?_
          obtain ⟨path, s3, -, h⟩ := bind_inv h
          obtain ⟨rfl, -⟩ := pure_inv h
          simp [height]
        rw [if_neg c8] at h ⊢
        by_cases c9 : id = "Texture"
        · rw [if_pos c9] at h ⊢
          refine leaf_height h ?_
          obtain ⟨x1, s3, -, h⟩ := bind_inv h
          obtain ⟨x2, s3, -, h⟩ := bind_inv h
          obtain ⟨x3, s3, -, h⟩ := bind_inv h
          obtain ⟨x4, s3, -, h⟩ := bind_inv h
          obtain ⟨rfl, -⟩ := pure_inv h
          simp [height]
        rw [if_neg c9] at h
        cases h
    · intro s acc r s' h
      rw [directivesLoop] at h
      obtain ⟨t, s1, h1, h⟩ := bind_inv h
      rw [directivesLoopAt, bind_ok h1]
      rcases t with ⟨p, k | _ | _ | _ | _ | _⟩
      · simp only [] at h ⊢
        by_cases hk : k = "AttributeEnd" ∨ k = "TransformEnd" ∨ k = "WorldEnd"
        · rw [if_pos hk] at h ⊢
          obtain ⟨rfl, rfl⟩ := pure_inv h
          exact ⟨[], by simp, fun _ => rfl, fun hd => by simp [heightAll] at hd⟩
        · rw [if_neg hk] at h ⊢
          obtain ⟨x, s2, h2, h⟩ := bind_inv h
          obtain ⟨ds, rfl, h3, h4⟩ := (ih d).2 s2 _ r s' h
          obtain ⟨h5, h6⟩ := (ih d).1 s1 x s2 h2
          refine ⟨x :: ds, by simp, fun hd => ?_, fun hd => ?_⟩
          · simp only [heightAll] at hd
            rw [bind_ok (h5 (by omega))]
            exact h3 (by omega)
          · simp only [heightAll] at hd
            by_cases hx : d < height x
            · exact bind_out (h6 hx)
            · rw [bind_ok (h5 (by omega))]
              exact h4 (by omega)
      all_goals cases h

theorem if_congr_state {σ ε α : Type} {c : Prop} [Decidable c] {x y x' y' : M σ ε α} (s : σ)
    (h : c → x s = x' s) (h' : ¬ c → y s = y' s) : (if c then x else y) s = (if c then x' else y') s := by
  by_cases hc : c
  · rw [if_pos hc, if_pos hc]; exact h hc
  · rw [if_neg hc, if_neg hc]; exact h' hc

theorem dirAt_eq (E : Env F) (fuel : Nat) :
    (∀ (d : Nat) (pre ts : List (Token F)), fuel ≥ 2 * ts.length → ts.countP opensBlock < d →
      parseDirectiveAt E fuel d (PS pre ts) = parseDirective E fuel (PS pre ts)) ∧
    (∀ (d : Nat) (pre ts : List (Token F)) (acc : List (Directive F)), fuel ≥ 2 * ts.length + 1 →
      ts.countP opensBlock < d →
      directivesLoopAt E fuel d acc (PS pre ts) = directivesLoop E fuel acc (PS pre ts)) := by
  induction fuel with
  | zero =>
    refine ⟨fun d pre ts _ _ => ?_, fun d pre ts acc h _ => by omega⟩
    rw [parseDirectiveAt, parseDirective]
  | succ n ih =>
    constructor
    · intro d pre ts hf hd
      obtain ⟨d, rfl⟩ : ∃ k, d = k + 1 := ⟨d - 1, by omega⟩
      rw [parseDirectiveAt, parseDirective]
      cases ts with
      | nil => rw [bind_err (pos_nil ..), bind_err (pos_nil ..)]
      | cons t ts =>
        rw [bind_ok (pos_cons ..), bind_ok (pos_cons ..)]
        simp only [List.length_cons] at hf
        by_cases ht : ∃ p s, t = kw p s
        · obtain ⟨p, s, rfl⟩ := ht
          have h1 := (reads_identifier E).ok [kw p s] s pre ts ⟨p, rfl⟩
          refine (bind_ok h1).trans (Eq.trans ?_ (bind_ok h1).symm)
          have loop : (s = "AttributeBegin" ∨ s = "TransformBegin" ∨ s = "WorldBegin") →
              directivesLoopAt E n d [] (PS (pre ++ [kw p s]) ts) = directivesLoop E n [] (PS (pre ++ [kw p s]) ts) := by
            intro hs
            refine ih.2 d _ ts [] (by omega) ?_
            have : opensBlock (kw p s : Token F) = true := by
              rcases hs with rfl | rfl | rfl <;> rfl
            rw [List.countP_cons_of_pos this] at hd
            omega
          have block : ∀ C : List (Directive F) → Directive F,
              (s = "AttributeBegin" ∨ s = "TransformBegin" ∨ s = "WorldBegin") →
              (directivesLoopAt E n d [] >>= fun ds => pure (C ds)) (PS (pre ++ [kw p s]) ts) =
                (directivesLoop E n [] >>= fun ds => pure (C ds)) (PS (pre ++ [kw p s]) ts) := by
            intro C hs
            rw [M.bind_apply, M.bind_apply, loop hs]
          refine if_congr_state _ (fun _ => rfl) fun _ => if_congr_state _ (fun _ => rfl) fun _ =>
            if_congr_state _ (fun _ => rfl) fun _ => if_congr_state _ (fun _ => rfl) fun _ =>
            if_congr_state _ (fun h => block _ (.inl h)) fun _ =>
            if_congr_state _ (fun h => block _ (.inr (.inl h))) fun _ =>
            if_congr_state _ (fun h => block _ (.inr (.inr h))) fun _ => rfl
        · obtain ⟨m, hm⟩ := (reads_identifier E).fail pre (t :: ts) (by
            rintro ⟨a, x, rest, h1, q, rfl⟩
            rw [List.cons_append, List.cons.injEq] at h1
            exact ht ⟨q, x, h1.1⟩)
          rw [bind_err hm, bind_err hm]
    · intro d pre ts acc hf hd
      rw [directivesLoopAt, directivesLoop]
      cases ts with
      | nil => rw [bind_err (peek_nil ..), bind_err (peek_nil ..)]
      | cons t ts =>
        rw [bind_ok (peek_cons ..), bind_ok (peek_cons ..)]
        simp only [List.length_cons] at hf
        rcases t with ⟨p, k | _ | _ | _ | _ | _⟩
        · simp only []
          by_cases hk : k = "AttributeEnd" ∨ k = "TransformEnd" ∨ k = "WorldEnd"
          · rw [if_pos hk, if_pos hk]
          · rw [if_neg hk, if_neg hk, M.bind_apply, M.bind_apply,
              ih.1 d pre (⟨p, .Identifier k⟩ :: ts) (by simp only [List.length_cons]; omega) hd]
            have hout := (directives_out E n).1 pre ts p k (by omega)
            rcases hout with ⟨a, x, rest, e, hne, -, -, hr⟩ | ⟨x, s', -, -, hr⟩ | ⟨m, s', hr, -⟩
            · rw [show (⟨p, .Identifier k⟩ : Token F) = kw p k from rfl, hr]
              simp only []
              have hl : a.length ≠ 0 := fun h => hne (List.eq_nil_of_length_eq_zero h)
              have hlen := congrArg List.length e
              simp only [List.length_cons, List.length_append] at hlen
              refine ih.2 d _ rest _ (by omega) ?_
              rw [show (⟨p, .Identifier k⟩ : Token F) = kw p k from rfl, e, List.countP_append] at hd
              omega
            · rw [show (⟨p, .Identifier k⟩ : Token F) = kw p k from rfl, hr]
            · rw [show (⟨p, .Identifier k⟩ : Token F) = kw p k from rfl, hr]
        all_goals rfl

/-! ### Texts that need room -/

/-- A digit and `n` exponents `e0`. -/
def expTail (n : Nat) : List Char := (List.replicate n ['e', '0']).flatten

theorem expTail_succ (n : Nat) : expTail (n + 1) = 'e' :: '0' :: expTail n := by
  simp [expTail, List.replicate_succ]

theorem numAt_deep {E : Env F} (hE : Sane E) (n : Nat) : ∀ (c : Char), IsDigit c → ∀ (fuel d : Nat) (pre : List Char),
    d ≤ n → (tokenizeNumAt E fuel d (St pre (c :: expTail n))).1 = .diverge := by
  induction n with
  | zero =>
    intro c _ fuel d pre hd
    obtain rfl : d = 0 := by omega
    cases fuel <;> rw [tokenizeNumAt] <;> rfl
  | succ n ih =>
    intro c hc fuel d pre hd
    cases fuel with
    | zero => rw [tokenizeNumAt]; rfl
    | succ f =>
      cases d with
      | zero => rw [tokenizeNumAt]; rfl
      | succ d =>
        rw [tokenizeNumAt, bind_ok (tkPos_St ..)]
        have hm : c ≠ '-' := by rintro rfl; exact not_isDigit_minus hc
        have hp : c ≠ '+' := by rintro rfl; exact not_isDigit_plus hc
        refine (congrArg Prod.fst (bind_ok (f := fun nc => numLoopAt E f d (posOf pre) nc false)
          (signPart_other pre _ c hm hp))).trans ?_
        have hn : E.isNumeric c = true := hE.digit c hc.1 hc.2
        cases f with
        | zero => rw [numLoopAt]; rfl
        | succ f =>
          rw [numLoopAt, bind_ok (attempt_ok (tkPeek_cons ..))]
          simp only []
          rw [if_pos hn, bind_ok (tkNext_cons ..), expTail_succ]
          cases f with
          | zero => rw [numLoopAt]; rfl
          | succ f =>
            rw [numLoopAt, bind_ok (attempt_ok (tkPeek_cons ..))]
            simp only []
            have he : ¬ E.isNumeric 'e' = true := by rw [sane_e hE]; simp
            rw [if_neg he, if_neg (by decide), if_pos trivial, if_neg (by simp),
              bind_ok (attempt_ok (tkNext_cons ..))]
            exact bind_out (ih '0' ⟨by decide, by decide⟩ f d _ (by omega))

theorem expTail_lit {E : Env F} (n : Nat) : ∀ ds v, ds ≠ [] → (∀ c ∈ ds, IsDigit c) →
    v = decVal ds → Fits (v : Int) → NumLit E (ds ++ expTail n) (.Int v) := by
  induction n with
  | zero =>
    intro ds v h1 h2 hv h3
    subst hv
    simpa [expTail, Sign.text, Sign.apply] using NumLit.int (E := E) .none ds h1 h2 h3
  | succ n ih =>
    intro ds v h1 h2 hv h3
    subst hv
    rw [expTail_succ]
    have hx : NumLit E ('0' :: expTail n) (.Int 0) :=
      ih ['0'] 0 (by simp) (by simp [IsDigit]) (by decide) (by unfold Fits; decide)
    have := NumLit.intExp (E := E) .none ds ('0' :: expTail n) 0 (decVal ds) h1 h2 h3 hx (by omega)
      ⟨1, .inl ⟨by unfold Fits; decide, by decide⟩, .inl ⟨by simpa [Sign.apply] using h3, by simp [Sign.apply]⟩⟩
    simpa [Sign.text] using this

/-- `n` empty comments. -/
theorem oneAt_comments {E : Env F} (cm : Nat → List Char) (h0 : cm 0 = [])
    (hs : ∀ n, cm (n + 1) = '#' :: '\n' :: cm n) (n : Nat) : ∀ (fuel d : Nat) (pre : List Char),
    fuel ≥ 2 * n + 2 → ((tokenizeOneAt E fuel d (St pre (cm n))).1 = if d ≤ n then .diverge else .err .Eof) := by
  induction n with
  | zero =>
    intro fuel d pre hf
    obtain ⟨f, rfl⟩ : ∃ f, fuel = f + 1 := ⟨fuel - 1, by omega⟩
    rw [h0]
    cases d with
    | zero => rw [tokenizeOneAt]; rfl
    | succ d => rw [oneAt_nil]; simp
  | succ n ih =>
    intro fuel d pre hf
    obtain ⟨f, rfl⟩ : ∃ f, fuel = f + 1 := ⟨fuel - 1, by omega⟩
    cases d with
    | zero => rw [tokenizeOneAt]; rfl
    | succ d =>
      rw [hs, oneAt_comment]
      have := skipComment_line ['#'] (by decide) (f + 1) pre (cm n) (by simp; omega)
      rw [List.singleton_append] at this
      rw [bind_ok this, ih f d _ (by omega)]
      simp

/-- `n` empty comments before anything. -/
theorem oneAt_comments_tail {E : Env F} (cm : Nat → List Char)
    (hs : ∀ n, cm (n + 1) = '#' :: '\n' :: cm n) (n : Nat) : ∀ (fuel d : Nat) (pre : List Char),
    d ≤ n → (tokenizeOneAt E fuel d (St pre (cm n))).1 = .diverge := by
  induction n with
  | zero =>
    intro fuel d pre hd
    obtain rfl : d = 0 := by omega
    cases fuel <;> rw [tokenizeOneAt] <;> rfl
  | succ n ih =>
    intro fuel d pre hd
    cases fuel with
    | zero => rw [tokenizeOneAt]; rfl
    | succ f =>
      cases d with
      | zero => rw [tokenizeOneAt]; rfl
      | succ d =>
        rw [hs, oneAt_comment]
        cases f with
        | zero =>
          refine bind_out ?_
          rw [skipComment, bind_ok (attempt_ok (tkNext_cons ..))]
          simp only []
          rw [if_neg (by decide), skipComment]; rfl
        | succ f =>
          have := skipComment_line ['#'] (by decide) (f + 1 + 1) pre (cm n) (by simp)
          rw [List.singleton_append] at this
          rw [bind_ok this]
          exact ih _ _ _ (by omega)

end Pbrt.Proof
