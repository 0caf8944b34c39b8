import Verif.Proof.LexNum

/-!
# Symbolic execution of the tokenizer: strings, identifiers, separators, tokens, texts
-/

namespace Pbrt.Proof
open Pbrt.Spec

variable {F : Type}

/-! ### Strings -/

theorem strLoop_nil (fuel : Nat) (sp : Pos) (sc pre : List Char) :
    (strLoop (fuel + 1) sp sc (St pre []) : Res TokenizerError (Token F) × Tokenizer) =
      (.err (.Str ((posOf pre).fmt ++ " tokenize_str(): EOF while processing string")), St pre []) := by
  rw [strLoop, bind_ok (attempt_err (tkNext_nil ..))]
  show (tkPos >>= fun p => _) _ = _
  rw [bind_ok (tkPos_St ..)]; rfl

theorem strLoop_quote (fuel : Nat) (sp : Pos) (sc pre cs : List Char) :
    (strLoop (fuel + 1) sp sc (St pre ('"' :: cs)) : Res TokenizerError (Token F) × Tokenizer) =
      (.ok ⟨sp, .Str (String.ofList sc)⟩, St (pre ++ ['"']) cs) := by
  rw [strLoop, bind_ok (attempt_ok (tkNext_cons ..))]; rfl

theorem strLoop_plain (fuel : Nat) (sp : Pos) (sc pre cs : List Char) (c : Char)
    (hq : c ≠ '"') (hb : c ≠ '\\') :
    (strLoop (fuel + 1) sp sc (St pre (c :: cs)) : Res TokenizerError (Token F) × Tokenizer) =
      strLoop fuel sp (sc ++ [c]) (St (pre ++ [c]) cs) := by
  rw [strLoop, bind_ok (attempt_ok (tkNext_cons ..))]
  refine congrFun (g := strLoop fuel sp (sc ++ [c])) ?_ _
  split
  · rename_i h; simp at h; exact absurd h hb
  · rename_i h; simp at h; exact absurd h hq
  · rename_i h; simp at h; subst h; rfl
  · rename_i h; simp at h
  · rename_i h; simp at h

theorem strLoop_esc_nil (fuel : Nat) (sp : Pos) (sc pre : List Char) :
    (strLoop (fuel + 1) sp sc (St pre ['\\']) : Res TokenizerError (Token F) × Tokenizer) =
      (.err (.Str ((posOf pre).fmt ++ " tokenize_str(): EOF while processing escape seq")),
        St (pre ++ ['\\']) []) := by
  rw [strLoop, bind_ok (attempt_ok (tkNext_cons ..))]
  show (M.attempt tkNext >>= fun _ => _) _ = _
  rw [bind_ok (attempt_err (tkNext_nil ..))]
  show (tkPrevPos >>= fun p => _) _ = _
  rw [bind_ok (tkPrevPos_St ..)]
  simp [M.throw_apply]

theorem strLoop_esc_n (fuel : Nat) (sp : Pos) (sc pre cs : List Char) :
    (strLoop (fuel + 1) sp sc (St pre ('\\' :: 'n' :: cs)) :
        Res TokenizerError (Token F) × Tokenizer) =
      strLoop fuel sp (sc ++ ['\n']) (St (pre ++ ['\\', 'n']) cs) := by
  rw [strLoop, bind_ok (attempt_ok (tkNext_cons ..))]
  show (M.attempt tkNext >>= fun _ => _) _ = _
  rw [bind_ok (attempt_ok (tkNext_cons ..))]
  simp

theorem strLoop_esc (fuel : Nat) (sp : Pos) (sc pre cs : List Char) (c : Char) (hn : c ≠ 'n') :
    (strLoop (fuel + 1) sp sc (St pre ('\\' :: c :: cs)) :
        Res TokenizerError (Token F) × Tokenizer) =
      strLoop fuel sp (sc ++ [c]) (St (pre ++ ['\\', c]) cs) := by
  rw [strLoop, bind_ok (attempt_ok (tkNext_cons ..))]
  show (M.attempt tkNext >>= fun _ => _) _ = _
  rw [bind_ok (attempt_ok (tkNext_cons ..))]
  rw [show pre ++ ['\\', c] = pre ++ ['\\'] ++ [c] by simp]
  refine congrFun (g := strLoop fuel sp (sc ++ [c])) ?_ _
  split
  · rename_i h; simp at h; exact absurd h hn
  · rename_i h; simp at h; subst h; rfl
  · rename_i h; simp at h
  · rename_i h; simp at h

/-- Outcomes of the string loop. -/
def StrOut (sp : Pos) (sc pre cs : List Char) :
    Res TokenizerError (Token F) × Tokenizer → Prop
  | (.ok t, s) => ∃ body rest str, cs = body ++ '"' :: rest ∧ Unesc body str ∧
      t = ⟨sp, .Str (String.ofList (sc ++ str))⟩ ∧ s = St (pre ++ body ++ ['"']) rest
  | (.err (.Str m), _) => PosErr pre cs m
  | _ => False

theorem strLoop_out (n : Nat) : ∀ (fuel : Nat) (sp : Pos) (sc pre cs : List Char), cs.length ≤ n →
    fuel ≥ cs.length + 1 → StrOut (F := F) sp sc pre cs (strLoop fuel sp sc (St pre cs)) := by
  induction n using Nat.strongRecOn with
  | ind n IH =>
  intro fuel sp sc pre cs hn hfuel
  obtain ⟨fuel, rfl⟩ : ∃ f, fuel = f + 1 := ⟨fuel - 1, by omega⟩
  have err_ext : ∀ (a cs : List Char) (m : String), PosErr (pre ++ a) cs m →
      PosErr pre (a ++ cs) m := by
    rintro a cs m ⟨u, v, txt, rfl, rfl⟩
    exact ⟨a ++ u, v, txt, by simp, by simp⟩
  match cs, hn, hfuel with
  | [], _, _ =>
    rw [strLoop_nil]
    exact ⟨[], [], " tokenize_str(): EOF while processing string", rfl, by simp⟩
  | c :: cs, hn, hfuel =>
    simp only [List.length_cons] at hn hfuel
    by_cases hq : c = '"'
    · subst hq
      rw [strLoop_quote]
      exact ⟨[], cs, [], rfl, .nil, by simp, by simp⟩
    by_cases hb : c = '\\'
    · subst hb
      match cs, hn, hfuel with
      | [], _, _ =>
        rw [strLoop_esc_nil]
        exact ⟨[], ['\\'], " tokenize_str(): EOF while processing escape seq", rfl, by simp⟩
      | d :: cs, hn, hfuel =>
        simp only [List.length_cons] at hn hfuel
        by_cases hd : d = 'n'
        · subst hd
          rw [strLoop_esc_n]
          have ih := IH cs.length (by omega) fuel sp (sc ++ ['\n']) (pre ++ ['\\', 'n']) cs
            (Nat.le_refl _) (by omega)
          generalize strLoop fuel sp (sc ++ ['\n']) (St (pre ++ ['\\', 'n']) cs) = r at ih
          match r, ih with
          | (.ok t, s), ⟨body, rest, str, h1, h2, h3, h4⟩ =>
            exact ⟨'\\' :: 'n' :: body, rest, '\n' :: str, by simp [h1], .newline _ _ h2,
              by simp [h3], by simp [h4]⟩
          | (.err (.Str m), s), ih => exact err_ext ['\\', 'n'] cs m ih
        · rw [strLoop_esc _ _ _ _ _ _ hd]
          have ih := IH cs.length (by omega) fuel sp (sc ++ [d]) (pre ++ ['\\', d]) cs
            (Nat.le_refl _) (by omega)
          generalize strLoop fuel sp (sc ++ [d]) (St (pre ++ ['\\', d]) cs) = r at ih
          match r, ih with
          | (.ok t, s), ⟨body, rest, str, h1, h2, h3, h4⟩ =>
            exact ⟨'\\' :: d :: body, rest, d :: str, by simp [h1], .other _ _ _ hd h2,
              by simp [h3], by simp [h4]⟩
          | (.err (.Str m), s), ih => exact err_ext ['\\', d] cs m ih
    · rw [strLoop_plain _ _ _ _ _ _ hq hb]
      have ih := IH cs.length (by omega) fuel sp (sc ++ [c]) (pre ++ [c]) cs
        (Nat.le_refl _) (by omega)
      generalize strLoop fuel sp (sc ++ [c]) (St (pre ++ [c]) cs) = r at ih
      match r, ih with
      | (.ok t, s), ⟨body, rest, str, h1, h2, h3, h4⟩ =>
        exact ⟨c :: body, rest, c :: str, by simp [h1], .plain _ _ _ hq hb h2,
          by simp [h3], by simp [h4]⟩
      | (.err (.Str m), s), ih => exact err_ext [c] cs m ih

theorem strLoop_complete {body str : List Char} (h : Unesc body str) :
    ∀ (fuel : Nat) (sp : Pos) (sc pre rest : List Char), fuel ≥ body.length + 1 →
    (strLoop fuel sp sc (St pre (body ++ '"' :: rest)) : Res TokenizerError (Token F) × Tokenizer) =
      (.ok ⟨sp, .Str (String.ofList (sc ++ str))⟩, St (pre ++ body ++ ['"']) rest) := by
  induction h with
  | nil =>
    intro fuel sp sc pre rest hfuel
    obtain ⟨fuel, rfl⟩ : ∃ f, fuel = f + 1 := ⟨fuel - 1, by omega⟩
    simp [strLoop_quote]
  | plain c body s hq hb h ih =>
    intro fuel sp sc pre rest hfuel
    simp only [List.length_cons] at hfuel
    obtain ⟨fuel, rfl⟩ : ∃ f, fuel = f + 1 := ⟨fuel - 1, by omega⟩
    rw [List.cons_append, strLoop_plain _ _ _ _ _ _ hq hb, ih _ _ _ _ _ (by omega)]
    simp
  | newline body s h ih =>
    intro fuel sp sc pre rest hfuel
    simp only [List.length_cons] at hfuel
    obtain ⟨fuel, rfl⟩ : ∃ f, fuel = f + 1 := ⟨fuel - 1, by omega⟩
    rw [List.cons_append, List.cons_append, strLoop_esc_n, ih _ _ _ _ _ (by omega)]
    simp
  | other c body s hn h ih =>
    intro fuel sp sc pre rest hfuel
    simp only [List.length_cons] at hfuel
    obtain ⟨fuel, rfl⟩ : ∃ f, fuel = f + 1 := ⟨fuel - 1, by omega⟩
    rw [List.cons_append, List.cons_append, strLoop_esc _ _ _ _ _ _ hn, ih _ _ _ _ _ (by omega)]
    simp

theorem tokenizeStr_eq (fuel : Nat) (pre cs : List Char) (c : Char) :
    (tokenizeStr fuel (St pre (c :: cs)) : Res TokenizerError (Token F) × Tokenizer) =
      strLoop fuel (posOf pre) [] (St (pre ++ [c]) cs) := by
  rw [tokenizeStr, bind_ok (tkPos_St ..), bind_ok (attempt_ok (tkNext_cons ..))]

/-! ### Identifiers -/

theorem idLoop_run {E : Env F} (cs : List Char) (h : ∀ c ∈ cs, E.isAlphanumeric c = true) :
    ∀ (fuel : Nat) (ic pre rest : List Char), fuel ≥ cs.length + 1 →
    (∀ c, rest.head? = some c → E.isAlphanumeric c = false) →
    idLoop E fuel ic (St pre (cs ++ rest)) = (.ok (ic ++ cs), St (pre ++ cs) rest) := by
  induction cs with
  | nil =>
    intro fuel ic pre rest hfuel hr
    obtain ⟨fuel, rfl⟩ : ∃ f, fuel = f + 1 := ⟨fuel - 1, by omega⟩
    rw [idLoop]
    cases rest with
    | nil => simp only [List.append_nil]; rw [bind_ok (attempt_err (tkPeek_nil ..))]; rfl
    | cons c rest =>
      simp only [List.nil_append, List.append_nil]
      rw [bind_ok (attempt_ok (tkPeek_cons ..))]
      simp only [hr c rfl]; rfl
  | cons c cs ih =>
    intro fuel ic pre rest hfuel hr
    simp only [List.length_cons] at hfuel
    obtain ⟨fuel, rfl⟩ : ∃ f, fuel = f + 1 := ⟨fuel - 1, by omega⟩
    rw [idLoop, List.cons_append, bind_ok (attempt_ok (tkPeek_cons ..))]
    simp only [h c (by simp), if_true]
    rw [bind_ok (tkNext_cons ..), ih (fun d hd => h d (by simp [hd])) _ _ _ _ (by omega) hr]
    simp

theorem alnum_iff {E : Env F} (c : Char) : E.isAlphanumeric c = true ↔ IdChar E c := by
  simp [Env.isAlphanumeric, IdChar]

theorem alnum_false_iff {E : Env F} (c : Char) : E.isAlphanumeric c = false ↔ ¬ IdChar E c := by
  rw [← alnum_iff]; simp

theorem tokenizeId_eq {E : Env F} (fuel : Nat) (pre : List Char) (c : Char) (cs rest : List Char)
    (hcs : ∀ d ∈ cs, IdChar E d) (hr : ∀ d, rest.head? = some d → ¬ IdChar E d)
    (hfuel : fuel ≥ cs.length + 1) :
    tokenizeId E fuel (St pre (c :: cs ++ rest)) =
      (.ok ⟨posOf pre, .Identifier (String.ofList (c :: cs))⟩, St (pre ++ c :: cs) rest) := by
  rw [tokenizeId, bind_ok (tkPos_St ..), List.cons_append, bind_ok (tkNext_cons ..),
    bind_ok (idLoop_run cs (fun d hd => (alnum_iff d).2 (hcs d hd)) fuel _ _ rest hfuel
      (fun d hd => (alnum_false_iff d).2 (hr d hd)))]
  rw [if_neg (by simp)]
  simp [M.pure_apply]

/-! ### Separators -/

theorem skipComment_line (body : List Char) (h : '\n' ∉ body) :
    ∀ (fuel : Nat) (pre rest : List Char), fuel ≥ body.length + 1 →
    skipComment fuel (St pre (body ++ '\n' :: rest)) = (.ok (), St (pre ++ body ++ ['\n']) rest) := by
  induction body with
  | nil =>
    intro fuel pre rest hfuel
    obtain ⟨fuel, rfl⟩ : ∃ f, fuel = f + 1 := ⟨fuel - 1, by omega⟩
    rw [skipComment, List.nil_append, bind_ok (attempt_ok (tkNext_cons ..))]
    simp [M.pure_apply]
  | cons c body ih =>
    intro fuel pre rest hfuel
    simp only [List.length_cons] at hfuel
    obtain ⟨fuel, rfl⟩ : ∃ f, fuel = f + 1 := ⟨fuel - 1, by omega⟩
    rw [skipComment, List.cons_append, bind_ok (attempt_ok (tkNext_cons ..))]
    have hc : c ≠ '\n' := by rintro rfl; simp at h
    simp only [hc, if_false]
    rw [ih (fun hh => h (by simp [hh])) _ _ _ (by omega)]
    simp

theorem skipComment_eof (body : List Char) (h : '\n' ∉ body) :
    ∀ (fuel : Nat) (pre : List Char), fuel ≥ body.length + 1 →
    skipComment fuel (St pre body) = (.ok (), St (pre ++ body) []) := by
  induction body with
  | nil =>
    intro fuel pre hfuel
    obtain ⟨fuel, rfl⟩ : ∃ f, fuel = f + 1 := ⟨fuel - 1, by omega⟩
    rw [skipComment, bind_ok (attempt_err (tkNext_nil ..))]
    simp [M.pure_apply]
  | cons c body ih =>
    intro fuel pre hfuel
    simp only [List.length_cons] at hfuel
    obtain ⟨fuel, rfl⟩ : ∃ f, fuel = f + 1 := ⟨fuel - 1, by omega⟩
    rw [skipComment, bind_ok (attempt_ok (tkNext_cons ..))]
    have hc : c ≠ '\n' := by rintro rfl; simp at h
    simp only [hc, if_false]
    rw [ih (fun hh => h (by simp [hh])) _ _ (by omega)]
    simp

theorem skipWhitespace_run {E : Env F} (ws : List Char) (h : ∀ c ∈ ws, E.isWhitespace c = true) :
    ∀ (fuel : Nat) (pre rest : List Char), fuel ≥ ws.length + 1 →
    (∀ c, rest.head? = some c → E.isWhitespace c = false) →
    skipWhitespace E fuel (St pre (ws ++ rest)) = (.ok (), St (pre ++ ws) rest) := by
  induction ws with
  | nil =>
    intro fuel pre rest hfuel hr
    obtain ⟨fuel, rfl⟩ : ∃ f, fuel = f + 1 := ⟨fuel - 1, by omega⟩
    rw [skipWhitespace]
    cases rest with
    | nil => simp only [List.append_nil]; rw [bind_ok (attempt_err (tkPeek_nil ..))]; rfl
    | cons c rest =>
      simp only [List.nil_append, List.append_nil]
      rw [bind_ok (attempt_ok (tkPeek_cons ..))]
      simp only [hr c rfl]; rfl
  | cons c cs ih =>
    intro fuel pre rest hfuel hr
    simp only [List.length_cons] at hfuel
    obtain ⟨fuel, rfl⟩ : ∃ f, fuel = f + 1 := ⟨fuel - 1, by omega⟩
    rw [skipWhitespace, List.cons_append, bind_ok (attempt_ok (tkPeek_cons ..))]
    simp only [h c (by simp), if_true]
    rw [bind_ok (tkNext_cons ..), ih (fun d hd => h d (by simp [hd])) _ _ _ (by omega) hr]
    simp

/-! ### `tokenize_one` -/

theorem tokenizeOne_nil {E : Env F} (fuel : Nat) (pre : List Char) :
    tokenizeOne E (fuel + 1) (St pre []) = (.err .Eof, St pre []) := by
  rw [tokenizeOne, bind_ok (attempt_err (tkPeek_nil ..))]; rfl

theorem tokenizeOne_comment {E : Env F} (fuel : Nat) (pre cs : List Char) :
    tokenizeOne E (fuel + 1) (St pre ('#' :: cs)) =
      (skipComment (fuel + 1) >>= fun _ => tokenizeOne E fuel) (St pre ('#' :: cs)) := by
  rw [tokenizeOne, bind_ok (attempt_ok (tkPeek_cons ..))]; rfl

theorem tokenizeOne_quote {E : Env F} (fuel : Nat) (pre cs : List Char) :
    tokenizeOne E (fuel + 1) (St pre ('"' :: cs)) =
      tokenizeStr (fuel + 1) (St pre ('"' :: cs)) := by
  rw [tokenizeOne, bind_ok (attempt_ok (tkPeek_cons ..))]; rfl

theorem tokenizeOne_lb {E : Env F} (fuel : Nat) (pre cs : List Char) :
    tokenizeOne E (fuel + 1) (St pre ('[' :: cs)) =
      (.ok ⟨posOf pre, .LBracket⟩, St (pre ++ ['[']) cs) := by
  rw [tokenizeOne, bind_ok (attempt_ok (tkPeek_cons ..))]
  show (tkPos >>= fun p => _) _ = _
  rw [bind_ok (tkPos_St ..), bind_ok (attempt_ok (tkNext_cons ..))]; rfl

theorem tokenizeOne_rb {E : Env F} (fuel : Nat) (pre cs : List Char) :
    tokenizeOne E (fuel + 1) (St pre (']' :: cs)) =
      (.ok ⟨posOf pre, .RBracket⟩, St (pre ++ [']']) cs) := by
  rw [tokenizeOne, bind_ok (attempt_ok (tkPeek_cons ..))]
  show (tkPos >>= fun p => _) _ = _
  rw [bind_ok (tkPos_St ..), bind_ok (attempt_ok (tkNext_cons ..))]; rfl

theorem tokenizeOne_other {E : Env F} (fuel : Nat) (pre cs : List Char) (c : Char)
    (h : c ∉ ['#', '"', '[', ']']) :
    tokenizeOne E (fuel + 1) (St pre (c :: cs)) =
      (if c = '-' ∨ c = '+' ∨ c = '.' ∨ E.isNumeric c = true then tokenizeNum E (fuel + 1)
      else if E.isWhitespace c then do
        skipWhitespace E (fuel + 1)
        tokenizeOne E fuel
      else if E.isAlphabetic c then tokenizeId E (fuel + 1)
      else do
        let p ← tkPos
        M.throw (.Str (p.fmt ++ " tokenize_one(): unexpected char '" ++ String.singleton c ++ "'")))
      (St pre (c :: cs)) := by
  simp only [List.mem_cons, List.not_mem_nil, or_false, not_or] at h
  rw [tokenizeOne, bind_ok (attempt_ok (tkPeek_cons ..))]
  refine congrFun (α := Tokenizer) (β := fun _ => _) ?_ _
  split
  · rename_i heq; simp at heq; exact absurd heq h.1
  · rename_i heq; simp at heq; exact absurd heq h.2.1
  · rename_i heq; simp at heq; exact absurd heq h.2.2.1
  · rename_i heq; simp at heq; exact absurd heq h.2.2.2
  · rename_i heq; simp at heq; subst heq; rfl
  · rename_i heq; simp at heq

end Pbrt.Proof
