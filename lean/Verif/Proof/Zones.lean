import Verif.Spec.Zones
import Verif.Spec.Tables
import Verif.Proof.FloatTypeParser

/-!
# Walking through the tokenizer with two versions of the tables that agree outside of strings and
comments
-/

namespace Pbrt.Proof.Zoned

open Pbrt.Spec

variable {F : Type}

section
variable {α β : Type} {P : Tokenizer → Prop}

/-- The same outcome and the same state; after a success, `Q`. -/
def Agree (P : Tokenizer → Prop) (x y : TM α) (Q : α → Tokenizer → Prop) : Prop :=
  ∀ s, P s → x s = y s ∧ ∀ a s', x s = (.ok a, s') → Q a s'

theorem Agree.pure {Q : α → Tokenizer → Prop} {a : α} (h : ∀ s, P s → Q a s) :
    Agree P (pure a) (pure a) Q := by
  intro s hs
  refine ⟨rfl, fun b s' hb => ?_⟩
  rw [M.pure_apply] at hb
  cases hb
  exact h s hs

theorem Agree.throw {Q : α → Tokenizer → Prop} {e : TokenizerError} : Agree P (M.throw e) (M.throw e) Q :=
  fun s _ => ⟨rfl, fun b s' hb => by cases hb⟩

theorem Agree.panic {Q : α → Tokenizer → Prop} : Agree P M.panic M.panic Q :=
  fun s _ => ⟨rfl, fun b s' hb => by cases hb⟩

theorem Agree.diverge {Q : α → Tokenizer → Prop} : Agree P M.diverge M.diverge Q :=
  fun s _ => ⟨rfl, fun b s' hb => by cases hb⟩

theorem Agree.mono {P' : Tokenizer → Prop} {Q Q' : α → Tokenizer → Prop} {x y : TM α} (h : Agree P x y Q)
    (hp : ∀ s, P' s → P s) (hq : ∀ a s, Q a s → Q' a s) : Agree P' x y Q' :=
  fun s hs => ⟨(h s (hp s hs)).1, fun a s' ha => hq _ _ ((h s (hp s hs)).2 a s' ha)⟩

theorem Agree.bind {Q : α → Tokenizer → Prop} {Q' : β → Tokenizer → Prop} {x y : TM α} {f g : α → TM β}
    (h : Agree P x y Q) (h' : ∀ a, Agree (Q a) (f a) (g a) Q') : Agree P (x >>= f) (y >>= g) Q' := by
  intro s hs
  obtain ⟨h1, h2⟩ := h s hs
  rw [M.bind_apply, M.bind_apply, ← h1]
  rcases hx : x s with ⟨r, t⟩
  cases r with
  | ok a => exact h' a t (h2 a t hx)
  | err e => exact ⟨rfl, fun b s' hb => by cases hb⟩
  | panic => exact ⟨rfl, fun b s' hb => by cases hb⟩
  | diverge => exact ⟨rfl, fun b s' hb => by cases hb⟩

theorem Agree.ite {Q : α → Tokenizer → Prop} {c : Prop} [Decidable c] {x x' y y' : TM α}
    (h : c → Agree P x y Q) (h' : ¬ c → Agree P x' y' Q) :
    Agree P (if c then x else x') (if c then y else y') Q := by
  by_cases hc : c
  · rw [if_pos hc, if_pos hc]; exact h hc
  · rw [if_neg hc, if_neg hc]; exact h' hc

theorem Agree.attempt {Q : α → Tokenizer → Prop} {x y : TM α} (h : Agree P x y Q) :
    Agree P (M.attempt x) (M.attempt y) (fun r s => ∀ a, r = .ok a → Q a s) := by
  intro s hs
  obtain ⟨h1, h2⟩ := h s hs
  rw [M.attempt_apply, M.attempt_apply, ← h1]
  rcases hx : x s with ⟨r, t⟩
  cases r with
  | ok a =>
    refine ⟨rfl, fun b s' hb => ?_⟩
    cases hb
    rintro _ ⟨⟩
    exact h2 _ _ hx
  | err e =>
    refine ⟨rfl, fun b s' hb => ?_⟩
    cases hb
    rintro _ ⟨⟩
  | panic => exact ⟨rfl, fun b s' hb => by cases hb⟩
  | diverge => exact ⟨rfl, fun b s' hb => by cases hb⟩

end

/-! ### States -/

/-- What is known of the characters to be read, by the place where they stand -/
def Good (C W : Char → Prop) (z : Zone) (cs : List Char) : Prop :=
  ∀ p ∈ zones z cs, (p.2 = .code → C p.1) ∧ (p.2 = .string ∨ p.2 = .escape → W p.1)

variable {C W : Char → Prop}

theorem Good.tail {z : Zone} {c : Char} {cs : List Char} (h : Good C W z (c :: cs)) :
    Good C W (z.after c) cs := fun p hp => h p (by rw [zones]; exact List.mem_cons_of_mem _ hp)

theorem Good.head {z : Zone} {c : Char} {cs : List Char} (h : Good C W z (c :: cs)) :
    (z = .code → C c) ∧ (z = .string ∨ z = .escape → W c) :=
  h (c, z) (by rw [zones]; exact List.mem_cons_self)

theorem Good.nil {z : Zone} : Good C W z [] := by intro p hp; cases hp

/-- The tokenizer stands at `z`. -/
def At (C W : Char → Prop) (z : Zone) (s : Tokenizer) : Prop := ∃ pre cs, s = St pre cs ∧ Good C W z cs

/-- The tokenizer stands at `z`, before `c`. -/
def Seen (C W : Char → Prop) (z : Zone) (c : Char) (s : Tokenizer) : Prop :=
  ∃ pre cs, s = St pre (c :: cs) ∧ Good C W z (c :: cs)

theorem Seen.at {z : Zone} {c : Char} {s : Tokenizer} (h : Seen C W z c s) : At C W z s := by
  obtain ⟨pre, cs, h, hg⟩ := h
  exact ⟨pre, _, h, hg⟩

theorem agree_peek (z : Zone) : Agree (At C W z) (M.attempt tkPeek) (M.attempt tkPeek)
    (fun r s => (∃ c, r = .ok c ∧ Seen C W z c s ∧ (z = .code → C c)) ∨ (r = .error .Eof ∧ At C W z s)) := by
  rintro s ⟨pre, cs, rfl, hg⟩
  refine ⟨rfl, fun r s' h => ?_⟩
  cases cs with
  | nil =>
    rw [M.attempt_apply, tkPeek_nil] at h
    cases h
    exact .inr ⟨rfl, pre, [], rfl, hg⟩
  | cons c cs =>
    rw [M.attempt_apply, tkPeek_cons] at h
    cases h
    exact .inl ⟨c, rfl, ⟨pre, cs, rfl, hg⟩, hg.head.1⟩

theorem agree_next (z : Zone) (c : Char) : Agree (Seen C W z c) tkNext tkNext
    (fun d s => d = c ∧ At C W (z.after c) s) := by
  rintro s ⟨pre, cs, rfl, hg⟩
  refine ⟨rfl, fun r s' h => ?_⟩
  rw [tkNext_cons] at h
  cases h
  exact ⟨rfl, _, _, rfl, hg.tail⟩

theorem agree_take (z : Zone) : Agree (At C W z) (M.attempt tkNext) (M.attempt tkNext)
    (fun r s => (∃ c, r = .ok c ∧ At C W (z.after c) s ∧ (z = .string ∨ z = .escape → W c)) ∨
      (r = .error .Eof ∧ At C W .code s)) := by
  rintro s ⟨pre, cs, rfl, hg⟩
  refine ⟨rfl, fun r s' h => ?_⟩
  cases cs with
  | nil =>
    rw [M.attempt_apply, tkNext_nil] at h
    cases h
    exact .inr ⟨rfl, pre, [], rfl, Good.nil⟩
  | cons c cs =>
    rw [M.attempt_apply, tkNext_cons] at h
    cases h
    exact .inl ⟨c, rfl, ⟨_, cs, rfl, hg.tail⟩, hg.head.2⟩

theorem agree_pos {P : Tokenizer → Prop} : Agree P tkPos tkPos (fun _ s => P s) := by
  intro s hs
  refine ⟨rfl, fun a s' h => ?_⟩
  cases h
  exact hs

theorem agree_prevPos {P : Tokenizer → Prop} : Agree P tkPrevPos tkPrevPos (fun _ s => P s) := by
  intro s hs
  refine ⟨rfl, fun a s' h => ?_⟩
  cases h
  exact hs

theorem agree_get {P : Tokenizer → Prop} : Agree P M.get M.get (fun _ s => P s) := by
  intro s hs
  refine ⟨rfl, fun a s' h => ?_⟩
  cases h
  exact hs

/-- What is known of a token: the characters of a string are in `W`. -/
def Tok (W : Char → Prop) (t : Token F) : Prop := ∀ s, t.ty = .Str s → ∀ c ∈ s.toList, W c

/-- A token, and the tokenizer outside of strings and comments -/
abbrev Done (C W : Char → Prop) (t : Token F) (s : Tokenizer) : Prop := Tok W t ∧ At C W .code s

variable {E E' : Env F}

section
variable {P : Tokenizer → Prop}

theorem agree_parseIntM (hE : AgreeOn C E E') {cs : List Char} (hc : ∀ c ∈ cs, C c) :
    Agree P (parseIntM E cs) (parseIntM E' cs) (fun _ s => P s) := by
  rw [parseIntM, parseIntM, hE.parseIntError cs hc]
  cases parseIsize cs
  · exact Agree.throw
  · exact Agree.pure fun _ h => h

theorem agree_parseFloatM (hE : AgreeOn C E E') {cs : List Char} (hc : ∀ c ∈ cs, C c) :
    Agree P (parseFloatM E cs) (parseFloatM E' cs) (fun _ s => P s) := by
  rw [parseFloatM, parseFloatM, hE.parseFloat cs hc]
  cases E'.parseFloat cs
  · exact Agree.throw
  · exact Agree.pure fun _ h => h

theorem agree_isizeOp (hE : AgreeOn C E E') (i) :
    Agree P (isizeOp E i) (isizeOp E' i) (fun _ s => P s) := by
  rw [isizeOp, isizeOp, hE.overflowChecks]
  exact Agree.ite (fun _ => Agree.pure fun _ h => h)
    fun _ => Agree.ite (fun _ => Agree.panic) fun _ => Agree.pure fun _ h => h

end

theorem tok_num (p : Pos) (i : Int) : Tok W (⟨p, .Int i⟩ : Token F) := by rintro _ ⟨⟩
theorem tok_float (p : Pos) (x : F) : Tok W (⟨p, .Float x⟩ : Token F) := by rintro _ ⟨⟩

/-- A character that opens nothing -/
def Dull (c : Char) : Prop := Zone.after .code c = .code

theorem dull_iff {c : Char} : Dull c ↔ c ≠ '#' ∧ c ≠ '"' := by
  rw [Dull, Zone.after]
  by_cases h : c = '#'
  · simp [h]
  · by_cases h' : c = '"' <;> simp [h, h']

theorem dull_numeric (h : Delimiters E) {c : Char} (hc : E.isNumeric c = true) : Dull c := by
  refine dull_iff.2 ⟨?_, ?_⟩ <;> rintro rfl
  · rw [h.numeric.1] at hc; cases hc
  · rw [h.numeric.2] at hc; cases hc

theorem dull_alphabetic (h : Delimiters E) {c : Char} (hc : E.isAlphabetic c = true) : Dull c := by
  refine dull_iff.2 ⟨?_, ?_⟩ <;> rintro rfl
  · rw [h.alphabetic.1] at hc; cases hc
  · rw [h.alphabetic.2] at hc; cases hc

theorem dull_white (h : Delimiters E) {c : Char} (hc : E.isWhitespace c = true) : Dull c := by
  refine dull_iff.2 ⟨?_, ?_⟩ <;> rintro rfl
  · rw [h.whitespace.1] at hc; cases hc
  · rw [h.whitespace.2] at hc; cases hc

/-- Reading a character that opens nothing -/
theorem agree_dull {c : Char} (h : Dull c) : Agree (Seen C W .code c) tkNext tkNext
    (fun d s => d = c ∧ At C W .code s) :=
  (agree_next .code c).mono (fun _ h => h) fun _ _ hh => by rw [Dull] at h; rwa [h] at hh

theorem agree_dull' {c : Char} (h : Dull c) : Agree (Seen C W .code c) (M.attempt tkNext) (M.attempt tkNext)
    (fun _ s => At C W .code s) := by
  rintro s ⟨pre, cs, rfl, hg⟩
  refine ⟨rfl, fun r s' hh => ?_⟩
  rw [M.attempt_apply, tkNext_cons] at hh
  cases hh
  have := hg.tail
  rw [Dull] at h
  rw [h] at this
  exact ⟨_, _, rfl, this⟩

theorem mem_snoc {cs : List Char} {c : Char} (h : ∀ c ∈ cs, C c) (hc : C c) : ∀ d ∈ cs ++ [c], C d :=
  FloatType.mem_snoc h hc

theorem agree_numFinish (hE : AgreeOn C E E') (p) {cs : List Char} (hc : ∀ c ∈ cs, C c) (b) :
    Agree (At C W .code) (numFinish E p cs b) (numFinish E' p cs b) (Done C W) := by
  rw [numFinish, numFinish]
  refine Agree.ite (fun _ => ?_) fun _ => Agree.ite (fun _ => ?_) fun _ => ?_
  · exact Agree.bind agree_pos fun _ => Agree.throw
  · exact Agree.bind (agree_parseFloatM hE hc) fun _ => Agree.pure fun _ h => ⟨tok_float _ _, h⟩
  · exact Agree.bind (agree_parseIntM hE hc) fun _ => Agree.pure fun _ h => ⟨tok_num _ _, h⟩

theorem agree_num (hs : Delimiters E) (hE : AgreeOn C E E') : ∀ fuel,
    Agree (At C W .code) (tokenizeNum E fuel) (tokenizeNum E' fuel) (Done C W) ∧
    ∀ p cs b, (∀ c ∈ cs, C c) →
      Agree (At C W .code) (numLoop E fuel p cs b) (numLoop E' fuel p cs b) (Done C W)
  | 0 => by
    constructor
    · rw [tokenizeNum, tokenizeNum]; exact Agree.diverge
    · intro p cs b _; rw [numLoop, numLoop]; exact Agree.diverge
  | n + 1 => by
    obtain ⟨ih1, ih2⟩ := agree_num hs hE n
    constructor
    · rw [tokenizeNum, tokenizeNum]
      refine Agree.bind agree_pos fun p => ?_
      refine Agree.bind (Q := fun cs s => (∀ c ∈ cs, C c) ∧ At C W .code s) ?_ fun cs => ?_
      · refine Agree.bind (agree_peek .code) fun r => ?_
        intro s hr
        rcases hr with ⟨c, rfl, hseen, hc⟩ | ⟨rfl, hat⟩
        · revert s
          by_cases h1 : c = '-'
          · subst h1
            intro s hseen
            exact Agree.bind (agree_dull' (dull_iff.2 (by decide)))
              (fun _ => Agree.pure fun _ h => ⟨by simpa using hc rfl, h⟩) s hseen
          · by_cases h2 : c = '+'
            · subst h2
              intro s hseen
              exact Agree.bind (agree_dull' (dull_iff.2 (by decide)))
                (fun _ => Agree.pure fun _ h => ⟨by simp, h⟩) s hseen
            · intro s hseen
              have key : Agree (Seen C W .code c) (pure [] : TM (List Char)) (pure [])
                  (fun cs s => (∀ c ∈ cs, C c) ∧ At C W .code s) :=
                Agree.pure fun _ h => ⟨by simp, h.at⟩
              refine (?_ : Agree (Seen C W .code c) _ _ _) s hseen
              split <;> first | exact key | simp_all
        · exact (Agree.pure (P := At C W .code) fun _ h => ⟨by simp, h⟩ :
            Agree (At C W .code) (pure [] : TM (List Char)) (pure [])
              (fun cs s => (∀ c ∈ cs, C c) ∧ At C W .code s)) s hat
      · intro s hcs
        exact ih2 _ _ _ hcs.1 s hcs.2
    · intro p cs b hc
      rw [numLoop, numLoop]
      refine Agree.bind (agree_peek .code) fun r => ?_
      intro s hr
      rcases hr with ⟨c, rfl, hseen, hcc⟩ | ⟨rfl, hat⟩
      · have hch := hcc rfl
        have key : Agree (Seen C W .code c)
            (if E.isNumeric c = true then tkNext >>= fun ch => numLoop E n p (cs ++ [ch]) b
             else if c = '.' then
               if b = true then
                 tkPos >>= fun p => M.throw (.Str (p.fmt ++ " tokenize_num(): unexpected char '" ++
                  String.singleton c ++ "'"))
               else tkNext >>= fun ch => numLoop E n p (cs ++ [ch]) true
             else if c = 'e' then
               if cs = [] then tkPos >>= fun p => M.throw (noNumber p)
               else M.attempt tkNext >>= fun _ => tokenizeNum E n >>= fun t => (
                 match t.removePos with
                  | .Float f => parseFloatM E cs >>= fun m => pure ⟨p, .Float (E.fmul m (E.powf10 f))⟩
                  | .Int i =>
                    if i ≥ 0 ∧ b = false then
                      parseIntM E cs >>= fun m => pow10M E i >>= fun q => isizeOp E (m * q) >>= fun v =>
                        pure ⟨p, .Int v⟩
                    else parseFloatM E cs >>= fun m =>
                      pure ⟨p, .Float (E.fmul m (E.powf10 (E.ofIsize i)))⟩
                  | _ => M.throw (noNumber p))
             else numFinish E p cs b)
            (if E'.isNumeric c = true then tkNext >>= fun ch => numLoop E' n p (cs ++ [ch]) b
             else if c = '.' then
               if b = true then
                 tkPos >>= fun p => M.throw (.Str (p.fmt ++ " tokenize_num(): unexpected char '" ++
                  String.singleton c ++ "'"))
               else tkNext >>= fun ch => numLoop E' n p (cs ++ [ch]) true
             else if c = 'e' then
               if cs = [] then tkPos >>= fun p => M.throw (noNumber p)
               else M.attempt tkNext >>= fun _ => tokenizeNum E' n >>= fun t => (
                 match t.removePos with
                  | .Float f => parseFloatM E' cs >>= fun m => pure ⟨p, .Float (E'.fmul m (E'.powf10 f))⟩
                  | .Int i =>
                    if i ≥ 0 ∧ b = false then
                      parseIntM E' cs >>= fun m => pow10M E' i >>= fun q => isizeOp E' (m * q) >>= fun v =>
                        pure ⟨p, .Int v⟩
                    else parseFloatM E' cs >>= fun m =>
                      pure ⟨p, .Float (E'.fmul m (E'.powf10 (E'.ofIsize i)))⟩
                  | _ => M.throw (noNumber p))
             else numFinish E' p cs b)
            (Done C W) := by
          simp only [← hE.numeric c hch, ← hE.fmul, ← hE.powf10, ← hE.ofIsize]
          refine Agree.ite (fun h => ?_) fun _ => Agree.ite (fun h => Agree.ite (fun _ => ?_) fun _ => ?_)
            fun _ => Agree.ite (fun h => Agree.ite (fun _ => ?_) fun _ => ?_) fun _ => ?_
          · refine Agree.bind (agree_dull (dull_numeric hs h)) fun d => ?_
            rintro s ⟨rfl, hat⟩
            exact ih2 _ _ _ (mem_snoc hc hch) s hat
          · exact Agree.bind agree_pos fun _ => Agree.throw
          · refine Agree.bind (agree_dull (dull_iff.2 (by rw [h]; decide))) fun d => ?_
            rintro s ⟨rfl, hat⟩
            exact ih2 _ _ _ (mem_snoc hc hch) s hat
          · exact Agree.bind agree_pos fun _ => Agree.throw
          · refine Agree.bind (agree_dull' (dull_iff.2 (by rw [h]; decide))) fun _ => ?_
            refine Agree.bind ih1 fun t => ?_
            obtain ⟨tp, ty⟩ := t
            have drop : ∀ {x y : TM (Token F)}, Agree (At C W .code) x y (Done C W) →
                Agree (Done C W ⟨tp, ty⟩) x y (Done C W) := fun h => h.mono (fun _ h => h.2) fun _ _ h => h
            apply drop
            cases ty with
            | Float f =>
              exact Agree.bind (agree_parseFloatM hE hc) fun _ => Agree.pure fun _ h => ⟨tok_float _ _, h⟩
            | Int i =>
              simp only [Token.removePos]
              refine Agree.ite (fun _ => ?_) fun _ => ?_
              · refine Agree.bind (agree_parseIntM hE hc) fun _ => ?_
                refine Agree.bind (agree_isizeOp hE _) fun _ => ?_
                exact Agree.bind (agree_isizeOp hE _) fun _ => Agree.pure fun _ h => ⟨tok_num _ _, h⟩
              · exact Agree.bind (agree_parseFloatM hE hc) fun _ => Agree.pure fun _ h => ⟨tok_float _ _, h⟩
            | _ => exact Agree.throw
          · exact (agree_numFinish hE p hc b).mono (fun _ h => h.at) fun _ _ h => h
        exact key s hseen
      · exact agree_numFinish hE p hc b s hat

theorem agree_strLoop (hW : W '\n') : ∀ fuel p cs, (∀ c ∈ cs, W c) →
    Agree (At C W .string) (strLoop fuel p cs : TM (Token F)) (strLoop fuel p cs) (Done C W)
  | 0, _, _, _ => by rw [strLoop]; exact Agree.diverge
  | n + 1, p, cs, hc => by
    have ih := agree_strLoop hW n
    rw [strLoop]
    refine Agree.bind (agree_take .string) fun r => ?_
    intro s hr
    rcases hr with ⟨c, rfl, hat, hw⟩ | ⟨rfl, hat⟩
    · have hwc := hw (.inl rfl)
      by_cases h1 : c = '\\'
      · subst h1
        refine Agree.bind (agree_take .escape) (fun r => ?_) s hat
        intro s hr
        rcases hr with ⟨c, rfl, hat, hw⟩ | ⟨rfl, hat⟩
        · have hwc := hw (.inr rfl)
          have hat : At C W .string s := hat
          by_cases h2 : c = 'n'
          · subst h2; exact ih _ _ (mem_snoc hc hW) s hat
          · have := ih p _ (mem_snoc hc hwc)
            refine (?_ : Agree (At C W .string) _ _ _) s hat
            split <;> first | exact this | simp_all
        · exact Agree.bind (P := At C W .code) agree_prevPos (fun _ => Agree.throw) s hat
      · by_cases h2 : c = '"'
        · subst h2
          exact (Agree.pure (P := At C W .code) (Q := Done C W) fun _ h => ⟨by
            rintro _ ⟨⟩; rwa [String.toList_ofList], h⟩) s hat
        · have hat : At C W .string s := by rwa [Zone.after, if_neg h2, if_neg h1] at hat
          have := ih p _ (mem_snoc hc hwc)
          refine (?_ : Agree (At C W .string) _ _ _) s hat
          split <;> first | exact this | simp_all
    · exact Agree.bind (P := At C W .code) agree_pos (fun _ => Agree.throw) s hat

theorem agree_tokenizeStr (hW : W '\n') (fuel) : Agree (Seen C W .code '"') (tokenizeStr fuel : TM (Token F))
    (tokenizeStr fuel) (Done C W) := by
  rw [tokenizeStr]
  refine Agree.bind agree_pos fun p => ?_
  rintro s ⟨pre, cs, rfl, hg⟩
  have h1 : M.attempt tkNext (St pre ('"' :: cs)) = (.ok (.ok '"'), St (pre ++ ['"']) cs) := by
    rw [M.attempt_apply, tkNext_cons]
  rw [bind_ok h1]
  exact agree_strLoop hW fuel p [] (by simp) _ ⟨_, _, rfl, hg.tail⟩

theorem agree_idLoop (hs : Delimiters E) (hE : AgreeOn C E E') : ∀ fuel cs,
    Agree (At C W .code) (idLoop E fuel cs) (idLoop E' fuel cs) (fun _ s => At C W .code s)
  | 0, _ => by rw [idLoop, idLoop]; exact Agree.diverge
  | n + 1, cs => by
    have ih := agree_idLoop hs hE n
    rw [idLoop, idLoop]
    refine Agree.bind (agree_peek .code) fun r => ?_
    intro s hr
    rcases hr with ⟨c, rfl, hseen, hcc⟩ | ⟨rfl, hat⟩
    · have hch := hcc rfl
      simp only [Env.isAlphanumeric, ← hE.numeric c hch, ← hE.alphabetic c hch]
      refine Agree.ite (fun h => ?_) (fun _ => Agree.pure fun _ h => h.at) s hseen
      refine Agree.bind (agree_dull ?_) fun d => ?_
      · rw [Bool.or_eq_true] at h
        rcases h with h | h
        · exact dull_alphabetic hs h
        · exact dull_numeric hs h
      · rintro s ⟨rfl, hat⟩
        exact ih _ s hat
    · exact (Agree.pure (P := At C W .code) (Q := fun _ s => At C W .code s) fun _ h => h) s hat

theorem agree_tokenizeId (hs : Delimiters E) (hE : AgreeOn C E E') {c : Char} (h : Dull c) (fuel) :
    Agree (Seen C W .code c) (tokenizeId E fuel) (tokenizeId E' fuel) (Done C W) := by
  rw [tokenizeId, tokenizeId]
  refine Agree.bind agree_pos fun p => ?_
  refine Agree.bind (agree_dull h) fun d => ?_
  refine Agree.bind ((agree_idLoop hs hE fuel [d]).mono (fun _ h => h.2) fun _ _ h => h) fun cs => ?_
  refine Agree.ite (fun _ => ?_) fun _ => Agree.pure fun _ h => ⟨?_, h⟩
  · exact Agree.bind agree_pos fun _ => Agree.throw
  · rintro _ ⟨⟩

theorem agree_skipComment : ∀ fuel,
    Agree (At C W .comment) (skipComment fuel) (skipComment fuel) (fun _ s => At C W .code s)
  | 0 => by rw [skipComment]; exact Agree.diverge
  | n + 1 => by
    rw [skipComment]
    refine Agree.bind (agree_take .comment) fun r => ?_
    intro s hr
    rcases hr with ⟨c, rfl, hat, _⟩ | ⟨rfl, hat⟩
    · refine (Agree.ite (P := At C W (Zone.after .comment c)) (fun h => ?_) fun h => ?_) s hat
      · refine Agree.pure fun _ hh => ?_
        rwa [Zone.after, if_pos h] at hh
      · rw [Zone.after, if_neg h]
        exact agree_skipComment n
    · exact (Agree.pure (P := At C W .code) (Q := fun _ s => At C W .code s) fun _ h => h) s hat

/-- The `#` itself is read by the loop that skips the comment. -/
theorem agree_comment (fuel) :
    Agree (Seen C W .code '#') (skipComment (fuel + 1)) (skipComment (fuel + 1)) (fun _ s => At C W .code s) := by
  rw [skipComment]
  rintro s ⟨pre, cs, rfl, hg⟩
  have h1 : M.attempt tkNext (St pre ('#' :: cs)) = (.ok (.ok '#'), St (pre ++ ['#']) cs) := by
    rw [M.attempt_apply, tkNext_cons]
  rw [bind_ok h1]
  exact agree_skipComment fuel _ ⟨_, _, rfl, hg.tail⟩

theorem agree_skipWhitespace (hs : Delimiters E) (hE : AgreeOn C E E') : ∀ fuel,
    Agree (At C W .code) (skipWhitespace E fuel) (skipWhitespace E' fuel) (fun _ s => At C W .code s)
  | 0 => by rw [skipWhitespace, skipWhitespace]; exact Agree.diverge
  | n + 1 => by
    rw [skipWhitespace, skipWhitespace]
    refine Agree.bind (agree_peek .code) fun r => ?_
    intro s hr
    rcases hr with ⟨c, rfl, hseen, hcc⟩ | ⟨rfl, hat⟩
    · have hch := hcc rfl
      simp only [← hE.whitespace c hch]
      refine Agree.ite (fun h => ?_) (fun _ => Agree.pure fun _ h => h.at) s hseen
      refine Agree.bind (agree_dull (dull_white hs h)) fun d => ?_
      rintro s ⟨rfl, hat⟩
      exact agree_skipWhitespace hs hE n s hat
    · exact (Agree.pure (P := At C W .code) (Q := fun _ s => At C W .code s) fun _ h => h) s hat

theorem agree_tokenizeOne (hs : Delimiters E) (hE : AgreeOn C E E') (hW : W '\n') : ∀ fuel,
    Agree (At C W .code) (tokenizeOne E fuel) (tokenizeOne E' fuel) (Done C W)
  | 0 => by rw [tokenizeOne, tokenizeOne]; exact Agree.diverge
  | n + 1 => by
    have ih := agree_tokenizeOne hs hE hW n
    rw [tokenizeOne, tokenizeOne]
    refine Agree.bind (agree_peek .code) fun r => ?_
    intro s hr
    rcases hr with ⟨c, rfl, hseen, hcc⟩ | ⟨rfl, hat⟩
    · have hch := hcc rfl
      by_cases h1 : c = '#'
      · subst h1
        exact Agree.bind (agree_comment n) (fun _ => ih) s hseen
      by_cases h2 : c = '"'
      · subst h2
        exact agree_tokenizeStr hW _ s hseen
      have hd : Dull c := dull_iff.2 ⟨h1, h2⟩
      by_cases h3 : c = '['
      · subst h3
        refine Agree.bind agree_pos (fun p => ?_) s hseen
        exact Agree.bind (agree_dull' hd) fun _ => Agree.pure fun _ h => ⟨by rintro _ ⟨⟩, h⟩
      by_cases h4 : c = ']'
      · subst h4
        refine Agree.bind agree_pos (fun p => ?_) s hseen
        exact Agree.bind (agree_dull' hd) fun _ => Agree.pure fun _ h => ⟨by rintro _ ⟨⟩, h⟩
      have key : Agree (Seen C W .code c)
          (if c = '-' ∨ c = '+' ∨ c = '.' ∨ E.isNumeric c = true then tokenizeNum E (n + 1)
            else if E.isWhitespace c = true then
              skipWhitespace E (n + 1) >>= fun _ => tokenizeOne E n
            else if E.isAlphabetic c = true then tokenizeId E (n + 1)
            else tkPos >>= fun p => M.throw (.Str (p.fmt ++ " tokenize_one(): unexpected char '" ++
              String.singleton c ++ "'")))
          (if c = '-' ∨ c = '+' ∨ c = '.' ∨ E'.isNumeric c = true then tokenizeNum E' (n + 1)
            else if E'.isWhitespace c = true then
              skipWhitespace E' (n + 1) >>= fun _ => tokenizeOne E' n
            else if E'.isAlphabetic c = true then tokenizeId E' (n + 1)
            else tkPos >>= fun p => M.throw (.Str (p.fmt ++ " tokenize_one(): unexpected char '" ++
              String.singleton c ++ "'"))) (Done C W) := by
        simp only [← hE.numeric c hch, ← hE.whitespace c hch, ← hE.alphabetic c hch]
        refine Agree.ite (fun _ => (agree_num hs hE _).1.mono (fun _ h => h.at) fun _ _ h => h) fun _ =>
          Agree.ite (fun _ => ?_) fun _ => Agree.ite (fun _ => agree_tokenizeId hs hE hd _) fun _ => ?_
        · exact Agree.bind ((agree_skipWhitespace hs hE _).mono (fun _ h => h.at) fun _ _ h => h) fun _ => ih
        · exact Agree.bind agree_pos fun _ => Agree.throw
      refine (?_ : Agree (Seen C W .code c) _ _ _) s hseen
      split <;> first | exact key | simp_all
    · exact Agree.throw s hat

theorem agree_tokenizeLoop (hs : Delimiters E) (hE : AgreeOn C E E') (hW : W '\n') (fo : Nat) : ∀ fuel ts,
    (∀ t ∈ ts, Tok W t) →
    Agree (At C W .code) (tokenizeLoop E fo fuel ts) (tokenizeLoop E' fo fuel ts) (fun ts _ => ∀ t ∈ ts, Tok W t)
  | 0, _, _ => by rw [tokenizeLoop, tokenizeLoop]; exact Agree.diverge
  | n + 1, ts, h => by
    have ih := agree_tokenizeLoop hs hE hW fo n
    rw [tokenizeLoop, tokenizeLoop]
    refine Agree.bind agree_get fun s => ?_
    refine Agree.ite (fun _ => ?_) fun _ => Agree.pure fun _ _ => h
    refine Agree.bind (Agree.attempt (agree_tokenizeOne hs hE hW fo)) fun r => ?_
    intro s hr
    cases r with
    | ok t =>
      have := hr t rfl
      refine ih _ (fun t' ht' => ?_) s this.2
      rcases List.mem_append.1 ht' with ht' | ht'
      · exact h _ ht'
      · rw [List.mem_singleton.1 ht']; exact this.1
    | error e =>
      cases e with
      | Str m => exact Agree.throw (P := fun _ => True) s trivial
      | Eof => exact (Agree.pure (P := fun _ => True) fun _ _ => h) s trivial

/-- Replacing `\r\n` by `\n` moves no character to another place. -/
theorem good_crlf : ∀ {cs : List Char} {z : Zone}, Good C W z cs → Good C W z (replaceCrlf cs) := by
  intro cs
  fun_induction replaceCrlf cs with
  | case1 cs ih =>
    intro z h
    have h1 : Good C W (z.after '\r') ('\n' :: cs) := h.tail
    cases z with
    | escape =>
      intro p hp
      rw [zones] at hp
      rcases List.mem_cons.1 hp with rfl | hp
      · exact ⟨fun h => (by cases h), fun _ => h1.head.2 (.inl rfl)⟩
      · exact ih h1.tail p hp
    | _ =>
      have h2 : Good C W _ ('\n' :: cs) := h1
      intro p hp
      rw [zones] at hp
      rcases List.mem_cons.1 hp with rfl | hp
      · exact h2.head
      · exact ih h2.tail p hp
  | case2 c cs _ ih =>
    intro z h p hp
    rw [zones] at hp
    rcases List.mem_cons.1 hp with rfl | hp
    · exact h.head
    · exact ih h.tail p hp
  | case3 => intro z h; exact h

theorem good_text {text : List Char} (hc : ∀ c ∈ bareText text, C c) (hw : ∀ c ∈ quotedText text, W c) :
    Good C W .code text := by
  intro p hp
  refine ⟨fun h => hc _ ?_, fun h => hw _ ?_⟩
  · exact List.mem_map_of_mem (f := Prod.fst) (List.mem_filter.2 ⟨hp, by simpa using h⟩)
  · exact List.mem_map_of_mem (f := Prod.fst) (List.mem_filter.2 ⟨hp, by simpa using h⟩)

theorem tokens_agree (hs : Delimiters E) {text : List Char} (hE : AgreeOn C E E') (hc : ∀ c ∈ bareText text, C c)
    (hW : W '\n') (hw : ∀ c ∈ quotedText text, W c) :
    tokenize E text = tokenize E' text ∧ ∀ ts, tokenize E text = .ok ts → ∀ t ∈ ts, Tok W t := by
  have := agree_tokenizeLoop hs hE hW (lexFuel text) (lexFuel text) [] (by simp) (Tokenizer.new text)
    ⟨[], replaceCrlf text, rfl, good_crlf (good_text hc hw)⟩
  refine ⟨congrArg Prod.fst this.1, fun ts h => ?_⟩
  exact this.2 ts _ (Prod.ext h rfl)

end Pbrt.Proof.Zoned
