import Verif.Proof.CostSim

/-!
# Bounds on the number of reads

`At B C y s`: run from the state `s`, `y` reads at most `5` times the number of characters (or
tokens) it advances over, plus `B` if it succeeds and plus `C` if it does not. The constants may be
negative: a function that advances has paid for the reads of its caller.
-/

namespace Pbrt.Cost

variable {F ε α β : Type}

/-- A state with a position in a text of fixed length -/
class Positioned (σ : Type) where
  at' : σ → Nat
  len : σ → Nat

open Positioned

instance : Positioned Tokenizer := ⟨Tokenizer.index, fun t => t.chars.length⟩
instance : Positioned (Parser F) := ⟨Parser.index, fun p => p.tokens.length⟩

variable {σ : Type} [Positioned σ]

/-- The bound for one outcome -/
def Cheap (c : Int) (s s' : Counted σ) : Prop :=
  (at' s.state ≤ len s.state → at' s'.state ≤ len s'.state) ∧ len s'.state = len s.state ∧
  (s'.reads : Int) + 5 * at' s.state ≤ s.reads + 5 * at' s'.state + c

theorem Cheap.trans {s s' s'' : Counted σ} {b c d : Int} (h : Cheap b s s') (h' : Cheap c s' s'')
    (hd : b + c ≤ d) : Cheap d s s'' := by
  obtain ⟨h1, h2, h3⟩ := h
  obtain ⟨g1, g2, g3⟩ := h'
  exact ⟨fun h => g1 (h1 h), g2.trans h2, by omega⟩

theorem Cheap.mono {s s' : Counted σ} {b c : Int} (h : Cheap b s s') (hc : b ≤ c) : Cheap c s s' :=
  ⟨h.1, h.2.1, by have := h.2.2; omega⟩

theorem Cheap.rfl {s : Counted σ} {c : Int} (hc : 0 ≤ c) : Cheap c s s := ⟨id, Eq.refl _, by omega⟩

def At (B C : Int) (y : M (Counted σ) ε α) (s : Counted σ) : Prop :=
  match (y s).1 with
  | .ok _ => Cheap B s (y s).2
  | _ => Cheap C s (y s).2

theorem At.mono {b c B C : Int} {y : M (Counted σ) ε α} {s} (h : At b c y s) (hB : b ≤ B) (hC : c ≤ C) :
    At B C y s := by
  rw [At] at h ⊢
  split
  · next hy => rw [hy] at h; exact h.mono hB
  · next hy =>
    split at h
    · next hy' => exact absurd hy' (hy _)
    · exact h.mono hC

theorem At.pure {B C : Int} (a : α) (s : Counted σ) (h : 0 ≤ B) :
    At B C (pure a : M (Counted σ) ε α) s := Cheap.rfl h
theorem At.throw {B C : Int} (e : ε) (s : Counted σ) (h : 0 ≤ C) :
    At B C (M.throw e : M (Counted σ) ε α) s := Cheap.rfl h
theorem At.panic {B C : Int} (s : Counted σ) (h : 0 ≤ C) :
    At B C (M.panic : M (Counted σ) ε α) s := Cheap.rfl h
theorem At.diverge {B C : Int} (s : Counted σ) (h : 0 ≤ C) :
    At B C (M.diverge : M (Counted σ) ε α) s := Cheap.rfl h

theorem At.bind {b c B C : Int} {y : M (Counted σ) ε α} {f : α → M (Counted σ) ε β} {s}
    (h : At b c y s) (hc : c ≤ C) (hf : ∀ v s', y s = (.ok v, s') → At (B - b) (C - b) (f v) s') :
    At B C (y >>= f) s := by
  rw [At] at h ⊢
  rw [M.bind_apply]
  rcases hy : y s with ⟨r, s'⟩
  rw [hy] at h
  cases r with
  | ok v =>
    have hv := hf v s' hy
    rw [At] at hv
    simp only [] at h ⊢
    split
    · next e => rw [e] at hv; exact h.trans hv (by omega)
    · next e =>
      split at hv
      · next e' => exact absurd e' (e _)
      · exact h.trans hv (by omega)
  | err e => exact h.mono hc
  | panic => exact h.mono hc
  | diverge => exact h.mono hc

theorem At.attempt {b c B C : Int} {y : M (Counted σ) ε α} {f : Except ε α → M (Counted σ) ε β} {s}
    (h : At b c y s) (hc : c ≤ C)
    (hf : ∀ v s', y s = (.ok v, s') → At (B - b) (C - b) (f (.ok v)) s')
    (he : ∀ e s', y s = (.err e, s') → At (B - c) (C - c) (f (.error e)) s') :
    At B C (M.attempt y >>= f) s := by
  have hb : ∀ {d : Int} {r : Except ε α} {s' : Counted σ}, Cheap d s s' →
      At (B - d) (C - d) (f r) s' → M.attempt y s = (.ok r, s') → At B C (M.attempt y >>= f) s := by
    intro d r s' h1 h2 h3
    rw [At] at h2 ⊢
    rw [M.bind_apply, h3]
    simp only []
    split
    · next e => rw [e] at h2; exact h1.trans h2 (by omega)
    · next e =>
      split at h2
      · next e' => exact absurd e' (e _)
      · exact h1.trans h2 (by omega)
  rw [At] at h
  rcases hy : y s with ⟨r, s'⟩
  rw [hy] at h
  cases r with
  | ok v => exact hb h (hf v s' hy) (by rw [M.attempt_apply, hy])
  | err e => exact hb h (he e s' hy) (by rw [M.attempt_apply, hy])
  | panic => rw [At, M.bind_apply, M.attempt_apply, hy]; exact h.mono hc
  | diverge => rw [At, M.bind_apply, M.attempt_apply, hy]; exact h.mono hc

theorem At.ite {B C : Int} {p : Prop} [Decidable p] {y y' : M (Counted σ) ε α} {s}
    (h : p → At B C y s) (h' : ¬p → At B C y' s) : At B C (if p then y else y') s := by
  by_cases hp : p
  · rw [if_pos hp]; exact h hp
  · rw [if_neg hp]; exact h' hp

theorem at_self {s : Counted σ} : At 0 0 (theSelf : M (Counted σ) ε σ) s := Cheap.rfl (Int.le_refl _)

omit [Positioned σ] in
theorem bind_bind {γ : Type} (x : M σ ε α) (f : α → M σ ε β) (g : β → M σ ε γ) :
    ((x >>= f) >>= g) = (x >>= fun a => f a >>= g) := by
  funext s
  simp only [M.bind_apply]
  rcases x s with ⟨r, s'⟩
  cases r <;> rfl

/-! ### The tokenizer -/

theorem at_tkPos {s} : At 0 0 tkPos s := Cheap.rfl (Int.le_refl _)
theorem at_tkPrevPos {s} : At 0 0 tkPrevPos s := Cheap.rfl (Int.le_refl _)

/-- The character at the position -/
abbrev Here (s : Counted Tokenizer) (c : Char) : Prop := s.state.chars[s.state.index]? = some c

theorem tkPeek_ok {s s' : Counted Tokenizer} {c} (h : tkPeek s = (.ok c, s')) :
    Here s' c ∧ s' = ⟨s.state, s.reads + 1⟩ := by
  simp only [tkPeek, counting, Pbrt.tkPeek] at h
  split at h
  · split at h
    · next hc => simp only [Prod.mk.injEq, Res.ok.injEq] at h; obtain ⟨rfl, rfl⟩ := h; exact ⟨hc, rfl⟩
    · simp at h
  · simp at h

theorem at_tkPeek {s} : At 1 1 tkPeek s := by
  have : (tkPeek s).2 = ⟨s.state, s.reads + 1⟩ := by
    simp only [tkPeek, counting, Pbrt.tkPeek]
    split
    · split <;> rfl
    · rfl
  rw [At, this]
  split <;> exact ⟨id, rfl, by simp only []; omega⟩

theorem tkNext_eq (s : Counted Tokenizer) :
    (∃ s', tkNext s = (.err .Eof, s') ∧ s' = ⟨s.state, s.reads + 1⟩ ∧
      s.state.chars[s.state.index]? = none) ∨
    ∃ c t, tkNext s = (.ok c, ⟨t, s.reads + 1⟩) ∧ Here s c ∧ t.chars = s.state.chars ∧
      t.index = s.state.index + 1 ∧ s.state.index < s.state.chars.length := by
  simp only [tkNext, counting, Pbrt.tkNext]
  split
  · next h => exact Or.inl ⟨_, rfl, rfl, List.getElem?_eq_none (by simpa [Tokenizer.isEmpty] using h)⟩
  · next h =>
    have hi : s.state.index < s.state.chars.length := by simpa [Tokenizer.isEmpty] using h
    rw [List.getElem?_eq_getElem hi]
    exact Or.inr ⟨_, _, rfl, List.getElem?_eq_getElem hi, rfl, rfl, hi⟩

theorem at_tkNext {s} : At (-4) 1 tkNext s := by
  rw [At]
  rcases tkNext_eq s with ⟨s', h, rfl, _⟩ | ⟨c, t, h, _, h1, h2, h3⟩
  · rw [h]
    exact ⟨id, rfl, by simp only []; omega⟩
  · rw [h]
    refine ⟨fun _ => ?_, ?_, ?_⟩
    · simp only [at', len, h1, h2]; omega
    · simp only [len, h1]
    · simp only [at', h2]; omega

theorem tkNext_here {s : Counted Tokenizer} {c} (h : Here s c) : ∃ s', tkNext s = (.ok c, s') := by
  rcases tkNext_eq s with ⟨_, _, _, h'⟩ | ⟨c', t, e, h', _⟩
  · rw [Here, h'] at h; cases h
  · rw [Here, h'] at h
    obtain rfl := Option.some.inj h
    exact ⟨_, e⟩

theorem tkPeek_here {s : Counted Tokenizer} {c} (h : Here s c) : ∃ s', tkPeek s = (.ok c, s') := by
  have hi : s.state.index < s.state.chars.length := by
    rcases Nat.lt_or_ge s.state.index s.state.chars.length with h' | h'
    · exact h'
    · rw [Here, List.getElem?_eq_none h'] at h; cases h
  have he : s.state.isEmpty = false := by simpa [Tokenizer.isEmpty] using hi
  refine ⟨⟨s.state, s.reads + 1⟩, ?_⟩
  simp only [tkPeek, counting, Pbrt.tkPeek, he, Bool.not_false, if_true]
  rw [h]

/-- `next` where there is a character -/
theorem at_tkNext_here {s : Counted Tokenizer} {c} (h : Here s c) : At (-4) (-4) tkNext s := by
  obtain ⟨s', e⟩ := tkNext_here h
  have := at_tkNext (s := s)
  rw [At, e] at this ⊢
  exact this

/-- Walk through a function -/
syntax "atwalk" ("[" term,* "]")? : tactic
macro_rules
  | `(tactic| atwalk) => `(tactic| atwalk [at_tkPos])
  | `(tactic| atwalk [$ts,*]) => do
    let ts := ts.getElems
    `(tactic| repeat' first
      | with_reducible exact At.pure _ _ (by omega)
      | with_reducible exact At.throw _ _ (by omega)
      | with_reducible exact At.panic _ (by omega)
      | with_reducible exact At.diverge _ (by omega)
      $[| with_reducible refine At.bind $ts (by omega) fun _ _ _ => ?_]*
      $[| with_reducible refine At.attempt $ts (by omega) (fun _ _ _ => ?_) (fun _ _ _ => ?_)]*
      $[| with_reducible exact At.mono $ts (by omega) (by omega)]*
      | with_reducible refine At.ite (fun _ => ?_) (fun _ => ?_))

theorem at_parseIntM {E : Env F} {cs s} : At 0 0 (parseIntM E cs) s := by
  rw [parseIntM]; cases parseIsize cs <;> atwalk

theorem at_parseFloatM {E : Env F} {cs s} : At 0 0 (parseFloatM E cs) s := by
  rw [parseFloatM]; cases E.parseFloat cs <;> atwalk

theorem at_isizeOp {E : Env F} {i s} : At 0 0 (isizeOp E i) s := by
  rw [isizeOp]; atwalk

theorem at_pow10M {E : Env F} {i s} : At 0 0 (pow10M E i) s := at_isizeOp

theorem at_numFinish {E : Env F} {p cs b s} : At 0 0 (numFinish E p cs b) s := by
  rw [numFinish]
  atwalk [at_parseIntM, at_parseFloatM, at_tkPos]

theorem at_numFinish_nil {E : Env F} {p b s B} : At B 0 (numFinish E p [] b) s := by
  rw [numFinish, if_pos rfl]
  refine At.bind at_tkPos (by omega) fun _ _ _ => At.throw _ _ (by omega)

theorem at_num (E : Env F) : ∀ fuel,
    (∀ s, At (-1) 2 (tokenizeNum E fuel) s) ∧
    ∀ p cs b s B, -2 ≤ B → (cs ≠ [] → 1 ≤ B) → At B 1 (numLoop E fuel p cs b) s
  | 0 => by
    constructor
    · intro s; rw [tokenizeNum]; exact At.diverge _ (by omega)
    · intro p cs b s B _ _; rw [numLoop]; exact At.diverge _ (by omega)
  | n + 1 => by
    obtain ⟨ih1, ih2⟩ := at_num E n
    constructor
    · intro s
      rw [tokenizeNum]
      refine At.bind at_tkPos (by omega) fun p s _ => ?_
      rw [bind_bind]
      refine At.attempt at_tkPeek (by omega) (fun c s' h => ?_) (fun _ _ _ => ?_)
      · have hc := (tkPeek_ok h).1
        split
        · rw [bind_bind]
          exact At.attempt (at_tkNext_here hc) (by omega)
            (fun _ _ _ => At.mono (ih2 _ _ _ _ 1 (by omega) (by omega)) (by omega) (by omega))
            (fun _ _ _ => At.mono (ih2 _ _ _ _ 1 (by omega) (by omega)) (by omega) (by omega))
        · rw [bind_bind]
          exact At.attempt (at_tkNext_here hc) (by omega)
            (fun _ _ _ => At.mono (ih2 _ _ _ _ (-2) (by omega) (fun h => absurd rfl h)) (by omega) (by omega))
            (fun _ _ _ => At.mono (ih2 _ _ _ _ (-2) (by omega) (fun h => absurd rfl h)) (by omega) (by omega))
        · exact At.mono (ih2 _ _ _ _ (-2) (by omega) (fun h => absurd rfl h)) (by omega) (by omega)
      · exact At.mono (ih2 _ _ _ _ (-2) (by omega) (fun h => absurd rfl h)) (by omega) (by omega)
    · intro p cs b s B hB hcs
      rw [numLoop]
      refine At.attempt at_tkPeek (by omega) (fun c s' h => ?_) (fun e s' h => ?_)
      · have hc := (tkPeek_ok h).1
        refine At.ite (fun _ => ?_) fun _ => At.ite (fun _ => At.ite (fun _ => ?_) fun _ => ?_) fun _ =>
          At.ite (fun _ => At.ite (fun _ => ?_) fun hne => ?_) fun _ => ?_
        · exact At.bind (at_tkNext_here hc) (by omega) fun _ _ _ =>
            At.mono (ih2 _ _ _ _ 1 (by omega) (by omega)) (by omega) (by omega)
        · atwalk
        · exact At.bind (at_tkNext_here hc) (by omega) fun _ _ _ =>
            At.mono (ih2 _ _ _ _ 1 (by omega) (by omega)) (by omega) (by omega)
        · atwalk
        · have := hcs hne
          have hrest : ∀ t : Token F, ∀ s'', At (B - 1 - -4 - -1) (1 - 1 - -4 - -1)
              ((match t.removePos with
                | .Float f => do
                  let m ← parseFloatM E cs
                  pure ⟨p, .Float (E.fmul m (E.powf10 f))⟩
                | .Int i =>
                  if i ≥ 0 ∧ b = false then do
                    let m ← parseIntM E cs
                    let q ← pow10M E i
                    let v ← isizeOp E (m * q)
                    pure ⟨p, .Int v⟩
                  else do
                    let m ← parseFloatM E cs
                    pure ⟨p, .Float (E.fmul m (E.powf10 (E.ofIsize i)))⟩
                | _ => M.throw (noNumber p)) : TM (Token F)) s'' := by
            intro t s''
            generalize t.removePos = ty
            cases ty <;> atwalk [at_parseIntM, at_parseFloatM, at_pow10M, at_isizeOp]
          exact At.attempt (at_tkNext_here hc) (by omega)
            (fun _ _ _ => At.bind (ih1 _) (by omega) fun t s'' _ => hrest t s'')
            (fun _ _ _ => At.bind (ih1 _) (by omega) fun t s'' _ => hrest t s'')
        · by_cases hn : cs = []
          · subst hn; exact At.mono at_numFinish_nil (Int.le_refl _) (by omega)
          · have := hcs hn; exact At.mono at_numFinish (by omega) (by omega)
      · cases e with
        | Eof =>
          by_cases hn : cs = []
          · subst hn; exact At.mono at_numFinish_nil (Int.le_refl _) (by omega)
          · have := hcs hn; exact At.mono at_numFinish (by omega) (by omega)
        | Str m => exact At.throw _ _ (by omega)

theorem at_strLoop : ∀ fuel p cs s, At (-4) 1 (strLoop (F := F) fuel p cs) s
  | 0, p, cs, s => by rw [strLoop]; exact At.diverge _ (by omega)
  | n + 1, p, cs, s => by
    have ih := at_strLoop n
    rw [strLoop]
    refine At.attempt at_tkNext (by omega) (fun c s' h => ?_) (fun e s' h => ?_)
    · split
      · refine At.attempt at_tkNext (by omega) (fun c s' h => ?_) (fun e s' h => ?_)
        · split
          · exact At.mono (ih _ _ _) (by omega) (by omega)
          · exact At.mono (ih _ _ _) (by omega) (by omega)
          · exact At.bind at_tkPrevPos (by omega) fun _ _ _ => At.throw _ _ (by omega)
          · exact At.throw _ _ (by omega)
        · cases e
          · exact At.throw _ _ (by omega)
          · exact At.bind at_tkPrevPos (by omega) fun _ _ _ => At.throw _ _ (by omega)
      · exact At.pure _ _ (by omega)
      · exact At.mono (ih _ _ _) (by omega) (by omega)
      · exact At.bind at_tkPos (by omega) fun _ _ _ => At.throw _ _ (by omega)
      · exact At.throw _ _ (by omega)
    · cases e
      · exact At.throw _ _ (by omega)
      · exact At.bind at_tkPos (by omega) fun _ _ _ => At.throw _ _ (by omega)

theorem at_tokenizeStr {fuel s} : At (-8) 1 (tokenizeStr (F := F) fuel) s := by
  rw [tokenizeStr]
  refine At.bind at_tkPos (by omega) fun _ _ _ =>
    At.attempt at_tkNext (by omega) (fun c s' h => ?_) (fun e s' h => ?_)
  · exact At.mono (at_strLoop _ _ _ _) (by omega) (by omega)
  · cases e
    · exact At.throw _ _ (by omega)
    · exact At.bind at_tkPos (by omega) fun _ _ _ => At.throw _ _ (by omega)

theorem at_idLoop (E : Env F) : ∀ fuel cs s, At 1 1 (idLoop E fuel cs) s
  | 0, cs, s => by rw [idLoop]; exact At.diverge _ (by omega)
  | n + 1, cs, s => by
    have ih := at_idLoop E n
    rw [idLoop]
    refine At.attempt at_tkPeek (by omega) (fun c s' h => ?_) (fun e s' h => ?_)
    · have hc := (tkPeek_ok h).1
      refine At.ite (fun _ => At.bind (at_tkNext_here hc) (by omega) fun _ _ _ =>
        At.mono (ih _ _) (by omega) (by omega)) fun _ => At.pure _ _ (by omega)
    · cases e
      · exact At.throw _ _ (by omega)
      · exact At.pure _ _ (by omega)

theorem at_tokenizeId {E : Env F} {fuel s} : At (-3) 1 (tokenizeId E fuel) s := by
  rw [tokenizeId]
  refine At.bind at_tkPos (by omega) fun _ _ _ => At.bind at_tkNext (by omega) fun _ _ _ =>
    At.bind (at_idLoop E _ _ _) (by omega) fun _ _ _ => ?_
  atwalk

theorem at_skipComment : ∀ fuel s, At 1 1 (skipComment fuel) s
  | 0, s => by rw [skipComment]; exact At.diverge _ (by omega)
  | n + 1, s => by
    have ih := at_skipComment n
    rw [skipComment]
    exact At.attempt at_tkNext (by omega)
      (fun c s' h => At.ite (fun _ => At.pure _ _ (by omega))
        fun _ => At.mono (ih _) (by omega) (by omega))
      (fun e s' h => At.pure _ _ (by omega))

theorem at_skipComment_here {fuel s c} (h : Here s c) : At (-3) 1 (skipComment (fuel + 1)) s := by
  rw [skipComment]
  exact At.attempt (at_tkNext_here h) (by omega)
    (fun c s' h => At.ite (fun _ => At.pure _ _ (by omega))
      fun _ => At.mono (at_skipComment _ _) (by omega) (by omega))
    (fun e s' h => At.pure _ _ (by omega))

theorem at_skipWhitespace (E : Env F) : ∀ fuel s, At 1 1 (skipWhitespace E fuel) s
  | 0, s => by rw [skipWhitespace]; exact At.diverge _ (by omega)
  | n + 1, s => by
    have ih := at_skipWhitespace E n
    rw [skipWhitespace]
    refine At.attempt at_tkPeek (by omega) (fun c s' h => ?_) (fun e s' h => At.pure _ _ (by omega))
    have hc := (tkPeek_ok h).1
    exact At.ite (fun _ => At.bind (at_tkNext_here hc) (by omega) fun _ _ _ =>
      At.mono (ih _) (by omega) (by omega)) fun _ => At.pure _ _ (by omega)

theorem at_skipWhitespace_here {E : Env F} {fuel s c} (h : Here s c) (hw : E.isWhitespace c) :
    At (-2) 1 (skipWhitespace E (fuel + 1)) s := by
  rw [skipWhitespace]
  refine At.attempt at_tkPeek (by omega) (fun c' s' h' => ?_) (fun e s' h' => ?_)
  · obtain ⟨hc, rfl⟩ := tkPeek_ok h'
    have : c' = c := by rw [Here] at hc h; exact Option.some.inj (hc.symm.trans h)
    subst this
    exact At.ite (fun _ => At.bind (at_tkNext_here hc) (by omega) fun _ _ _ =>
      At.mono (at_skipWhitespace _ _ _) (by omega) (by omega)) fun h => absurd hw h
  · obtain ⟨t, ht⟩ := tkPeek_here h
    rw [ht] at h'
    cases h'

theorem at_tokenizeOne (E : Env F) : ∀ fuel s, At 0 3 (tokenizeOne E fuel) s
  | 0, s => by rw [tokenizeOne]; exact At.diverge _ (by omega)
  | n + 1, s => by
    have ih := at_tokenizeOne E n
    rw [tokenizeOne]
    refine At.attempt at_tkPeek (by omega) (fun c s' h => ?_) (fun e s' h => At.throw _ _ (by omega))
    have hc := (tkPeek_ok h).1
    split
    · exact At.bind (at_skipComment_here hc) (by omega) fun _ _ _ =>
        At.mono (ih _) (by omega) (by omega)
    · exact At.mono at_tokenizeStr (by omega) (by omega)
    · exact At.bind at_tkPos (by omega) fun _ s'' h'' => At.attempt at_tkNext (by omega)
        (fun _ _ _ => At.pure _ _ (by omega)) (fun _ _ h' => by
          obtain rfl : _ = s'' := congrArg Prod.snd h''
          obtain ⟨_, e⟩ := tkNext_here hc
          cases e.symm.trans h')
    · exact At.bind at_tkPos (by omega) fun _ s'' h'' => At.attempt at_tkNext (by omega)
        (fun _ _ _ => At.pure _ _ (by omega)) (fun _ _ h' => by
          obtain rfl : _ = s'' := congrArg Prod.snd h''
          obtain ⟨_, e⟩ := tkNext_here hc
          cases e.symm.trans h')
    · next hok =>
      injection hok with hok
      subst hok
      exact At.ite (fun _ => At.mono ((at_num E _).1 _) (by omega) (by omega)) fun _ =>
        At.ite (fun hw => At.bind (at_skipWhitespace_here hc hw) (by omega) fun _ _ _ =>
          At.mono (ih _) (by omega) (by omega)) fun _ =>
        At.ite (fun _ => At.mono at_tokenizeId (by omega) (by omega)) fun _ => by atwalk
    · exact At.throw _ _ (by omega)

theorem at_tokenizeLoop (E : Env F) (g) : ∀ fuel ts s, At 3 3 (tokenizeLoop E g fuel ts) s
  | 0, ts, s => by rw [tokenizeLoop]; exact At.diverge _ (by omega)
  | n + 1, ts, s => by
    have ih := at_tokenizeLoop E g n
    rw [tokenizeLoop]
    refine At.bind at_self (by omega) fun _ _ _ => At.ite (fun _ => ?_) fun _ => At.pure _ _ (by omega)
    refine At.attempt (at_tokenizeOne E g _) (by omega) (fun t s' h => ?_) (fun e s' h => ?_)
    · exact At.mono (ih _ _) (by omega) (by omega)
    · cases e
      · exact At.throw _ _ (by omega)
      · exact At.pure _ _ (by omega)

/-! ### The parser -/

/-- The token at the position -/
abbrev Tok (s : Counted (Parser F)) (t : Token F) : Prop :=
  s.state.tokens[s.state.index]? = some t

theorem peek_ok {s s' : Counted (Parser F)} {t} (h : peek s = (.ok t, s')) : Tok s' t := by
  simp only [peek, counting, Pbrt.peek] at h
  split at h
  · split at h
    · next hc => simp only [Prod.mk.injEq, Res.ok.injEq] at h; obtain ⟨rfl, rfl⟩ := h; exact hc
    · simp at h
  · simp at h

theorem at_peek {s : Counted (Parser F)} : At 1 1 peek s := by
  have : (peek s).2 = ⟨s.state, s.reads + 1⟩ := by
    simp only [peek, counting, Pbrt.peek]
    split
    · split <;> rfl
    · rfl
  rw [At, this]
  split <;> exact ⟨id, rfl, by simp only []; omega⟩

theorem at_pos {s : Counted (Parser F)} : At 1 1 pos s := by
  have : (pos s).2 = ⟨s.state, s.reads + 1⟩ := by
    simp only [pos, counting, Pbrt.pos]
    split
    · rfl
    · split <;> rfl
  rw [At, this]
  split <;> exact ⟨id, rfl, by simp only []; omega⟩

theorem next_eq (s : Counted (Parser F)) :
    (next s = (.err .Eof, ⟨s.state, s.reads + 1⟩) ∧ s.state.tokens[s.state.index]? = none) ∨
    ∃ c t, next s = (.ok c, ⟨t, s.reads + 1⟩) ∧ t.tokens = s.state.tokens ∧
      t.index = s.state.index + 1 ∧ s.state.index < s.state.tokens.length := by
  simp only [next, counting, Pbrt.next]
  split
  · next h => exact Or.inl ⟨rfl, List.getElem?_eq_none (by simpa [Parser.isEmpty] using h)⟩
  · next h =>
    have hi : s.state.index < s.state.tokens.length := by simpa [Parser.isEmpty] using h
    rw [List.getElem?_eq_getElem hi]
    exact Or.inr ⟨_, _, rfl, rfl, rfl, hi⟩

theorem at_next {s : Counted (Parser F)} : At (-4) 1 next s := by
  rw [At]
  rcases next_eq s with ⟨h, _⟩ | ⟨c, t, h, h1, h2, h3⟩
  · rw [h]
    exact ⟨id, rfl, by simp only []; omega⟩
  · rw [h]
    refine ⟨fun _ => ?_, ?_, ?_⟩
    · simp only [at', len, h1, h2]; omega
    · simp only [len, h1]
    · simp only [at', h2]; omega

/-- `next` where there is a token -/
theorem at_next_here {s : Counted (Parser F)} {t} (h : Tok s t) : At (-4) (-4) next s := by
  have h0 := at_next (s := s)
  rcases next_eq s with ⟨_, h'⟩ | ⟨c, t, e, _⟩
  · rw [Tok, h'] at h; cases h
  · rw [At, e] at h0 ⊢
    exact h0

theorem at_getIndex {s : Counted (Parser F)} : At 0 0 getIndex s := Cheap.rfl (Int.le_refl _)

theorem at_idx {T : Type} {v : List T} {i} {s : Counted (Parser F)} : At 0 0 (idx v i) s := by
  rw [idx]; cases v[i]? <;> atwalk

theorem at_parseInt {E : Env F} {s} : At (-3) 1 (parseInt E) s := by
  rw [parseInt]
  refine At.attempt at_peek (by omega) (fun t s' h => ?_) (fun e s' h => ?_)
  · have hc := peek_ok h
    rcases t with ⟨p, ty⟩
    cases ty <;> atwalk [at_next_here hc]
  · cases e <;> atwalk

theorem at_parseString {E : Env F} {s} : At (-3) 1 (parseString E) s := by
  rw [parseString]
  refine At.attempt at_peek (by omega) (fun t s' h => ?_) (fun e s' h => ?_)
  · have hc := peek_ok h
    rcases t with ⟨p, ty⟩
    cases ty <;> atwalk [at_next_here hc]
  · cases e <;> atwalk

theorem at_parseIdentifier {E : Env F} {s} : At (-3) 1 (parseIdentifier E) s := by
  rw [parseIdentifier]
  refine At.attempt at_peek (by omega) (fun t s' h => ?_) (fun e s' h => ?_)
  · have hc := peek_ok h
    rcases t with ⟨p, ty⟩
    cases ty <;> atwalk [at_next_here hc]
  · cases e <;> atwalk

theorem at_parseBool {E : Env F} {s} : At (-3) 1 (parseBool E) s := by
  rw [parseBool]
  refine At.attempt at_peek (by omega) (fun t s' h => ?_) (fun e s' h => ?_)
  · have hc := peek_ok h
    rcases t with ⟨p, ty⟩
    cases ty <;> atwalk [at_next_here hc]
  · cases e <;> atwalk

theorem at_parseFloat {E : Env F} {s} : At (-3) 1 (parseFloat E) s := by
  rw [parseFloat]
  refine At.attempt at_peek (by omega) (fun t s' h => ?_) (fun e s' h => ?_)
  · have hc := peek_ok h
    rcases t with ⟨p, ty⟩
    cases ty <;> atwalk [at_next_here hc]
  · cases e <;> atwalk

theorem at_parseManyLoop {T : Type} {y : PM F T} {b c : Int} (h : ∀ s, At b c y s) (hb : b ≤ 0)
    (hc : 0 ≤ c) (name) : ∀ fuel vs s, At c c (parseManyLoop y name fuel vs) s
  | 0, vs, s => by rw [parseManyLoop]; exact At.diverge _ (by omega)
  | n + 1, vs, s => by
    have ih := at_parseManyLoop h hb hc name n
    rw [parseManyLoop]
    exact At.attempt (h _) (by omega) (fun _ _ _ => At.mono (ih _ _) (by omega) (by omega))
      (fun _ _ _ => by atwalk)

/-- `parse_many` succeeds only if it parsed a value -/
theorem at_parseMany {T : Type} {y : PM F T} {b c : Int} (h : ∀ s, At b c y s) (hb : b ≤ 0)
    (hc : 0 ≤ c) {name s} : At (b + c) c (parseMany y name) s := by
  rw [parseMany]
  refine At.bind at_self (by omega) fun _ _ _ => ?_
  rw [parseManyLoop]
  refine At.attempt (h _) (by omega)
    (fun _ _ _ => At.mono (at_parseManyLoop h hb hc name _ _ _) (by omega) (by omega)) (fun _ _ _ => ?_)
  simp only [if_true]
  exact At.throw _ _ (by omega)

theorem at_parseFloats {E : Env F} {s} : At (-2) 1 (parseFloats E) s :=
  at_parseMany (fun _ => at_parseFloat) (by omega) (by omega)

theorem peek_run (s : Counted (Parser F)) :
    (∃ t, peek s = (.ok t, ⟨s.state, s.reads + 1⟩)) ∨
    peek s = (.err .Eof, ⟨s.state, s.reads + 1⟩) := by
  simp only [peek, counting, Pbrt.peek]
  split
  · next h =>
    have hi : s.state.index < s.state.tokens.length := by simpa [Parser.isEmpty] using h
    rw [List.getElem?_eq_getElem hi]
    exact Or.inl ⟨_, rfl⟩
  · exact Or.inr rfl

/-- `parse_float` advances by one token if it succeeds and by none if it does not -/
theorem parseFloat_run {E : Env F} (s : Counted (Parser F)) :
    (∃ v s', parseFloat E s = (.ok v, s') ∧ s'.state.index = s.state.index + 1) ∨
    ∃ e s', parseFloat E s = (.err e, s') ∧ s'.state.index = s.state.index := by
  have hb : ∀ {f : Except ParserError (Token F) → PM F F}, (M.attempt peek >>= f) s =
      match peek s with
      | (.ok t, s') => f (.ok t) s'
      | (.err e, s') => f (.error e) s'
      | (.panic, s') => (.panic, s')
      | (.diverge, s') => (.diverge, s') := by
    intro f
    rw [M.bind_apply, M.attempt_apply]
    rcases peek s with ⟨r, s'⟩
    cases r <;> rfl
  rw [parseFloat, hb]
  rcases peek_run s with ⟨t, h⟩ | h
  · have ht := peek_ok h
    obtain ⟨c, q, hn, hq⟩ : ∃ c q, next (F := F) ⟨s.state, s.reads + 1⟩ = (.ok c, q) ∧
        q.state.index = s.state.index + 1 := by
      rcases next_eq (⟨s.state, s.reads + 1⟩ : Counted (Parser F)) with ⟨_, h'⟩ | ⟨c, q, e, _, hi, _⟩
      · rw [Tok, h'] at ht; cases ht
      · exact ⟨c, _, e, hi⟩
    rw [h]
    rcases t with ⟨p, ty⟩
    cases ty with
    | Float f => exact Or.inl ⟨f, q, by simp only [M.bind_apply, hn, M.pure_apply], hq⟩
    | Int i => exact Or.inl ⟨E.ofIsize i, q, by simp only [M.bind_apply, hn, M.pure_apply], hq⟩
    | Identifier i => exact Or.inr ⟨_, _, rfl, rfl⟩
    | Str i => exact Or.inr ⟨_, _, rfl, rfl⟩
    | LBracket => exact Or.inr ⟨_, _, rfl, rfl⟩
    | RBracket => exact Or.inr ⟨_, _, rfl, rfl⟩
  · rw [h]
    exact Or.inr ⟨_, _, rfl, rfl⟩

/-- `parse_n` goes back to where it started if it fails -/
theorem parseNLoop_run {E : Env F} {n name} {i : Nat} : ∀ (k : Nat) vs (s : Counted (Parser F)),
    (∃ v s', parseNLoop E (parseFloat E) n name i k vs s = (.ok v, s') ∧
      Cheap (-3 * k) s s') ∨
    ∃ e s', parseNLoop E (parseFloat E) n name i k vs s = (.err e, s') ∧
      s'.reads + 1 ≤ s.reads + 2 * k ∧ s'.state.index = i ∧ len s'.state = len s.state
  | 0, vs, s => Or.inl ⟨vs, s, rfl, Cheap.rfl (by omega)⟩
  | k + 1, vs, s => by
    have h0 := at_parseFloat (E := E) (s := s)
    rw [At] at h0
    rw [parseNLoop]
    rcases parseFloat_run (E := E) s with ⟨v, s', h, hi⟩ | ⟨e, s', h, hi⟩
    · rw [h] at h0
      obtain ⟨h1, h2, h3⟩ := h0
      simp only [at'] at h3
      rw [M.bind_apply, M.attempt_apply, h]
      rcases parseNLoop_run k (vs ++ [v]) s' with ⟨w, s'', hr, hc⟩ | ⟨e, s'', hr, g1, g2, g3⟩
      · exact Or.inl ⟨w, s'', hr, Cheap.trans ⟨h1, h2, h3⟩ hc (by omega)⟩
      · exact Or.inr ⟨e, s'', hr, by omega, g2, g3.trans h2⟩
    · rw [h] at h0
      obtain ⟨h1, h2, h3⟩ := h0
      simp only [at'] at h3
      rw [M.bind_apply, M.attempt_apply, h]
      exact Or.inr ⟨_, ⟨{ s'.state with index := i }, s'.reads + 0⟩, rfl, by simp only []; omega, rfl, h2⟩

theorem at_parseN {E : Env F} {n : Nat} (hn : 0 < n) {name} {s} :
    At (-3 * n) (2 * n - 1) (parseN E (parseFloat E) n name) s := by
  rw [parseN]
  refine At.ite (fun _ => ?_) fun h => absurd hn h
  · refine At.bind at_getIndex (by omega) fun i s' h => ?_
    obtain ⟨rfl, rfl⟩ : s.state.index = i ∧ s = s' := by
      simp only [getIndex, counting, Pbrt.getIndex, Prod.mk.injEq, Res.ok.injEq] at h
      exact ⟨h.1, by rw [← h.2]; rfl⟩
    rw [At]
    rcases parseNLoop_run (E := E) (n := n) (name := name) (i := s.state.index) n [] s with
      ⟨w, s'', hr, hc⟩ | ⟨e, s'', hr, g1, g2, g3⟩
    · rw [hr]; exact hc.mono (by omega)
    · rw [hr]
      refine ⟨fun h => ?_, g3, ?_⟩
      · rw [g3]; exact Nat.le_trans (Nat.le_of_eq g2) h
      · simp only [at', g2]; omega

theorem at_parseList {T : Type} {E : Env F} {y : PM F T} {b c : Int} (h : ∀ s, At b c y s)
    (hb : b ≤ 0) (hc : 0 ≤ c) (hc' : c ≤ 4) (hbc : b + c ≤ -2) {name s} :
    At (-8) 1 (parseList E y name) s := by
  rw [parseList]
  refine At.attempt at_peek (by omega) (fun t s' h1 => ?_) (fun e s' _ => ?_)
  · have h2 := peek_ok h1
    rcases t with ⟨p, ty⟩
    cases ty <;> try (exact At.throw _ _ (by omega))
    have hrest : ∀ (values : List T) s'', At (-3) 6
        ((M.attempt peek >>= fun r => match r with
          | .ok ⟨_, .RBracket⟩ =>
            if values = [] then
              M.throw (.Str (p.fmt ++ " parse_list_" ++ name ++ "(): parsed empty list"))
            else do
              let _ ← next
              pure values
          | .ok ⟨pos, ty⟩ =>
            M.throw (.Str (pos.fmt ++ " parse_list_" ++ name ++ "(): expected ']' but got "
              ++ ty.debug E))
          | .error .Eof => M.throw (.Str ("parse_list_" ++ name ++ "(): EOF while processing list"))
          | .error err => M.throw err) : PM F (List T)) s'' := by
      intro values s''
      refine At.attempt at_peek (by omega) (fun t s' h1 => ?_) (fun e s' _ => ?_)
      · have h2 := peek_ok h1
        rcases t with ⟨p, ty⟩
        cases ty <;> atwalk [at_next_here h2]
      · cases e <;> atwalk
    exact At.attempt (at_next_here h2) (by omega)
      (fun _ _ _ => At.bind (at_parseMany h hb hc) (by omega) fun vs s'' _ =>
        At.mono (hrest vs s'') (by omega) (by omega))
      (fun _ _ _ => At.bind (at_parseMany h hb hc) (by omega) fun vs s'' _ =>
        At.mono (hrest vs s'') (by omega) (by omega))
  · cases e <;> atwalk

theorem at_parseListOfN {E : Env F} {n : Nat} (hn : 0 < n) (hn' : n ≤ 3) {name s} :
    At (-8) 2 (parseListOfN E (parseFloat E) n name) s := by
  rw [parseListOfN]
  refine At.attempt at_peek (by omega) (fun t s' h1 => ?_) (fun e s' _ => ?_)
  · have h2 := peek_ok h1
    rcases t with ⟨p, ty⟩
    cases ty <;> try (exact At.throw _ _ (by omega))
    have hrest : ∀ (values : List F) s'', At (-3) 6
        ((M.attempt peek >>= fun r => match r with
          | .ok ⟨_, .RBracket⟩ =>
            if values = [] then
              M.throw (.Str (p.fmt ++ " parse_list_of_" ++ toString n ++ "_" ++ name
                ++ "s(): parsed empty list"))
            else do
              let _ ← next
              pure values
          | .ok ⟨pos, ty⟩ =>
            M.throw (.Str (pos.fmt ++ " parse_list_of_" ++ toString n ++ "_" ++ name
              ++ "s(): expected ']' but got " ++ ty.debug E))
          | .error .Eof =>
            M.throw (.Str ("parse_list_of_n_" ++ name ++ "s(): EOF while processing list"))
          | .error err => M.throw err) : PM F (List F)) s'' := by
      intro values s''
      refine At.attempt at_peek (by omega) (fun t s' h1 => ?_) (fun e s' _ => ?_)
      · have h2 := peek_ok h1
        rcases t with ⟨p, ty⟩
        cases ty <;> atwalk [at_next_here h2]
      · cases e <;> atwalk
    exact At.attempt (at_next_here h2) (by omega)
      (fun _ _ _ => At.bind (at_parseN hn) (by omega) fun vs s'' _ =>
        At.mono (hrest vs s'') (by omega) (by omega))
      (fun _ _ _ => At.bind (at_parseN hn) (by omega) fun vs s'' _ =>
        At.mono (hrest vs s'') (by omega) (by omega))
  · cases e <;> atwalk

theorem at_parseOneOrList {T : Type} {E : Env F} {y : PM F T} (h : ∀ s, At (-3) 1 y s) {name s} :
    At (-2) 2 (parseOneOrList E y name) s := by
  rw [parseOneOrList]
  have hl : ∀ {s}, At (-8) 1 (parseList E y name) s :=
    at_parseList h (by omega) (by omega) (by omega) (by omega)
  refine At.attempt at_peek (by omega) (fun t s' h1 => ?_) (fun e s' _ => ?_)
  · rcases t with ⟨p, ty⟩
    cases ty <;> atwalk [hl, (h _)]
  · cases e <;> atwalk

theorem at_parsePoint2f {E : Env F} {s} : At (-6) 3 (parsePoint2f E) s := by
  rw [parsePoint2f]
  refine At.bind (at_parseN (by omega)) (by omega) fun _ _ _ => ?_
  atwalk [at_idx]

theorem at_parseVector2f {E : Env F} {s} : At (-6) 3 (parseVector2f E) s := by
  rw [parseVector2f]
  refine At.bind (at_parseN (by omega)) (by omega) fun _ _ _ => ?_
  atwalk [at_idx]

theorem at_chunks2 {T : Type} : ∀ (l : List T) (s : Counted (Parser F)), At 0 0 (chunks2 l) s
  | [], s => by rw [chunks2]; exact At.pure _ _ (by omega)
  | [_], s => by rw [chunks2]; exact At.panic _ (by omega)
  | a :: b :: l, s => by
    have ih := at_chunks2 l
    rw [chunks2]
    exact At.bind (ih s) (by omega) fun _ _ _ => At.pure _ _ (by omega)

theorem at_floatList {E : Env F} {name s} : At (-8) 1 (parseList E (parseFloat E) name) s :=
  at_parseList (fun _ => at_parseFloat) (by omega) (by omega) (by omega) (by omega)

theorem at_parseSpectrum {E : Env F} {s} : At (-3) 2 (parseSpectrum E) s := by
  rw [parseSpectrum]
  refine At.attempt at_peek (by omega) (fun t s' h1 => ?_) (fun e s' _ => ?_)
  · have h2 := peek_ok h1
    rcases t with ⟨p, ty⟩
    cases ty <;> atwalk [at_floatList, at_next_here h2, (at_chunks2 _ _)]
  · cases e <;> atwalk

theorem at_parseParamList {E : Env F} {ps s} : At (-5) 1 (parseParamList E ps) s := by
  rw [parseParamList]
  refine At.attempt at_peek (by omega) (fun t s' h1 => ?_) (fun e s' _ => ?_)
  · have h2 := peek_ok h1
    rcases t with ⟨p, ty⟩
    cases ty with
    | Str str =>
      refine At.ite (fun _ => At.throw _ _ (by omega)) fun hl => ?_
      obtain ⟨a, b, hab⟩ : ∃ a b, splitWhitespace E str = [a, b] := by
        match splitWhitespace E str, Decidable.not_not.1 hl with
        | [a, b], _ => exact ⟨a, b, rfl⟩
      rw [hab]
      show At _ _ (if a = "integer" then _ else _) s'
      atwalk [at_next_here h2, (at_parseOneOrList fun _ => at_parseInt),
        (at_parseOneOrList fun _ => at_parseFloat), (at_parseOneOrList fun _ => at_parseBool),
        (at_parseOneOrList fun _ => at_parseString),
        (at_parseList (fun _ => at_parsePoint2f) (by omega) (by omega) (by omega) (by omega)),
        (at_parseList (fun _ => at_parseVector2f) (by omega) (by omega) (by omega) (by omega)),
        (at_parseListOfN (by omega) (by omega)), at_parseSpectrum, at_parseString, at_idx]
    | Identifier i => exact At.throw _ _ (by omega)
    | Int i => exact At.throw _ _ (by omega)
    | Float i => exact At.throw _ _ (by omega)
    | LBracket => exact At.throw _ _ (by omega)
    | RBracket => exact At.throw _ _ (by omega)
  · cases e <;> atwalk

theorem at_paramListsLoop (E : Env F) : ∀ fuel ps s, At 1 1 (paramListsLoop E fuel ps) s
  | 0, ps, s => by rw [paramListsLoop]; exact At.diverge _ (by omega)
  | n + 1, ps, s => by
    have ih := at_paramListsLoop E n
    rw [paramListsLoop]
    exact At.attempt at_parseParamList (by omega) (fun _ _ _ => At.mono (ih _ _) (by omega) (by omega))
      (fun _ _ _ => At.pure _ _ (by omega))

theorem at_parseParamLists {E : Env F} {ps s} : At 1 1 (parseParamLists E ps) s := by
  rw [parseParamLists]
  exact At.bind at_self (by omega) fun _ _ _ => At.mono (at_paramListsLoop E _ _ _) (by omega) (by omega)

theorem at_dir (E : Env F) : ∀ fuel,
    (∀ s, At (-1) 2 (parseDirective E fuel) s) ∧ ∀ ds s, At 1 3 (directivesLoop E fuel ds) s
  | 0 => by
    constructor
    · intro s; rw [parseDirective]; exact At.diverge _ (by omega)
    · intro ds s; rw [directivesLoop]; exact At.diverge _ (by omega)
  | n + 1 => by
    obtain ⟨ih1, ih2⟩ := at_dir E n
    constructor
    · intro s
      rw [parseDirective]
      atwalk [at_pos, at_parseIdentifier, at_parseString, at_parseParamLists, (ih2 _ _)]
    · intro ds s
      rw [directivesLoop]
      refine At.bind at_peek (by omega) fun t s' _ => ?_
      rcases t with ⟨p, ty⟩
      cases ty <;> atwalk [(ih1 _), (ih2 _ _)]

theorem at_parsePredirective {E : Env F} {s} : At (-2) 2 (parsePredirective E) s := by
  rw [parsePredirective]
  atwalk [at_pos, at_parseIdentifier, at_parseString, at_parseParamLists, at_parseFloats, at_idx]

theorem at_predirectivesLoop (E : Env F) : ∀ fuel ds s, At 1 3 (predirectivesLoop E fuel ds) s
  | 0, ds, s => by rw [predirectivesLoop]; exact At.diverge _ (by omega)
  | n + 1, ds, s => by
    have ih := at_predirectivesLoop E n
    rw [predirectivesLoop]
    refine At.bind at_peek (by omega) fun t s' _ => ?_
    rcases t with ⟨p, ty⟩
    cases ty <;> atwalk [at_parsePredirective, (ih _ _)]

theorem at_parseTokensFuel {E : Env F} {fuel s} : At 0 3 (parseTokensFuel E fuel) s := by
  rw [parseTokensFuel]
  exact At.bind (at_predirectivesLoop E _ _ _) (by omega) fun _ _ _ =>
    At.bind ((at_dir E _).1 _) (by omega) fun _ _ _ => At.pure _ _ (by omega)

end Pbrt.Cost
