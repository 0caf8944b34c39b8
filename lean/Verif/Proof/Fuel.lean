import Verif.Model.Parser

/-!
# More fuel never changes a result
-/

namespace Pbrt.Proof

section
variable {σ ε α β : Type}

/-- `y` gives the same result as `x` wherever `x` does not run out of fuel. -/
def FLe (x y : M σ ε α) : Prop := ∀ s, (x s).1 ≠ .diverge → y s = x s

theorem FLe.refl (x : M σ ε α) : FLe x x := fun _ _ => rfl

theorem FLe.trans {x y z : M σ ε α} (h : FLe x y) (h' : FLe y z) : FLe x z := by
  intro s hs
  have e := h s hs
  rw [← e] at hs ⊢
  exact h' s hs

theorem FLe.diverge (y : M σ ε α) : FLe M.diverge y := fun _ h => absurd rfl h

theorem FLe.bind {x y : M σ ε α} {f g : α → M σ ε β} (h : FLe x y) (h' : ∀ a, FLe (f a) (g a)) :
    FLe (x >>= f) (y >>= g) := by
  intro s hs
  rw [M.bind_apply] at hs ⊢
  rw [M.bind_apply]
  have hx : (x s).1 ≠ .diverge := by
    intro hd
    rcases hr : x s with ⟨r, s'⟩
    rw [hr] at hd hs
    simp only at hd
    subst hd
    exact hs rfl
  rw [h s hx]
  rcases hr : x s with ⟨r, s'⟩
  rw [hr] at hs
  cases r with
  | ok a => exact h' a s' hs
  | err e => rfl
  | panic => rfl
  | diverge => rfl

theorem FLe.attempt {x y : M σ ε α} (h : FLe x y) : FLe (M.attempt x) (M.attempt y) := by
  intro s hs
  rw [M.attempt_apply] at hs ⊢
  rw [M.attempt_apply]
  have hx : (x s).1 ≠ .diverge := by
    intro hd
    rcases hr : x s with ⟨r, s'⟩
    rw [hr] at hd hs
    simp only at hd
    subst hd
    exact hs rfl
  rw [h s hx]

theorem FLe.ite {c : Prop} [Decidable c] {x y x' y' : M σ ε α} (h : FLe x y) (h' : FLe x' y') :
    FLe (if c then x else x') (if c then y else y') := by
  by_cases hc : c
  · rw [if_pos hc, if_pos hc]; exact h
  · rw [if_neg hc, if_neg hc]; exact h'

/-- A family that only gains results when the index grows by one only gains results when it
    grows. -/
theorem FLe.mono {x : Nat → M σ ε α} (h : ∀ n, FLe (x n) (x (n + 1))) {m n : Nat} (hmn : m ≤ n) :
    FLe (x m) (x n) := by
  induction n with
  | zero => rw [Nat.le_zero.1 hmn]; exact FLe.refl _
  | succ n ih =>
    rcases Nat.lt_or_ge m (n + 1) with hlt | hge
    · exact (ih (Nat.le_of_lt_succ hlt)).trans (h n)
    · rw [Nat.le_antisymm hmn hge]; exact FLe.refl _
end

variable {F : Type}

/-! ### The tokenizer -/

theorem fle_num (E : Env F) (fuel : Nat) :
    FLe (tokenizeNum E fuel) (tokenizeNum E (fuel + 1)) ∧
    ∀ sp nc b, FLe (numLoop E fuel sp nc b) (numLoop E (fuel + 1) sp nc b) := by
  induction fuel with
  | zero =>
    constructor
    · rw [tokenizeNum]; exact FLe.diverge _
    · intro sp nc b; rw [numLoop]; exact FLe.diverge _
  | succ n ih =>
    constructor
    · rw [tokenizeNum, tokenizeNum]
      exact FLe.bind (FLe.refl _) fun _ => FLe.bind (FLe.refl _) fun _ => ih.2 _ _ _
    · intro sp nc b
      rw [numLoop, numLoop]
      refine FLe.bind (FLe.refl _) fun r => ?_
      cases r with
      | error e => cases e <;> exact FLe.refl _
      | ok ch =>
        refine FLe.ite (FLe.bind (FLe.refl _) fun _ => ih.2 _ _ _) (FLe.ite (FLe.ite (FLe.refl _)
          (FLe.bind (FLe.refl _) fun _ => ih.2 _ _ _)) (FLe.ite (FLe.ite (FLe.refl _) ?_)
            (FLe.refl _)))
        exact FLe.bind (FLe.refl _) fun _ => FLe.bind ih.1 fun _ => FLe.refl _

theorem fle_str (fuel : Nat) : ∀ sp sc,
    FLe (strLoop (F := F) fuel sp sc) (strLoop (fuel + 1) sp sc) := by
  induction fuel with
  | zero => intro sp sc; rw [strLoop]; exact FLe.diverge _
  | succ n ih =>
    intro sp sc
    rw [strLoop, strLoop]
    refine FLe.bind (FLe.refl _) fun r => ?_
    split
    · refine FLe.bind (FLe.refl _) fun r => ?_
      split
      · exact ih _ _
      · exact ih _ _
      · exact FLe.refl _
      · exact FLe.refl _
    · exact FLe.refl _
    · exact ih _ _
    · exact FLe.refl _
    · exact FLe.refl _

theorem fle_tokenizeStr (fuel : Nat) :
    FLe (tokenizeStr (F := F) fuel) (tokenizeStr (fuel + 1)) := by
  unfold tokenizeStr
  refine FLe.bind (FLe.refl _) fun _ => FLe.bind (FLe.refl _) fun r => ?_
  split
  · exact fle_str _ _ _
  · exact FLe.refl _
  · exact FLe.refl _

theorem fle_id (E : Env F) (fuel : Nat) : ∀ ic,
    FLe (idLoop E fuel ic) (idLoop E (fuel + 1) ic) := by
  induction fuel with
  | zero => intro ic; rw [idLoop]; exact FLe.diverge _
  | succ n ih =>
    intro ic
    rw [idLoop, idLoop]
    refine FLe.bind (FLe.refl _) fun r => ?_
    split
    · exact FLe.ite (FLe.bind (FLe.refl _) fun _ => ih _) (FLe.refl _)
    · exact FLe.refl _
    · exact FLe.refl _

theorem fle_tokenizeId (E : Env F) (fuel : Nat) :
    FLe (tokenizeId E fuel) (tokenizeId E (fuel + 1)) := by
  unfold tokenizeId
  exact FLe.bind (FLe.refl _) fun _ => FLe.bind (FLe.refl _) fun _ =>
    FLe.bind (fle_id _ _ _) fun _ => FLe.refl _

theorem fle_comment (fuel : Nat) : FLe (skipComment fuel) (skipComment (fuel + 1)) := by
  induction fuel with
  | zero => rw [skipComment]; exact FLe.diverge _
  | succ n ih =>
    rw [skipComment, skipComment]
    refine FLe.bind (FLe.refl _) fun r => ?_
    split
    · exact FLe.ite (FLe.refl _) ih
    · exact FLe.refl _

theorem fle_ws (E : Env F) (fuel : Nat) :
    FLe (skipWhitespace E fuel) (skipWhitespace E (fuel + 1)) := by
  induction fuel with
  | zero => rw [skipWhitespace]; exact FLe.diverge _
  | succ n ih =>
    rw [skipWhitespace, skipWhitespace]
    refine FLe.bind (FLe.refl _) fun r => ?_
    split
    · exact FLe.ite (FLe.bind (FLe.refl _) fun _ => ih) (FLe.refl _)
    · exact FLe.refl _

theorem fle_one (E : Env F) (fuel : Nat) :
    FLe (tokenizeOne E fuel) (tokenizeOne E (fuel + 1)) := by
  induction fuel with
  | zero => rw [tokenizeOne]; exact FLe.diverge _
  | succ n ih =>
    rw [tokenizeOne, tokenizeOne]
    refine FLe.bind (FLe.refl _) fun r => ?_
    split
    · exact FLe.bind (fle_comment _) fun _ => ih
    · exact fle_tokenizeStr _
    · exact FLe.refl _
    · exact FLe.refl _
    · exact FLe.ite (fle_num E _).1 (FLe.ite (FLe.bind (fle_ws E _) fun _ => ih)
        (FLe.ite (fle_tokenizeId E _) (FLe.refl _)))
    · exact FLe.refl _

theorem fle_loop (E : Env F) (g fuel : Nat) : ∀ ts,
    FLe (tokenizeLoop E g fuel ts) (tokenizeLoop E (g + 1) (fuel + 1) ts) := by
  induction fuel with
  | zero => intro ts; rw [tokenizeLoop]; exact FLe.diverge _
  | succ n ih =>
    intro ts
    rw [tokenizeLoop, tokenizeLoop]
    refine FLe.bind (FLe.refl _) fun r => FLe.ite ?_ (FLe.refl _)
    refine FLe.bind (FLe.attempt (fle_one E g)) fun r => ?_
    split
    · exact ih _
    · exact FLe.refl _
    · exact FLe.refl _

/-- Tokenizing with more fuel gives the same result, unless the fuel ran out. -/
theorem tokenizeFuel_mono (E : Env F) (input : List Char) {m n : Nat} (hmn : m ≤ n)
    (h : tokenizeFuel E m input ≠ .diverge) : tokenizeFuel E n input = tokenizeFuel E m input := by
  have := FLe.mono (x := fun k => tokenizeLoop E k k []) (fun k => fle_loop E k k []) hmn
    (Tokenizer.new input) h
  exact congrArg Prod.fst this

/-! ### The parser -/

theorem fle_many {T : Type} (p : PM F T) (name : String) (fuel : Nat) : ∀ vs,
    FLe (parseManyLoop p name fuel vs) (parseManyLoop p name (fuel + 1) vs) := by
  induction fuel with
  | zero => intro vs; rw [parseManyLoop]; exact FLe.diverge _
  | succ n ih =>
    intro vs
    rw [parseManyLoop, parseManyLoop]
    refine FLe.bind (FLe.refl _) fun r => ?_
    split
    · exact ih _
    · exact FLe.refl _

theorem fle_params (E : Env F) (fuel : Nat) : ∀ ps,
    FLe (paramListsLoop E fuel ps) (paramListsLoop E (fuel + 1) ps) := by
  induction fuel with
  | zero => intro vs; rw [paramListsLoop]; exact FLe.diverge _
  | succ n ih =>
    intro vs
    rw [paramListsLoop, paramListsLoop]
    refine FLe.bind (FLe.refl _) fun r => ?_
    split
    · exact ih _
    · exact FLe.refl _

theorem fle_directives (E : Env F) (fuel : Nat) :
    FLe (parseDirective E fuel) (parseDirective E (fuel + 1)) ∧
    ∀ ds, FLe (directivesLoop E fuel ds) (directivesLoop E (fuel + 1) ds) := by
  induction fuel with
  | zero =>
    constructor
    · rw [parseDirective]; exact FLe.diverge _
    · intro ds; rw [directivesLoop]; exact FLe.diverge _
  | succ n ih =>
    constructor
    · rw [parseDirective, parseDirective]
      refine FLe.bind (FLe.refl _) fun _ => FLe.bind (FLe.refl _) fun _ => ?_
      refine FLe.ite (FLe.refl _) (FLe.ite (FLe.refl _) (FLe.ite (FLe.refl _)
        (FLe.ite (FLe.refl _) (FLe.ite ?_ (FLe.ite ?_ (FLe.ite ?_ (FLe.refl _)))))))
      · exact FLe.bind (ih.2 _) fun _ => FLe.refl _
      · exact FLe.bind (ih.2 _) fun _ => FLe.refl _
      · exact FLe.bind (ih.2 _) fun _ => FLe.refl _
    · intro ds
      rw [directivesLoop, directivesLoop]
      refine FLe.bind (FLe.refl _) fun r => ?_
      split
      · exact FLe.ite (FLe.refl _) (FLe.bind ih.1 fun _ => ih.2 _)
      · exact FLe.refl _

theorem fle_predirectives (E : Env F) (fuel : Nat) : ∀ ds,
    FLe (predirectivesLoop E fuel ds) (predirectivesLoop E (fuel + 1) ds) := by
  induction fuel with
  | zero => intro vs; rw [predirectivesLoop]; exact FLe.diverge _
  | succ n ih =>
    intro ds
    rw [predirectivesLoop, predirectivesLoop]
    refine FLe.bind (FLe.refl _) fun r => ?_
    split
    · exact FLe.ite (FLe.refl _) (FLe.bind (FLe.refl _) fun _ => ih _)
    · exact FLe.refl _

theorem fle_parseTokens (E : Env F) (fuel : Nat) :
    FLe (parseTokensFuel E fuel) (parseTokensFuel E (fuel + 1)) := by
  unfold parseTokensFuel
  exact FLe.bind (fle_predirectives E _ _) fun _ => FLe.bind (fle_directives E _).1 fun _ =>
    FLe.refl _

end Pbrt.Proof
