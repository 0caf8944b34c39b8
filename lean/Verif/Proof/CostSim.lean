import Verif.Model.Cost

/-!
# The counting functions give the results of the model
-/

namespace Pbrt.Cost

variable {F σ ε α β : Type}

/-- Same outcome, same state after -/
def Sim (y : M (Counted σ) ε α) (x : M σ ε α) : Prop :=
  ∀ s, (y s).1 = (x s.state).1 ∧ (y s).2.state = (x s.state).2

theorem Sim.pure (a : α) : Sim (pure a : M (Counted σ) ε α) (pure a) := fun _ => ⟨rfl, rfl⟩
theorem Sim.throw (e : ε) : Sim (M.throw e : M (Counted σ) ε α) (M.throw e) := fun _ => ⟨rfl, rfl⟩
theorem Sim.panic : Sim (M.panic : M (Counted σ) ε α) M.panic := fun _ => ⟨rfl, rfl⟩
theorem Sim.diverge : Sim (M.diverge : M (Counted σ) ε α) M.diverge := fun _ => ⟨rfl, rfl⟩
theorem Sim.counting (k : Nat) (x : M σ ε α) : Sim (counting k x) x := fun _ => ⟨rfl, rfl⟩

theorem Sim.bind {y : M (Counted σ) ε α} {x : M σ ε α} {g : α → M (Counted σ) ε β}
    {f : α → M σ ε β} (h : Sim y x) (h' : ∀ a, Sim (g a) (f a)) : Sim (y >>= g) (x >>= f) := by
  intro s
  rw [M.bind_apply, M.bind_apply]
  have hs := h s
  rcases hx : x s.state with ⟨r, t⟩
  rcases hy : y s with ⟨r', s'⟩
  rw [hx, hy] at hs
  obtain ⟨rfl, rfl⟩ := hs
  cases r' with
  | ok a => exact h' a s'
  | err e => exact ⟨rfl, rfl⟩
  | panic => exact ⟨rfl, rfl⟩
  | diverge => exact ⟨rfl, rfl⟩

theorem Sim.attempt {y : M (Counted σ) ε α} {x : M σ ε α} (h : Sim y x) :
    Sim (M.attempt y) (M.attempt x) := by
  intro s
  rw [M.attempt_apply, M.attempt_apply]
  have hs := h s
  rcases hx : x s.state with ⟨r, t⟩
  rcases hy : y s with ⟨r', s'⟩
  rw [hx, hy] at hs
  obtain ⟨rfl, rfl⟩ := hs
  cases r' <;> exact ⟨rfl, rfl⟩

theorem Sim.ite {c : Prop} [Decidable c] {y y' : M (Counted σ) ε α} {x x' : M σ ε α}
    (h : Sim y x) (h' : Sim y' x') : Sim (if c then y else y') (if c then x else x') := by
  by_cases hc : c
  · rw [if_pos hc, if_pos hc]; exact h
  · rw [if_neg hc, if_neg hc]; exact h'

theorem sim_tkPeek : Sim tkPeek Pbrt.tkPeek := Sim.counting _ _
theorem sim_tkNext : Sim tkNext Pbrt.tkNext := Sim.counting _ _
theorem sim_tkPos : Sim tkPos Pbrt.tkPos := Sim.counting _ _
theorem sim_tkPrevPos : Sim tkPrevPos Pbrt.tkPrevPos := Sim.counting _ _
theorem sim_self : Sim (theSelf : M (Counted σ) ε σ) M.get := Sim.counting _ _
theorem sim_peek : Sim (peek (F := F)) Pbrt.peek := Sim.counting _ _
theorem sim_next : Sim (next (F := F)) Pbrt.next := Sim.counting _ _
theorem sim_pos : Sim (pos (F := F)) Pbrt.pos := Sim.counting _ _
theorem sim_setIndex (i) : Sim (setIndex (F := F) i) (Pbrt.setIndex i) := Sim.counting _ _
theorem sim_getIndex : Sim (getIndex (F := F)) Pbrt.getIndex := Sim.counting _ _

/-- Walk through two functions of the same text -/
syntax "simwalk" ("[" term,* "]")? : tactic
macro_rules
  | `(tactic| simwalk) => `(tactic| simwalk [Sim.diverge])
  | `(tactic| simwalk [$ts,*]) => do
    let ts := ts.getElems
    `(tactic| repeat' first
      | with_reducible exact Sim.pure _
      | with_reducible exact Sim.throw _
      | with_reducible exact Sim.panic
      | with_reducible exact Sim.diverge
      | with_reducible exact sim_tkPeek
      | with_reducible exact sim_tkNext
      | with_reducible exact sim_tkPos
      | with_reducible exact sim_tkPrevPos
      | with_reducible exact sim_self
      | with_reducible exact sim_peek
      | with_reducible exact sim_next
      | with_reducible exact sim_pos
      | with_reducible exact sim_setIndex _
      | with_reducible exact sim_getIndex
      $[| with_reducible apply $ts]*
      | with_reducible refine Sim.attempt ?_
      | with_reducible refine Sim.bind ?_ fun _ => ?_
      | with_reducible refine Sim.ite ?_ ?_
      | split
      | (injections; subst_vars; first | exact Sim.pure _ | exact Sim.throw _)
      | (exfalso; grind)
      | (simp_all [Sim.pure, Sim.throw]; done))

theorem sim_parseIntM (E : Env F) (cs) : Sim (parseIntM E cs) (Pbrt.parseIntM E cs) := by
  rw [parseIntM, Pbrt.parseIntM]
  cases parseIsize cs <;> simwalk

theorem sim_parseFloatM (E : Env F) (cs) : Sim (parseFloatM E cs) (Pbrt.parseFloatM E cs) := by
  rw [parseFloatM, Pbrt.parseFloatM]
  cases E.parseFloat cs <;> simwalk

theorem sim_isizeOp (E : Env F) (i) : Sim (isizeOp E i) (Pbrt.isizeOp E i) := by
  rw [isizeOp, Pbrt.isizeOp]
  simwalk

theorem sim_pow10M (E : Env F) (i) : Sim (pow10M E i) (Pbrt.pow10M E i) := sim_isizeOp E _

theorem sim_numFinish (E : Env F) (p cs b) :
    Sim (numFinish E p cs b) (Pbrt.numFinish E p cs b) := by
  rw [numFinish, Pbrt.numFinish]
  simwalk [sim_parseIntM, sim_parseFloatM]

theorem sim_num (E : Env F) : ∀ fuel,
    Sim (tokenizeNum E fuel) (Pbrt.tokenizeNum E fuel) ∧
    ∀ p cs b, Sim (numLoop E fuel p cs b) (Pbrt.numLoop E fuel p cs b)
  | 0 => by
    constructor
    · rw [tokenizeNum, Pbrt.tokenizeNum]; exact Sim.diverge
    · intro p cs b; rw [numLoop, Pbrt.numLoop]; exact Sim.diverge
  | n + 1 => by
    obtain ⟨ih1, ih2⟩ := sim_num E n
    constructor
    · rw [tokenizeNum, Pbrt.tokenizeNum]
      simwalk [ih2]
    · intro p cs b
      rw [numLoop, Pbrt.numLoop]
      refine Sim.bind (Sim.attempt sim_tkPeek) fun r => ?_
      rcases r with e | ch
      · cases e <;> simwalk [sim_numFinish]
      · refine Sim.ite ?_ (Sim.ite ?_ (Sim.ite (Sim.ite ?_ (Sim.bind ?_ fun _ => Sim.bind ih1 fun t => ?_))
          ?_))
        · simwalk [ih2]
        · simwalk [ih2]
        · simwalk
        · simwalk
        · generalize t.removePos = ty
          cases ty <;> simwalk [sim_parseIntM, sim_parseFloatM, sim_pow10M, sim_isizeOp]
        · simwalk [sim_numFinish]

theorem sim_strLoop : ∀ fuel p cs, Sim (strLoop (F := F) fuel p cs) (Pbrt.strLoop fuel p cs)
  | 0, p, cs => by rw [strLoop, Pbrt.strLoop]; exact Sim.diverge
  | n + 1, p, cs => by
    have ih := sim_strLoop n
    rw [strLoop, Pbrt.strLoop]
    simwalk [ih]

theorem sim_tokenizeStr (fuel) : Sim (tokenizeStr (F := F) fuel) (Pbrt.tokenizeStr fuel) := by
  rw [tokenizeStr, Pbrt.tokenizeStr]
  simwalk [sim_strLoop]

theorem sim_idLoop (E : Env F) : ∀ fuel cs, Sim (idLoop E fuel cs) (Pbrt.idLoop E fuel cs)
  | 0, cs => by rw [idLoop, Pbrt.idLoop]; exact Sim.diverge
  | n + 1, cs => by
    have ih := sim_idLoop E n
    rw [idLoop, Pbrt.idLoop]
    simwalk [ih]

theorem sim_tokenizeId (E : Env F) (fuel) : Sim (tokenizeId E fuel) (Pbrt.tokenizeId E fuel) := by
  rw [tokenizeId, Pbrt.tokenizeId]
  simwalk [sim_idLoop]

theorem sim_skipComment : ∀ fuel, Sim (skipComment fuel) (Pbrt.skipComment fuel)
  | 0 => by rw [skipComment, Pbrt.skipComment]; exact Sim.diverge
  | n + 1 => by
    have ih := sim_skipComment n
    rw [skipComment, Pbrt.skipComment]
    simwalk [ih]

theorem sim_skipWhitespace (E : Env F) : ∀ fuel,
    Sim (skipWhitespace E fuel) (Pbrt.skipWhitespace E fuel)
  | 0 => by rw [skipWhitespace, Pbrt.skipWhitespace]; exact Sim.diverge
  | n + 1 => by
    have ih := sim_skipWhitespace E n
    rw [skipWhitespace, Pbrt.skipWhitespace]
    simwalk [ih]

theorem sim_tokenizeOne (E : Env F) : ∀ fuel,
    Sim (tokenizeOne E fuel) (Pbrt.tokenizeOne E fuel)
  | 0 => by rw [tokenizeOne, Pbrt.tokenizeOne]; exact Sim.diverge
  | n + 1 => by
    have ih := sim_tokenizeOne E n
    have hn := fun fuel => (sim_num E fuel).1
    rw [tokenizeOne, Pbrt.tokenizeOne]
    refine Sim.bind (Sim.attempt sim_tkPeek) fun r => ?_
    split
    · simwalk [ih, sim_skipComment]
    · simwalk [sim_tokenizeStr]
    · simwalk
    · simwalk
    · simp only []
      simwalk [ih, hn, sim_skipWhitespace, sim_tokenizeId]
    · simwalk

theorem sim_tokenizeLoop (E : Env F) (g) : ∀ fuel ts,
    Sim (tokenizeLoop E g fuel ts) (Pbrt.tokenizeLoop E g fuel ts)
  | 0, ts => by rw [tokenizeLoop, Pbrt.tokenizeLoop]; exact Sim.diverge
  | n + 1, ts => by
    have ih := sim_tokenizeLoop E g n
    rw [tokenizeLoop, Pbrt.tokenizeLoop]
    simwalk [ih, sim_tokenizeOne]

theorem sim_idx {T : Type} (v : List T) (i) : Sim (idx (F := F) v i) (Pbrt.idx v i) := by
  rw [idx, Pbrt.idx]
  cases v[i]? <;> simwalk

theorem sim_parseInt (E : Env F) : Sim (parseInt E) (Pbrt.parseInt E) := by
  rw [parseInt, Pbrt.parseInt]
  refine Sim.bind (Sim.attempt sim_peek) fun r => ?_
  rcases r with e | ⟨p, ty⟩
  · cases e <;> simwalk
  · cases ty <;> simwalk

theorem sim_parseString (E : Env F) : Sim (parseString E) (Pbrt.parseString E) := by
  rw [parseString, Pbrt.parseString]
  refine Sim.bind (Sim.attempt sim_peek) fun r => ?_
  rcases r with e | ⟨p, ty⟩
  · cases e <;> simwalk
  · cases ty <;> simwalk

theorem sim_parseIdentifier (E : Env F) : Sim (parseIdentifier E) (Pbrt.parseIdentifier E) := by
  rw [parseIdentifier, Pbrt.parseIdentifier]
  refine Sim.bind (Sim.attempt sim_peek) fun r => ?_
  rcases r with e | ⟨p, ty⟩
  · cases e <;> simwalk
  · cases ty <;> simwalk

theorem sim_parseBool (E : Env F) : Sim (parseBool E) (Pbrt.parseBool E) := by
  rw [parseBool, Pbrt.parseBool]
  refine Sim.bind (Sim.attempt sim_peek) fun r => ?_
  rcases r with e | ⟨p, ty⟩
  · cases e <;> simwalk
  · cases ty <;> simwalk

theorem sim_parseFloat (E : Env F) : Sim (parseFloat E) (Pbrt.parseFloat E) := by
  rw [parseFloat, Pbrt.parseFloat]
  refine Sim.bind (Sim.attempt sim_peek) fun r => ?_
  rcases r with e | ⟨p, ty⟩
  · cases e <;> simwalk
  · cases ty <;> simwalk

theorem sim_parseManyLoop {T : Type} {y : PM F T} {x : Pbrt.PM F T} (h : Sim y x) (name) :
    ∀ fuel vs, Sim (parseManyLoop y name fuel vs) (Pbrt.parseManyLoop x name fuel vs)
  | 0, vs => by rw [parseManyLoop, Pbrt.parseManyLoop]; exact Sim.diverge
  | n + 1, vs => by
    have ih := sim_parseManyLoop h name n
    rw [parseManyLoop, Pbrt.parseManyLoop]
    refine Sim.bind (Sim.attempt h) fun r => ?_
    cases r <;> simwalk [ih]

theorem sim_parseMany {T : Type} {y : PM F T} {x : Pbrt.PM F T} (h : Sim y x) (name) :
    Sim (parseMany y name) (Pbrt.parseMany x name) := by
  rw [parseMany, Pbrt.parseMany]
  exact Sim.bind sim_self fun _ => sim_parseManyLoop h name _ _

theorem sim_parseFloats (E : Env F) : Sim (parseFloats E) (Pbrt.parseFloats E) :=
  sim_parseMany (sim_parseFloat E) _

theorem sim_parseNLoop {T : Type} (E : Env F) {y : PM F T} {x : Pbrt.PM F T} (h : Sim y x) (n name i) :
    ∀ k vs, Sim (parseNLoop E y n name i k vs) (Pbrt.parseNLoop E x n name i k vs)
  | 0, vs => by rw [parseNLoop, Pbrt.parseNLoop]; exact Sim.pure _
  | k + 1, vs => by
    have ih := sim_parseNLoop E h n name i k
    rw [parseNLoop, Pbrt.parseNLoop]
    refine Sim.bind (Sim.attempt h) fun r => ?_
    cases r <;> simwalk [ih]

theorem sim_parseN {T : Type} (E : Env F) {y : PM F T} {x : Pbrt.PM F T} (h : Sim y x) (n name) :
    Sim (parseN E y n name) (Pbrt.parseN E x n name) := by
  rw [parseN, Pbrt.parseN]
  simwalk [(sim_parseNLoop E h)]

theorem sim_parseList {T : Type} (E : Env F) {y : PM F T} {x : Pbrt.PM F T} (h : Sim y x) (name) :
    Sim (parseList E y name) (Pbrt.parseList E x name) := by
  rw [parseList, Pbrt.parseList]
  refine Sim.bind (Sim.attempt sim_peek) fun r => ?_
  rcases r with e | ⟨p, ty⟩
  · cases e <;> simwalk
  · cases ty <;> simwalk [sim_parseMany h name]

theorem sim_parseListOfN {T : Type} (E : Env F) {y : PM F T} {x : Pbrt.PM F T} (h : Sim y x) (n name) :
    Sim (parseListOfN E y n name) (Pbrt.parseListOfN E x n name) := by
  rw [parseListOfN, Pbrt.parseListOfN]
  refine Sim.bind (Sim.attempt sim_peek) fun r => ?_
  rcases r with e | ⟨p, ty⟩
  · cases e <;> simwalk
  · cases ty <;> simwalk [sim_parseN E h n name]

theorem sim_parseOneOrList {T : Type} (E : Env F) {y : PM F T} {x : Pbrt.PM F T} (h : Sim y x) (name) :
    Sim (parseOneOrList E y name) (Pbrt.parseOneOrList E x name) := by
  rw [parseOneOrList, Pbrt.parseOneOrList]
  refine Sim.bind (Sim.attempt sim_peek) fun r => ?_
  rcases r with e | ⟨p, ty⟩
  · cases e <;> simwalk
  · cases ty <;> simwalk [h, sim_parseList E h]

theorem sim_parsePoint2f (E : Env F) : Sim (parsePoint2f E) (Pbrt.parsePoint2f E) := by
  rw [parsePoint2f, Pbrt.parsePoint2f]
  simwalk [sim_parseN E (sim_parseFloat E), sim_idx]

theorem sim_parseVector2f (E : Env F) : Sim (parseVector2f E) (Pbrt.parseVector2f E) := by
  rw [parseVector2f, Pbrt.parseVector2f]
  simwalk [sim_parseN E (sim_parseFloat E), sim_idx]

theorem sim_chunks2 {T : Type} : ∀ l : List T, Sim (chunks2 (F := F) l) (Pbrt.chunks2 l)
  | [] => by rw [chunks2, Pbrt.chunks2]; exact Sim.pure _
  | [_] => by rw [chunks2, Pbrt.chunks2]; exact Sim.panic
  | a :: b :: l => by
    have ih := sim_chunks2 l
    rw [chunks2, Pbrt.chunks2]
    simwalk [ih]

theorem sim_parseSpectrum (E : Env F) : Sim (parseSpectrum E) (Pbrt.parseSpectrum E) := by
  rw [parseSpectrum, Pbrt.parseSpectrum]
  refine Sim.bind (Sim.attempt sim_peek) fun r => ?_
  rcases r with e | ⟨p, ty⟩
  · cases e <;> simwalk
  · cases ty <;> simwalk [sim_parseList E (sim_parseFloat E), sim_chunks2]

theorem sim_parseParamList (E : Env F) (ps) :
    Sim (parseParamList E ps) (Pbrt.parseParamList E ps) := by
  rw [parseParamList, Pbrt.parseParamList]
  refine Sim.bind (Sim.attempt sim_peek) fun r => ?_
  rcases r with e | ⟨p, ty⟩
  · cases e <;> simwalk
  · cases ty <;> simwalk [sim_idx, sim_parseOneOrList E (sim_parseInt E),
      sim_parseOneOrList E (sim_parseFloat E), sim_parseOneOrList E (sim_parseBool E),
      sim_parseOneOrList E (sim_parseString E), sim_parseList E (sim_parsePoint2f E),
      sim_parseList E (sim_parseVector2f E), sim_parseListOfN E (sim_parseFloat E),
      sim_parseSpectrum, sim_parseString]

theorem sim_paramListsLoop (E : Env F) : ∀ fuel ps,
    Sim (paramListsLoop E fuel ps) (Pbrt.paramListsLoop E fuel ps)
  | 0, ps => by rw [paramListsLoop, Pbrt.paramListsLoop]; exact Sim.diverge
  | n + 1, ps => by
    have ih := sim_paramListsLoop E n
    rw [paramListsLoop, Pbrt.paramListsLoop]
    refine Sim.bind (Sim.attempt (sim_parseParamList E ps)) fun r => ?_
    cases r <;> simwalk [ih]

theorem sim_parseParamLists (E : Env F) (ps) :
    Sim (parseParamLists E ps) (Pbrt.parseParamLists E ps) := by
  rw [parseParamLists, Pbrt.parseParamLists]
  exact Sim.bind sim_self fun _ => sim_paramListsLoop E _ _

theorem sim_dir (E : Env F) : ∀ fuel,
    Sim (parseDirective E fuel) (Pbrt.parseDirective E fuel) ∧
    ∀ ds, Sim (directivesLoop E fuel ds) (Pbrt.directivesLoop E fuel ds)
  | 0 => by
    constructor
    · rw [parseDirective, Pbrt.parseDirective]; exact Sim.diverge
    · intro ds; rw [directivesLoop, Pbrt.directivesLoop]; exact Sim.diverge
  | n + 1 => by
    obtain ⟨ih1, ih2⟩ := sim_dir E n
    constructor
    · rw [parseDirective, Pbrt.parseDirective]
      simwalk [ih2, sim_parseIdentifier, sim_parseString, sim_parseParamLists]
    · intro ds
      rw [directivesLoop, Pbrt.directivesLoop]
      refine Sim.bind sim_peek fun r => ?_
      rcases r with ⟨p, ty⟩
      cases ty <;> simwalk [ih1, ih2]

theorem sim_parsePredirective (E : Env F) :
    Sim (parsePredirective E) (Pbrt.parsePredirective E) := by
  rw [parsePredirective, Pbrt.parsePredirective]
  simwalk [sim_parseIdentifier, sim_parseString, sim_parseParamLists, sim_parseFloats, sim_idx]

theorem sim_predirectivesLoop (E : Env F) : ∀ fuel ps,
    Sim (predirectivesLoop E fuel ps) (Pbrt.predirectivesLoop E fuel ps)
  | 0, ps => by rw [predirectivesLoop, Pbrt.predirectivesLoop]; exact Sim.diverge
  | n + 1, ps => by
    have ih := sim_predirectivesLoop E n
    rw [predirectivesLoop, Pbrt.predirectivesLoop]
    refine Sim.bind sim_peek fun r => ?_
    rcases r with ⟨p, ty⟩
    cases ty <;> simwalk [ih, sim_parsePredirective]

theorem sim_parseTokensFuel (E : Env F) (fuel) :
    Sim (parseTokensFuel E fuel) (Pbrt.parseTokensFuel E fuel) := by
  rw [parseTokensFuel, Pbrt.parseTokensFuel]
  exact Sim.bind (sim_predirectivesLoop E _ _) fun _ => Sim.bind (sim_dir E _).1 fun _ => Sim.pure _

end Pbrt.Cost
