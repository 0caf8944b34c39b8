import Verif.Spec.FloatType
import Verif.Proof.LexAll

/-!
# Two float types: walking through the functions with both
-/

namespace Pbrt.Proof.FloatType

open Pbrt.Spec List

variable {F G : Type}

section
variable {σ σ' ε α α' β β' : Type}

/-- Related states, related outcomes -/
def Rel (S : σ → σ' → Prop) (K : ε → ε → Prop) (A : α → α' → Prop) (x : M σ ε α) (y : M σ' ε α') :
    Prop :=
  ∀ s s', S s s' → AlikeOutcome K A (x s).1 (y s').1 ∧ S (x s).2 (y s').2

/-- Related results that were looked at -/
inductive Exc (K : ε → ε → Prop) (A : α → α' → Prop) : Except ε α → Except ε α' → Prop
  | ok {a a'} (h : A a a') : Exc K A (.ok a) (.ok a')
  | error {e e'} (h : K e e') : Exc K A (.error e) (.error e')

variable {S : σ → σ' → Prop} {K : ε → ε → Prop} {A : α → α' → Prop} {B : β → β' → Prop}

theorem Rel.pure {a a'} (h : A a a') : Rel S K A (pure a) (pure a') := fun _ _ hs => ⟨.ok _ _ h, hs⟩
theorem Rel.throw {e e'} (h : K e e') : Rel S K A (M.throw e) (M.throw e') :=
  fun _ _ hs => ⟨.err _ _ h, hs⟩
theorem Rel.panic : Rel S K A M.panic M.panic := fun _ _ hs => ⟨.panic, hs⟩
theorem Rel.diverge : Rel S K A M.diverge M.diverge := fun _ _ hs => ⟨.diverge, hs⟩

theorem Rel.bind {x : M σ ε α} {y : M σ' ε α'} {f : α → M σ ε β} {g : α' → M σ' ε β'}
    (h : Rel S K A x y) (h' : ∀ a a', A a a' → Rel S K B (f a) (g a')) :
    Rel S K B (x >>= f) (y >>= g) := by
  intro s s' hs
  rw [M.bind_apply, M.bind_apply]
  have hh := h s s' hs
  rcases hx : x s with ⟨r, t⟩
  rcases hy : y s' with ⟨r', t'⟩
  rw [hx, hy] at hh
  obtain ⟨h1, h2⟩ := hh
  cases h1 with
  | ok a a' ha => exact h' a a' ha t t' h2
  | err e e' he => exact ⟨.err _ _ he, h2⟩
  | panic => exact ⟨.panic, h2⟩
  | diverge => exact ⟨.diverge, h2⟩

theorem Rel.attempt {x : M σ ε α} {y : M σ' ε α'} (h : Rel S K A x y) :
    Rel S K (Exc K A) (M.attempt x) (M.attempt y) := by
  intro s s' hs
  rw [M.attempt_apply, M.attempt_apply]
  have hh := h s s' hs
  rcases hx : x s with ⟨r, t⟩
  rcases hy : y s' with ⟨r', t'⟩
  rw [hx, hy] at hh
  obtain ⟨h1, h2⟩ := hh
  cases h1 with
  | ok a a' ha => exact ⟨.ok _ _ (.ok ha), h2⟩
  | err e e' he => exact ⟨.ok _ _ (.error he), h2⟩
  | panic => exact ⟨.panic, h2⟩
  | diverge => exact ⟨.diverge, h2⟩

theorem Rel.ite {c : Prop} [Decidable c] {x x' : M σ ε α} {y y' : M σ' ε α'}
    (h : Rel S K A x y) (h' : Rel S K A x' y') :
    Rel S K A (if c then x else x') (if c then y else y') := by
  by_cases hc : c
  · rw [if_pos hc, if_pos hc]; exact h
  · rw [if_neg hc, if_neg hc]; exact h'

end

/-! ### The tokenizer -/

/-- Two standard libraries that agree on the characters in `C`, and whose floats are related by `R`
    wherever they come from the same text of such characters or from the same operation -/
structure AlikeOn (C : Char → Prop) (R : F → G → Prop) (E : Env F) (E' : Env G) : Prop where
  line : C '\n'
  numeric : ∀ c, C c → E.isNumeric c = E'.isNumeric c
  alphabetic : ∀ c, C c → E.isAlphabetic c = E'.isAlphabetic c
  whitespace : ∀ c, C c → E.isWhitespace c = E'.isWhitespace c
  intError : ∀ cs, (∀ c ∈ cs, C c) → E.parseIntError cs = E'.parseIntError cs
  checks : E.overflowChecks = E'.overflowChecks
  literal : ∀ cs, (∀ c ∈ cs, C c) → (∃ x y, E.parseFloat cs = .ok x ∧ E'.parseFloat cs = .ok y ∧ R x y) ∨
    ∃ m, E.parseFloat cs = .error m ∧ E'.parseFloat cs = .error m
  times : ∀ a b a' b', R a a' → R b b' → R (E.fmul a b) (E'.fmul a' b')
  power : ∀ a a', R a a' → R (E.powf10 a) (E'.powf10 a')
  ofInt : ∀ i, R (E.ofIsize i) (E'.ofIsize i)

/-- Related numbers and the same strings are displayed alike. -/
def Shown (R : F → G → Prop) (E : Env F) (E' : Env G) : Prop :=
  ShownAlike R E E' ∧ E.dbgStr = E'.dbgStr

/-- Related tokens, with characters in `C` between quotes -/
inductive TokenOn (C : Char → Prop) (R : F → G → Prop) : Token F → Token G → Prop
  | identifier (p s) : TokenOn C R ⟨p, .Identifier s⟩ ⟨p, .Identifier s⟩
  | int (p i) : TokenOn C R ⟨p, .Int i⟩ ⟨p, .Int i⟩
  | float (p x y) (h : R x y) : TokenOn C R ⟨p, .Float x⟩ ⟨p, .Float y⟩
  | str (p s) (h : ∀ c ∈ s.toList, C c) : TokenOn C R ⟨p, .Str s⟩ ⟨p, .Str s⟩
  | lbracket (p) : TokenOn C R ⟨p, .LBracket⟩ ⟨p, .LBracket⟩
  | rbracket (p) : TokenOn C R ⟨p, .RBracket⟩ ⟨p, .RBracket⟩

variable {C : Char → Prop} {R : F → G → Prop} {E : Env F} {E' : Env G}

theorem alike_on (h : Alike R E E') : AlikeOn (fun _ => True) R E E' where
  line := trivial
  numeric c _ := by rw [h.numeric]
  alphabetic c _ := by rw [h.alphabetic]
  whitespace c _ := by rw [h.whitespace]
  intError cs _ := by rw [h.intError]
  checks := h.checks
  literal cs _ := h.literal cs
  times := h.times
  power := h.power
  ofInt := h.ofInt

theorem TokenOn.alike {t : Token F} {t' : Token G} (h : TokenOn C R t t') : AlikeToken R t t' := by
  cases h with
  | identifier p s => exact .identifier p s
  | int p i => exact .int p i
  | float p x y h => exact .float p x y h
  | str p s h => exact .str p s
  | lbracket p => exact .lbracket p
  | rbracket p => exact .rbracket p

/-- The same state, with characters in `C` -/
def Over (C : Char → Prop) (s s' : Tokenizer) : Prop := s = s' ∧ ∀ c ∈ s.chars, C c

/-- The same character, in `C` -/
def Char1 (C : Char → Prop) (c c' : Char) : Prop := c = c' ∧ C c

/-- The same characters, in `C` -/
def CharsOn (C : Char → Prop) (cs cs' : List Char) : Prop := cs = cs' ∧ ∀ c ∈ cs, C c

theorem mem_snoc {cs : List Char} {c : Char} (h : ∀ c ∈ cs, C c) (hc : C c) : ∀ d ∈ cs ++ [c], C d := by
  intro d hd
  rcases mem_append.1 hd with hd | hd
  · exact h d hd
  · rw [mem_singleton.1 hd]; exact hc

/-- Related tokenizer functions: the state is the same. -/
abbrev TRel {α α' : Type} (C : Char → Prop) (q : Prop) (A : α → α' → Prop) (x : TM α) (y : TM α') : Prop :=
  Rel (Over C) (AlikeTokenizerError q) A x y

variable {q : Prop}

theorem rel_tkPeek : TRel C q (Char1 C) tkPeek tkPeek := by
  rintro s _ ⟨rfl, hs⟩
  rw [tkPeek]
  split
  · split
    · rename_i h
      exact ⟨.ok _ _ ⟨rfl, hs _ (mem_of_getElem? h)⟩, rfl, hs⟩
    · exact ⟨.panic, rfl, hs⟩
  · exact ⟨.err _ _ .eof, rfl, hs⟩

theorem rel_tkNext : TRel C q (Char1 C) tkNext tkNext := by
  rintro s _ ⟨rfl, hs⟩
  rw [tkNext]
  split
  · exact ⟨.err _ _ .eof, rfl, hs⟩
  · split
    · exact ⟨.panic, rfl, hs⟩
    · rename_i h
      exact ⟨.ok _ _ ⟨rfl, hs _ (mem_of_getElem? h)⟩, rfl, hs⟩

theorem rel_tkPos : TRel C q Eq tkPos tkPos := by
  rintro s _ ⟨rfl, hs⟩; exact ⟨.ok _ _ rfl, rfl, hs⟩
theorem rel_tkPrevPos : TRel C q Eq tkPrevPos tkPrevPos := by
  rintro s _ ⟨rfl, hs⟩; exact ⟨.ok _ _ rfl, rfl, hs⟩
theorem rel_tkGet : TRel C q Eq M.get M.get := by
  rintro s _ ⟨rfl, hs⟩; exact ⟨.ok _ _ rfl, rfl, hs⟩

theorem rel_parseIntM (hE : AlikeOn C R E E') {cs : List Char} (hc : ∀ c ∈ cs, C c) :
    TRel C q Eq (parseIntM E cs) (parseIntM E' cs) := by
  rw [parseIntM, parseIntM, hE.intError cs hc]
  cases parseIsize cs
  · exact Rel.throw (.str _ _ fun _ => rfl)
  · exact Rel.pure rfl

theorem rel_parseFloatM (hE : AlikeOn C R E E') {cs : List Char} (hc : ∀ c ∈ cs, C c) :
    TRel C q R (parseFloatM E cs) (parseFloatM E' cs) := by
  rw [parseFloatM, parseFloatM]
  rcases hE.literal cs hc with ⟨x, y, h, h', hR⟩ | ⟨m, h, h'⟩
  · rw [h, h']; exact Rel.pure hR
  · rw [h, h']; exact Rel.throw (.str _ _ fun _ => rfl)

theorem rel_isizeOp (hE : AlikeOn C R E E') (i) : TRel C q Eq (isizeOp E i) (isizeOp E' i) := by
  rw [isizeOp, isizeOp, hE.checks]
  exact Rel.ite (Rel.pure rfl) (Rel.ite Rel.panic (Rel.pure rfl))

theorem rel_pow10M (hE : AlikeOn C R E E') (i) : TRel C q Eq (pow10M E i) (pow10M E' i) := rel_isizeOp hE _

theorem rel_numFinish (hE : AlikeOn C R E E') (p) {cs : List Char} (hc : ∀ c ∈ cs, C c) (b) :
    TRel C q (TokenOn C R) (numFinish E p cs b) (numFinish E' p cs b) := by
  rw [numFinish, numFinish]
  refine Rel.ite ?_ (Rel.ite ?_ ?_)
  · refine Rel.bind rel_tkPos ?_
    rintro a _ rfl
    exact Rel.throw (.str _ _ fun _ => rfl)
  · refine Rel.bind (rel_parseFloatM hE hc) ?_
    intro a a' h
    exact Rel.pure (.float _ _ _ h)
  · refine Rel.bind (rel_parseIntM hE hc) ?_
    rintro a _ rfl
    exact Rel.pure (.int _ _)

theorem rel_num (hE : AlikeOn C R E E') : ∀ fuel,
    TRel C q (TokenOn C R) (tokenizeNum E fuel) (tokenizeNum E' fuel) ∧
    ∀ p cs b, (∀ c ∈ cs, C c) → TRel C q (TokenOn C R) (numLoop E fuel p cs b) (numLoop E' fuel p cs b)
  | 0 => by
    constructor
    · rw [tokenizeNum, tokenizeNum]; exact Rel.diverge
    · intro p cs b _; rw [numLoop, numLoop]; exact Rel.diverge
  | n + 1 => by
    obtain ⟨ih1, ih2⟩ := rel_num hE n
    constructor
    · rw [tokenizeNum, tokenizeNum]
      refine Rel.bind rel_tkPos ?_
      rintro p _ rfl
      refine Rel.bind (A := CharsOn C) ?_ ?_
      · have none : CharsOn C [] [] := ⟨rfl, by simp⟩
        refine Rel.bind (Rel.attempt rel_tkPeek) ?_
        rintro _ _ (@⟨ch, _, rfl, hch⟩ | _)
        · split
          · rename_i h
            cases h
            exact Rel.bind (Rel.attempt rel_tkNext) fun _ _ _ => Rel.pure ⟨rfl, by simpa using hch⟩
          · exact Rel.bind (Rel.attempt rel_tkNext) fun _ _ _ => Rel.pure none
          · exact Rel.pure none
        · exact Rel.pure none
      · rintro cs _ ⟨rfl, hc⟩
        exact ih2 _ _ _ hc
    · intro p cs b hc
      rw [numLoop, numLoop]
      refine Rel.bind (Rel.attempt rel_tkPeek) ?_
      rintro _ _ (@⟨ch, _, rfl, hch⟩ | @⟨e, e', he⟩)
      · simp only [hE.numeric ch hch]
        refine Rel.ite ?_ (Rel.ite (Rel.ite ?_ ?_) (Rel.ite (Rel.ite ?_ ?_) (rel_numFinish hE _ hc _)))
        · refine Rel.bind rel_tkNext ?_
          rintro _ _ ⟨rfl, hn⟩
          exact ih2 _ _ _ (mem_snoc hc hn)
        · refine Rel.bind rel_tkPos ?_
          rintro _ _ rfl
          exact Rel.throw (.str _ _ fun _ => rfl)
        · refine Rel.bind rel_tkNext ?_
          rintro _ _ ⟨rfl, hn⟩
          exact ih2 _ _ _ (mem_snoc hc hn)
        · refine Rel.bind rel_tkPos ?_
          rintro _ _ rfl
          exact Rel.throw (.str _ _ fun _ => rfl)
        · refine Rel.bind (Rel.attempt rel_tkNext) fun _ _ _ => ?_
          refine Rel.bind ih1 ?_
          rintro _ _ (_ | ⟨p', i⟩ | ⟨p', x, y, hx⟩ | _ | _ | _)
          · exact Rel.throw (.str _ _ fun _ => rfl)
          · simp only [Token.removePos]
            refine Rel.ite ?_ ?_
            · refine Rel.bind (rel_parseIntM hE hc) ?_
              rintro _ _ rfl
              refine Rel.bind (rel_pow10M hE _) ?_
              rintro _ _ rfl
              refine Rel.bind (rel_isizeOp hE _) ?_
              rintro _ _ rfl
              exact Rel.pure (.int _ _)
            · refine Rel.bind (rel_parseFloatM hE hc) ?_
              intro _ _ h
              exact Rel.pure (.float _ _ _ (hE.times _ _ _ _ h (hE.power _ _ (hE.ofInt _))))
          · refine Rel.bind (rel_parseFloatM hE hc) ?_
            intro _ _ h
            exact Rel.pure (.float _ _ _ (hE.times _ _ _ _ h (hE.power _ _ hx)))
          · exact Rel.throw (.str _ _ fun _ => rfl)
          · exact Rel.throw (.str _ _ fun _ => rfl)
          · exact Rel.throw (.str _ _ fun _ => rfl)
      · cases he with
        | str m m' h => exact Rel.throw (.str _ _ h)
        | eof => exact rel_numFinish hE _ hc _

theorem rel_strLoop (hC : C '\n') : ∀ fuel p cs, (∀ c ∈ cs, C c) →
    TRel C q (TokenOn C R) (strLoop fuel p cs) (strLoop fuel p cs)
  | 0, _, _, _ => by rw [strLoop, strLoop]; exact Rel.diverge
  | n + 1, p, cs, hc => by
    have ih := rel_strLoop hC n
    rw [strLoop, strLoop]
    refine Rel.bind (Rel.attempt rel_tkNext) ?_
    rintro _ _ (@⟨ch, _, rfl, hch⟩ | @⟨e, e', he⟩)
    · by_cases h : ch = '\\'
      · subst h
        refine Rel.bind (Rel.attempt rel_tkNext) ?_
        rintro _ _ (@⟨ch, _, rfl, hch⟩ | @⟨e, e', he⟩)
        · by_cases h : ch = 'n'
          · subst h; exact ih _ _ (mem_snoc hc hC)
          · simp only []
            exact ih _ _ (mem_snoc hc hch)
        · cases he with
          | str m m' h => exact Rel.throw (.str _ _ h)
          | eof =>
            refine Rel.bind rel_tkPrevPos ?_
            rintro _ _ rfl
            exact Rel.throw (.str _ _ fun _ => rfl)
      · by_cases h' : ch = '"'
        · subst h'
          exact Rel.pure (.str _ _ (by rwa [String.toList_ofList]))
        · split <;> first | exact ih _ _ (mem_snoc hc (by simp_all)) | simp_all
    · cases he with
      | str m m' h => exact Rel.throw (.str _ _ h)
      | eof =>
        refine Rel.bind rel_tkPos ?_
        rintro _ _ rfl
        exact Rel.throw (.str _ _ fun _ => rfl)

theorem rel_tokenizeStr (hC : C '\n') (fuel) : TRel C q (TokenOn C R) (tokenizeStr fuel) (tokenizeStr fuel) := by
  rw [tokenizeStr, tokenizeStr]
  refine Rel.bind rel_tkPos ?_
  rintro p _ rfl
  refine Rel.bind (Rel.attempt rel_tkNext) ?_
  rintro _ _ (@⟨ch, _, rfl, hch⟩ | @⟨e, e', he⟩)
  · exact rel_strLoop hC _ _ _ (by simp)
  · cases he with
    | str m m' h => exact Rel.throw (.str _ _ h)
    | eof =>
      refine Rel.bind rel_tkPos ?_
      rintro _ _ rfl
      exact Rel.throw (.str _ _ fun _ => rfl)

theorem rel_idLoop (hE : AlikeOn C R E E') : ∀ fuel cs, TRel C q Eq (idLoop E fuel cs) (idLoop E' fuel cs)
  | 0, _ => by rw [idLoop, idLoop]; exact Rel.diverge
  | n + 1, cs => by
    have ih := rel_idLoop hE n
    rw [idLoop, idLoop]
    refine Rel.bind (Rel.attempt rel_tkPeek) ?_
    rintro _ _ (@⟨ch, _, rfl, hch⟩ | @⟨e, e', he⟩)
    · simp only [Env.isAlphanumeric, hE.numeric ch hch, hE.alphabetic ch hch]
      refine Rel.ite ?_ (Rel.pure rfl)
      refine Rel.bind rel_tkNext ?_
      rintro _ _ ⟨rfl, _⟩
      exact ih _
    · cases he with
      | str m m' h => exact Rel.throw (.str _ _ h)
      | eof => exact Rel.pure rfl

theorem rel_tokenizeId (hE : AlikeOn C R E E') (fuel) :
    TRel C q (TokenOn C R) (tokenizeId E fuel) (tokenizeId E' fuel) := by
  rw [tokenizeId, tokenizeId]
  refine Rel.bind rel_tkPos ?_
  rintro p _ rfl
  refine Rel.bind rel_tkNext ?_
  rintro c _ ⟨rfl, _⟩
  refine Rel.bind (rel_idLoop hE _ _) ?_
  rintro cs _ rfl
  refine Rel.ite ?_ (Rel.pure (.identifier _ _))
  refine Rel.bind rel_tkPos ?_
  rintro _ _ rfl
  exact Rel.throw (.str _ _ fun _ => rfl)

theorem rel_skipComment : ∀ fuel, TRel C q Eq (skipComment fuel) (skipComment fuel)
  | 0 => by rw [skipComment]; exact Rel.diverge
  | n + 1 => by
    rw [skipComment]
    refine Rel.bind (Rel.attempt rel_tkNext) ?_
    rintro _ _ (@⟨ch, _, rfl, hch⟩ | _)
    · exact Rel.ite (Rel.pure rfl) (rel_skipComment n)
    · exact Rel.pure rfl

theorem rel_skipWhitespace (hE : AlikeOn C R E E') : ∀ fuel,
    TRel C q Eq (skipWhitespace E fuel) (skipWhitespace E' fuel)
  | 0 => by rw [skipWhitespace, skipWhitespace]; exact Rel.diverge
  | n + 1 => by
    rw [skipWhitespace, skipWhitespace]
    refine Rel.bind (Rel.attempt rel_tkPeek) ?_
    rintro _ _ (@⟨ch, _, rfl, hch⟩ | _)
    · simp only [hE.whitespace ch hch]
      refine Rel.ite ?_ (Rel.pure rfl)
      exact Rel.bind rel_tkNext fun _ _ _ => rel_skipWhitespace hE n
    · exact Rel.pure rfl

theorem rel_tokenizeOne (hE : AlikeOn C R E E') : ∀ fuel,
    TRel C q (TokenOn C R) (tokenizeOne E fuel) (tokenizeOne E' fuel)
  | 0 => by rw [tokenizeOne, tokenizeOne]; exact Rel.diverge
  | n + 1 => by
    have ih := rel_tokenizeOne hE n
    rw [tokenizeOne, tokenizeOne]
    refine Rel.bind (Rel.attempt rel_tkPeek) ?_
    rintro _ _ (@⟨ch, _, rfl, hch⟩ | @⟨e, e', he⟩)
    · by_cases h1 : ch = '#'
      · subst h1
        exact Rel.bind (rel_skipComment _) fun _ _ _ => ih
      by_cases h2 : ch = '"'
      · subst h2
        exact rel_tokenizeStr hE.line _
      by_cases h3 : ch = '['
      · subst h3
        refine Rel.bind rel_tkPos ?_
        rintro p _ rfl
        exact Rel.bind (Rel.attempt rel_tkNext) fun _ _ _ => Rel.pure (.lbracket _)
      by_cases h4 : ch = ']'
      · subst h4
        refine Rel.bind rel_tkPos ?_
        rintro p _ rfl
        exact Rel.bind (Rel.attempt rel_tkNext) fun _ _ _ => Rel.pure (.rbracket _)
      have key : TRel C q (TokenOn C R)
          (if ch = '-' ∨ ch = '+' ∨ ch = '.' ∨ E.isNumeric ch = true then tokenizeNum E (n + 1)
            else if E.isWhitespace ch = true then
              skipWhitespace E (n + 1) >>= fun _ => tokenizeOne E n
            else if E.isAlphabetic ch = true then tokenizeId E (n + 1)
            else tkPos >>= fun p => M.throw (.Str (p.fmt ++ " tokenize_one(): unexpected char '" ++
              String.singleton ch ++ "'")))
          (if ch = '-' ∨ ch = '+' ∨ ch = '.' ∨ E'.isNumeric ch = true then tokenizeNum E' (n + 1)
            else if E'.isWhitespace ch = true then
              skipWhitespace E' (n + 1) >>= fun _ => tokenizeOne E' n
            else if E'.isAlphabetic ch = true then tokenizeId E' (n + 1)
            else tkPos >>= fun p => M.throw (.Str (p.fmt ++ " tokenize_one(): unexpected char '" ++
              String.singleton ch ++ "'"))) := by
        simp only [hE.numeric ch hch, hE.whitespace ch hch, hE.alphabetic ch hch]
        refine Rel.ite (rel_num hE _).1 (Rel.ite ?_ (Rel.ite (rel_tokenizeId hE _) ?_))
        · exact Rel.bind (rel_skipWhitespace hE _) fun _ _ _ => ih
        · refine Rel.bind rel_tkPos ?_
          rintro _ _ rfl
          exact Rel.throw (.str _ _ fun _ => rfl)
      split <;> first | exact key | simp_all
    · exact Rel.throw he

theorem rel_tokenizeLoop (hE : AlikeOn C R E E') (fo : Nat) : ∀ fuel ts ts', Forall₂ (TokenOn C R) ts ts' →
    TRel C q (Forall₂ (TokenOn C R)) (tokenizeLoop E fo fuel ts) (tokenizeLoop E' fo fuel ts')
  | 0, _, _, _ => by rw [tokenizeLoop, tokenizeLoop]; exact Rel.diverge
  | n + 1, ts, ts', h => by
    have ih := rel_tokenizeLoop hE fo n
    rw [tokenizeLoop, tokenizeLoop]
    refine Rel.bind rel_tkGet ?_
    rintro s _ rfl
    refine Rel.ite ?_ (Rel.pure h)
    refine Rel.bind (Rel.attempt (rel_tokenizeOne hE fo)) ?_
    rintro _ _ (@⟨t, t', ht⟩ | @⟨e, e', he⟩)
    · exact ih _ _ (rel_append h (.cons ht .nil))
    · cases he with
      | str m m' h => exact Rel.throw (.str _ _ h)
      | eof => exact Rel.pure h

theorem replaceCrlf_over : ∀ {cs : List Char}, (∀ c ∈ cs, C c) → ∀ c ∈ replaceCrlf cs, C c := by
  intro cs
  fun_induction replaceCrlf cs with
  | case1 cs ih =>
    intro h c hc
    rcases mem_cons.1 hc with rfl | hc
    · exact h _ (by simp)
    · exact ih (fun d hd => h d (by simp [hd])) c hc
  | case2 c' cs _ ih =>
    intro h c hc
    rcases mem_cons.1 hc with rfl | hc
    · exact h _ (by simp)
    · exact ih (fun d hd => h d (by simp [hd])) c hc
  | case3 => intro _ c hc; simp at hc

theorem rel_tokenize (hE : AlikeOn C R E E') (q : Prop) {text : List Char} (ht : ∀ c ∈ text, C c) :
    AlikeOutcome (AlikeTokenizerError q) (Forall₂ (TokenOn C R)) (tokenize E text) (tokenize E' text) :=
  (rel_tokenizeLoop hE _ _ _ _ .nil _ _ ⟨rfl, replaceCrlf_over ht⟩).1

end Pbrt.Proof.FloatType
