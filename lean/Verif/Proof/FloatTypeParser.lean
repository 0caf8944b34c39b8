import Verif.Proof.FloatType

/-!
# Two float types: the parser
-/

namespace Pbrt.Proof.FloatType

open Pbrt.Spec List

variable {F G : Type} {C : Char → Prop} {R : F → G → Prop} {E : Env F} {E' : Env G} {q : Prop}

/-! ### Lists -/

theorem forall₂_at {α β : Type} {P : α → β → Prop} : ∀ {l : List α} {m : List β}, Forall₂ P l m → ∀ i : Nat,
    (l[i]? = none ∧ m[i]? = none) ∨ ∃ a b, l[i]? = some a ∧ m[i]? = some b ∧ P a b
  | _, _, .nil, _ => .inl ⟨by simp, by simp⟩
  | _, _, .cons h _, 0 => .inr ⟨_, _, rfl, rfl, h⟩
  | _, _, .cons _ t, i + 1 => by simpa using forall₂_at t i

theorem forall₂_isNil {α β : Type} {P : α → β → Prop} {l : List α} {m : List β} (h : Forall₂ P l m) :
    l = [] ↔ m = [] := by cases h <;> simp

theorem forall₂_flat {α β γ δ : Type} {P : α → β → Prop} {Q : γ → δ → Prop} {f : α → List γ} {g : β → List δ}
    {l : List α} {m : List β} (h : Forall₂ P l m) (hf : ∀ a b, P a b → Forall₂ Q (f a) (g b)) :
    Forall₂ Q (l.flatMap f) (m.flatMap g) := by
  induction h with
  | nil => exact .nil
  | cons h _ ih =>
    rw [flatMap_cons, flatMap_cons]
    exact rel_append (hf _ _ h) ih

theorem forall₂_map_eq {α β γ : Type} {P : α → β → Prop} {f : α → γ} {g : β → γ} {l : List α} {m : List β}
    (h : Forall₂ P l m) (hf : ∀ a b, P a b → f a = g b) : l.map f = m.map g := by
  induction h with
  | nil => rfl
  | cons h _ ih => rw [map_cons, map_cons, hf _ _ h, ih]

theorem forall₂_flat_eq {α β γ : Type} {P : α → β → Prop} {f : α → List γ} {g : β → List γ} {l : List α}
    {m : List β} (h : Forall₂ P l m) (hf : ∀ a b, P a b → f a = g b) : l.flatMap f = m.flatMap g := by
  induction h with
  | nil => rfl
  | cons h _ ih => rw [flatMap_cons, flatMap_cons, hf _ _ h, ih]

/-- What the parser needs of two standard libraries: the same white space among the characters in
    `C`, and related floats for the same integer -/
structure ReadOn (C : Char → Prop) (R : F → G → Prop) (E : Env F) (E' : Env G) : Prop where
  whitespace : ∀ c, C c → E.isWhitespace c = E'.isWhitespace c
  ofInt : ∀ i, R (E.ofIsize i) (E'.ofIsize i)

theorem AlikeOn.read (h : AlikeOn C R E E') : ReadOn C R E E' := ⟨h.whitespace, h.ofInt⟩

/-! ### States and reads -/

/-- Related parsers -/
def StateOn (C : Char → Prop) (R : F → G → Prop) (s : Parser F) (s' : Parser G) : Prop :=
  s.index = s'.index ∧ Forall₂ (TokenOn C R) s.tokens s'.tokens

/-- Related parser functions -/
abbrev PRel {α α' : Type} (C : Char → Prop) (R : F → G → Prop) (q : Prop) (A : α → α' → Prop) (x : PM F α) (y : PM G α') :
    Prop :=
  Rel (StateOn C R) (AlikeError q) A x y

theorem rel_peek : PRel C R q (TokenOn C R) peek peek := by
  rintro ⟨ts, i⟩ ⟨ts', _⟩ ⟨rfl, h⟩
  by_cases hc : i ≥ ts.length
  · simp only [peek, Parser.isEmpty, ← h.length_eq, hc, decide_true]
    exact ⟨.err _ _ .eof, rfl, h⟩
  · simp only [peek, Parser.isEmpty, ← h.length_eq, hc, decide_false]
    rcases forall₂_at h i with ⟨h1, h2⟩ | ⟨a, b, h1, h2, h3⟩
    · rw [h1, h2]; exact ⟨.panic, rfl, h⟩
    · rw [h1, h2]; exact ⟨.ok _ _ h3, rfl, h⟩

theorem rel_next : PRel C R q (TokenOn C R) next next := by
  rintro ⟨ts, i⟩ ⟨ts', _⟩ ⟨rfl, h⟩
  by_cases hc : i ≥ ts.length
  · simp only [next, Parser.isEmpty, ← h.length_eq, hc, decide_true]
    exact ⟨.err _ _ .eof, rfl, h⟩
  · simp only [next, Parser.isEmpty, ← h.length_eq, hc, decide_false]
    rcases forall₂_at h i with ⟨h1, h2⟩ | ⟨a, b, h1, h2, h3⟩
    · rw [h1, h2]; exact ⟨.panic, rfl, h⟩
    · rw [h1, h2]; exact ⟨.ok _ _ h3, rfl, h⟩

theorem alike_pos {t : Token F} {t' : Token G} (h : TokenOn C R t t') : t.pos = t'.pos := by
  cases h <;> rfl

theorem rel_pos : PRel C R q Eq (pos (F := F)) (pos (F := G)) := by
  rintro ⟨ts, i⟩ ⟨ts', _⟩ ⟨rfl, h⟩
  by_cases hc : i ≥ ts.length
  · simp only [pos, ← h.length_eq, hc, if_true]
    exact ⟨.err _ _ .eof, rfl, h⟩
  · simp only [pos, ← h.length_eq, hc, if_false]
    rcases forall₂_at h i with ⟨h1, h2⟩ | ⟨a, b, h1, h2, h3⟩
    · rw [h1, h2]; exact ⟨.panic, rfl, h⟩
    · rw [h1, h2]; exact ⟨.ok _ _ (alike_pos h3), rfl, h⟩

theorem rel_setIndex (i) : PRel C R q Eq (setIndex (F := F) i) (setIndex (F := G) i) := by
  rintro ⟨ts, j⟩ ⟨ts', _⟩ ⟨rfl, h⟩
  exact ⟨.ok _ _ rfl, rfl, h⟩

theorem rel_getIndex : PRel C R q Eq (getIndex (F := F)) (getIndex (F := G)) := by
  rintro ⟨ts, j⟩ ⟨ts', _⟩ ⟨rfl, h⟩
  exact ⟨.ok _ _ rfl, rfl, h⟩

theorem rel_get : PRel C R q (StateOn C R) M.get M.get := fun _ _ h => ⟨.ok _ _ h, h⟩

theorem rel_idx {α α' : Type} {A : α → α' → Prop} {l : List α} {l' : List α'} (h : Forall₂ A l l') (i) :
    PRel C R q A (idx (F := F) l i) (idx (F := G) l' i) := by
  rw [idx, idx]
  rcases forall₂_at h i with ⟨h1, h2⟩ | ⟨a, b, h1, h2, h3⟩
  · rw [h1, h2]; exact Rel.panic
  · rw [h1, h2]; exact Rel.pure h3

/-! ### Messages -/

theorem alike_debug (hq : Shown R E E') {t : Token F} {t' : Token G}
    (h : TokenOn C R t t') : t.ty.debug E = t'.ty.debug E' := by
  cases h <;> simp only [TokenType.debug, hq.2]
  rename_i h
  rw [hq.1 _ _ h]

theorem alike_display {e e' : ParserError} (h : AlikeError q e e') (hq : q) : e.display = e'.display := by
  cases h with
  | str m m' h => exact h hq
  | eof => rfl

theorem alike_errDebug (hS : Shown R E E') {e e' : ParserError} (h : AlikeError q e e') (hq : q) :
    e.debug E = e'.debug E' := by
  cases h with
  | str m m' h => rw [ParserError.debug, ParserError.debug, h hq, hS.2]
  | eof => rfl

/-- A report that shows the token found -/
theorem rel_found {α α' : Type} {A : α → α' → Prop} (hq : q → Shown R E E')
    {t : Token F} {t' : Token G} (h : TokenOn C R t t') (s : String) :
    PRel C R q A (M.throw (.Str (t.pos.fmt ++ s ++ t.ty.debug E)))
      (M.throw (.Str (t'.pos.fmt ++ s ++ t'.ty.debug E'))) :=
  Rel.throw (.str _ _ fun hh => by rw [alike_pos h, alike_debug (C := C) (hq hh) h])

/-- The same report -/
theorem rel_same {α α' : Type} {A : α → α' → Prop} (s : String) :
    PRel C R q A (M.throw (.Str s)) (M.throw (.Str s)) := Rel.throw (.str _ _ fun _ => rfl)

/-! ### Values -/

theorem rel_parseInt (hq : q → Shown R E E') :
    PRel C R q Eq (parseInt E) (parseInt E') := by
  rw [parseInt, parseInt]
  refine Rel.bind (Rel.attempt rel_peek) ?_
  rintro _ _ (@⟨t, t', ht⟩ | @⟨e, e', he⟩)
  · cases ht with
    | int p i => exact Rel.bind (Rel.attempt rel_next) fun _ _ _ => Rel.pure rfl
    | identifier p s => exact rel_found hq (.identifier p s) _
    | float p x y h => exact rel_found hq (.float p x y h) _
    | str p s hs => exact rel_found hq (.str p s hs) _
    | lbracket p => exact rel_found hq (.lbracket p) _
    | rbracket p => exact rel_found hq (.rbracket p) _
  · cases he with
    | str m m' h => exact Rel.throw (.str _ _ h)
    | eof => exact rel_same _

theorem rel_parseString (hq : q → Shown R E E') :
    PRel C R q Eq (parseString E) (parseString E') := by
  rw [parseString, parseString]
  refine Rel.bind (Rel.attempt rel_peek) ?_
  rintro _ _ (@⟨t, t', ht⟩ | @⟨e, e', he⟩)
  · cases ht with
    | str p i hs => exact Rel.bind (Rel.attempt rel_next) fun _ _ _ => Rel.pure rfl
    | identifier p s => exact rel_found hq (.identifier p s) _
    | float p x y h => exact rel_found hq (.float p x y h) _
    | int p i => exact rel_found hq (.int p i) _
    | lbracket p => exact rel_found hq (.lbracket p) _
    | rbracket p => exact rel_found hq (.rbracket p) _
  · cases he with
    | str m m' h => exact Rel.throw (.str _ _ h)
    | eof => exact rel_same _

theorem rel_parseIdentifier (hq : q → Shown R E E') :
    PRel C R q Eq (parseIdentifier E) (parseIdentifier E') := by
  rw [parseIdentifier, parseIdentifier]
  refine Rel.bind (Rel.attempt rel_peek) ?_
  rintro _ _ (@⟨t, t', ht⟩ | @⟨e, e', he⟩)
  · cases ht with
    | identifier p i => exact Rel.bind (Rel.attempt rel_next) fun _ _ _ => Rel.pure rfl
    | str p s hs => exact rel_found hq (.str p s hs) _
    | float p x y h => exact rel_found hq (.float p x y h) _
    | int p i => exact rel_found hq (.int p i) _
    | lbracket p => exact rel_found hq (.lbracket p) _
    | rbracket p => exact rel_found hq (.rbracket p) _
  · cases he with
    | str m m' h => exact Rel.throw (.str _ _ h)
    | eof => exact rel_same _

theorem rel_parseBool (hq : q → Shown R E E') :
    PRel C R q Eq (parseBool E) (parseBool E') := by
  rw [parseBool, parseBool]
  refine Rel.bind (Rel.attempt rel_peek) ?_
  rintro _ _ (@⟨t, t', ht⟩ | @⟨e, e', he⟩)
  · cases ht with
    | str p s hs =>
      refine Rel.ite ?_ (Rel.ite ?_ ?_)
      · exact Rel.bind rel_next fun _ _ _ => Rel.pure rfl
      · exact Rel.bind rel_next fun _ _ _ => Rel.pure rfl
      · exact Rel.throw (.str _ _ fun hh => by rw [(hq hh).2])
    | identifier p s => exact rel_found hq (.identifier p s) _
    | float p x y h => exact rel_found hq (.float p x y h) _
    | int p i => exact rel_found hq (.int p i) _
    | lbracket p => exact rel_found hq (.lbracket p) _
    | rbracket p => exact rel_found hq (.rbracket p) _
  · cases he with
    | str m m' h => exact Rel.throw (.str _ _ h)
    | eof => exact rel_same _

theorem rel_parseFloat (hE : ReadOn C R E E') (hq : q → Shown R E E') :
    PRel C R q R (parseFloat E) (parseFloat E') := by
  rw [parseFloat, parseFloat]
  refine Rel.bind (Rel.attempt rel_peek) ?_
  rintro _ _ (@⟨t, t', ht⟩ | @⟨e, e', he⟩)
  · cases ht with
    | float p x y h => exact Rel.bind rel_next fun _ _ _ => Rel.pure h
    | int p i => exact Rel.bind rel_next fun _ _ _ => Rel.pure (hE.ofInt _)
    | str p s hs => exact rel_found hq (.str p s hs) _
    | identifier p s => exact rel_found hq (.identifier p s) _
    | lbracket p => exact rel_found hq (.lbracket p) _
    | rbracket p => exact rel_found hq (.rbracket p) _
  · cases he with
    | str m m' h => exact Rel.throw (.str _ _ h)
    | eof => exact rel_same _

/-! ### Lists of values -/

section
variable {α α' : Type} {A : α → α' → Prop} {x : PM F α} {y : PM G α'}

theorem rel_parseManyLoop (h : PRel C R q A x y) (name) : ∀ fuel vs vs', Forall₂ A vs vs' →
    PRel C R q (Forall₂ A) (parseManyLoop x name fuel vs) (parseManyLoop y name fuel vs')
  | 0, _, _, _ => by rw [parseManyLoop, parseManyLoop]; exact Rel.diverge
  | n + 1, vs, vs', hv => by
    have ih := rel_parseManyLoop h name n
    rw [parseManyLoop, parseManyLoop]
    refine Rel.bind (Rel.attempt h) ?_
    rintro _ _ (@⟨t, t', ht⟩ | @⟨e, e', he⟩)
    · exact ih _ _ (rel_append hv (.cons ht .nil))
    · simp only [forall₂_isNil hv]
      exact Rel.ite (Rel.throw (.str _ _ fun hh => by rw [alike_display he hh])) (Rel.pure hv)

theorem rel_parseMany (h : PRel C R q A x y) (name) :
    PRel C R q (Forall₂ A) (parseMany x name) (parseMany y name) := by
  rw [parseMany, parseMany]
  refine Rel.bind rel_get ?_
  intro s s' hs
  rw [hs.2.length_eq]
  exact rel_parseManyLoop h name _ _ _ .nil

theorem rel_parseNLoop (hq : q → Shown R E E') (h : PRel C R q A x y) (n name si) : ∀ k vs vs', Forall₂ A vs vs' →
    PRel C R q (Forall₂ A) (parseNLoop E x n name si k vs) (parseNLoop E' y n name si k vs')
  | 0, _, _, hv => by rw [parseNLoop, parseNLoop]; exact Rel.pure hv
  | k + 1, vs, vs', hv => by
    have ih := rel_parseNLoop hq h n name si k
    rw [parseNLoop, parseNLoop]
    refine Rel.bind (Rel.attempt h) ?_
    rintro _ _ (@⟨t, t', ht⟩ | @⟨e, e', he⟩)
    · exact ih _ _ (rel_append hv (.cons ht .nil))
    · refine Rel.bind (rel_setIndex _) fun _ _ _ => ?_
      exact Rel.throw (.str _ _ fun hh => by rw [alike_errDebug (hq hh) he hh])

theorem rel_parseN (hq : q → Shown R E E') (h : PRel C R q A x y) (n name) :
    PRel C R q (Forall₂ A) (parseN E x n name) (parseN E' y n name) := by
  rw [parseN, parseN]
  refine Rel.ite ?_ Rel.panic
  refine Rel.bind rel_getIndex ?_
  rintro i _ rfl
  exact rel_parseNLoop hq h _ _ _ _ _ _ .nil

theorem rel_parseList (hq : q → Shown R E E') (h : PRel C R q A x y) (name) :
    PRel C R q (Forall₂ A) (parseList E x name) (parseList E' y name) := by
  rw [parseList, parseList]
  refine Rel.bind (Rel.attempt rel_peek) ?_
  rintro _ _ (@⟨t, t', ht⟩ | @⟨e, e', he⟩)
  · cases ht with
    | lbracket p =>
      refine Rel.bind (Rel.attempt rel_next) fun _ _ _ => ?_
      refine Rel.bind (rel_parseMany h _) fun vs vs' hv => ?_
      refine Rel.bind (Rel.attempt rel_peek) ?_
      rintro _ _ (@⟨t, t', ht⟩ | @⟨e, e', he⟩)
      · cases ht with
        | rbracket p =>
          simp only [forall₂_isNil hv]
          refine Rel.ite (rel_same _) ?_
          exact Rel.bind rel_next fun _ _ _ => Rel.pure hv
        | float p x y h =>
          exact Rel.throw (.str _ _ fun hh => by rw [alike_debug (C := C) (hq hh) (.float p x y h)])
        | int p i => exact Rel.throw (.str _ _ fun hh => rfl)
        | str p s hs =>
          exact Rel.throw (.str _ _ fun hh => by rw [alike_debug (C := C) (hq hh) (.str p s hs)])
        | identifier p s =>
          exact Rel.throw (.str _ _ fun hh => by rw [alike_debug (C := C) (hq hh) (.identifier p s)])
        | lbracket p => exact Rel.throw (.str _ _ fun hh => rfl)
      · cases he with
        | str m m' h => exact Rel.throw (.str _ _ h)
        | eof => exact rel_same _
    | rbracket p => exact Rel.throw (.str _ _ fun hh => rfl)
    | float p x y h =>
      exact Rel.throw (.str _ _ fun hh => by rw [alike_debug (C := C) (hq hh) (.float p x y h)])
    | int p i => exact Rel.throw (.str _ _ fun hh => rfl)
    | str p s hs =>
      exact Rel.throw (.str _ _ fun hh => by rw [alike_debug (C := C) (hq hh) (.str p s hs)])
    | identifier p s =>
      exact Rel.throw (.str _ _ fun hh => by rw [alike_debug (C := C) (hq hh) (.identifier p s)])
  · cases he with
    | str m m' h => exact Rel.throw (.str _ _ h)
    | eof => exact rel_same _

theorem rel_parseListOfN (hq : q → Shown R E E') (h : PRel C R q A x y) (n name) :
    PRel C R q (Forall₂ A) (parseListOfN E x n name) (parseListOfN E' y n name) := by
  rw [parseListOfN, parseListOfN]
  refine Rel.bind (Rel.attempt rel_peek) ?_
  rintro _ _ (@⟨t, t', ht⟩ | @⟨e, e', he⟩)
  · cases ht with
    | lbracket p =>
      refine Rel.bind (Rel.attempt rel_next) fun _ _ _ => ?_
      refine Rel.bind (rel_parseN hq h _ _) fun vs vs' hv => ?_
      refine Rel.bind (Rel.attempt rel_peek) ?_
      rintro _ _ (@⟨t, t', ht⟩ | @⟨e, e', he⟩)
      · cases ht with
        | rbracket p =>
          simp only [forall₂_isNil hv]
          refine Rel.ite (rel_same _) ?_
          exact Rel.bind rel_next fun _ _ _ => Rel.pure hv
        | float p x y h =>
          exact Rel.throw (.str _ _ fun hh => by rw [alike_debug (C := C) (hq hh) (.float p x y h)])
        | int p i => exact Rel.throw (.str _ _ fun hh => rfl)
        | str p s hs =>
          exact Rel.throw (.str _ _ fun hh => by rw [alike_debug (C := C) (hq hh) (.str p s hs)])
        | identifier p s =>
          exact Rel.throw (.str _ _ fun hh => by rw [alike_debug (C := C) (hq hh) (.identifier p s)])
        | lbracket p => exact Rel.throw (.str _ _ fun hh => rfl)
      · cases he with
        | str m m' h => exact Rel.throw (.str _ _ h)
        | eof => exact rel_same _
    | rbracket p => exact Rel.throw (.str _ _ fun hh => rfl)
    | float p x y h =>
      exact Rel.throw (.str _ _ fun hh => by rw [alike_debug (C := C) (hq hh) (.float p x y h)])
    | int p i => exact Rel.throw (.str _ _ fun hh => rfl)
    | str p s hs =>
      exact Rel.throw (.str _ _ fun hh => by rw [alike_debug (C := C) (hq hh) (.str p s hs)])
    | identifier p s =>
      exact Rel.throw (.str _ _ fun hh => by rw [alike_debug (C := C) (hq hh) (.identifier p s)])
  · cases he with
    | str m m' h => exact Rel.throw (.str _ _ h)
    | eof => exact rel_same _

theorem rel_parseOneOrList (hq : q → Shown R E E') (h : PRel C R q A x y) (name) :
    PRel C R q (Forall₂ A) (parseOneOrList E x name) (parseOneOrList E' y name) := by
  have one : PRel C R q (Forall₂ A) (x >>= fun v => pure [v]) (y >>= fun v => pure [v]) :=
    Rel.bind h fun _ _ hv => Rel.pure (.cons hv .nil)
  rw [parseOneOrList, parseOneOrList]
  refine Rel.bind (Rel.attempt rel_peek) ?_
  rintro _ _ (@⟨t, t', ht⟩ | @⟨e, e', he⟩)
  · cases ht with
    | lbracket p => exact rel_parseList hq h _
    | rbracket p => exact one
    | float p x y h => exact one
    | int p i => exact one
    | str p s hs => exact one
    | identifier p s => exact one
  · cases he with
    | str m m' h => exact Rel.throw (.str _ _ h)
    | eof => exact rel_same _

end

/-- Related pairs of coordinates -/
def Pair2 (R : F → G → Prop) (p : Point2 F) (p' : Point2 G) : Prop := R p.x p'.x ∧ R p.y p'.y
def VPair2 (R : F → G → Prop) (p : Vector2 F) (p' : Vector2 G) : Prop := R p.x p'.x ∧ R p.y p'.y

theorem rel_parsePoint2f (hE : ReadOn C R E E') (hq : q → Shown R E E') :
    PRel C R q (Pair2 R) (parsePoint2f E) (parsePoint2f E') := by
  rw [parsePoint2f, parsePoint2f]
  refine Rel.bind (rel_parseN hq (rel_parseFloat hE hq) _ _) fun vs vs' hv => ?_
  refine Rel.bind (rel_idx hv _) fun a a' ha => Rel.bind (rel_idx hv _) fun b b' hb => ?_
  exact Rel.pure ⟨ha, hb⟩

theorem rel_parseVector2f (hE : ReadOn C R E E') (hq : q → Shown R E E') :
    PRel C R q (VPair2 R) (parseVector2f E) (parseVector2f E') := by
  rw [parseVector2f, parseVector2f]
  refine Rel.bind (rel_parseN hq (rel_parseFloat hE hq) _ _) fun vs vs' hv => ?_
  refine Rel.bind (rel_idx hv _) fun a a' ha => Rel.bind (rel_idx hv _) fun b b' hb => ?_
  exact Rel.pure ⟨ha, hb⟩

/-! ### Spectra and parameters -/

/-- Related spectra -/
inductive AlikeSpectrum (R : F → G → Prop) : Spectrum F → Spectrum G → Prop
  | rgb {a b c a' b' c'} (h : R a a') (h' : R b b') (h'' : R c c') : AlikeSpectrum R (.Rgb a b c) (.Rgb a' b' c')
  | xyz {a b c a' b' c'} (h : R a a') (h' : R b b') (h'' : R c c') : AlikeSpectrum R (.Xyz a b c) (.Xyz a' b' c')
  | samples {l l'} (h : Forall₂ (fun s s' => R s.1 s'.1 ∧ R s.2 s'.2) l l') :
      AlikeSpectrum R (.Spectrum l) (.Spectrum l')
  | file (s) : AlikeSpectrum R (.File s) (.File s)
  | blackbody {a b a' b'} (h : R a a') (h' : R b b') : AlikeSpectrum R (.Blackbody a b) (.Blackbody a' b')

theorem rel_chunks2 : ∀ l l', Forall₂ R l l' →
    PRel C R q (Forall₂ fun s s' => R s.1 s'.1 ∧ R s.2 s'.2) (chunks2 (F := F) l) (chunks2 (F := G) l')
  | _, _, .nil => by rw [chunks2, chunks2]; exact Rel.pure .nil
  | _, _, .cons _ .nil => by rw [chunks2, chunks2]; exact Rel.panic
  | _, _, .cons h (.cons h' t) => by
    rw [chunks2, chunks2]
    exact Rel.bind (rel_chunks2 _ _ t) fun _ _ hr => Rel.pure (.cons ⟨h, h'⟩ hr)

theorem rel_parseSpectrum (hE : ReadOn C R E E') (hq : q → Shown R E E') :
    PRel C R q (AlikeSpectrum R) (parseSpectrum E) (parseSpectrum E') := by
  rw [parseSpectrum, parseSpectrum]
  refine Rel.bind (Rel.attempt rel_peek) ?_
  rintro _ _ (@⟨t, t', ht⟩ | @⟨e, e', he⟩)
  · cases ht with
    | lbracket p =>
      refine Rel.bind (rel_parseList hq (rel_parseFloat hE hq) _) fun vs vs' hv => ?_
      rw [hv.length_eq]
      refine Rel.ite (rel_same _) ?_
      exact Rel.bind (rel_chunks2 _ _ hv) fun _ _ h => Rel.pure (.samples h)
    | rbracket p => exact rel_found hq (.rbracket p) _
    | float p x y h => exact rel_found hq (.float p x y h) _
    | int p i => exact rel_found hq (.int p i) _
    | str p s hs => exact Rel.bind rel_next fun _ _ _ => Rel.pure (.file s)
    | identifier p s => exact rel_found hq (.identifier p s) _
  · cases he with
    | str m m' h => exact Rel.throw (.str _ _ h)
    | eof => exact rel_same _

/-- Related parameters -/
def AlikeParam {S S' : Type} (A : S → S' → Prop) (p : Param S) (p' : Param S') : Prop :=
  p.name = p'.name ∧ p.pos = p'.pos ∧ Forall₂ A p.values p'.values

/-- Related parameter sets; the three lists nothing is added to are empty. -/
structure AlikeSet (R : F → G → Prop) (s : ParamSet F) (s' : ParamSet G) : Prop where
  bools : s.bools = s'.bools
  ints : s.ints = s'.ints
  floats : Forall₂ (AlikeParam R) s.floats s'.floats
  point2fs : Forall₂ (AlikeParam (Pair2 R)) s.point2fs s'.point2fs
  vector2fs : Forall₂ (AlikeParam (VPair2 R)) s.vector2fs s'.vector2fs
  point3fs : s.point3fs = [] ∧ s'.point3fs = []
  vector3fs : s.vector3fs = [] ∧ s'.vector3fs = []
  normal3fs : s.normal3fs = [] ∧ s'.normal3fs = []
  spectra : Forall₂ (AlikeParam (AlikeSpectrum R)) s.spectra s'.spectra
  strings : s.strings = s'.strings
  textures : s.textures = s'.textures

theorem alike_default : AlikeSet R (.default : ParamSet F) (.default : ParamSet G) where
  bools := rfl
  ints := rfl
  floats := .nil
  point2fs := .nil
  vector2fs := .nil
  point3fs := ⟨rfl, rfl⟩
  vector3fs := ⟨rfl, rfl⟩
  normal3fs := ⟨rfl, rfl⟩
  spectra := .nil
  strings := rfl
  textures := rfl

theorem alike_add {S S' : Type} {A : S → S' → Prop} {l : List (Param S)} {l' : List (Param S')}
    (h : Forall₂ (AlikeParam A) l l') (n p) {vs vs'} (hv : Forall₂ A vs vs') :
    Forall₂ (AlikeParam A) (l ++ [⟨n, p, vs⟩]) (l' ++ [⟨n, p, vs'⟩]) :=
  rel_append h (.cons ⟨rfl, rfl, hv⟩ .nil)

theorem splitWs_over (hE : ReadOn C R E E') : ∀ {cs : List Char}, (∀ c ∈ cs, C c) → ∀ {cur : List Char},
    splitWs E.isWhitespace cur cs = splitWs E'.isWhitespace cur cs
  | [], _, _ => by rw [splitWs, splitWs]
  | c :: cs, h, cur => by
    have h' : ∀ d ∈ cs, C d := fun d hd => h d (by simp [hd])
    rw [splitWs, splitWs, hE.whitespace c (h c (by simp)), splitWs_over hE h', splitWs_over hE h']

theorem rel_parseParamList (hE : ReadOn C R E E') (hq : q → Shown R E E') {ps : ParamSet F} {ps' : ParamSet G}
    (h : AlikeSet R ps ps') : PRel C R q (AlikeSet R) (parseParamList E ps) (parseParamList E' ps') := by
  rw [parseParamList, parseParamList]
  refine Rel.bind (Rel.attempt rel_peek) ?_
  rintro _ _ (@⟨t, t', ht⟩ | @⟨e, e', he⟩)
  · cases ht with
    | str p s hs =>
      simp only [splitWhitespace, splitWs_over hE hs]
      refine Rel.ite (rel_same _) ?_
      generalize (splitWs E'.isWhitespace [] s.toList).map String.ofList = ws
      have hw : Forall₂ Eq ws ws := forall₂_same.mpr fun _ _ => rfl
      refine Rel.bind (rel_idx hw _) ?_
      rintro ty _ rfl
      refine Rel.bind (rel_idx hw _) ?_
      rintro var _ rfl
      refine Rel.ite ?_ (Rel.ite ?_ (Rel.ite ?_ (Rel.ite ?_ (Rel.ite ?_ (Rel.ite ?_ (Rel.ite ?_ (Rel.ite ?_
        (Rel.ite ?_ (Rel.ite ?_ (Rel.ite ?_ (rel_same _)))))))))))
      · refine Rel.bind rel_next fun _ _ _ => ?_
        refine Rel.bind (rel_parseOneOrList hq (rel_parseInt hq) _) fun v v' hv => ?_
        rw [forall₂_eq_eq_eq] at hv
        subst hv
        exact Rel.pure { h with ints := by rw [h.ints] }
      · refine Rel.bind rel_next fun _ _ _ => ?_
        refine Rel.bind (rel_parseOneOrList hq (rel_parseFloat hE hq) _) fun v v' hv => ?_
        exact Rel.pure { h with floats := alike_add h.floats _ _ hv }
      · refine Rel.bind rel_next fun _ _ _ => ?_
        refine Rel.bind (rel_parseList hq (rel_parsePoint2f hE hq) _) fun v v' hv => ?_
        exact Rel.pure { h with point2fs := alike_add h.point2fs _ _ hv }
      · refine Rel.bind rel_next fun _ _ _ => ?_
        refine Rel.bind (rel_parseList hq (rel_parseVector2f hE hq) _) fun v v' hv => ?_
        exact Rel.pure { h with vector2fs := alike_add h.vector2fs _ _ hv }
      · refine Rel.bind rel_next fun _ _ _ => ?_
        refine Rel.bind (rel_parseOneOrList hq (rel_parseBool hq) _) fun v v' hv => ?_
        rw [forall₂_eq_eq_eq] at hv
        subst hv
        exact Rel.pure { h with bools := by rw [h.bools] }
      · refine Rel.bind rel_next fun _ _ _ => ?_
        refine Rel.bind (rel_parseOneOrList hq (rel_parseString hq) _) fun v v' hv => ?_
        rw [forall₂_eq_eq_eq] at hv
        subst hv
        exact Rel.pure { h with strings := by rw [h.strings] }
      · refine Rel.bind rel_next fun _ _ _ => ?_
        refine Rel.bind (rel_parseListOfN hq (rel_parseFloat hE hq) _ _) fun v v' hv => ?_
        refine Rel.bind (rel_idx hv _) fun a a' ha => Rel.bind (rel_idx hv _) fun b b' hb =>
          Rel.bind (rel_idx hv _) fun c c' hc => ?_
        exact Rel.pure { h with spectra := alike_add h.spectra _ _ (.cons (.rgb ha hb hc) .nil) }
      · refine Rel.bind rel_next fun _ _ _ => ?_
        refine Rel.bind (rel_parseListOfN hq (rel_parseFloat hE hq) _ _) fun v v' hv => ?_
        refine Rel.bind (rel_idx hv _) fun a a' ha => Rel.bind (rel_idx hv _) fun b b' hb =>
          Rel.bind (rel_idx hv _) fun c c' hc => ?_
        exact Rel.pure { h with spectra := alike_add h.spectra _ _ (.cons (.xyz ha hb hc) .nil) }
      · refine Rel.bind rel_next fun _ _ _ => ?_
        refine Rel.bind (rel_parseSpectrum hE hq) fun v v' hv => ?_
        exact Rel.pure { h with spectra := alike_add h.spectra _ _ (.cons hv .nil) }
      · refine Rel.bind rel_next fun _ _ _ => ?_
        refine Rel.bind (rel_parseListOfN hq (rel_parseFloat hE hq) _ _) fun v v' hv => ?_
        refine Rel.bind (rel_idx hv _) fun a a' ha => Rel.bind (rel_idx hv _) fun b b' hb => ?_
        exact Rel.pure { h with spectra := alike_add h.spectra _ _ (.cons (.blackbody ha hb) .nil) }
      · refine Rel.bind rel_next fun _ _ _ => ?_
        refine Rel.bind (rel_parseString hq) ?_
        rintro v _ rfl
        exact Rel.pure { h with textures := by rw [h.textures] }
    | rbracket p => exact rel_found hq (.rbracket p) _
    | float p x y h => exact rel_found hq (.float p x y h) _
    | int p i => exact rel_found hq (.int p i) _
    | lbracket p => exact rel_found hq (.lbracket p) _
    | identifier p s => exact rel_found hq (.identifier p s) _
  · cases he with
    | str m m' h => exact Rel.throw (.str _ _ h)
    | eof => exact rel_same _

theorem rel_paramListsLoop (hE : ReadOn C R E E') (hq : q → Shown R E E') : ∀ fuel ps ps', AlikeSet R ps ps' →
    PRel C R q (AlikeSet R) (paramListsLoop E fuel ps) (paramListsLoop E' fuel ps')
  | 0, _, _, _ => by rw [paramListsLoop, paramListsLoop]; exact Rel.diverge
  | n + 1, ps, ps', h => by
    rw [paramListsLoop, paramListsLoop]
    refine Rel.bind (Rel.attempt (rel_parseParamList hE hq h)) ?_
    rintro _ _ (@⟨t, t', ht⟩ | @⟨e, e', he⟩)
    · exact rel_paramListsLoop hE hq n _ _ ht
    · exact Rel.pure h

theorem rel_parseParamLists (hE : ReadOn C R E E') (hq : q → Shown R E E') :
    PRel C R q (AlikeSet R) (parseParamLists E .default) (parseParamLists E' .default) := by
  rw [parseParamLists, parseParamLists]
  refine Rel.bind rel_get ?_
  intro s s' hs
  rw [hs.2.length_eq]
  exact rel_paramListsLoop hE hq _ _ _ alike_default

/-! ### Shapes, floats and paths of related values -/

theorem alike_shapeSpectrum {s : Spectrum F} {s' : Spectrum G} (h : AlikeSpectrum R s s') :
    shapeSpectrum s = shapeSpectrum s' := by
  cases h with
  | samples h => rw [shapeSpectrum, shapeSpectrum, forall₂_map_eq h fun _ _ _ => rfl]
  | _ => rfl

theorem alike_spectrumFloats {s : Spectrum F} {s' : Spectrum G} (h : AlikeSpectrum R s s') :
    Forall₂ R (spectrumFloats s) (spectrumFloats s') := by
  cases h with
  | rgb h h' h'' => exact .cons h (.cons h' (.cons h'' .nil))
  | xyz h h' h'' => exact .cons h (.cons h' (.cons h'' .nil))
  | samples h => exact forall₂_flat h fun _ _ hh => .cons hh.1 (.cons hh.2 .nil)
  | file s => exact .nil
  | blackbody h h' => exact .cons h (.cons h' .nil)

theorem alike_spectrumPaths {s : Spectrum F} {s' : Spectrum G} (h : AlikeSpectrum R s s') :
    spectrumPaths s = spectrumPaths s' := by cases h <;> rfl

theorem alike_shapeParam {S S' U : Type} {A : S → S' → Prop} {f : S → U} {f' : S' → U} {p : Param S}
    {p' : Param S'} (h : AlikeParam A p p') (hf : ∀ a b, A a b → f a = f' b) :
    shapeParam f p = shapeParam f' p' := by
  rw [shapeParam, shapeParam, h.1, h.2.1, forall₂_map_eq h.2.2 hf]

theorem alike_parts {S S' V V' : Type} {A : S → S' → Prop} {B : V → V' → Prop} {f : S → List V} {f' : S' → List V'}
    {l : List (Param S)} {l' : List (Param S')} (h : Forall₂ (AlikeParam A) l l')
    (hf : ∀ a b, A a b → Forall₂ B (f a) (f' b)) : Forall₂ B (paramParts f l) (paramParts f' l') :=
  forall₂_flat h fun _ _ hh => forall₂_flat hh.2.2 hf

theorem alike_shapeSet {s : ParamSet F} {s' : ParamSet G} (h : AlikeSet R s s') : shapeSet s = shapeSet s' := by
  rw [shapeSet, shapeSet, h.bools, h.ints, h.strings, h.textures, h.point3fs.1, h.point3fs.2, h.vector3fs.1,
    h.vector3fs.2, h.normal3fs.1, h.normal3fs.2,
    forall₂_map_eq h.floats fun _ _ hh => alike_shapeParam hh fun _ _ _ => rfl,
    forall₂_map_eq h.point2fs fun _ _ hh => alike_shapeParam hh fun _ _ _ => rfl,
    forall₂_map_eq h.vector2fs fun _ _ hh => alike_shapeParam hh fun _ _ _ => rfl,
    forall₂_map_eq h.spectra fun _ _ hh => alike_shapeParam hh fun _ _ hs => alike_shapeSpectrum hs]
  rfl

theorem alike_setFloats {s : ParamSet F} {s' : ParamSet G} (h : AlikeSet R s s') :
    Forall₂ R (setFloats s) (setFloats s') := by
  rw [setFloats, setFloats, h.point3fs.1, h.point3fs.2, h.vector3fs.1, h.vector3fs.2, h.normal3fs.1,
    h.normal3fs.2]
  refine rel_append (rel_append (rel_append (rel_append (rel_append (rel_append ?_ ?_) ?_) .nil) .nil) .nil) ?_
  · exact alike_parts h.floats fun _ _ hh => .cons hh .nil
  · exact alike_parts h.point2fs fun _ _ hh => .cons hh.1 (.cons hh.2 .nil)
  · exact alike_parts h.vector2fs fun _ _ hh => .cons hh.1 (.cons hh.2 .nil)
  · exact alike_parts h.spectra fun _ _ hh => alike_spectrumFloats hh

theorem alike_setPaths {s : ParamSet F} {s' : ParamSet G} (h : AlikeSet R s s') : setPaths s = setPaths s' :=
  forall₂_flat_eq h.spectra fun _ _ hh => forall₂_flat_eq hh.2.2 fun _ _ hs => alike_spectrumPaths hs

/-- Related directives -/
def AlikeDir (R : F → G → Prop) (d : Directive F) (d' : Directive G) : Prop :=
  shapeDir d = shapeDir d' ∧ Forall₂ R (dirFloats d) (dirFloats d') ∧ dirPaths d = dirPaths d'

theorem alike_dirs {l : List (Directive F)} {l' : List (Directive G)} (h : Forall₂ (AlikeDir R) l l') :
    shapeDirs l = shapeDirs l' ∧ Forall₂ R (dirsFloats l) (dirsFloats l') ∧ dirsPaths l = dirsPaths l' := by
  induction h with
  | nil => exact ⟨rfl, .nil, rfl⟩
  | cons h _ ih =>
    refine ⟨?_, rel_append h.2.1 ih.2.1, ?_⟩
    · rw [shapeDirs, shapeDirs, h.1, ih.1]
    · rw [dirsPaths, dirsPaths, h.2.2, ih.2.2]

/-- Related directives before the world -/
def AlikePre (R : F → G → Prop) (d : PreDirective F) (d' : PreDirective G) : Prop :=
  shapePre d = shapePre d' ∧ Forall₂ R (preFloats d) (preFloats d') ∧ prePaths d = prePaths d'

theorem alike_struct (ty p) {s : ParamSet F} {s' : ParamSet G} (h : AlikeSet R s s') :
    shapeStruct ⟨ty, p, s⟩ = shapeStruct ⟨ty, p, s'⟩ := by
  rw [shapeStruct, shapeStruct, alike_shapeSet h]

/-! ### Directives -/

theorem rel_directives (hE : ReadOn C R E E') (hq : q → Shown R E E') : ∀ fuel,
    PRel C R q (AlikeDir R) (parseDirective E fuel) (parseDirective E' fuel) ∧
    ∀ ds ds', Forall₂ (AlikeDir R) ds ds' →
      PRel C R q (Forall₂ (AlikeDir R)) (directivesLoop E fuel ds) (directivesLoop E' fuel ds')
  | 0 => by
    constructor
    · rw [parseDirective, parseDirective]; exact Rel.diverge
    · intro ds ds' _; rw [directivesLoop, directivesLoop]; exact Rel.diverge
  | n + 1 => by
    obtain ⟨ih1, ih2⟩ := rel_directives hE hq n
    constructor
    · rw [parseDirective, parseDirective]
      refine Rel.bind rel_pos ?_
      rintro p _ rfl
      refine Rel.bind (rel_parseIdentifier hq) ?_
      rintro id _ rfl
      refine Rel.ite ?_ (Rel.ite ?_ (Rel.ite ?_ (Rel.ite ?_ (Rel.ite ?_ (Rel.ite ?_ (Rel.ite ?_ (Rel.ite ?_
        (Rel.ite ?_ (rel_same _)))))))))
      any_goals
        refine Rel.bind (rel_parseString hq) ?_
        rintro ty _ rfl
        refine Rel.bind (rel_parseParamLists hE hq) fun ps ps' h => Rel.pure ⟨?_, alike_setFloats h, alike_setPaths h⟩
        simp only [shapeDir, alike_struct _ _ h]
        done
      any_goals
        refine Rel.bind (ih2 _ _ .nil) fun ds ds' h => ?_
        obtain ⟨h1, h2, h3⟩ := alike_dirs h
        refine Rel.pure ⟨?_, ?_, ?_⟩
        · simp only [shapeDir, h1]
        · simp only [dirFloats]; exact h2
        · simp only [dirPaths]; exact h3
      · refine Rel.bind (rel_parseString hq) ?_
        rintro path _ rfl
        exact Rel.pure ⟨rfl, .nil, rfl⟩
      · refine Rel.bind (rel_parseString hq) ?_
        rintro name _ rfl
        refine Rel.bind (rel_parseString hq) ?_
        rintro ty _ rfl
        refine Rel.bind (rel_parseString hq) ?_
        rintro cls _ rfl
        refine Rel.bind (rel_parseParamLists hE hq) fun ps ps' h => Rel.pure ⟨?_, alike_setFloats h, alike_setPaths h⟩
        simp only [shapeDir, alike_shapeSet h]
    · intro ds ds' h
      rw [directivesLoop, directivesLoop]
      refine Rel.bind rel_peek ?_
      intro t t' ht
      cases ht with
      | identifier p s =>
        refine Rel.ite (Rel.pure h) ?_
        exact Rel.bind ih1 fun d d' hd => ih2 _ _ (rel_append h (.cons hd .nil))
      | str p s hs => exact rel_found hq (.str p s hs) _
      | rbracket p => exact rel_found hq (.rbracket p) _
      | float p x y h => exact rel_found hq (.float p x y h) _
      | int p i => exact rel_found hq (.int p i) _
      | lbracket p => exact rel_found hq (.lbracket p) _

theorem rel_parsePredirective (hE : ReadOn C R E E') (hq : q → Shown R E E') :
    PRel C R q (AlikePre R) (parsePredirective E) (parsePredirective E') := by
  have floats : PRel C R q (Forall₂ R) (parseFloats E) (parseFloats E') := rel_parseMany (rel_parseFloat hE hq) _
  have three {k : F → F → F → PreDirective F} {k' : G → G → G → PreDirective G} {vs vs'} (hv : Forall₂ R vs vs')
      (h : ∀ a b c a' b' c', Forall₂ R [a, b, c] [a', b', c'] → AlikePre R (k a b c) (k' a' b' c')) :
      PRel C R q (AlikePre R)
        (idx vs 0 >>= fun a => idx vs 1 >>= fun b => idx vs 2 >>= fun c => pure (k a b c))
        (idx vs' 0 >>= fun a => idx vs' 1 >>= fun b => idx vs' 2 >>= fun c => pure (k' a b c)) :=
    Rel.bind (rel_idx hv _) fun _ _ ha => Rel.bind (rel_idx hv _) fun _ _ hb =>
      Rel.bind (rel_idx hv _) fun _ _ hc => Rel.pure (h _ _ _ _ _ _ (.cons ha (.cons hb (.cons hc .nil))))
  have nine {k : F → F → F → F → F → F → F → F → F → PreDirective F}
      {k' : G → G → G → G → G → G → G → G → G → PreDirective G} {vs vs'} (hv : Forall₂ R vs vs')
      (h : ∀ a b c d e f g i j a' b' c' d' e' f' g' i' j',
        Forall₂ R [a, b, c, d, e, f, g, i, j] [a', b', c', d', e', f', g', i', j'] →
          AlikePre R (k a b c d e f g i j) (k' a' b' c' d' e' f' g' i' j')) :
      PRel C R q (AlikePre R)
        (idx vs 0 >>= fun a => idx vs 1 >>= fun b => idx vs 2 >>= fun c => idx vs 3 >>= fun d =>
          idx vs 4 >>= fun e => idx vs 5 >>= fun f => idx vs 6 >>= fun g => idx vs 7 >>= fun i =>
          idx vs 8 >>= fun j => pure (k a b c d e f g i j))
        (idx vs' 0 >>= fun a => idx vs' 1 >>= fun b => idx vs' 2 >>= fun c => idx vs' 3 >>= fun d =>
          idx vs' 4 >>= fun e => idx vs' 5 >>= fun f => idx vs' 6 >>= fun g => idx vs' 7 >>= fun i =>
          idx vs' 8 >>= fun j => pure (k' a b c d e f g i j)) :=
    Rel.bind (rel_idx hv _) fun _ _ h0 => Rel.bind (rel_idx hv _) fun _ _ h1 =>
      Rel.bind (rel_idx hv _) fun _ _ h2 => Rel.bind (rel_idx hv _) fun _ _ h3 =>
      Rel.bind (rel_idx hv _) fun _ _ h4 => Rel.bind (rel_idx hv _) fun _ _ h5 =>
      Rel.bind (rel_idx hv _) fun _ _ h6 => Rel.bind (rel_idx hv _) fun _ _ h7 =>
      Rel.bind (rel_idx hv _) fun _ _ h8 => Rel.pure (h _ _ _ _ _ _ _ _ _ _ _ _ _ _ _ _ _ _
        (.cons h0 (.cons h1 (.cons h2 (.cons h3 (.cons h4 (.cons h5 (.cons h6 (.cons h7 (.cons h8 .nil))))))))))
  rw [parsePredirective, parsePredirective]
  refine Rel.bind rel_pos ?_
  rintro p _ rfl
  refine Rel.bind (rel_parseIdentifier hq) ?_
  rintro id _ rfl
  refine Rel.ite (Rel.pure ⟨rfl, .nil, rfl⟩) ?_
  refine Rel.ite ?_ ?_
  · refine Rel.bind floats fun vs vs' hv => ?_
    rw [hv.length_eq]
    exact Rel.ite (rel_same _) (three hv fun _ _ _ _ _ _ h => ⟨rfl, h, rfl⟩)
  refine Rel.ite ?_ ?_
  · refine Rel.bind floats fun vs vs' hv => ?_
    rw [hv.length_eq]
    exact Rel.ite (rel_same _) (three hv fun _ _ _ _ _ _ h => ⟨rfl, h, rfl⟩)
  refine Rel.ite ?_ ?_
  · refine Rel.bind floats fun vs vs' hv => ?_
    rw [hv.length_eq]
    refine Rel.ite (rel_same _) ?_
    exact Rel.bind (rel_idx hv _) fun _ _ h0 => Rel.bind (rel_idx hv _) fun _ _ h1 =>
      Rel.bind (rel_idx hv _) fun _ _ h2 => Rel.bind (rel_idx hv _) fun _ _ h3 =>
      Rel.pure ⟨rfl, .cons h0 (.cons h1 (.cons h2 (.cons h3 .nil))), rfl⟩
  refine Rel.ite ?_ ?_
  · refine Rel.bind floats fun vs vs' hv => ?_
    rw [hv.length_eq]
    exact Rel.ite (rel_same _) (nine hv fun _ _ _ _ _ _ _ _ _ _ _ _ _ _ _ _ _ _ h => ⟨rfl, h, rfl⟩)
  refine Rel.ite ?_ ?_
  · refine Rel.bind (rel_parseString hq) ?_
    rintro s _ rfl
    exact Rel.pure ⟨rfl, .nil, rfl⟩
  refine Rel.ite ?_ ?_
  · refine Rel.bind (rel_parseString hq) ?_
    rintro s _ rfl
    exact Rel.pure ⟨rfl, .nil, rfl⟩
  refine Rel.ite ?_ ?_
  · refine Rel.bind floats fun vs vs' hv => ?_
    rw [hv.length_eq]
    exact Rel.ite (rel_same _) (nine hv fun _ _ _ _ _ _ _ _ _ _ _ _ _ _ _ _ _ _ h => ⟨rfl, h, rfl⟩)
  refine Rel.ite ?_ ?_
  · refine Rel.bind floats fun vs vs' hv => ?_
    rw [hv.length_eq]
    exact Rel.ite (rel_same _) (nine hv fun _ _ _ _ _ _ _ _ _ _ _ _ _ _ _ _ _ _ h => ⟨rfl, h, rfl⟩)
  refine Rel.ite ?_ ?_
  · refine Rel.bind (rel_parseIdentifier hq) ?_
    rintro s _ rfl
    exact Rel.pure ⟨rfl, .nil, rfl⟩
  refine Rel.ite ?_ ?_
  · refine Rel.bind floats fun vs vs' hv => ?_
    rw [hv.length_eq]
    refine Rel.ite (rel_same _) ?_
    exact Rel.bind (rel_idx hv _) fun _ _ h0 => Rel.bind (rel_idx hv _) fun _ _ h1 =>
      Rel.pure ⟨rfl, .cons h0 (.cons h1 .nil), rfl⟩
  refine Rel.ite ?_ (Rel.ite ?_ (Rel.ite ?_ (Rel.ite ?_ (Rel.ite ?_ (Rel.ite ?_ (Rel.ite ?_ (rel_same _)))))))
  any_goals
    refine Rel.bind (rel_parseString hq) ?_
    rintro ty _ rfl
    refine Rel.bind (rel_parseParamLists hE hq) fun ps ps' h => Rel.pure ⟨?_, alike_setFloats h, alike_setPaths h⟩
    simp only [shapePre, alike_struct _ _ h]
    done
  refine Rel.bind (rel_parseString hq) ?_
  rintro s _ rfl
  exact Rel.pure ⟨rfl, .nil, rfl⟩

theorem rel_predirectivesLoop (hE : ReadOn C R E E') (hq : q → Shown R E E') : ∀ fuel ds ds',
    Forall₂ (AlikePre R) ds ds' →
      PRel C R q (Forall₂ (AlikePre R)) (predirectivesLoop E fuel ds) (predirectivesLoop E' fuel ds')
  | 0, _, _, _ => by rw [predirectivesLoop, predirectivesLoop]; exact Rel.diverge
  | n + 1, ds, ds', h => by
    rw [predirectivesLoop, predirectivesLoop]
    refine Rel.bind rel_peek ?_
    intro t t' ht
    cases ht with
    | identifier p s =>
      refine Rel.ite (Rel.pure h) ?_
      exact Rel.bind (rel_parsePredirective hE hq) fun d d' hd =>
        rel_predirectivesLoop hE hq n _ _ (rel_append h (.cons hd .nil))
    | str p s hs => exact rel_found hq (.str p s hs) _
    | rbracket p => exact rel_found hq (.rbracket p) _
    | float p x y h => exact rel_found hq (.float p x y h) _
    | int p i => exact rel_found hq (.int p i) _
    | lbracket p => exact rel_found hq (.lbracket p) _

theorem rel_parseTokens (hE : ReadOn C R E E') (hq : q → Shown R E E') {ts : List (Token F)}
    {ts' : List (Token G)} (h : Forall₂ (TokenOn C R) ts ts') :
    AlikeOutcome (AlikeError q) (AlikeScene R) (parseTokens E ts) (parseTokens E' ts') := by
  rw [parseTokens, parseTokens, parseFuel, parseFuel, h.length_eq]
  have : PRel C R q (AlikeScene R) (parseTokensFuel E (2 * ts'.length + 2)) (parseTokensFuel E' (2 * ts'.length + 2)) := by
    rw [parseTokensFuel, parseTokensFuel]
    refine Rel.bind (rel_predirectivesLoop hE hq _ _ _ .nil) fun pre pre' hp => ?_
    refine Rel.bind (rel_directives hE hq _).1 fun w w' hw => Rel.pure ⟨?_, ?_, ?_⟩
    · rw [shapeScene, shapeScene, hw.1, forall₂_map_eq hp fun _ _ h => h.1]
    · exact rel_append (forall₂_flat hp fun _ _ h => h.2.1) hw.2.1
    · rw [scenePaths, scenePaths, hw.2.2, forall₂_flat_eq hp fun _ _ h => h.2.2]
  exact (this _ _ ⟨rfl, h⟩).1

theorem rel_parse (hE : AlikeOn C R E E') {text : List Char} (ht : ∀ c ∈ text, C c) :
    AlikeOutcome (AlikeError (Shown R E E')) (AlikeScene R) (parse E text) (parse E' text) := by
  rw [parse, parse]
  have := rel_tokenize hE (Shown R E E') ht
  generalize tokenize E text = x at this
  generalize tokenize E' text = y at this
  cases this with
  | ok ts ts' h => exact rel_parseTokens hE.read id h
  | err e e' h =>
    refine .err _ _ ?_
    cases h with
    | str m m' h => exact .str _ _ h
    | eof => exact .eof
  | panic => exact .panic
  | diverge => exact .diverge

end Pbrt.Proof.FloatType
