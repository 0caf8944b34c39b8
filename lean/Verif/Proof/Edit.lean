import Verif.Proof.FloatTypeParser
import Verif.Proof.ParseParam
import Verif.Spec.Edit

/-!
# Editing the values of a scene: the parser
-/

namespace Pbrt.Proof.Edit

open Pbrt.Spec List Pbrt.Proof.FloatType

variable {F : Type} {C : Change F} {E : Env F}

/-- The token and its position at once -/
inductive Tok (C : Change F) (E : Env F) : Token F → Token F → Prop
  | identifier {p p'} (hp : C.pos p p') (s) : Tok C E ⟨p, .Identifier s⟩ ⟨p', .Identifier s⟩
  | int {p p'} (hp : C.pos p p') (i j) (h : C.int i j) : Tok C E ⟨p, .Int i⟩ ⟨p', .Int j⟩
  | float {p p'} (hp : C.pos p p') (x y) (h : C.float x y) : Tok C E ⟨p, .Float x⟩ ⟨p', .Float y⟩
  | str {p p'} (hp : C.pos p p') (s t) (h : EditStr C E s t) : Tok C E ⟨p, .Str s⟩ ⟨p', .Str t⟩
  | lbracket {p p'} (hp : C.pos p p') : Tok C E ⟨p, .LBracket⟩ ⟨p', .LBracket⟩
  | rbracket {p p'} (hp : C.pos p p') : Tok C E ⟨p, .RBracket⟩ ⟨p', .RBracket⟩

theorem tok {t t' : Token F} (h : EditToken C E t t') : Tok C E t t' := by
  obtain ⟨p, ty⟩ := t
  obtain ⟨p', ty'⟩ := t'
  obtain ⟨hp, h⟩ := h
  cases h with
  | identifier s => exact .identifier hp s
  | int i j h => exact .int hp i j h
  | float x y h => exact .float hp x y h
  | str s t h => exact .str hp s t h
  | lbracket => exact .lbracket hp
  | rbracket => exact .rbracket hp

/-! ### States and reads -/

/-- The parser before and after -/
def EState (C : Change F) (E : Env F) (s s' : Parser F) : Prop :=
  s.index = s'.index ∧ Forall₂ (Tok C E) s.tokens s'.tokens

/-- Parser functions before and after; messages are not compared. -/
abbrev ERel {α α' : Type} (C : Change F) (E : Env F) (A : α → α' → Prop) (x : PM F α) (y : PM F α') : Prop :=
  Rel (EState C E) (AlikeError False) A x y

theorem ed_peek : ERel C E (Tok C E) peek peek := by
  rintro ⟨ts, i⟩ ⟨ts', _⟩ ⟨rfl, h⟩
  by_cases hc : i ≥ ts.length
  · simp only [peek, Parser.isEmpty, ← h.length_eq, hc, decide_true]
    exact ⟨.err _ _ .eof, rfl, h⟩
  · simp only [peek, Parser.isEmpty, ← h.length_eq, hc, decide_false]
    rcases forall₂_at h i with ⟨h1, h2⟩ | ⟨a, b, h1, h2, h3⟩
    · rw [h1, h2]; exact ⟨.panic, rfl, h⟩
    · rw [h1, h2]; exact ⟨.ok _ _ h3, rfl, h⟩

theorem ed_next : ERel C E (Tok C E) next next := by
  rintro ⟨ts, i⟩ ⟨ts', _⟩ ⟨rfl, h⟩
  by_cases hc : i ≥ ts.length
  · simp only [next, Parser.isEmpty, ← h.length_eq, hc, decide_true]
    exact ⟨.err _ _ .eof, rfl, h⟩
  · simp only [next, Parser.isEmpty, ← h.length_eq, hc, decide_false]
    rcases forall₂_at h i with ⟨h1, h2⟩ | ⟨a, b, h1, h2, h3⟩
    · rw [h1, h2]; exact ⟨.panic, rfl, h⟩
    · rw [h1, h2]; exact ⟨.ok _ _ h3, rfl, h⟩

theorem tok_pos {t t' : Token F} (h : Tok C E t t') : C.pos t.pos t'.pos := by cases h <;> assumption

theorem ed_pos : ERel C E C.pos (pos (F := F)) (pos (F := F)) := by
  rintro ⟨ts, i⟩ ⟨ts', _⟩ ⟨rfl, h⟩
  by_cases hc : i ≥ ts.length
  · simp only [pos, ← h.length_eq, hc, if_true]
    exact ⟨.err _ _ .eof, rfl, h⟩
  · simp only [pos, ← h.length_eq, hc, if_false]
    rcases forall₂_at h i with ⟨h1, h2⟩ | ⟨a, b, h1, h2, h3⟩
    · rw [h1, h2]; exact ⟨.panic, rfl, h⟩
    · rw [h1, h2]; exact ⟨.ok _ _ (tok_pos h3), rfl, h⟩

theorem ed_setIndex (i) : ERel C E Eq (setIndex (F := F) i) (setIndex (F := F) i) := by
  rintro ⟨ts, j⟩ ⟨ts', _⟩ ⟨rfl, h⟩
  exact ⟨.ok _ _ rfl, rfl, h⟩

theorem ed_getIndex : ERel C E Eq (getIndex (F := F)) (getIndex (F := F)) := by
  rintro ⟨ts, j⟩ ⟨ts', _⟩ ⟨rfl, h⟩
  exact ⟨.ok _ _ rfl, rfl, h⟩

theorem ed_get : ERel C E (EState C E) M.get M.get := fun _ _ h => ⟨.ok _ _ h, h⟩

theorem ed_idx {α α' : Type} {A : α → α' → Prop} {l : List α} {l' : List α'} (h : Forall₂ A l l') (i) :
    ERel C E A (idx (F := F) l i) (idx (F := F) l' i) := by
  rw [idx, idx]
  rcases forall₂_at h i with ⟨h1, h2⟩ | ⟨a, b, h1, h2, h3⟩
  · rw [h1, h2]; exact Rel.panic
  · rw [h1, h2]; exact Rel.pure h3

/-- Two messages -/
theorem ed_msg {α α' : Type} {A : α → α' → Prop} (s s' : String) :
    ERel C E A (M.throw (.Str s)) (M.throw (.Str s')) := Rel.throw (.str _ _ False.elim)

/-! ### Values -/

theorem ed_parseInt :
    ERel C E C.int (parseInt E) (parseInt E) := by
  rw [parseInt]
  refine Rel.bind (Rel.attempt ed_peek) ?_
  rintro _ _ (@⟨t, t', ht⟩ | @⟨e, e', he⟩)
  · cases ht with
    | int hp i j h => exact Rel.bind (Rel.attempt ed_next) fun _ _ _ => Rel.pure h
    | identifier hp s => exact ed_msg _ _
    | float hp x y h => exact ed_msg _ _
    | str hp s t h => exact ed_msg _ _
    | lbracket hp => exact ed_msg _ _
    | rbracket hp => exact ed_msg _ _
  · cases he with
    | str m m' h => exact ed_msg _ _
    | eof => exact ed_msg _ _

theorem ed_parseString :
    ERel C E (EditStr C E) (parseString E) (parseString E) := by
  rw [parseString]
  refine Rel.bind (Rel.attempt ed_peek) ?_
  rintro _ _ (@⟨t, t', ht⟩ | @⟨e, e', he⟩)
  · cases ht with
    | str hp s t h => exact Rel.bind (Rel.attempt ed_next) fun _ _ _ => Rel.pure h
    | identifier hp s => exact ed_msg _ _
    | float hp x y h => exact ed_msg _ _
    | int hp i j h => exact ed_msg _ _
    | lbracket hp => exact ed_msg _ _
    | rbracket hp => exact ed_msg _ _
  · cases he with
    | str m m' h => exact ed_msg _ _
    | eof => exact ed_msg _ _

theorem ed_parseIdentifier :
    ERel C E Eq (parseIdentifier E) (parseIdentifier E) := by
  rw [parseIdentifier]
  refine Rel.bind (Rel.attempt ed_peek) ?_
  rintro _ _ (@⟨t, t', ht⟩ | @⟨e, e', he⟩)
  · cases ht with
    | identifier hp s => exact Rel.bind (Rel.attempt ed_next) fun _ _ _ => Rel.pure rfl
    | str hp s t h => exact ed_msg _ _
    | float hp x y h => exact ed_msg _ _
    | int hp i j h => exact ed_msg _ _
    | lbracket hp => exact ed_msg _ _
    | rbracket hp => exact ed_msg _ _
  · cases he with
    | str m m' h => exact ed_msg _ _
    | eof => exact ed_msg _ _

theorem ed_parseBool :
    ERel C E Eq (parseBool E) (parseBool E) := by
  rw [parseBool]
  refine Rel.bind (Rel.attempt ed_peek) ?_
  rintro _ _ (@⟨t, t', ht⟩ | @⟨e, e', he⟩)
  · cases ht with
    | str hp s t h =>
      rcases h with rfl | ⟨hs, ht, _⟩
      · refine Rel.ite ?_ (Rel.ite ?_ ?_)
        · exact Rel.bind ed_next fun _ _ _ => Rel.pure rfl
        · exact Rel.bind ed_next fun _ _ _ => Rel.pure rfl
        · exact ed_msg _ _
      · simp only [hs.1, hs.2.1, ht.1, ht.2.1, if_false]
        exact ed_msg _ _
    | identifier hp s => exact ed_msg _ _
    | float hp x y h => exact ed_msg _ _
    | int hp i j h => exact ed_msg _ _
    | lbracket hp => exact ed_msg _ _
    | rbracket hp => exact ed_msg _ _
  · cases he with
    | str m m' h => exact ed_msg _ _
    | eof => exact ed_msg _ _

theorem ed_parseFloat (hE : C.Fits E) :
    ERel C E C.float (parseFloat E) (parseFloat E) := by
  rw [parseFloat]
  refine Rel.bind (Rel.attempt ed_peek) ?_
  rintro _ _ (@⟨t, t', ht⟩ | @⟨e, e', he⟩)
  · cases ht with
    | float hp x y h => exact Rel.bind ed_next fun _ _ _ => Rel.pure h
    | int hp i j h => exact Rel.bind ed_next fun _ _ _ => Rel.pure (hE _ _ h)
    | str hp s t h => exact ed_msg _ _
    | identifier hp s => exact ed_msg _ _
    | lbracket hp => exact ed_msg _ _
    | rbracket hp => exact ed_msg _ _
  · cases he with
    | str m m' h => exact ed_msg _ _
    | eof => exact ed_msg _ _

/-! ### Lists of values -/

section
variable {α α' : Type} {A : α → α' → Prop} {x : PM F α} {y : PM F α'}

theorem ed_parseManyLoop (h : ERel C E A x y) (name) : ∀ fuel vs vs', Forall₂ A vs vs' →
    ERel C E (Forall₂ A) (parseManyLoop x name fuel vs) (parseManyLoop y name fuel vs')
  | 0, _, _, _ => by rw [parseManyLoop, parseManyLoop]; exact Rel.diverge
  | n + 1, vs, vs', hv => by
    have ih := ed_parseManyLoop h name n
    rw [parseManyLoop, parseManyLoop]
    refine Rel.bind (Rel.attempt h) ?_
    rintro _ _ (@⟨t, t', ht⟩ | @⟨e, e', he⟩)
    · exact ih _ _ (rel_append hv (.cons ht .nil))
    · simp only [forall₂_isNil hv]
      exact Rel.ite (ed_msg _ _) (Rel.pure hv)

theorem ed_parseMany (h : ERel C E A x y) (name) :
    ERel C E (Forall₂ A) (parseMany x name) (parseMany y name) := by
  rw [parseMany, parseMany]
  refine Rel.bind ed_get ?_
  intro s s' hs
  rw [hs.2.length_eq]
  exact ed_parseManyLoop h name _ _ _ .nil

theorem ed_parseNLoop (hE : C.Fits E) (h : ERel C E A x y) (n name si) : ∀ k vs vs', Forall₂ A vs vs' →
    ERel C E (Forall₂ A) (parseNLoop E x n name si k vs) (parseNLoop E y n name si k vs')
  | 0, _, _, hv => by rw [parseNLoop, parseNLoop]; exact Rel.pure hv
  | k + 1, vs, vs', hv => by
    have ih := ed_parseNLoop hE h n name si k
    rw [parseNLoop, parseNLoop]
    refine Rel.bind (Rel.attempt h) ?_
    rintro _ _ (@⟨t, t', ht⟩ | @⟨e, e', he⟩)
    · exact ih _ _ (rel_append hv (.cons ht .nil))
    · refine Rel.bind (ed_setIndex _) fun _ _ _ => ?_
      exact ed_msg _ _

theorem ed_parseN (hE : C.Fits E) (h : ERel C E A x y) (n name) :
    ERel C E (Forall₂ A) (parseN E x n name) (parseN E y n name) := by
  rw [parseN, parseN]
  refine Rel.ite ?_ Rel.panic
  refine Rel.bind ed_getIndex ?_
  rintro i _ rfl
  exact ed_parseNLoop hE h _ _ _ _ _ _ .nil

theorem ed_parseList (h : ERel C E A x y) (name) :
    ERel C E (Forall₂ A) (parseList E x name) (parseList E y name) := by
  rw [parseList, parseList]
  refine Rel.bind (Rel.attempt ed_peek) ?_
  rintro _ _ (@⟨t, t', ht⟩ | @⟨e, e', he⟩)
  · cases ht with
    | lbracket hp =>
      refine Rel.bind (Rel.attempt ed_next) fun _ _ _ => ?_
      refine Rel.bind (ed_parseMany h _) fun vs vs' hv => ?_
      refine Rel.bind (Rel.attempt ed_peek) ?_
      rintro _ _ (@⟨t, t', ht⟩ | @⟨e, e', he⟩)
      · cases ht with
        | rbracket hp =>
          simp only [forall₂_isNil hv]
          refine Rel.ite (ed_msg _ _) ?_
          exact Rel.bind ed_next fun _ _ _ => Rel.pure hv
        | float hp x y h =>
          exact ed_msg _ _
        | int hp i j h => exact ed_msg _ _
        | str hp s t h =>
          exact ed_msg _ _
        | identifier hp s =>
          exact ed_msg _ _
        | lbracket hp => exact ed_msg _ _
      · cases he with
        | str m m' h => exact ed_msg _ _
        | eof => exact ed_msg _ _
    | rbracket hp => exact ed_msg _ _
    | float hp x y h =>
      exact ed_msg _ _
    | int hp i j h => exact ed_msg _ _
    | str hp s t h =>
      exact ed_msg _ _
    | identifier hp s =>
      exact ed_msg _ _
  · cases he with
    | str m m' h => exact ed_msg _ _
    | eof => exact ed_msg _ _

theorem ed_parseListOfN (hE : C.Fits E) (h : ERel C E A x y) (n name) :
    ERel C E (Forall₂ A) (parseListOfN E x n name) (parseListOfN E y n name) := by
  rw [parseListOfN, parseListOfN]
  refine Rel.bind (Rel.attempt ed_peek) ?_
  rintro _ _ (@⟨t, t', ht⟩ | @⟨e, e', he⟩)
  · cases ht with
    | lbracket hp =>
      refine Rel.bind (Rel.attempt ed_next) fun _ _ _ => ?_
      refine Rel.bind (ed_parseN hE h _ _) fun vs vs' hv => ?_
      refine Rel.bind (Rel.attempt ed_peek) ?_
      rintro _ _ (@⟨t, t', ht⟩ | @⟨e, e', he⟩)
      · cases ht with
        | rbracket hp =>
          simp only [forall₂_isNil hv]
          refine Rel.ite (ed_msg _ _) ?_
          exact Rel.bind ed_next fun _ _ _ => Rel.pure hv
        | float hp x y h =>
          exact ed_msg _ _
        | int hp i j h => exact ed_msg _ _
        | str hp s t h =>
          exact ed_msg _ _
        | identifier hp s =>
          exact ed_msg _ _
        | lbracket hp => exact ed_msg _ _
      · cases he with
        | str m m' h => exact ed_msg _ _
        | eof => exact ed_msg _ _
    | rbracket hp => exact ed_msg _ _
    | float hp x y h =>
      exact ed_msg _ _
    | int hp i j h => exact ed_msg _ _
    | str hp s t h =>
      exact ed_msg _ _
    | identifier hp s =>
      exact ed_msg _ _
  · cases he with
    | str m m' h => exact ed_msg _ _
    | eof => exact ed_msg _ _

theorem ed_parseOneOrList (h : ERel C E A x y) (name) :
    ERel C E (Forall₂ A) (parseOneOrList E x name) (parseOneOrList E y name) := by
  have one : ERel C E (Forall₂ A) (x >>= fun v => pure [v]) (y >>= fun v => pure [v]) :=
    Rel.bind h fun _ _ hv => Rel.pure (.cons hv .nil)
  rw [parseOneOrList, parseOneOrList]
  refine Rel.bind (Rel.attempt ed_peek) ?_
  rintro _ _ (@⟨t, t', ht⟩ | @⟨e, e', he⟩)
  · cases ht with
    | lbracket hp => exact ed_parseList h _
    | rbracket hp => exact one
    | float hp x y h => exact one
    | int hp i j h => exact one
    | str hp s t h => exact one
    | identifier hp s => exact one
  · cases he with
    | str m m' h => exact ed_msg _ _
    | eof => exact ed_msg _ _

end

theorem ed_parsePoint2f (hE : C.Fits E) :
    ERel C E (fun p p' => C.float p.x p'.x ∧ C.float p.y p'.y) (parsePoint2f E) (parsePoint2f E) := by
  rw [parsePoint2f]
  refine Rel.bind (ed_parseN hE (ed_parseFloat hE) _ _) fun vs vs' hv => ?_
  refine Rel.bind (ed_idx hv _) fun a a' ha => Rel.bind (ed_idx hv _) fun b b' hb => ?_
  exact Rel.pure ⟨ha, hb⟩

theorem ed_parseVector2f (hE : C.Fits E) :
    ERel C E (fun p p' => C.float p.x p'.x ∧ C.float p.y p'.y) (parseVector2f E) (parseVector2f E) := by
  rw [parseVector2f]
  refine Rel.bind (ed_parseN hE (ed_parseFloat hE) _ _) fun vs vs' hv => ?_
  refine Rel.bind (ed_idx hv _) fun a a' ha => Rel.bind (ed_idx hv _) fun b b' hb => ?_
  exact Rel.pure ⟨ha, hb⟩

/-! ### Spectra and parameters -/

theorem ed_chunks2 : ∀ l l', Forall₂ C.float l l' →
    ERel C E (Forall₂ fun s s' => C.float s.1 s'.1 ∧ C.float s.2 s'.2) (chunks2 (F := F) l) (chunks2 (F := F) l')
  | _, _, .nil => by rw [chunks2]; exact Rel.pure .nil
  | _, _, .cons _ .nil => by rw [chunks2, chunks2]; exact Rel.panic
  | _, _, .cons h (.cons h' t) => by
    rw [chunks2, chunks2]
    exact Rel.bind (ed_chunks2 _ _ t) fun _ _ hr => Rel.pure (.cons ⟨h, h'⟩ hr)

theorem ed_parseSpectrum (hE : C.Fits E) :
    ERel C E (EditSpectrum C E) (parseSpectrum E) (parseSpectrum E) := by
  rw [parseSpectrum]
  refine Rel.bind (Rel.attempt ed_peek) ?_
  rintro _ _ (@⟨t, t', ht⟩ | @⟨e, e', he⟩)
  · cases ht with
    | lbracket hp =>
      refine Rel.bind (ed_parseList (ed_parseFloat hE) _) fun vs vs' hv => ?_
      rw [hv.length_eq]
      refine Rel.ite (ed_msg _ _) ?_
      exact Rel.bind (ed_chunks2 _ _ hv) fun _ _ h => Rel.pure (.samples h)
    | rbracket hp => exact ed_msg _ _
    | float hp x y h => exact ed_msg _ _
    | int hp i j h => exact ed_msg _ _
    | str hp s t h => exact Rel.bind ed_next fun _ _ _ => Rel.pure (.file h)
    | identifier hp s => exact ed_msg _ _
  · cases he with
    | str m m' h => exact ed_msg _ _
    | eof => exact ed_msg _ _

theorem ed_default : EditSet C E (.default : ParamSet F) (.default : ParamSet F) where
  bools := .nil
  ints := .nil
  floats := .nil
  point2fs := .nil
  vector2fs := .nil
  point3fs := ⟨rfl, rfl⟩
  vector3fs := ⟨rfl, rfl⟩
  normal3fs := ⟨rfl, rfl⟩
  spectra := .nil
  strings := .nil
  textures := .nil

theorem ed_add {S : Type} {A : S → S → Prop} {l l' : List (Param S)}
    (h : Forall₂ (EditParam C A) l l') (n) {p p'} (hp : C.pos p p') {vs vs'} (hv : Forall₂ A vs vs') :
    Forall₂ (EditParam C A) (l ++ [⟨n, p, vs⟩]) (l' ++ [⟨n, p', vs'⟩]) :=
  rel_append h (.cons ⟨rfl, hp, hv⟩ .nil)

theorem ed_parseParamList (hE : C.Fits E) {ps : ParamSet F} {ps' : ParamSet F}
    (h : EditSet C E ps ps') : ERel C E (EditSet C E) (parseParamList E ps) (parseParamList E ps') := by
  rw [parseParamList, parseParamList]
  refine Rel.bind (Rel.attempt ed_peek) ?_
  rintro _ _ (@⟨t, t', ht⟩ | @⟨e, e', he⟩)
  · cases ht with
    | str hp s t hst =>
      rcases hst with rfl | ⟨hs, ht, _⟩
      swap
      · have two {s : String} (hs : PlainStr E s) : (splitWhitespace E s).length ≠ 2 := fun h => by
          match hw : splitWhitespace E s, h with
          | [a, b], _ => exact hs.2.2 a b ((splitWhitespace_two E s a b).1 hw)
        simp only [two hs, two ht, if_true, ne_eq, not_false_eq_true]
        exact ed_msg _ _
      refine Rel.ite (ed_msg _ _) ?_
      generalize splitWhitespace E s = ws
      have hw : Forall₂ Eq ws ws := forall₂_same.mpr fun _ _ => rfl
      refine Rel.bind (ed_idx hw _) ?_
      rintro ty _ rfl
      refine Rel.bind (ed_idx hw _) ?_
      rintro var _ rfl
      refine Rel.ite ?_ (Rel.ite ?_ (Rel.ite ?_ (Rel.ite ?_ (Rel.ite ?_ (Rel.ite ?_ (Rel.ite ?_ (Rel.ite ?_
        (Rel.ite ?_ (Rel.ite ?_ (Rel.ite ?_ (ed_msg _ _)))))))))))
      · refine Rel.bind ed_next fun _ _ _ => ?_
        refine Rel.bind (ed_parseOneOrList (ed_parseInt) _) fun v v' hv => ?_
        exact Rel.pure { h with ints := ed_add h.ints _ hp hv }
      · refine Rel.bind ed_next fun _ _ _ => ?_
        refine Rel.bind (ed_parseOneOrList (ed_parseFloat hE) _) fun v v' hv => ?_
        exact Rel.pure { h with floats := ed_add h.floats _ hp hv }
      · refine Rel.bind ed_next fun _ _ _ => ?_
        refine Rel.bind (ed_parseList (ed_parsePoint2f hE) _) fun v v' hv => ?_
        exact Rel.pure { h with point2fs := ed_add h.point2fs _ hp hv }
      · refine Rel.bind ed_next fun _ _ _ => ?_
        refine Rel.bind (ed_parseList (ed_parseVector2f hE) _) fun v v' hv => ?_
        exact Rel.pure { h with vector2fs := ed_add h.vector2fs _ hp hv }
      · refine Rel.bind ed_next fun _ _ _ => ?_
        refine Rel.bind (ed_parseOneOrList (ed_parseBool) _) fun v v' hv => ?_
        exact Rel.pure { h with bools := ed_add h.bools _ hp hv }
      · refine Rel.bind ed_next fun _ _ _ => ?_
        refine Rel.bind (ed_parseOneOrList (ed_parseString) _) fun v v' hv => ?_
        exact Rel.pure { h with strings := ed_add h.strings _ hp hv }
      · refine Rel.bind ed_next fun _ _ _ => ?_
        refine Rel.bind (ed_parseListOfN hE (ed_parseFloat hE) _ _) fun v v' hv => ?_
        refine Rel.bind (ed_idx hv _) fun a a' ha => Rel.bind (ed_idx hv _) fun b b' hb =>
          Rel.bind (ed_idx hv _) fun c c' hc => ?_
        exact Rel.pure { h with spectra := ed_add h.spectra _ hp (.cons (.rgb ha hb hc) .nil) }
      · refine Rel.bind ed_next fun _ _ _ => ?_
        refine Rel.bind (ed_parseListOfN hE (ed_parseFloat hE) _ _) fun v v' hv => ?_
        refine Rel.bind (ed_idx hv _) fun a a' ha => Rel.bind (ed_idx hv _) fun b b' hb =>
          Rel.bind (ed_idx hv _) fun c c' hc => ?_
        exact Rel.pure { h with spectra := ed_add h.spectra _ hp (.cons (.xyz ha hb hc) .nil) }
      · refine Rel.bind ed_next fun _ _ _ => ?_
        refine Rel.bind (ed_parseSpectrum hE) fun v v' hv => ?_
        exact Rel.pure { h with spectra := ed_add h.spectra _ hp (.cons hv .nil) }
      · refine Rel.bind ed_next fun _ _ _ => ?_
        refine Rel.bind (ed_parseListOfN hE (ed_parseFloat hE) _ _) fun v v' hv => ?_
        refine Rel.bind (ed_idx hv _) fun a a' ha => Rel.bind (ed_idx hv _) fun b b' hb => ?_
        exact Rel.pure { h with spectra := ed_add h.spectra _ hp (.cons (.blackbody ha hb) .nil) }
      · refine Rel.bind ed_next fun _ _ _ => ?_
        refine Rel.bind (ed_parseString) fun v v' hv => ?_
        exact Rel.pure { h with textures := ed_add h.textures _ hp (.cons hv .nil) }
    | rbracket hp => exact ed_msg _ _
    | float hp x y h => exact ed_msg _ _
    | int hp i j h => exact ed_msg _ _
    | lbracket hp => exact ed_msg _ _
    | identifier hp s => exact ed_msg _ _
  · cases he with
    | str m m' h => exact ed_msg _ _
    | eof => exact ed_msg _ _

theorem ed_paramListsLoop (hE : C.Fits E) : ∀ fuel ps ps', EditSet C E ps ps' →
    ERel C E (EditSet C E) (paramListsLoop E fuel ps) (paramListsLoop E fuel ps')
  | 0, _, _, _ => by rw [paramListsLoop, paramListsLoop]; exact Rel.diverge
  | n + 1, ps, ps', h => by
    rw [paramListsLoop, paramListsLoop]
    refine Rel.bind (Rel.attempt (ed_parseParamList hE h)) ?_
    rintro _ _ (@⟨t, t', ht⟩ | @⟨e, e', he⟩)
    · exact ed_paramListsLoop hE n _ _ ht
    · exact Rel.pure h

theorem ed_parseParamLists (hE : C.Fits E) :
    ERel C E (EditSet C E) (parseParamLists E .default) (parseParamLists E .default) := by
  rw [parseParamLists]
  refine Rel.bind ed_get ?_
  intro s s' hs
  rw [hs.2.length_eq]
  exact ed_paramListsLoop hE _ _ _ ed_default

/-! ### Directives -/

theorem ed_directives (hE : C.Fits E) : ∀ fuel,
    ERel C E (EditDir C E) (parseDirective E fuel) (parseDirective E fuel) ∧
    ∀ ds ds', Forall₂ (EditDir C E) ds ds' →
      ERel C E (Forall₂ (EditDir C E)) (directivesLoop E fuel ds) (directivesLoop E fuel ds')
  | 0 => by
    constructor
    · rw [parseDirective]; exact Rel.diverge
    · intro ds ds' _; rw [directivesLoop, directivesLoop]; exact Rel.diverge
  | n + 1 => by
    obtain ⟨ih1, ih2⟩ := ed_directives hE n
    have typed {k : DirectiveStruct F → Directive F} {p p'} (hp : C.pos p p')
        (hk : ∀ d d', EditStruct C E d d' → EditDir C E (k d) (k d')) :
        ERel C E (EditDir C E)
          (parseString E >>= fun ty => parseParamLists E .default >>= fun ps => pure (k ⟨ty, p, ps⟩))
          (parseString E >>= fun ty => parseParamLists E .default >>= fun ps => pure (k ⟨ty, p', ps⟩)) :=
      Rel.bind (ed_parseString) fun ty ty' hty =>
        Rel.bind (ed_parseParamLists hE) fun ps ps' h => Rel.pure (hk _ _ ⟨hty, hp, h⟩)
    constructor
    · rw [parseDirective]
      refine Rel.bind ed_pos fun p p' hp => ?_
      refine Rel.bind (ed_parseIdentifier) ?_
      rintro id _ rfl
      refine Rel.ite ?_ (Rel.ite ?_ (Rel.ite ?_ (Rel.ite ?_ (Rel.ite ?_ (Rel.ite ?_ (Rel.ite ?_ (Rel.ite ?_
        (Rel.ite ?_ (ed_msg _ _)))))))))
      · exact typed hp fun _ _ => .material
      · exact typed hp fun _ _ => .shape
      · exact typed hp fun _ _ => .lightSource
      · exact typed hp fun _ _ => .areaLightSource
      · exact Rel.bind (ih2 _ _ .nil) fun ds ds' h => Rel.pure (.attribute hp h)
      · exact Rel.bind (ih2 _ _ .nil) fun ds ds' h => Rel.pure (.transform hp h)
      · exact Rel.bind (ih2 _ _ .nil) fun ds ds' h => Rel.pure (.world hp h)
      · exact Rel.bind (ed_parseString) fun s s' h => Rel.pure (.incl hp h)
      · exact Rel.bind (ed_parseString) fun s s' hn => Rel.bind (ed_parseString) fun _ _ ht =>
          Rel.bind (ed_parseString) fun _ _ hc =>
          Rel.bind (ed_parseParamLists hE) fun _ _ h => Rel.pure (.texture hn ht hc hp h)
    · intro ds ds' h
      rw [directivesLoop, directivesLoop]
      refine Rel.bind ed_peek ?_
      intro t t' ht
      cases ht with
      | identifier hp s =>
        refine Rel.ite (Rel.pure h) ?_
        exact Rel.bind ih1 fun d d' hd => ih2 _ _ (rel_append h (.cons hd .nil))
      | str hp s t h => exact ed_msg _ _
      | rbracket hp => exact ed_msg _ _
      | float hp x y h => exact ed_msg _ _
      | int hp i j h => exact ed_msg _ _
      | lbracket hp => exact ed_msg _ _

theorem ed_parsePredirective (hE : C.Fits E) :
    ERel C E (EditPre C E) (parsePredirective E) (parsePredirective E) := by
  have floats : ERel C E (Forall₂ C.float) (parseFloats E) (parseFloats E) := ed_parseMany (ed_parseFloat hE) _
  have typed {k : DirectiveStruct F → PreDirective F} {p p'} (hp : C.pos p p')
      (hk : ∀ d d', EditStruct C E d d' → EditPre C E (k d) (k d')) :
      ERel C E (EditPre C E)
        (parseString E >>= fun ty => parseParamLists E .default >>= fun ps => pure (k ⟨ty, p, ps⟩))
        (parseString E >>= fun ty => parseParamLists E .default >>= fun ps => pure (k ⟨ty, p', ps⟩)) :=
    Rel.bind (ed_parseString) fun ty ty' hty =>
      Rel.bind (ed_parseParamLists hE) fun ps ps' h => Rel.pure (hk _ _ ⟨hty, hp, h⟩)
  have three {k k' : F → F → F → PreDirective F} {vs vs'} (hv : Forall₂ C.float vs vs')
      (h : ∀ a b c a' b' c', EditThree C ⟨a, b, c⟩ ⟨a', b', c'⟩ → EditPre C E (k a b c) (k' a' b' c')) :
      ERel C E (EditPre C E)
        (idx vs 0 >>= fun a => idx vs 1 >>= fun b => idx vs 2 >>= fun c => pure (k a b c))
        (idx vs' 0 >>= fun a => idx vs' 1 >>= fun b => idx vs' 2 >>= fun c => pure (k' a b c)) :=
    Rel.bind (ed_idx hv _) fun _ _ ha => Rel.bind (ed_idx hv _) fun _ _ hb =>
      Rel.bind (ed_idx hv _) fun _ _ hc => Rel.pure (h _ _ _ _ _ _ (.cons ha (.cons hb (.cons hc .nil))))
  have nine {k k' : F → F → F → F → F → F → F → F → F → PreDirective F} {vs vs'} (hv : Forall₂ C.float vs vs')
      (h : ∀ a b c d e f g i j a' b' c' d' e' f' g' i' j',
        EditNine C ⟨a, b, c, d, e, f, g, i, j⟩ ⟨a', b', c', d', e', f', g', i', j'⟩ →
          EditPre C E (k a b c d e f g i j) (k' a' b' c' d' e' f' g' i' j')) :
      ERel C E (EditPre C E)
        (idx vs 0 >>= fun a => idx vs 1 >>= fun b => idx vs 2 >>= fun c => idx vs 3 >>= fun d =>
          idx vs 4 >>= fun e => idx vs 5 >>= fun f => idx vs 6 >>= fun g => idx vs 7 >>= fun i =>
          idx vs 8 >>= fun j => pure (k a b c d e f g i j))
        (idx vs' 0 >>= fun a => idx vs' 1 >>= fun b => idx vs' 2 >>= fun c => idx vs' 3 >>= fun d =>
          idx vs' 4 >>= fun e => idx vs' 5 >>= fun f => idx vs' 6 >>= fun g => idx vs' 7 >>= fun i =>
          idx vs' 8 >>= fun j => pure (k' a b c d e f g i j)) :=
    Rel.bind (ed_idx hv _) fun _ _ h0 => Rel.bind (ed_idx hv _) fun _ _ h1 =>
      Rel.bind (ed_idx hv _) fun _ _ h2 => Rel.bind (ed_idx hv _) fun _ _ h3 =>
      Rel.bind (ed_idx hv _) fun _ _ h4 => Rel.bind (ed_idx hv _) fun _ _ h5 =>
      Rel.bind (ed_idx hv _) fun _ _ h6 => Rel.bind (ed_idx hv _) fun _ _ h7 =>
      Rel.bind (ed_idx hv _) fun _ _ h8 => Rel.pure (h _ _ _ _ _ _ _ _ _ _ _ _ _ _ _ _ _ _
        (.cons h0 (.cons h1 (.cons h2 (.cons h3 (.cons h4 (.cons h5 (.cons h6 (.cons h7 (.cons h8 .nil))))))))))
  rw [parsePredirective]
  refine Rel.bind ed_pos fun p p' hp => ?_
  refine Rel.bind (ed_parseIdentifier) ?_
  rintro id _ rfl
  refine Rel.ite (Rel.pure (.identity hp)) ?_
  refine Rel.ite ?_ ?_
  · refine Rel.bind floats fun vs vs' hv => ?_
    rw [hv.length_eq]
    exact Rel.ite (ed_msg _ _) (three hv fun _ _ _ _ _ _ h => .translate hp h)
  refine Rel.ite ?_ ?_
  · refine Rel.bind floats fun vs vs' hv => ?_
    rw [hv.length_eq]
    exact Rel.ite (ed_msg _ _) (three hv fun _ _ _ _ _ _ h => .scale hp h)
  refine Rel.ite ?_ ?_
  · refine Rel.bind floats fun vs vs' hv => ?_
    rw [hv.length_eq]
    refine Rel.ite (ed_msg _ _) ?_
    exact Rel.bind (ed_idx hv _) fun _ _ h0 => Rel.bind (ed_idx hv _) fun _ _ h1 =>
      Rel.bind (ed_idx hv _) fun _ _ h2 => Rel.bind (ed_idx hv _) fun _ _ h3 =>
      Rel.pure (.rotate hp h0 (.cons h1 (.cons h2 (.cons h3 .nil))))
  refine Rel.ite ?_ ?_
  · refine Rel.bind floats fun vs vs' hv => ?_
    rw [hv.length_eq]
    exact Rel.ite (ed_msg _ _) (nine hv fun _ _ _ _ _ _ _ _ _ _ _ _ _ _ _ _ _ _ h => .lookAt hp h)
  refine Rel.ite (Rel.bind (ed_parseString) fun s s' h => Rel.pure (.coordinateSystem hp h)) ?_
  refine Rel.ite (Rel.bind (ed_parseString) fun s s' h => Rel.pure (.coordSysTransform hp h)) ?_
  refine Rel.ite ?_ ?_
  · refine Rel.bind floats fun vs vs' hv => ?_
    rw [hv.length_eq]
    exact Rel.ite (ed_msg _ _) (nine hv fun _ _ _ _ _ _ _ _ _ _ _ _ _ _ _ _ _ _ h => .transform hp h)
  refine Rel.ite ?_ ?_
  · refine Rel.bind floats fun vs vs' hv => ?_
    rw [hv.length_eq]
    exact Rel.ite (ed_msg _ _) (nine hv fun _ _ _ _ _ _ _ _ _ _ _ _ _ _ _ _ _ _ h => .concatTransform hp h)
  refine Rel.ite ?_ ?_
  · refine Rel.bind (ed_parseIdentifier) ?_
    rintro s _ rfl
    exact Rel.pure (.activeTransform hp s)
  refine Rel.ite ?_ ?_
  · refine Rel.bind floats fun vs vs' hv => ?_
    rw [hv.length_eq]
    refine Rel.ite (ed_msg _ _) ?_
    exact Rel.bind (ed_idx hv _) fun _ _ h0 => Rel.bind (ed_idx hv _) fun _ _ h1 =>
      Rel.pure (.transformTimes hp h0 h1)
  refine Rel.ite ?_ (Rel.ite ?_ (Rel.ite ?_ (Rel.ite ?_ (Rel.ite ?_ (Rel.ite ?_ (Rel.ite ?_ (ed_msg _ _)))))))
  · exact typed hp fun _ _ => .camera
  · exact typed hp fun _ _ => .sampler
  · exact typed hp fun _ _ => .film
  · exact typed hp fun _ _ => .filter
  · exact typed hp fun _ _ => .integrator
  · exact typed hp fun _ _ => .accelerator
  · exact Rel.bind (ed_parseString) fun s s' h => Rel.pure (.incl hp h)

theorem ed_predirectivesLoop (hE : C.Fits E) : ∀ fuel ds ds', Forall₂ (EditPre C E) ds ds' →
    ERel C E (Forall₂ (EditPre C E)) (predirectivesLoop E fuel ds) (predirectivesLoop E fuel ds')
  | 0, _, _, _ => by rw [predirectivesLoop, predirectivesLoop]; exact Rel.diverge
  | n + 1, ds, ds', h => by
    rw [predirectivesLoop, predirectivesLoop]
    refine Rel.bind ed_peek ?_
    intro t t' ht
    cases ht with
    | identifier hp s =>
      refine Rel.ite (Rel.pure h) ?_
      exact Rel.bind (ed_parsePredirective hE) fun d d' hd =>
        ed_predirectivesLoop hE n _ _ (rel_append h (.cons hd .nil))
    | str hp s t h => exact ed_msg _ _
    | rbracket hp => exact ed_msg _ _
    | float hp x y h => exact ed_msg _ _
    | int hp i j h => exact ed_msg _ _
    | lbracket hp => exact ed_msg _ _

theorem ed_parseTokens (hE : C.Fits E) {ts ts' : List (Token F)} (h : Forall₂ (EditToken C E) ts ts') :
    AlikeOutcome (AlikeError False) (EditScene C E) (parseTokens E ts) (parseTokens E ts') := by
  rw [parseTokens, parseTokens, parseFuel, parseFuel, h.length_eq]
  have : ERel C E (EditScene C E) (parseTokensFuel E (2 * ts'.length + 2)) (parseTokensFuel E (2 * ts'.length + 2)) := by
    rw [parseTokensFuel]
    exact Rel.bind (ed_predirectivesLoop hE _ _ _ .nil) fun pre pre' hp =>
      Rel.bind (ed_directives hE _).1 fun w w' hw => Rel.pure ⟨hp, hw⟩
  exact (this ⟨ts, 0⟩ ⟨ts', 0⟩ ⟨rfl, h.imp fun _ _ => tok⟩).1

end Pbrt.Proof.Edit
