import Verif.Proof.ParseDir
import Verif.Spec.Writer

/-!
# The tokens of a written scene are accepted
-/

namespace Pbrt.Proof
open Pbrt.Spec

variable {F : Type}

theorem map_ty_cons {toks : List (Token F)} {v : TokenType F} {vs : List (TokenType F)}
    (h : toks.map Token.ty = v :: vs) :
    ∃ p ts, toks = ⟨p, v⟩ :: ts ∧ ts.map Token.ty = vs := by
  match toks, h with
  | ⟨p, ty⟩ :: ts, h' =>
    simp only [List.map_cons, List.cons.injEq] at h'
    obtain ⟨rfl, h''⟩ := h'
    exact ⟨p, ts, rfl, h''⟩

theorem map_ty_nil {toks : List (Token F)} (h : toks.map Token.ty = []) : toks = [] := by
  simpa using h

theorem map_ty_append {toks : List (Token F)} {vs ws : List (TokenType F)}
    (h : toks.map Token.ty = vs ++ ws) :
    ∃ a b, toks = a ++ b ∧ a.map Token.ty = vs ∧ b.map Token.ty = ws := by
  refine ⟨toks.take vs.length, toks.drop vs.length, (List.take_append_drop _ _).symm, ?_, ?_⟩
  · rw [List.map_take, h]; simp
  · rw [List.map_drop, h]; simp

theorem map_ty_brackets {toks : List (Token F)} {vs : List (TokenType F)}
    (h0 : toks.map Token.ty = brackets vs) :
    ∃ p q ts, toks = ⟨p, .LBracket⟩ :: ts ++ [⟨q, .RBracket⟩] ∧ ts.map Token.ty = vs := by
  obtain ⟨p, ts, rfl, h⟩ := map_ty_cons (by simpa [brackets] using h0)
  obtain ⟨a, b, rfl, h1, h2⟩ := map_ty_append h
  obtain ⟨q, c, rfl, h3⟩ := map_ty_cons h2
  rw [map_ty_nil h3]
  exact ⟨p, q, a, rfl, h1⟩

section
variable {α β : Type} {R : List (Token F) → β → Prop}

theorem many_of_map (g : α → TokenType F) (m : α → β) (hR : ∀ p x, R [⟨p, g x⟩] (m x)) :
    ∀ (l : List α) (toks : List (Token F)), toks.map Token.ty = l.map g → Many R toks (l.map m)
  | [], toks, h => by rw [map_ty_nil h]; exact .nil
  | x :: l, toks, h0 => by
    obtain ⟨p, ts, rfl, h⟩ := map_ty_cons h0
    exact .cons [⟨p, g x⟩] ts _ _ (hR p x) (many_of_map g m hR l ts h)

theorem many_of_pairs (m : Num F × Num F → β)
    (hR : ∀ p q x, R [⟨p, x.1.tok⟩, ⟨q, x.2.tok⟩] (m x)) :
    ∀ (l : List (Num F × Num F)) (toks : List (Token F)), toks.map Token.ty = pairToks l →
      Many R toks (l.map m)
  | [], toks, h => by rw [map_ty_nil h]; exact .nil
  | x :: l, toks, h0 => by
    obtain ⟨p, ts1, rfl, h1⟩ := map_ty_cons (show toks.map Token.ty = x.1.tok :: (x.2.tok :: pairToks l) from h0)
    obtain ⟨q, ts, rfl, h⟩ := map_ty_cons h1
    exact .cons [⟨p, x.1.tok⟩, ⟨q, x.2.tok⟩] ts _ _ (hR p q x) (many_of_pairs m hR l ts h)
end

theorem numTok_num (E : Env F) (p : Pos) (n : Num F) : NumTok E [⟨p, n.tok⟩] (n.val E) := by
  cases n with
  | int i => exact ⟨p, .inr ⟨i, rfl, rfl⟩⟩
  | flt f => exact ⟨p, .inl rfl⟩

theorem many_nums (E : Env F) (l : List (Num F)) (toks : List (Token F))
    (h : toks.map Token.ty = l.map Num.tok) : Many (NumTok E) toks (l.map (Num.val E)) :=
  many_of_map _ _ (numTok_num E) l toks h

theorem many_pairNums (E : Env F) (l : List (Num F × Num F)) (toks : List (Token F))
    (h : toks.map Token.ty = pairToks l) :
    Many (NumTok E) toks (l.flatMap fun p => [p.1.val E, p.2.val E]) := by
  induction l generalizing toks with
  | nil => rw [map_ty_nil h]; exact .nil
  | cons x l ih =>
    obtain ⟨p, ts1, rfl, h1⟩ := map_ty_cons (show toks.map Token.ty = x.1.tok :: (x.2.tok :: pairToks l) from h)
    obtain ⟨q, ts, rfl, h'⟩ := map_ty_cons h1
    exact .cons [⟨p, x.1.tok⟩] _ _ _ (numTok_num E p x.1)
      (.cons [⟨q, x.2.tok⟩] ts _ _ (numTok_num E q x.2) (ih ts h'))

theorem bracketed_of {β : Type} {R : List (Token F) → β → Prop} {toks : List (Token F)}
    {vs : List (TokenType F)} {xs : List β} (h : toks.map Token.ty = brackets vs) (hne : xs ≠ [])
    (hm : ∀ ts : List (Token F), ts.map Token.ty = vs → Many R ts xs) : Bracketed R toks xs := by
  obtain ⟨p, q, ts, rfl, h'⟩ := map_ty_brackets h
  exact ⟨hne, p, q, ts, rfl, hm ts h'⟩

theorem one_tok {toks : List (Token F)} {v : TokenType F} (h : toks.map Token.ty = [v]) :
    ∃ p, toks = [⟨p, v⟩] := by
  obtain ⟨p, ts, rfl, h'⟩ := map_ty_cons h
  rw [map_ty_nil h']
  exact ⟨p, rfl⟩

/-- The tokens of a written value are a value. -/
theorem wval_text (E : Env F) (v : WVal F) (hv : v.Ok) (toks : List (Token F))
    (h : toks.map Token.ty = v.toks) : ValText E v.ty toks (v.mean E) := by
  have hint : ∀ (p : Pos) (x : Int), IntTok (F := F) [⟨p, .Int x⟩] (id x) := fun p x => ⟨p, rfl⟩
  have hbool : ∀ (p : Pos) (x : Bool), BoolTok (F := F) [⟨p, boolTok x⟩] (id x) := fun p x => ⟨p, rfl⟩
  have hstr : ∀ (p : Pos) (x : String), StrTok (F := F) [⟨p, .Str x⟩] (id x) := fun p x => ⟨p, rfl⟩
  have hpt : ∀ (p q : Pos) (x : Num F × Num F),
      PointTok E [⟨p, x.1.tok⟩, ⟨q, x.2.tok⟩] ⟨x.1.val E, x.2.val E⟩ :=
    fun p q x => ⟨[_], [_], rfl, numTok_num E p x.1, numTok_num E q x.2⟩
  have hvec : ∀ (p q : Pos) (x : Num F × Num F),
      VectorTok E [⟨p, x.1.tok⟩, ⟨q, x.2.tok⟩] ⟨x.1.val E, x.2.val E⟩ :=
    fun p q x => ⟨[_], [_], rfl, numTok_num E p x.1, numTok_num E q x.2⟩
  cases v with
  | int1 i => obtain ⟨p, rfl⟩ := one_tok h; exact .ints _ _ (.inl ⟨i, ⟨p, rfl⟩, rfl⟩)
  | ints l =>
    refine .ints _ _ (.inr (bracketed_of h hv fun ts ht => ?_))
    simpa using many_of_map _ _ hint l ts ht
  | float1 n => obtain ⟨p, rfl⟩ := one_tok h; exact .floats _ _ (.inl ⟨_, numTok_num E p n, rfl⟩)
  | floats l =>
    exact .floats _ _ (.inr (bracketed_of h (by simpa [WVal.Ok] using hv) fun ts ht => many_nums E l ts ht))
  | point2s l =>
    exact .point2s _ _ (bracketed_of h (by simpa [WVal.Ok] using hv) fun ts ht =>
      many_of_pairs _ hpt l ts ht)
  | vector2s l =>
    exact .vector2s _ _ (bracketed_of h (by simpa [WVal.Ok] using hv) fun ts ht =>
      many_of_pairs _ hvec l ts ht)
  | bool1 b => obtain ⟨p, rfl⟩ := one_tok h; exact .bools _ _ (.inl ⟨b, ⟨p, rfl⟩, rfl⟩)
  | bools l =>
    refine .bools _ _ (.inr (bracketed_of h hv fun ts ht => ?_))
    simpa using many_of_map _ _ hbool l ts ht
  | string1 s => obtain ⟨p, rfl⟩ := one_tok h; exact .strings _ _ (.inl ⟨s, ⟨p, rfl⟩, rfl⟩)
  | strings l =>
    refine .strings _ _ (.inr (bracketed_of h hv fun ts ht => ?_))
    simpa using many_of_map _ _ hstr l ts ht
  | rgb r g b =>
    exact .rgb _ _ _ _ (bracketed_of h (by simp) fun ts ht => many_nums E [r, g, b] ts ht)
  | xyz r g b =>
    exact .xyz _ _ _ _ (bracketed_of h (by simp) fun ts ht => many_nums E [r, g, b] ts ht)
  | samples l =>
    refine .samples _ (l.flatMap fun p => [p.1.val E, p.2.val E]) _
      (bracketed_of h ?_ fun ts ht => many_pairNums E l ts ht) ?_
    · cases l with
      | nil => exact absurd rfl hv
      | cons => simp
    · rw [PairsOf, List.flatMap_map]
  | file s => obtain ⟨p, rfl⟩ := one_tok h; exact .file _ _ ⟨p, rfl⟩
  | blackbody t s =>
    exact .blackbody _ _ _ (bracketed_of h (by simp) fun ts ht => many_nums E [t, s] ts ht)
  | texture s => obtain ⟨p, rfl⟩ := one_tok h; exact .texture _ _ ⟨p, rfl⟩

theorem wparam_text (E : Env F) (p : WParam F) (hp : p.Ok E) (toks : List (Token F))
    (h : toks.map Token.ty = p.toks) : ParamText E toks (p.place E (toks.map Token.pos)) := by
  obtain ⟨q, ts, rfl, h'⟩ := map_ty_cons h
  exact ⟨p.decl, p.val.ty, ts, rfl, hp.1, wval_text E p.val hp.2 ts h'⟩

theorem wparams_text (E : Env F) : ∀ (ps : List (WParam F)), (∀ p ∈ ps, p.Ok E) →
    ∀ toks : List (Token F), toks.map Token.ty = ps.flatMap WParam.toks →
      Many (ParamText E) toks (placeParams E ps (toks.map Token.pos))
  | [], _, toks, h => by rw [map_ty_nil h]; exact .nil
  | p :: ps, hp, toks, h => by
    rw [List.flatMap_cons] at h
    obtain ⟨a, b, rfl, h1, h2⟩ := map_ty_append h
    have hl : (a.map Token.pos).length = p.toks.length := by rw [← h1]; simp
    have e1 : placeParams E (p :: ps) ((a ++ b).map Token.pos) =
        p.place E (a.map Token.pos) :: placeParams E ps (b.map Token.pos) := by
      rw [placeParams, List.map_append, ← hl, List.drop_left]
      congr 1
      obtain ⟨q, ts, rfl, _⟩ := map_ty_cons h1
      rfl
    rw [e1]
    exact .cons a b _ _ (wparam_text E p (hp p (by simp)) a h1)
      (wparams_text E ps (fun x hx => hp x (by simp [hx])) b h2)

theorem wparams_params (E : Env F) (ps : List (WParam F)) (hp : ∀ p ∈ ps, p.Ok E)
    (toks : List (Token F)) (h : toks.map Token.ty = ps.flatMap WParam.toks) :
    ParamsText E toks (placeParams E ps (toks.map Token.pos)) :=
  ⟨toks, [], by simp, wparams_text E ps hp toks h, .none⟩

/-- A directive that is not a block. -/
theorem wdir_text (E : Env F) (d : WDir F) (hd : d.Ok E) (hb : d.isBlock = false)
    (toks : List (Token F)) (h0 : toks.map Token.ty = d.toks) :
    DirText E toks (d.place E (toks.map Token.pos)) ∧
      ¬ IsBlock (d.place E (toks.map Token.pos)) := by
  cases d with
  | typed k ty ps =>
    rw [WDir.toks] at h0
    obtain ⟨p, ts1, rfl, h1⟩ := map_ty_cons h0
    obtain ⟨q, ts, rfl, h⟩ := map_ty_cons h1
    have hp := wparams_params E ps (by simpa [WDir.Ok] using hd) ts h
    have ht : ∀ key, Typed E key (⟨p, .Identifier key⟩ :: ⟨q, .Str ty⟩ :: ts)
        ⟨ty, p, collect (placeParams E ps (ts.map Token.pos))⟩ :=
      fun key => ⟨q, ts, _, rfl, hp, rfl⟩
    rw [WDir.place]
    cases k
    · exact ⟨.material _ _ (ht _), id⟩
    · exact ⟨.shape _ _ (ht _), id⟩
    · exact ⟨.lightSource _ _ (ht _), id⟩
    · exact ⟨.areaLightSource _ _ (ht _), id⟩
  | texture name ty cls ps =>
    rw [WDir.toks] at h0
    obtain ⟨p, ts1, rfl, h1⟩ := map_ty_cons h0
    obtain ⟨q₁, ts2, rfl, h2⟩ := map_ty_cons h1
    obtain ⟨q₂, ts3, rfl, h3⟩ := map_ty_cons h2
    obtain ⟨q₃, ts, rfl, h⟩ := map_ty_cons h3
    have hp := wparams_params E ps (by simpa [WDir.Ok] using hd) ts h
    rw [WDir.place]
    exact ⟨.texture p q₁ q₂ q₃ name ty cls ts _ hp, id⟩
  | incl s =>
    rw [WDir.toks] at h0
    obtain ⟨p, ts1, rfl, h1⟩ := map_ty_cons h0
    obtain ⟨q, rfl⟩ := one_tok h1
    rw [WDir.place]
    exact ⟨.incl p _ s ⟨q, rfl⟩, id⟩
  | block => simp [WDir.isBlock] at hb

theorem toks_ne (d : WDir F) : d.toks ≠ [] := by
  cases d <;> simp [WDir.toks]

theorem at0_append {a b : List (Token F)} (h : a ≠ []) :
    at0 ((a ++ b).map Token.pos) = at0 (a.map Token.pos) := by
  cases a with
  | nil => exact absurd rfl h
  | cons => rfl

theorem placeParams_append (E : Env F) : ∀ (ps : List (WParam F)) (q r : List Pos),
    q.length ≥ (ps.flatMap WParam.toks).length → placeParams E ps (q ++ r) = placeParams E ps q
  | [], _, _, _ => rfl
  | p :: ps, q, r, h => by
    rw [List.flatMap_cons, List.length_append] at h
    have : p.toks.length ≥ 1 := by simp [WParam.toks]
    rw [placeParams, placeParams, List.drop_append_of_le_length (by omega),
      placeParams_append E ps _ r (by rw [List.length_drop]; omega)]
    congr 1
    unfold WParam.place
    congr 1
    cases q with
    | nil => simp only [List.length_nil] at h; omega
    | cons => rfl

theorem place_append (E : Env F) (d : WDir F) (hb : d.isBlock = false) (q r : List Pos)
    (h : q.length ≥ d.toks.length) : d.place E (q ++ r) = d.place E q := by
  have ha : at0 (q ++ r) = at0 q := by
    cases q with
    | nil => exact absurd (List.eq_nil_of_length_eq_zero (by simpa using h)) (toks_ne d)
    | cons => rfl
  cases d with
  | typed k ty ps =>
    simp only [WDir.toks, List.length_cons] at h
    rw [WDir.place, WDir.place, ha, List.drop_append_of_le_length (by omega),
      placeParams_append E ps _ _ (by rw [List.length_drop]; omega)]
  | texture name ty cls ps =>
    simp only [WDir.toks, List.length_cons] at h
    rw [WDir.place, WDir.place, ha, List.drop_append_of_le_length (by omega),
      placeParams_append E ps _ _ (by rw [List.length_drop]; omega)]
  | incl s => rw [WDir.place, WDir.place, ha]
  | block => simp [WDir.isBlock] at hb

theorem isEnd_close (p : Pos) (k : BlockKey) : IsEnd (F := F) ⟨p, .Identifier k.close⟩ :=
  ⟨p, _, rfl, by cases k <;> simp [BlockKey.close]⟩

theorem block_text {E : Env F} {ts : List (Token F)} {ds : List (Directive F)}
    (h : DirsText E ts ds) (k : BlockKey) (p : Pos) :
    DirText E (⟨p, .Identifier k.open⟩ :: ts) (k.mk p ds) ∧ IsBlock (k.mk p ds) := by
  cases k
  · exact ⟨.attribute p ts ds h, trivial⟩
  · exact ⟨.transform p ts ds h, trivial⟩
  · exact ⟨.world p ts ds h, trivial⟩

mutual
/-- A written block: the parser's view of it ends at the first block end inside. -/
theorem wblock_text (E : Env F) (d : WDir F) (hd : d.Ok E) (hb : d.isBlock = true)
    (toks more : List (Token F)) (h0 : toks.map Token.ty = d.toks) :
    ∃ body e rest, toks ++ more = body ++ e :: rest ∧ IsEnd e ∧
      DirText E body (d.trunc.place E ((toks ++ more).map Token.pos)) ∧
      IsBlock (d.trunc.place E ((toks ++ more).map Token.pos)) := by
  match d, hd, hb, h0 with
  | .block k ds, hd, _, h0 =>
    rw [WDir.toks] at h0
    obtain ⟨p, ts, rfl, h⟩ := map_ty_cons h0
    obtain ⟨a, b, rfl, h1, h2⟩ := map_ty_append h
    obtain ⟨q, rfl⟩ := one_tok h2
    rw [WDir.Ok] at hd
    obtain ⟨body, e, rest, h3, h4, h5⟩ :=
      wdirs_text E ds hd a h1 ⟨q, .Identifier k.close⟩ (isEnd_close q k) more
    rw [WDir.trunc, WDir.place]
    have h6 := block_text h5 k p
    refine ⟨⟨p, .Identifier k.open⟩ :: body, e, rest, ?_, h4, ?_, ?_⟩
    · simp [h3]
    · simpa [at0] using h6.1
    · simpa [at0] using h6.2

/-- A written list of directives followed by a block end. -/
theorem wdirs_text (E : Env F) (ds : List (WDir F)) (hd : WDir.OkAll E ds)
    (toks : List (Token F)) (h : toks.map Token.ty = WDir.toksAll ds) (e' : Token F)
    (he : IsEnd e') (more : List (Token F)) :
    ∃ body e rest, toks ++ e' :: more = body ++ e :: rest ∧ IsEnd e ∧
      DirsText E body (WDir.placeAll E (WDir.truncAll ds) ((toks ++ e' :: more).map Token.pos)) := by
  match ds, hd, h with
  | [], _, h =>
    rw [WDir.toksAll] at h
    rw [map_ty_nil h]
    exact ⟨[], e', more, rfl, he, by rw [WDir.truncAll, WDir.placeAll]; exact .nil⟩
  | d :: ds, hd, h =>
    rw [WDir.toksAll] at h
    rw [WDir.OkAll] at hd
    obtain ⟨a, b, rfl, h1, h2⟩ := map_ty_append h
    by_cases hb : d.isBlock = true
    · obtain ⟨body, e, rest, h3, h4, h5, h6⟩ := wblock_text E d hd.1 hb a (b ++ e' :: more) h1
      rw [← List.append_assoc] at h3 h5 h6
      refine ⟨body, e, rest, h3, h4, ?_⟩
      rw [WDir.truncAll, if_pos hb, WDir.placeAll, WDir.placeAll]
      exact .block _ _ h6 h5
    · obtain ⟨body, e, rest, h3, h4, h5⟩ := wdirs_text E ds hd.2 b h2 e' he more
      have hb' : d.isBlock = false := by simpa using hb
      obtain ⟨h6, h7⟩ := wdir_text E d hd.1 hb' a h1
      have hl : (a.map Token.pos).length = d.toks.length := by rw [← h1]; simp
      refine ⟨a ++ body, e, rest, by rw [List.append_assoc, List.append_assoc, h3], h4, ?_⟩
      rw [WDir.truncAll, if_neg hb, WDir.placeAll, List.append_assoc, List.map_append, ← hl,
        List.drop_left, place_append E d hb' _ _ (Nat.le_of_eq hl.symm)]
      exact .cons a body _ _ h7 h6 h5
end

/-- A pre-world directive. -/
theorem wpre_text (E : Env F) (d : WPre F) (hd : d.Ok E) (toks : List (Token F))
    (h0 : toks.map Token.ty = d.toks) : PreText E toks (d.place E (toks.map Token.pos)) := by
  cases d with
  | identity => obtain ⟨p, rfl⟩ := one_tok h0; exact .identity p
  | translate x y z =>
    obtain ⟨p, ts, rfl, h⟩ := map_ty_cons h0
    exact .translate p ts _ _ _ (many_nums E [x, y, z] ts h)
  | scale x y z =>
    obtain ⟨p, ts, rfl, h⟩ := map_ty_cons h0
    exact .scale p ts _ _ _ (many_nums E [x, y, z] ts h)
  | rotate t x y z =>
    obtain ⟨p, ts, rfl, h⟩ := map_ty_cons h0
    exact .rotate p ts _ _ _ _ (many_nums E [t, x, y, z] ts h)
  | lookAt m =>
    obtain ⟨p, ts, rfl, h⟩ := map_ty_cons h0
    exact .lookAt p ts _ _ _ _ _ _ _ _ _
      (many_nums E [m.m00, m.m01, m.m02, m.m10, m.m11, m.m12, m.m20, m.m21, m.m22] ts h)
  | coordinateSystem s =>
    obtain ⟨p, ts, rfl, h⟩ := map_ty_cons h0
    obtain ⟨q, rfl⟩ := one_tok h
    exact .coordinateSystem p _ s ⟨q, rfl⟩
  | coordSysTransform s =>
    obtain ⟨p, ts, rfl, h⟩ := map_ty_cons h0
    obtain ⟨q, rfl⟩ := one_tok h
    exact .coordSysTransform p _ s ⟨q, rfl⟩
  | transform m =>
    obtain ⟨p, ts, rfl, h⟩ := map_ty_cons h0
    exact .transform p ts _ _ _ _ _ _ _ _ _
      (many_nums E [m.m00, m.m01, m.m02, m.m10, m.m11, m.m12, m.m20, m.m21, m.m22] ts h)
  | concatTransform m =>
    obtain ⟨p, ts, rfl, h⟩ := map_ty_cons h0
    exact .concatTransform p ts _ _ _ _ _ _ _ _ _
      (many_nums E [m.m00, m.m01, m.m02, m.m10, m.m11, m.m12, m.m20, m.m21, m.m22] ts h)
  | activeTransform s =>
    obtain ⟨p, ts, rfl, h⟩ := map_ty_cons h0
    obtain ⟨q, rfl⟩ := one_tok h
    exact .activeTransform p q s
  | transformTimes a b =>
    obtain ⟨p, ts, rfl, h⟩ := map_ty_cons h0
    exact .transformTimes p ts _ _ (many_nums E [a, b] ts h)
  | typed k ty ps =>
    rw [WPre.toks] at h0
    obtain ⟨p, ts1, rfl, h1⟩ := map_ty_cons h0
    obtain ⟨q, ts, rfl, h⟩ := map_ty_cons h1
    have hp := wparams_params E ps hd ts h
    have ht : ∀ key, Typed E key (⟨p, .Identifier key⟩ :: ⟨q, .Str ty⟩ :: ts)
        ⟨ty, p, collect (placeParams E ps (ts.map Token.pos))⟩ :=
      fun key => ⟨q, ts, _, rfl, hp, rfl⟩
    cases k
    · exact .camera _ _ (ht _)
    · exact .sampler _ _ (ht _)
    · exact .film _ _ (ht _)
    · exact .filter _ _ (ht _)
    · exact .integrator _ _ (ht _)
    · exact .accelerator _ _ (ht _)
  | incl s =>
    obtain ⟨p, ts, rfl, h⟩ := map_ty_cons h0
    obtain ⟨q, rfl⟩ := one_tok h
    exact .incl p _ s ⟨q, rfl⟩

theorem wpre_ne (d : WPre F) : d.toks.length ≥ 1 := by
  cases d <;> simp [WPre.toks]

theorem wpre_place_append (E : Env F) (d : WPre F) (q r : List Pos)
    (h : q.length ≥ d.toks.length) : d.place E (q ++ r) = d.place E q := by
  have ha : at0 (q ++ r) = at0 q := by
    cases q with
    | nil => have := wpre_ne d; simp only [List.length_nil] at h; omega
    | cons => rfl
  cases d with
  | typed k ty ps =>
    simp only [WPre.toks, List.length_cons] at h
    rw [WPre.place, WPre.place, ha, List.drop_append_of_le_length (by omega),
      placeParams_append E ps _ _ (by rw [List.length_drop]; omega)]
  | _ => rw [WPre.place, WPre.place, ha]

theorem wpres_text (E : Env F) : ∀ (ds : List (WPre F)), (∀ d ∈ ds, d.Ok E) →
    ∀ (toks : List (Token F)) (r : List Pos), toks.map Token.ty = ds.flatMap WPre.toks →
      Many (PreText E) toks (WPre.placeAll E ds (toks.map Token.pos ++ r))
  | [], _, toks, r, h => by rw [map_ty_nil h]; exact .nil
  | d :: ds, hd, toks, r, h => by
    rw [List.flatMap_cons] at h
    obtain ⟨a, b, rfl, h1, h2⟩ := map_ty_append h
    have hl : (a.map Token.pos).length = d.toks.length := by rw [← h1]; simp
    rw [WPre.placeAll, List.map_append, List.append_assoc, ← hl, List.drop_left,
      wpre_place_append E d _ _ (Nat.le_of_eq hl.symm)]
    exact .cons a b _ _ (wpre_text E d (hd d (by simp)) a h1)
      (wpres_text E ds (fun x hx => hd x (by simp [hx])) b r h2)

/-- Tokens that spell a scene are accepted, with the truncated scene as result. -/
theorem wscene_accepts (E : Env F) (s : WScene F) (hs : s.Ok E) (toks : List (Token F))
    (h : toks.map Token.ty = s.toks) :
    Accepts E toks (s.trunc.place E (toks.map Token.pos)).1
      (s.trunc.place E (toks.map Token.pos)).2 := by
  unfold WScene.toks at h
  obtain ⟨a, b, rfl, h1, h2⟩ := map_ty_append h
  obtain ⟨body, e, rest, h3, h4, h5, _⟩ := wblock_text E (.block .World s.world)
    (by rw [WDir.Ok]; exact hs.2) rfl b [] h2
  rw [List.append_nil] at h3 h5
  have hl : (a.map Token.pos).length = (s.pre.flatMap WPre.toks).length := by rw [← h1]; simp
  have hpre := wpres_text E s.pre hs.1 a (b.map Token.pos) h1
  unfold WScene.trunc WScene.place
  simp only
  rw [List.map_append, ← hl, List.drop_left]
  rw [WDir.trunc] at h5
  rw [WDir.place] at h5 ⊢
  generalize hw : (BlockKey.World.mk (at0 (b.map Token.pos))
    (WDir.placeAll E (WDir.truncAll s.world) ((b.map Token.pos).drop 1)) : Directive F) = w at h5 ⊢
  cases h5 with
  | world p ts ds h5 =>
    exact ⟨a, p, ts, e, rest, ds, by rw [h3]; simp, hpre, h5, h4, rfl⟩
  | _ => cases hw

mutual
theorem trunc_eq (d : WDir F) (h : d.BlocksLast) : d.trunc = d := by
  match d, h with
  | .typed .., _ => rw [WDir.trunc]
  | .texture .., _ => rw [WDir.trunc]
  | .incl .., _ => rw [WDir.trunc]
  | .block k ds, h =>
    rw [WDir.BlocksLast] at h
    rw [WDir.trunc, truncAll_eq ds h]
theorem truncAll_eq (ds : List (WDir F)) (h : WDir.BlocksLastAll ds) : WDir.truncAll ds = ds := by
  match ds, h with
  | [], _ => rw [WDir.truncAll]
  | d :: ds, h =>
    rw [WDir.BlocksLastAll] at h
    obtain ⟨h1, h2, h3⟩ := h
    rw [WDir.truncAll]
    by_cases hb : d.isBlock = true
    · rw [if_pos hb, h1 hb, trunc_eq d h2]
    · rw [if_neg hb, truncAll_eq ds h3]
end

end Pbrt.Proof
