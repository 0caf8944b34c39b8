import Verif.Proof.ParseCut
import Verif.Spec.Erase

/-!
# The scene grammar does not look at positions
-/

namespace Pbrt.Proof
open Pbrt.Spec

variable {F : Type}

/-- The same token values. -/
def SameTy (a b : List (Token F)) : Prop := a.map Token.ty = b.map Token.ty

theorem SameTy.symm {a b : List (Token F)} (h : SameTy a b) : SameTy b a := Eq.symm h

theorem sameTy_nil {b : List (Token F)} (h : SameTy [] b) : b = [] := by
  simpa [SameTy] using h.symm

theorem sameTy_cons {t : Token F} {a b : List (Token F)} (h : SameTy (t :: a) b) :
    ∃ p c, b = ⟨p, t.ty⟩ :: c ∧ SameTy a c := by
  cases b with
  | nil => simp [SameTy] at h
  | cons u c =>
    simp only [SameTy, List.map_cons, List.cons.injEq] at h
    exact ⟨u.pos, c, by rw [h.1], h.2⟩

theorem sameTy_append {a b c : List (Token F)} (h : SameTy (a ++ b) c) :
    ∃ a' b', c = a' ++ b' ∧ SameTy a a' ∧ SameTy b b' := by
  unfold SameTy at h ⊢
  rw [List.map_append] at h
  obtain ⟨a', b', rfl, h1, h2⟩ := List.map_eq_append_iff.1 h.symm
  exact ⟨a', b', rfl, h1.symm, h2.symm⟩

/-- The relation gives the same value for tokens with the same values. -/
def PosFree {T : Type} (R : List (Token F) → T → Prop) : Prop :=
  ∀ a b x, SameTy a b → R a x → R b x

theorem posFree_many {T : Type} {R : List (Token F) → T → Prop} (hR : PosFree R) :
    PosFree (Many R) := by
  intro a b xs hab h
  induction h generalizing b with
  | nil => rw [sameTy_nil hab]; exact .nil
  | cons a1 a2 x xs h1 h2 ih =>
    obtain ⟨b1, b2, rfl, e1, e2⟩ := sameTy_append hab
    exact .cons _ _ _ _ (hR _ _ _ e1 h1) (ih _ e2)

theorem posFree_int : PosFree (F := F) IntTok := by
  rintro a b x hab ⟨p, rfl⟩
  obtain ⟨q, c, rfl, h⟩ := sameTy_cons hab
  rw [sameTy_nil h]; exact ⟨q, rfl⟩

theorem posFree_str : PosFree (F := F) StrTok := by
  rintro a b x hab ⟨p, rfl⟩
  obtain ⟨q, c, rfl, h⟩ := sameTy_cons hab
  rw [sameTy_nil h]; exact ⟨q, rfl⟩

theorem posFree_bool : PosFree (F := F) BoolTok := by
  rintro a b x hab ⟨p, rfl⟩
  obtain ⟨q, c, rfl, h⟩ := sameTy_cons hab
  rw [sameTy_nil h]; exact ⟨q, rfl⟩

theorem posFree_num (E : Env F) : PosFree (NumTok E) := by
  rintro a b x hab ⟨p, rfl | ⟨i, rfl, rfl⟩⟩
  · obtain ⟨q, c, rfl, h⟩ := sameTy_cons hab
    rw [sameTy_nil h]; exact ⟨q, .inl rfl⟩
  · obtain ⟨q, c, rfl, h⟩ := sameTy_cons hab
    rw [sameTy_nil h]; exact ⟨q, .inr ⟨i, rfl, rfl⟩⟩

theorem posFree_point (E : Env F) : PosFree (PointTok E) := by
  rintro a b x hab ⟨a1, a2, rfl, h1, h2⟩
  obtain ⟨b1, b2, rfl, e1, e2⟩ := sameTy_append hab
  exact ⟨b1, b2, rfl, posFree_num E _ _ _ e1 h1, posFree_num E _ _ _ e2 h2⟩

theorem posFree_vector (E : Env F) : PosFree (VectorTok E) := by
  rintro a b x hab ⟨a1, a2, rfl, h1, h2⟩
  obtain ⟨b1, b2, rfl, e1, e2⟩ := sameTy_append hab
  exact ⟨b1, b2, rfl, posFree_num E _ _ _ e1 h1, posFree_num E _ _ _ e2 h2⟩

theorem posFree_bracketed {T : Type} {R : List (Token F) → T → Prop} (hR : PosFree R) :
    PosFree (Bracketed R) := by
  rintro a b x hab ⟨hx, p, q, vs, rfl, h⟩
  obtain ⟨b1, b2, rfl, e1, e2⟩ := sameTy_append hab
  obtain ⟨p', c, rfl, h1⟩ := sameTy_cons e1
  obtain ⟨q', d, rfl, h2⟩ := sameTy_cons e2
  rw [sameTy_nil h2]
  exact ⟨hx, p', q', c, rfl, posFree_many hR _ _ _ h1 h⟩

theorem posFree_oneOrList {T : Type} {R : List (Token F) → T → Prop} (hR : PosFree R) :
    PosFree (OneOrList R) := by
  rintro a b x hab (⟨v, h, rfl⟩ | h)
  · exact .inl ⟨v, hR _ _ _ hab h, rfl⟩
  · exact .inr (posFree_bracketed hR _ _ _ hab h)

theorem posFree_val (E : Env F) (ty : String) : PosFree (ValText E ty) := by
  intro a b x hab h
  cases h with
  | ints _ l h => exact .ints _ _ (posFree_oneOrList posFree_int _ _ _ hab h)
  | floats _ l h => exact .floats _ _ (posFree_oneOrList (posFree_num E) _ _ _ hab h)
  | point2s _ l h => exact .point2s _ _ (posFree_bracketed (posFree_point E) _ _ _ hab h)
  | vector2s _ l h => exact .vector2s _ _ (posFree_bracketed (posFree_vector E) _ _ _ hab h)
  | bools _ l h => exact .bools _ _ (posFree_oneOrList posFree_bool _ _ _ hab h)
  | strings _ l h => exact .strings _ _ (posFree_oneOrList posFree_str _ _ _ hab h)
  | rgb _ r g b h => exact .rgb _ _ _ _ (posFree_bracketed (posFree_num E) _ _ _ hab h)
  | xyz _ r g b h => exact .xyz _ _ _ _ (posFree_bracketed (posFree_num E) _ _ _ hab h)
  | samples _ l ps h hp => exact .samples _ _ _ (posFree_bracketed (posFree_num E) _ _ _ hab h) hp
  | file _ s h => exact .file _ _ (posFree_str _ _ _ hab h)
  | blackbody _ t s h => exact .blackbody _ _ _ (posFree_bracketed (posFree_num E) _ _ _ hab h)
  | texture _ s h => exact .texture _ _ (posFree_str _ _ _ hab h)

/-- A parameter without its position. -/
def bare (p : SParam F) : SParam F := { p with pos := nowhere }

theorem params_erase (E : Env F) {a : List (Token F)} {ps : List (SParam F)}
    (h : Many (ParamText E) a ps) : ∀ b, SameTy a b →
      ∃ qs, Many (ParamText E) b qs ∧ qs.map bare = ps.map bare := by
  induction h with
  | nil => intro b hab; rw [sameTy_nil hab]; exact ⟨[], .nil, rfl⟩
  | cons a1 a2 x xs h1 h2 ih =>
    intro b hab
    obtain ⟨b1, b2, rfl, e1, e2⟩ := sameTy_append hab
    obtain ⟨qs, h3, h4⟩ := ih b2 e2
    obtain ⟨decl, ty, vs, rfl, h5, h6⟩ := h1
    obtain ⟨q, c, rfl, h7⟩ := sameTy_cons e1
    exact ⟨⟨q, x.name, x.val⟩ :: qs,
      .cons _ _ _ _ ⟨decl, ty, c, rfl, h5, posFree_val E ty _ _ _ h7 h6⟩ h3, by
        simp [h4, bare]⟩

theorem unclosed_free (E : Env F) (ty : String) (a b : List (Token F)) (hab : SameTy a b)
    (h : Unclosed E ty a) : Unclosed E ty b := by
  cases h with
  | ints _ l h => exact .ints _ _ (posFree_many posFree_int _ _ _ hab h)
  | floats _ l h => exact .floats _ _ (posFree_many (posFree_num E) _ _ _ hab h)
  | point2s _ l h => exact .point2s _ _ (posFree_many (posFree_point E) _ _ _ hab h)
  | vector2s _ l h => exact .vector2s _ _ (posFree_many (posFree_vector E) _ _ _ hab h)
  | bools _ l h => exact .bools _ _ (posFree_many posFree_bool _ _ _ hab h)
  | strings _ l h => exact .strings _ _ (posFree_many posFree_str _ _ _ hab h)
  | samples _ l h => exact .samples _ _ (posFree_many (posFree_num E) _ _ _ hab h)
  | fixedNone _ h => rw [sameTy_nil hab]; exact .fixedNone _ h
  | rgb _ r g b h => exact .rgb _ _ _ _ (posFree_many (posFree_num E) _ _ _ hab h)
  | xyz _ r g b h => exact .xyz _ _ _ _ (posFree_many (posFree_num E) _ _ _ hab h)
  | blackbody _ t s h => exact .blackbody _ _ _ (posFree_many (posFree_num E) _ _ _ hab h)

theorem dropped_free (E : Env F) (a b : List (Token F)) (hab : SameTy a b)
    (h : Dropped E a) : Dropped E b := by
  cases h with
  | none => rw [sameTy_nil hab]; exact .none
  | noValue p decl ty name hd ht =>
    obtain ⟨q, c, rfl, h⟩ := sameTy_cons hab
    rw [sameTy_nil h]; exact .noValue _ _ _ _ hd ht
  | unclosed p q decl ty name vs hd hv =>
    obtain ⟨p', c, rfl, h⟩ := sameTy_cons hab
    obtain ⟨q', c', rfl, h'⟩ := sameTy_cons h
    exact .unclosed _ _ _ _ _ _ hd (unclosed_free E _ _ _ h' hv)
  | oddSpectrum p decl name vs l hd hv hl =>
    obtain ⟨p', c, rfl, h⟩ := sameTy_cons hab
    exact .oddSpectrum _ _ _ _ _ hd (posFree_bracketed (posFree_num E) _ _ _ h hv) hl

theorem eraseSet_collect (ps : List (SParam F)) :
    eraseSet (collect ps) = collect (ps.map bare) := by
  induction ps with
  | nil => rfl
  | cons p ps ih =>
    obtain ⟨pos, name, v⟩ := p
    simp only [eraseSet, collect, ParamSet.mk.injEq] at ih ⊢
    cases v <;> simp_all [bare, eraseParam]

theorem paramsText_erase (E : Env F) {a : List (Token F)} {ps : List (SParam F)}
    (h : ParamsText E a ps) (b : List (Token F)) (hab : SameTy a b) :
    ∃ qs, ParamsText E b qs ∧ eraseSet (collect qs) = eraseSet (collect ps) := by
  obtain ⟨a1, d, rfl, h1, h2⟩ := h
  obtain ⟨b1, d', rfl, e1, e2⟩ := sameTy_append hab
  obtain ⟨qs, h3, h4⟩ := params_erase E h1 _ e1
  exact ⟨qs, ⟨b1, d', rfl, h3, dropped_free E _ _ e2 h2⟩, by
    rw [eraseSet_collect, eraseSet_collect, h4]⟩

theorem typed_erase (E : Env F) {key : String} {a : List (Token F)} {d : DirectiveStruct F}
    (h : Typed E key a d) (b : List (Token F)) (hab : SameTy a b) :
    ∃ d', Typed E key b d' ∧ eraseStruct d' = eraseStruct d := by
  obtain ⟨q, rest, ps, rfl, h1, h2⟩ := h
  obtain ⟨p', c, rfl, h3⟩ := sameTy_cons hab
  obtain ⟨q', c', rfl, h4⟩ := sameTy_cons h3
  obtain ⟨qs, h5, h6⟩ := paramsText_erase E h1 _ h4
  exact ⟨⟨d.ty, p', collect qs⟩, ⟨q', c', qs, rfl, h5, rfl⟩, by simp [eraseStruct, h2, h6]⟩

theorem pre_erase (E : Env F) {a : List (Token F)} {d : PreDirective F}
    (h : PreText E a d) (b : List (Token F)) (hab : SameTy a b) :
    ∃ d', PreText E b d' ∧ erasePre d' = erasePre d := by
  have nums := posFree_many (posFree_num E)
  cases h with
  | identity p =>
    obtain ⟨q, c, rfl, h⟩ := sameTy_cons hab
    rw [sameTy_nil h]; exact ⟨_, .identity q, rfl⟩
  | translate p ts x y z h =>
    obtain ⟨q, c, rfl, h1⟩ := sameTy_cons hab
    exact ⟨_, .translate q c x y z (nums _ _ _ h1 h), rfl⟩
  | scale p ts x y z h =>
    obtain ⟨q, c, rfl, h1⟩ := sameTy_cons hab
    exact ⟨_, .scale q c x y z (nums _ _ _ h1 h), rfl⟩
  | rotate p ts t x y z h =>
    obtain ⟨q, c, rfl, h1⟩ := sameTy_cons hab
    exact ⟨_, .rotate q c t x y z (nums _ _ _ h1 h), rfl⟩
  | lookAt p ts a b c d e f g h i hn =>
    obtain ⟨q, c', rfl, h1⟩ := sameTy_cons hab
    exact ⟨_, .lookAt q c' _ _ _ _ _ _ _ _ _ (nums _ _ _ h1 hn), rfl⟩
  | coordinateSystem p ts s h =>
    obtain ⟨q, c', rfl, h1⟩ := sameTy_cons hab
    exact ⟨_, .coordinateSystem q c' _ (posFree_str _ _ _ h1 h), rfl⟩
  | coordSysTransform p ts s h =>
    obtain ⟨q, c', rfl, h1⟩ := sameTy_cons hab
    exact ⟨_, .coordSysTransform q c' _ (posFree_str _ _ _ h1 h), rfl⟩
  | transform p ts a b c d e f g h i hn =>
    obtain ⟨q, c', rfl, h1⟩ := sameTy_cons hab
    exact ⟨_, .transform q c' _ _ _ _ _ _ _ _ _ (nums _ _ _ h1 hn), rfl⟩
  | concatTransform p ts a b c d e f g h i hn =>
    obtain ⟨q, c', rfl, h1⟩ := sameTy_cons hab
    exact ⟨_, .concatTransform q c' _ _ _ _ _ _ _ _ _ (nums _ _ _ h1 hn), rfl⟩
  | activeTransform p q s =>
    obtain ⟨q, c', rfl, h1⟩ := sameTy_cons hab
    obtain ⟨q', c', rfl, h2⟩ := sameTy_cons h1
    rw [sameTy_nil h2]
    exact ⟨_, .activeTransform _ _ s, rfl⟩
  | transformTimes p ts a b h =>
    obtain ⟨q, c, rfl, h1⟩ := sameTy_cons hab
    exact ⟨_, .transformTimes q c _ _ (nums _ _ _ h1 h), rfl⟩
  | camera ts d h =>
    obtain ⟨d', h1, h2⟩ := typed_erase E h b hab
    exact ⟨_, .camera _ _ h1, by simp [erasePre, h2]⟩
  | sampler ts d h =>
    obtain ⟨d', h1, h2⟩ := typed_erase E h b hab
    exact ⟨_, .sampler _ _ h1, by simp [erasePre, h2]⟩
  | film ts d h =>
    obtain ⟨d', h1, h2⟩ := typed_erase E h b hab
    exact ⟨_, .film _ _ h1, by simp [erasePre, h2]⟩
  | filter ts d h =>
    obtain ⟨d', h1, h2⟩ := typed_erase E h b hab
    exact ⟨_, .filter _ _ h1, by simp [erasePre, h2]⟩
  | integrator ts d h =>
    obtain ⟨d', h1, h2⟩ := typed_erase E h b hab
    exact ⟨_, .integrator _ _ h1, by simp [erasePre, h2]⟩
  | accelerator ts d h =>
    obtain ⟨d', h1, h2⟩ := typed_erase E h b hab
    exact ⟨_, .accelerator _ _ h1, by simp [erasePre, h2]⟩
  | incl p ts s h =>
    obtain ⟨q, c', rfl, h1⟩ := sameTy_cons hab
    exact ⟨_, .incl q c' _ (posFree_str _ _ _ h1 h), rfl⟩

theorem pres_erase (E : Env F) {a : List (Token F)} {ds : List (PreDirective F)}
    (h : Many (PreText E) a ds) : ∀ b, SameTy a b →
      ∃ es, Many (PreText E) b es ∧ es.map erasePre = ds.map erasePre := by
  induction h with
  | nil => intro b hab; rw [sameTy_nil hab]; exact ⟨[], .nil, rfl⟩
  | cons a1 a2 x xs h1 h2 ih =>
    intro b hab
    obtain ⟨b1, b2, rfl, e1, e2⟩ := sameTy_append hab
    obtain ⟨qs, h3, h4⟩ := ih b2 e2
    obtain ⟨y, h5, h6⟩ := pre_erase E h1 _ e1
    exact ⟨y :: qs, .cons _ _ _ _ h5 h3, by simp [h4, h6]⟩

theorem isBlock_erase {d e : Directive F} (h : eraseDir d = eraseDir e) :
    IsBlock d ↔ IsBlock e := by
  cases d <;> cases e <;> simp_all [eraseDir, IsBlock]

mutual
theorem dir_erase (E : Env F) {a : List (Token F)} {d : Directive F}
    (h : DirText E a d) (b : List (Token F)) (hab : SameTy a b) :
    ∃ d', DirText E b d' ∧ eraseDir d' = eraseDir d := by
  cases h with
  | material ts d h =>
    obtain ⟨d', h1, h2⟩ := typed_erase E h b hab
    exact ⟨_, .material _ _ h1, by simp [eraseDir, h2]⟩
  | shape ts d h =>
    obtain ⟨d', h1, h2⟩ := typed_erase E h b hab
    exact ⟨_, .shape _ _ h1, by simp [eraseDir, h2]⟩
  | lightSource ts d h =>
    obtain ⟨d', h1, h2⟩ := typed_erase E h b hab
    exact ⟨_, .lightSource _ _ h1, by simp [eraseDir, h2]⟩
  | areaLightSource ts d h =>
    obtain ⟨d', h1, h2⟩ := typed_erase E h b hab
    exact ⟨_, .areaLightSource _ _ h1, by simp [eraseDir, h2]⟩
  | «attribute» p ts ds h =>
    obtain ⟨q, c, rfl, h1⟩ := sameTy_cons hab
    obtain ⟨ds', h2, h3⟩ := dirs_erase E h _ h1
    exact ⟨_, .attribute q c ds' h2, by simp [eraseDir, h3]⟩
  | transform p ts ds h =>
    obtain ⟨q, c, rfl, h1⟩ := sameTy_cons hab
    obtain ⟨ds', h2, h3⟩ := dirs_erase E h _ h1
    exact ⟨_, .transform q c ds' h2, by simp [eraseDir, h3]⟩
  | world p ts ds h =>
    obtain ⟨q, c, rfl, h1⟩ := sameTy_cons hab
    obtain ⟨ds', h2, h3⟩ := dirs_erase E h _ h1
    exact ⟨_, .world q c ds' h2, by simp [eraseDir, h3]⟩
  | incl p ts s h =>
    obtain ⟨q, c', rfl, h1⟩ := sameTy_cons hab
    exact ⟨_, .incl q c' _ (posFree_str _ _ _ h1 h), rfl⟩
  | texture p q₁ q₂ q₃ name ty cls ts ps h =>
    obtain ⟨r0, c, rfl, h1⟩ := sameTy_cons hab
    obtain ⟨r1, c, rfl, h2⟩ := sameTy_cons h1
    obtain ⟨r2, c, rfl, h3⟩ := sameTy_cons h2
    obtain ⟨r3, c, rfl, h4⟩ := sameTy_cons h3
    obtain ⟨qs, h5, h6⟩ := paramsText_erase E h _ h4
    exact ⟨_, .texture r0 r1 r2 r3 name ty cls c qs h5, by simp [eraseDir, h6]⟩

theorem dirs_erase (E : Env F) {a : List (Token F)} {ds : List (Directive F)}
    (h : DirsText E a ds) (b : List (Token F)) (hab : SameTy a b) :
    ∃ es, DirsText E b es ∧ eraseDirs es = eraseDirs ds := by
  cases h with
  | nil => rw [sameTy_nil hab]; exact ⟨[], .nil, rfl⟩
  | block ts d hb h =>
    obtain ⟨d', h1, h2⟩ := dir_erase E h b hab
    exact ⟨[d'], .block _ _ ((isBlock_erase h2).2 hb) h1, by simp [eraseDirs, h2]⟩
  | cons a1 a2 d ds hb h hs =>
    obtain ⟨b1, b2, rfl, e1, e2⟩ := sameTy_append hab
    obtain ⟨d', h1, h2⟩ := dir_erase E h b1 e1
    obtain ⟨es, h3, h4⟩ := dirs_erase E hs b2 e2
    exact ⟨d' :: es, .cons _ _ _ _ (fun hn => hb ((isBlock_erase h2).1 hn)) h1 h3, by
      simp [eraseDirs, h2, h4]⟩
end

theorem accepts_erase (E : Env F) {a : List (Token F)} {pre : List (PreDirective F)}
    {w : Directive F} (h : Accepts E a pre w) (b : List (Token F)) (hab : SameTy a b) :
    ∃ pre' w', Accepts E b pre' w' ∧ erase (pre', w') = erase (pre, w) := by
  obtain ⟨x, p, body, e, rest, ds, rfl, h1, h2, ⟨q, s, rfl, hs⟩, rfl⟩ := h
  obtain ⟨y, c, rfl, e1, e2⟩ := sameTy_append hab
  obtain ⟨y1, y2, rfl, e3, e4⟩ := sameTy_append e1
  obtain ⟨p', body', rfl, e5⟩ := sameTy_cons e4
  obtain ⟨q', rest', rfl, e6⟩ := sameTy_cons e2
  obtain ⟨pre', h3, h4⟩ := pres_erase E h1 _ e3
  obtain ⟨ds', h5, h6⟩ := dirs_erase E h2 _ e5
  exact ⟨pre', .World p' ds', ⟨y1, p', body', kw q' s, rest', ds', rfl, h3, h5, ⟨q', s, rfl, hs⟩, rfl⟩,
    by simp [erase, h4, eraseDir, h6]⟩

theorem unfinished_erase (E : Env F) {a : List (Token F)} (h : Unfinished E a)
    (b : List (Token F)) (hab : SameTy a b) : Unfinished E b := by
  rcases h with ⟨pre, h⟩ | ⟨x, p, body, pre, ds, rfl, h1, h2⟩
  · obtain ⟨pre', h1, -⟩ := pres_erase E h b hab
    exact .inl ⟨pre', h1⟩
  · obtain ⟨y1, y2, rfl, e3, e4⟩ := sameTy_append hab
    obtain ⟨p', body', rfl, e5⟩ := sameTy_cons e4
    obtain ⟨pre', h3, h4⟩ := pres_erase E h1 _ e3
    obtain ⟨ds', h5, h6⟩ := dirs_erase E h2 _ e5
    exact .inr ⟨y1, p', body', pre', ds', rfl, h3, h5⟩

/-! ### Taking directives off the front of a world -/

theorem dir_unique (E : Env F) {a b r s : List (Token F)} {d e : Directive F}
    (ha : DirText E a d) (hb : DirText E b e) (hr : Stop r) (hs : Stop s)
    (hda : IsBlock d → ∃ t u, r = t :: u ∧ IsEnd t) (hdb : IsBlock e → ∃ t u, s = t :: u ∧ IsEnd t)
    (h : a ++ r = b ++ s) : a = b ∧ d = e ∧ r = s := by
  have h1 := parseDirective_ok E ha (2 * a.length + 2 * b.length) (by omega) [] hr hda
  have h2 := parseDirective_ok E hb (2 * a.length + 2 * b.length) (by omega) [] hs hdb
  rw [h, h2] at h1
  injection h1 with h3 h4
  injection h3 with h3
  have hlen : a.length = b.length := by
    have := congrArg Parser.index h4
    simpa [PS] using this.symm
  have := List.append_inj h hlen
  exact ⟨this.1, h3.symm, this.2⟩

theorem dirs_append (E : Env F) : ∀ {ds0 : List (Directive F)} {b : List (Token F)},
    DirsText E b ds0 → (∀ d ∈ ds0, ¬ IsBlock d) → ∀ {c : List (Token F)} {ds : List (Directive F)},
    DirsText E c ds → DirsText E (b ++ c) (ds0 ++ ds)
  | _, _, .nil, _, _, _, hc => hc
  | _, _, .block _ _ hb _, hn, _, _, _ => absurd hb (hn _ (by simp))
  | _, _, .cons a b d ds hb h hs, hn, c, ds', hc => by
    have := dirs_append E hs (fun d hd => hn d (by simp [hd])) hc
    rw [List.append_assoc, List.cons_append]
    exact .cons _ _ _ _ hb h this

theorem dirs_prefix (E : Env F) : ∀ {ds0 : List (Directive F)} {b : List (Token F)},
    DirsText E b ds0 → (∀ d ∈ ds0, ¬ IsBlock d) → ∀ {z body rest : List (Token F)} {e : Token F}
    {ds : List (Directive F)}, Stop z → DirsText E body ds → IsEnd e → b ++ z = body ++ e :: rest →
    ∃ body' ds', ds = ds0 ++ ds' ∧ z = body' ++ e :: rest ∧ DirsText E body' ds'
  | _, _, .nil, _, _, body, _, _, ds, _, hd, _, h => ⟨body, ds, rfl, h, hd⟩
  | _, _, .block _ _ hb _, hn, _, _, _, _, _, _, _, _, _ => absurd hb (hn _ (by simp))
  | _, _, .cons a b d ds0 hb h hs, hn, z, body, rest, e, ds, hz, hd, he, heq => by
    have hst : Stop (b ++ z) := stop_dirs hs hz
    rw [List.append_assoc] at heq
    cases hd with
    | nil =>
      obtain ⟨p, s, c, rfl, hk⟩ := dirText_head h
      obtain ⟨p', s', rfl, hs'⟩ := he
      simp only [List.cons_append, List.nil_append, List.cons.injEq] at heq
      injection heq.1 with _ h6
      injection h6 with h6
      subst h6
      exact absurd (by simpa using hs') (dirKeys_not_end hk)
    | block _ d' hb' h' =>
      obtain ⟨_, rfl, _⟩ := dir_unique E h h' hst (stop_end he rest) (fun x => absurd x hb)
        (fun _ => ⟨_, _, rfl, he⟩) heq
      exact absurd hb' hb
    | cons a' b' d' ds' hb' h' hs' =>
      rw [List.append_assoc] at heq
      obtain ⟨rfl, rfl, h8⟩ := dir_unique E h h' hst (stop_dirs hs' (stop_end he rest))
        (fun x => absurd x hb) (fun x => absurd x hb') heq
      obtain ⟨body', ds'', rfl, h9, h10⟩ := dirs_prefix E hs (fun d hd => hn d (by simp [hd])) hz hs' he h8
      exact ⟨body', ds'', rfl, h9, h10⟩

/-- Directives that are not blocks can be taken off the front of a world. -/
theorem accepts_contents (E : Env F) {b z : List (Token F)} {p : Pos} {ds0 : List (Directive F)}
    (hb : DirsText E b ds0) (hn : ∀ d ∈ ds0, ¬ IsBlock d) (hz : Stop z)
    {pre : List (PreDirective F)} {w : Directive F} :
    Accepts E (kw p "WorldBegin" :: (b ++ z)) pre w ↔
      ∃ ds, pre = [] ∧ w = .World p (ds0 ++ ds) ∧
        Accepts E (kw p "WorldBegin" :: z) [] (.World p ds) := by
  simp only [accepts_world]
  constructor
  · rintro ⟨rfl, body, e, rest, ds, h1, h2, h3, rfl⟩
    obtain ⟨body', ds', rfl, h4, h5⟩ := dirs_prefix E hb hn hz h2 h3 h1
    exact ⟨ds', rfl, rfl, trivial, body', e, rest, ds', h4, h5, h3, rfl⟩
  · rintro ⟨ds, rfl, rfl, -, body, e, rest, ds', rfl, h2, h3, h4⟩
    injection h4 with _ h4
    subst h4
    exact ⟨rfl, b ++ body, e, rest, ds0 ++ ds, by simp, dirs_append E hb hn h2, h3, rfl⟩

end Pbrt.Proof
