import Verif.Spec.Spellings
import Verif.Proof.Reorder

/-!
# Several ways to write the same thing: proofs
-/

namespace Pbrt.Proof.Spellings

open Spec

variable {F : Type} {E : Env F}

theorem split {ts a b : List (Token F)} (h : List.Forall₂ (IntFor E) ts (a ++ b)) :
    ∃ a' b', ts = a' ++ b' ∧ List.Forall₂ (IntFor E) a' a ∧ List.Forall₂ (IntFor E) b' b := by
  induction a generalizing ts with
  | nil => exact ⟨[], ts, rfl, .nil, h⟩
  | cons x a ih =>
    cases h with
    | cons hx h =>
      obtain ⟨a', b', rfl, h1, h2⟩ := ih h
      exact ⟨_ :: a', b', rfl, .cons hx h1, h2⟩

theorem keep {t u : Token F} (h : IntFor E t u) (hu : ∀ x, u.ty ≠ .Float x) : t = u := by
  rcases h with h | ⟨p, i, rfl, rfl⟩
  · exact h
  · exact absurd rfl (hu _)

theorem first {ts : List (Token F)} {u : Token F} {us : List (Token F)}
    (h : List.Forall₂ (IntFor E) ts (u :: us)) (hu : ∀ x, u.ty ≠ .Float x) :
    ∃ ts', ts = u :: ts' ∧ List.Forall₂ (IntFor E) ts' us := by
  cases h with
  | cons hx h => exact ⟨_, by rw [keep hx hu], h⟩

/-- `Closed P`: what `P` accepts, it accepts with integers in place of their floats. -/
def Closed (E : Env F) {α : Type} (P : List (Token F) → α → Prop) : Prop :=
  ∀ ts us x, P us x → List.Forall₂ (IntFor E) ts us → P ts x

theorem many {α : Type} {P : List (Token F) → α → Prop} (hP : Closed E P) : Closed E (Many P) := by
  intro ts us xs h hf
  induction h generalizing ts with
  | nil => cases hf; exact .nil
  | cons a b x xs h _ ih =>
    obtain ⟨a', b', rfl, h1, h2⟩ := split hf
    exact .cons _ _ _ _ (hP _ _ _ h h1) (ih _ h2)

theorem int : Closed E (IntTok (F := F)) := by
  rintro ts us i ⟨p, rfl⟩ h
  obtain ⟨_, e0, hh⟩ := first h (by simp); clear h; subst e0; have h := hh; clear hh
  cases h
  exact ⟨p, rfl⟩

theorem str : Closed E (StrTok (F := F)) := by
  rintro ts us i ⟨p, rfl⟩ h
  obtain ⟨_, e0, hh⟩ := first h (by simp); clear h; subst e0; have h := hh; clear hh
  cases h
  exact ⟨p, rfl⟩

theorem bool : Closed E (BoolTok (F := F)) := by
  rintro ts us i ⟨p, rfl⟩ h
  obtain ⟨_, e0, hh⟩ := first h (by simp); clear h; subst e0; have h := hh; clear hh
  cases h
  exact ⟨p, rfl⟩

theorem num : Closed E (NumTok E) := by
  rintro ts us x ⟨p, rfl | ⟨i, rfl, rfl⟩⟩ h
  · cases h with
    | cons hx h =>
      cases h
      rcases hx with rfl | ⟨q, i, rfl, hx⟩
      · exact ⟨p, .inl rfl⟩
      · injection hx with h1 h2
        injection h2 with h2
        exact ⟨q, .inr ⟨i, rfl, h2⟩⟩
  · obtain ⟨_, e0, hh⟩ := first h (by simp); clear h; subst e0; have h := hh; clear hh
    cases h
    exact ⟨p, .inr ⟨i, rfl, rfl⟩⟩

theorem point : Closed E (PointTok E) := by
  rintro ts us x ⟨a, b, rfl, h1, h2⟩ h
  obtain ⟨a', b', rfl, h3, h4⟩ := split h
  exact ⟨a', b', rfl, num _ _ _ h1 h3, num _ _ _ h2 h4⟩

theorem vector : Closed E (VectorTok E) := by
  rintro ts us x ⟨a, b, rfl, h1, h2⟩ h
  obtain ⟨a', b', rfl, h3, h4⟩ := split h
  exact ⟨a', b', rfl, num _ _ _ h1 h3, num _ _ _ h2 h4⟩

theorem bracketed {α : Type} {P : List (Token F) → α → Prop} (hP : Closed E P) : Closed E (Bracketed P) := by
  rintro ts us xs ⟨hne, p, q, vs, rfl, hm⟩ h
  rw [List.cons_append] at h
  obtain ⟨ts, e0, hh⟩ := first h (by simp); clear h; subst e0; have h := hh; clear hh
  obtain ⟨a, b, rfl, h1, h2⟩ := split h
  obtain ⟨_, e0, hh⟩ := first h2 (by simp); clear h2; subst e0; have h2 := hh; clear hh
  cases h2
  exact ⟨hne, p, q, a, rfl, many hP _ _ _ hm h1⟩

theorem oneOrList {α : Type} {P : List (Token F) → α → Prop} (hP : Closed E P) : Closed E (OneOrList P) := by
  rintro ts us xs (⟨x, h1, rfl⟩ | h1) h
  · exact .inl ⟨x, hP _ _ _ h1 h, rfl⟩
  · exact .inr (bracketed hP _ _ _ h1 h)

theorem val {ty : String} : Closed E (ValText E ty) := by
  intro ts us x hx h
  cases hx with
  | ints _ _ h1 => exact .ints _ _ (oneOrList int _ _ _ h1 h)
  | floats _ _ h1 => exact .floats _ _ (oneOrList num _ _ _ h1 h)
  | point2s _ _ h1 => exact .point2s _ _ (bracketed point _ _ _ h1 h)
  | vector2s _ _ h1 => exact .vector2s _ _ (bracketed vector _ _ _ h1 h)
  | bools _ _ h1 => exact .bools _ _ (oneOrList bool _ _ _ h1 h)
  | strings _ _ h1 => exact .strings _ _ (oneOrList str _ _ _ h1 h)
  | rgb _ r g b h1 => exact .rgb _ r g b (bracketed num _ _ _ h1 h)
  | xyz _ r g b h1 => exact .xyz _ r g b (bracketed num _ _ _ h1 h)
  | samples _ l ps h1 hp => exact .samples _ l ps (bracketed num _ _ _ h1 h) hp
  | file _ _ h1 => exact .file _ _ (str _ _ _ h1 h)
  | blackbody _ t s h1 => exact .blackbody _ t s (bracketed num _ _ _ h1 h)
  | texture _ _ h1 => exact .texture _ _ (str _ _ _ h1 h)

theorem param : Closed E (ParamText E) := by
  rintro ts us x ⟨decl, ty, vs, rfl, h1, h2⟩ h
  obtain ⟨vs', e0, hh⟩ := first h (by simp); clear h; subst e0; have h := hh; clear hh
  exact ⟨decl, ty, vs', rfl, h1, val _ _ _ h2 h⟩

theorem unclosed {ty : String} {ts us : List (Token F)} (hx : Unclosed E ty us)
    (h : List.Forall₂ (IntFor E) ts us) : Unclosed E ty ts := by
  cases hx with
  | ints _ l h1 => exact .ints _ l (many int _ _ _ h1 h)
  | floats _ l h1 => exact .floats _ l (many num _ _ _ h1 h)
  | point2s _ l h1 => exact .point2s _ l (many point _ _ _ h1 h)
  | vector2s _ l h1 => exact .vector2s _ l (many vector _ _ _ h1 h)
  | bools _ l h1 => exact .bools _ l (many bool _ _ _ h1 h)
  | strings _ l h1 => exact .strings _ l (many str _ _ _ h1 h)
  | samples _ l h1 => exact .samples _ l (many num _ _ _ h1 h)
  | fixedNone _ h1 => cases h; exact .fixedNone _ h1
  | rgb _ r g b h1 => exact .rgb _ r g b (many num _ _ _ h1 h)
  | xyz _ r g b h1 => exact .xyz _ r g b (many num _ _ _ h1 h)
  | blackbody _ t s h1 => exact .blackbody _ t s (many num _ _ _ h1 h)

theorem dropped {ts us : List (Token F)} (hx : Dropped E us) (h : List.Forall₂ (IntFor E) ts us) :
    Dropped E ts := by
  cases hx with
  | none => cases h; exact .none
  | noValue p decl ty name hd ht =>
    obtain ⟨_, e0, hh⟩ := first h (by simp); clear h; subst e0; have h := hh; clear hh
    cases h
    exact .noValue p decl ty name hd ht
  | unclosed p q decl ty name vs hd hv =>
    obtain ⟨_, e0, hh⟩ := first h (by simp); clear h; subst e0; have h := hh; clear hh
    obtain ⟨_, e0, hh⟩ := first h (by simp); clear h; subst e0; have h := hh; clear hh
    exact .unclosed p q decl ty name _ hd (unclosed hv h)
  | oddSpectrum p decl name vs l hd hv hl =>
    obtain ⟨_, e0, hh⟩ := first h (by simp); clear h; subst e0; have h := hh; clear hh
    exact .oddSpectrum p decl name _ l hd (bracketed num _ _ _ hv h) hl

theorem params : Closed E (ParamsText E) := by
  rintro ts us ps ⟨a, d, rfl, h1, h2⟩ h
  obtain ⟨a', d', rfl, h3, h4⟩ := split h
  exact ⟨a', d', rfl, many param _ _ _ h1 h3, dropped h2 h4⟩

theorem typed {k : String} : Closed E (Typed E k) := by
  rintro ts us d ⟨q, rest, ps, rfl, h1, h2⟩ h
  obtain ⟨_, e0, hh⟩ := first h (by simp [kw]); clear h; subst e0; have h := hh; clear hh
  obtain ⟨_, e0, hh⟩ := first h (by simp); clear h; subst e0; have h := hh; clear hh
  exact ⟨q, _, ps, rfl, params _ _ _ h1 h, h2⟩

theorem pre : Closed E (PreText E) := by
  intro ts us d hd h
  cases hd with
  | identity p => obtain ⟨_, e0, hh⟩ := first h (by simp [kw]); clear h; subst e0; have h := hh; clear hh; cases h; exact .identity p
  | translate p vs x y z h1 =>
    obtain ⟨_, e0, hh⟩ := first h (by simp [kw]); clear h; subst e0; have h := hh; clear hh; exact .translate p _ x y z (many num _ _ _ h1 h)
  | scale p vs x y z h1 =>
    obtain ⟨_, e0, hh⟩ := first h (by simp [kw]); clear h; subst e0; have h := hh; clear hh; exact .scale p _ x y z (many num _ _ _ h1 h)
  | rotate p vs t x y z h1 =>
    obtain ⟨_, e0, hh⟩ := first h (by simp [kw]); clear h; subst e0; have h := hh; clear hh; exact .rotate p _ t x y z (many num _ _ _ h1 h)
  | lookAt p vs a b c d e f g i j h1 =>
    obtain ⟨_, e0, hh⟩ := first h (by simp [kw]); clear h; subst e0; have h := hh; clear hh
    exact .lookAt p _ a b c d e f g i j (many num _ _ _ h1 h)
  | coordinateSystem p vs s h1 =>
    obtain ⟨_, e0, hh⟩ := first h (by simp [kw]); clear h; subst e0; have h := hh; clear hh; exact .coordinateSystem p _ s (str _ _ _ h1 h)
  | coordSysTransform p vs s h1 =>
    obtain ⟨_, e0, hh⟩ := first h (by simp [kw]); clear h; subst e0; have h := hh; clear hh; exact .coordSysTransform p _ s (str _ _ _ h1 h)
  | transform p vs a b c d e f g i j h1 =>
    obtain ⟨_, e0, hh⟩ := first h (by simp [kw]); clear h; subst e0; have h := hh; clear hh
    exact .transform p _ a b c d e f g i j (many num _ _ _ h1 h)
  | concatTransform p vs a b c d e f g i j h1 =>
    obtain ⟨_, e0, hh⟩ := first h (by simp [kw]); clear h; subst e0; have h := hh; clear hh
    exact .concatTransform p _ a b c d e f g i j (many num _ _ _ h1 h)
  | activeTransform p q s =>
    obtain ⟨_, e0, hh⟩ := first h (by simp [kw]); clear h; subst e0; have h := hh; clear hh
    obtain ⟨_, e0, hh⟩ := first h (by simp [kw]); clear h; subst e0; have h := hh; clear hh
    cases h
    exact .activeTransform p q s
  | transformTimes p vs a b h1 =>
    obtain ⟨_, e0, hh⟩ := first h (by simp [kw]); clear h; subst e0; have h := hh; clear hh; exact .transformTimes p _ a b (many num _ _ _ h1 h)
  | camera _ _ h1 => exact .camera _ _ (typed _ _ _ h1 h)
  | sampler _ _ h1 => exact .sampler _ _ (typed _ _ _ h1 h)
  | film _ _ h1 => exact .film _ _ (typed _ _ _ h1 h)
  | filter _ _ h1 => exact .filter _ _ (typed _ _ _ h1 h)
  | integrator _ _ h1 => exact .integrator _ _ (typed _ _ _ h1 h)
  | accelerator _ _ h1 => exact .accelerator _ _ (typed _ _ _ h1 h)
  | incl p vs s h1 =>
    obtain ⟨_, e0, hh⟩ := first h (by simp [kw]); clear h; subst e0; have h := hh; clear hh; exact .incl p _ s (str _ _ _ h1 h)

mutual
theorem dir {ts us : List (Token F)} {d : Directive F} (hd : DirText E us d)
    (h : List.Forall₂ (IntFor E) ts us) : DirText E ts d := by
  cases hd with
  | material _ _ h1 => exact .material _ _ (typed _ _ _ h1 h)
  | shape _ _ h1 => exact .shape _ _ (typed _ _ _ h1 h)
  | lightSource _ _ h1 => exact .lightSource _ _ (typed _ _ _ h1 h)
  | areaLightSource _ _ h1 => exact .areaLightSource _ _ (typed _ _ _ h1 h)
  | «attribute» p _ ds h1 =>
    obtain ⟨_, e0, hh⟩ := first h (by simp [kw]); clear h; subst e0; have h := hh; clear hh; exact .«attribute» p _ ds (dirs h1 h)
  | transform p _ ds h1 =>
    obtain ⟨_, e0, hh⟩ := first h (by simp [kw]); clear h; subst e0; have h := hh; clear hh; exact .transform p _ ds (dirs h1 h)
  | world p _ ds h1 =>
    obtain ⟨_, e0, hh⟩ := first h (by simp [kw]); clear h; subst e0; have h := hh; clear hh; exact .world p _ ds (dirs h1 h)
  | incl p vs s h1 =>
    obtain ⟨_, e0, hh⟩ := first h (by simp [kw]); clear h; subst e0; have h := hh; clear hh; exact .incl p _ s (str _ _ _ h1 h)
  | texture p q₁ q₂ q₃ name ty cls _ ps h1 =>
    obtain ⟨_, e0, hh⟩ := first h (by simp [kw]); clear h; subst e0; have h := hh; clear hh
    obtain ⟨_, e0, hh⟩ := first h (by simp); clear h; subst e0; have h := hh; clear hh
    obtain ⟨_, e0, hh⟩ := first h (by simp); clear h; subst e0; have h := hh; clear hh
    obtain ⟨_, e0, hh⟩ := first h (by simp); clear h; subst e0; have h := hh; clear hh
    exact .texture p q₁ q₂ q₃ name ty cls _ ps (params _ _ _ h1 h)

theorem dirs {ts us : List (Token F)} {ds : List (Directive F)} (hd : DirsText E us ds)
    (h : List.Forall₂ (IntFor E) ts us) : DirsText E ts ds := by
  cases hd with
  | nil => cases h; exact .nil
  | block _ _ hb h1 => exact .block _ _ hb (dir h1 h)
  | cons a b d ds hb h1 h2 =>
    obtain ⟨a', b', rfl, h3, h4⟩ := split h
    exact .cons _ _ _ _ hb (dir h1 h3) (dirs h2 h4)
end

theorem accepts {ts us : List (Token F)} {ps : List (PreDirective F)} {w : Directive F}
    (hd : Accepts E us ps w) (h : List.Forall₂ (IntFor E) ts us) : Accepts E ts ps w := by
  obtain ⟨a, p, body, e, rest, ds, rfl, h1, h2, h3, h4⟩ := hd
  rw [List.append_assoc] at h
  obtain ⟨a', _, e0, k1, hh⟩ := split h; clear h; subst e0; have h := hh; clear hh
  rw [List.cons_append] at h
  obtain ⟨_, e0, hh⟩ := first h (by simp [kw]); clear h; subst e0; have h := hh; clear hh
  obtain ⟨body', _, e0, k2, hh⟩ := split h; clear h; subst e0; have h := hh; clear hh
  have he : ∀ x, e.ty ≠ .Float x := by
    obtain ⟨_, _, rfl, _⟩ := h3
    simp [kw]
  obtain ⟨rest', e0, hh⟩ := first h he; clear h; subst e0; have h := hh; clear hh
  exact ⟨a', p, body', e, rest', ds, by simp, many pre _ _ _ h1 k1, dirs h2 k2, h3, h4⟩

theorem unfinished {ts us : List (Token F)} (hd : Unfinished E us) (h : List.Forall₂ (IntFor E) ts us) :
    Unfinished E ts := by
  rcases hd with ⟨ps, h1⟩ | ⟨a, p, body, ps, ds, rfl, h1, h2⟩
  · exact .inl ⟨ps, many pre _ _ _ h1 h⟩
  · obtain ⟨a', _, e0, k1, hh⟩ := split h; clear h; subst e0; have h := hh; clear hh
    obtain ⟨_, e0, hh⟩ := first h (by simp [kw]); clear h; subst e0; have h := hh; clear hh
    exact .inr ⟨a', p, _, ps, ds, rfl, many pre _ _ _ h1 k1, dirs h2 h⟩

end Pbrt.Proof.Spellings
