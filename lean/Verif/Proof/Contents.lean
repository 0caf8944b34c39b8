import Verif.Proof.ParseProps
import Verif.Spec.Contents

/-!
# Everything in a parse result comes from tokens
-/

namespace Pbrt.Proof
open Pbrt.Spec

variable {F : Type}

theorem many_mem {α τ : Type} {R : List τ → α → Prop} {a : List τ} {xs : List α}
    (h : Many R a xs) : ∀ x ∈ xs, ∃ b, (∀ t ∈ b, t ∈ a) ∧ R b x := by
  induction h with
  | nil => intro x hx; simp at hx
  | cons a b y ys h _ ih =>
    intro x hx
    rcases List.mem_cons.1 hx with rfl | hx
    · exact ⟨a, fun t ht => List.mem_append_left _ ht, h⟩
    · obtain ⟨c, h1, h2⟩ := ih x hx
      exact ⟨c, fun t ht => List.mem_append_right _ (h1 t ht), h2⟩

section
variable {T : Type} {R : List (Token F) → T → Prop}

theorem bracketed_mem {a : List (Token F)} {xs : List T} (h : Bracketed R a xs) :
    ∀ x ∈ xs, ∃ b, (∀ t ∈ b, t ∈ a) ∧ R b x := by
  obtain ⟨_, p, q, vs, rfl, h⟩ := h
  intro x hx
  obtain ⟨b, h1, h2⟩ := many_mem h x hx
  exact ⟨b, fun t ht => by simp [h1 t ht], h2⟩

theorem oneOrList_mem {a : List (Token F)} {xs : List T} (h : OneOrList R a xs) :
    ∀ x ∈ xs, ∃ b, (∀ t ∈ b, t ∈ a) ∧ R b x := by
  rcases h with ⟨y, h, rfl⟩ | h
  · intro x hx
    rw [List.mem_singleton] at hx
    subst hx
    exact ⟨a, fun _ h => h, h⟩
  · exact bracketed_mem h
end

theorem numTok_number {E : Env F} {b toks : List (Token F)} {x : F} (h : NumTok E b x)
    (hb : ∀ t ∈ b, t ∈ toks) : Number E toks x := by
  obtain ⟨p, rfl | ⟨i, rfl, rfl⟩⟩ := h
  · exact ⟨p, .inl (hb _ (by simp))⟩
  · exact ⟨p, .inr ⟨i, hb _ (by simp), rfl⟩⟩

theorem strTok_text {b toks : List (Token F)} {x : String} (h : StrTok b x)
    (hb : ∀ t ∈ b, t ∈ toks) : Text toks x := by
  obtain ⟨p, rfl⟩ := h
  exact ⟨p, hb _ (by simp)⟩

theorem nums_number {E : Env F} {a toks : List (Token F)} {xs : List F}
    (h : ∀ x ∈ xs, ∃ b, (∀ t ∈ b, t ∈ a) ∧ NumTok E b x) (ha : ∀ t ∈ a, t ∈ toks) :
    ∀ x ∈ xs, Number E toks x := by
  intro x hx
  obtain ⟨b, h1, h2⟩ := h x hx
  exact numTok_number h2 fun t ht => ha t (h1 t ht)

/-- What a parameter contributes. -/
theorem collect_from {E : Env F} {toks : List (Token F)} {ps : List (SParam F)}
    (h : ∀ p ∈ ps, ∃ a, (∀ t ∈ a, t ∈ toks) ∧ ParamText E a p) : FromToks E toks (collect ps) := by
  -- declaration and value of one parameter
  have one : ∀ p ∈ ps, ∃ ty vs, Declared E toks ty p.pos p.name ∧ (∀ t ∈ vs, t ∈ toks) ∧
      ValText E ty vs p.val := by
    intro p hp
    obtain ⟨a, h1, decl, ty, vs, rfl, h2, h3⟩ := h p hp
    exact ⟨ty, vs, ⟨decl, h1 _ (by simp), h2⟩, fun t ht => h1 t (by simp [ht]), h3⟩
  constructor
  · intro q hq
    simp only [collect, List.mem_filterMap] at hq
    obtain ⟨p, hp, hq⟩ := hq
    obtain ⟨ty, vs, h1, h2, h3⟩ := one p hp
    generalize p.val = v at hq h3
    cases h3 with
    | ints _ l h3 =>
      simp only [Option.some.injEq] at hq
      subst hq
      refine ⟨h1, fun v hv => ?_⟩
      obtain ⟨b, h4, q, rfl⟩ := oneOrList_mem h3 v hv
      exact ⟨q, h2 _ (h4 _ (by simp))⟩
    | _ => simp at hq
  · intro q hq
    simp only [collect, List.mem_filterMap] at hq
    obtain ⟨p, hp, hq⟩ := hq
    obtain ⟨ty, vs, h1, h2, h3⟩ := one p hp
    generalize p.val = v at hq h3
    cases h3 with
    | floats _ l h3 =>
      simp only [Option.some.injEq] at hq
      subst hq
      exact ⟨h1, nums_number (oneOrList_mem h3) h2⟩
    | _ => simp at hq
  · intro q hq
    simp only [collect, List.mem_filterMap] at hq
    obtain ⟨p, hp, hq⟩ := hq
    obtain ⟨ty, vs, h1, h2, h3⟩ := one p hp
    generalize p.val = v at hq h3
    cases h3 with
    | point2s _ l h3 =>
      simp only [Option.some.injEq] at hq
      subst hq
      refine ⟨h1, fun v hv => ?_⟩
      obtain ⟨b, h4, c, d, rfl, h5, h6⟩ := bracketed_mem h3 v hv
      exact ⟨numTok_number h5 fun t ht => h2 _ (h4 _ (by simp [ht])),
        numTok_number h6 fun t ht => h2 _ (h4 _ (by simp [ht]))⟩
    | _ => simp at hq
  · intro q hq
    simp only [collect, List.mem_filterMap] at hq
    obtain ⟨p, hp, hq⟩ := hq
    obtain ⟨ty, vs, h1, h2, h3⟩ := one p hp
    generalize p.val = v at hq h3
    cases h3 with
    | vector2s _ l h3 =>
      simp only [Option.some.injEq] at hq
      subst hq
      refine ⟨h1, fun v hv => ?_⟩
      obtain ⟨b, h4, c, d, rfl, h5, h6⟩ := bracketed_mem h3 v hv
      exact ⟨numTok_number h5 fun t ht => h2 _ (h4 _ (by simp [ht])),
        numTok_number h6 fun t ht => h2 _ (h4 _ (by simp [ht]))⟩
    | _ => simp at hq
  · intro q hq
    simp only [collect, List.mem_filterMap] at hq
    obtain ⟨p, hp, hq⟩ := hq
    obtain ⟨ty, vs, h1, h2, h3⟩ := one p hp
    generalize p.val = v at hq h3
    cases h3 with
    | bools _ l h3 =>
      simp only [Option.some.injEq] at hq
      subst hq
      refine ⟨h1, fun v hv => ?_⟩
      obtain ⟨b, h4, q, rfl⟩ := oneOrList_mem h3 v hv
      exact ⟨q, h2 _ (h4 _ (by simp))⟩
    | _ => simp at hq
  · intro q hq
    simp only [collect, List.mem_filterMap] at hq
    obtain ⟨p, hp, hq⟩ := hq
    obtain ⟨ty, vs, h1, h2, h3⟩ := one p hp
    generalize p.val = v at hq h3
    cases h3 with
    | strings _ l h3 =>
      simp only [Option.some.injEq] at hq
      subst hq
      refine ⟨h1, fun v hv => ?_⟩
      obtain ⟨b, h4, h5⟩ := oneOrList_mem h3 v hv
      exact strTok_text h5 fun t ht => h2 t (h4 t ht)
    | _ => simp at hq
  · intro q hq
    simp only [collect, List.mem_filterMap] at hq
    obtain ⟨p, hp, hq⟩ := hq
    obtain ⟨ty, vs, h1, h2, h3⟩ := one p hp
    generalize p.val = v at hq h3
    cases h3 with
    | texture _ s h3 =>
      simp only [Option.some.injEq] at hq
      subst hq
      refine ⟨h1, fun v hv => ?_⟩
      rw [List.mem_singleton] at hv
      subst hv
      exact strTok_text h3 h2
    | _ => simp at hq
  · intro q hq
    simp only [collect, List.mem_filterMap] at hq
    obtain ⟨p, hp, hq⟩ := hq
    obtain ⟨ty, vs, h1, h2, h3⟩ := one p hp
    refine ⟨ty, ?_⟩
    generalize p.val = v at hq h3
    cases h3 with
    | rgb _ r g b h3 =>
      simp only [Option.some.injEq] at hq
      subst hq
      refine ⟨h1, fun v hv => ?_⟩
      rw [List.mem_singleton] at hv
      subst hv
      exact ⟨rfl, nums_number (bracketed_mem h3) h2⟩
    | xyz _ r g b h3 =>
      simp only [Option.some.injEq] at hq
      subst hq
      refine ⟨h1, fun v hv => ?_⟩
      rw [List.mem_singleton] at hv
      subst hv
      exact ⟨rfl, nums_number (bracketed_mem h3) h2⟩
    | samples _ l ps h3 h4 =>
      simp only [Option.some.injEq] at hq
      subst hq
      refine ⟨h1, fun v hv => ?_⟩
      rw [List.mem_singleton] at hv
      subst hv
      refine ⟨rfl, fun x hx => ?_⟩
      have h5 := nums_number (bracketed_mem h3) h2
      rw [PairsOf] at h4
      subst h4
      exact ⟨h5 _ (List.mem_flatMap.2 ⟨x, hx, by simp⟩), h5 _ (List.mem_flatMap.2 ⟨x, hx, by simp⟩)⟩
    | file _ s h3 =>
      simp only [Option.some.injEq] at hq
      subst hq
      refine ⟨h1, fun v hv => ?_⟩
      rw [List.mem_singleton] at hv
      subst hv
      exact ⟨rfl, strTok_text h3 h2⟩
    | blackbody _ t s h3 =>
      simp only [Option.some.injEq] at hq
      subst hq
      refine ⟨h1, fun v hv => ?_⟩
      rw [List.mem_singleton] at hv
      subst hv
      exact ⟨rfl, nums_number (bracketed_mem h3) h2⟩
    | _ => simp at hq
  · exact ⟨rfl, rfl, rfl⟩

theorem params_from {E : Env F} {a toks : List (Token F)} {ps : List (SParam F)}
    (h : ParamsText E a ps) (ha : ∀ t ∈ a, t ∈ toks) : FromToks E toks (collect ps) := by
  obtain ⟨b, d, rfl, h1, _⟩ := h
  apply collect_from
  intro p hp
  obtain ⟨c, h2, h3⟩ := many_mem h1 p hp
  exact ⟨c, fun t ht => ha t (by simp [h2 t ht]), h3⟩

theorem idents_append (a b : List (Token F)) : idents (a ++ b) = idents a ++ idents b := by
  simp [idents]

theorem idents_kw (p : Pos) (s : String) (a : List (Token F)) :
    idents (kw p s :: a) = (p, s) :: idents a := by
  simp [idents, kw]

theorem idents_noId {a : List (Token F)} (h : NoId a) : idents a = [] := by
  unfold idents
  rw [List.filterMap_eq_nil_iff]
  rintro ⟨p, ty⟩ ht
  cases ty with
  | Identifier s => exact absurd ⟨p, s, rfl⟩ (h _ ht)
  | _ => rfl

/-- What is known about a directive read from the tokens `a`, part of `toks`. -/
structure DirFrom (E : Env F) (a toks : List (Token F)) (keys : List (Pos × String))
    (strs : List String) (sets : List (ParamSet F)) : Prop where
  keys : keys = idents a
  strs : ∀ s ∈ strs, Text toks s
  sets : ∀ s ∈ sets, FromToks E toks s

theorem typed_from {E : Env F} {key : String} {a toks : List (Token F)} {d : DirectiveStruct F}
    (h : Typed E key a d) (ha : ∀ t ∈ a, t ∈ toks) :
    DirFrom E a toks [(d.pos, key)] [d.ty] [d.paramSet] := by
  obtain ⟨b, hb, hn, _⟩ := typed_noId h
  obtain ⟨q, rest, ps, rfl, h1, h2⟩ := h
  refine ⟨?_, ?_, ?_⟩
  · rw [hb, idents_kw, idents_noId hn]
  · intro s hs
    rw [List.mem_singleton] at hs
    subst hs
    exact ⟨q, ha _ (by simp)⟩
  · intro s hs
    rw [List.mem_singleton] at hs
    subst hs
    rw [h2]
    exact params_from h1 fun t ht => ha t (by simp [ht])

mutual
theorem dir_from {E : Env F} {a toks : List (Token F)} {d : Directive F} (h : DirText E a d)
    (ha : ∀ t ∈ a, t ∈ toks) : DirFrom E a toks (dirKey d) (dirStrs d) (dirSets d) := by
  match h with
  | .material ts d h => rw [dirKey, dirStrs, dirSets]; exact typed_from h ha
  | .shape ts d h => rw [dirKey, dirStrs, dirSets]; exact typed_from h ha
  | .lightSource ts d h => rw [dirKey, dirStrs, dirSets]; exact typed_from h ha
  | .areaLightSource ts d h => rw [dirKey, dirStrs, dirSets]; exact typed_from h ha
  | .attribute p ts ds h =>
    rw [dirKey, dirStrs, dirSets]
    obtain ⟨h1, h2, h3⟩ := dirs_from h fun t ht => ha t (by simp [ht])
    exact ⟨by rw [idents_kw, h1], h2, h3⟩
  | .transform p ts ds h =>
    rw [dirKey, dirStrs, dirSets]
    obtain ⟨h1, h2, h3⟩ := dirs_from h fun t ht => ha t (by simp [ht])
    exact ⟨by rw [idents_kw, h1], h2, h3⟩
  | .world p ts ds h =>
    rw [dirKey, dirStrs, dirSets]
    obtain ⟨h1, h2, h3⟩ := dirs_from h fun t ht => ha t (by simp [ht])
    exact ⟨by rw [idents_kw, h1], h2, h3⟩
  | .incl p ts s h =>
    rw [dirKey, dirStrs, dirSets]
    refine ⟨by rw [idents_kw, idents_noId (noId_str _ _ h)], ?_, by simp⟩
    intro s' hs
    rw [List.mem_singleton] at hs
    subst hs
    exact strTok_text h fun t ht => ha t (by simp [ht])
  | .texture p q₁ q₂ q₃ name ty cls ts ps h =>
    rw [dirKey, dirStrs, dirSets]
    refine ⟨?_, ?_, ?_⟩
    · rw [idents_kw, idents_noId]
      exact noId_cons (not_isId _ _ (by simp)) (noId_cons (not_isId _ _ (by simp))
        (noId_cons (not_isId _ _ (by simp)) (noId_params h)))
    · intro s hs
      simp only [List.mem_cons, List.not_mem_nil, or_false] at hs
      rcases hs with rfl | rfl | rfl
      · exact ⟨q₁, ha _ (by simp)⟩
      · exact ⟨q₂, ha _ (by simp)⟩
      · exact ⟨q₃, ha _ (by simp)⟩
    · intro s hs
      rw [List.mem_singleton] at hs
      subst hs
      exact params_from h fun t ht => ha t (by simp [ht])
theorem dirs_from {E : Env F} {a toks : List (Token F)} {ds : List (Directive F)}
    (h : DirsText E a ds) (ha : ∀ t ∈ a, t ∈ toks) :
    DirFrom E a toks (dirKeyAll ds) (dirStrsAll ds) (dirSetsAll ds) := by
  match h with
  | .nil => exact ⟨by rw [dirKeyAll]; rfl, by rw [dirStrsAll]; simp, by rw [dirSetsAll]; simp⟩
  | .block ts d hb h =>
    rw [dirKeyAll, dirKeyAll, dirStrsAll, dirStrsAll, dirSetsAll, dirSetsAll, List.append_nil,
      List.append_nil, List.append_nil]
    exact dir_from h ha
  | .cons a b d ds hb h hs =>
    obtain ⟨h1, h2, h3⟩ := dir_from h fun t ht => ha t (by simp [ht])
    obtain ⟨h4, h5, h6⟩ := dirs_from hs fun t ht => ha t (by simp [ht])
    rw [dirKeyAll, dirStrsAll, dirSetsAll]
    refine ⟨by rw [idents_append, h1, h4], ?_, ?_⟩
    · intro s hs
      rcases List.mem_append.1 hs with hs | hs
      · exact h2 s hs
      · exact h5 s hs
    · intro s hs
      rcases List.mem_append.1 hs with hs | hs
      · exact h3 s hs
      · exact h6 s hs
end

/-- What is known about a pre-world directive read from the tokens `a`, part of `toks`. -/
structure PreFrom (E : Env F) (a toks : List (Token F)) (d : PreDirective F) : Prop where
  keys : List.Sublist [preKey d] (idents a)
  strs : ∀ s ∈ preStrs d, Text toks s
  nums : ∀ x ∈ preNums d, Number E toks x
  sets : ∀ s ∈ preSets d, FromToks E toks s
  active : ∀ p s, d = .ActiveTransform p s → ∃ q, kw q s ∈ toks

theorem pre_from {E : Env F} {a toks : List (Token F)} {d : PreDirective F} (h : PreText E a d)
    (ha : ∀ t ∈ a, t ∈ toks) : PreFrom E a toks d := by
  have typed : ∀ key (ds : DirectiveStruct F), Typed E key a ds → preKey d = (ds.pos, key) →
      preStrs d = [ds.ty] → preNums d = [] → preSets d = [ds.paramSet] →
      (∀ p s, d ≠ .ActiveTransform p s) → PreFrom E a toks d := by
    intro key ds h h1 h2 h3 h4 h5
    obtain ⟨h6, h7, h8⟩ := typed_from h ha
    exact ⟨by rw [h1, h6], by rw [h2]; exact h7, by rw [h3]; simp, by rw [h4]; exact h8,
      fun p s h => absurd h (h5 p s)⟩
  have nums : ∀ key p ts (l : List F), a = kw p key :: ts → Many (NumTok E) ts l →
      preKey d = (p, key) → preStrs d = [] → preNums d = l → preSets d = [] →
      (∀ p s, d ≠ .ActiveTransform p s) → PreFrom E a toks d := by
    rintro key p ts l rfl h h1 h2 h3 h4 h5
    refine ⟨by rw [h1, idents_kw]; simp, by rw [h2]; simp, ?_, by rw [h4]; simp,
      fun p s h => absurd h (h5 p s)⟩
    rw [h3]
    exact nums_number (many_mem h) fun t ht => ha t (by simp [ht])
  have str : ∀ key p ts s, a = kw p key :: ts → StrTok ts s →
      preKey d = (p, key) → preStrs d = [s] → preNums d = [] → preSets d = [] →
      (∀ p s, d ≠ .ActiveTransform p s) → PreFrom E a toks d := by
    rintro key p ts s rfl h h1 h2 h3 h4 h5
    refine ⟨by rw [h1, idents_kw]; simp, ?_, by rw [h3]; simp, by rw [h4]; simp,
      fun p s h => absurd h (h5 p s)⟩
    rw [h2]
    intro s' hs
    rw [List.mem_singleton] at hs
    subst hs
    exact strTok_text h fun t ht => ha t (by simp [ht])
  cases h with
  | identity p =>
    exact ⟨by rw [idents_kw]; simp [preKey], by simp [preStrs], by simp [preNums], by simp [preSets], by simp⟩
  | translate p ts x y z h => exact nums _ _ _ _ rfl h rfl rfl rfl rfl (by simp)
  | scale p ts x y z h => exact nums _ _ _ _ rfl h rfl rfl rfl rfl (by simp)
  | rotate p ts t x y z h => exact nums _ _ _ _ rfl h rfl rfl rfl rfl (by simp)
  | lookAt p ts _ _ _ _ _ _ _ _ _ h => exact nums _ _ _ _ rfl h rfl rfl rfl rfl (by simp)
  | transform p ts _ _ _ _ _ _ _ _ _ h => exact nums _ _ _ _ rfl h rfl rfl rfl rfl (by simp)
  | concatTransform p ts _ _ _ _ _ _ _ _ _ h => exact nums _ _ _ _ rfl h rfl rfl rfl rfl (by simp)
  | transformTimes p ts _ _ h => exact nums _ _ _ _ rfl h rfl rfl rfl rfl (by simp)
  | coordinateSystem p ts s h => exact str _ _ _ _ rfl h rfl rfl rfl rfl (by simp)
  | coordSysTransform p ts s h => exact str _ _ _ _ rfl h rfl rfl rfl rfl (by simp)
  | incl p ts s h => exact str _ _ _ _ rfl h rfl rfl rfl rfl (by simp)
  | activeTransform p q s =>
    refine ⟨by rw [idents_kw]; simp [preKey], by simp [preStrs], by simp [preNums],
      by simp [preSets], ?_⟩
    intro p' s' h
    injection h with _ h
    subst h
    exact ⟨q, ha _ (by simp)⟩
  | camera _ d h => exact typed _ _ h rfl rfl rfl rfl (by simp)
  | sampler _ d h => exact typed _ _ h rfl rfl rfl rfl (by simp)
  | film _ d h => exact typed _ _ h rfl rfl rfl rfl (by simp)
  | filter _ d h => exact typed _ _ h rfl rfl rfl rfl (by simp)
  | integrator _ d h => exact typed _ _ h rfl rfl rfl rfl (by simp)
  | accelerator _ d h => exact typed _ _ h rfl rfl rfl rfl (by simp)

theorem pres_from {E : Env F} {a toks : List (Token F)} {ds : List (PreDirective F)}
    (h : Many (PreText E) a ds) (ha : ∀ t ∈ a, t ∈ toks) :
    (ds.map preKey).Sublist (idents a) ∧
      ∀ d ∈ ds, (∀ s ∈ preStrs d, Text toks s) ∧ (∀ x ∈ preNums d, Number E toks x) ∧
        (∀ s ∈ preSets d, FromToks E toks s) ∧
        ∀ p s, d = .ActiveTransform p s → ∃ q, kw q s ∈ toks := by
  induction h with
  | nil => simp
  | cons a b d ds h hs ih =>
    obtain ⟨h1, h2, h3, h4, h5⟩ := pre_from h fun t ht => ha t (by simp [ht])
    obtain ⟨h6, h7⟩ := ih fun t ht => ha t (by simp [ht])
    constructor
    · rw [List.map_cons, idents_append]
      exact h1.append h6
    · intro d' hd
      rcases List.mem_cons.1 hd with rfl | hd
      · exact ⟨h2, h3, h4, h5⟩
      · exact h7 d' hd

/-! ### Text order -/

theorem before_trans {p q r : Pos} (h : Before p q) (h' : Before q r) : Before p r := by
  rcases h with h | ⟨h, h1⟩ <;> rcases h' with h' | ⟨h', h2⟩
  · exact .inl (by omega)
  · exact .inl (by omega)
  · exact .inl (by omega)
  · exact .inr ⟨by omega, by omega⟩

theorem before_snoc (a : List Char) (c : Char) : Before (posOf a) (posOf (a ++ [c])) := by
  rw [posOf_snoc]
  split
  · exact .inl (Nat.lt_succ_self _)
  · exact .inr ⟨rfl, Nat.lt_succ_self _⟩

theorem posOf_before (b a : List Char) (hb : b ≠ []) : Before (posOf a) (posOf (a ++ b)) := by
  induction b generalizing a with
  | nil => exact absurd rfl hb
  | cons c b ih =>
    by_cases h : b = []
    · subst h
      exact before_snoc a c
    · have := ih (a ++ [c]) h
      rw [List.append_assoc] at this
      exact before_trans (before_snoc a c) this

theorem posOf_take_before (all : List Char) {i j : Nat} (h : i < j) (hj : j ≤ all.length) :
    Before (posOf (all.take i)) (posOf (all.take j)) := by
  have : all.take j = all.take i ++ (all.drop i).take (j - i) := by
    rw [← List.take_add]
    congr 1
    omega
  rw [this]
  apply posOf_before
  intro h'
  have := congrArg List.length h'
  simp at this
  omega

theorem lex_before {E : Env F} {text : List Char} {toks : List (Token F)}
    (h : Lex E [] text toks) : toks.Pairwise fun s t => Before s.pos t.pos := by
  obtain ⟨offs, h1, h2⟩ := lex_offsets h
  clear h
  rw [List.nil_append] at h1
  induction h1 with
  | nil => exact List.Pairwise.nil
  | cons ho hs ih =>
    rw [List.pairwise_cons] at h2 ⊢
    refine ⟨?_, ih h2.2⟩
    intro t ht
    obtain ⟨i, hi, rfl⟩ := List.mem_iff_getElem.1 ht
    have hl := hs.length_eq
    have h3 := List.forall₂_iff_get.1 hs
    have h4 := h3.2 i (by omega) (by omega)
    rw [ho.2.2.1]
    have h5 := h4.2.2.1
    rw [List.get_eq_getElem] at h5
    dsimp only at h5
    rw [h5]
    exact posOf_take_before _ (h2.1 _ (List.getElem_mem _)) (Nat.le_of_lt h4.2.1)

end Pbrt.Proof
