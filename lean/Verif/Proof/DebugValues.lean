import Verif.Proof.DebugTree
import Verif.Props.Shown

/-! The trees of the types of the program are well-formed and tell values apart (C121). -/

namespace Pbrt.Proof.DebugTree

open Pbrt.Spec

/-- A tree for every value that tells the values apart -/
structure Good {A : Type} (tree : A → DTree) : Prop where
  wf : ∀ a, WF (tree a)
  inj : ∀ {a b}, tree a = tree b → a = b

theorem Good.iff {A : Type} {tree : A → DTree} (h : Good tree) (a b : A) : tree a = tree b ↔ a = b :=
  ⟨h.inj, fun e => e ▸ rfl⟩

theorem Good.tells {A : Type} {tree : A → DTree} (h : Good tree) : TellsApart tree := fun a b =>
  ⟨fun e => h.inj (flat_inj (h.wf a) (h.wf b) e), fun c e => h.inj (pretty_inj c (h.wf a) (h.wf b) e)⟩

/-- A name of a type, a variant or a field -/
def okName (s : String) : Bool := s ≠ "" && s.toList.all fun c => !marks.contains c

theorem okName_spec {s : String} (h : okName s = true) : Unmarked s.toList ∧ s.toList ≠ [] := by
  simp only [okName, Bool.and_eq_true, decide_eq_true_eq, List.all_eq_true, Bool.not_eq_true', List.contains_eq_mem,
    decide_eq_false_iff_not, ne_eq] at h
  exact ⟨h.2, fun e => h.1 (String.toList_eq_nil_iff.1 e)⟩

theorem wf_text {s : String} (h0 : s ≠ "") (hs : Unmarked s.toList) : WF (dText s) :=
  .plain _ hs fun e => h0 (String.toList_eq_nil_iff.1 e)

theorem wf_word {s : String} (h : okName s = true) : WF (dText s) := .plain _ (okName_spec h).1 (okName_spec h).2

theorem wf_list {ts : List DTree} (h : ∀ t ∈ ts, WF t) : WF (dList ts) := .list _ (wfs_of h)

theorem wf_variant {n : String} {t : DTree} {ts : List DTree} (hn : okName n = true) (h : ∀ u ∈ t :: ts, WF u) :
    WF (dVariant n (t :: ts)) :=
  .tuple _ _ _ (okName_spec hn).1 (h t (by simp)) (wfs_of fun u hu => h u (by simp [hu]))

theorem wf_tuple {t : DTree} {ts : List DTree} (h : ∀ u ∈ t :: ts, WF u) : WF (dTuple (t :: ts)) :=
  .tuple _ _ _ unmarked_nil (h t (by simp)) (wfs_of fun u hu => h u (by simp [hu]))

theorem wf_struct {n : String} {f : String × DTree} {fs : List (String × DTree)} (hn : okName n = true)
    (hf : ((f :: fs).map Prod.fst).all okName = true) (h : ∀ p ∈ f :: fs, WF p.2) : WF (dStruct n (f :: fs)) := by
  have key : ∀ p ∈ f :: fs, WF (.field p.1.toList p.2) := fun p hp =>
    have hk := okName_spec (List.all_eq_true.1 hf p.1 (List.mem_map_of_mem hp))
    .field _ _ hk.1 hk.2 (h p hp)
  refine .struct _ _ _ (okName_spec hn).1 (okName_spec hn).2 (key f (by simp)) (wfs_of fun u hu => ?_)
  obtain ⟨p, hp, rfl⟩ := List.mem_map.1 hu
  exact key p (by simp [hp])

theorem good_quoted {A : Type} {f : A → String} (h : ∀ a, Quoted (f a).toList) (hi : ∀ a b, f a = f b → a = b) :
    Good fun a => dText (f a) :=
  ⟨fun a => .quoted _ (h a), fun {a b} e => hi a b (String.toList_inj.1 (DTree.leaf.inj e))⟩

theorem good_text {A : Type} {f : A → String} (h : ∀ a, f a ≠ "" ∧ Unmarked (f a).toList) (hi : ∀ a b, f a = f b → a = b) :
    Good fun a => dText (f a) :=
  ⟨fun a => wf_text (h a).1 (h a).2, fun {a b} e => hi a b (String.toList_inj.1 (DTree.leaf.inj e))⟩

theorem good_list {A : Type} {tree : A → DTree} (h : Good tree) : Good fun l : List A => dList (l.map tree) where
  wf l := wf_list fun t ht => by
    obtain ⟨a, _, rfl⟩ := List.mem_map.1 ht
    exact h.wf a
  inj {a b} e := by
    have e' := (DTree.node.inj e).2.2
    exact (List.map_inj_right fun _ _ => h.inj).1 e'

/-! ### Numbers -/

theorem digit_unmarked {c : Char} (h : c.isDigit = true) : c ∉ marks := by
  have : marks.all (fun c => !c.isDigit) = true := by decide
  intro hc
  have := List.all_eq_true.1 this c hc
  simp [h] at this

theorem nat_digits (n : Nat) : ∀ c ∈ (toString n).toList, c.isDigit = true := fun c hc =>
  Nat.isDigit_of_mem_toDigits (b := 10) (n := n) (by decide) (by decide) (by simpa [toString, Nat.repr] using hc)

theorem nat_unmarked (n : Nat) : toString n ≠ "" ∧ Unmarked (toString n).toList := by
  refine ⟨fun e => ?_, fun c hc => digit_unmarked (nat_digits n c hc)⟩
  have := congrArg String.toList e
  simp [toString, Nat.repr] at this

theorem int_unmarked (i : Int) : toString i ≠ "" ∧ Unmarked (toString i).toList := by
  cases i with
  | ofNat n => exact nat_unmarked n
  | negSucc n =>
    have e : toString (Int.negSucc n) = "-" ++ toString (n + 1) := rfl
    rw [e]
    refine ⟨fun h => ?_, fun c hc => ?_⟩
    · have := congrArg String.toList h
      simp at this
    · rw [String.toList_append, List.mem_append] at hc
      rcases hc with hc | hc
      · have : c = '-' := by simpa using hc
        subst this; decide
      · exact digit_unmarked (nat_digits _ c hc)

theorem good_nat : Good natTree := good_text nat_unmarked fun _ _ => nat_text_inj
theorem good_int : Good intTree := good_text int_unmarked fun _ _ => int_text_inj
theorem good_bool : Good boolTree where
  wf b := by cases b <;> exact wf_word (by decide)
  inj {a b} e := by cases a <;> cases b <;> first | rfl | (exact absurd (DTree.leaf.inj e) (by decide))

theorem good_pos : Good Pos.tree where
  wf p := wf_struct (by decide) (by simp only [List.map]; decide) (by simp [good_nat.wf])
  inj {a b} e := by
    obtain ⟨r, c⟩ := a
    obtain ⟨r', c'⟩ := b
    simpa [Pos.tree, dStruct, good_nat.iff] using e

/-! ### The types of the program -/

section
variable {F : Type} {L : DebugLeaves F} (hL : Legible L)
include hL

theorem good_float : Good fun f => dText (L.float f) := good_text hL.float hL.floats
theorem good_str : Good fun s => dText (L.str s) := good_quoted hL.str hL.strs
theorem good_path : Good fun s => dText (L.path s) := good_quoted hL.path hL.paths

theorem good_vector2 : Good (Vector2.tree L) where
  wf v := wf_struct (by decide) (by simp only [List.map]; decide) (by simp [(good_float hL).wf])
  inj {a b} e := by
    cases a; cases b
    simpa [Vector2.tree, dStruct, (good_float hL).iff] using e

theorem good_vector3 : Good (Vector3.tree L) where
  wf v := wf_struct (by decide) (by simp only [List.map]; decide) (by simp [(good_float hL).wf])
  inj {a b} e := by
    cases a; cases b
    simpa [Vector3.tree, dStruct, (good_float hL).iff] using e

theorem good_point2 : Good (Point2.tree L) where
  wf v := wf_struct (by decide) (by simp only [List.map]; decide) (by simp [(good_float hL).wf])
  inj {a b} e := by
    cases a; cases b
    simpa [Point2.tree, dStruct, (good_float hL).iff] using e

theorem good_point3 : Good (Point3.tree L) where
  wf v := wf_struct (by decide) (by simp only [List.map]; decide) (by simp [(good_float hL).wf])
  inj {a b} e := by
    cases a; cases b
    simpa [Point3.tree, dStruct, (good_float hL).iff] using e

theorem good_normal3 : Good (Normal3.tree L) where
  wf v := wf_struct (by decide) (by simp only [List.map]; decide) (by simp [(good_float hL).wf])
  inj {a b} e := by
    cases a; cases b
    simpa [Normal3.tree, dStruct, (good_float hL).iff] using e

theorem good_matrix3 : Good (Matrix3.tree L) where
  wf v := by
    refine wf_struct (by decide) (by simp only [List.map]; decide) ?_
    simp only [List.mem_singleton, forall_eq]
    refine wf_list ?_
    simp only [List.mem_cons, List.not_mem_nil, or_false, forall_eq_or_imp, forall_eq]
    refine ⟨?_, ?_, ?_⟩ <;> exact wf_list (by simp [(good_float hL).wf])
  inj {a b} e := by
    cases a; cases b
    simp [Matrix3.tree, dStruct, dList, (good_float hL).iff] at e
    simp [e]

theorem good_row : ∀ (a : Matrix4 F) r, WF (a.rowTree L r) := fun a r => wf_list (by simp [(good_float hL).wf])

theorem good_matrix4 : Good (Matrix4.tree L) where
  wf v := by
    refine wf_struct (by decide) (by simp only [List.map]; decide) ?_
    simp only [List.mem_singleton, forall_eq]
    exact wf_list (by simp [good_row hL])
  inj {a b} e := by
    obtain ⟨a⟩ := a
    obtain ⟨b⟩ := b
    simp [Matrix4.tree, Matrix4.rowTree, dStruct, dList, (good_float hL).iff] at e
    congr 1
    funext r s
    match r, s with
    | 0, 0 => simp [e] | 0, 1 => simp [e] | 0, 2 => simp [e] | 0, 3 => simp [e]
    | 1, 0 => simp [e] | 1, 1 => simp [e] | 1, 2 => simp [e] | 1, 3 => simp [e]
    | 2, 0 => simp [e] | 2, 1 => simp [e] | 2, 2 => simp [e] | 2, 3 => simp [e]
    | 3, 0 => simp [e] | 3, 1 => simp [e] | 3, 2 => simp [e] | 3, 3 => simp [e]

theorem good_transform : Good (Transform.tree L) where
  wf t := wf_struct (by decide) (by simp only [List.map]; decide) (by simp [(good_matrix4 hL).wf])
  inj {a b} e := by
    cases a; cases b
    simpa [Transform.tree, dStruct, (good_matrix4 hL).iff] using e

theorem good_pair : Good fun p : F × F => dTuple [dText (L.float p.1), dText (L.float p.2)] where
  wf p := wf_tuple (by simp [(good_float hL).wf])
  inj {a b} e := by
    obtain ⟨a, a'⟩ := a
    obtain ⟨b, b'⟩ := b
    simpa [dTuple, (good_float hL).iff] using e

theorem good_spectrum : Good (Spectrum.tree L) where
  wf s := by
    cases s <;> refine wf_variant (by decide) ?_
    · simp [(good_float hL).wf]
    · simp [(good_float hL).wf]
    · simpa using (good_list (good_pair hL)).wf _
    · simp [(good_path hL).wf]
    · simp [(good_float hL).wf]
  inj {a b} e := by
    have k := @(good_list (good_pair hL)).iff
    cases a <;> cases b <;> simp [Spectrum.tree, dVariant, (good_float hL).iff, (good_path hL).iff, k] at e ⊢ <;> exact e

theorem good_tokenType : Good (TokenType.tree L) where
  wf s := by
    cases s
    · exact wf_variant (by decide) (by simp [(good_str hL).wf])
    · exact wf_variant (by decide) (by simp [good_int.wf])
    · exact wf_variant (by decide) (by simp [(good_float hL).wf])
    · exact wf_variant (by decide) (by simp [(good_str hL).wf])
    · exact wf_word (by decide)
    · exact wf_word (by decide)
  inj {a b} e := by
    cases a <;> cases b <;> simp [TokenType.tree, dVariant, good_int.iff, (good_float hL).iff, (good_str hL).iff] at e ⊢
    all_goals first | exact e | (simp [dText] at e)

theorem good_token : Good (Token.tree L) where
  wf t := wf_struct (by decide) (by simp only [List.map]; decide) (by simp [good_pos.wf, (good_tokenType hL).wf])
  inj {a b} e := by
    cases a; cases b
    simpa [Token.tree, dStruct, good_pos.iff, (good_tokenType hL).iff] using e

theorem good_error : Good (ParserError.tree L) where
  wf s := by
    cases s
    · exact wf_variant (by decide) (by simp [(good_str hL).wf])
    · exact wf_word (by decide)
  inj {a b} e := by
    cases a <;> cases b <;> simp [ParserError.tree, dVariant, (good_str hL).iff] at e ⊢
    all_goals first | exact e | (simp [dText] at e)

theorem good_param {S : Type} {value : S → DTree} (h : Good value) : Good (Param.tree L value) where
  wf t := by
    refine wf_struct (by decide) (by simp only [List.map]; decide) ?_
    have := (good_list h).wf t.values
    simp [good_pos.wf, (good_str hL).wf, this]
  inj {a b} e := by
    have k := @(good_list h).iff
    cases a; cases b
    simpa [Param.tree, dStruct, good_pos.iff, (good_str hL).iff, k] using e

theorem good_paramSet : Good (ParamSet.tree L) where
  wf t := by
    refine wf_struct (by decide) (by simp only [List.map]; decide) ?_
    have k1 := (good_list (good_param hL good_bool)).wf
    have k2 := (good_list (good_param hL good_int)).wf
    have k3 := (good_list (good_param hL (good_float hL))).wf
    have k4 := (good_list (good_param hL (good_point2 hL))).wf
    have k5 := (good_list (good_param hL (good_vector2 hL))).wf
    have k6 := (good_list (good_param hL (good_point3 hL))).wf
    have k7 := (good_list (good_param hL (good_vector3 hL))).wf
    have k8 := (good_list (good_param hL (good_normal3 hL))).wf
    have k9 := (good_list (good_param hL (good_spectrum hL))).wf
    have k10 := (good_list (good_param hL (good_str hL))).wf
    simp [k1, k2, k3, k4, k5, k6, k7, k8, k9, k10]
  inj {a b} e := by
    have k1 := @(good_list (good_param hL good_bool)).iff
    have k2 := @(good_list (good_param hL good_int)).iff
    have k3 := @(good_list (good_param hL (good_float hL))).iff
    have k4 := @(good_list (good_param hL (good_point2 hL))).iff
    have k5 := @(good_list (good_param hL (good_vector2 hL))).iff
    have k6 := @(good_list (good_param hL (good_point3 hL))).iff
    have k7 := @(good_list (good_param hL (good_vector3 hL))).iff
    have k8 := @(good_list (good_param hL (good_normal3 hL))).iff
    have k9 := @(good_list (good_param hL (good_spectrum hL))).iff
    have k10 := @(good_list (good_param hL (good_str hL))).iff
    cases a; cases b
    simpa [ParamSet.tree, dStruct, k1, k2, k3, k4, k5, k6, k7, k8, k9, k10] using e

theorem good_directiveStruct : Good (DirectiveStruct.tree L) where
  wf t := wf_struct (by decide) (by simp only [List.map]; decide) (by simp [good_pos.wf, (good_str hL).wf, (good_paramSet hL).wf])
  inj {a b} e := by
    cases a; cases b
    simpa [DirectiveStruct.tree, dStruct, good_pos.iff, (good_str hL).iff, (good_paramSet hL).iff] using e

theorem good_textureStruct : Good (TextureStruct.tree L) where
  wf t := wf_struct (by decide) (by simp only [List.map]; decide) (by simp [good_pos.wf, (good_str hL).wf, (good_paramSet hL).wf])
  inj {a b} e := by
    cases a; cases b
    simpa [TextureStruct.tree, dStruct, good_pos.iff, (good_str hL).iff, (good_paramSet hL).iff] using e

theorem good_preDirective : Good (PreDirective.tree L) where
  wf s := by
    cases s <;> exact wf_variant (by decide)
      (by simp [good_pos.wf, (good_str hL).wf, (good_path hL).wf, (good_float hL).wf, (good_vector3 hL).wf, (good_matrix3 hL).wf,
        (good_directiveStruct hL).wf])
  inj {a b} e := by
    cases a <;> cases b <;> simp [PreDirective.tree, dVariant, good_pos.iff, (good_str hL).iff, (good_path hL).iff, (good_float hL).iff,
      (good_vector3 hL).iff, (good_matrix3 hL).iff, (good_directiveStruct hL).iff] at e ⊢ <;> exact e

theorem wf_block (p : Pos) {ts : List DTree} (h : ∀ t ∈ ts, WF t) :
    WF (dStruct "BlockStruct" [("pos", p.tree), ("children", dList ts)]) :=
  wf_struct (by decide) (by simp only [List.map]; decide) (by simp [good_pos.wf, wf_list h])

mutual
theorem wf_directive : ∀ d : Directive F, WF (d.tree L)
  | .Material d => wf_variant (by decide) (by simp [(good_directiveStruct hL).wf])
  | .Shape d => wf_variant (by decide) (by simp [(good_directiveStruct hL).wf])
  | .LightSource d => wf_variant (by decide) (by simp [(good_directiveStruct hL).wf])
  | .AreaLightSource d => wf_variant (by decide) (by simp [(good_directiveStruct hL).wf])
  | .Attribute p ds => wf_variant (by decide) (by simpa using wf_block hL p (wf_directives ds))
  | .Transform p ds => wf_variant (by decide) (by simpa using wf_block hL p (wf_directives ds))
  | .World p ds => wf_variant (by decide) (by simpa using wf_block hL p (wf_directives ds))
  | .Include p s => wf_variant (by decide) (by simp [good_pos.wf, (good_path hL).wf])
  | .Texture t => wf_variant (by decide) (by simp [(good_textureStruct hL).wf])
theorem wf_directives : ∀ ds : List (Directive F), ∀ t ∈ Directive.trees L ds, WF t
  | [] => by simp [Directive.trees]
  | d :: ds => by
    simp only [Directive.trees, List.mem_cons, forall_eq_or_imp]
    exact ⟨wf_directive d, wf_directives ds⟩
end

mutual
theorem directive_inj : ∀ a b : Directive F, a.tree L = b.tree L → a = b
  | .Material d, b, e => by
    cases b <;> simp [Directive.tree, dVariant, (good_directiveStruct hL).iff] at e ⊢ <;> exact e
  | .Shape d, b, e => by
    cases b <;> simp [Directive.tree, dVariant, (good_directiveStruct hL).iff] at e ⊢ <;> exact e
  | .LightSource d, b, e => by
    cases b <;> simp [Directive.tree, dVariant, (good_directiveStruct hL).iff] at e ⊢ <;> exact e
  | .AreaLightSource d, b, e => by
    cases b <;> simp [Directive.tree, dVariant, (good_directiveStruct hL).iff] at e ⊢ <;> exact e
  | .Attribute p ds, b, e => by
    cases b <;> simp [Directive.tree, dVariant, dStruct, dList, good_pos.iff] at e ⊢
    exact ⟨e.1, directives_inj ds _ e.2⟩
  | .Transform p ds, b, e => by
    cases b <;> simp [Directive.tree, dVariant, dStruct, dList, good_pos.iff] at e ⊢
    exact ⟨e.1, directives_inj ds _ e.2⟩
  | .World p ds, b, e => by
    cases b <;> simp [Directive.tree, dVariant, dStruct, dList, good_pos.iff] at e ⊢
    exact ⟨e.1, directives_inj ds _ e.2⟩
  | .Include p s, b, e => by
    cases b <;> simp [Directive.tree, dVariant, good_pos.iff, (good_path hL).iff] at e ⊢ <;> exact e
  | .Texture t, b, e => by
    cases b <;> simp [Directive.tree, dVariant, (good_textureStruct hL).iff] at e ⊢ <;> exact e
theorem directives_inj : ∀ a b : List (Directive F), Directive.trees L a = Directive.trees L b → a = b
  | [], [], _ => rfl
  | [], b :: bs, e => by simp [Directive.trees] at e
  | a :: as, [], e => by simp [Directive.trees] at e
  | a :: as, b :: bs, e => by
    simp only [Directive.trees, List.cons.injEq] at e
    rw [directive_inj a b e.1, directives_inj as bs e.2]
end

theorem good_directive : Good (Directive.tree L) := ⟨wf_directive hL, fun {a b} => directive_inj hL a b⟩

theorem good_scene : Good (sceneTree L) where
  wf r := by
    refine wf_tuple ?_
    have := (good_list (good_preDirective hL)).wf r.1
    simp [this, (good_directive hL).wf]
  inj {a b} e := by
    have k := @(good_list (good_preDirective hL)).iff
    obtain ⟨a, a'⟩ := a
    obtain ⟨b, b'⟩ := b
    simpa [sceneTree, dTuple, k, (good_directive hL).iff] using e

end

end Pbrt.Proof.DebugTree
