import Verif.Proof.SceneEquality
import Verif.Props.Equality
import Verif.Props.Literals
import Verif.Props.Parsing

/-!
# C88: `==` on parse results
-/

namespace Pbrt

open Spec Proof UnitTests
open Float.Model (UnpackedFloat)

/-- **C88**: two paths are equal if they are spellings of the same path: repeated and final
    separators and single dots after a separator do not matter. -/
theorem C88_paths (a b : String) : pathEq a b = true ↔ SamePath a.toList b.toList := pathEq_iff a b

section
variable {T : Type} [Elem T]

/-- **C88**: two scenes are equal if they have the same shape (the same directives at the same
    positions, with the same strings and integers), pairwise equal floats and the same paths. -/
theorem C88_meaning (a b : List (PreDirective T) × Directive T) :
    sceneEq a b = true ↔ shapeScene a = shapeScene b ∧ List.Forall₂ Same (sceneFloats a) (sceneFloats b) ∧
      List.Forall₂ (fun s t => SamePath s.toList t.toList) (scenePaths a) (scenePaths b) :=
  cmp_scene.iff a b

/-- **C88**: the same for tokens. -/
theorem C88_tokens (a b : Token T) : a.eq b = true ↔ a.pos = b.pos ∧
    (a.ty = b.ty ∧ (∀ x, a.ty ≠ .Float x) ∨ ∃ x y, a.ty = .Float x ∧ b.ty = .Float y ∧ Same x y) := by
  obtain ⟨p, t⟩ := a
  obtain ⟨q, u⟩ := b
  cases t <;> cases u <;> simp [Token.eq, TokenType.eq, Same]

/-! ### Shape, floats and paths are everything -/

/-- Values with the same shape, floats and paths are identical. -/
structure Determined {S U : Type} (shape : S → U) (fl : S → List T) (pa : S → List String) : Prop where
  eq : ∀ a b, shape a = shape b → fl a = fl b → pa a = pa b → a = b
  len : ∀ a b, shape a = shape b → (fl a).length = (fl b).length ∧ (pa a).length = (pa b).length

omit [Elem T] in
theorem Determined.list {S U : Type} {shape : S → U} {fl : S → List T} {pa : S → List String}
    (h : Determined shape fl pa) :
    Determined (List.map shape) (fun l => l.flatMap fl) (fun l => l.flatMap pa) where
  eq l m := by
    induction l generalizing m with
    | nil => cases m <;> simp
    | cons a l ih => cases m with
      | nil => simp
      | cons b m =>
        intro h1 h2 h3
        rw [List.map_cons, List.map_cons, List.cons.injEq] at h1
        have := h.len a b h1.1
        obtain ⟨e1, e2⟩ := List.append_inj h2 this.1
        obtain ⟨e3, e4⟩ := List.append_inj h3 this.2
        rw [h.eq a b h1.1 e1 e3, ih m h1.2 e2 e4]
  len l m := by
    induction l generalizing m with
    | nil => cases m <;> simp
    | cons a l ih => cases m with
      | nil => simp
      | cons b m =>
        intro e
        rw [List.map_cons, List.map_cons, List.cons.injEq] at e
        have := h.len a b e.1
        have := ih m e.2
        simp only [List.flatMap_cons, List.length_append]
        omega

omit [Elem T] in
theorem Determined.params {S U : Type} {shape : S → U} {fl : S → List T} {pa : S → List String}
    (h : Determined shape fl pa) :
    Determined (List.map (shapeParam shape)) (paramParts fl) (paramParts pa) := by
  refine Determined.list (shape := shapeParam shape) (fl := fun p => p.values.flatMap fl)
    (pa := fun p => p.values.flatMap pa) ⟨?_, ?_⟩
  · rintro ⟨n, p, v⟩ ⟨n', p', v'⟩ h1 h2 h3
    simp only [shapeParam, Param.mk.injEq] at h1 ⊢
    exact ⟨h1.1, h1.2.1, h.list.eq _ _ h1.2.2 h2 h3⟩
  · rintro ⟨n, p, v⟩ ⟨n', p', v'⟩ h1
    simp only [shapeParam, Param.mk.injEq] at h1
    exact h.list.len _ _ h1.2.2

theorem det_spectrum : Determined (T := T) shapeSpectrum spectrumFloats spectrumPaths := by
  refine ⟨fun a b => ?_, cmp_spectrum.len⟩
  cases a <;> cases b <;> simp [shapeSpectrum, spectrumFloats, spectrumPaths]
  rename_i l m
  intro h1 h2
  refine (Determined.list (T := T) (shape := fun _ : T × T => ()) (fl := fun s => [s.1, s.2])
    (pa := fun _ => []) ⟨?_, by simp⟩).eq l m ?_ h2 ?_
  · rintro ⟨a, b⟩ ⟨c, d⟩ _ h _; simpa using h
  · simpa using h1
  · simp [flatMap_nothing]

theorem det_set : Determined (T := T) shapeSet setFloats setPaths := by
  refine ⟨?_, cmp_set.len⟩
  rintro ⟨a1, a2, a3, a4, a5, a6, a7, a8, a9, a10, a11⟩ ⟨b1, b2, b3, b4, b5, b6, b7, b8, b9, b10, b11⟩ h1 h2 h3
  simp only [shapeSet, ParamSet.mk.injEq] at h1
  obtain ⟨s1, s2, s3, s4, s5, s6, s7, s8, s9, s10, s11⟩ := h1
  have d3 := Determined.params (T := T) (shape := fun _ : T => ()) (fl := fun x => [x]) (pa := fun _ => [])
    ⟨by simp, by simp⟩
  have d4 := Determined.params (T := T) (shape := fun _ : Point2 T => (⟨(), ()⟩ : Point2 Unit))
    (fl := fun p => [p.x, p.y]) (pa := fun _ => []) ⟨by rintro ⟨⟩ ⟨⟩; simp, by simp⟩
  have d5 := Determined.params (T := T) (shape := fun _ : Vector2 T => (⟨(), ()⟩ : Vector2 Unit))
    (fl := fun p => [p.x, p.y]) (pa := fun _ => []) ⟨by rintro ⟨⟩ ⟨⟩; simp, by simp⟩
  have d6 := Determined.params (T := T) (shape := fun _ : Point3 T => (⟨(), (), ()⟩ : Point3 Unit))
    (fl := fun p => [p.x, p.y, p.z]) (pa := fun _ => []) ⟨by rintro ⟨⟩ ⟨⟩; simp, by simp⟩
  have d7 := Determined.params (T := T) (shape := fun _ : Vector3 T => (⟨(), (), ()⟩ : Vector3 Unit))
    (fl := fun p => [p.x, p.y, p.z]) (pa := fun _ => []) ⟨by rintro ⟨⟩ ⟨⟩; simp, by simp⟩
  have d8 := Determined.params (T := T) (shape := fun _ : Normal3 T => (⟨(), (), ()⟩ : Normal3 Unit))
    (fl := fun p => [p.x, p.y, p.z]) (pa := fun _ => []) ⟨by rintro ⟨⟩ ⟨⟩; simp, by simp⟩
  have d9 := det_spectrum.params (T := T)
  simp only [setFloats] at h2
  obtain ⟨h2, e9⟩ := List.append_inj' h2 (d9.len _ _ s9).1
  obtain ⟨h2, e8⟩ := List.append_inj' h2 (d8.len _ _ s8).1
  obtain ⟨h2, e7⟩ := List.append_inj' h2 (d7.len _ _ s7).1
  obtain ⟨h2, e6⟩ := List.append_inj' h2 (d6.len _ _ s6).1
  obtain ⟨h2, e5⟩ := List.append_inj' h2 (d5.len _ _ s5).1
  obtain ⟨e3, e4⟩ := List.append_inj' h2 (d4.len _ _ s4).1
  have n : ∀ {S : Type} (l : List (Param S)), paramParts (fun _ => ([] : List String)) l = [] := fun l => by
    simp [paramParts, flatMap_nothing]
  rw [s1, s2, d3.eq _ _ s3 e3 (by rw [n, n]), d4.eq _ _ s4 e4 (by rw [n, n]), d5.eq _ _ s5 e5 (by rw [n, n]),
    d6.eq _ _ s6 e6 (by rw [n, n]), d7.eq _ _ s7 e7 (by rw [n, n]), d8.eq _ _ s8 e8 (by rw [n, n]),
    d9.eq _ _ s9 e9 h3, s10, s11]

theorem det_struct : Determined (T := T) shapeStruct (fun d => setFloats d.paramSet) (fun d => setPaths d.paramSet) := by
  refine ⟨?_, cmp_struct.len⟩
  rintro ⟨a, b, c⟩ ⟨a', b', c'⟩ h1 h2 h3
  simp only [shapeStruct, DirectiveStruct.mk.injEq] at h1 ⊢
  exact ⟨h1.1, h1.2.1, det_set.eq _ _ h1.2.2 h2 h3⟩

omit [Elem T] in
theorem vector_parts (a b : Vector3 T) : a = b ↔ a.x = b.x ∧ a.y = b.y ∧ a.z = b.z := by
  cases a; cases b; simp

omit [Elem T] in
theorem matrix_parts (a b : Matrix3 T) : a = b ↔ a.m00 = b.m00 ∧ a.m01 = b.m01 ∧ a.m02 = b.m02 ∧
    a.m10 = b.m10 ∧ a.m11 = b.m11 ∧ a.m12 = b.m12 ∧ a.m20 = b.m20 ∧ a.m21 = b.m21 ∧ a.m22 = b.m22 := by
  cases a; cases b; simp

theorem det_pre : Determined (T := T) shapePre preFloats prePaths := by
  refine ⟨fun a b => ?_, cmp_pre.len⟩
  cases a <;> cases b <;> simp [shapePre, preFloats, prePaths, vector_parts, matrix_parts]
  all_goals first
    | exact fun h1 h2 h3 => det_struct.eq _ _ h1 h2 h3
    | (intros; simp_all)

mutual
theorem det_dir (a b : Directive T) (h1 : shapeDir a = shapeDir b) (h2 : dirFloats a = dirFloats b)
    (h3 : dirPaths a = dirPaths b) : a = b := by
  cases a with
  | Attribute p ds => cases b <;> simp [shapeDir, dirFloats, dirPaths] at *; exact ⟨h1.1, det_dirs ds _ h1.2 h2 h3⟩
  | Transform p ds => cases b <;> simp [shapeDir, dirFloats, dirPaths] at *; exact ⟨h1.1, det_dirs ds _ h1.2 h2 h3⟩
  | World p ds => cases b <;> simp [shapeDir, dirFloats, dirPaths] at *; exact ⟨h1.1, det_dirs ds _ h1.2 h2 h3⟩
  | Texture t =>
    cases b with
    | Texture u =>
      obtain ⟨n, ty, c, p, s⟩ := t
      obtain ⟨n', ty', c', p', s'⟩ := u
      simp only [shapeDir, dirFloats, dirPaths, Directive.Texture.injEq, TextureStruct.mk.injEq] at *
      exact ⟨h1.1, h1.2.1, h1.2.2.1, h1.2.2.2.1, det_set.eq _ _ h1.2.2.2.2 h2 h3⟩
    | _ => simp [shapeDir] at h1
  | Include p s => cases b <;> simp [shapeDir, dirFloats, dirPaths] at *; exact ⟨h1, h3⟩
  | _ => cases b <;> simp [shapeDir, dirFloats, dirPaths] at *; exact det_struct.eq _ _ h1 h2 h3
theorem det_dirs (l m : List (Directive T)) (h1 : shapeDirs l = shapeDirs m) (h2 : dirsFloats l = dirsFloats m)
    (h3 : dirsPaths l = dirsPaths m) : l = m := by
  cases l with
  | nil => cases m with
    | nil => rfl
    | cons => simp [shapeDirs] at h1
  | cons a l => cases m with
    | nil => simp [shapeDirs] at h1
    | cons b m =>
      simp only [shapeDirs, List.cons.injEq] at h1
      have := cmp_dir_len a b h1.1
      rw [dirsFloats, dirsFloats] at h2
      rw [dirsPaths, dirsPaths] at h3
      obtain ⟨e1, e2⟩ := List.append_inj h2 this.1
      obtain ⟨e3, e4⟩ := List.append_inj h3 this.2
      rw [det_dir a b h1.1 e1 e3, det_dirs l m h1.2 e2 e4]
end

/-- **C88**: nothing else is in a scene: scenes with the same shape, floats and paths are identical. -/
theorem C88_complete (a b : List (PreDirective T) × Directive T) (h1 : shapeScene a = shapeScene b)
    (h2 : sceneFloats a = sceneFloats b) (h3 : scenePaths a = scenePaths b) : a = b := by
  obtain ⟨p, w⟩ := a
  obtain ⟨q, v⟩ := b
  simp only [shapeScene, Prod.mk.injEq] at h1
  have := det_pre.list.len _ _ h1.1
  obtain ⟨e1, e2⟩ := List.append_inj h2 this.1
  obtain ⟨e3, e4⟩ := List.append_inj h3 this.2
  rw [det_pre.list.eq _ _ h1.1 e1 e3, det_dir _ _ h1.2 e2 e4]

end

section
variable {T : Type} [Elem T] [LawfulOrder T]

theorem forall₂_symm {A : Type} {R : A → A → Prop} (hR : ∀ a b, R a b → R b a) {l m : List A}
    (h : List.Forall₂ R l m) : List.Forall₂ R m l :=
  h.flip.imp fun _ _ => hR _ _

theorem forall₂_trans {A : Type} {R : A → A → Prop} (hR : ∀ a b c, R a b → R b c → R a c) {l m n : List A}
    (h : List.Forall₂ R l m) (h' : List.Forall₂ R m n) : List.Forall₂ R l n := by
  induction h generalizing n with
  | nil => cases h'; exact .nil
  | cons e _ ih => cases h' with | cons e' h' => exact .cons (hR _ _ _ e e') (ih h')

/-- **C88**: `==` is symmetric and transitive, and a scene is equal to itself exactly if it has no
    NaN. -/
theorem C88_laws :
    (∀ a b : List (PreDirective T) × Directive T, sceneEq a b = sceneEq b a) ∧
    (∀ a b c : List (PreDirective T) × Directive T, sceneEq a b = true → sceneEq b c = true → sceneEq a c = true) ∧
    (∀ a : List (PreDirective T) × Directive T, sceneEq a a = true ↔ ∀ x ∈ sceneFloats a, NotNan x) := by
  have symm : ∀ a b : List (PreDirective T) × Directive T, sceneEq a b = true → sceneEq b a = true := by
    intro a b
    rw [C88_meaning, C88_meaning]
    rintro ⟨h1, h2, h3⟩
    exact ⟨h1.symm, forall₂_symm (fun _ _ h => same_symm h) h2, forall₂_symm (fun _ _ h => .symm h) h3⟩
  refine ⟨fun a b => Bool.eq_iff_iff.2 ⟨symm a b, symm b a⟩, fun a b c => ?_, fun a => ?_⟩
  · rw [C88_meaning, C88_meaning, C88_meaning]
    rintro ⟨h1, h2, h3⟩ ⟨h4, h5, h6⟩
    exact ⟨h1.trans h4, forall₂_trans (R := Same) (fun _ _ _ h h' => same_trans h h') h2 h5,
      forall₂_trans (R := fun s t : String => SamePath s.toList t.toList) (fun _ _ _ h h' => .trans h h') h3 h6⟩
  · rw [C88_meaning, List.forall₂_same, List.forall₂_same]
    constructor
    · exact fun h x hx => same_refl.1 (h.2.1 x hx)
    · exact fun h => ⟨rfl, fun x hx => same_refl.2 (h x hx), fun _ _ => .refl _⟩

/-! ### Positions count -/

omit [Elem T] [LawfulOrder T] in
theorem preKey_shape (d : PreDirective T) : preKey (shapePre d) = preKey d := by
  cases d <;> rfl

omit [Elem T] [LawfulOrder T] in
mutual
theorem dirKey_shape (d : Directive T) : dirKey (shapeDir d) = dirKey d := by
  cases d with
  | Attribute p ds => simp [shapeDir, dirKey, dirKey_shapes ds]
  | Transform p ds => simp [shapeDir, dirKey, dirKey_shapes ds]
  | World p ds => simp [shapeDir, dirKey, dirKey_shapes ds]
  | _ => rfl
theorem dirKey_shapes (ds : List (Directive T)) : dirKeyAll (shapeDirs ds) = dirKeyAll ds := by
  cases ds with
  | nil => rfl
  | cons d ds => simp [shapeDirs, dirKeyAll, dirKey_shape d, dirKey_shapes ds]
end

omit [LawfulOrder T] in
/-- **C88**: equal scenes have the same keywords at the same positions. -/
theorem C88_positions (a b : List (PreDirective T) × Directive T) (h : sceneEq a b = true) :
    a.1.map preKey = b.1.map preKey ∧ dirKey a.2 = dirKey b.2 := by
  have := ((C88_meaning a b).1 h).1
  simp only [shapeScene, Prod.mk.injEq] at this
  have h1 := congrArg (List.map preKey) this.1
  have h2 := congrArg dirKey this.2
  simp only [List.map_map, Function.comp_def, preKey_shape] at h1
  rw [dirKey_shape, dirKey_shape] at h2
  exact ⟨h1, h2⟩

/-! ### Parsing twice -/

variable {E : Env T}

omit [Elem T] [LawfulOrder T] in
theorem setFloats_from {toks : List (Token T)} {s : ParamSet T} (h : FromToks E toks s) :
    ∀ x ∈ setFloats s, Number E toks x := by
  intro x hx
  obtain ⟨o1, o2, o3⟩ := h.others
  simp only [setFloats, o1, o2, o3, paramParts, List.mem_append, List.mem_flatMap, List.flatMap_nil,
    List.not_mem_nil, or_false, List.mem_cons] at hx
  rcases hx with (((⟨p, hp, v, hv, rfl⟩ | ⟨p, hp, v, hv, hx⟩) | ⟨p, hp, v, hv, hx⟩) | ⟨p, hp, v, hv, hx⟩)
  · exact (h.floats p hp).2 _ hv
  · rcases hx with rfl | rfl
    · exact ((h.point2fs p hp).2 v hv).1
    · exact ((h.point2fs p hp).2 v hv).2
  · rcases hx with rfl | rfl
    · exact ((h.vector2fs p hp).2 v hv).1
    · exact ((h.vector2fs p hp).2 v hv).2
  · obtain ⟨ty, _, hs⟩ := h.spectra p hp
    have := hs v hv
    cases v with
    | Rgb r g b => exact this.2 x hx
    | Xyz r g b => exact this.2 x hx
    | Spectrum l =>
      simp only [spectrumFloats, List.mem_flatMap, List.mem_cons, List.not_mem_nil, or_false] at hx
      obtain ⟨s, hs, rfl | rfl⟩ := hx
      · exact (this.2 s hs).1
      · exact (this.2 s hs).2
    | File s => simp [spectrumFloats] at hx
    | Blackbody r g => exact this.2 x hx

omit [Elem T] [LawfulOrder T] in
mutual
theorem dirFloats_sets (d : Directive T) : dirFloats d = (dirSets d).flatMap setFloats := by
  cases d with
  | Attribute p ds => simpa [dirFloats, dirSets] using dirsFloats_sets ds
  | Transform p ds => simpa [dirFloats, dirSets] using dirsFloats_sets ds
  | World p ds => simpa [dirFloats, dirSets] using dirsFloats_sets ds
  | _ => simp [dirFloats, dirSets]
theorem dirsFloats_sets (ds : List (Directive T)) : dirsFloats ds = (dirSetsAll ds).flatMap setFloats := by
  cases ds with
  | nil => rfl
  | cons d ds => simp [dirsFloats, dirSetsAll, dirFloats_sets d, dirsFloats_sets ds]
end

omit [Elem T] [LawfulOrder T] in
theorem preFloats_sets (d : PreDirective T) : preFloats d = preNums d ++ (preSets d).flatMap setFloats := by
  cases d <;> simp [preFloats, preNums, preSets]

omit [Elem T] [LawfulOrder T] in
/-- **C88**: every float of a scene is a number of the text. -/
theorem C88_numbers {toks : List (Token T)} {s : List (PreDirective T) × Directive T}
    (h : parseTokens E toks = .ok s) : ∀ x ∈ sceneFloats s, Number E toks x := by
  obtain ⟨_, _, h1, _, h2⟩ := C25_nothing_invented toks s.1 s.2 h
  intro x hx
  rw [sceneFloats, List.mem_append, dirFloats_sets, List.mem_flatMap, List.mem_flatMap] at hx
  rcases hx with ⟨d, hd, hx⟩ | ⟨ps, hps, hx⟩
  · rw [preFloats_sets, List.mem_append, List.mem_flatMap] at hx
    rcases hx with hx | ⟨ps, hps, hx⟩
    · exact h1 x (List.mem_flatMap.2 ⟨d, hd, hx⟩)
    · exact setFloats_from (h2 ps (List.mem_append_left _ (List.mem_flatMap.2 ⟨d, hd, hps⟩))) x hx
  · exact setFloats_from (h2 ps (List.mem_append_right _ hps)) x hx

/-- **C88**: parsing a text twice gives equal scenes, if no number of the text is NaN. -/
theorem C88_twice {text : List Char} {toks : List (Token T)} {s : List (PreDirective T) × Directive T}
    (ht : tokenize E text = .ok toks) (h : parse E text = .ok s) (hn : ∀ x, Number E toks x → NotNan x) :
    sceneEq s s = true := by
  obtain ⟨toks', h1, h2⟩ := parse_ok h
  have := h1.symm.trans ht
  cases this
  exact (C88_laws.2.2 s).2 fun x hx => hn x (C88_numbers h2 x hx)

end

section
variable {T : Type} [Elem T] [As T T] [FloatFns T] [IEEE T]
attribute [local instance] ieee_lawful

/-- **C88**: so it does if all number literals are written without exponents and are in range. -/
theorem C88_literals {E : Env T} (hE : Sane E) (hR : Rounds E) {text : List Char} {toks : List (Token T)}
    {s : List (PreDirective T) × Directive T} (ht : tokenize E text = .ok toks) (h : parse E text = .ok s)
    (hn : ∀ x, Number E toks x → ∃ g a b l, Written g a b l ∧ InSpan T (decimal g a b) ∧ ReadAs E l x) :
    sceneEq s s = true :=
  C88_twice ht h fun x hx => by
    obtain ⟨g, a, b, l, h1, h2, h3⟩ := hn x hx
    exact ((C70_nearest hE hR h1 h2).2 x h3).1.notNan

theorem same_identical {a b : T} (h : Same a b) : a = b ∨ IsZero a ∧ IsZero b := by
  unfold Same at h
  rw [IEEE.eq_eq] at h
  obtain ⟨na, nb, hk⟩ := (feq_iff (up a) (up b)).1 h
  have key : up a = up b ∨ (∃ s, up a = .zero s) ∧ ∃ s, up b = .zero s := by
    generalize up a = u, up b = v at *
    rcases u with (_|_) | _ | (_|_) | ⟨(_|_), m, e, hm⟩ <;>
    rcases v with (_|_) | _ | (_|_) | ⟨(_|_), m', e', hm'⟩ <;>
    simp only [fkey, key_eq] at hk <;> try omega
    all_goals first
      | exact absurd rfl na
      | exact absurd rfl nb
      | exact .inl rfl
      | exact .inr ⟨⟨_, rfl⟩, _, rfl⟩
      | (left
         have h1 : e = e' := by omega
         have h2 : m = m' := by omega
         subst h1 h2; rfl)
  rcases key with h | ⟨⟨s, hs⟩, t, ht⟩
  · exact .inl (up_inj h)
  · exact .inr ⟨isZero_iff.2 ⟨by rw [isFinite_iff, hs]; trivial, by unfold val; rw [hs]; rfl⟩,
      isZero_iff.2 ⟨by rw [isFinite_iff, ht]; trivial, by unfold val; rw [ht]; rfl⟩⟩

/-- **C88**: equal scenes without zeros whose paths are spelled the same are identical. -/
theorem C88_identical (a b : List (PreDirective T) × Directive T) (h : sceneEq a b = true)
    (hz : ∀ x ∈ sceneFloats a, ¬ Same x (Elem.fromInt 0)) (hp : scenePaths a = scenePaths b) : a = b := by
  obtain ⟨h1, h2, -⟩ := (C88_meaning a b).1 h
  refine C88_complete a b h1 ?_ hp
  generalize sceneFloats a = l, sceneFloats b = m at *
  induction h2 with
  | nil => rfl
  | cons e _ ih =>
    rcases same_identical e with e | e
    · rw [e, ih fun x hx => hz x (List.mem_cons_of_mem _ hx)]
    · exact absurd (eq_zero_iff.2 e.1) (hz _ List.mem_cons_self)

end

/-! ### What a user might not expect -/

/-- Do two texts parse to equal scenes? -/
def alikeTexts (a b : String) : Option Bool :=
  match parse (ieeeEnv Float32.Model true) a.toList, parse (ieeeEnv Float32.Model true) b.toList with
  | .ok s, .ok t => some (sceneEq s t)
  | _, _ => none

/-- **C88**, refuted: a text can parse to a scene that is not equal to itself, because of a literal
    that is read as NaN. -/
theorem C88_twice_refuted : alikeTexts "Rotate 0.0e39 0 0 1 WorldBegin WorldEnd" "Rotate 0.0e39 0 0 1 WorldBegin WorldEnd" =
    some false := by
  decide +kernel

/-- **C88**, refuted: equal scenes need not be identical: the sign of zero and the spelling of paths are
    not compared. -/
theorem C88_identical_refuted :
    alikeTexts "Rotate 1 0 0 1\nRotate 1 0 0.0\n1 WorldBegin WorldEnd" "Rotate 1 0 0 1\nRotate 1 0 -0.0\n1 WorldBegin WorldEnd" =
      some true ∧
    alikeTexts "WorldBegin Include \"a//b/./c/\"\nWorldEnd" "WorldBegin Include \"a/b/c\"\nWorldEnd" = some true ∧
    parse (ieeeEnv Float32.Model true) "WorldBegin Include \"a//b/./c/\"\nWorldEnd".toList ≠
      parse (ieeeEnv Float32.Model true) "WorldBegin Include \"a/b/c\"\nWorldEnd".toList := by
  refine ⟨by decide +kernel, by decide +kernel, fun h => ?_⟩
  have := congrArg (fun r => match r with | .ok s => scenePaths s | _ => []) h
  revert this
  decide +kernel

-- the same text, the same text one line lower, another number, another path
example : alikeTexts "Rotate 1.5 0 0 1 WorldBegin Material \"m\" \"rgb a\" [1 2.5 3] WorldEnd"
    "Rotate 1.5 0 0 1 WorldBegin Material \"m\" \"rgb a\" [1 2.5 3] WorldEnd" = some true := by decide +kernel
example : alikeTexts "Rotate 1.5 0 0 1 WorldBegin WorldEnd" "\nRotate 1.5 0 0 1 WorldBegin WorldEnd" = some false := by
  decide +kernel
example : alikeTexts "Rotate 1.5 0 0 1 WorldBegin WorldEnd" "Rotate 1.5 0 1 1 WorldBegin WorldEnd" = some false := by
  decide +kernel
example : alikeTexts "WorldBegin Include \"a/b\"\nWorldEnd" "WorldBegin Include \"/a/b\"\nWorldEnd" = some false ∧
    alikeTexts "WorldBegin Include \"./a\"\nWorldEnd" "WorldBegin Include \"a\"\nWorldEnd" = some false ∧
    alikeTexts "WorldBegin Include \"b/../a\"\nWorldEnd" "WorldBegin Include \"a\"\nWorldEnd" = some false := by
  decide +kernel
-- a text whose literals are in range and without exponents
example : ∃ toks s, tokenize (ieeeEnv Float32.Model true) "TransformTimes 1.5 -2 WorldBegin WorldEnd".toList = .ok toks ∧
    parse (ieeeEnv Float32.Model true) "TransformTimes 1.5 -2 WorldBegin WorldEnd".toList = .ok s ∧
    ∀ x, Number (ieeeEnv Float32.Model true) toks x →
      ∃ g a b l, Written g a b l ∧ InSpan Float32.Model (decimal g a b) ∧ ReadAs (ieeeEnv Float32.Model true) l x := by
  let f : Float32.Model := .pack (.finite .positive 12582912 (-23) (by norm_num))
  refine ⟨[⟨⟨1, 1⟩, .Identifier "TransformTimes"⟩, ⟨⟨1, 16⟩, .Float f⟩, ⟨⟨1, 20⟩, .Int (-2)⟩,
    ⟨⟨1, 23⟩, .Identifier "WorldBegin"⟩, ⟨⟨1, 34⟩, .Identifier "WorldEnd"⟩],
    ([.TransformTimes ⟨1, 1⟩ f (Elem.fromInt (-2))], .World ⟨1, 23⟩ []), by decide +kernel, ?_, ?_⟩
  · decide +kernel
  · rintro x ⟨q, h | ⟨i, h, rfl⟩⟩
    · have : x = f := by simp at h; exact h.2
      subst this
      refine ⟨.none, ['1'], ['5'], "1.5".toList, ⟨by unfold IsDigit; decide, by simp, .inl rfl⟩, ?_,
        ⟨1, 1⟩, _, NumLit.frac .none ['1', '.', '5'] f
          (fracBody_digits (ieeeEnv_sane true) (a := ['1']) (b := ['5']) (by unfold IsDigit; decide))
          (by decide +kernel), ⟨1, 1⟩, .inl rfl⟩
      rw [decimal, show Sign.none.apply (decVal (['1'] ++ ['5'])) = 15 from rfl, C70_range32]
      norm_num [abs_of_pos]
    · have : i = -2 := by simp at h; exact h.2
      subst this
      refine ⟨.minus, ['2'], [], "-2".toList, ⟨by unfold IsDigit; decide, by simp, .inr ⟨rfl, rfl, by unfold Fits; decide⟩⟩, ?_,
        ⟨1, 1⟩, _, NumLit.int .minus ['2'] (by simp) (by unfold IsDigit; decide) (by unfold Fits; decide),
        ⟨1, 1⟩, .inr ⟨-2, rfl, rfl⟩⟩
      rw [decimal, show Sign.minus.apply (decVal (['2'] ++ [])) = -2 from rfl, C70_range32]
      norm_num
example : SamePath "a//b/./c/".toList "a/b/c".toList :=
  .trans (.step (.slashes ['a'] "b/./c/".toList)) (.trans (.step (.dot "a/b".toList "c/".toList))
    (.step (.lastSlash "a/b/c".toList (by simp))))

end Pbrt
