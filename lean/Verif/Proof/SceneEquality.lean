import Verif.Model.SceneEquality
import Verif.Spec.SceneEquality
import Verif.Spec.Geometry
import Mathlib.Data.List.Forall2

/-!
# Comparing scenes, part by part
-/

namespace Pbrt.Proof
open Pbrt.Spec

/-! ### Paths -/

theorem splitPath_ne (a : List Char) : splitPath a ≠ [] := by
  cases a with
  | nil => simp [splitPath]
  | cons c a =>
    rw [splitPath]
    split
    · simp
    · split <;> simp

theorem splitPath_append (a b : List Char) : splitPath (a ++ '/' :: b) = splitPath a ++ splitPath b := by
  induction a with
  | nil =>
    have := splitPath_ne b
    cases h : splitPath b with
    | nil => exact absurd h this
    | cons p ps => simp [splitPath, h]
  | cons c a ih =>
    rw [List.cons_append, splitPath, splitPath, ih]
    have := splitPath_ne a
    cases h : splitPath a with
    | nil => exact absurd h this
    | cons p ps => simp only [List.cons_append]; split <;> rfl

theorem splitPath_head (a b : List Char) : (splitPath (a ++ '/' :: b)).head? = (splitPath a).head? := by
  rw [splitPath_append, List.head?_append]
  have := splitPath_ne a
  cases h : splitPath a with
  | nil => exact absurd h this
  | cons p ps => rfl

theorem head_slash (a b b' : List Char) : (a ++ '/' :: b).head? = (a ++ '/' :: b').head? := by
  cases a <;> rfl

theorem components_congr {a b : List Char} (h1 : a.head? = b.head?)
    (h2 : (splitPath a).head? = (splitPath b).head?)
    (h3 : (splitPath a).filterMap singleComponent = (splitPath b).filterMap singleComponent) :
    pathComponents a = pathComponents b := by
  unfold pathComponents
  simp only [h1, h2, h3]

theorem components_step {a b : List Char} (h : Respelled a b) : pathComponents a = pathComponents b := by
  cases h with
  | slashes a b =>
    refine components_congr (head_slash _ _ _) (by rw [splitPath_head, splitPath_head]) ?_
    rw [splitPath_append, splitPath_append, show splitPath ('/' :: b) = [] :: splitPath b from splitPath_append [] b]
    simp [singleComponent]
  | dot a b =>
    refine components_congr (head_slash _ _ _) (by rw [splitPath_head, splitPath_head]) ?_
    rw [splitPath_append, splitPath_append,
      show splitPath ('.' :: '/' :: b) = ['.'] :: splitPath b from splitPath_append ['.'] b]
    simp [singleComponent]
  | lastSlash _ h =>
    refine components_congr ?_ (splitPath_head _ _) ?_
    · cases b with | nil => exact absurd rfl h | cons => rfl
    · rw [splitPath_append]; simp [splitPath, singleComponent]
  | lastDot a =>
    refine components_congr (head_slash _ _ _) (by rw [splitPath_head, splitPath_head]) ?_
    rw [splitPath_append, splitPath_append]; simp [splitPath, singleComponent]

theorem components_same {a b : List Char} (h : SamePath a b) : pathComponents a = pathComponents b := by
  induction h with
  | step h => exact components_step h
  | refl => rfl
  | symm _ ih => exact ih.symm
  | trans _ _ ih ih' => exact ih.trans ih'

/-- Pieces with separators between them -/
def joinPath : List (List Char) → List Char
  | [] => []
  | [p] => p
  | p :: q :: ps => p ++ '/' :: joinPath (q :: ps)

theorem join_cons (p : List Char) {ps : List (List Char)} (h : ps ≠ []) :
    joinPath (p :: ps) = p ++ '/' :: joinPath ps := by
  cases ps with
  | nil => exact absurd rfl h
  | cons => rfl

theorem joinPath_split (a : List Char) : joinPath (splitPath a) = a := by
  induction a with
  | nil => rfl
  | cons c a ih =>
    rw [splitPath]
    cases h : splitPath a with
    | nil => exact absurd h (splitPath_ne a)
    | cons p ps =>
      rw [h] at ih
      simp only []
      split
      · next e => rw [join_cons _ (by simp), ih, e]; rfl
      · cases ps with
        | nil => simp only [joinPath] at ih ⊢; rw [ih]
        | cons q ps => rw [join_cons _ (by simp)] at ih ⊢; rw [List.cons_append, ih]

/-- The name of a component -/
def PathComponent.name : PathComponent → List Char
  | .RootDir => []
  | .CurDir => ['.']
  | .ParentDir => ['.', '.']
  | .Normal n => n

/-- The shortest spelling -/
def render (cs : List PathComponent) : List Char :=
  if cs = [.RootDir] then ['/'] else joinPath (cs.map PathComponent.name)

theorem single_name {p : List Char} {c : PathComponent} (h : singleComponent p = some c) :
    PathComponent.name c = p ∧ c ≠ .RootDir := by
  unfold singleComponent at h
  split at h; · simp at h
  split at h; · simp at h
  split at h
  · next e => cases h; exact ⟨e.symm, by simp⟩
  · cases h; exact ⟨rfl, by simp⟩

theorem single_none {p : List Char} (h : singleComponent p = none) : p = [] ∨ p = ['.'] := by
  unfold singleComponent at h
  split at h; · next e => exact .inl e
  split at h; · next e => exact .inr e
  split at h <;> simp at h

theorem respell_tail (x : List Char) (ps : List (List Char)) :
    SamePath (x ++ '/' :: joinPath ps)
      (x ++ '/' :: joinPath ((ps.filterMap singleComponent).map PathComponent.name)) := by
  induction ps generalizing x with
  | nil => exact .refl _
  | cons p ps ih =>
    cases hp : singleComponent p with
    | none =>
      rw [List.filterMap_cons_none hp]
      by_cases hps : ps = []
      · subst hps
        rcases single_none hp with rfl | rfl
        · exact .refl _
        · exact .step (.lastDot x)
      · rw [join_cons _ hps]
        refine .trans ?_ (ih x)
        rcases single_none hp with rfl | rfl
        · exact .step (.slashes x _)
        · exact .step (.dot x _)
    | some c =>
      obtain ⟨hc, -⟩ := single_name hp
      rw [List.filterMap_cons_some hp, List.map_cons, hc]
      by_cases hps : ps = []
      · subst hps; exact .refl _
      · rw [join_cons _ hps]
        have := ih (x ++ '/' :: p)
        by_cases hf : (ps.filterMap singleComponent).map PathComponent.name = []
        · rw [hf] at this ⊢
          refine .trans (by simpa using this) ?_
          have := SamePath.step (.lastSlash (x ++ '/' :: p) (by simp))
          simpa [joinPath] using this
        · rw [join_cons _ hf]
          simpa using this

theorem same_render (a : List Char) : SamePath a (render (pathComponents a)) := by
  have hj := joinPath_split a
  cases hs : splitPath a with
  | nil => exact absurd hs (splitPath_ne a)
  | cons p ps =>
    rw [hs] at hj
    -- the spelling that starts with a good piece `p`
    have good : ∀ c : PathComponent, PathComponent.name c = p → c ≠ .RootDir → p ≠ [] →
        pathComponents a = c :: ps.filterMap singleComponent →
        SamePath a (render (pathComponents a)) := by
      intro c hc hr hp e
      rw [e, render, if_neg (by simp [hr]), List.map_cons, hc, ← hj]
      by_cases hps : ps = []
      · subst hps; exact .refl _
      · rw [join_cons _ hps]
        have := respell_tail p ps
        by_cases hf : (ps.filterMap singleComponent).map PathComponent.name = []
        · rw [hf] at this ⊢
          exact .trans this (.step (.lastSlash p hp))
        · rw [join_cons _ hf]; exact this
    by_cases hh : a.head? = some '/'
    · -- from the root
      obtain ⟨b, rfl⟩ : ∃ b, a = '/' :: b := by
        cases a with
        | nil => simp at hh
        | cons c b => simp at hh; exact ⟨b, by rw [hh]⟩
      have e := splitPath_append [] b
      rw [List.nil_append, hs] at e
      simp only [splitPath, List.cons_append, List.nil_append, List.cons.injEq] at e
      obtain ⟨rfl, rfl⟩ := e
      have hc : pathComponents ('/' :: b) = .RootDir :: (splitPath b).filterMap singleComponent := by
        simp [pathComponents, hs, singleComponent]
      have := respell_tail [] (splitPath b)
      rw [joinPath_split] at this
      rw [hc, render]
      split
      · next h =>
        simp only [List.cons.injEq, true_and] at h
        rw [h] at this
        exact this
      · next h =>
        simp only [List.cons.injEq, true_and] at h
        rw [List.map_cons, join_cons _ (by simpa using h)]
        exact this
    · by_cases hd : p = ['.']
      · subst hd
        exact good .CurDir rfl (by simp) (by simp) (by simp [pathComponents, hs, hh, singleComponent])
      · by_cases hp : p = []
        · subst hp
          have : ps = [] := by
            by_contra hps
            rw [join_cons _ hps] at hj
            exact hh (by rw [← hj]; rfl)
          subst this
          have : a = [] := by rw [← hj]; rfl
          subst this
          exact .refl _
        · cases hc : singleComponent p with
          | none => rcases single_none hc with h | h; exact absurd h hp; exact absurd h hd
          | some c =>
            obtain ⟨h1, h2⟩ := single_name hc
            exact good c h1 h2 hp (by simp [pathComponents, hs, hh, hd, List.filterMap_cons_some hc])

theorem pathEq_iff (a b : String) : pathEq a b = true ↔ SamePath a.toList b.toList := by
  unfold pathEq
  rw [decide_eq_true_iff]
  constructor
  · intro h
    have := same_render a.toList
    rw [h] at this
    exact .trans this (.symm (same_render b.toList))
  · exact components_same

/-! ### Shapes and parts -/

variable {T : Type} [Elem T]

/-- `eq` compares shapes, floats and paths. -/
structure Compares {S U : Type} (shape : S → U) (fl : S → List T) (pa : S → List String)
    (eq : S → S → Bool) : Prop where
  iff : ∀ a b, eq a b = true ↔ shape a = shape b ∧ List.Forall₂ Same (fl a) (fl b) ∧
    List.Forall₂ (fun s t => SamePath s.toList t.toList) (pa a) (pa b)
  len : ∀ a b, shape a = shape b → (fl a).length = (fl b).length ∧ (pa a).length = (pa b).length

omit [Elem T] in
theorem forall₂_append {A : Type} {R : A → A → Prop} {l m l' m' : List A} (h : l.length = m.length) :
    List.Forall₂ R (l ++ l') (m ++ m') ↔ List.Forall₂ R l m ∧ List.Forall₂ R l' m' := by
  induction l generalizing m with
  | nil => cases m with
    | nil => simp
    | cons => cases h
  | cons a l ih => cases m with
    | nil => cases h
    | cons b m => simp [ih (by simpa using h), and_assoc]

section
variable {S U S' U' : Type} {shape : S → U} {shape' : S → U'} {fl fl' : S → List T} {pa pa' : S → List String}
  {eq eq' : S → S → Bool}

theorem Compares.plain [DecidableEq S] :
    Compares (T := T) (fun a : S => a) (fun _ => []) (fun _ => []) (fun a b => a == b) where
  iff a b := by simp
  len a b _ := by simp

theorem Compares.num : Compares (T := T) (fun _ : T => ()) (fun a => [a]) (fun _ => []) Elem.eq where
  iff a b := by simp [Same]
  len a b _ := by simp

theorem Compares.path : Compares (T := T) (fun _ : String => ()) (fun _ => []) (fun a => [a]) pathEq where
  iff a b := by simp [pathEq_iff]
  len a b _ := by simp

theorem Compares.and (h : Compares shape fl pa eq) (h' : Compares shape' fl' pa' eq') :
    Compares (fun a => (shape a, shape' a)) (fun a => fl a ++ fl' a) (fun a => pa a ++ pa' a)
      (fun a b => eq a b && eq' a b) where
  iff a b := by
    rw [Bool.and_eq_true, h.iff, h'.iff, Prod.mk.injEq]
    constructor
    · rintro ⟨⟨h1, h2, h3⟩, h4, h5, h6⟩
      have := h.len a b h1
      exact ⟨⟨h1, h4⟩, (forall₂_append this.1).2 ⟨h2, h5⟩, (forall₂_append this.2).2 ⟨h3, h6⟩⟩
    · rintro ⟨⟨h1, h4⟩, h2, h3⟩
      have := h.len a b h1
      obtain ⟨h2, h5⟩ := (forall₂_append this.1).1 h2
      obtain ⟨h3, h6⟩ := (forall₂_append this.2).1 h3
      exact ⟨⟨h1, h2, h3⟩, h4, h5, h6⟩
  len a b e := by
    obtain ⟨e, e'⟩ := Prod.mk.inj e
    have := h.len a b e
    have := h'.len a b e'
    simp [*]

theorem Compares.comp (h : Compares shape fl pa eq) (g : S' → S) :
    Compares (fun a => shape (g a)) (fun a => fl (g a)) (fun a => pa (g a)) (fun a b => eq (g a) (g b)) where
  iff a b := h.iff _ _
  len a b := h.len _ _

/-- The same with another way to write shape, floats, paths and comparison -/
theorem Compares.congr (h : Compares shape fl pa eq) (hs : ∀ a b, shape' a = shape' b ↔ shape a = shape b)
    (hf : ∀ a, fl' a = fl a) (hp : ∀ a, pa' a = pa a) (he : ∀ a b, eq' a b = eq a b) :
    Compares shape' fl' pa' eq' where
  iff a b := by rw [he, hs, hf, hf, hp, hp]; exact h.iff a b
  len a b := by rw [hs, hf, hf, hp, hp]; exact h.len a b

theorem Compares.list (h : Compares shape fl pa eq) :
    Compares (fun l => l.map shape) (fun l => l.flatMap fl) (fun l => l.flatMap pa) (listEq eq) where
  iff l m := by
    induction l generalizing m with
    | nil => cases m <;> simp [listEq]
    | cons a l ih => cases m with
      | nil => simp [listEq]
      | cons b m =>
        rw [listEq, Bool.and_eq_true, ih, h.iff, List.map_cons, List.map_cons, List.cons.injEq]
        simp only [List.flatMap_cons]
        constructor
        · rintro ⟨⟨h1, h2, h3⟩, h4, h5, h6⟩
          have := h.len a b h1
          exact ⟨⟨h1, h4⟩, (forall₂_append this.1).2 ⟨h2, h5⟩, (forall₂_append this.2).2 ⟨h3, h6⟩⟩
        · rintro ⟨⟨h1, h4⟩, h2, h3⟩
          have := h.len a b h1
          obtain ⟨h2, h5⟩ := (forall₂_append this.1).1 h2
          obtain ⟨h3, h6⟩ := (forall₂_append this.2).1 h3
          exact ⟨⟨h1, h2, h3⟩, h4, h5, h6⟩
  len l m := by
    induction l generalizing m with
    | nil => cases m <;> simp
    | cons a l ih => cases m with
      | nil => simp
      | cons b m =>
        intro e
        rw [List.map_cons, List.map_cons, List.cons.injEq] at e
        have := h.len a b e.1
        have := ih m e.2
        simp only [List.flatMap_cons, List.length_append]
        omega

theorem Compares.param (h : Compares shape fl pa eq) :
    Compares (shapeParam shape) (fun p => p.values.flatMap fl) (fun p => p.values.flatMap pa) (Param.eq eq) := by
  refine (((Compares.plain.comp Param.name).and (Compares.plain.comp Param.pos)).and
    (h.list.comp Param.values)).congr ?_ ?_ ?_ ?_
  · intro a b; simp [shapeParam, and_assoc]
  · intro a; simp
  · intro a; simp
  · intro a b; rfl

theorem Compares.params (h : Compares shape fl pa eq) :
    Compares (List.map (shapeParam shape)) (paramParts fl) (paramParts pa) (listEq (Param.eq eq)) :=
  h.param.list
end

theorem cmp_point2 : Compares (T := T) (fun _ : Point2 T => (⟨(), ()⟩ : Point2 Unit)) (fun p => [p.x, p.y])
    (fun _ => []) Point2.eq where
  iff a b := by simp [Point2.eq, Same]
  len a b _ := by simp

theorem cmp_vector2 : Compares (T := T) (fun _ : Vector2 T => (⟨(), ()⟩ : Vector2 Unit)) (fun p => [p.x, p.y])
    (fun _ => []) Vector2.eq where
  iff a b := by simp [Vector2.eq, Same]
  len a b _ := by simp

theorem cmp_point3 : Compares (T := T) (fun _ : Point3 T => (⟨(), (), ()⟩ : Point3 Unit))
    (fun p => [p.x, p.y, p.z]) (fun _ => []) Point3.eq where
  iff a b := by simp [Point3.eq, Same, and_assoc]
  len a b _ := by simp

theorem cmp_vector3 : Compares (T := T) (fun _ : Vector3 T => (⟨(), (), ()⟩ : Vector3 Unit))
    (fun p => [p.x, p.y, p.z]) (fun _ => []) Vector3.eq where
  iff a b := by simp [Vector3.eq, Same, and_assoc]
  len a b _ := by simp

theorem cmp_normal3 : Compares (T := T) (fun _ : Normal3 T => (⟨(), (), ()⟩ : Normal3 Unit))
    (fun p => [p.x, p.y, p.z]) (fun _ => []) Normal3.eq where
  iff a b := by simp [Normal3.eq, Same, and_assoc]
  len a b _ := by simp

omit [Elem T] in
theorem flatMap_nothing {A B : Type} (l : List A) : l.flatMap (fun _ => ([] : List B)) = [] := by
  induction l <;> simp_all

theorem cmp_samples : Compares (T := T) (List.map fun _ : T × T => ((), ())) (fun l => l.flatMap fun s => [s.1, s.2])
    (fun l => l.flatMap fun _ => []) (listEq fun a b => Elem.eq a.1 b.1 && Elem.eq a.2 b.2) :=
  Compares.list (shape := fun _ : T × T => ((), ())) ⟨by intro a b; simp [Same], by intro a b; simp⟩

theorem cmp_spectrum : Compares (T := T) shapeSpectrum spectrumFloats spectrumPaths spectrumEq where
  iff a b := by
    cases a <;> cases b <;>
      simp [shapeSpectrum, spectrumFloats, spectrumPaths, spectrumEq, Same, and_assoc, pathEq_iff]
    · rw [(cmp_samples (T := T)).iff]
      simp [flatMap_nothing]
  len a b := by
    cases a <;> cases b <;> simp [shapeSpectrum, spectrumFloats, spectrumPaths]

theorem cmp_set : Compares (T := T) shapeSet setFloats setPaths ParamSet.eq := by
  have p : ∀ (S : Type) [DecidableEq S], Compares (T := T) (fun a : S => a) (fun _ => []) (fun _ => [])
    (fun a b => a == b) := fun _ _ => .plain
  refine ((((((((((((p Bool).params.comp ParamSet.bools).and ((p Int).params.comp ParamSet.ints)).and
    (Compares.num.params.comp ParamSet.floats)).and (cmp_point2.params.comp ParamSet.point2fs)).and
    (cmp_vector2.params.comp ParamSet.vector2fs)).and (cmp_point3.params.comp ParamSet.point3fs)).and
    (cmp_vector3.params.comp ParamSet.vector3fs)).and (cmp_normal3.params.comp ParamSet.normal3fs)).and
    (cmp_spectrum.params.comp ParamSet.spectra)).and ((p String).params.comp ParamSet.strings)).and
    ((p String).params.comp ParamSet.textures)).congr ?_ ?_ ?_ ?_
  · intro a b
    have e : ∀ {S : Type} (l : List (Param S)), l.map (shapeParam fun a : S => a) = l := fun l => by
      induction l with
      | nil => rfl
      | cons p l ih => rw [List.map_cons, ih]; simp [shapeParam]
    simp [shapeSet, e, and_assoc]
  · intro a; simp [setFloats, paramParts, flatMap_nothing]
  · intro a; simp [setPaths, paramParts, flatMap_nothing]
  · intro a b; rfl

theorem cmp_struct : Compares (T := T) shapeStruct (fun d => setFloats d.paramSet) (fun d => setPaths d.paramSet)
    DirectiveStruct.eq := by
  refine (((Compares.plain.comp DirectiveStruct.ty).and (Compares.plain.comp DirectiveStruct.pos)).and
    (cmp_set.comp DirectiveStruct.paramSet)).congr ?_ ?_ ?_ ?_
  · intro a b; simp [shapeStruct, and_assoc]
  · intro a; simp
  · intro a; simp
  · intro a b; rfl

theorem cmp_texture : Compares (T := T)
    (fun t : TextureStruct T => (⟨t.name, t.ty, t.cls, t.pos, shapeSet t.paramSet⟩ : TextureStruct Unit))
    (fun d => setFloats d.paramSet) (fun d => setPaths d.paramSet) TextureStruct.eq := by
  refine (((((Compares.plain.comp TextureStruct.name).and (Compares.plain.comp TextureStruct.ty)).and
    (Compares.plain.comp TextureStruct.cls)).and (Compares.plain.comp TextureStruct.pos)).and
    (cmp_set.comp TextureStruct.paramSet)).congr ?_ ?_ ?_ ?_
  · intro a b; simp [and_assoc]
  · intro a; simp
  · intro a; simp
  · intro a b; rfl

theorem cmp_pre : Compares (T := T) shapePre preFloats prePaths PreDirective.eq where
  iff a b := by
    cases a <;> cases b <;> simp [shapePre, preFloats, prePaths, PreDirective.eq, Same, and_assoc, pathEq_iff,
      Vector3.eq, Matrix3.eq, cmp_struct.iff]
  len a b := by
    cases a <;> cases b <;> simp [shapePre, preFloats, prePaths]
    all_goals exact fun h => cmp_struct.len _ _ h

mutual
theorem cmp_dir_iff (a b : Directive T) : a.eq b = true ↔ shapeDir a = shapeDir b ∧
    List.Forall₂ Same (dirFloats a) (dirFloats b) ∧
    List.Forall₂ (fun s t => SamePath s.toList t.toList) (dirPaths a) (dirPaths b) := by
  cases a with
  | Attribute p ds => cases b <;> simp [Directive.eq, shapeDir, dirFloats, dirPaths, and_assoc]; rename_i q es; exact fun _ => cmp_dirs_iff ds es
  | Transform p ds => cases b <;> simp [Directive.eq, shapeDir, dirFloats, dirPaths, and_assoc]; rename_i q es; exact fun _ => cmp_dirs_iff ds es
  | World p ds => cases b <;> simp [Directive.eq, shapeDir, dirFloats, dirPaths, and_assoc]; rename_i q es; exact fun _ => cmp_dirs_iff ds es
  | Texture t => cases b <;> simp [Directive.eq, shapeDir, dirFloats, dirPaths, and_assoc, cmp_texture.iff]
  | _ => cases b <;> simp [Directive.eq, shapeDir, dirFloats, dirPaths, and_assoc, cmp_struct.iff, pathEq_iff]
theorem cmp_dirs_iff (l m : List (Directive T)) : Directive.eqs l m = true ↔ shapeDirs l = shapeDirs m ∧
    List.Forall₂ Same (dirsFloats l) (dirsFloats m) ∧
    List.Forall₂ (fun s t => SamePath s.toList t.toList) (dirsPaths l) (dirsPaths m) := by
  cases l with
  | nil => cases m <;> simp [Directive.eqs, shapeDirs, dirsFloats, dirsPaths]
  | cons a l => cases m with
    | nil => simp [Directive.eqs, shapeDirs]
    | cons b m =>
      rw [Directive.eqs, Bool.and_eq_true, cmp_dir_iff a b, cmp_dirs_iff l m, shapeDirs, shapeDirs, List.cons.injEq,
        dirsFloats, dirsFloats, dirsPaths, dirsPaths]
      constructor
      · rintro ⟨⟨h1, h2, h3⟩, h4, h5, h6⟩
        exact ⟨⟨h1, h4⟩, (forall₂_append h2.length_eq).2 ⟨h2, h5⟩, (forall₂_append h3.length_eq).2 ⟨h3, h6⟩⟩
      · rintro ⟨⟨h1, h4⟩, h2, h3⟩
        have := cmp_dir_len a b h1
        obtain ⟨h2, h5⟩ := (forall₂_append this.1).1 h2
        obtain ⟨h3, h6⟩ := (forall₂_append this.2).1 h3
        exact ⟨⟨h1, h2, h3⟩, h4, h5, h6⟩
theorem cmp_dir_len (a b : Directive T) (h : shapeDir a = shapeDir b) :
    (dirFloats a).length = (dirFloats b).length ∧ (dirPaths a).length = (dirPaths b).length := by
  cases a with
  | Attribute p ds => cases b <;> simp [shapeDir] at h; simpa [dirFloats, dirPaths] using cmp_dirs_len ds _ h.2
  | Transform p ds => cases b <;> simp [shapeDir] at h; simpa [dirFloats, dirPaths] using cmp_dirs_len ds _ h.2
  | World p ds => cases b <;> simp [shapeDir] at h; simpa [dirFloats, dirPaths] using cmp_dirs_len ds _ h.2
  | Texture t => cases b <;> simp [shapeDir] at h; simpa [dirFloats, dirPaths] using cmp_set.len _ _ h.2.2.2.2
  | Include p s => cases b <;> simp [shapeDir] at h; simp [dirFloats, dirPaths]
  | _ => cases b <;> simp [shapeDir] at h; simpa [dirFloats, dirPaths] using cmp_struct.len _ _ h
theorem cmp_dirs_len (l m : List (Directive T)) (h : shapeDirs l = shapeDirs m) :
    (dirsFloats l).length = (dirsFloats m).length ∧ (dirsPaths l).length = (dirsPaths m).length := by
  cases l with
  | nil => cases m with
    | nil => simp
    | cons => simp [shapeDirs] at h
  | cons a l => cases m with
    | nil => simp [shapeDirs] at h
    | cons b m =>
      simp only [shapeDirs, List.cons.injEq] at h
      have := cmp_dir_len a b h.1
      have := cmp_dirs_len l m h.2
      simp only [dirsFloats, dirsPaths, List.length_append]
      omega
end

theorem cmp_dir : Compares (T := T) shapeDir dirFloats dirPaths Directive.eq := ⟨cmp_dir_iff, cmp_dir_len⟩

theorem cmp_scene : Compares (T := T) shapeScene sceneFloats scenePaths sceneEq := by
  refine ((cmp_pre.list.comp Prod.fst).and (cmp_dir.comp Prod.snd)).congr ?_ ?_ ?_ ?_
  · intro a b; simp [shapeScene]
  · intro a; rfl
  · intro a; rfl
  · intro a b; rfl

end Pbrt.Proof
