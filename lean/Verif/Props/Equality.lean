import Verif.Spec.Equality
import Verif.Props.Mirror
import Verif.Props.Numbers
import Mathlib.Data.List.FinRange
import Mathlib.Data.List.Forall2

/-!
# C82: `==`
-/

namespace Pbrt

open Spec UnitTests

section
variable {T : Type} [Elem T] [LawfulOrder T]

theorem same_symm {a b : T} (h : Same a b) : Same b a := by
  unfold Same at *
  rw [LawfulOrder.eq_iff] at *
  exact ⟨h.2, h.1⟩

theorem same_trans {a b c : T} (h : Same a b) (h' : Same b c) : Same a c := by
  unfold Same at *
  rw [LawfulOrder.eq_iff] at *
  exact ⟨LawfulOrder.le_trans _ _ _ h.1 h'.1, LawfulOrder.le_trans _ _ _ h'.2 h.2⟩

theorem same_refl {a : T} : Same a a ↔ NotNan a := by
  unfold Same
  rw [LawfulOrder.eq_iff]
  exact ⟨fun h => (LawfulOrder.le_nan _ _ h.1).1, fun h => ⟨LawfulOrder.le_refl _ h, LawfulOrder.le_refl _ h⟩⟩

theorem comparison {S : Type} {parts : S → List T} {eq : S → S → Bool}
    (h : ∀ a b, eq a b = true ↔ List.Forall₂ Same (parts a) (parts b)) : Comparison parts eq where
  pointwise := h
  symm a b := by
    have : ∀ a b, eq a b = true → eq b a = true := fun a b => by
      rw [h, h]
      exact fun h => h.flip.imp fun _ _ => same_symm
    exact Bool.eq_iff_iff.2 ⟨this a b, this b a⟩
  trans a b c := by
    rw [h, h, h]
    generalize parts a = l, parts b = m, parts c = n
    intro h1 h2
    induction h1 generalizing n with
    | nil => cases h2; exact .nil
    | cons e _ ih => cases h2 with | cons e' h' => exact .cons (same_trans e e') (ih _ h')
  refl a := by
    rw [h, List.forall₂_same]
    exact forall₂_congr fun _ _ => same_refl

omit [Elem T] [LawfulOrder T] in
theorem forall₂_append_iff {R : T → T → Prop} {l m l' m' : List T} (h : l.length = m.length) :
    List.Forall₂ R (l ++ l') (m ++ m') ↔ List.Forall₂ R l m ∧ List.Forall₂ R l' m' := by
  induction l generalizing m with
  | nil => cases m with
    | nil => simp
    | cons => cases h
  | cons a l ih => cases m with
    | nil => cases h
    | cons b m => simp [ih (by simpa using h), and_assoc]

/-- **C82**: what `==` means, and its laws, for every type of elements. -/
theorem C82_laws :
    Comparison (T := T) Vector2.parts Vector2.eq ∧ Comparison (T := T) Vector3.parts Vector3.eq ∧
    Comparison (T := T) Point2.parts Point2.eq ∧ Comparison (T := T) Point3.parts Point3.eq ∧
    Comparison (T := T) Normal3.parts Normal3.eq ∧ Comparison (T := T) Matrix3.parts Matrix3.eq ∧
    Comparison (T := T) Matrix4.parts Matrix4.eq ∧ Comparison (T := T) Transform.parts Transform.eq := by
  have h4 : ∀ a b : Matrix4 T, a.eq b = true ↔ List.Forall₂ Same a.parts b.parts := fun a b => by
    simp [Matrix4.eq, Matrix4.parts, List.finRange, List.ofFn, Fin.foldr, Fin.foldr.loop, Same, and_assoc]
  refine ⟨comparison ?_, comparison ?_, comparison ?_, comparison ?_, comparison ?_, comparison ?_, comparison h4,
    comparison fun a b => ?_⟩
  · intro a b; simp [Vector2.eq, Vector2.parts, Same]
  · intro a b; simp [Vector3.eq, Vector3.parts, Same, and_assoc]
  · intro a b; simp [Point2.eq, Point2.parts, Same]
  · intro a b; simp [Point3.eq, Point3.parts, Same, and_assoc]
  · intro a b; simp [Normal3.eq, Normal3.parts, Same, and_assoc]
  · intro a b; simp [Matrix3.eq, Matrix3.parts, Same, and_assoc]
  · rw [Transform.eq, Bool.and_eq_true, h4, h4]
    exact (forall₂_append_iff (by simp [Matrix4.parts])).symm

/-- **C82**: with integers, only identical values are equal. -/
theorem C82_integers [Antisymm T] :
    (∀ a b : Vector2 T, a.eq b = true ↔ a = b) ∧ (∀ a b : Vector3 T, a.eq b = true ↔ a = b) ∧
    (∀ a b : Point2 T, a.eq b = true ↔ a = b) ∧ (∀ a b : Point3 T, a.eq b = true ↔ a = b) ∧
    (∀ a b : Normal3 T, a.eq b = true ↔ a = b) ∧ (∀ a b : Matrix3 T, a.eq b = true ↔ a = b) ∧
    (∀ a b : Matrix4 T, a.eq b = true ↔ a = b) ∧ (∀ a b : Transform T, a.eq b = true ↔ a = b) := by
  have h : ∀ a b : T, Elem.eq a b = true ↔ a = b := fun a b => by
    rw [LawfulOrder.eq_iff]
    refine ⟨fun h => Antisymm.antisymm _ _ h.1 h.2, ?_⟩
    rintro rfl
    exact ⟨LawfulOrder.le_refl _ (Antisymm.noNan _), LawfulOrder.le_refl _ (Antisymm.noNan _)⟩
  have h4 : ∀ a b : Matrix4 T, a.eq b = true ↔ a = b := fun a b => by
    obtain ⟨a⟩ := a
    obtain ⟨b⟩ := b
    rw [Matrix4.mk.injEq, funext_iff]
    simp only [funext_iff, Fin.forall_fin_succ]
    simp [Matrix4.eq, h, and_assoc]
  refine ⟨?_, ?_, ?_, ?_, ?_, ?_, h4, ?_⟩
  · rintro ⟨_, _⟩ ⟨_, _⟩; simp [Vector2.eq, h]
  · rintro ⟨_, _, _⟩ ⟨_, _, _⟩; simp [Vector3.eq, h, and_assoc]
  · rintro ⟨_, _⟩ ⟨_, _⟩; simp [Point2.eq, h]
  · rintro ⟨_, _, _⟩ ⟨_, _, _⟩; simp [Point3.eq, h, and_assoc]
  · rintro ⟨_, _, _⟩ ⟨_, _, _⟩; simp [Normal3.eq, h, and_assoc]
  · rintro ⟨_, _, _, _, _, _, _, _, _⟩ ⟨_, _, _, _, _, _, _, _, _⟩; simp [Matrix3.eq, h, and_assoc]
  · rintro ⟨_, _⟩ ⟨_, _⟩; simp [Transform.eq, h4]

end

section
variable {T : Type} [Elem T] [As T T] [FloatFns T] [IEEE T]

omit [As T T] [FloatFns T] [IEEE T] in
theorem vector_alike {u v : Vector3 T} (h : u.eq v = true) : u.Mirror (fun _ => false) v := by
  simp only [Vector3.eq, Bool.and_eq_true] at h
  intro i
  show Alike _ _
  fin_cases i
  · exact .inl h.1.1
  · exact .inl h.1.2
  · exact .inl h.2

omit [As T T] [FloatFns T] [IEEE T] in
theorem normal_alike {u v : Normal3 T} (h : u.eq v = true) : u.Mirror (fun _ => false) v := by
  simp only [Normal3.eq, Bool.and_eq_true] at h
  intro i
  show Alike _ _
  fin_cases i
  · exact .inl h.1.1
  · exact .inl h.1.2
  · exact .inl h.2

omit [As T T] [FloatFns T] [IEEE T] in
theorem point_alike {u v : Point3 T} (h : u.eq v = true) : u.Mirror (fun _ => false) v := by
  simp only [Point3.eq, Bool.and_eq_true] at h
  intro i
  show Alike _ _
  fin_cases i
  · exact .inl h.1.1
  · exact .inl h.1.2
  · exact .inl h.2

omit [As T T] [FloatFns T] [IEEE T] in
theorem matrix_alike {a b : Matrix4 T} (h : a.eq b = true) : a.Mirror (fun _ => false) (fun _ => false) b := by
  intro i j
  show Alike _ _
  left
  simp only [Matrix4.eq, List.all_eq_true] at h
  exact h i (by fin_cases i <;> simp) j (by fin_cases j <;> simp)

/-- Vectors whose components are equal or both NaN -/
abbrev Vector3.AlikeTo (u v : Vector3 T) : Prop := ∀ i, Alike (u.get i) (v.get i)
/-- Normals whose components are equal or both NaN -/
abbrev Normal3.AlikeTo (u v : Normal3 T) : Prop := ∀ i, Alike (u.get i) (v.get i)
/-- Points whose coordinates are equal or both NaN -/
abbrev Point3.AlikeTo (u v : Point3 T) : Prop := ∀ i, Alike (u.get i) (v.get i)
/-- Matrices whose entries are equal or both NaN -/
abbrev Matrix4.AlikeTo (a b : Matrix4 T) : Prop := ∀ i j, Alike (a.mat i j) (b.mat i j)

/-- **C82**: equal vectors of floats are interchangeable in the operations on vectors: the results are
    equal or NaN.  (Lengths are even the same float.) -/
theorem C82_vectors {u u' v v' : Vector3 T} (hu : u.eq u' = true) (hv : v.eq v' = true) {k k' : T} (hk : Same k k') :
    Both Vector3.AlikeTo (u.add v) (u'.add v') ∧ Both Vector3.AlikeTo (u.sub v) (u'.sub v') ∧
    Both Vector3.AlikeTo (u.mul k) (u'.mul k') ∧ Both Vector3.AlikeTo u.neg u'.neg ∧
    Both Vector3.AlikeTo (u.div k) (u'.div k) ∧ Both Alike (u.dot v) (u'.dot v') ∧
    u.lenSq = u'.lenSq ∧ (u.len : Outcome T) = u'.len ∧ Both Vector3.AlikeTo (u.cross v) (u'.cross v') ∧
    Both Vector3.AlikeTo (u.faceForward v) (u'.faceForward v') := by
  have hu := vector_alike hu
  have hv := vector_alike hv
  obtain ⟨h1, h2, h3, h4, h5⟩ := C74_vectors hu hv (.inl hk)
  obtain ⟨h6, h7, h8⟩ := C74_dot hu hv
  exact ⟨h1, h2, h3, h4, h5, h6, h7, h8, C74_cross hu hv, C74_faceForward hu hv⟩

example := C82_vectors (u := ⟨f32 0, f32 1, f32 2⟩) (u' := ⟨negZero32, f32 1, f32 2⟩) (v := fv 3 4 5) (v' := fv 3 4 5)
  (by decide +kernel) (by decide +kernel) (k := negZero32) (k' := f32 0) (by decide +kernel)

/-- **C82**: the same for normals. -/
theorem C82_normals {u u' v v' : Normal3 T} (hu : u.eq u' = true) (hv : v.eq v' = true) {k k' : T} (hk : Same k k') :
    Both Normal3.AlikeTo (u.add v) (u'.add v') ∧ Both Normal3.AlikeTo (u.sub v) (u'.sub v') ∧
    Both Normal3.AlikeTo (u.mul k) (u'.mul k') ∧ Both Normal3.AlikeTo u.neg u'.neg ∧
    Both Normal3.AlikeTo (u.div k) (u'.div k) ∧ Both Alike (u.dot v) (u'.dot v') ∧
    u.lenSq = u'.lenSq ∧ (u.len : Outcome T) = u'.len ∧ Both Normal3.AlikeTo (u.cross v) (u'.cross v') ∧
    Both Normal3.AlikeTo (u.faceForward v) (u'.faceForward v') :=
  C74_normals (normal_alike hu) (normal_alike hv) (.inl hk)

example := C82_normals (u := ⟨f32 0, f32 1, f32 2⟩) (u' := ⟨negZero32, f32 1, f32 2⟩) (v := ⟨f32 3, f32 4, f32 5⟩)
  (v' := ⟨f32 3, f32 4, f32 5⟩) (by decide +kernel) (by decide +kernel) (k := negZero32) (k' := f32 0) (by decide +kernel)

/-- **C82**: the same for points and rays. -/
theorem C82_points {p p' q q' : Point3 T} {v v' : Vector3 T} (hp : p.eq p' = true) (hq : q.eq q' = true)
    (hv : v.eq v' = true) {k k' : T} (hk : Same k k') :
    Both Point3.AlikeTo (p.add v) (p'.add v') ∧ Both Point3.AlikeTo (p.subVec v) (p'.subVec v') ∧
    Both Vector3.AlikeTo (p.sub q) (p'.sub q') ∧ Both Point3.AlikeTo (p.mul k) (p'.mul k') ∧
    Both Point3.AlikeTo (Point3.lerp k p q) (Point3.lerp k' p' q') ∧
    ∀ tm tm' ti ti' : T, Both Point3.AlikeTo (Ray.at ⟨p, v, tm, ti⟩ k) (Ray.at ⟨p', v', tm', ti'⟩ k') := by
  obtain ⟨h1, h2, h3, h4, h5⟩ := C74_points (point_alike hp) (point_alike hq) (vector_alike hv) (.inl hk)
  exact ⟨h1, h2, h3, h4, h5, fun _ _ _ _ => C74_ray (r := ⟨p, v, _, _⟩) (r' := ⟨p', v', _, _⟩) (point_alike hp) (vector_alike hv) (.inl hk)⟩

example := C82_points (p := ⟨f32 0, f32 1, f32 2⟩) (p' := ⟨negZero32, f32 1, f32 2⟩) (q := fp 3 4 5) (q' := fp 3 4 5)
  (v := fv 3 0 5) (v' := ⟨f32 3, negZero32, f32 5⟩) (by decide +kernel) (by decide +kernel) (by decide +kernel)
  (k := negZero32) (k' := f32 0) (by decide +kernel)

/-- **C82**: the same for matrices and transforms.  `inverse` panics for both or neither. -/
theorem C82_matrices {a a' b b' : Matrix4 T} (ha : a.eq a' = true) (hb : b.eq b' = true)
    {t t' : Transform T} (ht : t.eq t' = true) {v v' : Vector3 T} (hv : v.eq v' = true) :
    Both Matrix4.AlikeTo (a.mul b) (a'.mul b') ∧
    Together (fun x y : Matrix4 T => x.AlikeTo y ∨
      ((∃ i j, ¬ NotNan (x.mat i j)) ∧ ∃ i j, ¬ NotNan (y.mat i j))) a.inverse a'.inverse ∧
    Both Vector3.AlikeTo (v.transform t : Outcome (Vector3 T)) (v'.transform t') ∧
    t.isIdentity = t'.isIdentity := by
  simp only [Transform.eq, Bool.and_eq_true] at ht
  refine ⟨C74_matrix_mul (matrix_alike ha) (matrix_alike hb), C74_inverse (matrix_alike ha), ?_, ?_⟩
  · have e : axes4 (fun _ => false) = fun _ => false := by funext i; fin_cases i <;> rfl
    exact C74_transform (r := fun _ => false) (c := fun _ => false) (by rw [e]; exact matrix_alike ht.1) (vector_alike hv)
  · have := ieee_lawful (T := T)
    have hc := (C82_laws (T := T)).2.2.2.2.2.2.1
    unfold Transform.isIdentity
    exact Bool.eq_iff_iff.2 ⟨fun h => hc.trans _ _ _ (by rw [hc.symm]; exact ht.1) h, fun h => hc.trans _ _ _ ht.1 h⟩

example := C82_matrices (a := ⟨fun i j => f32 (i.val * j.val)⟩)
  (a' := ⟨fun i j => if i = 0 then negZero32 else f32 (i.val * j.val)⟩) (b := Matrix4.one _) (b' := Matrix4.one _)
  (by decide +kernel) (by decide +kernel) (t := ⟨Matrix4.one _, Matrix4.one _⟩) (t' := ⟨Matrix4.one _, Matrix4.one _⟩)
  (by decide +kernel) (v := fv 3 0 5) (v' := ⟨f32 3, negZero32, f32 5⟩) (by decide +kernel)

end

/-- **C82**, refuted: equal arguments do not give equal results when they are used as divisors.  `0` and
    `-0` are equal, and dividing a vector by them gives different vectors, scaling by them transforms
    that differ. -/
theorem C82_zero_refuted : ∃ (a b : Float32.Model), Same a b ∧
    (∃ x y, (fv 1 2 3).div a = .ok x ∧ (fv 1 2 3).div b = .ok y ∧ x.eq y = false) ∧
    (∃ s t, Transform.scale a (f32 1) (f32 1) = .ok s ∧ Transform.scale b (f32 1) (f32 1) = .ok t ∧
      s.m.eq t.m = true ∧ s.eq t = false) := by
  refine ⟨f32 0, .pack (.zero .negative), by unfold Same; decide +kernel, ⟨_, _, rfl, rfl, by decide +kernel⟩, ⟨_, _, rfl, rfl, by decide +kernel, by decide +kernel⟩⟩

/-- **C82**, refuted: a vector with a NaN is not equal to itself. -/
theorem C82_nan_refuted : ∃ v : Vector3 Float32.Model, v.eq v = false :=
  ⟨⟨nan32, f32 1, f32 2⟩, by decide +kernel⟩

/-! ### Examples -/

-- equal and not identical
example : (⟨f32 0, f32 1, f32 2⟩ : Vector3 Float32.Model).eq ⟨.pack (.zero .negative), f32 1, f32 2⟩ = true := by
  decide +kernel
example : (⟨f32 0, f32 1, f32 2⟩ : Vector3 Float32.Model).eq ⟨f32 0, f32 1, f32 3⟩ = false := by decide +kernel

end Pbrt
