import Verif.Spec.Relabel
import Verif.Props.Components
import Verif.Props.Matrices
import Verif.Props.FloatError
import Mathlib.GroupTheory.Perm.Sign

/-!
# C84: exchanging the axes

No axis is special: what is computed from objects with exchanged axes is what is computed from the
objects, with exchanged axes.
-/

namespace Pbrt

section
variable {T : Type}

theorem Vector3.relabel_get (σ : Equiv.Perm (Fin 3)) (v : Vector3 T) (i : Fin 3) :
    (v.relabel σ).get i = v.get (σ i) := by fin_cases i <;> rfl
theorem Normal3.relabel_get (σ : Equiv.Perm (Fin 3)) (v : Normal3 T) (i : Fin 3) :
    (v.relabel σ).get i = v.get (σ i) := by fin_cases i <;> rfl
theorem Point3.relabel_get (σ : Equiv.Perm (Fin 3)) (v : Point3 T) (i : Fin 3) :
    (v.relabel σ).get i = v.get (σ i) := by fin_cases i <;> rfl

theorem Vector3.get_ext' {u v : Vector3 T} (h : ∀ i, u.get i = v.get i) : u = v := by
  cases u; cases v
  simp only [Vector3.mk.injEq]
  exact ⟨h 0, h 1, h 2⟩

theorem Normal3.get_ext' {u v : Normal3 T} (h : ∀ i, u.get i = v.get i) : u = v := by
  cases u; cases v
  simp only [Normal3.mk.injEq]
  exact ⟨h 0, h 1, h 2⟩

/-- The six permutations of the axes -/
theorem perm_cases (σ : Equiv.Perm (Fin 3)) :
    (Equiv.Perm.sign σ = 1 ∧ ((σ 0, σ 1, σ 2) = (0, 1, 2) ∨ (σ 0, σ 1, σ 2) = (1, 2, 0) ∨
      (σ 0, σ 1, σ 2) = (2, 0, 1))) ∨
    (Equiv.Perm.sign σ = -1 ∧ ((σ 0, σ 1, σ 2) = (1, 0, 2) ∨ (σ 0, σ 1, σ 2) = (0, 2, 1) ∨
      (σ 0, σ 1, σ 2) = (2, 1, 0))) := by
  revert σ; decide

variable [Elem T]

/-- **C84**: sums, differences, negation, multiples and quotients of vectors; the least and greatest
    components. -/
theorem C84_vectors (σ : Equiv.Perm (Fin 3)) (u v w : Vector3 T) (s : T) :
    ((u.relabel σ).add (v.relabel σ) = .ok (w.relabel σ) ↔ u.add v = .ok w) ∧
    ((u.relabel σ).sub (v.relabel σ) = .ok (w.relabel σ) ↔ u.sub v = .ok w) ∧
    ((u.relabel σ).neg = .ok (w.relabel σ) ↔ u.neg = .ok w) ∧
    ((u.relabel σ).mul s = .ok (w.relabel σ) ↔ u.mul s = .ok w) ∧
    ((u.relabel σ).div s = .ok (w.relabel σ) ↔ u.div s = .ok w) ∧
    (u.relabel σ).min (v.relabel σ) = (u.min v).relabel σ ∧
    (u.relabel σ).max (v.relabel σ) = (u.max v).relabel σ := by
  obtain ⟨a1, a2, a3, a4, a5⟩ := C65_vector u v w s
  obtain ⟨b1, b2, b3, b4, b5⟩ := C65_vector (u.relabel σ) (v.relabel σ) (w.relabel σ) s
  rw [a1, a2, a3, a4, a5, b1, b2, b3, b4, b5]
  simp only [Vector3.relabel_get]
  refine ⟨σ.forall_congr_right (q := fun i => Elem.add (u.get i) (v.get i) = .ok (w.get i)),
    σ.forall_congr_right (q := fun i => Elem.sub (u.get i) (v.get i) = .ok (w.get i)),
    σ.forall_congr_right (q := fun i => Elem.neg (u.get i) = .ok (w.get i)),
    σ.forall_congr_right (q := fun i => Elem.mul s (u.get i) = .ok (w.get i)),
    σ.forall_congr_right (q := fun i => Elem.div (u.get i) s = .ok (w.get i)), ?_, ?_⟩
  · have h : ∀ (u v : Vector3 T) i, (u.min v).get i = pminFrom (u.get i) [v.get i] := by
      intro u v i; fin_cases i <;> rfl
    refine Vector3.get_ext' fun i => ?_
    rw [h, Vector3.relabel_get, Vector3.relabel_get, Vector3.relabel_get, h]
  · have h : ∀ (u v : Vector3 T) i, (u.max v).get i = pmaxFrom (u.get i) [v.get i] := by
      intro u v i; fin_cases i <;> rfl
    refine Vector3.get_ext' fun i => ?_
    rw [h, Vector3.relabel_get, Vector3.relabel_get, Vector3.relabel_get, h]

/-- **C84**: the same for normals. -/
theorem C84_normals (σ : Equiv.Perm (Fin 3)) (u v w : Normal3 T) (s : T) :
    ((u.relabel σ).add (v.relabel σ) = .ok (w.relabel σ) ↔ u.add v = .ok w) ∧
    ((u.relabel σ).sub (v.relabel σ) = .ok (w.relabel σ) ↔ u.sub v = .ok w) ∧
    ((u.relabel σ).neg = .ok (w.relabel σ) ↔ u.neg = .ok w) ∧
    ((u.relabel σ).mul s = .ok (w.relabel σ) ↔ u.mul s = .ok w) ∧
    ((u.relabel σ).div s = .ok (w.relabel σ) ↔ u.div s = .ok w) ∧
    (u.relabel σ).min (v.relabel σ) = (u.min v).relabel σ ∧
    (u.relabel σ).max (v.relabel σ) = (u.max v).relabel σ := by
  obtain ⟨a1, a2, a3, a4, a5⟩ := C65_normal u v w s
  obtain ⟨b1, b2, b3, b4, b5⟩ := C65_normal (u.relabel σ) (v.relabel σ) (w.relabel σ) s
  rw [a1, a2, a3, a4, a5, b1, b2, b3, b4, b5]
  simp only [Normal3.relabel_get]
  refine ⟨σ.forall_congr_right (q := fun i => Elem.add (u.get i) (v.get i) = .ok (w.get i)),
    σ.forall_congr_right (q := fun i => Elem.sub (u.get i) (v.get i) = .ok (w.get i)),
    σ.forall_congr_right (q := fun i => Elem.neg (u.get i) = .ok (w.get i)),
    σ.forall_congr_right (q := fun i => Elem.mul s (u.get i) = .ok (w.get i)),
    σ.forall_congr_right (q := fun i => Elem.div (u.get i) s = .ok (w.get i)), ?_, ?_⟩
  · have h : ∀ (u v : Normal3 T) i, (u.min v).get i = pminFrom (u.get i) [v.get i] := by
      intro u v i; fin_cases i <;> rfl
    refine Normal3.get_ext' fun i => ?_
    rw [h, Normal3.relabel_get, Normal3.relabel_get, Normal3.relabel_get, h]
  · have h : ∀ (u v : Normal3 T) i, (u.max v).get i = pmaxFrom (u.get i) [v.get i] := by
      intro u v i; fin_cases i <;> rfl
    refine Normal3.get_ext' fun i => ?_
    rw [h, Normal3.relabel_get, Normal3.relabel_get, Normal3.relabel_get, h]

theorem point_lerp_iff (t : T) (p q r : Point3 T) :
    Point3.lerp t p q = .ok r ↔ ∀ i, lerp t (p.get i) (q.get i) = .ok (r.get i) := by
  have e : ∀ b : Point3 T, ∀ i, (Vector3.ofPoint b).get i = b.get i := by intro b i; fin_cases i <;> rfl
  have o1 := fun (p q : Point3 T) (v : Vector3 T) => (C65_point p q v ⟨t, t, t⟩ t).1
  have o2 := fun (p q : Point3 T) (s : T) => (C65_point p q ⟨t, t, t⟩ ⟨t, t, t⟩ s).2.2.2.1
  simp only [Point3.lerp, lerp, bind_eq_ok, o1, o2, e]
  constructor
  · rintro ⟨s, h, a, ha, b, hb, hc⟩ i
    exact ⟨s, h, _, ha i, _, hb i, hc i⟩
  · intro h
    choose s hs a ha b hb hc using h
    have hss : ∀ i, s i = s 0 := fun i => by simpa using (hs i).symm.trans (hs 0)
    refine ⟨s 0, hs 0, ⟨a 0, a 1, a 2⟩, ?_, ⟨b 0, b 1, b 2⟩, ?_, ?_⟩
    · intro i; rw [← hss i, ha i]; fin_cases i <;> rfl
    · intro i; rw [hb i]; fin_cases i <;> rfl
    · intro i; rw [← hc i]; fin_cases i <;> rfl

/-- **C84**: points. -/
theorem C84_points (σ : Equiv.Perm (Fin 3)) (p q r : Point3 T) (v w : Vector3 T) (s : T) :
    ((p.relabel σ).add (v.relabel σ) = .ok (q.relabel σ) ↔ p.add v = .ok q) ∧
    ((p.relabel σ).subVec (v.relabel σ) = .ok (q.relabel σ) ↔ p.subVec v = .ok q) ∧
    ((p.relabel σ).sub (q.relabel σ) = .ok (w.relabel σ) ↔ p.sub q = .ok w) ∧
    ((p.relabel σ).mul s = .ok (q.relabel σ) ↔ p.mul s = .ok q) ∧
    ((p.relabel σ).div s = .ok (q.relabel σ) ↔ p.div s = .ok q) ∧
    ((p.relabel σ).abs = .ok (q.relabel σ) ↔ p.abs = .ok q) ∧
    (Point3.lerp s (p.relabel σ) (q.relabel σ) = .ok (r.relabel σ) ↔ Point3.lerp s p q = .ok r) ∧
    (p.relabel σ).min (q.relabel σ) = (p.min q).relabel σ ∧
    (p.relabel σ).max (q.relabel σ) = (p.max q).relabel σ ∧
    (p.relabel σ).hasNan = p.hasNan := by
  obtain ⟨a1, a2, a3, a4, a5, a6⟩ := C65_point p q v w s
  obtain ⟨b1, b2, b3, b4, b5, b6⟩ := C65_point (p.relabel σ) (q.relabel σ) (v.relabel σ) (w.relabel σ) s
  rw [a1, a2, a3, a4, a5, a6, b1, b2, b3, b4, b5, b6, point_lerp_iff, point_lerp_iff]
  simp only [Vector3.relabel_get, Point3.relabel_get]
  refine ⟨σ.forall_congr_right (q := fun i => Elem.add (p.get i) (v.get i) = .ok (q.get i)),
    σ.forall_congr_right (q := fun i => Elem.sub (p.get i) (v.get i) = .ok (q.get i)),
    σ.forall_congr_right (q := fun i => Elem.sub (p.get i) (q.get i) = .ok (w.get i)),
    σ.forall_congr_right (q := fun i => Elem.mul s (p.get i) = .ok (q.get i)),
    σ.forall_congr_right (q := fun i => Elem.div (p.get i) s = .ok (q.get i)),
    σ.forall_congr_right (q := fun i => Elem.abs (p.get i) = .ok (q.get i)),
    σ.forall_congr_right (q := fun i => lerp s (p.get i) (q.get i) = .ok (r.get i)), ?_, ?_, ?_⟩
  · have h : ∀ (u v : Point3 T) i, (u.min v).get i = pminFrom (u.get i) [v.get i] := by
      intro u v i; fin_cases i <;> rfl
    refine Point3.get_ext fun i => ?_
    rw [h, Point3.relabel_get, Point3.relabel_get, Point3.relabel_get, h]
  · have h : ∀ (u v : Point3 T) i, (u.max v).get i = pmaxFrom (u.get i) [v.get i] := by
      intro u v i; fin_cases i <;> rfl
    refine Point3.get_ext fun i => ?_
    rw [h, Point3.relabel_get, Point3.relabel_get, Point3.relabel_get, h]
  · have h : ∀ p : Point3 T, p.hasNan = false ↔ ∀ i, Elem.isNan (p.get i) = false := by
      intro p
      simp only [Point3.hasNan, Bool.or_eq_false_iff, forall_axis, Point3.get, and_assoc]
    have := (h (p.relabel σ)).trans ((by
      simp only [Point3.relabel_get]
      exact σ.forall_congr_right (q := fun i => Elem.isNan (p.get i) = false) :
        (∀ i, Elem.isNan ((p.relabel σ).get i) = false) ↔ _).trans (h p).symm)
    cases h1 : (p.relabel σ).hasNan <;> cases h2 : p.hasNan <;> simp_all

omit [Elem T] in
/-- **C84**: `floor` and `ceil`. -/
theorem C84_floor [FloatFns T] (σ : Equiv.Perm (Fin 3)) (p : Point3 T) :
    (p.relabel σ).floor = p.floor.relabel σ ∧ (p.relabel σ).ceil = p.ceil.relabel σ := by
  have h : ∀ (p : Point3 T) i, p.floor.get i = FloatFns.floor (p.get i) := by intro p i; fin_cases i <;> rfl
  have h' : ∀ (p : Point3 T) i, p.ceil.get i = FloatFns.ceil (p.get i) := by intro p i; fin_cases i <;> rfl
  constructor <;> refine Point3.get_ext fun i => ?_
  · rw [h, Point3.relabel_get, Point3.relabel_get, h]
  · rw [h', Point3.relabel_get, Point3.relabel_get, h']

/-- **C84**: the product `cross`.  An odd permutation exchanges left and right: the factors change
    places. -/
theorem C84_cross (hm : ∀ a b : T, Elem.mul a b = Elem.mul b a) (σ : Equiv.Perm (Fin 3)) (u v w : Vector3 T) :
    (u.relabel σ).cross (v.relabel σ) = .ok (w.relabel σ) ↔
      (if Equiv.Perm.sign σ = 1 then u.cross v else v.cross u) = .ok w := by
  have key : ∀ u v w : Vector3 T, u.cross v = .ok w ↔
      (∃ a b, Elem.mul u.y v.z = .ok a ∧ Elem.mul u.z v.y = .ok b ∧ Elem.sub a b = .ok w.x) ∧
      (∃ a b, Elem.mul u.z v.x = .ok a ∧ Elem.mul u.x v.z = .ok b ∧ Elem.sub a b = .ok w.y) ∧
      (∃ a b, Elem.mul u.x v.y = .ok a ∧ Elem.mul u.y v.x = .ok b ∧ Elem.sub a b = .ok w.z) := by
    intro u v w
    simp only [Vector3.cross, bind_eq_ok, pure_ok, Except.ok.injEq]
    constructor
    · rintro ⟨a, h1, b, h2, c, h3, d, h4, e, h5, f, h6, g, h7, h, h8, i, h9, rfl⟩
      exact ⟨⟨_, _, h1, h2, h3⟩, ⟨_, _, h4, h5, h6⟩, _, _, h7, h8, h9⟩
    · rintro ⟨⟨a, b, h1, h2, h3⟩, ⟨c, d, h4, h5, h6⟩, e, f, h7, h8, h9⟩
      exact ⟨_, h1, _, h2, _, h3, _, h4, _, h5, _, h6, _, h7, _, h8, _, h9, rfl⟩
  rcases perm_cases σ with ⟨hs, h⟩ | ⟨hs, h⟩
  · rw [if_pos hs, key, key]
    rcases h with h | h | h <;> simp only [Prod.mk.injEq] at h <;>
      simp only [Vector3.relabel, h, Vector3.get] <;> tauto
  · rw [if_neg (by rw [hs]; decide), key, key]
    rcases h with h | h | h <;> simp only [Prod.mk.injEq] at h <;>
      simp only [Vector3.relabel, h, Vector3.get]
    · rw [hm v.y u.z, hm v.z u.y, hm v.z u.x, hm v.x u.z, hm v.x u.y, hm v.y u.x]; tauto
    · rw [hm v.y u.z, hm v.z u.y, hm v.z u.x, hm v.x u.z, hm v.x u.y, hm v.y u.x]; tauto
    · rw [hm v.y u.z, hm v.z u.y, hm v.z u.x, hm v.x u.z, hm v.x u.y, hm v.y u.x]; tauto

/-! ### Boxes -/

omit [Elem T] in
theorem Bounds3.get_ext {a b : Bounds3 T} (h : ∀ i, a.pMin.get i = b.pMin.get i)
    (h' : ∀ i, a.pMax.get i = b.pMax.get i) : a = b := by
  cases a; cases b
  simp only [Bounds3.mk.injEq]
  exact ⟨Point3.get_ext h, Point3.get_ext h'⟩

omit [Elem T] in
theorem relabel_min (σ : Equiv.Perm (Fin 3)) (b : Bounds3 T) (i : Fin 3) :
    (b.relabel σ).pMin.get i = b.pMin.get (σ i) := Point3.relabel_get _ _ _
omit [Elem T] in
theorem relabel_max (σ : Equiv.Perm (Fin 3)) (b : Bounds3 T) (i : Fin 3) :
    (b.relabel σ).pMax.get i = b.pMax.get (σ i) := Point3.relabel_get _ _ _

omit [Elem T] in
theorem Point3.relabel_symm (σ : Equiv.Perm (Fin 3)) (p : Point3 T) : (p.relabel σ.symm).relabel σ = p :=
  Point3.get_ext fun i => by rw [Point3.relabel_get, Point3.relabel_get, σ.symm_apply_apply]

omit [Elem T] in
theorem Bounds3.relabel_inj (σ : Equiv.Perm (Fin 3)) {a b : Bounds3 T} (h : a.relabel σ = b.relabel σ) : a = b := by
  refine Bounds3.get_ext (fun i => ?_) (fun i => ?_)
  · have := congrArg (fun b : Bounds3 T => b.pMin.get (σ.symm i)) h
    simpa only [relabel_min, σ.apply_symm_apply] using this
  · have := congrArg (fun b : Bounds3 T => b.pMax.get (σ.symm i)) h
    simpa only [relabel_max, σ.apply_symm_apply] using this

/-- **C84**: making boxes, for all element types and also for NaN. -/
theorem C84_boxes (σ : Equiv.Perm (Fin 3)) (a b : Bounds3 T) (p q : Point3 T) :
    Bounds3.new (p.relabel σ) (q.relabel σ) = (Bounds3.new p q).relabel σ ∧
    Bounds3.newPt (p.relabel σ) = (Bounds3.newPt p).relabel σ ∧
    (a.relabel σ).unionPt (p.relabel σ) = (a.unionPt p).relabel σ ∧
    (a.relabel σ).union (b.relabel σ) = (a.union b).relabel σ ∧
    (a.relabel σ).intersect (b.relabel σ) = (a.intersect b).relabel σ := by
  refine ⟨?_, ?_, ?_, ?_, ?_⟩ <;> refine Bounds3.get_ext (fun i => ?_) (fun i => ?_) <;>
    simp only [Bounds3.newPt, new_min, new_max, unionPt_min, unionPt_max, union_min, union_max, intersect_min,
      intersect_max, relabel_min, relabel_max, Point3.relabel_get]

theorem bool_iff {a b : Bool} {P Q : Prop} (ha : a = true ↔ P) (hb : b = true ↔ Q) (h : P ↔ Q) : a = b := by
  rw [Bool.eq_iff_iff, ha, hb, h]

/-- **C84**: the tests of boxes. -/
theorem C84_tests (σ : Equiv.Perm (Fin 3)) (a b : Bounds3 T) (p : Point3 T) :
    (a.relabel σ).overlaps (b.relabel σ) = a.overlaps b ∧
    (a.relabel σ).inside (p.relabel σ) = a.inside p ∧
    (a.relabel σ).insideExclusive (p.relabel σ) = a.insideExclusive p := by
  have h1 : ∀ a b : Bounds3 T, a.overlaps b = true ↔
      ∀ i, Elem.ge (a.pMax.get i) (b.pMin.get i) = true ∧ Elem.le (a.pMin.get i) (b.pMax.get i) = true := by
    intro a b
    simp only [Bounds3.overlaps, Bool.and_eq_true, forall_axis, Point3.get]; tauto
  have h2 : ∀ (a : Bounds3 T) p, a.inside p = true ↔
      ∀ i, Elem.ge (p.get i) (a.pMin.get i) = true ∧ Elem.le (p.get i) (a.pMax.get i) = true := by
    intro a b
    simp only [Bounds3.inside, Bool.and_eq_true, forall_axis, Point3.get]; tauto
  have h3 : ∀ (a : Bounds3 T) p, a.insideExclusive p = true ↔
      ∀ i, Elem.ge (p.get i) (a.pMin.get i) = true ∧ Elem.lt (p.get i) (a.pMax.get i) = true := by
    intro a b
    simp only [Bounds3.insideExclusive, Bool.and_eq_true, forall_axis, Point3.get]; tauto
  refine ⟨bool_iff (h1 _ _) (h1 a b) ?_, bool_iff (h2 _ _) (h2 a p) ?_, bool_iff (h3 _ _) (h3 a p) ?_⟩ <;>
    simp only [relabel_min, relabel_max, Point3.relabel_get]
  · exact σ.forall_congr_right (q := fun i => Elem.ge (a.pMax.get i) (b.pMin.get i) = true ∧
      Elem.le (a.pMin.get i) (b.pMax.get i) = true)
  · exact σ.forall_congr_right (q := fun i => Elem.ge (p.get i) (a.pMin.get i) = true ∧
      Elem.le (p.get i) (a.pMax.get i) = true)
  · exact σ.forall_congr_right (q := fun i => Elem.ge (p.get i) (a.pMin.get i) = true ∧
      Elem.lt (p.get i) (a.pMax.get i) = true)

omit [Elem T] in
/-- **C84**: the eight corners. -/
theorem C84_corners (σ : Equiv.Perm (Fin 3)) (b : Bounds3 T) (q : Point3 T) :
    (∃ c : Fin 8, (b.relabel σ).corner c = q.relabel σ) ↔ ∃ c : Fin 8, b.corner c = q := by
  have h : ∀ (b : Bounds3 T) (c : Fin 8) i, (b.corner c).get i =
      if c.val.testBit i then b.pMin.get i else b.pMax.get i := by
    intro b c i
    fin_cases c <;> fin_cases i <;> rfl
  have e : ∀ (b : Bounds3 T) (c : Fin 8) q, b.corner c = q ↔
      ∀ i : Fin 3, (if c.val.testBit i then b.pMin.get i else b.pMax.get i) = q.get i := by
    intro b c q
    exact ⟨fun hc i => by rw [← h, hc], fun hc => Point3.get_ext fun i => by rw [h, hc]⟩
  have bits : ∀ (σ : Equiv.Perm (Fin 3)) (c : Fin 8), ∃ c' : Fin 8, ∀ i : Fin 3, c'.val.testBit i = c.val.testBit (σ i) := by
    decide
  simp only [e, relabel_min, relabel_max, Point3.relabel_get]
  constructor
  · rintro ⟨c, hc⟩
    obtain ⟨c', hc'⟩ := bits σ.symm c
    refine ⟨c', fun i => ?_⟩
    have := hc (σ.symm i)
    rw [σ.apply_symm_apply] at this
    rw [hc', this]
  · rintro ⟨c, hc⟩
    obtain ⟨c', hc'⟩ := bits σ c
    exact ⟨c', fun i => by rw [hc', hc]⟩

theorem offset_iff (b : Bounds3 T) (p : Point3 T) (v : Vector3 T) : b.offset p = .ok v ↔
    ∀ i, (do
      let d ← Elem.sub (p.get i) (b.pMin.get i)
      if Elem.gt (b.pMax.get i) (b.pMin.get i) then do
        let l ← Elem.sub (b.pMax.get i) (b.pMin.get i)
        Elem.div d l
      else pure d) = .ok (v.get i) := by
  let f (i : Fin 3) (d : T) : Outcome T := if Elem.gt (b.pMax.get i) (b.pMin.get i) then do
        let l ← Elem.sub (b.pMax.get i) (b.pMin.get i)
        Elem.div d l
      else pure d
  have h : b.offset p = p.sub b.pMin >>= fun o => f 0 o.x >>= fun x => f 1 o.y >>= fun y => f 2 o.z >>= fun z =>
      .ok ⟨x, y, z⟩ := by
    simp only [Bounds3.offset, f, Point3.get]
    by_cases hx : Elem.gt b.pMax.x b.pMin.x = true <;> by_cases hy : Elem.gt b.pMax.y b.pMin.y = true <;>
      by_cases hz : Elem.gt b.pMax.z b.pMin.z = true <;>
      simp only [hx, hy, hz, if_true, if_false, Bool.false_eq_true, bind_assoc, ok_bind, pure_ok]
  show _ ↔ ∀ i, (Elem.sub (p.get i) (b.pMin.get i) >>= f i) = .ok (v.get i)
  rw [h]
  simp only [Point3.sub, bind_eq_ok, pure_ok, Except.ok.injEq, forall_axis, Point3.get, Vector3.get]
  constructor
  · rintro ⟨o, ⟨x, hx, y, hy, z, hz, rfl⟩, a, ha, b, hb, c, hc, rfl⟩
    exact ⟨⟨_, hx, ha⟩, ⟨_, hy, hb⟩, _, hz, hc⟩
  · rintro ⟨⟨x, hx, ha⟩, ⟨y, hy, hb⟩, z, hz, hc⟩
    exact ⟨_, ⟨x, hx, y, hy, z, hz, rfl⟩, _, ha, _, hb, _, hc, rfl⟩

theorem box_lerp_iff (b : Bounds3 T) (t q : Point3 T) : b.lerp t = .ok q ↔
    ∀ i, lerp (t.get i) (b.pMin.get i) (b.pMax.get i) = .ok (q.get i) := by
  simp only [Bounds3.lerp, bind_eq_ok, pure_ok, Except.ok.injEq, forall_axis, Point3.get]
  constructor
  · rintro ⟨x, hx, y, hy, z, hz, rfl⟩
    exact ⟨hx, hy, hz⟩
  · rintro ⟨hx, hy, hz⟩
    exact ⟨_, hx, _, hy, _, hz, rfl⟩

/-- **C84**: `diagonal`, `expand`, `offset` and `lerp` of boxes. -/
theorem C84_measures (σ : Equiv.Perm (Fin 3)) (b c : Bounds3 T) (p q : Point3 T) (d : Vector3 T) (s : T) :
    ((b.relabel σ).diagonal = .ok (d.relabel σ) ↔ b.diagonal = .ok d) ∧
    ((b.relabel σ).expand s = .ok (c.relabel σ) ↔ b.expand s = .ok c) ∧
    ((b.relabel σ).offset (p.relabel σ) = .ok (d.relabel σ) ↔ b.offset p = .ok d) ∧
    ((b.relabel σ).lerp (p.relabel σ) = .ok (q.relabel σ) ↔ b.lerp p = .ok q) := by
  refine ⟨?_, ?_, ?_, ?_⟩
  · exact (C84_points σ b.pMax b.pMin b.pMin d d s).2.2.1
  · have hs : ∀ σ : Equiv.Perm (Fin 3), (⟨s, s, s⟩ : Vector3 T).relabel σ = ⟨s, s, s⟩ := by
      intro σ
      refine Vector3.get_ext' fun i => ?_
      rw [Vector3.relabel_get]
      generalize σ i = j
      fin_cases i <;> fin_cases j <;> rfl
    have h1 := fun (p q : Point3 T) => (C84_points σ p q q ⟨s, s, s⟩ ⟨s, s, s⟩ s).1
    have h2 := fun (p q : Point3 T) => (C84_points σ p q q ⟨s, s, s⟩ ⟨s, s, s⟩ s).2.1
    rw [hs] at h1 h2
    simp only [Bounds3.expand, bind_eq_ok, pure_ok, Except.ok.injEq]
    constructor
    · rintro ⟨p, hp, q, hq, h⟩
      refine ⟨p.relabel σ.symm, (h2 _ _).1 ?_, q.relabel σ.symm, (h1 _ _).1 ?_, ?_⟩
      · rw [Point3.relabel_symm]; exact hp
      · rw [Point3.relabel_symm]; exact hq
      · refine Bounds3.relabel_inj σ ?_
        rw [← (C84_boxes σ b b _ _).1, Point3.relabel_symm, Point3.relabel_symm, h]
    · rintro ⟨p, hp, q, hq, h⟩
      exact ⟨p.relabel σ, (h2 _ _).2 hp, q.relabel σ, (h1 _ _).2 hq, by rw [(C84_boxes σ b b _ _).1, h]⟩
  · rw [offset_iff, offset_iff]
    simp only [relabel_min, relabel_max, Point3.relabel_get, Vector3.relabel_get]
    exact σ.forall_congr_right (q := fun i => (do
      let d ← Elem.sub (p.get i) (b.pMin.get i)
      if Elem.gt (b.pMax.get i) (b.pMin.get i) then do
        let l ← Elem.sub (b.pMax.get i) (b.pMin.get i)
        Elem.div d l
      else pure d) = .ok (d.get i))
  · rw [box_lerp_iff, box_lerp_iff]
    simp only [relabel_min, relabel_max, Point3.relabel_get]
    exact σ.forall_congr_right (q := fun i => lerp (p.get i) (b.pMin.get i) (b.pMax.get i) = .ok (q.get i))

omit [Elem T] in
theorem Vector3.relabel_symm (σ : Equiv.Perm (Fin 3)) (p : Vector3 T) : (p.relabel σ.symm).relabel σ = p :=
  Vector3.get_ext' fun i => by rw [Vector3.relabel_get, Vector3.relabel_get, σ.symm_apply_apply]

omit [Elem T] in
theorem Vector3.exists_relabel (σ : Equiv.Perm (Fin 3)) {P : Vector3 T → Prop} :
    (∃ v, P v) ↔ ∃ v : Vector3 T, P (v.relabel σ) :=
  ⟨fun ⟨v, h⟩ => ⟨v.relabel σ.symm, by rwa [Vector3.relabel_symm]⟩, fun ⟨v, h⟩ => ⟨_, h⟩⟩

omit [Elem T] in
theorem Point3.relabel_inj (σ : Equiv.Perm (Fin 3)) {p q : Point3 T} : p.relabel σ = q.relabel σ ↔ p = q := by
  refine ⟨fun h => Point3.get_ext fun i => ?_, fun h => by rw [h]⟩
  have := congrArg (fun b : Point3 T => b.get (σ.symm i)) h
  simpa only [Point3.relabel_get, σ.apply_symm_apply] using this

omit [Elem T] in
theorem Vector3.relabel_inj (σ : Equiv.Perm (Fin 3)) {p q : Vector3 T} : p.relabel σ = q.relabel σ ↔ p = q := by
  refine ⟨fun h => Vector3.get_ext' fun i => ?_, fun h => by rw [h]⟩
  have := congrArg (fun b : Vector3 T => b.get (σ.symm i)) h
  simpa only [Vector3.relabel_get, σ.apply_symm_apply] using this

theorem scale_iff (a b : RayDifferential T) (t : T) : a.scaleDifferentials t = .ok b ↔
    ((∃ v, a.rxOrigin.sub a.ray.o = .ok v ∧ ∃ w, v.mul t = .ok w ∧ a.ray.o.add w = .ok b.rxOrigin) ∧
    (∃ v, a.ryOrigin.sub a.ray.o = .ok v ∧ ∃ w, v.mul t = .ok w ∧ a.ray.o.add w = .ok b.ryOrigin) ∧
    (∃ v, a.rxDirection.sub a.ray.d = .ok v ∧ ∃ w, v.mul t = .ok w ∧ a.ray.d.add w = .ok b.rxDirection) ∧
    ∃ v, a.ryDirection.sub a.ray.d = .ok v ∧ ∃ w, v.mul t = .ok w ∧ a.ray.d.add w = .ok b.ryDirection) ∧
    a.ray.o = b.ray.o ∧ a.ray.d = b.ray.d ∧ a.ray.tMax = b.ray.tMax ∧ a.ray.time = b.ray.time ∧
    a.hasDifferentials = b.hasDifferentials := by
  simp only [RayDifferential.scaleDifferentials, bind_eq_ok, pure_ok, Except.ok.injEq]
  constructor
  · rintro ⟨_, h1, _, h2, _, h3, _, h4, _, h5, _, h6, _, h7, _, h8, _, h9, _, h10, _, h11, _, h12, rfl⟩
    exact ⟨⟨⟨_, h1, _, h2, h3⟩, ⟨_, h4, _, h5, h6⟩, ⟨_, h7, _, h8, h9⟩, _, h10, _, h11, h12⟩, rfl, rfl, rfl, rfl, rfl⟩
  · rintro ⟨⟨⟨_, h1, _, h2, h3⟩, ⟨_, h4, _, h5, h6⟩, ⟨_, h7, _, h8, h9⟩, _, h10, _, h11, h12⟩, e1, e2, e3, e4, e5⟩
    refine ⟨_, h1, _, h2, _, h3, _, h4, _, h5, _, h6, _, h7, _, h8, _, h9, _, h10, _, h11, _, h12, ?_⟩
    obtain ⟨⟨o, d, tMax, time⟩, hd, _, _, _, _⟩ := a
    obtain ⟨⟨o', d', tMax', time'⟩, hd', _, _, _, _⟩ := b
    simp only at e1 e2 e3 e4 e5
    subst e1 e2 e3 e4 e5
    rfl

/-- **C84**: rays and the scaling of their differentials. -/
theorem C84_rays (σ : Equiv.Perm (Fin 3)) (r : Ray T) (t : T) (p : Point3 T) (a b : RayDifferential T) :
    ((r.relabel σ).at t = .ok (p.relabel σ) ↔ r.at t = .ok p) ∧
    ((a.relabel σ).scaleDifferentials t = .ok (b.relabel σ) ↔ a.scaleDifferentials t = .ok b) := by
  have o1 := fun (p q : Point3 T) (v : Vector3 T) => (C84_points σ p q q v v t).1
  have o2 := fun (p q : Point3 T) (v : Vector3 T) => (C84_points σ p q q v v t).2.2.1
  have o3 := fun (u v w : Vector3 T) => (C84_vectors σ u v w t).1
  have o4 := fun (u v w : Vector3 T) => (C84_vectors σ u v w t).2.1
  have o5 := fun (u w : Vector3 T) => (C84_vectors σ u u w t).2.2.2.1
  constructor
  · simp only [Ray.at, bind_eq_ok, Ray.relabel]
    rw [Vector3.exists_relabel σ]
    simp only [o1, o5]
  · rw [scale_iff, scale_iff]
    have k1 : ∀ o p q : Point3 T,
        (∃ v, (p.relabel σ).sub (o.relabel σ) = .ok v ∧ ∃ w, v.mul t = .ok w ∧ (o.relabel σ).add w = .ok (q.relabel σ)) ↔
        ∃ v, p.sub o = .ok v ∧ ∃ w, v.mul t = .ok w ∧ o.add w = .ok q := by
      intro o p q
      rw [Vector3.exists_relabel σ]
      refine exists_congr fun v => and_congr (o2 p o v) ?_
      rw [Vector3.exists_relabel σ]
      exact exists_congr fun w => and_congr (o5 v w) (o1 o q w)
    have k2 : ∀ o p q : Vector3 T,
        (∃ v, (p.relabel σ).sub (o.relabel σ) = .ok v ∧ ∃ w, v.mul t = .ok w ∧ (o.relabel σ).add w = .ok (q.relabel σ)) ↔
        ∃ v, p.sub o = .ok v ∧ ∃ w, v.mul t = .ok w ∧ o.add w = .ok q := by
      intro o p q
      rw [Vector3.exists_relabel σ]
      refine exists_congr fun v => and_congr (o4 p o v) ?_
      rw [Vector3.exists_relabel σ]
      exact exists_congr fun w => and_congr (o5 v w) (o3 o w q)
    simp only [RayDifferential.relabel, Ray.relabel, Point3.relabel_inj, Vector3.relabel_inj, k1, k2]

/-! ### Sums over the axes -/

theorem vector_dot_sum {K : Type} [CommRing K] [Elem K] [ExactRing K] (u v : Vector3 K) :
    u.dot v = .ok (∑ i, u.get i * v.get i) := by
  simp only [Vector3.dot, ExactRing.mul_eq, ExactRing.add_eq, ok_bind, Fin.sum_univ_three, Vector3.get]

theorem normal_dot_sum {K : Type} [CommRing K] [Elem K] [ExactRing K] (u v : Normal3 K) :
    u.dot v = .ok (∑ i, u.get i * v.get i) := by
  simp only [Normal3.dot, ExactRing.mul_eq, ExactRing.add_eq, ok_bind, Fin.sum_univ_three, Normal3.get]

/-- **C84**: in exact arithmetic (and with integers that wrap around) the inner products, lengths,
    areas and volumes are the same. -/
theorem C84_exact {K : Type} [CommRing K] [Elem K] [ExactRing K] (σ : Equiv.Perm (Fin 3)) (u v : Vector3 K)
    (m n : Normal3 K) (b : Bounds3 K) :
    (u.relabel σ).dot (v.relabel σ) = u.dot v ∧ (u.relabel σ).lenSq = u.lenSq ∧
    (m.relabel σ).dot (n.relabel σ) = m.dot n ∧ (m.relabel σ).lenSq = m.lenSq ∧
    (b.relabel σ).surfaceArea = b.surfaceArea ∧ (b.relabel σ).volume = b.volume := by
  have q1 : ∀ u : Vector3 K, u.lenSq = u.dot u := fun u => rfl
  have q2 : ∀ u : Normal3 K, u.lenSq = u.dot u := fun u => rfl
  have d1 : ∀ u v : Vector3 K, (u.relabel σ).dot (v.relabel σ) = u.dot v := by
    intro u v
    rw [vector_dot_sum, vector_dot_sum]
    simp only [Vector3.relabel_get]
    rw [Equiv.sum_comp σ (fun i => u.get i * v.get i)]
  have d2 : ∀ u v : Normal3 K, (u.relabel σ).dot (v.relabel σ) = u.dot v := by
    intro u v
    rw [normal_dot_sum, normal_dot_sum]
    simp only [Normal3.relabel_get]
    rw [Equiv.sum_comp σ (fun i => u.get i * v.get i)]
  refine ⟨d1 u v, by rw [q1, q1, d1], d2 m n, by rw [q2, q2, d2], ?_, ?_⟩
  · rcases perm_cases σ with ⟨-, h⟩ | ⟨-, h⟩ <;> rcases h with h | h | h <;> simp only [Prod.mk.injEq] at h <;>
      simp only [Bounds3.surfaceArea, Bounds3.diagonal, Point3.sub, Bounds3.relabel, Point3.relabel, h, Point3.get,
        ExactRing.sub_eq, ExactRing.mul_eq, ExactRing.add_eq, ok_bind, pure_ok, Except.ok.injEq] <;> ring
  · rcases perm_cases σ with ⟨-, h⟩ | ⟨-, h⟩ <;> rcases h with h | h | h <;> simp only [Prod.mk.injEq] at h <;>
      simp only [Bounds3.volume, Bounds3.diagonal, Point3.sub, Bounds3.relabel, Point3.relabel, h, Point3.get,
        ExactRing.sub_eq, ExactRing.mul_eq, ok_bind, pure_ok, Except.ok.injEq] <;> ring

/-- **C84**: the same for lengths and `face_forward`. -/
theorem C84_lengths {K F : Type} [CommRing K] [Elem K] [ExactRing K] [Elem F] [As K F] [FloatFns F]
    (σ : Equiv.Perm (Fin 3)) (u v w : Vector3 K) (m n k : Normal3 K) :
    ((u.relabel σ).len : Outcome F) = u.len ∧ ((m.relabel σ).len : Outcome F) = m.len ∧
    ((u.relabel σ).faceForward (v.relabel σ) = .ok (w.relabel σ) ↔ u.faceForward v = .ok w) ∧
    ((m.relabel σ).faceForward (n.relabel σ) = .ok (k.relabel σ) ↔ m.faceForward n = .ok k) := by
  have b : Bounds3 K := ⟨⟨0, 0, 0⟩, ⟨0, 0, 0⟩⟩
  obtain ⟨h1, h2, h3, h4, -⟩ := C84_exact σ u v m n b
  refine ⟨by simp only [Vector3.len, h2], by simp only [Normal3.len, h4], ?_, ?_⟩
  · simp only [Vector3.faceForward, h1, vector_dot_sum, ok_bind]
    split_ifs
    · exact (C84_vectors σ u v w 0).2.2.1
    · simp only [pure_ok, Except.ok.injEq, Vector3.relabel_inj]
  · simp only [Normal3.faceForward, h3, normal_dot_sum, ok_bind]
    split_ifs
    · exact (C84_normals σ m n k 0).2.2.1
    · simp only [pure_ok, Except.ok.injEq]
      refine ⟨fun h => Normal3.get_ext' fun i => ?_, fun h => by rw [h]⟩
      have := congrArg (fun b : Normal3 K => b.get (σ.symm i)) h
      simpa only [Normal3.relabel_get, σ.apply_symm_apply] using this

/-! ### Largest and smallest axes -/

theorem notNan_of_lt [LawfulOrder T] {f : Fin 3 → T} {k : Fin 3} (h : ∀ j, j ≠ k → Lt (f j) (f k)) (i : Fin 3) :
    NotNan (f i) := by
  by_cases hi : i = k
  · obtain ⟨j, hj⟩ : ∃ j : Fin 3, j ≠ k := exists_ne k
    rw [hi]
    exact (h j hj).le.right
  · exact (h i hi).le.left

/-- **C84**: the least and the greatest component are the same (up to the sign of a zero). -/
theorem C84_components [LawfulOrder T] (σ : Equiv.Perm (Fin 3)) (u : Vector3 T) (n : Normal3 T)
    (hu : ∀ i, NotNan (u.get i)) (hn : ∀ i, NotNan (n.get i)) :
    Same (u.relabel σ).minComponent u.minComponent ∧ Same (u.relabel σ).maxComponent u.maxComponent ∧
    Same (n.relabel σ).minComponent n.minComponent ∧ Same (n.relabel σ).maxComponent n.maxComponent := by
  have hu' : ∀ i, NotNan ((u.relabel σ).get i) := fun i => by rw [Vector3.relabel_get]; exact hu _
  have hn' : ∀ i, NotNan ((n.relabel σ).get i) := fun i => by rw [Normal3.relabel_get]; exact hn _
  obtain ⟨⟨⟨a1, b1⟩, c1⟩, ⟨⟨a2, b2⟩, c2⟩, ⟨⟨a3, b3⟩, c3⟩, ⟨a4, b4⟩, c4⟩ := C65_components u n hu hn
  obtain ⟨⟨⟨d1, e1⟩, f1⟩, ⟨⟨d2, e2⟩, f2⟩, ⟨⟨d3, e3⟩, f3⟩, ⟨d4, e4⟩, f4⟩ := C65_components _ _ hu' hn'
  simp only [Vector3.relabel_get, Normal3.relabel_get] at e1 f1 e2 f2 e3 f3 e4 f4
  refine ⟨same_iff.2 ⟨?_, ?_⟩, same_iff.2 ⟨?_, ?_⟩, same_iff.2 ⟨?_, ?_⟩, same_iff.2 ⟨?_, ?_⟩⟩
  · have := f1 (σ.symm a1); rwa [σ.apply_symm_apply, ← b1] at this
  · rw [e1]; exact c1 _
  · rw [e2]; exact c2 _
  · have := f2 (σ.symm a2); rwa [σ.apply_symm_apply, ← b2] at this
  · have := f3 (σ.symm a3); rwa [σ.apply_symm_apply, ← b3] at this
  · rw [e3]; exact c3 _
  · rw [e4]; exact c4 _
  · have := f4 (σ.symm a4); rwa [σ.apply_symm_apply, ← b4] at this

/-- **C84**: an axis on which a vector or box is longer than on the others stays the longest one. -/
theorem C84_longest [LawfulOrder T] (σ : Equiv.Perm (Fin 3)) (u : Vector3 T) (n : Normal3 T) (b : Bounds3 T)
    (d : Vector3 T) (hd : b.diagonal = .ok d) (i : Fin 3) :
    ((∀ j, j ≠ σ i → Lt (u.get j) (u.get (σ i))) → u.maxDimension = σ i ∧ (u.relabel σ).maxDimension = i) ∧
    ((∀ j, j ≠ σ i → Lt (n.get j) (n.get (σ i))) → n.maxDimension = σ i ∧ (n.relabel σ).maxDimension = i) ∧
    ((∀ j, j ≠ σ i → Lt (d.get j) (d.get (σ i))) →
      b.maximumExtent = .ok (σ i).val ∧ (b.relabel σ).maximumExtent = .ok i.val) := by
  have v1 : ∀ (u : Vector3 T) (k : Fin 3), (∀ j, j ≠ k → Lt (u.get j) (u.get k)) → u.maxDimension = k := by
    intro u k h
    obtain ⟨l, hl, h1, -⟩ := C46_max_dimension_vector u (notNan_of_lt h)
    rw [hl]
    by_contra hc
    exact (lt_iff.1 (h l fun e => hc (by rw [e]))).2 (h1 k)
  have v2 : ∀ (u : Normal3 T) (k : Fin 3), (∀ j, j ≠ k → Lt (u.get j) (u.get k)) → u.maxDimension = k := by
    intro u k h
    obtain ⟨l, hl, h1, -⟩ := C46_max_dimension_normal u (notNan_of_lt h)
    rw [hl]
    by_contra hc
    exact (lt_iff.1 (h l fun e => hc (by rw [e]))).2 (h1 k)
  have v3 : ∀ (b : Bounds3 T) (d : Vector3 T) (k : Fin 3), b.diagonal = .ok d →
      (∀ j, j ≠ k → Lt (d.get j) (d.get k)) → b.maximumExtent = .ok k.val := by
    intro b u k hd h
    obtain ⟨l, hl, h1, -⟩ := C46_maximum_extent b u hd (notNan_of_lt h)
    rw [hl]
    by_contra hc
    exact (lt_iff.1 (h l fun e => hc (by rw [e]))).2 (h1 k)
  refine ⟨fun h => ⟨v1 u _ h, v1 _ _ fun j hj => ?_⟩, fun h => ⟨v2 n _ h, v2 _ _ fun j hj => ?_⟩,
    fun h => ⟨v3 b d _ hd h, v3 _ (d.relabel σ) _ ((C84_measures σ b b b.pMin b.pMin d (d.get 0)).1.2 hd)
      fun j hj => ?_⟩⟩
  · rw [Vector3.relabel_get, Vector3.relabel_get]; exact h _ fun e => hj (σ.injective e)
  · rw [Normal3.relabel_get, Normal3.relabel_get]; exact h _ fun e => hj (σ.injective e)
  · rw [Vector3.relabel_get, Vector3.relabel_get]; exact h _ fun e => hj (σ.injective e)

/-! ### Matrices -/

section
variable {K : Type} [CommRing K] [Elem K] [ExactRing K]

/-- **C84**: sums, products and transposition of matrices whose rows and columns are exchanged. -/
theorem C84_matrices (ρ τ κ : Equiv.Perm (Fin 4)) (a b c : Matrix4 K) :
    ((a.relabel ρ τ).add (b.relabel ρ τ) = .ok (c.relabel ρ τ) ↔ a.add b = .ok c) ∧
    ((a.relabel ρ τ).mul (b.relabel τ κ) = .ok (c.relabel ρ κ) ↔ a.mul b = .ok c) ∧
    (a.relabel ρ τ).transpose = a.transpose.relabel τ ρ ∧
    (a.relabel ρ τ).eq (b.relabel ρ τ) = a.eq b := by
  have inj : ∀ (ρ τ : Equiv.Perm (Fin 4)) (a b : Matrix4 K), a.relabel ρ τ = b.relabel ρ τ ↔ a = b := by
    intro ρ τ a b
    refine ⟨fun h => ?_, fun h => by rw [h]⟩
    cases a; cases b
    rw [Matrix4.mk.injEq]
    funext i j
    have := congrArg (fun m : Matrix4 K => m.mat (ρ.symm i) (τ.symm j)) h
    simpa [Matrix4.relabel] using this
  refine ⟨?_, ?_, ?_, ?_⟩
  · rw [add_value, add_value, Except.ok.injEq, Except.ok.injEq, ← inj ρ τ _ c]; rfl
  · rw [mul_value, mul_value, Except.ok.injEq, Except.ok.injEq, ← inj ρ κ _ c]
    simp only [Matrix4.relabel]
    have : ∀ r k, ∑ i, a.mat (ρ r) (τ i) * b.mat (τ i) (κ k) = ∑ i, a.mat (ρ r) i * b.mat i (κ k) := fun r k =>
      Equiv.sum_comp τ (fun i => a.mat (ρ r) i * b.mat i (κ k))
    simp only [this]
  · refine Matrix4.ext_toMatrix ?_
    rw [transpose_toMatrix]
    show _ = a.transpose.toMatrix.submatrix τ ρ
    rw [transpose_toMatrix]
    rfl
  · have h : ∀ a b : Matrix4 K, a.eq b = true ↔ ∀ i j, Elem.eq (a.mat i j) (b.mat i j) = true := by
      intro a b
      simp [Matrix4.eq, Fin.forall_fin_succ, and_assoc]
    refine bool_iff (h _ _) (h a b) ?_
    simp only [Matrix4.relabel]
    rw [ρ.forall_congr_right (q := fun i => ∀ j, Elem.eq (a.mat i (τ j)) (b.mat i (τ j)) = true)]
    exact forall_congr' fun i => τ.forall_congr_right (q := fun j => Elem.eq (a.mat i j) (b.mat i j) = true)

/-- **C84**: vectors under a transform whose matrices have exchanged rows and columns. -/
theorem C84_transform [As K K] (has : ∀ x : K, (As.as_ x : K) = x) (σ : Equiv.Perm (Fin 3))
    (ρ : Equiv.Perm (Fin 4)) (hρ : ∀ i : Fin 3, ρ i.castSucc = (σ i).castSucc) (v w : Vector3 K) (t : Transform K) :
    (v.relabel σ).transform (⟨t.m.relabel ρ ρ, t.mInv.relabel ρ ρ⟩ : Transform K) = .ok (w.relabel σ) ↔
      v.transform t = .ok w := by
  have key : ∀ (v : Vector3 K) (t : Transform K) (w : Vector3 K), v.transform t = .ok w ↔
      ∀ i, ∑ j : Fin 3, t.m.mat i.castSucc j.castSucc * v.get j = w.get i := by
    intro v t w
    simp only [Vector3.transform, has, ExactRing.mul_eq, ExactRing.add_eq, ok_bind, pure_ok, Except.ok.injEq,
      forall_axis, Fin.sum_univ_three]
    constructor
    · rintro rfl; exact ⟨rfl, rfl, rfl⟩
    · rintro ⟨h1, h2, h3⟩
      exact Vector3.get_ext' (forall_axis.2 ⟨h1, h2, h3⟩)
  rw [key, key]
  simp only [Vector3.relabel_get, Matrix4.relabel, hρ]
  rw [← σ.forall_congr_right (q := fun i => ∑ j : Fin 3, t.m.mat i.castSucc j.castSucc * v.get j = w.get i)]
  refine forall_congr' fun i => ?_
  rw [Equiv.sum_comp σ (fun j => t.m.mat (σ i).castSucc j.castSucc * v.get j)]

end

section
variable {K : Type} [Field K] [LinearOrder K] [IsStrictOrderedRing K]

theorem inverse_of_left {a b : Matrix4 K} (h : b.toMatrix * a.toMatrix = 1) : a.inverse = .ok b := by
  rcases inverse_spec (K := K) a with ⟨b', h1, h2⟩ | ⟨_, h2⟩
  · rw [h1]
    congr 1
    refine Matrix4.ext_toMatrix ?_
    have h2 : b'.toMatrix * a.toMatrix = 1 := h2
    calc b'.toMatrix = b'.toMatrix * (a.toMatrix * b.toMatrix) := by rw [mul_eq_one_comm.1 h, mul_one]
      _ = b.toMatrix := by rw [← mul_assoc, h2, one_mul]
  · exfalso
    have := congrArg Matrix.det h
    rw [Matrix.det_mul, Matrix.det_one, show a.toMatrix.det = 0 from h2, mul_zero] at this
    exact zero_ne_one this

/-- **C84**: the inverse of a matrix with exchanged rows and columns is the inverse with exchanged
    columns and rows; `inverse` panics for both or for neither. -/
theorem C84_inverse (ρ τ : Equiv.Perm (Fin 4)) (a b : Matrix4 K) :
    ((a.relabel ρ τ).inverse = .ok (b.relabel τ ρ) ↔ a.inverse = .ok b) ∧
    ((∃ e, ((a.relabel ρ τ).inverse : Outcome (Matrix4 K)) = .error e) ↔
      ∃ e, (a.inverse : Outcome (Matrix4 K)) = .error e) := by
  have fwd : ∀ (ρ τ : Equiv.Perm (Fin 4)) (a b : Matrix4 K), a.inverse = .ok b →
      (a.relabel ρ τ).inverse = .ok (b.relabel τ ρ) := by
    intro ρ τ a b h
    refine inverse_of_left ?_
    have h1 : b.toMatrix * a.toMatrix = 1 := by
      rcases inverse_spec (K := K) a with ⟨b', h1, h2⟩ | ⟨h1, _⟩
      · obtain rfl : b' = b := by simpa using h1.symm.trans h
        exact h2
      · rw [h1] at h; cases h
    show b.toMatrix.submatrix τ ρ * a.toMatrix.submatrix ρ τ = 1
    rw [Matrix.submatrix_mul_equiv, h1, Matrix.submatrix_one_equiv]
  have back : ∀ (ρ τ : Equiv.Perm (Fin 4)) (a : Matrix4 K), (a.relabel ρ τ).relabel ρ.symm τ.symm = a := by
    intro ρ τ a
    simp [Matrix4.relabel]
  have iff : ∀ (ρ τ : Equiv.Perm (Fin 4)) (a b : Matrix4 K),
      (a.relabel ρ τ).inverse = .ok (b.relabel τ ρ) ↔ a.inverse = .ok b := by
    intro ρ τ a b
    refine ⟨fun h => ?_, fwd ρ τ a b⟩
    have := fwd ρ.symm τ.symm _ _ h
    rwa [back, back] at this
  have err : ∀ x : Outcome (Matrix4 K), (∃ e, x = .error e) ↔ ¬ ∃ b, x = .ok b := by
    intro x; cases x <;> simp
  refine ⟨iff ρ τ a b, ?_⟩
  rw [err, err]
  refine not_congr ⟨fun ⟨c, hc⟩ => ⟨c.relabel τ.symm ρ.symm, (iff ρ τ _ _).1 ?_⟩, fun ⟨c, hc⟩ => ⟨_, fwd ρ τ a c hc⟩⟩
  have := back τ.symm ρ.symm c
  rw [Equiv.symm_symm, Equiv.symm_symm] at this
  rw [this, hc]

end
/-! ### The bounding sphere -/

theorem sphere_iff [As T T] [FloatFns T] (b : Bounds3 T) (c : Point3 T) (r : T) : b.boundingSphere = .ok (c, r) ↔
    ∃ s, b.pMin.add (Vector3.ofPoint b.pMax) = .ok s ∧ s.div (Elem.fromInt 2) = .ok c ∧
      if b.inside c then ∃ d, c.sub b.pMax = .ok d ∧ d.len = .ok r else r = Elem.fromInt 0 := by
  simp only [Bounds3.boundingSphere, bind_eq_ok]
  constructor
  · rintro ⟨s, h1, c', h2, h3⟩
    by_cases hi : b.inside c' = true
    · simp only [hi, if_true, bind_eq_ok, pure_ok, Except.ok.injEq, Prod.mk.injEq] at h3
      obtain ⟨d, hd, r', h4, rfl, rfl⟩ := h3
      exact ⟨s, h1, h2, by rw [if_pos hi]; exact ⟨d, hd, h4⟩⟩
    · simp only [hi, if_false, Bool.false_eq_true, bind_eq_ok, pure_ok, Except.ok.injEq, Prod.mk.injEq] at h3
      obtain ⟨r', rfl, rfl, rfl⟩ := h3
      exact ⟨s, h1, h2, by rw [if_neg hi]⟩
  · rintro ⟨s, h1, h2, h3⟩
    refine ⟨s, h1, c, h2, ?_⟩
    by_cases hi : b.inside c = true
    · rw [if_pos hi] at h3
      obtain ⟨d, hd, h4⟩ := h3
      simp only [hi, if_true, hd, h4, ok_bind, pure_ok]
    · rw [if_neg hi] at h3
      subst h3
      simp only [hi, if_false, Bool.false_eq_true, ok_bind, pure_ok]

theorem center_relabel (σ : Equiv.Perm (Fin 3)) (b : Bounds3 T) (s c : Point3 T) (two : T)
    (h1 : b.pMin.add (Vector3.ofPoint b.pMax) = .ok s) (h2 : s.div two = .ok c) :
    (b.relabel σ).pMin.add (Vector3.ofPoint (b.relabel σ).pMax) = .ok (s.relabel σ) ∧
      (s.relabel σ).div two = .ok (c.relabel σ) := by
  have e : Vector3.ofPoint (b.relabel σ).pMax = (Vector3.ofPoint b.pMax).relabel σ := by
    have h : ∀ p : Point3 T, ∀ i, (Vector3.ofPoint p).get i = p.get i := by intro p i; fin_cases i <;> rfl
    refine Vector3.get_ext' fun i => ?_
    rw [Vector3.relabel_get, h, h, relabel_max]
  rw [e]
  exact ⟨(C84_points σ b.pMin s s _ (Vector3.ofPoint b.pMax) two).1.2 h1,
    (C84_points σ s c s (Vector3.ofPoint b.pMax) (Vector3.ofPoint b.pMax) two).2.2.2.2.1.2 h2⟩

/-- **C84**: the centre of the bounding sphere, for all number types. -/
theorem C84_center [As T T] [FloatFns T] (σ : Equiv.Perm (Fin 3)) (b : Bounds3 T) (c c' : Point3 T) (r r' : T)
    (h : b.boundingSphere = .ok (c, r)) (h' : (b.relabel σ).boundingSphere = .ok (c', r')) : c' = c.relabel σ := by
  obtain ⟨s, h1, h2, -⟩ := (sphere_iff b c r).1 h
  obtain ⟨s', h3, h4, -⟩ := (sphere_iff _ c' r').1 h'
  obtain ⟨k1, k2⟩ := center_relabel σ b s c _ h1 h2
  obtain rfl : s' = s.relabel σ := by simpa using h3.symm.trans k1
  simpa using h4.symm.trans k2

/-- **C84**: the bounding sphere in exact arithmetic. -/
theorem C84_sphere {K : Type} [CommRing K] [Elem K] [ExactRing K] [As K K] [FloatFns K] (σ : Equiv.Perm (Fin 3))
    (b : Bounds3 K) (c : Point3 K) (r : K) (h : b.boundingSphere = .ok (c, r)) :
    (b.relabel σ).boundingSphere = .ok (c.relabel σ, r) := by
  obtain ⟨s, h1, h2, h3⟩ := (sphere_iff b c r).1 h
  obtain ⟨k1, k2⟩ := center_relabel σ b s c _ h1 h2
  refine (sphere_iff _ _ _).2 ⟨_, k1, k2, ?_⟩
  rw [(C84_tests σ b b c).2.1]
  by_cases hi : b.inside c = true
  · rw [if_pos hi] at h3 ⊢
    obtain ⟨d, hd, h4⟩ := h3
    refine ⟨d.relabel σ, (C84_points σ c b.pMax c d d r).2.2.1.2 hd, ?_⟩
    rw [(C84_lengths (F := K) σ d d d ⟨0, 0, 0⟩ ⟨0, 0, 0⟩ ⟨0, 0, 0⟩).1, h4]
  · rw [if_neg hi] at h3 ⊢
    exact h3

end

/-! ### Floats -/

section
variable {T : Type} [Elem T] [As T T] [FloatFns T] [IEEE T]

local notation "ε" => unitRoundoff T
local notation "η" => tiny T

theorem two_errors {x y s e e' : ℝ} (h : |x - s| ≤ e) (h' : |y - s| ≤ e') : |y - x| ≤ e + e' := by
  have := abs_sub_le y s x
  rw [abs_sub_comm s x] at this
  linarith

/-- **C84**, with floats: the inner product, the area and the volume change by rounding errors only. -/
theorem C84_float (σ : Equiv.Perm (Fin 3)) (u v : Vector3 T) (b : Bounds3 T) (x y : T) (hx : IsFinite x)
    (hy : IsFinite y) (s : Fin 3 → ℝ) (hs : ∀ i, s i = val (b.pMax.get i) - val (b.pMin.get i)) :
    (u.dot v = .ok x → (u.relabel σ).dot (v.relabel σ) = .ok y → |val y - val x| ≤
      2 * (((1 + ε) ^ 3 - 1) * ∑ i, |val (u.get i) * val (v.get i)| + 3 * η * (1 + ε) ^ 3)) ∧
    (b.surfaceArea = .ok x → (b.relabel σ).surfaceArea = .ok y → |val y - val x| ≤
      2 * (((1 + ε) ^ 6 - 1) * (2 * (|s 0 * s 1| + |s 0 * s 2| + |s 1 * s 2|)) + 7 * η * (1 + ε) ^ 6)) ∧
    (b.volume = .ok x → (b.relabel σ).volume = .ok y → |val y - val x| ≤
      2 * ((1 + ε) ^ 5 - 1) * |s 0 * s 1 * s 2| + η * (2 + |s 2| + |s (σ 2)|) * (1 + ε) ^ 5) := by
  have hs' : ∀ i, s (σ i) = val ((b.relabel σ).pMax.get i) - val ((b.relabel σ).pMin.get i) := fun i => by
    rw [relabel_min, relabel_max, hs]
  refine ⟨fun h h' => ?_, fun h h' => ?_, fun h h' => ?_⟩
  · have h1 := C69_dot u v x h hx
    have h2 := C69_dot _ _ y h' hy
    simp only [Vector3.relabel_get] at h2
    rw [Equiv.sum_comp σ (fun i => val (u.get i) * val (v.get i)),
      Equiv.sum_comp σ (fun i => |val (u.get i) * val (v.get i)|)] at h2
    have := two_errors h1 h2
    linarith
  · have h1 := C69_surface b x h hx s hs
    have h2 := C69_surface _ y h' hy _ hs'
    have e1 : s (σ 0) * s (σ 1) + s (σ 0) * s (σ 2) + s (σ 1) * s (σ 2) = s 0 * s 1 + s 0 * s 2 + s 1 * s 2 := by
      rcases perm_cases σ with ⟨-, h⟩ | ⟨-, h⟩ <;> rcases h with h | h | h <;> simp only [Prod.mk.injEq] at h <;>
        simp only [h] <;> ring
    have e2 : |s (σ 0) * s (σ 1)| + |s (σ 0) * s (σ 2)| + |s (σ 1) * s (σ 2)| =
        |s 0 * s 1| + |s 0 * s 2| + |s 1 * s 2| := by
      simp only [abs_mul]
      rcases perm_cases σ with ⟨-, h⟩ | ⟨-, h⟩ <;> rcases h with h | h | h <;> simp only [Prod.mk.injEq] at h <;>
        simp only [h] <;> ring
    rw [e1, e2] at h2
    have := two_errors h1 h2
    linarith
  · have h1 := C69_volume b x h hx s hs
    have h2 := C69_volume _ y h' hy _ hs'
    have e1 : s (σ 0) * s (σ 1) * s (σ 2) = s 0 * s 1 * s 2 := by
      rcases perm_cases σ with ⟨-, h⟩ | ⟨-, h⟩ <;> rcases h with h | h | h <;> simp only [Prod.mk.injEq] at h <;>
        simp only [h] <;> ring
    rw [e1] at h2
    have := two_errors h1 h2
    linarith

end

/-- **C84**: multiplication is commutative, bit for bit and panic for panic, for every number type, as
    `C84_cross` asks. -/
theorem C84_mul_comm {checks : Bool} :
    (∀ a b : I64 checks, Elem.mul a b = Elem.mul b a) ∧
    (∀ a b : Float32.Model, Elem.mul a b = Elem.mul b a) ∧
    (∀ a b : Float.Model, Elem.mul a b = Elem.mul b a) := by
  refine ⟨fun a b => ?_, fun a b => ?_, fun a b => ?_⟩
  · show I64.checked _ _ = I64.checked _ _
    rw [BitVec.mul_comm]
    congr 1
    simp only [BitVec.smulOverflow, mul_comm]
  · rw [fmul_ok, fmul_ok, fmul_comm']
  · rw [fmul_ok, fmul_ok, fmul_comm']

/-! ### Instances and limits -/

namespace Relabel

/-- the exchange of the axes x and z -/
def xz : Equiv.Perm (Fin 3) := Equiv.swap 0 2

/-- the exchange of the axes x and y -/
def xy : Equiv.Perm (Fin 3) := Equiv.swap 0 1

example : (iv 1 2 3).cross (iv 4 5 7) = .ok (iv (-1) 5 (-3)) ∧
    ((iv 1 2 3).relabel xz).cross ((iv 4 5 7).relabel xz) = .ok (iv 3 (-5) 1) ∧
    (iv 4 5 7).cross (iv 1 2 3) = .ok (iv 1 (-5) 3) ∧ (iv 3 (-5) 1) = (iv 1 (-5) 3).relabel xz := by decide +kernel

example : (⟨ip 0 0 0, ip 1 2 3⟩ : Bounds3 (I64 true)).relabel xz = ⟨ip 0 0 0, ip 3 2 1⟩ ∧
    (⟨ip 0 0 0, ip 1 2 3⟩ : Bounds3 (I64 true)).maximumExtent = .ok 2 ∧
    (⟨ip 0 0 0, ip 3 2 1⟩ : Bounds3 (I64 true)).maximumExtent = .ok 0 := by decide +kernel

end Relabel
open Relabel

/-- **C84**: what depends on the order of the axes.  With overflow checks an inner product of integers
    may panic or not, and with floats it may be rounded differently; ties of `maximum_extent` go to the
    later axis; `coordinate_system` and the stored inverse of `scale` are not symmetric. -/
theorem C84_refuted :
    (∃ u v : Vector3 (I64 true), u.dot v = .error .overflow ∧ ∃ d, (u.relabel xz).dot (v.relabel xz) = .ok d) ∧
    (∃ u v : Vector3 Float32.Model, u.dot v = .ok (f32 16777216) ∧
      (u.relabel xz).dot (v.relabel xz) = .ok (f32 16777218)) ∧
    (∃ b : Bounds3 (I64 true), b.maximumExtent = .ok 1 ∧ (b.relabel xy).maximumExtent = .ok 1) ∧
    (∃ u v w : Vector3 Float32.Model, u.coordinateSystem = .ok (v, w) ∧
      (u.relabel xy).coordinateSystem ≠ .ok (v.relabel xy, w.relabel xy) ∧
      (u.relabel xy).coordinateSystem ≠ .ok (w.relabel xy, v.relabel xy)) ∧
    (∃ t t' : Transform Float32.Model, Transform.scale (f32 1) (f32 1) (f32 2) = .ok t ∧
      Transform.scale (f32 2) (f32 1) (f32 1) = .ok t' ∧
      ¬ Same (t.mInv.mat 3 2) (t'.mInv.mat 3 0)) := by
  refine ⟨⟨iv 1 1 (-1), iv (2 ^ 63 - 1) 1 1, by decide +kernel, _, rfl⟩,
    ⟨fv 16777216 1 1, fv 1 1 1, by decide +kernel, by decide +kernel⟩,
    ⟨⟨ip 0 0 0, ip 2 2 1⟩, by decide +kernel, by decide +kernel⟩,
    ⟨fv 0 1 0, _, _, rfl, by decide +kernel, by decide +kernel⟩, _, _, rfl, rfl, by decide +kernel⟩

/-! ### A case of each theorem -/

example := C84_cross (C84_mul_comm (checks := true)).1 xz (iv 1 2 3) (iv 4 5 7) (iv 1 (-5) 3)
example := C84_components xz (fv 1 2 3) ⟨f32 4, inf32, f32 (-1)⟩ (by decide +kernel) (by decide +kernel)
example := (C84_longest xz (iv 1 2 3) ⟨i64 4, i64 5, i64 7⟩ ⟨ip 0 0 0, ip 1 2 3⟩ (iv 1 2 3) (by decide +kernel) 0).2.2
  (by decide +kernel)
example := C84_transform (K := ℚ) (fun _ => rfl) xz (Equiv.swap 0 2) (by decide) ⟨1, 2, 3⟩ ⟨4, 5, 6⟩
  ⟨⟨fun i j => i.val * 7 - j.val⟩, Matrix4.one _⟩
example := C84_center xz (⟨fp 0 0 0, fp 2 4 4⟩ : Bounds3 Float32.Model) (fp 1 2 2) (fp 2 2 1) (f32 3) (f32 3)
  (by decide +kernel) (by decide +kernel)
example := (C84_float xz (fv 16777217 1 1) (fv 1 1 1) ⟨fp 0 0 0, fp 1 2 3⟩ (f32 16777216) (f32 16777218)
  (by decide +kernel) (by decide +kernel) _ fun _ => rfl).1 (by decide +kernel) (by decide +kernel)

end Pbrt
