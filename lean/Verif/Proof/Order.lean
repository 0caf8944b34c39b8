import Verif.Spec.Laws
import Verif.Spec.Geometry
import Mathlib.Tactic.FinCases

/-!
# Minimum and maximum, one axis at a time
-/

namespace Pbrt

variable {T : Type} [Elem T]

section
variable [LawfulOrder T]

theorem Le.refl {a : T} (h : NotNan a) : Le a a := LawfulOrder.le_refl a h
theorem Le.trans {a b c : T} (h1 : Le a b) (h2 : Le b c) : Le a c := LawfulOrder.le_trans a b c h1 h2
theorem Le.total {a b : T} (ha : NotNan a) (hb : NotNan b) : Le a b ∨ Le b a :=
  LawfulOrder.le_total a b ha hb
theorem Le.left {a b : T} (h : Le a b) : NotNan a := (LawfulOrder.le_nan a b h).1
theorem Le.right {a b : T} (h : Le a b) : NotNan b := (LawfulOrder.le_nan a b h).2
theorem lt_iff {a b : T} : Lt a b ↔ Le a b ∧ ¬ Le b a := LawfulOrder.lt_iff a b
theorem same_iff {a b : T} : Same a b ↔ Le a b ∧ Le b a := LawfulOrder.eq_iff a b
theorem Lt.le {a b : T} (h : Lt a b) : Le a b := (lt_iff.1 h).1
theorem Same.refl {a : T} (h : NotNan a) : Same a a := same_iff.2 ⟨.refl h, .refl h⟩
theorem Same.symm {a b : T} (h : Same a b) : Same b a := same_iff.2 (same_iff.1 h).symm
theorem Same.trans {a b c : T} (h : Same a b) (h' : Same b c) : Same a c :=
  same_iff.2 ⟨(same_iff.1 h).1.trans (same_iff.1 h').1, (same_iff.1 h').2.trans (same_iff.1 h).2⟩
theorem Same.le {a b : T} (h : Same a b) : Le a b := (same_iff.1 h).1
theorem Same.ge {a b : T} (h : Same a b) : Le b a := (same_iff.1 h).2
theorem notLt_le {a b : T} (ha : NotNan a) (hb : NotNan b) (h : ¬ Lt a b) : Le b a := by
  rcases Le.total ha hb with h1 | h1
  · exact Classical.by_contradiction fun h2 => h (lt_iff.2 ⟨h1, h2⟩)
  · exact h1
theorem notLe_lt {a b : T} (ha : NotNan a) (hb : NotNan b) (h : ¬ Le a b) : Lt b a :=
  lt_iff.2 ⟨(Le.total ha hb).resolve_left h, h⟩
theorem Lt.trans_le {a b c : T} (h1 : Lt a b) (h2 : Le b c) : Lt a c :=
  lt_iff.2 ⟨h1.le.trans h2, fun h => (lt_iff.1 h1).2 (h2.trans h)⟩
theorem Le.trans_lt {a b c : T} (h1 : Le a b) (h2 : Lt b c) : Lt a c :=
  lt_iff.2 ⟨h1.trans h2.le, fun h => (lt_iff.1 h2).2 (h.trans h1)⟩
end

theorem Same.eq [LawfulOrder T] [Antisymm T] {a b : T} (h : Same a b) : a = b :=
  Antisymm.antisymm a b h.le h.ge

theorem Antisymm.notNan [Antisymm T] (a : T) : NotNan a := Antisymm.noNan a

/-- The minimum of two, as the code computes it. -/
def min2 (a b : T) : T := pminFrom a [b]
/-- The maximum of two. -/
def max2 (a b : T) : T := pmaxFrom a [b]

section
variable [LawfulOrder T] {a b c : T}

omit [LawfulOrder T] in
theorem min2_cases (a b : T) : (Lt b a ∧ min2 a b = b) ∨ (¬ Lt b a ∧ min2 a b = a) := by
  simp only [min2, pminFrom, Lt]
  by_cases h : Elem.lt b a = true <;> simp [h]

omit [LawfulOrder T] in
theorem max2_cases (a b : T) : (Lt a b ∧ max2 a b = b) ∨ (¬ Lt a b ∧ max2 a b = a) := by
  simp only [max2, pmaxFrom, Lt, Elem.gt]
  by_cases h : Elem.lt a b = true <;> simp [h]

theorem min2_left (ha : NotNan a) : Le (min2 a b) a := by
  rcases min2_cases a b with ⟨h, e⟩ | ⟨h, e⟩ <;> rw [e]
  · exact h.le
  · exact .refl ha

theorem min2_right (ha : NotNan a) (hb : NotNan b) : Le (min2 a b) b := by
  rcases min2_cases a b with ⟨h, e⟩ | ⟨h, e⟩ <;> rw [e]
  · exact .refl hb
  · exact notLt_le hb ha h

omit [LawfulOrder T] in
theorem le_min2 (ha : Le c a) (hb : Le c b) : Le c (min2 a b) := by
  rcases min2_cases a b with ⟨_, e⟩ | ⟨_, e⟩ <;> rwa [e]

theorem max2_left (ha : NotNan a) : Le a (max2 a b) := by
  rcases max2_cases a b with ⟨h, e⟩ | ⟨h, e⟩ <;> rw [e]
  · exact h.le
  · exact .refl ha

theorem max2_right (ha : NotNan a) (hb : NotNan b) : Le b (max2 a b) := by
  rcases max2_cases a b with ⟨h, e⟩ | ⟨h, e⟩ <;> rw [e]
  · exact .refl hb
  · exact notLt_le ha hb h

omit [LawfulOrder T] in
theorem max2_le (ha : Le a c) (hb : Le b c) : Le (max2 a b) c := by
  rcases max2_cases a b with ⟨_, e⟩ | ⟨_, e⟩ <;> rwa [e]

theorem min2_notNan (ha : NotNan a) : NotNan (min2 a b) := (min2_left ha).left
theorem max2_notNan (ha : NotNan a) : NotNan (max2 a b) := (max2_left ha).right

/-- A second argument that is NaN is ignored. -/
theorem min2_nan (hb : ¬ NotNan b) : min2 a b = a := by
  rcases min2_cases a b with ⟨h, _⟩ | ⟨_, e⟩
  · exact absurd h.le.left hb
  · exact e
theorem max2_nan (hb : ¬ NotNan b) : max2 a b = a := by
  rcases max2_cases a b with ⟨h, _⟩ | ⟨_, e⟩
  · exact absurd h.le.right hb
  · exact e
/-- A first argument that is NaN is the result. -/
theorem min2_nan_left (ha : ¬ NotNan a) : min2 a b = a := by
  rcases min2_cases a b with ⟨h, _⟩ | ⟨_, e⟩
  · exact absurd h.le.right ha
  · exact e
theorem max2_nan_left (ha : ¬ NotNan a) : max2 a b = a := by
  rcases max2_cases a b with ⟨h, _⟩ | ⟨_, e⟩
  · exact absurd h.le.left ha
  · exact e

theorem min2_same (h : Le a b) : Same (min2 a b) a :=
  same_iff.2 ⟨min2_left h.left, le_min2 (.refl h.left) h⟩
theorem max2_same (h : Le a b) : Same (max2 a b) b :=
  same_iff.2 ⟨max2_le h (.refl h.right), max2_right h.left h.right⟩
theorem min2_same' (h : Le b a) : Same (min2 a b) b :=
  same_iff.2 ⟨min2_right h.right h.left, le_min2 h (.refl h.left)⟩
theorem max2_same' (h : Le b a) : Same (max2 a b) a :=
  same_iff.2 ⟨max2_le (.refl h.right) h, max2_left h.right⟩
end

/-! ### Boxes, one axis at a time -/

section
variable (p q : Point3 T) (a b : Bounds3 T) (i : Fin 3)

theorem new_min : (Bounds3.new p q).pMin.get i = min2 (p.get i) (q.get i) := by
  fin_cases i <;> rfl
theorem new_max : (Bounds3.new p q).pMax.get i = max2 (p.get i) (q.get i) := by
  fin_cases i <;> rfl
theorem unionPt_min : (a.unionPt p).pMin.get i =
    min2 (min2 (a.pMin.get i) (p.get i)) (max2 (a.pMax.get i) (p.get i)) := by
  fin_cases i <;> rfl
theorem unionPt_max : (a.unionPt p).pMax.get i =
    max2 (min2 (a.pMin.get i) (p.get i)) (max2 (a.pMax.get i) (p.get i)) := by
  fin_cases i <;> rfl
theorem union_min : (a.union b).pMin.get i =
    min2 (min2 (a.pMin.get i) (b.pMin.get i)) (max2 (a.pMax.get i) (b.pMax.get i)) := by
  fin_cases i <;> rfl
theorem union_max : (a.union b).pMax.get i =
    max2 (min2 (a.pMin.get i) (b.pMin.get i)) (max2 (a.pMax.get i) (b.pMax.get i)) := by
  fin_cases i <;> rfl
theorem intersect_min : (a.intersect b).pMin.get i =
    min2 (max2 (a.pMin.get i) (b.pMin.get i)) (min2 (a.pMax.get i) (b.pMax.get i)) := by
  fin_cases i <;> rfl
theorem intersect_max : (a.intersect b).pMax.get i =
    max2 (max2 (a.pMin.get i) (b.pMin.get i)) (min2 (a.pMax.get i) (b.pMax.get i)) := by
  fin_cases i <;> rfl
end

omit [Elem T] in
theorem Point3.get_ext {p q : Point3 T} (h : ∀ i, p.get i = q.get i) : p = q := by
  cases p; cases q
  simp only [Point3.mk.injEq]
  exact ⟨h 0, h 1, h 2⟩

/-- The point with the given coordinates -/
def Point3.of (f : Fin 3 → T) : Point3 T := ⟨f 0, f 1, f 2⟩

omit [Elem T] in
@[simp] theorem Point3.get_of (f : Fin 3 → T) (i : Fin 3) : (Point3.of f).get i = f i := by
  fin_cases i <;> rfl

theorem Bounds3.Same.eq [LawfulOrder T] [Antisymm T] {a b : Bounds3 T} (h : a.Same b) : a = b := by
  cases a; cases b
  simp only [Bounds3.mk.injEq]
  exact ⟨Point3.get_ext fun i => (h.1 i).eq, Point3.get_ext fun i => (h.2 i).eq⟩

section
variable [LawfulOrder T] {a b c : Bounds3 T} {p : Point3 T}

theorem Bounds3.Has.wf (h : a.Has p) : a.WellFormed := fun i => (h i).1.trans (h i).2
theorem Bounds3.WellFormed.has_min (h : a.WellFormed) : a.Has a.pMin :=
  fun i => ⟨.refl (h i).left, h i⟩
theorem Bounds3.WellFormed.has_max (h : a.WellFormed) : a.Has a.pMax :=
  fun i => ⟨h i, .refl (h i).right⟩

/-- Containment of well-formed boxes is comparison of the corners. -/
theorem Bounds3.sub_iff (h : a.WellFormed) :
    a.Sub b ↔ ∀ i, Le (b.pMin.get i) (a.pMin.get i) ∧ Le (a.pMax.get i) (b.pMax.get i) := by
  constructor
  · intro hs i
    exact ⟨(hs _ h.has_min i).1, (hs _ h.has_max i).2⟩
  · intro hs p hp i
    exact ⟨(hs i).1.trans (hp i).1, (hp i).2.trans (hs i).2⟩

theorem Bounds3.Same.symm (h : a.Same b) : b.Same a := ⟨fun i => (h.1 i).symm, fun i => (h.2 i).symm⟩
theorem Bounds3.Same.trans (h : a.Same b) (h' : b.Same c) : a.Same c :=
  ⟨fun i => (h.1 i).trans (h'.1 i), fun i => (h.2 i).trans (h'.2 i)⟩
theorem Bounds3.Same.sub (h : a.Same b) : a.Sub b := fun _ hp i =>
  ⟨(h.1 i).ge.trans (hp i).1, (hp i).2.trans (h.2 i).le⟩

/-- Boxes with the same points are the same. -/
theorem Bounds3.same_of_sub (ha : a.WellFormed) (hb : b.WellFormed) (h : a.Sub b) (h' : b.Sub a) :
    a.Same b := by
  rw [Bounds3.sub_iff ha] at h
  rw [Bounds3.sub_iff hb] at h'
  exact ⟨fun i => same_iff.2 ⟨(h' i).1, (h i).1⟩, fun i => same_iff.2 ⟨(h i).2, (h' i).2⟩⟩

/-- The corners of a union of well-formed boxes (the constructor leaves them as they are). -/
theorem union_min' (ha : a.WellFormed) (_ : b.WellFormed) (i : Fin 3) :
    Same ((a.union b).pMin.get i) (min2 (a.pMin.get i) (b.pMin.get i)) := by
  rw [union_min]
  exact min2_same ((min2_left (ha i).left).trans ((ha i).trans (max2_left (ha i).right)))
theorem union_max' (ha : a.WellFormed) (_ : b.WellFormed) (i : Fin 3) :
    Same ((a.union b).pMax.get i) (max2 (a.pMax.get i) (b.pMax.get i)) := by
  rw [union_max]
  exact max2_same ((min2_left (ha i).left).trans ((ha i).trans (max2_left (ha i).right)))
theorem unionPt_min' (ha : a.WellFormed) (i : Fin 3) :
    Same ((a.unionPt p).pMin.get i) (min2 (a.pMin.get i) (p.get i)) := by
  rw [unionPt_min]
  exact min2_same ((min2_left (ha i).left).trans ((ha i).trans (max2_left (ha i).right)))
theorem unionPt_max' (ha : a.WellFormed) (i : Fin 3) :
    Same ((a.unionPt p).pMax.get i) (max2 (a.pMax.get i) (p.get i)) := by
  rw [unionPt_max]
  exact max2_same ((min2_left (ha i).left).trans ((ha i).trans (max2_left (ha i).right)))

theorem union_wf (ha : a.WellFormed) (hb : b.WellFormed) : (a.union b).WellFormed := fun i =>
  (union_min' ha hb i).le.trans <| (min2_left (ha i).left).trans <| (ha i).trans <|
    (max2_left (ha i).right).trans (union_max' ha hb i).ge

theorem unionPt_wf (ha : a.WellFormed) : (a.unionPt p).WellFormed := fun i =>
  (unionPt_min' ha i).le.trans <| (min2_left (ha i).left).trans <| (ha i).trans <|
    (max2_left (ha i).right).trans (unionPt_max' ha i).ge

theorem sub_union_left (ha : a.WellFormed) (hb : b.WellFormed) : a.Sub (a.union b) :=
  (Bounds3.sub_iff ha).2 fun i =>
    ⟨(union_min' ha hb i).le.trans (min2_left (ha i).left),
     (max2_left (ha i).right).trans (union_max' ha hb i).ge⟩

theorem sub_union_right (ha : a.WellFormed) (hb : b.WellFormed) : b.Sub (a.union b) :=
  (Bounds3.sub_iff hb).2 fun i =>
    ⟨(union_min' ha hb i).le.trans (min2_right (ha i).left (hb i).left),
     (max2_right (ha i).right (hb i).right).trans (union_max' ha hb i).ge⟩

theorem union_sub (ha : a.WellFormed) (hb : b.WellFormed) (h : a.Sub c) (h' : b.Sub c) :
    (a.union b).Sub c := by
  rw [Bounds3.sub_iff ha] at h
  rw [Bounds3.sub_iff hb] at h'
  exact (Bounds3.sub_iff (union_wf ha hb)).2 fun i =>
    ⟨(le_min2 (h i).1 (h' i).1).trans (union_min' ha hb i).ge,
     (union_max' ha hb i).le.trans (max2_le (h i).2 (h' i).2)⟩

theorem sub_unionPt (ha : a.WellFormed) : a.Sub (a.unionPt p) :=
  (Bounds3.sub_iff ha).2 fun i =>
    ⟨(unionPt_min' ha i).le.trans (min2_left (ha i).left),
     (max2_left (ha i).right).trans (unionPt_max' ha i).ge⟩

theorem unionPt_has (ha : a.WellFormed) (hp : p.Proper) : (a.unionPt p).Has p := fun i =>
  ⟨(unionPt_min' ha i).le.trans (min2_right (ha i).left (hp i)),
   (max2_right (ha i).right (hp i)).trans (unionPt_max' ha i).ge⟩

theorem unionPt_sub (ha : a.WellFormed) (h : a.Sub c) (h' : c.Has p) : (a.unionPt p).Sub c := by
  rw [Bounds3.sub_iff ha] at h
  exact (Bounds3.sub_iff (unionPt_wf ha)).2 fun i =>
    ⟨(le_min2 (h i).1 (h' i).1).trans (unionPt_min' ha i).ge,
     (unionPt_max' ha i).le.trans (max2_le (h i).2 (h' i).2)⟩

theorem new_wf {p q : Point3 T} (hp : p.Proper) : (Bounds3.new p q).WellFormed := fun i => by
  rw [new_min, new_max]
  exact (min2_left (hp i)).trans (max2_left (hp i))

/-- Two boxes share a point exactly if their intervals overlap on every axis. -/
theorem common_iff (ha : a.WellFormed) (hb : b.WellFormed) :
    (∃ p, a.Has p ∧ b.Has p) ↔
      ∀ i, Le (b.pMin.get i) (a.pMax.get i) ∧ Le (a.pMin.get i) (b.pMax.get i) := by
  constructor
  · rintro ⟨p, h1, h2⟩ i
    exact ⟨(h2 i).1.trans (h1 i).2, (h1 i).1.trans (h2 i).2⟩
  · intro h
    refine ⟨.of fun i => max2 (a.pMin.get i) (b.pMin.get i), fun i => ?_, fun i => ?_⟩ <;>
      rw [Point3.get_of]
    · exact ⟨max2_left (ha i).left, max2_le (ha i) (h i).1⟩
    · exact ⟨max2_right (ha i).left (hb i).left, max2_le (h i).2 (hb i)⟩

theorem intersect_has (ha : a.WellFormed) (hb : b.WellFormed)
    (h : ∀ i, Le (b.pMin.get i) (a.pMax.get i) ∧ Le (a.pMin.get i) (b.pMax.get i)) :
    (a.intersect b).Has p ↔ a.Has p ∧ b.Has p := by
  have hle : ∀ i, Le (max2 (a.pMin.get i) (b.pMin.get i)) (min2 (a.pMax.get i) (b.pMax.get i)) :=
    fun i => max2_le (le_min2 (ha i) (h i).2) (le_min2 (h i).1 (hb i))
  constructor
  · intro hp
    refine ⟨fun i => ?_, fun i => ?_⟩ <;>
      (obtain ⟨h1, h2⟩ := hp i
       rw [intersect_min] at h1
       rw [intersect_max] at h2
       replace h1 := (min2_same (hle i)).ge.trans h1
       replace h2 := h2.trans (max2_same (hle i)).le)
    · exact ⟨(max2_left (ha i).left).trans h1, h2.trans (min2_left (ha i).right)⟩
    · exact ⟨(max2_right (ha i).left (hb i).left).trans h1,
        h2.trans (min2_right (ha i).right (hb i).right)⟩
  · rintro ⟨h1, h2⟩ i
    rw [intersect_min, intersect_max]
    exact ⟨(min2_same (hle i)).le.trans (max2_le (h1 i).1 (h2 i).1),
      (le_min2 (h1 i).2 (h2 i).2).trans (max2_same (hle i)).ge⟩

end

/-! ### The Boolean tests -/

theorem forall_axis {P : Fin 3 → Prop} : (∀ i, P i) ↔ P 0 ∧ P 1 ∧ P 2 :=
  ⟨fun h => ⟨h 0, h 1, h 2⟩, fun h i => by fin_cases i; exacts [h.1, h.2.1, h.2.2]⟩

theorem inside_iff (b : Bounds3 T) (p : Point3 T) : b.inside p = true ↔ b.Has p := by
  simp only [Bounds3.inside, Bounds3.Has, Elem.ge, Bool.and_eq_true, forall_axis, Le]
  simp only [Point3.get]
  tauto

theorem insideExclusive_iff (b : Bounds3 T) (p : Point3 T) :
    b.insideExclusive p = true ↔ b.HasOpen p := by
  simp only [Bounds3.insideExclusive, Bounds3.HasOpen, Elem.ge, Bool.and_eq_true,
    forall_axis, Le, Lt]
  simp only [Point3.get]
  tauto

theorem overlaps_iff (a b : Bounds3 T) : a.overlaps b = true ↔
    ∀ i, Le (b.pMin.get i) (a.pMax.get i) ∧ Le (a.pMin.get i) (b.pMax.get i) := by
  simp only [Bounds3.overlaps, Elem.ge, Bool.and_eq_true, forall_axis, Le]
  simp only [Point3.get]
  tauto

end Pbrt
