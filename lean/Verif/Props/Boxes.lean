import Verif.Proof.Order
import Verif.Proof.FloatOrder
import Verif.Spec.Samples
import Mathlib.Data.Nat.Bitwise

/-!
# Bounding boxes: properties that need only the order (C37-C43)

The theorems hold for every lawfully ordered element type: `i64` with and without overflow checks,
`f32`, `f64`, exact numbers.  On floats `==` identifies `-0.0` and `0.0`, so equality of boxes is
`Same`; on the other types (`Antisymm`) it is equality.
-/

namespace Pbrt

variable {T : Type} [Elem T] [LawfulOrder T]

/-! ### C37 -/

/-- **C37**: `new(p, q)` is well-formed, contains `p` and `q`, is contained in every box that
    contains both, and its corners are made of coordinates of `p` and `q`. -/
theorem C37_new_smallest (p q : Point3 T) (hp : p.Proper) (hq : q.Proper) :
    (Bounds3.new p q).WellFormed ∧ (Bounds3.new p q).Has p ∧ (Bounds3.new p q).Has q ∧
    (∀ b : Bounds3 T, b.Has p → b.Has q → (Bounds3.new p q).Sub b) ∧
    (∀ i, ((Bounds3.new p q).pMin.get i = p.get i ∨ (Bounds3.new p q).pMin.get i = q.get i) ∧
      ((Bounds3.new p q).pMax.get i = p.get i ∨ (Bounds3.new p q).pMax.get i = q.get i)) := by
  refine ⟨new_wf hp, fun i => ?_, fun i => ?_, fun b h h' => ?_, fun i => ?_⟩
  · rw [new_min, new_max]
    exact ⟨min2_left (hp i), max2_left (hp i)⟩
  · rw [new_min, new_max]
    exact ⟨min2_right (hp i) (hq i), max2_right (hp i) (hq i)⟩
  · refine (Bounds3.sub_iff (new_wf hp)).2 fun i => ?_
    rw [new_min, new_max]
    exact ⟨le_min2 (h i).1 (h' i).1, max2_le (h i).2 (h' i).2⟩
  · rw [new_min, new_max]
    rcases min2_cases (p.get i) (q.get i) with ⟨_, e⟩ | ⟨_, e⟩ <;>
      rcases max2_cases (p.get i) (q.get i) with ⟨_, e'⟩ | ⟨_, e'⟩ <;> simp [e, e']

example := C37_new_smallest (fp 1 5 (-2)) (fp 3 2 0) (by decide +kernel) (by decide +kernel)

/-- **C37**: the order of the points does not matter. -/
theorem C37_order (p q : Point3 T) (hp : p.Proper) (hq : q.Proper) :
    (Bounds3.new p q).Same (Bounds3.new q p) := by
  obtain ⟨w, hp1, hq1, least, _⟩ := C37_new_smallest p q hp hq
  obtain ⟨w', hq2, hp2, least', _⟩ := C37_new_smallest q p hq hp
  exact Bounds3.same_of_sub w w' (least _ hp2 hq2) (least' _ hq1 hp1)

example := C37_order (fp 1 5 (-2)) (fp 3 2 0) (by decide +kernel) (by decide +kernel)

theorem C37_order_eq [Antisymm T] (p q : Point3 T) : Bounds3.new p q = Bounds3.new q p :=
  (C37_order p q (fun _ => Antisymm.notNan _) (fun _ => Antisymm.notNan _)).eq

/-- **C37**: the box of one point contains that point and no other. -/
theorem C37_one_point (p q : Point3 T) :
    (Bounds3.newPt p).Has q ↔ q.Same p := by
  have h : ∀ i, (Bounds3.newPt p).pMin.get i = p.get i ∧ (Bounds3.newPt p).pMax.get i = p.get i := by
    intro i
    rw [Bounds3.newPt, new_min, new_max]
    rcases min2_cases (p.get i) (p.get i) with ⟨_, e⟩ | ⟨_, e⟩ <;>
      rcases max2_cases (p.get i) (p.get i) with ⟨_, e'⟩ | ⟨_, e'⟩ <;> simp [e, e']
  constructor
  · intro hq i
    have := hq i
    rw [(h i).1, (h i).2] at this
    exact same_iff.2 this.symm
  · intro hq i
    rw [(h i).1, (h i).2]
    exact ⟨(hq i).ge, (hq i).le⟩

/-- **C37**, what NaN does: a NaN coordinate of the second point is ignored, one of the first point
    makes a box without points. -/
theorem C37_nan (p q : Point3 T) (i : Fin 3) :
    (¬ NotNan (q.get i) → (Bounds3.new p q).pMin.get i = p.get i ∧
      (Bounds3.new p q).pMax.get i = p.get i) ∧
    (¬ NotNan (p.get i) → ∀ r, ¬ (Bounds3.new p q).Has r) := by
  constructor
  · intro h
    rw [new_min, new_max]
    exact ⟨min2_nan h, max2_nan h⟩
  · intro h r hr
    have := (hr i).1.left
    rw [new_min, min2_nan_left h] at this
    exact h this

-- both points proper, corners mixed from both
example : (fp 1 5 (-2)).Proper ∧ (fp 3 2 0).Proper ∧
    Bounds3.new (fp 1 5 (-2)) (fp 3 2 0) = ⟨fp 1 2 (-2), fp 3 5 0⟩ := by decide +kernel
example : Bounds3.new (ip 1 5 (-2)) (ip 3 2 0) = ⟨ip 1 2 (-2), ip 3 5 0⟩ := by decide +kernel
-- the two orders are the same boxes, but not identical ones: -0.0 and 0.0
example : let p : Point3 Float32.Model := ⟨negZero32, .ofInt 0, .ofInt 1⟩
    p.Proper ∧ (fp 0 0 1).Proper ∧ Bounds3.new p (fp 0 0 1) ≠ Bounds3.new (fp 0 0 1) p := by
  decide +kernel
example : ¬ NotNan ((⟨nan32, .ofInt 0, .ofInt 0⟩ : Point3 Float32.Model).get 0) := by decide +kernel

/-! ### C38 -/

/-- **C38**: the union is a well-formed box that contains both boxes, and the least such box. -/
theorem C38_union_least (a b : Bounds3 T) (ha : a.WellFormed) (hb : b.WellFormed) :
    (a.union b).WellFormed ∧
    (∀ p, a.inside p = true ∨ b.inside p = true → (a.union b).inside p = true) ∧
    (∀ c : Bounds3 T, a.Sub c → b.Sub c → (a.union b).Sub c) := by
  refine ⟨union_wf ha hb, fun p hp => ?_, fun c h h' => union_sub ha hb h h'⟩
  simp only [inside_iff] at *
  exact hp.elim (sub_union_left ha hb p) (sub_union_right ha hb p)

example := C38_union_least (⟨fp 0 0 0, fp 2 2 2⟩ : Bounds3 Float32.Model) ⟨fp 5 (-1) 1, fp 6 1 9⟩ (by decide +kernel)
  (by decide +kernel)

theorem C38_union_comm (a b : Bounds3 T) (ha : a.WellFormed) (hb : b.WellFormed) :
    (a.union b).Same (b.union a) :=
  Bounds3.same_of_sub (union_wf ha hb) (union_wf hb ha)
    (union_sub ha hb (sub_union_right hb ha) (sub_union_left hb ha))
    (union_sub hb ha (sub_union_right ha hb) (sub_union_left ha hb))

example := C38_union_comm (⟨fp 0 0 0, fp 2 2 2⟩ : Bounds3 Float32.Model) ⟨fp 5 (-1) 1, fp 6 1 9⟩ (by decide +kernel)
  (by decide +kernel)

omit [LawfulOrder T] in
theorem Bounds3.Sub.trans {a b c : Bounds3 T} (h : a.Sub b) (h' : b.Sub c) : a.Sub c :=
  fun p hp => h' p (h p hp)

omit [LawfulOrder T] in
theorem Bounds3.Sub.refl (a : Bounds3 T) : a.Sub a := fun _ hp => hp

theorem C38_union_assoc (a b c : Bounds3 T) (ha : a.WellFormed) (hb : b.WellFormed)
    (hc : c.WellFormed) : ((a.union b).union c).Same (a.union (b.union c)) := by
  have hab := union_wf ha hb
  have hbc := union_wf hb hc
  refine Bounds3.same_of_sub (union_wf hab hc) (union_wf ha hbc) ?_ ?_
  · exact union_sub hab hc
      (union_sub ha hb (sub_union_left ha hbc)
        ((sub_union_left hb hc).trans (sub_union_right ha hbc)))
      ((sub_union_right hb hc).trans (sub_union_right ha hbc))
  · exact union_sub ha hbc ((sub_union_left ha hb).trans (sub_union_left hab hc))
      (union_sub hb hc ((sub_union_right ha hb).trans (sub_union_left hab hc))
        (sub_union_right hab hc))

example := C38_union_assoc (⟨fp 0 0 0, fp 2 2 2⟩ : Bounds3 Float32.Model) ⟨fp 5 (-1) 1, fp 6 1 9⟩ ⟨fp 3 3 3, fp 3 4 3⟩
  (by decide +kernel) (by decide +kernel) (by decide +kernel)

theorem C38_union_idem (a : Bounds3 T) (ha : a.WellFormed) : (a.union a).Same a :=
  Bounds3.same_of_sub (union_wf ha ha) ha (union_sub ha ha (.refl _) (.refl _))
    (sub_union_left ha ha)

example := C38_union_idem (⟨fp 0 0 0, fp 2 2 2⟩ : Bounds3 Float32.Model) (by decide +kernel)

/-- **C38** for integers and exact numbers: the laws are equations. -/
theorem C38_union_laws_eq [Antisymm T] (a b c : Bounds3 T) (ha : a.WellFormed) (hb : b.WellFormed)
    (hc : c.WellFormed) : a.union b = b.union a ∧ (a.union b).union c = a.union (b.union c) ∧
      a.union a = a :=
  ⟨(C38_union_comm a b ha hb).eq, (C38_union_assoc a b c ha hb hc).eq, (C38_union_idem a ha).eq⟩

example := C38_union_laws_eq (⟨ip 0 0 0, ip 2 2 2⟩ : Bounds3 (I64 true)) ⟨ip 5 (-1) 1, ip 6 1 9⟩ ⟨ip 3 3 3, ip 3 4 3⟩
  (by decide +kernel) (by decide +kernel) (by decide +kernel)

/-- **C38**: `union_pt` gives the least box that contains the box and the point. -/
theorem C38_union_pt_least (b : Bounds3 T) (p : Point3 T) (hb : b.WellFormed) (hp : p.Proper) :
    (b.unionPt p).WellFormed ∧ b.Sub (b.unionPt p) ∧ (b.unionPt p).inside p = true ∧
    (∀ c : Bounds3 T, b.Sub c → c.Has p → (b.unionPt p).Sub c) :=
  ⟨unionPt_wf hb, sub_unionPt hb, (inside_iff _ _).2 (unionPt_has hb hp),
    fun _ h h' => unionPt_sub hb h h'⟩

example := C38_union_pt_least (⟨fp 0 0 0, fp 2 2 2⟩ : Bounds3 Float32.Model) (fp 1 7 (-3)) (by decide +kernel)
  (by decide +kernel)

/-- **C38**: folding `union_pt` over any list of points (NaN or not) gives a box that contains the
    box and every proper point, and the least such box if all points are proper. -/
theorem C38_fold (ps : List (Point3 T)) (b : Bounds3 T) (hb : b.WellFormed) :
    (ps.foldl Bounds3.unionPt b).WellFormed ∧ b.Sub (ps.foldl Bounds3.unionPt b) ∧
    (∀ p ∈ ps, p.Proper → (ps.foldl Bounds3.unionPt b).inside p = true) ∧
    (∀ c : Bounds3 T, b.Sub c → (∀ p ∈ ps, c.Has p) → (ps.foldl Bounds3.unionPt b).Sub c) := by
  induction ps generalizing b with
  | nil => exact ⟨hb, .refl _, by simp, fun c h _ => h⟩
  | cons p ps ih =>
    obtain ⟨h1, h2, h3, h4⟩ := ih (b.unionPt p) (unionPt_wf hb)
    refine ⟨h1, (sub_unionPt hb).trans h2, ?_, fun c h hps => ?_⟩
    · intro q hq hqp
      rcases List.mem_cons.1 hq with rfl | hq
      · exact (inside_iff _ _).2 (h2 _ (unionPt_has hb hqp))
      · exact h3 q hq hqp
    · exact h4 c (unionPt_sub hb h (hps p (by simp))) fun q hq => hps q (by simp [hq])

example := C38_fold [fp 1 7 (-3), fp 4 4 4] (⟨fp 0 0 0, fp 2 2 2⟩ : Bounds3 Float32.Model) (by decide +kernel)

theorem unionPt_same {a b : Bounds3 T} (p : Point3 T) (ha : a.WellFormed) (hb : b.WellFormed)
    (h : a.Same b) : (a.unionPt p).Same (b.unionPt p) := by
  have key : ∀ {a b : Bounds3 T} (_ : a.WellFormed) (_ : b.WellFormed) (_ : a.Same b),
      (a.unionPt p).Sub (b.unionPt p) := by
    intro a b ha hb h
    refine (Bounds3.sub_iff (unionPt_wf ha)).2 fun i => ⟨?_, ?_⟩
    · refine ((unionPt_min' hb i).le.trans ?_).trans (unionPt_min' ha i).ge
      by_cases hn : NotNan (p.get i)
      · exact le_min2 ((min2_left (hb i).left).trans (h.1 i).ge) (min2_right (hb i).left hn)
      · rw [min2_nan hn, min2_nan hn]; exact (h.1 i).ge
    · refine ((unionPt_max' ha i).le.trans ?_).trans (unionPt_max' hb i).ge
      by_cases hn : NotNan (p.get i)
      · exact max2_le ((h.2 i).le.trans (max2_left (hb i).right)) (max2_right (hb i).right hn)
      · rw [max2_nan hn, max2_nan hn]; exact (h.2 i).le
  exact Bounds3.same_of_sub (unionPt_wf ha) (unionPt_wf hb) (key ha hb h) (key hb ha h.symm)

theorem unionPt_swap (b : Bounds3 T) (p q : Point3 T) (hb : b.WellFormed) :
    ((b.unionPt p).unionPt q).Same ((b.unionPt q).unionPt p) := by
  have key : ∀ (p q : Point3 T), ((b.unionPt p).unionPt q).Sub ((b.unionPt q).unionPt p) := by
    intro p q
    have hbp := unionPt_wf (p := p) hb
    have hbq := unionPt_wf (p := q) hb
    refine (Bounds3.sub_iff (unionPt_wf hbp)).2 fun i => ⟨?_, ?_⟩
    · refine (unionPt_min' hbq i).le.trans (Le.trans ?_ (unionPt_min' hbp i).ge)
      have h1 : Le (min2 ((b.unionPt q).pMin.get i) (p.get i)) ((b.unionPt p).pMin.get i) := by
        refine Le.trans ?_ (unionPt_min' hb i).ge
        by_cases hn : NotNan (p.get i)
        · exact le_min2 ((min2_left (hbq i).left).trans
            ((unionPt_min' hb i).le.trans (min2_left (hb i).left))) (min2_right (hbq i).left hn)
        · rw [min2_nan hn, min2_nan hn]
          exact (unionPt_min' hb i).le.trans (min2_left (hb i).left)
      by_cases hn : NotNan (q.get i)
      · exact le_min2 h1 ((min2_left (hbq i).left).trans
          ((unionPt_min' hb i).le.trans (min2_right (hb i).left hn)))
      · rw [min2_nan (a := (b.unionPt p).pMin.get i) hn]; exact h1
    · refine (unionPt_max' hbp i).le.trans (Le.trans ?_ (unionPt_max' hbq i).ge)
      have h1 : Le ((b.unionPt p).pMax.get i) (max2 ((b.unionPt q).pMax.get i) (p.get i)) := by
        refine (unionPt_max' hb i).le.trans ?_
        by_cases hn : NotNan (p.get i)
        · exact max2_le (((max2_left (hb i).right).trans (unionPt_max' hb i).ge).trans
            (max2_left (hbq i).right)) (max2_right (hbq i).right hn)
        · rw [max2_nan hn, max2_nan hn]
          exact (max2_left (hb i).right).trans (unionPt_max' hb i).ge
      by_cases hn : NotNan (q.get i)
      · exact max2_le h1 (((max2_right (hb i).right hn).trans (unionPt_max' hb i).ge).trans
          (max2_left (hbq i).right))
      · rw [max2_nan (a := (b.unionPt p).pMax.get i) hn]; exact h1
  exact Bounds3.same_of_sub (unionPt_wf (unionPt_wf hb)) (unionPt_wf (unionPt_wf hb))
    (key p q) (key q p)

/-- **C38**: the order of the points does not matter. -/
theorem C38_fold_order (ps qs : List (Point3 T)) (h : ps.Perm qs) (b : Bounds3 T)
    (hb : b.WellFormed) : (ps.foldl Bounds3.unionPt b).Same (qs.foldl Bounds3.unionPt b) := by
  have refl : ∀ {b : Bounds3 T}, b.WellFormed → b.Same b := fun hb =>
    ⟨fun i => .refl (hb i).left, fun i => .refl (hb i).right⟩
  have congr : ∀ (ps : List (Point3 T)) {a b : Bounds3 T}, a.WellFormed → b.WellFormed → a.Same b →
      (ps.foldl Bounds3.unionPt a).Same (ps.foldl Bounds3.unionPt b) := by
    intro ps
    induction ps with
    | nil => intro a b _ _ h; exact h
    | cons p ps ih =>
      intro a b ha hb h
      exact ih (unionPt_wf ha) (unionPt_wf hb) (unionPt_same p ha hb h)
  induction h generalizing b with
  | nil => exact refl hb
  | cons p _ ih => exact ih _ (unionPt_wf hb)
  | swap p q l =>
    exact congr l (unionPt_wf (unionPt_wf hb)) (unionPt_wf (unionPt_wf hb)) (unionPt_swap b q p hb)
  | trans _ _ ih1 ih2 => exact (ih1 b hb).trans (ih2 b hb)

example : let a : Bounds3 (I64 true) := ⟨ip 0 0 0, ip 2 2 2⟩
    let b : Bounds3 (I64 true) := ⟨ip 5 (-1) 1, ip 6 1 9⟩
    a.WellFormed ∧ b.WellFormed ∧ a.union b = ⟨ip 0 (-1) 0, ip 6 2 9⟩ := by decide +kernel
example : let a : Bounds3 Float32.Model := ⟨fp 0 0 0, fp 2 2 2⟩
    a.WellFormed ∧ (fp 1 7 (-3)).Proper ∧ a.unionPt (fp 1 7 (-3)) = ⟨fp 0 0 (-3), fp 2 7 2⟩ ∧
    [fp 1 7 (-3), fp 4 4 4, ⟨nan32, nan32, nan32⟩].foldl Bounds3.unionPt a =
      ⟨fp 0 0 (-3), fp 4 7 4⟩ := by decide +kernel

/-! ### C39 -/

/-- **C39**: for boxes that overlap, the intersection contains exactly the common points. -/
theorem C39_intersect_exact (a b : Bounds3 T) (ha : a.WellFormed) (hb : b.WellFormed)
    (h : a.overlaps b = true) (p : Point3 T) :
    (a.intersect b).inside p = true ↔ a.inside p = true ∧ b.inside p = true := by
  simp only [inside_iff]
  exact intersect_has ha hb ((overlaps_iff a b).1 h)

example := C39_intersect_exact (⟨ip 0 0 0, ip 2 2 2⟩ : Bounds3 (I64 true)) ⟨ip 1 (-1) 2, ip 6 1 9⟩ (by decide +kernel)
  (by decide +kernel) (by decide +kernel)

/-- **C39**, violated: the intersection of any two boxes without a common point is a box with
    points. -/
theorem C39_disjoint_refuted (a b : Bounds3 T) (ha : a.WellFormed) (_ : b.WellFormed)
    (h : ¬ ∃ p, a.inside p = true ∧ b.inside p = true) :
    ∃ p, (a.intersect b).inside p = true ∧ ¬ (a.inside p = true ∧ b.inside p = true) := by
  have hn : ∀ i, NotNan (max2 (a.pMin.get i) (b.pMin.get i)) := fun i => max2_notNan (ha i).left
  have hw : (a.intersect b).WellFormed := fun i => by
    rw [intersect_min, intersect_max]
    exact (min2_left (hn i)).trans (max2_left (hn i))
  exact ⟨_, (inside_iff _ _).2 hw.has_min, fun hp => h ⟨_, hp⟩⟩

/-- **C39**, what the result is on an axis where the boxes are apart: the gap between them. -/
theorem C39_gap (a b : Bounds3 T) (ha : a.WellFormed) (hb : b.WellFormed) (i : Fin 3)
    (h : Lt (a.pMax.get i) (b.pMin.get i)) :
    Same ((a.intersect b).pMin.get i) (a.pMax.get i) ∧
    Same ((a.intersect b).pMax.get i) (b.pMin.get i) ∧
    Same ((b.intersect a).pMin.get i) (a.pMax.get i) ∧
    Same ((b.intersect a).pMax.get i) (b.pMin.get i) := by
  have h1 : Le (a.pMin.get i) (b.pMin.get i) := (ha i).trans h.le
  have h2 : Le (a.pMax.get i) (b.pMax.get i) := h.le.trans (hb i)
  have e1 := max2_same h1
  have e2 := min2_same h2
  have e3 := max2_same' h1
  have e4 := min2_same' h2
  rw [intersect_min, intersect_max, intersect_min, intersect_max]
  have l1 : Le (min2 (a.pMax.get i) (b.pMax.get i)) (max2 (a.pMin.get i) (b.pMin.get i)) :=
    e2.le.trans (h.le.trans e1.ge)
  have l2 : Le (min2 (b.pMax.get i) (a.pMax.get i)) (max2 (b.pMin.get i) (a.pMin.get i)) :=
    e4.le.trans (h.le.trans e3.ge)
  exact ⟨(min2_same' l1).trans e2, (max2_same' l1).trans e1, (min2_same' l2).trans e4,
    (max2_same' l2).trans e3⟩

example : let a : Bounds3 (I64 true) := ⟨ip 0 0 0, ip 2 2 2⟩
    let b : Bounds3 (I64 true) := ⟨ip 1 (-1) 2, ip 6 1 9⟩
    a.WellFormed ∧ b.WellFormed ∧ a.overlaps b = true ∧ a.intersect b = ⟨ip 1 0 2, ip 2 1 2⟩ := by
  decide +kernel
example : let a : Bounds3 (I64 true) := ⟨ip 0 0 0, ip 2 2 2⟩
    let b : Bounds3 (I64 true) := ⟨ip 5 0 0, ip 6 2 2⟩
    a.WellFormed ∧ b.WellFormed ∧ a.overlaps b = false ∧ Lt (a.pMax.get 0) (b.pMin.get 0) ∧
    a.intersect b = ⟨ip 2 0 0, ip 5 2 2⟩ ∧ (a.intersect b).inside (ip 3 1 1) = true := by
  decide +kernel

/-! ### C40 -/

/-- **C40**: the overlap test is exact. -/
theorem C40_overlap_exact (a b : Bounds3 T) (ha : a.WellFormed) (hb : b.WellFormed) :
    a.overlaps b = true ↔ ∃ p, a.inside p = true ∧ b.inside p = true := by
  simp only [inside_iff]
  rw [overlaps_iff, common_iff ha hb]

example := C40_overlap_exact (⟨fp 0 0 0, fp 2 2 2⟩ : Bounds3 Float32.Model) ⟨fp 2 (-1) 2, fp 6 1 9⟩ (by decide +kernel)
  (by decide +kernel)

omit [LawfulOrder T] in
theorem C40_overlap_symm (a b : Bounds3 T) : a.overlaps b = b.overlaps a := by
  rw [Bool.eq_iff_iff, overlaps_iff, overlaps_iff]
  exact forall_congr' fun i => and_comm

/-- **C40** does not need the hypothesis for one direction: a common point makes any boxes overlap,
    and boxes that overlap share a point exactly when both have points. -/
theorem C40_overlap_of_common (a b : Bounds3 T) (p : Point3 T) (ha : a.inside p = true)
    (hb : b.inside p = true) : a.overlaps b = true := by
  rw [inside_iff] at ha hb
  exact (C40_overlap_exact a b ha.wf hb.wf).2
    ⟨p, (inside_iff _ _).2 ha, (inside_iff _ _).2 hb⟩

-- boxes that touch overlap; boxes that are apart on one axis do not
example : let a : Bounds3 Float32.Model := ⟨fp 0 0 0, fp 2 2 2⟩
    let b : Bounds3 Float32.Model := ⟨fp 2 (-1) 2, fp 6 1 9⟩
    let c : Bounds3 Float32.Model := ⟨fp 0 3 0, fp 2 4 2⟩
    a.WellFormed ∧ b.WellFormed ∧ c.WellFormed ∧ a.overlaps b = true ∧ a.overlaps c = false := by
  decide +kernel

/-! ### C41 -/

section
variable [Extremes T] [LawfulExtremes T]

/-- The least and the greatest value are not NaN. -/
def ProperExtremes (T : Type) [Elem T] [Extremes T] : Prop :=
  NotNan (Extremes.minValue : T) ∧ NotNan (Extremes.maxValue : T)

omit [LawfulOrder T] [LawfulExtremes T] in
theorem newInf_get (i : Fin 3) :
    (Bounds3.newInf : Bounds3 T).pMin.get i = min2 Extremes.maxValue Extremes.minValue ∧
    (Bounds3.newInf : Bounds3 T).pMax.get i = max2 Extremes.maxValue Extremes.minValue := by
  fin_cases i <;> exact ⟨rfl, rfl⟩

theorem newInf_same (h : ProperExtremes T) (i : Fin 3) :
    Same ((Bounds3.newInf : Bounds3 T).pMin.get i) Extremes.minValue ∧
    Same ((Bounds3.newInf : Bounds3 T).pMax.get i) Extremes.maxValue := by
  rw [(newInf_get i).1, (newInf_get i).2]
  have : Le (Extremes.minValue : T) Extremes.maxValue := LawfulExtremes.min_le _ h.2
  exact ⟨min2_same' this, max2_same' this⟩

theorem newInf_has (h : ProperExtremes T) (p : Point3 T) (hp : p.Proper) :
    (Bounds3.newInf : Bounds3 T).Has p := fun i =>
  ⟨(newInf_same h i).1.le.trans (LawfulExtremes.min_le _ (hp i)),
   (show Le (p.get i) Extremes.maxValue from LawfulExtremes.le_max _ (hp i)).trans
    (newInf_same h i).2.ge⟩

theorem newInf_wf (h : ProperExtremes T) : (Bounds3.newInf : Bounds3 T).WellFormed := fun i =>
  (newInf_same h i).1.le.trans
    ((show Le (Extremes.minValue : T) Extremes.maxValue from LawfulExtremes.min_le _ h.2).trans
      (newInf_same h i).2.ge)

/-- **C41**: `new_inf()` contains every point. -/
theorem C41_everything (h : ProperExtremes T) (p : Point3 T) :
    (Bounds3.newInf : Bounds3 T).inside p = true ↔ p.Proper := by
  rw [inside_iff]
  exact ⟨fun hp i => (hp i).1.right, newInf_has h p⟩

/-- **C41**: `new_inf()` is absorbing for `union` and neutral for `intersect`. -/
theorem C41_absorbing (h : ProperExtremes T) (b : Bounds3 T) (hb : b.WellFormed) :
    (Bounds3.newInf.union b).Same Bounds3.newInf ∧ (b.union Bounds3.newInf).Same Bounds3.newInf ∧
    (Bounds3.newInf.intersect b).Same b ∧ (b.intersect Bounds3.newInf).Same b := by
  have hw := newInf_wf h
  have hsub : ∀ {c : Bounds3 T}, c.Sub Bounds3.newInf := fun {c} p hp =>
    newInf_has h p fun i => (hp i).1.right
  have ho : ∀ i, Le (b.pMin.get i) ((Bounds3.newInf : Bounds3 T).pMax.get i) ∧
      Le ((Bounds3.newInf : Bounds3 T).pMin.get i) (b.pMax.get i) :=
    (common_iff hw hb).1 ⟨_, hsub _ hb.has_min, hb.has_min⟩
  have ho' : ∀ i, Le ((Bounds3.newInf : Bounds3 T).pMin.get i) (b.pMax.get i) ∧
      Le (b.pMin.get i) ((Bounds3.newInf : Bounds3 T).pMax.get i) := fun i => (ho i).symm
  refine ⟨Bounds3.same_of_sub (union_wf hw hb) hw hsub (sub_union_left hw hb),
    Bounds3.same_of_sub (union_wf hb hw) hw hsub (sub_union_right hb hw), ?_, ?_⟩
  · have hh : ∀ p, (Bounds3.newInf.intersect b).Has p ↔ b.Has p := fun p => by
      rw [intersect_has hw hb ho]
      exact ⟨fun h => h.2, fun h => ⟨hsub p h, h⟩⟩
    have hwi : (Bounds3.newInf.intersect b).WellFormed := ((hh _).2 hb.has_min).wf
    exact Bounds3.same_of_sub hwi hb (fun p => (hh p).1) (fun p => (hh p).2)
  · have hh : ∀ p, (b.intersect Bounds3.newInf).Has p ↔ b.Has p := fun p => by
      rw [intersect_has hb hw ho']
      exact ⟨fun h => h.1, fun h => ⟨h, hsub p h⟩⟩
    have hwi : (b.intersect Bounds3.newInf).WellFormed := ((hh _).2 hb.has_min).wf
    exact Bounds3.same_of_sub hwi hb (fun p => (hh p).1) (fun p => (hh p).2)

/-- **C41**, violated expectation: `new_inf()` is neutral for `union` with no box but itself. -/
theorem C41_empty_refuted (h : ProperExtremes T) (b : Bounds3 T) (hb : b.WellFormed)
    (hu : (Bounds3.newInf.union b).Same b) : b.Same Bounds3.newInf :=
  hu.symm.trans (C41_absorbing h b hb).1
end

theorem C41_types : ProperExtremes (I64 true) ∧ ProperExtremes (I64 false) ∧
    ProperExtremes Float32.Model ∧ ProperExtremes Float.Model := by
  unfold ProperExtremes
  decide +kernel

example : let b : Bounds3 Float32.Model := ⟨fp 0 0 0, fp 2 2 2⟩
    b.WellFormed ∧ ¬ (Bounds3.newInf.union b).Same b := by decide +kernel
example : let b : Bounds3 (I64 true) := ⟨ip 0 0 0, ip 2 2 2⟩
    b.WellFormed ∧ ¬ (Bounds3.newInf.union b).Same b ∧ Bounds3.newInf.intersect b = b := by
  decide +kernel

/-! ### C42 -/

omit [Elem T] [LawfulOrder T] in
/-- **C42**: bit `k` of the index selects the minimum (set) or the maximum (clear) of axis `k`;
    no other bit matters. -/
theorem C42_corner_bits (b : Bounds3 T) (n : Nat) (i : Fin 3) :
    (b.corner n).get i = if n.testBit i then b.pMin.get i else b.pMax.get i := by
  have h0 : (n &&& 1 > 0) ↔ n.testBit 0 = true := by
    rw [Nat.testBit_zero, Nat.and_one_is_mod]; simp; omega
  have h1 : (n &&& 2 > 0) ↔ n.testBit 1 = true := by
    have := Nat.and_two_pow n 1
    simp only [Nat.pow_one] at this
    rw [this]; cases n.testBit 1 <;> simp
  have h2 : (n &&& 4 > 0) ↔ n.testBit 2 = true := by
    have := Nat.and_two_pow n 2
    simp only [Nat.reducePow] at this
    rw [this]; cases n.testBit 2 <;> simp
  fin_cases i
  · exact (apply_ite Point3.x ..).trans (if_congr h0 rfl rfl)
  · exact (apply_ite Point3.y ..).trans (if_congr h1 rfl rfl)
  · exact (apply_ite Point3.z ..).trans (if_congr h2 rfl rfl)

omit [Elem T] [LawfulOrder T] in
theorem C42_low_bits (b : Bounds3 T) (n : Nat) : b.corner n = b.corner (n % 8) := by
  refine Point3.get_ext fun i => ?_
  rw [C42_corner_bits, C42_corner_bits, show 8 = 2 ^ 3 from rfl, Nat.testBit_mod_two_pow]
  simp [i.isLt]

/-- **C42**: every corner of a well-formed box is inside it, and the box is the smallest box that
    contains corners 0 and 7. -/
theorem C42_corners_span (b : Bounds3 T) (hb : b.WellFormed) :
    (∀ n, b.inside (b.corner n) = true) ∧
    (∀ c : Bounds3 T, c.inside (b.corner 0) = true → c.inside (b.corner 7) = true → b.Sub c) ∧
    (Bounds3.new (b.corner 0) (b.corner 7)).Same b := by
  have h7 : b.corner 7 = b.pMin := rfl
  have h0 : b.corner 0 = b.pMax := rfl
  refine ⟨fun n => ?_, fun c h h' => ?_, ?_⟩
  · rw [inside_iff]
    intro i
    rw [C42_corner_bits]
    split
    · exact hb.has_min i
    · exact hb.has_max i
  · rw [inside_iff] at h h'
    rw [h0] at h
    rw [h7] at h'
    exact (Bounds3.sub_iff hb).2 fun i => ⟨(h' i).1, (h i).2⟩
  · rw [h0, h7]
    constructor <;> intro i
    · rw [new_min]; exact min2_same' (hb i)
    · rw [new_max]; exact max2_same' (hb i)

example : let b : Bounds3 (I64 true) := ⟨ip 0 1 2, ip 3 4 5⟩
    b.WellFormed ∧ b.corner 5 = ip 0 4 2 ∧ b.corner 0 = ip 3 4 5 ∧ b.corner 14 = ip 3 1 2 := by
  decide +kernel

/-! ### C43 -/

omit [LawfulOrder T] in
/-- **C43**: `inside` is membership in the closed box, `inside_exclusive` in the half-open one. -/
theorem C43_membership (b : Bounds3 T) (p : Point3 T) :
    (b.inside p = true ↔ ∀ i, Le (b.pMin.get i) (p.get i) ∧ Le (p.get i) (b.pMax.get i)) ∧
    (b.insideExclusive p = true ↔
      ∀ i, Le (b.pMin.get i) (p.get i) ∧ Lt (p.get i) (b.pMax.get i)) :=
  ⟨inside_iff b p, insideExclusive_iff b p⟩

theorem C43_exclusive_inclusive (b : Bounds3 T) (p : Point3 T) (h : b.insideExclusive p = true) :
    b.inside p = true ∧ ¬ ∃ i, Le (b.pMax.get i) (p.get i) := by
  rw [insideExclusive_iff] at h
  exact ⟨(inside_iff _ _).2 fun i => ⟨(h i).1, (h i).2.le⟩,
    fun ⟨i, hi⟩ => (lt_iff.1 (h i).2).2 hi⟩

example := C43_exclusive_inclusive (⟨ip 0 0 0, ip 4 4 4⟩ : Bounds3 (I64 true)) (ip 0 1 1) (by decide +kernel)

/-- **C43**: half-open boxes that follow one another on some axis share no point. -/
theorem C43_apart (a b : Bounds3 T) (i : Fin 3) (h : Le (a.pMax.get i) (b.pMin.get i))
    (p : Point3 T) : ¬ (a.insideExclusive p = true ∧ b.insideExclusive p = true) := by
  rintro ⟨ha, hb⟩
  rw [insideExclusive_iff] at ha hb
  exact (lt_iff.1 (ha i).2).2 (h.trans (hb i).1)

example := C43_apart (⟨ip 0 0 0, ip 4 4 4⟩ : Bounds3 (I64 true)) ⟨ip 4 0 0, ip 9 4 4⟩ 0 (by decide +kernel)

omit [Elem T] [LawfulOrder T] in
theorem with_get (p : Point3 T) (i j : Fin 3) (v : T) :
    (p.with i v).get j = if j = i then v else p.get j := by
  fin_cases j <;> rfl

/-- **C43**: cutting a box at `m` on axis `i` cuts it in two half-open boxes: every point of the
    box lies in exactly one of them, and no other point in any. -/
theorem C43_tiles (b : Bounds3 T) (i : Fin 3) (m : T) (h : Le (b.pMin.get i) m)
    (h' : Le m (b.pMax.get i)) (p : Point3 T) :
    let lower : Bounds3 T := ⟨b.pMin, b.pMax.with i m⟩
    let upper : Bounds3 T := ⟨b.pMin.with i m, b.pMax⟩
    b.insideExclusive p = (lower.insideExclusive p ^^ upper.insideExclusive p) ∧
    ¬ (lower.insideExclusive p = true ∧ upper.insideExclusive p = true) := by
  intro lower upper
  have hno := C43_apart lower upper i (by
    simp only [lower, upper, with_get, if_true]; exact .refl h.right) p
  have key : b.insideExclusive p = true ↔
      lower.insideExclusive p = true ∨ upper.insideExclusive p = true := by
    simp only [insideExclusive_iff, Bounds3.HasOpen, lower, upper, with_get]
    constructor
    · intro hp
      by_cases hm : Lt (p.get i) m
      · left
        intro j
        refine ⟨(hp j).1, ?_⟩
        split
        · next e => rw [e]; exact hm
        · exact (hp j).2
      · right
        intro j
        refine ⟨?_, (hp j).2⟩
        split
        · next e => rw [e]; exact notLt_le (hp i).1.right h.right hm
        · exact (hp j).1
    · rintro (hp | hp) j
      · refine ⟨(hp j).1, ?_⟩
        have := (hp j).2
        split at this
        · next e => rw [e] at this ⊢; exact this.trans_le h'
        · exact this
      · refine ⟨?_, (hp j).2⟩
        have := (hp j).1
        split at this
        · next e => rw [e] at this ⊢; exact h.trans this
        · exact this
  refine ⟨?_, hno⟩
  revert key hno
  cases b.insideExclusive p <;> cases lower.insideExclusive p <;>
    cases upper.insideExclusive p <;> simp

example : let b : Bounds3 (I64 true) := ⟨ip 0 0 0, ip 4 4 4⟩
    b.inside (ip 4 1 1) = true ∧ b.insideExclusive (ip 4 1 1) = false ∧
    b.insideExclusive (ip 0 1 1) = true ∧ Le (b.pMin.get 1) (i64 2) ∧ Le (i64 2) (b.pMax.get 1) ∧
    (⟨b.pMin, b.pMax.with 1 (i64 2)⟩ : Bounds3 (I64 true)) = ⟨ip 0 0 0, ip 4 2 4⟩ := by
  decide +kernel

end Pbrt
