import Verif.Spec.Moved
import Verif.Props.Components
import Verif.Props.FloatBoxes
import Verif.Props.FloorCeil
import Verif.Props.Builds
import Verif.Proof.Mirror

/-!
# C87: changing the coordinates of a scene
-/

namespace Pbrt

section
variable {T U : Type} [Elem T] [Elem U] [LawfulOrder T] [LawfulOrder U]
  {R : Fin 3 → T → U → Prop}

theorem Keeps.same (hR : Keeps R) {i : Fin 3} {a b : T} {a' b' : U} (ha : R i a a') (hb : R i b b') (h : Same a b) :
    Same a' b' :=
  same_iff.2 ⟨hR i _ _ _ _ ha hb h.le, hR i _ _ _ _ hb ha h.ge⟩

theorem Keeps.notNan (hR : Keeps R) {i : Fin 3} {a : T} {a' : U} (ha : R i a a') (h : NotNan a) : NotNan a' :=
  (hR i _ _ _ _ ha ha (.refl h)).left

theorem min2_congr {a b c d : U} (h : Same a b) (h' : Same c d) : Same (min2 a c) (min2 b d) := by
  have hab := h.le
  have hcd := h'.le
  exact same_iff.2 ⟨le_min2 ((min2_left hab.left).trans hab) ((min2_right hab.left hcd.left).trans hcd),
    le_min2 ((min2_left hab.right).trans h.ge) ((min2_right hab.right hcd.right).trans h'.ge)⟩

theorem max2_congr {a b c d : U} (h : Same a b) (h' : Same c d) : Same (max2 a c) (max2 b d) := by
  have hab := h.le
  have hcd := h'.le
  exact same_iff.2 ⟨max2_le (hab.trans (max2_left hab.right)) (hcd.trans (max2_right hab.right hcd.right)),
    max2_le (h.ge.trans (max2_left hab.left)) (h'.ge.trans (max2_right hab.left hcd.left))⟩

/-- `a` moves to a number that equals `s`. -/
def Image (R : Fin 3 → T → U → Prop) (i : Fin 3) (a : T) (s : U) : Prop := NotNan a ∧ ∃ m, R i a m ∧ Same m s

theorem Image.of (hR : Keeps R) {i : Fin 3} {a : T} {s : U} (h : R i a s) (hn : NotNan a) : Image R i a s :=
  ⟨hn, s, h, .refl (hR.notNan h hn)⟩

theorem Image.min (hR : Keeps R) {i : Fin 3} {a b : T} {s t : U} (ha : Image R i a s) (hb : Image R i b t) :
    Image R i (min2 a b) (min2 s t) := by
  obtain ⟨na, a', ra, ea⟩ := ha
  obtain ⟨nb, b', rb, eb⟩ := hb
  refine ⟨min2_notNan na, ?_⟩
  rcases min2_cases a b with ⟨h, e⟩ | ⟨h, e⟩ <;> rw [e]
  · exact ⟨b', rb, eb.trans (min2_same' (eb.ge.trans ((hR i _ _ _ _ rb ra h.le).trans ea.le))).symm⟩
  · exact ⟨a', ra, ea.trans (min2_same (ea.ge.trans ((hR i _ _ _ _ ra rb (notLt_le nb na h)).trans eb.le))).symm⟩

theorem Image.max (hR : Keeps R) {i : Fin 3} {a b : T} {s t : U} (ha : Image R i a s) (hb : Image R i b t) :
    Image R i (max2 a b) (max2 s t) := by
  obtain ⟨na, a', ra, ea⟩ := ha
  obtain ⟨nb, b', rb, eb⟩ := hb
  refine ⟨max2_notNan na, ?_⟩
  rcases max2_cases a b with ⟨h, e⟩ | ⟨h, e⟩ <;> rw [e]
  · exact ⟨b', rb, eb.trans (max2_same (ea.ge.trans ((hR i _ _ _ _ ra rb h.le).trans eb.le))).symm⟩
  · exact ⟨a', ra, ea.trans (max2_same' (eb.ge.trans ((hR i _ _ _ _ rb ra (notLt_le na nb h)).trans ea.le))).symm⟩

/-- A box moves to a box that equals `d`. -/
def Bounds3.Image (R : Fin 3 → T → U → Prop) (c : Bounds3 T) (d : Bounds3 U) : Prop :=
  ∀ i, Pbrt.Image R i (c.pMin.get i) (d.pMin.get i) ∧ Pbrt.Image R i (c.pMax.get i) (d.pMax.get i)

omit [LawfulOrder T] [LawfulOrder U] in
theorem Bounds3.Image.moved {c : Bounds3 T} {d : Bounds3 U} (h : c.Image R d) : ∃ c', c.Moved R c' ∧ c'.Same d := by
  choose f hf using fun i => (h i).1.2
  choose g hg using fun i => (h i).2.2
  refine ⟨⟨.of f, .of g⟩, ⟨fun i => ?_, fun i => ?_⟩, fun i => ?_, fun i => ?_⟩ <;>
    simp only [Point3.get_of]
  exacts [(hf i).1, (hg i).1, (hf i).2, (hg i).2]

theorem Bounds3.Image.of (hR : Keeps R) {a : Bounds3 T} {a' : Bounds3 U} (h : a.Moved R a') (hp : a.pMin.Proper)
    (hq : a.pMax.Proper) : a.Image R a' :=
  fun i => ⟨.of hR (h.1 i) (hp i), .of hR (h.2 i) (hq i)⟩

theorem Bounds3.Image.union (hR : Keeps R) {a b : Bounds3 T} {a' b' : Bounds3 U} (ha : a.Image R a') (hb : b.Image R b') :
    (a.union b).Image R (a'.union b') := by
  intro i
  rw [union_min, union_max, union_min, union_max]
  have h1 := (ha i).1.min hR (hb i).1
  have h2 := (ha i).2.max hR (hb i).2
  exact ⟨h1.min hR h2, h1.max hR h2⟩

theorem Bounds3.Image.intersect (hR : Keeps R) {a b : Bounds3 T} {a' b' : Bounds3 U} (ha : a.Image R a')
    (hb : b.Image R b') : (a.intersect b).Image R (a'.intersect b') := by
  intro i
  rw [intersect_min, intersect_max, intersect_min, intersect_max]
  have h1 := (ha i).1.max hR (hb i).1
  have h2 := (ha i).2.min hR (hb i).2
  exact ⟨h1.min hR h2, h1.max hR h2⟩

theorem Bounds3.Image.unionPt (hR : Keeps R) {a : Bounds3 T} {a' : Bounds3 U} {p : Point3 T} {p' : Point3 U}
    (ha : a.Image R a') (hp : p.Moved R p') (np : p.Proper) : (a.unionPt p).Image R (a'.unionPt p') := by
  intro i
  rw [unionPt_min, unionPt_max, unionPt_min, unionPt_max]
  have h1 := (ha i).1.min hR (.of hR (hp i) (np i))
  have h2 := (ha i).2.max hR (.of hR (hp i) (np i))
  exact ⟨h1.min hR h2, h1.max hR h2⟩

theorem Bounds3.Image.new (hR : Keeps R) {p q : Point3 T} {p' q' : Point3 U}
    (hp : p.Moved R p') (hq : q.Moved R q') (np : p.Proper) (nq : q.Proper) :
    (Bounds3.new p q).Image R (Bounds3.new p' q') := by
  intro i
  rw [new_min, new_max, new_min, new_max]
  exact ⟨Pbrt.Image.min hR (.of hR (hp i) (np i)) (.of hR (hq i) (nq i)),
    Pbrt.Image.max hR (.of hR (hp i) (np i)) (.of hR (hq i) (nq i))⟩

/-- **C87**: a change of coordinates that keeps the order keeps containment and overlap: a point of a box
    becomes a point of the changed box, boxes that overlap become boxes that overlap, and a box in a box
    becomes a box in a box. -/
theorem C87_keeps (hR : Keeps R) (a b : Bounds3 T) (p : Point3 T) (a' b' : Bounds3 U) (p' : Point3 U)
    (ha : a.Moved R a') (hb : b.Moved R b') (hp : p.Moved R p') :
    (a.inside p = true → a'.inside p' = true) ∧
    (a.overlaps b = true → a'.overlaps b' = true) ∧
    (a.WellFormed → a'.WellFormed) ∧
    (a.WellFormed → a.Sub b → a'.Sub b') := by
  refine ⟨?_, ?_, ?_, ?_⟩
  · rw [inside_iff, inside_iff]
    exact fun h i => ⟨hR i _ _ _ _ (ha.1 i) (hp i) (h i).1, hR i _ _ _ _ (hp i) (ha.2 i) (h i).2⟩
  · rw [overlaps_iff, overlaps_iff]
    exact fun h i => ⟨hR i _ _ _ _ (hb.1 i) (ha.2 i) (h i).1, hR i _ _ _ _ (ha.1 i) (hb.2 i) (h i).2⟩
  · exact fun h i => hR i _ _ _ _ (ha.1 i) (ha.2 i) (h i)
  · intro h hs
    rw [Bounds3.sub_iff h] at hs
    exact (Bounds3.sub_iff fun i => hR i _ _ _ _ (ha.1 i) (ha.2 i) (h i)).2 fun i =>
      ⟨hR i _ _ _ _ (hb.1 i) (ha.1 i) (hs i).1, hR i _ _ _ _ (ha.2 i) (hb.2 i) (hs i).2⟩

omit [Elem T] [Elem U] [LawfulOrder T] [LawfulOrder U] in
/-- **C87**: the corners of a changed box are the changed corners. -/
theorem C87_corner (a : Bounds3 T) (a' : Bounds3 U) (ha : a.Moved R a') (k : Nat) :
    (a.corner k).Moved R (a'.corner k) := by
  intro i
  fin_cases i
  · show R 0 (if k &&& 1 > 0 then a.pMin else a.pMax).x (if k &&& 1 > 0 then a'.pMin else a'.pMax).x
    split
    exacts [ha.1 0, ha.2 0]
  · show R 1 (if k &&& 2 > 0 then a.pMin else a.pMax).y (if k &&& 2 > 0 then a'.pMin else a'.pMax).y
    split
    exacts [ha.1 1, ha.2 1]
  · show R 2 (if k &&& 4 > 0 then a.pMin else a.pMax).z (if k &&& 4 > 0 then a'.pMin else a'.pMax).z
    split
    exacts [ha.1 2, ha.2 2]

/-- **C87**: the box of two points, the union of two boxes, of a box and a point, and the intersection have
    changed corners that equal what is computed from the changed points and boxes. -/
theorem C87_commutes (hR : Keeps R) (a b : Bounds3 T) (p q : Point3 T) (a' b' : Bounds3 U) (p' q' : Point3 U)
    (ha : a.Moved R a') (hb : b.Moved R b') (hp : p.Moved R p') (hq : q.Moved R q')
    (na : a.pMin.Proper ∧ a.pMax.Proper) (nb : b.pMin.Proper ∧ b.pMax.Proper) (np : p.Proper) (nq : q.Proper) :
    (∃ c, (Bounds3.new p q).Moved R c ∧ c.Same (Bounds3.new p' q')) ∧
    (∃ c, (a.union b).Moved R c ∧ c.Same (a'.union b')) ∧
    (∃ c, (a.unionPt p).Moved R c ∧ c.Same (a'.unionPt p')) ∧
    (∃ c, (a.intersect b).Moved R c ∧ c.Same (a'.intersect b')) := by
  have ia := Bounds3.Image.of hR ha na.1 na.2
  have ib := Bounds3.Image.of hR hb nb.1 nb.2
  exact ⟨(Bounds3.Image.new hR hp hq np nq).moved, (ia.union hR ib).moved, (ia.unionPt hR hp np).moved,
    (ia.intersect hR ib).moved⟩

/-- **C87**: the box of any number of points, added one after the other. -/
theorem C87_points (hR : Keeps R) (a : Bounds3 T) (ps : List (Point3 T)) (a' : Bounds3 U) (ps' : List (Point3 U))
    (ha : a.Moved R a') (hp : List.Forall₂ (fun p p' => p.Moved R p') ps ps')
    (na : a.pMin.Proper ∧ a.pMax.Proper) (np : ∀ p ∈ ps, p.Proper) :
    ∃ c, (ps.foldl Bounds3.unionPt a).Moved R c ∧ c.Same (ps'.foldl Bounds3.unionPt a') := by
  have ia := Bounds3.Image.of hR ha na.1 na.2
  clear ha na
  refine Bounds3.Image.moved ?_
  induction hp generalizing a a' with
  | nil => exact ia
  | cons h _ ih =>
    exact ih _ _ (fun p hp => np p (List.mem_cons_of_mem _ hp)) (ia.unionPt hR h (np _ List.mem_cons_self))

/-- **C87**: a change of coordinates that also never makes two numbers fall together decides nothing
    differently. -/
theorem C87_reflects (hR : Keeps R) (hr : Reflects R) (a b : Bounds3 T) (p : Point3 T) (a' b' : Bounds3 U)
    (p' : Point3 U) (ha : a.Moved R a') (hb : b.Moved R b') (hp : p.Moved R p') :
    a'.inside p' = a.inside p ∧ a'.insideExclusive p' = a.insideExclusive p ∧ a'.overlaps b' = a.overlaps b := by
  have le : ∀ {i x y x' y'}, R i x x' → R i y y' → (Le x' y' ↔ Le x y) := fun h h' =>
    ⟨hr _ _ _ _ _ h h', hR _ _ _ _ _ h h'⟩
  have lt : ∀ {i x y x' y'}, R i x x' → R i y y' → (Lt x' y' ↔ Lt x y) := fun h h' => by
    rw [lt_iff, lt_iff, le h h', le h' h]
  refine ⟨?_, ?_, ?_⟩ <;> rw [Bool.eq_iff_iff]
  · rw [inside_iff, inside_iff]
    exact forall_congr' fun i => and_congr (le (ha.1 i) (hp i)) (le (hp i) (ha.2 i))
  · rw [insideExclusive_iff, insideExclusive_iff]
    exact forall_congr' fun i => and_congr (le (ha.1 i) (hp i)) (lt (hp i) (ha.2 i))
  · rw [overlaps_iff, overlaps_iff]
    exact forall_congr' fun i => and_congr (le (hb.1 i) (ha.2 i)) (le (ha.1 i) (hb.2 i))

end

/-! ### Which changes keep the order -/

section
variable {T : Type} [Elem T]

/-- **C87**: the changes of coordinates are what the code computes for points. -/
theorem C87_changes (p q : Point3 T) (v : Vector3 T) (s : T) :
    (p.Moved (Plus v) q ↔ p.add v = .ok q) ∧ (p.Moved (Minus v) q ↔ p.subVec v = .ok q) ∧
    (p.Moved (Times s) q ↔ p.mul s = .ok q) ∧ (p.Moved (Over s) q ↔ p.div s = .ok q) := by
  obtain ⟨h1, h2, -, h4, h5, -⟩ := C65_point p q v ⟨s, s, s⟩ s
  exact ⟨h1.symm, h2.symm, h4.symm, h5.symm⟩

omit [Elem T] in
/-- **C87**: and so are rounding down and up. -/
theorem C87_rounding [FloatFns T] (p q : Point3 T) :
    (p.Moved Down q ↔ p.floor = q) ∧ (p.Moved Up q ↔ p.ceil = q) := by
  cases p; cases q
  simp only [Point3.Moved, Fin.forall_fin_succ, Point3.get, Down, Up, Point3.floor, Point3.ceil, Point3.mk.injEq]
  simp

end

section
variable {T : Type} [Elem T] [As T T] [FloatFns T] [IEEE T]

local notation "z" => (Elem.fromInt 0 : T)
local notation "𝔽" => (IEEE.fmt T)

attribute [local instance] ieee_lawful

/-- **C87**: with floats, adding and subtracting finite numbers keeps the order, in spite of rounding and
    overflow. -/
theorem C87_float_shift (v : Vector3 T) (hv : ∀ i, IsFinite (v.get i)) : Keeps (Plus v) ∧ Keeps (Minus v) := by
  have ht : ∀ i, ext (v.get i) ≠ ⊤ ∧ ext (v.get i) ≠ ⊥ := fun i => by
    rw [(hv i).ext]
    exact ⟨EReal.coe_ne_top _, EReal.coe_ne_bot _⟩
  have hr : ∀ i, Le (v.get i) (v.get i) := fun i => Le.refl (hv i).notNan
  constructor
  · intro i a b a' b' ha hb h
    have ha := Except.ok.inj ((fadd_ok a (v.get i)).symm.trans ha)
    have hb := Except.ok.inj ((fadd_ok b (v.get i)).symm.trans hb)
    rw [← ha, ← hb]
    have hn : ∀ c : T, NotNan c → NotNan (fadd c (v.get i)) := fun c hc =>
      (fadd_ext hc (hv i).notNan (fun h => (ht i).2 h.2) (fun h => (ht i).1 h.2)).1
    exact fadd_mono h (hr i) (hn _ h.left) (hn _ h.right)
  · intro i a b a' b' ha hb h
    have ha := Except.ok.inj ((fsub_ok a (v.get i)).symm.trans ha)
    have hb := Except.ok.inj ((fsub_ok b (v.get i)).symm.trans hb)
    rw [← ha, ← hb]
    have hn : ∀ c : T, NotNan c → NotNan (fsub c (v.get i)) := fun c hc =>
      (fsub_ext hc (hv i).notNan (fun h => (ht i).1 h.2) (fun h => (ht i).2 h.2)).1
    exact fsub_mono h (hr i) (hn _ h.left) (hn _ h.right)

/-- **C87**: so does multiplying with or dividing by a finite positive number. -/
theorem C87_float_scale (s : T) (hs : IsFinite s) (h0 : Lt z s) : Keeps (Times s) ∧ Keeps (Over s) := by
  have hv : 0 < ext s := by
    have := ((lt_iff_ext _ _).1 h0).2.2
    rwa [ext_zero] at this
  have ht : ext s ≠ ⊤ ∧ ext s ≠ ⊥ := by
    rw [hs.ext]
    exact ⟨EReal.coe_ne_top _, EReal.coe_ne_bot _⟩
  constructor
  · intro i a b a' b' ha hb h
    have ha := Except.ok.inj ((fmul_ok s a).symm.trans ha)
    have hb := Except.ok.inj ((fmul_ok s b).symm.trans hb)
    rw [← ha, ← hb]
    have hn : ∀ c : T, NotNan c → NotNan (fmul s c) ∧ ext (fmul s c) = rndE 𝔽 (ext s * ext c) := fun c hc =>
      fmul_ext hs.notNan hc (fun h => absurd h hv.ne') (fun _ => ht)
    refine le_of_ext (hn _ h.left).1 (hn _ h.right).1 ?_
    rw [(hn _ h.left).2, (hn _ h.right).2]
    exact rndE_mono (mul_le_mul_of_nonneg_left (le_ext h) hv.le)
  · intro i a b a' b' ha hb h
    have ha := Except.ok.inj ((fdiv_ok a s).symm.trans ha)
    have hb := Except.ok.inj ((fdiv_ok b s).symm.trans hb)
    rw [← ha, ← hb]
    have hn : ∀ c : T, NotNan c → NotNan (fdiv c s) ∧ ext (fdiv c s) = rndE 𝔽 (ext c / ext s) := fun c hc =>
      fdiv_ext hc hs.notNan hv.ne' (fun h => h.2 hs)
    refine le_of_ext (hn _ h.left).1 (hn _ h.right).1 ?_
    rw [(hn _ h.left).2, (hn _ h.right).2]
    exact rndE_mono (EReal.div_le_div_right_of_nonneg hv.le (le_ext h))

theorem round_keeps (g : T → T) (k : ℝ → ℤ) (hk : Monotone k)
    (hg : ∀ a, (IsFinite a → IsFinite (g a) ∧ val (g a) = k (val a)) ∧ (¬ IsFinite a → g a = a)) {a b : T} (h : Le a b) :
    Le (g a) (g b) := by
  by_cases ha : IsFinite a
  · obtain ⟨fa, va⟩ := (hg a).1 ha
    by_cases hb : IsFinite b
    · obtain ⟨fb, vb⟩ := (hg b).1 hb
      refine (le_iff_val fa fb).2 ?_
      rw [va, vb]
      exact_mod_cast hk ((le_iff_val ha hb).1 h)
    · rw [(hg b).2 hb]
      refine le_of_ext fa.notNan h.right ?_
      rcases not_finite_cases h.right with h' | h' | h'
      · exact absurd h' hb
      · rw [ext_top_iff.2 h']; exact le_top
      · have := le_ext h
        rw [ext_bot_iff.2 h', ha.ext] at this
        exact absurd this (by simp)
  · rw [(hg a).2 ha]
    by_cases hb : IsFinite b
    · obtain ⟨fb, vb⟩ := (hg b).1 hb
      refine le_of_ext h.left fb.notNan ?_
      rcases not_finite_cases h.left with h' | h' | h'
      · exact absurd h' ha
      · have := le_ext h
        rw [ext_top_iff.2 h', hb.ext] at this
        exact absurd this (by simp)
      · rw [ext_bot_iff.2 h']; exact bot_le
    · rw [(hg b).2 hb]; exact h

/-- **C87**: so does rounding down or up to integers. -/
theorem C87_float_rounding : Keeps (Down : Fin 3 → T → T → Prop) ∧ Keeps (Up : Fin 3 → T → T → Prop) := by
  constructor
  · rintro i a b _ _ rfl rfl h
    exact round_keeps _ (fun x => ⌊x⌋) Int.floor_mono
      (fun a => ⟨fun h => ⟨((C66_floor a).1 h).1, ((C66_floor a).1 h).2.1⟩, (C66_floor a).2⟩) h
  · rintro i a b _ _ rfl rfl h
    exact round_keeps _ (fun x => ⌈x⌉) Int.ceil_mono
      (fun a => ⟨fun h => ⟨((C66_ceil a).1 h).1, ((C66_ceil a).1 h).2.1⟩, (C66_ceil a).2⟩) h

end

/-- **C87**: with checked integers, adding, subtracting and multiplying with a positive number keep the order and never
    make two numbers fall together; dividing by a positive number keeps the order. -/
theorem C87_int (v : Vector3 (I64 true)) (s : I64 true) (hs : 0 < s.toInt) :
    (Keeps (Plus v) ∧ Reflects (Plus v)) ∧ (Keeps (Minus v) ∧ Reflects (Minus v)) ∧
    (Keeps (Times s) ∧ Reflects (Times s)) ∧ Keeps (Over s) := by
  refine ⟨⟨?_, ?_⟩, ⟨?_, ?_⟩, ⟨?_, ?_⟩, ?_⟩ <;> intro i a b a' b' ha hb h <;>
    simp only [Le, I64.le_iff] at h ⊢
  · have h1 := I64.add_checked.1 ha
    have h2 := I64.add_checked.1 hb
    omega
  · have h1 := I64.add_checked.1 ha
    have h2 := I64.add_checked.1 hb
    omega
  · have h1 := I64.sub_checked.1 ha
    have h2 := I64.sub_checked.1 hb
    omega
  · have h1 := I64.sub_checked.1 ha
    have h2 := I64.sub_checked.1 hb
    omega
  · have h1 := I64.mul_checked.1 ha
    have h2 := I64.mul_checked.1 hb
    nlinarith
  · have h1 := I64.mul_checked.1 ha
    have h2 := I64.mul_checked.1 hb
    rw [← h1, ← h2] at h
    exact le_of_mul_le_mul_left h hs
  · have h1 := I64.div_checked ha
    have h2 := I64.div_checked hb
    rw [h1.2, h2.2]
    exact Int.tdiv_le_tdiv hs h

section
variable {K : Type} [Field K] [LinearOrder K] [IsStrictOrderedRing K]

theorem moved_plus {p q : Point3 K} {v : Vector3 K} (h : p.Moved (Plus v) q) :
    q = ⟨p.x + v.x, p.y + v.y, p.z + v.z⟩ :=
  Point3.get_ext fun i => by
    have := (Except.ok.inj (h i)).symm
    fin_cases i <;> exact this

/-- **C87**: in exact arithmetic adding, subtracting, multiplying with and dividing by a positive number keep the order
    and never make two numbers fall together. -/
theorem C87_exact (v : Vector3 K) (s : K) (hs : 0 < s) :
    (Keeps (Plus v) ∧ Reflects (Plus v)) ∧ (Keeps (Minus v) ∧ Reflects (Minus v)) ∧
    (Keeps (Times s) ∧ Reflects (Times s)) ∧ (Keeps (Over s) ∧ Reflects (Over s)) := by
  have hd : ∀ {a b : K}, Elem.div a s = .ok b → b = a / s := fun {a b} h => by
    simp only [Elem.div, if_neg hs.ne', Except.ok.injEq] at h
    exact h.symm
  refine ⟨⟨?_, ?_⟩, ⟨?_, ?_⟩, ⟨?_, ?_⟩, ?_, ?_⟩ <;> intro i a b a' b' ha hb h <;>
    simp only [Le_exact] at h ⊢
  · rw [← Except.ok.inj ha, ← Except.ok.inj hb]; linarith
  · rw [← Except.ok.inj ha, ← Except.ok.inj hb] at h; linarith
  · rw [← Except.ok.inj ha, ← Except.ok.inj hb]; linarith
  · rw [← Except.ok.inj ha, ← Except.ok.inj hb] at h; linarith
  · rw [← Except.ok.inj ha, ← Except.ok.inj hb]; exact mul_le_mul_of_nonneg_left h hs.le
  · rw [← Except.ok.inj ha, ← Except.ok.inj hb] at h; exact le_of_mul_le_mul_left h hs
  · rw [hd ha, hd hb]; exact div_le_div_of_nonneg_right h hs.le
  · rw [hd ha, hd hb] at h; exact (div_le_div_iff_of_pos_right hs).1 h

end

section
variable {K : Type} [CommRing K] [Elem K] [ExactRing K]

theorem ring_plus {a b t : K} (h : Elem.add a t = .ok b) : b = a + t := by
  rw [ExactRing.add_eq] at h
  exact (Except.ok.inj h).symm

/-- **C87**: without rounding, and also when integers wrap around, the differences of points, and so the diagonal,
    surface area, volume and longest side of a box, are the same after adding a vector to all points. -/
theorem C87_differences (v : Vector3 K) (a a' : Bounds3 K) (p q p' q' : Point3 K) (ha : a.Moved (Plus v) a')
    (hp : p.Moved (Plus v) p') (hq : q.Moved (Plus v) q') :
    p'.sub q' = p.sub q ∧ a'.diagonal = a.diagonal ∧ a'.surfaceArea = a.surfaceArea ∧ a'.volume = a.volume ∧
    a'.maximumExtent = a.maximumExtent := by
  have hs : ∀ {p q p' q' : Point3 K}, p.Moved (Plus v) p' → q.Moved (Plus v) q' → p'.sub q' = p.sub q := by
    intro p q p' q' hp hq
    have h : ∀ i, p'.get i - q'.get i = p.get i - q.get i := fun i => by
      rw [ring_plus (hp i), ring_plus (hq i)]; ring
    have h0 := h 0
    have h1 := h 1
    have h2 := h 2
    simp only [Point3.get] at h0 h1 h2
    simp only [Point3.sub, ExactRing.sub_eq, h0, h1, h2]
  have hd : a'.diagonal = a.diagonal := hs ha.2 ha.1
  refine ⟨hs hp hq, hd, ?_, ?_, ?_⟩
  · simp only [Bounds3.surfaceArea, hd]
  · simp only [Bounds3.volume, hd]
  · simp only [Bounds3.maximumExtent, hd]

end

section
variable {K : Type} [Field K] [LinearOrder K] [IsStrictOrderedRing K]

/-- **C87**: in exact arithmetic, the relative position of a point in a box is the same after adding a vector to
    all points, and interpolated points, and points on rays move along. -/
theorem C87_along (v : Vector3 K) (a a' : Bounds3 K) (p q p' q' c : Point3 K) (t : K) (ha : a.Moved (Plus v) a')
    (hp : p.Moved (Plus v) p') (hq : q.Moved (Plus v) q') (d : Vector3 K) (tm tt : K) :
    a'.offset p' = a.offset p ∧
    a'.lerp c = (a.lerp c).bind (fun r => r.add v) ∧
    Point3.lerp t p' q' = (Point3.lerp t p q).bind (fun r => r.add v) ∧
    Ray.at ⟨p', d, tm, tt⟩ t = (Ray.at ⟨p, d, tm, tt⟩ t).bind (fun r => r.add v) := by
  have e1 := moved_plus ha.1
  have e2 := moved_plus ha.2
  have e3 := moved_plus hp
  have e4 := moved_plus hq
  refine ⟨?_, ?_, ?_, ?_⟩
  · have hg : ∀ x y w : K, Elem.gt (x + w) (y + w) = Elem.gt x y := fun x y w => by
      simp [Elem.gt, Elem.lt]
    have hs : ∀ x y w : K, Elem.sub (x + w) (y + w) = Elem.sub x y := fun x y w => by
      simp [Elem.sub]
    simp only [Bounds3.offset, Point3.sub, e1, e2, e3, hg, hs]
  · simp only [Bounds3.lerp, Pbrt.lerp, Point3.add, e1, e2, Elem.add, Elem.mul, Elem.sub, Elem.fromInt, bind, Except.bind, pure,
      Except.pure]
    congr 2 <;> push_cast <;> ring
  · simp only [Point3.lerp, Point3.mul, Point3.add, Vector3.ofPoint, e3, e4, Elem.add, Elem.mul, Elem.sub, Elem.fromInt, bind,
      Except.bind, pure, Except.pure]
    congr 2 <;> push_cast <;> ring
  · simp only [Ray.at, Vector3.mul, Point3.add, e3, Elem.add, Elem.mul, bind, Except.bind, pure, Except.pure]
    congr 2 <;> ring

/-- **C87**: in exact arithmetic an expanded box moves along. -/
theorem C87_expand (v : Vector3 K) (a a' : Bounds3 K) (ha : a.Moved (Plus v) a') (δ : K) :
    ∃ b b', a.expand δ = .ok b ∧ a'.expand δ = .ok b' ∧ b.Moved (Plus v) b' := by
  have e1 := moved_plus ha.1
  have e2 := moved_plus ha.2
  refine ⟨_, _, rfl, rfl, ?_⟩
  have hk := (C87_exact v 1 one_pos).1.1
  obtain ⟨c, hc, hs⟩ := (Bounds3.Image.new (R := Plus v) hk
    (p := ⟨a.pMin.x - δ, a.pMin.y - δ, a.pMin.z - δ⟩) (q := ⟨a.pMax.x + δ, a.pMax.y + δ, a.pMax.z + δ⟩)
    (p' := ⟨a'.pMin.x - δ, a'.pMin.y - δ, a'.pMin.z - δ⟩) (q' := ⟨a'.pMax.x + δ, a'.pMax.y + δ, a'.pMax.z + δ⟩)
    (by intro i; fin_cases i <;> simp [Plus, Point3.get, Vector3.get, Elem.add, e1] <;> ring)
    (by intro i; fin_cases i <;> simp [Plus, Point3.get, Vector3.get, Elem.add, e2] <;> ring)
    (fun i => rfl) (fun i => rfl)).moved
  rw [hs.eq] at hc
  exact hc

/-- **C87**: in exact arithmetic scaling the differentials of a moved ray gives the moved origins and the same
    directions. -/
theorem C87_differentials (v : Vector3 K) (r : RayDifferential K) (o x y : Point3 K) (s : K)
    (ho : r.ray.o.Moved (Plus v) o) (hx : r.rxOrigin.Moved (Plus v) x) (hy : r.ryOrigin.Moved (Plus v) y) :
    ∃ d x' y', r.scaleDifferentials s = .ok d ∧
      { r with ray := { r.ray with o := o }, rxOrigin := x, ryOrigin := y }.scaleDifferentials s =
        .ok { d with ray := { d.ray with o := o }, rxOrigin := x', ryOrigin := y' } ∧
      d.rxOrigin.Moved (Plus v) x' ∧ d.ryOrigin.Moved (Plus v) y' := by
  have e1 := moved_plus ho
  have e2 := moved_plus hx
  have e3 := moved_plus hy
  refine ⟨_, _, _, rfl, rfl, ?_, ?_⟩ <;> intro i <;>
    fin_cases i <;> simp [Plus, Point3.get, Vector3.get, Elem.add, e1, e2, e3] <;> ring

end

/-- The center of a box -/
noncomputable def center (b : Bounds3 ℝ) : Point3 ℝ :=
  ⟨(b.pMin.x + b.pMax.x) / 2, (b.pMin.y + b.pMax.y) / 2, (b.pMin.z + b.pMax.z) / 2⟩

/-- The radius computed for a box and its center -/
noncomputable def reach (b : Bounds3 ℝ) (c : Point3 ℝ) : Outcome ℝ :=
  if b.inside c then c.sub b.pMax >>= fun d => d.len else pure (Elem.fromInt 0)

theorem moved_sphere_center (b : Bounds3 ℝ) :
    b.boundingSphere = reach b (center b) >>= fun r => pure (center b, r) := by
  have hc : (do
      let sum ← b.pMin.add (Vector3.ofPoint b.pMax)
      sum.div (Elem.fromInt 2)) = .ok (center b) := by
    simp only [Point3.add, add_ok, ok_bind, pure_ok, Point3.div, fromInt_cast]
    simp only [div_ok _ (show ((2 : ℤ) : ℝ) ≠ 0 by norm_num), ok_bind]
    simp [center, Vector3.ofPoint]
  have : b.boundingSphere = (do
      let sum ← b.pMin.add (Vector3.ofPoint b.pMax)
      sum.div (Elem.fromInt 2)) >>= fun c => reach b c >>= fun r => pure (c, r) := by
    simp only [Bounds3.boundingSphere, bind_assoc, reach]
    refine congrArg _ (funext fun _ => congrArg _ (funext fun c => ?_))
    split <;> simp only [bind_assoc]
  rw [this, hc, ok_bind]

/-- **C87**: the sphere around a box moves along. -/
theorem C87_sphere (v : Vector3 ℝ) (a a' : Bounds3 ℝ) (ha : a.Moved (Plus v) a') (c : Point3 ℝ) (r : ℝ)
    (h : a.boundingSphere = .ok (c, r)) : ∃ c', c.Moved (Plus v) c' ∧ a'.boundingSphere = .ok (c', r) := by
  have e1 := moved_plus ha.1
  have e2 := moved_plus ha.2
  obtain ⟨hk, hr⟩ := (C87_exact v 1 one_pos).1
  have hm : (center a).Moved (Plus v) (center a') := by
    intro i
    fin_cases i <;> simp [Plus, Point3.get, Vector3.get, Elem.add, e1, e2, center] <;> ring
  rw [moved_sphere_center] at h
  rw [moved_sphere_center, reach, (C87_reflects hk hr a a (center a) a' a' (center a') ha ha hm).1,
    (C87_differences v a a' (center a) a.pMax (center a') a'.pMax ha hm ha.2).1]
  obtain ⟨ρ, h1, h2⟩ := bind_eq_ok.1 h
  obtain ⟨rfl, rfl⟩ := Prod.mk.inj (Except.ok.inj h2)
  exact ⟨center a', hm, by rw [reach] at h1; rw [h1]; rfl⟩

/-! ### What rounding and wrapping break -/

/-- **C87**, the expectations that fail: with floats a point outside a box can be inside after the same vector
    has been added to everything, a point strictly inside can lie on a face, boxes that do not overlap can
    overlap, and the diagonal can change. -/
theorem C87_float_refuted :
    let v := fv 16777216 0 0
    let a : Bounds3 Float32.Model := ⟨fp 0 0 0, fp 4 4 4⟩
    let a' : Bounds3 Float32.Model := ⟨fp 16777216 0 0, fp 16777220 4 4⟩
    let b : Bounds3 Float32.Model := ⟨fp 5 0 0, fp 6 4 4⟩
    let b' : Bounds3 Float32.Model := ⟨fp 16777220 0 0, fp 16777222 4 4⟩
    (a.pMin.add v = .ok a'.pMin ∧ a.pMax.add v = .ok a'.pMax ∧ b.pMin.add v = .ok b'.pMin ∧ b.pMax.add v = .ok b'.pMax) ∧
    (fp 5 1 1).add v = .ok (fp 16777220 1 1) ∧ (fp 3 1 1).add v = .ok (fp 16777220 1 1) ∧
    a.inside (fp 5 1 1) = false ∧ a'.inside (fp 16777220 1 1) = true ∧
    a.insideExclusive (fp 3 1 1) = true ∧ a'.insideExclusive (fp 16777220 1 1) = false ∧
    a.overlaps b = false ∧ a'.overlaps b' = true ∧
    b.diagonal = .ok (fv 1 4 4) ∧ b'.diagonal = .ok (fv 2 4 4) := by
  decide +kernel

/-- **C87**, the expectations that fail: when integers wrap around, a point of a box can be outside after the same
    vector has been added to everything; and an infinite vector makes NaN of points. -/
theorem C87_wrap_refuted :
    (let m : I64 false := Extremes.maxValue
    let n : I64 false := Extremes.minValue
    let o : I64 false := Elem.fromInt 0
    let v : Vector3 (I64 false) := ⟨Elem.fromInt 1, o, o⟩
    let a : Bounds3 (I64 false) := ⟨⟨o, o, o⟩, ⟨m, m, m⟩⟩
    let a' : Bounds3 (I64 false) := ⟨⟨Elem.fromInt 1, o, o⟩, ⟨n, m, m⟩⟩
    a.pMin.add v = .ok a'.pMin ∧ a.pMax.add v = .ok a'.pMax ∧
    (Point3.mk o o o).add v = .ok ⟨Elem.fromInt 1, o, o⟩ ∧
    a.inside ⟨o, o, o⟩ = true ∧ a'.inside ⟨Elem.fromInt 1, o, o⟩ = false) ∧
    (let v : Vector3 Float32.Model := ⟨inf32, f32 0, f32 0⟩
    let p : Point3 Float32.Model := ⟨.pack (.infinity .negative), f32 0, f32 0⟩
    let a : Bounds3 Float32.Model := ⟨p, p⟩
    a.inside p = true ∧ p.add v = .ok ⟨nan32, f32 0, f32 0⟩ ∧
    (⟨⟨nan32, f32 0, f32 0⟩, ⟨nan32, f32 0, f32 0⟩⟩ : Bounds3 Float32.Model).inside ⟨nan32, f32 0, f32 0⟩ = false) := by
  decide +kernel

/-- A box and a point of it moved by a finite float vector, and a union of moved boxes. -/
example : (fp 1 2 3).add (fv 100 0 (-7)) = .ok (fp 101 2 (-4)) ∧ (∀ i, IsFinite ((fv 100 0 (-7)).get i)) ∧
    (⟨fp 0 0 0, fp 4 4 4⟩ : Bounds3 Float32.Model).inside (fp 1 2 3) = true ∧
    (⟨fp 100 0 (-7), fp 104 4 (-3)⟩ : Bounds3 Float32.Model).inside (fp 101 2 (-4)) = true ∧
    (⟨fp 0 0 0, fp 4 4 4⟩ : Bounds3 Float32.Model).unionPt (fp 9 (-1) 1) = ⟨fp 0 (-1) 0, fp 9 4 4⟩ ∧
    (⟨fp 100 0 (-7), fp 104 4 (-3)⟩ : Bounds3 Float32.Model).unionPt (fp 109 (-1) (-6)) = ⟨fp 100 (-1) (-7), fp 109 4 (-3)⟩ := by
  decide +kernel

/-- A moved point with fractions. -/
example : (⟨1, 2, 3⟩ : Point3 ℚ).Moved (Plus ⟨1 / 2, 0, -7⟩) ⟨3 / 2, 2, -4⟩ := by
  intro i
  fin_cases i <;> simp [Plus, Point3.get, Vector3.get, Elem.add] <;> norm_num

/-! ### A case of each theorem -/

namespace Moved

/-- a box, moved by `(100, 0, -7)` -/
def v : Vector3 Float32.Model := fv 100 0 (-7)
def a : Bounds3 Float32.Model := ⟨fp 0 0 0, fp 4 4 4⟩
def a' : Bounds3 Float32.Model := ⟨fp 100 0 (-7), fp 104 4 (-3)⟩
/-- another box, and the same moved -/
def b : Bounds3 Float32.Model := ⟨fp 0 1 0, fp 2 2 2⟩
def b' : Bounds3 Float32.Model := ⟨fp 100 1 (-7), fp 102 2 (-5)⟩

instance (p q : Point3 Float32.Model) : Decidable (p.Moved (Plus v) q) := by
  unfold Point3.Moved Plus; infer_instance
instance (c d : Bounds3 Float32.Model) : Decidable (c.Moved (Plus v) d) := inferInstanceAs (Decidable (_ ∧ _))

/-- moving floats keeps their order -/
theorem keeps : Keeps (Plus v) := (C87_float_shift v (by decide +kernel)).1

example := C87_float_scale (f32 3) (by decide +kernel) (by decide +kernel)
example := C87_keeps keeps a b (fp 1 2 3) a' b' (fp 101 2 (-4)) (by decide +kernel) (by decide +kernel) (by decide +kernel)
example := C87_corner (R := Plus v) a a' (by decide +kernel) 5
example := C87_commutes keeps a b (fp 1 2 3) (fp 9 (-1) 1) a' b' (fp 101 2 (-4)) (fp 109 (-1) (-6)) (by decide +kernel)
  (by decide +kernel) (by decide +kernel) (by decide +kernel) (by decide +kernel) (by decide +kernel) (by decide +kernel)
  (by decide +kernel)
example := C87_points keeps a [fp 1 2 3, fp 9 (-1) 1] a' [fp 101 2 (-4), fp 109 (-1) (-6)] (by decide +kernel)
  (.cons (by decide +kernel) (.cons (by decide +kernel) .nil)) (by decide +kernel) (by decide +kernel)

example := C87_int (iv 100 0 (-7)) (i64 3) (by decide +kernel)
instance (p q : Point3 (I64 true)) : Decidable (p.Moved (Plus (iv 100 0 (-7))) q) := by
  unfold Point3.Moved Plus; infer_instance
example := C87_reflects (C87_int (iv 100 0 (-7)) (i64 3) (by decide +kernel)).1.1
  (C87_int (iv 100 0 (-7)) (i64 3) (by decide +kernel)).1.2 ⟨ip 0 0 0, ip 4 4 4⟩ ⟨ip 0 1 0, ip 2 2 2⟩ (ip 1 2 3)
  ⟨ip 100 0 (-7), ip 104 4 (-3)⟩ ⟨ip 100 1 (-7), ip 102 2 (-5)⟩ (ip 101 2 (-4))
  ⟨by decide +kernel, by decide +kernel⟩ ⟨by decide +kernel, by decide +kernel⟩ (by decide +kernel)

example := C87_exact (⟨1 / 2, 0, -7⟩ : Vector3 ℚ) (3 / 5) (by norm_num)

/-- moved exactly -/
theorem moved {K : Type} [Field K] [LinearOrder K] [IsStrictOrderedRing K] (v : Vector3 K) (p : Point3 K) :
    p.Moved (Plus v) ⟨p.x + v.x, p.y + v.y, p.z + v.z⟩ := by
  intro i
  fin_cases i <;> rfl

example := C87_differences (⟨1 / 2, 0, -7⟩ : Vector3 ℚ) ⟨⟨0, 0, 0⟩, ⟨1, 2, 3⟩⟩ ⟨_, _⟩ ⟨1, 2, 3⟩ ⟨4, 0, 1⟩ _ _
  ⟨moved _ _, moved _ _⟩ (moved _ _) (moved _ _)
example := C87_along (⟨1 / 2, 0, -7⟩ : Vector3 ℚ) ⟨⟨0, 0, 0⟩, ⟨1, 2, 3⟩⟩ ⟨_, _⟩ ⟨1, 2, 3⟩ ⟨4, 0, 1⟩ _ _ ⟨1 / 3, 1, 0⟩ (2 / 3)
  ⟨moved _ _, moved _ _⟩ (moved _ _) (moved _ _) ⟨1, 0, 2⟩ 10 0
example := C87_expand (⟨1 / 2, 0, -7⟩ : Vector3 ℚ) ⟨⟨0, 0, 0⟩, ⟨1, 2, 3⟩⟩ ⟨_, _⟩ ⟨moved _ _, moved _ _⟩ (1 / 4)
example := C87_differentials (⟨1 / 2, 0, -7⟩ : Vector3 ℚ)
  ⟨⟨⟨0, 0, 0⟩, ⟨1, 2, 3⟩, 10, 0⟩, true, ⟨1, 0, 0⟩, ⟨0, 1, 0⟩, ⟨1, 2, 4⟩, ⟨1, 3, 3⟩⟩ _ _ _ (1 / 4) (moved _ _) (moved _ _)
  (moved _ _)
-- the cube from 0 to 2 has the centre (1, 1, 1)
example := C87_sphere ⟨1 / 2, 0, -7⟩ ⟨⟨0, 0, 0⟩, ⟨2, 2, 2⟩⟩ ⟨_, _⟩ ⟨moved _ _, moved _ _⟩

end Moved

end Pbrt
