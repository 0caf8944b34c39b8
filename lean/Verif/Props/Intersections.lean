import Verif.Props.Boxes

/-!
# C104: calculating with common parts of boxes
-/

namespace Pbrt

variable {T : Type} [Elem T] [LawfulOrder T]

theorem Bounds3.Same.of_iff {a b : Bounds3 T} (ha : a.WellFormed) (hb : b.WellFormed)
    (h : ∀ p, a.Has p ↔ b.Has p) : a.Same b :=
  Bounds3.same_of_sub ha hb (fun p => (h p).1) fun p => (h p).2

theorem intersect_wf {a : Bounds3 T} (b : Bounds3 T) (ha : a.WellFormed) : (a.intersect b).WellFormed := fun i => by
  rw [intersect_min, intersect_max]
  exact (min2_left (max2_notNan (ha i).left)).trans (max2_left (max2_notNan (ha i).left))

theorem overlaps_common {a b : Bounds3 T} (ha : a.WellFormed) (hb : b.WellFormed) :
    a.overlaps b = true ↔ ∃ p, a.Has p ∧ b.Has p := by
  rw [overlaps_iff, common_iff ha hb]

theorem common_has {a b : Bounds3 T} (ha : a.WellFormed) (hb : b.WellFormed) (h : a.overlaps b = true) (p : Point3 T) :
    (a.intersect b).Has p ↔ a.Has p ∧ b.Has p :=
  intersect_has ha hb ((overlaps_iff a b).1 h)

theorem overlaps_flip {a b : Bounds3 T} (h : a.overlaps b = true) : b.overlaps a = true := by
  rw [C40_overlap_symm]; exact h

/-- Three intervals of which any two meet have a common point; so have three boxes. -/
theorem overlaps_intersect {a b c : Bounds3 T} (ha : a.WellFormed) (hb : b.WellFormed) (hc : c.WellFormed)
    (hab : a.overlaps b = true) (hac : a.overlaps c = true) (hbc : b.overlaps c = true) :
    (a.intersect b).overlaps c = true := by
  have ab := (overlaps_iff a b).1 hab
  have ac := (overlaps_iff a c).1 hac
  have bc := (overlaps_iff b c).1 hbc
  refine (overlaps_common (intersect_wf b ha) hc).2
    ⟨.of fun i => max2 (max2 (a.pMin.get i) (b.pMin.get i)) (c.pMin.get i), ?_, ?_⟩
  · refine (common_has ha hb hab _).2 ⟨fun i => ?_, fun i => ?_⟩ <;> rw [Point3.get_of] <;>
      have n := max2_left (b := b.pMin.get i) (ha i).left
    · exact ⟨n.trans (max2_left n.right), max2_le (max2_le (ha i) (ab i).1) (ac i).1⟩
    · exact ⟨(max2_right (ha i).left (hb i).left).trans (max2_left n.right), max2_le (max2_le (ab i).2 (hb i)) (bc i).1⟩
  · intro i
    rw [Point3.get_of]
    have n := max2_left (b := b.pMin.get i) (ha i).left
    exact ⟨max2_right n.right (hc i).left, max2_le (max2_le (ac i).2 (bc i).2) (hc i)⟩

/-- **C104**: the common part of two boxes that overlap is a box, lies in both, and every box that lies in
    both lies in it. -/
theorem C104_greatest (a b : Bounds3 T) (ha : a.WellFormed) (hb : b.WellFormed) (h : a.overlaps b = true) :
    (a.intersect b).WellFormed ∧ (a.intersect b).Sub a ∧ (a.intersect b).Sub b ∧
    ∀ c : Bounds3 T, c.Sub a → c.Sub b → c.Sub (a.intersect b) :=
  ⟨intersect_wf b ha, fun p hp => ((common_has ha hb h p).1 hp).1, fun p hp => ((common_has ha hb h p).1 hp).2,
    fun _ h1 h2 p hp => (common_has ha hb h p).2 ⟨h1 p hp, h2 p hp⟩⟩

/-- **C104**: the order of the two boxes does not matter, whether they overlap or not. -/
theorem C104_order (a b : Bounds3 T) (ha : a.WellFormed) (hb : b.WellFormed) :
    (a.intersect b).Same (b.intersect a) := by
  have key : ∀ {a b : Bounds3 T}, a.WellFormed → b.WellFormed → (a.intersect b).Sub (b.intersect a) := by
    intro a b ha hb
    refine (Bounds3.sub_iff (intersect_wf b ha)).2 fun i => ?_
    have n1 := max2_left (b := b.pMin.get i) (ha i).left
    have n2 := max2_left (b := a.pMin.get i) (hb i).left
    have n3 := min2_left (b := b.pMax.get i) (ha i).right
    have n4 := min2_left (b := a.pMax.get i) (hb i).right
    have e1 : Same (max2 (a.pMin.get i) (b.pMin.get i)) (max2 (b.pMin.get i) (a.pMin.get i)) :=
      same_iff.2 ⟨max2_le (max2_right (hb i).left (ha i).left) n2, max2_le (max2_right (ha i).left (hb i).left) n1⟩
    have e2 : Same (min2 (a.pMax.get i) (b.pMax.get i)) (min2 (b.pMax.get i) (a.pMax.get i)) :=
      same_iff.2 ⟨le_min2 (min2_right (ha i).right (hb i).right) n3, le_min2 (min2_right (hb i).right (ha i).right) n4⟩
    rw [intersect_min, intersect_min, intersect_max, intersect_max]
    exact ⟨le_min2 ((min2_left n2.right).trans e1.ge) ((min2_right n2.right n4.left).trans e2.ge),
      max2_le (e1.le.trans (max2_left n2.right)) (e2.le.trans (max2_right n2.right n4.left))⟩
  exact Bounds3.same_of_sub (intersect_wf b ha) (intersect_wf a hb) (key ha hb) (key hb ha)

/-- **C104**: three boxes any two of which overlap may be intersected in any order. -/
theorem C104_assoc (a b c : Bounds3 T) (ha : a.WellFormed) (hb : b.WellFormed) (hc : c.WellFormed)
    (hab : a.overlaps b = true) (hac : a.overlaps c = true) (hbc : b.overlaps c = true) :
    ((a.intersect b).intersect c).Same (a.intersect (b.intersect c)) := by
  have h1 := overlaps_intersect ha hb hc hab hac hbc
  have h2 := overlaps_flip (overlaps_intersect hb hc ha hbc (overlaps_flip hab) (overlaps_flip hac))
  refine .of_iff (intersect_wf c (intersect_wf b ha)) (intersect_wf _ ha) fun p => ?_
  rw [common_has (intersect_wf b ha) hc h1, common_has ha hb hab, common_has ha (intersect_wf c hb) h2,
    common_has hb hc hbc, and_assoc]

/-- **C104**: a box lies in another one exactly if it is their common part, and exactly if the other is
    their union. -/
theorem C104_contained (a b : Bounds3 T) (ha : a.WellFormed) (hb : b.WellFormed) :
    (a.Sub b ↔ (a.intersect b).Same a) ∧ (a.Sub b ↔ (a.union b).Same b) := by
  refine ⟨⟨fun h => ?_, fun h => ?_⟩, fun h => ?_, fun h => ?_⟩
  · have ho : a.overlaps b = true := (overlaps_common ha hb).2 ⟨_, ha.has_min, h _ ha.has_min⟩
    refine .of_iff (intersect_wf b ha) ha fun p => ?_
    rw [common_has ha hb ho]
    exact ⟨And.left, fun hp => ⟨hp, h p hp⟩⟩
  · have ho : a.overlaps b = true := by
      rw [overlaps_iff]
      intro i
      by_contra hn
      rw [not_and_or] at hn
      rcases hn with hn | hn
      · have hl := notLe_lt (hb i).left (ha i).right hn
        have := C39_gap a b ha hb i hl
        exact (lt_iff.1 hl).2 (this.2.1.ge.trans (h.2 i).le)
      · have hl := notLe_lt (ha i).left (hb i).right hn
        have := C39_gap b a hb ha i hl
        exact (lt_iff.1 hl).2 ((h.1 i).ge.trans this.2.2.1.le)
    exact fun p hp => ((common_has ha hb ho p).1 (h.symm.sub p hp)).2
  · exact Bounds3.same_of_sub (union_wf ha hb) hb (union_sub ha hb h (.refl _)) (sub_union_right ha hb)
  · exact fun p hp => h.sub p (sub_union_left ha hb p hp)

/-- **C104**: a box is its own common part and its common part with every union it is part of. -/
theorem C104_absorb (a b : Bounds3 T) (ha : a.WellFormed) (hb : b.WellFormed) :
    (a.intersect a).Same a ∧ (a.intersect (a.union b)).Same a ∧
    ((a.union (a.intersect b)).Same a ↔ a.overlaps b = true) := by
  refine ⟨(C104_contained a a ha ha).1.1 (.refl _), (C104_contained _ _ ha (union_wf ha hb)).1.1 (sub_union_left ha hb),
    fun h => ?_, fun h => ?_⟩
  · have hw := intersect_wf b ha
    have hs : (a.intersect b).Sub a := (sub_union_right ha hw).trans h.sub
    rw [overlaps_iff]
    rw [Bounds3.sub_iff hw] at hs
    intro i
    by_contra hn
    rw [not_and_or] at hn
    rcases hn with hn | hn
    · have hl := notLe_lt (hb i).left (ha i).right hn
      exact (lt_iff.1 hl).2 ((C39_gap a b ha hb i hl).2.1.ge.trans (hs i).2)
    · have hl := notLe_lt (ha i).left (hb i).right hn
      exact (lt_iff.1 hl).2 ((hs i).1.trans (C39_gap b a hb ha i hl).2.2.1.le)
  · have hw := intersect_wf b ha
    exact Bounds3.same_of_sub (union_wf ha hw) ha
      (union_sub ha hw (.refl _) fun p hp => ((common_has ha hb h p).1 hp).1) (sub_union_left ha hw)

/-- **C104**: larger boxes overlap as well and have a larger common part. -/
theorem C104_monotone (a b a' b' : Bounds3 T) (ha : a.WellFormed) (hb : b.WellFormed) (ha' : a.Sub a') (hb' : b.Sub b')
    (h : a.overlaps b = true) : a'.overlaps b' = true ∧ (a.intersect b).Sub (a'.intersect b') := by
  obtain ⟨p, h1, h2⟩ := (overlaps_common ha hb).1 h
  have wa := (ha' p h1).wf
  have wb := (hb' p h2).wf
  have ho := (overlaps_common wa wb).2 ⟨p, ha' p h1, hb' p h2⟩
  refine ⟨ho, fun q hq => (common_has wa wb ho q).2 ?_⟩
  have := (common_has ha hb h q).1 hq
  exact ⟨ha' q this.1, hb' q this.2⟩

theorem common_bounds {a b : Bounds3 T} (ha : a.WellFormed) (hb : b.WellFormed) (h : a.overlaps b = true) (i : Fin 3) :
    Same ((a.intersect b).pMin.get i) (max2 (a.pMin.get i) (b.pMin.get i)) ∧
    Same ((a.intersect b).pMax.get i) (min2 (a.pMax.get i) (b.pMax.get i)) := by
  have ho := (overlaps_iff a b).1 h i
  have : Le (max2 (a.pMin.get i) (b.pMin.get i)) (min2 (a.pMax.get i) (b.pMax.get i)) :=
    max2_le (le_min2 (ha i) ho.2) (le_min2 ho.1 (hb i))
  rw [intersect_min, intersect_max]
  exact ⟨min2_same this, max2_same this⟩

theorem min2_mono {a b c d : T} (h : Le a c) (h' : Le b d) : Le (min2 a b) (min2 c d) :=
  le_min2 ((min2_left h.left).trans h) ((min2_right h.left h'.left).trans h')

theorem max2_mono {a b c d : T} (h : Le a c) (h' : Le b d) : Le (max2 a b) (max2 c d) :=
  max2_le (h.trans (max2_left h.right)) (h'.trans (max2_right h.right h'.right))

theorem min2_max2 {a b c : T} (ha : NotNan a) (hb : NotNan b) (hc : NotNan c) :
    Le (min2 a (max2 b c)) (max2 (min2 a b) (min2 a c)) := by
  rcases max2_cases b c with ⟨_, e⟩ | ⟨_, e⟩ <;> rw [e]
  · exact max2_right (min2_notNan ha) (min2_notNan ha)
  · exact max2_left (min2_notNan ha)

theorem max2_min2 {a b c : T} (ha : NotNan a) (hb : NotNan b) (hc : NotNan c) :
    Le (min2 (max2 a b) (max2 a c)) (max2 a (min2 b c)) := by
  rcases min2_cases b c with ⟨_, e⟩ | ⟨_, e⟩ <;> rw [e]
  · exact min2_right (max2_notNan ha) (max2_notNan ha)
  · exact min2_left (max2_notNan ha)

/-- **C104**: common parts and unions distribute over each other, as long as the boxes that are
    intersected overlap. -/
theorem C104_distribute (a b c : Bounds3 T) (ha : a.WellFormed) (hb : b.WellFormed) (hc : c.WellFormed) :
    (b.overlaps c = true → (a.union (b.intersect c)).Same ((a.union b).intersect (a.union c))) ∧
    (a.overlaps b = true → a.overlaps c = true →
      (a.intersect (b.union c)).Same ((a.intersect b).union (a.intersect c))) := by
  refine ⟨fun h => ?_, fun h1 h2 => ?_⟩
  · have hw := intersect_wf c hb
    have wb := union_wf ha hb
    have wc := union_wf ha hc
    have ho : (a.union b).overlaps (a.union c) = true :=
      (overlaps_common wb wc).2 ⟨_, sub_union_left ha hb _ ha.has_min, sub_union_left ha hc _ ha.has_min⟩
    obtain ⟨-, -, -, least⟩ := C104_greatest _ _ wb wc ho
    obtain ⟨-, s1, s2, -⟩ := C104_greatest b c hb hc h
    refine Bounds3.same_of_sub (union_wf ha hw) (intersect_wf _ wb)
      (least _ (union_sub ha hw (sub_union_left ha hb) (s1.trans (sub_union_right ha hb)))
        (union_sub ha hw (sub_union_left ha hc) (s2.trans (sub_union_right ha hc))))
      ((Bounds3.sub_iff (intersect_wf _ wb)).2 fun i => ?_)
    have e := common_bounds hb hc h i
    have e' := common_bounds wb wc ho i
    have n := (ha i).left
    have n' := (ha i).right
    exact ⟨(union_min' ha hw i).le.trans <| (min2_mono (.refl n) e.1.le).trans <|
        (min2_max2 n (hb i).left (hc i).left).trans <|
        (max2_mono (union_min' ha hb i).ge (union_min' ha hc i).ge).trans e'.1.ge,
      e'.2.le.trans <| (min2_mono (union_max' ha hb i).le (union_max' ha hc i).le).trans <|
        (max2_min2 n' (hb i).right (hc i).right).trans <| (max2_mono (.refl n') e.2.ge).trans (union_max' ha hw i).ge⟩
  · have wbc := union_wf hb hc
    have wb := intersect_wf b ha
    have wc := intersect_wf c ha
    have m1 := C104_monotone a b a _ ha hb (.refl _) (sub_union_left hb hc) h1
    have m2 := C104_monotone a c a _ ha hc (.refl _) (sub_union_right hb hc) h2
    refine Bounds3.same_of_sub (intersect_wf _ ha) (union_wf wb wc)
      ((Bounds3.sub_iff (intersect_wf _ ha)).2 fun i => ?_) (union_sub wb wc m1.2 m2.2)
    have e := common_bounds ha hb h1 i
    have e' := common_bounds ha hc h2 i
    have e'' := common_bounds ha wbc m1.1 i
    have n := (ha i).left
    have n' := (ha i).right
    exact ⟨(union_min' wb wc i).le.trans <| (min2_mono e.1.le e'.1.le).trans <|
        (max2_min2 n (hb i).left (hc i).left).trans <| (max2_mono (.refl n) (union_min' hb hc i).ge).trans e''.1.ge,
      e''.2.le.trans <| (min2_mono (.refl n') (union_max' hb hc i).le).trans <|
        (min2_max2 n' (hb i).right (hc i).right).trans <| (max2_mono e.2.ge e'.2.ge).trans (union_max' wb wc i).ge⟩

/-! ### Many boxes -/

/-- **C104**: any number of boxes have a common point as soon as any two of them overlap. Intersecting
    them one after the other gives the box of all common points. -/
theorem C104_helly (b : Bounds3 T) (bs : List (Bounds3 T)) (hw : ∀ c ∈ b :: bs, c.WellFormed)
    (h : (b :: bs).Pairwise fun c d => c.overlaps d = true) :
    (bs.foldl Bounds3.intersect b).WellFormed ∧
    ∀ p, (bs.foldl Bounds3.intersect b).inside p = true ↔ ∀ c ∈ b :: bs, c.inside p = true := by
  induction bs generalizing b with
  | nil => exact ⟨hw b (by simp), fun p => by simp⟩
  | cons c bs ih =>
    have hb := hw b (by simp)
    have hc := hw c (by simp)
    rw [List.pairwise_cons] at h
    obtain ⟨h1, h2⟩ := h
    have h3 := h2
    rw [List.pairwise_cons] at h2
    have hbc := h1 c (by simp)
    obtain ⟨w, hp⟩ := ih (b.intersect c)
      (by
        intro d hd
        rcases List.mem_cons.1 hd with rfl | hd
        · exact intersect_wf c hb
        · exact hw d (by simp [hd]))
      (by
        rw [List.pairwise_cons]
        exact ⟨fun d hd => overlaps_intersect hb hc (hw d (by simp [hd])) hbc (h1 d (by simp [hd])) (h2.1 d hd), h2.2⟩)
    refine ⟨w, fun p => ?_⟩
    rw [List.foldl_cons, hp]
    simp only [List.forall_mem_cons]
    rw [C39_intersect_exact b c hb hc hbc, and_assoc]

/-- **C104**: boxes have a common point exactly if any two of them overlap. -/
theorem C104_common (b : Bounds3 T) (bs : List (Bounds3 T)) (hw : ∀ c ∈ b :: bs, c.WellFormed) :
    (∃ p, ∀ c ∈ b :: bs, c.inside p = true) ↔ (b :: bs).Pairwise fun c d => c.overlaps d = true := by
  constructor
  · rintro ⟨p, hp⟩
    exact List.pairwise_of_forall_mem_list fun c hc d hd => C40_overlap_of_common c d p (hp c hc) (hp d hd)
  · intro h
    obtain ⟨w, hp⟩ := C104_helly b bs hw h
    exact ⟨_, (hp _).1 ((inside_iff _ _).2 w.has_min)⟩

/-- **C104**: the order of the boxes does not matter. -/
theorem C104_any_order (b c : Bounds3 T) (bs cs : List (Bounds3 T)) (hp : (b :: bs).Perm (c :: cs))
    (hw : ∀ c ∈ b :: bs, c.WellFormed) (h : (b :: bs).Pairwise fun c d => c.overlaps d = true) :
    (bs.foldl Bounds3.intersect b).Same (cs.foldl Bounds3.intersect c) := by
  have h' := (hp.pairwise_iff fun {x y} h => overlaps_flip h).1 h
  have hw' : ∀ d ∈ c :: cs, d.WellFormed := fun d hd => hw d (hp.mem_iff.2 hd)
  obtain ⟨w1, h1⟩ := C104_helly b bs hw h
  obtain ⟨w2, h2⟩ := C104_helly c cs hw' h'
  refine .of_iff w1 w2 fun p => ?_
  rw [← inside_iff, ← inside_iff, h1, h2]
  exact forall_congr' fun d => by rw [hp.mem_iff]

/-- **C104**: the union of any number of boxes, one after the other, is the least box that contains them
    all, and their order does not matter. -/
theorem C104_unions (b : Bounds3 T) (bs : List (Bounds3 T)) (hw : ∀ c ∈ b :: bs, c.WellFormed) :
    (bs.foldl Bounds3.union b).WellFormed ∧ (∀ c ∈ b :: bs, c.Sub (bs.foldl Bounds3.union b)) ∧
    (∀ d : Bounds3 T, (∀ c ∈ b :: bs, c.Sub d) → (bs.foldl Bounds3.union b).Sub d) ∧
    ∀ c cs, (b :: bs).Perm (c :: cs) → (bs.foldl Bounds3.union b).Same (cs.foldl Bounds3.union c) := by
  have key : ∀ (bs : List (Bounds3 T)) (b : Bounds3 T), (∀ c ∈ b :: bs, c.WellFormed) →
      (bs.foldl Bounds3.union b).WellFormed ∧ (∀ c ∈ b :: bs, c.Sub (bs.foldl Bounds3.union b)) ∧
      (∀ d : Bounds3 T, (∀ c ∈ b :: bs, c.Sub d) → (bs.foldl Bounds3.union b).Sub d) := by
    intro bs
    induction bs with
    | nil => exact fun b hw => ⟨hw b (by simp), by simp [Bounds3.Sub.refl], fun d h => h b (by simp)⟩
    | cons c bs ih =>
      intro b hw
      have hb := hw b (by simp)
      have hc := hw c (by simp)
      obtain ⟨h1, h2, h3⟩ := ih (b.union c) (by
        intro d hd
        rcases List.mem_cons.1 hd with rfl | hd
        · exact union_wf hb hc
        · exact hw d (by simp [hd]))
      rw [List.foldl_cons]
      refine ⟨h1, ?_, fun d h => h3 d ?_⟩
      · simp only [List.forall_mem_cons] at h2 ⊢
        exact ⟨(sub_union_left hb hc).trans h2.1, (sub_union_right hb hc).trans h2.1, h2.2⟩
      · simp only [List.forall_mem_cons] at h ⊢
        exact ⟨union_sub hb hc h.1 h.2.1, h.2.2⟩
  obtain ⟨h1, h2, h3⟩ := key bs b hw
  refine ⟨h1, h2, h3, fun c cs hp => ?_⟩
  obtain ⟨k1, k2, k3⟩ := key cs c fun d hd => hw d (hp.mem_iff.2 hd)
  exact Bounds3.same_of_sub h1 k1 (h3 _ fun d hd => k2 d (hp.mem_iff.1 hd)) (k3 _ fun d hd => h2 d (hp.mem_iff.2 hd))

/-- **C104** for integers and exact numbers: the laws are equations. -/
theorem C104_laws_eq [Antisymm T] (a b c : Bounds3 T) (ha : a.WellFormed) (hb : b.WellFormed) (hc : c.WellFormed) :
    a.intersect b = b.intersect a ∧ a.intersect a = a ∧ a.intersect (a.union b) = a ∧
    (a.union (a.intersect b) = a ↔ a.overlaps b = true) ∧
    (a.overlaps b = true → a.overlaps c = true → b.overlaps c = true →
      (a.intersect b).intersect c = a.intersect (b.intersect c)) ∧
    (b.overlaps c = true → a.union (b.intersect c) = (a.union b).intersect (a.union c)) ∧
    (a.overlaps b = true → a.overlaps c = true →
      a.intersect (b.union c) = (a.intersect b).union (a.intersect c)) := by
  obtain ⟨h1, h2, h3⟩ := C104_absorb a b ha hb
  refine ⟨(C104_order a b ha hb).eq, h1.eq, h2.eq, ⟨fun h => h3.1 ?_, fun h => (h3.2 h).eq⟩,
    fun x y z => (C104_assoc a b c ha hb hc x y z).eq, fun x => ((C104_distribute a b c ha hb hc).1 x).eq,
    fun x y => ((C104_distribute a b c ha hb hc).2 x y).eq⟩
  rw [h]
  exact Bounds3.same_of_sub ha ha (.refl _) (.refl _)

/-! ### What does not hold -/

/-- **C104**: boxes that do not overlap pairwise cannot be intersected in any order: the result depends
    on which gap is taken first. -/
theorem C104_assoc_refuted : ¬ ∀ a b c : Bounds3 (I64 true), a.WellFormed → b.WellFormed → c.WellFormed →
    ((a.intersect b).intersect c).Same (a.intersect (b.intersect c)) := by
  intro h
  exact absurd (h ⟨ip 0 0 0, ip 1 1 1⟩ ⟨ip 2 0 0, ip 3 1 1⟩ ⟨ip 5 0 0, ip 6 1 1⟩ (by decide +kernel) (by decide +kernel)
    (by decide +kernel)) (by decide +kernel)

/-- **C104**: unions and common parts do not distribute if the boxes that are intersected do not
    overlap; and a box may overlap the union of two boxes without overlapping one of them. -/
theorem C104_distribute_refuted :
    (¬ ∀ a b c : Bounds3 (I64 true), a.WellFormed → b.WellFormed → c.WellFormed →
      (a.union (b.intersect c)).Same ((a.union b).intersect (a.union c))) ∧
    (¬ ∀ a b c : Bounds3 (I64 true), a.WellFormed → b.WellFormed → c.WellFormed → a.overlaps b = true →
      (a.intersect (b.union c)).Same ((a.intersect b).union (a.intersect c))) ∧
    (¬ ∀ a b c : Bounds3 (I64 true), a.WellFormed → b.WellFormed → c.WellFormed → a.overlaps (b.union c) = true →
      a.overlaps b = true ∨ a.overlaps c = true) := by
  refine ⟨fun h => ?_, fun h => ?_, fun h => ?_⟩
  · exact absurd (h ⟨ip 0 0 0, ip 1 1 1⟩ ⟨ip 3 0 0, ip 4 1 1⟩ ⟨ip 6 0 0, ip 7 1 1⟩ (by decide +kernel) (by decide +kernel)
      (by decide +kernel)) (by decide +kernel)
  · exact absurd (h ⟨ip 0 0 0, ip 3 1 1⟩ ⟨ip 1 0 0, ip 2 1 1⟩ ⟨ip 8 0 0, ip 9 1 1⟩ (by decide +kernel)
      (by decide +kernel) (by decide +kernel) (by decide +kernel)) (by decide +kernel)
  · exact absurd (h ⟨ip 4 0 0, ip 5 1 1⟩ ⟨ip 0 0 0, ip 1 1 1⟩ ⟨ip 8 0 0, ip 9 1 1⟩ (by decide +kernel)
      (by decide +kernel) (by decide +kernel) (by decide +kernel)) (by decide +kernel)

/-! ### Examples -/

/-- Three boxes of floats any two of which overlap, and a fourth far away. -/
example :
    let a : Bounds3 Float32.Model := ⟨fp 0 0 0, fp 4 4 4⟩
    let b : Bounds3 Float32.Model := ⟨fp 1 (-1) 0, fp 6 2 4⟩
    let c : Bounds3 Float32.Model := ⟨fp 3 1 (-2), fp 9 9 1⟩
    let d : Bounds3 Float32.Model := ⟨fp 20 0 0, fp 21 1 1⟩
    a.WellFormed ∧ b.WellFormed ∧ c.WellFormed ∧ d.WellFormed ∧
    ([a, b, c].Pairwise fun x y => x.overlaps y = true) ∧ a.overlaps d = false ∧
    ([b, c].foldl Bounds3.intersect a).Same ⟨fp 3 1 0, fp 4 2 1⟩ ∧
    ([a, c].foldl Bounds3.intersect b).Same ⟨fp 3 1 0, fp 4 2 1⟩ ∧
    ([b, c, d].foldl Bounds3.union a).Same ⟨fp 0 (-1) (-2), fp 21 9 4⟩ := by
  decide +kernel

example :
    let a : Bounds3 (I64 true) := ⟨ip 0 0 0, ip 4 4 4⟩
    let b : Bounds3 (I64 true) := ⟨ip 1 (-1) 0, ip 6 2 4⟩
    let c : Bounds3 (I64 true) := ⟨ip 3 1 (-2), ip 9 9 1⟩
    a.overlaps b = true ∧ a.overlaps c = true ∧ b.overlaps c = true ∧
    (a.union (b.intersect c)).Same ⟨ip 0 0 0, ip 6 4 4⟩ ∧
    (a.intersect (b.union c)).Same ⟨ip 1 0 0, ip 4 4 4⟩ := by
  decide +kernel

end Pbrt
