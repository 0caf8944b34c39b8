import Verif.Proof.Exact
import Verif.Proof.Order
import Verif.Proof.FloatOrder
import Verif.Spec.Samples
import Mathlib.Algebra.BigOperators.Fin
import Mathlib.Algebra.Order.BigOperators.Ring.Finset
import Mathlib.Algebra.Order.Group.MinMax

/-!
# Bounding boxes: properties that need arithmetic (C44, C45, C47, C48)
-/

namespace Pbrt

section
variable {K : Type} [Field K] [LinearOrder K] [IsStrictOrderedRing K]

omit [IsStrictOrderedRing K] in
theorem min2_exact (a b : K) : min2 a b = min a b := by
  rcases min2_cases a b with ⟨h, e⟩ | ⟨h, e⟩ <;> rw [e] <;> simp only [Lt_exact] at h
  · exact (min_eq_right h.le).symm
  · exact (min_eq_left (not_lt.1 h)).symm

omit [IsStrictOrderedRing K] in
theorem max2_exact (a b : K) : max2 a b = max a b := by
  rcases max2_cases a b with ⟨h, e⟩ | ⟨h, e⟩ <;> rw [e] <;> simp only [Lt_exact] at h
  · exact (max_eq_right h.le).symm
  · exact (max_eq_left (not_lt.1 h)).symm

/-! ### C44 -/

omit [IsStrictOrderedRing K] in
/-- What `expand` does on each axis, for any `delta`. -/
theorem expand_get (b : Bounds3 K) (delta : K) : ∃ e, b.expand delta = .ok e ∧
    ∀ i, e.pMin.get i = min (b.pMin.get i - delta) (b.pMax.get i + delta) ∧
      e.pMax.get i = max (b.pMin.get i - delta) (b.pMax.get i + delta) := by
  refine ⟨_, by simp [Bounds3.expand, Point3.subVec, Point3.add]; rfl, fun i => ?_⟩
  rw [new_min, new_max, min2_exact, max2_exact]
  fin_cases i <;> exact ⟨rfl, rfl⟩

theorem expand_nonneg (b : Bounds3 K) (hb : b.WellFormed) (delta : K) (hd : 0 ≤ delta) :
    ∃ e, b.expand delta = .ok e ∧
    ∀ i, e.pMin.get i = b.pMin.get i - delta ∧ e.pMax.get i = b.pMax.get i + delta := by
  obtain ⟨e, h, he⟩ := expand_get b delta
  refine ⟨e, h, fun i => ?_⟩
  have hi : b.pMin.get i ≤ b.pMax.get i := by simpa using hb i
  have hle : b.pMin.get i - delta ≤ b.pMax.get i + delta := by linarith
  rw [(he i).1, (he i).2, min_eq_left hle, max_eq_right hle]
  exact ⟨rfl, rfl⟩

/-- **C44**: expanding by `delta >= 0` gives a well-formed box that contains the box; its points are
    exactly the points within `delta` of a point of the box on every axis. -/
theorem C44_expand (b : Bounds3 K) (hb : b.WellFormed) (delta : K) (hd : 0 ≤ delta) :
    ∃ e, b.expand delta = .ok e ∧ e.WellFormed ∧ b.Sub e ∧
    ∀ p, e.inside p = true ↔ ∃ q, b.inside q = true ∧ ∀ i, |p.get i - q.get i| ≤ delta := by
  obtain ⟨e, h, he⟩ := expand_nonneg b hb delta hd
  have hb' : ∀ i, b.pMin.get i ≤ b.pMax.get i := fun i => by simpa using hb i
  have hw : e.WellFormed := fun i => by
    have := hb' i
    simp only [Le_exact, (he i).1, (he i).2]; linarith
  refine ⟨e, h, hw, ?_, fun p => ?_⟩
  · refine (Bounds3.sub_iff hb).2 fun i => ?_
    simp only [Le_exact, (he i).1, (he i).2]
    constructor <;> linarith
  · simp only [inside_iff, Bounds3.Has, Le_exact, (he _).1, (he _).2]
    constructor
    · intro hp
      refine ⟨.of fun i => max (b.pMin.get i) (min (p.get i) (b.pMax.get i)), fun i => ?_, fun i => ?_⟩
      · rw [Point3.get_of]
        exact ⟨le_max_left _ _, max_le (hb' i) (min_le_right _ _)⟩
      · rw [Point3.get_of, abs_le]
        obtain ⟨h1, h2⟩ := hp i
        rcases le_total (p.get i) (b.pMax.get i) with h3 | h3
        · rw [min_eq_left h3]
          rcases le_total (b.pMin.get i) (p.get i) with h4 | h4
          · rw [max_eq_right h4]; constructor <;> linarith
          · rw [max_eq_left h4]; constructor <;> linarith
        · rw [min_eq_right h3, max_eq_right (hb' i)]; constructor <;> linarith
    · rintro ⟨q, hq, hpq⟩ i
      obtain ⟨h1, h2⟩ := hq i
      obtain ⟨h3, h4⟩ := abs_le.1 (hpq i)
      constructor <;> linarith

example := C44_expand (⟨⟨0, 0, 0⟩, ⟨2, 2, 2⟩⟩ : Bounds3 ℚ) (by decide +kernel) 1 (by norm_num)

/-- **C44**: expanding by more gives a bigger box. -/
theorem C44_expand_mono (b : Bounds3 K) (hb : b.WellFormed) (d d' : K) (hd : 0 ≤ d) (h : d ≤ d')
    (e e' : Bounds3 K) (he : b.expand d = .ok e) (he' : b.expand d' = .ok e') : e.Sub e' := by
  obtain ⟨e1, h1, g1⟩ := expand_nonneg b hb d hd
  obtain ⟨e2, h2, g2⟩ := expand_nonneg b hb d' (hd.trans h)
  obtain rfl : e1 = e := by simpa using h1.symm.trans he
  obtain rfl : e2 = e' := by simpa using h2.symm.trans he'
  intro p hp i
  have := hp i
  simp only [Le_exact, (g1 i).1, (g1 i).2, (g2 i).1, (g2 i).2] at *
  constructor <;> linarith

example := C44_expand_mono (⟨⟨0, 0, 0⟩, ⟨2, 2, 2⟩⟩ : Bounds3 ℚ) (by decide +kernel) 1 2 (by norm_num) (by norm_num)
  ⟨⟨-1, -1, -1⟩, ⟨3, 3, 3⟩⟩ ⟨⟨-2, -2, -2⟩, ⟨4, 4, 4⟩⟩ (by decide +kernel) (by decide +kernel)

/-- **C44**: a bigger box expands to a bigger box. -/
theorem C44_expand_mono_box (b b' : Bounds3 K) (hb : b.WellFormed) (hb' : b'.WellFormed)
    (hs : b.Sub b') (d : K) (hd : 0 ≤ d)
    (e e' : Bounds3 K) (he : b.expand d = .ok e) (he' : b'.expand d = .ok e') : e.Sub e' := by
  obtain ⟨e1, h1, g1⟩ := expand_nonneg b hb d hd
  obtain ⟨e2, h2, g2⟩ := expand_nonneg b' hb' d hd
  obtain rfl : e1 = e := by simpa using h1.symm.trans he
  obtain rfl : e2 = e' := by simpa using h2.symm.trans he'
  rw [Bounds3.sub_iff hb] at hs
  intro p hp i
  have := hp i
  have := hs i
  simp only [Le_exact, (g1 i).1, (g1 i).2, (g2 i).1, (g2 i).2] at *
  constructor <;> linarith

example := C44_expand_mono_box (⟨⟨0, 0, 0⟩, ⟨2, 2, 2⟩⟩ : Bounds3 ℚ) ⟨⟨0, 0, -1⟩, ⟨2, 5, 2⟩⟩ (by decide +kernel)
  (by decide +kernel) ((Bounds3.sub_iff (by decide +kernel)).2 (by decide +kernel)) 1 (by norm_num) ⟨⟨-1, -1, -1⟩, ⟨3, 3, 3⟩⟩ ⟨⟨-1, -1, -2⟩, ⟨3, 6, 3⟩⟩
  (by decide +kernel) (by decide +kernel)

/-- **C44**: expanding by `d` and then by `d'` is expanding by `d + d'`. -/
theorem C44_expand_twice (b : Bounds3 K) (hb : b.WellFormed) (d d' : K) (hd : 0 ≤ d)
    (hd' : 0 ≤ d') : (do (← b.expand d).expand d') = b.expand (d + d') := by
  obtain ⟨e1, h1, g1⟩ := expand_nonneg b hb d hd
  have hw : e1.WellFormed := by
    obtain ⟨e, h, hw, _⟩ := C44_expand b hb d hd
    obtain rfl : e1 = e := by simpa using h1.symm.trans h
    exact hw
  obtain ⟨e2, h2, g2⟩ := expand_nonneg e1 hw d' hd'
  obtain ⟨e3, h3, g3⟩ := expand_nonneg b hb (d + d') (add_nonneg hd hd')
  rw [h1, ok_bind, h2, h3]
  congr 1
  cases e2; cases e3
  simp only [Bounds3.mk.injEq]
  refine ⟨Point3.get_ext fun i => ?_, Point3.get_ext fun i => ?_⟩
  · rw [(g2 i).1, (g1 i).1, (g3 i).1]; ring
  · rw [(g2 i).2, (g1 i).2, (g3 i).2]; ring

example := C44_expand_twice (⟨⟨0, 0, 0⟩, ⟨2, 2, 2⟩⟩ : Bounds3 ℚ) (by decide +kernel) 1 2 (by norm_num) (by norm_num)

omit [IsStrictOrderedRing K] in
/-- A limit of **C44**: shrinking by more than half the side turns the box inside out instead of
    making it empty. -/
theorem C44_shrink_inside_out (b : Bounds3 K) (delta : K) (i : Fin 3)
    (h : b.pMax.get i + delta < b.pMin.get i - delta) (e : Bounds3 K)
    (he : b.expand delta = .ok e) :
    e.pMin.get i = b.pMax.get i + delta ∧ e.pMax.get i = b.pMin.get i - delta := by
  obtain ⟨e1, h1, g1⟩ := expand_get b delta
  obtain rfl : e1 = e := by simpa using h1.symm.trans he
  rw [(g1 i).1, (g1 i).2, min_eq_right h.le, max_eq_left h.le]
  exact ⟨rfl, rfl⟩

example : let b : Bounds3 ℚ := ⟨⟨0, 0, 0⟩, ⟨2, 2, 2⟩⟩
    b.WellFormed ∧ b.expand 1 = .ok ⟨⟨-1, -1, -1⟩, ⟨3, 3, 3⟩⟩ ∧
    b.expand (-3) = .ok ⟨⟨-1, -1, -1⟩, ⟨3, 3, 3⟩⟩ := by decide +kernel

/-! ### C45 -/

/-- The length of a box on an axis -/
def Bounds3.side (b : Bounds3 K) (i : Fin 3) : K := b.pMax.get i - b.pMin.get i

omit [IsStrictOrderedRing K] in
theorem diagonal_exact (b : Bounds3 K) : b.diagonal = .ok ⟨b.side 0, b.side 1, b.side 2⟩ := by
  simp [Bounds3.diagonal, Point3.sub, Bounds3.side, Point3.get]

/-- **C45**: the diagonal of a well-formed box has non-negative components. -/
theorem C45_diagonal (b : Bounds3 K) (hb : b.WellFormed) :
    ∃ d, b.diagonal = .ok d ∧ ∀ i, d.get i = b.pMax.get i - b.pMin.get i ∧ 0 ≤ d.get i := by
  refine ⟨_, diagonal_exact b, fun i => ?_⟩
  have hi : b.pMin.get i ≤ b.pMax.get i := by simpa using hb i
  fin_cases i
  · exact ⟨rfl, sub_nonneg.2 hi⟩
  · exact ⟨rfl, sub_nonneg.2 hi⟩
  · exact ⟨rfl, sub_nonneg.2 hi⟩

example := C45_diagonal (⟨⟨0, 0, 0⟩, ⟨2, 3, 4⟩⟩ : Bounds3 ℚ) (by decide +kernel)

omit [IsStrictOrderedRing K] in
/-- **C45**: the volume is the product of the sides, the surface area the sum of the areas of the
    six faces: two faces orthogonal to every axis, with the product of the other sides. -/
theorem C45_values (b : Bounds3 K) :
    b.volume = .ok (∏ i, b.side i) ∧
    b.surfaceArea = .ok (∑ i, 2 * ∏ j ∈ Finset.univ.erase i, b.side j) := by
  constructor
  · simp [Bounds3.volume, diagonal_exact, Fin.prod_univ_three]
  · have h0 : (Finset.univ.erase (0 : Fin 3)) = {1, 2} := by decide
    have h1 : (Finset.univ.erase (1 : Fin 3)) = {0, 2} := by decide
    have h2 : (Finset.univ.erase (2 : Fin 3)) = {0, 1} := by decide
    simp [Bounds3.surfaceArea, diagonal_exact, Fin.sum_univ_three, h0, h1, h2]
    ring

/-- **C45**: volume and surface area of a well-formed box are not negative. -/
theorem C45_nonneg (b : Bounds3 K) (hb : b.WellFormed) (v s : K) (hv : b.volume = .ok v)
    (hs : b.surfaceArea = .ok s) : 0 ≤ v ∧ 0 ≤ s := by
  have hside : ∀ i, 0 ≤ b.side i := fun i => sub_nonneg.2 (by simpa using hb i)
  rw [(C45_values b).1] at hv
  rw [(C45_values b).2] at hs
  cases hv; cases hs
  exact ⟨Finset.prod_nonneg fun i _ => hside i, Finset.sum_nonneg fun i _ =>
    mul_nonneg (by norm_num) (Finset.prod_nonneg fun j _ => hside j)⟩

example := C45_nonneg (⟨⟨0, 0, 0⟩, ⟨2, 3, 4⟩⟩ : Bounds3 ℚ) (by decide +kernel) 24 52 (by decide +kernel)
  (by decide +kernel)

/-- **C45**: all three measures grow with the box. -/
theorem C45_mono (a b : Bounds3 K) (ha : a.WellFormed) (hs : a.Sub b) (va vb sa sb : K)
    (da db : Vector3 K) (hva : a.volume = .ok va) (hvb : b.volume = .ok vb)
    (hsa : a.surfaceArea = .ok sa) (hsb : b.surfaceArea = .ok sb)
    (hda : a.diagonal = .ok da) (hdb : b.diagonal = .ok db) :
    va ≤ vb ∧ sa ≤ sb ∧ ∀ i, da.get i ≤ db.get i := by
  have hside : ∀ i, 0 ≤ a.side i := fun i => sub_nonneg.2 (by simpa using ha i)
  have hle : ∀ i, a.side i ≤ b.side i := fun i => by
    have := (Bounds3.sub_iff ha).1 hs i
    simp only [Le_exact] at this
    unfold Bounds3.side; linarith
  rw [(C45_values _).1] at hva hvb
  rw [(C45_values _).2] at hsa hsb
  rw [diagonal_exact] at hda hdb
  cases hva; cases hvb; cases hsa; cases hsb; cases hda; cases hdb
  refine ⟨Finset.prod_le_prod (fun i _ => hside i) fun i _ => hle i,
    Finset.sum_le_sum fun i _ => mul_le_mul_of_nonneg_left
      (Finset.prod_le_prod (fun j _ => hside j) fun j _ => hle j) (by norm_num), fun i => ?_⟩
  fin_cases i <;> exact hle _

example : let b : Bounds3 ℚ := ⟨⟨0, 0, 0⟩, ⟨2, 3, 4⟩⟩
    b.WellFormed ∧ b.volume = .ok 24 ∧ b.surfaceArea = .ok 52 := by decide +kernel

/-! ### C47 -/

omit [IsStrictOrderedRing K] in
/-- What `offset` computes on each axis; it always returns. -/
theorem offset_get (b : Bounds3 K) (p : Point3 K) : ∃ o, b.offset p = .ok o ∧
    ∀ i, o.get i = if b.pMin.get i < b.pMax.get i then
      (p.get i - b.pMin.get i) / (b.pMax.get i - b.pMin.get i) else p.get i - b.pMin.get i := by
  have hne : ∀ lo hi : K, lo < hi → hi - lo ≠ 0 := fun lo hi h e => by
    rw [sub_eq_zero] at e; exact absurd h (by rw [e]; exact lt_irrefl _)
  have hdiv : ∀ x lo hi : K, lo < hi → Elem.div x (hi - lo) = .ok (x / (hi - lo)) :=
    fun x lo hi h => div_ok _ (hne lo hi h)
  have key : b.offset p = .ok ⟨
      if b.pMin.x < b.pMax.x then (p.x - b.pMin.x) / (b.pMax.x - b.pMin.x) else p.x - b.pMin.x,
      if b.pMin.y < b.pMax.y then (p.y - b.pMin.y) / (b.pMax.y - b.pMin.y) else p.y - b.pMin.y,
      if b.pMin.z < b.pMax.z then (p.z - b.pMin.z) / (b.pMax.z - b.pMin.z) else p.z - b.pMin.z⟩ := by
    by_cases hx : b.pMin.x < b.pMax.x <;> by_cases hy : b.pMin.y < b.pMax.y <;>
      by_cases hz : b.pMin.z < b.pMax.z <;>
      simp [Bounds3.offset, Point3.sub, hx, hy, hz, hdiv]
  refine ⟨_, key, fun i => ?_⟩
  fin_cases i <;> rfl

omit [IsStrictOrderedRing K] in
/-- **C47**: `offset` never divides by zero, for no box and no point. -/
theorem C47_offset_total (b : Bounds3 K) (p : Point3 K) : ∃ o, b.offset p = .ok o :=
  let ⟨o, h, _⟩ := offset_get b p
  ⟨o, h⟩

/-- **C47**: `offset` maps the lower corner to 0, the upper corner to 1 (on a degenerate axis to 0),
    and the points of the box to the unit cube. -/
theorem C47_offset_range (b : Bounds3 K) :
    b.offset b.pMin = .ok ⟨0, 0, 0⟩ ∧
    ((∀ i, b.pMin.get i < b.pMax.get i) → b.offset b.pMax = .ok ⟨1, 1, 1⟩) ∧
    ∀ p o, b.inside p = true → b.offset p = .ok o → ∀ i, 0 ≤ o.get i ∧ o.get i ≤ 1 := by
  have ext : ∀ {o : Vector3 K} {c : K}, (∀ i, o.get i = c) → o = ⟨c, c, c⟩ := by
    intro o c h; cases o; simp only [Vector3.mk.injEq]; exact ⟨h 0, h 1, h 2⟩
  refine ⟨?_, fun hlt => ?_, fun p o hp ho i => ?_⟩
  · obtain ⟨o, h, g⟩ := offset_get b b.pMin
    rw [h, ext (o := o) (c := 0) fun i => by rw [g i]; simp]
  · obtain ⟨o, h, g⟩ := offset_get b b.pMax
    rw [h, ext (o := o) fun i => by
      rw [g i, if_pos (hlt i)]; exact div_self (sub_ne_zero.2 (hlt i).ne')]
  · obtain ⟨o', h, g⟩ := offset_get b p
    obtain rfl : o' = o := by simpa using h.symm.trans ho
    have hi := (inside_iff _ _).1 hp i
    simp only [Le_exact] at hi
    rw [g i]
    split
    · next hlt =>
      have : 0 < b.pMax.get i - b.pMin.get i := sub_pos.2 hlt
      constructor
      · exact div_nonneg (by linarith) this.le
      · rw [div_le_one this]; linarith
    · next hlt =>
      have := le_of_not_gt hlt
      constructor <;> linarith

example : (⟨⟨0, 1, 2⟩, ⟨2, 5, 3⟩⟩ : Bounds3 ℚ).inside ⟨1, 2, 2⟩ = true ∧
    (⟨⟨0, 1, 2⟩, ⟨2, 5, 3⟩⟩ : Bounds3 ℚ).offset ⟨1, 2, 2⟩ = .ok ⟨1 / 2, 1 / 4, 0⟩ := by decide +kernel

omit [IsStrictOrderedRing K] in
theorem lerp_get (b : Bounds3 K) (t : Point3 K) : ∃ p, b.lerp t = .ok p ∧
    ∀ i, p.get i = (1 - t.get i) * b.pMin.get i + t.get i * b.pMax.get i := by
  refine ⟨_, by simp [Bounds3.lerp, lerp]; rfl, fun i => ?_⟩
  fin_cases i <;> rfl

/-- **C47**: `lerp` undoes `offset`, for every point if the box has non-empty extent, and for the
    points of the box otherwise. -/
theorem C47_lerp_offset (b : Bounds3 K) (p : Point3 K)
    (h : (∀ i, b.pMin.get i < b.pMax.get i) ∨ b.inside p = true) :
    (do b.lerp (Point3.ofVector (← b.offset p))) = .ok p := by
  obtain ⟨o, ho, g⟩ := offset_get b p
  obtain ⟨q, hq, g'⟩ := lerp_get b (Point3.ofVector o)
  rw [ho, ok_bind, hq]
  congr 1
  refine Point3.get_ext fun i => ?_
  have hov : (Point3.ofVector o).get i = o.get i := by fin_cases i <;> rfl
  rw [g' i, hov, g i]
  split
  · next hlt =>
    have : b.pMax.get i - b.pMin.get i ≠ 0 := (sub_pos.2 hlt).ne'
    field_simp
    ring
  · next hlt =>
    rcases h with h | h
    · exact absurd (h i) hlt
    · have hi := (inside_iff _ _).1 h i
      simp only [Le_exact] at hi
      have h1 := le_of_not_gt hlt
      have e1 : b.pMax.get i = b.pMin.get i := le_antisymm h1 (hi.1.trans hi.2)
      have e2 : p.get i = b.pMin.get i := le_antisymm (hi.2.trans h1) hi.1
      rw [e1, e2]; ring

example := C47_lerp_offset (⟨⟨0, 1, 2⟩, ⟨2, 5, 3⟩⟩ : Bounds3 ℚ) ⟨1, 2, 7⟩ (.inl (by decide +kernel))

/-- **C47**: `offset` undoes `lerp` on a box with non-empty extent. -/
theorem C47_offset_lerp (b : Bounds3 K) (t : Point3 K) (h : ∀ i, b.pMin.get i < b.pMax.get i) :
    (do b.offset (← b.lerp t)) = .ok (Vector3.ofPoint t) := by
  obtain ⟨q, hq, g'⟩ := lerp_get b t
  obtain ⟨o, ho, g⟩ := offset_get b q
  rw [hq, ok_bind, ho]
  congr 1
  have : ∀ i, o.get i = t.get i := fun i => by
    have hne : b.pMax.get i - b.pMin.get i ≠ 0 := (sub_pos.2 (h i)).ne'
    rw [g i, if_pos (h i), g' i]
    field_simp
    ring
  cases o
  simp only [Vector3.ofPoint, Vector3.mk.injEq]
  exact ⟨this 0, this 1, this 2⟩

example := C47_offset_lerp (⟨⟨0, 1, 2⟩, ⟨2, 5, 3⟩⟩ : Bounds3 ℚ) ⟨1 / 2, 1 / 4, 9⟩ (by decide +kernel)

omit [IsStrictOrderedRing K] in
/-- **C47**: on a degenerate axis `offset` is the plain difference. -/
theorem C47_degenerate (b : Bounds3 K) (p : Point3 K) (o : Vector3 K) (h : b.offset p = .ok o)
    (i : Fin 3) (hi : b.pMin.get i = b.pMax.get i) : o.get i = p.get i - b.pMin.get i := by
  obtain ⟨o', h', g⟩ := offset_get b p
  obtain rfl : o' = o := by simpa using h'.symm.trans h
  rw [g i, if_neg (by rw [hi]; exact lt_irrefl _)]

example : let b : Bounds3 ℚ := ⟨⟨0, 1, 2⟩, ⟨2, 5, 2⟩⟩
    b.WellFormed ∧ b.offset ⟨1, 2, 7⟩ = .ok ⟨1 / 2, 1 / 4, 5⟩ ∧
    b.lerp ⟨1 / 2, 1 / 4, 9⟩ = .ok ⟨1, 2, 2⟩ ∧ b.inside ⟨1, 2, 2⟩ = true := by decide +kernel
end

/-- **C47**, violated on integers: `i64` boxes too long for the difference of their corners make
    `offset` panic, even without overflow checks (`i64::MIN / -1`). -/
theorem C47_integer_offset_refuted :
    (Bounds3.newInf : Bounds3 (I64 false)).offset ⟨.ofInt 0, .ofInt 0, .ofInt 0⟩ =
      .error .overflow ∧
    (Bounds3.newInf : Bounds3 (I64 true)).offset ⟨.ofInt 0, .ofInt 0, .ofInt 0⟩ =
      .error .overflow := by decide +kernel

/-! ### C48 -/

/-- The square of the distance of two points -/
def sqDist (p q : Point3 ℝ) : ℝ := ∑ i, (p.get i - q.get i) ^ 2

theorem sphere_get (b : Bounds3 ℝ) (hb : b.WellFormed) : ∃ c r, b.boundingSphere = .ok (c, r) ∧
    (∀ i, c.get i = (b.pMin.get i + b.pMax.get i) / 2) ∧ 0 ≤ r ∧ r ^ 2 = sqDist c b.pMax := by
  obtain ⟨c, hc, hcg⟩ : ∃ c : Point3 ℝ, (do
      let sum ← b.pMin.add (Vector3.ofPoint b.pMax)
      sum.div (Elem.fromInt 2)) = .ok c ∧ ∀ i, c.get i = (b.pMin.get i + b.pMax.get i) / 2 := by
    refine ⟨⟨_, _, _⟩, by
      simp only [Point3.add, add_ok, ok_bind, pure_ok, Point3.div, fromInt_cast]
      simp only [div_ok _ (show ((2 : ℤ) : ℝ) ≠ 0 by norm_num), ok_bind]
      rfl, fun i => ?_⟩
    fin_cases i <;> simp [Point3.get, Vector3.ofPoint]
  have hin : b.inside c = true := by
    rw [inside_iff]
    intro i
    have := hb i
    simp only [Le_exact, hcg i] at *
    constructor <;> linarith
  have h0 : 0 ≤ (c.x - b.pMax.x) * (c.x - b.pMax.x) + (c.y - b.pMax.y) * (c.y - b.pMax.y) +
      (c.z - b.pMax.z) * (c.z - b.pMax.z) :=
    add_nonneg (add_nonneg (mul_self_nonneg _) (mul_self_nonneg _)) (mul_self_nonneg _)
  refine ⟨c, Real.sqrt ((c.x - b.pMax.x) * (c.x - b.pMax.x) + (c.y - b.pMax.y) * (c.y - b.pMax.y) +
      (c.z - b.pMax.z) * (c.z - b.pMax.z)), ?_, hcg, Real.sqrt_nonneg _, ?_⟩
  · have : b.boundingSphere = (do
      let center ← (do
        let sum ← b.pMin.add (Vector3.ofPoint b.pMax)
        sum.div (Elem.fromInt 2))
      let radius ←
        if b.inside center then do
          let d ← center.sub b.pMax
          d.len
        else pure (Elem.fromInt 0)
      pure (center, radius)) := by
      simp only [Bounds3.boundingSphere, bind_assoc]
    rw [this, hc, ok_bind, if_pos hin]
    simp only [Point3.sub, sub_ok, ok_bind, pure_ok, Vector3.len, Vector3.lenSq, mul_ok, add_ok]
    have hs := sqrt_ok h0
    exact congrArg (fun o => o >>= fun r => Except.ok (c, r)) hs
  · rw [Real.sq_sqrt h0]
    simp only [sqDist, Fin.sum_univ_three, Point3.get]
    ring

/-- **C48**: the sphere contains the box, and has the smallest radius, among all spheres around
    that centre and among all spheres that contain the box. -/
theorem C48_sphere (b : Bounds3 ℝ) (hb : b.WellFormed) :
    ∃ c r, b.boundingSphere = .ok (c, r) ∧ 0 ≤ r ∧ b.inside c = true ∧
      (∀ p, b.inside p = true → sqDist c p ≤ r ^ 2) ∧
      (∀ c' r', 0 ≤ r' → (∀ p, b.inside p = true → sqDist c' p ≤ r' ^ 2) → r ≤ r') := by
  obtain ⟨c, r, h, hc, hr, hrr⟩ := sphere_get b hb
  have hb' : ∀ i, b.pMin.get i ≤ b.pMax.get i := fun i => by simpa using hb i
  refine ⟨c, r, h, hr, ?_, fun p hp => ?_, fun c' r' hr' hall => ?_⟩
  · rw [inside_iff]
    intro i
    have := hb' i
    simp only [Le_exact, hc i]
    constructor <;> linarith
  · rw [hrr]
    refine Finset.sum_le_sum fun i _ => ?_
    have hi := (inside_iff _ _).1 hp i
    simp only [Le_exact] at hi
    refine sq_le_sq' ?_ ?_ |>.trans (le_of_eq (neg_sq _))
    · rw [hc i]; linarith
    · rw [hc i]; linarith
  · have h1 := hall _ ((inside_iff _ _).2 hb.has_min)
    have h2 := hall _ ((inside_iff _ _).2 hb.has_max)
    refine le_of_sq_le_sq ?_ hr'
    rw [hrr]
    have key : 2 * sqDist c b.pMax ≤ sqDist c' b.pMin + sqDist c' b.pMax := by
      simp only [sqDist, Finset.mul_sum, ← Finset.sum_add_distrib]
      refine Finset.sum_le_sum fun i _ => ?_
      rw [hc i]
      nlinarith [sq_nonneg (c'.get i - (b.pMin.get i + b.pMax.get i) / 2)]
    linarith

example : (⟨⟨0, 0, 0⟩, ⟨2, 4, 4⟩⟩ : Bounds3 ℝ).WellFormed := by
  intro i
  simp only [Le_exact]
  fin_cases i <;> norm_num [Point3.get]

end Pbrt
