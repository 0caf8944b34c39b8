import Verif.Props.Extents
import Verif.Props.Boxes
import Verif.Props.Intersections
import Verif.Spec.Samples
import Mathlib.Tactic.Linarith
import Mathlib.Tactic.LinearCombination

/-!
# C109: surface area and volume of unions, common parts, cut and expanded boxes
-/

namespace Pbrt

section
variable {K : Type} [Field K] [LinearOrder K] [IsStrictOrderedRing K]

omit [IsStrictOrderedRing K] in
theorem volume_sides (b : Bounds3 K) : b.volume = .ok (b.side 0 * b.side 1 * b.side 2) := by
  rw [(C45_values b).1, Fin.prod_univ_three]

omit [IsStrictOrderedRing K] in
theorem area_sides (b : Bounds3 K) : b.surfaceArea =
    .ok (2 * (b.side 0 * b.side 1 + b.side 1 * b.side 2 + b.side 2 * b.side 0)) := by
  simp [Bounds3.surfaceArea, diagonal_exact]
  left
  ring

theorem side_nonneg {b : Bounds3 K} (hb : b.WellFormed) (i : Fin 3) : 0 ≤ b.side i :=
  sub_nonneg.2 (by simpa using hb i)

/-- Lengths of a hull, of a common part or gap, and of two intervals; or products of such lengths -/
structure Hull (h g a b : K) : Prop where
  a0 : 0 ≤ a
  b0 : 0 ≤ b
  g0 : 0 ≤ g
  ha : a ≤ h
  hb : b ≤ h
  meet : a + b ≤ h ∨ a + b ≤ h + g ∧ g ≤ a ∧ g ≤ b

theorem Hull.sum {h g a b : K} (H : Hull h g a b) : a + b ≤ h + g := by
  rcases H.meet with h | h
  · linarith [H.g0]
  · exact h.1

theorem Hull.mul {h g a b h' g' a' b' : K} (H : Hull h g a b) (H' : Hull h' g' a' b') :
    Hull (h * h') (g * g') (a * a') (b * b') where
  a0 := mul_nonneg H.a0 H'.a0
  b0 := mul_nonneg H.b0 H'.b0
  g0 := mul_nonneg H.g0 H'.g0
  ha := mul_le_mul H.ha H'.ha H'.a0 (H.a0.trans H.ha)
  hb := mul_le_mul H.hb H'.hb H'.b0 (H.b0.trans H.hb)
  meet := by
    have n : 0 ≤ h := H.a0.trans H.ha
    have n' : 0 ≤ h' := H'.a0.trans H'.ha
    rcases H.meet with m | ⟨m, ma, mb⟩
    · left
      have := mul_le_mul_of_nonneg_right m n'
      have h1 := mul_le_mul_of_nonneg_left H'.ha H.a0
      have h2 := mul_le_mul_of_nonneg_left H'.hb H.b0
      linarith
    · rcases H'.meet with m' | ⟨m', ma', mb'⟩
      · left
        have := mul_le_mul_of_nonneg_left m' n
        have h1 := mul_le_mul_of_nonneg_right H.ha H'.a0
        have h2 := mul_le_mul_of_nonneg_right H.hb H'.b0
        linarith
      · right
        refine ⟨?_, mul_le_mul ma ma' H'.g0 H.a0, mul_le_mul mb mb' H'.g0 H.b0⟩
        have h1 : (a + b - g) * (a' + b' - g') ≤ h * h' :=
          mul_le_mul (by linarith) (by linarith) (by linarith [H'.a0]) n
        have h2 := mul_nonneg (sub_nonneg.2 ma) (sub_nonneg.2 mb')
        have h3 := mul_nonneg (sub_nonneg.2 mb) (sub_nonneg.2 ma')
        linarith

theorem hull_side {a b : Bounds3 K} (ha : a.WellFormed) (hb : b.WellFormed) (i : Fin 3) :
    Hull ((a.union b).side i) ((a.intersect b).side i) (a.side i) (b.side i) := by
  have h1 : a.pMin.get i ≤ a.pMax.get i := by simpa using ha i
  have h2 : b.pMin.get i ≤ b.pMax.get i := by simpa using hb i
  simp only [Bounds3.side, union_min, union_max, intersect_min, intersect_max, min2_exact, max2_exact]
  generalize a.pMin.get i = l, a.pMax.get i = h, b.pMin.get i = l', b.pMax.get i = h' at *
  have e1 : min l l' ≤ max h h' := (min_le_left _ _).trans (h1.trans (le_max_left _ _))
  rw [min_eq_left e1, max_eq_right e1]
  refine ⟨by linarith, by linarith, sub_nonneg.2 min_le_max, ?_, ?_, ?_⟩
  · linarith [min_le_left l l', le_max_left h h']
  · linarith [min_le_right l l', le_max_right h h']
  · rcases le_total (max l l') (min h h') with e | e
    · right
      rw [min_eq_left e, max_eq_right e]
      refine ⟨?_, by linarith [le_max_left l l', min_le_left h h'], by linarith [le_max_right l l', min_le_right h h']⟩
      linarith [max_add_min h h', max_add_min l l']
    · left
      linarith [max_add_min h h', max_add_min l l']

/-- **C109**: volume and surface area of the union and of the common part (or gap) of two boxes are together
    at least those of the two boxes. -/
theorem C109_union (a b : Bounds3 K) (ha : a.WellFormed) (hb : b.WellFormed) (va vb vu vi sa sb su si : K)
    (hva : a.volume = .ok va) (hvb : b.volume = .ok vb) (hvu : (a.union b).volume = .ok vu)
    (hvi : (a.intersect b).volume = .ok vi) (hsa : a.surfaceArea = .ok sa) (hsb : b.surfaceArea = .ok sb)
    (hsu : (a.union b).surfaceArea = .ok su) (hsi : (a.intersect b).surfaceArea = .ok si) :
    va + vb ≤ vu + vi ∧ sa + sb ≤ su + si := by
  rw [volume_sides] at hva hvb hvu hvi
  rw [area_sides] at hsa hsb hsu hsi
  cases hva; cases hvb; cases hvu; cases hvi; cases hsa; cases hsb; cases hsu; cases hsi
  have H := hull_side ha hb
  have h1 := ((H 0).mul (H 1)).sum
  have h2 := ((H 1).mul (H 2)).sum
  have h3 := ((H 2).mul (H 0)).sum
  exact ⟨(((H 0).mul (H 1)).mul (H 2)).sum, by linarith⟩

/-- **C109**: the sides of the union and of the common part of two boxes that overlap are together as long
    as those of the two boxes. -/
theorem C109_sides (a b : Bounds3 K) (ha : a.WellFormed) (hb : b.WellFormed) (h : a.overlaps b = true) :
    (do (← (a.union b).diagonal).add (← (a.intersect b).diagonal)) =
      (do (← a.diagonal).add (← b.diagonal) : Outcome (Vector3 K)) := by
  have key : ∀ i, (a.union b).side i + (a.intersect b).side i = a.side i + b.side i := by
    intro i
    have h1 : a.pMin.get i ≤ a.pMax.get i := by simpa using ha i
    have h2 : b.pMin.get i ≤ b.pMax.get i := by simpa using hb i
    have h3 := (overlaps_iff a b).1 h i
    simp only [Le_exact] at h3
    simp only [Bounds3.side, union_min, union_max, intersect_min, intersect_max, min2_exact, max2_exact]
    generalize a.pMin.get i = l, a.pMax.get i = h, b.pMin.get i = l', b.pMax.get i = h' at *
    have e1 : min l l' ≤ max h h' := (min_le_left _ _).trans (h1.trans (le_max_left _ _))
    have e : max l l' ≤ min h h' := max_le (le_min h1 h3.2) (le_min h3.1 h2)
    rw [min_eq_left e1, max_eq_right e1, min_eq_left e, max_eq_right e]
    linarith [max_add_min h h', max_add_min l l']
  simp [diagonal_exact, Vector3.add, key]

/-- **C109**: boxes that do not overlap: the volume of the union is at least the sum of their volumes. -/
theorem C109_apart (a b : Bounds3 K) (ha : a.WellFormed) (hb : b.WellFormed) (h : a.overlaps b = false)
    (va vb vu : K) (hva : a.volume = .ok va) (hvb : b.volume = .ok vb) (hvu : (a.union b).volume = .ok vu) :
    va + vb ≤ vu := by
  rw [volume_sides] at hva hvb hvu
  cases hva; cases hvb; cases hvu
  have H := hull_side ha hb
  have A := side_nonneg ha
  have B := side_nonneg hb
  have U : ∀ i, 0 ≤ (a.union b).side i := fun i => (A i).trans (H i).ha
  have key : ∃ i, a.side i + b.side i ≤ (a.union b).side i := by
    by_contra hn
    push Not at hn
    rw [← Bool.not_eq_true, overlaps_iff] at h
    refine h fun i => ?_
    have := hn i
    have h1 : a.pMin.get i ≤ a.pMax.get i := by simpa using ha i
    have h2 : b.pMin.get i ≤ b.pMax.get i := by simpa using hb i
    simp only [Bounds3.side, union_min, union_max, min2_exact, max2_exact] at this
    simp only [Le_exact]
    generalize a.pMin.get i = l, a.pMax.get i = h, b.pMin.get i = l', b.pMax.get i = h' at *
    have e1 : min l l' ≤ max h h' := (min_le_left _ _).trans (h1.trans (le_max_left _ _))
    rw [min_eq_left e1, max_eq_right e1] at this
    constructor <;> by_contra hc <;> push Not at hc
    · linarith [le_max_right h h', min_le_left l l']
    · linarith [le_max_left h h', min_le_right l l']
  have prod : ∀ x y z p q r u v w : K, 0 ≤ x → 0 ≤ y → 0 ≤ z → 0 ≤ p → 0 ≤ q → 0 ≤ r → x ≤ u → p ≤ u → y ≤ v →
      q ≤ v → z + r ≤ w → x * y * z + p * q * r ≤ u * v * w := by
    intro x y z p q r u v w hx hy hz hp hq hr h1 h2 h3 h4 h5
    have e1 := mul_le_mul_of_nonneg_right (mul_le_mul h1 h3 hy (hx.trans h1)) hz
    have e2 := mul_le_mul_of_nonneg_right (mul_le_mul h2 h4 hq (hx.trans h1)) hr
    have e3 := mul_le_mul_of_nonneg_left h5 (mul_nonneg (hx.trans h1) (hy.trans h3))
    linarith
  obtain ⟨i, hi⟩ := key
  fin_cases i
  · change a.side 0 + b.side 0 ≤ (a.union b).side 0 at hi
    have := prod _ _ _ _ _ _ _ _ _ (A 1) (A 2) (A 0) (B 1) (B 2) (B 0) (H 1).ha (H 1).hb (H 2).ha (H 2).hb hi
    linarith
  · change a.side 1 + b.side 1 ≤ (a.union b).side 1 at hi
    have := prod _ _ _ _ _ _ _ _ _ (A 2) (A 0) (A 1) (B 2) (B 0) (B 1) (H 2).ha (H 2).hb (H 0).ha (H 0).hb hi
    linarith
  · exact prod _ _ _ _ _ _ _ _ _ (A 0) (A 1) (A 2) (B 0) (B 1) (B 2) (H 0).ha (H 0).hb (H 1).ha (H 1).hb hi

omit [LinearOrder K] [IsStrictOrderedRing K] in
theorem side_cut (b : Bounds3 K) (i j : Fin 3) (m : K) :
    (⟨b.pMin, b.pMax.with i m⟩ : Bounds3 K).side j = (if j = i then m - b.pMin.get i else b.side j) ∧
    (⟨b.pMin.with i m, b.pMax⟩ : Bounds3 K).side j = (if j = i then b.pMax.get i - m else b.side j) := by
  simp only [Bounds3.side, with_get]
  constructor <;> split <;> simp_all

omit [IsStrictOrderedRing K] in
/-- **C109**: cutting a box at a plane: the volumes of the two parts add up, and the cut is counted twice in
    their surface areas. -/
theorem C109_cut (b : Bounds3 K) (i : Fin 3) (m v w x s t u : K) (hv : b.volume = .ok v)
    (hw : (⟨b.pMin, b.pMax.with i m⟩ : Bounds3 K).volume = .ok w)
    (hx : (⟨b.pMin.with i m, b.pMax⟩ : Bounds3 K).volume = .ok x) (hs : b.surfaceArea = .ok s)
    (ht : (⟨b.pMin, b.pMax.with i m⟩ : Bounds3 K).surfaceArea = .ok t)
    (hu : (⟨b.pMin.with i m, b.pMax⟩ : Bounds3 K).surfaceArea = .ok u) :
    w + x = v ∧ t + u = s + 2 * ∏ j ∈ Finset.univ.erase i, (b.pMax.get j - b.pMin.get j) := by
  rw [volume_sides] at hv hw hx
  rw [area_sides] at hs ht hu
  cases hv; cases hw; cases hx; cases hs; cases ht; cases hu
  have h0 : (Finset.univ.erase (0 : Fin 3)) = {1, 2} := by decide
  have h1 : (Finset.univ.erase (1 : Fin 3)) = {0, 2} := by decide
  have h2 : (Finset.univ.erase (2 : Fin 3)) = {0, 1} := by decide
  simp only [side_cut]
  fin_cases i <;> simp [h0, h1, h2, Bounds3.side] <;> constructor <;> ring

/-- **C109**: how much an expanded box grows. -/
theorem C109_expand (b e : Bounds3 K) (hb : b.WellFormed) (r v w s t : K) (hr : 0 ≤ r) (he : b.expand r = .ok e)
    (hv : b.volume = .ok v) (hw : e.volume = .ok w) (hs : b.surfaceArea = .ok s) (ht : e.surfaceArea = .ok t) :
    w = v + s * r + 4 * (∑ i, (b.pMax.get i - b.pMin.get i)) * r ^ 2 + 8 * r ^ 3 ∧
    t = s + 8 * (∑ i, (b.pMax.get i - b.pMin.get i)) * r + 24 * r ^ 2 := by
  obtain ⟨e', h1, h2⟩ := expand_nonneg b hb r hr
  obtain rfl : e' = e := by simpa using h1.symm.trans he
  have key : ∀ i, e'.side i = b.side i + 2 * r := fun i => by
    rw [Bounds3.side, (h2 i).1, (h2 i).2, Bounds3.side]; ring
  rw [volume_sides] at hv hw
  rw [area_sides] at hs ht
  cases hv; cases hw; cases hs; cases ht
  simp only [key, Fin.sum_univ_three]
  simp only [Bounds3.side]
  constructor <;> ring

/-- Arithmetic and geometric mean of three numbers -/
theorem cube_mean {p q r : K} (hp : 0 ≤ p) (hq : 0 ≤ q) (hr : 0 ≤ r) :
    27 * (p * q * r) ≤ (p + q + r) ^ 3 ∧ (27 * (p * q * r) = (p + q + r) ^ 3 ↔ p = q ∧ q = r) := by
  have e : (p + q + r) ^ 3 - 27 * (p * q * r) =
      (p + q + r) * ((p - q) ^ 2 + (q - r) ^ 2 + (r - p) ^ 2) / 2 +
      3 * (p * (q - r) ^ 2 + q * (r - p) ^ 2 + r * (p - q) ^ 2) := by ring
  have n0 : 0 ≤ p + q + r := by linarith
  have n1 := mul_nonneg hp (sq_nonneg (q - r))
  have n2 := mul_nonneg hq (sq_nonneg (r - p))
  have n3 := mul_nonneg hr (sq_nonneg (p - q))
  have n4 : 0 ≤ (p - q) ^ 2 + (q - r) ^ 2 + (r - p) ^ 2 := by positivity
  have n5 := mul_nonneg n0 n4
  refine ⟨by linarith, fun h => ?_, ?_⟩
  · have : (p + q + r) * ((p - q) ^ 2 + (q - r) ^ 2 + (r - p) ^ 2) = 0 := by linarith
    rcases mul_eq_zero.1 this with h | h
    · constructor <;> linarith
    · have s1 := sq_nonneg (p - q)
      have s2 := sq_nonneg (q - r)
      have s3 := sq_nonneg (r - p)
      have t1 : (p - q) ^ 2 = 0 := by linarith
      have t2 : (q - r) ^ 2 = 0 := by linarith
      exact ⟨sub_eq_zero.1 (pow_eq_zero_iff (two_ne_zero) |>.1 t1), sub_eq_zero.1 (pow_eq_zero_iff (two_ne_zero) |>.1 t2)⟩
  · rintro ⟨rfl, rfl⟩
    ring

/-- **C109**: among the boxes of a given surface area the cube has the largest volume. -/
theorem C109_cube (b : Bounds3 K) (hb : b.WellFormed) (v s : K) (hv : b.volume = .ok v) (hs : b.surfaceArea = .ok s) :
    216 * v ^ 2 ≤ s ^ 3 ∧ (0 < v → (216 * v ^ 2 = s ^ 3 ↔ ∀ i j, b.side i = b.side j)) := by
  rw [volume_sides] at hv
  rw [area_sides] at hs
  cases hv; cases hs
  have n := side_nonneg hb
  obtain ⟨h1, h2⟩ := cube_mean (mul_nonneg (n 0) (n 1)) (mul_nonneg (n 1) (n 2)) (mul_nonneg (n 2) (n 0))
  have e : 216 * (b.side 0 * b.side 1 * b.side 2) ^ 2 =
      8 * (27 * (b.side 0 * b.side 1 * (b.side 1 * b.side 2) * (b.side 2 * b.side 0))) := by ring
  have e' : (2 * (b.side 0 * b.side 1 + b.side 1 * b.side 2 + b.side 2 * b.side 0)) ^ 3 =
      8 * (b.side 0 * b.side 1 + b.side 1 * b.side 2 + b.side 2 * b.side 0) ^ 3 := by ring
  rw [e, e']
  refine ⟨by linarith, fun hp => ?_⟩
  rw [mul_right_inj' (by norm_num : (8 : K) ≠ 0), h2]
  have p0 : b.side 0 ≠ 0 := fun h => by simp [h] at hp
  have p1 : b.side 1 ≠ 0 := fun h => by simp [h] at hp
  have p2 : b.side 2 ≠ 0 := fun h => by simp [h] at hp
  constructor
  · rintro ⟨h3, h4⟩
    have h02 : b.side 0 = b.side 2 := mul_left_cancel₀ p1 (by linarith)
    have h10 : b.side 1 = b.side 0 := mul_left_cancel₀ p2 (by linarith)
    intro i j
    fin_cases i <;> fin_cases j <;> simp [h02, h10]
  · intro h
    rw [h 1 0, h 2 0]
    exact ⟨rfl, rfl⟩

omit [IsStrictOrderedRing K] in
/-- **C109**: surface area and diagonal. -/
theorem C109_diagonal (b : Bounds3 K) (d : Vector3 K) (s l : K) (hd : b.diagonal = .ok d) (hl : d.lenSq = .ok l)
    (hs : b.surfaceArea = .ok s) : s + l = (d.x + d.y + d.z) ^ 2 := by
  rw [diagonal_exact] at hd
  rw [area_sides] at hs
  cases hd; cases hs
  simp [Vector3.lenSq] at hl
  rw [← hl]
  ring

/-- **C109**: so it is at most twice the square of the diagonal. -/
theorem C109_area_le (b : Bounds3 K) (d : Vector3 K) (s l : K) (hd : b.diagonal = .ok d) (hl : d.lenSq = .ok l)
    (hs : b.surfaceArea = .ok s) : s ≤ 2 * l := by
  rw [diagonal_exact] at hd
  rw [area_sides] at hs
  cases hd; cases hs
  simp [Vector3.lenSq] at hl
  rw [← hl]
  nlinarith [sq_nonneg (b.side 0 - b.side 1), sq_nonneg (b.side 1 - b.side 2), sq_nonneg (b.side 2 - b.side 0)]

end

/-! ### Limits and concrete cases -/

/-- A limit of **C109**: for boxes that do not overlap, the surface area of the union may be less than that of one and
    the other together. -/
theorem C109_plates_refuted : ¬ ∀ (a b : Bounds3 ℚ) (sa sb su : ℚ), a.WellFormed → b.WellFormed → a.overlaps b = false →
    a.surfaceArea = .ok sa → b.surfaceArea = .ok sb → (a.union b).surfaceArea = .ok su → sa + sb ≤ su := by
  intro h
  have := h ⟨⟨0, 0, 0⟩, ⟨4, 4, 1⟩⟩ ⟨⟨0, 0, 2⟩, ⟨4, 4, 3⟩⟩ 48 48 80 (by decide +kernel) (by decide +kernel) (by decide +kernel)
    (by decide +kernel) (by decide +kernel) (by decide +kernel)
  norm_num at this

/-- A limit of **C109**: with floats the volumes of two parts of a box may be larger, together, than that of the
    box. -/
theorem C109_float_refuted : ∃ (b : Bounds3 Float32.Model) (v w x s : Float32.Model), b.WellFormed ∧
    Lt (b.pMin.get 0) (f32 3) ∧ Lt (f32 3) (b.pMax.get 0) ∧ b.volume = .ok v ∧
    (⟨b.pMin, b.pMax.with 0 (f32 3)⟩ : Bounds3 Float32.Model).volume = .ok w ∧
    (⟨b.pMin.with 0 (f32 3), b.pMax⟩ : Bounds3 Float32.Model).volume = .ok x ∧ Elem.add w x = .ok s ∧ Lt v s :=
  ⟨⟨fp 0 0 0, fp 4102 4097 1⟩, f32 16805894, f32 12291, f32 16793604, f32 16805896, by decide +kernel, by decide +kernel,
    by decide +kernel, by decide +kernel, by decide +kernel, by decide +kernel, by decide +kernel, by decide +kernel⟩

example := C109_union (⟨⟨0, 0, 0⟩, ⟨2, 2, 2⟩⟩ : Bounds3 ℚ) ⟨⟨1, 1, 1⟩, ⟨3, 3, 4⟩⟩ (by decide +kernel) (by decide +kernel)
  8 12 36 1 24 32 66 6 (by decide +kernel) (by decide +kernel) (by decide +kernel) (by decide +kernel) (by decide +kernel)
  (by decide +kernel) (by decide +kernel) (by decide +kernel)

example := C109_sides (⟨⟨0, 0, 0⟩, ⟨2, 2, 2⟩⟩ : Bounds3 ℚ) ⟨⟨1, 1, 1⟩, ⟨3, 3, 4⟩⟩ (by decide +kernel) (by decide +kernel)
  (by decide +kernel)

example := C109_apart (⟨⟨0, 0, 0⟩, ⟨1, 2, 2⟩⟩ : Bounds3 ℚ) ⟨⟨2, 1, 1⟩, ⟨3, 3, 4⟩⟩ (by decide +kernel) (by decide +kernel)
  (by decide +kernel) 4 6 36 (by decide +kernel) (by decide +kernel) (by decide +kernel)

example := C109_cut (⟨⟨0, 0, 0⟩, ⟨2, 3, 4⟩⟩ : Bounds3 ℚ) 1 1 24 8 16 52 28 40 (by decide +kernel) (by decide +kernel)
  (by decide +kernel) (by decide +kernel) (by decide +kernel) (by decide +kernel)

example := C109_expand (⟨⟨0, 0, 0⟩, ⟨2, 3, 4⟩⟩ : Bounds3 ℚ) ⟨⟨-1, -1, -1⟩, ⟨3, 4, 5⟩⟩ (by decide +kernel) 1 24 120 52 148
  (by decide +kernel) (by decide +kernel) (by decide +kernel) (by decide +kernel) (by decide +kernel) (by decide +kernel)

example := C109_cube (⟨⟨0, 0, 0⟩, ⟨2, 2, 2⟩⟩ : Bounds3 ℚ) (by decide +kernel) 8 24 (by decide +kernel) (by decide +kernel)

example := C109_diagonal (⟨⟨0, 0, 0⟩, ⟨2, 3, 4⟩⟩ : Bounds3 ℚ) ⟨2, 3, 4⟩ 52 29 (by decide +kernel) (by decide +kernel)
  (by decide +kernel)

example := C109_area_le (⟨⟨0, 0, 0⟩, ⟨2, 3, 4⟩⟩ : Bounds3 ℚ) ⟨2, 3, 4⟩ 52 29 (by decide +kernel) (by decide +kernel)
  (by decide +kernel)

end Pbrt
