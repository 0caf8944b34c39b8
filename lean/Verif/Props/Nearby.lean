import Verif.Spec.Near
import Verif.Props.Measures
import Verif.Props.TripleProducts
import Verif.Props.Length
import Verif.Props.Matrices

/-!
# C111: small changes of the input

If the input moves a little, how far does the result move?
-/

namespace Pbrt

open Spec

section
variable {K : Type} [Field K] [LinearOrder K] [IsStrictOrderedRing K]

variable {e : K}

theorem near_min {a b a' b' : K} (h : |a - a'| ≤ e) (h' : |b - b'| ≤ e) : |min a b - min a' b'| ≤ e :=
  (abs_min_sub_min_le_max a b a' b').trans (max_le h h')

theorem near_max {a b a' b' : K} (h : |a - a'| ≤ e) (h' : |b - b'| ≤ e) : |max a b - max a' b'| ≤ e :=
  (abs_max_sub_max_le_max a b a' b').trans (max_le h h')

/-- **C111**: the box of two points. -/
theorem C111_new (p q p' q' : Point3 K) (hp : Near e p p') (hq : Near e q q') :
    NearBox e (Bounds3.new p q) (Bounds3.new p' q') := by
  refine ⟨fun i => ?_, fun i => ?_⟩
  · rw [new_min, new_min, min2_exact, min2_exact]
    exact near_min (hp i) (hq i)
  · rw [new_max, new_max, max2_exact, max2_exact]
    exact near_max (hp i) (hq i)

/-- **C111**: the union, the union with a point and the common part (or gap) of boxes, well-formed or not. -/
theorem C111_union (a b a' b' : Bounds3 K) (p p' : Point3 K) (ha : NearBox e a a') (hb : NearBox e b b')
    (hp : Near e p p') : NearBox e (a.union b) (a'.union b') ∧ NearBox e (a.unionPt p) (a'.unionPt p') ∧
    NearBox e (a.intersect b) (a'.intersect b') := by
  refine ⟨C111_new _ _ _ _ ?_ ?_, C111_new _ _ _ _ ?_ ?_, C111_new _ _ _ _ ?_ ?_⟩ <;> intro i
  · have h : ∀ a b : Bounds3 K, Point3.get ⟨pminFrom a.pMin.x [b.pMin.x], pminFrom a.pMin.y [b.pMin.y],
        pminFrom a.pMin.z [b.pMin.z]⟩ i = min (a.pMin.get i) (b.pMin.get i) := fun a b => by
      rw [← min2_exact]; fin_cases i <;> rfl
    rw [h, h]
    exact near_min (ha.1 i) (hb.1 i)
  · have h : ∀ a b : Bounds3 K, Point3.get ⟨pmaxFrom a.pMax.x [b.pMax.x], pmaxFrom a.pMax.y [b.pMax.y],
        pmaxFrom a.pMax.z [b.pMax.z]⟩ i = max (a.pMax.get i) (b.pMax.get i) := fun a b => by
      rw [← max2_exact]; fin_cases i <;> rfl
    rw [h, h]
    exact near_max (ha.2 i) (hb.2 i)
  · have h : ∀ (a : Bounds3 K) (p : Point3 K), Point3.get ⟨pminFrom a.pMin.x [p.x], pminFrom a.pMin.y [p.y],
        pminFrom a.pMin.z [p.z]⟩ i = min (a.pMin.get i) (p.get i) := fun a b => by
      rw [← min2_exact]; fin_cases i <;> rfl
    rw [h, h]
    exact near_min (ha.1 i) (hp i)
  · have h : ∀ (a : Bounds3 K) (p : Point3 K), Point3.get ⟨pmaxFrom a.pMax.x [p.x], pmaxFrom a.pMax.y [p.y],
        pmaxFrom a.pMax.z [p.z]⟩ i = max (a.pMax.get i) (p.get i) := fun a b => by
      rw [← max2_exact]; fin_cases i <;> rfl
    rw [h, h]
    exact near_max (ha.2 i) (hp i)
  · have h : ∀ a b : Bounds3 K, Point3.get ⟨pmaxFrom a.pMin.x [b.pMin.x], pmaxFrom a.pMin.y [b.pMin.y],
        pmaxFrom a.pMin.z [b.pMin.z]⟩ i = max (a.pMin.get i) (b.pMin.get i) := fun a b => by
      rw [← max2_exact]; fin_cases i <;> rfl
    rw [h, h]
    exact near_max (ha.1 i) (hb.1 i)
  · have h : ∀ a b : Bounds3 K, Point3.get ⟨pminFrom a.pMax.x [b.pMax.x], pminFrom a.pMax.y [b.pMax.y],
        pminFrom a.pMax.z [b.pMax.z]⟩ i = min (a.pMax.get i) (b.pMax.get i) := fun a b => by
      rw [← min2_exact]; fin_cases i <;> rfl
    rw [h, h]
    exact near_min (ha.2 i) (hb.2 i)

omit [IsStrictOrderedRing K] in
/-- **C111**: every corner. -/
theorem C111_corner (a a' : Bounds3 K) (h : NearBox e a a') (n : Nat) : Near e (a.corner n) (a'.corner n) := by
  intro i
  fin_cases i <;> simp only [Bounds3.corner, Point3.get] <;> split
  exacts [h.1 0, h.2 0, h.1 1, h.2 1, h.1 2, h.2 2]

/-- **C111**: expanded boxes. -/
theorem C111_expand (a a' : Bounds3 K) (h : NearBox e a a') (d d' : K) :
    ∃ x x', a.expand d = .ok x ∧ a'.expand d' = .ok x' ∧ NearBox (e + |d - d'|) x x' := by
  obtain ⟨x, hx, gx⟩ := expand_get a d
  obtain ⟨x', hx', gx'⟩ := expand_get a' d'
  have h1 : ∀ i, |a.pMin.get i - d - (a'.pMin.get i - d')| ≤ e + |d - d'| := fun i => by
    rw [show a.pMin.get i - d - (a'.pMin.get i - d') = (a.pMin.get i - a'.pMin.get i) - (d - d') by ring]
    exact (abs_sub _ _).trans (add_le_add_left (h.1 i) _)
  have h2 : ∀ i, |a.pMax.get i + d - (a'.pMax.get i + d')| ≤ e + |d - d'| := fun i => by
    rw [show a.pMax.get i + d - (a'.pMax.get i + d') = (a.pMax.get i - a'.pMax.get i) + (d - d') by ring]
    exact (abs_add_le _ _).trans (add_le_add_left (h.2 i) _)
  refine ⟨x, x', hx, hx', fun i => ?_, fun i => ?_⟩
  · rw [(gx i).1, (gx' i).1]
    exact near_min (h1 i) (h2 i)
  · rw [(gx i).2, (gx' i).2]
    exact near_max (h1 i) (h2 i)

/-- **C111**: the point of a box at a relative position in `[0, 1]`. -/
theorem C111_lerp (a a' : Bounds3 K) (h : NearBox e a a') (t : Point3 K) (ht : ∀ i, 0 ≤ t.get i ∧ t.get i ≤ 1) :
    ∃ p p', a.lerp t = .ok p ∧ a'.lerp t = .ok p' ∧ Near e p p' := by
  obtain ⟨p, hp, gp⟩ := lerp_get a t
  obtain ⟨p', hp', gp'⟩ := lerp_get a' t
  refine ⟨p, p', hp, hp', fun i => ?_⟩
  have h1 := abs_le.1 (h.1 i)
  have h2 := abs_le.1 (h.2 i)
  obtain ⟨t0, t1⟩ := ht i
  rw [gp, gp', abs_le]
  have t1' : 0 ≤ 1 - t.get i := sub_nonneg.2 t1
  have m1 := mul_le_mul_of_nonneg_left h1.1 t1'
  have m2 := mul_le_mul_of_nonneg_left h1.2 t1'
  have m3 := mul_le_mul_of_nonneg_left h2.1 t0
  have m4 := mul_le_mul_of_nonneg_left h2.2 t0
  constructor <;> linarith

/-- **C111**: if a point is in a box, a near point is in the near box expanded by as much as the two moved: the tests
    change only at the faces. -/
theorem C111_inside (a a' : Bounds3 K) (e' : K) (h : NearBox e a a') (p p' : Point3 K) (hp : Near e' p p')
    (hin : a.inside p = true) : ∃ x, a'.expand (e + e') = .ok x ∧ x.inside p' = true := by
  obtain ⟨x, hx, gx⟩ := expand_get a' (e + e')
  refine ⟨x, hx, (inside_iff _ _).2 fun i => ?_⟩
  have h0 := (inside_iff _ _).1 hin i
  have h1 := abs_le.1 (h.1 i)
  have h2 := abs_le.1 (h.2 i)
  have h3 := abs_le.1 (hp i)
  simp only [Le_exact] at *
  rw [(gx i).1, (gx i).2]
  exact ⟨(min_le_left _ _).trans (by linarith), le_trans (by linarith) (le_max_right _ _)⟩

/-- **C111**: if two boxes overlap, near boxes overlap after one of them is expanded by as much as the two moved. -/
theorem C111_overlaps (a a' b b' : Bounds3 K) (e' : K) (ha : NearBox e a a') (hb : NearBox e' b b')
    (h : a.overlaps b = true) : ∃ x, a'.expand (e + e') = .ok x ∧ x.overlaps b' = true := by
  obtain ⟨x, hx, gx⟩ := expand_get a' (e + e')
  refine ⟨x, hx, (overlaps_iff _ _).2 fun i => ?_⟩
  have h0 := (overlaps_iff _ _).1 h i
  have h1 := abs_le.1 (ha.1 i)
  have h2 := abs_le.1 (ha.2 i)
  have h3 := abs_le.1 (hb.1 i)
  have h4 := abs_le.1 (hb.2 i)
  simp only [Le_exact] at *
  rw [(gx i).1, (gx i).2]
  exact ⟨le_trans (by linarith) (le_max_right _ _), (min_le_left _ _).trans (by linarith)⟩

/-- **C111**: the sides; and `maximum_extent` of the near box names an axis on which the box is longest up to four
    times the change. -/
theorem C111_extent (a a' : Bounds3 K) (h : NearBox e a a') : (∀ i, |a.side i - a'.side i| ≤ 2 * e) ∧
    ∃ k : Fin 3, a'.maximumExtent = .ok k.val ∧ ∀ j, a.side j ≤ a.side k + 4 * e := by
  have hs : ∀ i, |a.side i - a'.side i| ≤ 2 * e := fun i => by
    have h1 := abs_le.1 (h.1 i)
    have h2 := abs_le.1 (h.2 i)
    rw [abs_le, Bounds3.side, Bounds3.side]
    constructor <;> linarith
  refine ⟨hs, ?_⟩
  obtain ⟨k, hk, hm, _⟩ := C46_maximum_extent a' _ (diagonal_exact a') (fun i => by simp [NotNan])
  refine ⟨k, hk, fun j => ?_⟩
  have e1 : ∀ i : Fin 3, Vector3.get ⟨a'.side 0, a'.side 1, a'.side 2⟩ i = a'.side i := fun i => by
    fin_cases i <;> rfl
  have := hm j
  simp only [Le_exact] at this
  have h1 := abs_le.1 (hs j)
  have h2 := abs_le.1 (hs k)
  have h3 : a'.side j ≤ a'.side k := by
    fin_cases j <;> fin_cases k <;> exact this
  linarith

end

/-! ### Lengths and spheres -/

theorem space_sub (u v : Vector3 ℝ) : ∃ w, u.sub v = .ok w ∧ w.space = u.space - v.space := by
  refine ⟨⟨u.x - v.x, u.y - v.y, u.z - v.z⟩, by simp [Vector3.sub], ?_⟩
  ext i; fin_cases i <;> simp [Vector3.space, Vector3.get]

/-- **C111**: lengths differ by at most the length of the difference, inner products with a third vector by at most
    this times its length. -/
theorem C111_len (u v w : Vector3 ℝ) : ∃ lu lv lw ld du dv : ℝ, u.len = .ok lu ∧ v.len = .ok lv ∧ w.len = .ok lw ∧
    (do (← u.sub v).len) = .ok ld ∧ u.dot w = .ok du ∧ v.dot w = .ok dv ∧ |lu - lv| ≤ ld ∧ |du - dv| ≤ ld * lw := by
  obtain ⟨d, hd, hs⟩ := space_sub u v
  refine ⟨_, _, _, _, _, _, (C67_norm u u).1, (C67_norm v v).1, (C67_norm w w).1,
    by rw [hd, ok_bind]; exact (C67_norm d d).1, (C67_norm u w).2, (C67_norm v w).2, ?_, ?_⟩
  · rw [hs]
    exact abs_norm_sub_norm_le _ _
  · rw [hs, ← inner_sub_left]
    exact abs_real_inner_le_norm _ _

theorem unit_near {E : Type*} [NormedAddCommGroup E] [NormedSpace ℝ E] (x y : E) (hx : x ≠ 0) (hy : y ≠ 0) :
    ‖‖x‖⁻¹ • x - ‖y‖⁻¹ • y‖ ≤ 2 * ‖x - y‖ / ‖x‖ := by
  have nx : 0 < ‖x‖ := norm_pos_iff.2 hx
  have ny : 0 < ‖y‖ := norm_pos_iff.2 hy
  have e : ‖x‖⁻¹ • x - ‖y‖⁻¹ • y = ‖x‖⁻¹ • (x - y) + (‖x‖⁻¹ - ‖y‖⁻¹) • y := by
    rw [smul_sub, sub_smul]; abel
  rw [e]
  refine (norm_add_le _ _).trans ?_
  rw [norm_smul, norm_smul, norm_inv, norm_norm, Real.norm_eq_abs]
  have h1 : |‖x‖⁻¹ - ‖y‖⁻¹| * ‖y‖ = |‖y‖ - ‖x‖| / ‖x‖ := by
    rw [inv_sub_inv nx.ne' ny.ne', abs_div, abs_mul, abs_of_pos nx, abs_of_pos ny]
    field_simp
  have h2 : |‖y‖ - ‖x‖| ≤ ‖x - y‖ := by
    rw [abs_sub_comm]
    exact abs_norm_sub_norm_le _ _
  rw [h1, div_eq_mul_inv, div_eq_mul_inv]
  have := mul_le_mul_of_nonneg_right h2 (inv_nonneg.2 nx.le)
  nlinarith

theorem space_ne {v : Vector3 ℝ} (h : v ≠ ⟨0, 0, 0⟩) : v.space ≠ 0 := fun h0 =>
  h (Vector3.space_inj.1 (h0.trans (by ext i; fin_cases i <;> simp [Vector3.space, Vector3.get])))

/-- **C111**: unit vectors differ by at most twice the relative change. -/
theorem C111_unit (u v : Vector3 ℝ) (hu : u ≠ ⟨0, 0, 0⟩) (hv : v ≠ ⟨0, 0, 0⟩) :
    ∃ lu lv ld d : ℝ, ∃ nu nv : Vector3 ℝ, u.len = .ok lu ∧ v.len = .ok lv ∧ (do (← u.sub v).len) = .ok ld ∧
    u.div lu = .ok nu ∧ v.div lv = .ok nv ∧ (do (← nu.sub nv).len) = .ok d ∧ d ≤ 2 * ld / lu := by
  have hu' := space_ne hu
  have hv' := space_ne hv
  obtain ⟨w, hw, ws⟩ := space_sub u v
  obtain ⟨h1, s1⟩ := space_div u _ (norm_ne_zero_iff.2 hu')
  obtain ⟨h2, s2⟩ := space_div v _ (norm_ne_zero_iff.2 hv')
  obtain ⟨nw, hn, ns⟩ := space_sub _ _
  refine ⟨_, _, _, _, _, _, (C67_norm u u).1, (C67_norm v v).1, by rw [hw, ok_bind]; exact (C67_norm w w).1, h1, h2,
    by rw [hn, ok_bind]; exact (C67_norm nw nw).1, ?_⟩
  rw [ns, ws, s1, s2]
  exact unit_near _ _ hu' hv'

/-- **C111**: the bounding sphere: the centre moves by no more than the corners on every axis, the radius by at most
    `sqrt 3` times as much. -/
theorem C111_sphere (a a' : Bounds3 ℝ) (ha : a.WellFormed) (ha' : a'.WellFormed) (e : ℝ) (h : NearBox e a a') :
    ∃ c r c' r', a.boundingSphere = .ok (c, r) ∧ a'.boundingSphere = .ok (c', r') ∧ Near e c c' ∧
    |r - r'| ≤ Real.sqrt 3 * e := by
  obtain ⟨c, r, h1, gc, r0, hr⟩ := sphere_get a ha
  obtain ⟨c', r', h1', gc', r0', hr'⟩ := sphere_get a' ha'
  have e0 : 0 ≤ e := (abs_nonneg _).trans (h.1 0)
  refine ⟨c, r, c', r', h1, h1', fun i => ?_, ?_⟩
  · have h2 := abs_le.1 (h.1 i)
    have h3 := abs_le.1 (h.2 i)
    rw [gc, gc', abs_le]
    constructor <;> linarith
  · have key : ∀ (b : Bounds3 ℝ) (c : Point3 ℝ) (r : ℝ), 0 ≤ r → r ^ 2 = sqDist c b.pMax →
        r = ‖(WithLp.toLp 2 fun i => c.get i - b.pMax.get i : EuclideanSpace ℝ (Fin 3))‖ := by
      intro b c r r0 hr
      rw [space_norm, ← Real.sqrt_sq r0, hr, sqDist, Fin.sum_univ_three]
      simp only [pow_two]
    rw [key a c r r0 hr, key a' c' r' r0' hr']
    refine (abs_norm_sub_norm_le _ _).trans ?_
    rw [← WithLp.toLp_sub, space_norm]
    apply Real.sqrt_le_iff.2
    refine ⟨by positivity, ?_⟩
    have hi : ∀ i, (c.get i - a.pMax.get i - (c'.get i - a'.pMax.get i)) ^ 2 ≤ e ^ 2 := fun i => by
      have h2 := abs_le.1 (h.1 i)
      have h3 := abs_le.1 (h.2 i)
      rw [gc, gc']
      apply sq_le_sq'
      · linarith
      · linarith
    have := hi 0
    have := hi 1
    have := hi 2
    rw [mul_pow, Real.sq_sqrt (by norm_num)]
    simp only [Pi.sub_apply]
    nlinarith

/-! ### Frames -/

theorem frame_of_x (v : Vector3 ℝ) (h : |v.y| < |v.x|) : ∃ v2 v3 : Vector3 ℝ, v.coordinateSystem = .ok (v2, v3) ∧
    v2.space = ‖(⟨-v.z, 0, v.x⟩ : Vector3 ℝ).space‖⁻¹ • (⟨-v.z, 0, v.x⟩ : Vector3 ℝ).space ∧ v.cross v2 = .ok v3 := by
  have hx : v.x ≠ 0 := fun h0 => by rw [h0, abs_zero] at h; exact absurd h (not_lt.2 (abs_nonneg _))
  have hw : (⟨-v.z, 0, v.x⟩ : Vector3 ℝ) ≠ ⟨0, 0, 0⟩ := fun h0 => hx (by simpa using congrArg Vector3.z h0)
  obtain ⟨h1, h2⟩ := space_div _ _ (norm_ne_zero_iff.2 (space_ne hw))
  have hn : ‖(⟨-v.z, 0, v.x⟩ : Vector3 ℝ).space‖ = Real.sqrt (v.x * v.x + v.z * v.z) := by
    rw [Vector3.space, space_norm]
    simp only [Vector3.get]
    congr 1
    ring
  have hs : (FloatFns.sqrt (v.x * v.x + v.z * v.z) : Outcome ℝ) = .ok (Real.sqrt (v.x * v.x + v.z * v.z)) :=
    sqrt_ok (add_nonneg (mul_self_nonneg _) (mul_self_nonneg _))
  rw [hn] at h1 h2 ⊢
  obtain ⟨v3, h3⟩ : ∃ v3, v.cross ⟨-v.z / Real.sqrt (v.x * v.x + v.z * v.z), 0 / Real.sqrt (v.x * v.x + v.z * v.z),
      v.x / Real.sqrt (v.x * v.x + v.z * v.z)⟩ = .ok v3 := ⟨_, by simp [Vector3.cross]; rfl⟩
  refine ⟨_, v3, ?_, h2, h3⟩
  have e0 : (Elem.fromInt 0 : ℝ) = 0 := by simp
  simp only [Vector3.coordinateSystem, abs_ok, ok_bind, Elem.gt, lt_exact, h, decide_true, if_true, neg_ok, mul_ok,
    add_ok, hs, e0, h1, h3, pure_ok]

theorem frame_of_y (v : Vector3 ℝ) (hv : v ≠ ⟨0, 0, 0⟩) (h : |v.x| ≤ |v.y|) : ∃ v2 v3 : Vector3 ℝ,
    v.coordinateSystem = .ok (v2, v3) ∧
    v2.space = ‖(⟨0, v.z, -v.y⟩ : Vector3 ℝ).space‖⁻¹ • (⟨0, v.z, -v.y⟩ : Vector3 ℝ).space ∧ v.cross v2 = .ok v3 := by
  have hw : (⟨0, v.z, -v.y⟩ : Vector3 ℝ) ≠ ⟨0, 0, 0⟩ := fun h0 => by
    simp only [Vector3.mk.injEq, neg_eq_zero, true_and] at h0
    rw [h0.2, abs_zero] at h
    have hx := abs_eq_zero.1 (le_antisymm h (abs_nonneg _))
    exact hv (by cases v; simp_all)
  obtain ⟨h1, h2⟩ := space_div _ _ (norm_ne_zero_iff.2 (space_ne hw))
  have hn : ‖(⟨0, v.z, -v.y⟩ : Vector3 ℝ).space‖ = Real.sqrt (v.y * v.y + v.z * v.z) := by
    rw [Vector3.space, space_norm]
    simp only [Vector3.get]
    congr 1
    ring
  have hs : (FloatFns.sqrt (v.y * v.y + v.z * v.z) : Outcome ℝ) = .ok (Real.sqrt (v.y * v.y + v.z * v.z)) :=
    sqrt_ok (add_nonneg (mul_self_nonneg _) (mul_self_nonneg _))
  rw [hn] at h1 h2 ⊢
  obtain ⟨v3, h3⟩ : ∃ v3, v.cross ⟨0 / Real.sqrt (v.y * v.y + v.z * v.z), v.z / Real.sqrt (v.y * v.y + v.z * v.z),
      -v.y / Real.sqrt (v.y * v.y + v.z * v.z)⟩ = .ok v3 := ⟨_, by simp [Vector3.cross]; rfl⟩
  refine ⟨_, v3, ?_, h2, h3⟩
  have e0 : (Elem.fromInt 0 : ℝ) = 0 := by simp
  simp only [Vector3.coordinateSystem, abs_ok, ok_bind, Elem.gt, lt_exact, not_lt.2 h, decide_false, Bool.false_eq_true,
    if_false, neg_ok, mul_ok, add_ok, hs, e0, h1, h3, pure_ok]

theorem normSq (v : Vector3 ℝ) : ‖v.space‖ ^ 2 = v.x * v.x + v.y * v.y + v.z * v.z := by
  rw [Vector3.space, space_norm]
  exact Real.sq_sqrt (sq_sum_nonneg _ _ _)

theorem cross_norm {a b c : Vector3 ℝ} (h : a.cross b = .ok c) : ‖c.space‖ ≤ ‖a.space‖ * ‖b.space‖ := by
  refine (sq_le_sq₀ (norm_nonneg _) (by positivity)).1 ?_
  rw [mul_pow, normSq, normSq, normSq]
  simp only [Vector3.cross, mul_ok, sub_ok, ok_bind, pure_ok, Except.ok.injEq] at h
  subst h
  have := mul_self_nonneg (a.x * b.x + a.y * b.y + a.z * b.z)
  linarith

/-- The second and third vector of two frames -/
theorem frame_moves (u v w w' v2 v3 v2' v3' : Vector3 ℝ) (hv : ‖v.space‖ = 1) (hw : 1 / 2 ≤ ‖w.space‖ ^ 2) (hw' : w'.space ≠ 0)
    (hd : ‖w.space - w'.space‖ ≤ ‖u.space - v.space‖) (h2 : v2.space = ‖w.space‖⁻¹ • w.space)
    (h2' : v2'.space = ‖w'.space‖⁻¹ • w'.space) (h3 : u.cross v2 = .ok v3) (h3' : v.cross v2' = .ok v3') :
    ‖v2.space - v2'.space‖ ^ 2 ≤ 8 * ‖u.space - v.space‖ ^ 2 ∧
    ‖v3.space - v3'.space‖ ≤ ‖u.space - v.space‖ + ‖v2.space - v2'.space‖ := by
  have w0 : w.space ≠ 0 := fun h0 => by rw [h0, norm_zero] at hw; norm_num at hw
  have n0 : 0 < ‖w.space‖ := norm_pos_iff.2 w0
  constructor
  · rw [h2, h2']
    have h1 := unit_near _ _ w0 hw'
    have h4 : 2 * ‖w.space - w'.space‖ / ‖w.space‖ ≤ 2 * ‖u.space - v.space‖ / ‖w.space‖ := by gcongr
    refine (pow_le_pow_left₀ (norm_nonneg _) (h1.trans h4) 2).trans ?_
    rw [div_pow, div_le_iff₀ (by positivity)]
    nlinarith [sq_nonneg ‖u.space - v.space‖]
  · have n2 : ‖v2.space‖ = 1 := by
      rw [h2, norm_smul, norm_inv, norm_norm, inv_mul_cancel₀ n0.ne']
    obtain ⟨d, hd1, hd2⟩ := space_sub u v
    obtain ⟨k, hk1, hk2⟩ := space_sub v2 v2'
    obtain ⟨x, hx⟩ : ∃ x, d.cross v2 = .ok x := ⟨_, by simp [Vector3.cross]; rfl⟩
    obtain ⟨y, hy⟩ : ∃ y, v.cross k = .ok y := ⟨_, by simp [Vector3.cross]; rfl⟩
    have e : v3.space - v3'.space = x.space + y.space := by
      simp only [Vector3.cross, Vector3.sub, mul_ok, sub_ok, ok_bind, pure_ok, Except.ok.injEq] at h3 h3' hd1 hk1 hx hy
      subst hd1 hk1
      subst h3 h3' hx hy
      ext i
      fin_cases i <;> simp [Vector3.space, Vector3.get] <;> ring
    rw [e, ← hd2, ← hk2]
    refine (norm_add_le _ _).trans (add_le_add ?_ ?_)
    · simpa [n2] using cross_norm hx
    · simpa [hv] using cross_norm hy

theorem len_one {v : Vector3 ℝ} (h : v.lenSq = .ok 1) : v.x * v.x + v.y * v.y + v.z * v.z = 1 := by
  simpa [Vector3.lenSq] using h

/-- **C111**: if the same coordinate decides for two unit vectors, the second vectors of their frames differ by at most
    `sqrt 8` times as much as they do, and the third vectors by at most `1 + sqrt 8` times as much. -/
theorem C111_frame (u v : Vector3 ℝ) (hu : u.lenSq = .ok 1) (hv : v.lenSq = .ok 1)
    (h : |u.y| < |u.x| ∧ |v.y| < |v.x| ∨ |u.x| ≤ |u.y| ∧ |v.x| ≤ |v.y|) :
    ∃ u2 u3 v2 v3 : Vector3 ℝ, ∃ d d2 d3 : ℝ, u.coordinateSystem = .ok (u2, u3) ∧ v.coordinateSystem = .ok (v2, v3) ∧
    (do (← u.sub v).len) = .ok d ∧ (do (← u2.sub v2).len) = .ok d2 ∧ (do (← u3.sub v3).len) = .ok d3 ∧
    d2 ^ 2 ≤ 8 * d ^ 2 ∧ d3 ≤ d + d2 := by
  have su := len_one hu
  have sv := len_one hv
  have nv : ‖v.space‖ = 1 := by
    have := normSq v
    rw [sv] at this
    exact (pow_eq_one_iff_of_nonneg (norm_nonneg _) (by norm_num)).1 this
  have ne : ∀ {w : Vector3 ℝ}, w.x * w.x + w.y * w.y + w.z * w.z = 1 → w ≠ ⟨0, 0, 0⟩ := by
    rintro w h1 rfl
    norm_num at h1
  have fin : ∀ u2 u3 v2 v3 : Vector3 ℝ, u.coordinateSystem = .ok (u2, u3) → v.coordinateSystem = .ok (v2, v3) →
      ‖u2.space - v2.space‖ ^ 2 ≤ 8 * ‖u.space - v.space‖ ^ 2 ∧
      ‖u3.space - v3.space‖ ≤ ‖u.space - v.space‖ + ‖u2.space - v2.space‖ →
      ∃ u2 u3 v2 v3 : Vector3 ℝ, ∃ d d2 d3 : ℝ, u.coordinateSystem = .ok (u2, u3) ∧ v.coordinateSystem = .ok (v2, v3) ∧
      (do (← u.sub v).len) = .ok d ∧ (do (← u2.sub v2).len) = .ok d2 ∧ (do (← u3.sub v3).len) = .ok d3 ∧
      d2 ^ 2 ≤ 8 * d ^ 2 ∧ d3 ≤ d + d2 := by
    intro u2 u3 v2 v3 h1 h2 h3
    have sub : ∀ a b : Vector3 ℝ, (do (← a.sub b).len) = .ok ‖a.space - b.space‖ := fun a b => by
      obtain ⟨w, hw, hs⟩ := space_sub a b
      rw [hw, ok_bind, ← hs]
      exact (C67_norm w w).1
    exact ⟨u2, u3, v2, v3, _, _, _, h1, h2, sub _ _, sub _ _, sub _ _, h3.1, h3.2⟩
  rcases h with ⟨h1, h2⟩ | ⟨h1, h2⟩
  · obtain ⟨u2, u3, a1, a2, a3⟩ := frame_of_x u h1
    obtain ⟨v2, v3, b1, b2, b3⟩ := frame_of_x v h2
    refine fin u2 u3 v2 v3 a1 b1 (frame_moves u v _ _ u2 u3 v2 v3 nv ?_ ?_ ?_ a2 b2 a3 b3)
    · rw [normSq]
      have := sq_lt_sq' (by linarith [abs_nonneg u.y, abs_nonneg u.x]) h1
      rw [sq_abs, sq_abs] at this
      dsimp only
      nlinarith [mul_self_nonneg u.z]
    · refine space_ne fun h0 => ?_
      have h3 := congrArg Vector3.z h0
      dsimp only at h3
      rw [h3, abs_zero] at h2
      exact absurd h2 (not_lt.2 (abs_nonneg _))
    · obtain ⟨p, p1, p2⟩ := space_sub u v
      obtain ⟨q, q1, q2⟩ := space_sub (⟨-u.z, 0, u.x⟩ : Vector3 ℝ) ⟨-v.z, 0, v.x⟩
      rw [← p2, ← q2]
      refine (sq_le_sq₀ (norm_nonneg _) (norm_nonneg _)).1 ?_
      rw [normSq, normSq]
      simp only [Vector3.sub, sub_ok, ok_bind, pure_ok, Except.ok.injEq] at p1 q1
      subst p1 q1
      dsimp only
      nlinarith [mul_self_nonneg (u.y - v.y)]
  · obtain ⟨u2, u3, a1, a2, a3⟩ := frame_of_y u (ne su) h1
    obtain ⟨v2, v3, b1, b2, b3⟩ := frame_of_y v (ne sv) h2
    refine fin u2 u3 v2 v3 a1 b1 (frame_moves u v _ _ u2 u3 v2 v3 nv ?_ ?_ ?_ a2 b2 a3 b3)
    · rw [normSq]
      have := sq_le_sq' (by linarith [abs_nonneg u.y, abs_nonneg u.x]) h1
      rw [sq_abs, sq_abs] at this
      dsimp only
      nlinarith [mul_self_nonneg u.z]
    · refine space_ne fun h0 => ?_
      simp only [Vector3.mk.injEq, neg_eq_zero, true_and] at h0
      rw [h0.2, abs_zero] at h2
      have hx := abs_eq_zero.1 (le_antisymm h2 (abs_nonneg _))
      rw [hx, h0.1, h0.2] at sv
      norm_num at sv
    · obtain ⟨p, p1, p2⟩ := space_sub u v
      obtain ⟨q, q1, q2⟩ := space_sub (⟨0, u.z, -u.y⟩ : Vector3 ℝ) ⟨0, v.z, -v.y⟩
      rw [← p2, ← q2]
      refine (sq_le_sq₀ (norm_nonneg _) (norm_nonneg _)).1 ?_
      rw [normSq, normSq]
      simp only [Vector3.sub, sub_ok, ok_bind, pure_ok, Except.ok.injEq] at p1 q1
      subst p1 q1
      dsimp only
      nlinarith [mul_self_nonneg (u.x - v.x)]

theorem sqrt_near (d : ℝ) (h0 : 0 ≤ 1 / 2 + d) : |Real.sqrt (1 / 2 + d) - Real.sqrt (1 / 2)| ≤ 2 * |d| := by
  have h1 : (1 / 2 : ℝ) ≤ Real.sqrt (1 / 2) := Real.le_sqrt_of_sq_le (by norm_num)
  have h2 := Real.sqrt_nonneg (1 / 2 + d)
  have h3 : (Real.sqrt (1 / 2 + d) - Real.sqrt (1 / 2)) * (Real.sqrt (1 / 2 + d) + Real.sqrt (1 / 2)) = d := by
    have := Real.mul_self_sqrt h0
    have := Real.mul_self_sqrt (show (0 : ℝ) ≤ 1 / 2 by norm_num)
    linarith
  have h4 := congrArg abs h3
  rw [abs_mul, abs_of_nonneg (show 0 ≤ Real.sqrt (1 / 2 + d) + Real.sqrt (1 / 2) by linarith)] at h4
  have h5 := abs_nonneg (Real.sqrt (1 / 2 + d) - Real.sqrt (1 / 2))
  nlinarith

/-- A limit of **C111**: there are unit vectors, as near to one another as one likes, whose frames are turned by half a
    revolution against one another: the second vectors are opposite. -/
theorem C111_frame_refuted (e : ℝ) (he : 0 < e) : ∃ u v u2 u3 v2 v3 : Vector3 ℝ, u.lenSq = .ok 1 ∧ v.lenSq = .ok 1 ∧
    (∀ i, |u.get i - v.get i| ≤ e) ∧ u.coordinateSystem = .ok (u2, u3) ∧ v.coordinateSystem = .ok (v2, v3) ∧
    u2 = ⟨0, 0, -1⟩ ∧ v2 = ⟨0, 0, 1⟩ := by
  obtain ⟨d, d0, d1, d2⟩ : ∃ d : ℝ, 0 < d ∧ d ≤ 1 / 4 ∧ 2 * d ≤ e :=
    ⟨min (1 / 4) (e / 2), lt_min (by norm_num) (by linarith), min_le_left _ _, by linarith [min_le_right (1 / 4 : ℝ) (e / 2)]⟩
  have sq : ∀ x : ℝ, 0 ≤ x → Real.sqrt x * Real.sqrt x = x := fun x h => Real.mul_self_sqrt h
  have p1 : 0 < Real.sqrt (1 / 2) := Real.sqrt_pos.2 (by norm_num)
  have p2 : 0 < Real.sqrt (1 / 2 + d) := Real.sqrt_pos.2 (by linarith)
  have p3 : 0 < Real.sqrt (1 / 2 + -d) := Real.sqrt_pos.2 (by linarith)
  have lt : Real.sqrt (1 / 2 + -d) < Real.sqrt (1 / 2 + d) := Real.sqrt_lt_sqrt (by linarith) (by linarith)
  have hu : (⟨Real.sqrt (1 / 2), Real.sqrt (1 / 2), 0⟩ : Vector3 ℝ) ≠ ⟨0, 0, 0⟩ := fun h => p1.ne' (congrArg Vector3.x h)
  obtain ⟨u2, u3, a1, a2, a3⟩ := frame_of_y ⟨Real.sqrt (1 / 2), Real.sqrt (1 / 2), 0⟩ hu le_rfl
  obtain ⟨v2, v3, b1, b2, b3⟩ := frame_of_x ⟨Real.sqrt (1 / 2 + d), Real.sqrt (1 / 2 + -d), 0⟩
    (by dsimp only; rwa [abs_of_pos p2, abs_of_pos p3])
  refine ⟨_, _, u2, u3, v2, v3, ?_, ?_, ?_, a1, b1, ?_, ?_⟩
  · simp only [Vector3.lenSq, mul_ok, add_ok, ok_bind, Except.ok.injEq]
    linarith [sq (1 / 2) (by norm_num)]
  · simp only [Vector3.lenSq, mul_ok, add_ok, ok_bind, Except.ok.injEq]
    linarith [sq (1 / 2 + d) (by linarith), sq (1 / 2 + -d) (by linarith)]
  · intro i
    have h1 := sqrt_near d (by linarith)
    have h2 := sqrt_near (-d) (by linarith)
    rw [abs_neg, abs_sub_comm] at h2
    rw [abs_sub_comm] at h1
    rw [abs_of_pos d0] at h1 h2
    fin_cases i
    · exact h1.trans d2
    · exact h2.trans d2
    · simpa [Vector3.get] using he.le
  · have n : ‖(⟨0, 0, -Real.sqrt (1 / 2)⟩ : Vector3 ℝ).space‖ = Real.sqrt (1 / 2) := by
      refine (pow_left_inj₀ (norm_nonneg _) p1.le two_ne_zero).1 ?_
      rw [normSq]; ring
    refine Vector3.space_inj.1 (a2.trans ?_)
    rw [n]
    ext i
    fin_cases i <;> simp [Vector3.space, Vector3.get]
  · have n : ‖(⟨-0, 0, Real.sqrt (1 / 2 + d)⟩ : Vector3 ℝ).space‖ = Real.sqrt (1 / 2 + d) := by
      refine (pow_left_inj₀ (norm_nonneg _) p2.le two_ne_zero).1 ?_
      rw [normSq]; ring
    refine Vector3.space_inj.1 (b2.trans ?_)
    rw [n]
    ext i
    fin_cases i
    · simp [Vector3.space, Vector3.get]
    · simp [Vector3.space, Vector3.get]
    · exact inv_mul_cancel₀ p2.ne'

/-! ### Inverse matrices and relative positions -/

section
variable {K : Type} [Field K] [LinearOrder K] [IsStrictOrderedRing K]

/-- **C111**: inverse matrices. -/
theorem C111_inverse (a a' b b' : Matrix4 K) (h : a.inverse = .ok b) (h' : a'.inverse = .ok b') (e : K)
    (he : ∀ i j, |a.mat i j - a'.mat i j| ≤ e) (i j : Fin 4) :
    |b.mat i j - b'.mat i j| ≤ e * (∑ k, |b.mat i k|) * ∑ k, |b'.mat k j| := by
  have conv : ∀ x y : Matrix4 K, x.mul y = .ok (Matrix4.one K) → x.toMatrix * y.toMatrix = 1 := by
    intro x y hxy
    obtain ⟨c, h1, h2⟩ := mul_toMatrix x y
    rw [← h2, show c = Matrix4.one K from Except.ok.inj (h1.symm.trans hxy)]
    exact one_toMatrix
  have h1 := conv _ _ (C30_inverse_exact a b h).1
  have h2 := conv _ _ (C30_inverse_exact a' b' h').2
  have h3 : b.toMatrix - b'.toMatrix = b.toMatrix * (a'.toMatrix - a.toMatrix) * b'.toMatrix := by
    rw [mul_sub, sub_mul, mul_assoc, h2, h1, mul_one, one_mul]
  have h4 := congrFun (congrFun h3 i) j
  rw [Matrix.mul_apply] at h4
  change b.mat i j - b'.mat i j = _ at h4
  rw [h4]
  refine (Finset.abs_sum_le_sum_abs _ _).trans ?_
  rw [Finset.mul_sum]
  refine Finset.sum_le_sum fun l _ => ?_
  rw [abs_mul]
  refine mul_le_mul_of_nonneg_right ?_ (abs_nonneg _)
  rw [Matrix.mul_apply]
  refine (Finset.abs_sum_le_sum_abs _ _).trans ?_
  rw [Finset.mul_sum]
  refine Finset.sum_le_sum fun k _ => ?_
  rw [abs_mul, mul_comm]
  refine mul_le_mul_of_nonneg_right ?_ (abs_nonneg _)
  change |a'.mat k l - a.mat k l| ≤ e
  rw [abs_sub_comm]
  exact he k l

/-- **C111**: the relative position of a point of a box whose sides are not too short. -/
theorem C111_offset (a a' : Bounds3 K) (e s : K) (h : NearBox e a a') (hs : 0 < s) (h1 : ∀ i, 0 < a.side i)
    (h2 : ∀ i, s ≤ a'.side i) (p : Point3 K) (hp : a.inside p = true) :
    ∃ o o', a.offset p = .ok o ∧ a'.offset p = .ok o' ∧ ∀ i, |o.get i - o'.get i| ≤ e / s := by
  obtain ⟨o, ho, go⟩ := offset_get a p
  obtain ⟨o', ho', go'⟩ := offset_get a' p
  refine ⟨o, o', ho, ho', fun i => ?_⟩
  have e0 : 0 ≤ e := (abs_nonneg _).trans (h.1 i)
  have s1 := h1 i
  have s2 := h2 i
  have k1 := abs_le.1 (h.1 i)
  have k2 := abs_le.1 (h.2 i)
  have hin := (inside_iff _ _).1 hp i
  simp only [Le_exact] at hin
  rw [Bounds3.side] at s1 s2
  have s3 : 0 < a'.pMax.get i - a'.pMin.get i := lt_of_lt_of_le hs s2
  rw [go, go', if_pos (sub_pos.1 s1), if_pos (sub_pos.1 s3)]
  set x := (p.get i - a.pMin.get i) / (a.pMax.get i - a.pMin.get i) with hx
  have x0 : 0 ≤ x := div_nonneg (by linarith) s1.le
  have x1 : x ≤ 1 := (div_le_one s1).2 (by linarith)
  have hxm : x * (a.pMax.get i - a.pMin.get i) = p.get i - a.pMin.get i := div_mul_cancel₀ _ s1.ne'
  have key : x - (p.get i - a'.pMin.get i) / (a'.pMax.get i - a'.pMin.get i) =
      ((1 - x) * (a'.pMin.get i - a.pMin.get i) + x * (a'.pMax.get i - a.pMax.get i)) /
        (a'.pMax.get i - a'.pMin.get i) := by
    rw [eq_div_iff s3.ne', sub_mul, div_mul_cancel₀ _ s3.ne']
    linear_combination hxm
  rw [key, abs_div, abs_of_pos s3]
  have num : |(1 - x) * (a'.pMin.get i - a.pMin.get i) + x * (a'.pMax.get i - a.pMax.get i)| ≤ e := by
    have m1 := mul_le_mul_of_nonneg_left k1.1 (sub_nonneg.2 x1)
    have m2 := mul_le_mul_of_nonneg_left k1.2 (sub_nonneg.2 x1)
    have m3 := mul_le_mul_of_nonneg_left k2.1 x0
    have m4 := mul_le_mul_of_nonneg_left k2.2 x0
    rw [abs_le]
    constructor <;> linarith
  exact (div_le_div₀ e0 num hs s2)

/-- A limit of **C111**: if a side of a box shrinks to zero, the relative position of a point outside grows beyond all
    bounds and then jumps back. -/
theorem C111_offset_refuted (e M : K) (he : 0 < e) : ∃ a a' : Bounds3 K, ∃ p o o', NearBox e a a' ∧ a.WellFormed ∧
    a'.WellFormed ∧ a.offset p = .ok o ∧ a'.offset p = .ok o' ∧ o = ⟨1, 0, 0⟩ ∧ M < o'.x := by
  obtain ⟨d, d0, d1, d2⟩ : ∃ d : K, 0 < d ∧ d ≤ e ∧ M < 1 / d := by
    refine ⟨min e (1 / (|M| + 1)), lt_min he (by positivity), min_le_left _ _, ?_⟩
    have hm : 0 < |M| + 1 := by positivity
    have := (le_one_div hm (lt_min he (by positivity))).2 (min_le_right e (1 / (|M| + 1)))
    linarith [le_abs_self M]
  obtain ⟨o, ho, go⟩ := offset_get (⟨⟨0, 0, 0⟩, ⟨0, 0, 0⟩⟩ : Bounds3 K) ⟨1, 0, 0⟩
  obtain ⟨o', ho', go'⟩ := offset_get (⟨⟨0, 0, 0⟩, ⟨d, 0, 0⟩⟩ : Bounds3 K) ⟨1, 0, 0⟩
  refine ⟨_, _, _, o, o', ⟨fun i => ?_, fun i => ?_⟩, fun i => ?_, fun i => ?_, ho, ho', ?_, ?_⟩
  · fin_cases i <;> simpa [Point3.get] using he.le
  · fin_cases i
    · simpa [Point3.get, abs_of_pos d0] using d1
    · simpa [Point3.get] using he.le
    · simpa [Point3.get] using he.le
  · fin_cases i <;> simp [Point3.get]
  · fin_cases i <;> simp [Point3.get, d0.le]
  · have h0 := go 0
    have h1 := go 1
    have h2 := go 2
    simp only [Point3.get, Vector3.get, lt_irrefl, if_false, sub_zero] at h0 h1 h2
    cases o
    simp_all
  · have h0 := go' 0
    simp only [Point3.get, Vector3.get, d0, if_true, sub_zero] at h0
    rw [h0]
    exact d2

end

/-! ### Floats -/

section
variable {T : Type} [Elem T] [As T T] [FloatFns T] [IEEE T]

/-- The real point of a point of floats -/
noncomputable def Point3.real (p : Point3 T) : Point3 ℝ := ⟨val p.x, val p.y, val p.z⟩
/-- The real box of a box of floats -/
noncomputable def Bounds3.real (b : Bounds3 T) : Bounds3 ℝ := ⟨b.pMin.real, b.pMax.real⟩
/-- A point of finite floats -/
def Point3.AllFinite (p : Point3 T) : Prop := ∀ i, IsFinite (p.get i)
/-- A box of finite floats -/
def Bounds3.AllFinite (b : Bounds3 T) : Prop := b.pMin.AllFinite ∧ b.pMax.AllFinite

theorem real_get (p : Point3 T) (i : Fin 3) : p.real.get i = val (p.get i) := by fin_cases i <;> rfl

theorem finite_min2 {a b : T} (ha : IsFinite a) (hb : IsFinite b) :
    IsFinite (min2 a b) ∧ val (min2 a b) = min (val a) (val b) := by
  rcases min2_cases a b with ⟨h, e⟩ | ⟨h, e⟩ <;> rw [e]
  · exact ⟨hb, (min_eq_right ((lt_iff_val hb ha).1 h).le).symm⟩
  · exact ⟨ha, (min_eq_left (not_lt.1 fun h' => h ((lt_iff_val hb ha).2 h'))).symm⟩

theorem finite_max2 {a b : T} (ha : IsFinite a) (hb : IsFinite b) :
    IsFinite (max2 a b) ∧ val (max2 a b) = max (val a) (val b) := by
  rcases max2_cases a b with ⟨h, e⟩ | ⟨h, e⟩ <;> rw [e]
  · exact ⟨hb, (max_eq_right ((lt_iff_val ha hb).1 h).le).symm⟩
  · exact ⟨ha, (max_eq_left (not_lt.1 fun h' => h ((lt_iff_val ha hb).2 h'))).symm⟩

theorem Bounds3.real_ext {a : Bounds3 T} {b : Bounds3 ℝ} (h : ∀ i, val (a.pMin.get i) = b.pMin.get i)
    (h' : ∀ i, val (a.pMax.get i) = b.pMax.get i) : a.real = b := by
  cases b
  simp only [Bounds3.real, Bounds3.mk.injEq]
  exact ⟨Point3.get_ext fun i => (real_get _ i).trans (h i), Point3.get_ext fun i => (real_get _ i).trans (h' i)⟩

/-- **C111**, with floats: boxes of two points, unions and common parts of finite floats are exact. -/
theorem C111_float_exact (p q : Point3 T) (a b : Bounds3 T) (hp : p.AllFinite) (hq : q.AllFinite) (ha : a.AllFinite) (hb : b.AllFinite) :
    (Bounds3.new p q).real = Bounds3.new p.real q.real ∧ (a.unionPt p).real = a.real.unionPt p.real ∧
    (a.union b).real = a.real.union b.real ∧ (a.intersect b).real = a.real.intersect b.real := by
  refine ⟨Bounds3.real_ext ?_ ?_, Bounds3.real_ext ?_ ?_, Bounds3.real_ext ?_ ?_, Bounds3.real_ext ?_ ?_⟩ <;> intro i <;>
    simp only [new_min, new_max, unionPt_min, unionPt_max, union_min, union_max, intersect_min, intersect_max, Bounds3.real,
      real_get, min2_exact, max2_exact]
  · rw [(finite_min2 (hp i) (hq i)).2]
  · rw [(finite_max2 (hp i) (hq i)).2]
  all_goals
    have h1 := finite_min2 (ha.1 i) (hp i)
    have h2 := finite_max2 (ha.2 i) (hp i)
    have h3 := finite_min2 (ha.1 i) (hb.1 i)
    have h4 := finite_max2 (ha.2 i) (hb.2 i)
    have h5 := finite_max2 (ha.1 i) (hb.1 i)
    have h6 := finite_min2 (ha.2 i) (hb.2 i)
  · rw [(finite_min2 h1.1 h2.1).2, h1.2, h2.2]
  · rw [(finite_max2 h1.1 h2.1).2, h1.2, h2.2]
  · rw [(finite_min2 h3.1 h4.1).2, h3.2, h4.2]
  · rw [(finite_max2 h3.1 h4.1).2, h3.2, h4.2]
  · rw [(finite_min2 h5.1 h6.1).2, h5.2, h6.2]
  · rw [(finite_max2 h5.1 h6.1).2, h5.2, h6.2]

/-- **C111**, with floats: they move by no more than their arguments. -/
theorem C111_float_union (p p' : Point3 T) (a b a' b' : Bounds3 T) (hp : p.AllFinite) (hp' : p'.AllFinite) (ha : a.AllFinite) (hb : b.AllFinite)
    (ha' : a'.AllFinite) (hb' : b'.AllFinite) (e : ℝ) (na : NearBox e a.real a'.real) (nb : NearBox e b.real b'.real)
    (np : Near e p.real p'.real) : NearBox e (a.union b).real (a'.union b').real ∧
    NearBox e (a.unionPt p).real (a'.unionPt p').real ∧ NearBox e (a.intersect b).real (a'.intersect b').real := by
  obtain ⟨_, h1, h2, h3⟩ := C111_float_exact p p a b hp hp ha hb
  obtain ⟨_, h1', h2', h3'⟩ := C111_float_exact p' p' a' b' hp' hp' ha' hb'
  rw [h1, h2, h3, h1', h2', h3']
  exact C111_union _ _ _ _ _ _ na nb np

end

/-! ### Concrete cases -/

example : NearBox (1 / 10) (⟨⟨0, 0, 0⟩, ⟨1, 2, 3⟩⟩ : Bounds3 ℚ) ⟨⟨1 / 10, 0, -1 / 20⟩, ⟨1, 21 / 10, 3⟩⟩ :=
  ⟨fun i => by fin_cases i <;> (simp [Point3.get]; try norm_num [abs_le]), fun i => by
    fin_cases i <;> (simp [Point3.get]; try norm_num [abs_le])⟩

/-- The axis may change if two sides are about as long -/
example : (⟨⟨0, 0, 0⟩, ⟨1, 2, 19 / 10⟩⟩ : Bounds3 ℚ).maximumExtent = .ok 1 ∧
    (⟨⟨0, 0, 0⟩, ⟨1, 19 / 10, 2⟩⟩ : Bounds3 ℚ).maximumExtent = .ok 2 := by decide +kernel

/-- A test that changes at a face -/
example : (⟨⟨0, 0, 0⟩, ⟨1, 2, 3⟩⟩ : Bounds3 ℚ).inside ⟨1, 1, 1⟩ = true ∧
    (⟨⟨0, 0, 0⟩, ⟨1, 2, 3⟩⟩ : Bounds3 ℚ).inside ⟨11 / 10, 1, 1⟩ = false := by decide +kernel

example := C111_frame ⟨3 / 5, 0, -4 / 5⟩ ⟨4 / 5, 0, -3 / 5⟩ (by simp [Vector3.lenSq]; norm_num)
  (by simp [Vector3.lenSq]; norm_num) (.inl ⟨by norm_num [abs_of_pos], by norm_num [abs_of_pos]⟩)
example := C111_frame_refuted (1 / 1000) (by norm_num)
example := C111_offset_refuted (1 / 1000 : ℚ) 1000 (by norm_num)

/-- Two matrices with inverses -/
example : ((⟨Mat44.ofRows 2 0 0 0 0 1 0 0 0 0 1 0 0 0 0 1⟩ : Matrix4 ℚ).inverse).map (fun m : Matrix4 ℚ => m.mat 0 0) =
    .ok (1 / 2) ∧ ((⟨Mat44.ofRows (5 / 2) 0 0 0 0 1 0 0 0 0 1 0 0 0 0 1⟩ : Matrix4 ℚ).inverse).map
      (fun m : Matrix4 ℚ => m.mat 0 0) = .ok (2 / 5) := by decide +kernel

/-- A finite box of floats -/
example : (⟨fp 0 0 0, fp 1 2 3⟩ : Bounds3 Float32.Model).AllFinite :=
  ⟨fun i => by fin_cases i <;> decide +kernel, fun i => by fin_cases i <;> decide +kernel⟩

end Pbrt
