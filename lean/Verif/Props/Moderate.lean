import Verif.Spec.Moderate
import Verif.Props.SphereRange
import Verif.Props.Interpolation

/-!
# C100: coordinates of moderate size do not overflow
-/

namespace Pbrt

open Spec UnitTests

section
variable {T : Type} [Elem T] [As T T] [FloatFns T] [IEEE T]

local notation "𝔽" => IEEE.fmt T
local notation "ε" => unitRoundoff T
local notation "η" => tiny T
local notation "z" => (Elem.fromInt 0 : T)
local notation "o" => (Elem.fromInt 1 : T)

namespace Spec.Moderate

theorem le {A B : ℝ} {a : T} (h : Moderate A a) (hB : A ≤ B) : Moderate B a := ⟨h.1, h.2.trans hB⟩

theorem nonneg {A : ℝ} {a : T} (h : Moderate A a) : 0 ≤ A := (abs_nonneg _).trans h.2

theorem of_rnd (U : Usual T) {a : T} {x X : ℝ} (h : Elem.isNan a = false ∧ ext a = rnd 𝔽 x) (hx : |x| ≤ X)
    (hX : X ≤ big 𝔽 / 2) : Moderate (1001 / 1000 * X + 1 / 1000) a := by
  have f := rnd_half_big U h (hx.trans hX)
  refine ⟨f, ?_⟩
  rw [val_of_rnd h f]
  have he := RN_error (grid 𝔽) x
  have h1 := U.eps
  have h2 := U.tiny_le
  change |(grid 𝔽).RN x - x| ≤ ε * |x| + η at he
  have t := abs_sub_abs_le_abs_sub ((grid 𝔽).RN x) x
  have := mul_le_mul_of_nonneg_right h1 (abs_nonneg x)
  linarith

theorem neg {A : ℝ} {a : T} (h : Moderate A a) : Moderate A (Pbrt.fneg a) :=
  ⟨fneg_finite h.1, by rw [val_fneg, abs_neg]; exact h.2⟩

theorem abs {A : ℝ} {a : T} (h : Moderate A a) : Moderate A (Pbrt.fabs a) :=
  ⟨fabs_finite h.1, by rw [val_fabs, abs_abs]; exact h.2⟩

theorem add (U : Usual T) {A B X : ℝ} {a b : T} (ha : Moderate A a) (hb : Moderate B b) (h : A + B ≤ X)
    (hX : X ≤ big 𝔽 / 2) : Moderate (1001 / 1000 * X + 1 / 1000) (Pbrt.fadd a b) :=
  of_rnd U (fadd_rnd ha.1 hb.1) (((abs_add_le _ _).trans (add_le_add ha.2 hb.2)).trans h) hX

theorem sub (U : Usual T) {A B X : ℝ} {a b : T} (ha : Moderate A a) (hb : Moderate B b) (h : A + B ≤ X)
    (hX : X ≤ big 𝔽 / 2) : Moderate (1001 / 1000 * X + 1 / 1000) (Pbrt.fsub a b) :=
  of_rnd U (fsub_rnd ha.1 hb.1) (((abs_sub _ _).trans (add_le_add ha.2 hb.2)).trans h) hX

theorem mul (U : Usual T) {A B X : ℝ} {a b : T} (ha : Moderate A a) (hb : Moderate B b) (h : A * B ≤ X)
    (hX : X ≤ big 𝔽 / 2) : Moderate (1001 / 1000 * X + 1 / 1000) (Pbrt.fmul a b) := by
  refine of_rnd U (fmul_rnd ha.1 hb.1) (le_trans ?_ h) hX
  rw [abs_mul]
  exact mul_le_mul ha.2 hb.2 (abs_nonneg _) ha.nonneg

theorem div (U : Usual T) {A B X : ℝ} {a b : T} (ha : Moderate A a) (hb : IsFinite b) (hB : B ≤ |val b|) (hB0 : 0 < B)
    (h : A / B ≤ X) (hX : X ≤ big 𝔽 / 2) : Moderate (1001 / 1000 * X + 1 / 1000) (Pbrt.fdiv a b) := by
  have h0 : val b ≠ 0 := by
    intro h
    rw [h, abs_zero] at hB
    linarith
  refine of_rnd U (fdiv_rnd ha.1 hb h0) (le_trans ?_ h) hX
  rw [abs_div]
  exact div_le_div₀ ha.nonneg ha.2 hB0 hB

end Spec.Moderate

theorem Spec.Ample.usual {M : ℝ} (h : Ample T M) : Usual T := by
  obtain ⟨m, hm, h1⟩ := h.room
  have h2 := (abs_lt.1 (inSpan_lt_big ⟨m, m, hm, hm, le_rfl, le_rfl⟩)).2
  rw [RN_val] at h2
  have h3 : (2 : ℝ) ^ 3 ≤ M ^ 3 := pow_le_pow_left₀ (by norm_num) h.large 3
  exact ⟨h.precise, h.gradual, by linarith⟩

theorem Spec.Ample.bounds {M : ℝ} (h : Ample T M) :
    2 ≤ M ∧ 2 * M ≤ M ^ 2 ∧ 2 * M ^ 2 ≤ M ^ 3 ∧ 16 * M ^ 3 ≤ big 𝔽 / 2 := by
  obtain ⟨m, hm, h1⟩ := h.room
  have h2 := (abs_lt.1 (inSpan_lt_big ⟨m, m, hm, hm, le_rfl, le_rfl⟩)).2
  rw [RN_val] at h2
  have h3 := h.large
  refine ⟨h3, by nlinarith, ?_, by linarith⟩
  have : 0 ≤ (M - 2) * M ^ 2 := mul_nonneg (by linarith) (sq_nonneg _)
  linarith [this, show (M - 2) * M ^ 2 = M ^ 3 - 2 * M ^ 2 by ring]

variable {M : ℝ}

theorem dot3_moderate (h : Ample T M) {a b c x y w : T} (ha : Moderate M a) (hb : Moderate M b) (hc : Moderate M c)
    (hx : Moderate M x) (hy : Moderate M y) (hw : Moderate M w) :
    Moderate (4 * M ^ 2) (fadd (fadd (fmul a x) (fmul b y)) (fmul c w)) := by
  have U := h.usual
  obtain ⟨h1, h2, h3, h4⟩ := h.bounds
  have e : M * M ≤ M ^ 2 := by rw [pow_two]
  have p1 := ha.mul U hx e (by linarith)
  have p2 := hb.mul U hy e (by linarith)
  have p3 := hc.mul U hw e (by linarith)
  have s1 := p1.add U p2 le_rfl (by linarith)
  exact (s1.add U p3 le_rfl (by linarith)).le (by linarith)

theorem cross_moderate (h : Ample T M) {a b x y : T} (ha : Moderate M a) (hb : Moderate M b)
    (hx : Moderate M x) (hy : Moderate M y) : Moderate (3 * M ^ 2) (fsub (fmul a x) (fmul b y)) := by
  have U := h.usual
  obtain ⟨h1, h2, h3, h4⟩ := h.bounds
  have e : M * M ≤ M ^ 2 := by rw [pow_two]
  have p1 := ha.mul U hx e (by linarith)
  have p2 := hb.mul U hy e (by linarith)
  exact (p1.sub U p2 le_rfl (by linarith)).le (by linarith)

/-- What holds of the result of a function that returns vectors, points or numbers -/
theorem sum_moderate (h : Ample T M) {a b : T} (ha : Moderate M a) (hb : Moderate M b) :
    Moderate (3 * M) (fadd a b) ∧ Moderate (3 * M) (fsub a b) := by
  have U := h.usual
  obtain ⟨h1, h2, h3, h4⟩ := h.bounds
  exact ⟨(ha.add U hb le_rfl (by linarith)).le (by linarith), (ha.sub U hb le_rfl (by linarith)).le (by linarith)⟩

theorem prod_moderate (h : Ample T M) {a b : T} (ha : Moderate M a) (hb : Moderate M b) :
    Moderate (2 * M ^ 2) (fmul a b) := by
  have U := h.usual
  obtain ⟨h1, h2, h3, h4⟩ := h.bounds
  exact (ha.mul U hb (X := M ^ 2) (by rw [pow_two]) (by linarith)).le (by linarith)

theorem quot_moderate (h : Ample T M) {a b : T} (ha : Moderate M a) (hb : IsFinite b) (h0 : 1 / M ≤ |val b|) :
    Moderate (2 * M ^ 2) (fdiv a b) := by
  have U := h.usual
  obtain ⟨h1, h2, h3, h4⟩ := h.bounds
  refine (ha.div U hb h0 (by positivity) (X := M ^ 2) ?_ (by linarith)).le (by linarith)
  rw [div_div_eq_mul_div, div_one, pow_two]

theorem lerp_moderate (h : Ample T M) {t a b : T} (ht : Moderate M t) (ha : Moderate M a) (hb : Moderate M b) :
    Moderate (4 * M ^ 2) (fadd (fmul (fsub o t) a) (fmul t b)) := by
  have U := h.usual
  obtain ⟨h1, h2, h3, h4⟩ := h.bounds
  have one : Moderate 1 (Elem.fromInt 1 : T) := ⟨finite_one, by rw [val_one]; norm_num⟩
  have s1 := (one.sub U ht (X := 1 + M) le_rfl (by linarith)).le (B := 1.6 * M) (by linarith)
  have p1 := s1.mul U ha (X := 1.6 * M ^ 2) (by nlinarith) (by linarith)
  have p2 := ht.mul U hb (X := M ^ 2) (by rw [pow_two]) (by linarith)
  exact (p1.add U p2 le_rfl (by linarith)).le (by linarith)

theorem len_moderate (h : Ample T M) {x y w : T} (hx : Moderate (2.1 * M) x) (hy : Moderate (2.1 * M) y)
    (hw : Moderate (2.1 * M) w) : IsFinite (flen x y w) := by
  have U := h.usual
  obtain ⟨h1, h2, h3, h4⟩ := h.bounds
  have sq : ∀ {x : T}, Moderate (2.1 * M) x → val x ^ 2 ≤ 4.41 * M ^ 2 := fun hx => by
    rw [← sq_abs]
    refine (pow_le_pow_left₀ (abs_nonneg _) hx.2 2).trans (le_of_eq ?_)
    ring
  obtain ⟨l, hl, fl⟩ := len_finite U ⟨x, y, w⟩ (fun i => by fin_cases i; exacts [hx.1, hy.1, hw.1]) (by
    rw [Fin.sum_univ_three]
    change val x ^ 2 + val y ^ 2 + val w ^ 2 ≤ _
    have := sq hx
    have := sq hy
    have := sq hw
    linarith)
  rw [flen_vector, Except.ok.injEq] at hl
  rw [← hl] at fl
  exact fl

omit [Elem T] [As T T] [FloatFns T] [IEEE T] in
theorem Vector3.all_get {P : T → Prop} {x y w : T} (h0 : P x) (h1 : P y) (h2 : P w) (i : Fin 3) :
    P ((⟨x, y, w⟩ : Vector3 T).get i) := by
  fin_cases i
  exacts [h0, h1, h2]

omit [Elem T] [As T T] [FloatFns T] [IEEE T] in
theorem Normal3.all_get {P : T → Prop} {x y w : T} (h0 : P x) (h1 : P y) (h2 : P w) (i : Fin 3) :
    P ((⟨x, y, w⟩ : Normal3 T).get i) := by
  fin_cases i
  exacts [h0, h1, h2]

omit [Elem T] [As T T] [FloatFns T] [IEEE T] in
theorem Point3.all_get {P : T → Prop} {x y w : T} (h0 : P x) (h1 : P y) (h2 : P w) (i : Fin 3) :
    P ((⟨x, y, w⟩ : Point3 T).get i) := by
  fin_cases i
  exacts [h0, h1, h2]

section
variable (hM : Ample T M)
include hM

/-- **C100**: vectors with components of moderate size: sums, differences, multiples, dot and cross products and
    lengths are finite. -/
theorem C100_vector (u v : Vector3 T) (s : T) (hu : ∀ i, Moderate M (u.get i)) (hv : ∀ i, Moderate M (v.get i))
    (hs : Moderate M s) :
    (∃ w, u.add v = .ok w ∧ ∀ i, IsFinite (w.get i)) ∧ (∃ w, u.sub v = .ok w ∧ ∀ i, IsFinite (w.get i)) ∧
    (∃ w, u.mul s = .ok w ∧ ∀ i, IsFinite (w.get i)) ∧ (∃ w, u.neg = .ok w ∧ ∀ i, IsFinite (w.get i)) ∧
    (∃ w, u.cross v = .ok w ∧ ∀ i, IsFinite (w.get i)) ∧ (∃ w, u.faceForward v = .ok w ∧ ∀ i, IsFinite (w.get i)) ∧
    (∃ d, u.dot v = .ok d ∧ IsFinite d) ∧ (∃ d, u.lenSq = .ok d ∧ IsFinite d) ∧ ∃ d : T, u.len = .ok d ∧ IsFinite d := by
  have ux : Moderate M u.x := hu 0
  have uy : Moderate M u.y := hu 1
  have uz : Moderate M u.z := hu 2
  have vx : Moderate M v.x := hv 0
  have vy : Moderate M v.y := hv 1
  have vz : Moderate M v.z := hv 2
  have fn : ∃ w, u.neg = .ok w ∧ ∀ i, IsFinite (w.get i) :=
    ⟨⟨fneg u.x, fneg u.y, fneg u.z⟩, by simp only [Vector3.neg, fneg_ok, ok_bind, pure_ok],
      Vector3.all_get ux.neg.1 uy.neg.1 uz.neg.1⟩
  have fd : u.dot v = .ok (fadd (fadd (fmul u.x v.x) (fmul u.y v.y)) (fmul u.z v.z)) := by
    simp only [Vector3.dot, fmul_ok, fadd_ok, ok_bind]
  refine ⟨⟨⟨fadd u.x v.x, fadd u.y v.y, fadd u.z v.z⟩, by simp only [Vector3.add, fadd_ok, ok_bind, pure_ok], ?_⟩,
    ⟨⟨fsub u.x v.x, fsub u.y v.y, fsub u.z v.z⟩, by simp only [Vector3.sub, fsub_ok, ok_bind, pure_ok], ?_⟩,
    ⟨⟨fmul s u.x, fmul s u.y, fmul s u.z⟩, by simp only [Vector3.mul, fmul_ok, ok_bind, pure_ok], ?_⟩, fn,
    ⟨⟨fsub (fmul u.y v.z) (fmul u.z v.y), fsub (fmul u.z v.x) (fmul u.x v.z), fsub (fmul u.x v.y) (fmul u.y v.x)⟩,
      by simp only [Vector3.cross, fmul_ok, fsub_ok, ok_bind, pure_ok], ?_⟩, ?_, ⟨_, fd, ?_⟩,
    ⟨fadd (fadd (fmul u.x u.x) (fmul u.y u.y)) (fmul u.z u.z),
      by simp only [Vector3.lenSq, fmul_ok, fadd_ok, ok_bind], ?_⟩, ⟨_, flen_vector u, ?_⟩⟩
  · exact Vector3.all_get (sum_moderate hM ux vx).1.1 (sum_moderate hM uy vy).1.1 (sum_moderate hM uz vz).1.1
  · exact Vector3.all_get (sum_moderate hM ux vx).2.1 (sum_moderate hM uy vy).2.1 (sum_moderate hM uz vz).2.1
  · exact Vector3.all_get (prod_moderate hM hs ux).1 (prod_moderate hM hs uy).1 (prod_moderate hM hs uz).1
  · exact Vector3.all_get (cross_moderate hM uy uz vz vy).1 (cross_moderate hM uz ux vx vz).1 (cross_moderate hM ux uy vy vx).1
  · obtain ⟨w, hw, hf⟩ := fn
    unfold Vector3.faceForward
    rw [fd, ok_bind]
    split
    · exact ⟨w, hw, hf⟩
    · exact ⟨u, rfl, fun i => (hu i).1⟩
  · exact (dot3_moderate hM ux uy uz vx vy vz).1
  · exact (dot3_moderate hM ux uy uz ux uy uz).1
  · have := hM.bounds
    exact len_moderate hM (ux.le (by linarith)) (uy.le (by linarith)) (uz.le (by linarith))

/-- **C100**: normals with components of moderate size: sums, differences, multiples, dot and cross products and
    lengths are finite. -/
theorem C100_normal (u v : Normal3 T) (s : T) (hu : ∀ i, Moderate M (u.get i)) (hv : ∀ i, Moderate M (v.get i))
    (hs : Moderate M s) :
    (∃ w, u.add v = .ok w ∧ ∀ i, IsFinite (w.get i)) ∧ (∃ w, u.sub v = .ok w ∧ ∀ i, IsFinite (w.get i)) ∧
    (∃ w, u.mul s = .ok w ∧ ∀ i, IsFinite (w.get i)) ∧ (∃ w, u.neg = .ok w ∧ ∀ i, IsFinite (w.get i)) ∧
    (∃ w, u.cross v = .ok w ∧ ∀ i, IsFinite (w.get i)) ∧ (∃ w, u.faceForward v = .ok w ∧ ∀ i, IsFinite (w.get i)) ∧
    (∃ d, u.dot v = .ok d ∧ IsFinite d) ∧ (∃ d, u.lenSq = .ok d ∧ IsFinite d) ∧ ∃ d : T, u.len = .ok d ∧ IsFinite d := by
  have ux : Moderate M u.x := hu 0
  have uy : Moderate M u.y := hu 1
  have uz : Moderate M u.z := hu 2
  have vx : Moderate M v.x := hv 0
  have vy : Moderate M v.y := hv 1
  have vz : Moderate M v.z := hv 2
  have fn : ∃ w, u.neg = .ok w ∧ ∀ i, IsFinite (w.get i) :=
    ⟨⟨fneg u.x, fneg u.y, fneg u.z⟩, by simp only [Normal3.neg, fneg_ok, ok_bind, pure_ok],
      Normal3.all_get ux.neg.1 uy.neg.1 uz.neg.1⟩
  have fd : u.dot v = .ok (fadd (fadd (fmul u.x v.x) (fmul u.y v.y)) (fmul u.z v.z)) := by
    simp only [Normal3.dot, fmul_ok, fadd_ok, ok_bind]
  refine ⟨⟨⟨fadd u.x v.x, fadd u.y v.y, fadd u.z v.z⟩, by simp only [Normal3.add, fadd_ok, ok_bind, pure_ok], ?_⟩,
    ⟨⟨fsub u.x v.x, fsub u.y v.y, fsub u.z v.z⟩, by simp only [Normal3.sub, fsub_ok, ok_bind, pure_ok], ?_⟩,
    ⟨⟨fmul s u.x, fmul s u.y, fmul s u.z⟩, by simp only [Normal3.mul, fmul_ok, ok_bind, pure_ok], ?_⟩, fn,
    ⟨⟨fsub (fmul u.y v.z) (fmul u.z v.y), fsub (fmul u.z v.x) (fmul u.x v.z), fsub (fmul u.x v.y) (fmul u.y v.x)⟩,
      by simp only [Normal3.cross, fmul_ok, fsub_ok, ok_bind, pure_ok], ?_⟩, ?_, ⟨_, fd, ?_⟩,
    ⟨fadd (fadd (fmul u.x u.x) (fmul u.y u.y)) (fmul u.z u.z),
      by simp only [Normal3.lenSq, fmul_ok, fadd_ok, ok_bind], ?_⟩, ⟨_, flen_normal u, ?_⟩⟩
  · exact Normal3.all_get (sum_moderate hM ux vx).1.1 (sum_moderate hM uy vy).1.1 (sum_moderate hM uz vz).1.1
  · exact Normal3.all_get (sum_moderate hM ux vx).2.1 (sum_moderate hM uy vy).2.1 (sum_moderate hM uz vz).2.1
  · exact Normal3.all_get (prod_moderate hM hs ux).1 (prod_moderate hM hs uy).1 (prod_moderate hM hs uz).1
  · exact Normal3.all_get (cross_moderate hM uy uz vz vy).1 (cross_moderate hM uz ux vx vz).1 (cross_moderate hM ux uy vy vx).1
  · obtain ⟨w, hw, hf⟩ := fn
    unfold Normal3.faceForward
    rw [fd, ok_bind]
    split
    · exact ⟨w, hw, hf⟩
    · exact ⟨u, rfl, fun i => (hu i).1⟩
  · exact (dot3_moderate hM ux uy uz vx vy vz).1
  · exact (dot3_moderate hM ux uy uz ux uy uz).1
  · have := hM.bounds
    exact len_moderate hM (ux.le (by linarith)) (uy.le (by linarith)) (uz.le (by linarith))

/-- **C100**: dividing vectors, normals and points of moderate size by a number that is not too small -/
theorem C100_div (v : Vector3 T) (n : Normal3 T) (p : Point3 T) (s : T) (hv : ∀ i, Moderate M (v.get i))
    (hn : ∀ i, Moderate M (n.get i)) (hp : ∀ i, Moderate M (p.get i)) (hs : IsFinite s) (h0 : 1 / M ≤ |val s|) :
    (∃ w, v.div s = .ok w ∧ ∀ i, IsFinite (w.get i)) ∧ (∃ w, n.div s = .ok w ∧ ∀ i, IsFinite (w.get i)) ∧
    ∃ w, p.div s = .ok w ∧ ∀ i, IsFinite (w.get i) := by
  have q : ∀ {a : T}, Moderate M a → IsFinite (fdiv a s) := fun ha => (quot_moderate hM ha hs h0).1
  exact ⟨⟨⟨fdiv v.x s, fdiv v.y s, fdiv v.z s⟩, by simp only [Vector3.div, fdiv_ok, ok_bind, pure_ok],
      Vector3.all_get (q (hv 0)) (q (hv 1)) (q (hv 2))⟩,
    ⟨⟨fdiv n.x s, fdiv n.y s, fdiv n.z s⟩, by simp only [Normal3.div, fdiv_ok, ok_bind, pure_ok],
      Normal3.all_get (q (hn 0)) (q (hn 1)) (q (hn 2))⟩,
    ⟨⟨fdiv p.x s, fdiv p.y s, fdiv p.z s⟩, by simp only [Point3.div, fdiv_ok, ok_bind, pure_ok],
      Point3.all_get (q (hp 0)) (q (hp 1)) (q (hp 2))⟩⟩

/-- **C100**: points with coordinates of moderate size: moving, subtracting, multiplying, and interpolating them, also
    with weights outside of `[0, 1]` -/
theorem C100_point (p q : Point3 T) (v : Vector3 T) (s : T) (hp : ∀ i, Moderate M (p.get i))
    (hq : ∀ i, Moderate M (q.get i)) (hv : ∀ i, Moderate M (v.get i)) (hs : Moderate M s) :
    (∃ w, p.add v = .ok w ∧ ∀ i, IsFinite (w.get i)) ∧ (∃ w, p.subVec v = .ok w ∧ ∀ i, IsFinite (w.get i)) ∧
    (∃ w, p.sub q = .ok w ∧ ∀ i, IsFinite (w.get i)) ∧ (∃ w, p.mul s = .ok w ∧ ∀ i, IsFinite (w.get i)) ∧
    (∃ w, p.abs = .ok w ∧ ∀ i, IsFinite (w.get i)) ∧ ∃ w, Point3.lerp s p q = .ok w ∧ ∀ i, IsFinite (w.get i) := by
  have px : Moderate M p.x := hp 0
  have py : Moderate M p.y := hp 1
  have pz : Moderate M p.z := hp 2
  have qx : Moderate M q.x := hq 0
  have qy : Moderate M q.y := hq 1
  have qz : Moderate M q.z := hq 2
  have vx : Moderate M v.x := hv 0
  have vy : Moderate M v.y := hv 1
  have vz : Moderate M v.z := hv 2
  have lm := fun {a b : T} (ha : Moderate M a) (hb : Moderate M b) => (lerp_moderate hM hs ha hb).1
  refine ⟨⟨⟨fadd p.x v.x, fadd p.y v.y, fadd p.z v.z⟩, by simp only [Point3.add, fadd_ok, ok_bind, pure_ok], ?_⟩,
    ⟨⟨fsub p.x v.x, fsub p.y v.y, fsub p.z v.z⟩, by simp only [Point3.subVec, fsub_ok, ok_bind, pure_ok], ?_⟩,
    ⟨⟨fsub p.x q.x, fsub p.y q.y, fsub p.z q.z⟩, by simp only [Point3.sub, fsub_ok, ok_bind, pure_ok], ?_⟩,
    ⟨⟨fmul s p.x, fmul s p.y, fmul s p.z⟩, by simp only [Point3.mul, fmul_ok, ok_bind, pure_ok], ?_⟩,
    ⟨⟨fabs p.x, fabs p.y, fabs p.z⟩, by simp only [Point3.abs, fabs_ok, ok_bind, pure_ok], ?_⟩,
    ⟨⟨fadd (fmul (fsub o s) p.x) (fmul s q.x), fadd (fmul (fsub o s) p.y) (fmul s q.y),
      fadd (fmul (fsub o s) p.z) (fmul s q.z)⟩, by
        simp only [Point3.lerp, Point3.mul, Point3.add, Vector3.ofPoint, fmul_ok, fsub_ok, fadd_ok, ok_bind, pure_ok], ?_⟩⟩
  · exact Point3.all_get (sum_moderate hM px vx).1.1 (sum_moderate hM py vy).1.1 (sum_moderate hM pz vz).1.1
  · exact Point3.all_get (sum_moderate hM px vx).2.1 (sum_moderate hM py vy).2.1 (sum_moderate hM pz vz).2.1
  · exact Vector3.all_get (sum_moderate hM px qx).2.1 (sum_moderate hM py qy).2.1 (sum_moderate hM pz qz).2.1
  · exact Point3.all_get (prod_moderate hM hs px).1 (prod_moderate hM hs py).1 (prod_moderate hM hs pz).1
  · exact Point3.all_get px.abs.1 py.abs.1 pz.abs.1
  · exact Point3.all_get (lm px qx) (lm py qy) (lm pz qz)

/-- **C100**: boxes with coordinates of moderate size: diagonal, surface area, volume, expanding, interpolation and
    bounding sphere -/
theorem C100_box (b : Bounds3 T) (t : Point3 T) (s : T)
    (hb : ∀ i, Moderate M (b.pMin.get i) ∧ Moderate M (b.pMax.get i)) (ht : ∀ i, Moderate M (t.get i))
    (hs : Moderate M s) :
    (∃ d, b.diagonal = .ok d ∧ ∀ i, IsFinite (d.get i)) ∧ (∃ a, b.surfaceArea = .ok a ∧ IsFinite a) ∧
    (∃ a, b.volume = .ok a ∧ IsFinite a) ∧
    (∃ c, b.expand s = .ok c ∧ ∀ i, IsFinite (c.pMin.get i) ∧ IsFinite (c.pMax.get i)) ∧
    (∃ p, b.lerp t = .ok p ∧ ∀ i, IsFinite (p.get i)) ∧
    ∃ c r, b.boundingSphere = .ok (c, r) ∧ (∀ i, IsFinite (c.get i)) ∧ IsFinite r := by
  have U := hM.usual
  obtain ⟨h1, h2, h3, h4⟩ := hM.bounds
  have lx : Moderate M b.pMin.x := (hb 0).1
  have ly : Moderate M b.pMin.y := (hb 1).1
  have lz : Moderate M b.pMin.z := (hb 2).1
  have gx : Moderate M b.pMax.x := (hb 0).2
  have gy : Moderate M b.pMax.y := (hb 1).2
  have gz : Moderate M b.pMax.z := (hb 2).2
  have side : ∀ {l g : T}, Moderate M l → Moderate M g → Moderate (2.1 * M) (fsub g l) := fun hl hg =>
    (hg.sub U hl le_rfl (by linarith)).le (by linarith)
  have face : ∀ {x y : T}, Moderate (2.1 * M) x → Moderate (2.1 * M) y → Moderate (4.5 * M ^ 2) (fmul x y) :=
    fun hx hy => (hx.mul U hy (X := 4.41 * M ^ 2) (by nlinarith) (by linarith)).le (by linarith)
  have hd : b.diagonal = .ok ⟨fsub b.pMax.x b.pMin.x, fsub b.pMax.y b.pMin.y, fsub b.pMax.z b.pMin.z⟩ := by
    simp only [Bounds3.diagonal, Point3.sub, fsub_ok, ok_bind, pure_ok]
  have sx := side lx gx
  have sy := side ly gy
  have sz := side lz gz
  refine ⟨⟨_, hd, Vector3.all_get sx.1 sy.1 sz.1⟩, ?_, ?_, ?_, ?_, ?_⟩
  · have f1 := face sx sy
    have f2 := face sx sz
    have f3 := face sy sz
    have s1 := f1.add U f2 le_rfl (by linarith)
    have s2 := s1.add U f3 le_rfl (by linarith)
    have two : Moderate 2 (Elem.fromInt 2 : T) := ⟨finite_two, by rw [val_two]; norm_num⟩
    refine ⟨_, ?_, (two.mul U s2 le_rfl (by linarith)).1⟩
    simp only [Bounds3.surfaceArea, hd, fmul_ok, fadd_ok, ok_bind]
  · have f1 := face sx sy
    refine ⟨_, ?_, (f1.mul U sz (X := 10 * M ^ 3) (by nlinarith [pow_pos (by linarith : (0 : ℝ) < M) 3]) (by linarith)).1⟩
    simp only [Bounds3.volume, hd, fmul_ok, ok_bind]
  · have mn : ∀ {x y : T}, IsFinite x → IsFinite y → IsFinite (pminFrom x [y]) := fun hx hy => by
      unfold pminFrom pminFrom
      split <;> assumption
    have mx : ∀ {x y : T}, IsFinite x → IsFinite y → IsFinite (pmaxFrom x [y]) := fun hx hy => by
      unfold pmaxFrom pmaxFrom
      split <;> assumption
    have el := fun {l : T} (hl : Moderate M l) => (sum_moderate hM hl hs).2.1
    have eg := fun {l : T} (hl : Moderate M l) => (sum_moderate hM hl hs).1.1
    refine ⟨_, by simp only [Bounds3.expand, Point3.subVec, Point3.add, fsub_ok, fadd_ok, ok_bind, pure_ok]; rfl,
      fun i => ⟨?_, ?_⟩⟩
    · exact Point3.all_get (mn (el lx) (eg gx)) (mn (el ly) (eg gy)) (mn (el lz) (eg gz)) i
    · exact Point3.all_get (mx (el lx) (eg gx)) (mx (el ly) (eg gy)) (mx (el lz) (eg gz)) i
  · refine ⟨_, ?_, Point3.all_get (lerp_moderate hM (ht 0) lx gx).1 (lerp_moderate hM (ht 1) ly gy).1
      (lerp_moderate hM (ht 2) lz gz).1⟩
    simp only [Bounds3.lerp, Pbrt.lerp, fmul_ok, fsub_ok, fadd_ok, ok_bind, pure_ok]
    rfl
  · obtain ⟨c, r, h⟩ := sphere_defined b
    obtain ⟨g1, g2, g3⟩ := sphere_ok b c r h
    have hc : ∀ i, Moderate (1.05 * M) (c.get i) := fun i => by
      rw [g1 i]
      have hs := ((hb i).1.add U (hb i).2 (X := 2 * M) (by linarith) (by linarith)).le (B := 2.01 * M) (by linarith)
      refine (hs.div U finite_two (B := 2) (X := 1.005 * M) (by rw [val_two]; norm_num) (by norm_num) (by linarith)
        (by linarith)).le (by linarith)
    refine ⟨c, r, h, fun i => (hc i).1, ?_⟩
    by_cases hi : b.Has c
    · have hl := g2 hi
      rw [flen_vector, Except.ok.injEq] at hl
      rw [← hl]
      have hd := fun i => ((hc i).sub U (hb i).2 (X := 2.05 * M) (by linarith) (by linarith)).le (B := 2.1 * M) (by linarith)
      exact len_moderate hM (hd 0) (hd 1) (hd 2)
    · rw [g3 hi]
      exact finite_zero

/-- **C100**: rays -/
theorem C100_ray (r : Ray T) (t : T) (ho : ∀ i, Moderate M (r.o.get i)) (hd : ∀ i, Moderate M (r.d.get i))
    (ht : Moderate M t) : ∃ p, r.at t = .ok p ∧ ∀ i, IsFinite (p.get i) := by
  have U := hM.usual
  obtain ⟨h1, h2, h3, h4⟩ := hM.bounds
  have key : ∀ {a d : T}, Moderate M a → Moderate M d → IsFinite (fadd a (fmul t d)) := fun ha hd =>
    (ha.add U (prod_moderate hM ht hd) le_rfl (by linarith)).1
  exact ⟨⟨fadd r.o.x (fmul t r.d.x), fadd r.o.y (fmul t r.d.y), fadd r.o.z (fmul t r.d.z)⟩,
    by simp only [Ray.at, Vector3.mul, Point3.add, fmul_ok, fadd_ok, ok_bind, pure_ok],
    Point3.all_get (key (ho 0) (hd 0)) (key (ho 1) (hd 1)) (key (ho 2) (hd 2))⟩

/-- **C100**: ray differentials -/
theorem C100_differentials (r : RayDifferential T) (s : T) (ho : ∀ i, Moderate M (r.ray.o.get i))
    (hd : ∀ i, Moderate M (r.ray.d.get i))
    (hx : ∀ i, Moderate M (r.rxOrigin.get i) ∧ Moderate M (r.rxDirection.get i))
    (hy : ∀ i, Moderate M (r.ryOrigin.get i) ∧ Moderate M (r.ryDirection.get i)) (hs : Moderate M s) :
    ∃ q, r.scaleDifferentials s = .ok q ∧ ∀ i, IsFinite (q.rxOrigin.get i) ∧ IsFinite (q.ryOrigin.get i) ∧
      IsFinite (q.rxDirection.get i) ∧ IsFinite (q.ryDirection.get i) := by
  have U := hM.usual
  obtain ⟨h1, h2, h3, h4⟩ := hM.bounds
  have key : ∀ {a x : T}, Moderate M a → Moderate M x → IsFinite (fadd a (fmul s (fsub x a))) := fun ha hx => by
    have s1 := (hx.sub U ha (X := 2 * M) (by linarith) (by linarith)).le (B := 2.1 * M) (by linarith)
    have p1 := hs.mul U s1 (X := 2.1 * M ^ 2) (by nlinarith) (by linarith)
    exact (ha.add U p1 le_rfl (by linarith)).1
  refine ⟨_, by simp only [RayDifferential.scaleDifferentials, Point3.sub, Vector3.sub, Vector3.mul, Vector3.add, Point3.add,
    fsub_ok, fmul_ok, fadd_ok, ok_bind, pure_ok]; rfl, fun i => ⟨?_, ?_, ?_, ?_⟩⟩
  · exact Point3.all_get (key (ho 0) (hx 0).1) (key (ho 1) (hx 1).1) (key (ho 2) (hx 2).1) i
  · exact Point3.all_get (key (ho 0) (hy 0).1) (key (ho 1) (hy 1).1) (key (ho 2) (hy 2).1) i
  · exact Vector3.all_get (key (hd 0) (hx 0).2) (key (hd 1) (hx 1).2) (key (hd 2) (hx 2).2) i
  · exact Vector3.all_get (key (hd 0) (hy 0).2) (key (hd 1) (hy 1).2) (key (hd 2) (hy 2).2) i

/-- **C100**: transforming vectors, and products and sums of matrices -/
theorem C100_matrix (a b : Matrix4 T) (v : Vector3 T) (ha : ∀ i j, Moderate M (a.mat i j))
    (hb : ∀ i j, Moderate M (b.mat i j)) (hv : ∀ i, Moderate M (v.get i)) :
    (∃ c, a.mul b = .ok c ∧ ∀ i j, IsFinite (c.mat i j)) ∧ (∃ c, a.add b = .ok c ∧ ∀ i j, IsFinite (c.mat i j)) ∧
    ∃ w, v.transform ⟨a, b⟩ = .ok w ∧ ∀ i, IsFinite (w.get i) := by
  have U := hM.usual
  obtain ⟨h1, h2, h3, h4⟩ := hM.bounds
  refine ⟨⟨_, fmul_mat a b, fun i j => ?_⟩, ⟨⟨fun r c => fadd (a.mat r c) (b.mat r c)⟩, ?_, fun i j => ?_⟩, ?_⟩
  · have z0 : Moderate 0 z := ⟨finite_zero, by rw [val_zero, abs_zero]⟩
    have p := fun n => prod_moderate hM (ha i n) (hb n j)
    have s1 := z0.add U (p 0) le_rfl (by linarith)
    have s2 := s1.add U (p 1) le_rfl (by linarith)
    have s3 := s2.add U (p 2) le_rfl (by linarith)
    exact (s3.add U (p 3) le_rfl (by linarith)).1
  · unfold Matrix4.add
    rw [fill_iff.2 fun r c => fadd_ok (a.mat r c) (b.mat r c)]
    rfl
  · exact (sum_moderate hM (ha i j) (hb i j)).1.1
  · refine ⟨_, by simp only [Vector3.transform, IEEE.as_eq, fmul_ok, fadd_ok, ok_bind, pure_ok]; rfl,
      Vector3.all_get ?_ ?_ ?_⟩
    · exact (dot3_moderate hM (ha 0 0) (ha 0 1) (ha 0 2) (hv 0) (hv 1) (hv 2)).1
    · exact (dot3_moderate hM (ha 1 0) (ha 1 1) (ha 1 2) (hv 0) (hv 1) (hv 2)).1
    · exact (dot3_moderate hM (ha 2 0) (ha 2 1) (ha 2 2) (hv 0) (hv 1) (hv 2)).1

end
end

/-- **C100**: moderate means up to `2 ^ 40` for `f32`, and up to `2 ^ 339` for `f64`. -/
theorem C100_ample : Ample Float32.Model (2 ^ 40) ∧ Ample Float.Model (2 ^ 339) := by
  refine ⟨⟨by norm_num, ⟨f32 (2 ^ 125), by decide +kernel, ?_⟩, usual32.eps, usual32.tiny⟩,
    ⟨le_self_pow₀ (by norm_num) (by norm_num), ⟨(Elem.fromInt (2 ^ 1022) : Float.Model), by decide +kernel, ?_⟩, usual64.eps, usual64.tiny⟩⟩
  · rw [val_eq, show ratVal (up (f32 (2 ^ 125))) = 2 ^ 125 by decide +kernel]
    norm_num
  · rw [val_eq, show ratVal (up ((Elem.fromInt (2 ^ 1022) : Float.Model))) = 2 ^ 1022 by decide +kernel]
    push_cast
    rw [← pow_mul, show (32 : ℝ) = 2 ^ 5 by norm_num, ← pow_add]

/-- A limit of **C100**: the volume of a box with sides of `2 ^ 43` is infinite, although it is finite in every
    other respect; and so is the squared length of a vector of length `2 ^ 64`. -/
theorem C100_large_refuted :
    (⟨fp 0 0 0, ⟨f32 (2 ^ 43), f32 (2 ^ 43), f32 (2 ^ 43)⟩⟩ : Bounds3 Float32.Model).volume = .ok inf32 ∧
    (⟨f32 (2 ^ 64), f32 0, f32 0⟩ : Vector3 Float32.Model).lenSq = .ok inf32 ∧
    (⟨f32 (2 ^ 64), f32 0, f32 0⟩ : Vector3 Float32.Model).len = .ok inf32 := by
  refine ⟨?_, ?_, ?_⟩ <;> decide +kernel

/-! ### An example -/

theorem moderate_int (n : ℤ) {q : ℚ} (hf : IsFinite (f32 n)) (h : ratVal (up (f32 n)) = q) (hq : |q| ≤ 2 ^ 40) :
    Moderate (2 ^ 40) (f32 n) := by
  refine ⟨hf, ?_⟩
  rw [val_eq, h]
  exact_mod_cast hq

-- a box and a vector of moderate size, a million units away
example : (∀ i, Moderate (2 ^ 40) ((⟨fp 1000000 0 (-3), fp 1000007 4 5⟩ : Bounds3 Float32.Model).pMin.get i) ∧
      Moderate (2 ^ 40) ((⟨fp 1000000 0 (-3), fp 1000007 4 5⟩ : Bounds3 Float32.Model).pMax.get i)) ∧
    ∀ i, Moderate (2 ^ 40) ((fv 3 (-4) 1000000).get i) := by
  refine ⟨fun i => ⟨Point3.all_get ?_ ?_ ?_ i, Point3.all_get ?_ ?_ ?_ i⟩, Vector3.all_get ?_ ?_ ?_⟩
  · exact moderate_int 1000000 (q := 1000000) (by decide +kernel) (by decide +kernel) (by norm_num)
  · exact moderate_int 0 (q := 0) (by decide +kernel) (by decide +kernel) (by norm_num)
  · exact moderate_int (-3) (q := -3) (by decide +kernel) (by decide +kernel) (by norm_num)
  · exact moderate_int 1000007 (q := 1000007) (by decide +kernel) (by decide +kernel) (by norm_num)
  · exact moderate_int 4 (q := 4) (by decide +kernel) (by decide +kernel) (by norm_num)
  · exact moderate_int 5 (q := 5) (by decide +kernel) (by decide +kernel) (by norm_num)
  · exact moderate_int 3 (q := 3) (by decide +kernel) (by decide +kernel) (by norm_num)
  · exact moderate_int (-4) (q := -4) (by decide +kernel) (by decide +kernel) (by norm_num)
  · exact moderate_int 1000000 (q := 1000000) (by decide +kernel) (by decide +kernel) (by norm_num)

end Pbrt
