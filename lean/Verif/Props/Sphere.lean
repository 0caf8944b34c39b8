import Verif.Spec.Sphere
import Verif.Proof.Sphere
import Verif.Props.FloatError
import Verif.Props.UnitTests

/-!
# C76: `bounding_sphere` on floats

The centre lies in the box, and every point of the box is within the radius up to rounding.  The
radius can be too small, and is 0 when the centre overflows.
-/

namespace Pbrt

section
variable {T : Type} [Elem T] [As T T] [FloatFns T] [IEEE T]

local notation "𝔽" => IEEE.fmt T
local notation "ε" => unitRoundoff T
local notation "η" => tiny T
local notation "two" => (Elem.fromInt 2 : T)
local notation "z" => (Elem.fromInt 0 : T)

/-- The sphere, one operation at a time -/
theorem sphere_ok (b : Bounds3 T) (c : Point3 T) (r : T) (h : b.boundingSphere = .ok (c, r)) :
    (∀ i, c.get i = fdiv (fadd (b.pMin.get i) (b.pMax.get i)) two) ∧
    (b.Has c → Vector3.len ⟨fsub c.x b.pMax.x, fsub c.y b.pMax.y, fsub c.z b.pMax.z⟩ = .ok r) ∧
    (¬ b.Has c → r = z) := by
  simp only [Bounds3.boundingSphere, Point3.add, Point3.div, Point3.sub, fadd_ok, fdiv_ok, fsub_ok, ok_bind,
    pure_ok, Vector3.ofPoint] at h
  rw [← inside_iff]
  split at h
  · rename_i hi
    rw [flen_vector] at h
    simp only [ok_bind, Except.ok.injEq, Prod.mk.injEq] at h
    obtain ⟨rfl, rfl⟩ := h
    refine ⟨fun i => by fin_cases i <;> rfl, fun _ => flen_vector _, fun hn => absurd hi hn⟩
  · rename_i hi
    simp only [Except.ok.injEq, Prod.mk.injEq] at h
    obtain ⟨rfl, rfl⟩ := h
    exact ⟨fun i => by fin_cases i <;> rfl, fun hn => absurd hn hi, fun _ => rfl⟩

theorem sphere_center (b : Bounds3 T) (hb : b.WellFormed) (c : Point3 T) (r : T)
    (h : b.boundingSphere = .ok (c, r)) (hc : ∀ i, IsFinite (c.get i)) (i : Fin 3) :
    IsFinite (b.pMin.get i) ∧ IsFinite (b.pMax.get i) ∧ b.pMin.at i ≤ c.at i ∧ c.at i ≤ b.pMax.at i ∧
    |c.at i - (b.pMin.at i + b.pMax.at i) / 2| ≤ ε * |(b.pMin.at i + b.pMax.at i) / 2| + η := by
  have hg := (sphere_ok b c r h).1 i
  have hci := hc i
  rw [hg] at hci
  obtain ⟨ha, hb'⟩ := fadd_finite (half_finite hci)
  have := middle ((le_iff_val ha hb').1 (hb i)) hci
  rw [← hg] at this
  exact this

/-- **C76**: if the centre of `bounding_sphere` is finite, it lies in the box, near its middle. -/
theorem C76_center (b : Bounds3 T) (hb : b.WellFormed) (c : Point3 T) (r : T)
    (h : b.boundingSphere = .ok (c, r)) (hc : ∀ i, IsFinite (c.get i)) :
    b.Has c ∧ ∀ i, |c.at i - (b.pMin.at i + b.pMax.at i) / 2| ≤ ε * |(b.pMin.at i + b.pMax.at i) / 2| + η := by
  have hs := sphere_center b hb c r h hc
  refine ⟨fun i => ?_, fun i => (hs i).2.2.2.2⟩
  obtain ⟨h1, h2, h3, h4, -⟩ := hs i
  exact ⟨(le_iff_val h1 (hc i)).2 h3, (le_iff_val (hc i) h2).2 h4⟩

example := C76_center (⟨fp 0 0 0, fp 2 4 4⟩ : Bounds3 Float32.Model) (by decide +kernel) (fp 1 2 2) (f32 3)
  (by decide +kernel) (by decide +kernel)

theorem radius_bounds (U : Usual T) (b : Bounds3 T) (hb : b.WellFormed) (c : Point3 T) (r : T)
    (h : b.boundingSphere = .ok (c, r)) (hc : ∀ i, IsFinite (c.get i)) (hr : IsFinite r) :
    distance b.pMax.at c.at ≤ (1 + 4 * ε) * val r + 2 * √η ∧
    val r ≤ (1 + 4 * ε) * distance b.pMax.at c.at + 2 * √η := by
  have hl := (sphere_ok b c r h).2.1 (C76_center b hb c r h hc).1
  obtain ⟨h0, h1, h2⟩ := C69_len _ r hl hr
  have hf := hl
  rw [flen_vector, Except.ok.injEq] at hf
  rw [← hf] at hr
  obtain ⟨hs, hz⟩ := fadd_finite (fsqrt_finite hr).1
  obtain ⟨hx, hy⟩ := fadd_finite hs
  have e : ∀ {p q : T}, IsFinite (fmul (fsub p q) (fsub p q)) →
      (1 - ε) ^ 2 * (val q - val p) ^ 2 ≤ val (fsub p q) ^ 2 ∧
      val (fsub p q) ^ 2 ≤ (1 + ε) ^ 2 * (val q - val p) ^ 2 := by
    intro p q hm
    have he := fsub_err (fmul_finite hm).1
    have e0 := eps_pos (T := T)
    have e1 := U.eps
    rw [← mul_pow, ← mul_pow, sq_le_sq, sq_le_sq, abs_mul, abs_mul, abs_of_pos (show 0 < 1 - ε by linarith),
      abs_of_pos (show 0 < 1 + ε by linarith), abs_sub_comm (val q)]
    have t1 := abs_sub_abs_le_abs_sub (val (fsub p q)) (val p - val q)
    have t2 := abs_sub_abs_le_abs_sub (val p - val q) (val (fsub p q))
    rw [abs_sub_comm (val p - val q)] at t2
    constructor <;> linarith
  have ex := e hx
  have ey := e hy
  have ez := e hz
  have hD : ∑ i, (b.pMax.at i - c.at i) ^ 2 =
    (val b.pMax.x - val c.x) ^ 2 + (val b.pMax.y - val c.y) ^ 2 + (val b.pMax.z - val c.z) ^ 2 := by
    rw [Fin.sum_univ_three]; rfl
  have hS : ∀ v : Vector3 T, ∑ i, val (v.get i) ^ 2 = val v.x ^ 2 + val v.y ^ 2 + val v.z ^ 2 := fun v => by
    rw [Fin.sum_univ_three]; rfl
  unfold distance
  rw [hD]
  rw [hS] at h1 h2
  have hp : 0 ≤ (val b.pMax.x - val c.x) ^ 2 + (val b.pMax.y - val c.y) ^ 2 + (val b.pMax.z - val c.z) ^ 2 := by
    positivity
  exact ⟨radius_lower eps_pos U.eps tiny_pos.le hp (by linarith [ex.1, ey.1, ez.1]) h2 h0,
    radius_upper eps_pos U.eps tiny_pos.le hp (by linarith [ex.2, ey.2, ez.2]) h1⟩

theorem sphere_contains (U : Usual T) (b : Bounds3 T) (hb : b.WellFormed) (c : Point3 T) (r : T)
    (h : b.boundingSphere = .ok (c, r)) (hc : ∀ i, IsFinite (c.get i)) (hr : IsFinite r) (m : ℝ)
    (hm : ∀ i, |(b.pMin.at i + b.pMax.at i) / 2| ≤ m) (p : Fin 3 → ℝ) (hp : b.Region p) :
    distance p c.at ≤ (1 + 4 * ε) * val r + 3 * √η + 4 * ε * m := by
  have hR := (radius_bounds U b hb c r h hc hr).1
  have e0 := eps_pos (T := T)
  have n0 := tiny_pos (T := T)
  have m0 : 0 ≤ m := (abs_nonneg _).trans (hm 0)
  have em : 0 ≤ ε * m := mul_nonneg e0.le m0
  set E := 2 * (ε * m + η) with hE
  have hE0 : 0 ≤ E := by positivity
  have key : ∀ i, (p i - c.at i) ^ 2 ≤ ((b.pMax.at i - c.at i) + E) ^ 2 := by
    intro i
    obtain ⟨-, -, h1, h2, h3⟩ := sphere_center b hb c r h hc i
    have h4 := mul_le_mul_of_nonneg_left (hm i) e0.le
    have h5 := hp i
    rw [abs_le] at h3
    refine sq_le_sq' ?_ ?_ <;> linarith [h3.1, h3.2, h5.1, h5.2]
  have hsum : ∑ i, (p i - c.at i) ^ 2 ≤ (distance b.pMax.at c.at + 7 / 4 * E) ^ 2 := by
    refine le_trans ?_ (b := ((b.pMax.at 0 - c.at 0) + E) ^ 2 + ((b.pMax.at 1 - c.at 1) + E) ^ 2 +
      ((b.pMax.at 2 - c.at 2) + E) ^ 2) ?_
    · rw [Fin.sum_univ_three]
      linarith [key 0, key 1, key 2]
    · unfold distance
      rw [Fin.sum_univ_three]
      exact sq_sum_shift hE0
  have hd : 0 ≤ distance b.pMax.at c.at := Real.sqrt_nonneg _
  have h1 : distance p c.at ≤ distance b.pMax.at c.at + 7 / 4 * E := by
    refine Real.sqrt_le_iff.2 ⟨by positivity, hsum⟩
  have hq := Real.sqrt_nonneg η
  have hqq := Real.sq_sqrt n0.le
  have hq1 : √η ≤ 1 / 4 := by
    refine Real.sqrt_le_iff.2 ⟨by norm_num, ?_⟩
    have := U.tiny_le
    have := U.eps
    norm_num
    linarith
  have h2 : 7 / 2 * η ≤ √η := by nlinarith
  linarith

theorem fsub_same {a b : T} (ha : IsFinite a) (hb : IsFinite b) (h : val a = val b) :
    IsFinite (fsub a b) ∧ val (fsub a b) = 0 := by
  have hs := fsub_rnd ha hb
  rw [h, sub_self, ← val_zero (T := T), rnd_val finite_zero] at hs
  rw [← val_zero (T := T)]
  exact finite_of_ext hs.1 hs.2

theorem fmul_self_zero {a : T} (ha : IsFinite a) (h : val a = 0) : IsFinite (fmul a a) ∧ val (fmul a a) = 0 := by
  have hs := fmul_rnd ha ha
  rw [h, mul_zero, ← val_zero (T := T), rnd_val finite_zero] at hs
  rw [← val_zero (T := T)]
  exact finite_of_ext hs.1 hs.2

theorem fadd_both_zero {a b : T} (ha : IsFinite a) (hb : IsFinite b) (h : val a = 0) (h' : val b = 0) :
    IsFinite (fadd a b) ∧ val (fadd a b) = 0 := by
  have hs := fadd_rnd ha hb
  rw [h, h', add_zero, ← val_zero (T := T), rnd_val finite_zero] at hs
  rw [← val_zero (T := T)]
  exact finite_of_ext hs.1 hs.2

/-- **C76**: the sphere of a one-point box is that point, with radius 0, unless its centre overflows. -/
theorem C76_point (b : Bounds3 T) (hb : ∀ i, Same (b.pMin.get i) (b.pMax.get i)) (c : Point3 T) (r : T)
    (h : b.boundingSphere = .ok (c, r)) (hc : ∀ i, IsFinite (c.get i)) :
    (∀ i, Same (c.get i) (b.pMin.get i)) ∧ Same r z := by
  have hw : b.WellFormed := fun i => by
    have := hb i
    unfold Same at this
    rw [eq_iff_ext] at this
    unfold Le
    rw [le_iff_ext]
    exact ⟨this.1, this.2.1, this.2.2.le⟩
  have hs := sphere_center b hw c r h hc
  have hl := (sphere_ok b c r h).2.1 (C76_center b hw c r h hc).1
  have hv : ∀ i, val (c.get i) = val (b.pMin.get i) ∧ val (c.get i) = val (b.pMax.get i) := fun i => by
    obtain ⟨h1, h2, h3, h4, -⟩ := hs i
    have := (eq_iff_val h1 h2).1 (hb i)
    simp only [Point3.at] at h3 h4
    constructor <;> linarith
  refine ⟨fun i => (eq_iff_val (hc i) (hs i).1).2 (hv i).1, ?_⟩
  rw [flen_vector, Except.ok.injEq] at hl
  have d : ∀ i, _ := fun i => fsub_same (hc i) (hs i).2.1 (hv i).2
  have m : ∀ i, _ := fun i => fmul_self_zero (d i).1 (d i).2
  have s1 := fadd_both_zero (m 0).1 (m 1).1 (m 0).2 (m 1).2
  have s2 := fadd_both_zero s1.1 (m 2).1 s1.2 (m 2).2
  have hq := fsqrt_rnd s2.1 s2.2.ge
  rw [s2.2, Real.sqrt_zero, ← val_zero (T := T), rnd_val finite_zero] at hq
  obtain ⟨q1, q2⟩ := finite_of_ext hq.1 hq.2
  rw [← hl]
  exact (eq_iff_val q1 finite_zero).2 q2

example := C76_point (⟨fp 1 (-2) 3, fp 1 (-2) 3⟩ : Bounds3 Float32.Model) (by decide +kernel) (fp 1 (-2) 3) (f32 0)
  (by decide +kernel) (by decide +kernel)

end

/-- **C76**: every point of the box is within the radius of the centre, up to a relative error of the
    radius and rounding errors in proportion to the distance of the box from the origin; `f32`. -/
theorem C76_contains_f32 (b : Bounds3 Float32.Model) (hb : b.WellFormed) (c : Point3 Float32.Model)
    (r : Float32.Model) (h : b.boundingSphere = .ok (c, r)) (hc : ∀ i, IsFinite (c.get i)) (hr : IsFinite r)
    (m : ℝ) (hm : ∀ i, |(b.pMin.at i + b.pMax.at i) / 2| ≤ m) (p : Fin 3 → ℝ) (hp : b.Region p) :
    distance p c.at ≤ (1 + 2 ^ (-22 : ℤ)) * val r + 2 ^ (-22 : ℤ) * m + 2 ^ (-73 : ℤ) := by
  have := sphere_contains usual32 b hb c r h hc hr m hm p hp
  rw [show unitRoundoff Float32.Model = 2 ^ (-24 : ℤ) from rfl, show tiny Float32.Model = 2 ^ (-150 : ℤ) from rfl,
    show (2 : ℝ) ^ (-150 : ℤ) = (2 ^ (-75 : ℤ)) ^ 2 by norm_num, Real.sqrt_sq (by positivity)] at this
  norm_num at this ⊢
  linarith

open UnitTests in
example := C76_contains_f32 ⟨fp 0 0 0, fp 2 4 4⟩ (by decide +kernel) (fp 1 2 2) (f32 3) (by decide +kernel)
  (by decide +kernel) (by decide +kernel) 2
  (fun i => by
    simp only [Point3.at, val_eq]
    revert i
    exact_mod_cast (by decide +kernel : ∀ i : Fin 3, |(ratVal (up ((fp 0 0 0).get i)) + ratVal (up ((fp 2 4 4).get i))) / 2| ≤ 2))
  (fp 2 0 4).at
  (fun i => by
    simp only [Point3.at, val_eq]
    revert i
    exact_mod_cast (by decide +kernel : ∀ i : Fin 3, ratVal (up ((fp 0 0 0).get i)) ≤ ratVal (up ((fp 2 0 4).get i)) ∧
      ratVal (up ((fp 2 0 4).get i)) ≤ ratVal (up ((fp 2 4 4).get i))))

/-- **C76**: the same for `f64`. -/
theorem C76_contains_f64 (b : Bounds3 Float.Model) (hb : b.WellFormed) (c : Point3 Float.Model)
    (r : Float.Model) (h : b.boundingSphere = .ok (c, r)) (hc : ∀ i, IsFinite (c.get i)) (hr : IsFinite r)
    (m : ℝ) (hm : ∀ i, |(b.pMin.at i + b.pMax.at i) / 2| ≤ m) (p : Fin 3 → ℝ) (hp : b.Region p) :
    distance p c.at ≤ (1 + 2 ^ (-51 : ℤ)) * val r + 2 ^ (-51 : ℤ) * m + 2 ^ (-535 : ℤ) := by
  have := sphere_contains usual64 b hb c r h hc hr m hm p hp
  have hs := sqrt_tiny64
  rw [show unitRoundoff Float.Model = 2 ^ (-53 : ℤ) from rfl] at this
  have e1 : (2 : ℝ) ^ (-51 : ℤ) = 4 * 2 ^ (-53 : ℤ) := by norm_num
  have e2 : (2 : ℝ) ^ (-535 : ℤ) = 4 * 2 ^ (-537 : ℤ) := by
    rw [show (-535 : ℤ) = 2 + -537 by norm_num, zpow_add₀ (by norm_num)]; norm_num
  rw [e1, e2]
  linarith [show (0 : ℝ) < 2 ^ (-537 : ℤ) by positivity]

/-- **C76**: the radius is not much larger than needed for the upper corner; `f32`. -/
theorem C76_tight_f32 (b : Bounds3 Float32.Model) (hb : b.WellFormed) (c : Point3 Float32.Model)
    (r : Float32.Model) (h : b.boundingSphere = .ok (c, r)) (hc : ∀ i, IsFinite (c.get i)) (hr : IsFinite r) :
    val r ≤ (1 + 2 ^ (-22 : ℤ)) * distance b.pMax.at c.at + 2 ^ (-74 : ℤ) := by
  have := (radius_bounds usual32 b hb c r h hc hr).2
  rw [show unitRoundoff Float32.Model = 2 ^ (-24 : ℤ) from rfl, show tiny Float32.Model = 2 ^ (-150 : ℤ) from rfl,
    show (2 : ℝ) ^ (-150 : ℤ) = (2 ^ (-75 : ℤ)) ^ 2 by norm_num, Real.sqrt_sq (by positivity)] at this
  norm_num at this ⊢
  linarith

example := C76_tight_f32 ⟨fp 0 0 0, fp 2 4 4⟩ (by decide +kernel) (fp 1 2 2) (f32 3) (by decide +kernel)
  (by decide +kernel) (by decide +kernel)

/-- **C76**: the same for `f64`. -/
theorem C76_tight_f64 (b : Bounds3 Float.Model) (hb : b.WellFormed) (c : Point3 Float.Model)
    (r : Float.Model) (h : b.boundingSphere = .ok (c, r)) (hc : ∀ i, IsFinite (c.get i)) (hr : IsFinite r) :
    val r ≤ (1 + 2 ^ (-51 : ℤ)) * distance b.pMax.at c.at + 2 ^ (-536 : ℤ) := by
  have := (radius_bounds usual64 b hb c r h hc hr).2
  have hs := sqrt_tiny64
  rw [show unitRoundoff Float.Model = 2 ^ (-53 : ℤ) from rfl] at this
  have e1 : (2 : ℝ) ^ (-51 : ℤ) = 4 * 2 ^ (-53 : ℤ) := by norm_num
  have e2 : (2 : ℝ) ^ (-536 : ℤ) = 2 * 2 ^ (-537 : ℤ) := by
    rw [show (-536 : ℤ) = 1 + -537 by norm_num, zpow_add₀ (by norm_num)]; norm_num
  rw [e1, e2]
  linarith

-- a box off the origin with an inexact centre and radius
example :
    let b : Bounds3 Float32.Model := ⟨⟨fdiv (f32 1) (f32 3), f32 (-4), f32 7⟩, ⟨f32 2, f32 11, fdiv (f32 50) (f32 7)⟩⟩
    b.WellFormed ∧ (match b.boundingSphere with
      | .ok (c, r) => decide ((∀ i, IsFinite (c.get i)) ∧ IsFinite r)
      | .error _ => false) = true := by
  decide +kernel

open UnitTests in
/-- **C76**: the sphere can miss a point of the box: the centre of `[1, 16777218]` is rounded up, and
    the radius is the distance to the upper corner only. -/
theorem C76_small_refuted : ∃ (b : Bounds3 Float32.Model) (c : Point3 Float32.Model) (r : Float32.Model),
    b.WellFormed ∧ b.boundingSphere = .ok (c, r) ∧ (∀ i, IsFinite (c.get i)) ∧ IsFinite r ∧
    b.Region b.pMin.at ∧ val r < distance b.pMin.at c.at := by
  refine ⟨⟨fp 1 0 0, fp 16777218 0 0⟩, fp 8388610 0 0, f32 8388608, by decide +kernel, by decide +kernel,
    by decide +kernel, by decide +kernel, ?_, ?_⟩
  · exact fun i => ⟨le_refl _, (le_iff_val (by revert i; decide +kernel) (by revert i; decide +kernel)).1
      (show Le _ _ by revert i; decide +kernel)⟩
  · have h : ∀ n : ℤ, val (f32 n) = (ratVal (up (f32 n)) : ℝ) := fun n => val_eq (f32 n)
    have h1 : distance (fp 1 0 0).at (fp 8388610 0 0).at =
        √((val (f32 1) - val (f32 8388610)) ^ 2 + (val (f32 0) - val (f32 0)) ^ 2 + (val (f32 0) - val (f32 0)) ^ 2) := by
      unfold distance
      rw [Fin.sum_univ_three]
      rfl
    show val (f32 8388608) < distance (fp 1 0 0).at (fp 8388610 0 0).at
    rw [h1, h, h, h, h, show ratVal (up (f32 1)) = 1 by decide +kernel,
      show ratVal (up (f32 0)) = 0 by decide +kernel, show ratVal (up (f32 8388608)) = 8388608 by decide +kernel,
      show ratVal (up (f32 8388610)) = 8388610 by decide +kernel]
    refine Real.lt_sqrt_of_sq_lt ?_
    norm_num

-- one point
example : ∀ i, Same ((⟨fp 1 (-2) 3, fp 1 (-2) 3⟩ : Bounds3 Float32.Model).pMin.get i)
    ((⟨fp 1 (-2) 3, fp 1 (-2) 3⟩ : Bounds3 Float32.Model).pMax.get i) := by decide +kernel
example : (⟨fp 1 (-2) 3, fp 1 (-2) 3⟩ : Bounds3 Float32.Model).boundingSphere = .ok (fp 1 (-2) 3, f32 0) := by
  decide +kernel

/-- **C76**: the sum of two large corners overflows; the centre is infinite, and the radius is 0. -/
theorem C76_overflow_refuted : ∃ (b : Bounds3 Float32.Model) (c : Point3 Float32.Model) (r : Float32.Model),
    b.WellFormed ∧ (∀ i, IsFinite (b.pMin.get i) ∧ IsFinite (b.pMax.get i) ∧ Lt (b.pMin.get i) (b.pMax.get i)) ∧
    b.boundingSphere = .ok (c, r) ∧ (∀ i, ¬ IsFinite (c.get i)) ∧ Same r (f32 0) := by
  refine ⟨⟨fp (2 ^ 126) (2 ^ 126) (2 ^ 126), fp (2 ^ 127 + 2 ^ 126) (2 ^ 127 + 2 ^ 126) (2 ^ 127 + 2 ^ 126)⟩,
    ⟨inf32, inf32, inf32⟩, f32 0, ?_⟩
  decide +kernel

end Pbrt
