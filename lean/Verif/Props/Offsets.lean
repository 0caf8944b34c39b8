import Verif.Props.FloatError
import Verif.Proof.Units
import Verif.Props.UnitTests

/-!
# C83: `offset` and `lerp` of boxes of floats

C47 shows that the two are inverse in exact arithmetic.  Here: up to which rounding errors they are
with floats.  `e` is the unit roundoff, `η` half of the smallest positive float.
-/

namespace Pbrt

/-- Errors of a quotient of two differences, in real numbers -/
theorem quotient_error {x y e h X Y q : ℝ} (he : e ≤ 1 / 5) (e0 : 0 ≤ e) (hY : 0 < Y)
    (hx : |x - X| ≤ e * |X|) (hy : |y - Y| ≤ e * |Y|) (hq : |q - x / y| ≤ e * |x / y| + h) :
    |q - X / Y| ≤ 4 * e * |X / Y| + h := by
  rw [abs_of_pos hY] at hy
  have hy' := abs_le.1 hy
  have y0 : 0 < y := by nlinarith
  have hs : |x / y - X / Y| ≤ (2 * e / (1 - e)) * |X / Y| := by
    rw [div_sub_div _ _ y0.ne' hY.ne', abs_div, abs_div, abs_of_pos (mul_pos y0 hY), abs_of_pos hY]
    rw [div_mul_div_comm, div_le_div_iff₀ (by positivity) (by nlinarith)]
    have h1 : |x * Y - y * X| ≤ 2 * e * |X| * Y := by
      rw [show x * Y - y * X = (x - X) * Y - (y - Y) * X by ring]
      refine (abs_sub _ _).trans ?_
      rw [abs_mul, abs_mul, abs_of_pos hY]
      have := mul_le_mul_of_nonneg_right hx hY.le
      have := mul_le_mul_of_nonneg_right hy (abs_nonneg X)
      linarith
    have h2 : (1 - e) * Y ≤ y := by linarith [hy'.1]
    have h3 : 0 ≤ 2 * e * |X| * Y := by positivity
    calc |x * Y - y * X| * ((1 - e) * Y) ≤ (2 * e * |X| * Y) * y :=
          mul_le_mul h1 h2 (mul_nonneg (by linarith) hY.le) h3
      _ = 2 * e * |X| * (y * Y) := by ring
  have h4 : |x / y| ≤ |X / Y| + |x / y - X / Y| := by
    have := abs_add_le (X / Y) (x / y - X / Y)
    simpa using this
  have h5 : |q - X / Y| ≤ |q - x / y| + |x / y - X / Y| := by
    have := abs_add_le (q - x / y) (x / y - X / Y)
    simpa using this
  have h6 : 2 * e / (1 - e) * (1 + e) + e ≤ 4 * e := by
    rw [div_mul_eq_mul_div, ← le_sub_iff_add_le, div_le_iff₀ (by linarith)]
    nlinarith
  have h7 : (2 * e / (1 - e) * (1 + e) + e) * |X / Y| ≤ 4 * e * |X / Y| :=
    mul_le_mul_of_nonneg_right h6 (abs_nonneg _)
  have h8 := mul_le_mul_of_nonneg_left hs e0
  have h9 := mul_le_mul_of_nonneg_left h4 e0
  nlinarith

/-- The two round trips in real numbers: `s` the relative position, `v` its rounding, `q` the point -/
theorem there_and_back_real {e n a Y s p v q M : ℝ} (e0 : 0 < e) (n0 : 0 < n) (hn : 4 * n ≤ e)
    (hp : p = a + s * Y) (s1 : s ≤ 1) (hY : 0 < Y) (hM : Y ≤ 2 * M)
    (hv : |v - s| ≤ 4 * e * s + n) (hq : |q - (a + v * Y)| ≤ 301 / 100 * e * M + 201 / 100 * n) :
    |q - p| ≤ 12 * e * M + 3 * n := by
  have h1 : |v - s| ≤ 17 / 4 * e := by nlinarith
  have h2 : |(v - s) * Y| ≤ 17 / 4 * e * (2 * M) := by
    rw [abs_mul, abs_of_pos hY]
    exact mul_le_mul h1 hM hY.le (by positivity)
  have h3 : |q - p| ≤ |q - (a + v * Y)| + |(v - s) * Y| := by
    have := abs_add_le (q - (a + v * Y)) ((v - s) * Y)
    rwa [show q - (a + v * Y) + (v - s) * Y = q - p by rw [hp]; ring] at this
  have h4 : 0 ≤ e * M := mul_nonneg e0.le (by linarith)
  linarith

theorem back_and_there_real {e n a Y t v q M : ℝ} (e0 : 0 < e) (n0 : 0 < n) (he : e ≤ 1 / 1000)
    (t0 : 0 ≤ t) (t1 : t ≤ 1) (hY : 0 < Y) (hM : Y ≤ 2 * M)
    (hv : |v - (q - a) / Y| ≤ 4 * e * |(q - a) / Y| + n)
    (hq : |q - (a + t * Y)| ≤ 301 / 100 * e * M + 201 / 100 * n) :
    |v - t| ≤ (12 * e * M + 3 * n) / Y + n := by
  have h1 : |(q - a) / Y - t| ≤ (301 / 100 * e * M + 201 / 100 * n) / Y := by
    rw [show (q - a) / Y - t = (q - (a + t * Y)) / Y by field_simp; ring, abs_div, abs_of_pos hY]
    exact div_le_div_of_nonneg_right hq hY.le
  have h2 : |(q - a) / Y| ≤ 1 + |(q - a) / Y - t| := by
    have := abs_add_le ((q - a) / Y - t) t
    rw [sub_add_cancel, abs_of_nonneg t0] at this
    linarith
  have h3 : |v - t| ≤ |v - (q - a) / Y| + |(q - a) / Y - t| := by
    have := abs_add_le (v - (q - a) / Y) ((q - a) / Y - t)
    rwa [show v - (q - a) / Y + ((q - a) / Y - t) = v - t by ring] at this
  have h4 : 0 ≤ e * M := mul_nonneg e0.le (by linarith)
  have h5 : 4 * e ≤ 8 * e * M / Y := by
    rw [le_div_iff₀ hY]; nlinarith
  have h6 : |v - t| ≤ 4 * e + n + (1 + 4 * e) * ((301 / 100 * e * M + 201 / 100 * n) / Y) := by
    have := mul_le_mul_of_nonneg_left h2 (by linarith : 0 ≤ 4 * e)
    have := mul_le_mul_of_nonneg_left h1 (by linarith : 0 ≤ 1 + 4 * e)
    linarith
  have h7 : (1 + 4 * e) * ((301 / 100 * e * M + 201 / 100 * n) / Y) ≤
      1004 / 1000 * ((301 / 100 * e * M + 201 / 100 * n) / Y) :=
    mul_le_mul_of_nonneg_right (by linarith) (div_nonneg (by linarith) hY.le)
  have h8 : 8 * e * M / Y + 1004 / 1000 * ((301 / 100 * e * M + 201 / 100 * n) / Y) ≤ (12 * e * M + 3 * n) / Y := by
    rw [← mul_div_assoc, ← add_div]
    exact div_le_div_of_nonneg_right (by nlinarith) hY.le
  linarith

section
variable {T : Type} [Elem T] [As T T] [FloatFns T] [IEEE T]

local notation "𝔽" => IEEE.fmt T
local notation "ε" => unitRoundoff T
local notation "η" => tiny T
local notation "z" => (Elem.fromInt 0 : T)
local notation "o" => (Elem.fromInt 1 : T)

attribute [local instance] ieee_lawful

/-- What the bounds below need of the number type; both `f32` and `f64` have it (`C83_constants`). -/
def FineGrained (T : Type) [Elem T] [As T T] [FloatFns T] [IEEE T] : Prop :=
  unitRoundoff T ≤ 1 / 1000 ∧ 4 * tiny T ≤ unitRoundoff T

theorem finite_between {a b c : T} (ha : IsFinite a) (hb : IsFinite b) (h : Le a c) (h' : Le c b) : IsFinite c := by
  have h1 := le_ext h
  have h2 := le_ext h'
  rw [ha.ext] at h1
  rw [hb.ext] at h2
  exact (finite_iff_ext ((le_iff_ext _ _).1 h).2.1).2 ⟨(h2.trans_lt (EReal.coe_lt_top _)).ne, ((EReal.bot_lt_coe _).trans_le h1).ne'⟩

/-- **C83**: the error of `offset` on an axis that is not degenerate: four units of rounding of the
    relative position, and half the smallest positive float for a quotient that underflows. -/
theorem C83_offset (hT : FineGrained T) (b : Bounds3 T) (d : Vector3 T) (hd : b.diagonal = .ok d)
    (p : Point3 T) (v : Vector3 T) (hv : b.offset p = .ok v) (i : Fin 3)
    (hlt : Lt (b.pMin.get i) (b.pMax.get i)) (hdi : IsFinite (d.get i)) (hf : IsFinite (v.get i)) :
    |val (v.get i) - (val (p.get i) - val (b.pMin.get i)) / (val (b.pMax.get i) - val (b.pMin.get i))| ≤
      4 * ε * |(val (p.get i) - val (b.pMin.get i)) / (val (b.pMax.get i) - val (b.pMin.get i))| + η := by
  obtain ⟨v', hv', g⟩ := foffset b p
  obtain rfl : v' = v := by simpa using hv'.symm.trans hv
  obtain ⟨d', hd', g'⟩ := fdiagonal b
  obtain rfl : d' = d := by simpa using hd'.symm.trans hd
  rw [g, if_pos hlt] at hf
  rw [g' i] at hdi
  rw [g, if_pos hlt]
  have hx := fdiv_inf_left hdi hf
  obtain ⟨fb, fa⟩ := fsub_finite hdi
  have hY := sub_pos.2 ((lt_iff_val fa fb).1 hlt)
  have h1 := fsub_err hx
  have h2 := fsub_err hdi
  have e0 := eps_pos (T := T)
  have h0 : val (fsub (b.pMax.get i) (b.pMin.get i)) ≠ 0 := by
    intro h0
    rw [h0, zero_sub, abs_neg, abs_of_pos hY] at h2
    nlinarith [hT.1]
  exact quotient_error (by linarith [hT.1]) e0.le hY h1 h2 (fdiv_err hx hdi h0 hf)

/-- **C83**: on a degenerate axis `offset` is the distance from the lower corner, up to one rounding. -/
theorem C83_degenerate (b : Bounds3 T) (p : Point3 T) (v : Vector3 T) (hv : b.offset p = .ok v) (i : Fin 3)
    (hlt : ¬ Lt (b.pMin.get i) (b.pMax.get i)) (hf : IsFinite (v.get i)) :
    |val (v.get i) - (val (p.get i) - val (b.pMin.get i))| ≤ ε * |val (p.get i) - val (b.pMin.get i)| := by
  obtain ⟨v', hv', g⟩ := foffset b p
  obtain rfl : v' = v := by simpa using hv'.symm.trans hv
  rw [g, if_neg hlt] at hf ⊢
  exact fsub_err hf

theorem flerp_get {b : Bounds3 T} {t q : Point3 T} (h : b.lerp t = .ok q) (i : Fin 3) :
    Pbrt.lerp (t.get i) (b.pMin.get i) (b.pMax.get i) = .ok (q.get i) := by
  simp only [Bounds3.lerp, lerp, fsub_ok, fmul_ok, fadd_ok, ok_bind, pure_ok, Except.ok.injEq] at h
  subst h
  fin_cases i <;> simp only [lerp, fsub_ok, fmul_ok, fadd_ok, ok_bind] <;> rfl

/-- The error of `lerp` inside a box whose coordinates are at most `M` in size -/
theorem lerp_error (hT : FineGrained T) {t a b c : T} (h : lerp t a b = .ok c) (hf : IsFinite c)
    (h0 : 0 ≤ val t) (h1 : val t ≤ 1) {M : ℝ} (ha : |val a| ≤ M) (hb : |val b| ≤ M) :
    |val c - (val a + val t * (val b - val a))| ≤ 301 / 100 * ε * M + 201 / 100 * η := by
  have key := C69_lerp t a b c h hf
  have e0 := eps_pos (T := T)
  have n0 := (tiny_pos (T := T)).le
  have hs : |(1 - val t) * val a| + |val t * val b| ≤ M := by
    rw [abs_mul, abs_mul, abs_of_nonneg h0, abs_of_nonneg (sub_nonneg.2 h1)]
    have := mul_le_mul_of_nonneg_left ha (sub_nonneg.2 h1)
    have := mul_le_mul_of_nonneg_left hb h0
    linarith
  have hT1 := hT.1
  generalize unitRoundoff T = e at *
  generalize tiny T = n at *
  have e2 : e ^ 2 ≤ e / 1000 := by nlinarith
  have e3 : e ^ 3 ≤ e / 1000 := by nlinarith
  have k1 : (1 + e) ^ 3 - 1 ≤ 301 / 100 * e := by nlinarith
  have k2 : 2 * (1 + e) ^ 3 ≤ 201 / 100 := by nlinarith
  have k0 : 0 ≤ (1 + e) ^ 3 - 1 := by nlinarith [pow_nonneg e0.le 2, pow_nonneg e0.le 3]
  have hM : 0 ≤ M := (abs_nonneg _).trans ha
  rw [show val a + val t * (val b - val a) = (1 - val t) * val a + val t * val b by ring]
  refine key.trans (add_le_add ?_ ?_)
  · exact (mul_le_mul_of_nonneg_left hs k0).trans (mul_le_mul_of_nonneg_right k1 hM)
  · have := mul_le_mul_of_nonneg_right k2 n0
    nlinarith

/-- **C83**: a point of a box comes back from `lerp` of its `offset` up to twelve units of rounding of
    the largest coordinate of the box. -/
theorem C83_there_and_back (hT : FineGrained T) (b : Bounds3 T) (d : Vector3 T) (hd : b.diagonal = .ok d)
    (p : Point3 T) (hp : b.inside p = true) (v : Vector3 T) (hv : b.offset p = .ok v)
    (q : Point3 T) (hq : b.lerp ⟨v.x, v.y, v.z⟩ = .ok q) (i : Fin 3)
    (hfin : ∀ j, IsFinite (b.pMin.get j) ∧ IsFinite (b.pMax.get j))
    (hlt : Lt (b.pMin.get i) (b.pMax.get i)) (hdi : IsFinite (d.get i)) (hf : IsFinite (q.get i))
    {M : ℝ} (ha : |val (b.pMin.get i)| ≤ M) (hb : |val (b.pMax.get i)| ≤ M) :
    |val (q.get i) - val (p.get i)| ≤ 12 * ε * M + 3 * η := by
  obtain ⟨d', hd', g'⟩ := fdiagonal b
  obtain rfl : d' = d := by simpa using hd'.symm.trans hd
  have hdi' := hdi
  rw [g' i] at hdi'
  obtain ⟨fb, fa⟩ := fsub_finite hdi'
  obtain ⟨v', hv', g⟩ := C47_float_offset b hfin d' hd p hp
  obtain rfl : v' = v := by simpa using hv'.symm.trans hv
  obtain ⟨v0, v1, -⟩ := g i hdi
  have fv := finite_between finite_zero finite_one v0 v1
  have hi := (inside_iff b p).1 hp i
  have fp := finite_between fa fb hi.1 hi.2
  have l1 := (le_iff_val fa fp).1 hi.1
  have l2 := (le_iff_val fp fb).1 hi.2
  have hY := sub_pos.2 ((lt_iff_val fa fb).1 hlt)
  have v0 := (le_iff_val finite_zero fv).1 v0
  have v1 := (le_iff_val fv finite_one).1 v1
  rw [val_zero] at v0
  rw [val_one] at v1
  have k1 := C83_offset hT b d' hd p v' hv i hlt hdi fv
  have hl := flerp_get hq i
  have hw : (⟨v'.x, v'.y, v'.z⟩ : Point3 T).get i = v'.get i := by fin_cases i <;> rfl
  rw [hw] at hl
  have k2 := lerp_error hT hl hf v0 v1 ha hb
  have e0 := eps_pos (T := T)
  have n0 := tiny_pos (T := T)
  have hT2 := hT.2
  have s0 : 0 ≤ (val (p.get i) - val (b.pMin.get i)) / (val (b.pMax.get i) - val (b.pMin.get i)) :=
    div_nonneg (by linarith) hY.le
  have s1 : (val (p.get i) - val (b.pMin.get i)) / (val (b.pMax.get i) - val (b.pMin.get i)) ≤ 1 :=
    (div_le_one hY).2 (by linarith)
  rw [abs_of_nonneg s0] at k1
  have hs : val (p.get i) = val (b.pMin.get i) +
      (val (p.get i) - val (b.pMin.get i)) / (val (b.pMax.get i) - val (b.pMin.get i)) *
        (val (b.pMax.get i) - val (b.pMin.get i)) := by rw [div_mul_cancel₀ _ hY.ne']; ring
  have hM : val (b.pMax.get i) - val (b.pMin.get i) ≤ 2 * M := by linarith [(abs_le.1 ha).1, (abs_le.1 hb).2]
  exact there_and_back_real e0 n0 hT2 hs s1 hY hM k1 k2

/-- **C83**: a relative position comes back from `offset` of its `lerp` up to twelve units of rounding of
    the largest coordinate of the box, measured in lengths of the box. -/
theorem C83_back_and_there (hT : FineGrained T) (b : Bounds3 T) (d : Vector3 T) (hd : b.diagonal = .ok d)
    (t q : Point3 T) (hq : b.lerp t = .ok q) (v : Vector3 T) (hv : b.offset q = .ok v) (i : Fin 3)
    (h0 : Le z (t.get i)) (h1 : Le (t.get i) o)
    (hlt : Lt (b.pMin.get i) (b.pMax.get i)) (hdi : IsFinite (d.get i)) (hf : IsFinite (v.get i))
    {M : ℝ} (ha : |val (b.pMin.get i)| ≤ M) (hb : |val (b.pMax.get i)| ≤ M) :
    |val (v.get i) - val (t.get i)| ≤
      (12 * ε * M + 3 * η) / (val (b.pMax.get i) - val (b.pMin.get i)) + η := by
  obtain ⟨v', hv', g⟩ := foffset b q
  obtain rfl : v' = v := by simpa using hv'.symm.trans hv
  obtain ⟨d', hd', g'⟩ := fdiagonal b
  obtain rfl : d' = d := by simpa using hd'.symm.trans hd
  have hdi' := hdi
  rw [g' i] at hdi'
  obtain ⟨fb, fa⟩ := fsub_finite hdi'
  have hf' := hf
  rw [g, if_pos hlt] at hf'
  have fq := (fsub_finite (fdiv_inf_left hdi' hf')).1
  have ft := finite_between finite_zero finite_one h0 h1
  have t0 := (le_iff_val finite_zero ft).1 h0
  have t1 := (le_iff_val ft finite_one).1 h1
  rw [val_zero] at t0
  rw [val_one] at t1
  have hY := sub_pos.2 ((lt_iff_val fa fb).1 hlt)
  have k1 := C83_offset hT b d' hd q v' hv i hlt hdi hf
  have k2 := lerp_error hT (flerp_get hq i) fq t0 t1 ha hb
  have hM : val (b.pMax.get i) - val (b.pMin.get i) ≤ 2 * M := by linarith [(abs_le.1 ha).1, (abs_le.1 hb).2]
  exact back_and_there_real (eps_pos (T := T)) (tiny_pos (T := T)) hT.1 t0 t1 hY hM k1 k2

end

/-- **C83**: both number types are fine enough. -/
theorem C83_constants : FineGrained Float32.Model ∧ FineGrained Float.Model := by
  obtain ⟨h1, h2, h3, h4⟩ := C69_constants
  unfold FineGrained
  rw [h1, h2, h3, h4]
  refine ⟨⟨by norm_num, ?_⟩, by norm_num, ?_⟩
  · rw [show (4 : ℝ) = 2 ^ (2 : ℤ) by norm_num, ← zpow_add₀ (by norm_num)]
    exact zpow_le_zpow_right₀ (by norm_num) (by norm_num)
  · rw [show (4 : ℝ) = 2 ^ (2 : ℤ) by norm_num, ← zpow_add₀ (by norm_num)]
    exact zpow_le_zpow_right₀ (by norm_num) (by norm_num)

/-! ### Instances and limits -/

namespace Offsets

/-- the cube with the corners `(a, a, a)` and `(b, b, b)` -/
def cube (a b : Int) : Bounds3 Float32.Model := ⟨fp a a a, fp b b b⟩

/-- `offset`, then `lerp` -/
def thereAndBack (b : Bounds3 Float32.Model) (p : Point3 Float32.Model) : Outcome (Point3 Float32.Model) := do
  let v ← b.offset p
  b.lerp ⟨v.x, v.y, v.z⟩

/-- The hypotheses of `C83_there_and_back` hold for the point `(7, 7, 7)` of the cube from 0 to 13. -/
example : (cube 0 13).inside (fp 7 7 7) = true ∧ (cube 0 13).diagonal = .ok (fv 13 13 13) ∧
    Lt ((cube 0 13).pMin.get 0) ((cube 0 13).pMax.get 0) ∧ IsFinite (f32 13) := by decide +kernel

open UnitTests in
theorem back_seven (v : Vector3 Float32.Model) (hv : (cube 0 13).offset (fp 7 7 7) = .ok v)
    (q : Point3 Float32.Model) (hq : (cube 0 13).lerp ⟨v.x, v.y, v.z⟩ = .ok q) (hf : IsFinite (q.get 0)) :
    |val (q.get 0) - val (f32 7)| ≤ 12 * 2 ^ (-24 : ℤ) * 13 + 3 * 2 ^ (-150 : ℤ) := by
  obtain ⟨h1, h2, -⟩ := C69_constants
  have h13 : val (f32 13) = 13 := by rw [val_eq, show ratVal (up (f32 13)) = 13 by decide +kernel]; norm_num
  have h0 : val (f32 0) = 0 := val_zero
  have := C83_there_and_back C83_constants.1 (cube 0 13) (fv 13 13 13) (by decide +kernel) (fp 7 7 7)
    (by decide +kernel) v hv q hq 0 (by decide +kernel) (by decide +kernel) (by decide +kernel) hf
    (M := 13) (by show |val (f32 0)| ≤ 13; rw [h0]; norm_num) (by show |val (f32 13)| ≤ 13; rw [h13]; norm_num)
  rwa [h1, h2] at this

end Offsets
open Offsets

/-- **C83**: the round trips are not exact: `(7, 7, 7)` does not come back to itself in the cube from 0
    to 13.  And in a box that is thin for its distance from the origin nothing may be left of a relative
    position: in the cube from `2 ^ 24` to `2 ^ 24 + 2` the middle comes back as 0. -/
theorem C83_exact_refuted :
    (∃ q, thereAndBack (cube 0 13) (fp 7 7 7) = .ok q ∧ ¬ Same q.x (f32 7)) ∧
    (∃ q, (cube 16777216 16777218).lerp ⟨frac32 2, frac32 2, frac32 2⟩ = .ok q ∧
      (cube 16777216 16777218).inside q = true ∧
      (cube 16777216 16777218).offset q = .ok (fv 0 0 0)) := by
  refine ⟨⟨_, rfl, by decide +kernel⟩, ⟨_, rfl, by decide +kernel, by decide +kernel⟩⟩

example := C83_offset C83_constants.1 (cube 0 13) (fv 13 13 13) (by decide +kernel) (fp 7 7 7) _ rfl 0
  (by decide +kernel) (by decide +kernel) (by decide +kernel)
example := C83_degenerate (⟨fp 1 2 3, fp 1 5 5⟩ : Bounds3 Float32.Model) (fp 7 7 7) _ rfl 0 (by decide +kernel)
  (by decide +kernel)
open UnitTests in
example := C83_back_and_there C83_constants.1 (cube 0 13) (fv 13 13 13) (by decide +kernel)
  ⟨fdiv (f32 1) (f32 3), f32 0, f32 1⟩ _ rfl _ rfl 0 (by decide +kernel) (by decide +kernel) (by decide +kernel)
  (by decide +kernel) (by decide +kernel) (M := 13)
  (by show |val (f32 0)| ≤ 13; rw [val_eq, show ratVal (up (f32 0)) = 0 by decide +kernel]; norm_num)
  (by show |val (f32 13)| ≤ 13; rw [val_eq, show ratVal (up (f32 13)) = 13 by decide +kernel]; norm_num)

end Pbrt
