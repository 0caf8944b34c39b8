import Verif.Props.Sphere
import Verif.Props.Offsets
import Verif.Props.UnitVectors
import Verif.Props.Interpolation

/-!
# C76, continued: boxes whose sphere overflows, and boxes for which it cannot
-/

namespace Pbrt
open Spec

section
variable {T : Type} [Elem T] [As T T] [FloatFns T] [IEEE T]

local notation "𝔽" => IEEE.fmt T
local notation "ε" => unitRoundoff T
local notation "two" => (Elem.fromInt 2 : T)
local notation "z" => (Elem.fromInt 0 : T)

theorem sphere_defined (b : Bounds3 T) : ∃ c r, b.boundingSphere = .ok (c, r) := by
  simp only [Bounds3.boundingSphere, Point3.add, Point3.div, Point3.sub, fadd_ok, fdiv_ok, fsub_ok, ok_bind,
    pure_ok, Vector3.ofPoint, flen_vector]
  split
  · exact ⟨_, _, rfl⟩
  · exact ⟨_, _, rfl⟩

theorem halved_finite {a : T} (ha : IsFinite a) : IsFinite (fdiv a two) := by
  refine (finite_of_rnd (fdiv_rnd ha finite_two (by rw [val_two]; norm_num)) (inSpan_lt_big ?_)).1
  rw [val_two]
  rcases le_total (val a) 0 with h | h
  · exact ⟨a, z, ha, finite_zero, by linarith, by rw [val_zero]; linarith⟩
  · exact ⟨z, a, finite_zero, ha, by rw [val_zero]; linarith, by linarith⟩

/-- **C76**: the centre of a box of finite floats is finite, or the radius is 0. -/
theorem C76_overflow (b : Bounds3 T) (hb : ∀ i, IsFinite (b.pMin.get i) ∧ IsFinite (b.pMax.get i)) (c : Point3 T)
    (r : T) (h : b.boundingSphere = .ok (c, r)) : (∀ i, IsFinite (c.get i)) ∨ r = z := by
  by_cases hc : b.Has c
  · exact .inl fun i => finite_between (hb i).1 (hb i).2 (hc i).1 (hc i).2
  · exact .inr ((sphere_ok b c r h).2.2 hc)

theorem sphere_range (U : Usual T) (b : Bounds3 T) (hw : b.WellFormed)
    (hb : ∀ i, IsFinite (b.pMin.get i) ∧ IsFinite (b.pMax.get i)) {M : ℝ}
    (hM : ∀ i, |b.pMin.at i| ≤ M ∧ |b.pMax.at i| ≤ M) (h1 : 4 * M ≤ big 𝔽) (h2 : 64 * M ^ 2 ≤ big 𝔽) :
    ∃ c r, b.boundingSphere = .ok (c, r) ∧ (∀ i, IsFinite (c.get i)) ∧ IsFinite r := by
  obtain ⟨c, r, h⟩ := sphere_defined b
  obtain ⟨g1, g2, -⟩ := sphere_ok b c r h
  have hc : ∀ i, IsFinite (c.get i) := by
    intro i
    rw [g1 i]
    have hs : IsFinite (fadd (b.pMin.get i) (b.pMax.get i)) := by
      refine rnd_half_big U (fadd_rnd (hb i).1 (hb i).2) ?_
      have := abs_add_le (b.pMin.at i) (b.pMax.at i)
      have := (hM i).1
      have := (hM i).2
      change |b.pMin.at i + b.pMax.at i| ≤ _
      linarith
    exact halved_finite hs
  obtain ⟨hin, hmid⟩ := C76_center b hw c r h hc
  refine ⟨c, r, h, hc, ?_⟩
  have hl := g2 hin
  have hd : ∀ i, |val (c.get i) - val (b.pMax.get i)| ≤ 2 * M := by
    intro i
    have k1 := (le_iff_val (hb i).1 (hc i)).1 (hin i).1
    have k2 := (le_iff_val (hc i) (hb i).2).1 (hin i).2
    have m1 := abs_le.1 (hM i).1
    have m2 := abs_le.1 (hM i).2
    have m1' : -M ≤ val (b.pMin.get i) := m1.1
    have m2' : val (b.pMax.get i) ≤ M := m2.2
    rw [abs_le]
    constructor <;> linarith
  have M0 : 0 ≤ M := (abs_nonneg _).trans (hM 0).1
  have fd : ∀ i, IsFinite (fsub (c.get i) (b.pMax.get i)) := fun i =>
    rnd_half_big U (fsub_rnd (hc i) (hb i).2) (by have := hd i; linarith)
  have sq : ∀ i, val (fsub (c.get i) (b.pMax.get i)) ^ 2 ≤ 5 * M ^ 2 := by
    intro i
    have k := fsub_err (fd i)
    have e1 := U.eps
    have e0 := eps_pos (T := T)
    have t := abs_sub_abs_le_abs_sub (val (fsub (c.get i) (b.pMax.get i))) (val (c.get i) - val (b.pMax.get i))
    have a0 := abs_nonneg (val (c.get i) - val (b.pMax.get i))
    have := mul_le_mul_of_nonneg_right e1 a0
    have hle : |val (fsub (c.get i) (b.pMax.get i))| ≤ 1001 / 1000 * (2 * M) := by
      have := hd i
      linarith
    rw [← sq_abs]
    have := pow_le_pow_left₀ (abs_nonneg _) hle 2
    nlinarith [sq_nonneg M]
  obtain ⟨l, hl', fl⟩ := len_finite U ⟨fsub c.x b.pMax.x, fsub c.y b.pMax.y, fsub c.z b.pMax.z⟩
    (fun i => by fin_cases i; exacts [fd 0, fd 1, fd 2]) (by
      rw [Fin.sum_univ_three]
      have s0 := sq 0
      have s1 := sq 1
      have s2 := sq 2
      change val (fsub c.x b.pMax.x) ^ 2 + val (fsub c.y b.pMax.y) ^ 2 + val (fsub c.z b.pMax.z) ^ 2 ≤ _
      change val (fsub c.x b.pMax.x) ^ 2 ≤ _ at s0
      change val (fsub c.y b.pMax.y) ^ 2 ≤ _ at s1
      change val (fsub c.z b.pMax.z) ^ 2 ≤ _ at s2
      linarith [sq_nonneg M])
  rw [hl, Except.ok.injEq] at hl'
  rw [hl']
  exact fl

end

/-- **C76**: for a box with `f32` coordinates up to `2 ^ 61` nothing overflows, so the sphere contains the
    box up to rounding errors. -/
theorem C76_range_f32 (b : Bounds3 Float32.Model) (hw : b.WellFormed)
    (hb : ∀ i, IsFinite (b.pMin.get i) ∧ IsFinite (b.pMax.get i))
    (hM : ∀ i, |b.pMin.at i| ≤ 2 ^ 61 ∧ |b.pMax.at i| ≤ 2 ^ 61) :
    ∃ c r, b.boundingSphere = .ok (c, r) ∧ (∀ i, IsFinite (c.get i)) ∧ IsFinite r ∧
      ∀ (m : ℝ), (∀ i, |(b.pMin.at i + b.pMax.at i) / 2| ≤ m) → ∀ p, b.Region p →
        distance p c.at ≤ (1 + 2 ^ (-22 : ℤ)) * val r + 2 ^ (-22 : ℤ) * m + 2 ^ (-73 : ℤ) := by
  have e3 : big (IEEE.fmt Float32.Model) = 2 ^ (128 : ℤ) := rfl
  obtain ⟨c, r, h, hc, hr⟩ := sphere_range usual32 b hw hb hM (by rw [e3]; norm_num) (by rw [e3]; norm_num)
  exact ⟨c, r, h, hc, hr, fun m hm p hp => C76_contains_f32 b hw c r h hc hr m hm p hp⟩

/-- **C76**: for a box with `f64` coordinates up to `2 ^ 509` nothing overflows. -/
theorem C76_range_f64 (b : Bounds3 Float.Model) (hw : b.WellFormed)
    (hb : ∀ i, IsFinite (b.pMin.get i) ∧ IsFinite (b.pMax.get i))
    (hM : ∀ i, |b.pMin.at i| ≤ 2 ^ 509 ∧ |b.pMax.at i| ≤ 2 ^ 509) :
    ∃ c r, b.boundingSphere = .ok (c, r) ∧ (∀ i, IsFinite (c.get i)) ∧ IsFinite r ∧
      ∀ (m : ℝ), (∀ i, |(b.pMin.at i + b.pMax.at i) / 2| ≤ m) → ∀ p, b.Region p →
        distance p c.at ≤ (1 + 2 ^ (-51 : ℤ)) * val r + 2 ^ (-51 : ℤ) * m + 2 ^ (-535 : ℤ) := by
  have e3 : big (IEEE.fmt Float.Model) = 2 ^ (1024 : ℤ) := rfl
  obtain ⟨c, r, h, hc, hr⟩ := sphere_range usual64 b hw hb hM
    (by rw [e3, show (1024 : ℤ) = ((1024 : ℕ) : ℤ) from rfl, zpow_natCast, show (4 : ℝ) = 2 ^ 2 by norm_num, ← pow_add]
        exact pow_le_pow_right₀ (by norm_num) (by norm_num))
    (by rw [e3, show (1024 : ℤ) = ((1024 : ℕ) : ℤ) from rfl, zpow_natCast, show (64 : ℝ) = 2 ^ 6 by norm_num, ← pow_mul,
          ← pow_add])
  exact ⟨c, r, h, hc, hr, fun m hm p hp => C76_contains_f64 b hw c r h hc hr m hm p hp⟩

-- the hypotheses hold of the box from (0, 0, 0) to (2, 4, 4); the box of `C76_overflow_refuted` has a radius of 0
open UnitTests in
example : (⟨fp 0 0 0, fp 2 4 4⟩ : Bounds3 Float32.Model).WellFormed ∧
    (∀ i, IsFinite ((⟨fp 0 0 0, fp 2 4 4⟩ : Bounds3 Float32.Model).pMin.get i) ∧
      IsFinite ((⟨fp 0 0 0, fp 2 4 4⟩ : Bounds3 Float32.Model).pMax.get i)) ∧
    ∀ i, |(⟨fp 0 0 0, fp 2 4 4⟩ : Bounds3 Float32.Model).pMin.at i| ≤ 2 ^ 61 ∧
      |(⟨fp 0 0 0, fp 2 4 4⟩ : Bounds3 Float32.Model).pMax.at i| ≤ 2 ^ 61 := by
  refine ⟨by decide +kernel, by decide +kernel, ?_⟩
  have h : ∀ n : ℤ, val (f32 n) = (ratVal (up (f32 n)) : ℝ) := fun n => val_eq (f32 n)
  have h0 : val (f32 0) = 0 := by rw [h, show ratVal (up (f32 0)) = 0 by decide +kernel]; norm_num
  have h2 : val (f32 2) = 2 := by rw [h, show ratVal (up (f32 2)) = 2 by decide +kernel]; norm_num
  have h4 : val (f32 4) = 4 := by rw [h, show ratVal (up (f32 4)) = 4 by decide +kernel]; norm_num
  intro i
  fin_cases i
  · change |val (f32 0)| ≤ _ ∧ |val (f32 2)| ≤ _; rw [h0, h2]; norm_num
  · change |val (f32 0)| ≤ _ ∧ |val (f32 4)| ≤ _; rw [h0, h4]; norm_num
  · change |val (f32 0)| ≤ _ ∧ |val (f32 4)| ≤ _; rw [h0, h4]; norm_num

end Pbrt
