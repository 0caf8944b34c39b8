import Verif.Proof.Frame
import Verif.Proof.Mirror
import Verif.Proof.Nearest

/-!
# Lemmas for the bounding sphere of a box of floats
-/

namespace Pbrt

open Float.Model (UnpackedFloat Format)

/-- Half of a number of the grid is rounded by at most half the smallest number. -/
theorem RN_half_rep (g : Grid) {x : ℝ} (h : g.Rep x) : |g.RN (x / 2) - x / 2| ≤ 2 ^ (g.emin - 1) := by
  obtain ⟨m, e, h1, h2, rfl⟩ := h
  have hpos : (0 : ℝ) ≤ 2 ^ (g.emin - 1) := by positivity
  rcases h2.lt_or_eq with h2 | rfl
  · rw [RN_rep ⟨m, e - 1, h1, by omega, by rw [zpow_sub_one₀ (by norm_num)]; ring⟩, sub_self, abs_zero]
    exact hpos
  · have hz : (2 : ℝ) ^ g.emin = 2 * 2 ^ (g.emin - 1) := by
      rw [zpow_sub_one₀ (by norm_num)]; ring
    have hp : (1 : ℤ) ≤ 2 ^ g.p := one_le_pow₀ (by norm_num)
    rw [abs_le] at h1
    have hm := Int.emod_add_mul_ediv m 2
    have hr := Int.emod_two_eq m
    have r1 := RN_rep (g := g) (x := ((m / 2 : ℤ) : ℝ) * 2 ^ g.emin)
      ⟨m / 2, g.emin, by rw [abs_le]; omega, le_refl _, rfl⟩
    have r2 := RN_rep (g := g) (x := ((m - m / 2 : ℤ) : ℝ) * 2 ^ g.emin)
      ⟨m - m / 2, g.emin, by rw [abs_le]; omega, le_refl _, rfl⟩
    have c1 : 2 * ((m / 2 : ℤ) : ℝ) ≤ m := by
      have : 2 * (m / 2) ≤ m := by omega
      exact_mod_cast this
    have c2 : (m : ℝ) ≤ 2 * ((m - m / 2 : ℤ) : ℝ) := by
      have : m ≤ 2 * (m - m / 2) := by omega
      exact_mod_cast this
    have c3 : (m : ℝ) ≤ 2 * ((m / 2 : ℤ) : ℝ) + 1 := by
      have : m ≤ 2 * (m / 2) + 1 := by omega
      exact_mod_cast this
    have c4 : 2 * ((m - m / 2 : ℤ) : ℝ) ≤ m + 1 := by
      have : 2 * (m - m / 2) ≤ m + 1 := by omega
      exact_mod_cast this
    rw [hz] at *
    generalize (2 : ℝ) ^ (g.emin - 1) = t at *
    generalize ((m / 2 : ℤ) : ℝ) = k at *
    generalize ((m - m / 2 : ℤ) : ℝ) = l at *
    have m1 := RN_mono (g := g) (x := k * (2 * t)) (y := m * (2 * t) / 2) (by nlinarith)
    have m2 := RN_mono (g := g) (x := m * (2 * t) / 2) (y := l * (2 * t)) (by nlinarith)
    rw [r1] at m1
    rw [r2] at m2
    rw [abs_le]
    constructor <;> nlinarith

section
variable {T : Type} [Elem T] [As T T] [FloatFns T] [IEEE T]

local notation "𝔽" => IEEE.fmt T
local notation "ε" => unitRoundoff T
local notation "η" => tiny T
local notation "two" => (Elem.fromInt 2 : T)

theorem finite_two : IsFinite two := (fromInt_small 2 (by norm_num)).1
theorem val_two : val two = 2 := by exact_mod_cast (fromInt_small (T := T) 2 (by norm_num)).2

theorem RN_double (a : T) : (grid 𝔽).RN (val a + val a) = val a + val a := by
  obtain ⟨m, e, h1, h2, h3⟩ := rep_val a
  refine RN_rep ⟨m, e + 1, h1, by omega, ?_⟩
  rw [h3, zpow_add_one₀ (by norm_num)]
  ring

/-- Only a finite number has a finite half. -/
theorem half_finite {a : T} (h : IsFinite (fdiv a two)) : IsFinite a := by
  obtain ⟨t, m, e, hm, hu⟩ := (val_ne_zero_iff (finite_two (T := T))).1 (by rw [val_two]; norm_num)
  rw [isFinite_iff] at *
  rw [up_fdiv, hu] at h
  cases ha : up a with
  | infinity s => rw [ha] at h; exact h
  | notANumber => rw [ha] at h; exact h
  | zero s => trivial
  | finite s m e hm => trivial

/-- The middle of two floats, rounded, lies between them. -/
theorem middle {a b : T} (hab : val a ≤ val b) (hc : IsFinite (fdiv (fadd a b) two)) :
    IsFinite a ∧ IsFinite b ∧ val a ≤ val (fdiv (fadd a b) two) ∧ val (fdiv (fadd a b) two) ≤ val b ∧
    |val (fdiv (fadd a b) two) - (val a + val b) / 2| ≤ ε * |(val a + val b) / 2| + η := by
  have hs := half_finite hc
  obtain ⟨ha, hb⟩ := fadd_finite hs
  have v1 := val_of_rnd (fadd_rnd ha hb) hs
  have v2 := val_of_rnd (fdiv_rnd hs finite_two (by rw [val_two]; norm_num)) hc
  rw [val_two] at v2
  have h1 := RN_mono (g := grid 𝔽) (x := val a + val a) (y := val a + val b) (by linarith)
  have h2 := RN_mono (g := grid 𝔽) (x := val a + val b) (y := val b + val b) (by linarith)
  rw [RN_double, ← v1] at h1 h2
  have h3 := RN_mono (g := grid 𝔽) (x := val a) (y := val (fadd a b) / 2) (by linarith)
  have h4 := RN_mono (g := grid 𝔽) (x := val (fadd a b) / 2) (y := val b) (by linarith)
  rw [RN_val, ← v2] at h3 h4
  refine ⟨ha, hb, h3, h4, ?_⟩
  have e1 := fadd_err hs
  have e2 := RN_half_rep (grid 𝔽) (rep_val (fadd a b))
  rw [← v2] at e2
  change _ ≤ η at e2
  rw [abs_div, abs_of_pos (show (0 : ℝ) < 2 by norm_num)]
  rw [abs_le] at *
  constructor <;> linarith

end

/-- Moving each of three coordinates by at most `e` -/
theorem sq_sum_shift {u v w e : ℝ} (he : 0 ≤ e) :
    (u + e) ^ 2 + (v + e) ^ 2 + (w + e) ^ 2 ≤ (√(u ^ 2 + v ^ 2 + w ^ 2) + 7 / 4 * e) ^ 2 := by
  have h0 : 0 ≤ u ^ 2 + v ^ 2 + w ^ 2 := by positivity
  have hd := Real.sq_sqrt h0
  have hd0 := Real.sqrt_nonneg (u ^ 2 + v ^ 2 + w ^ 2)
  set d := √(u ^ 2 + v ^ 2 + w ^ 2)
  have h1 : u + v + w ≤ 7 / 4 * d := by
    refine le_of_sq_le_sq ?_ (by positivity)
    nlinarith [sq_nonneg (u - v), sq_nonneg (v - w), sq_nonneg (w - u)]
  nlinarith [mul_le_mul_of_nonneg_left h1 he]

theorem factor7 {e : ℝ} (he : 0 < e) (he' : e ≤ 1 / 1000) : (1 + e) ^ 7 ≤ (1 + 4 * e) ^ 2 := by
  have h2 : 0 ≤ e ^ 2 := by positivity
  have h3 : e ^ 3 ≤ e ^ 2 / 1000 := by nlinarith
  have h4 : e ^ 4 ≤ e ^ 2 / 1000 := by nlinarith [pow_le_one₀ he.le (show e ≤ 1 by linarith) (n := 1)]
  have h5 : e ^ 5 ≤ e ^ 2 / 1000 := by nlinarith
  have h6 : e ^ 6 ≤ e ^ 2 / 1000 := by nlinarith
  have h7 : e ^ 7 ≤ e ^ 2 / 1000 := by nlinarith
  nlinarith

theorem factor_lower {e : ℝ} (he : 0 < e) (he' : e ≤ 1 / 1000) :
    1 ≤ (1 - e) ^ 4 * (2 - (1 + e) ^ 3) * (1 + 4 * e) ^ 2 := by
  have a1 : 1 - 4 * e ≤ (1 - e) ^ 4 := by nlinarith [sq_nonneg e, sq_nonneg (e ^ 2), mul_pos he he]
  have a2 : 1 - 301 / 100 * e ≤ 2 - (1 + e) ^ 3 := by nlinarith [mul_pos he he]
  have a3 : 1 + 8 * e ≤ (1 + 4 * e) ^ 2 := by nlinarith
  have b1 : (1 - 4 * e) * (1 - 301 / 100 * e) ≤ (1 - e) ^ 4 * (2 - (1 + e) ^ 3) :=
    mul_le_mul a1 a2 (by linarith) (by positivity)
  have b2 : 1 - 701 / 100 * e ≤ (1 - 4 * e) * (1 - 301 / 100 * e) := by nlinarith
  calc (1 : ℝ) ≤ (1 - 701 / 100 * e) * (1 + 8 * e) := by nlinarith
    _ ≤ _ := mul_le_mul (b2.trans b1) a3 (by linarith) (by linarith)

/-- The lower bound of a computed radius, solved for the exact one -/
theorem radius_lower {e n D S r : ℝ} (he : 0 < e) (he' : e ≤ 1 / 1000) (hn : 0 ≤ n) (hD : 0 ≤ D)
    (h1 : (1 - e) ^ 2 * D ≤ S) (hS : (1 - e) ^ 2 * ((2 - (1 + e) ^ 3) * S - 3 * n * (1 + e) ^ 3) ≤ r ^ 2) (hr : 0 ≤ r) :
    √D ≤ (1 + 4 * e) * r + 2 * √n := by
  have hq := Real.sqrt_nonneg n
  have hqq := Real.sq_sqrt hn
  have hrq := mul_nonneg hr hq
  have hc : 0 < (1 - e) ^ 4 * (2 - (1 + e) ^ 3) := by
    have : (1 + e) ^ 3 ≤ 3 / 2 := (pow_le_pow_left₀ (by linarith) (show 1 + e ≤ 1001 / 1000 by linarith) 3).trans (by norm_num)
    exact mul_pos (pow_pos (by linarith) 4) (by linarith)
  refine Real.sqrt_le_iff.2 ⟨by positivity, ?_⟩
  have k0 : 1 ≤ (1 - e) ^ 4 * (2 - (1 + e) ^ 3) * (1 + 4 * e) ^ 2 := factor_lower he he'
  have k1 : (1 - e) ^ 4 * (2 - (1 + e) ^ 3) * D ≤ r ^ 2 + 3 * n * ((1 - e) ^ 2 * (1 + e) ^ 3) := by
    have hx : 0 ≤ (1 - e) ^ 2 * (2 - (1 + e) ^ 3) := by
      have := hc.le
      have h2 : 0 < (1 - e) ^ 2 := pow_pos (by linarith) 2
      by_contra hneg
      push Not at hneg
      nlinarith
    have := mul_le_mul_of_nonneg_left h1 hx
    linarith [show (1 - e) ^ 2 * (2 - (1 + e) ^ 3) * ((1 - e) ^ 2 * D) = (1 - e) ^ 4 * (2 - (1 + e) ^ 3) * D by ring,
      show (1 - e) ^ 2 * ((2 - (1 + e) ^ 3) * S - 3 * n * (1 + e) ^ 3) =
        (1 - e) ^ 2 * (2 - (1 + e) ^ 3) * S - 3 * n * ((1 - e) ^ 2 * (1 + e) ^ 3) by ring]
  have k2 : (1 - e) ^ 2 * (1 + e) ^ 3 ≤ 101 / 100 := by
    have a1 : (1 - e) ^ 2 ≤ 1 := pow_le_one₀ (by linarith) (by linarith)
    have a2 : (1 + e) ^ 3 ≤ 101 / 100 := (pow_le_pow_left₀ (by linarith) (show 1 + e ≤ 1001 / 1000 by linarith) 3).trans (by norm_num)
    calc _ ≤ 1 * (101 / 100 : ℝ) := mul_le_mul a1 a2 (by positivity) (by norm_num)
      _ = _ := one_mul _
  have k3 : (1 + 4 * e) ^ 2 ≤ 102 / 100 := (pow_le_pow_left₀ (by linarith) (show 1 + 4 * e ≤ 1004 / 1000 by linarith) 2).trans (by norm_num)
  have k4 : 0 ≤ (1 + 4 * e) ^ 2 := by positivity
  have k5 : D ≤ (1 + 4 * e) ^ 2 * (r ^ 2 + 3 * n * (101 / 100)) := by
    have b1 := mul_le_mul_of_nonneg_right k0 hD
    have b2 := mul_le_mul_of_nonneg_left k1 k4
    have b3 := mul_le_mul_of_nonneg_left (mul_le_mul_of_nonneg_left k2 (show 0 ≤ 3 * n by linarith)) k4
    linarith
  have k6 := mul_le_mul_of_nonneg_right k3 (show 0 ≤ 3 * n * (101 / 100) by positivity)
  have k7 := mul_nonneg he.le hrq
  have : ((1 + 4 * e) * r + 2 * √n) ^ 2 =
    (1 + 4 * e) ^ 2 * r ^ 2 + 4 * (r * √n) + 16 * (e * (r * √n)) + 4 * √n ^ 2 := by ring
  rw [this, hqq]
  linarith

/-- The upper bound of a computed radius -/
theorem radius_upper {e n D S r : ℝ} (he : 0 < e) (he' : e ≤ 1 / 1000) (hn : 0 ≤ n) (hD : 0 ≤ D)
    (h1 : S ≤ (1 + e) ^ 2 * D) (hS : r ^ 2 ≤ (S + 3 * n) * (1 + e) ^ 5) :
    r ≤ (1 + 4 * e) * √D + 2 * √n := by
  have hq := Real.sqrt_nonneg n
  have hqq := Real.sq_sqrt hn
  have hd := Real.sqrt_nonneg D
  have hdd := Real.sq_sqrt hD
  have hdq := mul_nonneg hd hq
  have p5 : 0 ≤ (1 + e) ^ 5 := by positivity
  have p7 : (1 + e) ^ 7 ≤ (1 + 4 * e) ^ 2 := factor7 he he'
  have p5' : (1 + e) ^ 5 ≤ 4 / 3 := (pow_le_pow_left₀ (by linarith) (show 1 + e ≤ 1001 / 1000 by linarith) 5).trans (by norm_num)
  have k1 : r ^ 2 ≤ (1 + e) ^ 7 * D + 3 * n * (1 + e) ^ 5 := by
    have := mul_le_mul_of_nonneg_right h1 p5
    linarith [show (1 + e) ^ 2 * D * (1 + e) ^ 5 = (1 + e) ^ 7 * D by ring]
  have k2 := mul_le_mul_of_nonneg_right p7 hD
  have k3 := mul_le_mul_of_nonneg_left p5' (show 0 ≤ 3 * n by linarith)
  refine le_of_sq_le_sq ?_ (by positivity)
  have k4 := mul_nonneg he.le hdq
  have : ((1 + 4 * e) * √D + 2 * √n) ^ 2 =
    (1 + 4 * e) ^ 2 * √D ^ 2 + 4 * (√D * √n) + 16 * (e * (√D * √n)) + 4 * √n ^ 2 := by ring
  rw [this, hdd, hqq]
  linarith

theorem sqrt_tiny64 : √(tiny Float.Model) ≤ 2 ^ (-537 : ℤ) := by
  refine Real.sqrt_le_iff.2 ⟨by positivity, ?_⟩
  rw [show tiny Float.Model = 2 ^ (-1075 : ℤ) from rfl, ← zpow_natCast, ← zpow_mul]
  exact zpow_le_zpow_right₀ (by norm_num) (by norm_num)

end Pbrt
