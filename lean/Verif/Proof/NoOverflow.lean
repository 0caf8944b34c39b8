import Verif.Proof.Nearest
import Verif.Proof.FloatErr
import Mathlib.Tactic.Linarith
import Mathlib.Tactic.Ring
import Mathlib.Tactic.FieldSimp

/-!
# Why an average of two floats does not overflow

Multiplying the largest float by a float `s` in `[0, 1]` loses a little: the rounded product stays
below `s` times the first number that is too large. The loss makes up for the rounding of `1 - t`.
-/

namespace Pbrt

/-- Every positive number of at most `p` bits has a multiple by a power of two with exactly `p` bits
    (or equal to `2 ^ p`). -/
theorem scale_up (p : ℕ) : ∀ n : ℕ, 0 < n → n ≤ 2 ^ p → ∃ j ≤ p, 2 ^ p < 2 * (n * 2 ^ j) ∧ n * 2 ^ j ≤ 2 ^ p := by
  induction p with
  | zero => intro n h0 h1; exact ⟨0, le_refl _, by norm_num at *; omega, by simpa using h1⟩
  | succ p ih =>
    intro n h0 h1
    by_cases h : n ≤ 2 ^ p
    · obtain ⟨j, hj, h2, h3⟩ := ih n h0 h
      refine ⟨j + 1, by omega, ?_, ?_⟩ <;> rw [pow_succ, pow_succ] <;> nlinarith
    · exact ⟨0, by omega, by rw [pow_succ]; omega, by simpa using h1⟩

variable {g : Grid}

/-- A representable number times `1 - 2 ^ -p`, rounded, loses at least one unit in the last place. -/
theorem RN_shrink {m : ℤ} {e : ℤ} (hm : (2 : ℤ) ^ g.p < 2 * m) (hm' : m ≤ 2 ^ g.p) (he : g.emin ≤ e) :
    g.RN (m * (1 - 2 ^ (-(g.p : ℤ))) * 2 ^ e) ≤ (m - 1) * 2 ^ e := by
  set u : ℝ := 2 ^ (-(g.p : ℤ)) with hu
  have u0 : 0 < u := two_zpow_pos _
  have up : u * 2 ^ g.p = 1 := by
    rw [hu, zpow_neg, zpow_natCast]; exact inv_mul_cancel₀ (by positivity)
  have E := two_zpow_pos e
  have hmR : (2 : ℝ) ^ g.p < 2 * m := by exact_mod_cast hm
  have hmR' : (m : ℝ) ≤ 2 ^ g.p := by exact_mod_cast hm'
  have k1 : 1 / 2 < m * u := by nlinarith
  have k2 : m * u ≤ 1 := by nlinarith
  have hp : (2 : ℤ) ^ g.p = 2 * 2 ^ (g.p - 1) := by
    have := g.hp
    rw [← pow_succ']; congr 1; omega
  have k3 : (2 : ℤ) ^ (g.p - 1) ≤ m - 1 := by omega
  have k3R : (2 : ℝ) ^ (g.p - 1) ≤ m - 1 := by exact_mod_cast k3
  set z : ℝ := m * (1 - u) * 2 ^ e with hz
  have z1 : (m - 1) * 2 ^ e ≤ z := by
    rw [hz]; exact mul_le_mul_of_nonneg_right (by nlinarith) E.le
  have hpos : (0 : ℝ) < 2 ^ (g.p - 1) := by positivity
  have z0 : 0 < z := lt_of_lt_of_le (by nlinarith) z1
  have hexp : e ≤ g.ulpExp z := by
    refine le_max_of_le_left ?_
    rw [abs_of_pos z0]
    have : e + g.p - 1 ≤ Int.log 2 z := by
      rw [← Int.zpow_le_iff_le_log (by norm_num) z0]
      have h5 : ((2 : ℕ) : ℝ) ^ (e + g.p - 1) = 2 ^ (g.p - 1) * 2 ^ e := by
        have := g.hp
        rw [← zpow_natCast, ← zpow_add₀ (by norm_num)]
        push_cast
        congr 1
        omega
      rw [h5]
      exact le_trans (mul_le_mul_of_nonneg_right k3R E.le) z1
    omega
  obtain ⟨n, hn⟩ := zpow_mul_of_le hexp
  have hrep : g.Rep ((m - 1) * 2 ^ e) := by
    refine ⟨m - 1, e, ?_, he, by push_cast; ring⟩
    have : (0 : ℤ) < 2 ^ (g.p - 1) := by positivity
    rw [abs_of_nonneg (by omega)]
    omega
  have near := RN_nearest (x := z) hrep
  have h6 : |(m - 1) * 2 ^ e - z| = (1 - m * u) * 2 ^ e := by
    rw [abs_of_nonpos (by linarith), hz]; ring
  rw [h6] at near
  have h7 : g.RN z < m * 2 ^ e := by
    have := (le_abs_self _).trans near
    have h8 : z + (1 - m * u) * 2 ^ e = (m + (1 - 2 * (m * u))) * 2 ^ e := by rw [hz]; ring
    nlinarith
  have h9 : g.RN z = (rne (z / 2 ^ g.ulpExp z) * n : ℤ) * 2 ^ e := by
    have : g.RN z = rne (z / 2 ^ g.ulpExp z) * 2 ^ g.ulpExp z := rfl
    rw [this]
    nth_rewrite 2 [hn]
    push_cast
    ring
  rw [h9] at h7 ⊢
  have h10 := lt_of_mul_lt_mul_right h7 E.le
  have h11 : rne (z / 2 ^ g.ulpExp z) * n ≤ m - 1 := by
    have : rne (z / 2 ^ g.ulpExp z) * n < m := by exact_mod_cast h10
    omega
  refine mul_le_mul_of_nonneg_right ?_ E.le
  exact_mod_cast h11

/-- The rounded product of a representable number of `[0, 1]` and the largest number below `2 ^ (E + p)` -/
theorem RN_part {x : ℝ} (hx : g.Rep x) (h0 : 0 ≤ x) (h1 : x ≤ 1) {E : ℤ} (hE : 0 ≤ E) :
    g.RN (x * ((1 - 2 ^ (-(g.p : ℤ))) * 2 ^ (E + g.p))) ≤ x * 2 ^ (E + g.p) ∧
    (0 < x → g.RN (x * ((1 - 2 ^ (-(g.p : ℤ))) * 2 ^ (E + g.p))) < x * 2 ^ (E + g.p)) ∧
    (1 / 2 < x → g.RN (x * ((1 - 2 ^ (-(g.p : ℤ))) * 2 ^ (E + g.p))) ≤ (x - 2 ^ (-(g.p : ℤ))) * 2 ^ (E + g.p)) := by
  have hB := two_zpow_pos (E + g.p)
  rcases h0.eq_or_lt with rfl | hpos
  · simp only [zero_mul, RN_zero, lt_irrefl, false_implies, true_and]
    refine ⟨le_refl _, ?_⟩
    intro h
    norm_num at h
  obtain ⟨m, e, hm, he, hxe⟩ := hx
  have hE2 := two_zpow_pos e
  have m0 : 0 < m := by
    have : (0 : ℝ) < m := by
      by_contra hc
      have := mul_nonpos_of_nonpos_of_nonneg (not_lt.1 hc) hE2.le
      linarith
    exact_mod_cast this
  rw [abs_of_pos m0] at hm
  lift m to ℕ using m0.le
  obtain ⟨j, hj, k1, k2⟩ := scale_up g.p m (by exact_mod_cast m0) (by exact_mod_cast hm)
  have hx2 : x = ((m * 2 ^ j : ℕ) : ℤ) * 2 ^ (e - j) := by
    rw [hxe]
    push_cast
    rw [zpow_sub₀ (by norm_num), zpow_natCast]
    field_simp
  generalize m * 2 ^ j = n at *
  have hz : x * ((1 - 2 ^ (-(g.p : ℤ))) * 2 ^ (E + g.p)) =
      (n : ℤ) * (1 - 2 ^ (-(g.p : ℤ))) * 2 ^ (e - j + (E + g.p)) := by
    rw [zpow_add₀ (by norm_num) (e - j), hx2]; ring
  have key := RN_shrink (g := g) (m := n) (e := e - j + (E + g.p)) (by exact_mod_cast k1) (by exact_mod_cast k2)
    (by omega)
  rw [← hz] at key
  have hr : ((n : ℤ) - 1 : ℝ) * 2 ^ (e - j + (E + g.p)) = (x - 2 ^ (e - j)) * 2 ^ (E + g.p) := by
    rw [zpow_add₀ (by norm_num) (e - j), hx2]; ring
  rw [hr] at key
  have hej := two_zpow_pos (e - j)
  refine ⟨key.trans (mul_le_mul_of_nonneg_right (by linarith) hB.le), fun _ => key.trans_lt ?_, fun hh => ?_⟩
  · exact mul_lt_mul_of_pos_right (by linarith) hB
  · refine key.trans (mul_le_mul_of_nonneg_right ?_ hB.le)
    have hn : (n : ℝ) ≤ 2 ^ g.p := by exact_mod_cast k2
    have : (2 : ℝ) ^ (-(g.p : ℤ) - 1) < 2 ^ (e - j) := by
      by_contra hc
      have h5 := mul_le_mul hn (not_lt.1 hc) hej.le (by positivity)
      have h6 : (2 : ℝ) ^ g.p * 2 ^ (-(g.p : ℤ) - 1) = 1 / 2 := by
        rw [← zpow_natCast, ← zpow_add₀ (by norm_num)]
        rw [show (g.p : ℤ) + (-(g.p : ℤ) - 1) = -1 by ring]
        norm_num
      rw [h6] at h5
      rw [hx2] at hh
      push_cast at hh
      linarith
    have := (zpow_lt_zpow_iff_right₀ (by norm_num : (1 : ℝ) < 2)).1 this
    have := zpow_le_zpow_right₀ (by norm_num : (1 : ℝ) ≤ 2) (show -(g.p : ℤ) ≤ e - j by omega)
    linarith

/-- Rounding a number below the middle between the largest float and the first number that is too large -/
theorem RN_below {w : ℝ} {E : ℤ} (hmin : g.emin ≤ E) (h : w < (1 - 2 ^ (-(g.p : ℤ)) / 2) * 2 ^ (E + g.p)) :
    g.RN w < 2 ^ (E + g.p) := by
  set u : ℝ := 2 ^ (-(g.p : ℤ)) with hu
  have u0 : 0 < u := two_zpow_pos _
  have hB := two_zpow_pos (E + g.p)
  have hM : (1 - u) * 2 ^ (E + g.p) = (((2 ^ g.p - 1 : ℤ)) : ℝ) * 2 ^ E := by
    rw [zpow_add₀ (by norm_num), zpow_natCast, hu, zpow_neg, zpow_natCast]
    push_cast
    field_simp
  have hr : g.Rep ((1 - u) * 2 ^ (E + g.p)) := by
    refine ⟨_, E, ?_, hmin, hM⟩
    have : (1 : ℤ) ≤ 2 ^ g.p := one_le_pow₀ (by norm_num)
    rw [abs_of_nonneg (by omega)]
    omega
  rcases le_total w ((1 - u) * 2 ^ (E + g.p)) with hw | hw
  · have := RN_mono (g := g) hw
    rw [RN_rep hr] at this
    nlinarith
  · have := RN_nearest (x := w) hr
    rw [abs_of_nonpos (by linarith : (1 - u) * 2 ^ (E + g.p) - w ≤ 0)] at this
    have := (le_abs_self _).trans this
    nlinarith

/-- At most half of the largest number below `2 ^ (E + p)` -/
theorem RN_half_max {x : ℝ} {E : ℤ} (hmin : g.emin ≤ E - 1) (h : x ≤ 1 / 2) :
    g.RN (x * ((1 - 2 ^ (-(g.p : ℤ))) * 2 ^ (E + g.p))) ≤ (1 - 2 ^ (-(g.p : ℤ))) / 2 * 2 ^ (E + g.p) := by
  have hM : (1 - (2 : ℝ) ^ (-(g.p : ℤ))) * 2 ^ (E + g.p) = (((2 ^ g.p - 1 : ℤ)) : ℝ) * 2 ^ E := by
    rw [zpow_add₀ (by norm_num), zpow_natCast, zpow_neg, zpow_natCast]
    push_cast
    field_simp
  have h1 : (1 : ℤ) ≤ 2 ^ g.p := one_le_pow₀ (by norm_num)
  have h1R : (0 : ℝ) ≤ ((2 ^ g.p - 1 : ℤ) : ℝ) := by exact_mod_cast (by omega : (0 : ℤ) ≤ 2 ^ g.p - 1)
  have hr : g.Rep (1 / 2 * ((1 - 2 ^ (-(g.p : ℤ))) * 2 ^ (E + g.p))) := by
    refine ⟨2 ^ g.p - 1, E - 1, ?_, hmin, ?_⟩
    · rw [abs_of_nonneg (by omega)]
      omega
    · rw [hM, zpow_sub₀ (by norm_num)]
      ring
  have h2 : x * ((1 - 2 ^ (-(g.p : ℤ))) * 2 ^ (E + g.p)) ≤ 1 / 2 * ((1 - 2 ^ (-(g.p : ℤ))) * 2 ^ (E + g.p)) := by
    rw [hM]
    exact mul_le_mul_of_nonneg_right h (mul_nonneg h1R (two_zpow_pos E).le)
  have h3 := RN_mono (g := g) h2
  rw [RN_rep hr] at h3
  linarith

/-- The weights `s` and `t`, where `s` is `1 - t` rounded, add up to little more than one. -/
theorem RN_weights {t : ℝ} (h0 : 0 ≤ t) (h1 : t ≤ 1) (hmin : g.emin ≤ -(g.p : ℤ)) :
    g.RN (1 - t) + t ≤ 1 + 2 ^ (-(g.p : ℤ)) / 2 := by
  have u0 := two_zpow_pos (-(g.p : ℤ))
  have rep1 : g.Rep 1 := ⟨1, 0, by simp [one_le_pow₀], by have := g.hp; omega, by simp⟩
  rcases h0.eq_or_lt with rfl | hp
  · rw [sub_zero, RN_rep rep1]; linarith
  rcases h1.eq_or_lt with rfl | hl
  · rw [sub_self, RN_zero]; linarith
  have h := RN_half g (1 - t)
  have : g.ulpExp (1 - t) ≤ -(g.p : ℤ) := by
    refine max_le ?_ hmin
    rw [abs_of_pos (by linarith)]
    have : Int.log 2 (1 - t) < 0 := by
      rw [← Int.lt_zpow_iff_log_lt (by norm_num) (by linarith)]
      simp [hp]
    omega
  have h2 := zpow_le_zpow_right₀ (by norm_num : (1 : ℝ) ≤ 2) this
  have := (le_abs_self _).trans h
  linarith

end Pbrt
