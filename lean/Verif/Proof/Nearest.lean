import Verif.Proof.FloatErr
import Verif.Spec.Literals

/-!
# Rounding gives a nearest float

and `ieeeEnv` is a library that rounds correctly.
-/

namespace Pbrt

open Float.Model (UnpackedFloat Format)
open Pbrt.Spec (Nearest InSpan ratio)

theorem Rep_neg {g : Grid} {x : ℝ} (h : g.Rep x) : g.Rep (-x) := by
  obtain ⟨m, e, h1, h2, rfl⟩ := h
  exact ⟨-m, e, by rwa [abs_neg], h2, by push_cast; ring⟩

/-- No representable number lies strictly between the two multiples of the unit around `x`. -/
theorem rep_gap {g : Grid} {x r : ℝ} (hx : 0 < x) (hr : g.Rep r) :
    r ≤ ⌊x / 2 ^ g.ulpExp x⌋ * 2 ^ g.ulpExp x ∨ (⌊x / 2 ^ g.ulpExp x⌋ + 1) * 2 ^ g.ulpExp x ≤ r := by
  have hu := two_zpow_pos (g.ulpExp x)
  obtain ⟨m, e, hm, he, rfl⟩ := hr
  by_cases hle : g.ulpExp x ≤ e
  · obtain ⟨n, hn⟩ := zpow_mul_of_le hle
    rw [hn, ← mul_assoc, mul_le_mul_iff_left₀ hu, mul_le_mul_iff_left₀ hu]
    rcases le_or_gt (m * n) ⌊x / 2 ^ g.ulpExp x⌋ with h | h
    · exact Or.inl (by exact_mod_cast h)
    · exact Or.inr (by exact_mod_cast h)
  · left
    have h1 : g.ulpExp x = Int.log 2 |x| + 1 - g.p := by
      unfold Grid.ulpExp at *
      omega
    have h2 := Int.zpow_log_le_self (b := 2) (by norm_num) (abs_pos.2 hx.ne')
    rw [abs_of_pos hx] at h1 h2
    push_cast at h2
    have h3 : (2 : ℝ) ^ (g.p - 1) * 2 ^ g.ulpExp x = 2 ^ Int.log 2 x := by
      have := g.hp
      rw [← zpow_natCast, ← zpow_add₀ (by norm_num)]
      congr 1
      omega
    have h4 : (2 ^ (g.p - 1) : ℤ) ≤ ⌊x / 2 ^ g.ulpExp x⌋ := by
      rw [Int.le_floor, le_div_iff₀ hu]
      push_cast
      rw [h3]
      exact h2
    have h5 : ((2 : ℝ) ^ (g.p - 1)) * 2 ^ g.ulpExp x ≤ ⌊x / 2 ^ g.ulpExp x⌋ * 2 ^ g.ulpExp x := by
      refine mul_le_mul_of_nonneg_right ?_ hu.le
      exact_mod_cast h4
    refine le_trans ?_ h5
    have hmR : (m : ℝ) ≤ 2 ^ g.p := by exact_mod_cast (le_abs_self m).trans hm
    calc (m : ℝ) * 2 ^ e ≤ 2 ^ g.p * 2 ^ e := mul_le_mul_of_nonneg_right hmR (two_zpow_pos e).le
      _ = 2 ^ ((g.p : ℤ) + e) := by rw [zpow_add₀ (by norm_num), zpow_natCast]
      _ ≤ 2 ^ Int.log 2 x := zpow_le_zpow_right₀ (by norm_num) (by omega)
      _ = _ := h3.symm

theorem RN_nearest_pos {g : Grid} {x r : ℝ} (hx : 0 < x) (hr : g.Rep r) : |g.RN x - x| ≤ |r - x| := by
  have hu := two_zpow_pos (g.ulpExp x)
  have h1 := RN_half g x
  have h2 : (⌊x / 2 ^ g.ulpExp x⌋ : ℝ) * 2 ^ g.ulpExp x ≤ x := by
    rw [← le_div_iff₀ hu]; exact Int.floor_le _
  have h3 : x < ((⌊x / 2 ^ g.ulpExp x⌋ : ℝ) + 1) * 2 ^ g.ulpExp x := by
    rw [← div_lt_iff₀ hu]; exact Int.lt_floor_add_one _
  have key : |g.RN x - x| ≤ x - ⌊x / 2 ^ g.ulpExp x⌋ * 2 ^ g.ulpExp x ∧
      |g.RN x - x| ≤ (⌊x / 2 ^ g.ulpExp x⌋ + 1) * 2 ^ g.ulpExp x - x := by
    rcases rne_cases (x / 2 ^ g.ulpExp x) with h | h
    · have e : g.RN x = ⌊x / 2 ^ g.ulpExp x⌋ * 2 ^ g.ulpExp x := by unfold Grid.RN; rw [h]
      rw [e] at h1 ⊢
      rw [abs_of_nonpos (by linarith)] at h1 ⊢
      constructor <;> linarith
    · have e : g.RN x = (⌊x / 2 ^ g.ulpExp x⌋ + 1) * 2 ^ g.ulpExp x := by
        unfold Grid.RN; rw [h]; push_cast; rfl
      rw [e] at h1 ⊢
      rw [abs_of_nonneg (by linarith)] at h1 ⊢
      constructor <;> linarith
  rcases rep_gap hx hr with h | h
  · have := neg_le_abs (r - x)
    linarith [key.1]
  · have := le_abs_self (r - x)
    linarith [key.2]

/-- Rounding gives a number with `p` bits that is nearest. -/
theorem RN_nearest {g : Grid} {x r : ℝ} (hr : g.Rep r) : |g.RN x - x| ≤ |r - x| := by
  rcases lt_trichotomy x 0 with hx | rfl | hx
  · have := RN_nearest_pos (g := g) (x := -x) (r := -r) (by linarith) (Rep_neg hr)
    rw [RN_neg] at this
    rwa [← abs_neg (g.RN x - x), ← abs_neg (r - x), neg_sub', neg_sub']
  · rw [RN_zero]; simp
  · exact RN_nearest_pos hx hr

section
variable {T : Type} [Elem T] [As T T] [FloatFns T] [IEEE T]

local notation "𝔽" => IEEE.fmt T
local notation "ε" => unitRoundoff T
local notation "η" => tiny T

theorem RN_val (a : T) : (grid 𝔽).RN (val a) = val a :=
  RN_uval (up_canon a)

theorem rep_val (a : T) : (grid 𝔽).Rep (val a) := by
  rw [← RN_val]; exact rep_RN _

theorem val_lt_big {a : T} (h : IsFinite a) : |val a| < big 𝔽 := by
  have h1 := rnd_val h
  have hb := big_pos 𝔽
  unfold rnd at h1
  rw [RN_val] at h1
  rw [abs_lt]
  split_ifs at h1 with h2 h3
  · simp at h1
  · simp at h1
  · constructor <;> linarith

theorem inSpan_lt_big {x : ℝ} (h : InSpan T x) : |(grid 𝔽).RN x| < big 𝔽 := by
  obtain ⟨a, b, ha, hb, h1, h2⟩ := h
  have h3 := RN_mono (g := grid 𝔽) h1
  have h4 := RN_mono (g := grid 𝔽) h2
  rw [RN_val] at h3
  rw [RN_val] at h4
  have := abs_lt.1 (val_lt_big ha)
  have := abs_lt.1 (val_lt_big hb)
  rw [abs_lt]
  constructor <;> linarith

/-- The float of a rounded number -/
theorem pk_rounded {u : UnpackedFloat} {x : ℝ} (h : Rounded 𝔽 x u) (hx : |(grid 𝔽).RN x| < big 𝔽) :
    IsFinite (IEEE.pk u : T) ∧ val (IEEE.pk u : T) = (grid 𝔽).RN x := by
  have h3 := uext_over IEEE.heb h
  have hu : up (IEEE.pk u : T) = over 𝔽 u := up_pk h.canon
  have hrnd : rnd 𝔽 x = ((grid 𝔽).RN x : ℝ) := by
    unfold rnd
    rw [abs_lt] at hx
    rw [if_neg (by linarith), if_neg (by linarith)]
  refine finite_of_ext ?_ ?_
  · rw [nan_iff, hu]; exact h3.2
  · unfold ext; rw [hu, ← hrnd]; exact h3.1

theorem ratio_rounded (fmt : Format) (neg : Bool) (n d : ℕ) (hd : 0 < d) :
    Rounded fmt ((if neg then -1 else 1) * ((n : ℝ) / d)) (ratio fmt neg n d) := by
  unfold ratio
  by_cases hn : 0 < n
  · rw [dif_pos hn, dif_pos hd]
    have := (div_finite (fmt := fmt) (s := if neg then .negative else .positive) (s' := .positive)
      (m := n) (m' := d) (e := 0) (e' := 0) (h := hn) (h' := hd)).1
    rw [uval_finite, uval_finite] at this
    convert this using 1
    cases neg <;> simp [sgn]
    ring
  · rw [dif_neg hn]
    have : n = 0 := by omega
    subst this
    simpa using rounded_zero _

/-- Every number with `p` bits in the range of the format is a float. -/
theorem exists_float {x : ℝ} (hr : (grid 𝔽).Rep x) (hx : |x| < big 𝔽) : ∃ f : T, IsFinite f ∧ val f = x := by
  have h0 := RN_rep hr
  obtain ⟨m, e, hm, he, rfl⟩ := hr
  rcases eq_or_ne m 0 with rfl | hm0
  · exact ⟨Elem.fromInt 0, finite_zero, by rw [val_zero]; simp⟩
  · have hn : 0 < m.natAbs := by omega
    have := (div_finite (fmt := 𝔽) (s := if m < 0 then .negative else .positive) (s' := .positive)
      (m := m.natAbs) (m' := 1) (e := e) (e' := 0) (h := hn) (h' := by norm_num)).1
    rw [uval_finite, uval_finite] at this
    have e1 : (sgn (if m < 0 then .negative else .positive) * (m.natAbs * 2 ^ e) /
        (sgn .positive * ((1 : ℕ) * 2 ^ (0 : ℤ))) : ℝ) = m * 2 ^ e := by
      have : (m.natAbs : ℝ) = |(m : ℝ)| := by rw [Nat.cast_natAbs, Int.cast_abs]
      rw [this]
      split_ifs with h
      · rw [abs_of_neg (by exact_mod_cast h)]; simp [sgn]
      · rw [abs_of_nonneg (by exact_mod_cast not_lt.1 h)]; simp [sgn]
    rw [e1] at this
    have := pk_rounded (T := T) this (by rwa [h0])
    rw [h0] at this
    exact ⟨_, this⟩

theorem pk_nearest {u : UnpackedFloat} {x : ℝ} (h : Rounded 𝔽 x u) (hx : InSpan T x) :
    Nearest (IEEE.pk u : T) x := by
  obtain ⟨h1, h2⟩ := pk_rounded h (inSpan_lt_big hx)
  refine ⟨h1, fun y hy => ?_⟩
  rw [h2]
  exact RN_nearest (rep_val y)

/-- Two nearest floats are equally near, so the error of a nearest float is that of rounding. -/
theorem nearest_error {f : T} {x : ℝ} (h : Nearest f x) (hx : InSpan T x) :
    |val f - x| ≤ ε * |x| + η := by
  obtain ⟨g, hg, hv⟩ := exists_float (T := T) (rep_RN (g := grid 𝔽) x) (inSpan_lt_big hx)
  have h1 := h.2 g hg
  rw [hv] at h1
  refine h1.trans ((RN_error _ x).trans (le_of_eq ?_))
  rfl

theorem nearest_mono {f g : T} {x y : ℝ} (hf : Nearest f x) (hg : Nearest g y) (h : x < y) :
    val f ≤ val g := by
  by_contra hc
  rw [not_le] at hc
  have h1 := hf.2 g hg.1
  have h2 := hg.2 f hf.1
  rw [← sq_le_sq] at h1 h2
  nlinarith

theorem nearest_exact {f g : T} {x : ℝ} (hf : Nearest f x) (hg : IsFinite g) (h : val g = x) : val f = x := by
  have := hf.2 g hg
  rw [h, sub_self, abs_zero] at this
  have := abs_nonpos_iff.1 this
  linarith

end

end Pbrt
