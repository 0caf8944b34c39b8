import Mathlib.Data.Int.Log
import Mathlib.Algebra.Order.Archimedean.Real.Basic
import Mathlib.Algebra.Order.Floor.Ring
import Mathlib.Tactic.Linarith
import Mathlib.Tactic.FieldSimp
import Mathlib.Tactic.Positivity
import Mathlib.Tactic.NormNum

/-!
# Rounding of real numbers

The rounding of IEEE 754 as a function of real numbers: to the nearest multiple of `2 ^ ulpExp x`,
ties to even.
-/

namespace Pbrt

/-- The nearest integer, ties to even -/
noncomputable def rne (x : ℝ) : ℤ :=
  if x - ⌊x⌋ < 1 / 2 then ⌊x⌋
  else if 1 / 2 < x - ⌊x⌋ then ⌊x⌋ + 1
  else ⌊x⌋ + ⌊x⌋ % 2

theorem rne_int (n : ℤ) : rne n = n := by simp [rne]

theorem rne_cases (x : ℝ) : rne x = ⌊x⌋ ∨ rne x = ⌊x⌋ + 1 := by
  unfold rne
  split
  · exact Or.inl rfl
  · split
    · exact Or.inr rfl
    · rcases Int.emod_two_eq_zero_or_one ⌊x⌋ with h | h <;> rw [h] <;> simp

theorem rne_mono {x y : ℝ} (h : x ≤ y) : rne x ≤ rne y := by
  have hf := Int.floor_mono h
  rcases hf.lt_or_eq with hlt | heq
  · rcases rne_cases x with h1 | h1 <;> rcases rne_cases y with h2 | h2 <;> omega
  · unfold rne
    rw [heq]
    have hxy : x - ⌊y⌋ ≤ y - ⌊y⌋ := by linarith
    rcases Int.emod_two_eq_zero_or_one ⌊y⌋ with h | h <;> rw [h] <;> split_ifs <;>
      first | omega | (exfalso; linarith)

theorem rne_le {x : ℝ} {n : ℤ} (h : x ≤ n) : rne x ≤ n := (rne_mono h).trans_eq (rne_int n)
theorem le_rne {x : ℝ} {n : ℤ} (h : (n : ℝ) ≤ x) : n ≤ rne x := (rne_int n).symm.trans_le (rne_mono h)

theorem rne_error (x : ℝ) : |x - rne x| ≤ 1 / 2 := by
  have h1 := Int.floor_le x
  have h2 := Int.lt_floor_add_one x
  unfold rne
  rw [abs_le]
  split
  · constructor <;> linarith
  · split
    · push_cast; constructor <;> linarith
    · have : x - ⌊x⌋ = 1 / 2 := by linarith
      rcases Int.emod_two_eq_zero_or_one ⌊x⌋ with h | h <;> rw [h] <;> push_cast <;>
        constructor <;> linarith

theorem rne_neg (x : ℝ) : rne (-x) = - rne x := by
  by_cases hx : (⌊x⌋ : ℝ) = x
  · rw [← hx, rne_int, ← Int.cast_neg, rne_int]
  · have hfl : ⌊-x⌋ = -⌊x⌋ - 1 := by
      rw [Int.floor_eq_iff]
      have h1 := Int.floor_le x
      have h2 := Int.lt_floor_add_one x
      have h3 : (⌊x⌋ : ℝ) < x := lt_of_le_of_ne h1 hx
      push_cast
      constructor <;> linarith
    unfold rne
    rw [hfl]
    push_cast
    have e : -x - (-(⌊x⌋ : ℝ) - 1) = 1 - (x - ⌊x⌋) := by ring
    rw [e]
    rcases lt_trichotomy (x - ⌊x⌋) (1 / 2) with h | h | h
    · rw [if_neg (by linarith), if_pos (by linarith), if_pos h]; ring
    · rw [if_neg (by linarith), if_neg (by linarith), if_neg (by linarith), if_neg (by linarith)]
      omega
    · rw [if_pos (by linarith), if_neg (by linarith), if_pos h]; ring

/-- The parameters of a format: the precision and the smallest exponent -/
structure Grid where
  p : ℕ
  hp : 0 < p
  emin : ℤ

variable (g : Grid)

/-- The exponent of the unit in the last place of `x` -/
noncomputable def Grid.ulpExp (x : ℝ) : ℤ := max (Int.log 2 |x| + 1 - g.p) g.emin

/-- `x` rounded to the precision (as if exponents were unbounded above) -/
noncomputable def Grid.RN (x : ℝ) : ℝ := rne (x / 2 ^ g.ulpExp x) * 2 ^ g.ulpExp x

/-- A number with at most `p` bits, and an exponent at least `emin` -/
def Grid.Rep (x : ℝ) : Prop := ∃ (m : ℤ) (e : ℤ), |m| ≤ 2 ^ g.p ∧ g.emin ≤ e ∧ x = m * 2 ^ e

variable {g}

theorem two_zpow_pos (e : ℤ) : (0 : ℝ) < 2 ^ e := zpow_pos (by norm_num) e

theorem two_zpow_nat {a b : ℤ} (h : a ≤ b) : (2 : ℝ) ^ (b - a) = ((2 ^ (b - a).toNat : ℤ) : ℝ) := by
  push_cast
  rw [← zpow_natCast]
  congr 1
  omega

theorem ulpExp_neg (x : ℝ) : g.ulpExp (-x) = g.ulpExp x := by simp [Grid.ulpExp]

theorem RN_neg (x : ℝ) : g.RN (-x) = - g.RN x := by
  simp only [Grid.RN, ulpExp_neg, neg_div, rne_neg]
  push_cast
  ring

theorem RN_zero : g.RN 0 = 0 := by
  have : rne 0 = 0 := by simpa using rne_int 0
  simp [Grid.RN, this]

theorem emin_le_ulpExp (x : ℝ) : g.emin ≤ g.ulpExp x := le_max_right _ _

theorem ulpExp_mono {x y : ℝ} (hx : 0 < x) (h : x ≤ y) : g.ulpExp x ≤ g.ulpExp y := by
  unfold Grid.ulpExp
  rw [abs_of_pos hx, abs_of_pos (hx.trans_le h)]
  have := Int.log_mono_right (b := 2) hx h
  omega

/-- A number is at most `2 ^ p` units in its last place. -/
theorem abs_lt_ulp (x : ℝ) : |x| < 2 ^ (g.ulpExp x + g.p) := by
  rcases eq_or_ne x 0 with rfl | hx
  · simpa using two_zpow_pos _
  · refine (Int.lt_zpow_succ_log_self (b := 2) (by norm_num) |x|).trans_le ?_
    push_cast
    refine zpow_le_zpow_right₀ (by norm_num) ?_
    unfold Grid.ulpExp
    omega

theorem RN_nonneg {x : ℝ} (hx : 0 ≤ x) : 0 ≤ g.RN x := by
  refine mul_nonneg ?_ (two_zpow_pos _).le
  have : (0 : ℤ) ≤ rne (x / 2 ^ g.ulpExp x) :=
    le_rne (by push_cast; exact div_nonneg hx (two_zpow_pos _).le)
  exact_mod_cast this

/-- Rounding does not go past a multiple of the unit in the last place. -/
theorem RN_le_of_mul {x : ℝ} {n : ℤ} (h : x ≤ n * 2 ^ g.ulpExp x) : g.RN x ≤ n * 2 ^ g.ulpExp x := by
  refine mul_le_mul_of_nonneg_right ?_ (two_zpow_pos _).le
  have : rne (x / 2 ^ g.ulpExp x) ≤ n := rne_le ((div_le_iff₀ (two_zpow_pos _)).2 h)
  exact_mod_cast this

theorem le_RN_of_mul {x : ℝ} {n : ℤ} (h : n * 2 ^ g.ulpExp x ≤ x) : n * 2 ^ g.ulpExp x ≤ g.RN x := by
  refine mul_le_mul_of_nonneg_right ?_ (two_zpow_pos _).le
  have : n ≤ rne (x / 2 ^ g.ulpExp x) := le_rne ((le_div_iff₀ (two_zpow_pos _)).2 h)
  exact_mod_cast this

theorem zpow_mul_of_le {a b : ℤ} (h : a ≤ b) : ∃ n : ℤ, (2 : ℝ) ^ b = n * 2 ^ a := by
  refine ⟨2 ^ (b - a).toNat, ?_⟩
  rw [← two_zpow_nat h, ← zpow_add₀ (by norm_num)]
  congr 1
  omega

theorem RN_le_zpow {x : ℝ} {k : ℤ} (hk : g.ulpExp x ≤ k) (h : x ≤ 2 ^ k) : g.RN x ≤ 2 ^ k := by
  obtain ⟨n, hn⟩ := zpow_mul_of_le hk
  rw [hn] at h ⊢
  exact RN_le_of_mul h

theorem zpow_le_RN {x : ℝ} {k : ℤ} (hk : g.ulpExp x ≤ k) (h : 2 ^ k ≤ x) : 2 ^ k ≤ g.RN x := by
  obtain ⟨n, hn⟩ := zpow_mul_of_le hk
  rw [hn] at h ⊢
  exact le_RN_of_mul h

theorem RN_mono_pos {x y : ℝ} (hx : 0 < x) (h : x ≤ y) : g.RN x ≤ g.RN y := by
  rcases (ulpExp_mono (g := g) hx h).lt_or_eq with hlt | heq
  · have hy := hx.trans_le h
    have hyl : g.ulpExp y = Int.log 2 y + 1 - g.p := by
      have := emin_le_ulpExp (g := g) x
      unfold Grid.ulpExp at hlt this ⊢
      rw [abs_of_pos hy] at hlt ⊢
      omega
    have hp := g.hp
    have h1 : x ≤ 2 ^ Int.log 2 y := by
      by_contra hcon
      have h2 : (2 : ℝ) ^ Int.log 2 y ≤ x := (not_le.1 hcon).le
      have h3 : Int.log 2 y ≤ Int.log 2 x := by
        have := Int.log_mono_right (b := 2) (two_zpow_pos _) h2
        rwa [show ((2 : ℝ) ^ Int.log 2 y) = ((2 : ℕ) : ℝ) ^ Int.log 2 y by norm_num,
          Int.log_zpow (by norm_num)] at this
      have : Int.log 2 x + 1 - g.p ≤ g.ulpExp x := by
        unfold Grid.ulpExp; rw [abs_of_pos hx]; exact le_max_left _ _
      omega
    refine (RN_le_zpow (by omega) h1).trans (zpow_le_RN (by omega) ?_)
    have := Int.zpow_log_le_self (b := 2) (by norm_num) hy
    exact_mod_cast this
  · unfold Grid.RN
    rw [heq]
    refine mul_le_mul_of_nonneg_right ?_ (two_zpow_pos _).le
    exact_mod_cast rne_mono (div_le_div_of_nonneg_right h (two_zpow_pos _).le)

theorem RN_mono {x y : ℝ} (h : x ≤ y) : g.RN x ≤ g.RN y := by
  rcases lt_trichotomy x 0 with hx | rfl | hx
  · rcases lt_trichotomy y 0 with hy | rfl | hy
    · have := RN_mono_pos (g := g) (x := -y) (y := -x) (by linarith) (by linarith)
      rw [RN_neg, RN_neg] at this
      linarith
    · rw [RN_zero]
      have := RN_nonneg (g := g) (x := -x) (by linarith)
      rw [RN_neg] at this
      linarith
    · have h1 := RN_nonneg (g := g) (x := -x) (by linarith)
      rw [RN_neg] at h1
      have h2 := RN_nonneg (g := g) hy.le
      linarith
  · rw [RN_zero]; exact RN_nonneg h
  · exact RN_mono_pos hx h

/-- A representable number is not changed by rounding. -/
theorem RN_rep {x : ℝ} (h : g.Rep x) : g.RN x = x := by
  obtain ⟨m, e, hm, he, rfl⟩ := h
  rcases eq_or_ne m 0 with rfl | hm0
  · simp [RN_zero]
  have key : ∀ (m e : ℤ), 0 < |m| → |m| ≤ 2 ^ g.p → g.emin ≤ e →
      ∃ k : ℤ, (m : ℝ) * 2 ^ e = k * 2 ^ g.ulpExp (m * 2 ^ e) := by
    intro m e hpos hm he
    have habs : |(m : ℝ) * 2 ^ e| = |m| * 2 ^ e := by
      rw [abs_mul, abs_of_pos (two_zpow_pos e), Int.cast_abs]
    have hpos' : (0 : ℝ) < |m| * 2 ^ e := mul_pos (by exact_mod_cast hpos) (two_zpow_pos e)
    rcases hm.lt_or_eq with hlt | heq
    · have hle : g.ulpExp (m * 2 ^ e) ≤ e := by
        unfold Grid.ulpExp
        rw [habs]
        have : Int.log 2 (|m| * 2 ^ e : ℝ) < g.p + e := by
          rw [← Int.lt_zpow_iff_log_lt (by norm_num) hpos']
          push_cast
          rw [zpow_add₀ (by norm_num)]
          refine mul_lt_mul_of_pos_right ?_ (two_zpow_pos e)
          rw [zpow_natCast]
          exact_mod_cast hlt
        omega
      obtain ⟨n, hn⟩ := zpow_mul_of_le hle
      exact ⟨m * n, by push_cast; rw [mul_assoc, ← hn]⟩
    · have hle : g.ulpExp (m * 2 ^ e) ≤ e + g.p := by
        unfold Grid.ulpExp
        rw [habs, heq]
        push_cast
        rw [← zpow_natCast, ← zpow_add₀ (by norm_num)]
        rw [show ((2 : ℝ)) ^ ((g.p : ℤ) + e) = ((2 : ℕ) : ℝ) ^ ((g.p : ℤ) + e) by norm_num,
          Int.log_zpow (by norm_num)]
        have := g.hp
        omega
      obtain ⟨n, hn⟩ := zpow_mul_of_le hle
      rcases abs_choice m with h | h
      · refine ⟨n, ?_⟩
        rw [h] at heq
        rw [← hn, heq, zpow_add₀ (by norm_num), zpow_natCast]
        push_cast; ring
      · refine ⟨-n, ?_⟩
        rw [h] at heq
        have hm' : m = -2 ^ g.p := by omega
        push_cast
        rw [neg_mul, ← hn, zpow_add₀ (by norm_num), zpow_natCast]
        conv_lhs => rw [hm']
        push_cast; ring
  obtain ⟨k, hk⟩ := key m e (abs_pos.2 hm0) hm he
  unfold Grid.RN
  have : (m : ℝ) * 2 ^ e / 2 ^ g.ulpExp (m * 2 ^ e) = k := by
    rw [div_eq_iff (two_zpow_pos _).ne']; exact hk
  rw [this, rne_int, ← hk]

/-- The result of rounding is representable. -/
theorem rep_RN (x : ℝ) : g.Rep (g.RN x) := by
  refine ⟨rne (x / 2 ^ g.ulpExp x), g.ulpExp x, ?_, emin_le_ulpExp x, rfl⟩
  have h := abs_lt_ulp (g := g) x
  rw [zpow_add₀ (by norm_num), zpow_natCast, mul_comm, abs_lt] at h
  have hpos := two_zpow_pos (g.ulpExp x)
  rw [abs_le]
  constructor
  · refine le_rne ?_
    push_cast
    rw [le_div_iff₀ hpos]
    linarith
  · refine rne_le ?_
    push_cast
    rw [div_le_iff₀ hpos]
    linarith

end Pbrt
