import Verif.Spec.Units
import Verif.Spec.Mirror
import Verif.Proof.Mirror
import Verif.Props.Length

/-!
# Rounding commutes with powers of two
-/

namespace Pbrt

open Float.Model (UnpackedFloat Format)

theorem log_zpow_mul {x : ℝ} (hx : 0 < x) (k : ℤ) : Int.log 2 (2 ^ k * x) = Int.log 2 x + k := by
  have h1 := Int.zpow_log_le_self (b := 2) (by norm_num) hx
  have h2 := Int.lt_zpow_succ_log_self (b := 2) (by norm_num) x
  push_cast at h1 h2
  have hk := two_zpow_pos k
  have hp : 0 < 2 ^ k * x := mul_pos hk hx
  have h3 : Int.log 2 x + k ≤ Int.log 2 (2 ^ k * x) := by
    rw [← Int.zpow_le_iff_le_log (by norm_num) hp]
    push_cast
    rw [zpow_add₀ (by norm_num), mul_comm]
    exact mul_le_mul_of_nonneg_left h1 hk.le
  have h4 : Int.log 2 (2 ^ k * x) < Int.log 2 x + k + 1 := by
    rw [← Int.lt_zpow_iff_log_lt (by norm_num) hp]
    push_cast
    rw [show Int.log 2 x + k + 1 = k + (Int.log 2 x + 1) by ring, zpow_add₀ (by norm_num)]
    exact mul_lt_mul_of_pos_left h2 hk
  omega

/-- Scaling a number that stays in the range of full precision -/
theorem RN_scale (g : Grid) {x : ℝ} (k : ℤ) (h : x = 0 ∨ 2 ^ (g.emin + g.p - 1) ≤ |x| ∧ 2 ^ (g.emin + g.p - 1) ≤ |2 ^ k * x|) :
    g.RN (2 ^ k * x) = 2 ^ k * g.RN x := by
  rcases h with rfl | ⟨h1, h2⟩
  · rw [mul_zero, RN_zero, mul_zero]
  · have key : ∀ y : ℝ, 2 ^ (g.emin + g.p - 1) ≤ |y| → g.emin + g.p - 1 ≤ Int.log 2 |y| := by
      intro y hy
      rw [← Int.zpow_le_iff_le_log (by norm_num) ((two_zpow_pos _).trans_le hy)]
      exact_mod_cast hy
    have hx : 0 < |x| := (two_zpow_pos _).trans_le h1
    have hk := two_zpow_pos k
    have ha : |2 ^ k * x| = 2 ^ k * |x| := by rw [abs_mul, abs_of_pos hk]
    have e1 := key _ h1
    have e2 := key _ h2
    have hu : g.ulpExp (2 ^ k * x) = g.ulpExp x + k := by
      unfold Grid.ulpExp
      rw [ha, log_zpow_mul hx] at *
      omega
    unfold Grid.RN
    rw [hu, zpow_add₀ (by norm_num)]
    have : 2 ^ k * x / (2 ^ g.ulpExp x * 2 ^ k) = x / 2 ^ g.ulpExp x := by
      rw [mul_comm (2 ^ g.ulpExp x : ℝ), mul_div_mul_left _ _ hk.ne']
    rw [this]
    ring

theorem rep_small (g : Grid) {x : ℝ} {n : ℤ} (hx : x = n * 2 ^ g.emin) (h : |x| < 2 ^ (g.emin + g.p - 1)) :
    |n| ≤ 2 ^ g.p := by
  have hp := g.hp
  rw [hx, abs_mul, abs_of_pos (two_zpow_pos _)] at h
  have h1 : (2 : ℝ) ^ (g.emin + g.p - 1) ≤ 2 ^ (g.p : ℤ) * 2 ^ g.emin := by
    rw [← zpow_add₀ (by norm_num)]
    exact zpow_le_zpow_right₀ (by norm_num) (by omega)
  have h2 := lt_of_mul_lt_mul_right (h.trans_le h1) (two_zpow_pos _).le
  rw [zpow_natCast] at h2
  exact_mod_cast h2.le

/-- Scaling a number that is a multiple of the smallest float, and stays one -/
theorem RN_scale_int (g : Grid) {x : ℝ} (k : ℤ) (h : ∃ n : ℤ, x = n * 2 ^ g.emin)
    (h' : ∃ n : ℤ, 2 ^ k * x = n * 2 ^ g.emin) : g.RN (2 ^ k * x) = 2 ^ k * g.RN x := by
  obtain ⟨n, hn⟩ := h
  obtain ⟨m, hm⟩ := h'
  rcases lt_or_ge |x| (2 ^ (g.emin + g.p - 1)) with h1 | h1
  · have r1 : g.Rep x := ⟨n, g.emin, rep_small g hn h1, le_refl _, hn⟩
    have r2 : g.Rep (2 ^ k * x) := by
      rcases le_or_gt 0 k with hk | hk
      · exact ⟨n, g.emin + k, rep_small g hn h1, by omega, by rw [zpow_add₀ (by norm_num), hn]; ring⟩
      · refine ⟨m, g.emin, rep_small g hm ?_, le_refl _, hm⟩
        rw [abs_mul, abs_of_pos (two_zpow_pos _)]
        have : (2 : ℝ) ^ k ≤ 1 := zpow_le_one_of_nonpos₀ (by norm_num) hk.le
        nlinarith [abs_nonneg x]
    rw [RN_rep r1, RN_rep r2]
  · rcases lt_or_ge |2 ^ k * x| (2 ^ (g.emin + g.p - 1)) with h2 | h2
    · have r2 : g.Rep (2 ^ k * x) := ⟨m, g.emin, rep_small g hm h2, le_refl _, hm⟩
      have hk : k < 0 := by
        by_contra hk
        have : (1 : ℝ) ≤ 2 ^ k := one_le_zpow₀ (by norm_num) (by omega)
        rw [abs_mul, abs_of_pos (two_zpow_pos _)] at h2
        nlinarith [abs_nonneg x]
      have r1 : g.Rep x := by
        refine ⟨m, g.emin - k, rep_small g hm h2, by omega, ?_⟩
        rw [zpow_sub₀ (by norm_num), ← mul_div_assoc, ← hm]
        field_simp
      rw [RN_rep r1, RN_rep r2]
    · exact RN_scale g k (.inr ⟨h1, h2⟩)

section
variable {T : Type} [Elem T] [As T T] [FloatFns T] [IEEE T]

local notation "𝔽" => IEEE.fmt T
local notation "z" => (Elem.fromInt 0 : T)
local notation "o" => (Elem.fromInt 1 : T)

variable {k l : ℤ} {a a' b b' c : T}

theorem InUnits.rescaled (h : InUnits k a a') : Rescaled k a a' := fun _ _ => h.2.2

theorem Rescaled.inUnits (h : Rescaled k a a') (ha : IsFinite a) (ha' : IsFinite a') : InUnits k a a' :=
  ⟨ha, ha', h ha ha'⟩

theorem InUnits.zero (k : ℤ) : InUnits k z z := ⟨finite_zero, finite_zero, by rw [val_zero, mul_zero]⟩

theorem InUnits.refl (h : IsFinite a) : InUnits 0 a a := ⟨h, h, by simp⟩

theorem Rescaled.refl (a : T) : Rescaled 0 a a := fun _ _ => by simp

theorem Rescaled.congr (h : Rescaled k a a') (e : k = l) : Rescaled l a a' := e ▸ h

theorem Rescaled.fadd (ha : Rescaled k a a') (hb : Rescaled k b b') : Rescaled k (fadd a b) (fadd a' b') := by
  intro h h'
  obtain ⟨fa, fb⟩ := fadd_finite h
  obtain ⟨fa', fb'⟩ := fadd_finite h'
  rw [val_of_rnd (fadd_rnd fa fb) h, val_of_rnd (fadd_rnd fa' fb') h', ha fa fa', hb fb fb', ← mul_add]
  obtain ⟨n, hn⟩ := val_int a
  obtain ⟨m, hm⟩ := val_int b
  obtain ⟨n', hn'⟩ := val_int a'
  obtain ⟨m', hm'⟩ := val_int b'
  refine RN_scale_int _ k ⟨n + m, ?_⟩ ⟨n' + m', ?_⟩
  · rw [hn, hm]; push_cast; exact (add_mul _ _ _).symm
  · rw [mul_add, ← ha fa fa', ← hb fb fb', hn', hm']; push_cast; exact (add_mul _ _ _).symm

theorem Rescaled.fneg (ha : Rescaled k a a') : Rescaled k (fneg a) (fneg a') := by
  intro h h'
  have key : ∀ x : T, IsFinite (Pbrt.fneg x) → IsFinite x := by
    intro x hx
    have := fneg_finite hx
    rw [isFinite_iff, up_fneg, up_fneg] at this
    rw [isFinite_iff]
    cases hu : up x <;> rw [hu] at this <;> exact this
  have e1 := key a h
  have e2 := key a' h'
  rw [val_fneg, val_fneg, ha e1 e2]; ring

theorem Rescaled.fsub (ha : Rescaled k a a') (hb : Rescaled k b b') : Rescaled k (fsub a b) (fsub a' b') := by
  rw [fsub_eq_add, fsub_eq_add]
  exact ha.fadd hb.fneg

theorem NoUnderflow.scale {x : ℝ} (h : NoUnderflow T x) (h' : NoUnderflow T (2 ^ k * x)) :
    (grid 𝔽).RN (2 ^ k * x) = 2 ^ k * (grid 𝔽).RN x := by
  refine RN_scale _ k ?_
  rcases h with h | h
  · exact .inl h
  · rcases h' with h' | h'
    · exact .inl ((mul_eq_zero.1 h').resolve_left (two_zpow_pos k).ne')
    · exact .inr ⟨h, h'⟩

theorem Rescaled.fmul (ha : Rescaled k a a') (hb : Rescaled l b b') (h1 : NoUnderflow T (val a * val b))
    (h2 : NoUnderflow T (val a' * val b')) : Rescaled (k + l) (fmul a b) (fmul a' b') := by
  intro h h'
  obtain ⟨fa, fb⟩ := fmul_finite h
  obtain ⟨fa', fb'⟩ := fmul_finite h'
  rw [val_of_rnd (fmul_rnd fa fb) h, val_of_rnd (fmul_rnd fa' fb') h']
  have e : val a' * val b' = 2 ^ (k + l) * (val a * val b) := by
    rw [ha fa fa', hb fb fb', zpow_add₀ (by norm_num)]; ring
  rw [e] at h2 ⊢
  exact h1.scale h2

/-- Doubling a float is exact. -/
theorem Rescaled.double (ha : Rescaled k a a') :
    Rescaled k (Pbrt.fmul (Elem.fromInt 2) a) (Pbrt.fmul (Elem.fromInt 2) a') := by
  intro h h'
  obtain ⟨f2, fa⟩ := fmul_finite h
  obtain ⟨-, fa'⟩ := fmul_finite h'
  have e2 : val (Elem.fromInt 2 : T) = 2 := by exact_mod_cast (fromInt_small (T := T) 2 (by norm_num)).2
  rw [val_of_rnd (fmul_rnd f2 fa) h, val_of_rnd (fmul_rnd f2 fa') h', e2, ha fa fa']
  obtain ⟨n, hn⟩ := val_int a
  obtain ⟨n', hn'⟩ := val_int a'
  rw [show 2 * (2 ^ k * val a) = 2 ^ k * (2 * val a) by ring]
  refine RN_scale_int _ k ⟨2 * n, ?_⟩ ⟨2 * n', ?_⟩
  · rw [hn]; push_cast; exact (mul_assoc _ _ _).symm
  · rw [show 2 ^ k * (2 * val a) = 2 * (2 ^ k * val a) by ring, ← ha fa fa', hn']; push_cast; exact (mul_assoc _ _ _).symm

theorem fdiv_zero_not_finite (a : T) {b : T} (hb : IsZero b) : ¬ IsFinite (Pbrt.fdiv a b) := by
  obtain ⟨s, hs⟩ := hb
  rw [isFinite_iff, up_fdiv, hs]
  cases up a with
  | infinity t => cases s <;> cases t <;> exact fun h => h
  | notANumber => exact fun h => h
  | zero t => exact fun h => h
  | finite t => cases s <;> cases t <;> exact fun h => h

theorem fdiv_inf_left {a b : T} (hb : IsFinite b) (h : IsFinite (Pbrt.fdiv a b)) : IsFinite a := by
  rw [isFinite_iff] at *
  rw [up_fdiv] at h
  cases ha : up a with
  | infinity t => 
    rw [ha] at h
    cases hu : up b with
    | infinity s => rw [hu] at hb; exact hb
    | notANumber => rw [hu] at hb; exact hb
    | zero s => rw [hu] at h; cases t <;> cases s <;> exact h
    | finite s => rw [hu] at h; cases t <;> cases s <;> exact h
  | notANumber => rw [ha] at h; exact h
  | zero t => trivial
  | finite t => trivial

theorem Rescaled.fdiv (ha : Rescaled k a a') (hb : InUnits l b b') (h1 : k = l ∨ NoUnderflow T (val a / val b) ∧
    NoUnderflow T (val a' / val b')) : Rescaled (k - l) (fdiv a b) (fdiv a' b') := by
  intro h h'
  obtain ⟨fb, fb', eb⟩ := hb
  have fa := fdiv_inf_left fb h
  have fa' := fdiv_inf_left fb' h'
  have nb : val b ≠ 0 := fun hc => fdiv_zero_not_finite a (isZero_iff.2 ⟨fb, hc⟩) h
  have nb' : val b' ≠ 0 := fun hc => fdiv_zero_not_finite a' (isZero_iff.2 ⟨fb', hc⟩) h'
  rw [val_of_rnd (fdiv_rnd fa fb nb) h, val_of_rnd (fdiv_rnd fa' fb' nb') h']
  have e : val a' / val b' = 2 ^ (k - l) * (val a / val b) := by
    rw [ha fa fa', eb, zpow_sub₀ (by norm_num)]
    have := (two_zpow_pos l).ne'
    field_simp
  rcases h1 with rfl | ⟨h1, h2⟩
  · rw [e, sub_self, zpow_zero, one_mul, one_mul]
  · rw [e] at h2 ⊢
    exact h1.scale h2

/-- A square root is rounded with full precision. -/
theorem sqrt_noUnderflow (h0 : 0 ≤ val a) : NoUnderflow T (Real.sqrt (val a)) := by
  rcases h0.eq_or_lt with h0 | h0
  · left; rw [← h0, Real.sqrt_zero]
  · right
    rw [abs_of_nonneg (Real.sqrt_nonneg _)]
    refine Real.le_sqrt_of_sq_le ?_
    obtain ⟨n, hn⟩ := val_int a
    have hn0 : (0 : ℝ) < n := by
      rw [hn] at h0
      exact (mul_pos_iff_of_pos_right (two_zpow_pos _)).1 h0
    have hn1 : (1 : ℝ) ≤ n := by
      have : (0 : ℤ) < n := by exact_mod_cast hn0
      exact_mod_cast this
    have h1 : (2 : ℝ) ^ (𝔽).minExponent ≤ val a := by
      rw [hn]
      nlinarith [two_zpow_pos (𝔽).minExponent]
    refine le_trans ?_ h1
    unfold minNormal
    rw [← zpow_natCast, ← zpow_mul]
    refine zpow_le_zpow_right₀ (by norm_num) ?_
    have hw := IEEE.hwide (T := T)
    have h5 : ((𝔽).mantissaBits : ℤ) + 1 ≤ 2 ^ ((𝔽).exponentBits - 1) := by exact_mod_cast hw
    unfold Format.minExponent
    omega

theorem Rescaled.fsqrt (ha : Rescaled (k + k) a a') : Rescaled k (fsqrt a) (fsqrt a') := by
  intro h h'
  obtain ⟨fa, na⟩ := fsqrt_finite h
  obtain ⟨fa', na'⟩ := fsqrt_finite h'
  rw [val_of_rnd (fsqrt_rnd fa na) h, val_of_rnd (fsqrt_rnd fa' na') h']
  have e : Real.sqrt (val a') = 2 ^ k * Real.sqrt (val a) := by
    rw [ha fa fa', zpow_add₀ (by norm_num), Real.sqrt_mul (mul_pos (two_zpow_pos k) (two_zpow_pos k)).le,
      Real.sqrt_mul_self (two_zpow_pos k).le]
  have h2 := sqrt_noUnderflow na'
  rw [e] at h2 ⊢
  exact (sqrt_noUnderflow na).scale h2

/-! ### Comparisons -/

theorem InUnits.lt (ha : InUnits k a a') (hb : InUnits k b b') : Elem.lt a b = Elem.lt a' b' := by
  rw [Bool.eq_iff_iff, lt_iff_val ha.1 hb.1, lt_iff_val ha.2.1 hb.2.1, ha.2.2, hb.2.2]
  exact (mul_lt_mul_iff_right₀ (two_zpow_pos k)).symm

theorem InUnits.le (ha : InUnits k a a') (hb : InUnits k b b') : Elem.le a b = Elem.le a' b' := by
  rw [Bool.eq_iff_iff, le_iff_val ha.1 hb.1, le_iff_val ha.2.1 hb.2.1, ha.2.2, hb.2.2]
  exact (mul_le_mul_iff_right₀ (two_zpow_pos k)).symm

theorem InUnits.min (ha : InUnits k a a') (hb : InUnits k b b') : InUnits k (min2 a b) (min2 a' b') := by
  simp only [min2, pminFrom]
  rw [hb.lt ha]
  split
  · exact hb
  · exact ha

theorem InUnits.max (ha : InUnits k a a') (hb : InUnits k b b') : InUnits k (max2 a b) (max2 a' b') := by
  simp only [max2, pmaxFrom]
  rw [show Elem.gt b a = Elem.gt b' a' from ha.lt hb]
  split
  · exact hb
  · exact ha

theorem InUnits.fabs (ha : InUnits k a a') : InUnits k (fabs a) (fabs a') := by
  refine ⟨fabs_finite ha.1, fabs_finite ha.2.1, ?_⟩
  rw [val_fabs, val_fabs, ha.2.2, abs_mul, abs_of_pos (two_zpow_pos k)]

theorem InUnits.fneg (ha : InUnits k a a') : InUnits k (fneg a) (fneg a') :=
  ha.rescaled.fneg.inUnits (fneg_finite ha.1) (fneg_finite ha.2.1)

end

end Pbrt
