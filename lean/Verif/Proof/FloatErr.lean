import Verif.Props.FloatBoxes

/-!
# Rounding errors

One rounding, and how the errors of sums and products add up.
-/

namespace Pbrt

open Float.Model (UnpackedFloat Format)
open Float.Model.UnpackedFloat (Sign)

theorem RN_half (g : Grid) (x : ℝ) : |g.RN x - x| ≤ 2 ^ g.ulpExp x / 2 := by
  have hp := two_zpow_pos (g.ulpExp x)
  have h := rne_error (x / 2 ^ g.ulpExp x)
  have e : g.RN x - x = -(x / 2 ^ g.ulpExp x - rne (x / 2 ^ g.ulpExp x)) * 2 ^ g.ulpExp x := by
    unfold Grid.RN
    field_simp
    ring
  rw [e, abs_mul, abs_neg, abs_of_pos hp]
  calc _ ≤ 1 / 2 * 2 ^ g.ulpExp x := mul_le_mul_of_nonneg_right h hp.le
    _ = _ := by ring

theorem log_half {g : Grid} {x : ℝ} (hx : x ≠ 0) :
    (2 : ℝ) ^ (Int.log 2 |x| + 1 - (g.p : ℤ)) / 2 ≤ 2 ^ (-(g.p : ℤ)) * |x| := by
  have h := Int.zpow_log_le_self (b := 2) (by norm_num) (abs_pos.2 hx)
  have e : (2 : ℝ) ^ (Int.log 2 |x| + 1 - (g.p : ℤ)) / 2 = 2 ^ (-(g.p : ℤ)) * 2 ^ (Int.log 2 |x|) := by
    rw [show Int.log 2 |x| + 1 - (g.p : ℤ) = -(g.p : ℤ) + Int.log 2 |x| + 1 by ring,
      zpow_add₀ (by norm_num), zpow_add₀ (by norm_num)]
    norm_num
  rw [e]
  push_cast at h
  exact mul_le_mul_of_nonneg_left h (two_zpow_pos _).le

/-- The error of one rounding -/
theorem RN_error (g : Grid) (x : ℝ) :
    |g.RN x - x| ≤ 2 ^ (-(g.p : ℤ)) * |x| + 2 ^ (g.emin - 1) := by
  rcases eq_or_ne x 0 with rfl | hx
  · rw [RN_zero]; simpa using (two_zpow_pos _).le
  · refine (RN_half g x).trans ?_
    have h1 : (0 : ℝ) ≤ 2 ^ (-(g.p : ℤ)) * |x| := mul_nonneg (two_zpow_pos _).le (abs_nonneg _)
    rcases le_total (Int.log 2 |x| + 1 - (g.p : ℤ)) g.emin with h | h
    · have : g.ulpExp x = g.emin := max_eq_right h
      rw [this]
      have e : (2 : ℝ) ^ g.emin / 2 = 2 ^ (g.emin - 1) := by
        rw [zpow_sub₀ (by norm_num)]; norm_num
      rw [e]
      linarith
    · have : g.ulpExp x = Int.log 2 |x| + 1 - g.p := max_eq_left h
      rw [this]
      have := log_half (g := g) hx
      have := two_zpow_pos (g.emin - 1)
      linarith

/-- The error of rounding a number that is no finer than the finest float, or large enough:
    relative only -/
theorem RN_error_rel (g : Grid) (x : ℝ) (h : (∃ n : ℤ, x = n * 2 ^ g.emin) ∨ 2 ^ (g.emin + g.p - 1) ≤ |x|) :
    |g.RN x - x| ≤ 2 ^ (-(g.p : ℤ)) * |x| := by
  have h0 : (0 : ℝ) ≤ 2 ^ (-(g.p : ℤ)) * |x| := mul_nonneg (two_zpow_pos _).le (abs_nonneg _)
  rcases eq_or_ne x 0 with rfl | hx
  · rw [RN_zero]; simp
  · rcases lt_or_ge (Int.log 2 |x| + 1 - (g.p : ℤ)) g.emin with hl | hl
    · rcases h with ⟨n, hn⟩ | h
      · have hr : g.Rep x := by
          refine ⟨n, g.emin, ?_, le_refl _, hn⟩
          have h1 := abs_lt_ulp (g := g) x
          have h2 : g.ulpExp x = g.emin := max_eq_right hl.le
          rw [h2] at h1
          conv_lhs at h1 => rw [hn]
          rw [abs_mul, abs_of_pos (two_zpow_pos _), zpow_add₀ (by norm_num), mul_comm, zpow_natCast] at h1
          have h3 := lt_of_mul_lt_mul_left h1 (two_zpow_pos _).le
          have h4 : |n| < 2 ^ g.p := by exact_mod_cast h3
          exact h4.le
        rw [RN_rep hr, sub_self, abs_zero]
        exact h0
      · exfalso
        have h1 := Int.lt_zpow_succ_log_self (b := 2) (by norm_num) |x|
        push_cast at h1
        have h2 := h.trans_lt h1
        have h3 := (zpow_lt_zpow_iff_right₀ (by norm_num : (1 : ℝ) < 2)).1 h2
        omega
    · refine (RN_half g x).trans ?_
      have : g.ulpExp x = Int.log 2 |x| + 1 - g.p := max_eq_left hl
      rw [this]
      exact log_half hx

section
variable {T : Type} [Elem T] [As T T] [FloatFns T] [IEEE T]

local notation "𝔽" => IEEE.fmt T
local notation "ε" => unitRoundoff T
local notation "η" => tiny T

theorem eps_pos : 0 < ε := two_zpow_pos _
theorem tiny_pos : 0 < η := two_zpow_pos _

theorem eps_le_half : ε ≤ 1 / 2 := by
  have h : 1 ≤ (𝔽).mantissaBits := by unfold Format.mantissaBits; omega
  have : (2 : ℝ) ^ (-((𝔽).mantissaBits : ℤ)) ≤ 2 ^ (-1 : ℤ) :=
    zpow_le_zpow_right₀ (by norm_num) (by omega)
  unfold unitRoundoff
  norm_num at this ⊢
  exact this

theorem fadd_finite {a b : T} (h : IsFinite (fadd a b)) : IsFinite a ∧ IsFinite b := by
  have hn := h.notNan
  obtain ⟨h1, h2, h3, h4⟩ := fadd_nan hn
  have he := fadd_ext' hn
  rw [h.ext] at he
  rw [finite_iff_ext h1, finite_iff_ext h2]
  refine ⟨⟨fun hc => ?_, fun hc => ?_⟩, ⟨fun hc => ?_, fun hc => ?_⟩⟩
  · rw [hc, EReal.top_add_of_ne_bot (fun hb => h3 ⟨hc, hb⟩)] at he
    exact absurd he (by simp)
  · rw [hc, EReal.bot_add] at he
    exact absurd he (by simp)
  · rw [hc, EReal.add_top_of_ne_bot (fun hb => h4 ⟨hb, hc⟩)] at he
    exact absurd he (by simp)
  · rw [hc, EReal.add_bot] at he
    exact absurd he (by simp)

theorem fsub_finite {a b : T} (h : IsFinite (fsub a b)) : IsFinite a ∧ IsFinite b := by
  rw [fsub_eq_add] at h
  obtain ⟨h1, h2⟩ := fadd_finite h
  refine ⟨h1, ?_⟩
  have := fneg_finite h2
  rw [isFinite_iff, up_fneg, up_fneg] at this
  rw [isFinite_iff]
  cases hu : up b <;> rw [hu] at this <;> exact this

theorem fmul_finite {a b : T} (h : IsFinite (fmul a b)) : IsFinite a ∧ IsFinite b := by
  have key : ∀ a b : T, IsFinite (fmul a b) → IsFinite a := by
    intro a b h
    have hn := h.notNan
    have hq := fmul_nan hn
    have he := fmul_ext' hn
    rw [h.ext] at he
    have h1 : Elem.isNan a = false := hq.1
    rcases not_finite_cases h1 with h1 | h1 | h1
    · exact h1
    all_goals
      exfalso
      rw [isFinite_iff, up_fmul, h1] at h
      cases hb : up b with
      | infinity s => rw [hb] at h; cases s <;> exact h
      | notANumber => rw [hb] at h; exact h
      | zero s => rw [hb] at h; cases s <;> exact h
      | finite s m e hm => rw [hb] at h; cases s <;> exact h
  exact ⟨key a b h, key b a (by rw [fmul_comm']; exact h)⟩

theorem val_int (a : T) : ∃ n : ℤ, val a = n * 2 ^ (𝔽).minExponent := by
  have hc := up_canon a
  unfold val
  cases hu : up a with
  | finite s m e h =>
    rw [hu] at hc
    refine ⟨s.apply m * 2 ^ (e - (𝔽).minExponent).toNat, ?_⟩
    show ((s.apply m : ℤ) : ℝ) * 2 ^ e = _
    have := two_zpow_nat hc.2.1
    push_cast at this ⊢
    rw [← this, mul_assoc, ← zpow_add₀ (by norm_num)]
    congr 2
    ring
  | _ => exact ⟨0, by simp [uval]⟩

theorem fadd_err {a b : T} (h : IsFinite (fadd a b)) :
    |val (fadd a b) - (val a + val b)| ≤ ε * |val a + val b| := by
  obtain ⟨ha, hb⟩ := fadd_finite h
  rw [val_of_rnd (fadd_rnd ha hb) h]
  refine RN_error_rel (grid 𝔽) _ (.inl ?_)
  obtain ⟨n, hn⟩ := val_int a
  obtain ⟨m, hm⟩ := val_int b
  exact ⟨n + m, by rw [hn, hm]; push_cast; exact (add_mul _ _ _).symm⟩

theorem fsub_err {a b : T} (h : IsFinite (fsub a b)) :
    |val (fsub a b) - (val a - val b)| ≤ ε * |val a - val b| := by
  obtain ⟨ha, hb⟩ := fsub_finite h
  rw [val_of_rnd (fsub_rnd ha hb) h]
  refine RN_error_rel (grid 𝔽) _ (.inl ?_)
  obtain ⟨n, hn⟩ := val_int a
  obtain ⟨m, hm⟩ := val_int b
  exact ⟨n - m, by rw [hn, hm]; push_cast; exact (sub_mul _ _ _).symm⟩

theorem fmul_err {a b : T} (h : IsFinite (fmul a b)) :
    |val (fmul a b) - val a * val b| ≤ ε * |val a * val b| + η := by
  obtain ⟨ha, hb⟩ := fmul_finite h
  rw [val_of_rnd (fmul_rnd ha hb) h]
  exact RN_error (grid 𝔽) _

theorem fdiv_err {a b : T} (ha : IsFinite a) (hb : IsFinite b) (h0 : val b ≠ 0) (h : IsFinite (fdiv a b)) :
    |val (fdiv a b) - val a / val b| ≤ ε * |val a / val b| + η := by
  rw [val_of_rnd (fdiv_rnd ha hb h0) h]
  exact RN_error (grid 𝔽) _

theorem fsqrt_finite {a : T} (h : IsFinite (fsqrt a)) : IsFinite a ∧ 0 ≤ val a := by
  rw [isFinite_iff] at *
  rw [up_fsqrt] at h
  unfold val
  cases hu : up a with
  | infinity s => rw [hu] at h; cases s <;> exact h.elim
  | notANumber => rw [hu] at h; exact h.elim
  | zero s => exact ⟨trivial, by simp [uval]⟩
  | finite s m e hm =>
    cases s with
    | negative => rw [hu] at h; exact h.elim
    | positive =>
      have := uval_pos (s := .positive) (m := m) (e := e) (h := hm)
      simp only [sgn, one_mul] at this
      exact ⟨trivial, this.le⟩

/-- A square root is never subnormal. -/
theorem fsqrt_err {a : T} (h : IsFinite (fsqrt a)) :
    |val (fsqrt a) - Real.sqrt (val a)| ≤ ε * Real.sqrt (val a) := by
  obtain ⟨ha, h0⟩ := fsqrt_finite h
  rw [val_of_rnd (fsqrt_rnd ha h0) h]
  have hs := Real.sqrt_nonneg (val a)
  rcases h0.eq_or_lt with h0 | h0
  · rw [← h0, Real.sqrt_zero, RN_zero]; simp
  · have := RN_error_rel (grid 𝔽) (Real.sqrt (val a)) (.inr ?_)
    · rwa [abs_of_nonneg hs] at this
    · rw [abs_of_nonneg hs]
      refine Real.le_sqrt_of_sq_le ?_
      obtain ⟨n, hn⟩ := val_int a
      have hn0 : (0 : ℝ) < n := by
        rw [hn] at h0
        exact (mul_pos_iff_of_pos_right (two_zpow_pos _)).1 h0
      have hn1 : (1 : ℝ) ≤ n := by
        have : (0 : ℤ) < n := by exact_mod_cast hn0
        exact_mod_cast this
      have h1 : (2 : ℝ) ^ (𝔽).minExponent ≤ val a := by
        rw [hn]
        nlinarith [two_zpow_pos (𝔽).minExponent]
      refine le_trans ?_ h1
      rw [← zpow_natCast, ← zpow_mul]
      refine zpow_le_zpow_right₀ (by norm_num) ?_
      show ((𝔽).minExponent + (𝔽).mantissaBits - 1) * 2 ≤ (𝔽).minExponent
      have hw := IEEE.hwide (T := T)
      have h5 : ((𝔽).mantissaBits : ℤ) + 1 ≤ 2 ^ ((𝔽).exponentBits - 1) := by exact_mod_cast hw
      unfold Format.minExponent
      omega

/-- `x` is `X`, a number of magnitude at most `A`, up to `k` roundings and an absolute error `E` made
    before them -/
structure Within (T : Type) [Elem T] [As T T] [FloatFns T] [IEEE T] (k : ℕ) (E x X A : ℝ) : Prop where
  size : |X| ≤ A
  pos : 0 ≤ E
  err : |x - X| ≤ ((1 + unitRoundoff T) ^ k - 1) * A + E * (1 + unitRoundoff T) ^ k

variable {k k' : ℕ} {E E' x y X Y A B : ℝ}

theorem one_le_pow_eps (k : ℕ) : 1 ≤ (1 + ε) ^ k := one_le_pow₀ (by have := eps_pos (T := T); linarith)

theorem Within.nonneg (h : Within T k E x X A) : 0 ≤ A := (abs_nonneg _).trans h.size

theorem Within.bound (h : Within T k E x X A) : |x| ≤ (A + E) * (1 + ε) ^ k := by
  have := abs_add_le (x - X) X
  rw [sub_add_cancel] at this
  have := h.err
  have := h.size
  linarith

theorem Within.exact (x : ℝ) : Within T 0 0 x x |x| := ⟨le_refl _, le_refl _, by simp⟩

theorem Within.mono (h : Within T k E x X A) (hk : k ≤ k') (hE : E ≤ E') : Within T k' E' x X A := by
  refine ⟨h.size, h.pos.trans hE, h.err.trans ?_⟩
  have h1 : (1 + ε) ^ k ≤ (1 + ε) ^ k' := pow_le_pow_right₀ (by have := eps_pos (T := T); linarith) hk
  have h2 := one_le_pow_eps (T := T) k
  have h3 := mul_le_mul_of_nonneg_right (sub_le_sub_right h1 1) h.nonneg
  have h4 : E * (1 + ε) ^ k ≤ E' * (1 + ε) ^ k' :=
    mul_le_mul hE h1 (by linarith) (h.pos.trans hE)
  linarith

/-- Rounding once more -/
theorem Within.round (h : Within T k E x X A) {w : ℝ} (hw : |w - x| ≤ ε * |x|) :
    Within T (k + 1) E w X A := by
  refine ⟨h.size, h.pos, ?_⟩
  have e := eps_pos (T := T)
  have h1 : |w - X| ≤ |w - x| + |x - X| := abs_sub_le _ _ _
  have h2 := mul_le_mul_of_nonneg_left h.bound e.le
  have h3 := h.err
  rw [pow_succ]
  nlinarith

theorem Within.round' (h : Within T k E x X A) {w : ℝ} (hw : |w - x| ≤ ε * |x| + η) :
    Within T (k + 1) (E + η) w X A := by
  have ht := tiny_pos (T := T)
  refine ⟨h.size, add_nonneg h.pos ht.le, ?_⟩
  have e := eps_pos (T := T)
  have h1 : |w - X| ≤ |w - x| + |x - X| := abs_sub_le _ _ _
  have h2 := mul_le_mul_of_nonneg_left h.bound e.le
  have h3 := h.err
  have h4 : η ≤ η * (1 + ε) ^ (k + 1) := le_mul_of_one_le_right ht.le (one_le_pow_eps (T := T) _)
  rw [pow_succ] at *
  nlinarith

theorem Within.add (h : Within T k E x X A) (h' : Within T k E' y Y B) :
    Within T k (E + E') (x + y) (X + Y) (A + B) := by
  refine ⟨(abs_add_le _ _).trans (add_le_add h.size h'.size), add_nonneg h.pos h'.pos, ?_⟩
  have h1 : |x + y - (X + Y)| ≤ |x - X| + |y - Y| := by
    rw [show x + y - (X + Y) = (x - X) + (y - Y) by ring]; exact abs_add_le _ _
  have := h.err
  have := h'.err
  linarith

theorem Within.neg (h : Within T k E x X A) : Within T k E (-x) (-X) A :=
  ⟨by rw [abs_neg]; exact h.size, h.pos, by rw [show -x - -X = -(x - X) by ring, abs_neg]; exact h.err⟩

theorem Within.sub (h : Within T k E x X A) (h' : Within T k E' y Y B) :
    Within T k (E + E') (x - y) (X - Y) (A + B) := by
  rw [sub_eq_add_neg, sub_eq_add_neg]; exact h.add h'.neg

theorem Within.mul (h : Within T k E x X A) (h' : Within T k' E' y Y B) :
    Within T (k + k') (E * B + A * E' + E * E') (x * y) (X * Y) (A * B) := by
  have hA := h.nonneg
  have hB := h'.nonneg
  have hE := h.pos
  have hE' := h'.pos
  have p1 := one_le_pow_eps (T := T) k
  have p2 := one_le_pow_eps (T := T) k'
  refine ⟨?_, by positivity, ?_⟩
  · rw [abs_mul]; exact mul_le_mul h.size h'.size (abs_nonneg _) hA
  · have h1 : |x * y - X * Y| ≤ |x - X| * |y| + |X| * |y - Y| := by
      rw [show x * y - X * Y = (x - X) * y + X * (y - Y) by ring]
      exact (abs_add_le _ _).trans (by rw [abs_mul, abs_mul])
    have h2 : |x - X| * |y| ≤ (((1 + ε) ^ k - 1) * A + E * (1 + ε) ^ k) * ((B + E') * (1 + ε) ^ k') :=
      mul_le_mul h.err h'.bound (abs_nonneg _)
        (add_nonneg (mul_nonneg (by linarith) hA) (mul_nonneg hE (by linarith)))
    have h3 : |X| * |y - Y| ≤ A * (((1 + ε) ^ k' - 1) * B + E' * (1 + ε) ^ k') :=
      mul_le_mul h.size h'.err (abs_nonneg _) hA
    rw [pow_add]
    nlinarith

/-! ### Operations on floats -/

theorem Within.val (a : T) : Within T 0 0 (Pbrt.val a) (Pbrt.val a) |Pbrt.val a| := .exact _

theorem Within.fadd {a b : T} (h : Within T k E (Pbrt.val a) X A) (h' : Within T k E' (Pbrt.val b) Y B)
    (hf : IsFinite (fadd a b)) : Within T (k + 1) (E + E') (Pbrt.val (fadd a b)) (X + Y) (A + B) :=
  (h.add h').round (fadd_err hf)

theorem Within.fsub {a b : T} (h : Within T k E (Pbrt.val a) X A) (h' : Within T k E' (Pbrt.val b) Y B)
    (hf : IsFinite (fsub a b)) : Within T (k + 1) (E + E') (Pbrt.val (fsub a b)) (X - Y) (A + B) :=
  (h.sub h').round (fsub_err hf)

theorem Within.fmul {a b : T} (h : Within T k E (Pbrt.val a) X A) (h' : Within T k' E' (Pbrt.val b) Y B)
    (hf : IsFinite (fmul a b)) :
    Within T (k + k' + 1) (E * B + A * E' + E * E' + η) (Pbrt.val (fmul a b)) (X * Y) (A * B) :=
  (h.mul h').round' (fmul_err hf)

/-- A product of two floats -/
theorem Within.prod {a b : T} (hf : IsFinite (Pbrt.fmul a b)) :
    Within T 1 η (Pbrt.val (Pbrt.fmul a b)) (Pbrt.val a * Pbrt.val b) |Pbrt.val a * Pbrt.val b| := by
  have := (Within.val a).fmul (Within.val b) hf
  simp only [zero_mul, mul_zero, add_zero, zero_add] at this
  rwa [← abs_mul] at this

/-- A difference of two floats -/
theorem Within.diff {a b : T} (hf : IsFinite (Pbrt.fsub a b)) :
    Within T 1 0 (Pbrt.val (Pbrt.fsub a b)) (Pbrt.val a - Pbrt.val b) |Pbrt.val a - Pbrt.val b| :=
  (Within.exact _).round (fsub_err hf)

end

end Pbrt
