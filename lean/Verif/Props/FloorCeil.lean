import Verif.Props.Components
import Verif.Props.Floats

/-!
# C66: `floor` and `ceil` of floats

For `f32` and `f64`, and every float.
-/

namespace Pbrt

open Float.Model (UnpackedFloat Format)
open Float.Model.UnpackedFloat (Sign)

section
variable {T : Type} [Elem T] [As T T] [FloatFns T] [IEEE T]

local notation "𝔽" => IEEE.fmt T

/-- An integer of at most `p` bits is a float. -/
theorem fromInt_exact (n : ℤ) (hn : |n| < 2 ^ (𝔽).mantissaBits) :
    IsFinite (Elem.fromInt n : T) ∧ val (Elem.fromInt n : T) = n := by
  have h0 : (grid 𝔽).RN n = n := by
    refine RN_rep ⟨n, 0, ?_, ?_, by simp⟩
    · exact hn.le
    · have heb := IEEE.heb (T := T)
      have h4 : (2 : ℤ) ^ 1 ≤ 2 ^ ((𝔽).exponentBits - 1) := pow_le_pow_right₀ (by norm_num) (by omega)
      have hp : 2 ≤ (𝔽).mantissaBits := by unfold Format.mantissaBits; have := (𝔽).hm; omega
      show (𝔽).minExponent ≤ 0
      unfold Format.minExponent
      omega
  have h2 : |(n : ℝ)| < big 𝔽 := by
    have h1 : |(n : ℝ)| < 2 ^ (𝔽).mantissaBits := by exact_mod_cast hn
    have h3 : (2 : ℝ) ^ ((𝔽).mantissaBits : ℤ) ≤ big 𝔽 := by
      refine zpow_le_zpow_right₀ (by norm_num) ?_
      have := IEEE.hwide (T := T)
      have h5 : ((𝔽).mantissaBits : ℤ) ≤ 2 ^ ((𝔽).exponentBits - 1) := by exact_mod_cast this.le
      unfold emax
      omega
    rw [zpow_natCast] at h3
    linarith
  have hr := (normalize_rounded (fmt := 𝔽) (n := n) (e := 0) (z := .positive) (x := n) (by simp)).1
  have h3 := uext_over IEEE.heb hr
  have hu : up (Elem.fromInt n : T) = over 𝔽 (UnpackedFloat.ofInt 𝔽 n) := by
    rw [IEEE.int_eq, up_pk]; exact hr.canon
  have hrnd : rnd 𝔽 n = ((n : ℝ) : EReal) := by
    unfold rnd
    rw [h0]
    rw [abs_lt] at h2
    rw [if_neg (by linarith), if_neg (by linarith)]
  refine finite_of_ext ?_ ?_
  · rw [nan_iff, hu]; exact h3.2
  · unfold ext; rw [hu, ← hrnd]; exact h3.1

theorem sign_of_val {a : T} (ha : IsFinite a) :
    (0 < val a → usign (up a) = .positive) ∧ (val a < 0 → usign (up a) = .negative) := by
  rw [isFinite_iff] at ha
  unfold val
  cases hu : up a with
  | infinity s => rw [hu] at ha; exact ha.elim
  | notANumber => rw [hu] at ha; exact ha.elim
  | zero s => simp [uval]
  | finite s m e h =>
    have := uval_pos (s := s) (m := m) (e := e) (h := h)
    cases s <;> simp only [sgn, usign] at this ⊢ <;> constructor <;> intro h' <;>
      first | trivial | (exfalso; linarith)

/-- Floor or ceiling of a number -/
noncomputable def roundReal (up : Bool) (x : ℝ) : ℤ := if up then ⌈x⌉ else ⌊x⌋

theorem roundInt_eq (up : Bool) (s : Sign) (m k : ℕ) :
    roundInt up s m k = roundReal up ((s.apply m : ℤ) / 2 ^ k : ℝ) := by
  have h1 : ∀ n : ℤ, n.fdiv (2 ^ k) = ⌊((n : ℝ) / 2 ^ k : ℝ)⌋ := by
    intro n
    rw [Int.fdiv_eq_ediv_of_nonneg _ (by positivity)]
    have := Int.floor_div_natCast (n : ℝ) (2 ^ k)
    simp only [Int.floor_intCast, Nat.cast_pow, Nat.cast_ofNat] at this
    rw [this]
  unfold roundInt roundReal
  cases up
  · simp [h1]
  · simp only [if_true]
    rw [h1, ← Int.ceil_neg]
    push_cast
    rw [neg_div, neg_neg]

theorem round_value (b : Bool) (a : T) :
    (¬ IsFinite a → (IEEE.pk (roundFloat 𝔽 b (up a)) : T) = a) ∧
    (IsFinite a → IsFinite (IEEE.pk (roundFloat 𝔽 b (up a)) : T) ∧
      val (IEEE.pk (roundFloat 𝔽 b (up a)) : T) = roundReal b (val a) ∧
      usign (up (IEEE.pk (roundFloat 𝔽 b (up a)) : T)) = usign (up a)) := by
  have hc := up_canon a
  have same : roundFloat 𝔽 b (up a) = up a → (IEEE.pk (roundFloat 𝔽 b (up a)) : T) = a := by
    intro h
    rw [h]
    apply up_inj
    rw [up_pk hc, over_self (up_range a)]
  rw [isFinite_iff a]
  unfold val
  cases hu : up a with
  | infinity s =>
    rw [hu] at same
    exact ⟨fun _ => same rfl, fun h => h.elim⟩
  | notANumber =>
    rw [hu] at same
    exact ⟨fun _ => same rfl, fun h => h.elim⟩
  | zero s =>
    rw [hu] at same
    refine ⟨fun h => (h trivial).elim, fun _ => ?_⟩
    rw [same rfl, isFinite_iff, hu]
    exact ⟨trivial, by cases b <;> simp [uval, roundReal], rfl⟩
  | finite s m e hm =>
    rw [hu] at same hc
    refine ⟨fun h => (h trivial).elim, fun _ => ?_⟩
    by_cases he : 0 ≤ e
    · rw [same (if_pos he), isFinite_iff, hu]
      refine ⟨trivial, ?_, rfl⟩
      have : uval (.finite s m e hm) = ((s.apply m * 2 ^ e.toNat : ℤ) : ℝ) := by
        have e1 : e = (e.toNat : ℤ) := by omega
        show ((s.apply m : ℤ) : ℝ) * 2 ^ e = _
        conv_lhs => rw [e1, zpow_natCast]
        push_cast
        rfl
      rw [this]
      cases b
      · exact congrArg _ (Int.floor_intCast _).symm
      · exact congrArg _ (Int.ceil_intCast _).symm
    · have hv : uval (.finite s m e hm) = ((s.apply m : ℤ) / 2 ^ e.natAbs : ℝ) := by
        show ((s.apply m : ℤ) : ℝ) * 2 ^ e = _
        have e1 : e = -(e.natAbs : ℤ) := by omega
        conv_lhs => rw [e1, zpow_neg, zpow_natCast]
        rfl
      have hi : roundInt b s m e.natAbs = roundReal b (uval (.finite s m e hm)) := by
        rw [hv, roundInt_eq]
      have hrf : roundFloat 𝔽 b (.finite s m e hm) =
          if roundInt b s m e.natAbs = 0 then .zero s
          else UnpackedFloat.ofInt 𝔽 (roundInt b s m e.natAbs) := by
        show (if 0 ≤ e then _ else _) = _
        rw [if_neg he]
      rw [hrf]
      by_cases h0 : roundInt b s m e.natAbs = 0
      · rw [if_pos h0, ← hi, h0]
        have hz : up (IEEE.pk (.zero s) : T) = .zero s := by rw [up_pk (by trivial)]; rfl
        rw [isFinite_iff, hz]
        exact ⟨trivial, by simp [uval], rfl⟩
      · rw [if_neg h0, ← IEEE.int_eq]
        have hm1 : (m : ℤ) < 2 ^ (𝔽).mantissaBits := by exact_mod_cast hc.1
        have hb : |roundInt b s m e.natAbs| < 2 ^ (𝔽).mantissaBits := by
          rw [hi, hv]
          have hk : (1 : ℝ) ≤ 2 ^ e.natAbs := one_le_pow₀ (by norm_num)
          have hmR : (m : ℝ) / 2 ^ e.natAbs ≤ m := div_le_self (by positivity) hk
          have hm0 : (0 : ℝ) ≤ (m : ℝ) / 2 ^ e.natAbs := by positivity
          have h1 : ((s.apply m : ℤ) / 2 ^ e.natAbs : ℝ) ≤ (m : ℤ) := by
            rw [apply_cast]
            cases s <;> simp only [sgn] <;> push_cast
            · rw [neg_one_mul, neg_div]; linarith
            · rw [one_mul]; linarith
          have h2 : ((-(m : ℤ) : ℤ) : ℝ) ≤ ((s.apply m : ℤ) / 2 ^ e.natAbs : ℝ) := by
            rw [apply_cast]
            cases s <;> simp only [sgn] <;> push_cast
            · rw [neg_one_mul, neg_div]; linarith
            · rw [one_mul]; linarith
          have h3 : ∀ x : ℝ, x ≤ (m : ℤ) → ((-(m : ℤ) : ℤ) : ℝ) ≤ x → |roundReal b x| ≤ m := by
            intro x hx hy
            rw [abs_le]
            unfold roundReal
            cases b
            · simp only [Bool.false_eq_true, if_false]
              exact ⟨Int.le_floor.2 hy, by exact_mod_cast (Int.floor_le x).trans hx⟩
            · simp only [if_true]
              exact ⟨by exact_mod_cast hy.trans (Int.le_ceil x), Int.ceil_le.2 hx⟩
          exact (h3 _ h1 h2).trans_lt hm1
        obtain ⟨f1, f2⟩ := fromInt_exact (T := T) _ hb
        refine ⟨f1, by rw [← hi]; exact f2, ?_⟩
        obtain ⟨p1, p2⟩ := sign_of_val f1
        rw [f2] at p1 p2
        have hpos : (0 : ℝ) ≤ (m : ℝ) / 2 ^ e.natAbs := by positivity
        cases s with
        | positive =>
          have : 0 ≤ roundInt b .positive m e.natAbs := by
            rw [hi, hv, apply_cast, sgn, one_mul]
            cases b
            · exact Int.floor_nonneg.2 hpos
            · exact Int.ceil_nonneg hpos
          exact p1 (by exact_mod_cast lt_of_le_of_ne this (Ne.symm h0))
        | negative =>
          have : roundInt b .negative m e.natAbs ≤ 0 := by
            rw [hi, hv, apply_cast, sgn, neg_one_mul, neg_div]
            cases b
            · exact Int.floor_nonpos (by linarith)
            · exact Int.ceil_nonpos.2 (by linarith)
          exact p2 (by exact_mod_cast lt_of_le_of_ne this h0)

/-- **C66**: `floor` of a finite float is exactly the greatest integer not above it, with the sign
    bit of the argument (so `floor(-0.0)` is `-0.0`); infinities and NaN are returned as they are. -/
theorem C66_floor (a : T) :
    (IsFinite a → IsFinite (FloatFns.floor a) ∧ val (FloatFns.floor a) = ⌊val a⌋ ∧
      usign (up (FloatFns.floor a)) = usign (up a)) ∧
    (¬ IsFinite a → FloatFns.floor a = a) := by
  have h := round_value false a
  rw [IEEE.floor_eq]
  exact ⟨h.2, h.1⟩

/-- **C66**: `ceil` is exactly the least integer not below. -/
theorem C66_ceil (a : T) :
    (IsFinite a → IsFinite (FloatFns.ceil a) ∧ val (FloatFns.ceil a) = ⌈val a⌉ ∧
      usign (up (FloatFns.ceil a)) = usign (up a)) ∧
    (¬ IsFinite a → FloatFns.ceil a = a) := by
  have h := round_value true a
  rw [IEEE.ceil_eq]
  exact ⟨h.2, h.1⟩

theorem eq_of_val {a b : T} (ha : IsFinite a) (hb : IsFinite b) (hv : val a = val b)
    (hs : usign (up a) = usign (up b)) : a = b :=
  up_inj (canon_unique (up_canon a) (up_canon b) ((isFinite_iff a).1 ha) ((isFinite_iff b).1 hb) hv hs)

/-- **C66**: `floor(a) <= a <= ceil(a)` for every float that is not NaN, and rounding twice is
    rounding once. -/
theorem C66_order (a : T) :
    (NotNan a → Le (FloatFns.floor a) a ∧ Le a (FloatFns.ceil a)) ∧
    FloatFns.floor (FloatFns.floor a) = FloatFns.floor a ∧
    FloatFns.ceil (FloatFns.ceil a) = FloatFns.ceil a := by
  obtain ⟨f1, f2⟩ := C66_floor a
  obtain ⟨c1, c2⟩ := C66_ceil a
  by_cases ha : IsFinite a
  · obtain ⟨fa, fv, fs⟩ := f1 ha
    obtain ⟨ca, cv, cs⟩ := c1 ha
    refine ⟨fun _ => ⟨(le_iff_val fa ha).2 ?_, (le_iff_val ha ca).2 ?_⟩, ?_, ?_⟩
    · rw [fv]; exact Int.floor_le _
    · rw [cv]; exact Int.le_ceil _
    · obtain ⟨g1, g2, g3⟩ := (C66_floor (FloatFns.floor a)).1 fa
      refine eq_of_val g1 fa ?_ g3
      rw [g2, fv]; simp
    · obtain ⟨g1, g2, g3⟩ := (C66_ceil (FloatFns.ceil a)).1 ca
      refine eq_of_val g1 ca ?_ g3
      rw [g2, cv]; simp
  · rw [f2 ha, c2 ha]
    refine ⟨fun hn => ?_, f2 ha, c2 ha⟩
    have : Le a a := by
      show Elem.le a a = true
      rw [le_iff_ext]
      exact ⟨hn, hn, le_refl _⟩
    exact ⟨this, this⟩

/-- **C66**: `ceil` is `floor` seen in a mirror, bit for bit. -/
theorem C66_mirror (a : T) : FloatFns.ceil a = fneg (FloatFns.floor (fneg a)) := by
  by_cases ha : IsFinite a
  · obtain ⟨c1, c2, c3⟩ := (C66_ceil a).1 ha
    obtain ⟨f1, f2, f3⟩ := (C66_floor (fneg a)).1 (fneg_finite ha)
    refine eq_of_val c1 (fneg_finite f1) ?_ ?_
    · rw [c2, val_fneg, f2, val_fneg, Int.floor_neg]; simp
    · have hneg : ∀ b : T, IsFinite b → usign (up (fneg b)) = -usign (up b) := by
        intro b hb
        rw [isFinite_iff] at hb
        rw [up_fneg]
        cases hu : up b with
        | infinity s => rw [hu] at hb; exact hb.elim
        | notANumber => rw [hu] at hb; exact hb.elim
        | zero s => rfl
        | finite s m e h => rfl
      rw [c3, hneg _ f1, f3, hneg _ ha]
      cases usign (up a) <;> rfl
  · have hb : ¬ IsFinite (fneg a) := by
      intro h
      apply ha
      have := fneg_finite h
      rw [isFinite_iff, up_fneg, up_fneg] at this
      rw [isFinite_iff]
      cases hu : up a <;> rw [hu] at this <;> exact this
    rw [(C66_ceil a).2 ha, (C66_floor _).2 hb]
    apply up_inj
    rw [up_fneg, up_fneg]
    cases up a with
    | infinity s => cases s <;> rfl
    | notANumber => rfl
    | zero s => cases s <;> rfl
    | finite s m e h => cases s <;> rfl

omit [Elem T] [As T T] [IEEE T] in
/-- **C66**: points are rounded coordinate by coordinate. -/
theorem C66_points (p : Point3 T) (i : Fin 3) :
    (p.floor).get i = FloatFns.floor (p.get i) ∧ (p.ceil).get i = FloatFns.ceil (p.get i) := by
  fin_cases i <;> exact ⟨rfl, rfl⟩

end

example : FloatFns.floor ((f32 (-5)).div (f32 2)) = f32 (-3) ∧ FloatFns.ceil ((f32 (-5)).div (f32 2)) = f32 (-2) ∧
    FloatFns.ceil ((f32 (-1)).div (f32 2)) = negZero32 ∧ FloatFns.floor inf32 = inf32 ∧
    IsFinite ((f32 (-5)).div (f32 2)) ∧ ¬ IsFinite inf32 := by decide +kernel

end Pbrt
