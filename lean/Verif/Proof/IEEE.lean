import Verif.Proof.FloatVal
import Verif.Proof.FloatDiv
import Verif.Proof.Exact
import Mathlib.Data.EReal.Operations

/-!
# Operations on floats

Each operation returns a float, and on numbers it is the exact operation followed by rounding.
-/

namespace Pbrt

open Float.Model (UnpackedFloat Format)
open Float.Model.UnpackedFloat (Sign)

section
variable {T : Type} [Elem T] [As T T] [FloatFns T] [IEEE T]

local notation "𝔽" => IEEE.fmt T

/-! ### Form -/

theorem up_canon (a : T) : Canon 𝔽 (up a) := (unpack_form _ IEEE.heb _).1
theorem up_range (a : T) : InRange 𝔽 (up a) := (unpack_form _ IEEE.heb _).2

theorem up_inj {a b : T} (h : up a = up b) : a = b :=
  IEEE.bits_inj _ _ ((UnpackedFloat.unpack_inj_of_valid (IEEE.valid a) (IEEE.valid b) IEEE.heb).1 h)

theorem up_pk {u : UnpackedFloat} (h : Canon 𝔽 u) : up (IEEE.pk u : T) = over 𝔽 u := by
  unfold up
  rw [IEEE.bits_pk, unpack_pack h]

theorem over_self {fmt : Format} {u : UnpackedFloat} (h : InRange fmt u) : over fmt u = u := by
  cases u with
  | finite s m e hm => exact if_pos h
  | _ => rfl

theorem isFinite_iff (a : T) : IsFinite a ↔ IsFin (up a) := by
  unfold IsFinite
  cases up a <;> simp [UnpackedFloat.isFinite, IsFin]

/-- The float as an extended real number -/
noncomputable def ext (a : T) : EReal := uext (up a)

theorem nan_iff (a : T) : Elem.isNan a = false ↔ up a ≠ .notANumber := by
  rw [IEEE.nan_eq]; exact isNaN_false _

theorem nan_iff' (a : T) : Elem.isNan a = true ↔ up a = .notANumber := by
  rw [← Bool.not_eq_false, nan_iff]; simp

theorem IsFinite.notNan {a : T} (h : IsFinite a) : Elem.isNan a = false := by
  rw [nan_iff]; rw [isFinite_iff] at h
  intro hc; rw [hc] at h; exact h

theorem IsFinite.ext {a : T} (h : IsFinite a) : ext a = (val a : ℝ) := by
  rw [isFinite_iff] at h
  unfold Pbrt.ext val
  cases hu : up a with
  | infinity s => rw [hu] at h; exact h.elim
  | notANumber => rw [hu] at h; exact h.elim
  | zero s => rfl
  | finite s m e hm => rfl

theorem finite_iff_ext {a : T} (h : Elem.isNan a = false) : IsFinite a ↔ Pbrt.ext a ≠ ⊤ ∧ Pbrt.ext a ≠ ⊥ := by
  rw [isFinite_iff]
  rw [nan_iff] at h
  unfold Pbrt.ext
  cases hu : up a with
  | infinity s => cases s <;> simp [uext, IsFin]
  | notANumber => exact absurd hu h
  | zero s => simp [uext, IsFin]
  | finite s m e hm => simp [uext, IsFin]

theorem finite_of_ext {a : T} {x : ℝ} (h : Elem.isNan a = false) (hx : Pbrt.ext a = (x : ℝ)) :
    IsFinite a ∧ val a = x := by
  have hf : IsFinite a := (finite_iff_ext h).2 (by rw [hx]; simp)
  refine ⟨hf, ?_⟩
  rw [hf.ext] at hx
  exact_mod_cast hx

theorem ext_top_iff {a : T} : Pbrt.ext a = ⊤ ↔ up a = .infinity .positive := by
  unfold Pbrt.ext
  cases up a with
  | infinity s => cases s <;> simp [uext]
  | _ => simp [uext]

theorem ext_bot_iff {a : T} : Pbrt.ext a = ⊥ ↔ up a = .infinity .negative := by
  unfold Pbrt.ext
  cases up a with
  | infinity s => cases s <;> simp [uext]
  | _ => simp [uext]

/-! ### Order -/

theorem le_iff_ext (a b : T) : Elem.le a b = true ↔
    Elem.isNan a = false ∧ Elem.isNan b = false ∧ ext a ≤ ext b := by
  rw [nan_iff, nan_iff, IEEE.le_eq, fle_iff]
  exact and_congr_right fun _ => and_congr_right fun _ => key_le_iff (up_canon a) (up_canon b)

theorem lt_iff_ext (a b : T) : Elem.lt a b = true ↔
    Elem.isNan a = false ∧ Elem.isNan b = false ∧ ext a < ext b := by
  rw [nan_iff, nan_iff, IEEE.lt_eq, flt_iff]
  exact and_congr_right fun _ => and_congr_right fun _ => key_lt_iff (up_canon a) (up_canon b)

theorem eq_iff_ext (a b : T) : Elem.eq a b = true ↔
    Elem.isNan a = false ∧ Elem.isNan b = false ∧ ext a = ext b := by
  rw [nan_iff, nan_iff, IEEE.eq_eq, feq_iff]
  exact and_congr_right fun _ => and_congr_right fun _ => key_eq_iff (up_canon a) (up_canon b)

theorem le_iff_val {a b : T} (ha : IsFinite a) (hb : IsFinite b) : Elem.le a b = true ↔ val a ≤ val b := by
  rw [le_iff_ext, ha.ext, hb.ext]
  simp [ha.notNan, hb.notNan]

theorem lt_iff_val {a b : T} (ha : IsFinite a) (hb : IsFinite b) : Elem.lt a b = true ↔ val a < val b := by
  rw [lt_iff_ext, ha.ext, hb.ext]
  simp [ha.notNan, hb.notNan]

theorem eq_iff_val {a b : T} (ha : IsFinite a) (hb : IsFinite b) : Elem.eq a b = true ↔ val a = val b := by
  rw [eq_iff_ext, ha.ext, hb.ext]
  simp [ha.notNan, hb.notNan]

/-! ### Operations -/

/-- `a + b` -/
def fadd (a b : T) : T := IEEE.pk (UnpackedFloat.add 𝔽 (up a) (up b))
/-- `a - b` -/
def fsub (a b : T) : T := IEEE.pk (UnpackedFloat.sub 𝔽 (up a) (up b))
/-- `a * b` -/
def fmul (a b : T) : T := IEEE.pk (UnpackedFloat.mul 𝔽 (up a) (up b))
/-- `a / b` -/
def fdiv (a b : T) : T := IEEE.pk (UnpackedFloat.div 𝔽 (up a) (up b))
/-- `-a` -/
def fneg (a : T) : T := IEEE.pk (up a).neg
/-- `a.abs()` -/
def fabs (a : T) : T := IEEE.pk (up a).abs
/-- `a.sqrt()` -/
def fsqrt (a : T) : T := IEEE.pk (UnpackedFloat.sqrt 𝔽 (up a))

theorem fadd_ok (a b : T) : Elem.add a b = .ok (fadd a b) := IEEE.add_eq a b
theorem fsub_ok (a b : T) : Elem.sub a b = .ok (fsub a b) := IEEE.sub_eq a b
theorem fmul_ok (a b : T) : Elem.mul a b = .ok (fmul a b) := IEEE.mul_eq a b
theorem fdiv_ok (a b : T) : Elem.div a b = .ok (fdiv a b) := IEEE.div_eq a b
theorem fneg_ok (a : T) : Elem.neg a = .ok (fneg a) := IEEE.neg_eq a
theorem fabs_ok (a : T) : Elem.abs a = .ok (fabs a) := IEEE.abs_eq a
theorem fsqrt_ok (a : T) : FloatFns.sqrt a = .ok (fsqrt a) := IEEE.sqrt_eq a

theorem up_fneg (a : T) : up (fneg a) = (up a).neg := by
  unfold fneg
  rw [up_pk (up_canon a).neg]
  refine over_self ?_
  have := up_range a
  cases h : up a <;> rw [h] at this <;> exact this

theorem up_fabs (a : T) : up (fabs a) = (up a).abs := by
  unfold fabs
  rw [up_pk (up_canon a).abs]
  refine over_self ?_
  have := up_range a
  cases h : up a <;> rw [h] at this <;> exact this

theorem add_canon {fmt : Format} {a b : UnpackedFloat} (ha : Canon fmt a) (hb : Canon fmt b) :
    Canon fmt (UnpackedFloat.add fmt a b) := by
  by_cases fa : IsFin a
  · by_cases fb : IsFin b
    · exact (add_spec ha hb fa fb).canon
    · cases b with
      | infinity s => cases a <;> simp only [UnpackedFloat.add] <;> (try split) <;> exact trivial
      | notANumber => cases a <;> exact trivial
      | zero s => exact absurd trivial fb
      | finite => exact absurd trivial fb
  · cases a with
    | infinity s => cases b <;> simp only [UnpackedFloat.add] <;> (try split) <;> exact trivial
    | notANumber => cases b <;> exact trivial
    | zero s => exact absurd trivial fa
    | finite => exact absurd trivial fa

theorem mul_canon {fmt : Format} {a b : UnpackedFloat} (ha : Canon fmt a) (hb : Canon fmt b) :
    Canon fmt (UnpackedFloat.mul fmt a b) := by
  by_cases fa : IsFin a
  · by_cases fb : IsFin b
    · exact (mul_spec ha hb fa fb).1.canon
    · cases b with
      | infinity s => cases a <;> exact trivial
      | notANumber => cases a <;> exact trivial
      | zero s => exact absurd trivial fb
      | finite => exact absurd trivial fb
  · cases a with
    | infinity s => cases b <;> exact trivial
    | notANumber => cases b <;> exact trivial
    | zero s => exact absurd trivial fa
    | finite => exact absurd trivial fa

theorem div_canon {fmt : Format} {a b : UnpackedFloat} : Canon fmt (UnpackedFloat.div fmt a b) := by
  cases a <;> cases b <;> first | exact trivial | exact div_finite.1.canon

theorem sqrt_canon {fmt : Format} {a : UnpackedFloat} : Canon fmt (UnpackedFloat.sqrt fmt a) := by
  rcases a with (_|_) | _ | (_|_) | ⟨(_|_), m, e, hm⟩ <;> first | exact trivial | exact sqrt_finite.1.canon

theorem up_fadd (a b : T) : up (fadd a b) = over 𝔽 (UnpackedFloat.add 𝔽 (up a) (up b)) :=
  up_pk (add_canon (up_canon a) (up_canon b))

theorem up_fmul (a b : T) : up (fmul a b) = over 𝔽 (UnpackedFloat.mul 𝔽 (up a) (up b)) :=
  up_pk (mul_canon (up_canon a) (up_canon b))

theorem up_fdiv (a b : T) : up (fdiv a b) = over 𝔽 (UnpackedFloat.div 𝔽 (up a) (up b)) :=
  up_pk div_canon

theorem up_fsqrt (a : T) : up (fsqrt a) = over 𝔽 (UnpackedFloat.sqrt 𝔽 (up a)) := up_pk sqrt_canon

theorem fsub_eq_add (a b : T) : fsub a b = fadd a (fneg b) := by
  unfold fsub fadd
  rw [up_fneg, fsub_eq]

/-! ### Rounding -/

/-- Rounding of extended numbers -/
noncomputable def rndE (fmt : Format) : EReal → EReal
  | ⊤ => ⊤
  | ⊥ => ⊥
  | (x : ℝ) => rnd fmt x

@[simp] theorem rndE_top (fmt : Format) : rndE fmt ⊤ = ⊤ := rfl
@[simp] theorem rndE_bot (fmt : Format) : rndE fmt ⊥ = ⊥ := rfl
@[simp] theorem rndE_coe (fmt : Format) (x : ℝ) : rndE fmt (x : ℝ) = rnd fmt x := rfl

theorem rndE_mono {fmt : Format} {x y : EReal} (h : x ≤ y) : rndE fmt x ≤ rndE fmt y := by
  induction x with
  | bot => exact bot_le
  | top => rw [top_le_iff.1 h]
  | coe x =>
    induction y with
    | bot => exact absurd h (by simp)
    | top => exact le_top
    | coe y => exact rnd_mono (by exact_mod_cast h)

theorem rndE_neg (fmt : Format) (x : EReal) : rndE fmt (-x) = - rndE fmt x := by
  induction x with
  | bot => rfl
  | top => rfl
  | coe x => exact rnd_neg fmt x

theorem rnd_val {a : T} (h : IsFinite a) : rnd 𝔽 (val a) = (val a : ℝ) := by
  have hr := Rounded.of_canon (up_canon a) ((isFinite_iff a).1 h)
  have := (uext_over IEEE.heb hr).1
  rw [over_self (up_range a)] at this
  rw [show val a = uval (up a) from rfl, ← this]
  exact h.ext

theorem rndE_ext (a : T) : rndE 𝔽 (ext a) = ext a := by
  by_cases h : IsFinite a
  · rw [h.ext, rndE_coe, rnd_val h]
  · rw [isFinite_iff] at h
    unfold ext
    cases hu : up a with
    | infinity s => cases s <;> rfl
    | notANumber =>
      show rnd _ (0 : ℝ) = _
      simp only [rnd, RN_zero]
      have := big_pos 𝔽
      rw [if_neg (by linarith), if_neg (by linarith)]; rfl
    | zero s => rw [hu] at h; exact absurd trivial h
    | finite s m e hm => rw [hu] at h; exact absurd trivial h

theorem rnd_zero (fmt : Format) : rnd fmt 0 = 0 := by
  simp only [rnd, RN_zero]
  have := big_pos fmt
  rw [if_neg (by linarith), if_neg (by linarith)]; rfl

theorem rnd_nonneg {fmt : Format} {x : ℝ} (h : 0 ≤ x) : 0 ≤ rnd fmt x := by
  rw [← rnd_zero fmt]; exact rnd_mono h

theorem rndE_nonneg {fmt : Format} {x : EReal} (h : 0 ≤ x) : 0 ≤ rndE fmt x := by
  have := rndE_mono (fmt := fmt) h
  rwa [show rndE fmt 0 = rnd fmt 0 from rfl, rnd_zero] at this

/-- On numbers, an operation is the exact operation followed by rounding. -/
theorem fadd_rnd {a b : T} (ha : IsFinite a) (hb : IsFinite b) :
    Elem.isNan (fadd a b) = false ∧ ext (fadd a b) = rnd 𝔽 (val a + val b) := by
  have := uext_over IEEE.heb (add_spec (up_canon a) (up_canon b) ((isFinite_iff a).1 ha) ((isFinite_iff b).1 hb))
  rw [nan_iff]
  unfold ext
  rw [up_fadd]
  exact ⟨this.2, this.1⟩

theorem fneg_finite {a : T} (ha : IsFinite a) : IsFinite (fneg a) := by
  rw [isFinite_iff] at *
  rw [up_fneg]; exact ha.neg

theorem val_fneg (a : T) : val (fneg a) = - val a := by
  unfold val; rw [up_fneg, uval_neg]

theorem nan_fneg (a : T) : Elem.isNan (fneg a) = Elem.isNan a := by
  rw [IEEE.nan_eq, IEEE.nan_eq]
  show (up (fneg a)).isNaN = (up a).isNaN
  rw [up_fneg]
  cases up a <;> rfl

theorem ext_fneg (a : T) : ext (fneg a) = - ext a := by
  unfold ext
  rw [up_fneg]
  cases h : up a with
  | infinity s => cases s <;> rfl
  | notANumber => show ((0 : ℝ) : EReal) = -((0 : ℝ) : EReal); simp
  | zero s => show ((0 : ℝ) : EReal) = -((0 : ℝ) : EReal); simp
  | finite s m e hm =>
    show ((uval (UnpackedFloat.neg (.finite s m e hm)) : ℝ) : EReal) = -((uval (.finite s m e hm) : ℝ) : EReal)
    rw [uval_neg]; simp

theorem fsub_rnd {a b : T} (ha : IsFinite a) (hb : IsFinite b) :
    Elem.isNan (fsub a b) = false ∧ ext (fsub a b) = rnd 𝔽 (val a - val b) := by
  rw [fsub_eq_add, sub_eq_add_neg, ← val_fneg]
  exact fadd_rnd ha (fneg_finite hb)

theorem fmul_rnd {a b : T} (ha : IsFinite a) (hb : IsFinite b) :
    Elem.isNan (fmul a b) = false ∧ ext (fmul a b) = rnd 𝔽 (val a * val b) := by
  have := uext_over IEEE.heb (mul_spec (up_canon a) (up_canon b) ((isFinite_iff a).1 ha) ((isFinite_iff b).1 hb)).1
  rw [nan_iff]
  unfold ext
  rw [up_fmul]
  exact ⟨this.2, this.1⟩

theorem val_ne_zero_iff {a : T} (ha : IsFinite a) : val a ≠ 0 ↔ ∃ s m e h, up a = .finite s m e h := by
  rw [isFinite_iff] at ha
  unfold val
  cases h : up a with
  | infinity s => rw [h] at ha; exact ha.elim
  | notANumber => rw [h] at ha; exact ha.elim
  | zero s => simp [uval]
  | finite s m e hm =>
    refine ⟨fun _ => ⟨s, m, e, hm, rfl⟩, fun _ h0 => ?_⟩
    have := uval_pos (s := s) (m := m) (e := e) (h := hm)
    rw [h0] at this
    simp at this

theorem fdiv_rnd {a b : T} (ha : IsFinite a) (hb : IsFinite b) (h0 : val b ≠ 0) :
    Elem.isNan (fdiv a b) = false ∧ ext (fdiv a b) = rnd 𝔽 (val a / val b) := by
  obtain ⟨s, m, e, hm, hub⟩ := (val_ne_zero_iff hb).1 h0
  rw [nan_iff]
  unfold ext
  rw [up_fdiv]
  rw [isFinite_iff] at ha
  unfold val
  rw [hub]
  cases hua : up a with
  | infinity s => rw [hua] at ha; exact ha.elim
  | notANumber => rw [hua] at ha; exact ha.elim
  | zero s' =>
    simp only [UnpackedFloat.div, over, uext, uval, zero_div, rnd_zero]
    simp
  | finite s' m' e' hm' =>
    have := uext_over (fmt := 𝔽) IEEE.heb (div_finite (s := s') (s' := s) (m := m') (m' := m) (e := e') (e' := e)
      (h := hm') (h' := hm)).1
    exact ⟨this.2, this.1⟩

theorem fsqrt_rnd {a : T} (ha : IsFinite a) (h0 : 0 ≤ val a) :
    Elem.isNan (fsqrt a) = false ∧ ext (fsqrt a) = rnd 𝔽 (Real.sqrt (val a)) := by
  rw [nan_iff]
  unfold ext
  rw [up_fsqrt]
  rw [isFinite_iff] at ha
  unfold val at *
  cases hua : up a with
  | infinity s => rw [hua] at ha; exact ha.elim
  | notANumber => rw [hua] at ha; exact ha.elim
  | zero s' =>
    simp only [UnpackedFloat.sqrt, over, uext, uval, Real.sqrt_zero, rnd_zero]
    simp
  | finite s' m' e' hm' =>
    cases s' with
    | negative =>
      rw [hua] at h0
      have := uval_pos (s := .negative) (m := m') (e := e') (h := hm')
      simp only [sgn] at this
      linarith
    | positive =>
      have := uext_over (fmt := 𝔽) IEEE.heb (sqrt_finite (m := m') (e := e') (h := hm')).1
      exact ⟨this.2, this.1⟩

/-! ### Infinities -/

theorem not_finite_cases {a : T} (h : Elem.isNan a = false) : IsFinite a ∨ up a = .infinity .positive ∨
    up a = .infinity .negative := by
  rw [isFinite_iff]
  rw [nan_iff] at h
  cases hu : up a with
  | infinity s => cases s <;> simp
  | notANumber => exact absurd hu h
  | zero s => exact Or.inl trivial
  | finite s m e hm => exact Or.inl trivial

theorem add_inf_left {fmt : Format} {s : Sign} {b : UnpackedFloat} (hb : b ≠ .notANumber)
    (hi : b ≠ .infinity (-s)) : UnpackedFloat.add fmt (.infinity s) b = .infinity s := by
  cases b with
  | infinity t => cases s <;> cases t <;> first | rfl | exact absurd rfl hi
  | notANumber => exact absurd rfl hb
  | zero t => rfl
  | finite => rfl

/-- Addition of floats that are not NaN, except for opposite infinities -/
theorem fadd_ext {a b : T} (ha : Elem.isNan a = false) (hb : Elem.isNan b = false)
    (h1 : ¬ (ext a = ⊤ ∧ ext b = ⊥)) (h2 : ¬ (ext a = ⊥ ∧ ext b = ⊤)) :
    Elem.isNan (fadd a b) = false ∧ ext (fadd a b) = rndE 𝔽 (ext a + ext b) := by
  rw [ext_top_iff, ext_bot_iff] at h1
  rw [ext_top_iff, ext_bot_iff] at h2
  have na := (nan_iff a).1 ha
  have nb := (nan_iff b).1 hb
  rcases not_finite_cases ha with fa | ia | ia
  · rcases not_finite_cases hb with fb | ib | ib
    · have := fadd_rnd fa fb
      rw [fa.ext, fb.ext, ← EReal.coe_add, rndE_coe]
      exact this
    · have hu : up (fadd a b) = .infinity .positive := by
        rw [up_fadd, fadd_comm, ib, add_inf_left (s := .positive) na (fun h => h2 ⟨h, ib⟩)]; rfl
      rw [nan_iff, hu, fa.ext, ext_top_iff.2 hu, ext_top_iff.2 ib]
      simp
    · have hu : up (fadd a b) = .infinity .negative := by
        rw [up_fadd, fadd_comm, ib, add_inf_left (s := .negative) na (fun h => h1 ⟨h, ib⟩)]; rfl
      rw [nan_iff, hu, fa.ext, ext_bot_iff.2 hu, ext_bot_iff.2 ib]
      simp
  · have hu : up (fadd a b) = .infinity .positive := by
      rw [up_fadd, ia, add_inf_left (s := .positive) nb (fun h => h1 ⟨ia, h⟩)]; rfl
    have hb' : ext b ≠ ⊥ := fun h => h1 ⟨ia, ext_bot_iff.1 h⟩
    rw [nan_iff, hu, ext_top_iff.2 hu, ext_top_iff.2 ia, EReal.top_add_of_ne_bot hb']
    simp
  · have hu : up (fadd a b) = .infinity .negative := by
      rw [up_fadd, ia, add_inf_left (s := .negative) nb (fun h => h2 ⟨ia, h⟩)]; rfl
    rw [nan_iff, hu, ext_bot_iff.2 hu, ext_bot_iff.2 ia, EReal.bot_add]
    simp

/-- The sum is NaN for NaN and for opposite infinities only. -/
theorem fadd_nan {a b : T} (h : Elem.isNan (fadd a b) = false) :
    Elem.isNan a = false ∧ Elem.isNan b = false ∧ ¬ (ext a = ⊤ ∧ ext b = ⊥) ∧ ¬ (ext a = ⊥ ∧ ext b = ⊤) := by
  simp only [ext_top_iff, ext_bot_iff]
  rw [nan_iff, up_fadd] at h
  rw [nan_iff, nan_iff]
  refine ⟨fun hc => h ?_, fun hc => h ?_, fun hc => h ?_, fun hc => h ?_⟩
  · rw [hc]; rfl
  · rw [fadd_comm, hc]; rfl
  · rw [hc.1, hc.2]; rfl
  · rw [hc.1, hc.2]; rfl

theorem fadd_ext' {a b : T} (h : Elem.isNan (fadd a b) = false) : ext (fadd a b) = rndE 𝔽 (ext a + ext b) := by
  obtain ⟨h1, h2, h3, h4⟩ := fadd_nan h
  exact (fadd_ext h1 h2 h3 h4).2

theorem fsub_ext {a b : T} (ha : Elem.isNan a = false) (hb : Elem.isNan b = false)
    (h1 : ¬ (ext a = ⊤ ∧ ext b = ⊤)) (h2 : ¬ (ext a = ⊥ ∧ ext b = ⊥)) :
    Elem.isNan (fsub a b) = false ∧ ext (fsub a b) = rndE 𝔽 (ext a - ext b) := by
  rw [fsub_eq_add, sub_eq_add_neg, ← ext_fneg]
  refine fadd_ext ha (by rw [nan_fneg]; exact hb) ?_ ?_ <;> rw [ext_fneg]
  · rintro ⟨h3, h4⟩
    exact h1 ⟨h3, by rw [EReal.neg_eq_bot_iff] at h4; exact h4⟩
  · rintro ⟨h3, h4⟩
    exact h2 ⟨h3, by rw [EReal.neg_eq_top_iff] at h4; exact h4⟩

theorem mul_inf_left {fmt : Format} {s : Sign} {b : UnpackedFloat} (hb : b ≠ .notANumber)
    (hz : ∀ t, b ≠ .zero t) : UnpackedFloat.mul fmt (.infinity s) b = .infinity (s * usign b) ∧
      uext (.infinity (s * usign b)) = uext (.infinity s) * uext b := by
  cases b with
  | infinity t =>
    refine ⟨rfl, ?_⟩
    cases s <;> cases t <;> simp only [usign, smm, smp, spm, spp, uext] <;> simp
  | notANumber => exact absurd rfl hb
  | zero t => exact absurd rfl (hz t)
  | finite t m e hm =>
    refine ⟨rfl, ?_⟩
    have := uval_pos (s := t) (m := m) (e := e) (h := hm)
    have hx : uext (.finite t m e hm) = (uval (.finite t m e hm) : ℝ) := rfl
    rw [hx]
    cases s <;> cases t <;> simp only [usign, smm, smp, spm, spp, uext, sgn] at this ⊢
    · rw [EReal.bot_mul_coe_of_neg (by linarith)]
    · rw [EReal.bot_mul_coe_of_pos (by linarith)]
    · rw [EReal.top_mul_coe_of_neg (by linarith)]
    · rw [EReal.top_mul_coe_of_pos (by linarith)]

/-- Multiplication of floats that are not NaN, except for zero times infinity -/
theorem fmul_ext {a b : T} (ha : Elem.isNan a = false) (hb : Elem.isNan b = false)
    (h1 : ext a = 0 → ext b ≠ ⊤ ∧ ext b ≠ ⊥) (h2 : ext b = 0 → ext a ≠ ⊤ ∧ ext a ≠ ⊥) :
    Elem.isNan (fmul a b) = false ∧ ext (fmul a b) = rndE 𝔽 (ext a * ext b) := by
  have na := (nan_iff a).1 ha
  have nb := (nan_iff b).1 hb
  have hinf : ∀ s, rndE 𝔽 (uext (.infinity s)) = uext (.infinity s) := by intro s; cases s <;> rfl
  have hz : ∀ c : T, ∀ t, up c = .zero t → ext c = 0 := by
    intro c t h; unfold ext; rw [h]; rfl
  have key : ∀ (c d : T), up d ≠ .notANumber → (ext d = 0 → ext c ≠ ⊤ ∧ ext c ≠ ⊥) →
      ∀ s, up c = .infinity s → up (fmul c d) = .infinity (s * usign (up d)) ∧
        uext (.infinity (s * usign (up d))) = ext c * ext d := by
    intro c d nd h s hc
    have hcinf : ext d ≠ 0 := by
      intro h0
      have := h h0
      cases s
      · exact this.2 (ext_bot_iff.2 hc)
      · exact this.1 (ext_top_iff.2 hc)
    have := mul_inf_left (fmt := 𝔽) (s := s) nd (fun t ht => hcinf (hz d t ht))
    refine ⟨?_, ?_⟩
    · rw [up_fmul, hc, this.1]; rfl
    · rw [this.2]; unfold ext; rw [hc]
  by_cases fa : IsFinite a
  · by_cases fb : IsFinite b
    · have := fmul_rnd fa fb
      rw [fa.ext, fb.ext, ← EReal.coe_mul, rndE_coe]
      exact this
    · obtain ⟨s, hs⟩ : ∃ s, up b = .infinity s := by
        rcases not_finite_cases hb with h | h | h
        · exact absurd h fb
        · exact ⟨_, h⟩
        · exact ⟨_, h⟩
      have := key b a na h1 s hs
      have hc : up (fmul a b) = up (fmul b a) := by rw [up_fmul, up_fmul, fmul_comm]
      rw [nan_iff, EReal.mul_comm (ext a), ← this.2, hinf]
      unfold ext
      rw [hc, this.1]
      exact ⟨by simp, rfl⟩
  · obtain ⟨s, hs⟩ : ∃ s, up a = .infinity s := by
      rcases not_finite_cases ha with h | h | h
      · exact absurd h fa
      · exact ⟨_, h⟩
      · exact ⟨_, h⟩
    have := key a b nb h2 s hs
    rw [nan_iff, ← this.2, hinf]
    unfold ext
    rw [this.1]
    exact ⟨by simp, rfl⟩

/-- The product is NaN for NaN and for zero times infinity only. -/
theorem fmul_nan {a b : T} (h : Elem.isNan (fmul a b) = false) :
    Elem.isNan a = false ∧ Elem.isNan b = false ∧ (ext a = 0 → ext b ≠ ⊤ ∧ ext b ≠ ⊥) ∧
      (ext b = 0 → ext a ≠ ⊤ ∧ ext a ≠ ⊥) := by
  have hz : ∀ c : T, Elem.isNan c = false → ext c = 0 → ∃ t, up c = .zero t := by
    intro c hn h0
    have hf := finite_of_ext hn (x := 0) h0
    by_contra hcon
    have hu := (isFinite_iff c).1 hf.1
    cases hc : up c with
    | infinity s => rw [hc] at hu; exact hu
    | notANumber => rw [hc] at hu; exact hu
    | zero t => exact hcon ⟨t, hc⟩
    | finite s m e hm => exact ((val_ne_zero_iff hf.1).2 ⟨s, m, e, hm, hc⟩) hf.2
  rw [nan_iff, up_fmul] at h
  have hnan : over 𝔽 .notANumber = .notANumber := rfl
  have na : up a ≠ .notANumber := fun hc => h (by rw [hc]; rfl)
  have nb : up b ≠ .notANumber := fun hc => h (by rw [fmul_comm, hc]; rfl)
  refine ⟨(nan_iff a).2 na, (nan_iff b).2 nb, fun h0 => ?_, fun h0 => ?_⟩
  · obtain ⟨t, ht⟩ := hz a ((nan_iff a).2 na) h0
    rw [Ne, Ne, ext_top_iff, ext_bot_iff]
    constructor <;> intro hc <;> exact h (by rw [ht, hc]; rfl)
  · obtain ⟨t, ht⟩ := hz b ((nan_iff b).2 nb) h0
    rw [Ne, Ne, ext_top_iff, ext_bot_iff]
    constructor <;> intro hc <;> exact h (by rw [ht, hc]; rfl)

theorem fmul_ext' {a b : T} (h : Elem.isNan (fmul a b) = false) : ext (fmul a b) = rndE 𝔽 (ext a * ext b) := by
  obtain ⟨h1, h2, h3, h4⟩ := fmul_nan h
  exact (fmul_ext h1 h2 h3 h4).2

theorem fsub_nan {a b : T} (h : Elem.isNan (fsub a b) = false) :
    Elem.isNan a = false ∧ Elem.isNan b = false ∧ ¬ (ext a = ⊤ ∧ ext b = ⊤) ∧ ¬ (ext a = ⊥ ∧ ext b = ⊥) := by
  rw [fsub_eq_add] at h
  obtain ⟨h1, h2, h3, h4⟩ := fadd_nan h
  rw [nan_fneg] at h2
  rw [ext_fneg, EReal.neg_eq_bot_iff] at h3
  rw [ext_fneg, EReal.neg_eq_top_iff] at h4
  exact ⟨h1, h2, h3, h4⟩

theorem fsub_ext' {a b : T} (h : Elem.isNan (fsub a b) = false) : ext (fsub a b) = rndE 𝔽 (ext a - ext b) := by
  obtain ⟨h1, h2, h3, h4⟩ := fsub_nan h
  exact (fsub_ext h1 h2 h3 h4).2

/-! ### Zero, one, signs -/

theorem canon_unique {fmt : Format} {u v : UnpackedFloat} (hu : Canon fmt u) (hv : Canon fmt v)
    (fu : IsFin u) (fv : IsFin v) (h : uval u = uval v) (hs : usign u = usign v) : u = v := by
  have he : ∀ w, IsFin w → uext w = (uval w : ℝ) := by
    intro w hw; cases w <;> first | exact hw.elim | rfl
  have hk := (key_eq_iff hu hv).2 (by rw [he u fu, he v fv, h])
  rcases u with (_|_) | _ | (_|_) | ⟨(_|_), m, e, hm⟩ <;>
  rcases v with (_|_) | _ | (_|_) | ⟨(_|_), m', e', hm'⟩ <;>
  simp only [fkey, key_eq, usign, IsFin] at hk hs fu fv ⊢ <;> try omega
  all_goals first | contradiction | skip
  · obtain ⟨_, h1, h2⟩ := hk
    have h1 : e = e' := by omega
    have h2 : m = m' := by omega
    subst h1 h2; rfl
  · obtain ⟨_, h1, h2⟩ := hk
    have h2 : m = m' := by omega
    subst h1 h2; rfl

theorem up_zero : up (Elem.fromInt 0 : T) = .zero .positive := by
  rw [IEEE.int_eq, up_pk]
  · rfl
  · exact trivial

theorem val_zero : val (Elem.fromInt 0 : T) = 0 := by unfold val; rw [up_zero]; rfl
theorem ext_zero : ext (Elem.fromInt 0 : T) = 0 := by unfold ext; rw [up_zero]; rfl
theorem finite_zero : IsFinite (Elem.fromInt 0 : T) := by rw [isFinite_iff, up_zero]; trivial

theorem small_rep (fmt : Format) (heb : 2 ≤ fmt.exponentBits) (n : ℤ) (hn : |n| ≤ 3) :
    (grid fmt).RN n = n ∧ |(n : ℝ)| < big fmt := by
  have h4 : (2 : ℤ) ^ 1 ≤ 2 ^ (fmt.exponentBits - 1) := pow_le_pow_right₀ (by norm_num) (by omega)
  have hp : 2 ≤ fmt.mantissaBits := by unfold Format.mantissaBits; have := fmt.hm; omega
  constructor
  · refine RN_rep ⟨n, 0, ?_, ?_, by simp⟩
    · have : (2 : ℤ) ^ 2 ≤ 2 ^ fmt.mantissaBits := pow_le_pow_right₀ (by norm_num) hp
      show |n| ≤ 2 ^ fmt.mantissaBits
      omega
    · show fmt.minExponent ≤ 0
      unfold Format.minExponent
      omega
  · have h1 : |(n : ℝ)| ≤ 3 := by exact_mod_cast hn
    have h2 : (2 : ℝ) ^ (2 : ℤ) ≤ big fmt := by
      refine zpow_le_zpow_right₀ (by norm_num) ?_
      unfold emax
      omega
    norm_num at h2
    linarith

theorem fromInt_small (n : ℤ) (hn : |n| ≤ 3) :
    IsFinite (Elem.fromInt n : T) ∧ val (Elem.fromInt n : T) = n := by
  obtain ⟨h1, h2⟩ := small_rep 𝔽 IEEE.heb n hn
  have hr := (normalize_rounded (fmt := 𝔽) (n := n) (e := 0) (z := .positive) (x := n) (by simp)).1
  have h3 := uext_over IEEE.heb hr
  have hu : up (Elem.fromInt n : T) = over 𝔽 (UnpackedFloat.ofInt 𝔽 n) := by
    rw [IEEE.int_eq, up_pk]; exact hr.canon
  have hrnd : rnd 𝔽 n = ((n : ℝ) : EReal) := by
    unfold rnd
    rw [h1]
    rw [abs_lt] at h2
    rw [if_neg (by linarith), if_neg (by linarith)]
  refine finite_of_ext ?_ ?_
  · rw [nan_iff, hu]; exact h3.2
  · unfold ext; rw [hu, ← hrnd]; exact h3.1

theorem finite_one : IsFinite (Elem.fromInt 1 : T) := (fromInt_small 1 (by norm_num)).1
theorem val_one : val (Elem.fromInt 1 : T) = 1 := by simpa using (fromInt_small (T := T) 1 (by norm_num)).2

theorem up_one_sign : ∃ m e h, up (Elem.fromInt 1 : T) = .finite .positive m e h := by
  have hv : val (Elem.fromInt 1 : T) ≠ 0 := by rw [val_one]; norm_num
  obtain ⟨s, m, e, h, hu⟩ := (val_ne_zero_iff finite_one).1 hv
  cases s with
  | positive => exact ⟨m, e, h, hu⟩
  | negative =>
    have := uval_pos (s := .negative) (m := m) (e := e) (h := h)
    have h1 : val (Elem.fromInt 1 : T) = uval (.finite .negative m e h) := by unfold val; rw [hu]
    rw [val_one] at h1
    rw [← h1] at this
    norm_num [sgn] at this

theorem fmul_comm' (a b : T) : fmul a b = fmul b a := by unfold fmul; rw [fmul_comm]
theorem fadd_comm' (a b : T) : fadd a b = fadd b a := by unfold fadd; rw [fadd_comm]

/-- `1 * a` is `a`, bit for bit. -/
theorem fone_mul (a : T) : fmul (Elem.fromInt 1) a = a := by
  apply up_inj
  rw [up_fmul]
  obtain ⟨m, e, h, hu⟩ := up_one_sign (T := T)
  cases ha : up a with
  | infinity s => rw [hu]; cases s <;> rfl
  | notANumber => rw [hu]; rfl
  | zero s => rw [hu]; cases s <;> rfl
  | finite s m' e' h' =>
    have hca := up_canon a
    rw [ha] at hca
    have hc1 := up_canon (Elem.fromInt 1 : T)
    have f1 : IsFin (up (Elem.fromInt 1 : T)) := (isFinite_iff _).1 finite_one
    have hm := mul_spec hc1 hca f1 trivial
    have hv : uval (UnpackedFloat.mul 𝔽 (up (Elem.fromInt 1 : T)) (.finite s m' e' h')) = uval (.finite s m' e' h') := by
      rw [hm.1.val]
      have : uval (up (Elem.fromInt 1 : T)) = 1 := val_one
      rw [this, one_mul, RN_uval hca]
    have hs : usign (UnpackedFloat.mul 𝔽 (up (Elem.fromInt 1 : T)) (.finite s m' e' h')) = s := by
      have := hm.2
      rw [hu] at this
      rw [hu]
      have e1 : usign (.finite .positive m e h) * usign (.finite s m' e' h') = s := by cases s <;> rfl
      rw [e1] at this
      revert this
      cases UnpackedFloat.mul 𝔽 (.finite .positive m e h) (.finite s m' e' h') <;> simp [HasSign, usign]
    rw [canon_unique hm.1.canon hca hm.1.fin trivial hv hs]
    have := up_range a
    rw [ha] at this
    exact over_self this

theorem fmul_one (a : T) : fmul a (Elem.fromInt 1) = a := by rw [fmul_comm', fone_mul]

/-- A zero -/
def IsZero (a : T) : Prop := ∃ s, up a = .zero s

theorem isZero_iff {a : T} : IsZero a ↔ IsFinite a ∧ val a = 0 := by
  constructor
  · rintro ⟨s, hs⟩
    rw [isFinite_iff]
    unfold val
    rw [hs]
    exact ⟨trivial, rfl⟩
  · rintro ⟨hf, hv⟩
    have h := (isFinite_iff a).1 hf
    cases hu : up a with
    | infinity s => rw [hu] at h; exact h.elim
    | notANumber => rw [hu] at h; exact h.elim
    | zero s => exact ⟨s, hu⟩
    | finite s m e hm => exact absurd hv ((val_ne_zero_iff hf).2 ⟨s, m, e, hm, hu⟩)

theorem zero_isZero : IsZero (Elem.fromInt 0 : T) := ⟨_, up_zero⟩

/-- Zero times a finite number is a zero. -/
theorem fmul_isZero {a b : T} (ha : IsZero a) (hb : IsFinite b) : IsZero (fmul a b) := by
  obtain ⟨s, hs⟩ := ha
  have h := (isFinite_iff b).1 hb
  unfold IsZero
  rw [up_fmul, hs]
  cases hu : up b with
  | infinity s => rw [hu] at h; exact h.elim
  | notANumber => rw [hu] at h; exact h.elim
  | zero t => exact ⟨_, rfl⟩
  | finite t m e hm => exact ⟨_, rfl⟩

/-- Adding a zero changes nothing but the sign of a zero. -/
theorem fadd_isZero {a b : T} (ha : ¬ IsZero a) (hb : IsZero b) : fadd a b = a := by
  obtain ⟨s, hs⟩ := hb
  apply up_inj
  rw [up_fadd, hs]
  have : UnpackedFloat.add 𝔽 (up a) (.zero s) = up a := by
    cases hu : up a with
    | zero t => exact absurd ⟨t, hu⟩ ha
    | _ => rfl
  rw [this]
  exact over_self (up_range a)

theorem zero_fadd_isZero {b : T} (hb : IsZero b) : fadd (Elem.fromInt 0) b = Elem.fromInt 0 := by
  obtain ⟨s, hs⟩ := hb
  apply up_inj
  rw [up_fadd, hs, up_zero]
  cases s <;> rfl

theorem isZero_fadd {a b : T} (ha : IsZero a) (hb : ¬ IsZero b) : fadd a b = b := by
  rw [fadd_comm']; exact fadd_isZero hb ha

/-- `-a + a` is `+0`. -/
theorem fneg_fadd {a : T} (ha : IsFinite a) : fadd (fneg a) a = Elem.fromInt 0 := by
  apply up_inj
  rw [up_fadd, up_fneg, up_zero]
  have fa := (isFinite_iff a).1 ha
  rcases add_zero_sum (fmt := 𝔽) fa.neg fa (by rw [uval_neg]; ring) with h | ⟨h1, h2, -⟩
  · rw [h]; rfl
  · rw [h2] at h1; exact absurd h1 (by simp [UnpackedFloat.neg])

theorem same_of_isZero {a b : T} (ha : IsZero a) (hb : IsZero b) : Elem.eq a b = true := by
  rw [isZero_iff] at ha hb
  rw [eq_iff_val ha.1 hb.1, ha.2, hb.2]

end

end Pbrt
