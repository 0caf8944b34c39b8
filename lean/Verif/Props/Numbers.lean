import Verif.Spec.Numbers
import Verif.Spec.Samples
import Verif.Proof.Nearest
import Verif.Proof.FloatOrder
import Verif.Proof.Exact

/-!
# C77: the number types of the program

Most theorems on geometry are about all number types with certain laws.  Here the laws are proved of
the types of the program: `i64` in both builds, `f32` and `f64`.
-/

namespace Pbrt

open Spec
open Float.Model (UnpackedFloat Format)

theorem returns_checked {checks : Bool} {x : ℤ} {o : Bool} {v : BitVec 64}
    (ho : o = true ↔ ¬ (-2 ^ 63 ≤ x ∧ x < 2 ^ 63)) (hv : v.toInt = x.bmod (2 ^ 64)) :
    Returns x (I64.checked o v : Outcome (I64 checks)) := by
  unfold Returns I64.checked
  split_ifs with h1 h2 h3 h4
  · simp at h2; exact absurd h1 (ho.1 h2.2)
  · exact ⟨_, rfl, by rw [I64.toInt, hv, Int.bmod_eq_of_le] <;> omega⟩
  · rfl
  · exact absurd (ho.2 h1) (by simp_all)
  · simp_all
  · refine ⟨_, rfl, by unfold I64.toInt; have := BitVec.le_toInt v; omega,
      by unfold I64.toInt; have := BitVec.toInt_lt (x := v); omega, ?_⟩
    refine ⟨-x.bdiv (2 ^ 64), ?_⟩
    have := Int.bmod_add_bdiv' x (2 ^ 64)
    show v.toInt = _
    rw [hv]
    push_cast at this ⊢
    linarith

/-- **C77**: `i64` computes with integers of 64 bits, in debug and in release builds. -/
theorem C77_i64 (checks : Bool) : IntegerArith checks where
  range a := ⟨by unfold I64.toInt; have := BitVec.le_toInt a.bits; omega,
    by unfold I64.toInt; have := BitVec.toInt_lt (x := a.bits); omega⟩
  inj a b h := I64.ext' h
  add a b := returns_checked (by simp [BitVec.saddOverflow, I64.toInt]; omega) (BitVec.toInt_add ..)
  sub a b := returns_checked (by simp [BitVec.ssubOverflow, I64.toInt]; omega) (BitVec.toInt_sub ..)
  mul a b := returns_checked (by simp [BitVec.smulOverflow, I64.toInt]; omega) (BitVec.toInt_mul ..)
  neg a := returns_checked (by
    have := BitVec.le_toInt a.bits
    have := BitVec.toInt_lt (x := a.bits)
    simp [BitVec.negOverflow, I64.toInt]; omega) (BitVec.toInt_neg ..)
  abs a := returns_checked (by
    have := BitVec.le_toInt a.bits
    have := BitVec.toInt_lt (x := a.bits)
    simp only [BitVec.negOverflow, I64.toInt, beq_iff_eq]
    rcases abs_cases a.bits.toInt with h | h <;> omega) (by
    by_cases hm : a.bits = BitVec.intMin 64
    · rw [I64.toInt, hm]; decide
    · have := BitVec.le_toInt a.bits
      have := BitVec.toInt_lt (x := a.bits)
      have hn : a.bits.toInt ≠ -2 ^ 63 := fun hc => hm (BitVec.toInt_inj.1 (by rw [hc]; decide))
      rw [BitVec.toInt_abs_eq_natAbs_of_ne_intMin hm, I64.toInt, Int.bmod_eq_of_le] <;>
        rcases abs_cases a.bits.toInt with h | h <;> omega)
  div a b h0 h1 := by
    have hb : b.bits ≠ 0#64 := fun hc => h0 (by rw [I64.toInt, hc]; rfl)
    have ho : a.bits.sdivOverflow b.bits = false := by
      unfold I64.toInt at h0 h1
      have h2 := BitVec.le_toInt a.bits
      have h3 := BitVec.toInt_lt (x := a.bits)
      have h4 := BitVec.le_toInt b.bits
      have h5 := BitVec.toInt_lt (x := b.bits)
      have h6 := Int.mul_ediv_add_emod a.bits.toInt b.bits.toInt
      have h7 := Int.emod_nonneg a.bits.toInt h0
      have h8 := Int.emod_lt_abs a.bits.toInt h0
      have h9 := Int.natAbs_ediv_le_natAbs a.bits.toInt b.bits.toInt
      simp only [BitVec.sdivOverflow, Bool.or_eq_false_iff, decide_eq_false_iff_not]
      refine ⟨fun hc => ?_, by omega⟩
      have hq : a.bits.toInt / b.bits.toInt = 2 ^ 63 := by omega
      have ha : a.bits.toInt = -2 ^ 63 := by omega
      rw [hq] at h6
      rcases abs_cases b.bits.toInt with h | h <;> omega
    refine ⟨⟨a.bits.sdiv b.bits⟩, by simp only [Elem.div, hb, ho, if_false, Bool.false_eq_true], ?_⟩
    show (a.bits.sdiv b.bits).toInt = _
    rw [BitVec.toInt_sdiv_of_ne_or_ne]
    · rfl
    · by_contra hc
      push Not at hc
      rw [hc.1, hc.2] at ho
      exact absurd ho (by decide)
  div_zero a b h := by
    have hb : b.bits = 0#64 := BitVec.toInt_inj.1 (by simpa [I64.toInt] using h)
    exact if_pos hb
  div_min a b h1 h2 := by
    have ha : a.bits = BitVec.intMin 64 := BitVec.toInt_inj.1 (by rw [show a.bits.toInt = _ from h1]; decide)
    have hb : b.bits = -1#64 := BitVec.toInt_inj.1 (by rw [show b.bits.toInt = _ from h2]; decide)
    show (if b.bits = 0#64 then _ else if a.bits.sdivOverflow b.bits = true then _ else _) = _
    rw [ha, hb, if_neg (by decide), if_pos (by decide)]
  le a b := I64.le_iff a b
  lt a b := I64.lt_iff a b
  eq a b := by
    simp only [Elem.eq, decide_eq_true_eq]
    exact ⟨fun h => by rw [h], I64.ext'⟩
  nan _ := rfl
  max := I64.maxValue_toInt
  min := I64.minValue_toInt
  int i h1 h2 := by
    simp only [Elem.fromInt, I64.toInt, I64.ofInt, BitVec.toInt_ofInt]
    rw [Int.bmod_eq_of_le] <;> omega

section
variable {T : Type} [Elem T] [As T T] [FloatFns T] [IEEE T]

local notation "𝔽" => IEEE.fmt T

theorem roundedTo {r : T} {x : ℝ} (h : Elem.isNan r = false ∧ ext r = rnd 𝔽 x) : RoundedTo r x := by
  obtain ⟨h1, h2⟩ := h
  unfold rnd at h2
  split_ifs at h2 with h3 h4
  · refine .inr (.inl ⟨ext_top_iff.1 h2, fun y hy => ?_⟩)
    by_contra hc
    have := RN_mono (g := grid 𝔽) (not_lt.1 hc)
    rw [RN_val] at this
    linarith [(abs_lt.1 (val_lt_big hy)).2]
  · refine .inr (.inr ⟨ext_bot_iff.1 h2, fun y hy => ?_⟩)
    by_contra hc
    have := RN_mono (g := grid 𝔽) (not_lt.1 hc)
    rw [RN_val] at this
    linarith [(abs_lt.1 (val_lt_big hy)).1]
  · obtain ⟨h5, h6⟩ := finite_of_ext h1 h2
    refine .inl ⟨h5, fun y _ => ?_⟩
    rw [h6]
    exact RN_nearest (rep_val y)

theorem place_ext (a : T) : place a = ext a := by
  unfold place ext val
  cases up a with
  | infinity s => cases s <;> rfl
  | _ => rfl

theorem place_sign {a : T} (s : UnpackedFloat.Sign) (h : match s with | .positive => 0 < place a | .negative => place a < 0) :
    up a = .infinity s ∨ ∃ m e hm, up a = .finite s m e hm := by
  rw [place_ext] at h
  unfold ext at h
  cases ha : up a with
  | infinity t => rw [ha] at h; cases s <;> cases t <;> simp [uext] at h ⊢
  | notANumber => rw [ha] at h; cases s <;> simp [uext, uval] at h
  | zero t => rw [ha] at h; cases s <;> simp [uext, uval] at h
  | finite t m e hm =>
    rw [ha] at h
    have := uval_pos (s := t) (m := m) (e := e) (h := hm)
    cases s <;> cases t <;> simp only [uext, sgn] at h this
    · exact .inr ⟨_, _, _, rfl⟩
    · have h' : uval (.finite .positive m e hm) < (0 : ℝ) := by exact_mod_cast h
      linarith
    · have h' : (0 : ℝ) < uval (.finite .negative m e hm) := by exact_mod_cast h
      linarith
    · exact .inr ⟨_, _, _, rfl⟩

theorem val_sign {a : T} (hf : IsFinite a) (s : UnpackedFloat.Sign) (h : match s with | .positive => 0 < val a | .negative => val a < 0) :
    ∃ m e hm, up a = .finite s m e hm := by
  refine (place_sign (a := a) s ?_).elim (fun hi => ?_) id
  · rw [place_ext, hf.ext]
    cases s
    · exact_mod_cast h
    · exact_mod_cast h
  · rw [isFinite_iff, hi] at hf
    exact hf.elim

theorem up_of_zero {a : T} (hf : IsFinite a) (h : val a = 0) : ∃ s, up a = .zero s := by
  rw [isFinite_iff] at hf
  cases ha : up a with
  | infinity t => rw [ha] at hf; exact hf.elim
  | notANumber => rw [ha] at hf; exact hf.elim
  | zero t => exact ⟨t, rfl⟩
  | finite t m e hm =>
    have := uval_pos (s := t) (m := m) (e := e) (h := hm)
    rw [← ha, show uval (up a) = val a from rfl, h, mul_zero] at this
    exact absurd this (lt_irrefl _)

theorem float_arith [Extremes T] (h1 : up (Extremes.maxValue : T) = .infinity .positive)
    (h2 : up (Extremes.minValue : T) = .infinity .negative) : FloatArith T where
  add a b ha hb := ⟨_, fadd_ok a b, roundedTo (fadd_rnd ha hb)⟩
  sub a b ha hb := ⟨_, fsub_ok a b, roundedTo (fsub_rnd ha hb)⟩
  mul a b ha hb := ⟨_, fmul_ok a b, roundedTo (fmul_rnd ha hb)⟩
  div a b ha hb h0 := ⟨_, fdiv_ok a b, roundedTo (fdiv_rnd ha hb h0)⟩
  sqrt a ha h0 := ⟨_, fsqrt_ok a, roundedTo (fsqrt_rnd ha h0)⟩
  neg a := ⟨_, fneg_ok a, up_fneg a⟩
  abs a := ⟨_, fabs_ok a, up_fabs a⟩
  int i := by
    have hr := (normalize_rounded (fmt := 𝔽) (n := i) (e := 0) (z := .positive) (x := i) (by simp)).1
    have h3 := uext_over IEEE.heb hr
    have hu : up (Elem.fromInt i : T) = over 𝔽 (UnpackedFloat.ofInt 𝔽 i) := by
      rw [IEEE.int_eq, up_pk]; exact hr.canon
    refine roundedTo ⟨?_, ?_⟩
    · rw [nan_iff, hu]; exact h3.2
    · unfold ext; rw [hu]; exact h3.1
  le := by simp only [place_ext]; exact le_iff_ext
  lt := by simp only [place_ext]; exact lt_iff_ext
  eq := by simp only [place_ext]; exact eq_iff_ext
  nan := nan_iff'
  max := h1
  min := h2
  cast := IEEE.as_eq
  comm a b := ⟨by rw [fadd_ok, fadd_ok, fadd_comm'], by rw [fmul_ok, fmul_ok, fmul_comm'],
    _, fneg_ok b, by rw [fsub_ok, fadd_ok, fsub_eq_add]⟩
  spread a b h := by
    refine ⟨⟨_, fadd_ok a b, ?_⟩, ⟨_, fmul_ok a b, ?_⟩, ⟨_, fdiv_ok a b, ?_⟩, ⟨_, fdiv_ok b a, ?_⟩, ⟨_, fsqrt_ok a, ?_⟩⟩
    · rw [up_fadd, h]; rfl
    · rw [up_fmul, h]; rfl
    · rw [up_fdiv, h]; rfl
    · rw [up_fdiv, h]; cases up b <;> rfl
    · rw [up_fsqrt, h]; rfl
  add_inf a b s h := by
    refine ⟨fun hb => ⟨_, fadd_ok a b, ?_⟩, fun hb => ⟨_, fadd_ok a b, ?_⟩⟩
    · rw [up_fadd, h]
      rcases hb with hb | hb
      · rw [isFinite_iff] at hb
        cases hu : up b with
        | infinity t => rw [hu] at hb; exact hb.elim
        | notANumber => rw [hu] at hb; exact hb.elim
        | _ => rfl
      · rw [hb]; cases s <;> rfl
    · rw [up_fadd, h, hb]; cases s <;> rfl
  mul_inf a b s h := by
    refine ⟨fun hb => ⟨_, fmul_ok a b, ?_⟩, fun hb => ⟨_, fmul_ok a b, ?_⟩, fun hb h0 => ⟨_, fmul_ok a b, ?_⟩⟩
    · rw [up_fmul, h]
      rcases place_sign .positive hb with hu | ⟨m, e, hm, hu⟩ <;> rw [hu] <;> cases s <;> rfl
    · rw [up_fmul, h]
      rcases place_sign .negative hb with hu | ⟨m, e, hm, hu⟩ <;> rw [hu] <;> cases s <;> rfl
    · obtain ⟨t, hu⟩ := up_of_zero hb h0
      rw [up_fmul, h, hu]; rfl
  div_inf a b s h := by
    refine ⟨fun hb h0 => ⟨_, fdiv_ok a b, ?_⟩, fun hb h0 => ⟨_, fdiv_ok a b, ?_⟩, fun hb => ⟨_, fdiv_ok b a, ?_⟩,
      fun hb => ⟨_, fdiv_ok a b, ?_⟩⟩
    · obtain ⟨m, e, hm, hu⟩ := val_sign hb .positive h0
      rw [up_fdiv, h, hu]; cases s <;> rfl
    · obtain ⟨m, e, hm, hu⟩ := val_sign hb .negative h0
      rw [up_fdiv, h, hu]; cases s <;> rfl
    · have hz : ∃ t, up (fdiv b a) = .zero t := by
        rw [up_fdiv, h]
        rw [isFinite_iff] at hb
        cases hu : up b with
        | infinity t => rw [hu] at hb; exact hb.elim
        | notANumber => rw [hu] at hb; exact hb.elim
        | zero t => exact ⟨_, rfl⟩
        | finite t m e hm => exact ⟨_, rfl⟩
      obtain ⟨t, ht⟩ := hz
      exact ⟨by rw [isFinite_iff, ht]; trivial, by unfold val; rw [ht]; rfl⟩
    · rw [up_fdiv, h]
      rw [isFinite_iff] at hb
      cases hu : up b with
      | infinity t => rfl
      | notANumber => rfl
      | zero t => rw [hu] at hb; exact absurd trivial hb
      | finite t m e hm => rw [hu] at hb; exact absurd trivial hb
  div_zero a b s h := by
    refine ⟨fun ha => ⟨_, fdiv_ok a b, ?_⟩, fun ha => ⟨_, fdiv_ok a b, ?_⟩, fun ha h0 => ⟨_, fdiv_ok a b, ?_⟩⟩
    · rw [up_fdiv, h]
      rcases place_sign .positive ha with hu | ⟨m, e, hm, hu⟩ <;> rw [hu] <;> cases s <;> rfl
    · rw [up_fdiv, h]
      rcases place_sign .negative ha with hu | ⟨m, e, hm, hu⟩ <;> rw [hu] <;> cases s <;> rfl
    · obtain ⟨t, hu⟩ := up_of_zero ha h0
      rw [up_fdiv, h, hu]; rfl
  sqrt_neg a h := by
    refine ⟨_, fsqrt_ok a, ?_⟩
    rw [up_fsqrt]
    rcases place_sign .negative h with hu | ⟨m, e, hm, hu⟩ <;> rw [hu] <;> rfl
  sqrt_inf a h := by
    rw [fsqrt_ok]
    congr 1
    apply up_inj
    rw [up_fsqrt, h]
    rfl

end

/-- **C77**: `f32` rounds the exact result of every operation to a nearest number. -/
theorem C77_f32 : FloatArith Float32.Model := float_arith max32 min32

/-- **C77**: the same for `f64`. -/
theorem C77_f64 : FloatArith Float.Model := float_arith max64 min64

/-- **C77**: the types of the program are ordered as the theorems on boxes assume. -/
theorem C77_ordered : (∀ checks, LawfulOrder (I64 checks) ∧ Antisymm (I64 checks)) ∧
    LawfulOrder Float32.Model ∧ LawfulOrder Float.Model :=
  ⟨fun _ => ⟨inferInstance, inferInstance⟩, inferInstance, inferInstance⟩

/-- **C77**: nothing exceeds the largest and smallest values. -/
theorem C77_extremes : (∀ checks, LawfulExtremes (I64 checks)) ∧
    LawfulExtremes Float32.Model ∧ LawfulExtremes Float.Model :=
  ⟨fun _ => inferInstance, inferInstance, inferInstance⟩

/-- **C77**: in a release build, `i64` is a ring. -/
theorem C77_ring : ExactRing (I64 false) := inferInstance

-- the cases of `Returns`: in range, out of range with and without overflow checks
example : Elem.sub (i64 (-5)) (i64 7) = .ok (i64 (-12)) ∧
    Elem.add (i64 (2 ^ 63 - 1)) (i64 1) = .error .overflow ∧
    Elem.add (.ofInt (2 ^ 63 - 1) : I64 false) (.ofInt 1) = .ok (.ofInt (-2 ^ 63)) := by decide +kernel
-- a rounded, an overflowing and an invalid result
example : Elem.add (f32 16777216) (f32 1) = .ok (f32 16777216) ∧
    Elem.mul (f32 (2 ^ 100)) (f32 (2 ^ 100)) = .ok inf32 ∧
    Elem.sub inf32 inf32 = .ok nan32 := by decide +kernel

end Pbrt
