import Verif.Spec.Infinite
import Verif.Props.Nan
import Verif.Proof.FloatErr
import Verif.Props.FloatBoxes
import Verif.Props.Sphere
import Verif.Props.Interpolation

/-!
# C117: where infinities go
-/

namespace Pbrt

open Spec
open Float.Model (UnpackedFloat Format)

section
variable {T : Type} [Elem T] [As T T] [FloatFns T] [IEEE T]

local notation "𝔽" => IEEE.fmt T
local notation "z" => (Elem.fromInt 0 : T)
local notation "o" => (Elem.fromInt 1 : T)

attribute [local instance] ieee_lawful

/-! ### Operations -/

theorem Spec.PosInf.notNan {a : T} (h : PosInf a) : ¬ IsNan a := by
  intro hn
  have : ext a = 0 := ext_of_nan hn
  rw [show ext a = ⊤ from h] at this
  cases this

theorem Spec.NegInf.notNan {a : T} (h : NegInf a) : ¬ IsNan a := by
  intro hn
  have : ext a = 0 := ext_of_nan hn
  rw [show ext a = ⊥ from h] at this
  cases this

theorem not_isNan {a : T} (h : NotNan a) : ¬ IsNan a := by
  unfold IsNan
  rw [show Elem.isNan a = false from h]
  simp

theorem notNan_of {a : T} (h : ¬ IsNan a) : Elem.isNan a = false := by simpa [IsNan] using h

theorem top_add {a b : T} (h : ¬ IsNan (fadd a b)) (ha : PosInf a ∨ PosInf b) : PosInf (fadd a b) := by
  have hb : ext a ≠ ⊥ ∧ ext b ≠ ⊥ := by
    rw [nan_fadd_iff] at h
    rcases ha with ha | ha
    · exact ⟨by rw [show ext a = ⊤ from ha]; exact top_ne_bot, fun hb => h (.inr (.inr (.inl ⟨ha, hb⟩)))⟩
    · exact ⟨fun hb => h (.inr (.inr (.inr ⟨hb, ha⟩))), by rw [show ext b = ⊤ from ha]; exact top_ne_bot⟩
  have := fadd_ext' (notNan_of h)
  show ext _ = ⊤
  rw [this]
  rcases ha with ha | ha
  · rw [show ext a = ⊤ from ha, EReal.top_add_of_ne_bot hb.2, rndE_top]
  · rw [show ext b = ⊤ from ha, EReal.add_top_of_ne_bot hb.1, rndE_top]

theorem bot_add {a b : T} (h : ¬ IsNan (fadd a b)) (ha : NegInf a ∨ NegInf b) : NegInf (fadd a b) := by
  have := fadd_ext' (notNan_of h)
  show ext _ = ⊥
  rw [this]
  rcases ha with ha | ha
  · rw [show ext a = ⊥ from ha, EReal.bot_add, rndE_bot]
  · rw [show ext b = ⊥ from ha, EReal.add_bot, rndE_bot]

theorem isTop_fneg {a : T} : PosInf (fneg a) ↔ NegInf a := by
  show ext _ = ⊤ ↔ ext a = ⊥
  rw [ext_fneg, EReal.neg_eq_top_iff]

theorem isBot_fneg {a : T} : NegInf (fneg a) ↔ PosInf a := by
  show ext _ = ⊥ ↔ ext a = ⊤
  rw [ext_fneg, EReal.neg_eq_bot_iff]

theorem top_sub {a b : T} (h : ¬ IsNan (fsub a b)) (ha : PosInf a ∨ NegInf b) : PosInf (fsub a b) := by
  rw [fsub_eq_add] at *
  exact top_add h (ha.imp_right isTop_fneg.2)

theorem bot_sub {a b : T} (h : ¬ IsNan (fsub a b)) (ha : NegInf a ∨ PosInf b) : NegInf (fsub a b) := by
  rw [fsub_eq_add] at *
  exact bot_add h (ha.imp_right isBot_fneg.2)

theorem ext_pos {a : T} (h : Lt z a) : 0 < ext a := by
  have := ((lt_iff_ext _ _).1 h).2.2
  rwa [ext_zero] at this

theorem ext_neg' {a : T} (h : Lt a z) : ext a < 0 := by
  have := ((lt_iff_ext _ _).1 h).2.2
  rwa [ext_zero] at this

theorem mul_not_nan {a b : T} (ha : ¬ IsNan a) (hb : ¬ IsNan b) (ha0 : ext a ≠ 0) (hb0 : ext b ≠ 0) : ¬ IsNan (fmul a b) := by
  rw [nan_fmul_iff]
  tauto

theorem lt_not_nan {a b : T} (h : Lt a b) : ¬ IsNan a ∧ ¬ IsNan b := by
  have := (lt_iff_ext _ _).1 h
  simp only [IsNan]
  exact ⟨by rw [this.1]; simp, by rw [this.2.1]; simp⟩

theorem top_mul_pos {a b : T} (ha : PosInf a) (hb : Lt z b) : PosInf (fmul a b) := by
  have := fmul_ext' (notNan_of (mul_not_nan ha.notNan (lt_not_nan hb).2 (by rw [show ext a = ⊤ from ha]; exact EReal.top_ne_zero)
    (ext_pos hb).ne'))
  show ext _ = ⊤
  rw [this, show ext a = ⊤ from ha, EReal.top_mul_of_pos (ext_pos hb), rndE_top]

theorem top_mul_neg {a b : T} (ha : PosInf a) (hb : Lt b z) : NegInf (fmul a b) := by
  have := fmul_ext' (notNan_of (mul_not_nan ha.notNan (lt_not_nan hb).1 (by rw [show ext a = ⊤ from ha]; exact EReal.top_ne_zero)
    (ext_neg' hb).ne))
  show ext _ = ⊥
  rw [this, show ext a = ⊤ from ha, EReal.top_mul_of_neg (ext_neg' hb), rndE_bot]

theorem bot_mul_pos {a b : T} (ha : NegInf a) (hb : Lt z b) : NegInf (fmul a b) := by
  have := fmul_ext' (notNan_of (mul_not_nan ha.notNan (lt_not_nan hb).2 (by rw [show ext a = ⊥ from ha]; exact EReal.bot_ne_zero)
    (ext_pos hb).ne'))
  show ext _ = ⊥
  rw [this, show ext a = ⊥ from ha, EReal.bot_mul_of_pos (ext_pos hb), rndE_bot]

theorem bot_mul_neg {a b : T} (ha : NegInf a) (hb : Lt b z) : PosInf (fmul a b) := by
  have := fmul_ext' (notNan_of (mul_not_nan ha.notNan (lt_not_nan hb).1 (by rw [show ext a = ⊥ from ha]; exact EReal.bot_ne_zero)
    (ext_neg' hb).ne))
  show ext _ = ⊤
  rw [this, show ext a = ⊥ from ha, EReal.bot_mul_of_neg (ext_neg' hb), rndE_top]

theorem isTop_up {a : T} : PosInf a ↔ up a = .infinity .positive := ext_top_iff
theorem isBot_up {a : T} : NegInf a ↔ up a = .infinity .negative := ext_bot_iff

theorem Spec.PosInf.not_finite {a : T} (h : PosInf a) : ¬ IsFinite a := by
  intro hf
  have := hf.ext
  rw [show ext a = ⊤ from h] at this
  exact EReal.coe_ne_top _ this.symm

theorem Spec.NegInf.not_finite {a : T} (h : NegInf a) : ¬ IsFinite a := by
  intro hf
  have := hf.ext
  rw [show ext a = ⊥ from h] at this
  exact EReal.coe_ne_bot _ this.symm

theorem finite_cases (a : T) : IsFinite a ∨ IsNan a ∨ PosInf a ∨ NegInf a := by
  cases hn : Elem.isNan a
  · rcases not_finite_cases hn with h | h | h
    · exact .inl h
    · exact .inr (.inr (.inl (isTop_up.2 h)))
    · exact .inr (.inr (.inr (isBot_up.2 h)))
  · exact .inr (.inl hn)

theorem fin_div_inf {a b : T} (ha : IsFinite a) (hb : PosInf b ∨ NegInf b) : Same (fdiv a b) z := by
  have hb' : ¬ IsFinite b := hb.elim PosInf.not_finite NegInf.not_finite
  have nb : Elem.isNan b = false := notNan_of (hb.elim PosInf.notNan NegInf.notNan)
  have h0 : ext b ≠ 0 := by
    rcases hb with h | h
    · rw [show ext b = ⊤ from h]; exact EReal.top_ne_zero
    · rw [show ext b = ⊥ from h]; exact EReal.bot_ne_zero
  obtain ⟨h1, h2⟩ := fdiv_ext ha.notNan nb h0 (fun h => h.1 ha)
  have h3 : ext (fdiv a b) = 0 := by
    rw [h2]
    have : ext a / ext b = 0 := by
      rcases hb with h | h
      · rw [show ext b = ⊤ from h, EReal.div_top]
      · rw [show ext b = ⊥ from h, EReal.div_bot]
    rw [this]
    have := rndE_coe (fmt := 𝔽) (x := 0)
    rw [rnd_zero] at this
    exact_mod_cast this
  exact (eq_iff_ext _ _).2 ⟨h1, finite_zero.notNan, by rw [h3, ext_zero]⟩

theorem inf_div {a b : T} (hb : IsFinite b) (h0 : ext b ≠ 0) (ha : PosInf a ∨ NegInf a) :
    ext (fdiv a b) = rndE 𝔽 (ext a / ext b) :=
  (fdiv_ext (notNan_of (ha.elim PosInf.notNan NegInf.notNan)) hb.notNan h0 fun h => h.2 hb).2

theorem top_div_pos {a b : T} (ha : PosInf a) (hb : IsFinite b) (h : Lt z b) : PosInf (fdiv a b) := by
  show ext _ = ⊤
  rw [inf_div hb (ext_pos h).ne' (.inl ha), show ext a = ⊤ from ha,
    EReal.top_div_of_pos_ne_top (ext_pos h) (by rw [hb.ext]; exact EReal.coe_ne_top _), rndE_top]

theorem top_div_neg {a b : T} (ha : PosInf a) (hb : IsFinite b) (h : Lt b z) : NegInf (fdiv a b) := by
  show ext _ = ⊥
  rw [inf_div hb (ext_neg' h).ne (.inl ha), show ext a = ⊤ from ha,
    EReal.top_div_of_neg_ne_bot (ext_neg' h) (by rw [hb.ext]; exact EReal.coe_ne_bot _), rndE_bot]

theorem bot_div_pos {a b : T} (ha : NegInf a) (hb : IsFinite b) (h : Lt z b) : NegInf (fdiv a b) := by
  show ext _ = ⊥
  rw [inf_div hb (ext_pos h).ne' (.inr ha), show ext a = ⊥ from ha,
    EReal.bot_div_of_pos_ne_top (ext_pos h) (by rw [hb.ext]; exact EReal.coe_ne_top _), rndE_bot]

theorem bot_div_neg {a b : T} (ha : NegInf a) (hb : IsFinite b) (h : Lt b z) : PosInf (fdiv a b) := by
  show ext _ = ⊤
  rw [inf_div hb (ext_neg' h).ne (.inr ha), show ext a = ⊥ from ha,
    EReal.bot_div_of_neg_ne_bot (ext_neg' h) (by rw [hb.ext]; exact EReal.coe_ne_bot _), rndE_top]

theorem div_zero_inf {a b : T} (ha : ¬ IsNan a) (h : ext a ≠ 0) (hb : ¬ IsNan b) (h0 : ext b = 0) :
    PosInf (fdiv a b) ∨ NegInf (fdiv a b) := by
  have hf : ¬ IsFinite (fdiv a b) := by
    have hz : IsFinite b := by
      have := finite_of_ext (notNan_of hb) (x := 0) (by exact_mod_cast h0)
      exact this.1
    obtain ⟨s, hs⟩ := (ext_zero_up hb).1 h0
    intro hf
    have ha' : ¬ ∃ s, up a = .zero s := fun h' => h ((ext_zero_up ha).2 h')
    rw [isFinite_iff, up_fdiv, hs] at hf
    rw [isNan_up] at ha
    cases hu : up a with
    | notANumber => exact ha hu
    | zero s => exact ha' ⟨s, hu⟩
    | infinity s => rw [hu] at hf; exact hf.elim
    | finite s m e hm => rw [hu] at hf; exact hf.elim
  have hn : ¬ IsNan (fdiv a b) := by
    rw [nan_fdiv_iff]
    have : ext b ≠ ⊤ ∧ ext b ≠ ⊥ := by rw [h0]; exact ⟨EReal.zero_ne_top, EReal.zero_ne_bot⟩
    tauto
  rcases finite_cases (fdiv a b) with h | h | h
  · exact absurd h hf
  · exact absurd h hn
  · exact h

theorem top_sqrt {a : T} (h : PosInf a) : PosInf (fsqrt a) := by
  rw [isTop_up] at *
  rw [up_fsqrt, h]
  rfl

theorem inf_abs {a : T} (h : PosInf a ∨ NegInf a) : PosInf (fabs a) := by
  show ext _ = ⊤
  rw [ext_fabs]
  rcases h with h | h
  · rw [show ext a = ⊤ from h]; simp
  · rw [show ext a = ⊥ from h]; simp

/-- **C117**, one operation with an infinite operand, if the result is not NaN (C114 says when it is) -/
theorem C117_operations (a b : T) :
    Gives (Elem.add a b) (fun c => ¬ IsNan c → (PosInf a ∨ PosInf b → PosInf c) ∧ (NegInf a ∨ NegInf b → NegInf c)) ∧
    Gives (Elem.sub a b) (fun c => ¬ IsNan c → (PosInf a ∨ NegInf b → PosInf c) ∧ (NegInf a ∨ PosInf b → NegInf c)) ∧
    Gives (Elem.mul a b) (fun c =>
      ((PosInf a ∧ Lt z b) ∨ (Lt z a ∧ PosInf b) ∨ (NegInf a ∧ Lt b z) ∨ (Lt a z ∧ NegInf b) → PosInf c) ∧
      ((PosInf a ∧ Lt b z) ∨ (Lt a z ∧ PosInf b) ∨ (NegInf a ∧ Lt z b) ∨ (Lt z a ∧ NegInf b) → NegInf c)) ∧
    Gives (Elem.div a b) (fun c =>
      (IsFinite a → PosInf b ∨ NegInf b → Same c z) ∧
      (IsFinite b → (PosInf a ∧ Lt z b) ∨ (NegInf a ∧ Lt b z) → PosInf c) ∧
      (IsFinite b → (PosInf a ∧ Lt b z) ∨ (NegInf a ∧ Lt z b) → NegInf c) ∧
      (Lt z a ∨ Lt a z → Same b z → PosInf c ∨ NegInf c)) ∧
    Gives (Elem.neg a) (fun c => (PosInf a → NegInf c) ∧ (NegInf a → PosInf c)) ∧
    Gives (Elem.abs a) (fun c => PosInf a ∨ NegInf a → PosInf c) ∧
    Gives (FloatFns.sqrt a) (fun c => PosInf a → PosInf c) := by
  refine ⟨⟨_, fadd_ok a b, fun h => ⟨top_add h, bot_add h⟩⟩, ⟨_, fsub_ok a b, fun h => ⟨top_sub h, bot_sub h⟩⟩,
    ⟨_, fmul_ok a b, ?_, ?_⟩, ⟨_, fdiv_ok a b, fin_div_inf, ?_, ?_, ?_⟩, ⟨_, fneg_ok a, isBot_fneg.2, isTop_fneg.2⟩,
    ⟨_, fabs_ok a, inf_abs⟩, ⟨_, fsqrt_ok a, top_sqrt⟩⟩
  · rintro (⟨h, h'⟩ | ⟨h', h⟩ | ⟨h, h'⟩ | ⟨h', h⟩)
    · exact top_mul_pos h h'
    · rw [fmul_comm']; exact top_mul_pos h h'
    · exact bot_mul_neg h h'
    · rw [fmul_comm']; exact bot_mul_neg h h'
  · rintro (⟨h, h'⟩ | ⟨h', h⟩ | ⟨h, h'⟩ | ⟨h', h⟩)
    · exact top_mul_neg h h'
    · rw [fmul_comm']; exact top_mul_neg h h'
    · exact bot_mul_pos h h'
    · rw [fmul_comm']; exact bot_mul_pos h h'
  · rintro hb (⟨h, h'⟩ | ⟨h, h'⟩)
    · exact top_div_pos h hb h'
    · exact bot_div_neg h hb h'
  · rintro hb (⟨h, h'⟩ | ⟨h, h'⟩)
    · exact top_div_neg h hb h'
    · exact bot_div_pos h hb h'
  · intro h h0
    have h0 := (eq_iff_ext _ _).1 h0
    rw [ext_zero] at h0
    have hb : ¬ IsNan b := by unfold IsNan; rw [h0.1]; simp
    rcases h with h | h
    · exact div_zero_inf (lt_not_nan h).2 (ext_pos h).ne' hb h0.2.2
    · exact div_zero_inf (lt_not_nan h).1 (ext_neg' h).ne hb h0.2.2

/-! ### Lengths and unit vectors -/

theorem exists_axis {P : Fin 3 → Prop} : (∃ i, P i) ↔ P 0 ∨ P 1 ∨ P 2 := by
  constructor
  · rintro ⟨i, h⟩
    fin_cases i
    · exact .inl h
    · exact .inr (.inl h)
    · exact .inr (.inr h)
  · rintro (h | h | h) <;> exact ⟨_, h⟩

theorem pos_of_ext {a : T} (hn : ¬ IsNan a) (h : 0 < ext a) : Lt z a :=
  (lt_iff_ext _ _).2 ⟨finite_zero.notNan, notNan_of hn, by rw [ext_zero]; exact h⟩

theorem neg_of_ext {a : T} (hn : ¬ IsNan a) (h : ext a < 0) : Lt a z :=
  (lt_iff_ext _ _).2 ⟨notNan_of hn, finite_zero.notNan, by rw [ext_zero]; exact h⟩

theorem Spec.PosInf.pos {a : T} (h : PosInf a) : Lt z a :=
  pos_of_ext h.notNan (by rw [show ext a = ⊤ from h]; exact EReal.zero_lt_top)

theorem Spec.NegInf.neg {a : T} (h : NegInf a) : Lt a z :=
  neg_of_ext h.notNan (by rw [show ext a = ⊥ from h]; exact EReal.bot_lt_zero)

theorem inf_sq {a : T} (h : PosInf a ∨ NegInf a) : PosInf (fmul a a) :=
  h.elim (fun h => top_mul_pos h h.pos) (fun h => bot_mul_neg h h.neg)

/-- not NaN, and not negative -/
def NonNeg (a : T) : Prop := ¬ IsNan a ∧ 0 ≤ ext a

theorem up_sq {a : T} (h : ¬ IsNan a) : NonNeg (fmul a a) := by
  have hn : ¬ IsNan (fmul a a) := by
    rw [nan_fmul_iff]
    rintro (h1 | h1 | ⟨h1, h2 | h2⟩ | ⟨h1 | h1, h2⟩)
    · exact h h1
    · exact h h1
    all_goals rw [h1] at h2; cases h2
  refine ⟨hn, ?_⟩
  rw [fmul_ext' (notNan_of hn)]
  refine rndE_nonneg ?_
  rcases le_total 0 (ext a) with h0 | h0
  · exact mul_nonneg h0 h0
  · have := mul_nonneg (EReal.neg_nonneg.2 h0) (EReal.neg_nonneg.2 h0)
    simpa using this

theorem NonNeg.add {a b : T} (ha : NonNeg a) (hb : NonNeg b) : NonNeg (fadd a b) := by
  have hn : ¬ IsNan (fadd a b) := by
    rw [nan_fadd_iff]
    rintro (h1 | h1 | ⟨h1, h2⟩ | ⟨h1, h2⟩)
    · exact ha.1 h1
    · exact hb.1 h1
    · have := hb.2; rw [h2] at this; simp at this
    · have := ha.2; rw [h1] at this; simp at this
  refine ⟨hn, ?_⟩
  rw [fadd_ext' (notNan_of hn)]
  exact rndE_nonneg (add_nonneg ha.2 hb.2)

theorem NonNeg.add_top {a b : T} (ha : NonNeg a) (hb : NonNeg b) (h : PosInf a ∨ PosInf b) : PosInf (fadd a b) :=
  top_add (ha.add hb).1 h

theorem sq_sum_top {x y w : T} (hx : ¬ IsNan x) (hy : ¬ IsNan y) (hw : ¬ IsNan w)
    (h : (PosInf x ∨ NegInf x) ∨ (PosInf y ∨ NegInf y) ∨ (PosInf w ∨ NegInf w)) :
    PosInf (fadd (fadd (fmul x x) (fmul y y)) (fmul w w)) := by
  refine ((up_sq hx).add (up_sq hy)).add_top (up_sq hw) ?_
  rcases h with h | h | h
  · exact .inl ((up_sq hx).add_top (up_sq hy) (.inl (inf_sq h)))
  · exact .inl ((up_sq hx).add_top (up_sq hy) (.inr (inf_sq h)))
  · exact .inr (inf_sq h)

/-- **C117**: the length of a vector or normal with an infinite component is infinite, if no component is NaN. -/
theorem C117_length (v : Vector3 T) (n : Normal3 T) :
    Gives (v.len : Outcome T) (fun l => (∀ i, ¬ IsNan (v.get i)) → (∃ i, PosInf (v.get i) ∨ NegInf (v.get i)) → PosInf l) ∧
    Gives (n.len : Outcome T) (fun l => (∀ i, ¬ IsNan (n.get i)) → (∃ i, PosInf (n.get i) ∨ NegInf (n.get i)) → PosInf l) := by
  simp only [Vector3.len, Vector3.lenSq, Normal3.len, Normal3.lenSq, fadd_ok, fmul_ok, fsqrt_ok, IEEE.as_eq, ok_bind, Gives,
    Except.ok.injEq, exists_eq_left', forall_axis, exists_axis, Vector3.get, Normal3.get]
  exact ⟨fun hn h => top_sqrt (sq_sum_top hn.1 hn.2.1 hn.2.2 h), fun hn h => top_sqrt (sq_sum_top hn.1 hn.2.1 hn.2.2 h)⟩

/-- **C117**: dividing such a vector by its length gives NaN on the infinite axes and zero on the others. -/
theorem C117_unit (v : Vector3 T) (hn : ∀ i, ¬ IsNan (v.get i)) (h : ∃ i, PosInf (v.get i) ∨ NegInf (v.get i)) :
    ∃ l w, v.len = .ok l ∧ v.div l = .ok w ∧ ∀ i, (PosInf (v.get i) ∨ NegInf (v.get i) → IsNan (w.get i)) ∧
      (IsFinite (v.get i) → Same (w.get i) z) := by
  obtain ⟨l, hl, hl'⟩ := (C117_length v ⟨z, z, z⟩).1
  have hl' := hl' hn h
  have hi : ∀ a : T, (PosInf a ∨ NegInf a → IsNan (fdiv a l)) ∧ (IsFinite a → Same (fdiv a l) z) := fun a =>
    ⟨fun h => nan_fdiv_iff.2 (.inr (.inr (.inr ⟨h, .inl hl'⟩))), fun h => fin_div_inf h (.inl hl')⟩
  refine ⟨l, ⟨fdiv v.x l, fdiv v.y l, fdiv v.z l⟩, hl, ?_, ?_⟩
  · simp only [Vector3.div, fdiv_ok, ok_bind, pure_ok]
  · simp only [forall_axis, Vector3.get]
    exact ⟨hi v.x, hi v.y, hi v.z⟩

/-! ### Boxes -/

theorem sub_pos' {a b : T} (h : Lt a b) : Lt z (fsub b a) := by
  obtain ⟨na, nb, hlt⟩ := (lt_iff_ext _ _).1 h
  have hn : ¬ IsNan (fsub b a) := by
    rw [nan_fsub_iff]
    rintro (h1 | h1 | ⟨h1, h2⟩ | ⟨h1, h2⟩)
    · rw [IsNan, nb] at h1; cases h1
    · rw [IsNan, na] at h1; cases h1
    · rw [h1, h2] at hlt; exact lt_irrefl _ hlt
    · rw [h1, h2] at hlt; exact lt_irrefl _ hlt
  refine pos_of_ext hn ?_
  rcases finite_cases (fsub b a) with hf | hf | hf | hf
  · obtain ⟨fb, fa⟩ := fsub_finite hf
    have he := fsub_err hf
    rw [fa.ext, fb.ext] at hlt
    have hlt : val a < val b := by exact_mod_cast hlt
    rw [hf.ext]
    rw [abs_of_pos (sub_pos.2 hlt)] at he
    have h1 := eps_le_half (T := T)
    have : 0 < val (fsub b a) := by
      have := (abs_le.1 he).1
      nlinarith [sub_pos.2 hlt]
    exact_mod_cast this
  · exact absurd hf hn
  · rw [show ext _ = ⊤ from hf]; exact EReal.zero_lt_top
  · exact absurd hf.neg (fsub_nn (le_of_ext na nb hlt.le))

theorem unbounded_side {b : Bounds3 T} {i : Fin 3} (h : Unbounded b i) : PosInf (fsub (b.pMax.get i) (b.pMin.get i)) :=
  top_sub (lt_not_nan (sub_pos' h.1)).2 h.2.symm

/-- **C117**: a side that reaches infinity has infinite length. -/
theorem C117_diagonal (b : Bounds3 T) :
    Gives b.diagonal (fun d => ∀ i, Unbounded b i → PosInf (d.get i)) := by
  refine ⟨⟨fsub (b.pMax.get 0) (b.pMin.get 0), fsub (b.pMax.get 1) (b.pMin.get 1), fsub (b.pMax.get 2) (b.pMin.get 2)⟩, ?_, ?_⟩
  · simp only [Bounds3.diagonal, Point3.sub, fsub_ok, ok_bind, pure_ok, Point3.get]
  · show ∀ i, _
    rw [forall_axis]
    exact ⟨unbounded_side, unbounded_side, unbounded_side⟩

theorem two_pos' : Lt z (Elem.fromInt 2 : T) := by
  refine (lt_iff_ext _ _).2 ⟨finite_zero.notNan, finite_two.notNan, ?_⟩
  rw [ext_zero, finite_two.ext, val_two]
  exact_mod_cast two_pos

theorem up_pos {a : T} (h : Lt z a) : NonNeg a := ⟨(lt_not_nan h).2, (ext_pos h).le⟩

theorem up_mul_pos {a b : T} (ha : Lt z a) (hb : Lt z b) : NonNeg (fmul a b) := by
  have hn := mul_not_nan (lt_not_nan ha).2 (lt_not_nan hb).2 (ext_pos ha).ne' (ext_pos hb).ne'
  refine ⟨hn, ?_⟩
  rw [fmul_ext' (notNan_of hn)]
  exact rndE_nonneg (mul_nonneg (ext_pos ha).le (ext_pos hb).le)

theorem pos_mul_top {a b : T} (ha : Lt z a) (hb : PosInf b) : PosInf (fmul a b) := by
  rw [fmul_comm']
  exact top_mul_pos hb ha

/-- **C117**: if all sides have a length and one reaches infinity, the surface area is infinite; so is the
    volume if this side is one of the first two. -/
theorem C117_measures (b : Bounds3 T) (hs : ∀ i, Lt (b.pMin.get i) (b.pMax.get i)) :
    Gives b.surfaceArea (fun c => (∃ i, Unbounded b i) → PosInf c) ∧
    Gives b.volume (fun c => (Unbounded b 0 ∨ Unbounded b 1 → PosInf c) ∧ (Unbounded b 2 → PosInf c ∨ IsNan c)) := by
  have hp : ∀ i, Lt z (fsub (b.pMax.get i) (b.pMin.get i)) := fun i => sub_pos' (hs i)
  have hu : ∀ i, Unbounded b i → PosInf (fsub (b.pMax.get i) (b.pMin.get i)) := fun i => unbounded_side
  rw [forall_axis] at hp hu
  simp only [Bounds3.surfaceArea, Bounds3.volume, Bounds3.diagonal, Point3.sub, fsub_ok, fadd_ok, fmul_ok, ok_bind, pure_ok,
    Gives, Except.ok.injEq, exists_eq_left', exists_axis]
  simp only [Point3.get] at hp hu
  generalize fsub b.pMax.x b.pMin.x = x at *
  generalize fsub b.pMax.y b.pMin.y = y at *
  generalize fsub b.pMax.z b.pMin.z = w at *
  obtain ⟨px, py, pw⟩ := hp
  obtain ⟨ux, uy, uw⟩ := hu
  have uxy := up_mul_pos px py
  have uxw := up_mul_pos px pw
  have uyw := up_mul_pos py pw
  refine ⟨fun h => ?_, fun h => ?_, fun h => ?_⟩
  · refine pos_mul_top two_pos' ((uxy.add uxw).add_top uyw ?_)
    rcases h with h | h | h
    · exact .inl (uxy.add_top uxw (.inl (top_mul_pos (ux h) py)))
    · exact .inr (top_mul_pos (uy h) pw)
    · exact .inr (pos_mul_top py (uw h))
  · rcases h with h | h
    · exact top_mul_pos (top_mul_pos (ux h) py) pw
    · exact top_mul_pos (pos_mul_top px (uy h)) pw
  · by_cases h0 : Lt z (fmul x y)
    · exact .inl (pos_mul_top h0 (uw h))
    · right
      have h1 : ext (fmul x y) = 0 := le_antisymm (not_lt.1 fun h' => h0 (pos_of_ext uxy.1 h')) uxy.2
      exact nan_fmul_iff.2 (.inr (.inr (.inl ⟨h1, .inl (uw h)⟩)))

theorem same_side {a b : T} (ha : IsFinite a) (h : Same a b) : ext (fsub b a) = 0 := by
  obtain ⟨h1, h2, h3⟩ := (eq_iff_ext _ _).1 h
  have hb : IsFinite b := (finite_iff_ext h2).2 (by rw [← h3]; exact (finite_iff_ext h1).1 ha)
  have := (fsub_rnd hb ha).2
  rw [this]
  rw [ha.ext, hb.ext] at h3
  have h3 : val a = val b := by exact_mod_cast h3
  rw [h3, sub_self, rnd_zero]

theorem nan_zero_top {a b : T} (ha : ext a = 0) (hb : PosInf b) : IsNan (fmul a b) :=
  nan_fmul_iff.2 (.inr (.inr (.inl ⟨ha, .inl hb⟩)))

theorem nan_top_zero {a b : T} (ha : PosInf a) (hb : ext b = 0) : IsNan (fmul a b) :=
  nan_fmul_iff.2 (.inr (.inr (.inr ⟨.inl ha, hb⟩)))

theorem zero_mul_ext {a b : T} (h : ext a = 0 ∨ ext b = 0) : IsNan (fmul a b) ∨ ext (fmul a b) = 0 := by
  by_cases hn : IsNan (fmul a b)
  · exact .inl hn
  · right
    rw [fmul_ext' (notNan_of hn)]
    have : ext a * ext b = 0 := by rcases h with h | h <;> simp [h]
    rw [this]
    have := rndE_coe (fmt := 𝔽) (x := 0)
    rw [rnd_zero] at this
    exact_mod_cast this

theorem top_mul_cases {a b : T} (h : PosInf a ∨ PosInf b) : IsNan (fmul a b) ∨ ext (fmul a b) = ⊤ ∨ ext (fmul a b) = ⊥ := by
  wlog ha : PosInf a
  · rw [fmul_comm']
    exact this h.symm (h.resolve_left ha)
  by_cases hn : IsNan b
  · exact .inl (nmr hn)
  rcases lt_trichotomy (ext b) 0 with h | h | h
  · exact .inr (.inr (top_mul_neg ha (neg_of_ext hn h)))
  · exact .inl (nan_top_zero ha h)
  · exact .inr (.inl (top_mul_pos ha (pos_of_ext hn h)))

/-- **C117**: a box that is flat on one axis and reaches infinity on another one has neither a surface area nor a
    volume. -/
theorem C117_flat (b : Bounds3 T) (i j : Fin 3) (hi : Same (b.pMin.get i) (b.pMax.get i)) (hf : IsFinite (b.pMin.get i))
    (hj : Unbounded b j) : Gives b.surfaceArea IsNan ∧ Gives b.volume IsNan := by
  have h0 := same_side hf hi
  have h1 := unbounded_side hj
  simp only [Bounds3.surfaceArea, Bounds3.volume, Bounds3.diagonal, Point3.sub, fsub_ok, fadd_ok, fmul_ok, ok_bind, pure_ok,
    Gives, Except.ok.injEq, exists_eq_left']
  have hne : i ≠ j := by
    rintro rfl
    rw [show ext _ = ⊤ from h1] at h0
    cases h0
  fin_cases i <;> fin_cases j <;> simp only [Fin.isValue, Fin.zero_eta, Fin.mk_one, Fin.reduceFinMk, ne_eq, not_true_eq_false,
    Point3.get] at h0 h1 hne <;>
    generalize fsub b.pMax.x b.pMin.x = x at * <;>
    generalize fsub b.pMax.y b.pMin.y = y at * <;>
    generalize fsub b.pMax.z b.pMin.z = w at *
  · exact ⟨nmr (nal (nal (nan_zero_top h0 h1))), nml (nan_zero_top h0 h1)⟩
  · refine ⟨nmr (nal (nar (nan_zero_top h0 h1))), ?_⟩
    rcases zero_mul_ext (a := x) (b := y) (.inl h0) with h | h
    · exact nml h
    · exact nan_zero_top h h1
  · exact ⟨nmr (nal (nal (nan_top_zero h1 h0))), nml (nan_top_zero h1 h0)⟩
  · refine ⟨nmr (nar (nan_zero_top h0 h1)), ?_⟩
    rcases zero_mul_ext (a := x) (b := y) (.inr h0) with h | h
    · exact nml h
    · exact nan_zero_top h h1
  · refine ⟨nmr (nal (nar (nan_top_zero h1 h0))), ?_⟩
    rcases top_mul_cases (a := x) (b := y) (.inl h1) with h | h
    · exact nml h
    · exact nan_fmul_iff.2 (.inr (.inr (.inr ⟨h, h0⟩)))
  · refine ⟨nmr (nar (nan_top_zero h1 h0)), ?_⟩
    rcases top_mul_cases (a := x) (b := y) (.inr h1) with h | h
    · exact nml h
    · exact nan_fmul_iff.2 (.inr (.inr (.inr ⟨h, h0⟩)))

/-- **C117**: a side that reaches infinity is the longest one, if the others are finite. -/
theorem C117_extent (b : Bounds3 T) (d : Vector3 T) (hd : b.diagonal = .ok d) (i : Fin 3) (hi : Unbounded b i)
    (hf : ∀ j, j ≠ i → IsFinite (d.get j)) : b.maximumExtent = .ok i.val := by
  obtain ⟨d', hd', h⟩ := C117_diagonal b
  obtain rfl : d = d' := by rw [hd] at hd'; injection hd'
  have h := h i hi
  have lt : ∀ j, j ≠ i → Elem.lt (d.get j) (d.get i) = true ∧ Elem.lt (d.get i) (d.get j) = false := fun j hj => by
    have : Lt (d.get j) (d.get i) := (lt_iff_ext _ _).2 ⟨(hf j hj).notNan, notNan_of h.notNan, by
      rw [show ext (d.get i) = ⊤ from h, (hf j hj).ext]
      exact EReal.coe_lt_top _⟩
    refine ⟨this, ?_⟩
    by_contra hc
    have hc := (lt_iff_ext _ _).1 (Bool.not_eq_false _ ▸ hc)
    exact lt_asymm hc.2.2 ((lt_iff_ext _ _).1 this).2.2
  simp only [Bounds3.maximumExtent, hd, ok_bind, pure_ok, Elem.gt]
  fin_cases i
  · have h1 := lt 1 (by decide)
    have h2 := lt 2 (by decide)
    simp only [Vector3.get] at h1 h2
    simp [h1, h2]
  · have h1 := lt 0 (by decide)
    have h2 := lt 2 (by decide)
    simp only [Vector3.get] at h1 h2
    simp [h1, h2]
  · have h1 := lt 0 (by decide)
    have h2 := lt 1 (by decide)
    simp only [Vector3.get] at h1 h2
    simp [h1, h2]

/-- **C117**: expanding a box by a finite distance leaves its infinite coordinates as they are. -/
theorem C117_expand (b : Bounds3 T) (hb : b.WellFormed) (d : T) (hd : IsFinite d) :
    Gives (b.expand d) (fun e => ∀ i, (NegInf (b.pMin.get i) → NegInf (e.pMin.get i)) ∧
      (PosInf (b.pMax.get i) → PosInf (e.pMax.get i))) := by
  simp only [Bounds3.expand, Point3.subVec, Point3.add, fsub_ok, fadd_ok, ok_bind, pure_ok]
  refine ⟨_, rfl, fun i => ?_⟩
  rw [new_min, new_max]
  have e1 : ∀ x y w : T, Point3.get ⟨fsub x d, fsub y d, fsub w d⟩ i = fsub (Point3.get ⟨x, y, w⟩ i) d := by
    intro x y w; fin_cases i <;> rfl
  have e2 : ∀ x y w : T, Point3.get ⟨fadd x d, fadd y d, fadd w d⟩ i = fadd (Point3.get ⟨x, y, w⟩ i) d := by
    intro x y w; fin_cases i <;> rfl
  rw [e1, e2]
  change (NegInf (b.pMin.get i) → NegInf (min2 (fsub (b.pMin.get i) d) (fadd (b.pMax.get i) d))) ∧
    (PosInf (b.pMax.get i) → PosInf (max2 (fsub (b.pMin.get i) d) (fadd (b.pMax.get i) d)))
  have hl := hb i
  have n1 := fsub_notNan hl.left hd.notNan (.inr hd)
  have n2 := fadd_notNan hl.right hd.notNan (.inr hd)
  refine ⟨fun h => ?_, fun h => ?_⟩
  · have h1 : NegInf (fsub (b.pMin.get i) d) := bot_sub (not_isNan n1) (.inl h)
    have := le_ext (min2_left (b := fadd (b.pMax.get i) d) n1)
    rw [show ext (fsub _ _) = ⊥ from h1] at this
    exact le_bot_iff.1 this
  · have h1 : PosInf (fadd (b.pMax.get i) d) := top_add (not_isNan n2) (.inl h)
    have := le_ext (max2_right n1 n2)
    rw [show ext (fadd _ _) = ⊤ from h1] at this
    exact top_le_iff.1 this

theorem offset_axis (b : Bounds3 T) (p : Point3 T) :
    Gives (b.offset p) (fun w => ∀ i, w.get i = if Elem.gt (b.pMax.get i) (b.pMin.get i)
      then fdiv (fsub (p.get i) (b.pMin.get i)) (fsub (b.pMax.get i) (b.pMin.get i)) else fsub (p.get i) (b.pMin.get i)) := by
  simp only [Bounds3.offset, Point3.sub, fsub_ok, fdiv_ok, ok_bind, pure_ok]
  refine ⟨⟨if Elem.gt b.pMax.x b.pMin.x then fdiv (fsub p.x b.pMin.x) (fsub b.pMax.x b.pMin.x) else fsub p.x b.pMin.x,
    if Elem.gt b.pMax.y b.pMin.y then fdiv (fsub p.y b.pMin.y) (fsub b.pMax.y b.pMin.y) else fsub p.y b.pMin.y,
    if Elem.gt b.pMax.z b.pMin.z then fdiv (fsub p.z b.pMin.z) (fsub b.pMax.z b.pMin.z) else fsub p.z b.pMin.z⟩,
    ?_, ?_⟩
  · split_ifs <;> rfl
  · simp only [forall_axis, Vector3.get, Point3.get]
    exact ⟨rfl, rfl, rfl⟩

/-- **C117**: every point at a finite distance above the lower corner has the relative position zero on an axis that
    is only bounded from below; on an axis that is not bounded from below no finite point has a relative position. -/
theorem C117_offset (b : Bounds3 T) (p : Point3 T) :
    Gives (b.offset p) (fun w => ∀ i, Unbounded b i →
      (∀ d, Elem.sub (p.get i) (b.pMin.get i) = .ok d → IsFinite d → Same (w.get i) z) ∧
      (NegInf (b.pMin.get i) → IsFinite (p.get i) → IsNan (w.get i))) := by
  obtain ⟨w, hw, h⟩ := offset_axis b p
  refine ⟨w, hw, fun i hi => ?_⟩
  rw [h i, if_pos (show Elem.gt (b.pMax.get i) (b.pMin.get i) = true from hi.1)]
  have ht := unbounded_side hi
  refine ⟨fun d hd hf => ?_, fun hb hp => ?_⟩
  · rw [fsub_ok] at hd
    injection hd with hd
    rw [hd]
    exact fin_div_inf hf (.inl ht)
  · have hn : ¬ IsNan (fsub (p.get i) (b.pMin.get i)) := by
      exact not_isNan (fsub_notNan hp.notNan (notNan_of hb.notNan) (.inl hp))
    exact nan_fdiv_iff.2 (.inr (.inr (.inr ⟨.inl (top_sub hn (.inr hb)), .inl ht⟩)))

/-- **C117**: between a finite coordinate and an infinite one there is only infinity; between the two infinities there
    is nothing, and neither is a finite lower corner at 0. -/
theorem C117_lerp (b : Bounds3 T) (t : Point3 T) :
    Gives (b.lerp t) (fun p => ∀ i,
      (Lt z (t.get i) → Lt (t.get i) o → IsFinite (b.pMin.get i) → PosInf (b.pMax.get i) → PosInf (p.get i)) ∧
      (Lt z (t.get i) → Lt (t.get i) o → NegInf (b.pMin.get i) → IsFinite (b.pMax.get i) → NegInf (p.get i)) ∧
      (Lt z (t.get i) → Lt (t.get i) o → NegInf (b.pMin.get i) → PosInf (b.pMax.get i) → IsNan (p.get i)) ∧
      (Same (t.get i) z → PosInf (b.pMax.get i) → IsNan (p.get i))) := by
  have key : ∀ t x y : T,
      (Lt z t → Lt t o → IsFinite x → PosInf y → PosInf (fadd (fmul (fsub o t) x) (fmul t y))) ∧
      (Lt z t → Lt t o → NegInf x → IsFinite y → NegInf (fadd (fmul (fsub o t) x) (fmul t y))) ∧
      (Lt z t → Lt t o → NegInf x → PosInf y → IsNan (fadd (fmul (fsub o t) x) (fmul t y))) ∧
      (Same t z → PosInf y → IsNan (fadd (fmul (fsub o t) x) (fmul t y))) := by
    intro t x y
    have hs : Lt t o → Lt z (fsub o t) := sub_pos'
    have hfin : Lt z t → Lt t o → (IsFinite x → IsFinite (fmul (fsub o t) x)) ∧ (IsFinite y → IsFinite (fmul t y)) :=
      fun h0 h1 => by
        obtain ⟨ft, t0, t1, fs, s0, s1, _⟩ := weights h0.le h1.le
        exact ⟨fun h => (weighted fs h s0 s1).1, fun h => (weighted ft h t0 t1).1⟩
    refine ⟨fun h0 h1 hx hy => ?_, fun h0 h1 hx hy => ?_, fun h0 h1 hx hy => ?_, fun h hy => ?_⟩
    · have h2 := (hfin h0 h1).1 hx
      have h3 := pos_mul_top h0 hy
      exact top_add (not_isNan (fadd_notNan h2.notNan (notNan_of h3.notNan) (.inl h2))) (.inr h3)
    · have h2 := (hfin h0 h1).2 hy
      have h3 : NegInf (fmul (fsub o t) x) := by rw [fmul_comm']; exact bot_mul_pos hx (hs h1)
      exact bot_add (not_isNan (fadd_notNan (notNan_of h3.notNan) h2.notNan (.inr h2))) (.inl h3)
    · have h3 : NegInf (fmul (fsub o t) x) := by rw [fmul_comm']; exact bot_mul_pos hx (hs h1)
      exact nan_fadd_iff.2 (.inr (.inr (.inr ⟨h3, pos_mul_top h0 hy⟩)))
    · have h := ((eq_iff_ext _ _).1 h).2.2
      rw [ext_zero] at h
      exact nar (nan_zero_top h hy)
  simp only [Bounds3.lerp, Pbrt.lerp, fsub_ok, fmul_ok, fadd_ok, ok_bind, pure_ok, Gives, Except.ok.injEq, exists_eq_left',
    forall_axis, Point3.get]
  exact ⟨key _ _ _, key _ _ _, key _ _ _⟩

theorem half_top {a : T} (h : PosInf a) : PosInf (fdiv a (Elem.fromInt 2)) := top_div_pos h finite_two two_pos'

/-- **C117**: the bounding sphere of an infinite box: no centre and the radius zero if the box reaches infinity on both
    sides; otherwise a centre at infinity and no finite radius but zero. -/
theorem C117_sphere (b : Bounds3 T) (c : Point3 T) (r : T) (h : b.boundingSphere = .ok (c, r)) (i : Fin 3) :
    (NegInf (b.pMin.get i) → PosInf (b.pMax.get i) → IsNan (c.get i) ∧ r = z) ∧
    (IsFinite (b.pMin.get i) → PosInf (b.pMax.get i) → PosInf (c.get i) ∧ (r = z ∨ IsNan r)) ∧
    (NegInf (b.pMin.get i) → IsFinite (b.pMax.get i) → NegInf (c.get i) ∧ (r = z ∨ IsNan r ∨ PosInf r)) := by
  obtain ⟨h1, h2, h3⟩ := sphere_ok b c r h
  have len : b.Has c → ∀ j, (IsNan (fsub (c.get j) (b.pMax.get j)) → IsNan r) := fun hh j hj => by
    obtain ⟨l, hl, hl'⟩ := (C114_products (⟨fsub c.x b.pMax.x, fsub c.y b.pMax.y, fsub c.z b.pMax.z⟩ : Vector3 T) ⟨z, z, z⟩).2.2.1
    rw [h2 hh] at hl
    obtain rfl : r = l := by injection hl
    refine hl' j ?_
    fin_cases j <;> exact hj
  refine ⟨fun hl hu => ?_, fun hl hu => ?_, fun hl hu => ?_⟩
  · have hn : IsNan (c.get i) := by
      rw [h1]
      exact ndl (nan_fadd_iff.2 (.inr (.inr (.inr ⟨hl, hu⟩))))
    exact ⟨hn, h3 fun hh => not_isNan (hh i).1.right hn⟩
  · have ht : PosInf (c.get i) := by
      rw [h1]
      exact half_top (top_add (not_isNan (fadd_notNan hl.notNan (notNan_of hu.notNan) (.inl hl))) (.inr hu))
    refine ⟨ht, ?_⟩
    by_cases hh : b.Has c
    · exact .inr (len hh i (nan_fsub_iff.2 (.inr (.inr (.inl ⟨ht, hu⟩)))))
    · exact .inl (h3 hh)
  · have ht : NegInf (c.get i) := by
      rw [h1]
      exact bot_div_pos (bot_add (not_isNan (fadd_notNan (notNan_of hl.notNan) hu.notNan (.inr hu))) (.inl hl)) finite_two two_pos'
    refine ⟨ht, ?_⟩
    by_cases hh : b.Has c
    · right
      by_cases hn : ∃ j, IsNan (fsub (c.get j) (b.pMax.get j))
      · obtain ⟨j, hj⟩ := hn
        exact .inl (len hh j hj)
      · right
        push_neg at hn
        obtain ⟨l, hl, hl'⟩ := (C117_length (⟨fsub c.x b.pMax.x, fsub c.y b.pMax.y, fsub c.z b.pMax.z⟩ : Vector3 T) ⟨z, z, z⟩).1
        rw [h2 hh] at hl
        obtain rfl : r = l := by injection hl
        have hb : NegInf (fsub (c.get i) (b.pMax.get i)) := bot_sub (hn i) (.inl ht)
        refine hl' (fun j => ?_) ⟨i, .inr ?_⟩
        · have := hn j
          fin_cases j <;> exact this
        · fin_cases i <;> exact hb
    · exact .inl (h3 hh)

/-- **C117**: the point of a ray at infinity: infinite on the axes on which the ray moves, NaN on the others. -/
theorem C117_ray (r : Ray T) (t : T) (ht : PosInf t) :
    Gives (r.at t) (fun p => ∀ i, IsFinite (r.o.get i) →
      (Lt z (r.d.get i) → PosInf (p.get i)) ∧ (Lt (r.d.get i) z → NegInf (p.get i)) ∧
      (Same (r.d.get i) z → IsNan (p.get i))) := by
  have key : ∀ x d : T, IsFinite x → (Lt z d → PosInf (fadd x (fmul d t))) ∧ (Lt d z → NegInf (fadd x (fmul d t))) ∧
      (Same d z → IsNan (fadd x (fmul d t))) := by
    intro x d hx
    have hn : ∀ y : T, ¬ IsNan y → ¬ IsNan (fadd x y) := fun y hy => by
      exact not_isNan (fadd_notNan hx.notNan (notNan_of hy) (.inl hx))
    refine ⟨fun h => ?_, fun h => ?_, fun h => ?_⟩
    · have := pos_mul_top h ht
      exact top_add (hn _ this.notNan) (.inr this)
    · have : NegInf (fmul d t) := by rw [fmul_comm']; exact top_mul_neg ht h
      exact bot_add (hn _ this.notNan) (.inr this)
    · have h := ((eq_iff_ext _ _).1 h).2.2
      rw [ext_zero] at h
      exact nar (nan_zero_top h ht)
  simp only [Ray.at, Vector3.mul, Point3.add, fmul_ok, fadd_ok, ok_bind, pure_ok, Gives, Except.ok.injEq, exists_eq_left',
    forall_axis, Point3.get, Vector3.get]
  simp only [fmul_comm' t]
  exact ⟨key _ _, key _ _, key _ _⟩

end

/-! ### What a user might not expect -/

/-- The box from the origin to the given corner -/
def fromOrigin (x y w : Float32.Model) : Bounds3 Float32.Model := ⟨fp 0 0 0, ⟨x, y, w⟩⟩

/-- **C117**, refuted: a column of infinite height over a tiny square has the surface area infinity, but no volume. -/
theorem C117_volume_refuted :
    (∃ v, (fromOrigin (frac32 (2 ^ 100)) (frac32 (2 ^ 100)) inf32).volume = .ok v ∧ IsNan v) ∧
    (fromOrigin (frac32 (2 ^ 100)) (frac32 (2 ^ 100)) inf32).surfaceArea = .ok inf32 ∧
    (fromOrigin inf32 (frac32 (2 ^ 100)) (frac32 (2 ^ 100))).volume = .ok inf32 :=
  ⟨⟨_, rfl, by decide +kernel⟩, by decide +kernel, by decide +kernel⟩

/-- **C117**, refuted: the bounding sphere of the box of everything has the radius zero, and it has no centre. The
    bounding sphere of the half space is not a sphere either. -/
theorem C117_sphere_refuted :
    (Bounds3.newInf : Bounds3 Float32.Model).boundingSphere = .ok (⟨nan32, nan32, nan32⟩, f32 0) ∧
    (fromOrigin inf32 (f32 2) (f32 2)).boundingSphere = .ok (⟨inf32, f32 1, f32 1⟩, nan32) := by decide +kernel

/-- **C117**, refuted: the longest side of two infinite ones is not the first one; `lerp` does not return the
    lower corner at 0, and the lower corner itself has the relative position 0, but so has every other point. -/
theorem C117_boxes_refuted :
    (fromOrigin inf32 inf32 (f32 1)).maximumExtent = .ok 1 ∧
    (Bounds3.newInf : Bounds3 Float32.Model).maximumExtent = .ok 2 ∧
    (fromOrigin inf32 (f32 1) (f32 1)).lerp (fp 0 0 0) = .ok ⟨nan32, f32 0, f32 0⟩ ∧
    (fromOrigin inf32 (f32 1) (f32 1)).offset (fp 0 0 0) = .ok (fv 0 0 0) ∧
    (fromOrigin inf32 (f32 1) (f32 1)).offset (fp 1000 1 1) = .ok (fv 0 1 1) := by decide +kernel

/-- **C117**, refuted: a ray that starts at a point and moves along an axis has no point at infinity, though infinity
    is the `t_max` it is created with. -/
theorem C117_ray_refuted :
    (Ray.newInfinite (fp 1 2 3) (fv 1 0 0)).at (Ray.newInfinite (fp 1 2 3) (fv 1 0 0)).tMax = .ok ⟨inf32, nan32, nan32⟩ := by decide +kernel

/-! ### Examples -/

theorem posInf_32 : PosInf inf32 := ext_top_iff.2 rfl

example : PosInf inf32 ∧ ¬ PosInf (f32 1) ∧ NegInf (inf32.neg) :=
  ⟨posInf_32, fun h => h.not_finite (by decide +kernel), ext_bot_iff.2 rfl⟩

example : Unbounded (fromOrigin inf32 (f32 1) (f32 1)) 0 := ⟨by decide +kernel, .inr posInf_32⟩

example := C117_measures (fromOrigin inf32 (f32 1) (f32 1)) (by decide +kernel)
example := C117_flat (fromOrigin inf32 (f32 0) (f32 1)) 1 0 (by decide +kernel) (by decide +kernel)
  ⟨by decide +kernel, .inr posInf_32⟩
example := C117_expand (fromOrigin inf32 (f32 1) (f32 1)) (by decide +kernel) (f32 1) (by decide +kernel)

/-- The length of a vector with an infinite component, and what becomes of it -/
example : (⟨inf32, f32 1, f32 2⟩ : Vector3 Float32.Model).len = .ok inf32 ∧
    (⟨inf32, f32 1, f32 2⟩ : Vector3 Float32.Model).div inf32 = .ok ⟨nan32, f32 0, f32 0⟩ := by decide +kernel

end Pbrt
