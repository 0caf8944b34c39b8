import Verif.Spec.Mirror
import Verif.Props.Length
import Verif.Proof.Inversion

/-!
# Mirror images under IEEE arithmetic (for `Props/Mirror.lean`)
-/

open Float.Model

namespace Pbrt

section
variable {T : Type} [Elem T] [As T T] [FloatFns T] [IEEE T]

local notation "𝔽" => IEEE.fmt T

/-- Negate if `s` -/
noncomputable def sneg (s : Bool) (x : EReal) : EReal := if s then -x else x

theorem sneg_sneg (s t : Bool) (x : EReal) : sneg s (sneg t x) = sneg (xor s t) x := by
  cases s <;> cases t <;> simp [sneg]

theorem rndE_sneg (fmt : Format) (s : Bool) (x : EReal) : rndE fmt (sneg s x) = sneg s (rndE fmt x) := by
  cases s <;> simp [sneg, rndE_neg]

/-- The relation behind `Mirror` -/
def R (s : Bool) (a b : T) : Prop := Elem.isNan a = Elem.isNan b ∧ ext b = sneg s (ext a)

theorem ext_of_nan {a : T} (h : Elem.isNan a = true) : ext a = 0 := by
  unfold ext; rw [(nan_iff' a).1 h]; rfl

theorem alike_iff {a b : T} : Alike a b ↔ Elem.isNan a = Elem.isNan b ∧ ext a = ext b := by
  unfold Alike Same NotNan
  rw [eq_iff_ext]
  cases ha : Elem.isNan a <;> cases hb : Elem.isNan b <;> simp
  rw [ext_of_nan ha, ext_of_nan hb]

theorem mirror_iff {s : Bool} {a b : T} : Mirror s a b ↔ R s a b := by
  unfold Mirror R
  cases s
  · simp [alike_iff, sneg, eq_comm]
  · simp only [if_true, fneg_ok, alike_iff, sneg]
    constructor
    · rintro ⟨n, h, h1, h2⟩
      cases h
      rw [nan_fneg] at h1
      rw [ext_fneg] at h2
      exact ⟨h1, h2.symm⟩
    · rintro ⟨h1, h2⟩
      exact ⟨_, rfl, by rw [nan_fneg]; exact h1, by rw [ext_fneg]; exact h2.symm⟩

theorem R.refl (a : T) : R false a a := ⟨rfl, rfl⟩
theorem R.neg (a : T) : R true a (fneg a) := ⟨(nan_fneg a).symm, ext_fneg a⟩
theorem R.zero (s : Bool) : R s (Elem.fromInt 0 : T) (Elem.fromInt 0) := by
  refine ⟨rfl, ?_⟩
  rw [ext_zero]; cases s <;> simp [sneg]

theorem R.trans {s t : Bool} {a b c : T} (h : R s a b) (h' : R t b c) : R (xor s t) a c := by
  refine ⟨h.1.trans h'.1, ?_⟩
  rw [h'.2, h.2, sneg_sneg, Bool.xor_comm]

theorem R.symm {s : Bool} {a b : T} (h : R s a b) : R s b a := by
  refine ⟨h.1.symm, ?_⟩
  rw [h.2, sneg_sneg, Bool.xor_self]; rfl

theorem R.fneg {s : Bool} {a b : T} (h : R s a b) : R s (fneg a) (fneg b) := by
  refine ⟨by rw [nan_fneg, nan_fneg]; exact h.1, ?_⟩
  rw [ext_fneg, ext_fneg, h.2]
  cases s <;> simp [sneg]

theorem fneg_left {s : Bool} {a b : T} (h : R s a b) : R (!s) (Pbrt.fneg a) b := by
  have := (R.neg a).symm.trans h
  simpa using this

theorem fneg_right {s : Bool} {a b : T} (h : R s a b) : R (!s) a (Pbrt.fneg b) := (fneg_left h.symm).symm

theorem fadd_notNan_iff (a b : T) : Elem.isNan (fadd a b) = false ↔
    Elem.isNan a = false ∧ Elem.isNan b = false ∧ ¬ (ext a = ⊤ ∧ ext b = ⊥) ∧ ¬ (ext a = ⊥ ∧ ext b = ⊤) :=
  ⟨fadd_nan, fun ⟨h1, h2, h3, h4⟩ => (fadd_ext h1 h2 h3 h4).1⟩

theorem fmul_notNan_iff (a b : T) : Elem.isNan (fmul a b) = false ↔
    Elem.isNan a = false ∧ Elem.isNan b = false ∧ (ext a = 0 → ext b ≠ ⊤ ∧ ext b ≠ ⊥) ∧
      (ext b = 0 → ext a ≠ ⊤ ∧ ext a ≠ ⊥) :=
  ⟨fmul_nan, fun ⟨h1, h2, h3, h4⟩ => (fmul_ext h1 h2 h3 h4).1⟩

theorem bool_eq_of {p q : Bool} (h : p = false ↔ q = false) : p = q := by cases p <;> cases q <;> simp_all

theorem sneg_add {s : Bool} {x y : EReal} (h1 : ¬ (x = ⊤ ∧ y = ⊥)) (h2 : ¬ (x = ⊥ ∧ y = ⊤)) :
    sneg s x + sneg s y = sneg s (x + y) := by
  cases s
  · rfl
  · simp only [sneg, if_true]
    rw [EReal.neg_add (by tauto) (by tauto), sub_eq_add_neg]

theorem sneg_mul {s t : Bool} {x y : EReal} : sneg s x * sneg t y = sneg (xor s t) (x * y) := by
  cases s <;> cases t <;> simp [sneg]

theorem sneg_eq_zero {s : Bool} {x : EReal} : sneg s x = 0 ↔ x = 0 := by cases s <;> simp [sneg]

theorem R.fadd {s : Bool} {a a' b b' : T} (ha : R s a a') (hb : R s b b') : R s (fadd a b) (fadd a' b') := by
  have hn : Elem.isNan (Pbrt.fadd a b) = Elem.isNan (Pbrt.fadd a' b') := by
    apply bool_eq_of
    rw [fadd_notNan_iff, fadd_notNan_iff, ← ha.1, ← hb.1, ha.2, hb.2]
    cases s
    · rfl
    · simp only [sneg, if_true, EReal.neg_eq_top_iff, EReal.neg_eq_bot_iff]
      tauto
  refine ⟨hn, ?_⟩
  cases h : Elem.isNan (Pbrt.fadd a b)
  · have h' := hn ▸ h
    have h3 := (fadd_notNan_iff a b).1 h
    rw [fadd_ext' h', fadd_ext' h, ha.2, hb.2, ← rndE_sneg, sneg_add h3.2.2.1 h3.2.2.2]
  · rw [ext_of_nan h, ext_of_nan (hn ▸ h), eq_comm, sneg_eq_zero]

theorem R.fsub {s : Bool} {a a' b b' : T} (ha : R s a a') (hb : R s b b') : R s (fsub a b) (fsub a' b') := by
  rw [fsub_eq_add, fsub_eq_add]
  exact ha.fadd hb.fneg

theorem R.fmul {s t : Bool} {a a' b b' : T} (ha : R s a a') (hb : R t b b') :
    R (xor s t) (fmul a b) (fmul a' b') := by
  have hn : Elem.isNan (Pbrt.fmul a b) = Elem.isNan (Pbrt.fmul a' b') := by
    apply bool_eq_of
    rw [fmul_notNan_iff, fmul_notNan_iff, ← ha.1, ← hb.1, ha.2, hb.2, sneg_eq_zero, sneg_eq_zero]
    cases s <;> cases t <;> simp only [sneg, if_true, EReal.neg_eq_top_iff, EReal.neg_eq_bot_iff, Ne] <;> tauto
  refine ⟨hn, ?_⟩
  cases h : Elem.isNan (Pbrt.fmul a b)
  · have h' := hn ▸ h
    rw [fmul_ext' h', fmul_ext' h, ha.2, hb.2, ← rndE_sneg, sneg_mul]
  · rw [ext_of_nan h, ext_of_nan (hn ▸ h), eq_comm, sneg_eq_zero]

/-- Floats that are alike are equal or both zero. -/
theorem R.cases {a b : T} (h : R false a b) : a = b ∨ (IsZero a ∧ IsZero b) := by
  by_cases hz : ext a = 0 ∧ Elem.isNan a = false
  · right
    have hb : ext b = 0 := by rw [h.2, hz.1]; rfl
    exact ⟨isZero_iff.2 (finite_of_ext hz.2 hz.1), isZero_iff.2 (finite_of_ext (h.1 ▸ hz.2) hb)⟩
  · left
    apply up_inj
    cases hn : Elem.isNan a
    · have hz' : ext a ≠ 0 := fun hc => hz ⟨hc, hn⟩
      have hn' := h.1 ▸ hn
      have he : ext b = ext a := h.2
      rcases not_finite_cases hn with hf | hi | hi
      · have hf' : IsFinite b := by
          rw [finite_iff_ext hn', he]; exact (finite_iff_ext hn).1 hf
        rw [hf.ext] at hz' he
        rw [hf'.ext] at he
        have hv : val b = val a := by exact_mod_cast he
        have h0 : val a ≠ 0 := fun hc => hz' (by rw [hc]; rfl)
        obtain ⟨s, m, e, hm, hu⟩ := (val_ne_zero_iff hf).1 h0
        obtain ⟨s', m', e', hm', hu'⟩ := (val_ne_zero_iff hf').1 (hv ▸ h0)
        refine canon_unique (up_canon a) (up_canon b) ((isFinite_iff a).1 hf) ((isFinite_iff b).1 hf')
          hv.symm ?_
        have p1 := uval_pos (s := s) (m := m) (e := e) (h := hm)
        have p2 := uval_pos (s := s') (m := m') (e := e') (h := hm')
        rw [← hu] at p1
        rw [← hu'] at p2
        rw [show uval (up a) = uval (up b) from hv.symm] at p1
        rw [hu, hu']
        show s = s'
        cases s <;> cases s' <;> simp only [sgn] at p1 p2 <;> first | rfl | (exfalso; linarith)
      · rw [hi, ext_top_iff.1 (he.trans (ext_top_iff.2 hi))]
      · rw [hi, ext_bot_iff.1 (he.trans (ext_bot_iff.2 hi))]
    · rw [(nan_iff' a).1 hn, (nan_iff' b).1 (h.1 ▸ hn)]

theorem fdiv_ext {a b : T} (ha : Elem.isNan a = false) (hb : Elem.isNan b = false) (h0 : ext b ≠ 0)
    (hi : ¬ (¬ IsFinite a ∧ ¬ IsFinite b)) :
    Elem.isNan (fdiv a b) = false ∧ ext (fdiv a b) = rndE 𝔽 (ext a / ext b) := by
  by_cases fb : IsFinite b
  · have v0 : val b ≠ 0 := fun hc => h0 (by rw [fb.ext, hc]; rfl)
    by_cases fa : IsFinite a
    · rw [fa.ext, fb.ext, ← EReal.coe_div, rndE_coe]
      exact fdiv_rnd fa fb v0
    · obtain ⟨t, m, e, hm, hu⟩ := (val_ne_zero_iff fb).1 v0
      obtain ⟨s, hs⟩ : ∃ s, up a = .infinity s := by
        rcases not_finite_cases ha with h | h | h
        · exact absurd h fa
        · exact ⟨_, h⟩
        · exact ⟨_, h⟩
      have hd : up (fdiv a b) = .infinity (s / t) := by rw [up_fdiv, hs, hu]; rfl
      refine ⟨(nan_iff _).2 (by rw [hd]; simp), ?_⟩
      have := uval_pos (s := t) (m := m) (e := e) (h := hm)
      rw [← hu] at this
      rw [fb.ext]
      unfold ext
      rw [hd, hs]
      change 0 < sgn t * val b at this
      cases s <;> cases t <;> simp only [sgn] at this <;>
        simp only [uext, show Sign.negative / Sign.negative = .positive from rfl,
          show Sign.negative / Sign.positive = .negative from rfl,
          show Sign.positive / Sign.negative = .negative from rfl,
          show Sign.positive / Sign.positive = .positive from rfl]
      · rw [EReal.bot_div_of_neg_ne_bot (by exact_mod_cast (by linarith : val b < 0)) (by simp)]; rfl
      · rw [EReal.bot_div_of_pos_ne_top (by exact_mod_cast (by linarith : 0 < val b)) (by simp)]; rfl
      · rw [EReal.top_div_of_neg_ne_bot (by exact_mod_cast (by linarith : val b < 0)) (by simp)]; rfl
      · rw [EReal.top_div_of_pos_ne_top (by exact_mod_cast (by linarith : 0 < val b)) (by simp)]; rfl
  · have fa : IsFinite a := by by_contra h; exact hi ⟨h, fb⟩
    have hz : rndE 𝔽 (0 : EReal) = 0 := by
      have := rndE_coe (fmt := 𝔽) (x := 0)
      rw [rnd_zero] at this
      exact this
    have key : ∀ s, up b = .infinity s → Elem.isNan (fdiv a b) = false ∧ ext (fdiv a b) = 0 := by
      intro s hs
      rw [isFinite_iff] at fa
      cases hu : up a with
      | infinity t => rw [hu] at fa; exact fa.elim
      | notANumber => rw [hu] at fa; exact fa.elim
      | zero t =>
        have hd : up (fdiv a b) = .zero (t / s) := by rw [up_fdiv, hs, hu]; rfl
        refine ⟨(nan_iff _).2 (by rw [hd]; simp), ?_⟩
        unfold ext; rw [hd]; rfl
      | finite t m e h =>
        have hd : up (fdiv a b) = .zero (t / s) := by rw [up_fdiv, hs, hu]; rfl
        refine ⟨(nan_iff _).2 (by rw [hd]; simp), ?_⟩
        unfold ext; rw [hd]; rfl
    rcases not_finite_cases hb with h | h | h
    · exact absurd h fb
    · have := key _ h
      rw [ext_top_iff.2 h, EReal.div_top, hz]; exact this
    · have := key _ h
      rw [ext_bot_iff.2 h, EReal.div_bot, hz]; exact this

theorem fdiv_nan_left {a b : T} (h : Elem.isNan a = true) : Elem.isNan (fdiv a b) = true := by
  rw [nan_iff', up_fdiv, (nan_iff' a).1 h]; rfl

theorem fdiv_nan_right {a b : T} (h : Elem.isNan b = true) : Elem.isNan (fdiv a b) = true := by
  rw [nan_iff', up_fdiv, (nan_iff' b).1 h]
  cases up a <;> rfl

theorem fdiv_nan_inf {a b : T} (ha : ¬ IsFinite a) (hb : ¬ IsFinite b) : Elem.isNan (fdiv a b) = true := by
  cases hna : Elem.isNan a
  · cases hnb : Elem.isNan b
    · rw [nan_iff', up_fdiv]
      rcases not_finite_cases hna with h | h | h
      · exact absurd h ha
      · rcases not_finite_cases hnb with h' | h' | h'
        · exact absurd h' hb
        all_goals rw [h, h']; rfl
      · rcases not_finite_cases hnb with h' | h' | h'
        · exact absurd h' hb
        all_goals rw [h, h']; rfl
    · exact fdiv_nan_right hnb
  · exact fdiv_nan_left hna

theorem R.of_nan {s : Bool} {a b : T} (ha : Elem.isNan a = true) (hb : Elem.isNan b = true) : R s a b := by
  refine ⟨ha.trans hb.symm, ?_⟩
  rw [ext_of_nan ha, ext_of_nan hb, eq_comm, sneg_eq_zero]

theorem R.finite_iff {s : Bool} {a b : T} (h : R s a b) : IsFinite a ↔ IsFinite b := by
  cases hn : Elem.isNan a
  · rw [finite_iff_ext hn, finite_iff_ext (h.1 ▸ hn), h.2]
    cases s
    · rfl
    · simp only [sneg, if_true, Ne, EReal.neg_eq_top_iff, EReal.neg_eq_bot_iff]; tauto
  · constructor
    · intro hf; rw [hf.notNan] at hn; cases hn
    · intro hf; rw [h.1, hf.notNan] at hn; cases hn

theorem sneg_div {s t : Bool} {x y : EReal} : sneg s x / sneg t y = sneg (xor s t) (x / y) := by
  cases s <;> cases t <;> simp [sneg, div_eq_mul_inv, EReal.inv_neg]

theorem R.isZero_iff {s : Bool} {a b : T} (h : R s a b) : IsZero a ↔ IsZero b := by
  have key : ∀ {s : Bool} {a b : T}, R s a b → IsZero a → IsZero b := by
    intro s a b h hz
    rw [Pbrt.isZero_iff] at hz
    refine Pbrt.isZero_iff.2 (finite_of_ext (h.1 ▸ hz.1.notNan) ?_)
    rw [h.2, hz.1.ext, hz.2]
    cases s <;> simp [sneg]
  exact ⟨key h, key h.symm⟩

/-- Quotients, unless the divisor is a zero -/
theorem R.fdiv {s t : Bool} {a a' b b' : T} (ha : R s a a') (hb : R t b b') (h0 : ¬ IsZero b) :
    R (xor s t) (fdiv a b) (fdiv a' b') := by
  cases hna : Elem.isNan a
  · cases hnb : Elem.isNan b
    · by_cases hi : ¬ IsFinite a ∧ ¬ IsFinite b
      · exact .of_nan (fdiv_nan_inf hi.1 hi.2) (fdiv_nan_inf (fun h => hi.1 (ha.finite_iff.2 h))
          fun h => hi.2 (hb.finite_iff.2 h))
      · have e0 : ext b ≠ 0 := fun hc => h0 (Pbrt.isZero_iff.2 (finite_of_ext hnb hc))
        have d1 := fdiv_ext hna hnb e0 hi
        have d2 := fdiv_ext (a := a') (b := b') (ha.1 ▸ hna) (hb.1 ▸ hnb)
          (by rw [hb.2, Ne, sneg_eq_zero]; exact e0) (by rw [← ha.finite_iff, ← hb.finite_iff]; exact hi)
        refine ⟨d1.1.trans d2.1.symm, ?_⟩
        rw [d1.2, d2.2, ha.2, hb.2, sneg_div, rndE_sneg]
    · exact .of_nan (fdiv_nan_right hnb) (fdiv_nan_right (hb.1 ▸ hnb))
  · exact .of_nan (fdiv_nan_left hna) (fdiv_nan_left (ha.1 ▸ hna))

theorem fsqrt_isZero {a : T} (h : IsZero a) : IsZero (fsqrt a) := by
  obtain ⟨s, hs⟩ := h
  exact ⟨s, by rw [up_fsqrt, hs]; rfl⟩

theorem R.of_isZero {s : Bool} {a b : T} (ha : IsZero a) (hb : IsZero b) : R s a b := by
  rw [Pbrt.isZero_iff] at ha hb
  refine ⟨ha.1.notNan.trans hb.1.notNan.symm, ?_⟩
  rw [ha.1.ext, hb.1.ext, ha.2, hb.2]
  cases s <;> simp [sneg]

theorem R.fsqrt {a b : T} (h : R false a b) : R false (fsqrt a) (fsqrt b) := by
  rcases h.cases with rfl | ⟨ha, hb⟩
  · exact .refl _
  · exact .of_isZero (fsqrt_isZero ha) (fsqrt_isZero hb)

theorem nan_fabs (a : T) : Elem.isNan (fabs a) = Elem.isNan a := by
  apply bool_eq_of
  rw [nan_iff, nan_iff, up_fabs]
  cases up a <;> simp [UnpackedFloat.abs]

theorem R.fabs {s : Bool} {a b : T} (h : R s a b) : R false (fabs a) (fabs b) := by
  refine ⟨by rw [nan_fabs, nan_fabs, h.1], ?_⟩
  rw [ext_fabs, ext_fabs, h.2]
  cases s
  · rfl
  · simp only [sneg, if_true, neg_neg, max_comm]; simp

theorem R.lt {a a' b b' : T} (ha : R false a a') (hb : R false b b') : Elem.lt a b = Elem.lt a' b' := by
  rw [Bool.eq_iff_iff, lt_iff_ext, lt_iff_ext, ha.2, hb.2, ha.1, hb.1]; rfl

theorem R.le {a a' b b' : T} (ha : R false a a') (hb : R false b b') : Elem.le a b = Elem.le a' b' := by
  rw [Bool.eq_iff_iff, le_iff_ext, le_iff_ext, ha.2, hb.2, ha.1, hb.1]; rfl

theorem R.lt_flip {a a' b b' : T} (ha : R true a a') (hb : R true b b') : Elem.lt a b = Elem.lt b' a' := by
  rw [Bool.eq_iff_iff, lt_iff_ext, lt_iff_ext, ha.2, hb.2, ha.1, hb.1]
  simp only [sneg, if_true, EReal.neg_lt_neg_iff]; tauto

theorem R.le_flip {a a' b b' : T} (ha : R true a a') (hb : R true b b') : Elem.le a b = Elem.le b' a' := by
  rw [Bool.eq_iff_iff, le_iff_ext, le_iff_ext, ha.2, hb.2, ha.1, hb.1]
  simp only [sneg, if_true, EReal.neg_le_neg_iff]; tauto

theorem R.min {a a' b b' : T} (ha : R false a a') (hb : R false b b') : R false (min2 a b) (min2 a' b') := by
  have := ha.lt hb
  have h2 := hb.lt ha
  rcases min2_cases a b with ⟨h, e⟩ | ⟨h, e⟩ <;> rcases min2_cases a' b' with ⟨h', e'⟩ | ⟨h', e'⟩ <;>
    rw [e, e'] <;> first | assumption | (unfold Lt at h h'; rw [h2] at h; contradiction)

theorem R.max {a a' b b' : T} (ha : R false a a') (hb : R false b b') : R false (max2 a b) (max2 a' b') := by
  have h2 := ha.lt hb
  rcases max2_cases a b with ⟨h, e⟩ | ⟨h, e⟩ <;> rcases max2_cases a' b' with ⟨h', e'⟩ | ⟨h', e'⟩ <;>
    rw [e, e'] <;> first | assumption | (unfold Lt at h h'; rw [h2] at h; contradiction)

theorem R.min_flip {a a' b b' : T} (ha : R true a a') (hb : R true b b') : R true (max2 a b) (min2 a' b') := by
  have h2 := ha.lt_flip hb
  rcases max2_cases a b with ⟨h, e⟩ | ⟨h, e⟩ <;> rcases min2_cases a' b' with ⟨h', e'⟩ | ⟨h', e'⟩ <;>
    rw [e, e'] <;> first | assumption | (unfold Lt at h h'; rw [h2] at h; contradiction)

theorem R.max_flip {a a' b b' : T} (ha : R true a a') (hb : R true b b') : R true (min2 a b) (max2 a' b') := by
  have h2 := hb.lt_flip ha
  rcases min2_cases a b with ⟨h, e⟩ | ⟨h, e⟩ <;> rcases max2_cases a' b' with ⟨h', e'⟩ | ⟨h', e'⟩ <;>
    rw [e, e'] <;> first | assumption | (unfold Lt at h h'; rw [h2] at h; contradiction)

/-! ### Inverting the mirror image of a matrix -/

theorem for4_together {S : Type} {P : Nat → S → S → Prop} {f g : Fin 4 → S → Outcome S} {s s' : S}
    (h0 : P 0 s s') (h : ∀ (i : Fin 4) s s', P i s s' → Together (P (i + 1)) (f i s) (g i s')) :
    Together (P 4) (for4 s f) (for4 s' g) := by
  rw [for4_eq, for4_eq]
  rcases h 0 s s' h0 with ⟨a1, b1, e1, f1, h1⟩ | ⟨e, e1, f1⟩
  · rw [e1, f1, ok_bind, ok_bind]
    rcases h 1 _ _ h1 with ⟨a2, b2, e2, f2, h2⟩ | ⟨e, e2, f2⟩
    · rw [e2, f2, ok_bind, ok_bind]
      rcases h 2 _ _ h2 with ⟨a3, b3, e3, f3, h3⟩ | ⟨e, e3, f3⟩
      · rw [e3, f3, ok_bind, ok_bind]
        exact h 3 _ _ h3
      · exact .inr ⟨e, by rw [e3]; rfl, by rw [f3]; rfl⟩
    · exact .inr ⟨e, by rw [e2]; rfl, by rw [f2]; rfl⟩
  · exact .inr ⟨e, by rw [e1]; rfl, by rw [f1]; rfl⟩

/-- The state of the pivot search for a matrix and its mirror image, after the entries in `done` -/
def PivotRel (ipiv : Fin 4 → Nat) (W : Mat44 T) (done : Fin 4 → Fin 4 → Prop) (p q : PivotState T) : Prop :=
  p.irow = q.irow ∧ p.icol = q.icol ∧ R false p.big q.big ∧
    ((ipiv p.irow = 0 ∧ ipiv p.icol = 0) ∨ (p = ⟨0, 0, Elem.fromInt 0⟩ ∧
      ∀ j k, done j k → ipiv j = 0 → ipiv k = 0 → Elem.isNan (W j k) = true))

theorem fabs_ge_zero {a : T} (h : Elem.isNan a = false) : Elem.ge (fabs a) (Elem.fromInt 0 : T) = true := by
  show Elem.le (Elem.fromInt 0 : T) (fabs a) = true
  rw [le_iff_ext, nan_fabs, ext_fabs, ext_zero]
  refine ⟨finite_zero.notNan, h, ?_⟩
  rcases le_total 0 (ext a) with h | h
  · exact le_max_of_le_left h
  · exact le_max_of_le_right (by simpa using h)

theorem choosePivot_mirror (ipiv : Fin 4 → Nat) (hp : ∀ k, ipiv k ≤ 1) {W W' : Mat44 T} {g : Fin 4 → Fin 4 → Bool}
    (h : ∀ i j, R (g i j) (W i j) (W' i j)) :
    Together (PivotRel ipiv W fun _ _ => True) (choosePivot ipiv W) (choosePivot ipiv W') := by
  have hinner : ∀ (j k : Fin 4) (s s' : PivotState T), ipiv j = 0 →
      PivotRel ipiv W (fun j' k' => j' < j ∨ (j' = j ∧ k'.val < k.val)) s s' →
      Together (PivotRel ipiv W (fun j' k' => j' < j ∨ (j' = j ∧ k'.val < k.val + 1)))
        (if ipiv k = 0 then do
          let a ← Elem.abs (W j k)
          if Elem.ge a s.big then pure ⟨j, k, a⟩ else pure s
        else if ipiv k > 1 then .error .singularPivotTwice
        else pure s : Outcome (PivotState T))
        (if ipiv k = 0 then do
          let a ← Elem.abs (W' j k)
          if Elem.ge a s'.big then pure ⟨j, k, a⟩ else pure s'
        else if ipiv k > 1 then .error .singularPivotTwice
        else pure s' : Outcome (PivotState T)) := by
    intro j k s s' hj ⟨h1, h2, h3, h4⟩
    have hlast : ∀ k' : Fin 4, k'.val < k.val + 1 → k'.val < k.val ∨ k' = k := fun k' h => by
      rcases Nat.lt_succ_iff_lt_or_eq.1 h with h | h
      · exact Or.inl h
      · exact Or.inr (Fin.ext h)
    by_cases hk : ipiv k = 0
    · rw [if_pos hk, if_pos hk, fabs_ok, fabs_ok, ok_bind, ok_bind]
      have hge : Elem.ge (fabs (W j k)) s.big = Elem.ge (fabs (W' j k)) s'.big := h3.le (h j k).fabs
      rw [← hge]
      by_cases hc : Elem.ge (fabs (W j k)) s.big = true
      · rw [if_pos hc, if_pos hc]
        exact .inl ⟨_, _, rfl, rfl, rfl, rfl, (h j k).fabs, .inl ⟨hj, hk⟩⟩
      · rw [if_neg hc, if_neg hc]
        refine .inl ⟨_, _, rfl, rfl, h1, h2, h3, h4.imp_right fun ⟨e, h4⟩ => ⟨e, fun j' k' hd hj' hk' => ?_⟩⟩
        rcases hd with hd | ⟨rfl, hd⟩
        · exact h4 _ _ (.inl hd) hj' hk'
        · rcases hlast k' hd with hd | rfl
          · exact h4 _ _ (.inr ⟨rfl, hd⟩) hj' hk'
          · by_contra hn
            exact hc (by rw [e]; exact fabs_ge_zero (by simpa using hn))
    · rw [if_neg hk, if_neg hk, if_neg (by have := hp k; omega), if_neg (by have := hp k; omega)]
      refine .inl ⟨_, _, rfl, rfl, h1, h2, h3, h4.imp_right fun ⟨e, h4⟩ => ⟨e, fun j' k' hd hj' hk' => ?_⟩⟩
      rcases hd with hd | ⟨rfl, hd⟩
      · exact h4 _ _ (.inl hd) hj' hk'
      · rcases hlast k' hd with hd | rfl
        · exact h4 _ _ (.inr ⟨rfl, hd⟩) hj' hk'
        · exact absurd hk' hk
  have key : Together (PivotRel ipiv W fun j _ => j.val < 4) (choosePivot ipiv W) (choosePivot ipiv W') := by
    refine for4_together (P := fun n => PivotRel ipiv W fun j _ => j.val < n) ?_ ?_
    · exact ⟨rfl, rfl, .refl _, .inr ⟨rfl, fun j k h => absurd h (Nat.not_lt_zero _)⟩⟩
    · intro j s s' ⟨h1, h2, h3, h4⟩
      by_cases hj : ipiv j = 1
      · rw [if_neg (by simp [hj]), if_neg (by simp [hj])]
        refine .inl ⟨_, _, rfl, rfl, h1, h2, h3, h4.imp_right fun ⟨e, h4⟩ => ⟨e, fun j' k' hd hj' hk' => ?_⟩⟩
        rcases Nat.lt_succ_iff_lt_or_eq.1 hd with h | h
        · exact h4 j' k' h hj' hk'
        · have := Fin.ext h ▸ hj'; omega
      · rw [if_pos hj, if_pos hj]
        have hj0 : ipiv j = 0 := by have := hp j; omega
        have := for4_together (P := fun n => PivotRel ipiv W fun j' k' => j' < j ∨ (j' = j ∧ k'.val < n))
          (s := s) (s' := s') ⟨h1, h2, h3, h4.imp_right fun ⟨e, h4⟩ => ⟨e, fun j' k' hd => h4 j' k'
            (hd.elim (fun h => h) fun h => absurd h.2 (Nat.not_lt_zero _))⟩⟩
          (fun k s s' h => hinner j k s s' hj0 h)
        rcases this with ⟨a, b, e1, e2, h1, h2, h3, h4⟩ | he
        · refine .inl ⟨a, b, e1, e2, h1, h2, h3, h4.imp_right fun ⟨e, h4⟩ => ⟨e, fun j' k' hd => h4 j' k' ?_⟩⟩
          rcases Nat.lt_succ_iff_lt_or_eq.1 hd with h | h
          · exact Or.inl h
          · exact Or.inr ⟨Fin.ext h, k'.isLt⟩
        · exact .inr he
  rcases key with ⟨a, b, e1, e2, h1, h2, h3, h4⟩ | he
  · exact .inl ⟨a, b, e1, e2, h1, h2, h3, h4.imp_right fun ⟨e, h4⟩ => ⟨e, fun j k _ => h4 j k j.isLt⟩⟩
  · exact .inr he

theorem choosePivot_twice (ipiv : Fin 4 → Nat) (W : Mat44 T) (h : ∃ k, 1 < ipiv k) :
    choosePivot ipiv W = .error .singularPivotTwice := by
  obtain ⟨k0, hk0⟩ := h
  have hinner : ∀ (j : Fin 4) (s : PivotState T), for4 s (fun k s =>
        if ipiv k = 0 then do
          let a ← Elem.abs (W j k)
          if Elem.ge a s.big then pure ⟨j, k, a⟩ else pure s
        else if ipiv k > 1 then .error .singularPivotTwice
        else pure s) = (.error .singularPivotTwice : Outcome (PivotState T)) := by
    intro j s
    refine (for4_inv_err (P := fun n _ => ∀ k : Fin 4, k.val < n → ipiv k ≤ 1)
      (E := fun e => e = .singularPivotTwice) (s := s) (f := fun k s =>
        if ipiv k = 0 then do
          let a ← Elem.abs (W j k)
          if Elem.ge a s.big then pure ⟨j, k, a⟩ else pure s
        else if ipiv k > 1 then .error .singularPivotTwice
        else pure s) (fun k h => absurd h (Nat.not_lt_zero _)) (fun k s h => ?_)).elim
        (fun ⟨s', e, h⟩ => by have := h k0 k0.isLt; omega) (fun ⟨e, h, he⟩ => he ▸ h)
    · have hlast : ipiv k ≤ 1 → ∀ k' : Fin 4, k'.val < k.val + 1 → ipiv k' ≤ 1 := fun h1 k' hk' => by
        rcases Nat.lt_succ_iff_lt_or_eq.1 hk' with h' | h'
        · exact h k' h'
        · rw [Fin.ext h']; exact h1
      by_cases hk : ipiv k = 0
      · simp only [hk, if_true, fabs_ok, ok_bind]
        by_cases hc : Elem.ge (fabs (W j k)) s.big = true
        · rw [if_pos hc]; exact .inl ⟨_, rfl, hlast (by omega)⟩
        · rw [if_neg hc]; exact .inl ⟨_, rfl, hlast (by omega)⟩
      · simp only [hk, if_false]
        by_cases hk1 : ipiv k > 1
        · rw [if_pos hk1]; exact .inr ⟨_, rfl, rfl⟩
        · rw [if_neg hk1]; exact .inl ⟨_, rfl, hlast (by omega)⟩
  unfold choosePivot
  simp only [hinner]
  refine (for4_inv_err (P := fun n _ => ∀ k : Fin 4, k.val < n → ipiv k = 1)
      (E := fun e => e = .singularPivotTwice) (s := (⟨0, 0, Elem.fromInt 0⟩ : PivotState T))
      (f := fun j s => if ipiv j ≠ 1 then (.error .singularPivotTwice : Outcome (PivotState T)) else pure s)
      (fun k h => absurd h (Nat.not_lt_zero _)) (fun j s h => ?_)).elim
      (fun ⟨s', e, h⟩ => by have := h k0 k0.isLt; omega) (fun ⟨e, h, he⟩ => he ▸ h)
  · by_cases hj : ipiv j = 1
    · simp only [hj, ne_eq, not_true_eq_false, if_false]
      refine .inl ⟨_, rfl, fun k' hk' => ?_⟩
      rcases Nat.lt_succ_iff_lt_or_eq.1 hk' with h' | h'
      · exact h k' h'
      · rw [Fin.ext h']; exact hj
    · simp only [ne_eq, hj, not_false_eq_true, if_true]
      exact .inr ⟨_, rfl, rfl⟩

theorem R.one : R false (Elem.fromInt 1 : T) (Elem.fromInt 1) := .refl _

theorem R.congr {s t : Bool} {a b : T} (h : R s a b) (e : s = t) : R t a b := e ▸ h

/-- The signs after an elimination: those of the pivot row and the pivot column are exchanged. -/
theorem feliminated_mirror {W W' : Mat44 T} {r c : Fin 4 → Bool} (h : ∀ i j, R (xor (r i) (c j)) (W i j) (W' i j))
    (q : Fin 4) (hq : ¬ IsZero (W q q)) (i k : Fin 4) :
    R (xor (if i = q then c q else r i) (if k = q then r q else c k))
      (feliminated W q i k) (feliminated W' q i k) := by
  have hd : R (xor (r q) (c q)) (fdiv (Elem.fromInt 1) (W q q)) (fdiv (Elem.fromInt 1) (W' q q)) :=
    (R.one.fdiv (h q q) hq).congr (by simp)
  have hrow : ∀ k, R (xor (c q) (if k = q then r q else c k)) (pivotRow W q k) (pivotRow W' q k) := fun k => by
    unfold pivotRow
    by_cases hk : k = q
    · rw [if_pos hk, if_pos hk, if_pos hk]
      exact (R.one.fmul hd).congr (by rw [Bool.false_xor, Bool.xor_comm])
    · rw [if_neg hk, if_neg hk, if_neg hk]
      exact ((h q k).fmul hd).congr (by cases r q <;> cases c q <;> cases c k <;> rfl)
  unfold feliminated
  by_cases hi : i = q
  · rw [if_pos hi, if_pos hi, if_pos hi]
    exact hrow k
  · rw [if_neg hi, if_neg hi, if_neg hi]
    refine R.fsub ?_ (((hrow k).fmul (h i q)).congr ?_)
    · by_cases hk : k = q
      · rw [if_pos hk, if_pos hk, if_pos hk]; exact .zero _
      · rw [if_neg hk, if_neg hk, if_neg hk]; exact h i k
    · by_cases hk : k = q
      · rw [if_pos hk]; cases r q <;> cases c q <;> cases r i <;> rfl
      · rw [if_neg hk]; cases c q <;> cases c k <;> cases r i <;> rfl

/-- The loop of `inverse` for a matrix and its mirror image -/
def InvRel (r c : Fin 4 → Bool) (n : Nat) (s s' : InvState T) : Prop :=
  s.indxc = s'.indxc ∧ s.indxr = s'.indxr ∧ s.ipiv = s'.ipiv ∧
  ((∃ S : Finset (Fin 4), S.card = n ∧ (∀ k, s.ipiv k = if k ∈ S then 1 else 0) ∧
    ∀ i j, R (xor (if i ∈ S then c i else r (rowPerm s.indxr s.indxc n i))
      (if j ∈ S then r (rowPerm s.indxr s.indxc n j) else c j)) (s.minv i j) (s'.minv i j)) ∨
   ((∃ k, 1 < s.ipiv k) ∧ ∃ i j, Elem.isNan (s.minv i j) = true ∧ Elem.isNan (s'.minv i j) = true))

theorem invStep_mirror (r c : Fin 4 → Bool) (i : Fin 4) (s s' : InvState T) (h : InvRel r c i s s') :
    Together (InvRel r c (i + 1)) (invStep i s) (invStep i s') := by
  obtain ⟨h1, h2, h3, ⟨S, hcard, hpiv, hmat⟩ | ⟨hbad, -⟩⟩ := h
  swap
  · have e1 := choosePivot_twice s.ipiv s.minv hbad
    have e2 := choosePivot_twice s'.ipiv s'.minv (h3 ▸ hbad)
    exact .inr ⟨_, by unfold invStep; rw [e1]; rfl, by unfold invStep; rw [e2]; rfl⟩
  have hS : ∀ k, s.ipiv k = 0 ↔ k ∉ S := fun k => by rw [hpiv]; split <;> simp_all
  rcases choosePivot_mirror s.ipiv (fun k => by rw [hpiv]; split <;> omega) hmat with
    ⟨p, p', e1, e2, hr, hc, -, hp⟩ | ⟨e, e1, e2⟩
  swap
  · exact .inr ⟨_, by unfold invStep; rw [e1]; rfl, by unfold invStep; rw [← h3, e2]; rfl⟩
  rw [h3] at e2
  rw [invStep_pivot i s p e1, invStep_pivot i s' p' e2, ← hr, ← hc]
  have hz := (hmat p.irow p.icol).isZero_iff
  by_cases hzero : IsZero (s.minv p.irow p.icol)
  · rw [if_pos (eq_zero_iff.2 hzero), if_pos (eq_zero_iff.2 (hz.1 hzero))]
    exact .inr ⟨_, rfl, rfl⟩
  rw [if_neg fun hc => hzero (eq_zero_iff.1 hc), if_neg fun hc => hzero (hz.2 (eq_zero_iff.1 hc))]
  refine .inl ⟨_, _, rfl, rfl, ?_, ?_, ?_, ?_⟩
  · funext k; simp [h1]
  · funext k; simp [h2]
  · funext k; simp [h3]
  set σ := rowPerm s.indxr s.indxc i with hσ
  have hσ' : rowPerm (fun k => if k = i then p.irow else s.indxr k)
      (fun k => if k = i then p.icol else s.indxc k) (i + 1) = σ * Equiv.swap p.irow p.icol := by
    simp only [rowPerm, i.isLt, dif_pos, Fin.eta, if_true]
    rw [rowPerm_congr (r' := s.indxr) (c' := s.indxc) i
      (fun j hj => if_neg fun e => by subst e; exact lt_irrefl _ hj)
      (fun j hj => if_neg fun e => by subst e; exact lt_irrefl _ hj)]
  set q := p.icol with hq
  set W : Mat44 T := fun i k => s.minv (Equiv.swap p.irow q i) k with hW
  set W' : Mat44 T := fun i k => s'.minv (Equiv.swap p.irow q i) k with hW'
  by_cases hqS : q ∈ S
  · -- the search found nothing but NaN, and takes a used pivot
    right
    rcases hp with ⟨-, hp⟩ | ⟨hp, hnan⟩
    · exact absurd hqS ((hS _).1 hp)
    refine ⟨⟨q, by simp [hpiv, hqS]⟩, ?_⟩
    obtain ⟨k0, hk0⟩ : ∃ k0, k0 ∉ S := by
      by_contra hall
      push Not at hall
      have : S = Finset.univ := Finset.eq_univ_iff_forall.2 hall
      rw [this] at hcard
      simp at hcard
      have := i.isLt
      omega
    have hn := hnan k0 k0 trivial ((hS _).2 hk0) ((hS _).2 hk0)
    have hn' : Elem.isNan (s'.minv k0 k0) = true := by rw [← (hmat k0 k0).1]; exact hn
    have hk0q : k0 ≠ q := fun e => hk0 (e ▸ hqS)
    have hrc : p.irow = q := by rw [hq, hp]
    have key : ∀ V : Mat44 T, Elem.isNan (V k0 k0) = true → Elem.isNan (feliminated V q k0 k0) = true := by
      intro V hV
      unfold feliminated
      rw [if_neg hk0q, if_neg hk0q]
      by_contra hc
      have := (fsub_nan (by simpa using hc)).1
      rw [hV] at this; cases this
    exact ⟨k0, k0, key _ (by simp [hW, hrc, hn]), key _ (by simp [hW', hrc, hn'])⟩
  · left
    refine ⟨insert q S, by rw [Finset.card_insert_of_notMem hqS, hcard], fun k => ?_, fun i' k => ?_⟩
    · simp only [hpiv, Finset.mem_insert]
      by_cases hk : k = q
      · subst hk; simp [hqS]
      · simp [hk]
    have hrS : p.irow ∉ S := by
      rcases hp with ⟨hp, -⟩ | ⟨hp, -⟩
      · exact (hS _).1 hp
      · have : p.irow = q := by rw [hq, hp]
        rw [this]; exact hqS
    show R (xor (if i' ∈ insert q S then c i' else r (rowPerm _ _ (i.val + 1) i'))
      (if k ∈ insert q S then r (rowPerm _ _ (i.val + 1) k) else c k)) _ _
    rw [hσ']
    set τ := σ * Equiv.swap p.irow q with hτ
    have hsw : ∀ k, k ∈ S → Equiv.swap p.irow q k = k := fun k hk =>
      Equiv.swap_apply_of_ne_of_ne (fun e => hrS (e ▸ hk)) (fun e => hqS (e ▸ hk))
    have hswS : ∀ k, Equiv.swap p.irow q k ∈ S ↔ k ∈ S := fun k => by
      constructor
      · intro hk
        have := hsw _ hk
        rw [Equiv.swap_apply_self] at this
        rw [this]; exact hk
      · intro hk; rw [hsw k hk]; exact hk
    have hτS : ∀ k, k ∈ S → τ k = σ k := fun k hk => by simp [hτ, hsw k hk]
    have hWR : ∀ i j, R (xor (if i ∈ S then c i else r (τ i)) (if j ∈ S then r (σ j) else c j))
        (W i j) (W' i j) := fun i j => by
      refine (hmat (Equiv.swap p.irow q i) j).congr ?_
      congr 1
      by_cases hi : i ∈ S
      · rw [if_pos ((hswS i).2 hi), if_pos hi, hsw i hi]
      · rw [if_neg fun h => hi ((hswS i).1 h), if_neg hi]
        simp [hτ]
    have hnz : ¬ IsZero (W q q) := by simpa [hW] using hzero
    refine (feliminated_mirror (r := fun i => if i ∈ S then c i else r (τ i))
      (c := fun j => if j ∈ S then r (σ j) else c j) hWR q hnz i' k).congr ?_
    simp only [hqS, if_false, Finset.mem_insert]
    congr 1
    · by_cases hi : i' = q
      · simp [hi]
      · simp [hi]
    · by_cases hk : k = q
      · simp [hk]
      · by_cases hkS : k ∈ S
        · simp [hk, hkS, hτS k hkS]
        · simp [hk, hkS]

/-- The inverse of the mirror image of a matrix: the same panic, or the mirror image of the inverse,
    unless NaN came up. -/
theorem inverse_mirror {U : Type} [As U T] {a b : Matrix4 U} {r c : Fin 4 → Bool}
    (h : ∀ i j, R (xor (r i) (c j)) (As.as_ (a.mat i j) : T) (As.as_ (b.mat i j))) :
    Together (fun x y : Matrix4 T => (∀ i j, R (xor (c i) (r j)) (x.mat i j) (y.mat i j)) ∨
      ((∃ i j, Elem.isNan (x.mat i j) = true) ∧ ∃ i j, Elem.isNan (y.mat i j) = true)) a.inverse b.inverse := by
  have hval : ∀ (u : Matrix4 U) (s : InvState T), for4 (⟨fun _ => 0, fun _ => 0, fun _ => 0,
      (toMat4f u : Matrix4 T).mat⟩ : InvState T) invStep = .ok s →
      u.inverse = .ok ⟨fun i k => s.minv i ((rowPerm s.indxr s.indxc 4).symm k)⟩ := by
    intro u s hs
    unfold Matrix4.inverse
    simp only []
    rw [hs, ok_bind, for4rev_ok fun j m => swapCols_value m (s.indxr j) (s.indxc j), ok_bind]
    simp only [rowPerm, Equiv.symm]
    rfl
  have herr : ∀ (u : Matrix4 U) e, for4 (⟨fun _ => 0, fun _ => 0, fun _ => 0,
      (toMat4f u : Matrix4 T).mat⟩ : InvState T) invStep = .error e → (u.inverse : Outcome (Matrix4 T)) = .error e := by
    intro u e hs
    unfold Matrix4.inverse
    simp only []
    rw [hs]; rfl
  rcases for4_together (P := InvRel r c) (f := invStep) (g := invStep)
    (s := (⟨fun _ => 0, fun _ => 0, fun _ => 0, (toMat4f a : Matrix4 T).mat⟩ : InvState T))
    (s' := ⟨fun _ => 0, fun _ => 0, fun _ => 0, (toMat4f b : Matrix4 T).mat⟩)
    ⟨rfl, rfl, rfl, .inl ⟨∅, rfl, fun k => by simp, fun i j => by
      simpa [rowPerm, toMat4f] using h i j⟩⟩ (invStep_mirror r c) with ⟨s, s', e1, e2, hs⟩ | ⟨e, e1, e2⟩
  · refine .inl ⟨_, _, hval a s e1, hval b s' e2, ?_⟩
    obtain ⟨h1, h2, h3, ⟨S, hcard, -, hmat⟩ | ⟨-, i, j, hn, hn'⟩⟩ := hs
    · left
      intro i j
      obtain rfl : S = Finset.univ := Finset.eq_univ_of_card S hcard
      have := hmat i ((rowPerm s.indxr s.indxc 4).symm j)
      simp only [Finset.mem_univ, if_true, Equiv.apply_symm_apply] at this
      rw [← h1, ← h2]
      exact this
    · right
      refine ⟨⟨i, rowPerm s.indxr s.indxc 4 j, by simpa using hn⟩,
        ⟨i, rowPerm s'.indxr s'.indxc 4 j, by simpa using hn'⟩⟩
  · exact .inr ⟨e, herr a e e1, herr b e e2⟩

end
end Pbrt
