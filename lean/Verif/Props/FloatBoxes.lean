import Verif.Props.Floats
import Mathlib.Data.EReal.Inv

/-!
# Boxes, `face_forward` and interpolation under IEEE rounding
  (the float parts of C44, C45, C47, C51, C58)
-/

namespace Pbrt

section
variable {T : Type} [Elem T] [As T T] [FloatFns T] [IEEE T]

local notation "z" => (Elem.fromInt 0 : T)
local notation "o" => (Elem.fromInt 1 : T)

attribute [local instance] ieee_lawful

/-! ### C45: growing with the box -/

theorem le_ext {a b : T} (h : Le a b) : ext a ≤ ext b := ((le_iff_ext _ _).1 h).2.2
theorem le_of_ext {a b : T} (ha : NotNan a) (hb : NotNan b) (h : ext a ≤ ext b) : Le a b :=
  (le_iff_ext _ _).2 ⟨ha, hb, h⟩

theorem fadd_mono {a b c d : T} (h : Le a b) (h' : Le c d) (n : NotNan (fadd a c)) (n' : NotNan (fadd b d)) :
    Le (fadd a c) (fadd b d) := by
  refine le_of_ext n n' ?_
  rw [fadd_ext' n, fadd_ext' n']
  exact rndE_mono (add_le_add (le_ext h) (le_ext h'))

theorem fsub_mono {a b c d : T} (h : Le a b) (h' : Le d c) (n : NotNan (fsub a c)) (n' : NotNan (fsub b d)) :
    Le (fsub a c) (fsub b d) := by
  refine le_of_ext n n' ?_
  rw [fsub_ext' n, fsub_ext' n']
  exact rndE_mono (EReal.sub_le_sub (le_ext h) (le_ext h'))

theorem fmul_mono {a b c d : T} (h : Le a b) (h' : Le c d) (ha : ¬ Lt a z) (hc : ¬ Lt c z)
    (n : NotNan (fmul a c)) (n' : NotNan (fmul b d)) : Le (fmul a c) (fmul b d) := by
  refine le_of_ext n n' ?_
  rw [fmul_ext' n, fmul_ext' n']
  have ha := not_lt_zero_iff.1 ha h.left
  have hc := not_lt_zero_iff.1 hc h'.left
  refine rndE_mono ?_
  exact (mul_le_mul_of_nonneg_right (le_ext h) hc).trans (mul_le_mul_of_nonneg_left (le_ext h') (ha.trans (le_ext h)))

/-- **C45**, with floats: the larger of two boxes has the larger sides, surface area and volume,
    unless one of the two is NaN. -/
theorem C45_float_mono (a b : Bounds3 T) (ha : a.WellFormed) (hs : a.Sub b) (va vb sa sb : T)
    (da db : Vector3 T) (hva : a.volume = .ok va) (hvb : b.volume = .ok vb)
    (hsa : a.surfaceArea = .ok sa) (hsb : b.surfaceArea = .ok sb)
    (hda : a.diagonal = .ok da) (hdb : b.diagonal = .ok db) :
    (NotNan va → NotNan vb → Le va vb) ∧ (NotNan sa → NotNan sb → Le sa sb) ∧
    ∀ i, NotNan (da.get i) → NotNan (db.get i) → Le (da.get i) (db.get i) := by
  have hsub := (Bounds3.sub_iff ha).1 hs
  have hd : ∀ i, NotNan (da.get i) → NotNan (db.get i) → Le (da.get i) (db.get i) := by
    obtain ⟨d1, h1, g1⟩ := fdiagonal a
    obtain ⟨d2, h2, g2⟩ := fdiagonal b
    obtain rfl : d1 = da := by simpa using h1.symm.trans hda
    obtain rfl : d2 = db := by simpa using h2.symm.trans hdb
    intro i
    rw [g1, g2]
    exact fsub_mono (hsub i).2 (hsub i).1
  have nn : ∀ i, ¬ Lt (da.get i) z := by
    obtain ⟨d1, h1, g1⟩ := C60_diagonal a ha
    obtain rfl : d1 = da := by simpa using h1.symm.trans hda
    exact fun i => (g1 i).1
  have hxy : ∀ i j, NotNan (fmul (da.get i) (da.get j)) → NotNan (fmul (db.get i) (db.get j)) →
      Le (fmul (da.get i) (da.get j)) (fmul (db.get i) (db.get j)) := by
    intro i j n n'
    have m := fmul_nan n
    have m' := fmul_nan n'
    exact fmul_mono (hd i m.1 m'.1) (hd j m.2.1 m'.2.1) (nn i) (nn j) n n'
  refine ⟨?_, ?_, hd⟩
  · simp only [Bounds3.volume, hda, hdb, ok_bind, fmul_ok, Except.ok.injEq] at hva hvb
    subst hva hvb
    intro n n'
    have m := fmul_nan n
    have m' := fmul_nan n'
    exact fmul_mono (hxy 0 1 m.1 m'.1) (hd 2 m.2.1 m'.2.1) (fmul_nn (nn 0) (nn 1)) (nn 2) n n'
  · simp only [Bounds3.surfaceArea, hda, hdb, ok_bind, fmul_ok, fadd_ok, Except.ok.injEq] at hsa hsb
    subst hsa hsb
    intro n n'
    have m := fmul_nan n
    have m' := fmul_nan n'
    have l := fadd_nan m.2.1
    have l' := fadd_nan m'.2.1
    have k := fadd_nan l.1
    have k' := fadd_nan l'.1
    have two : Le (Elem.fromInt 2 : T) (Elem.fromInt 2) := .refl (fromInt_small 2 (by norm_num)).1.notNan
    exact fmul_mono two
      (fadd_mono (fadd_mono (hxy 0 1 k.1 k'.1) (hxy 0 2 k.2.1 k'.2.1) l.1 l'.1) (hxy 1 2 l.2.1 l'.2.1) m.2.1 m'.2.1)
      two_nn
      (fadd_nn (fadd_nn (fmul_nn (nn 0) (nn 1)) (fmul_nn (nn 0) (nn 2))) (fmul_nn (nn 1) (nn 2))) n n'

example := C45_float_mono (⟨fp 0 0 0, fp 1 2 3⟩ : Bounds3 Float32.Model) ⟨fp 0 0 0, fp 2 2 4⟩ (by decide +kernel)
  ((Bounds3.sub_iff (by decide +kernel)).2 (by decide +kernel)) (f32 6) (f32 16) (f32 22) (f32 40) (fv 1 2 3) (fv 2 2 4)
  (by decide +kernel) (by decide +kernel) (by decide +kernel) (by decide +kernel) (by decide +kernel) (by decide +kernel)

/-! ### C44: expanding -/

theorem fexpand (b : Bounds3 T) (delta : T) : ∃ e, b.expand delta = .ok e ∧ ∀ i,
    e.pMin.get i = min2 (fsub (b.pMin.get i) delta) (fadd (b.pMax.get i) delta) ∧
    e.pMax.get i = max2 (fsub (b.pMin.get i) delta) (fadd (b.pMax.get i) delta) := by
  refine ⟨_, by simp only [Bounds3.expand, Point3.subVec, Point3.add, fsub_ok, fadd_ok, ok_bind, pure_ok]; rfl, ?_⟩
  intro i
  rw [new_min, new_max]
  fin_cases i <;> exact ⟨rfl, rfl⟩

theorem fadd_notNan {a b : T} (ha : NotNan a) (hb : NotNan b) (h : IsFinite a ∨ IsFinite b) :
    NotNan (fadd a b) := by
  refine (fadd_ext ha hb ?_ ?_).1 <;>
  · rintro ⟨h1, h2⟩
    rcases h with h | h
    · exact absurd h1 (by rw [h.ext]; simp)
    · exact absurd h2 (by rw [h.ext]; simp)

/-- adding something that is not negative -/
theorem le_fadd {a d : T} (hd : Le z d) (ha : NotNan a) (h : IsFinite a ∨ IsFinite d) : Le a (fadd a d) := by
  have n := fadd_notNan ha hd.right h
  refine le_of_ext ha n ?_
  rw [fadd_ext' n]
  conv_lhs => rw [← rndE_ext a]
  refine rndE_mono ?_
  have := (le_zero_iff.1 hd).2
  calc ext a = ext a + 0 := (add_zero _).symm
    _ ≤ ext a + ext d := add_le_add le_rfl this

theorem fsub_le {a d : T} (hd : Le z d) (ha : NotNan a) (h : IsFinite a ∨ IsFinite d) : Le (fsub a d) a := by
  have n := fsub_notNan ha hd.right h
  refine le_of_ext n ha ?_
  rw [fsub_ext' n]
  conv_rhs => rw [← rndE_ext a]
  refine rndE_mono ?_
  have := (le_zero_iff.1 hd).2
  calc ext a - ext d ≤ ext a - 0 := EReal.sub_le_sub le_rfl this
    _ = ext a := sub_zero _

/-- The corners of the expanded box, when `delta` is not negative -/
theorem fexpand_nonneg (b : Bounds3 T) (hb : b.WellFormed) (delta : T) (hd : Le z delta)
    (hf : IsFinite delta ∨ ∀ i, IsFinite (b.pMin.get i) ∧ IsFinite (b.pMax.get i)) :
    ∃ e, b.expand delta = .ok e ∧ (∀ i,
      Same (e.pMin.get i) (fsub (b.pMin.get i) delta) ∧ Same (e.pMax.get i) (fadd (b.pMax.get i) delta)) ∧
      ∀ i, Le (fsub (b.pMin.get i) delta) (b.pMin.get i) ∧ Le (b.pMax.get i) (fadd (b.pMax.get i) delta) := by
  obtain ⟨e, he, g⟩ := fexpand b delta
  have hle : ∀ i, Le (fsub (b.pMin.get i) delta) (b.pMin.get i) ∧ Le (b.pMax.get i) (fadd (b.pMax.get i) delta) := by
    intro i
    refine ⟨fsub_le hd (hb i).left ?_, le_fadd hd (hb i).right ?_⟩
    · rcases hf with hf | hf
      · exact .inr hf
      · exact .inl (hf i).1
    · rcases hf with hf | hf
      · exact .inr hf
      · exact .inl (hf i).2
  refine ⟨e, he, fun i => ?_, hle⟩
  rw [(g i).1, (g i).2]
  have : Le (fsub (b.pMin.get i) delta) (fadd (b.pMax.get i) delta) := (hle i).1.trans ((hb i).trans (hle i).2)
  exact ⟨min2_same this, max2_same this⟩

/-- **C44**, with floats: expanding by `delta >= 0` gives a well-formed box that contains the box,
    whatever is rounded.  (`delta` or the box must be finite: `inf - inf` is NaN.) -/
theorem C44_float_expand (b : Bounds3 T) (hb : b.WellFormed) (delta : T) (hd : Le z delta)
    (hf : IsFinite delta ∨ ∀ i, IsFinite (b.pMin.get i) ∧ IsFinite (b.pMax.get i)) :
    ∃ e, b.expand delta = .ok e ∧ e.WellFormed ∧ b.Sub e := by
  obtain ⟨e, he, g, l⟩ := fexpand_nonneg b hb delta hd hf
  refine ⟨e, he, fun i => ?_, (Bounds3.sub_iff hb).2 fun i => ?_⟩
  · exact (g i).1.le.trans ((l i).1.trans ((hb i).trans ((l i).2.trans (g i).2.ge)))
  · exact ⟨(g i).1.le.trans (l i).1, (l i).2.trans (g i).2.ge⟩

example := C44_float_expand (⟨fp (2 ^ 25) 0 1, fp (2 ^ 25) 1 4⟩ : Bounds3 Float32.Model) (by decide +kernel) (f32 1)
  (by decide +kernel) (.inl (by decide +kernel))

/-- **C44**, with floats: expanding by more, or expanding a larger box, gives a larger box. -/
theorem C44_float_expand_mono (b b' : Bounds3 T) (hb : b.WellFormed) (hb' : b'.WellFormed) (hs : b.Sub b')
    (d d' : T) (hd : Le z d) (hdd : Le d d')
    (hf : (IsFinite d ∧ IsFinite d') ∨ ∀ i, IsFinite (b'.pMin.get i) ∧ IsFinite (b'.pMax.get i))
    (e e' : Bounds3 T) (he : b.expand d = .ok e) (he' : b'.expand d' = .ok e') : e.Sub e' := by
  have hsub := (Bounds3.sub_iff hb).1 hs
  have hfb : IsFinite d ∨ ∀ i, IsFinite (b.pMin.get i) ∧ IsFinite (b.pMax.get i) := by
    rcases hf with hf | hf
    · exact .inl hf.1
    · refine .inr fun i => ?_
      have h1 := le_ext (hsub i).1
      have h2 := le_ext (hb i)
      have h3 := le_ext (hsub i).2
      rw [(hf i).1.ext] at h1
      rw [(hf i).2.ext] at h3
      have low := (EReal.bot_lt_coe (val (b'.pMin.get i))).trans_le h1
      have high := h3.trans_lt (EReal.coe_lt_top (val (b'.pMax.get i)))
      exact ⟨(finite_iff_ext (hb i).left).2 ⟨(h2.trans_lt high).ne, low.ne'⟩,
        (finite_iff_ext (hb i).right).2 ⟨high.ne, (low.trans_le h2).ne'⟩⟩
  obtain ⟨e1, h1, g1, l1⟩ := fexpand_nonneg b hb d hd hfb
  obtain ⟨e2, h2, g2, l2⟩ := fexpand_nonneg b' hb' d' (hd.trans hdd) (hf.imp (·.2) id)
  obtain rfl : e1 = e := by simpa using h1.symm.trans he
  obtain rfl : e2 = e' := by simpa using h2.symm.trans he'
  refine fun p hp i => ?_
  constructor
  · exact (g2 i).1.le.trans ((fsub_mono (hsub i).1 hdd (l2 i).1.left (l1 i).1.left).trans
      ((g1 i).1.ge.trans (hp i).1))
  · exact (hp i).2.trans ((g1 i).2.le.trans
      ((fadd_mono (hsub i).2 hdd (l1 i).2.right (l2 i).2.right).trans (g2 i).2.ge))

example := C44_float_expand_mono (⟨fp 0 0 0, fp 1 2 3⟩ : Bounds3 Float32.Model) ⟨fp 0 0 0, fp 2 2 4⟩ (by decide +kernel)
  (by decide +kernel) ((Bounds3.sub_iff (by decide +kernel)).2 (by decide +kernel)) (f32 1) (f32 3) (by decide +kernel)
  (by decide +kernel) (.inl (by decide +kernel)) ⟨fp (-1) (-1) (-1), fp 2 3 4⟩ ⟨fp (-3) (-3) (-3), fp 5 5 7⟩
  (by decide +kernel) (by decide +kernel)

/-! ### C51: face_forward -/

/-- `b` is minus `a` as a number -/
def Opp (a b : T) : Prop := NotNan a → NotNan b ∧ ext b = - ext a

theorem opp_neg (a : T) : Opp a (fneg a) := fun h => ⟨by show _ = _; rw [nan_fneg]; exact h, ext_fneg a⟩

theorem opp_mul {a a' : T} (b : T) (h : Opp a a') : Opp (fmul a b) (fmul a' b) := fun hn => by
  have m := fmul_nan hn
  obtain ⟨h1, h2⟩ := h m.1
  have := fmul_ext h1 m.2.1 (by rw [h2, EReal.neg_eq_zero_iff]; exact m.2.2.1)
    (by rw [h2]; intro hb; have := m.2.2.2 hb
        exact ⟨by rw [Ne, EReal.neg_eq_top_iff]; exact this.2, by rw [Ne, EReal.neg_eq_bot_iff]; exact this.1⟩)
  refine ⟨this.1, ?_⟩
  rw [this.2, fmul_ext' hn, h2, EReal.neg_mul, rndE_neg]

theorem opp_add {a a' b b' : T} (h : Opp a a') (h' : Opp b b') : Opp (fadd a b) (fadd a' b') := fun hn => by
  have m := fadd_nan hn
  obtain ⟨h1, h2⟩ := h m.1
  obtain ⟨h3, h4⟩ := h' m.2.1
  have := fadd_ext h1 h3 (by rw [h2, h4, EReal.neg_eq_top_iff, EReal.neg_eq_bot_iff]; exact m.2.2.2)
    (by rw [h2, h4, EReal.neg_eq_top_iff, EReal.neg_eq_bot_iff]; exact m.2.2.1)
  refine ⟨this.1, ?_⟩
  rw [this.2, fadd_ext' hn, h2, h4, ← rndE_neg]
  congr 1
  rw [EReal.neg_add, sub_eq_add_neg]
  · by_contra hc; push Not at hc; exact m.2.2.2 hc
  · by_contra hc; push Not at hc; exact m.2.2.1 hc

/-- **C51**, with floats: the result of `face_forward` is `v` or `-v`, it is `v` unless the computed
    dot product is negative, and its computed dot product with `w` is never negative, and NaN only
    if that of `v` and `w` is. -/
theorem C51_float_face_forward_vector (v w : Vector3 T) :
    ∃ r d e, v.faceForward w = .ok r ∧ v.dot w = .ok d ∧ r.dot w = .ok e ∧ ¬ Lt e z ∧
      (NotNan d → Le z e) ∧ (r = v ∨ v.neg = .ok r) ∧ (¬ Lt d z → r = v) := by
  have hdot : ∀ u : Vector3 T, u.dot w =
      .ok (fadd (fadd (fmul u.x w.x) (fmul u.y w.y)) (fmul u.z w.z)) := fun u => by
    simp only [Vector3.dot, fmul_ok, fadd_ok, ok_bind]
  have hneg : v.neg = .ok ⟨fneg v.x, fneg v.y, fneg v.z⟩ := by
    simp only [Vector3.neg, fneg_ok, ok_bind, pure_ok]
  by_cases h : Lt (fadd (fadd (fmul v.x w.x) (fmul v.y w.y)) (fmul v.z w.z)) z
  · have hr : v.faceForward w = .ok ⟨fneg v.x, fneg v.y, fneg v.z⟩ := by
      simp only [Vector3.faceForward, hdot, ok_bind]
      rw [if_pos (show Elem.lt _ _ = true from h), hneg]
    have hopp := opp_add (opp_add (opp_mul w.x (opp_neg v.x)) (opp_mul w.y (opp_neg v.y)))
      (opp_mul w.z (opp_neg v.z))
    have hl := (lt_iff_ext _ _).1 h
    have hle : Le z (fadd (fadd (fmul (fneg v.x) w.x) (fmul (fneg v.y) w.y)) (fmul (fneg v.z) w.z)) := by
      obtain ⟨h1, h2⟩ := hopp hl.1
      refine le_zero_iff.2 ⟨h1, ?_⟩
      rw [h2, EReal.neg_nonneg]
      have := hl.2.2
      rw [ext_zero] at this
      exact this.le
    exact ⟨_, _, _, hr, hdot v, hdot _, fun hc => (lt_iff.1 hc).2 hle, fun _ => hle, .inr hneg,
      fun hc => absurd h hc⟩
  · have hr : v.faceForward w = .ok v := by
      simp only [Vector3.faceForward, hdot, ok_bind]
      rw [if_neg (show ¬ Elem.lt _ _ = true from h)]; rfl
    exact ⟨_, _, _, hr, hdot v, hdot v, h, fun hn => notLt_le hn finite_zero.notNan h, .inl rfl, fun _ => rfl⟩

/-- **C51**, with floats, for normals. -/
theorem C51_float_face_forward_normal (v w : Normal3 T) :
    ∃ r d e, v.faceForward w = .ok r ∧ v.dot w = .ok d ∧ r.dot w = .ok e ∧ ¬ Lt e z ∧
      (NotNan d → Le z e) ∧ (r = v ∨ v.neg = .ok r) ∧ (¬ Lt d z → r = v) := by
  have hdot : ∀ u : Normal3 T, u.dot w =
      .ok (fadd (fadd (fmul u.x w.x) (fmul u.y w.y)) (fmul u.z w.z)) := fun u => by
    simp only [Normal3.dot, fmul_ok, fadd_ok, ok_bind]
  have hneg : v.neg = .ok ⟨fneg v.x, fneg v.y, fneg v.z⟩ := by
    simp only [Normal3.neg, fneg_ok, ok_bind, pure_ok]
  by_cases h : Lt (fadd (fadd (fmul v.x w.x) (fmul v.y w.y)) (fmul v.z w.z)) z
  · have hr : v.faceForward w = .ok ⟨fneg v.x, fneg v.y, fneg v.z⟩ := by
      simp only [Normal3.faceForward, hdot, ok_bind]
      rw [if_pos (show Elem.lt _ _ = true from h), hneg]
    have hopp := opp_add (opp_add (opp_mul w.x (opp_neg v.x)) (opp_mul w.y (opp_neg v.y)))
      (opp_mul w.z (opp_neg v.z))
    have hl := (lt_iff_ext _ _).1 h
    have hle : Le z (fadd (fadd (fmul (fneg v.x) w.x) (fmul (fneg v.y) w.y)) (fmul (fneg v.z) w.z)) := by
      obtain ⟨h1, h2⟩ := hopp hl.1
      refine le_zero_iff.2 ⟨h1, ?_⟩
      rw [h2, EReal.neg_nonneg]
      have := hl.2.2
      rw [ext_zero] at this
      exact this.le
    exact ⟨_, _, _, hr, hdot v, hdot _, fun hc => (lt_iff.1 hc).2 hle, fun _ => hle, .inr hneg,
      fun hc => absurd h hc⟩
  · have hr : v.faceForward w = .ok v := by
      simp only [Normal3.faceForward, hdot, ok_bind]
      rw [if_neg (show ¬ Elem.lt _ _ = true from h)]; rfl
    exact ⟨_, _, _, hr, hdot v, hdot v, h, fun hn => notLt_le hn finite_zero.notNan h, .inl rfl, fun _ => rfl⟩

/-! ### C58: the ends of an interpolation -/

theorem one_sub_zero : fsub (o : T) z = o := by
  rw [fsub_eq_add]
  refine fadd_isZero one_not_zero ?_
  rw [isZero_iff, val_fneg, val_zero, neg_zero]
  exact ⟨fneg_finite finite_zero, rfl⟩

theorem one_sub_one : fsub (o : T) o = z := by
  rw [fsub_eq_add, fadd_comm']
  exact fneg_fadd finite_one

/-- **C58**, with floats: `lerp(0, a, b)` is `a` and `lerp(1, a, b)` is `b` (up to the sign of
    zero). -/
theorem C58_float_ends (a b : T) (ha : IsFinite a) (hb : IsFinite b) :
    (∃ r, lerp z a b = .ok r ∧ Same r a) ∧ (∃ r, lerp o a b = .ok r ∧ Same r b) := by
  constructor
  · refine ⟨_, by simp only [lerp, fsub_ok, fmul_ok, fadd_ok, ok_bind]; rfl, ?_⟩
    rw [one_sub_zero, fone_mul]
    exact (fadd_zero_same ha.notNan (fmul_isZero zero_isZero hb)).1
  · refine ⟨_, by simp only [lerp, fsub_ok, fmul_ok, fadd_ok, ok_bind]; rfl, ?_⟩
    rw [one_sub_one, fone_mul, fadd_comm']
    exact (fadd_zero_same hb.notNan (fmul_isZero zero_isZero ha)).1

example := C58_float_ends (f32 (-16777217)) (f32 5) (by decide +kernel) (by decide +kernel)

/-! ### C47: offset -/

/-- Different floats have a difference that is not zero (gradual underflow). -/
theorem sub_ne_zero_of_lt {a b : T} (ha : IsFinite a) (hb : IsFinite b) (h : Lt a b) :
    (2 : ℝ) ^ (grid (IEEE.fmt T)).emin ≤ (grid (IEEE.fmt T)).RN (val b - val a) := by
  have hl := (lt_iff_val ha hb).1 h
  have rep : ∀ c : T, ∃ n : ℤ, val c = n * 2 ^ (grid (IEEE.fmt T)).emin := by
    intro c
    obtain ⟨m, e, _, he, hv⟩ := (up_canon c).rep
    obtain ⟨k, hk⟩ := zpow_mul_of_le he
    exact ⟨m * k, by show uval _ = _; rw [hv, hk]; push_cast; ring⟩
  obtain ⟨m, hm⟩ := rep a
  obtain ⟨n, hn⟩ := rep b
  have hpos := two_zpow_pos (grid (IEEE.fmt T)).emin
  have hmn : m < n := by
    rw [hm, hn] at hl
    exact_mod_cast lt_of_mul_lt_mul_right hl hpos.le
  have hge : (2 : ℝ) ^ (grid (IEEE.fmt T)).emin ≤ val b - val a := by
    rw [hm, hn, ← sub_mul]
    have : (1 : ℝ) ≤ (n : ℝ) - m := by
      have : m + 1 ≤ n := hmn
      have : (m : ℝ) + 1 ≤ n := by exact_mod_cast this
      linarith
    nlinarith
  refine le_trans (le_of_eq ?_) (RN_mono hge)
  refine (RN_rep ⟨1, _, ?_, le_refl _, by simp⟩).symm
  simpa using one_le_pow₀ (by norm_num : (1 : ℤ) ≤ 2)

/-- The value of a rounded number that is finite -/
theorem val_of_rnd {a : T} {x : ℝ} (h : Elem.isNan a = false ∧ ext a = rnd (IEEE.fmt T) x) (hf : IsFinite a) :
    val a = (grid (IEEE.fmt T)).RN x := by
  have h2 := h.2
  rw [hf.ext] at h2
  unfold rnd at h2
  split_ifs at h2
  · exact absurd h2 (EReal.coe_ne_top _)
  · exact absurd h2 (EReal.coe_ne_bot _)
  · exact_mod_cast h2

theorem foffset (b : Bounds3 T) (p : Point3 T) : ∃ v, b.offset p = .ok v ∧ ∀ i, v.get i =
    if Lt (b.pMin.get i) (b.pMax.get i) then
      fdiv (fsub (p.get i) (b.pMin.get i)) (fsub (b.pMax.get i) (b.pMin.get i))
    else fsub (p.get i) (b.pMin.get i) := by
  let f (i : Fin 3) : T := if Elem.lt (b.pMin.get i) (b.pMax.get i) then
      fdiv (fsub (p.get i) (b.pMin.get i)) (fsub (b.pMax.get i) (b.pMin.get i))
    else fsub (p.get i) (b.pMin.get i)
  refine ⟨⟨f 0, f 1, f 2⟩, ?_, forall_axis.2 ⟨rfl, rfl, rfl⟩⟩
  simp only [Bounds3.offset, Point3.sub, fsub_ok, fdiv_ok, ok_bind, pure_ok, Elem.gt, f, Point3.get]
  by_cases hx : Elem.lt b.pMin.x b.pMax.x = true <;> by_cases hy : Elem.lt b.pMin.y b.pMax.y = true <;>
    by_cases hz : Elem.lt b.pMin.z b.pMax.z = true <;> simp only [hx, hy, hz, if_true, if_false, Bool.false_eq_true]

/-- **C47**, with floats: `offset` maps the points of a finite box to the unit cube, the lower
    corner to 0 and the upper corner to 1, on every axis on which the side of the box does not
    overflow. -/
theorem C47_float_offset (b : Bounds3 T) (hb : ∀ i, IsFinite (b.pMin.get i) ∧ IsFinite (b.pMax.get i))
    (d : Vector3 T) (hd : b.diagonal = .ok d) (p : Point3 T) (hp : b.inside p = true) :
    ∃ v, b.offset p = .ok v ∧ ∀ i, IsFinite (d.get i) →
      Le z (v.get i) ∧ Le (v.get i) o ∧
      (Same (p.get i) (b.pMin.get i) → Same (v.get i) z) ∧
      (Lt (b.pMin.get i) (b.pMax.get i) → Same (p.get i) (b.pMax.get i) → Same (v.get i) o) := by
  obtain ⟨v, hv, g⟩ := foffset b p
  refine ⟨v, hv, fun i hi => ?_⟩
  have hp := (inside_iff b p).1 hp i
  obtain ⟨fa, fb⟩ := hb i
  rw [g]
  have hdi : d.get i = fsub (b.pMax.get i) (b.pMin.get i) := by
    obtain ⟨d1, h1, g1⟩ := fdiagonal b
    obtain rfl : d1 = d := by simpa using h1.symm.trans hd
    exact g1 i
  rw [hdi] at hi
  generalize b.pMin.get i = x at *
  generalize b.pMax.get i = y at *
  generalize p.get i = q at *
  have fq : IsFinite q := by
    have h1 := le_ext hp.1
    have h2 := le_ext hp.2
    rw [fa.ext] at h1
    rw [fb.ext] at h2
    exact (finite_iff_ext hp.1.right).2
      ⟨(h2.trans_lt (EReal.coe_lt_top _)).ne, ((EReal.bot_lt_coe _).trans_le h1).ne'⟩
  have l1 := (le_iff_val fa fq).1 hp.1
  have l2 := (le_iff_val fq fb).1 hp.2
  have rq := fsub_rnd fq fa
  have ry := fsub_rnd fb fa
  have fr : IsFinite (fsub q x) := by
    refine (finite_iff_ext rq.1).2 ?_
    have h1 : 0 ≤ ext (fsub q x) := by rw [rq.2]; exact rnd_nonneg (sub_nonneg.2 l1)
    have h2 : ext (fsub q x) ≤ ext (fsub y x) := by
      rw [rq.2, ry.2]; exact rnd_mono (sub_le_sub_right l2 _)
    rw [hi.ext] at h2
    exact ⟨(h2.trans_lt (EReal.coe_lt_top _)).ne, (lt_of_lt_of_le EReal.bot_lt_zero h1).ne'⟩
  have vq := val_of_rnd rq fr
  have vy := val_of_rnd ry hi
  have n0 : 0 ≤ val (fsub q x) := by rw [vq]; exact RN_nonneg (sub_nonneg.2 l1)
  have n1 : val (fsub q x) ≤ val (fsub y x) := by rw [vq, vy]; exact RN_mono (sub_le_sub_right l2 _)
  by_cases hlt : Lt x y
  · rw [if_pos hlt]
    have hpos : 0 < val (fsub y x) := by
      rw [vy]; exact (two_zpow_pos _).trans_le (sub_ne_zero_of_lt fa fb hlt)
    have rd := fdiv_rnd fr hi hpos.ne'
    have q0 : 0 ≤ val (fsub q x) / val (fsub y x) := div_nonneg n0 hpos.le
    have q1 : val (fsub q x) / val (fsub y x) ≤ 1 := (div_le_one hpos).2 n1
    have e1 : rnd (IEEE.fmt T) 1 = ext (o : T) := by
      have := rnd_val (finite_one (T := T))
      rw [val_one] at this
      rw [this, finite_one.ext, val_one]
    refine ⟨le_zero_iff.2 ⟨rd.1, by rw [rd.2]; exact rnd_nonneg q0⟩, ?_, fun hs => ?_, fun _ hs => ?_⟩
    · refine le_of_ext rd.1 finite_one.notNan ?_
      rw [rd.2, ← e1]; exact rnd_mono q1
    · have hs := (eq_iff_val fq fa).1 hs
      refine (eq_iff_ext _ _).2 ⟨rd.1, finite_zero.notNan, ?_⟩
      rw [rd.2, vq, hs, sub_self, RN_zero, zero_div, rnd_zero, ext_zero]
    · have hs := (eq_iff_val fq fb).1 hs
      refine (eq_iff_ext _ _).2 ⟨rd.1, finite_one.notNan, ?_⟩
      have : val (fsub q x) = val (fsub y x) := by rw [vq, vy, hs]
      rw [rd.2, this, div_self hpos.ne', e1]
  · rw [if_neg hlt]
    have hxy : val x = val y := le_antisymm (l1.trans l2) (not_lt.1 fun hc => hlt ((lt_iff_val fa fb).2 hc))
    have hv0 : val (fsub q x) = 0 := by
      rw [vq, show val q - val x = 0 by linarith, RN_zero]
    refine ⟨(le_iff_val finite_zero fr).2 (by rw [hv0, val_zero]),
      (le_iff_val fr finite_one).2 (by rw [hv0, val_one]; norm_num),
      fun _ => (eq_iff_val fr finite_zero).2 (by rw [hv0, val_zero]), fun h => absurd h hlt⟩

example := C47_float_offset (⟨fp 0 1 2, fp 4 3 2⟩ : Bounds3 Float32.Model) (by decide +kernel) (fv 4 2 0)
  (by decide +kernel) (fp 1 3 2) (by decide +kernel)

end

/-! ### Instances and limits -/

/-- the float `1 / n` -/
def frac32 (n : Int) : Float32.Model := .div (f32 1) (f32 n)

/-- A limit of **C58**: with floats, interpolation may leave the interval on either side, even if
    it is a single point. -/
theorem C58_float_between_refuted :
    (∃ r, lerp (frac32 5) (f32 13) (f32 13) = .ok r ∧ Lt (f32 13) r) ∧
    (∃ r, lerp (frac32 3) (f32 15) (f32 15) = .ok r ∧ Lt r (f32 15)) ∧
    Le (f32 0) (frac32 5) ∧ Le (frac32 5) (f32 1) ∧ Le (f32 0) (frac32 3) ∧ Le (frac32 3) (f32 1) :=
  ⟨⟨_, rfl, by decide +kernel⟩, ⟨_, rfl, by decide +kernel⟩, by decide +kernel⟩

/-- A limit of **C47**: if a side of the box overflows, the offset of the upper corner is NaN. -/
theorem C47_float_overflow : ∃ b : Bounds3 Float32.Model, b.WellFormed ∧
    (∀ i, IsFinite (b.pMin.get i) ∧ IsFinite (b.pMax.get i)) ∧
    b.offset b.pMax = .ok ⟨nan32, nan32, nan32⟩ :=
  ⟨⟨fp (-2 ^ 127) (-2 ^ 127) (-2 ^ 127), fp (2 ^ 127) (2 ^ 127) (2 ^ 127)⟩, by decide +kernel⟩

/-- A limit of **C44**: expanding by infinity, a box that reaches to infinity becomes NaN. -/
theorem C44_float_infinite : ∃ b : Bounds3 Float32.Model, b.WellFormed ∧
    ∃ e, b.expand inf32 = .ok e ∧ ¬ e.WellFormed :=
  ⟨⟨⟨inf32, f32 0, f32 0⟩, ⟨inf32, f32 1, f32 1⟩⟩, by decide +kernel, _, rfl, by decide +kernel⟩

/-- An expansion that is rounded: `2^25 + 1` is not a float. -/
example : let b : Bounds3 Float32.Model := ⟨fp (2 ^ 25) 0 1, fp (2 ^ 25) 1 4⟩
    b.WellFormed ∧ Le (f32 0) (f32 1) ∧ IsFinite (f32 1) ∧
    b.expand (f32 1) = .ok ⟨fp (2 ^ 25) (-1) 0, fp (2 ^ 25) 2 5⟩ := by decide +kernel

example : let b : Bounds3 Float32.Model := ⟨fp 0 1 2, fp 4 3 2⟩
    (∀ i, IsFinite (b.pMin.get i) ∧ IsFinite (b.pMax.get i)) ∧ b.inside (fp 1 3 2) = true ∧
    b.diagonal = .ok (fv 4 2 0) ∧ (∀ i, IsFinite ((fv 4 2 0).get i)) ∧
    b.offset (fp 1 3 2) = .ok ⟨frac32 4, f32 1, f32 0⟩ := by decide +kernel

/-- A dot product that is negative, though rounded -/
example : (fv 1 2 3).faceForward (fv (-1) 0 0) = .ok (fv (-1) (-2) (-3)) := by decide +kernel

/-- Two boxes, and their measures -/
example : let a : Bounds3 Float32.Model := ⟨fp 0 0 0, fp 1 2 3⟩
    let b : Bounds3 Float32.Model := ⟨fp 0 0 0, fp 2 2 4⟩
    a.WellFormed ∧ a.volume = .ok (f32 6) ∧ b.volume = .ok (f32 16) ∧ Le (f32 6) (f32 16) := by decide +kernel

end Pbrt
