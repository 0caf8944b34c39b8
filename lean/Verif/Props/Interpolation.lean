import Verif.Proof.NoOverflow
import Verif.Props.Offsets
import Verif.Props.Literals

/-!
# C94: interpolating between floats

C58 says what `lerp` does in exact arithmetic, and that with floats it may leave the interval
between its ends; C69 bounds the error of one result. Here: for a weight in `[0, 1]` the result never overflows, it
keeps the order and the sign of the ends, and it leaves the interval by a few units of rounding at most.
-/

namespace Pbrt

open Spec
open Float.Model (Format)

section
variable {T : Type} [Elem T] [As T T] [FloatFns T] [IEEE T]

local notation "𝔽" => IEEE.fmt T
local notation "ε" => unitRoundoff T
local notation "η" => tiny T
local notation "z" => (Elem.fromInt 0 : T)
local notation "o" => (Elem.fromInt 1 : T)

theorem finite_of_rnd {f : T} {x : ℝ} (h : Elem.isNan f = false ∧ ext f = rnd 𝔽 x)
    (hx : |(grid 𝔽).RN x| < big 𝔽) : IsFinite f ∧ val f = (grid 𝔽).RN x := by
  refine finite_of_ext h.1 ?_
  rw [h.2]
  unfold rnd
  rw [abs_lt] at hx
  rw [if_neg (by linarith), if_neg (by linarith)]

/-- A float times a weight `s` of `[0, 1]` is a float, at most as large as `s` times the largest float
    after rounding. -/
theorem weighted {s a : T} (hs : IsFinite s) (ha : IsFinite a) (h0 : 0 ≤ val s) (h1 : val s ≤ 1) :
    IsFinite (fmul s a) ∧ |val (fmul s a)| ≤
      (grid 𝔽).RN (val s * ((1 - 2 ^ (-((grid 𝔽).p : ℤ))) * 2 ^ (emax 𝔽 + (grid 𝔽).p))) := by
  have hM : (1 - (2 : ℝ) ^ (-((grid 𝔽).p : ℤ))) * 2 ^ (emax 𝔽 + (grid 𝔽).p) =
      (2 ^ (𝔽).mantissaBits - 1) * 2 ^ emax 𝔽 := by
    show (1 - (2 : ℝ) ^ (-((𝔽).mantissaBits : ℤ))) * 2 ^ (emax 𝔽 + (𝔽).mantissaBits) = _
    rw [zpow_add₀ (by norm_num), zpow_natCast, zpow_neg, zpow_natCast]
    field_simp
  rw [hM]
  have hv := val_le_max a
  have hm : |val s * val a| ≤ val s * ((2 ^ (𝔽).mantissaBits - 1) * 2 ^ emax 𝔽) := by
    rw [abs_mul, abs_of_nonneg h0]
    exact mul_le_mul_of_nonneg_left hv h0
  have hspan : InSpan T (val s * val a) := by
    rw [C70_range]
    refine hm.trans (mul_le_of_le_one_left ((abs_nonneg _).trans hv) h1)
  obtain ⟨f1, f2⟩ := finite_of_rnd (fmul_rnd hs ha) (inSpan_lt_big hspan)
  refine ⟨f1, ?_⟩
  rw [f2, abs_le]
  rw [abs_le] at hm
  refine ⟨?_, RN_mono hm.2⟩
  rw [← RN_neg]
  exact RN_mono hm.1

theorem weights {t : T} (h0 : Le z t) (h1 : Le t o) :
    IsFinite t ∧ 0 ≤ val t ∧ val t ≤ 1 ∧ IsFinite (fsub o t) ∧ 0 ≤ val (fsub o t) ∧ val (fsub o t) ≤ 1 ∧
      val (fsub o t) = (grid 𝔽).RN (1 - val t) := by
  have ft := finite_between finite_zero finite_one h0 h1
  have t0 := (le_iff_val finite_zero ft).1 h0
  have t1 := (le_iff_val ft finite_one).1 h1
  rw [val_zero] at t0
  rw [val_one] at t1
  have e1 : (grid 𝔽).RN 1 = 1 := by rw [← val_one (T := T)]; exact RN_val _
  have hspan : InSpan T (1 - val t) :=
    ⟨z, o, finite_zero, finite_one, by rw [val_zero]; linarith, by rw [val_one]; linarith⟩
  obtain ⟨f1, f2⟩ := finite_of_rnd (f := fsub o t) (x := 1 - val t) (by rw [← val_one (T := T)]; exact fsub_rnd finite_one ft)
    (inSpan_lt_big hspan)
  refine ⟨ft, t0, t1, f1, ?_, ?_, f2⟩
  · rw [f2]; exact RN_nonneg (by linarith)
  · rw [f2, ← e1]; exact RN_mono (by linarith)

theorem wide_format : (grid 𝔽).emin ≤ -((grid 𝔽).p : ℤ) ∧ 0 ≤ emax 𝔽 ∧ (grid 𝔽).emin < emax 𝔽 := by
  have h := IEEE.hwide (T := T)
  have hp : 2 ≤ (𝔽).mantissaBits := by unfold Format.mantissaBits; have := (𝔽).hm; omega
  have h' : ((𝔽).mantissaBits : ℤ) < 2 ^ ((𝔽).exponentBits - 1) := by exact_mod_cast h
  show (𝔽).minExponent ≤ -((𝔽).mantissaBits : ℤ) ∧ 0 ≤ emax 𝔽 ∧ (𝔽).minExponent < emax 𝔽
  unfold Format.minExponent emax
  omega

/-- **C94**: with a weight in `[0, 1]`, `lerp` of finite floats is finite: it neither overflows nor is
    it NaN, however large the ends are. -/
theorem C94_finite (t a b : T) (h0 : Le z t) (h1 : Le t o) (ha : IsFinite a) (hb : IsFinite b) :
    ∃ c, lerp t a b = .ok c ∧ IsFinite c := by
  refine ⟨fadd (fmul (fsub o t) a) (fmul t b), by simp only [lerp, fsub_ok, fmul_ok, fadd_ok, ok_bind], ?_⟩
  obtain ⟨ft, t0, t1, fs, s0, s1, hs⟩ := weights h0 h1
  obtain ⟨f1, b1⟩ := weighted fs ha s0 s1
  obtain ⟨f2, b2⟩ := weighted ft hb t0 t1
  obtain ⟨w1, w2, w3⟩ := wide_format (T := T)
  have hsum := RN_weights (g := grid 𝔽) t0 t1 w1
  rw [← hs] at hsum
  obtain ⟨p1, p2, p3⟩ := RN_part (g := grid 𝔽) (rep_val (fsub o t)) s0 s1 w2
  obtain ⟨q1, q2, q3⟩ := RN_part (g := grid 𝔽) (rep_val t) t0 t1 w2
  have rep1 : (grid 𝔽).RN 1 = 1 := by rw [← val_one (T := T)]; exact RN_val _
  refine (finite_of_rnd (fadd_rnd f1 f2) ?_).1
  have hB := two_zpow_pos (emax 𝔽 + (grid 𝔽).p)
  have u0 := two_zpow_pos (-((grid 𝔽).p : ℤ))
  have key : |val (fmul (fsub o t) a)| + |val (fmul t b)| <
      (1 - 2 ^ (-((grid 𝔽).p : ℤ)) / 2) * 2 ^ (emax 𝔽 + (grid 𝔽).p) := by
    refine (add_le_add b1 b2).trans_lt ?_
    have half : ∀ x : ℝ, x ≤ 1 / 2 →
        (grid 𝔽).RN (x * ((1 - 2 ^ (-((grid 𝔽).p : ℤ))) * 2 ^ (emax 𝔽 + (grid 𝔽).p))) ≤
          (1 - 2 ^ (-((grid 𝔽).p : ℤ))) / 2 * 2 ^ (emax 𝔽 + (grid 𝔽).p) :=
      fun x hx => RN_half_max (by omega) hx
    generalize hg1 : (grid 𝔽).RN (val (fsub o t) * _) = x1 at *
    generalize hg2 : (grid 𝔽).RN (val t * _) = x2 at *
    generalize (2 : ℝ) ^ (emax 𝔽 + (grid 𝔽).p) = B at *
    generalize (2 : ℝ) ^ (-((grid 𝔽).p : ℤ)) = u at *
    by_cases c1 : 1 / 2 < val (fsub o t)
    · have := p3 c1
      rcases t0.eq_or_lt with ht | ht
      · rw [← ht] at q1
        nlinarith
      · have := q2 ht
        nlinarith
    · by_cases c2 : 1 / 2 < val t
      · have := q3 c2
        rcases s0.eq_or_lt with ht | ht
        · rw [← ht] at p1
          nlinarith
        · have := p2 ht
          nlinarith
      · have k1 := half _ (not_lt.1 c1)
        have k2 := half _ (not_lt.1 c2)
        rw [hg1] at k1
        rw [hg2] at k2
        nlinarith
  have h3 := RN_below (g := grid 𝔽) w3.le key
  have h4 := RN_below (g := grid 𝔽) (w := -(val (fmul (fsub o t) a) + val (fmul t b))) w3.le
    (lt_of_le_of_lt (by linarith [neg_abs_le (val (fmul (fsub o t) a)), neg_abs_le (val (fmul t b))]) key)
  have h5 := (RN_mono (g := grid 𝔽) (add_le_add (le_abs_self (val (fmul (fsub o t) a)))
    (le_abs_self (val (fmul t b))))).trans_lt h3
  rw [RN_neg] at h4
  rw [abs_lt]
  unfold big
  exact ⟨neg_lt.1 h4, h5⟩

/-- **C94**: `lerp` with a weight in `[0, 1]` keeps the order of the ends. -/
theorem C94_mono (t a b a' b' c c' : T) (h0 : Le z t) (h1 : Le t o)
    (ha : IsFinite a) (hb : IsFinite b) (ha' : IsFinite a') (hb' : IsFinite b')
    (haa : Le a a') (hbb : Le b b') (hc : lerp t a b = .ok c) (hc' : lerp t a' b' = .ok c') : Le c c' := by
  obtain ⟨d, hd, fd⟩ := C94_finite t a b h0 h1 ha hb
  obtain ⟨d', hd', fd'⟩ := C94_finite t a' b' h0 h1 ha' hb'
  obtain rfl : d = c := by simpa using hd.symm.trans hc
  obtain rfl : d' = c' := by simpa using hd'.symm.trans hc'
  obtain ⟨ft, t0, t1, fs, s0, s1, hs⟩ := weights h0 h1
  simp only [lerp, fsub_ok, fmul_ok, fadd_ok, ok_bind, Except.ok.injEq] at hc hc'
  have key : ∀ s x y : T, IsFinite s → 0 ≤ val s → val s ≤ 1 → IsFinite x → IsFinite y → Le x y →
      Le (fmul s x) (fmul s y) := by
    intro s x y f0 g0 g1 fx fy h
    have n := fmul_rnd f0 fx
    have n' := fmul_rnd f0 fy
    refine le_of_ext n.1 n'.1 ?_
    rw [n.2, n'.2]
    exact rnd_mono (mul_le_mul_of_nonneg_left ((le_iff_val fx fy).1 h) g0)
  subst hc hc'
  exact fadd_mono (key _ _ _ fs s0 s1 ha ha' haa) (key _ _ _ ft t0 t1 hb hb' hbb) fd.notNan fd'.notNan

/-- **C94**: it keeps the sign. -/
theorem C94_sign (t a b c : T) (h0 : Le z t) (h1 : Le t o) (ha : IsFinite a) (hb : IsFinite b)
    (hc : lerp t a b = .ok c) :
    (Le z a → Le z b → Le z c) ∧ (Le a z → Le b z → Le c z) := by
  obtain ⟨d, hd, fd⟩ := C94_finite t z z h0 h1 finite_zero finite_zero
  have hz : val d = 0 := by
    obtain ⟨ft, t0, t1, fs, s0, s1, hs⟩ := weights h0 h1
    simp only [lerp, fsub_ok, fmul_ok, fadd_ok, ok_bind, Except.ok.injEq] at hd
    have k : ∀ s : T, IsFinite s → IsZero (fmul s z) := fun s f => by
      rw [fmul_comm']; exact fmul_isZero zero_isZero f
    have k1 := isZero_iff.1 (k _ fs)
    have k2 := isZero_iff.1 (k _ ft)
    obtain ⟨n1, n2⟩ := fadd_rnd k1.1 k2.1
    rw [k1.2, k2.2, add_zero, rnd_zero] at n2
    subst hd
    exact (finite_of_ext (x := 0) n1 n2).2
  obtain ⟨c', hc', fc⟩ := C94_finite t a b h0 h1 ha hb
  obtain rfl : c' = c := by simpa using hc'.symm.trans hc
  constructor
  · intro h2 h3
    have := (le_iff_val fd fc).1 (C94_mono t z z a b d c' h0 h1 finite_zero finite_zero ha hb h2 h3 hd hc)
    exact (le_iff_val finite_zero fc).2 (by rw [val_zero]; linarith)
  · intro h2 h3
    have := (le_iff_val fc fd).1 (C94_mono t a b z z c' d h0 h1 ha hb finite_zero finite_zero h2 h3 hc hd)
    exact (le_iff_val fc finite_zero).2 (by rw [val_zero]; linarith)

/-- **C94**: the result lies between the ends up to about three units of rounding of the larger one. -/
theorem C94_near (hT : FineGrained T) (t a b c : T) (h0 : Le z t) (h1 : Le t o) (ha : IsFinite a) (hb : IsFinite b)
    (hc : lerp t a b = .ok c) {M : ℝ} (hA : |val a| ≤ M) (hB : |val b| ≤ M) :
    min (val a) (val b) - (301 / 100 * ε * M + 201 / 100 * η) ≤ val c ∧
    val c ≤ max (val a) (val b) + (301 / 100 * ε * M + 201 / 100 * η) := by
  obtain ⟨c', hc', fc⟩ := C94_finite t a b h0 h1 ha hb
  obtain rfl : c' = c := by simpa using hc'.symm.trans hc
  obtain ⟨ft, t0, t1, -⟩ := weights h0 h1
  have := abs_le.1 (lerp_error hT hc fc t0 t1 hA hB)
  have k1 : min (val a) (val b) ≤ val a + val t * (val b - val a) := by
    rcases le_total (val a) (val b) with h | h
    · rw [min_eq_left h]; nlinarith
    · rw [min_eq_right h]; nlinarith
  have k2 : val a + val t * (val b - val a) ≤ max (val a) (val b) := by
    rcases le_total (val a) (val b) with h | h
    · rw [max_eq_right h]; nlinarith
    · rw [max_eq_left h]; nlinarith
  exact ⟨by linarith, by linarith⟩

/-- **C94**: so are the points between two finite points, -/
theorem C94_point (t : T) (p q : Point3 T) (h0 : Le z t) (h1 : Le t o)
    (hp : ∀ i, IsFinite (p.get i)) (hq : ∀ i, IsFinite (q.get i)) :
    ∃ r, Point3.lerp t p q = .ok r ∧ (∀ i, IsFinite (r.get i)) ∧
      ∀ i, lerp t (p.get i) (q.get i) = .ok (r.get i) := by
  have k : ∀ i, ∃ r, Point3.lerp t p q = .ok r ∧ lerp t (p.get i) (q.get i) = .ok (r.get i) := by
    intro i
    simp only [Point3.lerp, Point3.mul, Point3.add, Vector3.ofPoint, fsub_ok, fmul_ok, fadd_ok, ok_bind,
      pure_ok, Except.ok.injEq, lerp]
    refine ⟨_, rfl, ?_⟩
    fin_cases i <;> rfl
  obtain ⟨r, hr, -⟩ := k 0
  have k' : ∀ i, lerp t (p.get i) (q.get i) = .ok (r.get i) := by
    intro i
    obtain ⟨r', hr', h⟩ := k i
    obtain rfl : r = r' := by simpa using hr.symm.trans hr'
    exact h
  refine ⟨r, hr, fun i => ?_, k'⟩
  obtain ⟨c, hc, fc⟩ := C94_finite t (p.get i) (q.get i) h0 h1 (hp i) (hq i)
  obtain rfl : c = r.get i := by simpa using hc.symm.trans (k' i)
  exact fc

/-- **C94**: and the points of a finite box. -/
theorem C94_box (b : Bounds3 T) (t : Point3 T) (h : ∀ i, Le z (t.get i) ∧ Le (t.get i) o)
    (hb : ∀ i, IsFinite (b.pMin.get i) ∧ IsFinite (b.pMax.get i)) :
    ∃ q, b.lerp t = .ok q ∧ ∀ i, IsFinite (q.get i) := by
  obtain ⟨x, hx, fx⟩ := C94_finite _ _ _ (h 0).1 (h 0).2 (hb 0).1 (hb 0).2
  obtain ⟨y, hy, fy⟩ := C94_finite _ _ _ (h 1).1 (h 1).2 (hb 1).1 (hb 1).2
  obtain ⟨w, hw, fw⟩ := C94_finite _ _ _ (h 2).1 (h 2).2 (hb 2).1 (hb 2).2
  refine ⟨⟨x, y, w⟩, ?_, ?_⟩
  · have hx : lerp t.x b.pMin.x b.pMax.x = .ok x := hx
    have hy : lerp t.y b.pMin.y b.pMax.y = .ok y := hy
    have hw : lerp t.z b.pMin.z b.pMax.z = .ok w := hw
    simp only [Bounds3.lerp, hx, hy, hw, ok_bind, pure_ok]
  · intro i
    fin_cases i
    exacts [fx, fy, fw]

end

/-! ### Limits -/

/-- A limit of **C94**: a larger weight need not give a result nearer to the larger end. -/
theorem C94_weight_refuted : ∃ s t a b c d : Float32.Model, Le (f32 0) s ∧ Lt s t ∧ Le t (f32 1) ∧ Le a b ∧
    lerp s a b = .ok c ∧ lerp t a b = .ok d ∧ Lt d c :=
  ⟨frac32 5, f32 1, f32 13, f32 13, _, _, by decide +kernel, by decide +kernel, by decide +kernel,
    by decide +kernel, rfl, rfl, by decide +kernel⟩

/-- A limit of **C94**: with a weight outside `[0, 1]` the result may be infinite, and it may be NaN
    although the two ends are equal. -/
theorem C94_outside_refuted :
    (∃ a b c : Float32.Model, IsFinite a ∧ IsFinite b ∧ lerp (f32 2) a b = .ok c ∧ NotNan c ∧ ¬ IsFinite c) ∧
    (∃ a : Float32.Model, IsFinite a ∧ lerp (f32 4) a a = .ok nan32) :=
  ⟨⟨f32 (-2 ^ 127), f32 (2 ^ 127), _, by decide +kernel, by decide +kernel, rfl, by decide +kernel, by decide +kernel⟩,
    ⟨f32 (2 ^ 127), by decide +kernel, by decide +kernel⟩⟩

/-- the largest finite `f32` -/
def max32' : Float32.Model := f32 ((2 ^ 24 - 1) * 2 ^ 104)

/-- between the largest float and itself, with a weight that is not exactly representable -/
example : Le (f32 0) (frac32 3) ∧ Le (frac32 3) (f32 1) ∧ IsFinite max32' ∧
    ∃ c, lerp (frac32 3) max32' max32' = .ok c ∧ IsFinite c :=
  ⟨by decide +kernel, by decide +kernel, by decide +kernel,
    C94_finite _ _ _ (by decide +kernel) (by decide +kernel) (by decide +kernel) (by decide +kernel)⟩

/-- without the weight the same sum overflows -/
example : ∃ c, Elem.add max32' max32' = .ok c ∧ ¬ IsFinite c := ⟨_, rfl, by decide +kernel⟩

example : Le (f32 (-3)) (f32 5) ∧ Le (f32 7) (f32 7) ∧
    ∃ c c', lerp (frac32 3) (f32 (-3)) (f32 7) = .ok c ∧ lerp (frac32 3) (f32 5) (f32 7) = .ok c' ∧ Lt c c' :=
  ⟨by decide +kernel, by decide +kernel, _, _, rfl, rfl, by decide +kernel⟩

example := C94_mono (frac32 3) (f32 (-3)) (f32 7) (f32 5) (f32 7) _ _ (by decide +kernel) (by decide +kernel)
  (by decide +kernel) (by decide +kernel) (by decide +kernel) (by decide +kernel) (by decide +kernel) (by decide +kernel)
  rfl rfl
example := (C94_sign (frac32 3) (f32 3) (f32 7) _ (by decide +kernel) (by decide +kernel) (by decide +kernel)
  (by decide +kernel) rfl).1 (by decide +kernel) (by decide +kernel)
open UnitTests in
example := C94_near C83_constants.1 (frac32 3) (f32 (-3)) (f32 7) _ (by decide +kernel) (by decide +kernel)
  (by decide +kernel) (by decide +kernel) rfl (M := 7)
  (by rw [val_eq, show ratVal (up (f32 (-3))) = -3 by decide +kernel]; norm_num [abs_le])
  (by rw [val_eq, show ratVal (up (f32 7)) = 7 by decide +kernel]; norm_num)
example := C94_point (frac32 3) (fp 1 2 3) ⟨max32', f32 0, f32 5⟩ (by decide +kernel) (by decide +kernel)
  (by decide +kernel) (by decide +kernel)
example := C94_box ⟨⟨f32 0, max32', f32 1⟩, ⟨max32', max32', f32 2⟩⟩ ⟨frac32 3, frac32 3, f32 1⟩ (by decide +kernel)
  (by decide +kernel)

end Pbrt
