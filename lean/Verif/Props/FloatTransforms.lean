import Verif.Proof.Frame
import Verif.Spec.FloatTransforms
import Verif.Props.FloatError
import Verif.Props.Mirror

/-!
# C78: transforms of floats

Transforming a finite vector by the identity, a translation or a scale has no error beyond one
rounding, `has_scale` is right up to rounding, and scaling there and back is accurate.  NaN and
infinite entries are not noticed by `has_scale`.
-/

namespace Pbrt

section
variable {T : Type} [Elem T] [As T T] [FloatFns T] [IEEE T]

local notation "𝔽" => IEEE.fmt T
local notation "ε" => unitRoundoff T
local notation "η" => tiny T
local notation "z" => (Elem.fromInt 0 : T)
local notation "o" => (Elem.fromInt 1 : T)

theorem fadd_zero_right (a : T) {b : T} (hb : IsZero b) : R false (fadd a b) a := by
  by_cases ha : IsZero a
  · refine R.of_isZero ?_ ha
    rw [isZero_iff] at *
    have h := fadd_rnd ha.1 hb.1
    rw [ha.2, hb.2, add_zero] at h
    refine finite_of_ext h.1 ?_
    rw [h.2, ← val_zero (T := T)]
    exact rnd_val finite_zero
  · rw [fadd_isZero ha hb]
    exact .refl _

theorem fadd_zero_left {a : T} (ha : IsZero a) (b : T) : R false (fadd a b) b := by
  rw [fadd_comm']; exact fadd_zero_right b ha

theorem sum_first (p : T) {q r : T} (hq : IsZero q) (hr : IsZero r) : R false (fadd (fadd p q) r) p :=
  (fadd_zero_right _ hr).trans (fadd_zero_right _ hq)

theorem sum_second {p : T} (q : T) {r : T} (hp : IsZero p) (hr : IsZero r) : R false (fadd (fadd p q) r) q :=
  (fadd_zero_right _ hr).trans (fadd_zero_left hp _)

theorem sum_third {p q : T} (r : T) (hp : IsZero p) (hq : IsZero q) : R false (fadd (fadd p q) r) r :=
  fadd_zero_left ((fadd_zero_right p hq).isZero_iff.2 hp) _

theorem ftransform (v : Vector3 T) (t : Transform T) : ∃ w, v.transform t = .ok w ∧ ∀ i : Fin 3,
    w.get i = fadd (fadd (fmul (t.m.mat i.castSucc 0) v.x) (fmul (t.m.mat i.castSucc 1) v.y))
      (fmul (t.m.mat i.castSucc 2) v.z) := by
  refine ⟨⟨_, _, _⟩, by simp only [Vector3.transform, IEEE.as_eq, fmul_ok, fadd_ok, ok_bind, pure_ok]; rfl, ?_⟩
  exact forall_axis.2 ⟨rfl, rfl, rfl⟩

/-- Transforming a finite vector by a matrix which is zero off the diagonal -/
theorem transform_diagonal (v : Vector3 T) (hv : ∀ i, IsFinite (v.get i)) (t : Transform T)
    (ht : ∀ i j : Fin 3, i ≠ j → IsZero (t.m.mat i.castSucc j.castSucc)) :
    ∃ w, v.transform t = .ok w ∧
      ∀ i : Fin 3, R false (w.get i) (fmul (t.m.mat i.castSucc i.castSucc) (v.get i)) := by
  obtain ⟨w, hw, hwi⟩ := ftransform v t
  refine ⟨w, hw, fun i => ?_⟩
  rw [hwi]
  have hz : ∀ j : Fin 3, i ≠ j → IsZero (fmul (t.m.mat i.castSucc j.castSucc) (v.get j)) :=
    fun j hj => fmul_isZero (ht i j hj) (hv j)
  fin_cases i
  · exact sum_first _ (hz 1 (by decide)) (hz 2 (by decide))
  · exact sum_second _ (hz 0 (by decide)) (hz 2 (by decide))
  · exact sum_third _ (hz 0 (by decide)) (hz 1 (by decide))

/-- **C78**: a unit vector is transformed to a column of the matrix, without error. -/
theorem C78_columns (t : Transform T) (ht : ∀ i j : Fin 3, IsFinite (t.m.mat i.castSucc j.castSucc)) (j : Fin 3) :
    ∃ w, (Vector3.axis j : Vector3 T).transform t = .ok w ∧
      ∀ i : Fin 3, Same (w.get i) (t.m.mat i.castSucc j.castSucc) := by
  obtain ⟨w, hw, hwi⟩ := ftransform (Vector3.axis j) t
  refine ⟨w, hw, fun i => ?_⟩
  have hz : ∀ k : Fin 3, IsZero (fmul (t.m.mat i.castSucc k.castSucc) z) := fun k => by
    rw [fmul_comm']; exact fmul_isZero zero_isZero (ht i k)
  have hone : ∀ k : Fin 4, R false (fmul (t.m.mat i.castSucc k) o) (t.m.mat i.castSucc k) := fun k => by
    rw [fmul_one]; exact .refl _
  have hR : R false (w.get i) (t.m.mat i.castSucc j.castSucc) := by
    rw [hwi]
    fin_cases j
    · refine R.trans (s := false) (t := false) ?_ (hone 0)
      exact sum_first (fmul (t.m.mat i.castSucc 0) o) (hz 1) (hz 2)
    · refine R.trans (s := false) (t := false) ?_ (hone 1)
      exact sum_second (fmul (t.m.mat i.castSucc 1) o) (hz 0) (hz 2)
    · refine R.trans (s := false) (t := false) ?_ (hone 2)
      exact sum_third (fmul (t.m.mat i.castSucc 2) o) (hz 0) (hz 1)
  exact (alike_R.2 hR).elim id fun h => absurd (ht i j).notNan h.2

example := C78_columns (⟨⟨fun i j => f32 (i.val * 7 - j.val)⟩, Matrix4.one _⟩ : Transform Float32.Model) (by decide +kernel) 1

/-- **C78**: transforming a finite vector by a transform for which `is_identity` holds gives the same
    vector. -/
theorem C78_identity (v : Vector3 T) (hv : ∀ i, IsFinite (v.get i)) (t : Transform T)
    (ht : t.isIdentity = true) : ∃ w, v.transform t = .ok w ∧ ∀ i, Same (w.get i) (v.get i) := by
  rw [C36_is_identity] at ht
  obtain ⟨w, hw, hwi⟩ := transform_diagonal v hv t fun i j hij => by
    have := ht i.castSucc j.castSucc
    rw [show (Matrix4.one T).mat i.castSucc j.castSucc = z by fin_cases i <;> fin_cases j <;> simp_all [Matrix4.one]] at this
    exact eq_zero_iff.1 this
  refine ⟨w, hw, fun i => ?_⟩
  have h1 : t.m.mat i.castSucc i.castSucc = o := by
    have := ht i.castSucc i.castSucc
    rw [show (Matrix4.one T).mat i.castSucc i.castSucc = o by fin_cases i <;> simp [Matrix4.one]] at this
    refine (R.of_same this).cases.elim id fun h => absurd h.2 one_not_zero
  have := hwi i
  rw [h1, fone_mul] at this
  exact (alike_R.2 this).elim id fun h => absurd (hv i).notNan h.2

example := C78_identity (fv 1 0 (-3)) (by decide +kernel) ⟨Matrix4.one _, Matrix4.one _⟩ (by decide +kernel)

/-- The block of `translate` that acts on vectors -/
theorem ftranslate (d : Vector3 T) : ∃ t, Transform.translate d = .ok t ∧
    ∀ i j : Fin 3, t.m.mat i.castSucc j.castSucc = if i = j then o else z := by
  refine ⟨_, by simp only [Transform.translate, fneg_ok, ok_bind, pure_ok]; rfl, fun i j => ?_⟩
  fin_cases i <;> fin_cases j <;> rfl

/-- **C78**: translating, by any vector, does not change a finite vector. -/
theorem C78_translate (v : Vector3 T) (hv : ∀ i, IsFinite (v.get i)) (d : Vector3 T) :
    ∃ t w, Transform.translate d = .ok t ∧ v.transform t = .ok w ∧ ∀ i, Same (w.get i) (v.get i) := by
  obtain ⟨t, ht, hm⟩ := ftranslate d
  obtain ⟨w, hw, hwi⟩ := transform_diagonal v hv t fun i j hij => by
    rw [hm, if_neg hij]; exact zero_isZero
  refine ⟨t, w, ht, hw, fun i => ?_⟩
  have := hwi i
  rw [hm, if_pos rfl, fone_mul] at this
  exact (alike_R.2 this).elim id fun h => absurd (hv i).notNan h.2

example := C78_translate (fv 1 0 (-3)) (by decide +kernel) ⟨f32 4, f32 5, negZero32⟩

/-- The matrices of `scale` -/
theorem fscale (x y w : T) : ∃ t, Transform.scale x y w = .ok t ∧
    (∀ i j : Fin 3, t.m.mat i.castSucc j.castSucc = if i = j then ![x, y, w] i else z) ∧
    ∀ i j : Fin 3, t.mInv.mat i.castSucc j.castSucc = if i = j then fdiv o (![x, y, w] i) else z := by
  refine ⟨_, by simp only [Transform.scale, fdiv_ok, ok_bind, pure_ok]; rfl, fun i j => ?_, fun i j => ?_⟩ <;>
  fin_cases i <;> fin_cases j <;> rfl

/-- **C78**: scaling a finite vector, by any factors, multiplies each component once. -/
theorem C78_scale (v : Vector3 T) (hv : ∀ i, IsFinite (v.get i)) (x y s : T) :
    ∃ t w, Transform.scale x y s = .ok t ∧ v.transform t = .ok w ∧
      ∀ i, ∃ p, Elem.mul (![x, y, s] i) (v.get i) = .ok p ∧ Alike (w.get i) p := by
  obtain ⟨t, ht, hm, -⟩ := fscale x y s
  obtain ⟨w, hw, hwi⟩ := transform_diagonal v hv t fun i j hij => by
    rw [hm, if_neg hij]; exact zero_isZero
  refine ⟨t, w, ht, hw, fun i => ⟨_, fmul_ok _ _, alike_R.2 ?_⟩⟩
  have := hwi i
  rwa [hm, if_pos rfl] at this

example := C78_scale (fv 1 0 (-3)) (by decide +kernel) (f32 4) inf32 (f32 0)

/-- **C78**: scaling a vector there and back.  `x` is the factor of axis `i`. -/
theorem C78_round_trip (v w u : Vector3 T) (t : Transform T) (x y s : T) (ht : Transform.scale x y s = .ok t)
    (hw : v.transform t = .ok w) (hu : w.transform t.inverse = .ok u) (i : Fin 3) (hf : ∀ i, IsFinite (u.get i)) :
    |val (u.get i) - val (v.get i)| ≤ ((1 + ε) ^ 3 - 1) * |val (v.get i)| +
      η * (1 + η + |1 / val (![x, y, s] i)| + |val (![x, y, s] i) * val (v.get i)|) * (1 + ε) ^ 3 := by
  obtain ⟨t', ht', hm, hm'⟩ := fscale x y s
  obtain rfl : t' = t := by rw [ht] at ht'; cases ht'; rfl
  have fin3 : ∀ {a b c d e f : T}, IsFinite (fadd (fadd (fmul a b) (fmul c d)) (fmul e f)) →
      (IsFinite a ∧ IsFinite c ∧ IsFinite e) ∧ IsFinite b ∧ IsFinite d ∧ IsFinite f := fun h => by
    obtain ⟨h1, h2⟩ := fadd_finite h
    obtain ⟨h3, h4⟩ := fadd_finite h1
    exact ⟨⟨(fmul_finite h3).1, (fmul_finite h4).1, (fmul_finite h2).1⟩, (fmul_finite h3).2, (fmul_finite h4).2,
      (fmul_finite h2).2⟩
  have hwf : ∀ j, IsFinite (w.get j) := by
    obtain ⟨u', hu', hui⟩ := ftransform w t'.inverse
    obtain rfl : u' = u := by rw [hu] at hu'; cases hu'; rfl
    have h0 := hf 0
    rw [hui] at h0
    exact forall_axis.2 (fin3 h0).2
  have hvf : ∀ j, IsFinite (v.get j) := by
    obtain ⟨u', hu', hui⟩ := ftransform v t'
    obtain rfl : u' = w := by rw [hw] at hu'; cases hu'; rfl
    have h0 := hwf 0
    rw [hui] at h0
    exact forall_axis.2 (fin3 h0).2
  obtain ⟨w', hw', hwi⟩ := transform_diagonal v hvf t' fun i j hij => by
    rw [hm, if_neg hij]; exact zero_isZero
  obtain rfl : w' = w := by rw [hw] at hw'; cases hw'; rfl
  obtain ⟨u', hu', hui⟩ := transform_diagonal w' hwf t'.inverse fun i j hij => by
    show IsZero (t'.mInv.mat _ _)
    rw [hm', if_neg hij]; exact zero_isZero
  obtain rfl : u' = u := by rw [hu] at hu'; cases hu'; rfl
  have h1 := hwi i
  have h2 := hui i
  rw [show t'.inverse.m = t'.mInv from rfl] at h2
  rw [hm', if_pos rfl] at h2
  rw [hm, if_pos rfl] at h1
  generalize ![x, y, s] i = f at *
  have vR : ∀ {a b : T}, R false a b → IsFinite a → IsFinite b ∧ val a = val b := fun h ha =>
    ⟨h.finite_iff.1 ha, by
      have := h.2
      rw [ha.ext, (h.finite_iff.1 ha).ext] at this
      exact (EReal.coe_injective this).symm⟩
  obtain ⟨f1, e1⟩ := vR h1 (hwf i)
  obtain ⟨f2, e2⟩ := vR h2 (hf i)
  obtain ⟨fr, -⟩ := fmul_finite f2
  obtain ⟨ff, -⟩ := fmul_finite f1
  have h0 : val f ≠ 0 := fun h0 => by
    obtain ⟨s, hs⟩ := isZero_iff.2 ⟨ff, h0⟩
    obtain ⟨m, e, hm, ho⟩ := up_one_sign (T := T)
    rw [isFinite_iff, up_fdiv, hs, ho] at fr
    exact fr
  have w1 : Within T 1 η (val (fdiv o f)) (1 / val f) |1 / val f| := by
    have := (Within.exact (T := T) (1 / val f)).round' (w := val (fdiv o f)) (by
      have := fdiv_err finite_one ff h0 fr
      rwa [val_one] at this)
    simpa using this
  rw [e2]
  have w2 := Within.prod f1
  rw [← e1] at w2
  have w3 := (w1.fmul w2 f2).err
  rw [← abs_mul, show 1 / val f * (val f * val (v.get i)) = val (v.get i) by field_simp] at w3
  refine w3.trans (le_of_eq ?_)
  ring

example := C78_round_trip (fv 1 0 (-3)) (fv 4 0 (-6)) (fv 1 0 (-3)) _ (f32 4) (f32 16777217) (f32 2) rfl (by decide +kernel)
  (by decide +kernel) 0 (by decide +kernel)

/-- The float literals `0.999` and `1.001` -/
structure Lits (T : Type) [Elem T] [As T T] [FloatFns T] [IEEE T] : Prop where
  f999 : IsFinite (FloatFns.lit999 : T)
  f1001 : IsFinite (FloatFns.lit1001 : T)
  v999 : |val (FloatFns.lit999 : T) - 999 / 1000| ≤ unitRoundoff T
  v1001 : |val (FloatFns.lit1001 : T) - 1001 / 1000| ≤ unitRoundoff T

theorem notOne_near (L : Lits T) {l : T} (hf : IsFinite l) :
    (|val l - 1| ≤ 1 / 1000 - ε → notOne l = false) ∧ (1 / 1000 + ε < |val l - 1| → notOne l = true) := by
  have h1 := abs_le.1 L.v999
  have h2 := abs_le.1 L.v1001
  unfold notOne Elem.gt
  constructor
  · intro h
    have h := abs_le.1 h
    rw [Bool.or_eq_false_iff, ← Bool.not_eq_true, ← Bool.not_eq_true, lt_iff_val hf L.f999, lt_iff_val L.f1001 hf]
    constructor <;> linarith
  · intro h
    rw [Bool.or_eq_true, lt_iff_val hf L.f999, lt_iff_val L.f1001 hf]
    rcases lt_abs.1 h with h | h
    · right; linarith
    · left; linarith

/-- `not_one` of the computed square of a length -/
theorem notOne_len (U : Usual T) (L : Lits T) {a b c : T} (ha : IsFinite a) (hb : IsFinite b) (hc : IsFinite c)
    (S : ℝ) (hS : S = val a ^ 2 + val b ^ 2 + val c ^ 2) :
    (|S - 1| ≤ 1 / 1000 - 5 * ε → notOne (fadd (fadd (fmul a a) (fmul b b)) (fmul c c)) = false) ∧
    (1 / 1000 + 5 * ε < |S - 1| → notOne (fadd (fadd (fmul a a) (fmul b b)) (fmul c c)) = true) := by
  have he := eps_pos (T := T)
  have he1 := U.eps
  have hη := U.tiny_le
  have hS0 : 0 ≤ S := by rw [hS]; positivity
  have err : IsFinite (fadd (fadd (fmul a a) (fmul b b)) (fmul c c)) →
      |val (fadd (fadd (fmul a a) (fmul b b)) (fmul c c)) - S| ≤ 3004 / 1000 * ε * S + 1 / 100 * ε := fun hf => by
    have h := (within_dot3 hf).err
    have h3 : (1 + ε) ^ 3 ≤ 1 + 3004 / 1000 * ε := by
      have h2 : ε * ε ≤ 1 / 1000 * ε := mul_le_mul_of_nonneg_right he1 he.le
      have h3 := mul_le_mul_of_nonneg_left h2 he.le
      have : (1 + ε) ^ 3 = 1 + 3 * ε + 3 * (ε * ε) + ε * (ε * ε) := by ring
      linarith
    simp only [← pow_two, abs_sq, ← hS] at h
    have h4 : 3 * η * (1 + ε) ^ 3 ≤ 1 / 100 * ε := by
      have : (1 + ε) ^ 3 ≤ 2 := by linarith
      calc 3 * η * (1 + ε) ^ 3 ≤ 3 * η * 2 := mul_le_mul_of_nonneg_left this (by have := tiny_pos (T := T); linarith)
        _ ≤ _ := by linarith
    have h5 := mul_le_mul_of_nonneg_right (show (1 + ε) ^ 3 - 1 ≤ 3004 / 1000 * ε by linarith) hS0
    linarith
  constructor
  · intro h
    obtain ⟨h1, h2⟩ := abs_le.1 h
    have ha2 := sq_nonneg (val a)
    have hb2 := sq_nonneg (val b)
    have hc2 := sq_nonneg (val c)
    have hsq : ∀ {c : T}, IsFinite c → val c ^ 2 ≤ 2 → IsFinite (fmul c c) ∧ |val (fmul c c)| ≤ 21 / 10 :=
      fun {c} hc h => by
        have hf : IsFinite (fmul c c) :=
          U.finite (fmul_rnd hc hc) (by rw [← pow_two, abs_of_nonneg (sq_nonneg _)]; linarith)
        have e := fmul_err hf
        rw [← pow_two, abs_of_nonneg (sq_nonneg (val c))] at e
        have e2 := mul_le_mul_of_nonneg_left h he.le
        have e3 := sq_nonneg (val c)
        obtain ⟨e4, e5⟩ := abs_le.1 e
        exact ⟨hf, abs_le.2 ⟨by linarith, by linarith⟩⟩
    obtain ⟨fa, va⟩ := hsq ha (by linarith)
    obtain ⟨fb, vb⟩ := hsq hb (by linarith)
    obtain ⟨fc, vc⟩ := hsq hc (by linarith)
    have hab := abs_add_le (val (fmul a a)) (val (fmul b b))
    have fab : IsFinite (fadd (fmul a a) (fmul b b)) := U.finite (fadd_rnd fa fb) (by linarith)
    have eab := fadd_err fab
    have hm := mul_le_mul_of_nonneg_left (show |val (fmul a a) + val (fmul b b)| ≤ 5 by linarith) he.le
    have vab : |val (fadd (fmul a a) (fmul b b))| ≤ 5 := by
      have := abs_sub_abs_le_abs_sub (val (fadd (fmul a a) (fmul b b))) (val (fmul a a) + val (fmul b b))
      linarith
    have hf : IsFinite (fadd (fadd (fmul a a) (fmul b b)) (fmul c c)) := U.finite (fadd_rnd fab fc) (by
      have := abs_add_le (val (fadd (fmul a a) (fmul b b))) (val (fmul c c))
      linarith)
    refine (notOne_near L hf).1 ?_
    obtain ⟨e1, e2⟩ := abs_le.1 (err hf)
    have := mul_le_mul_of_nonneg_left (show S ≤ 1001 / 1000 by linarith) he.le
    exact abs_le.2 ⟨by linarith, by linarith⟩
  · intro h
    by_cases hf : IsFinite (fadd (fadd (fmul a a) (fmul b b)) (fmul c c))
    · refine (notOne_near L hf).2 ?_
      obtain ⟨e1, e2⟩ := abs_le.1 (err hf)
      rcases lt_abs.1 h with h | h
      · refine lt_abs.2 (.inl ?_)
        have h7 : 0 ≤ (S - (1001 / 1000 + 5 * ε)) * (1 - 3004 / 1000 * ε) :=
          mul_nonneg (by linarith) (by linarith)
        nlinarith
      · refine lt_abs.2 (.inr ?_)
        have := mul_le_mul_of_nonneg_left (show S ≤ 1 by linarith) he.le
        linarith
    · obtain ⟨l, h1, -, h3⟩ := C60_len_sq (⟨a, b, c⟩ : Vector3 T)
      have h4 := h3 (forall_axis.2 ⟨ha.notNan, hb.notNan, hc.notNan⟩)
      simp only [Vector3.lenSq, fmul_ok, fadd_ok, ok_bind, Except.ok.injEq] at h1
      subst h1
      unfold Le at h4
      rw [le_iff_ext, ext_zero] at h4
      have ht : ext (fadd (fadd (fmul a a) (fmul b b)) (fmul c c)) = ⊤ := by
        by_contra hn
        refine hf ((finite_iff_ext h4.2.1).2 ?_)
        refine ⟨hn, fun hb => ?_⟩
        rw [hb] at h4
        exact absurd h4.2.2 (by simp)
      unfold notOne Elem.gt
      rw [Bool.or_eq_true, lt_iff_ext FloatFns.lit1001, ht, L.f1001.ext]
      exact .inr ⟨L.f1001.notNan, h4.2.1, EReal.coe_lt_top _⟩

theorem hasScale_ok (t : Transform T) (ht : ∀ i j : Fin 3, IsFinite (t.m.mat i.castSucc j.castSucc)) :
    ∃ l : Fin 3 → T, t.hasScale = .ok (notOne (l 0) || notOne (l 1) || notOne (l 2)) ∧
      ∀ j, ∃ a b c : T, IsFinite a ∧ IsFinite b ∧ IsFinite c ∧ t.stretch j = val a ^ 2 + val b ^ 2 + val c ^ 2 ∧
        l j = fadd (fadd (fmul a a) (fmul b b)) (fmul c c) := by
  choose w hw hs using C78_columns t ht
  refine ⟨fun j => fadd (fadd (fmul (w j).x (w j).x) (fmul (w j).y (w j).y)) (fmul (w j).z (w j).z), ?_, fun j => ?_⟩
  · have h0 : (⟨o, z, z⟩ : Vector3 T).transform t = .ok (w 0) := hw 0
    have h1 : (⟨z, o, z⟩ : Vector3 T).transform t = .ok (w 1) := hw 1
    have h2 : (⟨z, z, o⟩ : Vector3 T).transform t = .ok (w 2) := hw 2
    simp only [Transform.hasScale, h0, h1, h2, ok_bind, Vector3.lenSq, fmul_ok, fadd_ok, pure_ok]
  · have hv : ∀ i, IsFinite ((w j).get i) ∧ val ((w j).get i) = val (t.m.mat i.castSucc j.castSucc) := fun i => by
      have h := hs j i
      have hf : IsFinite ((w j).get i) := (R.of_same h).finite_iff.2 (ht i j)
      exact ⟨hf, (eq_iff_val hf (ht i j)).1 h⟩
    refine ⟨_, _, _, (hv 0).1, (hv 1).1, (hv 2).1, ?_, rfl⟩
    rw [(hv 0).2, (hv 1).2, (hv 2).2, Transform.stretch, Fin.sum_univ_three]

theorem has_scale_near (U : Usual T) (L : Lits T) (t : Transform T)
    (ht : ∀ i j : Fin 3, IsFinite (t.m.mat i.castSucc j.castSucc)) : ∃ r, t.hasScale = .ok r ∧
    ((∀ j, |t.stretch j - 1| ≤ 1 / 1000 - 5 * ε) → r = false) ∧
    ((∃ j, 1 / 1000 + 5 * ε < |t.stretch j - 1|) → r = true) := by
  obtain ⟨l, hl, hj⟩ := hasScale_ok t ht
  refine ⟨_, hl, fun h => ?_, fun ⟨j, h⟩ => ?_⟩
  · have : ∀ j, notOne (l j) = false := fun j => by
      obtain ⟨a, b, c, ha, hb, hc, hs, hlj⟩ := hj j
      rw [hlj]
      exact (notOne_len U L ha hb hc _ hs).1 (h j)
    simp [this]
  · have : notOne (l j) = true := by
      obtain ⟨a, b, c, ha, hb, hc, hs, hlj⟩ := hj j
      rw [hlj]
      exact (notOne_len U L ha hb hc _ hs).2 h
    fin_cases j <;> simp_all

end

theorem lits32 : Lits Float32.Model := by
  have h : unitRoundoff Float32.Model = 2 ^ (-24 : ℤ) := rfl
  refine ⟨by decide +kernel, by decide +kernel, ?_, ?_⟩
  · rw [UnitTests.val_eq, show UnitTests.ratVal (up (FloatFns.lit999 : Float32.Model)) = 16760439 / 16777216 by
      decide +kernel, h]
    norm_num [abs_le]
  · rw [UnitTests.val_eq, show UnitTests.ratVal (up (FloatFns.lit1001 : Float32.Model)) = 8396997 / 8388608 by
      decide +kernel, h]
    norm_num [abs_le]

theorem lits64 : Lits Float.Model := by
  have h : unitRoundoff Float.Model = 2 ^ (-53 : ℤ) := rfl
  refine ⟨by decide +kernel, by decide +kernel, ?_, ?_⟩
  · rw [UnitTests.val_eq, show UnitTests.ratVal (up (FloatFns.lit999 : Float.Model)) =
      8998192055486251 / 9007199254740992 by decide +kernel, h]
    norm_num [abs_le]
  · rw [UnitTests.val_eq, show UnitTests.ratVal (up (FloatFns.lit1001 : Float.Model)) =
      2254051613498933 / 2251799813685248 by decide +kernel, h]
    norm_num [abs_le]

theorem stretch_translate {T : Type} [Elem T] [As T T] [FloatFns T] [IEEE T] (U : Usual T) (L : Lits T)
    (he : 5 * unitRoundoff T ≤ 1 / 1000) (d : Vector3 T) :
    ∃ t, Transform.translate d = .ok t ∧ t.hasScale = .ok false := by
  obtain ⟨t, ht, hm⟩ := ftranslate d
  refine ⟨t, ht, ?_⟩
  obtain ⟨r, hr, h, -⟩ := has_scale_near U L t fun i j => by
    rw [hm]; split; exacts [finite_one, finite_zero]
  rw [hr, h fun j => ?_]
  have : t.stretch j = 1 := by
    unfold Transform.stretch
    simp only [hm, apply_ite val, val_one, val_zero]
    simp
  rw [this, sub_self, abs_zero]
  linarith

/-- **C78**: `has_scale` with `f32`.  It returns, and is right unless the square of a length is within
    rounding of 0.999 or 1.001. -/
theorem C78_has_scale_f32 (t : Transform Float32.Model)
    (ht : ∀ i j : Fin 3, IsFinite (t.m.mat i.castSucc j.castSucc)) : ∃ r, t.hasScale = .ok r ∧
    ((∀ j, |t.stretch j - 1| ≤ 1 / 1000 - 5 * unitRoundoff Float32.Model) → r = false) ∧
    ((∃ j, 1 / 1000 + 5 * unitRoundoff Float32.Model < |t.stretch j - 1|) → r = true) :=
  has_scale_near usual32 lits32 t ht

/-- **C78**: `has_scale` with `f64`. -/
theorem C78_has_scale_f64 (t : Transform Float.Model)
    (ht : ∀ i j : Fin 3, IsFinite (t.m.mat i.castSucc j.castSucc)) : ∃ r, t.hasScale = .ok r ∧
    ((∀ j, |t.stretch j - 1| ≤ 1 / 1000 - 5 * unitRoundoff Float.Model) → r = false) ∧
    ((∃ j, 1 / 1000 + 5 * unitRoundoff Float.Model < |t.stretch j - 1|) → r = true) :=
  has_scale_near usual64 lits64 t ht

/-- **C78**: no translation has scale, not even by infinity or NaN. -/
theorem C78_translate_has_scale :
    (∀ d : Vector3 Float32.Model, ∃ t, Transform.translate d = .ok t ∧ t.hasScale = .ok false) ∧
    ∀ d : Vector3 Float.Model, ∃ t, Transform.translate d = .ok t ∧ t.hasScale = .ok false := by
  have h1 : unitRoundoff Float32.Model = 2 ^ (-24 : ℤ) := rfl
  have h2 : unitRoundoff Float.Model = 2 ^ (-53 : ℤ) := rfl
  exact ⟨stretch_translate usual32 lits32 (by rw [h1]; norm_num), stretch_translate usual64 lits64 (by rw [h2]; norm_num)⟩

/-- **C78**, refuted: NaN and infinite entries are not noticed by `has_scale`: scaling by NaN, and a matrix
    with two infinite entries in a row, "have no scale". -/
theorem C78_has_scale_refuted :
    (do (← Transform.scale nan32 (f32 1) (f32 1)).hasScale) = .ok false ∧
    (Transform.mk ⟨Mat44.ofRows inf32 inf32 (f32 0) (f32 0) (f32 0) (f32 0) (f32 0) (f32 0)
      (f32 0) (f32 0) (f32 1) (f32 0) (f32 0) (f32 0) (f32 0) (f32 1)⟩ ⟨fun _ _ => f32 0⟩).hasScale = .ok false := by
  decide +kernel

/-- **C78**, refuted: a vector with an infinite component is changed by a translation, even by that of
    the zero vector: the other components become NaN. -/
theorem C78_infinite_refuted : ∃ w : Vector3 Float32.Model,
    (do (⟨inf32, f32 1, f32 1⟩ : Vector3 Float32.Model).transform (← Transform.translate (fv 0 0 0))) = .ok w ∧
    w.x = inf32 ∧ ¬ NotNan w.y ∧ ¬ NotNan w.z :=
  ⟨⟨inf32, nan32, nan32⟩, by decide +kernel⟩

/-- **C78**, refuted: `scale` by zero does not panic; the stored inverse holds an infinite entry.  The
    inverse of a scale by a subnormal number does, too. -/
theorem C78_scale_zero_refuted :
    (do (← Transform.scale (f32 0) (f32 1) (f32 1)).mInv.mat 0 0 |> pure) = .ok inf32 ∧
    (do (← Transform.scale (Float32.Model.ofScientific 1 (-40)) (f32 1) (f32 1)).mInv.mat 0 0 |> pure) = .ok inf32 := by
  decide +kernel

/-- **C78**, refuted: scaling there and back does not always give the same vector: `3 * 7 * (1 / 7)` is
    the next float after 3. -/
theorem C78_round_trip_refuted : ∃ t w u, Transform.scale (f32 3) (f32 5) (f32 7) = .ok t ∧
    (fv 1 2 3).transform t = .ok w ∧ w.transform t.inverse = .ok u ∧ (∀ i, IsFinite (u.get i)) ∧
    u.x = f32 1 ∧ u.y = f32 2 ∧ Lt (f32 3) u.z := by
  have h : ∃ t, Transform.scale (f32 3) (f32 5) (f32 7) = .ok t ∧ (fv 1 2 3).transform t = .ok (fv 3 10 21) ∧
      (fv 3 10 21).transform t.inverse = .ok (⟨f32 1, f32 2, .ofScientific 30000002 (-7)⟩ : Vector3 Float32.Model) :=
    ⟨_, rfl, by decide +kernel, by decide +kernel⟩
  obtain ⟨t, h1, h2, h3⟩ := h
  exact ⟨t, _, _, h1, h2, h3, by decide +kernel, rfl, rfl, by decide +kernel⟩

/-! ### Concrete cases -/

/-- A rotation by the angle of the triangle 3, 4, 5 -/
def turn : Transform Float32.Model :=
  let a := Float32.Model.ofScientific 6 (-1)
  let b := Float32.Model.ofScientific 8 (-1)
  ⟨⟨Mat44.ofRows a b (f32 0) (f32 0) b.neg a (f32 0) (f32 0) (f32 0) (f32 0) (f32 1) (f32 0)
    (f32 0) (f32 0) (f32 0) (f32 1)⟩, ⟨fun _ _ => f32 0⟩⟩

example : (∀ i j : Fin 3, IsFinite (turn.m.mat i.castSucc j.castSucc)) ∧ turn.hasScale = .ok false := by
  decide +kernel

/-- Its squared lengths are within rounding of 1. -/
example : |turn.stretch 0 - 1| ≤ 1 / 1000 - 5 * unitRoundoff Float32.Model := by
  have h : unitRoundoff Float32.Model = 2 ^ (-24 : ℤ) := rfl
  have h0 : UnitTests.ratVal (up (turn.m.mat 0 0)) = 5033165 / 8388608 := by decide +kernel
  have h1 : UnitTests.ratVal (up (turn.m.mat 1 0)) = -13421773 / 16777216 := by decide +kernel
  have h2 : UnitTests.ratVal (up (turn.m.mat 2 0)) = 0 := by decide +kernel
  rw [Transform.stretch, Fin.sum_univ_three, UnitTests.val_eq, UnitTests.val_eq, UnitTests.val_eq,
    show (Fin.castSucc 0 : Fin 4) = 0 from rfl, show (Fin.castSucc 1 : Fin 4) = 1 from rfl,
    show (Fin.castSucc 2 : Fin 4) = 2 from rfl, h0, h1, h2, h]
  norm_num [abs_le]

/-- `is_identity` takes `-0` for `0`. -/
example : (⟨⟨Mat44.ofRows (f32 1) (f32 0) (f32 0) (f32 0) (f32 0).neg (f32 1) (f32 0) (f32 0)
    (f32 0) (f32 0) (f32 1) (f32 0) (f32 0) (f32 0) (f32 0) (f32 1)⟩, ⟨fun _ _ => f32 0⟩⟩ : Transform
      Float32.Model).isIdentity = true := by decide +kernel

end Pbrt
