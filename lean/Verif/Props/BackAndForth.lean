import Verif.Props.RoundTrip
import Verif.Props.UnitVectors

/-!
# C81, continued: vectors for which nothing overflows, and the inverse first
-/

namespace Pbrt

open Spec UnitTests

section
variable {T : Type} [Elem T] [As T T] [FloatFns T] [IEEE T]

local notation "𝔽" => IEEE.fmt T
local notation "ε" => unitRoundoff T
local notation "η" => tiny T

/-- A sum of three products does not overflow if the factors are not too large. -/
theorem dot_range (U : Usual T) {a b c x y q : T} {A V : ℝ} (fa : IsFinite a) (fb : IsFinite b) (fc : IsFinite c)
    (fx : IsFinite x) (fy : IsFinite y) (fq : IsFinite q) (ha : |val a| ≤ A) (hb : |val b| ≤ A) (hc : |val c| ≤ A)
    (hx : |val x| ≤ V) (hy : |val y| ≤ V) (hq : |val q| ≤ V) (h : 8 * (A * V) ≤ big 𝔽) :
    IsFinite (fadd (fadd (fmul a x) (fmul b y)) (fmul c q)) ∧
      |val (fadd (fadd (fmul a x) (fmul b y)) (fmul c q))| ≤ 3.1 * (A * V) + 1 / 100 := by
  have hbig := U.big
  have e0 := eps_pos (T := T)
  have h1 := U.eps
  have h2 := U.tiny_le
  have A0 : 0 ≤ A := (abs_nonneg _).trans ha
  have V0 : 0 ≤ V := (abs_nonneg _).trans hx
  have AV : 0 ≤ A * V := mul_nonneg A0 V0
  have prod : ∀ {r s : T}, IsFinite r → IsFinite s → |val r| ≤ A → |val s| ≤ V →
      IsFinite (fmul r s) ∧ |val (fmul r s)| ≤ 1001 / 1000 * (A * V) + 1 / 1000 := by
    intro r s fr fs hr hs
    have hm : |val r * val s| ≤ A * V := by
      rw [abs_mul]
      exact mul_le_mul hr hs (abs_nonneg _) A0
    have f := rnd_half_big U (fmul_rnd fr fs) (by linarith)
    have k := fmul_err f
    have t := abs_sub_abs_le_abs_sub (val (fmul r s)) (val r * val s)
    have := mul_le_mul_of_nonneg_right h1 (abs_nonneg (val r * val s))
    exact ⟨f, by linarith⟩
  have sum : ∀ {r s : T} {R S : ℝ}, IsFinite r → IsFinite s → |val r| ≤ R → |val s| ≤ S → R + S ≤ big 𝔽 / 2 →
      IsFinite (fadd r s) ∧ |val (fadd r s)| ≤ 1001 / 1000 * (R + S) := by
    intro r s R S fr fs hr hs hle
    have hm := abs_add_le (val r) (val s)
    have f := rnd_half_big U (fadd_rnd fr fs) (by linarith)
    have k := fadd_err f
    have t := abs_sub_abs_le_abs_sub (val (fadd r s)) (val r + val s)
    have := mul_le_mul_of_nonneg_right h1 (abs_nonneg (val r + val s))
    exact ⟨f, by linarith⟩
  obtain ⟨f1, k1⟩ := prod fa fx ha hx
  obtain ⟨f2, k2⟩ := prod fb fy hb hy
  obtain ⟨f3, k3⟩ := prod fc fq hc hq
  obtain ⟨f4, k4⟩ := sum f1 f2 k1 k2 (by linarith)
  obtain ⟨f5, k5⟩ := sum f4 f3 k4 k3 (by linarith)
  exact ⟨f5, by linarith⟩

/-- Transforming a vector does not overflow if the vector and the matrix are not too large. -/
theorem transform_range (U : Usual T) (v : Vector3 T) (t : Transform T) {a V : ℝ}
    (fm : ∀ i j, IsFinite (t.m.mat i j)) (hm : ∀ i j, |t.m.vals T i j| ≤ a) (fv : ∀ i, IsFinite (v.get i))
    (hv : ∀ i, |val (v.get i)| ≤ V) (h : 8 * (a * V) ≤ big 𝔽) :
    ∃ w, v.transform t = .ok w ∧ (∀ i, IsFinite (w.get i)) ∧ ∀ i, |val (w.get i)| ≤ 3.1 * (a * V) + 1 / 100 := by
  simp only [Matrix4.vals, Matrix.of_apply, IEEE.as_eq] at hm
  have key := fun i => dot_range U (fm i 0) (fm i 1) (fm i 2) (fv 0) (fv 1) (fv 2) (hm i 0) (hm i 1) (hm i 2)
    (hv 0) (hv 1) (hv 2) h
  refine ⟨_, by simp only [Vector3.transform, IEEE.as_eq, fmul_ok, fadd_ok, ok_bind, pure_ok]; rfl, fun i => ?_, fun i => ?_⟩
  · fin_cases i
    exacts [(key 0).1, (key 1).1, (key 2).1]
  · fin_cases i
    exacts [(key 0).2, (key 1).2, (key 2).2]

theorem inverse_bound {t : Transform T} {a κ : ℝ} (h : Conditioned T t.m a κ)
    (hn : NearInverse t.m κ (1000 * ε * a * κ) t.mInv) (hc : 2000 * ε * a * κ ≤ 1) (i j : Fin 4) :
    |t.mInv.vals T i j| ≤ 1.5 * κ := by
  have hκ0 : 0 ≤ κ := (Finset.sum_nonneg fun _ _ => abs_nonneg _).trans (h.columns 0)
  have hN : |(t.m.vals T)⁻¹ i j| ≤ κ :=
    (Finset.single_le_sum (f := fun i => |(t.m.vals T)⁻¹ i j|) (fun _ _ => abs_nonneg _) (Finset.mem_univ i)).trans
      (h.columns j)
  have h1 := hn.entries i j
  have h3 := abs_sub_abs_le_abs_sub (t.mInv.vals T i j) ((t.m.vals T)⁻¹ i j)
  have h4 : 1000 * ε * a * κ * κ ≤ 1 / 2 * κ := mul_le_mul_of_nonneg_right (by linarith) hκ0
  linarith

theorem there_and_back_range (U : Usual T) {t : Transform T} {a κ V : ℝ} (h : Conditioned T t.m a κ)
    (hn : NearInverse t.m κ (1000 * ε * a * κ) t.mInv) (hc : 2000 * ε * a * κ ≤ 1)
    {v : Vector3 T} (fv : ∀ i, IsFinite (v.get i)) (hv : ∀ i, |val (v.get i)| ≤ V)
    (h1 : 8 * (a * V) ≤ big 𝔽) (h2 : 40 * (a * κ * V) + κ ≤ big 𝔽) :
    ∃ w u, v.transform t = .ok w ∧ w.transform t.inverse = .ok u ∧ ∀ i, IsFinite (u.get i) := by
  have hκ0 : 0 ≤ κ := (Finset.sum_nonneg fun _ _ => abs_nonneg _).trans (h.columns 0)
  have ha0 : 0 ≤ a := (abs_nonneg _).trans (h.entries 0 0)
  have hV0 : 0 ≤ V := (abs_nonneg _).trans (hv 0)
  have fm : ∀ i j, IsFinite (t.m.mat i j) := fun i j => by have := h.finite i j; rwa [IEEE.as_eq] at this
  obtain ⟨w, hw, fw, kw⟩ := transform_range U v t fm h.entries fv hv h1
  have p : 0 ≤ a * κ * V := by positivity
  obtain ⟨u, hu, fu, -⟩ := transform_range U w t.inverse hn.finite (inverse_bound h hn hc) fw kw (by linarith)
  exact ⟨w, u, hw, hu, fu⟩

/-- The inverse first, then the transform -/
theorem back_and_there (U : Usual T) {t : Transform T} {a κ V : ℝ} (h : Conditioned T t.m a κ)
    (hn : NearInverse t.m κ (1000 * ε * a * κ) t.mInv) (haff : t.m.Affine) (he : ε ≤ 1 / 1000000)
    (hc : 2000 * ε * a * κ ≤ 1) {v : Vector3 T} (fv : ∀ i, IsFinite (v.get i)) (hv : ∀ i, |val (v.get i)| ≤ V)
    (h1 : 12 * (κ * V) ≤ big 𝔽) (h2 : 40 * (a * κ * V) + a ≤ big 𝔽) :
    ∃ w u, v.transform t.inverse = .ok w ∧ w.transform t = .ok u ∧ (∀ i, IsFinite (u.get i)) ∧
      ∀ i, |val (u.get i) - val (v.get i)| ≤ 9100 * ε * (a * κ) ^ 2 * V + (10 * a + 4) * η := by
  have e0 := eps_pos (T := T)
  have t0 := tiny_pos (T := T)
  have ha0 : 0 ≤ a := (abs_nonneg _).trans (h.entries 0 0)
  have hκ0 : 0 ≤ κ := (Finset.sum_nonneg fun _ _ => abs_nonneg _).trans (h.columns 0)
  have hV0 : 0 ≤ V := (abs_nonneg _).trans (hv 0)
  have p : 0 ≤ a * κ * V := by positivity
  have hB := inverse_bound h hn hc
  have fm : ∀ i j, IsFinite (t.m.mat i j) := fun i j => by have := h.finite i j; rwa [IEEE.as_eq] at this
  obtain ⟨w, hw, fw, kw⟩ := transform_range U v t.inverse hn.finite hB fv hv (by linarith)
  obtain ⟨u, hu, fu, -⟩ := transform_range U w t fm h.entries fw kw (by linarith)
  refine ⟨w, u, hw, hu, fu, fun i => ?_⟩
  have e2 : ε * ε ≤ 1 / 1000000 * ε := mul_le_mul_of_nonneg_right he e0.le
  have e3 : ε * ε * ε ≤ 1 / 1000000 * ε * ε := mul_le_mul_of_nonneg_right e2 e0.le
  have g1 : (1 + ε) ^ 3 - 1 ≤ 3.01 * ε := by
    rw [show (1 + ε) ^ 3 - 1 = 3 * ε + 3 * (ε * ε) + ε * ε * ε by ring]
    linarith
  have g2 : (1 + ε) ^ 3 ≤ 1.01 := by linarith
  have er : ∀ (t : Transform T) (v w : Vector3 T), v.transform t = .ok w → (∀ i, IsFinite (w.get i)) → ∀ i : Fin 3,
      |val (w.get i) - ∑ n : Fin 3, t.m.vals T i.castSucc n.castSucc * val (v.get n)| ≤
      3.01 * ε * ∑ n : Fin 3, |t.m.vals T i.castSucc n.castSucc * val (v.get n)| + 3.03 * η := fun t v w ht hfw i => by
    have h1 := C69_transform v w t ht i (hfw i)
    simp only [Matrix4.vals, Matrix.of_apply, IEEE.as_eq]
    have h2 := mul_le_mul_of_nonneg_right g1 (Finset.sum_nonneg (s := Finset.univ) fun (n : Fin 3) _ =>
      abs_nonneg (val (t.m.mat i.castSucc n.castSucc) * val (v.get n)))
    have h3 := mul_le_mul_of_nonneg_left g2 t0.le
    linarith
  -- the last row of the inverse
  have hlast : ∀ n : Fin 3, (t.m.vals T)⁻¹ 3 n.castSucc = 0 := by
    intro n
    have hu : IsUnit (t.m.vals T).det := isUnit_iff_ne_zero.2 h.regular
    have h3 : ∀ j : Fin 3, t.m.vals T 3 j.castSucc = 0 := fun j => by
      simp only [Matrix4.vals, Matrix.of_apply, IEEE.as_eq]; exact haff j
    have m1 := congrFun (congrFun (Matrix.mul_nonsing_inv _ hu) 3) n.castSucc
    have m2 := congrFun (congrFun (Matrix.mul_nonsing_inv _ hu) 3) 3
    have z0 := h3 0
    have z1 := h3 1
    have z2 := h3 2
    change t.m.vals T 3 0 = 0 at z0
    change t.m.vals T 3 1 = 0 at z1
    change t.m.vals T 3 2 = 0 at z2
    rw [Matrix.mul_apply, Fin.sum_univ_four, z0, z1, z2, Matrix.one_apply] at m1 m2
    rw [if_neg (by fin_cases n <;> decide)] at m1
    simp only [zero_mul, zero_add, if_true] at m1 m2
    rcases mul_eq_zero.1 m1 with h | h
    · rw [h] at m2; simp at m2
    · exact h
  have hres : ∀ i n : Fin 3, |∑ k : Fin 3, t.m.vals T i.castSucc k.castSucc * t.mInv.vals T k.castSucc n.castSucc -
      if i = n then 1 else 0| ≤ 3 * (a * (1000 * ε * a * κ * κ)) := by
    intro i n
    have hu : IsUnit (t.m.vals T).det := isUnit_iff_ne_zero.2 h.regular
    have m1 := congrFun (congrFun (Matrix.mul_nonsing_inv _ hu) i.castSucc) n.castSucc
    rw [Matrix.mul_apply, Matrix.one_apply,
      Fin.sum_univ_castSucc (fun k : Fin 4 => t.m.vals T i.castSucc k * (t.m.vals T)⁻¹ k n.castSucc)] at m1
    rw [show Fin.last 3 = 3 from rfl, hlast n, mul_zero, add_zero] at m1
    have hin : (i.castSucc = n.castSucc) = (i = n) := by simp
    simp only [hin] at m1
    rw [← m1, ← Finset.sum_sub_distrib]
    refine (Finset.abs_sum_le_sum_abs _ _).trans ?_
    refine (Finset.sum_le_sum fun k _ => ?_ : _ ≤ ∑ _k : Fin 3, a * (1000 * ε * a * κ * κ)).trans (by simp)
    rw [← mul_sub, abs_mul]
    exact mul_le_mul (h.entries _ _) (hn.entries _ _) (abs_nonneg _) ha0
  have := back_error (A := t.mInv.vals T) (B := t.m.vals T) (v := fun i => val (v.get i)) (w := fun i => val (w.get i))
    (u := fun i => val (u.get i)) hB h.entries hres hv (by positivity)
    (er t.inverse v w hw fw) (er t w u hu fu) i
  refine this.trans ?_
  have one : 1 ≤ a * κ := by
    have hu : IsUnit (t.m.vals T).det := isUnit_iff_ne_zero.2 h.regular
    have m1 := congrFun (congrFun (Matrix.mul_nonsing_inv _ hu) 0) 0
    rw [Matrix.mul_apply, Matrix.one_apply_eq] at m1
    calc (1 : ℝ) = |∑ k, t.m.vals T 0 k * (t.m.vals T)⁻¹ k 0| := by rw [m1, abs_one]
      _ ≤ ∑ k, |t.m.vals T 0 k * (t.m.vals T)⁻¹ k 0| := Finset.abs_sum_le_sum_abs _ _
      _ ≤ ∑ k, a * |(t.m.vals T)⁻¹ k 0| := Finset.sum_le_sum fun k _ => by
          rw [abs_mul]; exact mul_le_mul_of_nonneg_right (h.entries _ _) (abs_nonneg _)
      _ = a * ∑ k, |(t.m.vals T)⁻¹ k 0| := by rw [Finset.mul_sum]
      _ ≤ a * κ := mul_le_mul_of_nonneg_left (h.columns 0) ha0
  have p1 : 0 ≤ ε * (a * κ) * V := by positivity
  have p2 : ε * (ε * (a * κ) * V) ≤ 1 / 1000000 * (ε * (a * κ) * V) := mul_le_mul_of_nonneg_right he p1
  have p3 : ε * (a * η) ≤ 1 / 1000000 * (a * η) := mul_le_mul_of_nonneg_right he (by positivity)
  have p4 : 0 ≤ a * η := by positivity
  have p5 : ε * (a * κ) * V ≤ ε * (a * κ) ^ 2 * V := by
    have := mul_le_mul_of_nonneg_left one p1
    nlinarith
  nlinarith

end

/-- **C81**: with `f32`, if the vector is not too large, nothing overflows on the way there and back. -/
theorem C81_range_f32 (m : Matrix4 Float32.Model) {a κ V : ℝ} (h : Conditioned Float32.Model m a κ)
    (ha : a ≤ 2 ^ 121) (hκ : κ ≤ 2 ^ 121) (hc : a * κ ≤ 2 ^ 13) (haff : m.Affine) (h1 : a * V ≤ 2 ^ 121)
    (h2 : a * κ * V ≤ 2 ^ 121) :
    ∃ t, Transform.new_ m = .ok t ∧ ∀ v : Vector3 Float32.Model, (∀ i, IsFinite (v.get i)) → (∀ i, |val (v.get i)| ≤ V) →
      ∃ w u, v.transform t = .ok w ∧ w.transform t.inverse = .ok u ∧ (∀ i, IsFinite (u.get i)) ∧
        ∀ i, |val (u.get i) - val (v.get i)| ≤
          3100 * 2 ^ (-24 : ℤ) * a * κ * V + (15 * κ + 4) * 2 ^ (-150 : ℤ) := by
  obtain ⟨t, ht, rfl, hn⟩ := C80_new_f32 m h ha hκ hc
  have hb : big (IEEE.fmt Float32.Model) = 128 * 2 ^ 121 := by
    change (2 : ℝ) ^ (128 : ℤ) = _
    rw [show (128 : ℤ) = ((128 : ℕ) : ℤ) from rfl, zpow_natCast, show (128 : ℝ) = 2 ^ 7 by norm_num, ← pow_add]
  have p : (0 : ℝ) < 2 ^ 121 := by positivity
  have h3 : 2000 * unitRoundoff Float32.Model * a * κ ≤ 1 := by
    show 2000 * (2 : ℝ) ^ (-24 : ℤ) * a * κ ≤ 1
    rw [mul_assoc]
    calc 2000 * (2 : ℝ) ^ (-24 : ℤ) * (a * κ) ≤ 2000 * (2 : ℝ) ^ (-24 : ℤ) * 2 ^ 13 :=
          mul_le_mul_of_nonneg_left hc (by positivity)
      _ ≤ 1 := by norm_num
  refine ⟨t, ht, fun v fv hv => ?_⟩
  obtain ⟨w, u, hw, hu, fu⟩ := there_and_back_range usual32 h hn h3 fv hv (by rw [hb]; linarith) (by rw [hb]; linarith)
  exact ⟨w, u, hw, hu, fu, there_and_back h hn haff (by show (2 : ℝ) ^ (-24 : ℤ) ≤ _; norm_num) h3 hv hw hu fu⟩

/-- **C81**: with `f32`, the inverse first and then the transform; the error grows with the square of the
    condition `a κ`. -/
theorem C81_back_and_there_f32 (m : Matrix4 Float32.Model) {a κ V : ℝ} (h : Conditioned Float32.Model m a κ)
    (ha : a ≤ 2 ^ 121) (hκ : κ ≤ 2 ^ 121) (hc : a * κ ≤ 2 ^ 13) (haff : m.Affine) (h1 : κ * V ≤ 2 ^ 121)
    (h2 : a * κ * V ≤ 2 ^ 121) :
    ∃ t, Transform.new_ m = .ok t ∧ ∀ v : Vector3 Float32.Model, (∀ i, IsFinite (v.get i)) → (∀ i, |val (v.get i)| ≤ V) →
      ∃ w u, v.transform t.inverse = .ok w ∧ w.transform t = .ok u ∧ (∀ i, IsFinite (u.get i)) ∧
        ∀ i, |val (u.get i) - val (v.get i)| ≤
          9100 * 2 ^ (-24 : ℤ) * (a * κ) ^ 2 * V + (10 * a + 4) * 2 ^ (-150 : ℤ) := by
  obtain ⟨t, ht, rfl, hn⟩ := C80_new_f32 m h ha hκ hc
  have hb : big (IEEE.fmt Float32.Model) = 128 * 2 ^ 121 := by
    change (2 : ℝ) ^ (128 : ℤ) = _
    rw [show (128 : ℤ) = ((128 : ℕ) : ℤ) from rfl, zpow_natCast, show (128 : ℝ) = 2 ^ 7 by norm_num, ← pow_add]
  have p : (0 : ℝ) < 2 ^ 121 := by positivity
  have h3 : 2000 * unitRoundoff Float32.Model * a * κ ≤ 1 := by
    show 2000 * (2 : ℝ) ^ (-24 : ℤ) * a * κ ≤ 1
    rw [mul_assoc]
    calc 2000 * (2 : ℝ) ^ (-24 : ℤ) * (a * κ) ≤ 2000 * (2 : ℝ) ^ (-24 : ℤ) * 2 ^ 13 :=
          mul_le_mul_of_nonneg_left hc (by positivity)
      _ ≤ 1 := by norm_num
  exact ⟨t, ht, fun v fv hv => back_and_there usual32 h hn haff (by show (2 : ℝ) ^ (-24 : ℤ) ≤ _; norm_num) h3 fv hv
    (by rw [hb]; linarith) (by rw [hb]; linarith)⟩

/-- **C81**: with `f64`, if the vector is not too large, nothing overflows on the way there and back. -/
theorem C81_range_f64 (m : Matrix4 Float.Model) {a κ V : ℝ} (h : Conditioned Float.Model m a κ)
    (ha : a ≤ 2 ^ 1017) (hκ : κ ≤ 2 ^ 1017) (hc : a * κ ≤ 2 ^ 42) (haff : m.Affine) (h1 : a * V ≤ 2 ^ 1017)
    (h2 : a * κ * V ≤ 2 ^ 1017) :
    ∃ t, Transform.new_ m = .ok t ∧ ∀ v : Vector3 Float.Model, (∀ i, IsFinite (v.get i)) → (∀ i, |val (v.get i)| ≤ V) →
      ∃ w u, v.transform t = .ok w ∧ w.transform t.inverse = .ok u ∧ (∀ i, IsFinite (u.get i)) ∧
        ∀ i, |val (u.get i) - val (v.get i)| ≤
          3100 * 2 ^ (-53 : ℤ) * a * κ * V + (15 * κ + 4) * 2 ^ (-1075 : ℤ) := by
  obtain ⟨t, ht, rfl, hn⟩ := C80_new_f64 m h ha hκ hc
  have hb : big (IEEE.fmt Float.Model) = 128 * 2 ^ 1017 := by
    change (2 : ℝ) ^ (1024 : ℤ) = _
    rw [show (1024 : ℤ) = ((1024 : ℕ) : ℤ) from rfl, zpow_natCast, show (128 : ℝ) = 2 ^ 7 by norm_num, ← pow_add]
  have p : (0 : ℝ) < 2 ^ 1017 := by positivity
  have h3 : 2000 * unitRoundoff Float.Model * a * κ ≤ 1 := by
    show 2000 * (2 : ℝ) ^ (-53 : ℤ) * a * κ ≤ 1
    rw [mul_assoc]
    calc 2000 * (2 : ℝ) ^ (-53 : ℤ) * (a * κ) ≤ 2000 * (2 : ℝ) ^ (-53 : ℤ) * 2 ^ 42 :=
          mul_le_mul_of_nonneg_left hc (by positivity)
      _ ≤ 1 := by norm_num
  refine ⟨t, ht, fun v fv hv => ?_⟩
  obtain ⟨w, u, hw, hu, fu⟩ := there_and_back_range usual64 h hn h3 fv hv (by rw [hb]; generalize (2 : ℝ) ^ 1017 = P at *; linarith) (by rw [hb]; generalize (2 : ℝ) ^ 1017 = P at *; linarith)
  exact ⟨w, u, hw, hu, fu, there_and_back h hn haff (by show (2 : ℝ) ^ (-53 : ℤ) ≤ _; norm_num) h3 hv hw hu fu⟩

/-- **C81**: with `f64`, the inverse first and then the transform; the error grows with the square of the
    condition `a κ`. -/
theorem C81_back_and_there_f64 (m : Matrix4 Float.Model) {a κ V : ℝ} (h : Conditioned Float.Model m a κ)
    (ha : a ≤ 2 ^ 1017) (hκ : κ ≤ 2 ^ 1017) (hc : a * κ ≤ 2 ^ 42) (haff : m.Affine) (h1 : κ * V ≤ 2 ^ 1017)
    (h2 : a * κ * V ≤ 2 ^ 1017) :
    ∃ t, Transform.new_ m = .ok t ∧ ∀ v : Vector3 Float.Model, (∀ i, IsFinite (v.get i)) → (∀ i, |val (v.get i)| ≤ V) →
      ∃ w u, v.transform t.inverse = .ok w ∧ w.transform t = .ok u ∧ (∀ i, IsFinite (u.get i)) ∧
        ∀ i, |val (u.get i) - val (v.get i)| ≤
          9100 * 2 ^ (-53 : ℤ) * (a * κ) ^ 2 * V + (10 * a + 4) * 2 ^ (-1075 : ℤ) := by
  obtain ⟨t, ht, rfl, hn⟩ := C80_new_f64 m h ha hκ hc
  have hb : big (IEEE.fmt Float.Model) = 128 * 2 ^ 1017 := by
    change (2 : ℝ) ^ (1024 : ℤ) = _
    rw [show (1024 : ℤ) = ((1024 : ℕ) : ℤ) from rfl, zpow_natCast, show (128 : ℝ) = 2 ^ 7 by norm_num, ← pow_add]
  have p : (0 : ℝ) < 2 ^ 1017 := by positivity
  have h3 : 2000 * unitRoundoff Float.Model * a * κ ≤ 1 := by
    show 2000 * (2 : ℝ) ^ (-53 : ℤ) * a * κ ≤ 1
    rw [mul_assoc]
    calc 2000 * (2 : ℝ) ^ (-53 : ℤ) * (a * κ) ≤ 2000 * (2 : ℝ) ^ (-53 : ℤ) * 2 ^ 42 :=
          mul_le_mul_of_nonneg_left hc (by positivity)
      _ ≤ 1 := by norm_num
  exact ⟨t, ht, fun v fv hv => back_and_there usual64 h hn haff (by show (2 : ℝ) ^ (-53 : ℤ) ≤ _; norm_num) h3 fv hv
    (by rw [hb]; generalize (2 : ℝ) ^ 1017 = P at *; linarith) (by rw [hb]; generalize (2 : ℝ) ^ 1017 = P at *; linarith)⟩

/-- **C81**: rotations and reflections of all `f32` vectors with components up to `2 ^ 115`, there and back -/
theorem C81_rotation_range_f32 (m : Matrix4 Float32.Model) {V : ℝ} (hV : V ≤ 2 ^ 115)
    (hf : ∀ i j, IsFinite (m.mat i j)) (h : RigidUpTo (m.vals Float32.Model) 1) :
    ∃ t, Transform.new_ m = .ok t ∧ ∀ v : Vector3 Float32.Model, (∀ i, IsFinite (v.get i)) → (∀ i, |val (v.get i)| ≤ V) →
      ∃ w u, v.transform t = .ok w ∧ w.transform t.inverse = .ok u ∧ (∀ i, IsFinite (u.get i)) ∧
        ∀ i, |val (u.get i) - val (v.get i)| ≤ 38000 * 2 ^ (-24 : ℤ) * V + 184 * 2 ^ (-150 : ℤ) := by
  have hc := rigid_conditioned (fun i j => by rw [IEEE.as_eq]; exact hf i j) h le_rfl
  have haff : m.Affine := fun j => by
    have := h.last j.castSucc
    rw [if_neg (by fin_cases j <;> decide)] at this
    simpa only [Matrix4.vals, Matrix.of_apply, IEEE.as_eq] using this
  have p : (2 : ℝ) ^ 121 = 64 * 2 ^ 115 := by
    rw [show (64 : ℝ) = 2 ^ 6 by norm_num, ← pow_add]
  have q : (1 : ℝ) ≤ 2 ^ 115 := one_le_pow₀ (by norm_num)
  obtain ⟨t, ht, hb⟩ := C81_range_f32 m (V := V) hc (by rw [p]; clear p; generalize (2 : ℝ) ^ 115 = P at *; linarith)
    (by rw [p]; clear p; generalize (2 : ℝ) ^ 115 = P at *; linarith) (by norm_num) haff
    (by rw [p]; clear p; generalize (2 : ℝ) ^ 115 = P at *; linarith) (by rw [p]; clear p; generalize (2 : ℝ) ^ 115 = P at *; linarith)
  refine ⟨t, ht, fun v fv hv => ?_⟩
  obtain ⟨w, u, hw, hu, fu, k⟩ := hb v fv hv
  refine ⟨w, u, hw, hu, fu, fun i => (k i).trans ?_⟩
  have : 0 ≤ (2 : ℝ) ^ (-24 : ℤ) * V := mul_nonneg (by positivity) ((abs_nonneg _).trans (hv 0))
  generalize (2 : ℝ) ^ (-24 : ℤ) = e at *
  generalize (2 : ℝ) ^ (-150 : ℤ) = d at *
  linarith

/-- **C81**: rotations and reflections of all `f64` vectors with components up to `2 ^ 1011`, there and back -/
theorem C81_rotation_range_f64 (m : Matrix4 Float.Model) {V : ℝ} (hV : V ≤ 2 ^ 1011)
    (hf : ∀ i j, IsFinite (m.mat i j)) (h : RigidUpTo (m.vals Float.Model) 1) :
    ∃ t, Transform.new_ m = .ok t ∧ ∀ v : Vector3 Float.Model, (∀ i, IsFinite (v.get i)) → (∀ i, |val (v.get i)| ≤ V) →
      ∃ w u, v.transform t = .ok w ∧ w.transform t.inverse = .ok u ∧ (∀ i, IsFinite (u.get i)) ∧
        ∀ i, |val (u.get i) - val (v.get i)| ≤ 38000 * 2 ^ (-53 : ℤ) * V + 184 * 2 ^ (-1075 : ℤ) := by
  have hc := rigid_conditioned (fun i j => by rw [IEEE.as_eq]; exact hf i j) h le_rfl
  have haff : m.Affine := fun j => by
    have := h.last j.castSucc
    rw [if_neg (by fin_cases j <;> decide)] at this
    simpa only [Matrix4.vals, Matrix.of_apply, IEEE.as_eq] using this
  have p : (2 : ℝ) ^ 1017 = 64 * 2 ^ 1011 := by
    rw [show (64 : ℝ) = 2 ^ 6 by norm_num, ← pow_add]
  have q : (1 : ℝ) ≤ 2 ^ 1011 := one_le_pow₀ (by norm_num)
  obtain ⟨t, ht, hb⟩ := C81_range_f64 m (V := V) hc (by rw [p]; clear p; generalize (2 : ℝ) ^ 1011 = P at *; linarith)
    (by rw [p]; clear p; generalize (2 : ℝ) ^ 1011 = P at *; linarith) (by norm_num) haff
    (by rw [p]; clear p; generalize (2 : ℝ) ^ 1011 = P at *; linarith) (by rw [p]; clear p; generalize (2 : ℝ) ^ 1011 = P at *; linarith)
  refine ⟨t, ht, fun v fv hv => ?_⟩
  obtain ⟨w, u, hw, hu, fu, k⟩ := hb v fv hv
  refine ⟨w, u, hw, hu, fu, fun i => (k i).trans ?_⟩
  have : 0 ≤ (2 : ℝ) ^ (-53 : ℤ) * V := mul_nonneg (by positivity) ((abs_nonneg _).trans (hv 0))
  generalize (2 : ℝ) ^ (-53 : ℤ) = e at *
  generalize (2 : ℝ) ^ (-1075 : ℤ) = d at *
  linarith

/-! ### Examples -/

-- the hypotheses hold of the sheared matrix and of vectors with components up to `2 ^ 100`
open StabilityExamples in
example : Conditioned Float32.Model (sheared Float32.Model) 3 4 ∧ (sheared Float32.Model).Affine ∧
    (3 : ℝ) * 2 ^ 100 ≤ 2 ^ 121 ∧ (4 : ℝ) * 2 ^ 100 ≤ 2 ^ 121 ∧ (3 : ℝ) * 4 * 2 ^ 100 ≤ 2 ^ 121 := by
  refine ⟨sheared_conditioned, fun j => ?_, by norm_num, by norm_num, by norm_num⟩
  have := congrFun (congrFun sheared_vals 3) j.castSucc
  simp only [Matrix4.vals, Matrix.of_apply, IEEE.as_eq] at this
  rw [this]
  fin_cases j <;> rfl

-- the inverse first: the vector `(1, 2, 0)` does not come back exactly
open RoundTripExamples in
example : (do
    let t ← Transform.new_ (rotation Float32.Model)
    let w ← (fv 1 2 0).transform t.inverse
    let u ← w.transform t
    pure (decide (u = fv 1 2 0), decide (∀ i, IsFinite (u.get i)))) = .ok (false, true) := by decide +kernel

/-- The largest `f32` -/
def large32 : Float32.Model := f32 ((2 ^ 24 - 1) * 2 ^ 104)

/-- A limit of **C81**: a large vector of finite floats can overflow when it is rotated. -/
theorem C81_overflow_refuted : ∃ (v w : Vector3 Float32.Model) (t : Transform Float32.Model),
    Transform.new_ (RoundTripExamples.rotation Float32.Model) = .ok t ∧ (∀ i, IsFinite (v.get i)) ∧
    v.transform t = .ok w ∧ ∃ i, ¬ IsFinite (w.get i) := by
  have key : (do
      let t ← Transform.new_ (RoundTripExamples.rotation Float32.Model)
      let w ← (⟨large32, large32, large32⟩ : Vector3 Float32.Model).transform t
      pure (decide (∃ i, ¬ IsFinite (w.get i)))) = .ok true := by decide +kernel
  cases ht : (Transform.new_ (RoundTripExamples.rotation Float32.Model) : Outcome (Transform Float32.Model)) with
  | error e => rw [ht] at key; cases key
  | ok t =>
    rw [ht] at key
    cases hw : (⟨large32, large32, large32⟩ : Vector3 Float32.Model).transform t with
    | error e => rw [ok_bind, hw] at key; cases key
    | ok w =>
      rw [ok_bind, hw, ok_bind, pure_ok, Except.ok.injEq, decide_eq_true_iff] at key
      exact ⟨_, w, t, rfl, by decide +kernel, hw, key⟩

end Pbrt
