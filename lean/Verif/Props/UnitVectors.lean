import Verif.Props.Frame
import Verif.Props.FloatError

/-!
# C95: dividing a vector of floats by its length

`coordinate_system` asks for a vector of length one (C75), and the way to get one is `v / v.len()`.
-/

namespace Pbrt

open Float.Model (UnpackedFloat Format)

/-- The real arithmetic: `l` is the computed length, `S` the exact square of the length -/
theorem unit_length {e n S L : ℝ} (e0 : 0 < e) (he : e ≤ 1 / 1000) (hS : 0 < S) (hn : n ≤ e ^ 2 * S)
    (h1 : L ≤ (S + 3 * n) * (1 + e) ^ 5)
    (h2 : (1 - e) ^ 2 * ((2 - (1 + e) ^ 3) * S - 3 * n * (1 + e) ^ 3) ≤ L) :
    (1 - 51 / 10 * e) * S ≤ L ∧ L ≤ (1 + 51 / 10 * e) * S := by
  have p5 : (1 + 3 * e ^ 2) * (1 + e) ^ 5 ≤ 1 + 51 / 10 * e := by
    have q2 : e ^ 2 ≤ e / 1000 := by nlinarith
    have q3 : e ^ 3 ≤ e / 1000 := by nlinarith
    have q4 : e ^ 4 ≤ e / 1000 := by nlinarith
    have q5 : e ^ 5 ≤ e / 1000 := by nlinarith
    have q6 : e ^ 6 ≤ e / 1000 := by nlinarith
    have q7 : e ^ 7 ≤ e / 1000 := by nlinarith
    nlinarith
  have p3 : 1 - 51 / 10 * e ≤ (1 - e) ^ 2 * ((2 - (1 + e) ^ 3) - 3 * e ^ 2 * (1 + e) ^ 3) := by
    have q2 : e ^ 2 ≤ e / 1000 := by nlinarith
    have q3 : e ^ 3 ≤ e / 1000 := by nlinarith
    have q4 : e ^ 4 ≤ e / 1000 := by nlinarith
    have q5 : e ^ 5 ≤ e / 1000 := by nlinarith
    have q6 : e ^ 6 ≤ e / 1000 := by nlinarith
    have q7 : e ^ 7 ≤ e / 1000 := by nlinarith
    have r2 : 0 ≤ e ^ 2 := by positivity
    have r3 : 0 ≤ e ^ 3 := by positivity
    have r4 : 0 ≤ e ^ 4 := by positivity
    have r5 : 0 ≤ e ^ 5 := by positivity
    have r6 : 0 ≤ e ^ 6 := by positivity
    have r7 : 0 ≤ e ^ 7 := by positivity
    nlinarith
  constructor
  · refine le_trans ?_ h2
    have h3 : (1 - e) ^ 2 * ((2 - (1 + e) ^ 3) - 3 * e ^ 2 * (1 + e) ^ 3) * S ≤
        (1 - e) ^ 2 * ((2 - (1 + e) ^ 3) * S - 3 * n * (1 + e) ^ 3) := by
      have : 0 ≤ (1 - e) ^ 2 * (3 * (1 + e) ^ 3) := by positivity
      nlinarith [mul_le_mul_of_nonneg_left hn this]
    exact (mul_le_mul_of_nonneg_right p3 hS.le).trans h3
  · refine h1.trans ?_
    have : (S + 3 * n) * (1 + e) ^ 5 ≤ ((1 + 3 * e ^ 2) * (1 + e) ^ 5) * S := by
      have : 0 ≤ 3 * (1 + e) ^ 5 := by positivity
      nlinarith [mul_le_mul_of_nonneg_left hn this]
    exact this.trans (mul_le_mul_of_nonneg_right p5 hS.le)

/-- A component: `x / l` rounded against `x / √S` -/
theorem unit_component {e n S l x w : ℝ} (e0 : 0 < e) (he : e ≤ 1 / 1000) (n0 : 0 ≤ n) (hne : n ≤ e / 1000)
    (hS : 0 < S) (hl : 0 < l)
    (h1 : (1 - 51 / 10 * e) * S ≤ l ^ 2) (h2 : l ^ 2 ≤ (1 + 51 / 10 * e) * S) (hx : x ^ 2 ≤ S)
    (hw : |w - x / l| ≤ e * |x / l| + n) :
    |w - x / Real.sqrt S| ≤ 4 * e ∧ |w ^ 2 - x ^ 2 / l ^ 2| ≤ 21 / 10 * e * (x ^ 2 / l ^ 2) + 3 * n := by
  set q := x / l with hq
  have hl2 : 0 < l ^ 2 := by positivity
  have hq2 : q ^ 2 = x ^ 2 / l ^ 2 := by rw [hq, div_pow]
  have hq1 : q ^ 2 ≤ 102 / 100 := by
    rw [hq2, div_le_iff₀ hl2]
    nlinarith
  have hqa : |q| ≤ 101 / 100 := by
    refine abs_le_of_sq_le_sq ?_ (by norm_num)
    linarith
  have q0 := abs_nonneg q
  constructor
  · have hr := Real.sqrt_nonneg S
    have hrr := Real.sq_sqrt hS.le
    have hr0 := Real.sqrt_pos.2 hS
    set r := Real.sqrt S
    have hxr : x / r = q * (l / r) := by rw [hq]; field_simp
    set ρ := l / r with hρ
    have ρ0 : 0 < ρ := div_pos hl hr0
    have hρ2 : ρ ^ 2 = l ^ 2 / S := by rw [hρ, div_pow, hrr]
    have k1 : 1 - 51 / 10 * e ≤ ρ ^ 2 := by rw [hρ2, le_div_iff₀ hS]; exact h1
    have k2 : ρ ^ 2 ≤ 1 + 51 / 10 * e := by rw [hρ2, div_le_iff₀ hS]; exact h2
    have k3 : |1 - ρ| ≤ 26 / 10 * e := by
      rw [abs_le]
      constructor <;> nlinarith
    rw [hxr]
    have k4 : |w - q * ρ| ≤ |w - q| + |q| * |1 - ρ| := by
      rw [← abs_mul, show w - q * ρ = (w - q) + q * (1 - ρ) by ring]
      exact abs_add_le _ _
    have k5 : |q| * |1 - ρ| ≤ 101 / 100 * (26 / 10 * e) := mul_le_mul hqa k3 (abs_nonneg _) (by norm_num)
    nlinarith
  · rw [← hq2, ← sq_abs q]
    have : w ^ 2 - |q| ^ 2 = (w - q) * (w + q) := by rw [sq_abs]; ring
    rw [this, abs_mul]
    have k1 : |w + q| ≤ (2 + e) * |q| + n := by
      rw [show w + q = (w - q) + 2 * q by ring]
      refine (abs_add_le _ _).trans ?_
      rw [abs_mul, abs_two]
      linarith
    have k0 : 0 ≤ e * |q| + n := by positivity
    refine (mul_le_mul hw k1 (abs_nonneg _) k0).trans ?_
    have a1 : n * |q| ≤ n * (101 / 100) := mul_le_mul_of_nonneg_left hqa n0
    have a2 : e * (n * |q|) ≤ e * (n * (101 / 100)) := mul_le_mul_of_nonneg_left a1 e0.le
    have a3 : e * n ≤ 1 / 1000 * n := mul_le_mul_of_nonneg_right he n0
    have a4 : n * n ≤ 1 / 1000 * n := mul_le_mul_of_nonneg_right (by linarith) n0
    have a5 : e * (e * |q| ^ 2) ≤ 1 / 1000 * (e * |q| ^ 2) := mul_le_mul_of_nonneg_right he (by positivity)
    nlinarith

section
variable {T : Type} [Elem T] [As T T] [FloatFns T] [IEEE T]

local notation "𝔽" => IEEE.fmt T
local notation "ε" => unitRoundoff T
local notation "η" => tiny T

theorem unit_vector (U : Usual T) (v : Vector3 T) (l : T) (hl : v.len = .ok l) (hf : IsFinite l)
    (hS : η ≤ ε ^ 2 * ∑ i, val (v.get i) ^ 2) :
    ∃ w, v.div l = .ok w ∧ NearUnit v.get w.get := by
  have e0 := eps_pos (T := T)
  have n0 := tiny_pos (T := T)
  have he := U.eps
  have hne := U.tiny_le
  obtain ⟨l0, u1, u2⟩ := C69_len v l hl hf
  have S0 : 0 < ∑ i, val (v.get i) ^ 2 := by
    by_contra hc
    have := mul_nonpos_of_nonneg_of_nonpos (sq_nonneg ε) (not_lt.1 hc)
    linarith
  obtain ⟨k1, k2⟩ := unit_length e0 he S0 hS u1 u2
  have lpos : 0 < val l := by
    rcases l0.eq_or_lt with h | h
    · rw [← h] at k1
      nlinarith
    · exact h
  have hfin : ∀ i, IsFinite (v.get i) := by
    rw [flen_vector, Except.ok.injEq] at hl
    subst hl
    have h1 := (fsqrt_finite hf).1
    obtain ⟨h2, h3⟩ := fadd_finite h1
    obtain ⟨h4, h5⟩ := fadd_finite h2
    intro i
    fin_cases i
    exacts [(fmul_finite h4).1, (fmul_finite h5).1, (fmul_finite h3).1]
  have hsq : ∀ i, val (v.get i) ^ 2 ≤ ∑ j, val (v.get j) ^ 2 := fun i =>
    Finset.single_le_sum (f := fun j => val (v.get j) ^ 2) (fun j _ => sq_nonneg _) (Finset.mem_univ i)
  have hq : ∀ i, |val (v.get i) / val l| ≤ 2 := by
    intro i
    refine abs_le_of_sq_le_sq ?_ (by norm_num)
    rw [div_pow, div_le_iff₀ (by positivity)]
    nlinarith [hsq i]
  have hd : ∀ i, IsFinite (fdiv (v.get i) l) := fun i =>
    U.finite (fdiv_rnd (hfin i) hf lpos.ne') ((hq i).trans (by norm_num))
  have hcomp := fun i => unit_component e0 he n0.le (by linarith) S0 lpos k1 k2 (hsq i)
    (fdiv_err (hfin i) hf lpos.ne' (hd i))
  refine ⟨⟨fdiv v.x l, fdiv v.y l, fdiv v.z l⟩, by simp only [Vector3.div, fdiv_ok, ok_bind, pure_ok], ?_⟩
  have hget : ∀ i, (⟨fdiv v.x l, fdiv v.y l, fdiv v.z l⟩ : Vector3 T).get i = fdiv (v.get i) l := by
    intro i; fin_cases i <;> rfl
  refine ⟨fun i => by rw [hget]; exact hd i, ?_, fun i => by rw [hget]; exact (hcomp i).1⟩
  simp only [hget]
  have hS2 : ∑ i, val (v.get i) ^ 2 / val l ^ 2 = (∑ i, val (v.get i) ^ 2) / val l ^ 2 := by
    rw [Finset.sum_div]
  have h1 : |∑ i, val (fdiv (v.get i) l) ^ 2 - ∑ i, val (v.get i) ^ 2 / val l ^ 2| ≤
      ∑ i : Fin 3, (21 / 10 * ε * (val (v.get i) ^ 2 / val l ^ 2) + 3 * η) := by
    rw [← Finset.sum_sub_distrib]
    exact (Finset.abs_sum_le_sum_abs _ _).trans (Finset.sum_le_sum fun i _ => (hcomp i).2)
  rw [Finset.sum_add_distrib, ← Finset.mul_sum, hS2, Finset.sum_const, Finset.card_univ, Fintype.card_fin] at h1
  generalize ∑ i, val (v.get i) ^ 2 = S at *
  have l2 : 0 < val l ^ 2 := by positivity
  have b1 : S / val l ^ 2 ≤ 1 + 52 / 10 * ε := by
    rw [div_le_iff₀ l2]
    nlinarith
  have b2 : 1 - 52 / 10 * ε ≤ S / val l ^ 2 := by
    rw [le_div_iff₀ l2]
    nlinarith
  generalize S / val l ^ 2 = R at *
  have h2 := abs_le.1 h1
  norm_num at h2
  rw [abs_le]
  constructor <;> nlinarith

/-- A number up to half of the first one that is too large does not overflow. -/
theorem rnd_half_big (U : Usual T) {a : T} {x : ℝ} (h : Elem.isNan a = false ∧ ext a = rnd 𝔽 x)
    (hx : |x| ≤ big 𝔽 / 2) : IsFinite a := by
  have hb := U.big
  have e0 := eps_pos (T := T)
  have he := RN_error (grid 𝔽) x
  have h1 := U.eps
  have h2 := U.tiny_le
  change |(grid 𝔽).RN x - x| ≤ ε * |x| + η at he
  have h3 : |(grid 𝔽).RN x| ≤ |x| + |(grid 𝔽).RN x - x| := by
    have := abs_add_le x ((grid 𝔽).RN x - x)
    simpa using this
  have h4 : ε * |x| ≤ 1 / 1000 * |x| := mul_le_mul_of_nonneg_right h1 (abs_nonneg _)
  have h5 : |(grid 𝔽).RN x| < big 𝔽 := by linarith
  refine (finite_of_ext h.1 (x := (grid 𝔽).RN x) ?_).1
  rw [h.2]
  unfold rnd
  rw [abs_lt] at h5
  rw [if_neg (by linarith), if_neg (by linarith)]

/-- The length of a vector that is not too long is finite. -/
theorem len_finite (U : Usual T) (v : Vector3 T) (hf : ∀ i, IsFinite (v.get i))
    (hS : ∑ i, val (v.get i) ^ 2 ≤ big 𝔽 / 4) : ∃ l : T, v.len = .ok l ∧ IsFinite l := by
  refine ⟨_, flen_vector v, ?_⟩
  have hb := U.big
  have e0 := eps_pos (T := T)
  have n0 := tiny_pos (T := T)
  have h1 := U.eps
  have h2 := U.tiny_le
  have sq : ∀ x : T, IsFinite x → val x ^ 2 ≤ big 𝔽 / 4 → IsFinite (fmul x x) ∧
      0 ≤ val (fmul x x) ∧ val (fmul x x) ≤ 1001 / 1000 * val x ^ 2 + 1 / 1000 := by
    intro x hx hle
    have f := rnd_half_big U (fmul_rnd hx hx) (by rw [← pow_two, abs_of_nonneg (sq_nonneg _)]; linarith)
    have k := fmul_err f
    have h0 : 0 ≤ val (fmul x x) := by
      rw [val_of_rnd (fmul_rnd hx hx) f]
      exact RN_nonneg (mul_self_nonneg _)
    rw [← pow_two, abs_of_nonneg (sq_nonneg (val x))] at k
    have := mul_le_mul_of_nonneg_right h1 (sq_nonneg (val x))
    exact ⟨f, h0, by linarith [(abs_le.1 k).2]⟩
  have add : ∀ a b : T, IsFinite a → IsFinite b → 0 ≤ val a → 0 ≤ val b → val a + val b ≤ big 𝔽 / 2 →
      IsFinite (fadd a b) ∧ 0 ≤ val (fadd a b) ∧ val (fadd a b) ≤ 1001 / 1000 * (val a + val b) := by
    intro a b ha hb' a0 b0 hle
    have f := rnd_half_big U (fadd_rnd ha hb') (by rw [abs_of_nonneg (by linarith)]; exact hle)
    have k := fadd_err f
    have h0 : 0 ≤ val (fadd a b) := by
      rw [val_of_rnd (fadd_rnd ha hb') f]
      exact RN_nonneg (by linarith)
    rw [abs_of_nonneg (by linarith : 0 ≤ val a + val b)] at k
    have := mul_le_mul_of_nonneg_right h1 (by linarith : 0 ≤ val a + val b)
    exact ⟨f, h0, by linarith [(abs_le.1 k).2]⟩
  rw [Fin.sum_univ_three] at hS
  change val v.x ^ 2 + val v.y ^ 2 + val v.z ^ 2 ≤ _ at hS
  have x2 := sq_nonneg (val v.x)
  have y2 := sq_nonneg (val v.y)
  have z2 := sq_nonneg (val v.z)
  obtain ⟨fx, x0, x1⟩ := sq v.x (hf 0) (by linarith)
  obtain ⟨fy, y0, y1⟩ := sq v.y (hf 1) (by linarith)
  obtain ⟨fz, z0, z1⟩ := sq v.z (hf 2) (by linarith)
  obtain ⟨fa, a0, a1⟩ := add _ _ fx fy x0 y0 (by linarith)
  obtain ⟨fb, b0, b1⟩ := add _ _ fa fz a0 z0 (by linarith)
  refine rnd_half_big U (fsqrt_rnd fb b0) ?_
  rw [abs_of_nonneg (Real.sqrt_nonneg _), Real.sqrt_le_left (by linarith)]
  nlinarith

/-- **C95** for every float type -/
theorem unit_and_frame (U : Usual T) (v : Vector3 T) (hf : ∀ i, IsFinite (v.get i))
    (h1 : η ≤ ε ^ 2 * ∑ i, val (v.get i) ^ 2) (h2 : ∑ i, val (v.get i) ^ 2 ≤ big 𝔽 / 4) :
    ∃ l w v2 v3, v.len = .ok l ∧ v.div l = .ok w ∧ NearUnit v.get w.get ∧
      w.coordinateSystem = .ok (v2, v3) ∧ NearFrame w v2 v3 := by
  obtain ⟨l, hl, fl⟩ := len_finite U v hf h2
  obtain ⟨w, hw, hu⟩ := unit_vector U v l hl fl h1
  have := abs_le.1 hu.unit
  have := U.eps
  obtain ⟨v2, v3, h3, h4⟩ := near_frame U w hu.finite (by linarith) (by linarith)
  exact ⟨l, w, v2, v3, hl, hw, hu, h3, h4⟩

/-- The same for normals -/
theorem unit_normal (U : Usual T) (v : Normal3 T) (hf : ∀ i, IsFinite (v.get i))
    (h1 : η ≤ ε ^ 2 * ∑ i, val (v.get i) ^ 2) (h2 : ∑ i, val (v.get i) ^ 2 ≤ big 𝔽 / 4) :
    ∃ l w, v.len = .ok l ∧ v.div l = .ok w ∧ NearUnit v.get w.get := by
  have hg : ∀ n : Normal3 T, (⟨n.x, n.y, n.z⟩ : Vector3 T).get = n.get := by
    intro n; funext i; fin_cases i <;> rfl
  obtain ⟨l, w, -, -, h3, h4, h5, -⟩ := unit_and_frame U ⟨v.x, v.y, v.z⟩ (by rw [hg]; exact hf)
    (by rw [hg]; exact h1) (by rw [hg]; exact h2)
  refine ⟨l, ⟨w.x, w.y, w.z⟩, ?_, ?_, ?_⟩
  · rw [flen_vector] at h3
    rw [flen_normal]
    exact h3
  · simp only [Vector3.div, Normal3.div, fdiv_ok, ok_bind, pure_ok, Except.ok.injEq] at h4 ⊢
    subst h4
    rfl
  · rw [hg] at h5
    rwa [← hg ⟨w.x, w.y, w.z⟩]

end

theorem bounds32 {S : ℝ} (h1 : 2 ^ (-102 : ℤ) ≤ S) (h2 : S ≤ 2 ^ 126) :
    tiny Float32.Model ≤ unitRoundoff Float32.Model ^ 2 * S ∧ S ≤ big (IEEE.fmt Float32.Model) / 4 := by
  have e1 : unitRoundoff Float32.Model = 2 ^ (-24 : ℤ) := rfl
  have e2 : tiny Float32.Model = 2 ^ (-150 : ℤ) := rfl
  have e3 : big (IEEE.fmt Float32.Model) = 2 ^ (128 : ℤ) := rfl
  rw [e1, e2, e3]
  constructor
  · rw [← zpow_natCast, ← zpow_mul]
    calc (2 : ℝ) ^ (-150 : ℤ) = 2 ^ ((-24 : ℤ) * (2 : ℕ)) * 2 ^ (-102 : ℤ) := by
          rw [← zpow_add₀ (by norm_num)]; norm_num
      _ ≤ _ := mul_le_mul_of_nonneg_left h1 (two_zpow_pos _).le
  · refine h2.trans (le_of_eq ?_)
    norm_num

theorem bounds64 {S : ℝ} (h1 : 2 ^ (-969 : ℤ) ≤ S) (h2 : S ≤ 2 ^ 1022) :
    tiny Float.Model ≤ unitRoundoff Float.Model ^ 2 * S ∧ S ≤ big (IEEE.fmt Float.Model) / 4 := by
  have e1 : unitRoundoff Float.Model = 2 ^ (-53 : ℤ) := rfl
  have e2 : tiny Float.Model = 2 ^ (-1075 : ℤ) := rfl
  have e3 : big (IEEE.fmt Float.Model) = 2 ^ (1024 : ℤ) := rfl
  rw [e1, e2, e3]
  constructor
  · rw [← zpow_natCast, ← zpow_mul]
    calc (2 : ℝ) ^ (-1075 : ℤ) = 2 ^ ((-53 : ℤ) * (2 : ℕ)) * 2 ^ (-969 : ℤ) := by
          rw [← zpow_add₀ (by norm_num)]; norm_num
      _ ≤ _ := mul_le_mul_of_nonneg_left h1 (two_zpow_pos _).le
  · refine h2.trans (le_of_eq ?_)
    rw [show (2 : ℝ) ^ 1022 = 2 ^ (1022 : ℤ) by rw [← zpow_natCast]; rfl, show (4 : ℝ) = 2 ^ (2 : ℤ) by norm_num,
      ← zpow_sub₀ (by norm_num)]
    rfl

/-- **C95**: an `f32` vector that is neither very short nor very long, divided by its length, is nearly a
    vector of length one in the same direction, and `coordinate_system` completes it to a near frame. -/
theorem C95_unit_f32 (v : Vector3 Float32.Model) (hf : ∀ i, IsFinite (v.get i))
    (h1 : 2 ^ (-102 : ℤ) ≤ ∑ i, val (v.get i) ^ 2) (h2 : ∑ i, val (v.get i) ^ 2 ≤ 2 ^ 126) :
    ∃ l w v2 v3, v.len = .ok l ∧ v.div l = .ok w ∧ NearUnit v.get w.get ∧
      w.coordinateSystem = .ok (v2, v3) ∧ NearFrame w v2 v3 :=
  unit_and_frame usual32 v hf (bounds32 h1 h2).1 (bounds32 h1 h2).2

/-- **C95**: the same for `f64`. -/
theorem C95_unit_f64 (v : Vector3 Float.Model) (hf : ∀ i, IsFinite (v.get i))
    (h1 : 2 ^ (-969 : ℤ) ≤ ∑ i, val (v.get i) ^ 2) (h2 : ∑ i, val (v.get i) ^ 2 ≤ 2 ^ 1022) :
    ∃ l w v2 v3, v.len = .ok l ∧ v.div l = .ok w ∧ NearUnit v.get w.get ∧
      w.coordinateSystem = .ok (v2, v3) ∧ NearFrame w v2 v3 :=
  unit_and_frame usual64 v hf (bounds64 h1 h2).1 (bounds64 h1 h2).2

/-- **C95**: normals of `f32` -/
theorem C95_normal_f32 (v : Normal3 Float32.Model) (hf : ∀ i, IsFinite (v.get i))
    (h1 : 2 ^ (-102 : ℤ) ≤ ∑ i, val (v.get i) ^ 2) (h2 : ∑ i, val (v.get i) ^ 2 ≤ 2 ^ 126) :
    ∃ l w, v.len = .ok l ∧ v.div l = .ok w ∧ NearUnit v.get w.get :=
  unit_normal usual32 v hf (bounds32 h1 h2).1 (bounds32 h1 h2).2

/-- **C95**: normals of `f64` -/
theorem C95_normal_f64 (v : Normal3 Float.Model) (hf : ∀ i, IsFinite (v.get i))
    (h1 : 2 ^ (-969 : ℤ) ≤ ∑ i, val (v.get i) ^ 2) (h2 : ∑ i, val (v.get i) ^ 2 ≤ 2 ^ 1022) :
    ∃ l w, v.len = .ok l ∧ v.div l = .ok w ∧ NearUnit v.get w.get :=
  unit_normal usual64 v hf (bounds64 h1 h2).1 (bounds64 h1 h2).2

/-! ### Instances and limits -/

open UnitTests in
/-- The hypotheses hold for `(3, 4, 12)`, of length 13. -/
example : (∀ i, IsFinite ((fv 3 4 12).get i)) ∧ 2 ^ (-102 : ℤ) ≤ ∑ i, val ((fv 3 4 12).get i) ^ 2 ∧
    ∑ i, val ((fv 3 4 12).get i) ^ 2 ≤ 2 ^ 126 ∧ (fv 3 4 12).len = .ok (f32 13) := by
  have h : ∑ i, val ((fv 3 4 12).get i) ^ 2 = 169 := by
    have h : ∀ n : ℤ, val (f32 n) = (ratVal (up (f32 n)) : ℝ) := fun n => val_eq (f32 n)
    rw [Fin.sum_univ_three]
    show val (f32 3) ^ 2 + val (f32 4) ^ 2 + val (f32 12) ^ 2 = 169
    rw [h, h, h, show ratVal (up (f32 3)) = 3 by decide +kernel, show ratVal (up (f32 4)) = 4 by decide +kernel,
      show ratVal (up (f32 12)) = 12 by decide +kernel]
    norm_num
  rw [h]
  exact ⟨by decide +kernel, by norm_num, by norm_num, by decide +kernel⟩

/-- A limit of **C95**: a short non-zero vector has length zero, and dividing by it gives infinities and
    NaN. -/
theorem C95_short_refuted : ∃ v w : Vector3 Float32.Model, (∀ i, IsFinite (v.get i)) ∧
    (∃ i, ¬ Same (v.get i) (f32 0)) ∧ v.len = .ok (f32 0) ∧ v.div (f32 0) = .ok w ∧ ∀ i, ¬ IsFinite (w.get i) :=
  ⟨⟨fdiv (f32 1) (f32 (2 ^ 100)), f32 0, f32 0⟩, ⟨inf32, nan32, nan32⟩, by decide +kernel⟩

/-- A limit of **C95**: the length of a long vector is infinite, and dividing by it gives the zero vector. -/
theorem C95_long_refuted : ∃ v w : Vector3 Float32.Model, (∀ i, IsFinite (v.get i)) ∧
    v.len = .ok inf32 ∧ v.div inf32 = .ok w ∧ ∀ i, Same (w.get i) (f32 0) :=
  ⟨fv (2 ^ 64) 0 0, fv 0 0 0, by decide +kernel⟩

/-- A limit of **C95**: the length of a vector divided by its length is not exactly one. -/
theorem C95_exact_refuted : ∃ v w : Vector3 Float32.Model, ∃ l l' : Float32.Model, v.len = .ok l ∧
    v.div l = .ok w ∧ w.len = .ok l' ∧ ¬ Same l' (f32 1) :=
  ⟨fv 1 1 1, _, _, _, rfl, rfl, rfl, by decide +kernel⟩

end Pbrt
