import Verif.Props.Matrices
import Verif.Spec.ScaleTest
import Mathlib.Tactic.Linarith
import Mathlib.Tactic.NormNum
import Mathlib.Tactic.Positivity
import Mathlib.Tactic.FieldSimp

/-!
# C91: what `has_scale` says about lengths

`has_scale` looks at the images of the three unit vectors only.
-/

namespace Pbrt

open Spec

theorem hasScale_false (t : Transform ℝ) : t.hasScale = .ok false ↔
    ∀ j : Fin 3, 999 / 1000 ≤ ∑ i : Fin 3, t.m.mat i.castSucc j.castSucc ^ 2 ∧
      ∑ i : Fin 3, t.m.mat i.castSucc j.castSucc ^ 2 ≤ 1001 / 1000 := by
  obtain ⟨r, h1, h2⟩ := C36_has_scale_value t
  rw [h1]
  constructor
  · intro h j
    have hr : ¬ r = true := by
      cases h
      simp
    rw [h2] at hr
    simp only [not_exists, not_or, not_lt] at hr
    exact hr j
  · intro h
    have hr : ¬ r = true := by
      rw [h2]
      simp only [not_exists, not_or, not_lt]
      exact h
    simp at hr
    rw [hr]

/-- The square of the length of the image -/
theorem transform_normSq {v w : Vector3 ℝ} {t : Transform ℝ} (h : v.transform t = .ok w) :
    normSq w = ∑ i : Fin 3, (∑ j : Fin 3, t.m.mat i.castSucc j.castSucc * v.get j) ^ 2 := by
  obtain ⟨w', h1, h2⟩ := C35_value (K := ℝ) v t
  obtain rfl : w' = w := Except.ok.inj (h1.symm.trans h)
  unfold normSq
  exact Finset.sum_congr rfl fun i _ => by rw [h2]; rfl

/-- The image of a unit vector is a column. -/
theorem transform_unit (t : Transform ℝ) (j : Fin 3) : ∃ v w : Vector3 ℝ, v.transform t = .ok w ∧
    normSq v = 1 ∧ normSq w = ∑ i : Fin 3, t.m.mat i.castSucc j.castSucc ^ 2 := by
  have : ∃ v : Vector3 ℝ, ∀ k, v.get k = if k = j then 1 else 0 := by
    fin_cases j
    · exact ⟨⟨1, 0, 0⟩, fun k => by fin_cases k <;> simp [Vector3.get]⟩
    · exact ⟨⟨0, 1, 0⟩, fun k => by fin_cases k <;> simp [Vector3.get]⟩
    · exact ⟨⟨0, 0, 1⟩, fun k => by fin_cases k <;> simp [Vector3.get]⟩
  obtain ⟨v, hv⟩ := this
  obtain ⟨w, hw, _⟩ := C35_value (K := ℝ) v t
  refine ⟨v, w, hw, ?_, ?_⟩
  · simp [normSq, hv]
  · rw [transform_normSq hw]
    simp [hv]

/-- **C91**: if lengths hardly change there is no scale. -/
theorem C91_keeps_lengths (t : Transform ℝ) (h : KeepsLengths t) : t.hasScale = .ok false := by
  rw [hasScale_false]
  intro j
  obtain ⟨v, w, h1, h2, h3⟩ := transform_unit t j
  have := h v w h1
  rw [h2, h3] at this
  exact ⟨by linarith [this.1], by linarith [this.2]⟩

/-- **C91**: where the images of the axes are orthogonal to each other (rotations, reflections,
    scalings along the axes and what is made of them with a rotation last), there is no scale
    exactly if lengths hardly change. -/
theorem C91_right_angles (t : Transform ℝ) (h : RightAngles t) :
    t.hasScale = .ok false ↔ KeepsLengths t := by
  refine ⟨fun hs v w hw => ?_, C91_keeps_lengths t⟩
  rw [hasScale_false] at hs
  have h01 := h 0 1 (by decide)
  have h02 := h 0 2 (by decide)
  have h12 := h 1 2 (by decide)
  have h0 := hs 0
  have h1 := hs 1
  have h2 := hs 2
  rw [transform_normSq hw]
  simp only [normSq, Fin.sum_univ_three] at *
  have key : ∀ a b c d e f g h i x y z : ℝ, a * d + b * e + c * f = 0 → a * g + b * h + c * i = 0 →
      d * g + e * h + f * i = 0 →
      (a * x + d * y + g * z) ^ 2 + (b * x + e * y + h * z) ^ 2 + (c * x + f * y + i * z) ^ 2 =
      (a ^ 2 + b ^ 2 + c ^ 2) * x ^ 2 + (d ^ 2 + e ^ 2 + f ^ 2) * y ^ 2 +
        (g ^ 2 + h ^ 2 + i ^ 2) * z ^ 2 := by
    intro a b c d e f g h i x y z e1 e2 e3
    linear_combination 2 * x * y * e1 + 2 * x * z * e2 + 2 * y * z * e3
  rw [key _ _ _ _ _ _ _ _ _ _ _ _ h01 h02 h12]
  have p0 := sq_nonneg (v.get 0)
  have p1 := sq_nonneg (v.get 1)
  have p2 := sq_nonneg (v.get 2)
  constructor
  · nlinarith [mul_le_mul_of_nonneg_right h0.1 p0, mul_le_mul_of_nonneg_right h1.1 p1,
      mul_le_mul_of_nonneg_right h2.1 p2]
  · nlinarith [mul_le_mul_of_nonneg_right h0.2 p0, mul_le_mul_of_nonneg_right h1.2 p1,
      mul_le_mul_of_nonneg_right h2.2 p2]

/-- **C91**: without scale, no vector becomes longer than by the factor `sqrt 3.003`. -/
theorem C91_upper (t : Transform ℝ) (h : t.hasScale = .ok false) (v w : Vector3 ℝ)
    (hw : v.transform t = .ok w) : normSq w ≤ 3003 / 1000 * normSq v := by
  rw [hasScale_false] at h
  have h0 := (h 0).2
  have h1 := (h 1).2
  have h2 := (h 2).2
  rw [transform_normSq hw]
  simp only [normSq, Fin.sum_univ_three] at *
  have cs : ∀ a b c x y z : ℝ, (a * x + b * y + c * z) ^ 2 ≤
      (a ^ 2 + b ^ 2 + c ^ 2) * (x ^ 2 + y ^ 2 + z ^ 2) := by
    intro a b c x y z
    nlinarith [sq_nonneg (a * y - b * x), sq_nonneg (a * z - c * x), sq_nonneg (b * z - c * y)]
  have p : 0 ≤ v.get 0 ^ 2 + v.get 1 ^ 2 + v.get 2 ^ 2 := by positivity
  refine (add_le_add (add_le_add (cs _ _ _ _ _ _) (cs _ _ _ _ _ _)) (cs _ _ _ _ _ _)).trans ?_
  rw [← add_mul, ← add_mul]
  refine mul_le_mul_of_nonneg_right ?_ p
  linarith

/-- **C91**: the factor is reached. -/
theorem C91_upper_reached : ∃ (t : Transform ℝ) (v w : Vector3 ℝ), t.hasScale = .ok false ∧
    v.transform t = .ok w ∧ normSq v = 3 ∧ normSq w = 3003 / 1000 * normSq v := by
  let x : ℝ := Real.sqrt (1001 / 1000)
  have hx : x ^ 2 = 1001 / 1000 := Real.sq_sqrt (by norm_num)
  let t : Transform ℝ := ⟨⟨Mat44.ofRows x x x 0 0 0 0 0 0 0 0 0 0 0 0 1⟩, Matrix4.one ℝ⟩
  obtain ⟨w, hw, _⟩ := C35_value (K := ℝ) (⟨1, 1, 1⟩ : Vector3 ℝ) t
  refine ⟨t, ⟨1, 1, 1⟩, w, ?_, hw, ?_, ?_⟩
  · rw [hasScale_false]
    intro j
    fin_cases j <;> simp [t, Mat44.ofRows, Fin.sum_univ_three, hx] <;> norm_num
  · simp [normSq, Fin.sum_univ_three, Vector3.get]
    norm_num
  · rw [transform_normSq hw]
    simp [normSq, t, Mat44.ofRows, Fin.sum_univ_three, Vector3.get]
    nlinarith [hx]

/-- **C91**, violated: a transform built by `new_` that has no scale may shorten a vector by any
    factor. -/
theorem C91_no_scale_refuted (e : ℝ) (he : 0 < e) : ∃ (m : Matrix4 ℝ) (t : Transform ℝ),
    Transform.new_ m = .ok t ∧ t.hasScale = .ok false ∧ ∃ v w : Vector3 ℝ,
      v.transform t = .ok w ∧ normSq v = 2 ∧ normSq w < e := by
  let q : ℝ := min 1 e / 4
  have hq : 0 < q := by positivity
  have hq1 : q ≤ 1 / 4 := by
    have : min 1 e ≤ 1 := min_le_left _ _
    show min 1 e / 4 ≤ _
    linarith
  have hqe : q ≤ e / 4 := by
    have : min 1 e ≤ e := min_le_right _ _
    show min 1 e / 4 ≤ _
    linarith
  clear_value q
  have hd : 0 < 1 + q ^ 2 := by positivity
  let c : ℝ := (1 - q ^ 2) / (1 + q ^ 2)
  let s : ℝ := 2 * q / (1 + q ^ 2)
  have hs : s ≠ 0 := by positivity
  have hcs : c ^ 2 + s ^ 2 = 1 := by
    show ((1 - q ^ 2) / (1 + q ^ 2)) ^ 2 + (2 * q / (1 + q ^ 2)) ^ 2 = 1
    field_simp
    ring
  have hc : 2 - 2 * c < e := by
    have : 2 - 2 * c = 4 * q ^ 2 / (1 + q ^ 2) := by
      show 2 - 2 * ((1 - q ^ 2) / (1 + q ^ 2)) = _
      field_simp
      ring
    rw [this, div_lt_iff₀ hd]
    nlinarith
  clear_value c s
  let m : Matrix4 ℝ := ⟨Mat44.ofRows 1 c 0 0 0 s 0 0 0 0 1 0 0 0 0 1⟩
  have hm : m.toMatrix.det ≠ 0 := by
    have : m.toMatrix.det = s := by
      simp [Matrix.det_succ_row_zero, Fin.sum_univ_succ, m, Matrix4.toMatrix, Mat44.ofRows,
        Fin.succAbove]
    rw [this]
    exact hs
  obtain ⟨t, ht⟩ := (C33_new m).1.2 hm
  have htm := (C33_new m).2 t ht
  obtain ⟨w, hw, _⟩ := C35_value (K := ℝ) (⟨1, -1, 0⟩ : Vector3 ℝ) t
  refine ⟨m, t, ht, ?_, ⟨1, -1, 0⟩, w, hw, ?_, ?_⟩
  · rw [hasScale_false, htm]
    intro j
    fin_cases j <;> simp [m, Mat44.ofRows, Fin.sum_univ_three, hcs] <;> norm_num
  · simp [normSq, Fin.sum_univ_three, Vector3.get]
    norm_num
  · rw [transform_normSq hw, htm]
    simp [m, Mat44.ofRows, Fin.sum_univ_three, Vector3.get]
    nlinarith

/-- **C91**: rigid motions have no scale, and neither have their inverses. -/
theorem C91_rigid (t : Transform ℝ) (h : Rigid t) :
    t.hasScale = .ok false ∧ (t.BlocksConsistent → Rigid t.inverse ∧ t.inverse.hasScale = .ok false) := by
  have key : ∀ t : Transform ℝ, Rigid t → t.hasScale = .ok false := by
    intro t h
    refine C91_keeps_lengths t fun v w hw => ?_
    rw [h v w hw]
    have : 0 ≤ normSq v := Finset.sum_nonneg fun i _ => sq_nonneg _
    exact ⟨by linarith, by linarith⟩
  refine ⟨key t h, fun hb => ?_⟩
  have hr : Rigid t.inverse := by
    intro v w hw
    obtain ⟨u, hu, hu'⟩ := C35_value (K := ℝ) w t
    obtain ⟨w', hw', hv⟩ := C35_value (K := ℝ) v t.inverse
    obtain rfl : w' = w := Except.ok.inj (hw'.symm.trans hw)
    have : normSq u = normSq v := by
      unfold normSq
      refine Finset.sum_congr rfl fun i _ => ?_
      congr 1
      have e : ∀ x : ℝ, (As.as_ x : ℝ) = x := fun _ => rfl
      simp only [hu', hv, e, Finset.mul_sum, Transform.inverse]
      rw [Finset.sum_comm]
      calc _ = ∑ j : Fin 3, (∑ k : Fin 3, t.m.mat i.castSucc k.castSucc * t.mInv.mat k.castSucc j.castSucc) * v.get j := by
            refine Finset.sum_congr rfl fun j _ => ?_
            rw [Finset.sum_mul]
            exact Finset.sum_congr rfl fun k _ => by ring
        _ = v.get i := by
            simp [fun j => (hb i j).1]
    rw [← h w' u hu, this]
  exact ⟨hr, key _ hr⟩

/-- **C91**: a rigid motion applied last does not change whether there is scale. -/
theorem C91_rigid_last (a b c : Transform ℝ) (ha : Rigid a) (hc : a.m.mul b.m = .ok c.m)
    (hb : ∀ j : Fin 3, b.m.mat 3 j.castSucc = 0) : c.hasScale = b.hasScale := by
  have hcol : ∀ j : Fin 3, ∑ i : Fin 3, c.m.mat i.castSucc j.castSucc ^ 2 =
      ∑ i : Fin 3, b.m.mat i.castSucc j.castSucc ^ 2 := by
    intro j
    have : ∃ v : Vector3 ℝ, ∀ k, v.get k = if k = j then 1 else 0 := by
      fin_cases j
      · exact ⟨⟨1, 0, 0⟩, fun k => by fin_cases k <;> simp [Vector3.get]⟩
      · exact ⟨⟨0, 1, 0⟩, fun k => by fin_cases k <;> simp [Vector3.get]⟩
      · exact ⟨⟨0, 0, 1⟩, fun k => by fin_cases k <;> simp [Vector3.get]⟩
    obtain ⟨v, hv⟩ := this
    have hp := C35_product v a b c hc hb
    obtain ⟨w, hw, _⟩ := C35_value (K := ℝ) v b
    obtain ⟨u, hu, _⟩ := C35_value (K := ℝ) w a
    rw [hw, ok_bind, hu] at hp
    have h1 := transform_normSq hp.symm
    have h2 := transform_normSq hw
    have h3 := ha w u hu
    simp [hv] at h1 h2
    rw [← h1, ← h2, h3]
  have : c.hasScale = .ok false ↔ b.hasScale = .ok false := by
    rw [hasScale_false, hasScale_false]
    simp only [hcol]
  obtain ⟨r, h1, _⟩ := C36_has_scale_value c
  obtain ⟨r', h2, _⟩ := C36_has_scale_value b
  rw [h1, h2] at this ⊢
  cases r <;> cases r' <;> simp_all

/-- **C91**, violated: a transform without scale whose inverse has scale. -/
theorem C91_inverse_refuted : ∃ (m : Matrix4 ℝ) (t : Transform ℝ), Transform.new_ m = .ok t ∧
    t.hasScale = .ok false ∧ t.inverse.hasScale = .ok true := by
  let m : Matrix4 ℝ := ⟨Mat44.ofRows (9995 / 10000) 0 0 0 0 1 0 0 0 0 1 0 0 0 0 1⟩
  let m' : Matrix4 ℝ := ⟨Mat44.ofRows (10000 / 9995) 0 0 0 0 1 0 0 0 0 1 0 0 0 0 1⟩
  have hmm : m'.toMatrix * m.toMatrix = 1 := by
    ext i j
    fin_cases i <;> fin_cases j <;>
      simp [m, m', Matrix4.toMatrix, Matrix.mul_apply, Fin.sum_univ_four, Mat44.ofRows]
  have hm : m.toMatrix.det ≠ 0 := by
    intro h
    have := congrArg Matrix.det hmm
    rw [Matrix.det_mul, h, mul_zero, Matrix.det_one] at this
    exact zero_ne_one this
  obtain ⟨t, ht⟩ := (C33_new m).1.2 hm
  have htm := (C33_new m).2 t ht
  have hc := (consistent_iff t).1 (C33_consistent t (.new_ ht))
  have hinv : t.mInv = m' := by
    have : t.mInv.toMatrix = m'.toMatrix := by
      rw [htm] at hc
      calc _ = (m'.toMatrix * m.toMatrix) * t.mInv.toMatrix := by rw [hmm, one_mul]
        _ = m'.toMatrix := by rw [mul_assoc, hc, mul_one]
    cases h : t.mInv
    rw [h] at this
    congr 1
  refine ⟨m, t, ht, ?_, ?_⟩
  · rw [hasScale_false, htm]
    intro j
    fin_cases j <;> simp [m, Mat44.ofRows, Fin.sum_univ_three] <;> norm_num
  · obtain ⟨r, h1, h2⟩ := C36_has_scale_value t.inverse
    rw [h1, h2.2]
    refine ⟨0, ?_⟩
    show _ ∨ _
    simp only [Transform.inverse, hinv]
    simp [m', Mat44.ofRows, Fin.sum_univ_three]
    norm_num

/-- A turn about the third axis by the angle with cosine 3/5, mirrored on the second -/
noncomputable def turned : Transform ℝ :=
  ⟨⟨Mat44.ofRows (3 / 5) (4 / 5) 0 7 (4 / 5) (-3 / 5) 0 8 0 0 1 9 0 0 0 1⟩, Matrix4.one ℝ⟩

theorem turned_rigid : Rigid turned := by
  intro v w hw
  rw [transform_normSq hw]
  simp [normSq, turned, Mat44.ofRows, Fin.sum_univ_three]
  ring

example : Rigid turned ∧ turned.hasScale = .ok false := ⟨turned_rigid, (C91_rigid _ turned_rigid).1⟩

/-- A scaling by 2 along the first axis, then the turn: orthogonal images, and scale -/
example : ∃ c : Transform ℝ, RightAngles c ∧ ¬ KeepsLengths c ∧ c.hasScale = .ok true := by
  let c : Transform ℝ :=
    ⟨⟨Mat44.ofRows (6 / 5) (4 / 5) 0 7 (8 / 5) (-3 / 5) 0 8 0 0 1 9 0 0 0 1⟩, Matrix4.one ℝ⟩
  have h1 : RightAngles c := by
    intro j k hjk
    fin_cases j <;> fin_cases k <;> simp [c, Mat44.ofRows, Fin.sum_univ_three] at hjk ⊢ <;> norm_num
  have h2 : c.hasScale = .ok true := by
    obtain ⟨r, h1, h2⟩ := C36_has_scale_value c
    rw [h1, h2.2]
    refine ⟨0, Or.inr ?_⟩
    simp [c, Mat44.ofRows, Fin.sum_univ_three]
    norm_num
  refine ⟨c, h1, fun h => ?_, h2⟩
  rw [C91_keeps_lengths c h] at h2
  cases h2

end Pbrt
