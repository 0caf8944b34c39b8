import Verif.Props.FloatBoxes
import Verif.Props.Components
import Mathlib.Analysis.InnerProductSpace.PiL2

/-!
# C67: lengths

In exact real arithmetic `dot` and `len` are the inner product and the norm of Euclidean space
(Mathlib's `EuclideanSpace ℝ (Fin 3)`).  For floats: what survives rounding.
-/

namespace Pbrt

open Float.Model (UnpackedFloat Format)

/-- A vector as an element of Euclidean space -/
def Vector3.space (v : Vector3 ℝ) : EuclideanSpace ℝ (Fin 3) := WithLp.toLp 2 v.get
/-- A normal as an element of Euclidean space -/
def Normal3.space (v : Normal3 ℝ) : EuclideanSpace ℝ (Fin 3) := WithLp.toLp 2 v.get

theorem space_norm (x : Fin 3 → ℝ) :
    ‖(WithLp.toLp 2 x : EuclideanSpace ℝ (Fin 3))‖ = Real.sqrt (x 0 * x 0 + x 1 * x 1 + x 2 * x 2) := by
  rw [EuclideanSpace.norm_eq, Fin.sum_univ_three]
  simp [pow_two]

theorem space_inner (x y : Fin 3 → ℝ) :
    inner ℝ (WithLp.toLp 2 x : EuclideanSpace ℝ (Fin 3)) (WithLp.toLp 2 y) =
      x 0 * y 0 + x 1 * y 1 + x 2 * y 2 := by
  rw [PiLp.inner_apply, Fin.sum_univ_three]
  simp [mul_comm]

theorem sq_sum_nonneg (x y z : ℝ) : 0 ≤ x * x + y * y + z * z :=
  add_nonneg (add_nonneg (mul_self_nonneg _) (mul_self_nonneg _)) (mul_self_nonneg _)

/-- **C67**: `len` is the Euclidean norm and `dot` the inner product. -/
theorem C67_norm (u v : Vector3 ℝ) :
    v.len = .ok ‖v.space‖ ∧ u.dot v = .ok (inner ℝ u.space v.space) := by
  refine ⟨?_, ?_⟩
  · unfold Vector3.space
    rw [space_norm]
    simp only [Vector3.len, Vector3.lenSq, mul_ok, add_ok, ok_bind]
    exact sqrt_ok (sq_sum_nonneg _ _ _)
  · unfold Vector3.space
    rw [space_inner]
    simp [Vector3.dot, Vector3.get]

/-- **C67**: the same for normals. -/
theorem C67_norm_normal (u v : Normal3 ℝ) :
    v.len = .ok ‖v.space‖ ∧ u.dot v = .ok (inner ℝ u.space v.space) := by
  refine ⟨?_, ?_⟩
  · unfold Normal3.space
    rw [space_norm]
    simp only [Normal3.len, Normal3.lenSq, mul_ok, add_ok, ok_bind]
    exact sqrt_ok (sq_sum_nonneg _ _ _)
  · unfold Normal3.space
    rw [space_inner]
    simp [Normal3.dot, Normal3.get]

theorem Vector3.space_inj {u v : Vector3 ℝ} : u.space = v.space ↔ u = v := by
  constructor
  · intro h
    have := congrArg (fun w : EuclideanSpace ℝ (Fin 3) => (w 0, w 1, w 2)) h
    simp only [Vector3.space, Vector3.get, Prod.mk.injEq] at this
    cases u; cases v; simpa using this
  · rintro rfl; rfl

theorem space_add (u v : Vector3 ℝ) : u.add v = .ok ⟨u.x + v.x, u.y + v.y, u.z + v.z⟩ ∧
    (⟨u.x + v.x, u.y + v.y, u.z + v.z⟩ : Vector3 ℝ).space = u.space + v.space := by
  refine ⟨by simp [Vector3.add], ?_⟩
  ext i; fin_cases i <;> simp [Vector3.space, Vector3.get]

theorem space_mul (v : Vector3 ℝ) (s : ℝ) : v.mul s = .ok ⟨s * v.x, s * v.y, s * v.z⟩ ∧
    (⟨s * v.x, s * v.y, s * v.z⟩ : Vector3 ℝ).space = s • v.space := by
  refine ⟨by simp [Vector3.mul], ?_⟩
  ext i; fin_cases i <;> simp [Vector3.space, Vector3.get]

theorem space_div (v : Vector3 ℝ) (s : ℝ) (hs : s ≠ 0) : v.div s = .ok ⟨v.x / s, v.y / s, v.z / s⟩ ∧
    (⟨v.x / s, v.y / s, v.z / s⟩ : Vector3 ℝ).space = s⁻¹ • v.space := by
  refine ⟨by simp [Vector3.div, div_ok _ hs], ?_⟩
  ext i; fin_cases i <;> simp [Vector3.space, Vector3.get, div_eq_inv_mul]

theorem space_zero : (⟨0, 0, 0⟩ : Vector3 ℝ).space = 0 := by
  ext i; fin_cases i <;> simp [Vector3.space, Vector3.get]

/-- **C67**: the length is zero exactly for the zero vector. -/
theorem C67_zero (v : Vector3 ℝ) : v.len = .ok (0 : ℝ) ↔ v = ⟨0, 0, 0⟩ := by
  rw [(C67_norm v v).1, Except.ok.injEq, norm_eq_zero, ← space_zero, Vector3.space_inj]

/-- **C67**: triangle inequality, scaling, and Cauchy–Schwarz. -/
theorem C67_laws (u v : Vector3 ℝ) (s : ℝ) :
    ∃ lu lv ls lm d : ℝ, u.len = .ok lu ∧ v.len = .ok lv ∧ (do (← u.add v).len) = .ok ls ∧
      (do (← v.mul s).len) = .ok lm ∧ u.dot v = .ok d ∧
      0 ≤ lu ∧ ls ≤ lu + lv ∧ lm = |s| * lv ∧ |d| ≤ lu * lv := by
  refine ⟨‖u.space‖, ‖v.space‖, ‖u.space + v.space‖, ‖s • v.space‖, inner ℝ u.space v.space,
    (C67_norm u u).1, (C67_norm u v).1, ?_, ?_, (C67_norm u v).2,
    norm_nonneg _, norm_add_le _ _, by rw [norm_smul]; rfl, abs_real_inner_le_norm _ _⟩
  · rw [(space_add u v).1, ok_bind, (C67_norm u _).1, (space_add u v).2]
  · rw [(space_mul v s).1, ok_bind, (C67_norm u _).1, (space_mul v s).2]

/-- **C67**: dividing a vector by its length gives a vector of length one in the same direction;
    for the zero vector the division is undefined. -/
theorem C67_normalize (v : Vector3 ℝ) :
    (v ≠ ⟨0, 0, 0⟩ → ∃ l w, v.len = .ok l ∧ v.div l = .ok w ∧ w.len = .ok (1 : ℝ) ∧ w.mul l = .ok v) ∧
    (v = ⟨0, 0, 0⟩ → ∃ l : ℝ, v.len = .ok l ∧ v.div l = .error .undefined) := by
  constructor
  · intro h
    have hl : ‖v.space‖ ≠ 0 := by
      intro hc
      exact h ((C67_zero v).1 (by rw [(C67_norm v v).1, hc]))
    refine ⟨‖v.space‖, _, (C67_norm v v).1, (space_div v _ hl).1, ?_, ?_⟩
    · rw [(C67_norm v _).1, (space_div v _ hl).2, norm_smul, norm_inv, norm_norm, inv_mul_cancel₀ hl]
    · rw [(space_mul _ _).1]
      simp only [mul_div_cancel₀ _ hl]
  · rintro rfl
    refine ⟨0, (C67_zero _).2 rfl, ?_⟩
    simp [Vector3.div, Elem.div, bind, Except.bind]

/-- **C67**: an integer vector, overflow checks on, real square root: the length is the Euclidean
    norm of the vector, or the computation panics. -/
theorem C67_integer (v : Vector3 (I64 true)) (l : ℝ) (h : v.len = .ok l) :
    l = ‖(⟨v.x.toInt, v.y.toInt, v.z.toInt⟩ : Vector3 ℝ).space‖ := by
  simp only [Vector3.len, Vector3.lenSq, bind_eq_ok] at h
  obtain ⟨s, ⟨a, ha, b, hb, ab, hab, c, hc, hs⟩, h⟩ := h
  have e1 := (I64.mul_checked).1 ha
  have e2 := (I64.mul_checked).1 hb
  have e3 := (I64.add_checked).1 hab
  have e4 := (I64.mul_checked).1 hc
  have e5 := (I64.add_checked).1 hs
  unfold Vector3.space
  rw [space_norm]
  have hv : ((s.toInt : ℤ) : ℝ) = v.x.toInt * v.x.toInt + v.y.toInt * v.y.toInt + v.z.toInt * v.z.toInt := by
    have : s.toInt = v.x.toInt * v.x.toInt + v.y.toInt * v.y.toInt + v.z.toInt * v.z.toInt := by
      rw [← e5, ← e3, ← e1, ← e2, ← e4]
    exact_mod_cast this
  have hx : (As.as_ s : ℝ) = ((s.toInt : ℤ) : ℝ) := rfl
  rw [hx, hv, sqrt_ok (sq_sum_nonneg _ _ _)] at h
  exact (Except.ok.inj h).symm

/-! ### Floats -/

section
variable {T : Type} [Elem T] [As T T] [FloatFns T] [IEEE T]

local notation "z" => (Elem.fromInt 0 : T)

attribute [local instance] ieee_lawful

theorem val_nonneg_of_le {a : T} (h : Le z a) (hf : IsFinite a) : 0 ≤ val a := by
  have := (le_zero_iff.1 h).2
  rw [hf.ext] at this
  exact_mod_cast this

/-- The square root of a float that is not negative: never NaN, and monotone -/
theorem fsqrt_le {a : T} (h : Le z a) : Le z (fsqrt a) := by
  by_cases hf : IsFinite a
  · have := fsqrt_rnd hf (val_nonneg_of_le h hf)
    refine le_zero_iff.2 ⟨this.1, ?_⟩
    rw [this.2]
    exact rnd_nonneg (Real.sqrt_nonneg _)
  · obtain ⟨hn, he⟩ := le_zero_iff.1 h
    rcases not_finite_cases hn with h1 | h1 | h1
    · exact absurd h1 hf
    · have hu : up (fsqrt a) = .infinity .positive := by rw [up_fsqrt, h1]; rfl
      refine le_zero_iff.2 ⟨(nan_iff _).2 (by rw [hu]; simp), ?_⟩
      rw [ext_top_iff.2 hu]; exact le_top
    · rw [ext_bot_iff.2 h1] at he
      exact absurd he (by simp)

theorem fsqrt_mono {a b : T} (ha : Le z a) (hab : Le a b) : Le (fsqrt a) (fsqrt b) := by
  have hb : Le z b := ha.trans hab
  have na := (le_zero_iff.1 (fsqrt_le ha)).1
  have nb := (le_zero_iff.1 (fsqrt_le hb)).1
  refine le_of_ext na nb ?_
  by_cases fb : IsFinite b
  · have fa : IsFinite a := by
      obtain ⟨hn, he⟩ := le_zero_iff.1 ha
      refine (finite_iff_ext hn).2 ⟨fun h => ?_, fun h => ?_⟩
      · have := le_ext hab
        rw [h, fb.ext] at this
        exact absurd this (by simp)
      · rw [h] at he; exact absurd he (by simp)
    rw [(fsqrt_rnd fa (val_nonneg_of_le ha fa)).2, (fsqrt_rnd fb (val_nonneg_of_le hb fb)).2]
    exact rnd_mono (Real.sqrt_le_sqrt ((le_iff_val fa fb).1 hab))
  · obtain ⟨hn, he⟩ := le_zero_iff.1 hb
    rcases not_finite_cases hn with h1 | h1 | h1
    · exact absurd h1 fb
    · have hu : up (fsqrt b) = .infinity .positive := by rw [up_fsqrt, h1]; rfl
      rw [ext_top_iff.2 hu]; exact le_top
    · rw [ext_bot_iff.2 h1] at he
      exact absurd he (by simp)

/-- `len` of a float vector -/
def flen (x y w : T) : T := fsqrt (fadd (fadd (fmul x x) (fmul y y)) (fmul w w))

theorem flen_vector (v : Vector3 T) : v.len = .ok (flen v.x v.y v.z) := by
  simp only [Vector3.len, Vector3.lenSq, fmul_ok, fadd_ok, ok_bind, IEEE.as_eq, fsqrt_ok]
  rfl

theorem flen_normal (v : Normal3 T) : v.len = .ok (flen v.x v.y v.z) := by
  simp only [Normal3.len, Normal3.lenSq, fmul_ok, fadd_ok, ok_bind, IEEE.as_eq, fsqrt_ok]
  rfl

/-- **C67**, floats: the length of a vector without NaN is never NaN and never negative. -/
theorem C67_float_nonneg (v : Vector3 T) (h : ∀ i, NotNan (v.get i)) :
    ∃ l : T, v.len = .ok l ∧ Le z l :=
  ⟨_, flen_vector v,
    fsqrt_le (fadd_le (fadd_le (fmul_self_le (h 0)) (fmul_self_le (h 1))) (fmul_self_le (h 2)))⟩

example := C67_float_nonneg (⟨f32 1, inf32, negZero32⟩ : Vector3 Float32.Model) (by decide +kernel)

/-- **C67**, floats: the same for normals. -/
theorem C67_float_nonneg_normal (v : Normal3 T) (h : ∀ i, NotNan (v.get i)) :
    ∃ l : T, v.len = .ok l ∧ Le z l :=
  ⟨_, flen_normal v,
    fsqrt_le (fadd_le (fadd_le (fmul_self_le (h 0)) (fmul_self_le (h 1))) (fmul_self_le (h 2)))⟩

example := C67_float_nonneg_normal (⟨f32 1, inf32, negZero32⟩ : Normal3 Float32.Model) (by decide +kernel)

theorem ext_fabs (a : T) : ext (fabs a) = max (ext a) (-ext a) := by
  unfold ext
  rw [up_fabs]
  cases up a with
  | infinity s => cases s <;> simp [UnpackedFloat.abs, uext]
  | notANumber => simp [UnpackedFloat.abs, uext, uval]
  | zero s => simp [UnpackedFloat.abs, uext, uval]
  | finite s m e h =>
    have := uval_abs (.finite s m e h)
    show ((uval (UnpackedFloat.abs (.finite s m e h)) : ℝ) : EReal) = max ((uval (.finite s m e h) : ℝ) : EReal) (-((uval (.finite s m e h) : ℝ) : EReal))
    rw [this, ← EReal.coe_neg, ← EReal.coe_strictMono.monotone.map_max]
    rfl

theorem fmul_self_mono {a b : T} (h : Le (fabs a) (fabs b)) : Le (fmul a a) (fmul b b) := by
  have nab : ∀ c : T, NotNan (fabs c) → NotNan c := by
    intro c hc
    unfold NotNan at *
    rw [nan_iff] at *
    rw [up_fabs] at hc
    intro h
    rw [h] at hc
    exact hc rfl
  have ha := nab a h.left
  have hb := nab b h.right
  have n1 := (le_zero_iff.1 (fmul_self_le ha)).1
  have n2 := (le_zero_iff.1 (fmul_self_le hb)).1
  refine le_of_ext n1 n2 ?_
  rw [fmul_ext' n1, fmul_ext' n2]
  have key : ∀ c : T, ext c * ext c = ext (fabs c) * ext (fabs c) := by
    intro c
    rw [ext_fabs]
    rcases le_total (ext c) (-ext c) with h | h
    · rw [max_eq_right h, neg_mul_neg]
    · rw [max_eq_left h]
  have nn : ∀ c : T, 0 ≤ ext (fabs c) := by
    intro c
    rw [ext_fabs]
    rcases le_total 0 (ext c) with h | h
    · exact h.trans (le_max_left _ _)
    · exact (EReal.neg_nonneg.2 h).trans (le_max_right _ _)
  rw [key a, key b]
  exact rndE_mono ((mul_le_mul_of_nonneg_right (le_ext h) (nn a)).trans
    (mul_le_mul_of_nonneg_left (le_ext h) (nn b)))

/-- **C67**, floats: a vector whose components are larger in magnitude has the larger length,
    despite rounding. -/
theorem C67_float_mono (u v : Vector3 T) (h : ∀ i, ∃ a b, Elem.abs (u.get i) = .ok a ∧
    Elem.abs (v.get i) = .ok b ∧ Le a b) :
    ∃ lu lv : T, u.len = .ok lu ∧ v.len = .ok lv ∧ Le lu lv := by
  refine ⟨_, _, flen_vector u, flen_vector v, ?_⟩
  have hs : ∀ i, Le (fmul (u.get i) (u.get i)) (fmul (v.get i) (v.get i)) ∧
      Le z (fmul (u.get i) (u.get i)) ∧ Le z (fmul (v.get i) (v.get i)) := by
    intro i
    obtain ⟨a, b, ha, hb, hab⟩ := h i
    rw [fabs_ok, Except.ok.injEq] at ha hb
    subst ha hb
    have := fmul_self_mono hab
    refine ⟨this, le_zero_iff.2 ⟨this.left, ?_⟩, le_zero_iff.2 ⟨this.right, ?_⟩⟩
    · exact not_lt_zero_iff.1 (fmul_self_nn _) this.left
    · exact not_lt_zero_iff.1 (fmul_self_nn _) this.right
  obtain ⟨⟨a1, a2, a3⟩, ⟨b1, b2, b3⟩, c1, c2, c3⟩ := forall_axis.1 hs
  have nn : ∀ {x : T}, Le z x → NotNan x := fun h => (le_zero_iff.1 h).1
  refine fsqrt_mono (fadd_le (fadd_le a2 b2) c2) ?_
  exact fadd_mono (fadd_mono a1 b1 (nn (fadd_le a2 b2)) (nn (fadd_le a3 b3))) c1
    (nn (fadd_le (fadd_le a2 b2) c2)) (nn (fadd_le (fadd_le a3 b3) c3))

example := C67_float_mono (fv 1 (-2) 3) (fv (-1) 2 (-16777217))
  (fun i => ⟨_, _, rfl, rfl, by revert i; decide +kernel⟩)

theorem fneg_mul_fneg (a : T) : fmul (fneg a) (fneg a) = fmul a a := by
  unfold fmul
  rw [up_fneg]
  congr 1
  cases up a with
  | infinity s => cases s <;> rfl
  | notANumber => rfl
  | zero s => cases s <;> rfl
  | finite s m e h => cases s <;> rfl

/-- **C67**, floats: a vector and its opposite have the same length, bit for bit. -/
theorem C67_float_neg (v : Vector3 T) : (do (← v.neg).len) = (v.len : Outcome T) := by
  simp only [Vector3.neg, fneg_ok, ok_bind, pure_ok, flen_vector, flen, fneg_mul_fneg]

end

/-- **C67**, where floats differ from real numbers: a vector other than zero can have length zero,
    and a finite vector can have infinite length. -/
theorem C67_float_range_refuted :
    (∃ v : Vector3 Float32.Model, v ≠ ⟨f32 0, f32 0, f32 0⟩ ∧ (∀ i, IsFinite (v.get i)) ∧
      v.len = .ok (f32 0)) ∧
    (∃ v : Vector3 Float32.Model, (∀ i, IsFinite (v.get i)) ∧ v.len = .ok inf32) := by
  refine ⟨⟨⟨.ofScientific 1 (-30), f32 0, f32 0⟩, ?_⟩, ⟨⟨.ofScientific 1 30, f32 0, f32 0⟩, ?_⟩⟩
  · decide +kernel
  · decide +kernel

example : (⟨3, 0, 4⟩ : Vector3 ℝ).len = .ok (5 : ℝ) := by
  simp only [Vector3.len, Vector3.lenSq, mul_ok, add_ok, ok_bind]
  show FloatFns.sqrt (3 * 3 + 0 * 0 + 4 * 4 : ℝ) = _
  rw [sqrt_ok (by norm_num)]
  norm_num
  rw [show (25 : ℝ) = 5 ^ 2 by norm_num, Real.sqrt_sq (by norm_num)]

example : (fv 1 2 (-2)).len = .ok (f32 3) ∧ (iv 1 2 (-2)).len = .ok (f32 3) ∧
    (∀ i, NotNan ((fv 1 2 (-2)).get i)) ∧
    (fv 1 2 (-2)).neg = .ok (fv (-1) (-2) 2) := by decide +kernel

end Pbrt
