import Verif.Proof.Inversion
import Verif.Spec.Conditioning
import Verif.Props.UnitTests
import Mathlib.LinearAlgebra.Matrix.Determinant.Basic
import Mathlib.Tactic.NormNum

/-!
# C73: `inverse` on floats

C30 and C31 are about exact numbers.  Here the entries are floats (or integers that are converted to
floats), and the reference is the inverse of the matrix of the numbers the entries stand for.
-/

namespace Pbrt

open Spec UnitTests
open Float.Model (UnpackedFloat Format)

section
variable {T : Type} [Elem T] [As T T] [FloatFns T] [IEEE T]
variable {U : Type} [As U T]

local notation "𝔽" => IEEE.fmt T
local notation "z" => (Elem.fromInt 0 : T)
local notation "o" => (Elem.fromInt 1 : T)

/-! ### What holds -/

/-- **C73**: the only panics of `inverse` on floats are the two of matrix.rs:55 and 70. -/
theorem C73_outcomes (a : Matrix4 U) : (∃ b : Matrix4 T, a.inverse = .ok b) ∨
    (a.inverse : Outcome (Matrix4 T)) = .error .singularZeroPivot ∨
    (a.inverse : Outcome (Matrix4 T)) = .error .singularPivotTwice := by
  have hpiv : ∀ (ipiv : Fin 4 → Nat) (W : Mat44 T), (∃ p, choosePivot ipiv W = .ok p) ∨
      choosePivot ipiv W = .error .singularPivotTwice := by
    intro ipiv W
    have := for4_inv_err (P := fun _ _ => True) (E := fun e => e = .singularPivotTwice)
      (s := (⟨0, 0, z⟩ : PivotState T)) (f := fun j s =>
        if ipiv j ≠ 1 then
          for4 s fun k s =>
            if ipiv k = 0 then do
              let a ← Elem.abs (W j k)
              if Elem.ge a s.big then pure ⟨j, k, a⟩ else pure s
            else if ipiv k > 1 then .error .singularPivotTwice
            else pure s
        else pure s) trivial (fun j s _ => by
          by_cases hj : ipiv j ≠ 1
          · rw [if_pos hj]
            have := for4_inv_err (P := fun _ _ => True) (E := fun e => e = .singularPivotTwice)
              (s := s) (f := fun k s =>
                if ipiv k = 0 then do
                  let a ← Elem.abs (W j k)
                  if Elem.ge a s.big then pure ⟨j, k, a⟩ else pure s
                else if ipiv k > 1 then .error .singularPivotTwice
                else pure s) trivial (fun k s _ => by
                  by_cases hk : ipiv k = 0
                  · rw [if_pos hk, fabs_ok, ok_bind]
                    left
                    split
                    · exact ⟨_, rfl, trivial⟩
                    · exact ⟨_, rfl, trivial⟩
                  · rw [if_neg hk]
                    by_cases hk1 : ipiv k > 1
                    · rw [if_pos hk1]; exact .inr ⟨_, rfl, rfl⟩
                    · rw [if_neg hk1]; exact .inl ⟨_, rfl, trivial⟩)
            exact this
          · rw [if_neg hj]; exact .inl ⟨_, rfl, trivial⟩)
    rcases this with ⟨p, h, _⟩ | ⟨e, h, rfl⟩
    · exact .inl ⟨p, h⟩
    · exact .inr h
  have hloop := for4_inv_err (P := fun _ _ => True)
    (E := fun e => e = .singularZeroPivot ∨ e = .singularPivotTwice)
    (s := (⟨fun _ => 0, fun _ => 0, fun _ => 0, (toMat4f a : Matrix4 T).mat⟩ : InvState T))
    (f := invStep) trivial (fun i s _ => by
      rcases hpiv s.ipiv s.minv with ⟨p, hp⟩ | hp
      · by_cases hz : Elem.eq (s.minv p.irow p.icol) z = false
        · exact .inl ⟨_, invStep_float i s p hp hz, trivial⟩
        · right
          refine ⟨.singularZeroPivot, ?_, .inl rfl⟩
          exact invStep_float_zero i s p hp (by simpa using hz)
      · right
        refine ⟨.singularPivotTwice, ?_, .inr rfl⟩
        unfold invStep
        rw [hp]
        rfl)
  unfold Matrix4.inverse
  simp only []
  rcases hloop with ⟨s, hs, _⟩ | ⟨e, hs, he⟩
  · left
    rw [hs, ok_bind, for4rev_ok fun j m => swapCols_value m (s.indxr j) (s.indxc j), ok_bind]
    exact ⟨_, rfl⟩
  · right
    rw [hs]
    rcases he with rfl | rfl
    · exact .inl rfl
    · exact .inr rfl

/-- The inverse of a matrix with one entry per row and column -/
theorem monomial_inv {A : Matrix (Fin 4) (Fin 4) ℝ} {σ : Equiv.Perm (Fin 4)}
    (h0 : ∀ i j, j ≠ σ i → A i j = 0) (hn : ∀ i, A i (σ i) ≠ 0) (i j : Fin 4) :
    A⁻¹ i j = if i = σ j then 1 / A j i else 0 := by
  have : A⁻¹ = .of fun i j => if i = σ j then 1 / A j i else 0 := by
    refine Matrix.inv_eq_right_inv ?_
    ext i j
    rw [Matrix.mul_apply, Finset.sum_eq_single (σ i)]
    · simp only [Matrix.of_apply, Matrix.one_apply, σ.injective.eq_iff]
      split
      · next e => subst e; rw [mul_one_div_cancel (hn i)]
      · simp
    · intro k _ hk
      rw [h0 i k hk, zero_mul]
    · simp
  rw [this]
  rfl

/-- **C73**: when every row and every column has one non-zero entry (scalings, exchanges of axes,
    quarter turns and reflections), every entry of the float result is a float nearest to the entry of
    the true inverse.  `σ` tells the columns of the entries; the reciprocals must not overflow. -/
theorem C73_monomial_nearest (a : Matrix4 U) (σ : Equiv.Perm (Fin 4))
    (hf : ∀ i j, IsFinite (As.as_ (a.mat i j) : T))
    (h0 : ∀ i j, j ≠ σ i → a.vals T i j = 0) (hn : ∀ i, a.vals T i (σ i) ≠ 0)
    (hr : ∀ i, InSpan T (1 / a.vals T i (σ i))) :
    ∃ b : Matrix4 T, a.inverse = .ok b ∧ ∀ i j, Nearest (b.mat i j) ((a.vals T)⁻¹ i j) := by
  have key : ∀ i, Nearest (fdiv o (As.as_ (a.mat i (σ i)) : T)) (1 / a.vals T i (σ i)) := fun i => by
    have h1 := fdiv_rnd finite_one (hf i (σ i)) (hn i)
    rw [val_one] at h1
    have h2 := inSpan_lt_big (hr i)
    have hrnd : rnd 𝔽 (1 / a.vals T i (σ i)) = (((grid 𝔽).RN (1 / a.vals T i (σ i)) : ℝ) : EReal) := by
      unfold rnd
      rw [abs_lt] at h2
      rw [if_neg (by linarith), if_neg (by linarith)]
    obtain ⟨h3, h4⟩ := finite_of_ext h1.1 (h1.2.trans hrnd)
    refine ⟨h3, fun y hy => ?_⟩
    rw [h4]
    exact RN_nearest (rep_val y)
  obtain ⟨b, hb, hm⟩ := monomial_inverse a σ (fun i j h => isZero_iff.2 ⟨hf i j, h0 i j h⟩)
    (fun i => hf i (σ i)) hn (fun i => (key i).1)
  refine ⟨b, hb, fun i j => ?_⟩
  rw [monomial_inv h0 hn]
  have := hm i j
  split
  · next e =>
    subst e
    rw [if_pos rfl] at this
    rw [this]
    exact key j
  · next e =>
    rw [if_neg e, isZero_iff] at this
    refine ⟨this.1, fun y _ => ?_⟩
    rw [this.2, sub_zero, abs_zero]
    exact abs_nonneg _

/-- **C73**: in these cases the entries are, bit for bit, the quotients `1 / x`. -/
theorem C73_monomial_quotient (a : Matrix4 U) (σ : Equiv.Perm (Fin 4))
    (hf : ∀ i j, IsFinite (As.as_ (a.mat i j) : T))
    (h0 : ∀ i j, j ≠ σ i → a.vals T i j = 0) (hn : ∀ i, a.vals T i (σ i) ≠ 0)
    (q : Fin 4 → T) (hq : ∀ i, Elem.div o (As.as_ (a.mat i (σ i)) : T) = .ok (q i)) (hr : ∀ i, IsFinite (q i)) :
    ∃ b : Matrix4 T, a.inverse = .ok b ∧ (∀ i, b.mat (σ i) i = q i) ∧
      ∀ i j, i ≠ σ j → IsFinite (b.mat i j) ∧ val (b.mat i j) = 0 := by
  have hq' : ∀ i, q i = fdiv o (As.as_ (a.mat i (σ i)) : T) := fun i => by
    have := hq i
    rw [fdiv_ok, Except.ok.injEq] at this
    exact this.symm
  obtain ⟨b, hb, hm⟩ := monomial_inverse a σ (fun i j h => isZero_iff.2 ⟨hf i j, h0 i j h⟩)
    (fun i => hf i (σ i)) hn (fun i => by rw [← hq']; exact hr i)
  refine ⟨b, hb, fun i => ?_, fun i j h => ?_⟩
  · have := hm (σ i) i
    rw [if_pos rfl] at this
    rw [this, hq']
  · have := hm i j
    rw [if_neg h, isZero_iff] at this
    exact this

/-- **C73**: exchanges of axes, quarter turns and reflections are inverted without error: the inverse
    is the transpose. -/
theorem C73_signed_permutation (a : Matrix4 U) (σ : Equiv.Perm (Fin 4))
    (hf : ∀ i j, IsFinite (As.as_ (a.mat i j) : T))
    (h0 : ∀ i j, j ≠ σ i → a.vals T i j = 0)
    (hn : ∀ i, a.vals T i (σ i) = 1 ∨ a.vals T i (σ i) = -1) :
    ∃ b : Matrix4 T, a.inverse = .ok b ∧ ∀ i j, IsFinite (b.mat i j) ∧ val (b.mat i j) = a.vals T j i := by
  have hn0 : ∀ i, a.vals T i (σ i) ≠ 0 := fun i => by rcases hn i with h | h <;> rw [h] <;> norm_num
  have hself : ∀ i, 1 / a.vals T i (σ i) = a.vals T i (σ i) := fun i => by
    rcases hn i with h | h <;> rw [h] <;> norm_num
  obtain ⟨b, hb, hm⟩ := C73_monomial_nearest a σ hf h0 hn0 fun i => by
    rw [hself]
    exact ⟨_, _, hf i (σ i), hf i (σ i), le_refl _, le_refl _⟩
  refine ⟨b, hb, fun i j => ⟨(hm i j).1, ?_⟩⟩
  have h1 := hm i j
  rw [monomial_inv h0 hn0] at h1
  by_cases e : i = σ j
  · rw [if_pos e] at h1
    subst e
    rw [hself] at h1
    exact nearest_exact h1 (hf j (σ j)) rfl
  · rw [if_neg e] at h1
    rw [h0 j i e]
    exact nearest_exact h1 finite_zero val_zero

/-- **C73**: for a translation by components of at most 1, `new_` computes the inverse that
    `translate` stores (`-0` counting as `0`). -/
theorem C73_translation (d : Vector3 T) (hf : ∀ i, IsFinite (d.get i)) (hd : ∀ i, |val (d.get i)| ≤ 1)
    (t : Transform T) (ht : Transform.translate d = .ok t) :
    ∃ t', Transform.new_ t.m = .ok t' ∧ t'.m = t.m ∧ ∀ i j, Same (t'.mInv.mat i j) (t.mInv.mat i j) := by
  simp only [Transform.translate, fneg_ok, ok_bind, pure_ok] at ht
  cases ht
  have hx : IsFinite d.x := hf 0
  have hy : IsFinite d.y := hf 1
  have hz : IsFinite d.z := hf 2
  have f0 := finite_zero (T := T)
  have f1 := finite_one (T := T)
  have v0 := val_zero (T := T)
  have v1 := val_one (T := T)
  obtain ⟨b, hb, hm⟩ := shift_inverse (T := T) (⟨Mat44.ofRows o z z d.x z o z d.y z z o d.z z z z o⟩ : Matrix4 T)
    (fun i => val (d.get i)) hd (fun i k => by
      rw [IEEE.as_eq]
      fin_cases i <;> fin_cases k <;>
        simp [Is, shift, Mat44.ofRows, f0, f1, v0, v1, hx, hy, hz, Vector3.get])
  refine ⟨⟨_, b⟩, ?_, rfl, fun i j => ?_⟩
  · unfold Transform.new_
    rw [hb]
    rfl
  · have h1 := hm i j
    show Elem.eq _ _ = true
    have h2 : Is ((Mat44.ofRows o z z (fneg d.x) z o z (fneg d.y) z z o (fneg d.z) z z z o : Mat44 T) i j)
        (shift (fun i => - val (d.get i)) i j) := by
      fin_cases i <;> fin_cases j <;>
        simp [Is, shift, Mat44.ofRows, f0, f1, v0, v1, fneg_finite, val_fneg, hx, hy, hz, Vector3.get]
    rw [eq_iff_val h1.1 h2.1, h1.2, h2.2]

end

/-! ### What does not hold -/

/-- The matrix with integer entries -/
def intMatrix (T : Type) [Elem T] (m : Fin 4 → Fin 4 → Int) : Matrix4 T := ⟨fun i j => Elem.fromInt (m i j)⟩

/-- A translation by `(3, 5, 7)` -/
def shift357 (T : Type) [Elem T] : Outcome (Transform T) :=
  Transform.translate ⟨Elem.fromInt 3, Elem.fromInt 5, Elem.fromInt 7⟩

/-- `new_` and `translate` store inverses that compare different -/
def disagree {T : Type} [Elem T] [As T T] (t : Outcome (Transform T)) : Bool :=
  match t with
  | .ok t => match Transform.new_ t.m with
    | .ok t' => decide (∃ i j, Elem.eq (t'.mInv.mat i j) (t.mInv.mat i j) = false)
    | .error _ => false
  | .error _ => false

theorem disagree_spec {T : Type} [Elem T] [As T T] {t : Outcome (Transform T)} (h : disagree t = true) :
    ∃ t₀ t', t = .ok t₀ ∧ Transform.new_ t₀.m = .ok t' ∧ ∃ i j, ¬ Same (t'.mInv.mat i j) (t₀.mInv.mat i j) := by
  unfold disagree at h
  split at h
  · next t₀ =>
    split at h
    · next t' h' =>
      obtain ⟨i, j, h⟩ := of_decide_eq_true h
      exact ⟨t₀, t', rfl, h', i, j, by simp [Same, h]⟩
    · cases h
  · cases h

/-- **C73**, refuted: the inverse that `new_` computes for the matrix of a translation is not the
    translation back, already for the translation by `(3, 5, 7)`, and with both kinds of floats. -/
theorem C73_translation_refuted :
    (∃ t t', shift357 Float32.Model = .ok t ∧ Transform.new_ t.m = .ok t' ∧
      ∃ i j, ¬ Same (t'.mInv.mat i j) (t.mInv.mat i j)) ∧
    ∃ t t', shift357 Float.Model = .ok t ∧ Transform.new_ t.m = .ok t' ∧
      ∃ i j, ¬ Same (t'.mInv.mat i j) (t.mInv.mat i j) :=
  ⟨disagree_spec (by decide +kernel), disagree_spec (by decide +kernel)⟩

/-- A matrix of rank 3: the second row is three quarters of the first. -/
def rank3 : Fin 4 → Fin 4 → Int := ![![24, 20, 0, 0], ![18, 15, 0, 0], ![0, 0, 1, 0], ![0, 0, 0, 1]]

/-- The numbers of a matrix of floats, computably -/
def ratMatrix {T : Type} [Elem T] [As T T] [FloatFns T] [IEEE T] (a : Matrix4 T) : Matrix (Fin 4) (Fin 4) ℚ :=
  .of fun i j => ratVal (up (a.mat i j))

theorem vals_rat {T : Type} [Elem T] [As T T] [FloatFns T] [IEEE T] (a : Matrix4 T) :
    a.vals T = (ratMatrix a).map ((↑) : ℚ → ℝ) := by
  ext i j
  simp only [Matrix4.vals, ratMatrix, Matrix.of_apply, Matrix.map_apply, IEEE.as_eq, val_eq]

theorem det_rat {T : Type} [Elem T] [As T T] [FloatFns T] [IEEE T] (a : Matrix4 T) :
    (a.vals T).det = ((ratMatrix a).det : ℝ) := by
  rw [vals_rat]
  exact (RingHom.map_det (Rat.castHom ℝ) (ratMatrix a)).symm

/-- Whether it returns -/
def returns {α : Type} : Outcome α → Bool
  | .ok _ => true
  | .error _ => false

theorem returns_spec {α : Type} {r : Outcome α} (h : returns r = true) : ∃ x, r = .ok x := by
  cases r with
  | ok x => exact ⟨x, rfl⟩
  | error e => cases h

/-- The determinant, computably -/
def det4 (m : Fin 4 → Fin 4 → ℚ) : ℚ :=
  m 0 0 * (m 1 1 * (m 2 2 * m 3 3 - m 2 3 * m 3 2) - m 1 2 * (m 2 1 * m 3 3 - m 2 3 * m 3 1) + m 1 3 * (m 2 1 * m 3 2 - m 2 2 * m 3 1))
  - m 0 1 * (m 1 0 * (m 2 2 * m 3 3 - m 2 3 * m 3 2) - m 1 2 * (m 2 0 * m 3 3 - m 2 3 * m 3 0) + m 1 3 * (m 2 0 * m 3 2 - m 2 2 * m 3 0))
  + m 0 2 * (m 1 0 * (m 2 1 * m 3 3 - m 2 3 * m 3 1) - m 1 1 * (m 2 0 * m 3 3 - m 2 3 * m 3 0) + m 1 3 * (m 2 0 * m 3 1 - m 2 1 * m 3 0))
  - m 0 3 * (m 1 0 * (m 2 1 * m 3 2 - m 2 2 * m 3 1) - m 1 1 * (m 2 0 * m 3 2 - m 2 2 * m 3 0) + m 1 2 * (m 2 0 * m 3 1 - m 2 1 * m 3 0))

theorem det4_eq (m : Matrix (Fin 4) (Fin 4) ℚ) : m.det = det4 m := by
  rw [Matrix.det_succ_row_zero]
  simp [Fin.sum_univ_four, Matrix.det_fin_three, Fin.succAbove, det4]
  ring

/-- **C73**, refuted: `inverse` returns for a singular matrix of small integers. -/
theorem C73_singular_refuted :
    ((intMatrix Float32.Model rank3).vals Float32.Model).det = 0 ∧
    (∃ b : Matrix4 Float32.Model, (intMatrix Float32.Model rank3).inverse = .ok b) ∧
    ((intMatrix Float.Model rank3).vals Float.Model).det = 0 ∧
    ∃ b : Matrix4 Float.Model, (intMatrix Float.Model rank3).inverse = .ok b := by
  refine ⟨?_, returns_spec (by decide +kernel), ?_, returns_spec (by decide +kernel)⟩
  · rw [det_rat, det4_eq]
    exact_mod_cast (by decide +kernel : det4 (ratMatrix (intMatrix Float32.Model rank3)) = 0)
  · rw [det_rat, det4_eq]
    exact_mod_cast (by decide +kernel : det4 (ratMatrix (intMatrix Float.Model rank3)) = 0)

/-- The matrix with the rows `(3, 1, 0, 0)`, `(1, 1 / 3, 0, 0)` (rounded), `(0, 0, 1, 0)`, `(0, 0, 0, 1)` -/
def thirds (T : Type) [Elem T] [As T T] [FloatFns T] [IEEE T] : Matrix4 T :=
  ⟨fun i j => if i = 1 ∧ j = 1 then fdiv (Elem.fromInt 1) (Elem.fromInt 3)
    else (intMatrix T ![![3, 1, 0, 0], ![1, 0, 0, 0], ![0, 0, 1, 0], ![0, 0, 0, 1]]).mat i j⟩

/-- It panics with this message -/
def panicsWith {α : Type} (e : Panic) : Outcome α → Bool
  | .ok _ => false
  | .error e' => decide (e' = e)

theorem panicsWith_spec {α : Type} {e : Panic} {r : Outcome α} (h : panicsWith e r = true) : r = .error e := by
  cases r with
  | ok x => cases h
  | error e' => rw [of_decide_eq_true h]

/-- **C73**, refuted: `inverse` panics for a regular matrix of finite floats. -/
theorem C73_regular_refuted :
    (((thirds Float32.Model).vals Float32.Model).det ≠ 0 ∧
      ((thirds Float32.Model).inverse : Outcome (Matrix4 Float32.Model)) = .error .singularZeroPivot) ∧
    ((thirds Float.Model).vals Float.Model).det ≠ 0 ∧
      ((thirds Float.Model).inverse : Outcome (Matrix4 Float.Model)) = .error .singularZeroPivot := by
  refine ⟨⟨?_, panicsWith_spec (by decide +kernel)⟩, ?_, panicsWith_spec (by decide +kernel)⟩
  · rw [det_rat, det4_eq]
    exact_mod_cast (by decide +kernel : det4 (ratMatrix (thirds Float32.Model)) ≠ 0)
  · rw [det_rat, det4_eq]
    exact_mod_cast (by decide +kernel : det4 (ratMatrix (thirds Float.Model)) ≠ 0)

/-- **C73**, refuted: the panic of matrix.rs:55, which exact numbers cannot reach (C31), is reached
    with floats: by a matrix of NaN. -/
theorem C73_twice_refuted :
    ((⟨fun _ _ => fdiv (Elem.fromInt 0) (Elem.fromInt 0)⟩ : Matrix4 Float32.Model).inverse :
      Outcome (Matrix4 Float32.Model)) = .error .singularPivotTwice ∧
    ((⟨fun _ _ => fdiv (Elem.fromInt 0) (Elem.fromInt 0)⟩ : Matrix4 Float.Model).inverse :
      Outcome (Matrix4 Float.Model)) = .error .singularPivotTwice :=
  ⟨panicsWith_spec (by decide +kernel), panicsWith_spec (by decide +kernel)⟩

/-- Signs of a regular matrix -/
def signs : Fin 4 → Fin 4 → Int := ![![1, 1, 1, 1], ![1, -1, 1, -1], ![1, 1, -1, -1], ![1, -1, -1, 1]]

/-- The result is a matrix of NaN -/
def allNan {T : Type} [Elem T] : Outcome (Matrix4 T) → Bool
  | .ok b => decide (∀ i j, Elem.isNan (b.mat i j) = true)
  | .error _ => false

theorem allNan_spec {T : Type} [Elem T] {r : Outcome (Matrix4 T)} (h : allNan r = true) :
    ∃ b, r = .ok b ∧ ∀ i j, Elem.isNan (b.mat i j) = true := by
  cases r with
  | ok b => exact ⟨b, rfl, of_decide_eq_true h⟩
  | error e => cases h

/-- **C73**, refuted: for a regular matrix of large finite floats, and although the true inverse has
    entries that are floats, `inverse` returns a matrix of NaN. -/
theorem C73_overflow_refuted :
    (((intMatrix Float32.Model fun i j => 2 ^ 127 * signs i j).vals Float32.Model).det ≠ 0 ∧
      ∃ b : Matrix4 Float32.Model, (intMatrix Float32.Model fun i j => 2 ^ 127 * signs i j).inverse = .ok b ∧
        ∀ i j, Elem.isNan (b.mat i j) = true) ∧
    ((intMatrix Float.Model fun i j => 2 ^ 1023 * signs i j).vals Float.Model).det ≠ 0 ∧
      ∃ b : Matrix4 Float.Model, (intMatrix Float.Model fun i j => 2 ^ 1023 * signs i j).inverse = .ok b ∧
        ∀ i j, Elem.isNan (b.mat i j) = true := by
  refine ⟨⟨?_, allNan_spec (by decide +kernel)⟩, ?_, allNan_spec (by decide +kernel)⟩
  · rw [det_rat, det4_eq]
    exact_mod_cast (by decide +kernel :
      det4 (ratMatrix (intMatrix Float32.Model fun i j => 2 ^ 127 * signs i j)) ≠ 0)
  · rw [det_rat, det4_eq]
    exact_mod_cast (by decide +kernel :
      det4 (ratMatrix (intMatrix Float.Model fun i j => 2 ^ 1023 * signs i j)) ≠ 0)

/-! ### Examples -/

namespace InversionExamples

/-- Doubles `z` and exchanges it with `x`, and divides `y` by 3 -/
def mixed (T : Type) [Elem T] [As T T] [FloatFns T] [IEEE T] : Matrix4 T :=
  ⟨fun i j => if i = 1 ∧ j = 1 then fdiv (Elem.fromInt 1) (Elem.fromInt 3)
    else (intMatrix T ![![0, 0, 2, 0], ![0, 0, 0, 0], ![1, 0, 0, 0], ![0, 0, 0, 1]]).mat i j⟩

/-- The hypotheses of `C73_monomial_quotient` hold. -/
example : ∃ b : Matrix4 Float32.Model, (mixed Float32.Model).inverse = .ok b ∧
    (∀ i, b.mat (Equiv.swap 0 2 i) i = fdiv (Elem.fromInt 1) ((mixed Float32.Model).mat i (Equiv.swap 0 2 i))) ∧
    ∀ i j, i ≠ Equiv.swap 0 2 j → IsFinite (b.mat i j) ∧ val (b.mat i j) = 0 := by
  refine C73_monomial_quotient (mixed Float32.Model) (Equiv.swap 0 2) (by decide +kernel) ?_ ?_ _ (fun i => rfl)
    (by decide +kernel)
  · intro i j h
    rw [vals_rat]
    have : ∀ i j : Fin 4, j = Equiv.swap 0 2 i ∨ ratVal (up ((mixed Float32.Model).mat i j)) = 0 := by decide +kernel
    simp [ratMatrix, (this i j).resolve_left h]
  · intro i
    rw [vals_rat]
    have : ∀ i, ratMatrix (mixed Float32.Model) i (Equiv.swap 0 2 i) ≠ 0 := by decide +kernel
    simpa using this i

/-- A quarter turn, with integer entries -/
def turn : Fin 4 → Fin 4 → Int := ![![0, -1, 0, 0], ![1, 0, 0, 0], ![0, 0, 1, 0], ![0, 0, 0, 1]]

/-- The hypotheses of `C73_signed_permutation` hold. -/
example : ∃ b : Matrix4 Float.Model, (intMatrix Float.Model turn).inverse = .ok b ∧
    ∀ i j, IsFinite (b.mat i j) ∧ val (b.mat i j) = (intMatrix Float.Model turn).vals Float.Model j i := by
  refine C73_signed_permutation _ (Equiv.swap 0 1) (by decide +kernel) ?_ ?_
  · intro i j h
    rw [vals_rat]
    have : ∀ i j : Fin 4, j = Equiv.swap 0 1 i ∨ ratVal (up ((intMatrix Float.Model turn).mat i j)) = 0 := by decide +kernel
    simp [ratMatrix, (this i j).resolve_left h]
  · intro i
    rw [vals_rat]
    have : ∀ i, ratMatrix (intMatrix Float.Model turn) i (Equiv.swap 0 1 i) = 1 ∨
      ratMatrix (intMatrix Float.Model turn) i (Equiv.swap 0 1 i) = -1 := by decide +kernel
    rcases this i with h | h
    · left; simp [h]
    · right; simp [h]

/-- The hypotheses of `C73_translation` hold for the translation by `(1 / 3, -1, 1)`. -/
example : ∃ t t', Transform.translate (⟨fdiv (Elem.fromInt 1) (Elem.fromInt 3), Elem.fromInt (-1), Elem.fromInt 1⟩ :
      Vector3 Float32.Model) = .ok t ∧ Transform.new_ t.m = .ok t' ∧ t'.m = t.m ∧
    ∀ i j, Same (t'.mInv.mat i j) (t.mInv.mat i j) := by
  obtain ⟨t, ht⟩ : ∃ t, Transform.translate (⟨fdiv (Elem.fromInt 1) (Elem.fromInt 3), Elem.fromInt (-1), Elem.fromInt 1⟩ :
      Vector3 Float32.Model) = .ok t := ⟨_, rfl⟩
  obtain ⟨t', h⟩ := C73_translation _ (by decide +kernel) (fun i => by
    rw [val_eq]
    exact_mod_cast (by decide +kernel : ∀ i, |ratVal (up ((⟨fdiv (Elem.fromInt 1) (Elem.fromInt 3), Elem.fromInt (-1), Elem.fromInt 1⟩ :
      Vector3 Float32.Model).get i))| ≤ 1) i) t ht
  exact ⟨t, t', ht, h⟩

/-- A scaling by `(3, 5, 7)`, with integer entries -/
def scale357 : Matrix4 (I64 true) :=
  ⟨fun i j => i64 (if i = j then (![3, 5, 7, 1] : Fin 4 → Int) i else 0)⟩

theorem scale357_vals (i j : Fin 4) : scale357.vals Float32.Model i j =
    if i = j then (((![3, 5, 7, 1] : Fin 4 → Int) i : ℤ) : ℝ) else 0 := by
  have hv : ∀ i j, ratVal (up (As.as_ (scale357.mat i j) : Float32.Model)) =
      ((if i = j then (![3, 5, 7, 1] : Fin 4 → Int) i else 0 : ℤ) : ℚ) := by decide +kernel
  refine (val_eq _).trans ?_
  rw [hv]
  split <;> simp

/-- The hypotheses of `C73_monomial_nearest` hold for it. -/
example : ∃ b : Matrix4 Float32.Model, scale357.inverse = .ok b ∧ Nearest (b.mat 2 2) (1 / 7) := by
  have hpos : ∀ i, (1 : ℤ) ≤ (![3, 5, 7, 1] : Fin 4 → ℤ) i := by decide
  have h0 : ∀ i j, j ≠ (1 : Equiv.Perm (Fin 4)) i → scale357.vals Float32.Model i j = 0 := fun i j h => by
    rw [scale357_vals, if_neg fun e => h e.symm]
  have h1 : ∀ i, 1 ≤ scale357.vals Float32.Model i ((1 : Equiv.Perm (Fin 4)) i) := fun i => by
    rw [Equiv.Perm.one_apply, scale357_vals, if_pos rfl]
    exact_mod_cast hpos i
  have hn : ∀ i, scale357.vals Float32.Model i ((1 : Equiv.Perm (Fin 4)) i) ≠ 0 := fun i => by
    have := h1 i
    intro e
    rw [e] at this
    norm_num at this
  obtain ⟨b, hb, hm⟩ := C73_monomial_nearest scale357 1 (by decide +kernel) h0 hn fun i => by
    have := h1 i
    refine ⟨Elem.fromInt 0, Elem.fromInt 1, finite_zero, finite_one, ?_, ?_⟩
    · rw [val_zero]; positivity
    · rw [val_one, div_le_one (by linarith)]; exact this
  refine ⟨b, hb, ?_⟩
  have := hm 2 2
  rw [monomial_inv h0 hn, if_pos (by simp), scale357_vals, if_pos rfl] at this
  simpa using this

end InversionExamples

end Pbrt
