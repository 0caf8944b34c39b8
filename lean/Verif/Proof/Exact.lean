import Verif.Spec.Laws
import Verif.Spec.Geometry
import Verif.Model.Transform
import Mathlib.Tactic.Ring
import Mathlib.Tactic.Linarith
import Mathlib.Tactic.FieldSimp
import Mathlib.Tactic.FinCases

/-!
# Running the model in exact arithmetic
-/

namespace Pbrt

variable {α β : Type}

@[simp] theorem ok_bind (a : α) (f : α → Outcome β) : ((Except.ok a : Outcome α) >>= f) = f a := rfl
@[simp] theorem error_bind (e : Panic) (f : α → Outcome β) :
    ((Except.error e : Outcome α) >>= f) = .error e := rfl
@[simp] theorem pure_ok (a : α) : (pure a : Outcome α) = .ok a := rfl

theorem bind_eq_ok {x : Outcome α} {f : α → Outcome β} {b : β} :
    (x >>= f) = .ok b ↔ ∃ a, x = .ok a ∧ f a = .ok b := by
  cases x <;> simp

section
variable {T : Type} [CommRing T] [Elem T] [ExactRing T]

@[simp] theorem add_ok (a b : T) : Elem.add a b = .ok (a + b) := ExactRing.add_eq a b
@[simp] theorem sub_ok (a b : T) : Elem.sub a b = .ok (a - b) := ExactRing.sub_eq a b
@[simp] theorem mul_ok (a b : T) : Elem.mul a b = .ok (a * b) := ExactRing.mul_eq a b
@[simp] theorem neg_ok (a : T) : Elem.neg a = .ok (-a) := ExactRing.neg_eq a
@[simp] theorem fromInt_cast (i : Int) : (Elem.fromInt i : T) = i := ExactRing.fromInt_eq i
end

section
variable {K : Type} [Field K] [LinearOrder K]

theorem div_ok (a : K) {b : K} (h : b ≠ 0) : Elem.div a b = .ok (a / b) := if_neg h
theorem div_zero_error (a : K) : Elem.div a (0 : K) = .error .undefined := if_pos rfl
@[simp] theorem abs_ok (a : K) : Elem.abs a = .ok |a| := rfl
@[simp] theorem lt_exact (a b : K) : Elem.lt a b = decide (a < b) := rfl
@[simp] theorem le_exact (a b : K) : Elem.le a b = decide (a ≤ b) := rfl
@[simp] theorem eq_exact (a b : K) : Elem.eq a b = decide (a = b) := rfl
@[simp] theorem gt_exact (a b : K) : Elem.gt a b = decide (b < a) := rfl
@[simp] theorem ge_exact (a b : K) : Elem.ge a b = decide (b ≤ a) := rfl
@[simp] theorem nan_exact (a : K) : Elem.isNan a = false := rfl
@[simp] theorem Le_exact (a b : K) : Le a b ↔ a ≤ b := by simp [Le]
@[simp] theorem Lt_exact (a b : K) : Lt a b ↔ a < b := by simp [Lt]
@[simp] theorem Same_exact (a b : K) : Same a b ↔ a = b := by simp [Same]
end

theorem sqrt_ok {x : ℝ} (h : 0 ≤ x) : FloatFns.sqrt x = .ok (Real.sqrt x) := if_neg (not_lt.2 h)

/-! ### Checked integers: exact or a panic -/

section
variable {c : I64 true} {a b : I64 true}

theorem I64.checked_ok {o : Bool} {v : BitVec 64} :
    (I64.checked o v : Outcome (I64 true)) = .ok c ↔ o = false ∧ ⟨v⟩ = c := by
  unfold I64.checked
  cases o <;> simp

theorem I64.add_checked : Elem.add a b = .ok c ↔ a.toInt + b.toInt = c.toInt := by
  show I64.checked _ _ = _ ↔ _
  rw [I64.checked_ok]
  constructor
  · rintro ⟨h, rfl⟩
    exact (BitVec.toInt_add_of_not_saddOverflow (by simp [h])).symm
  · intro h
    have ho : a.bits.saddOverflow b.bits = false := by
      have h1 := BitVec.toInt_lt (x := c.bits)
      have h2 := BitVec.le_toInt (x := c.bits)
      simp only [I64.toInt] at h
      simp [BitVec.saddOverflow]
      omega
    refine ⟨ho, I64.ext' ?_⟩
    rw [← h]
    exact BitVec.toInt_add_of_not_saddOverflow (by simp [ho])

theorem I64.sub_checked : Elem.sub a b = .ok c ↔ a.toInt - b.toInt = c.toInt := by
  show I64.checked _ _ = _ ↔ _
  rw [I64.checked_ok]
  constructor
  · rintro ⟨h, rfl⟩
    exact (BitVec.toInt_sub_of_not_ssubOverflow (by simp [h])).symm
  · intro h
    have ho : a.bits.ssubOverflow b.bits = false := by
      have h1 := BitVec.toInt_lt (x := c.bits)
      have h2 := BitVec.le_toInt (x := c.bits)
      simp only [I64.toInt] at h
      simp [BitVec.ssubOverflow]
      omega
    refine ⟨ho, I64.ext' ?_⟩
    rw [← h]
    exact BitVec.toInt_sub_of_not_ssubOverflow (by simp [ho])

theorem I64.mul_checked : Elem.mul a b = .ok c ↔ a.toInt * b.toInt = c.toInt := by
  show I64.checked _ _ = _ ↔ _
  rw [I64.checked_ok]
  constructor
  · rintro ⟨h, rfl⟩
    exact (BitVec.toInt_mul_of_not_smulOverflow (by simp [h])).symm
  · intro h
    have ho : a.bits.smulOverflow b.bits = false := by
      have h1 := BitVec.toInt_lt (x := c.bits)
      have h2 := BitVec.le_toInt (x := c.bits)
      simp only [I64.toInt] at h
      simp [BitVec.smulOverflow]
      omega
    refine ⟨ho, I64.ext' ?_⟩
    rw [← h]
    exact BitVec.toInt_mul_of_not_smulOverflow (by simp [ho])

theorem I64.neg_checked : Elem.neg a = .ok c ↔ - a.toInt = c.toInt := by
  show I64.checked _ _ = _ ↔ _
  rw [I64.checked_ok]
  constructor
  · rintro ⟨h, rfl⟩
    exact (BitVec.toInt_neg_of_not_negOverflow (by simp [h])).symm
  · intro h
    have ho : a.bits.negOverflow = false := by
      have h1 := BitVec.toInt_lt (x := c.bits)
      simp only [I64.toInt] at h
      simp only [BitVec.negOverflow, beq_eq_false_iff_ne]
      omega
    refine ⟨ho, I64.ext' ?_⟩
    rw [← h]
    exact BitVec.toInt_neg_of_not_negOverflow (by simp [ho])
end

end Pbrt
