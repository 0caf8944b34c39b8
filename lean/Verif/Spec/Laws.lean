import Verif.Model.Ints
import Mathlib.Algebra.Order.Field.Basic
import Mathlib.Data.BitVec
import Mathlib.Analysis.Real.Sqrt
import Mathlib.Algebra.Ring.TransferInstance
import Mathlib.Algebra.Order.Round

/-!
# Laws of element types, and exact arithmetic

The theorems about geometry hold for every element type with the laws they need:

* `LawfulOrder`: `<=` is a total preorder on the values that are not NaN, NaN is not comparable
  (integers, floats, exact numbers);
* `Antisymm`: two values that are `<=` each other are the same (not floats: `-0.0`, `0.0`);
* `ExactRing`: `+`, `-`, `*` never panic and are those of a commutative ring (wrapping integers,
  exact numbers);
* `ExactField`: all operations are those of an ordered field.
-/

namespace Pbrt

/-- `<`, `<=`, `==` and `is_nan` belong together, and `<=` is a total preorder on non-NaN values. -/
class LawfulOrder (T : Type) [Elem T] : Prop where
  le_refl : ∀ a : T, Elem.isNan a = false → Elem.le a a = true
  le_trans : ∀ a b c : T, Elem.le a b = true → Elem.le b c = true → Elem.le a c = true
  le_total : ∀ a b : T, Elem.isNan a = false → Elem.isNan b = false →
    Elem.le a b = true ∨ Elem.le b a = true
  lt_iff : ∀ a b : T, Elem.lt a b = true ↔ Elem.le a b = true ∧ ¬ Elem.le b a = true
  eq_iff : ∀ a b : T, Elem.eq a b = true ↔ Elem.le a b = true ∧ Elem.le b a = true
  le_nan : ∀ a b : T, Elem.le a b = true → Elem.isNan a = false ∧ Elem.isNan b = false

/-- Values that are `<=` each other are the same, and there is no NaN. -/
class Antisymm (T : Type) [Elem T] : Prop where
  antisymm : ∀ a b : T, Elem.le a b = true → Elem.le b a = true → a = b
  noNan : ∀ a : T, Elem.isNan a = false

/-- `max_value` and `min_value` are that. -/
class LawfulExtremes (T : Type) [Elem T] [Extremes T] : Prop where
  le_max : ∀ a : T, Elem.isNan a = false → Elem.le a Extremes.maxValue = true
  min_le : ∀ a : T, Elem.isNan a = false → Elem.le Extremes.minValue a = true

/-- Ring operations never panic and are exact. -/
class ExactRing (T : Type) [CommRing T] [Elem T] : Prop where
  add_eq : ∀ a b : T, Elem.add a b = .ok (a + b)
  sub_eq : ∀ a b : T, Elem.sub a b = .ok (a - b)
  mul_eq : ∀ a b : T, Elem.mul a b = .ok (a * b)
  neg_eq : ∀ a : T, Elem.neg a = .ok (-a)
  eq_iff : ∀ a b : T, Elem.eq a b = true ↔ a = b
  fromInt_eq : ∀ i : Int, (Elem.fromInt i : T) = i

/-! ### Exact arithmetic -/

section
variable {K : Type} [Field K] [LinearOrder K]

/-- Exact arithmetic: the numbers of an ordered field.  Dividing by zero has no value. -/
instance (priority := low) exactElem : Elem K where
  add a b := .ok (a + b)
  sub a b := .ok (a - b)
  mul a b := .ok (a * b)
  div a b := if b = 0 then .error .undefined else .ok (a / b)
  neg a := .ok (-a)
  abs a := .ok |a|
  lt a b := decide (a < b)
  le a b := decide (a ≤ b)
  eq a b := decide (a = b)
  isNan _ := false
  fromInt i := i

instance (priority := low) exactAs : As K K := ⟨id⟩
/-- `i64` to exact numbers -/
instance (priority := low) exactAsInt {checks : Bool} : As (I64 checks) K := ⟨fun i => (i.toInt : K)⟩

instance (priority := low) : ExactRing K :=
  ⟨fun _ _ => rfl, fun _ _ => rfl, fun _ _ => rfl, fun _ => rfl, fun _ _ => by simp [Elem.eq], fun _ => rfl⟩

instance (priority := low) : LawfulOrder K where
  le_refl a _ := by simp [Elem.le]
  le_trans a b c h1 h2 := by
    simp only [Elem.le, decide_eq_true_eq] at *
    exact le_trans h1 h2
  le_total a b _ _ := by simpa [Elem.le] using le_total a b
  lt_iff a b := by
    simp only [Elem.lt, Elem.le, decide_eq_true_eq]
    exact lt_iff_le_not_ge
  eq_iff a b := by
    simp only [Elem.eq, Elem.le, decide_eq_true_eq]
    exact le_antisymm_iff
  le_nan _ _ _ := ⟨rfl, rfl⟩

instance (priority := low) : Antisymm K where
  antisymm a b h1 h2 := by
    simp only [Elem.le, decide_eq_true_eq] at *
    exact le_antisymm h1 h2
  noNan _ := rfl

end

/-- The functions of `Float` on the reals.  The square root of a negative number has no value. -/
noncomputable instance : FloatFns ℝ where
  sqrt x := if x < 0 then .error .undefined else .ok (Real.sqrt x)
  floor x := (⌊x⌋ : ℝ)
  ceil x := (⌈x⌉ : ℝ)
  lit999 := 999 / 1000
  lit1001 := 1001 / 1000

/-! ### Integers -/

section
variable {checks : Bool}

@[ext] theorem I64.ext' {a b : I64 checks} (h : a.toInt = b.toInt) : a = b := by
  cases a; cases b
  simp only [I64.toInt] at h
  rw [BitVec.eq_of_toInt_eq h]

theorem I64.le_iff (a b : I64 checks) : Elem.le a b = true ↔ a.toInt ≤ b.toInt := by
  simp [Elem.le, I64.toInt, BitVec.sle_iff_toInt_le]

theorem I64.lt_iff (a b : I64 checks) : Elem.lt a b = true ↔ a.toInt < b.toInt := by
  simp [Elem.lt, I64.toInt, BitVec.slt_iff_toInt_lt]

instance : LawfulOrder (I64 checks) where
  le_refl a _ := by simp [I64.le_iff]
  le_trans a b c := by simp only [I64.le_iff]; omega
  le_total a b := by simp only [I64.le_iff]; omega
  lt_iff a b := by simp only [I64.le_iff, I64.lt_iff]; omega
  eq_iff a b := by
    simp only [Elem.eq, decide_eq_true_eq, I64.le_iff]
    constructor
    · rintro rfl; omega
    · intro h; exact I64.ext' (by omega)
  le_nan _ _ _ := ⟨rfl, rfl⟩

instance : Antisymm (I64 checks) where
  antisymm a b h1 h2 := by
    rw [I64.le_iff] at *
    exact I64.ext' (by omega)
  noNan _ := rfl

theorem I64.maxValue_toInt : (Extremes.maxValue : I64 checks).toInt = 9223372036854775807 := by
  revert checks; decide

theorem I64.minValue_toInt : (Extremes.minValue : I64 checks).toInt = -9223372036854775808 := by
  revert checks; decide

theorem I64.toInt_le (a : I64 checks) : a.toInt ≤ 9223372036854775807 := by
  have := BitVec.toInt_lt (x := a.bits)
  unfold I64.toInt; omega

theorem I64.le_toInt (a : I64 checks) : -9223372036854775808 ≤ a.toInt := by
  have := BitVec.le_toInt (x := a.bits)
  unfold I64.toInt; omega

instance : LawfulExtremes (I64 checks) where
  le_max a _ := by rw [I64.le_iff, I64.maxValue_toInt]; exact a.toInt_le
  min_le a _ := by rw [I64.le_iff, I64.minValue_toInt]; exact a.le_toInt

/-- An `i64` is its 64 bits. -/
def I64.equiv : I64 checks ≃ BitVec 64 := ⟨I64.bits, I64.mk, fun _ => rfl, fun _ => rfl⟩

/-- Wrapping integers are a commutative ring. -/
instance : CommRing (I64 false) := I64.equiv.commRing

instance : ExactRing (I64 false) where
  add_eq _ _ := rfl
  sub_eq _ _ := rfl
  mul_eq _ _ := rfl
  neg_eq _ := rfl
  eq_iff _ _ := by simp [Elem.eq]
  fromInt_eq i := by
    show I64.mk (BitVec.ofInt 64 i) = I64.mk (i : BitVec 64)
    congr 1

end

end Pbrt
