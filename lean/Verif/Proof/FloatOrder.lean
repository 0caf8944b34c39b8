import Verif.Model.Floats
import Verif.Spec.Laws
import Mathlib.Data.Prod.Lex
import Batteries.Data.Float.Lemmas

/-!
# IEEE floats are lawfully ordered

`compare` on unpacked floats is the comparison of keys in a lexicographic order.
-/

namespace Pbrt

open Float.Model (UnpackedFloat Format)
open Float.Model.UnpackedFloat (Sign)

/-- The position of a float that is not NaN: class (infinity, negative, zero, positive, infinity),
    exponent, mantissa. -/
def fkey : UnpackedFloat → ℤ ×ₗ ℤ ×ₗ ℤ
  | .infinity .negative => toLex (-2, toLex (0, 0))
  | .finite .negative m e _ => toLex (-1, toLex (-e, -m))
  | .zero _ => toLex (0, toLex (0, 0))
  | .finite .positive m e _ => toLex (1, toLex (e, m))
  | .infinity .positive => toLex (2, toLex (0, 0))
  | .notANumber => toLex (0, toLex (0, 0))

theorem key_lt (a b c a' b' c' : ℤ) :
    (toLex (a, toLex (b, c)) : ℤ ×ₗ ℤ ×ₗ ℤ) < toLex (a', toLex (b', c')) ↔
      a < a' ∨ (a = a' ∧ (b < b' ∨ (b = b' ∧ c < c'))) := by
  simp only [Prod.Lex.toLex_lt_toLex]

theorem key_eq (a b c a' b' c' : ℤ) :
    (toLex (a, toLex (b, c)) : ℤ ×ₗ ℤ ×ₗ ℤ) = toLex (a', toLex (b', c')) ↔
      a = a' ∧ b = b' ∧ c = c' := by
  simp

theorem cmp_lt_iff (e e' : Int) (m m' : Nat) : (compare e e').then (compare m m') = .lt ↔
    e < e' ∨ (e = e' ∧ m < m') := by
  rcases lt_trichotomy e e' with h | h | h
  · simp [compare_lt_iff_lt.2 h, h]
  · subst h
    simp [Nat.compare_eq_lt]
  · have h1 : ¬ e < e' := by omega
    have h2 : e ≠ e' := by omega
    simp [compare_gt_iff_gt.2 h, h1, h2]

theorem cmp_gt_iff (e e' : Int) (m m' : Nat) : (compare e e').then (compare m m') = .gt ↔
    e' < e ∨ (e = e' ∧ m' < m) := by
  rcases lt_trichotomy e e' with h | h | h
  · have h1 : ¬ e' < e := by omega
    have h2 : e ≠ e' := by omega
    simp [compare_lt_iff_lt.2 h, h1, h2]
  · subst h
    simp [Nat.compare_eq_gt]
  · simp [compare_gt_iff_gt.2 h, h]

theorem fcompare_lt (a b : UnpackedFloat) :
    a.compare b = some .lt ↔ a ≠ .notANumber ∧ b ≠ .notANumber ∧ fkey a < fkey b := by
  rcases a with (_|_) | _ | (_|_) | ⟨(_|_), m, e, hm⟩ <;>
  rcases b with (_|_) | _ | (_|_) | ⟨(_|_), m', e', hm'⟩ <;>
  simp only [UnpackedFloat.compare, fkey, key_lt, Option.some.injEq, Ordering.swap_eq_lt, cmp_lt_iff,
    cmp_gt_iff] <;> try simp
  rfl

theorem fcompare_gt (a b : UnpackedFloat) :
    a.compare b = some .gt ↔ a ≠ .notANumber ∧ b ≠ .notANumber ∧ fkey b < fkey a := by
  rcases a with (_|_) | _ | (_|_) | ⟨(_|_), m, e, hm⟩ <;>
  rcases b with (_|_) | _ | (_|_) | ⟨(_|_), m', e', hm'⟩ <;>
  simp only [UnpackedFloat.compare, fkey, key_lt, Option.some.injEq, Ordering.swap_eq_gt,
    cmp_lt_iff, cmp_gt_iff] <;> try simp [eq_comm]
  rfl

theorem fcompare_none (a b : UnpackedFloat) :
    a.compare b = none ↔ a = .notANumber ∨ b = .notANumber := by
  rcases a with (_|_) | _ | (_|_) | ⟨(_|_), m, e, hm⟩ <;>
  rcases b with (_|_) | _ | (_|_) | ⟨(_|_), m', e', hm'⟩ <;>
  simp [UnpackedFloat.compare]

theorem flt_iff (a b : UnpackedFloat) :
    a.lt b = true ↔ a ≠ .notANumber ∧ b ≠ .notANumber ∧ fkey a < fkey b := by
  rw [← fcompare_lt]
  simp [UnpackedFloat.lt]

theorem fle_iff (a b : UnpackedFloat) :
    a.le b = true ↔ a ≠ .notANumber ∧ b ≠ .notANumber ∧ fkey a ≤ fkey b := by
  have h1 := fcompare_gt a b
  have h2 := fcompare_none a b
  rw [UnpackedFloat.le]
  rcases h : a.compare b with _ | (_|_|_)
  · have := h2.1 h
    simp only [Option.any_none, Bool.false_eq_true, false_iff]; tauto
  · rw [h] at h1 h2
    have hl := (fcompare_lt a b).1 h
    simp [Ordering.isLE, hl, hl.2.2.le]
  · rw [h] at h1 h2
    simp at h1 h2
    simpa [Ordering.isLE, h2.1, h2.2] using h1 h2.1 h2.2
  · rw [h] at h1
    simp only [true_iff] at h1
    simp [Ordering.isLE, h1]

theorem feq_iff (a b : UnpackedFloat) :
    a.beq b = true ↔ a ≠ .notANumber ∧ b ≠ .notANumber ∧ fkey a = fkey b := by
  have h0 := fcompare_lt a b
  have h1 := fcompare_gt a b
  have h2 := fcompare_none a b
  rw [UnpackedFloat.beq]
  rcases h : a.compare b with _ | (_|_|_) <;> rw [h] at h0 h1 h2
  · simp at h2
    simp; tauto
  · simp at h0
    simp [h0.2.2.ne]
  · simp at h0 h1 h2
    have := h0 h2.1 h2.2
    have := h1 h2.1 h2.2
    simp [h2]
    apply le_antisymm <;> assumption
  · simp at h1
    simp [h1.2.2.ne']

theorem isNaN_false (a : UnpackedFloat) : a.isNaN = false ↔ a ≠ .notANumber := by
  cases a <;> simp [UnpackedFloat.isNaN]

instance : LawfulOrder Float32.Model where
  le_refl a h := (fle_iff _ _).2 ⟨(isNaN_false _).1 h, (isNaN_false _).1 h, le_rfl⟩
  le_trans a b c h1 h2 :=
    have h1 := (fle_iff _ _).1 h1
    have h2 := (fle_iff _ _).1 h2
    (fle_iff _ _).2 ⟨h1.1, h2.2.1, h1.2.2.trans h2.2.2⟩
  le_total a b ha hb := by
    rw [show Elem.le a b = a.unpack.le b.unpack from rfl,
      show Elem.le b a = b.unpack.le a.unpack from rfl, fle_iff, fle_iff]
    have := (isNaN_false _).1 ha
    have := (isNaN_false _).1 hb
    have := le_total (fkey a.unpack) (fkey b.unpack)
    tauto
  lt_iff a b := by
    rw [show Elem.le a b = a.unpack.le b.unpack from rfl,
      show Elem.le b a = b.unpack.le a.unpack from rfl,
      show Elem.lt a b = a.unpack.lt b.unpack from rfl, fle_iff, fle_iff, flt_iff, lt_iff_le_not_ge]
    tauto
  eq_iff a b := by
    rw [show Elem.le a b = a.unpack.le b.unpack from rfl,
      show Elem.le b a = b.unpack.le a.unpack from rfl,
      show Elem.eq a b = a.unpack.beq b.unpack from rfl, fle_iff, fle_iff, feq_iff, le_antisymm_iff]
    tauto
  le_nan a b h :=
    have h := (fle_iff _ _).1 h
    ⟨(isNaN_false _).2 h.1, (isNaN_false _).2 h.2.1⟩

instance : LawfulOrder Float.Model where
  le_refl a h := (fle_iff _ _).2 ⟨(isNaN_false _).1 h, (isNaN_false _).1 h, le_rfl⟩
  le_trans a b c h1 h2 :=
    have h1 := (fle_iff _ _).1 h1
    have h2 := (fle_iff _ _).1 h2
    (fle_iff _ _).2 ⟨h1.1, h2.2.1, h1.2.2.trans h2.2.2⟩
  le_total a b ha hb := by
    rw [show Elem.le a b = a.unpack.le b.unpack from rfl,
      show Elem.le b a = b.unpack.le a.unpack from rfl, fle_iff, fle_iff]
    have := (isNaN_false _).1 ha
    have := (isNaN_false _).1 hb
    have := le_total (fkey a.unpack) (fkey b.unpack)
    tauto
  lt_iff a b := by
    rw [show Elem.le a b = a.unpack.le b.unpack from rfl,
      show Elem.le b a = b.unpack.le a.unpack from rfl,
      show Elem.lt a b = a.unpack.lt b.unpack from rfl, fle_iff, fle_iff, flt_iff, lt_iff_le_not_ge]
    tauto
  eq_iff a b := by
    rw [show Elem.le a b = a.unpack.le b.unpack from rfl,
      show Elem.le b a = b.unpack.le a.unpack from rfl,
      show Elem.eq a b = a.unpack.beq b.unpack from rfl, fle_iff, fle_iff, feq_iff, le_antisymm_iff]
    tauto
  le_nan a b h :=
    have h := (fle_iff _ _).1 h
    ⟨(isNaN_false _).2 h.1, (isNaN_false _).2 h.2.1⟩

theorem fkey_bounds (a : UnpackedFloat) :
    toLex (-2, toLex (0, 0)) ≤ fkey a ∧ fkey a ≤ toLex (2, toLex (0, 0)) := by
  rcases a with (_|_) | _ | (_|_) | ⟨(_|_), m, e, hm⟩ <;> simp [fkey, Prod.Lex.toLex_le_toLex]

theorem unpack_packedInfinity (spec : Format) (s : Sign) :
    UnpackedFloat.unpack spec (UnpackedFloat.packedInfinity spec s) = .infinity s := by
  simp [UnpackedFloat.unpack, UnpackedFloat.packedInfinity]

theorem max32 : (Extremes.maxValue : Float32.Model).unpack = .infinity .positive := unpack_packedInfinity ..
theorem min32 : (Extremes.minValue : Float32.Model).unpack = .infinity .negative := unpack_packedInfinity ..
theorem max64 : (Extremes.maxValue : Float.Model).unpack = .infinity .positive := unpack_packedInfinity ..
theorem min64 : (Extremes.minValue : Float.Model).unpack = .infinity .negative := unpack_packedInfinity ..

instance : LawfulExtremes Float32.Model where
  le_max a h := (fle_iff _ _).2 ⟨(isNaN_false _).1 h, by rw [max32]; simp, by
    rw [max32]; exact (fkey_bounds _).2⟩
  min_le a h := (fle_iff _ _).2 ⟨by rw [min32]; simp, (isNaN_false _).1 h, by
    rw [min32]; exact (fkey_bounds _).1⟩

instance : LawfulExtremes Float.Model where
  le_max a h := (fle_iff _ _).2 ⟨(isNaN_false _).1 h, by rw [max64]; simp, by
    rw [max64]; exact (fkey_bounds _).2⟩
  min_le a h := (fle_iff _ _).2 ⟨by rw [min64]; simp, (isNaN_false _).1 h, by
    rw [min64]; exact (fkey_bounds _).1⟩

end Pbrt
