import Verif.Spec.FloatValue
import Verif.Spec.Geometry
import Verif.Model.Transform
import Verif.Model.Ints

/-!
# Computing with whole numbers
-/

namespace Pbrt.Spec

/-- A number type that computes exactly with whole numbers, as long as none exceeds `L`.
    `Is a n` says that the element `a` stands for the whole number `n`. -/
structure WholeArith (T : Type) [Elem T] (Is : T → ℤ → Prop) (L : ℤ) : Prop where
  add : ∀ a b m n, Is a m → Is b n → |m + n| ≤ L → ∃ c, Elem.add a b = .ok c ∧ Is c (m + n)
  sub : ∀ a b m n, Is a m → Is b n → |m - n| ≤ L → ∃ c, Elem.sub a b = .ok c ∧ Is c (m - n)
  mul : ∀ a b m n, Is a m → Is b n → |m * n| ≤ L → ∃ c, Elem.mul a b = .ok c ∧ Is c (m * n)
  neg : ∀ a m, Is a m → |m| ≤ L → ∃ c, Elem.neg a = .ok c ∧ Is c (-m)
  abs : ∀ a m, Is a m → |m| ≤ L → ∃ c, Elem.abs a = .ok c ∧ Is c |m|
  /-- A division without remainder. -/
  div : ∀ a b m n, Is a (m * n) → Is b n → n ≠ 0 → |m| ≤ L → ∃ c, Elem.div a b = .ok c ∧ Is c m
  le : ∀ a b m n, Is a m → Is b n → (Elem.le a b = true ↔ m ≤ n)
  lt : ∀ a b m n, Is a m → Is b n → (Elem.lt a b = true ↔ m < n)
  eq : ∀ a b m n, Is a m → Is b n → (Elem.eq a b = true ↔ m = n)
  nan : ∀ a m, Is a m → Elem.isNan a = false
  int : ∀ n, |n| ≤ L → Is (Elem.fromInt n) n

/-- A floating-point type, in addition: square roots of squares, and the test for one, are exact. -/
structure WholeFloat (F : Type) [Elem F] [FloatFns F] (Is : F → ℤ → Prop) (L : ℤ) : Prop
    extends WholeArith F Is L where
  sqrt : ∀ a k, Is a (k ^ 2) → 0 ≤ k → k ≤ L → ∃ c, FloatFns.sqrt a = .ok c ∧ Is c k
  notOne : ∀ a n, Is a n → (notOne a = true ↔ n ≠ 1)

/-- The `i64` with the value `n` -/
def IsInt {checks : Bool} (a : I64 checks) (n : ℤ) : Prop := a.toInt = n

/-- A float (of either sign, if it is zero) with the value `n` -/
def IsWhole {T : Type} [Elem T] [As T T] [FloatFns T] [IEEE T] (a : T) (n : ℤ) : Prop := IsFinite a ∧ val a = n

/-- Coordinates that are whole numbers, none beyond `M` -/
def Coords {T : Type} (Is : T → ℤ → Prop) (M : ℤ) (x : Fin 3 → T) (a : Fin 3 → ℤ) : Prop :=
  ∀ i, Is (x i) (a i) ∧ |a i| ≤ M

/-- A matrix of whole numbers, none beyond `M` -/
def Entries {T : Type} (Is : T → ℤ → Prop) (M : ℤ) (x : Fin 4 → Fin 4 → T) (a : Fin 4 → Fin 4 → ℤ) : Prop :=
  ∀ i j, Is (x i j) (a i j) ∧ |a i j| ≤ M

end Pbrt.Spec
