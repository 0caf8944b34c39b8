import Verif.Model.Floats
import Mathlib.Analysis.Real.Sqrt
import Mathlib.Data.EReal.Basic

/-!
# Floats as numbers

The class of IEEE float types (`f32` and `f64` are the instances), and the number that a float
stands for.
-/

namespace Pbrt

open Float.Model (UnpackedFloat Format)
open Float.Model.UnpackedFloat (Sign)

/-- The number a float stands for (`0` if it is infinite or NaN) -/
noncomputable def uval : UnpackedFloat → ℝ
  | .finite s m e _ => (s.apply m : ℤ) * 2 ^ e
  | _ => 0

/-- The float as an extended real number (NaN is `0`) -/
noncomputable def uext : UnpackedFloat → EReal
  | .infinity .positive => ⊤
  | .infinity .negative => ⊥
  | u => (uval u : ℝ)

/-- An element type whose values are the floats of a format, and whose operations are those of
    Lean core's float model. -/
class IEEE (T : Type) [Elem T] [As T T] [FloatFns T] where
  fmt : Format
  heb : 2 ≤ fmt.exponentBits
  hwide : fmt.mantissaBits < 2 ^ (fmt.exponentBits - 1)
  bits : T → BitVec fmt.numBits
  pk : UnpackedFloat → T
  valid : ∀ a, fmt.Valid (bits a)
  bits_pk : ∀ u, bits (pk u) = UnpackedFloat.pack fmt u
  bits_inj : ∀ a b, bits a = bits b → a = b
  add_eq : ∀ a b, Elem.add a b = .ok (pk (UnpackedFloat.add fmt (.unpack fmt (bits a)) (.unpack fmt (bits b))))
  sub_eq : ∀ a b, Elem.sub a b = .ok (pk (UnpackedFloat.sub fmt (.unpack fmt (bits a)) (.unpack fmt (bits b))))
  mul_eq : ∀ a b, Elem.mul a b = .ok (pk (UnpackedFloat.mul fmt (.unpack fmt (bits a)) (.unpack fmt (bits b))))
  div_eq : ∀ a b, Elem.div a b = .ok (pk (UnpackedFloat.div fmt (.unpack fmt (bits a)) (.unpack fmt (bits b))))
  neg_eq : ∀ a, Elem.neg a = .ok (pk (UnpackedFloat.neg (.unpack fmt (bits a))))
  abs_eq : ∀ a, Elem.abs a = .ok (pk (UnpackedFloat.abs (.unpack fmt (bits a))))
  sqrt_eq : ∀ a, FloatFns.sqrt a = .ok (pk (UnpackedFloat.sqrt fmt (.unpack fmt (bits a))))
  floor_eq : ∀ a, FloatFns.floor a = pk (roundFloat fmt false (.unpack fmt (bits a)))
  ceil_eq : ∀ a, FloatFns.ceil a = pk (roundFloat fmt true (.unpack fmt (bits a)))
  lt_eq : ∀ a b, Elem.lt a b = UnpackedFloat.lt (.unpack fmt (bits a)) (.unpack fmt (bits b))
  le_eq : ∀ a b, Elem.le a b = UnpackedFloat.le (.unpack fmt (bits a)) (.unpack fmt (bits b))
  eq_eq : ∀ a b, Elem.eq a b = UnpackedFloat.beq (.unpack fmt (bits a)) (.unpack fmt (bits b))
  nan_eq : ∀ a, Elem.isNan a = UnpackedFloat.isNaN (.unpack fmt (bits a))
  int_eq : ∀ i, Elem.fromInt i = pk (UnpackedFloat.ofInt fmt i)
  as_eq : ∀ a : T, As.as_ a = a

instance : IEEE Float32.Model where
  fmt := Format.binary32
  heb := by decide
  hwide := by decide
  bits a := a.toBits.toBitVec
  pk := .pack
  valid a := a.valid
  bits_pk _ := rfl
  bits_inj a b h := by
    cases a; cases b
    simp only [Float32.Model.mk.injEq]
    exact UInt32.toBitVec_inj.1 h
  add_eq _ _ := rfl
  sub_eq _ _ := rfl
  mul_eq _ _ := rfl
  div_eq _ _ := rfl
  neg_eq _ := rfl
  abs_eq _ := rfl
  sqrt_eq _ := rfl
  floor_eq _ := rfl
  ceil_eq _ := rfl
  lt_eq _ _ := rfl
  le_eq _ _ := rfl
  eq_eq _ _ := rfl
  nan_eq _ := rfl
  int_eq _ := rfl
  as_eq _ := rfl

instance : IEEE Float.Model where
  fmt := Format.binary64
  heb := by decide
  hwide := by decide
  bits a := a.toBits.toBitVec
  pk := .pack
  valid a := a.valid
  bits_pk _ := rfl
  bits_inj a b h := by
    cases a; cases b
    simp only [Float.Model.mk.injEq]
    exact UInt64.toBitVec_inj.1 h
  add_eq _ _ := rfl
  sub_eq _ _ := rfl
  mul_eq _ _ := rfl
  div_eq _ _ := rfl
  neg_eq _ := rfl
  abs_eq _ := rfl
  sqrt_eq _ := rfl
  floor_eq _ := rfl
  ceil_eq _ := rfl
  lt_eq _ _ := rfl
  le_eq _ _ := rfl
  eq_eq _ _ := rfl
  nan_eq _ := rfl
  int_eq _ := rfl
  as_eq _ := rfl

section
variable {T : Type} [Elem T] [As T T] [FloatFns T] [IEEE T]

/-- The parts of a float -/
def up (a : T) : UnpackedFloat := .unpack (IEEE.fmt T) (IEEE.bits a)

/-- Neither infinite nor NaN -/
def IsFinite (a : T) : Prop := (up a).isFinite = true

instance (a : T) : Decidable (IsFinite a) := inferInstanceAs (Decidable (_ = _))

/-- The number a float stands for -/
noncomputable def val (a : T) : ℝ := uval (up a)

variable (T) in
/-- The largest relative error of one rounding: half a unit of the last of `p` bits -/
noncomputable def unitRoundoff : ℝ := 2 ^ (-((IEEE.fmt T).mantissaBits : ℤ))

variable (T) in
/-- The largest absolute error of one rounding to a subnormal number: half the smallest one -/
noncomputable def tiny : ℝ := 2 ^ ((IEEE.fmt T).minExponent - 1)

end

end Pbrt
