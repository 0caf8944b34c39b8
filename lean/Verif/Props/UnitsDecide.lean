import Verif.Proof.Units
import Verif.Props.UnitTests

/-!
# Deciding the relations of C79 for concrete floats

Only for the concrete cases beside the theorems.
-/

namespace Pbrt

open UnitTests (ratVal val_eq)

/-- The relation of `InUnits`, in rational numbers -/
def ratUnits (k : ℤ) (x y : ℚ) : Prop := if 0 ≤ k then y = 2 ^ k.toNat * x else 2 ^ (-k).toNat * y = x

instance (k : ℤ) (x y : ℚ) : Decidable (ratUnits k x y) := by unfold ratUnits; infer_instance

theorem ratUnits_iff (k : ℤ) (x y : ℚ) : ratUnits k x y ↔ (y : ℝ) = 2 ^ k * (x : ℝ) := by
  unfold ratUnits
  split_ifs with h
  · rw [← Int.toNat_of_nonneg h, zpow_natCast, Int.toNat_natCast]
    exact_mod_cast Iff.rfl
  · obtain ⟨n, hn⟩ : ∃ n : ℕ, k = -n := ⟨(-k).toNat, by omega⟩
    subst hn
    rw [neg_neg, Int.toNat_natCast, zpow_neg, zpow_natCast, eq_inv_mul_iff_mul_eq₀ (by positivity)]
    exact_mod_cast Iff.rfl

section
variable {T : Type} [Elem T] [As T T] [FloatFns T] [IEEE T]

instance (k : ℤ) (a b : T) : Decidable (InUnits k a b) :=
  decidable_of_iff (IsFinite a ∧ IsFinite b ∧ ratUnits k (ratVal (up a)) (ratVal (up b))) (by
    unfold InUnits; rw [ratUnits_iff, val_eq, val_eq])

instance (k : ℤ) (a b : T) : Decidable (Rescaled k a b) :=
  decidable_of_iff (IsFinite a → IsFinite b → ratUnits k (ratVal (up a)) (ratVal (up b))) (by
    unfold Rescaled; rw [ratUnits_iff, val_eq, val_eq])

instance (k : ℤ) (p q : Point3 T) : Decidable (p.InUnits k q) := inferInstanceAs (Decidable (∀ _, _))
instance (k : ℤ) (u v : Vector3 T) : Decidable (u.InUnits k v) := inferInstanceAs (Decidable (∀ _, _))
instance (k : ℤ) (u v : Normal3 T) : Decidable (u.InUnits k v) := inferInstanceAs (Decidable (∀ _, _))
instance (k : ℤ) (a b : Bounds3 T) : Decidable (a.InUnits k b) := inferInstanceAs (Decidable (_ ∧ _))
instance (r c : Fin 4 → ℤ) (a b : Matrix4 T) : Decidable (a.InUnits r c b) := inferInstanceAs (Decidable (∀ _ _, _))
instance (r c : Fin 4 → ℤ) (a b : Matrix4 T) : Decidable (a.Rescaled r c b) := inferInstanceAs (Decidable (∀ _ _, _))
instance (p : Point3 T) : Decidable p.Finite := inferInstanceAs (Decidable (∀ _, _))
instance (p : Vector3 T) : Decidable p.Finite := inferInstanceAs (Decidable (∀ _, _))
end

theorem noUnderflow32 (x : ℚ) : NoUnderflow Float32.Model (x : ℝ) ↔ x = 0 ∨ 1 ≤ 2 ^ 126 * |x| := by
  have h : minNormal Float32.Model = (2 ^ 126)⁻¹ := by
    unfold minNormal
    rw [show (IEEE.fmt Float32.Model).minExponent + ((IEEE.fmt Float32.Model).mantissaBits : ℤ) - 1 = -((126 : ℕ) : ℤ) from rfl,
      zpow_neg, zpow_natCast]
  unfold NoUnderflow
  rw [h, inv_le_iff_one_le_mul₀' (by positivity)]
  exact_mod_cast Iff.rfl

instance (x : ℚ) : Decidable (NoUnderflow Float32.Model (x : ℝ)) := decidable_of_iff _ (noUnderflow32 x).symm

theorem noUnderflow32_mul (a b : Float32.Model) : NoUnderflow Float32.Model (val a * val b) ↔
    NoUnderflow Float32.Model ((ratVal (up a) * ratVal (up b) : ℚ) : ℝ) := by
  rw [val_eq, val_eq]; push_cast; rfl

instance (a b : Float32.Model) : Decidable (NoUnderflow Float32.Model (val a * val b)) :=
  decidable_of_iff _ (noUnderflow32_mul a b).symm

instance (u v : Vector3 Float32.Model) : Decidable (u.Fine v) := inferInstanceAs (Decidable (∀ _ _, _))
instance (a b : Matrix4 Float32.Model) : Decidable (a.Fine b) := inferInstanceAs (Decidable (∀ _ _ _, _))
instance (u v : Normal3 Float32.Model) : Decidable (u.Fine v) := inferInstanceAs (Decidable (∀ _ _, _))

/-- An affine matrix with the translation `x`, `y`, `w` -/
def affine32 (x y w : ℤ) : Matrix4 Float32.Model :=
  ⟨Mat44.ofRows (f32 3) (f32 1) (f32 0) (f32 x) (f32 1) (f32 5) (f32 0) (f32 y) (f32 0) (f32 0) (f32 7) (f32 w)
    (f32 0) (f32 0) (f32 0) (f32 1)⟩

end Pbrt
