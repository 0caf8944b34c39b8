import Verif.Spec.Geometry
import Verif.Model.Transform

/-!
# Mirror images of scenes

A mirror image changes the sign of the coordinates on some axes, `s : Fin 3 → Bool` telling which.
Two numbers are `Alike` if `==` holds of them or both are NaN: only the sign of a zero and the
payload of a NaN may differ.
-/

namespace Pbrt

variable {T : Type} [Elem T]

/-- `a == b`, or both are NaN -/
def Alike (a b : T) : Prop := Same a b ∨ (¬ NotNan a ∧ ¬ NotNan b)

/-- `b` is like `-a` if `s`, and like `a` otherwise. -/
def Mirror (s : Bool) (a b : T) : Prop :=
  if s then ∃ n, Elem.neg a = .ok n ∧ Alike n b else Alike a b

instance (a b : T) : Decidable (Alike a b) := inferInstanceAs (Decidable (_ ∨ _))

instance (s : Bool) (a b : T) : Decidable (Mirror s a b) :=
  match s, h : Elem.neg a with
  | false, _ => inferInstanceAs (Decidable (Alike a b))
  | true, .ok n => decidable_of_iff (Alike n b)
    ⟨fun hn => ⟨n, h, hn⟩, fun ⟨m, hm, hn⟩ => by rw [h] at hm; cases hm; exact hn⟩
  | true, .error _ => isFalse fun ⟨m, hm, _⟩ => by rw [h] at hm; cases hm

/-- The mirror image of a point -/
def Point3.Mirror (s : Fin 3 → Bool) (p q : Point3 T) : Prop := ∀ i, Pbrt.Mirror (s i) (p.get i) (q.get i)
/-- The mirror image of a vector -/
def Vector3.Mirror (s : Fin 3 → Bool) (u v : Vector3 T) : Prop := ∀ i, Pbrt.Mirror (s i) (u.get i) (v.get i)
/-- The mirror image of a normal -/
def Normal3.Mirror (s : Fin 3 → Bool) (u v : Normal3 T) : Prop := ∀ i, Pbrt.Mirror (s i) (u.get i) (v.get i)

/-- The mirror image of a box: on a mirrored axis the upper face becomes the lower one. -/
def Bounds3.Mirror (s : Fin 3 → Bool) (a b : Bounds3 T) : Prop := ∀ i,
  Pbrt.Mirror (s i) (if s i then a.pMax.get i else a.pMin.get i) (b.pMin.get i) ∧
  Pbrt.Mirror (s i) (if s i then a.pMin.get i else a.pMax.get i) (b.pMax.get i)

/-- The mirror image of a matrix, with `r` telling which coordinates of its results change sign and
    `c` which coordinates of its arguments -/
def Matrix4.Mirror (r c : Fin 4 → Bool) (a b : Matrix4 T) : Prop :=
  ∀ i j, Pbrt.Mirror (xor (r i) (c j)) (a.mat i j) (b.mat i j)

instance (s : Fin 3 → Bool) (p q : Point3 T) : Decidable (p.Mirror s q) := inferInstanceAs (Decidable (∀ _, _))
instance (s : Fin 3 → Bool) (u v : Vector3 T) : Decidable (u.Mirror s v) := inferInstanceAs (Decidable (∀ _, _))
instance (s : Fin 3 → Bool) (u v : Normal3 T) : Decidable (u.Mirror s v) := inferInstanceAs (Decidable (∀ _, _))
instance (s : Fin 3 → Bool) (a b : Bounds3 T) : Decidable (a.Mirror s b) := inferInstanceAs (Decidable (∀ _, _))
instance (r c : Fin 4 → Bool) (a b : Matrix4 T) : Decidable (a.Mirror r c b) :=
  inferInstanceAs (Decidable (∀ _ _, _))

/-- Both computations give values, related by `P`. -/
def Both {A : Type} (P : A → A → Prop) (x y : Outcome A) : Prop := ∃ a b, x = .ok a ∧ y = .ok b ∧ P a b

/-- Both computations give values, related by `P`, or both panic in the same way. -/
def Together {A : Type} (P : A → A → Prop) (x y : Outcome A) : Prop :=
  Both P x y ∨ ∃ e, x = .error e ∧ y = .error e

end Pbrt
