import Verif.Spec.Geometry
import Verif.Model.Transform
import Mathlib.Logic.Equiv.Defs

/-!
# Scenes with exchanged axes

A permutation `σ` of the axes acts on everything made of coordinates: axis `i` of the new object is
axis `σ i` of the old one.  For matrices, rows and columns may be exchanged independently.
-/

namespace Pbrt

variable {T : Type}

/-- The vector with exchanged axes -/
def Vector3.relabel (σ : Equiv.Perm (Fin 3)) (v : Vector3 T) : Vector3 T := ⟨v.get (σ 0), v.get (σ 1), v.get (σ 2)⟩
/-- The normal with exchanged axes -/
def Normal3.relabel (σ : Equiv.Perm (Fin 3)) (v : Normal3 T) : Normal3 T := ⟨v.get (σ 0), v.get (σ 1), v.get (σ 2)⟩
/-- The point with exchanged axes -/
def Point3.relabel (σ : Equiv.Perm (Fin 3)) (p : Point3 T) : Point3 T := ⟨p.get (σ 0), p.get (σ 1), p.get (σ 2)⟩
/-- The box with exchanged axes -/
def Bounds3.relabel (σ : Equiv.Perm (Fin 3)) (b : Bounds3 T) : Bounds3 T := ⟨b.pMin.relabel σ, b.pMax.relabel σ⟩
/-- The ray with exchanged axes -/
def Ray.relabel (σ : Equiv.Perm (Fin 3)) (r : Ray T) : Ray T := { r with o := r.o.relabel σ, d := r.d.relabel σ }
/-- The ray differential with exchanged axes -/
def RayDifferential.relabel (σ : Equiv.Perm (Fin 3)) (r : RayDifferential T) : RayDifferential T :=
  { r with
    ray := r.ray.relabel σ
    rxOrigin := r.rxOrigin.relabel σ
    ryOrigin := r.ryOrigin.relabel σ
    rxDirection := r.rxDirection.relabel σ
    ryDirection := r.ryDirection.relabel σ }
/-- The matrix with exchanged rows and columns -/
def Matrix4.relabel (ρ τ : Equiv.Perm (Fin 4)) (m : Matrix4 T) : Matrix4 T := ⟨fun i j => m.mat (ρ i) (τ j)⟩

end Pbrt
