import Verif.Proof.Exact
import Verif.Proof.FloatOrder
import Verif.Spec.Samples
import Mathlib.Algebra.BigOperators.Group.List.Basic

/-!
# Rays (C56, C57)
-/

namespace Pbrt

section
variable {T : Type} [CommRing T] [Elem T] [ExactRing T]

/-! ### C56 -/

/-- **C56**: the point at parameter 0 is the origin. -/
theorem C56_at_zero (r : Ray T) : r.at (Elem.fromInt 0) = .ok r.o := by
  simp [Ray.at, Vector3.mul, Point3.add]

/-- **C56**: the value of `at`, on every axis. -/
theorem C56_at_value (r : Ray T) (t : T) :
    ∃ p, r.at t = .ok p ∧ ∀ i, p.get i = r.o.get i + t * r.d.get i := by
  refine ⟨_, by simp [Ray.at, Vector3.mul, Point3.add]; rfl, fun i => ?_⟩
  fin_cases i <;> simp [Point3.get, Vector3.get]

/-- **C56**: `at` is affine: an affine combination of parameters gives that combination of the
    points. -/
theorem C56_at_affine (r : Ray T) (s t a : T) (p q m : Point3 T) (hp : r.at s = .ok p)
    (hq : r.at t = .ok q) (hm : r.at ((1 - a) * s + a * t) = .ok m) (i : Fin 3) :
    m.get i = (1 - a) * p.get i + a * q.get i := by
  obtain ⟨p', h1, g1⟩ := C56_at_value r s
  obtain ⟨q', h2, g2⟩ := C56_at_value r t
  obtain ⟨m', h3, g3⟩ := C56_at_value r ((1 - a) * s + a * t)
  obtain rfl : p' = p := by simpa using h1.symm.trans hp
  obtain rfl : q' = q := by simpa using h2.symm.trans hq
  obtain rfl : m' = m := by simpa using h3.symm.trans hm
  rw [g1, g2, g3]; ring

/-- **C56**: going on from a point of the ray. -/
theorem C56_at_add (r : Ray T) (s t : T) :
    (do ({ r with o := ← r.at s } : Ray T).at t) = (do r.at (← Elem.add s t)) := by
  simp [Ray.at, Vector3.mul, Point3.add]
  refine ⟨?_, ?_, ?_⟩ <;> ring

/-- **C56**: stepping by one is adding the direction. -/
theorem C56_at_one (r : Ray T) : r.at (Elem.fromInt 1) = r.o.add r.d := by
  simp [Ray.at, Vector3.mul, Point3.add]

/-! ### C57 -/

/-- **C57**: the value of `scale_differentials`: it returns, keeps the main ray and the flag, and
    moves origins and directions along the line through those of the main ray. -/
theorem C57_value (r : RayDifferential T) (s : T) :
    ∃ r', r.scaleDifferentials s = .ok r' ∧ r'.ray = r.ray ∧
      r'.hasDifferentials = r.hasDifferentials ∧ ∀ i,
      r'.rxOrigin.get i = r.ray.o.get i + s * (r.rxOrigin.get i - r.ray.o.get i) ∧
      r'.ryOrigin.get i = r.ray.o.get i + s * (r.ryOrigin.get i - r.ray.o.get i) ∧
      r'.rxDirection.get i = r.ray.d.get i + s * (r.rxDirection.get i - r.ray.d.get i) ∧
      r'.ryDirection.get i = r.ray.d.get i + s * (r.ryDirection.get i - r.ray.d.get i) := by
  have key : r.scaleDifferentials s = .ok { r with
      rxOrigin := ⟨r.ray.o.x + s * (r.rxOrigin.x - r.ray.o.x),
        r.ray.o.y + s * (r.rxOrigin.y - r.ray.o.y), r.ray.o.z + s * (r.rxOrigin.z - r.ray.o.z)⟩
      ryOrigin := ⟨r.ray.o.x + s * (r.ryOrigin.x - r.ray.o.x),
        r.ray.o.y + s * (r.ryOrigin.y - r.ray.o.y), r.ray.o.z + s * (r.ryOrigin.z - r.ray.o.z)⟩
      rxDirection := ⟨r.ray.d.x + s * (r.rxDirection.x - r.ray.d.x),
        r.ray.d.y + s * (r.rxDirection.y - r.ray.d.y),
        r.ray.d.z + s * (r.rxDirection.z - r.ray.d.z)⟩
      ryDirection := ⟨r.ray.d.x + s * (r.ryDirection.x - r.ray.d.x),
        r.ray.d.y + s * (r.ryDirection.y - r.ray.d.y),
        r.ray.d.z + s * (r.ryDirection.z - r.ray.d.z)⟩ } := by
    simp [RayDifferential.scaleDifferentials, Point3.sub, Vector3.sub, Vector3.mul, Point3.add,
      Vector3.add]
  refine ⟨_, key, rfl, rfl, fun i => ?_⟩
  fin_cases i <;> simp [Point3.get, Vector3.get]

theorem C57_one (r : RayDifferential T) :
    r.scaleDifferentials (Elem.fromInt 1) = .ok r := by
  simp [RayDifferential.scaleDifferentials, Point3.sub, Vector3.sub, Vector3.mul, Point3.add,
      Vector3.add]

/-- **C57**: scaling by zero makes the differential rays the main ray. -/
theorem C57_zero (r : RayDifferential T) :
    r.scaleDifferentials (Elem.fromInt 0) = .ok { r with
      rxOrigin := r.ray.o, ryOrigin := r.ray.o, rxDirection := r.ray.d,
      ryDirection := r.ray.d } := by
  simp [RayDifferential.scaleDifferentials, Point3.sub, Vector3.sub, Vector3.mul, Point3.add,
      Vector3.add]

theorem C57_twice (r : RayDifferential T) (s t : T) :
    (do (← r.scaleDifferentials s).scaleDifferentials t) =
      (do r.scaleDifferentials (← Elem.mul s t)) := by
  simp [RayDifferential.scaleDifferentials, Point3.sub, Vector3.sub, Vector3.mul, Point3.add,
      Vector3.add, mul_assoc, mul_left_comm]

/-- **C57**: any number of scalings is one scaling by the product. -/
theorem C57_many (r : RayDifferential T) (ss : List T) :
    ss.foldlM (fun r s => r.scaleDifferentials s) r = r.scaleDifferentials ss.prod := by
  induction ss generalizing r with
  | nil =>
    have := C57_one r
    simp only [fromInt_cast, Int.cast_one] at this
    simpa using this.symm
  | cons s ss ih =>
    obtain ⟨r', h, _⟩ := C57_value r s
    have := C57_twice r s ss.prod
    simp only [h, ok_bind, mul_ok] at this
    simp [List.foldlM_cons, h, ih, this]
end

/-- **C56**: an infinite ray has the given origin and direction, starts at time 0, and its range is
    not left by any parameter that is a number. -/
theorem C56_infinite {F : Type} [Elem F] [Extremes F] [LawfulExtremes F] (o : Point3 F)
    (d : Vector3 F) : (Ray.newInfinite o d).o = o ∧ (Ray.newInfinite o d).d = d ∧
      (Ray.newInfinite o d).time = Elem.fromInt 0 ∧
      ∀ t : F, NotNan t → Le t (Ray.newInfinite o d).tMax :=
  ⟨rfl, rfl, rfl, fun t ht => LawfulExtremes.le_max t ht⟩

/-- **C57**: a new differential has the given ray and no differentials. -/
theorem C57_new {F : Type} [Elem F] (r : Ray F) : (RayDifferential.new r).ray = r ∧
    (RayDifferential.new r).hasDifferentials = false := ⟨rfl, rfl⟩

/-- A limit of **C57**: with floats scaling by 1 may change the differentials (here the
    difference of 1 and `2^25` is not a float). -/
theorem C57_float_one_refuted : ∃ r : RayDifferential Float32.Model,
    r.scaleDifferentials (Elem.fromInt 1) ≠ .ok r :=
  ⟨{ RayDifferential.new ⟨fp 33554432 0 0, fv 0 0 1, f32 1, f32 0⟩ with
      rxOrigin := fp 1 0 0 }, by decide +kernel⟩

example : let r : Ray ℚ := ⟨⟨1, 2, 3⟩, ⟨4, 5, 6⟩, 100, 0⟩
    r.at 2 = .ok ⟨9, 12, 15⟩ := by decide +kernel

example : let r : RayDifferential ℚ :=
      ⟨⟨⟨1, 2, 3⟩, ⟨4, 5, 6⟩, 100, 0⟩, true, ⟨2, 2, 3⟩, ⟨1, 3, 3⟩, ⟨4, 5, 7⟩, ⟨4, 6, 6⟩⟩
    r.scaleDifferentials (1 / 2) =
      .ok ⟨⟨⟨1, 2, 3⟩, ⟨4, 5, 6⟩, 100, 0⟩, true, ⟨3 / 2, 2, 3⟩, ⟨1, 5 / 2, 3⟩, ⟨4, 5, 13 / 2⟩,
        ⟨4, 11 / 2, 6⟩⟩ := by decide +kernel

end Pbrt
