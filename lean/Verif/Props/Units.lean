import Verif.Proof.Units
import Verif.Props.UnitsDecide
import Verif.Props.FloatTransforms
import Verif.Props.FloatBoxes
import Verif.Props.Mirror

/-!
# C79: the choice of the unit of length

For every float type and every finite input: a scene whose coordinates are multiplied by a power of
two, with nothing overflowing or underflowing, gives the same results in the other unit, bit for bit.
The relations `InUnits`, `Rescaled` and the conditions `NoUnderflow`, `Fine` are those of
`Spec/Units.lean`; `Both` is that of `Spec/Mirror.lean`.
-/

open Float.Model

namespace Pbrt

section
variable {T : Type} [Elem T] [As T T] [FloatFns T] [IEEE T]

local notation "𝔽" => IEEE.fmt T
local notation "z" => (Elem.fromInt 0 : T)
local notation "o" => (Elem.fromInt 1 : T)

variable {k l : ℤ}

/-! ### Vectors and normals -/

/-- **C79**, vectors: sums, differences and opposites, without conditions -/
theorem C79_vectors {u u' v v' : Vector3 T} (hu : u.InUnits k u') (hv : v.InUnits k v') :
    Both (Vector3.Rescaled k) (u.add v) (u'.add v') ∧ Both (Vector3.Rescaled k) (u.sub v) (u'.sub v') ∧
    Both (Vector3.InUnits k) u.neg u'.neg := by
  unfold Vector3.InUnits at hu hv
  simp only [forall_axis] at hu hv
  obtain ⟨u1, u2, u3⟩ := hu
  obtain ⟨v1, v2, v3⟩ := hv
  refine ⟨⟨_, _, by simp only [Vector3.add, fadd_ok, ok_bind]; rfl, by simp only [Vector3.add, fadd_ok, ok_bind]; rfl, ?_⟩,
    ⟨_, _, by simp only [Vector3.sub, fsub_ok, ok_bind]; rfl, by simp only [Vector3.sub, fsub_ok, ok_bind]; rfl, ?_⟩,
    ⟨_, _, by simp only [Vector3.neg, fneg_ok, ok_bind]; rfl, by simp only [Vector3.neg, fneg_ok, ok_bind]; rfl, ?_⟩⟩
  · exact forall_axis.2 ⟨u1.rescaled.fadd v1.rescaled, u2.rescaled.fadd v2.rescaled, u3.rescaled.fadd v3.rescaled⟩
  · exact forall_axis.2 ⟨u1.rescaled.fsub v1.rescaled, u2.rescaled.fsub v2.rescaled, u3.rescaled.fsub v3.rescaled⟩
  · exact forall_axis.2 ⟨u1.fneg, u2.fneg, u3.fneg⟩

example := C79_vectors (k := 3) (u := fv 1 2 3) (u' := fv 8 16 24) (v := fv 4 5 7) (v' := fv 32 40 56)
  (by decide +kernel) (by decide +kernel)

/-- **C79**, vectors: products with a number and quotients.  Where numerator and divisor have the same
    unit, the quotient does not change and may underflow. -/
theorem C79_vectors_scalar {v v' : Vector3 T} (hv : v.InUnits k v') {s s' : T} (hs : InUnits l s s') :
    ((∀ i, NoUnderflow T (val s * val (v.get i)) ∧ NoUnderflow T (val s' * val (v'.get i))) →
      Both (Vector3.Rescaled (k + l)) (v.mul s) (v'.mul s')) ∧
    ((k = l ∨ ∀ i, NoUnderflow T (val (v.get i) / val s) ∧ NoUnderflow T (val (v'.get i) / val s')) →
      Both (Vector3.Rescaled (k - l)) (v.div s) (v'.div s')) := by
  constructor
  · intro h
    refine ⟨_, _, by simp only [Vector3.mul, fmul_ok, ok_bind]; rfl, by simp only [Vector3.mul, fmul_ok, ok_bind]; rfl, ?_⟩
    have key : ∀ i, Rescaled (k + l) (fmul s (v.get i)) (fmul s' (v'.get i)) := fun i =>
      (hs.rescaled.fmul (hv i).rescaled (h i).1 (h i).2).congr (add_comm _ _)
    exact forall_axis.2 (forall_axis.1 key)
  · intro h
    refine ⟨_, _, by simp only [Vector3.div, fdiv_ok, ok_bind]; rfl, by simp only [Vector3.div, fdiv_ok, ok_bind]; rfl, ?_⟩
    have key : ∀ i, Rescaled (k - l) (fdiv (v.get i) s) (fdiv (v'.get i) s') := fun i =>
      (hv i).rescaled.fdiv hs (h.imp_right fun h => h i)
    exact forall_axis.2 (forall_axis.1 key)

example := C79_vectors_scalar (k := 3) (l := 1) (v := fv 1 2 3) (v' := fv 8 16 24) (by decide +kernel)
  (s := f32 5) (s' := f32 10) (by decide +kernel)

/-- **C79**, vectors: inner products -/
theorem C79_dot {u u' v v' : Vector3 T} (hu : u.InUnits k u') (hv : v.InUnits l v') (h : u.Fine v) (h' : u'.Fine v') :
    Both (Rescaled (k + l)) (u.dot v) (u'.dot v') := by
  refine ⟨_, _, by simp only [Vector3.dot, fmul_ok, fadd_ok, ok_bind]; rfl,
    by simp only [Vector3.dot, fmul_ok, fadd_ok, ok_bind]; rfl, ?_⟩
  have key : ∀ i, Rescaled (k + l) (fmul (u.get i) (v.get i)) (fmul (u'.get i) (v'.get i)) := fun i =>
    (hu i).rescaled.fmul (hv i).rescaled (h i i) (h' i i)
  exact ((key 0).fadd (key 1)).fadd (key 2)

example := C79_dot (k := 3) (l := 3) (u := fv 1 2 3) (u' := fv 8 16 24) (v := fv 4 5 7) (v' := fv 32 40 56)
  (by decide +kernel) (by decide +kernel) (by decide +kernel) (by decide +kernel)

/-- **C79**, vectors: lengths and their squares -/
theorem C79_len {v v' : Vector3 T} (hv : v.InUnits k v') (h : v.Fine v) (h' : v'.Fine v') :
    Both (Rescaled (k + k)) v.lenSq v'.lenSq ∧ Both (Rescaled k) (v.len : Outcome T) v'.len := by
  have key : ∀ i, Rescaled (k + k) (fmul (v.get i) (v.get i)) (fmul (v'.get i) (v'.get i)) := fun i =>
    (hv i).rescaled.fmul (hv i).rescaled (h i i) (h' i i)
  have hs := ((key 0).fadd (key 1)).fadd (key 2)
  exact ⟨⟨_, _, by simp only [Vector3.lenSq, fmul_ok, fadd_ok, ok_bind]; rfl,
    by simp only [Vector3.lenSq, fmul_ok, fadd_ok, ok_bind]; rfl, hs⟩,
    ⟨_, _, flen_vector v, flen_vector v', hs.fsqrt⟩⟩

/-- **C79**, vectors: cross products -/
theorem C79_cross {u u' v v' : Vector3 T} (hu : u.InUnits k u') (hv : v.InUnits l v') (h : u.Fine v) (h' : u'.Fine v') :
    Both (Vector3.Rescaled (k + l)) (u.cross v) (u'.cross v') := by
  refine ⟨_, _, by simp only [Vector3.cross, fmul_ok, fsub_ok, ok_bind]; rfl,
    by simp only [Vector3.cross, fmul_ok, fsub_ok, ok_bind]; rfl, ?_⟩
  have key : ∀ i j, Rescaled (k + l) (fmul (u.get i) (v.get j)) (fmul (u'.get i) (v'.get j)) := fun i j =>
    (hu i).rescaled.fmul (hv j).rescaled (h i j) (h' i j)
  exact forall_axis.2 ⟨(key 1 2).fsub (key 2 1), (key 2 0).fsub (key 0 2), (key 0 1).fsub (key 1 0)⟩

example := C79_cross (k := 3) (l := 3) (u := fv 1 2 3) (u' := fv 8 16 24) (v := fv 4 5 7) (v' := fv 32 40 56)
  (by decide +kernel) (by decide +kernel) (by decide +kernel) (by decide +kernel)

/-- **C79**, vectors: `face_forward` turns the same vectors around, if the inner products do not
    overflow. -/
theorem C79_faceForward {u u' v v' : Vector3 T} (hu : u.InUnits k u') (hv : v.InUnits l v') (h : u.Fine v)
    (h' : u'.Fine v') (hf : ∀ d, u.dot v = .ok d → IsFinite d) (hf' : ∀ d, u'.dot v' = .ok d → IsFinite d) :
    Both (Vector3.InUnits k) (u.faceForward v) (u'.faceForward v') := by
  obtain ⟨d, d', e, e', hd⟩ := C79_dot hu hv h h'
  have hd := hd.inUnits (hf d e) (hf' d' e')
  simp only [Vector3.faceForward, e, e', ok_bind, hd.lt (InUnits.zero _)]
  split
  · exact (C79_vectors hu hu).2.2
  · exact ⟨_, _, rfl, rfl, hu⟩

example := C79_faceForward (k := 3) (l := 3) (u := fv 1 2 3) (u' := fv 8 16 24) (v := fv 4 5 7) (v' := fv 32 40 56)
  (by decide +kernel) (by decide +kernel) (by decide +kernel) (by decide +kernel)
  (fun d h => by cases h; decide +kernel) (fun d h => by cases h; decide +kernel)

/-- **C79**, vectors: componentwise minimum and maximum, the smallest and largest component, and the
    axis of the largest one -/
theorem C79_extremes {u u' v v' : Vector3 T} (hu : u.InUnits k u') (hv : v.InUnits k v') :
    (u.min v).InUnits k (u'.min v') ∧ (u.max v).InUnits k (u'.max v') ∧
    InUnits k u.minComponent u'.minComponent ∧ InUnits k u.maxComponent u'.maxComponent ∧
    u.maxDimension = u'.maxDimension := by
  refine ⟨?_, ?_, ?_, ?_, ?_⟩
  · have key : ∀ i, InUnits k (min2 (u.get i) (v.get i)) (min2 (u'.get i) (v'.get i)) := fun i => (hu i).min (hv i)
    exact forall_axis.2 (forall_axis.1 key)
  · have key : ∀ i, InUnits k (max2 (u.get i) (v.get i)) (max2 (u'.get i) (v'.get i)) := fun i => (hu i).max (hv i)
    exact forall_axis.2 (forall_axis.1 key)
  · exact ((hu 0).min (hu 1)).min (hu 2)
  · exact ((hu 0).max (hu 1)).max (hu 2)
  · have e : ∀ i j, Elem.gt (u.get i) (u.get j) = Elem.gt (u'.get i) (u'.get j) := fun i j => (hu j).lt (hu i)
    have e1 := e 0 1
    have e2 := e 0 2
    have e3 := e 1 2
    simp only [Vector3.get] at e1 e2 e3
    simp only [Vector3.maxDimension, e1, e2, e3]

example := C79_extremes (k := 3) (u := fv 1 2 3) (u' := fv 8 16 24) (v := fv 4 5 7) (v' := fv 32 40 56)
  (by decide +kernel) (by decide +kernel)

theorem normal_vector {u u' : Normal3 T} : u.InUnits k u' ↔
    (⟨u.x, u.y, u.z⟩ : Vector3 T).InUnits k ⟨u'.x, u'.y, u'.z⟩ := by
  unfold Normal3.InUnits Vector3.InUnits
  rw [forall_axis, forall_axis]; rfl

/-- **C79**, normals: sums, differences and opposites, without conditions -/
theorem C79_normals {u u' v v' : Normal3 T} (hu : u.InUnits k u') (hv : v.InUnits k v') :
    Both (Normal3.Rescaled k) (u.add v) (u'.add v') ∧ Both (Normal3.Rescaled k) (u.sub v) (u'.sub v') ∧
    Both (Normal3.InUnits k) u.neg u'.neg := by
  unfold Normal3.InUnits at hu hv
  simp only [forall_axis] at hu hv
  obtain ⟨u1, u2, u3⟩ := hu
  obtain ⟨v1, v2, v3⟩ := hv
  refine ⟨⟨_, _, by simp only [Normal3.add, fadd_ok, ok_bind]; rfl, by simp only [Normal3.add, fadd_ok, ok_bind]; rfl, ?_⟩,
    ⟨_, _, by simp only [Normal3.sub, fsub_ok, ok_bind]; rfl, by simp only [Normal3.sub, fsub_ok, ok_bind]; rfl, ?_⟩,
    ⟨_, _, by simp only [Normal3.neg, fneg_ok, ok_bind]; rfl, by simp only [Normal3.neg, fneg_ok, ok_bind]; rfl, ?_⟩⟩
  · exact forall_axis.2 ⟨u1.rescaled.fadd v1.rescaled, u2.rescaled.fadd v2.rescaled, u3.rescaled.fadd v3.rescaled⟩
  · exact forall_axis.2 ⟨u1.rescaled.fsub v1.rescaled, u2.rescaled.fsub v2.rescaled, u3.rescaled.fsub v3.rescaled⟩
  · exact forall_axis.2 ⟨u1.fneg, u2.fneg, u3.fneg⟩

example := C79_normals (k := 3) (u := (⟨f32 1, f32 2, f32 3⟩ : Normal3 Float32.Model)) (u' := ⟨f32 8, f32 16, f32 24⟩)
  (v := ⟨f32 4, f32 5, f32 7⟩) (v' := ⟨f32 32, f32 40, f32 56⟩) (by decide +kernel) (by decide +kernel)

/-- **C79**, normals: products with a number, quotients -/
theorem C79_normals_scalar {v v' : Normal3 T} (hv : v.InUnits k v') {s s' : T} (hs : InUnits l s s') :
    ((∀ i, NoUnderflow T (val s * val (v.get i)) ∧ NoUnderflow T (val s' * val (v'.get i))) →
      Both (Normal3.Rescaled (k + l)) (v.mul s) (v'.mul s')) ∧
    ((k = l ∨ ∀ i, NoUnderflow T (val (v.get i) / val s) ∧ NoUnderflow T (val (v'.get i) / val s')) →
      Both (Normal3.Rescaled (k - l)) (v.div s) (v'.div s')) := by
  constructor
  · intro h
    refine ⟨_, _, by simp only [Normal3.mul, fmul_ok, ok_bind]; rfl, by simp only [Normal3.mul, fmul_ok, ok_bind]; rfl, ?_⟩
    have key : ∀ i, Rescaled (k + l) (fmul s (v.get i)) (fmul s' (v'.get i)) := fun i =>
      (hs.rescaled.fmul (hv i).rescaled (h i).1 (h i).2).congr (add_comm _ _)
    exact forall_axis.2 (forall_axis.1 key)
  · intro h
    refine ⟨_, _, by simp only [Normal3.div, fdiv_ok, ok_bind]; rfl, by simp only [Normal3.div, fdiv_ok, ok_bind]; rfl, ?_⟩
    have key : ∀ i, Rescaled (k - l) (fdiv (v.get i) s) (fdiv (v'.get i) s') := fun i =>
      (hv i).rescaled.fdiv hs (h.imp_right fun h => h i)
    exact forall_axis.2 (forall_axis.1 key)

example := C79_normals_scalar (k := 3) (l := 1) (v := (⟨f32 1, f32 2, f32 3⟩ : Normal3 Float32.Model))
  (v' := ⟨f32 8, f32 16, f32 24⟩) (by decide +kernel) (s := f32 5) (s' := f32 10) (by decide +kernel)

/-- **C79**, normals: inner products, lengths, cross products, `face_forward` -/
theorem C79_normals_products {u u' v v' : Normal3 T} (hu : u.InUnits k u') (hv : v.InUnits l v') (h : u.Fine v)
    (h' : u'.Fine v') :
    Both (Rescaled (k + l)) (u.dot v) (u'.dot v') ∧ Both (Normal3.Rescaled (k + l)) (u.cross v) (u'.cross v') ∧
    ((∀ d, u.dot v = .ok d → IsFinite d) → (∀ d, u'.dot v' = .ok d → IsFinite d) →
      Both (Normal3.InUnits k) (u.faceForward v) (u'.faceForward v')) ∧
    (u.Fine u → u'.Fine u' →
      Both (Rescaled (k + k)) u.lenSq u'.lenSq ∧ Both (Rescaled k) (u.len : Outcome T) u'.len) := by
  have key : ∀ i j, Rescaled (k + l) (fmul (u.get i) (v.get j)) (fmul (u'.get i) (v'.get j)) := fun i j =>
    (hu i).rescaled.fmul (hv j).rescaled (h i j) (h' i j)
  have hd : Both (Rescaled (k + l)) (u.dot v) (u'.dot v') :=
    ⟨_, _, by simp only [Normal3.dot, fmul_ok, fadd_ok, ok_bind]; rfl,
      by simp only [Normal3.dot, fmul_ok, fadd_ok, ok_bind]; rfl, ((key 0 0).fadd (key 1 1)).fadd (key 2 2)⟩
  refine ⟨hd, ⟨_, _, by simp only [Normal3.cross, fmul_ok, fsub_ok, ok_bind]; rfl,
    by simp only [Normal3.cross, fmul_ok, fsub_ok, ok_bind]; rfl, ?_⟩, ?_, ?_⟩
  · exact forall_axis.2 ⟨(key 1 2).fsub (key 2 1), (key 2 0).fsub (key 0 2), (key 0 1).fsub (key 1 0)⟩
  · intro hf hf'
    obtain ⟨d, d', e, e', hd⟩ := hd
    have hd := hd.inUnits (hf d e) (hf' d' e')
    simp only [Normal3.faceForward, e, e', ok_bind, hd.lt (InUnits.zero _)]
    split
    · exact (C79_normals hu hu).2.2
    · exact ⟨_, _, rfl, rfl, hu⟩
  · intro g g'
    have key : ∀ i, Rescaled (k + k) (fmul (u.get i) (u.get i)) (fmul (u'.get i) (u'.get i)) := fun i =>
      (hu i).rescaled.fmul (hu i).rescaled (g i i) (g' i i)
    have hs := ((key 0).fadd (key 1)).fadd (key 2)
    exact ⟨⟨_, _, by simp only [Normal3.lenSq, fmul_ok, fadd_ok, ok_bind]; rfl,
      by simp only [Normal3.lenSq, fmul_ok, fadd_ok, ok_bind]; rfl, hs⟩,
      ⟨_, _, flen_normal u, flen_normal u', hs.fsqrt⟩⟩

example := C79_normals_products (k := 3) (l := 3) (u := (⟨f32 1, f32 2, f32 3⟩ : Normal3 Float32.Model))
  (u' := ⟨f32 8, f32 16, f32 24⟩) (v := ⟨f32 4, f32 5, f32 7⟩) (v' := ⟨f32 32, f32 40, f32 56⟩) (by decide +kernel)
  (by decide +kernel) (by decide +kernel) (by decide +kernel)

/-- **C79**, normals: minimum, maximum and the largest component -/
theorem C79_normals_extremes {u u' v v' : Normal3 T} (hu : u.InUnits k u') (hv : v.InUnits k v') :
    (u.min v).InUnits k (u'.min v') ∧ (u.max v).InUnits k (u'.max v') ∧
    InUnits k u.minComponent u'.minComponent ∧ InUnits k u.maxComponent u'.maxComponent ∧
    u.maxDimension = u'.maxDimension := by
  obtain ⟨h1, h2, h3, h4, h5⟩ := C79_extremes (normal_vector.1 hu) (normal_vector.1 hv)
  exact ⟨normal_vector.2 h1, normal_vector.2 h2, h3, h4, h5⟩

example := C79_normals_extremes (k := 3) (u := (⟨f32 1, f32 2, f32 3⟩ : Normal3 Float32.Model))
  (u' := ⟨f32 8, f32 16, f32 24⟩) (v := ⟨f32 4, f32 5, f32 7⟩) (v' := ⟨f32 32, f32 40, f32 56⟩) (by decide +kernel)
  (by decide +kernel)

/-! ### Points and rays -/

theorem point_add_units {p p' : Point3 T} {v v' : Vector3 T} (hp : p.Rescaled k p') (hv : v.Rescaled k v') :
    Both (Point3.Rescaled k) (p.add v) (p'.add v') := by
  refine ⟨_, _, by simp only [Point3.add, fadd_ok, ok_bind]; rfl, by simp only [Point3.add, fadd_ok, ok_bind]; rfl, ?_⟩
  have key : ∀ i, Rescaled k (fadd (p.get i) (v.get i)) (fadd (p'.get i) (v'.get i)) := fun i => (hp i).fadd (hv i)
  exact forall_axis.2 (forall_axis.1 key)

theorem Point3.InUnits.rescaled {p p' : Point3 T} (h : p.InUnits k p') : p.Rescaled k p' := fun i => (h i).rescaled
theorem Vector3.InUnits.rescaled {p p' : Vector3 T} (h : p.InUnits k p') : p.Rescaled k p' := fun i => (h i).rescaled

/-- **C79**, points: displaced points and differences, without conditions -/
theorem C79_points {p p' q q' : Point3 T} {v v' : Vector3 T} (hp : p.InUnits k p') (hq : q.InUnits k q')
    (hv : v.InUnits k v') :
    Both (Point3.Rescaled k) (p.add v) (p'.add v') ∧ Both (Point3.Rescaled k) (p.subVec v) (p'.subVec v') ∧
    Both (Vector3.Rescaled k) (p.sub q) (p'.sub q') ∧ Both (Point3.InUnits k) p.abs p'.abs ∧
    (p.min q).InUnits k (p'.min q') ∧ (p.max q).InUnits k (p'.max q') := by
  refine ⟨point_add_units hp.rescaled hv.rescaled,
    ⟨_, _, by simp only [Point3.subVec, fsub_ok, ok_bind]; rfl, by simp only [Point3.subVec, fsub_ok, ok_bind]; rfl, ?_⟩,
    ⟨_, _, by simp only [Point3.sub, fsub_ok, ok_bind]; rfl, by simp only [Point3.sub, fsub_ok, ok_bind]; rfl, ?_⟩,
    ⟨_, _, by simp only [Point3.abs, fabs_ok, ok_bind]; rfl, by simp only [Point3.abs, fabs_ok, ok_bind]; rfl, ?_⟩, ?_, ?_⟩
  · have key : ∀ i, Rescaled k (fsub (p.get i) (v.get i)) (fsub (p'.get i) (v'.get i)) := fun i =>
      (hp i).rescaled.fsub (hv i).rescaled
    exact forall_axis.2 (forall_axis.1 key)
  · have key : ∀ i, Rescaled k (fsub (p.get i) (q.get i)) (fsub (p'.get i) (q'.get i)) := fun i =>
      (hp i).rescaled.fsub (hq i).rescaled
    exact forall_axis.2 (forall_axis.1 key)
  · have key : ∀ i, InUnits k (fabs (p.get i)) (fabs (p'.get i)) := fun i => (hp i).fabs
    exact forall_axis.2 (forall_axis.1 key)
  · have key : ∀ i, InUnits k (min2 (p.get i) (q.get i)) (min2 (p'.get i) (q'.get i)) := fun i => (hp i).min (hq i)
    exact forall_axis.2 (forall_axis.1 key)
  · have key : ∀ i, InUnits k (max2 (p.get i) (q.get i)) (max2 (p'.get i) (q'.get i)) := fun i => (hp i).max (hq i)
    exact forall_axis.2 (forall_axis.1 key)

example := C79_points (k := 3) (p := fp 1 2 3) (p' := fp 8 16 24) (q := fp 4 5 7) (q' := fp 32 40 56)
  (v := fv 1 (-2) 3) (v' := fv 8 (-16) 24) (by decide +kernel) (by decide +kernel) (by decide +kernel)

theorem point_mul_units {p p' : Point3 T} (hp : p.Rescaled k p') {s s' : T} (hs : Rescaled l s s')
    (h : ∀ i, NoUnderflow T (val s * val (p.get i)) ∧ NoUnderflow T (val s' * val (p'.get i))) :
    Both (Point3.Rescaled (k + l)) (p.mul s) (p'.mul s') := by
  refine ⟨_, _, by simp only [Point3.mul, fmul_ok, ok_bind]; rfl, by simp only [Point3.mul, fmul_ok, ok_bind]; rfl, ?_⟩
  have key : ∀ i, Rescaled (k + l) (fmul s (p.get i)) (fmul s' (p'.get i)) := fun i =>
    (hs.fmul (hp i) (h i).1 (h i).2).congr (add_comm _ _)
  exact forall_axis.2 (forall_axis.1 key)

/-- **C79**, points: products with a number and quotients -/
theorem C79_points_scalar {p p' : Point3 T} (hp : p.InUnits k p') {s s' : T} (hs : InUnits l s s') :
    ((∀ i, NoUnderflow T (val s * val (p.get i)) ∧ NoUnderflow T (val s' * val (p'.get i))) →
      Both (Point3.Rescaled (k + l)) (p.mul s) (p'.mul s')) ∧
    ((k = l ∨ ∀ i, NoUnderflow T (val (p.get i) / val s) ∧ NoUnderflow T (val (p'.get i) / val s')) →
      Both (Point3.Rescaled (k - l)) (p.div s) (p'.div s')) := by
  refine ⟨point_mul_units hp.rescaled hs.rescaled, ?_⟩
  intro h
  refine ⟨_, _, by simp only [Point3.div, fdiv_ok, ok_bind]; rfl, by simp only [Point3.div, fdiv_ok, ok_bind]; rfl, ?_⟩
  have key : ∀ i, Rescaled (k - l) (fdiv (p.get i) s) (fdiv (p'.get i) s') := fun i =>
    (hp i).rescaled.fdiv hs (h.imp_right fun h => h i)
  exact forall_axis.2 (forall_axis.1 key)

example := C79_points_scalar (k := 3) (l := 1) (p := fp 1 2 3) (p' := fp 8 16 24) (by decide +kernel)
  (s := f32 5) (s' := f32 10) (by decide +kernel)

theorem lerp_units {t s a a' b b' : T} (es : Elem.sub o t = .ok s) (ha : Rescaled k a a') (hb : Rescaled k b b')
    (h1 : NoUnderflow T (val s * val a)) (h1' : NoUnderflow T (val s * val a'))
    (h2 : NoUnderflow T (val t * val b)) (h2' : NoUnderflow T (val t * val b')) :
    Both (Rescaled k) (lerp t a b) (lerp t a' b') := by
  rw [fsub_ok, Except.ok.injEq] at es
  refine ⟨_, _, by simp only [lerp, fmul_ok, fsub_ok, fadd_ok, ok_bind]; rfl,
    by simp only [lerp, fmul_ok, fsub_ok, fadd_ok, ok_bind]; rfl, ?_⟩
  rw [es]
  exact (((Rescaled.refl s).fmul ha h1 h1').congr (zero_add _)).fadd (((Rescaled.refl t).fmul hb h2 h2').congr (zero_add _))

/-- **C79**, points: interpolation; the parameter has no unit. -/
theorem C79_lerp {p p' q q' : Point3 T} (hp : p.InUnits k p') (hq : q.InUnits k q') {t s : T}
    (hs : Elem.sub o t = .ok s)
    (h : ∀ i, NoUnderflow T (val s * val (p.get i)) ∧ NoUnderflow T (val t * val (q.get i)))
    (h' : ∀ i, NoUnderflow T (val s * val (p'.get i)) ∧ NoUnderflow T (val t * val (q'.get i))) :
    Both (Point3.Rescaled k) (Point3.lerp t p q) (Point3.lerp t p' q') := by
  unfold Point3.lerp
  rw [hs]
  simp only [ok_bind]
  obtain ⟨a, a', e1, e1', ha⟩ := point_mul_units hp.rescaled (Rescaled.refl s) fun i => ⟨(h i).1, (h' i).1⟩
  obtain ⟨b, b', e2, e2', hb⟩ := point_mul_units hq.rescaled (Rescaled.refl t) fun i => ⟨(h i).2, (h' i).2⟩
  rw [e1, e1', e2, e2']
  rw [add_zero] at ha hb
  refine point_add_units ha ?_
  intro i
  have := hb i
  fin_cases i <;> exact this

example := C79_lerp (k := 3) (p := fp 1 2 3) (p' := fp 8 16 24) (q := fp 4 5 7) (q' := fp 32 40 56)
  (by decide +kernel) (by decide +kernel) (t := f32 3) (s := f32 (-2)) (by decide +kernel) (by decide +kernel)
  (by decide +kernel)

/-- **C79**, rays: the point of a ray at a parameter.  The unit of the direction is that of length
    divided by that of the parameter. -/
theorem C79_ray {r r' : Ray T} {t t' : T} (ho : r.o.InUnits k r'.o) (hd : r.d.InUnits (k - l) r'.d)
    (ht : InUnits l t t')
    (h : ∀ i, NoUnderflow T (val t * val (r.d.get i)) ∧ NoUnderflow T (val t' * val (r'.d.get i))) :
    Both (Point3.Rescaled k) (r.at t) (r'.at t') := by
  obtain ⟨v, v', e, e', hv⟩ := (C79_vectors_scalar hd ht).1 h
  unfold Ray.at
  rw [e, e', ok_bind, ok_bind]
  rw [sub_add_cancel] at hv
  exact point_add_units ho.rescaled hv

/-! ### Boxes -/

/-- **C79**, boxes: all the ways of making boxes, and the corners -/
theorem C79_boxes {p p' q q' : Point3 T} (hp : p.InUnits k p') (hq : q.InUnits k q') {a a' b b' : Bounds3 T}
    (ha : a.InUnits k a') (hb : b.InUnits k b') :
    (Bounds3.new p q).InUnits k (Bounds3.new p' q') ∧ (Bounds3.newPt p).InUnits k (Bounds3.newPt p') ∧
    (a.unionPt p).InUnits k (a'.unionPt p') ∧ (a.union b).InUnits k (a'.union b') ∧
    (a.intersect b).InUnits k (a'.intersect b') ∧ ∀ n, (a.corner n).InUnits k (a'.corner n) := by
  have hnew : ∀ {p p' q q' : Point3 T}, p.InUnits k p' → q.InUnits k q' →
      (Bounds3.new p q).InUnits k (Bounds3.new p' q') := by
    intro p p' q q' hp hq
    refine ⟨fun i => ?_, fun i => ?_⟩
    · rw [new_min, new_min]; exact (hp i).min (hq i)
    · rw [new_max, new_max]; exact (hp i).max (hq i)
  refine ⟨hnew hp hq, hnew hp hp, ⟨fun i => ?_, fun i => ?_⟩, ⟨fun i => ?_, fun i => ?_⟩, ⟨fun i => ?_, fun i => ?_⟩, ?_⟩
  · rw [unionPt_min, unionPt_min]; exact ((ha.1 i).min (hp i)).min ((ha.2 i).max (hp i))
  · rw [unionPt_max, unionPt_max]; exact ((ha.1 i).min (hp i)).max ((ha.2 i).max (hp i))
  · rw [union_min, union_min]; exact ((ha.1 i).min (hb.1 i)).min ((ha.2 i).max (hb.2 i))
  · rw [union_max, union_max]; exact ((ha.1 i).min (hb.1 i)).max ((ha.2 i).max (hb.2 i))
  · rw [intersect_min, intersect_min]; exact ((ha.1 i).max (hb.1 i)).min ((ha.2 i).min (hb.2 i))
  · rw [intersect_max, intersect_max]; exact ((ha.1 i).max (hb.1 i)).max ((ha.2 i).min (hb.2 i))
  · intro n i
    have h1 := ha.1 i
    have h2 := ha.2 i
    unfold Bounds3.corner
    fin_cases i
    · by_cases h : n &&& 1 > 0 <;> simp only [h, if_true, if_false, Point3.get] <;> assumption
    · by_cases h : n &&& 2 > 0 <;> simp only [h, if_true, if_false, Point3.get] <;> assumption
    · by_cases h : n &&& 4 > 0 <;> simp only [h, if_true, if_false, Point3.get] <;> assumption

example := C79_boxes (k := 3) (p := fp 1 2 3) (p' := fp 8 16 24) (q := fp 4 5 7) (q' := fp 32 40 56)
  (by decide +kernel) (by decide +kernel)
  (a := (⟨fp 0 1 0, fp 3 1 5⟩ : Bounds3 Float32.Model)) (a' := ⟨fp 0 8 0, fp 24 8 40⟩)
  (b := (⟨fp 1 1 0, fp 4 2 5⟩ : Bounds3 Float32.Model)) (b' := ⟨fp 8 8 0, fp 32 16 40⟩) (by decide +kernel)
  (by decide +kernel)

/-- **C79**, boxes: `inside`, `inside_exclusive` and `overlaps` answer the same. -/
theorem C79_tests {p p' : Point3 T} (hp : p.InUnits k p') {a a' b b' : Bounds3 T}
    (ha : a.InUnits k a') (hb : b.InUnits k b') :
    a.inside p = a'.inside p' ∧ a.insideExclusive p = a'.insideExclusive p' ∧ a.overlaps b = a'.overlaps b' := by
  refine ⟨?_, ?_, ?_⟩ <;> rw [Bool.eq_iff_iff]
  · rw [inside_iff, inside_iff]
    refine forall_congr' fun i => ?_
    unfold Le
    rw [(ha.1 i).le (hp i), (hp i).le (ha.2 i)]
  · rw [insideExclusive_iff, insideExclusive_iff]
    refine forall_congr' fun i => ?_
    unfold Le Lt
    rw [(ha.1 i).le (hp i), (hp i).lt (ha.2 i)]
  · rw [overlaps_iff, overlaps_iff]
    refine forall_congr' fun i => ?_
    unfold Le
    rw [(hb.1 i).le (ha.2 i), (ha.1 i).le (hb.2 i)]

example := C79_tests (k := 3) (p := fp 1 2 3) (p' := fp 8 16 24) (by decide +kernel)
  (a := (⟨fp 0 1 0, fp 3 1 5⟩ : Bounds3 Float32.Model)) (a' := ⟨fp 0 8 0, fp 24 8 40⟩)
  (b := (⟨fp 1 1 0, fp 4 2 5⟩ : Bounds3 Float32.Model)) (b' := ⟨fp 8 8 0, fp 32 16 40⟩) (by decide +kernel)
  (by decide +kernel)

/-- **C79**, boxes: the diagonal, without conditions -/
theorem C79_diagonal {a a' : Bounds3 T} (ha : a.InUnits k a') : Both (Vector3.Rescaled k) a.diagonal a'.diagonal := by
  obtain ⟨d, e, hd⟩ := fdiagonal a
  obtain ⟨d', e', hd'⟩ := fdiagonal a'
  refine ⟨d, d', e, e', fun i => ?_⟩
  rw [hd, hd']
  exact (ha.2 i).rescaled.fsub (ha.1 i).rescaled

example := C79_diagonal (k := 3) (a := (⟨fp 0 1 0, fp 3 1 5⟩ : Bounds3 Float32.Model)) (a' := ⟨fp 0 8 0, fp 24 8 40⟩)
  (by decide +kernel)

/-- **C79**, boxes: surface and volume, and the longest axis -/
theorem C79_measures {a a' : Bounds3 T} (ha : a.InUnits k a') {d d' : Vector3 T} (hd : a.diagonal = .ok d)
    (hd' : a'.diagonal = .ok d') :
    (d.Fine d → d'.Fine d' → Both (Rescaled (k + k)) a.surfaceArea a'.surfaceArea) ∧
    (d.Fine d → d'.Fine d' → ∀ s s', Elem.mul d.x d.y = .ok s → Elem.mul d'.x d'.y = .ok s' →
      NoUnderflow T (val s * val d.z) → NoUnderflow T (val s' * val d'.z) →
      Both (Rescaled (k + k + k)) a.volume a'.volume) ∧
    (d.Finite → d'.Finite → a.maximumExtent = a'.maximumExtent) := by
  obtain ⟨e, e', q, q', h⟩ := C79_diagonal ha
  rw [hd] at q
  rw [hd'] at q'
  cases q
  cases q'
  refine ⟨fun f f' => ⟨_, _, by simp only [Bounds3.surfaceArea, hd, ok_bind, fmul_ok, fadd_ok]; rfl,
    by simp only [Bounds3.surfaceArea, hd', ok_bind, fmul_ok, fadd_ok]; rfl, ?_⟩,
    fun f f' s s' es es' g g' => ⟨_, _, by simp only [Bounds3.volume, hd, ok_bind, fmul_ok]; rfl,
    by simp only [Bounds3.volume, hd', ok_bind, fmul_ok]; rfl, ?_⟩, fun f f' => ?_⟩
  · have key : ∀ i j, Rescaled (k + k) (fmul (d.get i) (d.get j)) (fmul (d'.get i) (d'.get j)) := fun i j =>
      (h i).fmul (h j) (f i j) (f' i j)
    exact (((key 0 1).fadd (key 0 2)).fadd (key 1 2)).double
  · rw [fmul_ok, Except.ok.injEq] at es es'
    subst es es'
    exact ((h 0).fmul (h 1) (f 0 1) (f' 0 1)).fmul (h 2) g g'
  · have hu : ∀ i, InUnits k (d.get i) (d'.get i) := fun i => (h i).inUnits (f i) (f' i)
    have e : ∀ i j, Elem.gt (d.get i) (d.get j) = Elem.gt (d'.get i) (d'.get j) := fun i j => (hu j).lt (hu i)
    have e1 := e 0 1
    have e2 := e 0 2
    have e3 := e 1 2
    simp only [Vector3.get] at e1 e2 e3
    simp only [Bounds3.maximumExtent, hd, hd', ok_bind, e1, e2, e3]

example := C79_measures (k := 3) (a := (⟨fp 0 1 0, fp 3 1 5⟩ : Bounds3 Float32.Model)) (a' := ⟨fp 0 8 0, fp 24 8 40⟩)
  (by decide +kernel) (d := fv 3 0 5) (d' := fv 24 0 40) (by decide +kernel) (by decide +kernel)

/-- **C79**, boxes: `expand`, also by a negative amount -/
theorem C79_expand {a a' : Bounds3 T} (ha : a.InUnits k a') {s s' : T} (hs : InUnits k s s') :
    Both (fun b b' => b.pMin.Finite → b.pMax.Finite → b'.pMin.Finite → b'.pMax.Finite → b.InUnits k b')
      (a.expand s) (a'.expand s') := by
  refine ⟨_, _, by simp only [Bounds3.expand, Point3.subVec, Point3.add, fsub_ok, fadd_ok, ok_bind]; rfl,
    by simp only [Bounds3.expand, Point3.subVec, Point3.add, fsub_ok, fadd_ok, ok_bind]; rfl, ?_⟩
  have hget : ∀ (p : Point3 T) (f : T → T) (i : Fin 3), (⟨f p.x, f p.y, f p.z⟩ : Point3 T).get i = f (p.get i) := by
    intro p f i; fin_cases i <;> rfl
  intro f1 f2 f1' f2'
  have fin : ∀ {x y : T}, IsFinite (min2 x y) → IsFinite (max2 x y) → Elem.isNan x = false → Elem.isNan y = false →
      IsFinite x ∧ IsFinite y := by
    have := ieee_lawful (T := T)
    intro x y h1 h2 nx ny
    rcases min2_cases x y with ⟨c, e⟩ | ⟨c, e⟩ <;> rcases max2_cases x y with ⟨c', e'⟩ | ⟨c', e'⟩ <;> rw [e] at h1 <;>
      rw [e'] at h2
    · exact absurd c' (fun h => (lt_iff.1 h).2 c.le)
    · exact ⟨h2, h1⟩
    · exact ⟨h1, h2⟩
    · have h3 := notLt_le ny nx c
      have h4 := notLt_le nx ny c'
      refine ⟨h1, ?_⟩
      have h5 := same_iff.2 ⟨h3, h4⟩
      have h6 := R.of_same h5
      rw [finite_iff_ext ny]
      rw [finite_iff_ext nx] at h1
      have h7 := h6.2
      simp only [sneg, Bool.false_eq_true, if_false] at h7
      rw [h7]
      exact h1
  have key : ∀ i, InUnits k (fsub (a.pMin.get i) s) (fsub (a'.pMin.get i) s') ∧
      InUnits k (fadd (a.pMax.get i) s) (fadd (a'.pMax.get i) s') := by
    intro i
    have g1 := f1 i
    have g2 := f2 i
    have g1' := f1' i
    have g2' := f2' i
    rw [new_min, hget _ (fun x => fsub x _), hget _ (fun x => fadd x _)] at g1 g1'
    rw [new_max, hget _ (fun x => fsub x _), hget _ (fun x => fadd x _)] at g2 g2'
    obtain ⟨h1, h2⟩ := fin g1 g2 (fsub_proper (ha.1 i).1 hs.1.notNan) (fadd_proper (ha.2 i).1 hs.1.notNan)
    obtain ⟨h1', h2'⟩ := fin g1' g2' (fsub_proper (ha.1 i).2.1 hs.2.1.notNan) (fadd_proper (ha.2 i).2.1 hs.2.1.notNan)
    exact ⟨((ha.1 i).rescaled.fsub hs.rescaled).inUnits h1 h1', ((ha.2 i).rescaled.fadd hs.rescaled).inUnits h2 h2'⟩
  refine ⟨fun i => ?_, fun i => ?_⟩
  · rw [new_min, new_min, hget _ (fun x => fsub x s), hget _ (fun x => fadd x s), hget _ (fun x => fsub x s'),
      hget _ (fun x => fadd x s')]
    exact (key i).1.min (key i).2
  · rw [new_max, new_max, hget _ (fun x => fsub x s), hget _ (fun x => fadd x s), hget _ (fun x => fsub x s'),
      hget _ (fun x => fadd x s')]
    exact (key i).1.max (key i).2

example := C79_expand (k := 3) (a := (⟨fp 0 1 0, fp 3 1 5⟩ : Bounds3 Float32.Model)) (a' := ⟨fp 0 8 0, fp 24 8 40⟩)
  (by decide +kernel) (s := f32 2) (s' := f32 16) (by decide +kernel)

/-- **C79**, boxes: `offset` gives the same numbers on the axes on which the box is not flat, also
    where they underflow; on the others it gives lengths. -/
theorem C79_offset {a a' : Bounds3 T} (ha : a.InUnits k a') {p p' : Point3 T} (hp : p.InUnits k p') {d d' : Vector3 T}
    (hd : a.diagonal = .ok d) (hd' : a'.diagonal = .ok d') (fd : d.Finite) (fd' : d'.Finite) :
    Both (fun w w' => ∀ i, Rescaled (if Elem.lt (a.pMin.get i) (a.pMax.get i) then 0 else k) (w.get i) (w'.get i))
      (a.offset p) (a'.offset p') := by
  obtain ⟨e, q, hg⟩ := fdiagonal a
  obtain ⟨e', q', hg'⟩ := fdiagonal a'
  rw [hd] at q
  rw [hd'] at q'
  cases q
  cases q'
  obtain ⟨w, ew, hw⟩ := foffset a p
  obtain ⟨w', ew', hw'⟩ := foffset a' p'
  refine ⟨w, w', ew, ew', fun i => ?_⟩
  rw [hw, hw']
  simp only [Lt, (ha.1 i).lt (ha.2 i)]
  have h1 := (hp i).rescaled.fsub (ha.1 i).rescaled
  have h2 := (ha.2 i).rescaled.fsub (ha.1 i).rescaled
  have f1 := fd i
  have f2 := fd' i
  rw [hg] at f1
  rw [hg'] at f2
  by_cases c : Elem.lt (a'.pMin.get i) (a'.pMax.get i) = true
  · simp only [c, if_true]
    exact (h1.fdiv (h2.inUnits f1 f2) (.inl rfl)).congr (sub_self _)
  · simp only [c, Bool.false_eq_true, if_false]
    exact h1

example := C79_offset (k := 3) (a := (⟨fp 0 1 0, fp 3 1 5⟩ : Bounds3 Float32.Model)) (a' := ⟨fp 0 8 0, fp 24 8 40⟩)
  (by decide +kernel) (p := fp 1 2 3) (p' := fp 8 16 24) (by decide +kernel) (d := fv 3 0 5) (d' := fv 24 0 40)
  (by decide +kernel) (by decide +kernel) (by decide +kernel) (by decide +kernel)

/-- **C79**, boxes: `lerp`; the parameters have no unit. -/
theorem C79_box_lerp {a a' : Bounds3 T} (ha : a.InUnits k a') (t s : Point3 T)
    (hs : ∀ i, Elem.sub o (t.get i) = .ok (s.get i))
    (h : ∀ i, NoUnderflow T (val (s.get i) * val (a.pMin.get i)) ∧ NoUnderflow T (val (t.get i) * val (a.pMax.get i)))
    (h' : ∀ i, NoUnderflow T (val (s.get i) * val (a'.pMin.get i)) ∧ NoUnderflow T (val (t.get i) * val (a'.pMax.get i))) :
    Both (Point3.Rescaled k) (a.lerp t) (a'.lerp t) := by
  have key := fun i => lerp_units (hs i) (ha.1 i).rescaled (ha.2 i).rescaled (h i).1 (h' i).1 (h i).2 (h' i).2
  obtain ⟨x, x', e1, e1', h1⟩ := key 0
  obtain ⟨y, y', e2, e2', h2⟩ := key 1
  obtain ⟨w, w', e3, e3', h3⟩ := key 2
  simp only [Point3.get] at e1 e1' e2 e2' e3 e3'
  refine ⟨⟨x, y, w⟩, ⟨x', y', w'⟩, ?_, ?_, forall_axis.2 ⟨h1, h2, h3⟩⟩
  · simp only [Bounds3.lerp, e1, e2, e3, ok_bind]; rfl
  · simp only [Bounds3.lerp, e1', e2', e3', ok_bind]; rfl

example := C79_box_lerp (k := 3) (a := (⟨fp 0 1 0, fp 3 1 5⟩ : Bounds3 Float32.Model)) (a' := ⟨fp 0 8 0, fp 24 8 40⟩)
  (by decide +kernel) (fp 2 0 3) (fp (-1) 1 (-2)) (by decide +kernel) (by decide +kernel) (by decide +kernel)

/-- **C79**, boxes: the bounding sphere -/
theorem C79_sphere {a a' : Bounds3 T} (ha : a.InUnits k a') (h : a.SphereFine) (h' : a'.SphereFine) :
    Both (fun x y : Point3 T × T => x.1.InUnits k y.1 ∧ Rescaled k x.2 y.2) a.boundingSphere a'.boundingSphere := by
  have hs : ∀ b : Bounds3 T, ∃ s c d, b.pMin.add (.ofPoint b.pMax) = .ok s ∧ s.div (Elem.fromInt 2) = .ok c ∧
      c.sub b.pMax = .ok d ∧ (∀ i, s.get i = fadd (b.pMin.get i) (b.pMax.get i)) ∧
      (∀ i, c.get i = fdiv (s.get i) (Elem.fromInt 2)) ∧ ∀ i, d.get i = fsub (c.get i) (b.pMax.get i) := by
    intro b
    refine ⟨⟨_, _, _⟩, ⟨_, _, _⟩, ⟨_, _, _⟩, by simp only [Point3.add, fadd_ok, ok_bind, pure_ok]; rfl,
      by simp only [Point3.div, fdiv_ok, ok_bind, pure_ok]; rfl, by simp only [Point3.sub, fsub_ok, ok_bind, pure_ok]; rfl,
      forall_axis.2 ⟨rfl, rfl, rfl⟩, forall_axis.2 ⟨rfl, rfl, rfl⟩, forall_axis.2 ⟨rfl, rfl, rfl⟩⟩
  obtain ⟨s, c, d, e1, e2, e3, g1, g2, g3⟩ := hs a
  obtain ⟨s', c', d', e1', e2', e3', g1', g2', g3'⟩ := hs a'
  obtain ⟨q1, q2, q3⟩ := h s c d e1 e2 e3
  obtain ⟨q1', q2', q3'⟩ := h' s' c' d' e1' e2' e3'
  obtain ⟨f2, v2⟩ := fromInt_small (T := T) 2 (by norm_num)
  have hc : c.InUnits k c' := by
    intro i
    refine Rescaled.inUnits ?_ (q1 i) (q1' i)
    have hsum := (ha.1 i).rescaled.fadd (ha.2 i).rescaled
    rw [g2, g2']
    rw [← g1, ← g1'] at hsum
    refine (hsum.fdiv (InUnits.refl f2) (.inr ?_)).congr (sub_zero k)
    rw [v2]
    exact ⟨by exact_mod_cast q2 i, by exact_mod_cast q2' i⟩
  have hd : ∀ i, Rescaled k (d.get i) (d'.get i) := by
    intro i
    rw [g3, g3']
    exact (hc i).rescaled.fsub (ha.2 i).rescaled
  have hl : Both (Rescaled k) (d.len : Outcome T) d'.len := by
    have key : ∀ i, Rescaled (k + k) (fmul (d.get i) (d.get i)) (fmul (d'.get i) (d'.get i)) := fun i =>
      (hd i).fmul (hd i) (q3 i i) (q3' i i)
    exact ⟨_, _, flen_vector d, flen_vector d', (((key 0).fadd (key 1)).fadd (key 2)).fsqrt⟩
  simp only [Bounds3.boundingSphere, e1, e1', e2, e2', e3, e3', ok_bind, (C79_tests hc ha ha).1]
  split
  · obtain ⟨r, r', er, er', hr⟩ := hl
    rw [er, er']
    exact ⟨_, _, rfl, rfl, hc, hr⟩
  · exact ⟨_, _, rfl, rfl, hc, (InUnits.zero k).rescaled⟩

/-! ### Ray differentials -/

/-- **C79**, rays: `scale_differentials`, with the unit `k` of length and the unit `l` of directions -/
theorem C79_scale_differentials {r r' : RayDifferential T} {s : T} (ho : r.ray.o.InUnits k r'.ray.o)
    (hd : r.ray.d.InUnits l r'.ray.d) (hxo : r.rxOrigin.InUnits k r'.rxOrigin) (hyo : r.ryOrigin.InUnits k r'.ryOrigin)
    (hxd : r.rxDirection.InUnits l r'.rxDirection) (hyd : r.ryDirection.InUnits l r'.ryDirection)
    (h : r.Fine s) (h' : r'.Fine s) :
    Both (fun q q' => q.rxOrigin.Rescaled k q'.rxOrigin ∧ q.ryOrigin.Rescaled k q'.ryOrigin ∧
        q.rxDirection.Rescaled l q'.rxDirection ∧ q.ryDirection.Rescaled l q'.ryDirection ∧
        q.ray = r.ray ∧ q'.ray = r'.ray)
      (r.scaleDifferentials s) (r'.scaleDifferentials s) := by
  obtain ⟨h1, h2, h3, h4⟩ := h
  obtain ⟨h1', h2', h3', h4'⟩ := h'
  have key : ∀ {m : ℤ} {p p' q q' : T}, Rescaled m p p' → Rescaled m q q' →
      NoUnderflow T (val s * val (fsub q p)) → NoUnderflow T (val s * val (fsub q' p')) →
      Rescaled m (fadd p (fmul s (fsub q p))) (fadd p' (fmul s (fsub q' p'))) := by
    intro m p p' q q' hp hq g g'
    exact hp.fadd (((Rescaled.refl s).fmul (hq.fsub hp) g g').congr (zero_add _))
  have sub_p : ∀ (q p : Point3 T), q.sub p = .ok ⟨fsub q.x p.x, fsub q.y p.y, fsub q.z p.z⟩ := by
    intro q p; simp only [Point3.sub, fsub_ok, ok_bind, pure_ok]
  have sub_v : ∀ (q p : Vector3 T), q.sub p = .ok ⟨fsub q.x p.x, fsub q.y p.y, fsub q.z p.z⟩ := by
    intro q p; simp only [Vector3.sub, fsub_ok, ok_bind, pure_ok]
  have h1 := h1 _ (sub_p _ _)
  have h2 := h2 _ (sub_p _ _)
  have h3 := h3 _ (sub_v _ _)
  have h4 := h4 _ (sub_v _ _)
  have h1' := h1' _ (sub_p _ _)
  have h2' := h2' _ (sub_p _ _)
  have h3' := h3' _ (sub_v _ _)
  have h4' := h4' _ (sub_v _ _)
  refine ⟨⟨_, _, _, _, _, _⟩, ⟨_, _, _, _, _, _⟩, by
      simp only [RayDifferential.scaleDifferentials, sub_p, sub_v, Vector3.mul, Vector3.add, Point3.add, fmul_ok, fadd_ok,
        ok_bind, pure_ok]; rfl,
    by
      simp only [RayDifferential.scaleDifferentials, sub_p, sub_v, Vector3.mul, Vector3.add, Point3.add, fmul_ok, fadd_ok,
        ok_bind, pure_ok]; rfl, ?_, ?_, ?_, ?_, ?_, ?_⟩
  rotate_left 4
  · rfl
  · rfl
  · exact forall_axis.2 ⟨key (ho 0).rescaled (hxo 0).rescaled (h1 0) (h1' 0),
      key (ho 1).rescaled (hxo 1).rescaled (h1 1) (h1' 1), key (ho 2).rescaled (hxo 2).rescaled (h1 2) (h1' 2)⟩
  · exact forall_axis.2 ⟨key (ho 0).rescaled (hyo 0).rescaled (h2 0) (h2' 0),
      key (ho 1).rescaled (hyo 1).rescaled (h2 1) (h2' 1), key (ho 2).rescaled (hyo 2).rescaled (h2 2) (h2' 2)⟩
  · exact forall_axis.2 ⟨key (hd 0).rescaled (hxd 0).rescaled (h3 0) (h3' 0),
      key (hd 1).rescaled (hxd 1).rescaled (h3 1) (h3' 1), key (hd 2).rescaled (hxd 2).rescaled (h3 2) (h3' 2)⟩
  · exact forall_axis.2 ⟨key (hd 0).rescaled (hyd 0).rescaled (h4 0) (h4' 0),
      key (hd 1).rescaled (hyd 1).rescaled (h4 1) (h4' 1), key (hd 2).rescaled (hyd 2).rescaled (h4 2) (h4' 2)⟩

example := C79_scale_differentials (k := 3) (l := 1) (s := f32 5)
  (r := (⟨⟨fp 1 2 3, fv 4 5 6, inf32, f32 0⟩, true, fp 2 2 3, fp 1 3 3, fv 4 6 6, fv 4 5 7⟩ : RayDifferential Float32.Model))
  (r' := ⟨⟨fp 8 16 24, fv 8 10 12, inf32, f32 0⟩, true, fp 16 16 24, fp 8 24 24, fv 8 12 12, fv 8 10 14⟩)
  (by decide +kernel) (by decide +kernel) (by decide +kernel) (by decide +kernel) (by decide +kernel) (by decide +kernel)
  ⟨fun _ e => by cases e; decide +kernel, fun _ e => by cases e; decide +kernel, fun _ e => by cases e; decide +kernel,
    fun _ e => by cases e; decide +kernel⟩
  ⟨fun _ e => by cases e; decide +kernel, fun _ e => by cases e; decide +kernel, fun _ e => by cases e; decide +kernel,
    fun _ e => by cases e; decide +kernel⟩

/-! ### The coordinate system of a vector -/

theorem square_nonneg {a : T} (h : IsFinite (fmul a a)) : 0 ≤ val (fmul a a) := by
  have hx := (fmul_finite h).1
  rw [val_of_rnd (fmul_rnd hx hx) h, ← RN_zero (g := grid 𝔽)]
  exact RN_mono (mul_self_nonneg _)

/-- A part of a sum of squares does not overflow if the sum does not. -/
theorem part_finite {a b c : T} (h : IsFinite (fadd (fadd (fmul a a) (fmul b b)) (fmul c c))) :
    IsFinite (fadd (fmul a a) (fmul c c)) ∧ IsFinite (fadd (fmul b b) (fmul c c)) := by
  have := ieee_lawful (T := T)
  obtain ⟨h1, h2⟩ := fadd_finite h
  obtain ⟨h3, h4⟩ := fadd_finite h1
  have n1 := square_nonneg h3
  have n2 := square_nonneg h4
  have e1 : val (fmul a a) ≤ val (fadd (fmul a a) (fmul b b)) := by
    rw [val_of_rnd (fadd_rnd h3 h4) h1]
    exact (RN_val (fmul a a)).symm.le.trans (RN_mono (by linarith))
  have e2 : val (fmul b b) ≤ val (fadd (fmul a a) (fmul b b)) := by
    rw [val_of_rnd (fadd_rnd h3 h4) h1]
    exact (RN_val (fmul b b)).symm.le.trans (RN_mono (by linarith))
  have key : ∀ {x y : T}, IsFinite x → IsFinite y → 0 ≤ val x → 0 ≤ val y → val x ≤ val y →
      IsFinite (fadd y (fmul c c)) → IsFinite (fadd x (fmul c c)) := by
    intro x y fx fy hx hy hxy hfin
    obtain ⟨n1, r1⟩ := fadd_rnd fx h2
    obtain ⟨n2, r2⟩ := fadd_rnd fy h2
    have hcc := square_nonneg h2
    rw [finite_iff_ext n1, r1]
    rw [finite_iff_ext n2, r2] at hfin
    have u := rnd_mono (fmt := 𝔽) (add_le_add_left hxy (val (fmul c c)))
    have w := rnd_nonneg (fmt := 𝔽) (add_nonneg hx hcc)
    refine ⟨fun e => hfin.1 ?_, fun e => ?_⟩
    · rw [e] at u; exact top_le_iff.1 u
    · rw [e] at w; exact absurd w (by simp)
  exact ⟨key h3 h1 n1 (n1.trans e1) e1 h, key h4 h1 n2 (n1.trans e1) e2 h⟩

theorem root_finite {a b : T} (h : IsFinite (fadd (fmul a a) (fmul b b))) :
    IsFinite (fsqrt (fadd (fmul a a) (fmul b b))) := by
  obtain ⟨h1, h2⟩ := fadd_finite h
  have n : 0 ≤ val (fadd (fmul a a) (fmul b b)) := by
    rw [val_of_rnd (fadd_rnd h1 h2) h, ← RN_zero (g := grid 𝔽)]
    exact RN_mono (add_nonneg (square_nonneg h1) (square_nonneg h2))
  generalize fadd (fmul a a) (fmul b b) = q at *
  obtain ⟨n1, r1⟩ := fsqrt_rnd h n
  obtain ⟨f1, v1⟩ := fromInt_small (T := T) 1 (by norm_num)
  rw [finite_iff_ext n1, r1]
  have w := rnd_nonneg (fmt := 𝔽) (Real.sqrt_nonneg (val q))
  refine ⟨fun e => ?_, fun e => by rw [e] at w; exact absurd w (by simp)⟩
  rcases le_total (val q) 1 with h3 | h3
  · have u := rnd_mono (fmt := 𝔽) (Real.sqrt_le_one.2 h3)
    have e1 := rnd_val f1
    rw [v1, Int.cast_one] at e1
    rw [e, e1] at u
    exact absurd (top_le_iff.1 u) (EReal.coe_ne_top _)
  · have u := rnd_mono (fmt := 𝔽) (Real.sqrt_le_iff.2 ⟨by linarith, by nlinarith⟩ : Real.sqrt (val q) ≤ val q)
    rw [e, rnd_val h] at u
    exact absurd (top_le_iff.1 u) (EReal.coe_ne_top _)

/-- **C79**, vectors: the coordinate system of a vector; the second vector is a unit vector in any
    unit, the third one as long as the first. -/
theorem C79_coordinate_system {v v' : Vector3 T} (hv : v.InUnits k v') (h : v.Fine v) (h' : v'.Fine v')
    (hl : ∀ q, v.lenSq = .ok q → IsFinite q) (hl' : ∀ q, v'.lenSq = .ok q → IsFinite q)
    (hc : ∀ v2 v3, v.coordinateSystem = .ok (v2, v3) → v.Fine v2)
    (hc' : ∀ v2 v3, v'.coordinateSystem = .ok (v2, v3) → v'.Fine v2) :
    Both (fun x y : Vector3 T × Vector3 T => x.1.Rescaled 0 y.1 ∧ x.2.Rescaled k y.2)
      v.coordinateSystem v'.coordinateSystem := by
  have e := fun q hq => hl q (by simpa only [Vector3.lenSq, fmul_ok, fadd_ok, ok_bind, Except.ok.injEq] using hq)
  have e' := fun q hq => hl' q (by simpa only [Vector3.lenSq, fmul_ok, fadd_ok, ok_bind, Except.ok.injEq] using hq)
  have p := part_finite (e _ rfl)
  have p' := part_finite (e' _ rfl)
  have key : ∀ i j, Rescaled (k + k) (fmul (v.get i) (v.get j)) (fmul (v'.get i) (v'.get j)) := fun i j =>
    (hv i).rescaled.fmul (hv j).rescaled (h i j) (h' i j)
  have root : ∀ {a b a' b' : T}, Rescaled (k + k) (fadd (fmul a a) (fmul b b)) (fadd (fmul a' a') (fmul b' b')) →
      IsFinite (fadd (fmul a a) (fmul b b)) → IsFinite (fadd (fmul a' a') (fmul b' b')) →
      InUnits k (fsqrt (fadd (fmul a a) (fmul b b))) (fsqrt (fadd (fmul a' a') (fmul b' b'))) :=
    fun hr f f' => hr.fsqrt.inUnits (root_finite f) (root_finite f')
  have cross : ∀ {w w' : Vector3 T}, v.Fine w → v'.Fine w' → w.Rescaled 0 w' → 
      Both (Vector3.Rescaled k) (v.cross w) (v'.cross w') := by
    intro w w' g g' hw
    refine ⟨_, _, by simp only [Vector3.cross, fmul_ok, fsub_ok, ok_bind]; rfl,
      by simp only [Vector3.cross, fmul_ok, fsub_ok, ok_bind]; rfl, ?_⟩
    have key : ∀ i j, Rescaled k (fmul (v.get i) (w.get j)) (fmul (v'.get i) (w'.get j)) := fun i j =>
      ((hv i).rescaled.fmul (hw j) (g i j) (g' i j)).congr (add_zero k)
    exact forall_axis.2 ⟨(key 1 2).fsub (key 2 1), (key 2 0).fsub (key 0 2), (key 0 1).fsub (key 1 0)⟩
  have ec : Elem.gt (fabs v.x) (fabs v.y) = Elem.gt (fabs v'.x) (fabs v'.y) := (hv 1).fabs.lt (hv 0).fabs
  have fin : ∀ {w w' : Vector3 T}, w.Rescaled 0 w' →
      v.coordinateSystem = (do let v3 ← v.cross w; pure (w, v3)) →
      v'.coordinateSystem = (do let v3 ← v'.cross w'; pure (w', v3)) →
      Both (fun x y : Vector3 T × Vector3 T => x.1.Rescaled 0 y.1 ∧ x.2.Rescaled k y.2)
        v.coordinateSystem v'.coordinateSystem := by
    intro w w' hw q q'
    have tot : ∀ a b : Vector3 T, ∃ c, a.cross b = .ok c := fun a b =>
      ⟨_, by simp only [Vector3.cross, fmul_ok, fsub_ok, ok_bind]; rfl⟩
    obtain ⟨x, ex⟩ := tot v w
    obtain ⟨x', ex'⟩ := tot v' w'
    rw [ex, ok_bind] at q
    rw [ex', ok_bind] at q'
    obtain ⟨y, y', ey, ey', hy⟩ := cross (hc _ _ q) (hc' _ _ q') hw
    rw [ex] at ey
    rw [ex'] at ey'
    cases ey
    cases ey'
    exact ⟨_, _, q, q', hw, hy⟩
  by_cases c : Elem.gt (fabs v'.x) (fabs v'.y) = true
  · have r := root ((key 0 0).fadd (key 2 2)) p.1 p'.1
    refine fin (w := ⟨_, _, _⟩) (w' := ⟨_, _, _⟩) ?_ (by
      simp only [Vector3.coordinateSystem, fabs_ok, ok_bind, ec, c, if_true, fneg_ok, fmul_ok, fadd_ok, fsqrt_ok,
        Vector3.div, fdiv_ok, pure_ok]
      rfl) (by
      simp only [Vector3.coordinateSystem, fabs_ok, ok_bind, c, if_true, fneg_ok, fmul_ok, fadd_ok, fsqrt_ok,
        Vector3.div, fdiv_ok, pure_ok]
      rfl)
    exact forall_axis.2 ⟨((hv 2).rescaled.fneg.fdiv r (.inl rfl)).congr (sub_self _),
      ((InUnits.zero k).rescaled.fdiv r (.inl rfl)).congr (sub_self _),
      ((hv 0).rescaled.fdiv r (.inl rfl)).congr (sub_self _)⟩
  · have r := root ((key 1 1).fadd (key 2 2)) p.2 p'.2
    refine fin (w := ⟨_, _, _⟩) (w' := ⟨_, _, _⟩) ?_ (by
      simp only [Vector3.coordinateSystem, fabs_ok, ok_bind, ec, c, Bool.false_eq_true, if_false, fneg_ok, fmul_ok,
        fadd_ok, fsqrt_ok, Vector3.div, fdiv_ok, pure_ok]
      rfl) (by
      simp only [Vector3.coordinateSystem, fabs_ok, ok_bind, c, Bool.false_eq_true, if_false, fneg_ok, fmul_ok,
        fadd_ok, fsqrt_ok, Vector3.div, fdiv_ok, pure_ok]
      rfl)
    exact forall_axis.2 ⟨((InUnits.zero k).rescaled.fdiv r (.inl rfl)).congr (sub_self _),
      ((hv 2).rescaled.fdiv r (.inl rfl)).congr (sub_self _),
      ((hv 1).rescaled.fneg.fdiv r (.inl rfl)).congr (sub_self _)⟩

/-! ### Matrices and transforms -/

/-- **C79**, matrices: the product -/
theorem C79_matrix_mul {r m c : Fin 4 → ℤ} {a a' b b' : Matrix4 T} (ha : a.InUnits r m a') (hb : b.InUnits m c b')
    (h : a.Fine b) (h' : a'.Fine b') : Both (Matrix4.Rescaled r c) (a.mul b) (a'.mul b') := by
  refine ⟨_, _, fmul_mat a b, fmul_mat a' b', fun i j => ?_⟩
  have key : ∀ l, Rescaled (r i - c j) (fmul (a.mat i l) (b.mat l j)) (fmul (a'.mat i l) (b'.mat l j)) := fun l =>
    ((ha i l).rescaled.fmul (hb l j).rescaled (h i j l) (h' i j l)).congr (by ring)
  exact (((((InUnits.zero _).rescaled.fadd (key 0)).fadd (key 1)).fadd (key 2)).fadd (key 3))

example := C79_matrix_mul (a := affine32 1 2 3) (a' := affine32 1024 2048 3072) (b := affine32 1 2 3)
  (b' := affine32 1024 2048 3072) (r := lengthUnits 10) (m := lengthUnits 10) (c := lengthUnits 10)
  (by decide +kernel) (by decide +kernel) (by decide +kernel) (by decide +kernel)

/-- **C79**, matrices: the transposed matrix -/
theorem C79_transpose {r c : Fin 4 → ℤ} {a a' : Matrix4 T} (ha : a.InUnits r c a') :
    a.transpose.InUnits (fun i => -c i) (fun i => -r i) a'.transpose := by
  intro i j
  have := ha j i
  rw [show -c i - -r j = r j - c i by ring]
  have e : ∀ a : Matrix4 T, a.transpose.mat i j = a.mat j i := by
    intro a; fin_cases i <;> fin_cases j <;> rfl
  rw [e, e]
  exact this

example := C79_transpose (a := affine32 1 2 3) (a' := affine32 1024 2048 3072) (r := lengthUnits 10)
  (c := lengthUnits 10) (by decide +kernel)

theorem shift_units {x y w x' y' w' : T} (hx : InUnits k x x') (hy : InUnits k y y') (hw : InUnits k w w') :
    (⟨Mat44.ofRows o z z x z o z y z z o w z z z o⟩ : Matrix4 T).InUnits (lengthUnits k) (lengthUnits k)
      ⟨Mat44.ofRows o z z x' z o z y' z z o w' z z z o⟩ := by
  have f1 := InUnits.refl (fromInt_small (T := T) 1 (by norm_num)).1
  have h1 : InUnits (k - k) o o := by rw [sub_self]; exact f1
  have h0 := InUnits.zero (T := T)
  have e : k - 0 = k := sub_zero k
  intro i j
  match i, j with
  | 0, 0 => exact h1
  | 0, 1 => exact h0 _
  | 0, 2 => exact h0 _
  | 0, 3 => show InUnits (k - 0) x x'; rw [e]; exact hx
  | 1, 0 => exact h0 _
  | 1, 1 => exact h1
  | 1, 2 => exact h0 _
  | 1, 3 => show InUnits (k - 0) y y'; rw [e]; exact hy
  | 2, 0 => exact h0 _
  | 2, 1 => exact h0 _
  | 2, 2 => exact h1
  | 2, 3 => show InUnits (k - 0) w w'; rw [e]; exact hw
  | 3, 0 => exact h0 _
  | 3, 1 => exact h0 _
  | 3, 2 => exact h0 _
  | 3, 3 => exact f1

/-- **C79**, transforms: translating by the same distance is the same transform in the other unit. -/
theorem C79_translate {v v' : Vector3 T} (hv : v.InUnits k v') :
    Both (fun t t' : Transform T => t.m.InUnits (lengthUnits k) (lengthUnits k) t'.m ∧
      t.mInv.InUnits (lengthUnits k) (lengthUnits k) t'.mInv) (Transform.translate v) (Transform.translate v') := by
  have e : ∀ v : Vector3 T, Transform.translate v = .ok ⟨⟨Mat44.ofRows o z z v.x z o z v.y z z o v.z z z z o⟩,
      ⟨Mat44.ofRows o z z (fneg v.x) z o z (fneg v.y) z z o (fneg v.z) z z z o⟩⟩ := by
    intro v; simp only [Transform.translate, fneg_ok, ok_bind, pure_ok]
  have hx : InUnits k v.x v'.x := hv 0
  have hy : InUnits k v.y v'.y := hv 1
  have hz : InUnits k v.z v'.z := hv 2
  refine ⟨_, _, e v, e v', ?_, ?_⟩
  · exact shift_units hx hy hz
  · exact shift_units hx.fneg hy.fneg hz.fneg

/-- **C79**, transforms: transforming a vector, with any units of the coordinates before (`c`) and
    after (`r`).  The translation does not matter. -/
theorem C79_transform {r c : Fin 3 → ℤ} {t t' : Transform T}
    (ht : ∀ i j : Fin 3, InUnits (r i - c j) (t.m.mat i.castSucc j.castSucc) (t'.m.mat i.castSucc j.castSucc))
    {v v' : Vector3 T} (hv : ∀ j, InUnits (c j) (v.get j) (v'.get j))
    (h : ∀ i j : Fin 3, NoUnderflow T (val (t.m.mat i.castSucc j.castSucc) * val (v.get j)))
    (h' : ∀ i j : Fin 3, NoUnderflow T (val (t'.m.mat i.castSucc j.castSucc) * val (v'.get j))) :
    Both (fun w w' : Vector3 T => ∀ i, Rescaled (r i) (w.get i) (w'.get i))
      (v.transform t : Outcome (Vector3 T)) (v'.transform t') := by
  obtain ⟨w, e, hw⟩ := ftransform v t
  obtain ⟨w', e', hw'⟩ := ftransform v' t'
  refine ⟨w, w', e, e', fun i => ?_⟩
  rw [hw, hw']
  have key : ∀ j : Fin 3, Rescaled (r i) (fmul (t.m.mat i.castSucc j.castSucc) (v.get j))
      (fmul (t'.m.mat i.castSucc j.castSucc) (v'.get j)) := fun j =>
    ((ht _ _).rescaled.fmul (hv j).rescaled (h _ j) (h' _ j)).congr (sub_add_cancel _ _)
  exact ((key 0).fadd (key 1)).fadd (key 2)

example := C79_transform (r := fun _ => 3) (c := fun _ => 1) (t := ⟨⟨fun i j => f32 (i.val * 7 - j.val)⟩, Matrix4.one _⟩)
  (t' := ⟨⟨fun i j => f32 (4 * (i.val * 7 - j.val))⟩, Matrix4.one _⟩) (by decide +kernel) (v := fv 1 2 3)
  (v' := fv 2 4 6) (by decide +kernel) (by decide +kernel) (by decide +kernel)

end

/-! ### Where the unit matters -/

open UnitTests (ratVal val_eq)

/-- `2 ^ n` as a float -/
def pow32 (n : ℤ) : Float32.Model := if 0 ≤ n then f32 (2 ^ n.toNat) else .ofScientific (5 ^ (-n).toNat) n

/-- **C79**, a limit: where products underflow, the result depends on the unit.  The inner product of
    a vector of length `2 ^ -75` with itself is zero, in a unit half as long it is not. -/
theorem C79_underflow_refuted : ∃ u u' : Vector3 Float32.Model, u.InUnits 1 u' ∧
    ¬ Both (Rescaled (1 + 1)) (u.dot u) (u'.dot u') := by
  refine ⟨⟨pow32 (-75), f32 0, f32 0⟩, ⟨pow32 (-74), f32 0, f32 0⟩, by decide +kernel, ?_⟩
  rintro ⟨a, b, e, e', h⟩
  have ea : (⟨pow32 (-75), f32 0, f32 0⟩ : Vector3 Float32.Model).dot ⟨pow32 (-75), f32 0, f32 0⟩ = .ok (f32 0) := by
    decide +kernel
  have eb : (⟨pow32 (-74), f32 0, f32 0⟩ : Vector3 Float32.Model).dot ⟨pow32 (-74), f32 0, f32 0⟩ = .ok (pow32 (-148)) := by
    decide +kernel
  rw [ea, Except.ok.injEq] at e
  rw [eb, Except.ok.injEq] at e'
  subst e e'
  revert h
  decide +kernel

/-- **C79**, a limit: it has to be a power of two.  In a unit three times shorter, the sum of two
    numbers is not three times the sum. -/
theorem C79_factor_refuted : ∃ x y s x' y' s' : Float32.Model, val x' = 3 * val x ∧ val y' = 3 * val y ∧
    Elem.add x y = .ok s ∧ Elem.add x' y' = .ok s' ∧ val s' ≠ 3 * val s := by
  refine ⟨f32 (2 ^ 24), f32 1, f32 (2 ^ 24), f32 (3 * 2 ^ 24), f32 3, f32 (3 * 2 ^ 24 + 4), ?_⟩
  simp only [val_eq]
  refine ⟨?_, ?_, by decide +kernel, by decide +kernel, ?_⟩
  · exact_mod_cast (by decide +kernel : ratVal (up (f32 (3 * 2 ^ 24))) = 3 * ratVal (up (f32 (2 ^ 24))))
  · exact_mod_cast (by decide +kernel : ratVal (up (f32 3)) = 3 * ratVal (up (f32 1)))
  · exact_mod_cast (by decide +kernel : ratVal (up (f32 (3 * 2 ^ 24 + 4))) ≠ 3 * ratVal (up (f32 (2 ^ 24))))

/-- **C79**, a limit: `Matrix4::inverse` pivots on the largest entry, and in another unit of length the
    translation may be the largest one; the inverse of an affine matrix is rounded differently then,
    without any underflow. -/
theorem C79_inverse_refuted : ∃ a a' : Matrix4 Float32.Model, a.InUnits (lengthUnits 10) (lengthUnits 10) a' ∧
    ¬ Both (Matrix4.Rescaled (lengthUnits 10) (lengthUnits 10)) (a.inverse : Outcome (Matrix4 Float32.Model)) a'.inverse := by
  refine ⟨affine32 1 2 3, affine32 1024 2048 3072, by decide +kernel, ?_⟩
  rintro ⟨b, b', e, e', h⟩
  have h := h 1 2
  have k1 : (match (affine32 1 2 3).inverse with | .ok b => decide (b.mat 1 2 = f32 0) | .error _ => false) = true := by
    decide +kernel
  have k2 : (match ((affine32 1024 2048 3072).inverse : Outcome (Matrix4 Float32.Model)) with
      | .ok b => decide (IsFinite (b.mat 1 2) ∧ ratVal (up (b.mat 1 2)) = -1 / 2 ^ 27) | .error _ => false) = true := by
    decide +kernel
  rw [e] at k1
  rw [e'] at k2
  simp only [decide_eq_true_eq] at k1 k2
  have h := h (by rw [k1]; decide +kernel) k2.1
  rw [k1, val_eq, val_eq, k2.2, show ratVal (up (f32 0)) = 0 by decide +kernel] at h
  norm_num at h

/-- **C79**, a limit: in one unit `Matrix4::inverse` panics, in another one it does not. -/
theorem C79_singular_refuted : ∃ a a' : Matrix4 Float32.Model, a.InUnits (fun _ => 50) (fun _ => 0) a' ∧
    (a.inverse : Outcome (Matrix4 Float32.Model)) = .error .singularZeroPivot ∧
    ∃ b, (a'.inverse : Outcome (Matrix4 Float32.Model)) = .ok b := by
  let m (k : ℤ) : Matrix4 Float32.Model := ⟨Mat44.ofRows (pow32 k) (pow32 (k - 80)) (f32 0) (f32 0)
    (pow32 (k - 80)) (f32 0) (f32 0) (f32 0) (f32 0) (f32 0) (pow32 k) (f32 0) (f32 0) (f32 0) (f32 0) (pow32 k)⟩
  refine ⟨m 0, m 50, by decide +kernel, ?_, ?_⟩
  · have h : (match ((m 0).inverse : Outcome (Matrix4 Float32.Model)) with
        | .error .singularZeroPivot => true | _ => false) = true := by decide +kernel
    split at h
    · assumption
    · cases h
  · have h : (match ((m 50).inverse : Outcome (Matrix4 Float32.Model)) with | .ok _ => true | _ => false) = true := by
      decide +kernel
    split at h
    · exact ⟨_, by assumption⟩
    · cases h

/-! ### Examples -/

-- vectors in metres and in units of 1/8 m, whose products do not underflow
example : (fv 1 2 3).InUnits 3 (fv 8 16 24) ∧ (fv 1 2 3).Fine (fv 1 2 3) ∧ (fv 8 16 24).Fine (fv 8 16 24) ∧
    ¬ (fv 1 2 3).InUnits 3 (fv 8 16 25) ∧
    (fv 1 2 3).cross (fv 4 5 7) = .ok (fv (-1) 5 (-3)) ∧
    (fv 8 16 24).cross (fv 32 40 56) = .ok (fv (-64) (64 * 5) (-64 * 3)) ∧
    Both (Rescaled 3) ((fv 1 2 3).len : Outcome Float32.Model) (fv 8 16 24).len := by
  refine ⟨by decide +kernel, by decide +kernel, by decide +kernel, by decide +kernel, by decide +kernel,
    by decide +kernel, ?_⟩
  exact (C79_len (by decide +kernel : (fv 1 2 3).InUnits 3 (fv 8 16 24)) (by decide +kernel) (by decide +kernel)).2

-- a box with rounded sides, an offset which is not exact, a bounding sphere with an irrational radius
example :
    let a : Bounds3 Float32.Model := ⟨fp 0 1 0, fp 3 1 5⟩
    let a' : Bounds3 Float32.Model := ⟨fp 0 4 0, fp 12 4 20⟩
    a.InUnits 2 a' ∧ (fp 1 2 2).InUnits 2 (fp 4 8 8) ∧ (fv 3 0 5).Finite ∧ a.diagonal = .ok (fv 3 0 5) ∧
    a'.diagonal = .ok (fv 12 0 20) ∧ a.surfaceArea = .ok (f32 30) ∧ a'.surfaceArea = .ok (f32 480) ∧
    a.maximumExtent = .ok 2 ∧ a'.maximumExtent = .ok 2 ∧
    (match a.offset (fp 1 2 2), a'.offset (fp 4 8 8) with
      | .ok v, .ok v' => decide (v.x = v'.x ∧ v.y = f32 1 ∧ v'.y = f32 4 ∧ v.z = v'.z ∧ v.x ≠ f32 0)
      | _, _ => false) = true ∧
    (match a.boundingSphere, a'.boundingSphere with
      | .ok s, .ok s' => decide (s.1.InUnits 2 s'.1 ∧ InUnits 2 s.2 s'.2)
      | _, _ => false) = true := by
  decide +kernel

-- the condition on boxes is satisfied
example : (⟨fp 0 1 0, fp 4 1 6⟩ : Bounds3 Float32.Model).SphereFine := by
  intro s c d e1 e2 e3
  have q1 : (fp 0 1 0).add (.ofPoint (fp 4 1 6)) = .ok (fp 4 2 6) := by decide +kernel
  rw [q1] at e1
  cases e1
  have q2 : (fp 4 2 6).div (Elem.fromInt 2) = .ok (fp 2 1 3) := by decide +kernel
  rw [q2] at e2
  cases e2
  have q3 : (fp 2 1 3).sub (fp 4 1 6) = .ok (fv (-2) 0 (-3)) := by decide +kernel
  rw [q3] at e3
  cases e3
  refine ⟨by decide +kernel, fun i => ?_, by decide +kernel⟩
  rw [val_eq, show ((ratVal (up ((fp 4 2 6).get i)) : ℚ) : ℝ) / 2 = ((ratVal (up ((fp 4 2 6).get i)) / 2 : ℚ) : ℝ) by
    push_cast; rfl]
  revert i
  decide +kernel

-- a translation by the same distance in two units
example : Both (fun t t' : Transform Float32.Model => t.m.InUnits (lengthUnits 4) (lengthUnits 4) t'.m ∧
    t.mInv.InUnits (lengthUnits 4) (lengthUnits 4) t'.mInv)
    (Transform.translate (fv 1 2 3)) (Transform.translate (fv 16 32 48)) :=
  C79_translate (by decide +kernel)

-- affine matrices in two units, and the condition for their product
example : (affine32 1 2 3).InUnits (lengthUnits 10) (lengthUnits 10) (affine32 1024 2048 3072) ∧
    (affine32 1 2 3).Fine (affine32 1 2 3) ∧ (affine32 1024 2048 3072).Fine (affine32 1024 2048 3072) := by
  decide +kernel

-- the coordinate system of a vector in two units
example : Both (fun x y : Vector3 Float32.Model × Vector3 Float32.Model => x.1.Rescaled 0 y.1 ∧ x.2.Rescaled 3 y.2)
    (fv 0 3 4).coordinateSystem (fv 0 24 32).coordinateSystem := by
  have key : ∀ v : Vector3 Float32.Model,
      (match v.coordinateSystem with | .ok w => decide (v.Fine w.1) | .error _ => true) = true →
      ∀ v2 v3, v.coordinateSystem = .ok (v2, v3) → v.Fine v2 := by
    intro v h v2 v3 e
    rw [e] at h
    exact of_decide_eq_true h
  have len : ∀ v : Vector3 Float32.Model,
      (match v.lenSq with | .ok w => decide (IsFinite w) | .error _ => true) = true →
      ∀ q, v.lenSq = .ok q → IsFinite q := by
    intro v h q e
    rw [e] at h
    exact of_decide_eq_true h
  exact C79_coordinate_system (by decide +kernel) (by decide +kernel) (by decide +kernel) (len _ (by decide +kernel))
    (len _ (by decide +kernel)) (key _ (by decide +kernel)) (key _ (by decide +kernel))

-- a ray in units of 1/4 m and 1/2 s, with directions in m/s
example : Both (Point3.Rescaled 2)
    ((⟨fp 1 2 3, fv 1 0 (-1), inf32, f32 0⟩ : Ray Float32.Model).at (f32 5))
    ((⟨fp 4 8 12, fv 2 0 (-2), inf32, f32 0⟩ : Ray Float32.Model).at (f32 10)) :=
  C79_ray (k := 2) (l := 1) (by decide +kernel) (by decide +kernel) (by decide +kernel) (by decide +kernel)

-- the bounding spheres of the box above and of the same box in another unit
example : Both (fun x y : Point3 Float32.Model × Float32.Model => x.1.InUnits 1 y.1 ∧ Rescaled 1 x.2 y.2)
    (⟨fp 0 1 0, fp 4 1 6⟩ : Bounds3 Float32.Model).boundingSphere
    (⟨fp 0 2 0, fp 8 2 12⟩ : Bounds3 Float32.Model).boundingSphere := by
  have fine : ∀ (b : Bounds3 Float32.Model) s c d, b.pMin.add (.ofPoint b.pMax) = .ok s →
      s.div (Elem.fromInt 2) = .ok c → c.sub b.pMax = .ok d → c.Finite → (∀ i, 2 ≤ |ratVal (up (s.get i))|∨ ratVal (up (s.get i)) = 0) →
      d.Fine d → b.SphereFine := by
    intro b s c d q1 q2 q3 h1 h2 h3 s' c' d' e1 e2 e3
    rw [q1] at e1; cases e1
    rw [q2] at e2; cases e2
    rw [q3] at e3; cases e3
    refine ⟨h1, fun i => ?_, h3⟩
    rw [val_eq, show ((ratVal (up (s.get i)) : ℚ) : ℝ) / 2 = ((ratVal (up (s.get i)) / 2 : ℚ) : ℝ) by push_cast; rfl,
      noUnderflow32]
    rcases h2 i with h | h
    · right
      rw [abs_div, abs_two]
      linarith
    · left
      rw [h, zero_div]
  exact C79_sphere (by decide +kernel)
    (fine _ (fp 4 2 6) (fp 2 1 3) (fv (-2) 0 (-3)) (by decide +kernel) (by decide +kernel) (by decide +kernel)
      (by decide +kernel) (by decide +kernel) (by decide +kernel))
    (fine _ (fp 8 4 12) (fp 4 2 6) (fv (-4) 0 (-6)) (by decide +kernel) (by decide +kernel) (by decide +kernel)
      (by decide +kernel) (by decide +kernel) (by decide +kernel))

end Pbrt
