import Verif.Proof.Mirror
import Verif.Props.UnitTests

/-!
# Mirror images, exchanged arguments and reversed directions (C74)

For every float type and every input, infinities and NaN included: what the geometry code computes
from a mirror image of its arguments is the mirror image of what it computes from the arguments.
`Mirror`, `Alike`, `Both` and `Together` are those of `Spec/Mirror.lean`.
-/

open Float.Model

namespace Pbrt

section
variable {T : Type} [Elem T] [As T T] [FloatFns T] [IEEE T]

local notation "𝔽" => IEEE.fmt T
local notation "z" => (Elem.fromInt 0 : T)
local notation "o" => (Elem.fromInt 1 : T)

theorem alike_R {a b : T} : Alike a b ↔ R false a b := by
  have := mirror_iff (s := false) (a := a) (b := b)
  unfold Mirror at this
  simpa using this

/-- Squares do not depend on the sign. -/
theorem R.sq {s : Bool} {a b : T} (h : R s a b) : Pbrt.fmul a a = Pbrt.fmul b b := by
  have hz : ∀ {a b : T}, IsZero a → IsZero b → Pbrt.fmul a a = Pbrt.fmul b b := by
    rintro a b ⟨s, hs⟩ ⟨t, ht⟩
    unfold Pbrt.fmul
    rw [hs, ht]
    cases s <;> cases t <;> rfl
  cases s
  · rcases h.cases with rfl | ⟨h1, h2⟩
    · rfl
    · exact hz h1 h2
  · rw [← fneg_mul_fneg a]
    rcases (fneg_left h).cases with h | ⟨h1, h2⟩
    · rw [h]
    · exact hz h1 h2

/-- Quotients with the same divisor, which may be zero -/
theorem R.fdiv_same {s : Bool} {a b : T} (h : R s a b) (l : T) : R s (Pbrt.fdiv a l) (Pbrt.fdiv b l) := by
  by_cases hl : IsZero l
  · have hzz : ∀ a : T, IsZero a → Elem.isNan (Pbrt.fdiv a l) = true := by
      rintro a ⟨t, ht⟩
      obtain ⟨u, hu⟩ := hl
      rw [nan_iff', up_fdiv, ht, hu]; rfl
    have hneg : ∀ a : T, R true (Pbrt.fdiv a l) (Pbrt.fdiv (Pbrt.fneg a) l) := by
      intro a
      obtain ⟨u, hu⟩ := hl
      have : up (Pbrt.fdiv (Pbrt.fneg a) l) = up (Pbrt.fneg (Pbrt.fdiv a l)) := by
        rw [up_fneg, up_fdiv, up_fdiv, up_fneg, hu]
        cases up a with
        | infinity t => cases t <;> cases u <;> rfl
        | notANumber => rfl
        | zero t => rfl
        | finite t => cases t <;> cases u <;> rfl
      rw [up_inj this]
      exact .neg _
    cases s
    · rcases h.cases with rfl | ⟨h1, h2⟩
      · exact .refl _
      · exact .of_nan (hzz _ h1) (hzz _ h2)
    · rcases (fneg_left h).cases with h | ⟨h1, h2⟩
      · rw [← h]; exact hneg a
      · refine .of_nan ?_ (hzz _ h2)
        have := hneg a
        rw [this.1]; exact hzz _ h1
  · exact (h.fdiv (.refl l) hl).congr (by simp)

/-! ### Vectors and normals -/

/-- **C74**, vectors: sums, differences, products with a number, opposites and quotients of mirrored
    vectors are mirrored. -/
theorem C74_vectors {s : Fin 3 → Bool} {u u' v v' : Vector3 T} (hu : u.Mirror s u') (hv : v.Mirror s v')
    {k k' : T} (hk : Alike k k') :
    Both (Vector3.Mirror s) (u.add v) (u'.add v') ∧ Both (Vector3.Mirror s) (u.sub v) (u'.sub v') ∧
    Both (Vector3.Mirror s) (u.mul k) (u'.mul k') ∧ Both (Vector3.Mirror s) u.neg u'.neg ∧
    Both (Vector3.Mirror s) (u.div k) (u'.div k) := by
  unfold Vector3.Mirror at hu hv
  simp only [mirror_iff, forall_axis] at hu hv
  rw [alike_R] at hk
  obtain ⟨u1, u2, u3⟩ := hu
  obtain ⟨v1, v2, v3⟩ := hv
  refine ⟨⟨_, _, by simp only [Vector3.add, fadd_ok, ok_bind]; rfl, by simp only [Vector3.add, fadd_ok, ok_bind]; rfl, ?_⟩,
    ⟨_, _, by simp only [Vector3.sub, fsub_ok, ok_bind]; rfl, by simp only [Vector3.sub, fsub_ok, ok_bind]; rfl, ?_⟩,
    ⟨_, _, by simp only [Vector3.mul, fmul_ok, ok_bind]; rfl, by simp only [Vector3.mul, fmul_ok, ok_bind]; rfl, ?_⟩,
    ⟨_, _, by simp only [Vector3.neg, fneg_ok, ok_bind]; rfl, by simp only [Vector3.neg, fneg_ok, ok_bind]; rfl, ?_⟩,
    ⟨_, _, by simp only [Vector3.div, fdiv_ok, ok_bind]; rfl, by simp only [Vector3.div, fdiv_ok, ok_bind]; rfl, ?_⟩⟩ <;>
    unfold Vector3.Mirror <;> simp only [mirror_iff, forall_axis]
  · exact ⟨u1.fadd v1, u2.fadd v2, u3.fadd v3⟩
  · exact ⟨u1.fsub v1, u2.fsub v2, u3.fsub v3⟩
  · exact ⟨(hk.fmul u1).congr (by simp), (hk.fmul u2).congr (by simp), (hk.fmul u3).congr (by simp)⟩
  · exact ⟨u1.fneg, u2.fneg, u3.fneg⟩
  · exact ⟨u1.fdiv_same k, u2.fdiv_same k, u3.fdiv_same k⟩

example := C74_vectors (s := fun i => i = 0) (u := fv 1 2 3) (u' := fv (-1) 2 3) (v := fv 4 5 7) (v' := fv (-4) 5 7)
  (by decide +kernel) (by decide +kernel) (k := f32 3) (k' := f32 3) (by decide +kernel)

/-- **C74**, vectors: inner products do not change, and lengths do not change in a single bit. -/
theorem C74_dot {s : Fin 3 → Bool} {u u' v v' : Vector3 T} (hu : u.Mirror s u') (hv : v.Mirror s v') :
    Both Alike (u.dot v) (u'.dot v') ∧ u.lenSq = u'.lenSq ∧ (u.len : Outcome T) = u'.len := by
  unfold Vector3.Mirror at hu hv
  simp only [mirror_iff, forall_axis] at hu hv
  obtain ⟨u1, u2, u3⟩ := hu
  obtain ⟨v1, v2, v3⟩ := hv
  have hsq : u.lenSq = u'.lenSq := by
    simp only [Vector3.lenSq, fmul_ok, fadd_ok, ok_bind]
    have e1 := u1.sq
    have e2 := u2.sq
    have e3 := u3.sq
    simp only [Vector3.get] at e1 e2 e3
    rw [e1, e2, e3]
  refine ⟨⟨_, _, by simp only [Vector3.dot, fmul_ok, fadd_ok, ok_bind]; rfl,
    by simp only [Vector3.dot, fmul_ok, fadd_ok, ok_bind]; rfl, ?_⟩, hsq, ?_⟩
  · rw [alike_R]
    exact (((u1.fmul v1).congr (Bool.xor_self _)).fadd ((u2.fmul v2).congr (Bool.xor_self _))).fadd
      ((u3.fmul v3).congr (Bool.xor_self _))
  · unfold Vector3.len; rw [hsq]

example := C74_dot (s := fun i => i = 0) (u := fv 1 2 3) (u' := fv (-1) 2 3) (v := fv 4 5 7) (v' := fv (-4) 5 7)
  (by decide +kernel) (by decide +kernel)

/-- The signs of a cross product: those of the two other axes -/
def crossSigns (s : Fin 3 → Bool) : Fin 3 → Bool := fun i => xor (s (i + 1)) (s (i + 2))

/-- **C74**, vectors: a cross product is mirrored on the axes where one of the two other axes is
    mirrored: it changes its handedness with the coordinate system. -/
theorem C74_cross {s : Fin 3 → Bool} {u u' v v' : Vector3 T} (hu : u.Mirror s u') (hv : v.Mirror s v') :
    Both (Vector3.Mirror (crossSigns s)) (u.cross v) (u'.cross v') := by
  unfold Vector3.Mirror at hu hv
  simp only [mirror_iff, forall_axis] at hu hv
  obtain ⟨u1, u2, u3⟩ := hu
  obtain ⟨v1, v2, v3⟩ := hv
  refine ⟨_, _, by simp only [Vector3.cross, fmul_ok, fsub_ok, ok_bind]; rfl,
    by simp only [Vector3.cross, fmul_ok, fsub_ok, ok_bind]; rfl, ?_⟩
  unfold Vector3.Mirror
  simp only [mirror_iff, forall_axis]
  refine ⟨?_, ?_, ?_⟩
  · exact (u2.fmul v3).fsub ((u3.fmul v2).congr (Bool.xor_comm _ _))
  · exact (u3.fmul v1).fsub ((u1.fmul v3).congr (Bool.xor_comm _ _))
  · exact (u1.fmul v2).fsub ((u2.fmul v1).congr (Bool.xor_comm _ _))

example := C74_cross (s := fun i => i = 0) (u := fv 1 2 3) (u' := fv (-1) 2 3) (v := fv 4 5 7) (v' := fv (-4) 5 7)
  (by decide +kernel) (by decide +kernel)

/-- **C74**: `face_forward` -/
theorem C74_faceForward {s : Fin 3 → Bool} {u u' v v' : Vector3 T} (hu : u.Mirror s u') (hv : v.Mirror s v') :
    Both (Vector3.Mirror s) (u.faceForward v) (u'.faceForward v') := by
  obtain ⟨d, d', e, e', hd⟩ := (C74_dot hu hv).1
  unfold Vector3.faceForward
  rw [e, e', ok_bind, ok_bind]
  have := (alike_R.1 hd).lt (R.refl z)
  rw [← this]
  by_cases h : Elem.lt d z = true
  · rw [if_pos h, if_pos h]
    exact (C74_vectors hu hv (k := z) (k' := z) (alike_R.2 (.refl _))).2.2.2.1
  · rw [if_neg h, if_neg h]
    exact ⟨u, u', rfl, rfl, hu⟩

example := C74_faceForward (s := fun i => i = 0) (u := fv 1 2 3) (u' := fv (-1) 2 3) (v := fv 4 5 7)
  (v' := fv (-4) 5 7) (by decide +kernel) (by decide +kernel)

/-- **C74**, normals: the same statements. -/
theorem C74_normals {s : Fin 3 → Bool} {u u' v v' : Normal3 T} (hu : u.Mirror s u') (hv : v.Mirror s v')
    {k k' : T} (hk : Alike k k') :
    Both (Normal3.Mirror s) (u.add v) (u'.add v') ∧ Both (Normal3.Mirror s) (u.sub v) (u'.sub v') ∧
    Both (Normal3.Mirror s) (u.mul k) (u'.mul k') ∧ Both (Normal3.Mirror s) u.neg u'.neg ∧
    Both (Normal3.Mirror s) (u.div k) (u'.div k) ∧
    Both Alike (u.dot v) (u'.dot v') ∧ u.lenSq = u'.lenSq ∧ (u.len : Outcome T) = u'.len ∧
    Both (Normal3.Mirror (crossSigns s)) (u.cross v) (u'.cross v') ∧
    Both (Normal3.Mirror s) (u.faceForward v) (u'.faceForward v') := by
  have hu0 := hu
  unfold Normal3.Mirror at hu hv
  simp only [mirror_iff, forall_axis] at hu hv
  rw [alike_R] at hk
  obtain ⟨u1, u2, u3⟩ := hu
  obtain ⟨v1, v2, v3⟩ := hv
  have hsq : u.lenSq = u'.lenSq := by
    simp only [Normal3.lenSq, fmul_ok, fadd_ok, ok_bind]
    have e1 := u1.sq
    have e2 := u2.sq
    have e3 := u3.sq
    simp only [Normal3.get] at e1 e2 e3
    rw [e1, e2, e3]
  have hneg : Both (Normal3.Mirror s) u.neg u'.neg := by
    refine ⟨_, _, by simp only [Normal3.neg, fneg_ok, ok_bind]; rfl, by simp only [Normal3.neg, fneg_ok, ok_bind]; rfl, ?_⟩
    unfold Normal3.Mirror
    simp only [mirror_iff, forall_axis]
    exact ⟨u1.fneg, u2.fneg, u3.fneg⟩
  have hdot : Both Alike (u.dot v) (u'.dot v') := by
    refine ⟨_, _, by simp only [Normal3.dot, fmul_ok, fadd_ok, ok_bind]; rfl,
      by simp only [Normal3.dot, fmul_ok, fadd_ok, ok_bind]; rfl, ?_⟩
    rw [alike_R]
    exact (((u1.fmul v1).congr (Bool.xor_self _)).fadd ((u2.fmul v2).congr (Bool.xor_self _))).fadd
      ((u3.fmul v3).congr (Bool.xor_self _))
  refine ⟨⟨_, _, by simp only [Normal3.add, fadd_ok, ok_bind]; rfl, by simp only [Normal3.add, fadd_ok, ok_bind]; rfl, ?_⟩,
    ⟨_, _, by simp only [Normal3.sub, fsub_ok, ok_bind]; rfl, by simp only [Normal3.sub, fsub_ok, ok_bind]; rfl, ?_⟩,
    ⟨_, _, by simp only [Normal3.mul, fmul_ok, ok_bind]; rfl, by simp only [Normal3.mul, fmul_ok, ok_bind]; rfl, ?_⟩,
    hneg,
    ⟨_, _, by simp only [Normal3.div, fdiv_ok, ok_bind]; rfl, by simp only [Normal3.div, fdiv_ok, ok_bind]; rfl, ?_⟩,
    hdot, hsq, by unfold Normal3.len; rw [hsq],
    ⟨_, _, by simp only [Normal3.cross, fmul_ok, fsub_ok, ok_bind]; rfl,
      by simp only [Normal3.cross, fmul_ok, fsub_ok, ok_bind]; rfl, ?_⟩, ?_⟩
  rotate_right
  · obtain ⟨d, d', e, e', hd⟩ := hdot
    unfold Normal3.faceForward
    rw [e, e', ok_bind, ok_bind]
    have := (alike_R.1 hd).lt (R.refl z)
    rw [← this]
    by_cases h : Elem.lt d z = true
    · rw [if_pos h, if_pos h]; exact hneg
    · rw [if_neg h, if_neg h]; exact ⟨u, u', rfl, rfl, hu0⟩
  all_goals unfold Normal3.Mirror; simp only [mirror_iff, forall_axis]
  · exact ⟨u1.fadd v1, u2.fadd v2, u3.fadd v3⟩
  · exact ⟨u1.fsub v1, u2.fsub v2, u3.fsub v3⟩
  · exact ⟨(hk.fmul u1).congr (by simp), (hk.fmul u2).congr (by simp), (hk.fmul u3).congr (by simp)⟩
  · exact ⟨u1.fdiv_same k, u2.fdiv_same k, u3.fdiv_same k⟩
  · refine ⟨?_, ?_, ?_⟩
    · exact (u2.fmul v3).fsub ((u3.fmul v2).congr (Bool.xor_comm _ _))
    · exact (u3.fmul v1).fsub ((u1.fmul v3).congr (Bool.xor_comm _ _))
    · exact (u1.fmul v2).fsub ((u2.fmul v1).congr (Bool.xor_comm _ _))

example := C74_normals (s := fun i => i = 0) (u := (⟨f32 1, f32 2, f32 3⟩ : Normal3 Float32.Model))
  (u' := ⟨f32 (-1), f32 2, f32 3⟩) (v := ⟨f32 4, f32 5, f32 7⟩) (v' := ⟨f32 (-4), f32 5, f32 7⟩) (by decide +kernel)
  (by decide +kernel) (k := f32 3) (k' := f32 3) (by decide +kernel)

/-! ### Points and rays -/

theorem point_add {s : Fin 3 → Bool} {p p' : Point3 T} {v v' : Vector3 T} (hp : p.Mirror s p') (hv : v.Mirror s v') :
    Both (Point3.Mirror s) (p.add v) (p'.add v') := by
  unfold Point3.Mirror at hp
  unfold Vector3.Mirror at hv
  simp only [mirror_iff, forall_axis] at hp hv
  refine ⟨_, _, by simp only [Point3.add, fadd_ok, ok_bind]; rfl, by simp only [Point3.add, fadd_ok, ok_bind]; rfl, ?_⟩
  unfold Point3.Mirror
  simp only [mirror_iff, forall_axis]
  exact ⟨hp.1.fadd hv.1, hp.2.1.fadd hv.2.1, hp.2.2.fadd hv.2.2⟩

theorem point_mul {s : Fin 3 → Bool} {p p' : Point3 T} {k k' : T} (hp : p.Mirror s p') (hk : R false k k') :
    Both (Point3.Mirror s) (p.mul k) (p'.mul k') := by
  unfold Point3.Mirror at hp
  simp only [mirror_iff, forall_axis] at hp
  refine ⟨_, _, by simp only [Point3.mul, fmul_ok, ok_bind]; rfl, by simp only [Point3.mul, fmul_ok, ok_bind]; rfl, ?_⟩
  unfold Point3.Mirror
  simp only [mirror_iff, forall_axis]
  exact ⟨(hk.fmul hp.1).congr (by simp), (hk.fmul hp.2.1).congr (by simp), (hk.fmul hp.2.2).congr (by simp)⟩

/-- **C74**, points: displaced points, differences and interpolations -/
theorem C74_points {s : Fin 3 → Bool} {p p' q q' : Point3 T} {v v' : Vector3 T} (hp : p.Mirror s p')
    (hq : q.Mirror s q') (hv : v.Mirror s v') {k k' : T} (hk : Alike k k') :
    Both (Point3.Mirror s) (p.add v) (p'.add v') ∧ Both (Point3.Mirror s) (p.subVec v) (p'.subVec v') ∧
    Both (Vector3.Mirror s) (p.sub q) (p'.sub q') ∧ Both (Point3.Mirror s) (p.mul k) (p'.mul k') ∧
    Both (Point3.Mirror s) (Point3.lerp k p q) (Point3.lerp k' p' q') := by
  have hk' := alike_R.1 hk
  refine ⟨point_add hp hv, ?_, ?_, point_mul hp hk', ?_⟩
  · unfold Point3.Mirror at hp
    unfold Vector3.Mirror at hv
    simp only [mirror_iff, forall_axis] at hp hv
    refine ⟨_, _, by simp only [Point3.subVec, fsub_ok, ok_bind]; rfl, by simp only [Point3.subVec, fsub_ok, ok_bind]; rfl, ?_⟩
    unfold Point3.Mirror
    simp only [mirror_iff, forall_axis]
    exact ⟨hp.1.fsub hv.1, hp.2.1.fsub hv.2.1, hp.2.2.fsub hv.2.2⟩
  · unfold Point3.Mirror at hp hq
    simp only [mirror_iff, forall_axis] at hp hq
    refine ⟨_, _, by simp only [Point3.sub, fsub_ok, ok_bind]; rfl, by simp only [Point3.sub, fsub_ok, ok_bind]; rfl, ?_⟩
    unfold Vector3.Mirror
    simp only [mirror_iff, forall_axis]
    exact ⟨hp.1.fsub hq.1, hp.2.1.fsub hq.2.1, hp.2.2.fsub hq.2.2⟩
  · unfold Point3.lerp
    simp only [fsub_ok, ok_bind]
    obtain ⟨a, a', e1, e1', ha⟩ := point_mul hp (R.fsub (R.refl o) hk')
    obtain ⟨b, b', e2, e2', hb⟩ := point_mul hq hk'
    rw [e1, e1', e2, e2']
    simp only [ok_bind]
    refine point_add ha ?_
    intro i
    have := hb i
    fin_cases i <;> exact this

example := C74_points (s := fun i => i = 0) (p := fp 1 2 3) (p' := fp (-1) 2 3) (q := fp 4 5 7) (q' := fp (-4) 5 7)
  (v := fv 4 5 7) (v' := fv (-4) 5 7) (by decide +kernel) (by decide +kernel) (by decide +kernel) (k := f32 3)
  (k' := f32 3) (by decide +kernel)

/-- **C74**, rays: the point of the mirrored ray at a parameter is the mirrored point. -/
theorem C74_ray {s : Fin 3 → Bool} {r r' : Ray T} (ho : r.o.Mirror s r'.o) (hd : r.d.Mirror s r'.d)
    {t t' : T} (ht : Alike t t') : Both (Point3.Mirror s) (r.at t) (r'.at t') := by
  obtain ⟨v, v', e, e', hv⟩ := (C74_vectors hd hd ht).2.2.1
  unfold Ray.at
  rw [e, e', ok_bind, ok_bind]
  exact point_add ho hv

example := C74_ray (s := fun i => i = 0) (r := (⟨fp 1 2 3, fv 4 5 7, inf32, f32 0⟩ : Ray Float32.Model))
  (r' := ⟨fp (-1) 2 3, fv (-4) 5 7, inf32, f32 0⟩) (by decide +kernel) (by decide +kernel) (t := f32 3) (t' := f32 3)
  (by decide +kernel)

theorem fneg_fmul_fneg (a b : T) : fmul (fneg a) (fneg b) = fmul a b := by
  unfold fmul
  rw [up_fneg, up_fneg]
  congr 1
  cases up a with
  | infinity s => cases up b with
    | infinity t => cases s <;> cases t <;> rfl
    | notANumber => rfl
    | zero t => rfl
    | finite t => cases s <;> cases t <;> rfl
  | notANumber => rfl
  | zero s => cases up b with
    | infinity t => rfl
    | notANumber => rfl
    | zero t => cases s <;> cases t <;> rfl
    | finite t => cases s <;> cases t <;> rfl
  | finite s m e h => cases up b with
    | infinity t => cases s <;> cases t <;> rfl
    | notANumber => rfl
    | zero t => cases s <;> cases t <;> rfl
    | finite t => cases s <;> cases t <;> rfl

/-- **C74**, rays: running backwards, with direction and parameter negated, hits the same points, bit
    for bit. -/
theorem C74_ray_backwards (r : Ray T) (t : T) :
    (do
      let d ← r.d.neg
      let t ← Elem.neg t
      Ray.at { r with d := d } t) = r.at t := by
  simp only [Vector3.neg, fneg_ok, ok_bind, pure_ok, Ray.at, Vector3.mul, fmul_ok, fneg_fmul_fneg]

/-! ### Boxes -/

theorem R.minmax {s : Bool} {a a' b b' : T} (ha : R s a a') (hb : R s b b') :
    R s (if s then max2 a b else min2 a b) (min2 a' b') ∧ R s (if s then min2 a b else max2 a b) (max2 a' b') := by
  cases s
  · exact ⟨ha.min hb, ha.max hb⟩
  · exact ⟨ha.min_flip hb, ha.max_flip hb⟩

theorem bounds_mirror {s : Fin 3 → Bool} {a b : Bounds3 T} : a.Mirror s b ↔ ∀ i,
    R (s i) (if s i then a.pMax.get i else a.pMin.get i) (b.pMin.get i) ∧
    R (s i) (if s i then a.pMin.get i else a.pMax.get i) (b.pMax.get i) := by
  unfold Bounds3.Mirror
  simp only [mirror_iff]

theorem point_mirror {s : Fin 3 → Bool} {p q : Point3 T} : p.Mirror s q ↔ ∀ i, R (s i) (p.get i) (q.get i) := by
  unfold Point3.Mirror
  simp only [mirror_iff]

theorem R.of_same {a b : T} (h : Same a b) : R false a b := alike_R.1 (.inl h)

theorem min2_swap {a b : T} (ha : Elem.isNan a = false) (hb : Elem.isNan b = false) : R false (min2 a b) (min2 b a) := by
  have := ieee_lawful (T := T)
  rcases Le.total (a := a) (b := b) ha hb with h | h
  · exact .of_same ((min2_same h).trans (min2_same' h).symm)
  · exact .of_same ((min2_same' h).trans (min2_same h).symm)

theorem max2_swap {a b : T} (ha : Elem.isNan a = false) (hb : Elem.isNan b = false) : R false (max2 a b) (max2 b a) := by
  have := ieee_lawful (T := T)
  rcases Le.total (a := a) (b := b) ha hb with h | h
  · exact .of_same ((max2_same h).trans (max2_same' h).symm)
  · exact .of_same ((max2_same' h).trans (max2_same h).symm)

/-- `new` from mirrored coordinates in exchanged order -/
theorem R.minmax_swap {a a' b b' : T} (ha : R true b a') (hb : R true a b') (na : Elem.isNan a = false)
    (nb : Elem.isNan b = false) : R true (max2 a b) (min2 a' b') ∧ R true (min2 a b) (max2 a' b') :=
  ⟨((max2_swap na nb).trans (ha.min_flip hb)).congr rfl, ((min2_swap na nb).trans (ha.max_flip hb)).congr rfl⟩

/-- **C74**, boxes: the boxes made by `new` from mirrored points are the mirrored boxes, NaN
    included. -/
theorem C74_box_new {s : Fin 3 → Bool} {p p' q q' : Point3 T} (hp : p.Mirror s p') (hq : q.Mirror s q') :
    (Bounds3.new p q).Mirror s (Bounds3.new p' q') := by
  rw [point_mirror] at hp hq
  rw [bounds_mirror]
  intro i
  simp only [new_min, new_max]
  exact (hp i).minmax (hq i)

example := C74_box_new (s := fun i => i = 0) (p := fp 1 2 3) (p' := fp (-1) 2 3) (q := fp 4 5 7) (q' := fp (-4) 5 7)
  (by decide +kernel) (by decide +kernel)

/-- **C74**, boxes: those made by `union_pt`, `union` and `intersect` from mirrored boxes without
    NaN are the mirrored boxes. -/
theorem C74_boxes {s : Fin 3 → Bool} {p p' : Point3 T} (hp : p.Mirror s p')
    {a a' b b' : Bounds3 T} (ha : a.Mirror s a') (hb : b.Mirror s b') (na : a.pMin.Proper ∧ a.pMax.Proper)
    (nb : b.pMin.Proper ∧ b.pMax.Proper) :
    (a.unionPt p).Mirror s (a'.unionPt p') ∧
    (a.union b).Mirror s (a'.union b') ∧ (a.intersect b).Mirror s (a'.intersect b') := by
  have := ieee_lawful (T := T)
  rw [point_mirror] at hp
  rw [bounds_mirror] at ha hb
  simp only [bounds_mirror, ← forall_and]
  intro i
  have hp := hp i
  obtain ⟨a1, a2⟩ := ha i
  obtain ⟨b1, b2⟩ := hb i
  have na1 := na.1 i
  have na2 := na.2 i
  have nb1 := nb.1 i
  have nb2 := nb.2 i
  simp only [unionPt_min, unionPt_max, union_min, union_max, intersect_min, intersect_max]
  generalize s i = t at *
  cases t
  · simp only [Bool.false_eq_true, if_false] at *
    exact ⟨⟨(a1.min hp).min (a2.max hp), (a1.min hp).max (a2.max hp)⟩,
      ⟨(a1.min b1).min (a2.max b2), (a1.min b1).max (a2.max b2)⟩,
      (a1.max b1).min (a2.min b2), (a1.max b1).max (a2.min b2)⟩
  · simp only [if_true] at *
    exact ⟨(a1.min_flip hp).minmax_swap (a2.max_flip hp) (min2_notNan na1) (max2_notNan na2),
      (a1.min_flip b1).minmax_swap (a2.max_flip b2) (min2_notNan na1) (max2_notNan na2),
      (a1.max_flip b1).minmax_swap (a2.min_flip b2) (max2_notNan na1) (min2_notNan na2)⟩

example := C74_boxes (s := fun i => i = 0) (p := fp 1 2 3) (p' := fp (-1) 2 3) (by decide +kernel)
  (a := (⟨fp 1 2 3, fp 4 6 8⟩ : Bounds3 Float32.Model)) (a' := ⟨fp (-4) 2 3, fp (-1) 6 8⟩)
  (b := (⟨fp 2 1 0, fp 5 2 5⟩ : Bounds3 Float32.Model)) (b' := ⟨fp (-5) 1 0, fp (-2) 2 5⟩) (by decide +kernel)
  (by decide +kernel) (by decide +kernel) (by decide +kernel)

/-- **C74**, boxes: `overlaps` and `inside` answer the same for mirror images. -/
theorem C74_tests {s : Fin 3 → Bool} {p p' : Point3 T} (hp : p.Mirror s p')
    {a a' b b' : Bounds3 T} (ha : a.Mirror s a') (hb : b.Mirror s b') :
    a.overlaps b = a'.overlaps b' ∧ a.inside p = a'.inside p' := by
  rw [point_mirror] at hp
  rw [bounds_mirror] at ha hb
  have key : ∀ {t : Bool} {l m u v : T} {l' m' u' v' : T}, R t (if t then m else l) l' → R t (if t then l else m) m' →
      R t (if t then v else u) u' → R t (if t then u else v) v' →
      ((Le u m ∧ Le l v) ↔ (Le u' m' ∧ Le l' v')) := by
    intro t l m u v l' m' u' v' h1 h2 h3 h4
    unfold Le
    cases t
    · simp only [Bool.false_eq_true, if_false] at *
      rw [h3.le h2, h1.le h4]
    · simp only [if_true] at *
      rw [h4.le_flip h1, h2.le_flip h3, and_comm]
  constructor
  · rw [Bool.eq_iff_iff, overlaps_iff, overlaps_iff]
    exact forall_congr' fun i => key (ha i).1 (ha i).2 (hb i).1 (hb i).2
  · rw [Bool.eq_iff_iff, inside_iff, inside_iff]
    refine forall_congr' fun i => ?_
    rw [and_comm, and_comm (a := Le (a'.pMin.get i) _)]
    exact key (ha i).1 (ha i).2 (by simpa using hp i) (by simpa using hp i)

example := C74_tests (s := fun i => i = 0) (p := fp 1 2 3) (p' := fp (-1) 2 3) (by decide +kernel)
  (a := (⟨fp 1 2 3, fp 4 6 8⟩ : Bounds3 Float32.Model)) (a' := ⟨fp (-4) 2 3, fp (-1) 6 8⟩)
  (b := (⟨fp 2 1 0, fp 5 2 5⟩ : Bounds3 Float32.Model)) (b' := ⟨fp (-5) 1 0, fp (-2) 2 5⟩) (by decide +kernel)
  (by decide +kernel)

/-- **C74**, boxes: sides, area and volume do not change. -/
theorem C74_measures {s : Fin 3 → Bool} {a a' : Bounds3 T} (ha : a.Mirror s a') :
    Both (Vector3.Mirror fun _ => false) a.diagonal a'.diagonal ∧
    Both Alike a.surfaceArea a'.surfaceArea ∧ Both Alike a.volume a'.volume ∧
    a.maximumExtent = a'.maximumExtent := by
  rw [bounds_mirror] at ha
  have key : ∀ i, R false (fsub (a.pMax.get i) (a.pMin.get i)) (fsub (a'.pMax.get i) (a'.pMin.get i)) := by
    intro i
    obtain ⟨h1, h2⟩ := ha i
    generalize s i = t at *
    cases t
    · simp only [Bool.false_eq_true, if_false] at *
      exact h2.fsub h1
    · simp only [if_true] at *
      have e : ∀ x y : T, R true (fsub x y) (fsub y x) := by
        intro x y
        rw [fsub_eq_add x y, fsub_eq_add y x, fadd_comm' y]
        exact (R.neg x).fadd (R.neg y).symm
      exact (e _ _).trans (h2.fsub h1)
  have d0 := key 0
  have d1 := key 1
  have d2 := key 2
  simp only [Point3.get] at d0 d1 d2
  have hd : ∀ b : Bounds3 T, b.diagonal = .ok ⟨fsub b.pMax.x b.pMin.x, fsub b.pMax.y b.pMin.y,
      fsub b.pMax.z b.pMin.z⟩ := by
    intro b; simp only [Bounds3.diagonal, Point3.sub, fsub_ok, ok_bind]; rfl
  refine ⟨⟨_, _, hd a, hd a', ?_⟩, ⟨_, _, by simp only [Bounds3.surfaceArea, hd, ok_bind, fmul_ok, fadd_ok]; rfl,
    by simp only [Bounds3.surfaceArea, hd, ok_bind, fmul_ok, fadd_ok]; rfl, ?_⟩,
    ⟨_, _, by simp only [Bounds3.volume, hd, ok_bind, fmul_ok]; rfl, by simp only [Bounds3.volume, hd, ok_bind, fmul_ok]; rfl, ?_⟩, ?_⟩
  · unfold Vector3.Mirror
    simp only [mirror_iff, forall_axis]
    exact ⟨d0, d1, d2⟩
  · rw [alike_R]
    exact (R.refl _).fmul (((d0.fmul d1).fadd (d0.fmul d2)).fadd (d1.fmul d2))
  · rw [alike_R]
    exact (d0.fmul d1).fmul d2
  · have e1 : Elem.gt (fsub a.pMax.x a.pMin.x) (fsub a.pMax.y a.pMin.y) =
        Elem.gt (fsub a'.pMax.x a'.pMin.x) (fsub a'.pMax.y a'.pMin.y) := d1.lt d0
    have e2 : Elem.gt (fsub a.pMax.x a.pMin.x) (fsub a.pMax.z a.pMin.z) =
        Elem.gt (fsub a'.pMax.x a'.pMin.x) (fsub a'.pMax.z a'.pMin.z) := d2.lt d0
    have e3 : Elem.gt (fsub a.pMax.y a.pMin.y) (fsub a.pMax.z a.pMin.z) =
        Elem.gt (fsub a'.pMax.y a'.pMin.y) (fsub a'.pMax.z a'.pMin.z) := d2.lt d1
    simp only [Bounds3.maximumExtent, hd, ok_bind, e1, e2, e3]

example := C74_measures (s := fun i => i = 0) (a := (⟨fp 1 2 3, fp 4 6 8⟩ : Bounds3 Float32.Model))
  (a' := ⟨fp (-4) 2 3, fp (-1) 6 8⟩) (by decide +kernel)

theorem fsub_proper {a k : T} (ha : IsFinite a) (hk : Elem.isNan k = false) : Elem.isNan (fsub a k) = false := by
  have := (finite_iff_ext ha.notNan).1 ha
  exact (fsub_ext ha.notNan hk (by tauto) (by tauto)).1

theorem fadd_proper {a k : T} (ha : IsFinite a) (hk : Elem.isNan k = false) : Elem.isNan (fadd a k) = false := by
  have := (finite_iff_ext ha.notNan).1 ha
  exact (fadd_ext ha.notNan hk (by tauto) (by tauto)).1

/-- **C74**, boxes: expanding the mirror image of a finite box, also by a negative or infinite amount,
    gives the mirror image of the expanded box. -/
theorem C74_expand {s : Fin 3 → Bool} {a a' : Bounds3 T} (ha : a.Mirror s a') {k k' : T} (hk : Alike k k')
    (hf : ∀ i, IsFinite (a.pMin.get i) ∧ IsFinite (a.pMax.get i)) (hn : NotNan k) :
    Both (Bounds3.Mirror s) (a.expand k) (a'.expand k') := by
  rw [alike_R] at hk
  rw [bounds_mirror] at ha
  refine ⟨_, _, by simp only [Bounds3.expand, Point3.subVec, Point3.add, fsub_ok, fadd_ok, ok_bind]; rfl,
    by simp only [Bounds3.expand, Point3.subVec, Point3.add, fsub_ok, fadd_ok, ok_bind]; rfl, ?_⟩
  rw [bounds_mirror]
  have hget : ∀ (p : Point3 T) (f : T → T) (i : Fin 3), (⟨f p.x, f p.y, f p.z⟩ : Point3 T).get i = f (p.get i) := by
    intro p f i; fin_cases i <;> rfl
  intro i
  simp only [new_min, new_max]
  obtain ⟨h1, h2⟩ := ha i
  obtain ⟨f1, f2⟩ := hf i
  rw [hget _ (fun x => fsub x k), hget _ (fun x => fadd x k), hget _ (fun x => fsub x k'), hget _ (fun x => fadd x k')]
  generalize s i = t at *
  cases t
  · simp only [Bool.false_eq_true, if_false] at *
    exact ⟨(h1.fsub hk).min (h2.fadd hk), (h1.fsub hk).max (h2.fadd hk)⟩
  · simp only [if_true] at *
    have hsa : R true (fadd (a.pMax.get i) k) (fsub (a'.pMin.get i) k') := by
      rw [fsub_eq_add]; exact h1.fadd (fneg_right hk)
    have has : R true (fsub (a.pMin.get i) k) (fadd (a'.pMax.get i) k') := by
      rw [fsub_eq_add]; exact h2.fadd (by simpa using fneg_left hk)
    exact R.minmax_swap hsa has (fsub_proper f1 hn) (fadd_proper f2 hn)

example := C74_expand (s := fun i => i = 0) (a := (⟨fp 1 2 3, fp 4 6 8⟩ : Bounds3 Float32.Model))
  (a' := ⟨fp (-4) 2 3, fp (-1) 6 8⟩) (by decide +kernel) (k := f32 3) (k' := f32 3) (by decide +kernel)
  (by decide +kernel) (by decide +kernel)

/-- **C74**, boxes: the centre of the bounding sphere -/
theorem C74_sphere_center {s : Fin 3 → Bool} {a a' : Bounds3 T} (ha : a.Mirror s a') :
    Both (fun x y : Point3 T × T => x.1.Mirror s y.1) a.boundingSphere a'.boundingSphere := by
  rw [bounds_mirror] at ha
  have hs : ∀ b : Bounds3 T, ∃ r, b.boundingSphere = .ok (⟨fdiv (fadd b.pMin.x b.pMax.x) (Elem.fromInt 2),
      fdiv (fadd b.pMin.y b.pMax.y) (Elem.fromInt 2), fdiv (fadd b.pMin.z b.pMax.z) (Elem.fromInt 2)⟩, r) := by
    intro b
    simp only [Bounds3.boundingSphere, Point3.add, Vector3.ofPoint, fadd_ok, ok_bind, pure_ok, Point3.div, fdiv_ok,
      Point3.sub, fsub_ok, flen_vector]
    split
    · exact ⟨_, rfl⟩
    · exact ⟨_, rfl⟩
  obtain ⟨r, e⟩ := hs a
  obtain ⟨r', e'⟩ := hs a'
  refine ⟨_, _, e, e', ?_⟩
  show Point3.Mirror s _ _
  rw [point_mirror]
  have key : ∀ i, R (s i) (fdiv (fadd (a.pMin.get i) (a.pMax.get i)) (Elem.fromInt 2))
      (fdiv (fadd (a'.pMin.get i) (a'.pMax.get i)) (Elem.fromInt 2)) := by
    intro i
    refine R.fdiv_same ?_ _
    obtain ⟨h1, h2⟩ := ha i
    generalize s i = t at *
    cases t
    · exact h1.fadd h2
    · rw [fadd_comm']; exact h1.fadd h2
  rw [forall_axis] at key ⊢
  exact key

example := C74_sphere_center (s := fun i => i = 0) (a := (⟨fp 1 2 3, fp 4 6 8⟩ : Bounds3 Float32.Model))
  (a' := ⟨fp (-4) 2 3, fp (-1) 6 8⟩) (by decide +kernel)

/-! ### Matrices and transforms -/

theorem matrix_mirror {r c : Fin 4 → Bool} {a b : Matrix4 T} : a.Mirror r c b ↔
    ∀ i j, R (xor (r i) (c j)) (a.mat i j) (b.mat i j) := by
  unfold Matrix4.Mirror
  simp only [mirror_iff]

/-- **C74**, matrices: the product -/
theorem C74_matrix_mul {r m c : Fin 4 → Bool} {a a' b b' : Matrix4 T} (ha : a.Mirror r m a') (hb : b.Mirror m c b') :
    Both (Matrix4.Mirror r c) (a.mul b) (a'.mul b') := by
  rw [matrix_mirror] at ha hb
  refine ⟨_, _, fmul_mat a b, fmul_mat a' b', ?_⟩
  rw [matrix_mirror]
  intro i j
  have key : ∀ k, R (xor (r i) (c j)) (fmul (a.mat i k) (b.mat k j)) (fmul (a'.mat i k) (b'.mat k j)) := fun k =>
    ((ha i k).fmul (hb k j)).congr (by cases r i <;> cases m k <;> cases c j <;> rfl)
  exact ((((R.zero _).fadd (key 0)).fadd (key 1)).fadd (key 2)).fadd (key 3)

/-- The signs of the three axes, for `Fin 4` -/
def axes4 (s : Fin 3 → Bool) : Fin 4 → Bool
  | 0 => s 0
  | 1 => s 1
  | 2 => s 2
  | 3 => false

/-- **C74**, transforms: transforming a mirrored vector by a mirrored transform -/
theorem C74_transform {r c : Fin 3 → Bool} {t t' : Transform T} (ht : t.m.Mirror (axes4 r) (axes4 c) t'.m)
    {v v' : Vector3 T} (hv : v.Mirror c v') :
    Both (Vector3.Mirror r) (v.transform t : Outcome (Vector3 T)) (v'.transform t') := by
  rw [matrix_mirror] at ht
  unfold Vector3.Mirror at hv
  simp only [mirror_iff, forall_axis] at hv
  obtain ⟨v1, v2, v3⟩ := hv
  refine ⟨_, _, by simp only [Vector3.transform, IEEE.as_eq, fmul_ok, fadd_ok, ok_bind]; rfl,
    by simp only [Vector3.transform, IEEE.as_eq, fmul_ok, fadd_ok, ok_bind]; rfl, ?_⟩
  unfold Vector3.Mirror
  simp only [mirror_iff]
  have key : ∀ i, R (axes4 r i) (fadd (fadd (fmul (t.m.mat i 0) v.x) (fmul (t.m.mat i 1) v.y)) (fmul (t.m.mat i 2) v.z))
      (fadd (fadd (fmul (t'.m.mat i 0) v'.x) (fmul (t'.m.mat i 1) v'.y)) (fmul (t'.m.mat i 2) v'.z)) := by
    intro i
    have e : ∀ k x, xor (xor (axes4 r i) (axes4 c k)) x = axes4 r i ↔ x = axes4 c k := by
      intro k x; cases axes4 r i <;> cases axes4 c k <;> cases x <;> simp
    exact ((((ht i 0).fmul v1).congr ((e _ _).2 rfl)).fadd (((ht i 1).fmul v2).congr ((e _ _).2 rfl))).fadd
      (((ht i 2).fmul v3).congr ((e _ _).2 rfl))
  intro i
  fin_cases i
  · exact key 0
  · exact key 1
  · exact key 2

/-- **C74**, matrices: inverting the mirror image of a matrix panics in the same way, or gives the
    mirror image of the inverse, unless both results contain NaN. -/
theorem C74_inverse {r c : Fin 4 → Bool} {a a' : Matrix4 T} (ha : a.Mirror r c a') :
    Together (fun x y : Matrix4 T => x.Mirror c r y ∨
      ((∃ i j, ¬ NotNan (x.mat i j)) ∧ ∃ i j, ¬ NotNan (y.mat i j))) a.inverse a'.inverse := by
  rw [matrix_mirror] at ha
  have := inverse_mirror (T := T) (a := a) (b := a') (r := r) (c := c) (by simpa only [IEEE.as_eq] using ha)
  simpa only [matrix_mirror, NotNan, Bool.not_eq_false] using this

/-! ### Exchanged arguments -/

/-- **C74**: exchanging the arguments of a sum or an inner product does not change a bit, exchanging
    those of a difference or a cross product changes the signs. -/
theorem C74_exchange (u v : Vector3 T) :
    u.add v = v.add u ∧ u.dot v = v.dot u ∧
    Both (Vector3.Mirror fun _ => true) (u.sub v) (v.sub u) ∧
    Both (Vector3.Mirror fun _ => true) (u.cross v) (v.cross u) ∧
    (do (← u.sub v).len) = (do (← v.sub u).len : Outcome T) := by
  have e : ∀ x y : T, R true (fsub x y) (fsub y x) := by
    intro x y
    rw [fsub_eq_add x y, fsub_eq_add y x, fadd_comm' y]
    exact (R.neg x).fadd (R.neg y).symm
  refine ⟨by simp only [Vector3.add, fadd_ok, ok_bind, fadd_comm'], ?_,
    ⟨_, _, by simp only [Vector3.sub, fsub_ok, ok_bind]; rfl, by simp only [Vector3.sub, fsub_ok, ok_bind]; rfl, ?_⟩,
    ⟨_, _, by simp only [Vector3.cross, fmul_ok, fsub_ok, ok_bind]; rfl,
      by simp only [Vector3.cross, fmul_ok, fsub_ok, ok_bind]; rfl, ?_⟩, ?_⟩
  · simp only [Vector3.dot, fmul_ok, fadd_ok, ok_bind]
    rw [fmul_comm' u.x, fmul_comm' u.y, fmul_comm' u.z]
  · unfold Vector3.Mirror
    simp only [mirror_iff, forall_axis]
    exact ⟨e _ _, e _ _, e _ _⟩
  · unfold Vector3.Mirror
    simp only [mirror_iff, forall_axis]
    refine ⟨?_, ?_, ?_⟩
    · show R true (fsub (fmul u.y v.z) (fmul u.z v.y)) (fsub (fmul v.y u.z) (fmul v.z u.y))
      rw [fmul_comm' v.y, fmul_comm' v.z]; exact e _ _
    · show R true (fsub (fmul u.z v.x) (fmul u.x v.z)) (fsub (fmul v.z u.x) (fmul v.x u.z))
      rw [fmul_comm' v.z, fmul_comm' v.x]; exact e _ _
    · show R true (fsub (fmul u.x v.y) (fmul u.y v.x)) (fsub (fmul v.x u.y) (fmul v.y u.x))
      rw [fmul_comm' v.x, fmul_comm' v.y]; exact e _ _
  · simp only [Vector3.sub, fsub_ok, ok_bind, pure_ok, flen_vector, flen]
    rw [(e u.x v.x).sq, (e u.y v.y).sq, (e u.z v.z).sq]

/-- **C74**: the transpose of a product, bit for bit, and the exchange of the summands -/
theorem C74_transpose (a b : Matrix4 T) :
    (do pure (← a.mul b).transpose) = b.transpose.mul a.transpose ∧ a.add b = b.add a := by
  constructor
  · rw [fmul_mat, fmul_mat, ok_bind, pure_ok]
    congr 1
    rw [Matrix4.mk.injEq]
    funext i j
    rw [fdot4_comm]
    fin_cases i <;> fin_cases j <;> rfl
  · unfold Matrix4.add
    simp only [fadd_ok, fadd_comm']

/-- **C74**: exchanging the axes x and y does not change a bit of an inner product or a length. -/
theorem C74_swap_xy (u v : Vector3 T) :
    (⟨u.y, u.x, u.z⟩ : Vector3 T).dot ⟨v.y, v.x, v.z⟩ = u.dot v ∧
    ((⟨u.y, u.x, u.z⟩ : Vector3 T).len : Outcome T) = u.len := by
  constructor
  · simp only [Vector3.dot, fmul_ok, fadd_ok, ok_bind]
    rw [fadd_comm' (fmul u.y v.y)]
  · simp only [flen_vector, flen]
    rw [fadd_comm' (fmul u.y u.y)]

theorem neg_prec_ge : (𝔽).minExponent ≤ -((𝔽).mantissaBits : ℤ) := by
  have h := IEEE.hwide (T := T)
  have hp : 2 ≤ (𝔽).mantissaBits := by unfold Format.mantissaBits; have := (𝔽).hm; omega
  have h3 : (3 : ℤ) ≤ 2 ^ ((𝔽).exponentBits - 1) := by
    have : 3 ≤ 2 ^ ((𝔽).exponentBits - 1) := by omega
    exact_mod_cast this
  unfold Format.minExponent
  omega

/-- From `1/2` to `1` floats are multiples of `2^-p`, so `1 - t` is exact. -/
theorem one_sub_exact {t : T} (ht : IsFinite t) (h1 : 1 / 2 ≤ val t) (h2 : val t ≤ 1) :
    IsFinite (fsub o t) ∧ val (fsub o t) = 1 - val t := by
  obtain ⟨m, e, hm, he, hx⟩ := (up_canon t).rep
  change val t = m * 2 ^ e at hx
  set p : ℕ := (𝔽).mantissaBits with hp
  have hm : |m| ≤ 2 ^ p := hm
  have hrep : (grid 𝔽).Rep (1 - val t) := by
    obtain ⟨M, hM⟩ : ∃ M : ℤ, val t = M * 2 ^ (-(p : ℤ)) := by
      rcases le_or_gt (-(p : ℤ)) e with h | h
      · refine ⟨m * 2 ^ (e + p).toNat, ?_⟩
        rw [hx]
        push_cast
        rw [mul_assoc, ← zpow_natCast, ← zpow_add₀ (by norm_num), Int.toNat_of_nonneg (by omega)]
        congr 2; ring
      · -- then `t` is `1/2`
        have hle : val t ≤ 1 / 2 := by
          have hm' : (m : ℝ) ≤ 2 ^ p := by
            have : m ≤ 2 ^ p := (le_abs_self m).trans hm
            exact_mod_cast this
          calc val t = m * 2 ^ e := hx
            _ ≤ 2 ^ p * 2 ^ e := mul_le_mul_of_nonneg_right hm' (two_zpow_pos e).le
            _ = 2 ^ ((p : ℤ) + e) := by rw [zpow_add₀ (by norm_num), zpow_natCast]
            _ ≤ 2 ^ (-1 : ℤ) := zpow_le_zpow_right₀ (by norm_num) (by omega)
            _ = 1 / 2 := by norm_num
        refine ⟨2 ^ (p - 1), ?_⟩
        have hp1 : 1 ≤ p := by rw [hp]; unfold Format.mantissaBits; omega
        push_cast
        rw [le_antisymm hle h1, ← zpow_natCast, ← zpow_add₀ (by norm_num), Nat.cast_sub hp1]
        rw [show ((p : ℤ) - (1 : ℕ) + -(p : ℤ)) = -1 by push_cast; ring]
        norm_num
    have hpos := two_zpow_pos (-(p : ℤ))
    have hone : (2 : ℝ) ^ p * 2 ^ (-(p : ℤ)) = 1 := by
      rw [← zpow_natCast, ← zpow_add₀ (by norm_num), add_neg_cancel, zpow_zero]
    have hM0 : 0 ≤ M := by
      by_contra hc
      have : (M : ℝ) < 0 := by exact_mod_cast not_le.1 hc
      have := mul_neg_of_neg_of_pos this hpos
      linarith
    have hM1 : M ≤ 2 ^ p := by
      by_contra hc
      have h' : ((2 ^ p : ℤ) : ℝ) < M := by exact_mod_cast not_le.1 hc
      push_cast at h'
      have := mul_lt_mul_of_pos_right h' hpos
      linarith
    refine ⟨2 ^ p - M, -(p : ℤ), ?_, neg_prec_ge, ?_⟩
    · show |2 ^ p - M| ≤ 2 ^ p
      rw [abs_of_nonneg (by omega)]; omega
    · push_cast
      rw [hM, sub_mul, hone]
  have hs := fsub_rnd finite_one ht
  rw [val_one] at hs
  have hr : rnd 𝔽 (1 - val t) = ((1 - val t : ℝ) : EReal) := by
    have hb := (small_rep 𝔽 IEEE.heb 1 (by norm_num)).2
    norm_num at hb
    have habs : |1 - val t| < big 𝔽 := by
      rw [abs_of_nonneg (by linarith)]
      linarith
    unfold rnd
    rw [RN_rep hrep, if_neg, if_neg]
    · rw [abs_lt] at habs; linarith
    · rw [abs_lt] at habs; linarith
  rw [hr] at hs
  exact finite_of_ext hs.1 hs.2

/-- **C74**: interpolating from the other end, for `t` from `1/2` to `1`: not a bit changes. -/
theorem C74_lerp_reverse (t a b : T) (ht : IsFinite t) (h1 : 1 / 2 ≤ val t) (h2 : val t ≤ 1) :
    (do
      let s ← Elem.sub o t
      lerp s b a) = lerp t a b := by
  obtain ⟨f1, v1⟩ := one_sub_exact ht h1 h2
  have hs := fsub_rnd finite_one f1
  rw [val_one, v1, sub_sub_cancel, rnd_val ht] at hs
  have hR : R false (fsub o (fsub o t)) t := ⟨hs.1.trans ht.notNan.symm, by rw [hs.2, ht.ext]; rfl⟩
  have he : fsub o (fsub o t) = t := by
    rcases hR.cases with h | ⟨-, h⟩
    · exact h
    · have := (isZero_iff.1 h).2; linarith
  simp only [lerp, fsub_ok, fmul_ok, fadd_ok, ok_bind, he]
  rw [fadd_comm']

end

/-! ### What depends on the orientation -/

/-- **C74**, where floats differ from real numbers: the length of a vector depends on the order of its
    coordinates. -/
theorem C74_permute_refuted : ∃ x y z : Float32.Model, ∃ l l' : Float32.Model,
    (⟨x, y, z⟩ : Vector3 Float32.Model).lenSq = .ok l ∧ (⟨x, z, y⟩ : Vector3 Float32.Model).lenSq = .ok l' ∧
    ¬ Same l l' := by
  refine ⟨f32 1, f32 1, f32 4097, _, _, rfl, rfl, ?_⟩
  decide +kernel

/-- **C74**, where floats differ from real numbers: interpolating from the other end gives another
    point, for `t` below `1/2`. -/
theorem C74_lerp_reverse_refuted : ∃ t s a b x y : Float32.Model, Elem.sub (f32 1) t = .ok s ∧
    lerp t a b = .ok x ∧ lerp s b a = .ok y ∧ ¬ Same x y := by
  refine ⟨.ofScientific 1 (-10), _, f32 0, f32 1, _, _, rfl, rfl, rfl, ?_⟩
  decide +kernel

/-- **C74**: `inside_exclusive` leaves out the upper faces, so a point on a face is in one of a box and
    its mirror image only. -/
theorem C74_half_open_refuted : ∃ (s : Fin 3 → Bool) (b b' : Bounds3 Float32.Model) (p p' : Point3 Float32.Model),
    b.Mirror s b' ∧ p.Mirror s p' ∧ b.insideExclusive p = true ∧ b'.insideExclusive p' = false := by
  refine ⟨fun _ => true, ⟨fp 0 0 0, fp 1 1 1⟩, ⟨fp (-1) (-1) (-1), fp 0 0 0⟩, fp 0 0 0, fp 0 0 0, ?_⟩
  decide +kernel

/-- **C74**: the radius of the bounding sphere is measured to the upper corner, so it differs for a box
    and its mirror image. -/
theorem C74_sphere_refuted : ∃ (s : Fin 3 → Bool) (b b' : Bounds3 Float32.Model) (c c' : Point3 Float32.Model)
    (r r' : Float32.Model), b.Mirror s b' ∧ b.boundingSphere = .ok (c, r) ∧ b'.boundingSphere = .ok (c', r') ∧
    ¬ Same r r' := by
  refine ⟨fun i => i = 0, ⟨fp 1 0 0, fp 16777218 0 0⟩, ⟨fp (-16777218) 0 0, fp (-1) 0 0⟩, fp 8388610 0 0,
    fp (-8388610) 0 0, f32 8388608, f32 8388609, ?_⟩
  decide +kernel

/-- **C74**: with NaN in a corner, `union_pt` of the mirror images is not the mirror image. -/
theorem C74_nan_refuted : ∃ (s : Fin 3 → Bool) (b b' : Bounds3 Float32.Model) (p p' : Point3 Float32.Model),
    b.Mirror s b' ∧ p.Mirror s p' ∧ ¬ (b.unionPt p).Mirror s (b'.unionPt p') := by
  refine ⟨fun _ => true, ⟨fp 0 0 0, ⟨nan32, f32 1, f32 1⟩⟩, ⟨⟨nan32, f32 (-1), f32 (-1)⟩, fp 0 0 0⟩, fp 0 0 0, fp 0 0 0, ?_⟩
  decide +kernel

-- a vector and its mirror image in the plane x = 0, zeros of different signs, an infinity and NaN
example : (fv 1 2 3).Mirror (fun i => i = 0) (fv (-1) 2 3) ∧
    (⟨f32 1, f32 0, inf32⟩ : Vector3 Float32.Model).Mirror (fun i => i = 0) ⟨f32 (-1), .pack (.zero .negative), inf32⟩ ∧
    (⟨nan32, f32 0, f32 0⟩ : Vector3 Float32.Model).Mirror (fun _ => true) ⟨nan32, f32 0, f32 0⟩ ∧
    ¬ (fv 1 2 3).Mirror (fun i => i = 0) (fv 1 2 3) := by decide +kernel

-- their cross products with mirrored vectors: mirrored on the axes y and z
example : (fv 1 2 3).cross (fv 4 5 7) = .ok (fv (-1) 5 (-3)) ∧
    (fv (-1) 2 3).cross (fv (-4) 5 7) = .ok (fv (-1) (-5) 3) ∧
    crossSigns (fun i => i = 0) = fun i => decide (i ≠ 0) := by
  refine ⟨by decide +kernel, by decide +kernel, ?_⟩
  funext i; fin_cases i <;> rfl

-- a box, its mirror image in x and z, and the boxes extended by a point and its mirror image
example :
    let a : Bounds3 Float32.Model := ⟨fp 1 2 3, fp 4 6 8⟩
    let a' : Bounds3 Float32.Model := ⟨fp (-4) 2 (-8), fp (-1) 6 (-3)⟩
    let s : Fin 3 → Bool := fun i => i ≠ 1
    a.Mirror s a' ∧ (fp 0 9 5).Mirror s (fp 0 9 (-5)) ∧ a.unionPt (fp 0 9 5) = ⟨fp 0 2 3, fp 4 9 8⟩ ∧
    a'.unionPt (fp 0 9 (-5)) = ⟨fp (-4) 2 (-8), fp 0 9 (-3)⟩ ∧ a.pMin.Proper ∧ a.pMax.Proper ∧
    a.maximumExtent = a'.maximumExtent ∧ a.volume = .ok (f32 60) ∧ a'.volume = .ok (f32 60) ∧
    a.expand (f32 2) = .ok ⟨fp (-1) 0 1, fp 6 8 10⟩ ∧ a'.expand (f32 2) = .ok ⟨fp (-6) 0 (-10), fp 1 8 (-1)⟩ := by
  decide +kernel

/-- A matrix whose inverse is not exact -/
def mirrorExample : Matrix4 Float32.Model :=
  ⟨fun i j => f32 ((![![3, 1, 0, 5], ![1, 7, 2, 0], ![0, 1, 9, 4], ![0, 0, 0, 1]] : Fin 4 → Fin 4 → Int) i j)⟩

/-- Its mirror image, with the first coordinate of results and the second of arguments negated -/
def mirrorExample' : Matrix4 Float32.Model :=
  ⟨fun i j => f32 ((![![-3, 1, 0, -5], ![1, -7, 2, 0], ![0, -1, 9, 4], ![0, 0, 0, 1]] : Fin 4 → Fin 4 → Int) i j)⟩

-- both have inverses, mirrored, with arguments and results exchanged
example : mirrorExample.Mirror (fun i => i = 0) (fun j => j = 1) mirrorExample' ∧
    (do
      let x : Matrix4 Float32.Model ← mirrorExample.inverse
      let y : Matrix4 Float32.Model ← mirrorExample'.inverse
      pure (decide (x.Mirror (fun i => i = 1) (fun j => j = 0) y ∧ NotNan (x.mat 0 0) ∧
        ¬ Same (x.mat 0 0) (x.mat 1 1)))) = .ok true := by
  decide +kernel

-- a row of zeros: both panic
example : (match (⟨fun i j => if i = 0 then f32 0 else mirrorExample.mat i j⟩ : Matrix4 Float32.Model).inverse
      (F := Float32.Model) with
    | .ok _ => false
    | .error e => e = .singularZeroPivot) = true := by
  decide +kernel

-- three quarters of the way, and a quarter from the other end
example : lerp (fdiv (f32 3) (f32 4)) (f32 10) (f32 30) = .ok (f32 25) ∧
    lerp (fdiv (f32 1) (f32 4)) (f32 30) (f32 10) = .ok (f32 25) := by decide +kernel

-- products of mirrored matrices, mirrored vectors transformed, and inverses
example := C74_matrix_mul (r := fun i => i = 0) (m := fun j => j = 1) (c := fun i => i = 0) (a := mirrorExample)
  (a' := mirrorExample') (b := mirrorExample.transpose) (b' := mirrorExample'.transpose) (by decide +kernel)
  (by decide +kernel)
example := C74_transform (r := fun i => i = 0) (c := fun j => j = 1) (t := ⟨mirrorExample, Matrix4.one _⟩)
  (t' := ⟨mirrorExample', Matrix4.one _⟩) (by decide +kernel) (v := fv 1 2 3) (v' := fv 1 (-2) 3) (by decide +kernel)
example := C74_inverse (r := fun i => i = 0) (c := fun j => j = 1) (a := mirrorExample) (a' := mirrorExample')
  (by decide +kernel)

open UnitTests in
example := C74_lerp_reverse (fdiv (f32 3) (f32 4)) (f32 10) (f32 30) (by decide +kernel)
  (by rw [val_eq, show ratVal (up (fdiv (f32 3) (f32 4))) = 3 / 4 by decide +kernel]; norm_num)
  (by rw [val_eq, show ratVal (up (fdiv (f32 3) (f32 4))) = 3 / 4 by decide +kernel]; norm_num)

end Pbrt
