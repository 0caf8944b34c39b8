import Verif.Props.FloatBoxes
import Verif.Props.Intersections
import Verif.Props.Extents
import Verif.Props.Rays
import Verif.Props.Vectors

/-!
# C105: rays and boxes
-/

namespace Pbrt

/-! ### Exact numbers -/

section
variable {K : Type} [Field K] [LinearOrder K] [IsStrictOrderedRing K]

/-- **C105**: the points between two points of a box are in the box; of the half-open box likewise. -/
theorem C105_convex (b : Bounds3 K) (p q m : Point3 K) (t : K) (h0 : 0 ≤ t) (h1 : t ≤ 1)
    (hm : Point3.lerp t p q = .ok m) :
    (b.inside p = true → b.inside q = true → b.inside m = true) ∧
    (b.insideExclusive p = true → b.insideExclusive q = true → b.insideExclusive m = true) := by
  have e : ∀ i, m.get i = (1 - t) * p.get i + t * q.get i := by
    obtain ⟨r, hr, h⟩ := C58_lerp_points t p q
    obtain rfl : r = m := by simpa using hr.symm.trans hm
    intro i
    have := h i
    rw [lerp_exact] at this
    simpa using this.symm
  have h1' : 0 ≤ 1 - t := sub_nonneg.2 h1
  simp only [inside_iff, insideExclusive_iff, Bounds3.Has, Bounds3.HasOpen, Le_exact, Lt_exact, e]
  refine ⟨fun hp hq i => ⟨?_, ?_⟩, fun hp hq i => ⟨?_, ?_⟩⟩
  · nlinarith [mul_le_mul_of_nonneg_left (hp i).1 h1', mul_le_mul_of_nonneg_left (hq i).1 h0]
  · nlinarith [mul_le_mul_of_nonneg_left (hp i).2 h1', mul_le_mul_of_nonneg_left (hq i).2 h0]
  · nlinarith [mul_le_mul_of_nonneg_left (hp i).1 h1', mul_le_mul_of_nonneg_left (hq i).1 h0]
  · rcases eq_or_lt_of_le h0 with rfl | h
    · simpa using (hp i).2
    · nlinarith [mul_le_mul_of_nonneg_left (hp i).2.le h1', mul_lt_mul_of_pos_left (hq i).2 h]

/-- **C105**: when a ray is in a box: on every axis on which it moves, the parameter lies between those at
    which it meets the two planes of the box; on the others its origin lies between the planes. -/
theorem C105_slab (b : Bounds3 K) (hb : b.WellFormed) (r : Ray K) (t : K) (p : Point3 K) (hp : r.at t = .ok p) :
    b.inside p = true ↔ ∀ i,
      if r.d.get i = 0 then b.pMin.get i ≤ r.o.get i ∧ r.o.get i ≤ b.pMax.get i
      else min ((b.pMin.get i - r.o.get i) / r.d.get i) ((b.pMax.get i - r.o.get i) / r.d.get i) ≤ t ∧
        t ≤ max ((b.pMin.get i - r.o.get i) / r.d.get i) ((b.pMax.get i - r.o.get i) / r.d.get i) := by
  obtain ⟨p', h, e⟩ := C56_at_value r t
  obtain rfl : p' = p := by simpa using h.symm.trans hp
  rw [inside_iff]
  refine forall_congr' fun i => ?_
  have hw : b.pMin.get i ≤ b.pMax.get i := by simpa using hb i
  simp only [Le_exact, e]
  split
  · next h => simp [h]
  · next h =>
    rcases lt_or_gt_of_ne h with h | h
    · have hle : (b.pMax.get i - r.o.get i) / r.d.get i ≤ (b.pMin.get i - r.o.get i) / r.d.get i :=
        div_le_div_of_nonpos_of_le h.le (by linarith)
      rw [min_eq_right hle, max_eq_left hle, div_le_iff_of_neg h, le_div_iff_of_neg h]
      constructor <;> rintro ⟨h1, h2⟩ <;> constructor <;> linarith
    · have hle : (b.pMin.get i - r.o.get i) / r.d.get i ≤ (b.pMax.get i - r.o.get i) / r.d.get i :=
        div_le_div_of_nonneg_right (by linarith) h.le
      rw [min_eq_left hle, max_eq_right hle, div_le_iff₀ h, le_div_iff₀ h]
      constructor <;> rintro ⟨h1, h2⟩ <;> constructor <;> linarith

/-- **C105**: a ray that is in a box at two parameters is in it in between. -/
theorem C105_between (b : Bounds3 K) (r : Ray K) (s u t : K) (p m q : Point3 K) (h : s ≤ u) (h' : u ≤ t)
    (hp : r.at s = .ok p) (hm : r.at u = .ok m) (hq : r.at t = .ok q) :
    (b.inside p = true → b.inside q = true → b.inside m = true) ∧
    (b.insideExclusive p = true → b.insideExclusive q = true → b.insideExclusive m = true) := by
  obtain ⟨p', h1, e1⟩ := C56_at_value r s
  obtain rfl : p' = p := by simpa using h1.symm.trans hp
  obtain ⟨m', h2, e2⟩ := C56_at_value r u
  obtain rfl : m' = m := by simpa using h2.symm.trans hm
  obtain ⟨q', h3, e3⟩ := C56_at_value r t
  obtain rfl : q' = q := by simpa using h3.symm.trans hq
  have key : ∀ i, (p'.get i ≤ m'.get i ∧ m'.get i ≤ q'.get i) ∨ (q'.get i ≤ m'.get i ∧ m'.get i ≤ p'.get i) := by
    intro i
    rw [e1, e2, e3]
    rcases le_total 0 (r.d.get i) with hd | hd
    · left; constructor <;> nlinarith
    · right; constructor <;> nlinarith
  simp only [inside_iff, insideExclusive_iff, Bounds3.Has, Bounds3.HasOpen, Le_exact, Lt_exact]
  refine ⟨fun hp hq i => ?_, fun hp hq i => ?_⟩
  · rcases key i with k | k
    · exact ⟨(hp i).1.trans k.1, k.2.trans (hq i).2⟩
    · exact ⟨(hq i).1.trans k.1, k.2.trans (hp i).2⟩
  · rcases key i with k | k
    · exact ⟨(hp i).1.trans k.1, k.2.trans_lt (hq i).2⟩
    · exact ⟨(hq i).1.trans k.1, k.2.trans_lt (hp i).2⟩

end

example :
    let b : Bounds3 ℚ := ⟨⟨0, 0, 0⟩, ⟨2, 2, 2⟩⟩
    let r : Ray ℚ := ⟨⟨-1, 3, 1⟩, ⟨1, -1, 0⟩, 10, 0⟩
    b.WellFormed ∧ r.at 1 = .ok ⟨0, 2, 1⟩ ∧ r.at 2 = .ok ⟨1, 1, 1⟩ ∧ r.at 3 = .ok ⟨2, 0, 1⟩ ∧ r.at 4 = .ok ⟨3, -1, 1⟩ ∧
    b.inside ⟨0, 2, 1⟩ = true ∧ b.inside ⟨1, 1, 1⟩ = true ∧ b.inside ⟨2, 0, 1⟩ = true ∧ b.inside ⟨3, -1, 1⟩ = false ∧
    Point3.lerp (1 / 2) ⟨0, 2, 1⟩ ⟨2, 0, 1⟩ = .ok (⟨1, 1, 1⟩ : Point3 ℚ) := by
  decide +kernel

/-! ### Floats -/

section
variable {T : Type} [Elem T] [As T T] [FloatFns T] [IEEE T]

attribute [local instance] ieee_lawful

local notation "z" => (Elem.fromInt 0 : T)

theorem fat_get (r : Ray T) (t : T) : ∃ p, r.at t = .ok p ∧ ∀ i, p.get i = fadd (r.o.get i) (fmul t (r.d.get i)) := by
  refine ⟨_, by simp only [Ray.at, Vector3.mul, Point3.add, fmul_ok, fadd_ok, ok_bind, pure_ok]; rfl, fun i => ?_⟩
  fin_cases i <;> rfl

theorem ray_fmul_mono {d s t : T} (h : Le s t) (n : NotNan (fmul s d)) (n' : NotNan (fmul t d)) :
    (0 ≤ ext d → Le (fmul s d) (fmul t d)) ∧ (ext d ≤ 0 → Le (fmul t d) (fmul s d)) := by
  refine ⟨fun hd => le_of_ext n n' ?_, fun hd => le_of_ext n' n ?_⟩ <;> rw [fmul_ext' n, fmul_ext' n'] <;>
    refine rndE_mono ?_
  · exact mul_le_mul_of_nonneg_right (le_ext h) hd
  · have : 0 ≤ - ext d := EReal.neg_nonneg.2 hd
    have := mul_le_mul_of_nonneg_right (le_ext h) this
    rwa [mul_neg, mul_neg, EReal.neg_le_neg_iff] at this

/-- between two parameters at which a coordinate is a number, it is one -/
theorem fat_notNan {o d s u t : T} (hd : IsFinite d) (h : Le s u) (h' : Le u t) (n : NotNan (fadd o (fmul s d)))
    (n' : NotNan (fadd o (fmul t d))) : NotNan (fmul u d) ∧ NotNan (fadd o (fmul u d)) := by
  obtain ⟨no, ns, a1, a2⟩ := fadd_nan n
  obtain ⟨-, nt, b1, b2⟩ := fadd_nan n'
  have nu : NotNan (fmul u d) := by
    refine (fmul_ext h.right hd.notNan (fun _ => by rw [hd.ext]; simp) fun h0 => ⟨fun hc => ?_, fun hc => ?_⟩).1
    · exact ((fmul_nan nt).2.2.2 h0).1 (top_le_iff.1 (hc ▸ le_ext h'))
    · exact ((fmul_nan ns).2.2.2 h0).2 (le_bot_iff.1 (hc ▸ le_ext h))
  refine ⟨nu, (fadd_ext no nu ?_ ?_).1⟩
  · rintro ⟨h1, h2⟩
    rcases le_total 0 (ext d) with h0 | h0
    · exact a1 ⟨h1, le_bot_iff.1 (h2 ▸ le_ext ((ray_fmul_mono h ns nu).1 h0))⟩
    · exact b1 ⟨h1, le_bot_iff.1 (h2 ▸ le_ext ((ray_fmul_mono h' nu nt).2 h0))⟩
  · rintro ⟨h1, h2⟩
    rcases le_total 0 (ext d) with h0 | h0
    · exact b2 ⟨h1, top_le_iff.1 (h2 ▸ le_ext ((ray_fmul_mono h' nu nt).1 h0))⟩
    · exact a2 ⟨h1, top_le_iff.1 (h2 ▸ le_ext ((ray_fmul_mono h ns nu).2 h0))⟩

/-- **C105**, with floats: along a ray every coordinate grows or falls, or does not change, in spite of
    rounding. -/
theorem C105_float_monotone (r : Ray T) (s t : T) (p q : Point3 T) (h : Le s t) (hp : r.at s = .ok p)
    (hq : r.at t = .ok q) (i : Fin 3) (n : NotNan (p.get i)) (n' : NotNan (q.get i)) :
    (Le z (r.d.get i) → Le (p.get i) (q.get i)) ∧ (Le (r.d.get i) z → Le (q.get i) (p.get i)) := by
  obtain ⟨p', h1, e1⟩ := fat_get r s
  obtain rfl : p' = p := by simpa using h1.symm.trans hp
  obtain ⟨q', h2, e2⟩ := fat_get r t
  obtain rfl : q' = q := by simpa using h2.symm.trans hq
  rw [e1] at n
  rw [e2] at n'
  rw [e1, e2]
  have ns := (fadd_nan n).2.1
  have nt := (fadd_nan n').2.1
  have no := (fadd_nan n).1
  refine ⟨fun hd => fadd_mono (.refl no) ((ray_fmul_mono h ns nt).1 ?_) n n',
    fun hd => fadd_mono (.refl no) ((ray_fmul_mono h ns nt).2 ?_) n' n⟩
  · exact (le_zero_iff.1 hd).2
  · have := le_ext hd
    rwa [ext_zero] at this

/-- the middle of three points of a ray -/
theorem fat_middle (r : Ray T) (hd : ∀ i, IsFinite (r.d.get i)) (s u t : T) (p m q : Point3 T) (h : Le s u) (h' : Le u t)
    (hp : r.at s = .ok p) (hm : r.at u = .ok m) (hq : r.at t = .ok q) (i : Fin 3) (n : NotNan (p.get i))
    (n' : NotNan (q.get i)) :
    (Le (p.get i) (m.get i) ∧ Le (m.get i) (q.get i)) ∨ (Le (q.get i) (m.get i) ∧ Le (m.get i) (p.get i)) := by
  have nm : NotNan (m.get i) := by
    obtain ⟨p', h1, e1⟩ := fat_get r s
    obtain rfl : p' = p := by simpa using h1.symm.trans hp
    obtain ⟨q', h2, e2⟩ := fat_get r t
    obtain rfl : q' = q := by simpa using h2.symm.trans hq
    obtain ⟨m', h3, e3⟩ := fat_get r u
    obtain rfl : m' = m := by simpa using h3.symm.trans hm
    rw [e1] at n
    rw [e2] at n'
    rw [e3]
    exact (fat_notNan (hd i) h h' n n').2
  have k1 := C105_float_monotone r s u p m h hp hm i n nm
  have k2 := C105_float_monotone r u t m q h' hm hq i nm n'
  rcases Le.total finite_zero.notNan (hd i).notNan with h0 | h0
  · exact .inl ⟨k1.1 h0, k2.1 h0⟩
  · exact .inr ⟨k2.2 h0, k1.2 h0⟩

/-- **C105**, with floats: a ray with a finite direction that is in a box at two parameters is in it in
    between, in spite of rounding. -/
theorem C105_float_between (b : Bounds3 T) (r : Ray T) (hd : ∀ i, IsFinite (r.d.get i)) (s u t : T) (p m q : Point3 T)
    (h : Le s u) (h' : Le u t) (hp : r.at s = .ok p) (hm : r.at u = .ok m) (hq : r.at t = .ok q) :
    (b.inside p = true → b.inside q = true → b.inside m = true) ∧
    (b.insideExclusive p = true → b.insideExclusive q = true → b.insideExclusive m = true) := by
  have key := fat_middle r hd s u t p m q h h' hp hm hq
  rw [inside_iff, inside_iff, inside_iff, insideExclusive_iff, insideExclusive_iff, insideExclusive_iff]
  refine ⟨fun hp hq i => ?_, fun hp hq i => ?_⟩
  · rcases key i (hp i).1.right (hq i).1.right with k | k
    · exact ⟨(hp i).1.trans k.1, k.2.trans (hq i).2⟩
    · exact ⟨(hq i).1.trans k.1, k.2.trans (hp i).2⟩
  · rcases key i (hp i).1.right (hq i).1.right with k | k
    · exact ⟨(hp i).1.trans k.1, lt_iff.2 ⟨k.2.trans (hq i).2.le, fun hc => (lt_iff.1 (hq i).2).2 (hc.trans k.2)⟩⟩
    · exact ⟨(hq i).1.trans k.1, lt_iff.2 ⟨k.2.trans (hp i).2.le, fun hc => (lt_iff.1 (hp i).2).2 (hc.trans k.2)⟩⟩

/-- **C105**, with floats: between a point in one box and a point in another one, a ray stays in the union
    of the two. -/
theorem C105_float_union (a b : Bounds3 T) (ha : a.WellFormed) (hb : b.WellFormed) (r : Ray T)
    (hd : ∀ i, IsFinite (r.d.get i)) (s u t : T) (p m q : Point3 T) (h : Le s u) (h' : Le u t)
    (hp : r.at s = .ok p) (hm : r.at u = .ok m) (hq : r.at t = .ok q) (h1 : a.inside p = true) (h2 : b.inside q = true) :
    (a.union b).inside m = true := by
  rw [inside_iff] at h1 h2
  exact (C105_float_between _ r hd s u t p m q h h' hp hm hq).1 ((inside_iff _ _).2 (sub_union_left ha hb p h1))
    ((inside_iff _ _).2 (sub_union_right ha hb q h2))

end

example :
    let b : Bounds3 Float32.Model := ⟨fp 0 0 0, fp 2 2 2⟩
    let c : Bounds3 Float32.Model := ⟨fp 3 (-3) 0, fp 9 (-1) 2⟩
    let r : Ray Float32.Model := ⟨fp (-1) 3 1, fv 1 (-1) 0, f32 10, f32 0⟩
    (∀ i, IsFinite (r.d.get i)) ∧ b.WellFormed ∧ c.WellFormed ∧ Le (f32 1) (f32 2) ∧ Le (f32 2) (f32 3) ∧
    r.at (f32 1) = .ok (fp 0 2 1) ∧ r.at (f32 2) = .ok (fp 1 1 1) ∧ r.at (f32 3) = .ok (fp 2 0 1) ∧
    r.at (f32 4) = .ok (fp 3 (-1) 1) ∧ b.inside (fp 0 2 1) = true ∧ b.inside (fp 2 0 1) = true ∧
    b.inside (fp 3 (-1) 1) = false ∧ c.inside (fp 3 (-1) 1) = true := by
  decide +kernel

/-! ### Limits -/

/-- A limit of **C105**: a ray whose direction is infinite passes through NaN. -/
theorem C105_infinite_refuted : ∃ (b : Bounds3 Float32.Model) (r : Ray Float32.Model) (p m q : Point3 Float32.Model),
    b.WellFormed ∧ Le (f32 (-1)) (f32 0) ∧ Le (f32 0) (f32 1) ∧ r.at (f32 (-1)) = .ok p ∧ r.at (f32 0) = .ok m ∧
    r.at (f32 1) = .ok q ∧ b.inside p = true ∧ b.inside q = true ∧ b.inside m = false :=
  let r : Ray Float32.Model := ⟨fp 0 0 0, ⟨Extremes.maxValue, f32 0, f32 0⟩, f32 1, f32 0⟩
  ⟨.newInf, r, ⟨Extremes.minValue, f32 0, f32 0⟩, _, ⟨Extremes.maxValue, f32 0, f32 0⟩, by decide +kernel, by decide +kernel,
    by decide +kernel, by decide +kernel, rfl, by decide +kernel, by decide +kernel, by decide +kernel, by decide +kernel⟩

/-- A limit of **C105**: with floats the point between two points of a box, as computed by `lerp`, may lie
    outside the box, even if the two points are the same. -/
theorem C105_lerp_refuted : ∃ (p m : Point3 Float32.Model) (t : Float32.Model), Le (f32 0) t ∧ Le t (f32 1) ∧
    Elem.div (f32 1) (f32 10) = .ok t ∧
    Point3.lerp t p p = .ok m ∧ (Bounds3.newPt p).inside p = true ∧ (Bounds3.newPt p).inside m = false :=
  ⟨fp 3 0 0, _, frac32 10, by decide +kernel, by decide +kernel, by decide +kernel, rfl, by decide +kernel, by decide +kernel⟩

end Pbrt
