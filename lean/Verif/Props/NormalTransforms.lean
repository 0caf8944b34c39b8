import Verif.Props.Inverses
import Verif.Props.FloatTransforms
import Verif.Props.Vectors
import Mathlib.LinearAlgebra.Matrix.Adjugate

/-!
# C106: normals and orientation under transforms
-/

namespace Pbrt

section
variable {K : Type} [Field K] [LinearOrder K]

/-- The part of a matrix that acts on vectors -/
def Matrix4.block (m : Matrix4 K) : Matrix (Fin 3) (Fin 3) K := .of fun i j => m.mat i.castSucc j.castSucc

theorem transform_mulVec (v : Vector3 K) (t : Transform K) :
    ∃ w, (v.transform t : Outcome (Vector3 K)) = .ok w ∧ w.get = t.m.block.mulVec v.get := by
  obtain ⟨w, h1, h2⟩ := transform_get v t
  exact ⟨w, h1, funext fun i => by rw [h2]; rfl⟩

theorem blocks_iff (t : Transform K) : t.BlocksConsistent ↔ t.m.block * t.mInv.block = 1 ∧ t.mInv.block * t.m.block = 1 := by
  constructor
  · intro h
    constructor <;> ext i j <;> rw [Matrix.mul_apply, Matrix.one_apply]
    · exact (h i j).1
    · exact (h i j).2
  · rintro ⟨h1, h2⟩ i j
    have e1 := congrFun (congrFun h1 i) j
    have e2 := congrFun (congrFun h2 i) j
    rw [Matrix.mul_apply, Matrix.one_apply] at e1 e2
    exact ⟨e1, e2⟩

theorem block_transpose (m : Matrix4 K) : m.transpose.block = m.block.transpose := by
  ext i j
  have := congrFun (congrFun (transpose_toMatrix m) i.castSucc) j.castSucc
  simpa [Matrix4.toMatrix, Matrix4.block] using this

theorem dot_get (u v : Vector3 K) : u.dot v = .ok (u.get ⬝ᵥ v.get) := C50_dot_value_vector u v

theorem vector_ext {u v : Vector3 K} (h : u.get = v.get) : u = v := by
  have := congrFun h
  cases u; cases v
  simp only [Vector3.mk.injEq]
  exact ⟨this 0, this 1, this 2⟩

/-- **C106**: a transform can be moved to the other side of a dot product by transposing it. -/
theorem C106_transpose (u v : Vector3 K) (t : Transform K) :
    (do (← (u.transform t : Outcome (Vector3 K))).dot v) = (do u.dot (← (v.transform t.transpose : Outcome (Vector3 K)))) := by
  obtain ⟨a, h1, e1⟩ := transform_mulVec u t
  obtain ⟨b, h2, e2⟩ := transform_mulVec v t.transpose
  rw [h1, h2, ok_bind, ok_bind, dot_get, dot_get, e1, e2]
  show _ = Except.ok (_ ⬝ᵥ (t.m.transpose.block).mulVec _)
  rw [block_transpose, Matrix.mulVec_transpose, dotProduct_comm (u.get), ← Matrix.dotProduct_mulVec, dotProduct_comm]

/-- **C106**: if vectors are transformed by `t` and normals by the transpose of the inverse, all dot
    products stay the same; so what is orthogonal stays orthogonal. -/
theorem C106_normal (u n : Vector3 K) (t : Transform K) (ht : t.BlocksConsistent) :
    (do (← (u.transform t : Outcome (Vector3 K))).dot (← (n.transform t.inverse.transpose : Outcome (Vector3 K)))) =
      u.dot n := by
  obtain ⟨a, h1, e1⟩ := transform_mulVec u t
  obtain ⟨b, h2, e2⟩ := transform_mulVec n t.inverse.transpose
  rw [h1, h2, ok_bind, ok_bind, dot_get, dot_get, e1, e2]
  show Except.ok (_ ⬝ᵥ (t.mInv.transpose.block).mulVec _) = _
  rw [block_transpose, Matrix.mulVec_transpose, dotProduct_comm, ← Matrix.dotProduct_mulVec, Matrix.mulVec_mulVec,
    ((blocks_iff t).1 ht).2, Matrix.one_mulVec, dotProduct_comm]

/-- **C106**: only for such transforms are all dot products kept. -/
theorem C106_normal_only (t : Transform K)
    (h : ∀ u n : Vector3 K,
      (do (← (u.transform t : Outcome (Vector3 K))).dot
            (← (n.transform t.inverse.transpose : Outcome (Vector3 K)))) = u.dot n) : t.BlocksConsistent := by
  have key : ∀ f g : Fin 3 → K, g ⬝ᵥ (t.mInv.block * t.m.block).mulVec f = g ⬝ᵥ f := fun f g => by
    have hg : ∀ f : Fin 3 → K, (⟨f 0, f 1, f 2⟩ : Vector3 K).get = f := fun f => by
      funext i; fin_cases i <;> rfl
    have := h ⟨f 0, f 1, f 2⟩ ⟨g 0, g 1, g 2⟩
    obtain ⟨a, h1, e1⟩ := transform_mulVec (⟨f 0, f 1, f 2⟩ : Vector3 K) t
    obtain ⟨b, h2, e2⟩ := transform_mulVec (⟨g 0, g 1, g 2⟩ : Vector3 K) t.inverse.transpose
    rw [h1, h2, ok_bind, ok_bind, dot_get, dot_get, e1, e2, hg, hg] at this
    have e : t.inverse.transpose.m.block = t.mInv.block.transpose := block_transpose _
    rw [e, Matrix.mulVec_transpose, dotProduct_comm, ← Matrix.dotProduct_mulVec, Matrix.mulVec_mulVec,
      dotProduct_comm f] at this
    exact Except.ok.inj this
  have hb : t.mInv.block * t.m.block = 1 := by
    ext i j
    have := key (Pi.single j 1) (Pi.single i 1)
    simpa [Matrix.one_apply, Pi.single_apply, eq_comm (a := j)] using this
  exact (blocks_iff t).2 ⟨mul_eq_one_comm.1 hb, hb⟩

/-- **C106**: for all transforms built by `translate`, `scale`, `inverse` and `transpose`, what is
    orthogonal stays orthogonal. -/
theorem C106_built (u n : Vector3 K) (t : Transform K) (ht : t.BuiltScale) (h : u.dot n = .ok 0) :
    (do (← (u.transform t : Outcome (Vector3 K))).dot
          (← (n.transform t.inverse.transpose : Outcome (Vector3 K)))) = .ok 0 := by
  rw [C106_normal u n t (C34_blocks t ht), h]

/-- **C106**: the cross product of two transformed vectors is their cross product, transformed like a
    normal and multiplied by the determinant. -/
theorem C106_cross (u v : Vector3 K) (t : Transform K) (ht : t.BlocksConsistent) :
    (do (← (u.transform t : Outcome (Vector3 K))).cross (← (v.transform t : Outcome (Vector3 K)))) =
      (do (← ((← u.cross v).transform t.inverse.transpose : Outcome (Vector3 K))).mul t.m.block.det) := by
  obtain ⟨a, h1, e1⟩ := transform_mulVec u t
  obtain ⟨b, h2, e2⟩ := transform_mulVec v t
  obtain ⟨c, h3, e3⟩ := C50_cross_value_vector u v
  obtain ⟨d, h4, e4⟩ := transform_mulVec c t.inverse.transpose
  obtain ⟨e, h5, e5⟩ := C50_cross_value_vector a b
  have hm : d.mul t.m.block.det = .ok e := by
    have adj : t.m.block.adjugate = t.m.block.det • t.mInv.block := by
      calc t.m.block.adjugate = t.m.block.adjugate * (t.m.block * t.mInv.block) := by
            rw [((blocks_iff t).1 ht).1, Matrix.mul_one]
        _ = _ := by rw [← Matrix.mul_assoc, Matrix.adjugate_mul, Matrix.smul_mul, Matrix.one_mul]
    have key : e.get = t.m.block.det • d.get := by
      have ed : t.m.block.det • d.get = (t.m.block.adjugate).transpose.mulVec c.get := by
        rw [e4, adj]
        show _ • (t.mInv.transpose.block).mulVec _ = _
        rw [block_transpose, Matrix.transpose_smul, Matrix.smul_mulVec]
      rw [ed, e5, e1, e2, e3, Matrix.adjugate_fin_three, cross_apply, cross_apply]
      funext i
      fin_cases i <;> simp [Matrix.mulVec, dotProduct, Fin.sum_univ_three, Matrix.vecHead, Matrix.vecTail] <;> ring
    have : d.mul t.m.block.det = .ok ⟨t.m.block.det * d.x, t.m.block.det * d.y, t.m.block.det * d.z⟩ := by
      simp [Vector3.mul]
    rw [this]
    congr 1
    refine vector_ext ?_
    rw [key]
    funext i
    fin_cases i <;> rfl
  rw [h1, h2, ok_bind, ok_bind, h5, h3, ok_bind, h4, ok_bind, hm]

/-- **C106**: the volume spanned by three vectors is multiplied by the determinant, so a transform with a
    positive determinant keeps right-handed systems right-handed. -/
theorem C106_orientation (u v w : Vector3 K) (t : Transform K) :
    (do (← (← (u.transform t : Outcome (Vector3 K))).cross (← (v.transform t : Outcome (Vector3 K)))).dot
          (← (w.transform t : Outcome (Vector3 K)))) =
    (do Elem.mul t.m.block.det (← (← u.cross v).dot w)) := by
  obtain ⟨a, h1, e1⟩ := transform_mulVec u t
  obtain ⟨b, h2, e2⟩ := transform_mulVec v t
  obtain ⟨c, h3, e3⟩ := transform_mulVec w t
  obtain ⟨d, h4, e4⟩ := C50_cross_value_vector u v
  obtain ⟨e, h5, e5⟩ := C50_cross_value_vector a b
  rw [h1, h2, h3, ok_bind, ok_bind, h5, ok_bind, ok_bind, h4, ok_bind, dot_get, dot_get, ok_bind, e5, e4, e1, e2, e3,
    cross_apply, cross_apply, Matrix.det_fin_three]
  simp [Matrix.mulVec, dotProduct, Fin.sum_univ_three, Matrix.vecHead, Matrix.vecTail]
  ring

/-- **C106**: turning a normal towards a vector and transforming can be done in either order. -/
theorem C106_face_forward [IsStrictOrderedRing K] (n v : Vector3 K) (t : Transform K) (ht : t.BlocksConsistent) :
    (do (← (n.transform t.inverse.transpose : Outcome (Vector3 K))).faceForward
          (← (v.transform t : Outcome (Vector3 K)))) =
      (do ((← n.faceForward v).transform t.inverse.transpose : Outcome (Vector3 K))) := by
  have hd := C106_normal v n t ht
  obtain ⟨a, h1, e1⟩ := transform_mulVec v t
  obtain ⟨b, h2, e2⟩ := transform_mulVec n t.inverse.transpose
  rw [h1, h2, ok_bind, ok_bind, C50_dot_symm_vector, C50_dot_symm_vector v] at hd
  rw [h1, h2, ok_bind, ok_bind, Vector3.faceForward, Vector3.faceForward, hd, dot_get, ok_bind, ok_bind]
  by_cases hl : Elem.lt (n.get ⬝ᵥ v.get) (Elem.fromInt 0 : K) = true
  · obtain ⟨nn, h3, e3⟩ : ∃ w : Vector3 K, n.neg = .ok w ∧ w.get = -n.get :=
      ⟨_, by simp [Vector3.neg]; rfl, by funext i; fin_cases i <;> rfl⟩
    obtain ⟨nb, h4, e4⟩ : ∃ w : Vector3 K, b.neg = .ok w ∧ w.get = -b.get :=
      ⟨_, by simp [Vector3.neg]; rfl, by funext i; fin_cases i <;> rfl⟩
    obtain ⟨c, h5, e5⟩ := transform_mulVec nn t.inverse.transpose
    rw [if_pos hl, if_pos hl, h3, h4, ok_bind, h5]
    congr 1
    refine vector_ext ?_
    rw [e4, e5, e3, e2, Matrix.mulVec_neg]
  · rw [if_neg hl, if_neg hl]
    exact h2.symm

/-- **C106**: these laws hold for every transform made by `new_` from a matrix whose last row is
    `0 0 0 w`, and for all transforms built by `translate`, `scale`, `inverse` and `transpose`
    (`C34_blocks`). -/
theorem C106_new [IsStrictOrderedRing K] (m : Matrix4 K) (t : Transform K) (h : Transform.new_ m = .ok t)
    (ha : ∀ j : Fin 3, m.mat 3 j.castSucc = 0) : t.BlocksConsistent := by
  obtain ⟨inv, h1, rfl⟩ : ∃ inv, m.inverse = .ok inv ∧ t = ⟨m, inv⟩ := by
    cases hi : (m.inverse : Outcome (Matrix4 K)) with
    | error e => rw [Transform.new_, hi] at h; cases h
    | ok inv =>
      rw [Transform.new_, hi] at h
      cases h
      exact ⟨inv, rfl, rfl⟩
  have hr := inverse_ok_iff.1 h1
  have e : ∀ i j : Fin 4, ∑ k, m.mat i k * inv.mat k j = if i = j then 1 else 0 := fun i j => by
    have := congrFun (congrFun hr i) j
    rwa [Matrix.mul_apply, Matrix.one_apply] at this
  have hw : ∀ j : Fin 4, m.mat 3 3 * inv.mat 3 j = if 3 = j then 1 else 0 := fun j => by
    have := e 3 j
    rwa [Fin.sum_univ_castSucc, Finset.sum_eq_zero fun k _ => by rw [ha, zero_mul], zero_add] at this
  have hw3 : m.mat 3 3 ≠ 0 := fun h0 => by
    have := hw 3
    rw [h0, zero_mul, if_pos rfl] at this
    exact zero_ne_one this
  have hc : ∀ j : Fin 3, inv.mat 3 j.castSucc = 0 := fun j => by
    have := hw j.castSucc
    rw [if_neg (show ¬ (3 : Fin 4) = j.castSucc from (Fin.castSucc_lt_last j).ne')] at this
    exact (mul_eq_zero.1 this).resolve_left hw3
  have hb : m.block * inv.block = 1 := by
    ext i j
    have := e i.castSucc j.castSucc
    rw [Fin.sum_univ_castSucc, show (Fin.last 3) = 3 from rfl, hc, mul_zero, add_zero] at this
    rw [Matrix.mul_apply, Matrix.one_apply]
    simpa [Matrix4.block] using this
  exact (blocks_iff _).2 ⟨hb, mul_eq_one_comm.1 hb⟩

end

/-! ### Examples -/

/-- A shear with a translation -/
def shear : Matrix4 ℚ := ⟨Mat44.ofRows 1 2 0 5 0 1 0 6 0 0 3 7 0 0 0 1⟩

example : ∃ t, Transform.new_ shear = .ok t ∧ (∀ j : Fin 3, shear.mat 3 j.castSucc = 0) ∧
    (⟨1, 1, 0⟩ : Vector3 ℚ).dot ⟨1, -1, 4⟩ = .ok 0 ∧
    ((⟨1, 1, 0⟩ : Vector3 ℚ).transform t : Outcome (Vector3 ℚ)) = .ok ⟨3, 1, 0⟩ ∧
    ((⟨1, -1, 4⟩ : Vector3 ℚ).transform t.inverse.transpose : Outcome (Vector3 ℚ)) = .ok ⟨1, -3, 4 / 3⟩ ∧
    (⟨3, 1, 0⟩ : Vector3 ℚ).dot ⟨1, -3, 4 / 3⟩ = .ok 0 :=
  ⟨⟨shear, ⟨Mat44.ofRows 1 (-2) 0 7 0 1 0 (-6) 0 0 (1 / 3) (-7 / 3) 0 0 0 1⟩⟩, by
    rw [Transform.new_, (inverse_ok_iff (b := ⟨Mat44.ofRows 1 (-2) 0 7 0 1 0 (-6) 0 0 (1 / 3) (-7 / 3) 0 0 0 1⟩)).2
      (by ext i j; fin_cases i <;> fin_cases j <;>
        simp [shear, Matrix4.toMatrix, Matrix.mul_apply, Fin.sum_univ_four, Mat44.ofRows] <;> norm_num)]
    rfl, by decide +kernel⟩

/-- The transform of the example -/
def shearT : Transform ℚ := ⟨shear, ⟨Mat44.ofRows 1 (-2) 0 7 0 1 0 (-6) 0 0 (1 / 3) (-7 / 3) 0 0 0 1⟩⟩

example : shear.block.det = 3 ∧
    (do (← ((⟨1, 1, 0⟩ : Vector3 ℚ).transform shearT : Outcome (Vector3 ℚ))).cross
          (← ((⟨0, 1, 1⟩ : Vector3 ℚ).transform shearT : Outcome (Vector3 ℚ)))) = .ok ⟨3, -9, 1⟩ ∧
    (⟨1, 1, 0⟩ : Vector3 ℚ).cross ⟨0, 1, 1⟩ = .ok ⟨1, -1, 1⟩ ∧
    ((⟨1, -1, 1⟩ : Vector3 ℚ).transform shearT.inverse.transpose : Outcome (Vector3 ℚ)) = .ok ⟨1, -3, 1 / 3⟩ ∧
    (⟨1, -1, 1⟩ : Vector3 ℚ).faceForward ⟨0, 1, 0⟩ = .ok ⟨-1, 1, -1⟩ ∧
    ((⟨0, 1, 0⟩ : Vector3 ℚ).transform shearT : Outcome (Vector3 ℚ)) = .ok ⟨2, 1, 0⟩ ∧
    (⟨1, -3, 1 / 3⟩ : Vector3 ℚ).faceForward ⟨2, 1, 0⟩ = .ok ⟨-1, 3, -1 / 3⟩ :=
  ⟨by rw [Matrix.det_fin_three]; decide +kernel, by decide +kernel⟩

/-- **C106**: transforming a normal like a vector does not keep it orthogonal. -/
theorem C106_vector_refuted : ∃ (t : Transform ℚ) (u n u' n' : Vector3 ℚ), Transform.scale 1 2 1 = .ok t ∧
    u.dot n = .ok 0 ∧ (u.transform t : Outcome (Vector3 ℚ)) = .ok u' ∧
    (n.transform t : Outcome (Vector3 ℚ)) = .ok n' ∧ u'.dot n' ≠ .ok 0 :=
  ⟨_, ⟨1, 1, 0⟩, ⟨1, -1, 0⟩, ⟨1, 2, 0⟩, ⟨1, -2, 0⟩, scale_value (by decide) (by decide) (by decide),
    by decide +kernel⟩

/-- **C106**: for a matrix with another last row, `new_` gives a transform whose inverse transpose does
    not keep normals orthogonal. -/
theorem C106_projective_refuted : ∃ (m : Matrix4 ℚ) (t : Transform ℚ) (u n u' n' : Vector3 ℚ),
    Transform.new_ m = .ok t ∧ u.dot n = .ok 0 ∧ (u.transform t : Outcome (Vector3 ℚ)) = .ok u' ∧
    (n.transform t.inverse.transpose : Outcome (Vector3 ℚ)) = .ok n' ∧ u'.dot n' ≠ .ok 0 :=
  ⟨⟨Mat44.ofRows 0 0 0 1 0 1 0 0 0 0 1 0 1 0 0 0⟩,
    ⟨⟨Mat44.ofRows 0 0 0 1 0 1 0 0 0 0 1 0 1 0 0 0⟩, ⟨Mat44.ofRows 0 0 0 1 0 1 0 0 0 0 1 0 1 0 0 0⟩⟩,
    ⟨1, 1, 0⟩, ⟨1, -1, 0⟩, ⟨0, 1, 0⟩, ⟨0, -1, 0⟩, by
    rw [Transform.new_, (inverse_ok_iff (b := ⟨Mat44.ofRows 0 0 0 1 0 1 0 0 0 0 1 0 1 0 0 0⟩)).2
      (by ext i j; fin_cases i <;> fin_cases j <;>
        simp [Matrix4.toMatrix, Matrix.mul_apply, Fin.sum_univ_four, Mat44.ofRows])]
    rfl, by decide +kernel⟩

/-- **C106**: with floats the dot product of transformed vector and normal need not stay 0. -/
theorem C106_float_refuted : ∃ (t : Transform Float32.Model) (u n u' n' : Vector3 Float32.Model) (d e : Float32.Model),
    Transform.scale (Elem.fromInt 41) (Elem.fromInt 1) (Elem.fromInt 1) = .ok t ∧
    u.dot n = .ok d ∧ Same d (Elem.fromInt 0) ∧ (u.transform t : Outcome (Vector3 Float32.Model)) = .ok u' ∧
    (n.transform t.inverse.transpose : Outcome (Vector3 Float32.Model)) = .ok n' ∧
    u'.dot n' = .ok e ∧ ¬ Same e (Elem.fromInt 0) := by
  refine ⟨_, ⟨f32 1, f32 1, f32 0⟩, ⟨f32 1, f32 (-1), f32 0⟩, _, _, _, _, rfl, rfl, ?_, rfl, rfl, rfl, ?_⟩ <;> decide +kernel

section
variable {T : Type} [Elem T] [As T T] [FloatFns T] [IEEE T]
local notation "ε" => unitRoundoff T
local notation "η" => tiny T
local notation "z" => (Elem.fromInt 0 : T)
local notation "o" => (Elem.fromInt 1 : T)

/-- **C106**, with floats: after `scale` the dot product of a vector and a normal is kept up to six
    roundings of each product, and numbers below the normal range. -/
theorem C106_float_scale (u n u' n' : Vector3 T) (t : Transform T) (x y s d : T) (ht : Transform.scale x y s = .ok t)
    (hu : u.transform t = .ok u') (hn : n.transform t.inverse.transpose = .ok n') (hd : u'.dot n' = .ok d)
    (hf : IsFinite d) :
    |val d - ∑ i, val (u.get i) * val (n.get i)| ≤ ((1 + ε) ^ 6 - 1) * ∑ i, |val (u.get i) * val (n.get i)| +
      (∑ i, η * (1 + |val (n.get i) / val (![x, y, s] i)| +
        (|val (![x, y, s] i) * val (u.get i)| + η) * (|val (n.get i)| + 1))) * (1 + ε) ^ 6 := by
  obtain ⟨t', ht', hm, hm'⟩ := fscale x y s
  obtain rfl : t' = t := by rw [ht] at ht'; cases ht'; rfl
  have fin3 : ∀ {a b c d e f : T}, IsFinite (fadd (fadd (fmul a b) (fmul c d)) (fmul e f)) →
      (IsFinite a ∧ IsFinite c ∧ IsFinite e) ∧ IsFinite b ∧ IsFinite d ∧ IsFinite f := fun h => by
    obtain ⟨h1, h2⟩ := fadd_finite h
    obtain ⟨h3, h4⟩ := fadd_finite h1
    exact ⟨⟨(fmul_finite h3).1, (fmul_finite h4).1, (fmul_finite h2).1⟩, (fmul_finite h3).2, (fmul_finite h4).2,
      (fmul_finite h2).2⟩
  have hd' : fadd (fadd (fmul u'.x n'.x) (fmul u'.y n'.y)) (fmul u'.z n'.z) = d := by
    simpa only [Vector3.dot, fmul_ok, fadd_ok, ok_bind, Except.ok.injEq] using hd
  subst hd'
  have huf' : ∀ j, IsFinite (u'.get j) := forall_axis.2 (fin3 hf).1
  have hnf' : ∀ j, IsFinite (n'.get j) := forall_axis.2 (fin3 hf).2
  have back : ∀ {v w : Vector3 T} {t : Transform T}, v.transform t = .ok w → (∀ j, IsFinite (w.get j)) →
      ∀ j, IsFinite (v.get j) := fun {v w t} hw hwf => by
    obtain ⟨w', hw', hwi⟩ := ftransform v t
    obtain rfl : w' = w := by rw [hw] at hw'; cases hw'; rfl
    have h0 := hwf 0
    rw [hwi] at h0
    exact forall_axis.2 (fin3 h0).2
  have huf := back hu huf'
  have hnf := back hn hnf'
  have hm'' : ∀ i j : Fin 3, t'.inverse.transpose.m.mat i.castSucc j.castSucc =
      if i = j then fdiv o (![x, y, s] i) else z := fun i j => by
    have e : t'.inverse.transpose.m.mat i.castSucc j.castSucc = t'.mInv.mat j.castSucc i.castSucc := by
      fin_cases i <;> fin_cases j <;> rfl
    rw [e, hm']
    by_cases h : i = j
    · subst h; rfl
    · rw [if_neg h, if_neg (Ne.symm h)]
  obtain ⟨u'', hu', hui⟩ := transform_diagonal u huf t' fun i j hij => by
    rw [hm, if_neg hij]; exact zero_isZero
  obtain rfl : u'' = u' := by rw [hu] at hu'; cases hu'; rfl
  obtain ⟨n'', hn', hni⟩ := transform_diagonal n hnf t'.inverse.transpose fun i j hij => by
    rw [hm'', if_neg hij]; exact zero_isZero
  obtain rfl : n'' = n' := by rw [hn] at hn'; cases hn'; rfl
  have vR : ∀ {a b : T}, R false a b → IsFinite a → IsFinite b ∧ val a = val b := fun h ha =>
    ⟨h.finite_iff.1 ha, by
      have := h.2
      rw [ha.ext, (h.finite_iff.1 ha).ext] at this
      exact (EReal.coe_injective this).symm⟩
  have key : ∀ i, IsFinite (fmul (u''.get i) (n''.get i)) →
      Within T 4 (η * (1 + |val (n.get i) / val (![x, y, s] i)| +
        (|val (![x, y, s] i) * val (u.get i)| + η) * (|val (n.get i)| + 1)))
        (val (fmul (u''.get i) (n''.get i))) (val (u.get i) * val (n.get i)) |val (u.get i) * val (n.get i)| := by
    intro i hp
    have h1 := hui i
    have h2 := hni i
    rw [hm'', if_pos rfl] at h2
    rw [hm, if_pos rfl] at h1
    generalize ![x, y, s] i = f at *
    obtain ⟨f1, e1⟩ := vR h1 (huf' i)
    obtain ⟨f2, e2⟩ := vR h2 (hnf' i)
    obtain ⟨fr, -⟩ := fmul_finite f2
    obtain ⟨ff, -⟩ := fmul_finite f1
    have h0 : val f ≠ 0 := fun h0 => by
      obtain ⟨s, hs⟩ := isZero_iff.2 ⟨ff, h0⟩
      obtain ⟨m, e, hm, ho⟩ := up_one_sign (T := T)
      rw [isFinite_iff, up_fdiv, hs, ho] at fr
      exact fr
    have w1 : Within T 1 η (val (fdiv o f)) (1 / val f) |1 / val f| := by
      have := (Within.exact (T := T) (1 / val f)).round' (w := val (fdiv o f)) (by
        have := fdiv_err finite_one ff h0 fr
        rwa [val_one] at this)
      simpa using this
    have w2 := Within.prod f1
    rw [← e1] at w2
    have w3 := w1.fmul (Within.val (n.get i)) f2
    rw [← e2] at w3
    have w4 := w2.fmul w3 hp
    rw [← abs_mul, ← abs_mul, show val f * val (u.get i) * (1 / val f * val (n.get i)) = val (u.get i) * val (n.get i) by
      field_simp] at w4
    convert w4 using 1
    rw [show val (n.get i) / val f = 1 / val f * val (n.get i) by ring]
    ring
  obtain ⟨g1, g2⟩ := fadd_finite hf
  obtain ⟨g3, g4⟩ := fadd_finite g1
  have := (((key 0 g3).fadd (key 1 g4) g1).fadd ((key 2 g2).mono (by norm_num : 4 ≤ 5) (le_refl _)) hf).err
  rw [Fin.sum_univ_three, Fin.sum_univ_three, Fin.sum_univ_three]
  exact this

end

example : ∃ t u' n' d, Transform.scale (f32 41) (f32 1) (f32 1) = .ok t ∧ (fv 1 1 0).transform t = .ok u' ∧
    (fv 1 (-1) 0).transform t.inverse.transpose = .ok n' ∧ u'.dot n' = .ok d ∧ IsFinite d := by
  refine ⟨_, _, _, _, rfl, rfl, rfl, rfl, ?_⟩
  decide +kernel

end Pbrt
