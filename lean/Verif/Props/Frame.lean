import Verif.Proof.Frame
import Verif.Spec.Frame
import Verif.Proof.Mirror
import Verif.Props.Vectors
import Verif.Props.UnitTests

/-!
# C75: `coordinate_system` on floats

For vectors of about unit length, as its argument should be: the frame is orthonormal up to a few
units in the last place, and near the frame of real arithmetic.  Much shorter and much longer vectors
give infinities, NaN and zeros.
-/

namespace Pbrt

open Float.Model (UnpackedFloat Format)

section
variable {T : Type} [Elem T] [As T T] [FloatFns T] [IEEE T]

local notation "ε" => unitRoundoff T
local notation "η" => tiny T
local notation "z" => (Elem.fromInt 0 : T)

theorem gt_fabs {a b : T} (ha : IsFinite a) (hb : IsFinite b) :
    Elem.gt (fabs a) (fabs b) = true ↔ |val b| < |val a| := by
  rw [← val_fabs, ← val_fabs]
  exact lt_iff_val (fabs_finite hb) (fabs_finite ha)

/-- The real arithmetic of both cases, `c` being the coordinate that is not used for `v2` -/
theorem frame_core (U : Usual T) {a b : T} {c p q w1 w2 w3 : ℝ} (ha : IsFinite a) (hb : IsFinite b)
    (hV : 1 / 2 ≤ val a ^ 2 + val b ^ 2 + c ^ 2) (hV' : val a ^ 2 + val b ^ 2 + c ^ 2 ≤ 2) (hc : |c| ≤ |val a|)
    (hp : |p - val a / val (flen2 a b)| ≤ ε * |val a / val (flen2 a b)| + η)
    (hq : |q - val b / val (flen2 a b)| ≤ ε * |val b / val (flen2 a b)| + η) :
    |p| ≤ 101 / 100 ∧ |q| ≤ 101 / 100 ∧ |p ^ 2 + q ^ 2 - 1| ≤ 7 * ε ∧ |val a * q - val b * p| ≤ 3 / 2 * ε ∧
    (|w1 - c * p| ≤ 2001 / 1000 * ε * (|c * p|) + 3 * η →
     |w2 + (val a * p + val b * q)| ≤ 2001 / 1000 * ε * (|val a * p| + |val b * q|) + 3 * η →
     |w3 - c * q| ≤ 2001 / 1000 * ε * (|c * q|) + 3 * η →
      |val a * w1 + val b * w3 + c * w2| ≤ 5 * ε ∧ |p * w3 - q * w1| ≤ 3 * ε ∧
      |w1 ^ 2 + w2 ^ 2 + w3 ^ 2 - (val a ^ 2 + val b ^ 2 + c ^ 2)| ≤ 12 * ε * (val a ^ 2 + val b ^ 2 + c ^ 2) ∧
      |w1 - c * p| ≤ 6 * ε ∧ |w2 + (val a * p + val b * q)| ≤ 6 * ε ∧ |w3 - c * q| ≤ 6 * ε) := by
  have he := eps_pos (T := T)
  have hη := tiny_pos (T := T)
  have he' := U.eps
  have hca : c ^ 2 ≤ val a ^ 2 := sq_le_sq.2 hc
  have hS : 1 / 4 ≤ val a ^ 2 + val b ^ 2 := by linarith [sq_nonneg (val b)]
  have hS' : val a ^ 2 + val b ^ 2 ≤ 2 := by linarith [sq_nonneg c]
  obtain ⟨l0, l1, l2, l3⟩ := flen2_spec U ha hb hS hS'
  obtain ⟨hP, hO⟩ := plane_unit he he' hη.le U.tiny hS hS' l1 l2 l3 hp hq
  obtain ⟨P1, P2⟩ := abs_le.1 hP
  have bp : |p| ≤ 101 / 100 := abs_le_root (by norm_num) (by linarith [sq_nonneg q])
  have bq : |q| ≤ 101 / 100 := abs_le_root (by norm_num) (by linarith [sq_nonneg p])
  refine ⟨bp, bq, hP, hO, ?_⟩
  intro h1 h2 h3
  have t1 := U.tiny_le
  have t2 : 3 * η ≤ 3 / 1000 * ε ^ 2 := by
    have : ε ^ 3 ≤ 1 / 1000 * ε ^ 2 := by
      calc ε ^ 3 = ε * ε ^ 2 := by ring
        _ ≤ _ := mul_le_mul_of_nonneg_right he' (sq_nonneg _)
    linarith [U.tiny]
  have hc2 : |c| ≤ 142 / 100 := abs_le_root (by norm_num) (by linarith [sq_nonneg (val a), sq_nonneg (val b)])
  have ha2 : |val a| ≤ 142 / 100 := abs_le_root (by norm_num) (by linarith [sq_nonneg c, sq_nonneg (val b)])
  have hb2 : |val b| ≤ 142 / 100 := abs_le_root (by norm_num) (by linarith [sq_nonneg (val a), sq_nonneg c])
  simp only [abs_mul] at h1 h2 h3
  have small : ∀ {x y : ℝ}, |x| ≤ 142 / 100 → |y| ≤ 101 / 100 → |x| * |y| ≤ 1435 / 1000 := fun hx hy =>
    (mul_le_mul hx hy (abs_nonneg _) (by norm_num)).trans (by norm_num)
  have k := fun x (hx : x ≤ 287 / 100) => mul_le_mul_of_nonneg_left (a := 2001 / 1000 * ε) hx (by linarith)
  refine ⟨frame_dot1 he (by linarith) (by linarith) hV' (by linarith) h1 h2 h3,
    frame_dot2 he (by linarith) (by linarith) hV' (by linarith) h1 h3,
    frame_len he he' (by linarith) t2 hV hV' (by linarith) (by linarith) hO h1 h2 h3, ?_, ?_, ?_⟩
  · linarith [k _ ((small hc2 bp).trans (by norm_num))]
  · linarith [k _ (show |val a| * |p| + |val b| * |q| ≤ 287 / 100 by linarith [small ha2 bp, small hb2 bq])]
  · linarith [k _ ((small hc2 bq).trans (by norm_num))]

/-- The components of `v2` when the first coordinate is larger than the second one -/
theorem frame_x (U : Usual T) (v1 : Vector3 T) (hf : ∀ i, IsFinite (v1.get i)) (hV : 1 / 2 ≤ ∑ i, val (v1.get i) ^ 2)
    (hV' : ∑ i, val (v1.get i) ^ 2 ≤ 2) (hc : |val v1.y| < |val v1.x|) (l : T) (hl : flen2 v1.x v1.z = l) :
    ∃ v3, v1.coordinateSystem = .ok (⟨fdiv (fneg v1.z) l, fdiv z l, fdiv v1.x l⟩, v3) ∧
      NearFrame v1 ⟨fdiv (fneg v1.z) l, fdiv z l, fdiv v1.x l⟩ v3 := by
  have fx : IsFinite v1.x := hf 0
  have fy : IsFinite v1.y := hf 1
  have fz : IsFinite v1.z := hf 2
  simp only [Fin.sum_univ_three] at hV hV'
  change 1 / 2 ≤ val v1.x ^ 2 + val v1.y ^ 2 + val v1.z ^ 2 at hV
  change val v1.x ^ 2 + val v1.y ^ 2 + val v1.z ^ 2 ≤ 2 at hV'
  rw [add_right_comm] at hV hV'
  have hca : val v1.y ^ 2 ≤ val v1.x ^ 2 := sq_le_sq.2 hc.le
  have hS : 1 / 4 ≤ val v1.x ^ 2 + val v1.z ^ 2 := by linarith [sq_nonneg (val v1.z)]
  have hS' : val v1.x ^ 2 + val v1.z ^ 2 ≤ 2 := by linarith [sq_nonneg (val v1.y)]
  obtain ⟨l0, l1, l2, l3⟩ := flen2_spec U fx fz hS hS'
  obtain ⟨fp, ep⟩ := fdiv_len2 U fx fz fx hS hS' (by linarith [sq_nonneg (val v1.z)])
  obtain ⟨fq, eq⟩ := fdiv_len2 U fx fz (fneg_finite fz) hS hS' (by rw [val_fneg, neg_sq]; linarith [sq_nonneg (val v1.x)])
  obtain ⟨f0, e0⟩ := val_fdiv_zero l0 l1.ne'
  rw [hl] at l0 l1 l2 l3 fp ep fq eq f0 e0
  have eq' : |(-val (fdiv (fneg v1.z) l)) - val v1.z / val l| ≤ ε * |val v1.z / val l| + η := by
    rw [val_fneg, neg_div, abs_neg] at eq
    rw [show -val (fdiv (fneg v1.z) l) - val v1.z / val l = -(val (fdiv (fneg v1.z) l) - -(val v1.z / val l)) by ring,
      abs_neg]
    exact eq
  have core := fun w1 w2 w3 => frame_core U (w1 := w1) (w2 := w2) (w3 := w3) fx fz hV hV' hc.le
    (by rw [hl]; exact ep) (by rw [hl]; exact eq')
  obtain ⟨bp, bq, hP, hO, -⟩ := core 0 0 0
  rw [abs_neg] at bq
  have bx : |val v1.x| ≤ 142 / 100 := abs_le_root (by norm_num) (by linarith [sq_nonneg (val v1.z), sq_nonneg (val v1.y)])
  have bz : |val v1.z| ≤ 142 / 100 := abs_le_root (by norm_num) (by linarith [sq_nonneg (val v1.x), sq_nonneg (val v1.y)])
  have by_ : |val v1.y| ≤ 142 / 100 := abs_le_root (by norm_num) (by linarith [sq_nonneg (val v1.x), sq_nonneg (val v1.z)])
  have b0 : |val (fdiv z l)| ≤ 101 / 100 := by rw [e0]; norm_num
  obtain ⟨g1, r1⟩ := fcross_err U fy fp fz f0 by_ bp bz b0
  obtain ⟨g2, r2⟩ := fcross_err U fz fq fx fp bz bq bx bp
  obtain ⟨g3, r3⟩ := fcross_err U fx f0 fy fq bx b0 by_ bq
  rw [e0] at r1 r3
  obtain ⟨-, -, -, -, h⟩ := core (val (fsub (fmul v1.y (fdiv v1.x l)) (fmul v1.z (fdiv z l))))
    (val (fsub (fmul v1.z (fdiv (fneg v1.z) l)) (fmul v1.x (fdiv v1.x l))))
    (val (fsub (fmul v1.x (fdiv z l)) (fmul v1.y (fdiv (fneg v1.z) l))))
  obtain ⟨q1, q2, q3, q4, q5, q6⟩ := h (by simpa only [mul_zero, sub_zero, abs_zero, add_zero] using r1)
    ((le_of_eq (congrArg abs (by ring))).trans (r2.trans (le_of_eq (by rw [mul_neg, abs_neg, add_comm (|_|) (|_|)]))))
    ((le_of_eq (congrArg abs (by ring))).trans (r3.trans (le_of_eq (by rw [mul_zero, abs_zero, zero_add, mul_neg, abs_neg]))))
  refine ⟨⟨fsub (fmul v1.y (fdiv v1.x l)) (fmul v1.z (fdiv z l)),
    fsub (fmul v1.z (fdiv (fneg v1.z) l)) (fmul v1.x (fdiv v1.x l)),
    fsub (fmul v1.x (fdiv z l)) (fmul v1.y (fdiv (fneg v1.z) l))⟩, ?_, ?_⟩
  · simp only [Vector3.coordinateSystem, fabs_ok, ok_bind, (gt_fabs fx fy).2 hc, if_true, fneg_ok, fmul_ok, fadd_ok,
      fsqrt_ok, Vector3.div, fdiv_ok, pure_ok, Vector3.cross, fsub_ok, ← hl]
    rfl
  · constructor
    · intro i; fin_cases i
      exacts [⟨fq, g1⟩, ⟨f0, g2⟩, ⟨fp, g3⟩]
    all_goals try simp only [Fin.sum_univ_three]
    · show |val (fdiv (fneg v1.z) l) ^ 2 + val (fdiv z l) ^ 2 + val (fdiv v1.x l) ^ 2 - 1| ≤ _
      rw [e0]; convert hP using 2; ring
    · show |val v1.x * val (fdiv (fneg v1.z) l) + val v1.y * val (fdiv z l) + val v1.z * val (fdiv v1.x l)| ≤ _
      rw [e0, ← abs_neg]; convert hO using 2; ring
    · convert q1 using 2
      show val v1.x * val (fsub _ _) + val v1.y * val (fsub _ _) + val v1.z * val (fsub _ _) = _
      ring
    · convert q2 using 2
      show val (fdiv (fneg v1.z) l) * val (fsub _ _) + val (fdiv z l) * val (fsub _ _) + val (fdiv v1.x l) * val (fsub _ _) = _
      rw [e0]; ring
    · show |val (fsub _ _) ^ 2 + val (fsub _ _) ^ 2 + val (fsub _ _) ^ 2 - (val v1.x ^ 2 + val v1.y ^ 2 + val v1.z ^ 2)| ≤
        12 * ε * (val v1.x ^ 2 + val v1.y ^ 2 + val v1.z ^ 2)
      rw [add_right_comm (val v1.x ^ 2)]; exact q3
    · intro i; fin_cases i
      · show |val (fsub _ _) - (val v1.y * val (fdiv v1.x l) - val v1.z * val (fdiv z l))| ≤ _
        rw [e0, mul_zero, sub_zero]; exact q4
      · show |val (fsub _ _) - (val v1.z * val (fdiv (fneg v1.z) l) - val v1.x * val (fdiv v1.x l))| ≤ _
        convert q5 using 2; ring
      · show |val (fsub _ _) - (val v1.x * val (fdiv z l) - val v1.y * val (fdiv (fneg v1.z) l))| ≤ _
        rw [e0]; convert q6 using 2; ring

/-- The components of `v2` otherwise -/
theorem frame_y (U : Usual T) (v1 : Vector3 T) (hf : ∀ i, IsFinite (v1.get i)) (hV : 1 / 2 ≤ ∑ i, val (v1.get i) ^ 2)
    (hV' : ∑ i, val (v1.get i) ^ 2 ≤ 2) (hc : ¬ |val v1.y| < |val v1.x|) (l : T)
    (hl : flen2 v1.y v1.z = l) :
    ∃ v3, v1.coordinateSystem = .ok (⟨fdiv z l, fdiv v1.z l, fdiv (fneg v1.y) l⟩, v3) ∧
      NearFrame v1 ⟨fdiv z l, fdiv v1.z l, fdiv (fneg v1.y) l⟩ v3 := by
  have fx : IsFinite v1.x := hf 0
  have fy : IsFinite v1.y := hf 1
  have fz : IsFinite v1.z := hf 2
  have hcc : |val v1.x| ≤ |val v1.y| := not_lt.1 hc
  simp only [Fin.sum_univ_three] at hV hV'
  change 1 / 2 ≤ val v1.x ^ 2 + val v1.y ^ 2 + val v1.z ^ 2 at hV
  change val v1.x ^ 2 + val v1.y ^ 2 + val v1.z ^ 2 ≤ 2 at hV'
  rw [add_rotate] at hV hV'
  have hca : val v1.x ^ 2 ≤ val v1.y ^ 2 := sq_le_sq.2 hcc
  have hS : 1 / 4 ≤ val v1.y ^ 2 + val v1.z ^ 2 := by linarith [sq_nonneg (val v1.z)]
  have hS' : val v1.y ^ 2 + val v1.z ^ 2 ≤ 2 := by linarith [sq_nonneg (val v1.x)]
  obtain ⟨l0, l1, l2, l3⟩ := flen2_spec U fy fz hS hS'
  obtain ⟨fq, eq⟩ := fdiv_len2 U fy fz fz hS hS' (by linarith [sq_nonneg (val v1.y)])
  obtain ⟨fp, ep⟩ := fdiv_len2 U fy fz (fneg_finite fy) hS hS' (by rw [val_fneg, neg_sq]; linarith [sq_nonneg (val v1.z)])
  obtain ⟨f0, e0⟩ := val_fdiv_zero l0 l1.ne'
  rw [hl] at l0 l1 l2 l3 fp ep fq eq f0 e0
  have ep' : |(-val (fdiv (fneg v1.y) l)) - val v1.y / val l| ≤ ε * |val v1.y / val l| + η := by
    rw [val_fneg, neg_div, abs_neg] at ep
    rw [show -val (fdiv (fneg v1.y) l) - val v1.y / val l = -(val (fdiv (fneg v1.y) l) - -(val v1.y / val l)) by ring,
      abs_neg]
    exact ep
  have core := fun w1 w2 w3 => frame_core U (w1 := w1) (w2 := w2) (w3 := w3) fy fz hV hV' hcc
    (by rw [hl]; exact ep') (by rw [hl]; exact eq)
  obtain ⟨bp, bq, hP, hO, -⟩ := core 0 0 0
  rw [abs_neg] at bp
  have bx : |val v1.x| ≤ 142 / 100 := abs_le_root (by norm_num) (by linarith [sq_nonneg (val v1.z), sq_nonneg (val v1.y)])
  have bz : |val v1.z| ≤ 142 / 100 := abs_le_root (by norm_num) (by linarith [sq_nonneg (val v1.x), sq_nonneg (val v1.y)])
  have by_ : |val v1.y| ≤ 142 / 100 := abs_le_root (by norm_num) (by linarith [sq_nonneg (val v1.x), sq_nonneg (val v1.z)])
  have b0 : |val (fdiv z l)| ≤ 101 / 100 := by rw [e0]; norm_num
  obtain ⟨g1, r1⟩ := fcross_err U fy fp fz fq by_ bp bz bq
  obtain ⟨g2, r2⟩ := fcross_err U fz f0 fx fp bz b0 bx bp
  obtain ⟨g3, r3⟩ := fcross_err U fx fq fy f0 bx bq by_ b0
  rw [e0] at r2 r3
  obtain ⟨-, -, -, -, h⟩ := core (val (fsub (fmul v1.z (fdiv z l)) (fmul v1.x (fdiv (fneg v1.y) l))))
    (val (fsub (fmul v1.y (fdiv (fneg v1.y) l)) (fmul v1.z (fdiv v1.z l))))
    (val (fsub (fmul v1.x (fdiv v1.z l)) (fmul v1.y (fdiv z l))))
  obtain ⟨q1, q2, q3, q4, q5, q6⟩ := h ((le_of_eq (congrArg abs (by ring))).trans (r2.trans (le_of_eq (by rw [mul_zero, abs_zero, zero_add, mul_neg, abs_neg]))))
    ((le_of_eq (congrArg abs (by ring))).trans (r1.trans (le_of_eq (by rw [mul_neg, abs_neg]))))
    (by simpa only [mul_zero, sub_zero, abs_zero, add_zero] using r3)
  refine ⟨⟨fsub (fmul v1.y (fdiv (fneg v1.y) l)) (fmul v1.z (fdiv v1.z l)),
    fsub (fmul v1.z (fdiv z l)) (fmul v1.x (fdiv (fneg v1.y) l)),
    fsub (fmul v1.x (fdiv v1.z l)) (fmul v1.y (fdiv z l))⟩, ?_, ?_⟩
  · simp only [Vector3.coordinateSystem, fabs_ok, ok_bind,
      Bool.eq_false_iff.2 (fun h => hc ((gt_fabs fx fy).1 h)), Bool.false_eq_true, if_false, fneg_ok, fmul_ok, fadd_ok,
      fsqrt_ok, Vector3.div, fdiv_ok, pure_ok, Vector3.cross, fsub_ok, ← hl]
    rfl
  · constructor
    · intro i; fin_cases i
      exacts [⟨f0, g1⟩, ⟨fq, g2⟩, ⟨fp, g3⟩]
    all_goals try simp only [Fin.sum_univ_three]
    · show |val (fdiv z l) ^ 2 + val (fdiv v1.z l) ^ 2 + val (fdiv (fneg v1.y) l) ^ 2 - 1| ≤ _
      rw [e0]; convert hP using 2; ring
    · show |val v1.x * val (fdiv z l) + val v1.y * val (fdiv v1.z l) + val v1.z * val (fdiv (fneg v1.y) l)| ≤ _
      rw [e0]; convert hO using 2; ring
    · convert q1 using 2
      show val v1.x * val (fsub _ _) + val v1.y * val (fsub _ _) + val v1.z * val (fsub _ _) = _
      ring
    · rw [← abs_neg]
      convert q2 using 2
      show -(val (fdiv z l) * val (fsub _ _) + val (fdiv v1.z l) * val (fsub _ _) + val (fdiv (fneg v1.y) l) * val (fsub _ _)) = _
      rw [e0]; ring
    · show |val (fsub _ _) ^ 2 + val (fsub _ _) ^ 2 + val (fsub _ _) ^ 2 - (val v1.x ^ 2 + val v1.y ^ 2 + val v1.z ^ 2)| ≤
        12 * ε * (val v1.x ^ 2 + val v1.y ^ 2 + val v1.z ^ 2)
      rw [add_rotate (val v1.x ^ 2)]; convert q3 using 3; ring
    · intro i; fin_cases i
      · show |val (fsub _ _) - (val v1.y * val (fdiv (fneg v1.y) l) - val v1.z * val (fdiv v1.z l))| ≤ _
        convert q5 using 2; ring
      · show |val (fsub _ _) - (val v1.z * val (fdiv z l) - val v1.x * val (fdiv (fneg v1.y) l))| ≤ _
        rw [e0]; convert q4 using 2; ring
      · show |val (fsub _ _) - (val v1.x * val (fdiv v1.z l) - val v1.y * val (fdiv z l))| ≤ _
        rw [e0, mul_zero, sub_zero]; exact q6

theorem near_frame (U : Usual T) (v1 : Vector3 T) (hf : ∀ i, IsFinite (v1.get i))
    (hV : 1 / 2 ≤ ∑ i, val (v1.get i) ^ 2) (hV' : ∑ i, val (v1.get i) ^ 2 ≤ 2) :
    ∃ v2 v3, v1.coordinateSystem = .ok (v2, v3) ∧ NearFrame v1 v2 v3 := by
  by_cases hc : |val v1.y| < |val v1.x|
  · exact ⟨_, frame_x U v1 hf hV hV' hc _ rfl⟩
  · exact ⟨_, frame_y U v1 hf hV hV' hc _ rfl⟩

/-- The quotient by the computed length is near the quotient by the length. -/
theorem near_unit (U : Usual T) {a b c : T} (ha : IsFinite a) (hb : IsFinite b) (hc : IsFinite c)
    (hS : 1 / 4 ≤ val a ^ 2 + val b ^ 2) (hS' : val a ^ 2 + val b ^ 2 ≤ 2)
    (hca : val c ^ 2 ≤ val a ^ 2 + val b ^ 2) :
    |val (fdiv c (flen2 a b)) - val c / √(val a ^ 2 + val b ^ 2)| ≤ 4 * ε := by
  obtain ⟨h1, h2, h3, h4⟩ := flen2_spec U ha hb hS hS'
  obtain ⟨-, h5⟩ := fdiv_len2 U ha hb hc hS hS' hca
  have he := eps_pos (T := T)
  have he' := U.eps
  have hr0 : 0 < √(val a ^ 2 + val b ^ 2) := Real.sqrt_pos.2 (by linarith)
  have hrr := Real.sq_sqrt (show 0 ≤ val a ^ 2 + val b ^ 2 by linarith)
  rw [← hrr] at h3 h4 hca
  generalize val (flen2 a b) = l at *
  generalize √(val a ^ 2 + val b ^ 2) = r at *
  have k1 : r * (1 - 22 / 10 * ε) ≤ l := by
    refine (abs_le_of_sq_le_sq' ?_ h2.le).2
    refine le_trans ?_ h3
    rw [mul_pow]
    exact mul_le_mul_of_nonneg_left (by nlinarith) (sq_nonneg _)
  have k2 : l ≤ r * (1 + 22 / 10 * ε) := by
    refine (abs_le_of_sq_le_sq' ?_ (mul_nonneg hr0.le (by linarith))).2
    refine h4.trans ?_
    rw [mul_pow]
    exact mul_le_mul_of_nonneg_left (by nlinarith) (sq_nonneg _)
  have k3 : |val c / r| ≤ 1 := by
    rw [abs_div, abs_of_pos hr0, div_le_one hr0, ← abs_of_pos hr0]
    exact sq_le_sq.1 hca
  have k4 : |val c / l - val c / r| ≤ 23 / 10 * ε := by
    have e1 : val c / l - val c / r = val c / r * ((r - l) / l) := by field_simp
    rw [e1, abs_mul]
    have k5 : |(r - l) / l| ≤ 23 / 10 * ε := by
      rw [abs_div, abs_of_pos h2, div_le_iff₀ h2]
      have k6 : |r - l| ≤ 22 / 10 * ε * r := by rw [abs_le]; constructor <;> linarith
      refine k6.trans ?_
      have k7 : 22 / 10 * ε * r ≤ 23 / 10 * ε * (r * (1 - 22 / 10 * ε)) := by
        have : 22 / 10 * ε ≤ 23 / 10 * ε * (1 - 22 / 10 * ε) := by nlinarith
        calc 22 / 10 * ε * r ≤ 23 / 10 * ε * (1 - 22 / 10 * ε) * r := mul_le_mul_of_nonneg_right this hr0.le
          _ = _ := by ring
      exact k7.trans (mul_le_mul_of_nonneg_left k1 (by linarith))
    calc |val c / r| * |(r - l) / l| ≤ 1 * (23 / 10 * ε) := mul_le_mul k3 k5 (abs_nonneg _) (by norm_num)
      _ = _ := one_mul _
  have k8 : |val c / l| ≤ 11 / 10 := by
    have := abs_sub_abs_le_abs_sub (val c / l) (val c / r)
    linarith
  have k9 := mul_le_mul_of_nonneg_left k8 he.le
  have := abs_sub_le (val (fdiv c (flen2 a b))) (val c / l) (val c / r)
  linarith [U.tiny_le]

theorem two_abs {x y c : ℝ} (h : x ^ 2 + y ^ 2 + c ^ 2 ≤ 2) : |x| + |y| ≤ 2 := by
  refine (abs_le_of_sq_le_sq' ?_ (by norm_num)).2
  rw [← sq_abs x, ← sq_abs y] at h
  linarith [sq_nonneg (|x| - |y|), sq_nonneg c]

theorem near_cross {x y c p q p' q' w e : ℝ} (h : x ^ 2 + y ^ 2 + c ^ 2 ≤ 2) (hp : |p - p'| ≤ 4 * e)
    (hq : |q - q'| ≤ 4 * e) (hw : |w - (x * p - y * q)| ≤ 6 * e) : |w - (x * p' - y * q')| ≤ 14 * e := by
  have h1 := two_abs h
  have h0 : 0 ≤ 4 * e := (abs_nonneg _).trans hp
  have e1 : w - (x * p' - y * q') = (w - (x * p - y * q)) + (x * (p - p') - y * (q - q')) := by ring
  have e2 : |x * (p - p') - y * (q - q')| ≤ (|x| + |y|) * (4 * e) := by
    refine (abs_sub _ _).trans ?_
    rw [abs_mul, abs_mul, add_mul]
    gcongr
  have e3 : (|x| + |y|) * (4 * e) ≤ 2 * (4 * e) := mul_le_mul_of_nonneg_right h1 h0
  rw [e1]
  refine (abs_add_le _ _).trans ?_
  linarith

theorem near_exact (U : Usual T) (v1 : Vector3 T) (hf : ∀ i, IsFinite (v1.get i))
    (hV : 1 / 2 ≤ ∑ i, val (v1.get i) ^ 2) (hV' : ∑ i, val (v1.get i) ^ 2 ≤ 2) :
    ∃ v2 v3 : Vector3 T, ∃ w2 w3 : Vector3 ℝ, v1.coordinateSystem = .ok (v2, v3) ∧
      v1.vals.coordinateSystem = .ok (w2, w3) ∧
      ∀ i, |val (v2.get i) - w2.get i| ≤ 4 * ε ∧ |val (v3.get i) - w3.get i| ≤ 14 * ε := by
  have fx : IsFinite v1.x := hf 0
  have fy : IsFinite v1.y := hf 1
  have fz : IsFinite v1.z := hf 2
  have hV1 : 1 / 2 ≤ val v1.x ^ 2 + val v1.y ^ 2 + val v1.z ^ 2 := by rw [Fin.sum_univ_three] at hV; exact hV
  have hV2 : val v1.x ^ 2 + val v1.y ^ 2 + val v1.z ^ 2 ≤ 2 := by rw [Fin.sum_univ_three] at hV'; exact hV'
  have he := eps_pos (T := T)
  -- the part common to both cases
  have fin : ∀ (v2 v3 : Vector3 T) (w2 w3 : Vector3 ℝ), v1.coordinateSystem = .ok (v2, v3) ∧ NearFrame v1 v2 v3 →
      v1.vals.coordinateSystem = .ok (w2, w3) → v1.vals.cross w2 = .ok w3 →
      (∀ i, |val (v2.get i) - w2.get i| ≤ 4 * ε) →
      ∃ v2 v3 : Vector3 T, ∃ w2 w3 : Vector3 ℝ, v1.coordinateSystem = .ok (v2, v3) ∧
        v1.vals.coordinateSystem = .ok (w2, w3) ∧
        ∀ i, |val (v2.get i) - w2.get i| ≤ 4 * ε ∧ |val (v3.get i) - w3.get i| ≤ 14 * ε := by
    rintro v2 v3 w2 w3 ⟨h1, h2⟩ h3 h4 h5
    refine ⟨v2, v3, w2, w3, h1, h3, fun i => ⟨h5 i, ?_⟩⟩
    simp only [Vector3.cross, mul_ok, sub_ok, ok_bind, pure_ok, Except.ok.injEq] at h4
    subst h4
    have hc := h2.cross i
    fin_cases i
    · exact near_cross (c := val v1.x) (by rw [add_comm, ← add_assoc]; exact hV2) (h5 2) (h5 1) hc
    · exact near_cross (x := val v1.z) (y := val v1.x) (c := val v1.y) (by linarith) (h5 0) (h5 2) hc
    · exact near_cross (c := val v1.z) hV2 (h5 1) (h5 0) hc
  by_cases hc : |val v1.y| < |val v1.x|
  · have hca : val v1.y ^ 2 ≤ val v1.x ^ 2 := sq_le_sq.2 hc.le
    have hS : 1 / 4 ≤ val v1.x ^ 2 + val v1.z ^ 2 := by linarith [sq_nonneg (val v1.z)]
    have hS' : val v1.x ^ 2 + val v1.z ^ 2 ≤ 2 := by linarith [sq_nonneg (val v1.y)]
    obtain ⟨l0, l1, -⟩ := flen2_spec U fx fz hS hS'
    obtain ⟨v3, hv⟩ := frame_x U v1 hf hV hV' hc _ rfl
    have hr : √(val v1.x ^ 2 + val v1.z ^ 2) ≠ 0 := (Real.sqrt_pos.2 (by linarith)).ne'
    refine fin _ v3 ⟨-val v1.z / √(val v1.x ^ 2 + val v1.z ^ 2), 0 / √(val v1.x ^ 2 + val v1.z ^ 2),
      val v1.x / √(val v1.x ^ 2 + val v1.z ^ 2)⟩ _ hv ?_
      (by simp only [Vector3.cross, mul_ok, sub_ok, ok_bind, pure_ok]; rfl) ?_
    · simp only [Vector3.coordinateSystem, Vector3.vals, abs_ok, ok_bind, gt_exact, hc, decide_true, if_true,
        neg_ok, mul_ok, add_ok, ← pow_two, sqrt_ok (show 0 ≤ val v1.x ^ 2 + val v1.z ^ 2 by linarith), Vector3.div,
        div_ok _ hr, fromInt_cast, Int.cast_zero, pure_ok, Vector3.cross, sub_ok]
    · intro i; fin_cases i
      · have := near_unit U fx fz (fneg_finite fz) hS hS' (by rw [val_fneg, neg_sq]; linarith [sq_nonneg (val v1.x)])
        rw [val_fneg] at this
        exact this
      · show |val (fdiv z _) - 0 / _| ≤ _
        rw [(val_fdiv_zero l0 l1.ne').2, zero_div, sub_zero, abs_zero]; linarith
      · exact near_unit U fx fz fx hS hS' (by linarith [sq_nonneg (val v1.z)])
  · have hca : val v1.x ^ 2 ≤ val v1.y ^ 2 := sq_le_sq.2 (not_lt.1 hc)
    have hS : 1 / 4 ≤ val v1.y ^ 2 + val v1.z ^ 2 := by linarith [sq_nonneg (val v1.z)]
    have hS' : val v1.y ^ 2 + val v1.z ^ 2 ≤ 2 := by linarith [sq_nonneg (val v1.x)]
    obtain ⟨l0, l1, -⟩ := flen2_spec U fy fz hS hS'
    obtain ⟨v3, hv⟩ := frame_y U v1 hf hV hV' hc _ rfl
    have hr : √(val v1.y ^ 2 + val v1.z ^ 2) ≠ 0 := (Real.sqrt_pos.2 (by linarith)).ne'
    refine fin _ v3 ⟨0 / √(val v1.y ^ 2 + val v1.z ^ 2), val v1.z / √(val v1.y ^ 2 + val v1.z ^ 2),
      -val v1.y / √(val v1.y ^ 2 + val v1.z ^ 2)⟩ _ hv ?_
      (by simp only [Vector3.cross, mul_ok, sub_ok, ok_bind, pure_ok]; rfl) ?_
    · simp only [Vector3.coordinateSystem, Vector3.vals, abs_ok, ok_bind, gt_exact, hc, decide_false,
        Bool.false_eq_true, if_false,
        neg_ok, mul_ok, add_ok, ← pow_two, sqrt_ok (show 0 ≤ val v1.y ^ 2 + val v1.z ^ 2 by linarith), Vector3.div,
        div_ok _ hr, fromInt_cast, Int.cast_zero, pure_ok, Vector3.cross, sub_ok]
    · intro i; fin_cases i
      · show |val (fdiv z _) - 0 / _| ≤ _
        rw [(val_fdiv_zero l0 l1.ne').2, zero_div, sub_zero, abs_zero]; linarith
      · exact near_unit U fy fz fz hS hS' (by linarith [sq_nonneg (val v1.y)])
      · have := near_unit U fy fz (fneg_finite fy) hS hS' (by rw [val_fneg, neg_sq]; linarith [sq_nonneg (val v1.z)])
        rw [val_fneg] at this
        exact this

end

/-- **C75**: for a vector of about unit length, `coordinate_system` on `f32` returns finite vectors
    that are a frame up to rounding. -/
theorem C75_frame_f32 (v1 : Vector3 Float32.Model) (hf : ∀ i, IsFinite (v1.get i))
    (h1 : 1 / 2 ≤ ∑ i, val (v1.get i) ^ 2) (h2 : ∑ i, val (v1.get i) ^ 2 ≤ 2) :
    ∃ v2 v3, v1.coordinateSystem = .ok (v2, v3) ∧ NearFrame v1 v2 v3 := near_frame usual32 v1 hf h1 h2

/-- **C75**: the same for `f64`. -/
theorem C75_frame_f64 (v1 : Vector3 Float.Model) (hf : ∀ i, IsFinite (v1.get i))
    (h1 : 1 / 2 ≤ ∑ i, val (v1.get i) ^ 2) (h2 : ∑ i, val (v1.get i) ^ 2 ≤ 2) :
    ∃ v2 v3, v1.coordinateSystem = .ok (v2, v3) ∧ NearFrame v1 v2 v3 := near_frame usual64 v1 hf h1 h2

/-- **C75**: the frame of `f32` is near the frame of real arithmetic (which C55 shows to be one). -/
theorem C75_exact_f32 (v1 : Vector3 Float32.Model) (hf : ∀ i, IsFinite (v1.get i))
    (h1 : 1 / 2 ≤ ∑ i, val (v1.get i) ^ 2) (h2 : ∑ i, val (v1.get i) ^ 2 ≤ 2) :
    ∃ v2 v3 : Vector3 Float32.Model, ∃ w2 w3 : Vector3 ℝ, v1.coordinateSystem = .ok (v2, v3) ∧
      v1.vals.coordinateSystem = .ok (w2, w3) ∧
      ∀ i, |val (v2.get i) - w2.get i| ≤ 4 * 2 ^ (-24 : ℤ) ∧ |val (v3.get i) - w3.get i| ≤ 14 * 2 ^ (-24 : ℤ) :=
  near_exact usual32 v1 hf h1 h2

/-- **C75**: the same for `f64`. -/
theorem C75_exact_f64 (v1 : Vector3 Float.Model) (hf : ∀ i, IsFinite (v1.get i))
    (h1 : 1 / 2 ≤ ∑ i, val (v1.get i) ^ 2) (h2 : ∑ i, val (v1.get i) ^ 2 ≤ 2) :
    ∃ v2 v3 : Vector3 Float.Model, ∃ w2 w3 : Vector3 ℝ, v1.coordinateSystem = .ok (v2, v3) ∧
      v1.vals.coordinateSystem = .ok (w2, w3) ∧
      ∀ i, |val (v2.get i) - w2.get i| ≤ 4 * 2 ^ (-53 : ℤ) ∧ |val (v3.get i) - w3.get i| ≤ 14 * 2 ^ (-53 : ℤ) :=
  near_exact usual64 v1 hf h1 h2

open UnitTests in
-- a vector of about unit length, `(3, 4, -12) / 13` rounded
example :
    let v1 : Vector3 Float32.Model := ⟨fdiv (f32 3) (f32 13), fdiv (f32 4) (f32 13), fdiv (f32 (-12)) (f32 13)⟩
    (∀ i, IsFinite (v1.get i)) ∧ 1 / 2 ≤ ∑ i, val (v1.get i) ^ 2 ∧ ∑ i, val (v1.get i) ^ 2 ≤ 2 := by
  intro v1
  refine ⟨by decide +kernel, ?_⟩
  have h : ∀ i, val (v1.get i) = (ratVal (up (v1.get i)) : ℝ) := fun i => val_eq (v1.get i)
  simp only [h, Fin.sum_univ_three, show (1 / 2 : ℝ) = ((1 / 2 : ℚ) : ℝ) by norm_num]
  exact_mod_cast (by decide +kernel : (1 / 2 : ℚ) ≤ ratVal (up (v1.get 0)) ^ 2 + ratVal (up (v1.get 1)) ^ 2 +
    ratVal (up (v1.get 2)) ^ 2 ∧ ratVal (up (v1.get 0)) ^ 2 + ratVal (up (v1.get 1)) ^ 2 +
    ratVal (up (v1.get 2)) ^ 2 ≤ 2)

/-- **C75**, where floats differ from real numbers: the squares of a short vector underflow, and the
    result is not finite, though a non-zero vector has a frame. -/
theorem C75_short_refuted : ∃ v1 v2 v3 : Vector3 Float32.Model, (∀ i, IsFinite (v1.get i)) ∧
    (∃ i, ¬ Same (v1.get i) (f32 0)) ∧ v1.coordinateSystem = .ok (v2, v3) ∧ ∃ i, ¬ IsFinite (v2.get i) := by
  refine ⟨⟨fdiv (f32 1) (f32 (2 ^ 100)), f32 0, f32 0⟩, ⟨nan32, nan32, inf32⟩, ⟨nan32, nan32, nan32⟩, ?_⟩
  decide +kernel

/-- **C75**: the squares of a long vector overflow, and the result is the zero vector. -/
theorem C75_long_refuted : ∃ v1 v2 v3 : Vector3 Float32.Model, (∀ i, IsFinite (v1.get i)) ∧
    v1.coordinateSystem = .ok (v2, v3) ∧ ∀ i, Same (v2.get i) (f32 0) := by
  refine ⟨⟨f32 (2 ^ 100), f32 0, f32 1⟩, ⟨.pack (.zero .negative), f32 0, f32 0⟩, ⟨f32 0, .pack (.zero .negative), f32 0⟩, ?_⟩
  decide +kernel

end Pbrt
