import Verif.Spec.Nan
import Verif.Proof.Mirror
import Verif.Props.FloorCeil
import Mathlib.Tactic.Tauto

/-!
# C114: where NaN goes
-/

namespace Pbrt

open Spec
open Float.Model (UnpackedFloat Format)

section
variable {T : Type} [Elem T] [As T T] [FloatFns T] [IEEE T]

local notation "𝔽" => IEEE.fmt T
local notation "z" => (Elem.fromInt 0 : T)
local notation "o" => (Elem.fromInt 1 : T)

attribute [local instance] ieee_lawful

/-! ### Operations -/

theorem isNan_up {a : T} : IsNan a ↔ up a = .notANumber := nan_iff' a

theorem isNan_not {a : T} : IsNan a ↔ ¬ Elem.isNan a = false := by simp [IsNan]

theorem over_nan {fmt : Format} {u : UnpackedFloat} : over fmt u = .notANumber ↔ u = .notANumber := by
  cases u <;> simp only [over, reduceCtorEq]
  split <;> simp

theorem nan_fadd_iff {a b : T} : IsNan (fadd a b) ↔ IsNan a ∨ IsNan b ∨ (ext a = ⊤ ∧ ext b = ⊥) ∨ (ext a = ⊥ ∧ ext b = ⊤) := by
  rw [isNan_not, fadd_notNan_iff, isNan_not, isNan_not]
  tauto

theorem nan_fsub_iff {a b : T} : IsNan (fsub a b) ↔ IsNan a ∨ IsNan b ∨ (ext a = ⊤ ∧ ext b = ⊤) ∨ (ext a = ⊥ ∧ ext b = ⊥) := by
  rw [fsub_eq_add, nan_fadd_iff, ext_fneg, EReal.neg_eq_bot_iff, EReal.neg_eq_top_iff]
  unfold IsNan
  rw [nan_fneg]

theorem nan_fmul_iff {a b : T} : IsNan (fmul a b) ↔ IsNan a ∨ IsNan b ∨ (ext a = 0 ∧ (ext b = ⊤ ∨ ext b = ⊥)) ∨
    ((ext a = ⊤ ∨ ext a = ⊥) ∧ ext b = 0) := by
  rw [isNan_not, fmul_notNan_iff, isNan_not, isNan_not]
  tauto

theorem ext_zero_up {a : T} (h : ¬ IsNan a) : ext a = 0 ↔ ∃ s, up a = .zero s := by
  rw [isNan_up] at h
  constructor
  · intro h0
    have hf := finite_of_ext ((nan_iff a).2 h) (x := 0) h0
    exact isZero_iff.2 hf
  · rintro ⟨s, hs⟩
    unfold ext
    rw [hs]
    simp [uext, uval]

theorem roundWithAccuracy_ne {fmt : Format} {s : UnpackedFloat.Sign} {m : Nat} {e : Int} {acc} :
    UnpackedFloat.roundWithAccuracy fmt s m e acc ≠ .notANumber := by
  simp only [UnpackedFloat.roundWithAccuracy]
  split <;> simp

theorem nan_fdiv_iff {a b : T} : IsNan (fdiv a b) ↔ IsNan a ∨ IsNan b ∨ (ext a = 0 ∧ ext b = 0) ∨
    ((ext a = ⊤ ∨ ext a = ⊥) ∧ (ext b = ⊤ ∨ ext b = ⊥)) := by
  by_cases ha : IsNan a
  · simp only [ha, true_or, iff_true]
    rw [isNan_up] at *
    rw [up_fdiv, ha]
    rfl
  by_cases hb : IsNan b
  · simp only [hb, true_or, or_true, iff_true]
    rw [isNan_up] at *
    rw [up_fdiv, hb]
    cases up a <;> rfl
  simp only [ha, hb, false_or]
  rw [ext_zero_up ha, ext_zero_up hb, ext_top_iff, ext_top_iff, ext_bot_iff, ext_bot_iff]
  rw [isNan_up] at *
  rw [up_fdiv, over_nan]
  cases h1 : up a with
  | notANumber => exact absurd h1 ha
  | infinity s =>
    cases h2 : up b with
    | notANumber => exact absurd h2 hb
    | infinity t => cases s <;> cases t <;> simp [UnpackedFloat.div]
    | zero t => simp [UnpackedFloat.div]
    | finite t m e hm => simp [UnpackedFloat.div]
  | zero s =>
    cases h2 : up b with
    | notANumber => exact absurd h2 hb
    | infinity t => simp [UnpackedFloat.div]
    | zero t => simp [UnpackedFloat.div]
    | finite t m e hm => simp [UnpackedFloat.div]
  | finite s m e hm =>
    cases h2 : up b with
    | notANumber => exact absurd h2 hb
    | infinity t => simp [UnpackedFloat.div]
    | zero t => simp [UnpackedFloat.div]
    | finite t m e hm => simp [UnpackedFloat.div, roundWithAccuracy_ne]

theorem nan_fsqrt_iff {a : T} : IsNan (fsqrt a) ↔ IsNan a ∨ ext a < 0 := by
  by_cases ha : IsNan a
  · simp only [ha, true_or, iff_true]
    rw [isNan_up] at *
    rw [up_fsqrt, ha]
    rfl
  simp only [ha, false_or]
  rw [isNan_up] at *
  rw [up_fsqrt, over_nan]
  unfold ext
  cases h1 : up a with
  | notANumber => exact absurd h1 ha
  | infinity s => cases s <;> simp [UnpackedFloat.sqrt, uext]
  | zero s => simp [UnpackedFloat.sqrt, uext, uval]
  | finite s m e hm =>
    have hp : (0 : ℝ) < m * 2 ^ e := mul_pos (by exact_mod_cast hm) (two_zpow_pos e)
    cases s with
    | positive =>
      have : ¬ (((m * 2 ^ e : ℝ) : EReal) < 0) := by
        rw [not_lt]
        exact_mod_cast hp.le
      simpa [UnpackedFloat.sqrt, uext, uval, UnpackedFloat.Sign.apply, roundWithAccuracy_ne] using this
    | negative =>
      have : ((-(m * 2 ^ e) : ℝ) : EReal) < 0 := by
        exact_mod_cast neg_neg_of_pos hp
      simpa [UnpackedFloat.sqrt, uext, uval, UnpackedFloat.Sign.apply] using this

theorem nan_fneg_iff {a : T} : IsNan (fneg a) ↔ IsNan a := by unfold IsNan; rw [nan_fneg]
theorem nan_fabs_iff {a : T} : IsNan (fabs a) ↔ IsNan a := by unfold IsNan; rw [nan_fabs]

theorem nan_floor_iff {a : T} : IsNan (FloatFns.floor a) ↔ IsNan a := by
  by_cases h : IsFinite a
  · simp [IsNan, h.notNan, ((C66_floor a).1 h).1.notNan]
  · rw [(C66_floor a).2 h]

theorem nan_ceil_iff {a : T} : IsNan (FloatFns.ceil a) ↔ IsNan a := by
  by_cases h : IsFinite a
  · simp [IsNan, h.notNan, ((C66_ceil a).1 h).1.notNan]
  · rw [(C66_ceil a).2 h]

/-- **C114**, one operation: the result is NaN exactly if an operand is, or if there is no such number:
    the sum of opposite infinities, zero times infinity, zero by zero, infinity by infinity, the root of
    a negative number. -/
theorem C114_operations (a b : T) :
    Gives (Elem.add a b) (fun c => IsNan c ↔ IsNan a ∨ IsNan b ∨ (uext (up a) = ⊤ ∧ uext (up b) = ⊥) ∨
      (uext (up a) = ⊥ ∧ uext (up b) = ⊤)) ∧
    Gives (Elem.sub a b) (fun c => IsNan c ↔ IsNan a ∨ IsNan b ∨ (uext (up a) = ⊤ ∧ uext (up b) = ⊤) ∨
      (uext (up a) = ⊥ ∧ uext (up b) = ⊥)) ∧
    Gives (Elem.mul a b) (fun c => IsNan c ↔ IsNan a ∨ IsNan b ∨
      (uext (up a) = 0 ∧ (uext (up b) = ⊤ ∨ uext (up b) = ⊥)) ∨
      ((uext (up a) = ⊤ ∨ uext (up a) = ⊥) ∧ uext (up b) = 0)) ∧
    Gives (Elem.div a b) (fun c => IsNan c ↔ IsNan a ∨ IsNan b ∨ (uext (up a) = 0 ∧ uext (up b) = 0) ∨
      ((uext (up a) = ⊤ ∨ uext (up a) = ⊥) ∧ (uext (up b) = ⊤ ∨ uext (up b) = ⊥))) ∧
    Gives (Elem.neg a) (fun c => IsNan c ↔ IsNan a) ∧
    Gives (Elem.abs a) (fun c => IsNan c ↔ IsNan a) ∧
    Gives (FloatFns.sqrt a) (fun c => IsNan c ↔ IsNan a ∨ uext (up a) < 0) ∧
    (IsNan (FloatFns.floor a) ↔ IsNan a) ∧ (IsNan (FloatFns.ceil a) ↔ IsNan a) :=
  ⟨⟨_, fadd_ok a b, nan_fadd_iff⟩, ⟨_, fsub_ok a b, nan_fsub_iff⟩, ⟨_, fmul_ok a b, nan_fmul_iff⟩,
    ⟨_, fdiv_ok a b, nan_fdiv_iff⟩, ⟨_, fneg_ok a, nan_fneg_iff⟩,
    ⟨_, fabs_ok a, nan_fabs_iff⟩, ⟨_, fsqrt_ok a, nan_fsqrt_iff⟩, nan_floor_iff, nan_ceil_iff⟩

theorem nal {a b : T} (h : IsNan a) : IsNan (fadd a b) := nan_fadd_iff.2 (.inl h)
theorem nar {a b : T} (h : IsNan b) : IsNan (fadd a b) := nan_fadd_iff.2 (.inr (.inl h))
theorem nsl {a b : T} (h : IsNan a) : IsNan (fsub a b) := nan_fsub_iff.2 (.inl h)
theorem nsr {a b : T} (h : IsNan b) : IsNan (fsub a b) := nan_fsub_iff.2 (.inr (.inl h))
theorem nml {a b : T} (h : IsNan a) : IsNan (fmul a b) := nan_fmul_iff.2 (.inl h)
theorem nmr {a b : T} (h : IsNan b) : IsNan (fmul a b) := nan_fmul_iff.2 (.inr (.inl h))
theorem ndl {a b : T} (h : IsNan a) : IsNan (fdiv a b) := nan_fdiv_iff.2 (.inl h)
theorem ndr {a b : T} (h : IsNan b) : IsNan (fdiv a b) := nan_fdiv_iff.2 (.inr (.inl h))
theorem nn {a : T} (h : IsNan a) : IsNan (fneg a) := by unfold IsNan; rw [nan_fneg]; exact h
theorem nab {a : T} (h : IsNan a) : IsNan (fabs a) := by unfold IsNan; rw [nan_fabs]; exact h
theorem nsq {a : T} (h : IsNan a) : IsNan (fsqrt a) := nan_fsqrt_iff.2 (.inl h)
theorem nfl {a : T} (h : IsNan a) : IsNan (FloatFns.floor a) := nan_floor_iff.2 h
theorem nce {a : T} (h : IsNan a) : IsNan (FloatFns.ceil a) := nan_ceil_iff.2 h

/-- Finds the operations through which NaN reaches the result -/
local macro "spread" : tactic =>
  `(tactic| ((try simp only [fadd_ok, fsub_ok, fmul_ok, fdiv_ok, fneg_ok, fabs_ok, fsqrt_ok, IEEE.as_eq, ok_bind, pure_ok,
      Gives, Except.ok.injEq, exists_eq_left', forall_axis, Vector3.get, Point3.get, Normal3.get, or_imp, and_true]) <;>
    repeat' (first | apply And.intro | intro h)) <;>
    solve_by_elim (maxDepth := 12) [nal, nar, nsl, nsr, nml, nmr, ndl, ndr, nn, nab, nsq, nfl, nce])

/-! ### Vectors, normals, points -/

/-- **C114**: NaN on an axis stays on it, and a NaN factor reaches every axis. -/
theorem C114_vectors (u v : Vector3 T) (s : T) :
    Gives (u.add v) (fun w => ∀ i, IsNan (u.get i) ∨ IsNan (v.get i) → IsNan (w.get i)) ∧
    Gives (u.sub v) (fun w => ∀ i, IsNan (u.get i) ∨ IsNan (v.get i) → IsNan (w.get i)) ∧
    Gives (u.mul s) (fun w => ∀ i, IsNan (u.get i) ∨ IsNan s → IsNan (w.get i)) ∧
    Gives (u.div s) (fun w => ∀ i, IsNan (u.get i) ∨ IsNan s → IsNan (w.get i)) ∧
    Gives u.neg (fun w => ∀ i, IsNan (u.get i) → IsNan (w.get i)) := by
  simp only [Vector3.add, Vector3.sub, Vector3.mul, Vector3.div, Vector3.neg]
  spread

/-- **C114**, normals -/
theorem C114_normals (u v : Normal3 T) (s : T) :
    Gives (u.add v) (fun w => ∀ i, IsNan (u.get i) ∨ IsNan (v.get i) → IsNan (w.get i)) ∧
    Gives (u.sub v) (fun w => ∀ i, IsNan (u.get i) ∨ IsNan (v.get i) → IsNan (w.get i)) ∧
    Gives (u.mul s) (fun w => ∀ i, IsNan (u.get i) ∨ IsNan s → IsNan (w.get i)) ∧
    Gives (u.div s) (fun w => ∀ i, IsNan (u.get i) ∨ IsNan s → IsNan (w.get i)) ∧
    Gives u.neg (fun w => ∀ i, IsNan (u.get i) → IsNan (w.get i)) := by
  simp only [Normal3.add, Normal3.sub, Normal3.mul, Normal3.div, Normal3.neg]
  spread

/-- **C114**, points -/
theorem C114_points (p q : Point3 T) (v : Vector3 T) (s : T) :
    Gives (p.add v) (fun w => ∀ i, IsNan (p.get i) ∨ IsNan (v.get i) → IsNan (w.get i)) ∧
    Gives (p.subVec v) (fun w => ∀ i, IsNan (p.get i) ∨ IsNan (v.get i) → IsNan (w.get i)) ∧
    Gives (p.sub q) (fun w => ∀ i, IsNan (p.get i) ∨ IsNan (q.get i) → IsNan (w.get i)) ∧
    Gives (p.mul s) (fun w => ∀ i, IsNan (p.get i) ∨ IsNan s → IsNan (w.get i)) ∧
    Gives (p.div s) (fun w => ∀ i, IsNan (p.get i) ∨ IsNan s → IsNan (w.get i)) ∧
    Gives p.abs (fun w => ∀ i, IsNan (p.get i) → IsNan (w.get i)) ∧
    Gives (Point3.lerp s p q) (fun w => ∀ i, IsNan (p.get i) ∨ IsNan (q.get i) ∨ IsNan s → IsNan (w.get i)) ∧
    (∀ i, IsNan (p.get i) → IsNan (p.floor.get i) ∧ IsNan (p.ceil.get i)) := by
  simp only [Point3.add, Point3.subVec, Point3.sub, Point3.mul, Point3.div, Point3.abs, Point3.lerp, Point3.floor,
    Point3.ceil]
  spread

/-- **C114**: one NaN component makes the products and the length NaN. -/
theorem C114_products (u v : Vector3 T) :
    Gives (u.dot v) (fun c => ∀ i, IsNan (u.get i) ∨ IsNan (v.get i) → IsNan c) ∧
    Gives u.lenSq (fun c => ∀ i, IsNan (u.get i) → IsNan c) ∧
    Gives (u.len : Outcome T) (fun c => ∀ i, IsNan (u.get i) → IsNan c) ∧
    Gives (u.cross v) (fun w => ∀ i j, i ≠ j → IsNan (u.get j) ∨ IsNan (v.get j) → IsNan (w.get i)) := by
  simp only [Vector3.dot, Vector3.lenSq, Vector3.len, Vector3.cross, ne_eq]
  spread

/-- **C114**, normals -/
theorem C114_products_normal (u v : Normal3 T) :
    Gives (u.dot v) (fun c => ∀ i, IsNan (u.get i) ∨ IsNan (v.get i) → IsNan c) ∧
    Gives u.lenSq (fun c => ∀ i, IsNan (u.get i) → IsNan c) ∧
    Gives (u.len : Outcome T) (fun c => ∀ i, IsNan (u.get i) → IsNan c) ∧
    Gives (u.cross v) (fun w => ∀ i j, i ≠ j → IsNan (u.get j) ∨ IsNan (v.get j) → IsNan (w.get i)) := by
  simp only [Normal3.dot, Normal3.lenSq, Normal3.len, Normal3.cross, ne_eq]
  spread

/-! ### Transforms -/

/-- **C114**: one NaN component makes the whole transformed vector NaN, even with the identity; so does
    a NaN in the row of the matrix for the component of this row. -/
theorem C114_transform (v : Vector3 T) (t : Transform T) :
    Gives (v.transform t : Outcome (Vector3 T)) (fun w =>
      (∀ i j, IsNan (v.get j) → IsNan (w.get i)) ∧
      ∀ i : Fin 3, ∀ j : Fin 3, IsNan (t.m.mat i.castSucc j.castSucc) → IsNan (w.get i)) := by
  simp only [Vector3.transform]
  spread

/-- **C114**: NaN in a matrix stays at its place in sums, reaches its row in products from the left and
    its column in products from the right, and is not lost by `transpose`. -/
theorem C114_matrices (a b : Matrix4 T) :
    Gives (a.add b) (fun m => ∀ r c, IsNan (a.mat r c) ∨ IsNan (b.mat r c) → IsNan (m.mat r c)) ∧
    Gives (a.mul b) (fun m => (∀ r k c, IsNan (a.mat r k) → IsNan (m.mat r c)) ∧
      ∀ r k c, IsNan (b.mat k c) → IsNan (m.mat r c)) ∧
    ∀ r c, a.transpose.mat c r = a.mat r c := by
  refine ⟨⟨⟨fun r c => fadd (a.mat r c) (b.mat r c)⟩, ?_, fun r c h => h.elim nal nar⟩,
    ⟨_, fmul_mat a b, ?_, ?_⟩, ?_⟩
  · unfold Matrix4.add
    rw [fill_iff.2 fun r c => fadd_ok _ _]
    rfl
  · intro r k c h
    unfold fdot4
    fin_cases k <;> simp only [Fin.isValue, Fin.zero_eta, Fin.mk_one, Fin.reduceFinMk] at h <;> spread
  · intro r k c h
    unfold fdot4
    fin_cases k <;> simp only [Fin.isValue, Fin.zero_eta, Fin.mk_one, Fin.reduceFinMk] at h <;> spread
  · intro r c
    fin_cases r <;> fin_cases c <;> rfl

theorem nan_feliminated (W : Mat44 T) (c : Fin 4) (h : ∃ r k, IsNan (W r k)) :
    ∃ r k, IsNan (feliminated W c r k) := by
  obtain ⟨r, k, h⟩ := h
  by_cases hr : r = c
  · subst hr
    refine ⟨r, k, ?_⟩
    unfold feliminated pivotRow
    by_cases hk : k = r
    · subst hk
      simp only [if_true]
      spread
    · simp only [if_true, hk, if_false]
      spread
  · refine ⟨r, k, ?_⟩
    unfold feliminated
    by_cases hk : k = c
    · subst hk
      simp only [if_true, hr, if_false]
      spread
    · simp only [hr, hk, if_false]
      spread

theorem nan_invStep (i : Fin 4) (s s' : InvState T) (h : ∃ r k, IsNan (s.minv r k)) (hs : invStep i s = .ok s') :
    ∃ r k, IsNan (s'.minv r k) := by
  cases hp : choosePivot s.ipiv s.minv with
  | error e =>
    unfold invStep at hs
    rw [hp] at hs
    cases hs
  | ok p =>
    rw [invStep_pivot i s p hp] at hs
    split at hs
    · cases hs
    · injection hs with hs
      subst hs
      refine nan_feliminated _ _ ?_
      obtain ⟨r, k, h⟩ := h
      exact ⟨Equiv.swap p.irow p.icol r, k, by rw [Equiv.swap_apply_self]; exact h⟩

/-- **C114**: the inverse of a matrix with NaN in it does not hide that: `inverse` panics, or the result
    has NaN in it. -/
theorem C114_inverse (a b : Matrix4 T) (h : NanIn a) (hb : (a.inverse : Outcome (Matrix4 T)) = .ok b) : NanIn b := by
  unfold Matrix4.inverse at hb
  simp only at hb
  obtain ⟨s, hs, hb⟩ := bind_eq_ok.1 hb
  have h0 : ∃ r k, IsNan ((toMat4f a : Matrix4 T).mat r k) := by
    obtain ⟨r, k, h⟩ := h
    exact ⟨r, k, by unfold toMat4f; simp only [IEEE.as_eq]; exact h⟩
  rw [for4_eq] at hs
  obtain ⟨s1, h1, hs⟩ := bind_eq_ok.1 hs
  obtain ⟨s2, h2, hs⟩ := bind_eq_ok.1 hs
  obtain ⟨s3, h3, h4⟩ := bind_eq_ok.1 hs
  have k1 := nan_invStep 0 _ s1 h0 h1
  have k2 := nan_invStep 1 _ s2 k1 h2
  have k3 := nan_invStep 2 _ s3 k2 h3
  have k4 := nan_invStep 3 _ s k3 h4
  rw [for4rev_ok fun j m => swapCols_value m (s.indxr j) (s.indxc j), ok_bind] at hb
  injection hb with hb
  subst hb
  obtain ⟨r, k, h⟩ := k4
  refine ⟨r, Equiv.swap (s.indxr 0) (s.indxc 0) (Equiv.swap (s.indxr 1) (s.indxc 1)
    (Equiv.swap (s.indxr 2) (s.indxc 2) (Equiv.swap (s.indxr 3) (s.indxc 3) k))), ?_⟩
  simpa using h

/-- **C114**: likewise for `Transform::new_`; `scale` and `translate` keep NaN in both matrices. -/
theorem C114_transforms (a : Matrix4 T) (x y w : T) (t : Transform T) :
    (NanIn a → Transform.new_ a = .ok t → NanIn t.m ∧ NanIn t.mInv) ∧
    (IsNan x ∨ IsNan y ∨ IsNan w → Transform.scale x y w = .ok t → NanIn t.m ∧ NanIn t.mInv) ∧
    (IsNan x ∨ IsNan y ∨ IsNan w → Transform.translate ⟨x, y, w⟩ = .ok t → NanIn t.m ∧ NanIn t.mInv) := by
  refine ⟨fun h ht => ?_, fun h ht => ?_, fun h ht => ?_⟩
  · obtain ⟨b, hb, ht⟩ := bind_eq_ok.1 ht
    injection ht with ht
    subst ht
    exact ⟨h, C114_inverse a b h hb⟩
  · simp only [Transform.scale, fdiv_ok, ok_bind, pure_ok, Except.ok.injEq] at ht
    subst ht
    rcases h with h | h | h
    · exact ⟨⟨0, 0, h⟩, ⟨0, 0, ndr (b := x) h⟩⟩
    · exact ⟨⟨1, 1, h⟩, ⟨1, 1, ndr (b := y) h⟩⟩
    · exact ⟨⟨2, 2, h⟩, ⟨2, 2, ndr (b := w) h⟩⟩
  · simp only [Transform.translate, fneg_ok, ok_bind, pure_ok, Except.ok.injEq] at ht
    subst ht
    rcases h with h | h | h
    · exact ⟨⟨0, 3, h⟩, ⟨0, 3, nn h⟩⟩
    · exact ⟨⟨1, 3, h⟩, ⟨1, 3, nn h⟩⟩
    · exact ⟨⟨2, 3, h⟩, ⟨2, 3, nn h⟩⟩

/-! ### Boxes and rays -/

/-- **C114**: NaN in a corner is seen in the diagonal, the surface area, the volume, in interpolated points
    and, if it is in the lower corner or in the point, in the offset. -/
theorem C114_boxes (b : Bounds3 T) (p : Point3 T) :
    Gives b.diagonal (fun w => ∀ i, IsNan (b.pMin.get i) ∨ IsNan (b.pMax.get i) → IsNan (w.get i)) ∧
    Gives b.surfaceArea (fun c => ∀ i, IsNan (b.pMin.get i) ∨ IsNan (b.pMax.get i) → IsNan c) ∧
    Gives b.volume (fun c => ∀ i, IsNan (b.pMin.get i) ∨ IsNan (b.pMax.get i) → IsNan c) ∧
    Gives (b.lerp p) (fun w => ∀ i, IsNan (b.pMin.get i) ∨ IsNan (b.pMax.get i) ∨ IsNan (p.get i) → IsNan (w.get i)) := by
  simp only [Bounds3.surfaceArea, Bounds3.volume, Bounds3.lerp, Bounds3.diagonal, Pbrt.lerp, Point3.sub]
  spread

theorem C114_offset (b : Bounds3 T) (p : Point3 T) :
    Gives (b.offset p) (fun w => ∀ i, IsNan (b.pMin.get i) ∨ IsNan (p.get i) → IsNan (w.get i)) := by
  simp only [Bounds3.offset, Point3.sub, fsub_ok, fdiv_ok, ok_bind, pure_ok]
  refine ⟨⟨if Elem.gt b.pMax.x b.pMin.x then fdiv (fsub p.x b.pMin.x) (fsub b.pMax.x b.pMin.x) else fsub p.x b.pMin.x,
    if Elem.gt b.pMax.y b.pMin.y then fdiv (fsub p.y b.pMin.y) (fsub b.pMax.y b.pMin.y) else fsub p.y b.pMin.y,
    if Elem.gt b.pMax.z b.pMin.z then fdiv (fsub p.z b.pMin.z) (fsub b.pMax.z b.pMin.z) else fsub p.z b.pMin.z⟩,
    ?_, ?_⟩
  · split_ifs <;> rfl
  · simp only [forall_axis, Vector3.get, Point3.get]
    split_ifs <;> spread

/-- **C114**, rays -/
theorem C114_rays (r : Ray T) (t : T) (d : RayDifferential T) :
    Gives (r.at t) (fun p => ∀ i, IsNan (r.o.get i) ∨ IsNan (r.d.get i) ∨ IsNan t → IsNan (p.get i)) ∧
    Gives (d.scaleDifferentials t) (fun e => ∀ i,
      (IsNan (d.ray.o.get i) ∨ IsNan (d.rxOrigin.get i) ∨ IsNan t → IsNan (e.rxOrigin.get i)) ∧
      (IsNan (d.ray.o.get i) ∨ IsNan (d.ryOrigin.get i) ∨ IsNan t → IsNan (e.ryOrigin.get i)) ∧
      (IsNan (d.ray.d.get i) ∨ IsNan (d.rxDirection.get i) ∨ IsNan t → IsNan (e.rxDirection.get i)) ∧
      (IsNan (d.ray.d.get i) ∨ IsNan (d.ryDirection.get i) ∨ IsNan t → IsNan (e.ryDirection.get i))) := by
  simp only [Ray.at, RayDifferential.scaleDifferentials, Vector3.mul, Vector3.sub, Vector3.add, Point3.add, Point3.sub]
  spread

/-- **C114**: the bounding sphere of a box with NaN in it has NaN in its centre and the radius zero. -/
theorem C114_sphere (b : Bounds3 T) :
    Gives b.boundingSphere (fun s => ∀ i, IsNan (b.pMin.get i) ∨ IsNan (b.pMax.get i) → IsNan (s.1.get i) ∧ s.2 = z) := by
  obtain ⟨sum, hs, h1⟩ : Gives (b.pMin.add (Vector3.ofPoint b.pMax)) fun p =>
      ∀ i, IsNan (b.pMin.get i) ∨ IsNan (b.pMax.get i) → IsNan (p.get i) := by
    simp only [Point3.add, Vector3.ofPoint]
    spread
  obtain ⟨c, hc, h2⟩ : Gives (sum.div (Elem.fromInt 2)) fun p => ∀ i, IsNan (sum.get i) → IsNan (p.get i) := by
    simp only [Point3.div]
    spread
  unfold Bounds3.boundingSphere
  rw [hs, ok_bind, hc, ok_bind]
  by_cases hi : b.inside c = true
  · rw [if_pos hi]
    simp only [Point3.sub, Vector3.len, Vector3.lenSq, fsub_ok, fmul_ok, fadd_ok, fsqrt_ok, ok_bind, pure_ok]
    refine ⟨_, rfl, fun i h => ?_⟩
    have := ((inside_iff b c).1 hi i).1.right
    exact absurd this (isNan_not.1 (h2 i (h1 i h)))
  · rw [if_neg hi]
    exact ⟨(c, z), rfl, fun i h => ⟨h2 i (h1 i h), rfl⟩⟩

/-! ### Tests -/

/-- **C114**: no test succeeds if a number it looks at is NaN. -/
theorem C114_tests (a b : Bounds3 T) (p : Point3 T) (m n : Matrix4 T) (i : Fin 3) :
    (IsNan (a.pMin.get i) ∨ IsNan (a.pMax.get i) ∨ IsNan (b.pMin.get i) ∨ IsNan (b.pMax.get i) → a.overlaps b = false) ∧
    (IsNan (a.pMin.get i) ∨ IsNan (a.pMax.get i) ∨ IsNan (p.get i) → a.inside p = false ∧ a.insideExclusive p = false) ∧
    (NanIn m ∨ NanIn n → m.eq n = false) := by
  refine ⟨fun h => ?_, fun h => ⟨?_, ?_⟩, fun h => ?_⟩
  · rw [← Bool.not_eq_true, overlaps_iff]
    intro hh
    have h1 := (hh i).1.left
    have h2 := (hh i).1.right
    have h3 := (hh i).2.left
    have h4 := (hh i).2.right
    simp only [isNan_not] at h
    unfold NotNan at *
    tauto
  · rw [← Bool.not_eq_true, inside_iff]
    intro hh
    have h1 := (hh i).1.left
    have h2 := (hh i).1.right
    have h4 := (hh i).2.right
    simp only [isNan_not] at h
    unfold NotNan at *
    tauto
  · rw [← Bool.not_eq_true, insideExclusive_iff]
    intro hh
    have h1 := (hh i).1.left
    have h2 := (hh i).1.right
    have h4 := (hh i).2.le.right
    simp only [isNan_not] at h
    unfold NotNan at *
    tauto
  · rw [← Bool.not_eq_true]
    intro hh
    have key : ∀ r c, Same (m.mat r c) (n.mat r c) := by
      intro r c
      simp only [Matrix4.eq, List.all_cons, List.all_nil, Bool.and_true, Bool.and_eq_true] at hh
      fin_cases r <;> fin_cases c <;> first | exact hh.1.1 | skip
      all_goals simp only [Same, Fin.isValue, Fin.zero_eta, Fin.mk_one, Fin.reduceFinMk]; tauto
    rcases h with ⟨r, c, h⟩ | ⟨r, c, h⟩
    · exact isNan_not.1 h (key r c).le.left
    · exact isNan_not.1 h (key r c).le.right

/-- **C114**: `has_nan` of a point says whether a coordinate is NaN. -/
theorem C114_has_nan (p : Point3 T) : p.hasNan = true ↔ ∃ i, IsNan (p.get i) := by
  constructor
  · intro h
    simp only [Point3.hasNan, Bool.or_eq_true] at h
    rcases h with (h | h) | h
    · exact ⟨0, h⟩
    · exact ⟨1, h⟩
    · exact ⟨2, h⟩
  · rintro ⟨i, h⟩
    revert h
    fin_cases i <;> intro h <;>
      simp only [Fin.isValue, Fin.zero_eta, Fin.mk_one, Fin.reduceFinMk, Point3.get, IsNan] at h <;>
      simp [Point3.hasNan, h]

/-! ### Least and greatest -/

theorem pmin_nan_left {a b : T} (h : IsNan a) : pminFrom a [b] = a := min2_nan_left (isNan_not.1 h)
theorem pmin_nan_right {a b : T} (h : IsNan b) : pminFrom a [b] = a := min2_nan (isNan_not.1 h)
theorem pmax_nan_left {a b : T} (h : IsNan a) : pmaxFrom a [b] = a := max2_nan_left (isNan_not.1 h)
theorem pmax_nan_right {a b : T} (h : IsNan b) : pmaxFrom a [b] = a := max2_nan (isNan_not.1 h)

/-- **C114**: the component-wise minimum and maximum keep the component of the receiver if one of the two
    is NaN: NaN in the receiver stays, NaN in the argument is ignored. -/
theorem C114_min_max (u v : Vector3 T) (p q : Point3 T) (m n : Normal3 T) :
    (∀ i, IsNan (u.get i) ∨ IsNan (v.get i) → (u.min v).get i = u.get i ∧ (u.max v).get i = u.get i) ∧
    (∀ i, IsNan (p.get i) ∨ IsNan (q.get i) → (p.min q).get i = p.get i ∧ (p.max q).get i = p.get i) ∧
    (∀ i, IsNan (m.get i) ∨ IsNan (n.get i) → (m.min n).get i = m.get i ∧ (m.max n).get i = m.get i) := by
  simp only [forall_axis, Vector3.get, Point3.get, Normal3.get, Vector3.min, Vector3.max, Point3.min, Point3.max, Normal3.min,
    Normal3.max]
  refine ⟨⟨?_, ?_, ?_⟩, ⟨?_, ?_, ?_⟩, ⟨?_, ?_, ?_⟩⟩ <;> rintro (h | h) <;>
    simp only [pmin_nan_left, pmin_nan_right, pmax_nan_left, pmax_nan_right, h, and_self]

/-- **C114**, unions and intersections: NaN in the lower corner of the receiver takes both corners with it;
    NaN in the upper corner disappears, and the box shrinks to the lower corner on that axis; NaN in the
    argument is ignored. -/
theorem C114_unions (a b : Bounds3 T) (p : Point3 T) (i : Fin 3) :
    (IsNan (a.pMin.get i) →
      (IsNan ((a.union b).pMin.get i) ∧ IsNan ((a.union b).pMax.get i)) ∧
      (IsNan ((a.unionPt p).pMin.get i) ∧ IsNan ((a.unionPt p).pMax.get i)) ∧
      (IsNan ((a.intersect b).pMin.get i) ∧ IsNan ((a.intersect b).pMax.get i))) ∧
    (IsNan (a.pMax.get i) →
      ((a.union b).pMin.get i = (a.pMin.min b.pMin).get i ∧ (a.union b).pMax.get i = (a.pMin.min b.pMin).get i) ∧
      ((a.unionPt p).pMin.get i = (a.pMin.min p).get i ∧ (a.unionPt p).pMax.get i = (a.pMin.min p).get i) ∧
      ((a.intersect b).pMin.get i = (a.pMin.max b.pMin).get i ∧ (a.intersect b).pMax.get i = (a.pMin.max b.pMin).get i)) ∧
    (IsNan (p.get i) →
      (a.unionPt p).pMin.get i = (Bounds3.new a.pMin a.pMax).pMin.get i ∧
      (a.unionPt p).pMax.get i = (Bounds3.new a.pMin a.pMax).pMax.get i) ∧
    (IsNan (b.pMin.get i) → IsNan (b.pMax.get i) →
      ((a.union b).pMin.get i = (Bounds3.new a.pMin a.pMax).pMin.get i ∧
       (a.union b).pMax.get i = (Bounds3.new a.pMin a.pMax).pMax.get i) ∧
      ((a.intersect b).pMin.get i = (Bounds3.new a.pMin a.pMax).pMin.get i ∧
       (a.intersect b).pMax.get i = (Bounds3.new a.pMin a.pMax).pMax.get i)) := by
  have e1 : a.union b = Bounds3.new (a.pMin.min b.pMin) (a.pMax.max b.pMax) := rfl
  have e2 : a.unionPt p = Bounds3.new (a.pMin.min p) (a.pMax.max p) := rfl
  have e3 : a.intersect b = Bounds3.new (a.pMin.max b.pMin) (a.pMax.min b.pMax) := rfl
  have gmin : ∀ q r : Point3 T, (q.min r).get i = min2 (q.get i) (r.get i) := by
    intro q r; fin_cases i <;> rfl
  have gmax : ∀ q r : Point3 T, (q.max r).get i = max2 (q.get i) (r.get i) := by
    intro q r; fin_cases i <;> rfl
  simp only [e1, e2, e3, new_min, new_max, gmin, gmax]
  refine ⟨fun h => ?_, fun h => ?_, fun h => ?_, fun h h' => ?_⟩
  · have h' := isNan_not.1 h
    simp only [min2_nan_left h', max2_nan_left h', h, and_self]
  · have h' := isNan_not.1 h
    simp only [min2_nan_left h', max2_nan_left h', min2_nan h', max2_nan h', and_self]
  · have h' := isNan_not.1 h
    simp only [min2_nan h', max2_nan h', and_self]
  · have h := isNan_not.1 h
    have h' := isNan_not.1 h'
    simp only [min2_nan h', max2_nan h', min2_nan h, max2_nan h, and_self]

/-- **C114**, `expand`: NaN in the lower corner or in the distance is in both corners afterwards; NaN in the
    upper corner alone disappears, and the box shrinks to its lower corner, moved down, on that axis. -/
theorem C114_expand (b : Bounds3 T) (d : T) :
    Gives (b.expand d) (fun e => ∀ i,
      (IsNan (b.pMin.get i) ∨ IsNan d → IsNan (e.pMin.get i) ∧ IsNan (e.pMax.get i)) ∧
      (IsNan (b.pMax.get i) → e.pMax.get i = e.pMin.get i ∧ e.pMin.get i = fsub (b.pMin.get i) d)) := by
  simp only [Bounds3.expand, Point3.subVec, Point3.add, fsub_ok, fadd_ok, ok_bind, pure_ok]
  refine ⟨_, rfl, fun i => ?_⟩
  rw [new_min, new_max]
  have e1 : ∀ x y w : T, Point3.get ⟨fsub x d, fsub y d, fsub w d⟩ i = fsub (Point3.get ⟨x, y, w⟩ i) d := by
    intro x y w; fin_cases i <;> rfl
  have e2 : ∀ x y w : T, Point3.get ⟨fadd x d, fadd y d, fadd w d⟩ i = fadd (Point3.get ⟨x, y, w⟩ i) d := by
    intro x y w; fin_cases i <;> rfl
  rw [e1, e2]
  constructor
  · intro h
    have hh : IsNan (fsub (b.pMin.get i) d) := h.elim nsl nsr
    have h' := isNan_not.1 hh
    rw [min2_nan_left h', max2_nan_left h']
    exact ⟨hh, hh⟩
  · intro h
    have h' := isNan_not.1 (nal (b := d) h)
    rw [min2_nan h', max2_nan h']
    exact ⟨rfl, rfl⟩

end

/-! ### NaN that is lost -/

/-- **C114**, refuted: `expand` loses NaN in the upper corner; `offset` does not see it; the minimum depends
    on the order of the two; the bounding sphere has a radius that is a number. -/
theorem C114_boxes_refuted :
    (∃ e, (⟨fp 0 0 0, ⟨nan32, f32 1, f32 1⟩⟩ : Bounds3 Float32.Model).expand (f32 1) = .ok e ∧
      e.pMin.hasNan = false ∧ e.pMax.hasNan = false ∧ e.pMin.x = f32 (-1) ∧ e.pMax.x = f32 (-1)) ∧
    (⟨fp 0 0 0, ⟨nan32, f32 1, f32 1⟩⟩ : Bounds3 Float32.Model).offset (fp 3 0 1) = .ok (fv 3 0 1) ∧
    ((⟨nan32, f32 1, f32 1⟩ : Point3 Float32.Model).min (fp 0 0 0)).hasNan = true ∧
    (fp 0 0 0).min ⟨nan32, f32 1, f32 1⟩ = fp 0 0 0 ∧
    (∃ c, (⟨fp 0 0 0, ⟨nan32, f32 1, f32 1⟩⟩ : Bounds3 Float32.Model).boundingSphere = .ok (c, f32 0)) := by
  refine ⟨⟨⟨⟨f32 (-1), f32 (-1), f32 (-1)⟩, ⟨f32 (-1), f32 2, f32 2⟩⟩, by decide +kernel⟩, by decide +kernel, by decide +kernel,
    by decide +kernel, ⟨⟨nan32, (f32 1).div (f32 2), (f32 1).div (f32 2)⟩, by decide +kernel⟩⟩

/-- **C114**, refuted: the first of the two vectors of `coordinate_system` need not show a NaN. -/
theorem C114_frame_refuted :
    ∃ v w : Vector3 Float32.Model, (⟨nan32, f32 (-3), f32 4⟩ : Vector3 Float32.Model).coordinateSystem = .ok (v, w) ∧
      ¬ IsNan v.x ∧ ¬ IsNan v.y ∧ ¬ IsNan v.z := by
  refine ⟨⟨f32 0, (f32 4).div (f32 5), (f32 3).div (f32 5)⟩, ⟨(f32 (-5)), nan32, nan32⟩, ?_⟩
  decide +kernel

/-- **C114**, refuted: the identity does not return a vector with one NaN in it; the other coordinates
    become NaN as well. -/
theorem C114_identity_refuted :
    ∃ t : Transform Float32.Model, t.isIdentity = true ∧
      (⟨nan32, f32 1, f32 2⟩ : Vector3 Float32.Model).transform t = .ok ⟨nan32, nan32, nan32⟩ :=
  ⟨⟨⟨fun r c => if r = c then f32 1 else f32 0⟩, ⟨fun r c => if r = c then f32 1 else f32 0⟩⟩, by decide +kernel⟩

/-! ### Examples -/

example : IsNan (nan32.div (f32 2)) ∧ IsNan (inf32.sub inf32) ∧ IsNan (inf32.mul (f32 0)) ∧ IsNan ((f32 0).div (f32 0)) ∧
    ¬ IsNan ((f32 1).div (f32 0)) ∧ IsNan (f32 (-1)).sqrt := by decide +kernel

example : NanIn (⟨fun r c => if r = 1 ∧ c = 2 then nan32 else f32 1⟩ : Matrix4 Float32.Model) := ⟨1, 2, by decide +kernel⟩

/-- a matrix with NaN whose inverse is computed -/
example : (match ((⟨fun r c => if r = c then f32 1 else if r = 1 ∧ c = 2 then nan32 else f32 0⟩ : Matrix4 Float32.Model).inverse :
    Outcome (Matrix4 Float32.Model)) with
    | .ok b => Elem.isNan (b.mat 1 2)
    | .error _ => false) = true := by decide +kernel

end Pbrt
