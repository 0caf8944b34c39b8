import Verif.Spec.Builds
import Verif.Spec.Samples
import Verif.Proof.Exact
import Mathlib.Algebra.BigOperators.Fin


/-!
# C68: overflow checks only turn wrong answers into panics

If a debug build (overflow checks on) returns a value, then a release build (wrapping) returns the
same value, and it is the value of the same formula over the mathematical integers.
-/

namespace Pbrt

/-- **C68**: a debug build that returns, returns what a release build returns. -/
theorem C68_release : Sim I64.release where
  add a b c h := by
    have : I64.checked (a.bits.saddOverflow b.bits) (a.bits + b.bits) = .ok c := h
    rw [I64.checked_ok] at this
    rw [← this.2]; rfl
  sub a b c h := by
    have : I64.checked (a.bits.ssubOverflow b.bits) (a.bits - b.bits) = .ok c := h
    rw [I64.checked_ok] at this
    rw [← this.2]; rfl
  mul a b c h := by
    have : I64.checked (a.bits.smulOverflow b.bits) (a.bits * b.bits) = .ok c := h
    rw [I64.checked_ok] at this
    rw [← this.2]; rfl
  div a b c h := by
    have h' : (if b.bits = 0#64 then .error .divZero
      else if a.bits.sdivOverflow b.bits then .error .overflow
      else .ok ⟨a.bits.sdiv b.bits⟩ : Outcome (I64 true)) = .ok c := h
    show (if b.bits = 0#64 then .error .divZero
      else if a.bits.sdivOverflow b.bits then .error .overflow
      else .ok ⟨a.bits.sdiv b.bits⟩ : Outcome (I64 false)) = .ok ⟨c.bits⟩
    split_ifs at h' ⊢
    rw [← Except.ok.inj h']
  neg a c h := by
    have : I64.checked (a.bits.negOverflow) (-a.bits) = .ok c := h
    rw [I64.checked_ok] at this
    rw [← this.2]; rfl
  abs a c h := by
    have : I64.checked (a.bits.negOverflow) a.bits.abs = .ok c := h
    rw [I64.checked_ok] at this
    rw [← this.2]; rfl
  lt _ _ := rfl
  le _ _ := rfl
  eq a b := by
    cases a; cases b
    simp [Elem.eq, I64.release]
  isNan _ := rfl
  fromInt _ _ _ := rfl

theorem I64.div_checked {a b c : I64 true} (h : Elem.div a b = .ok c) :
    b.toInt ≠ 0 ∧ c.toInt = a.toInt.tdiv b.toInt := by
  simp only [Elem.div] at h
  split_ifs at h with h1 h2
  have hb : b.toInt ≠ 0 := by
    intro hc
    exact h1 (BitVec.toInt_inj.1 (by simpa [I64.toInt] using hc))
  refine ⟨hb, ?_⟩
  rw [← Except.ok.inj h]
  show (a.bits.sdiv b.bits).toInt = _
  rw [BitVec.toInt_sdiv_of_ne_or_ne]
  · rfl
  · by_contra hc
    push Not at hc
    apply h2
    rw [hc.1, hc.2]
    decide

theorem I64.abs_checked {a c : I64 true} (h : Elem.abs a = .ok c) : c.toInt = |a.toInt| := by
  have : I64.checked (a.bits.negOverflow) a.bits.abs = .ok c := h
  rw [I64.checked_ok] at this
  rw [← this.2]
  show a.bits.abs.toInt = |a.bits.toInt|
  have hn : a.bits ≠ BitVec.intMin 64 := by
    intro hc
    have := this.1
    rw [hc] at this
    exact absurd this (by decide)
  rw [BitVec.toInt_abs_eq_natAbs_of_ne_intMin hn]
  simp

/-- **C68**: a debug build that returns, returns the exact integer. -/
theorem C68_exact : Sim (I64.toInt (checks := true)) where
  add _ _ _ h := congrArg _ (I64.add_checked.1 h)
  sub _ _ _ h := congrArg _ (I64.sub_checked.1 h)
  mul _ _ _ h := congrArg _ (I64.mul_checked.1 h)
  div _ _ _ h := by
    obtain ⟨h1, h2⟩ := I64.div_checked h
    show (if _ = 0 then _ else _) = _
    rw [if_neg h1, h2]
  neg _ _ h := congrArg _ (I64.neg_checked.1 h)
  abs _ _ h := congrArg _ (I64.abs_checked h).symm
  lt a b := rfl
  le a b := rfl
  eq a b := by
    simp only [Elem.eq, decide_eq_decide]
    exact ⟨I64.ext', fun h => by rw [h]⟩
  isNan _ := rfl
  fromInt i h h' := by
    obtain rfl | rfl | rfl : i = 0 ∨ i = 1 ∨ i = 2 := by omega
    all_goals decide

section
variable {α β γ δ : Type}

theorem Follows.pure (f : α → β) (a : α) : Follows f (Pure.pure a : Outcome α) (Pure.pure (f a)) := by
  rintro c h
  rw [pure_ok, Except.ok.injEq] at h
  rw [h, pure_ok]

theorem Follows.ok {f : α → β} {a : α} {b : β} (h : f a = b) :
    Follows f (.ok a : Outcome α) (.ok b) := by
  rintro c h'
  rw [← Except.ok.inj h', h]

theorem Follows.bind {f : α → β} {g : γ → δ} {x : Outcome α} {y : Outcome β} {k : α → Outcome γ}
    {l : β → Outcome δ} (h : Follows f x y) (hk : ∀ a, Follows g (k a) (l (f a))) :
    Follows g (x >>= k) (y >>= l) := by
  intro c hc
  obtain ⟨a, ha, hc⟩ := bind_eq_ok.1 hc
  rw [h a ha, ok_bind]
  exact hk a c hc

theorem Follows.error {g : γ → δ} {e : Panic} {y : Outcome δ} : Follows g (.error e) y := by
  intro c h; cases h

theorem Follows.ite {g : γ → δ} {b b' : Bool} {x x' : Outcome γ} {y y' : Outcome δ} (hb : b' = b)
    (h : Follows g x y) (h' : Follows g x' y') :
    Follows g (if b then x else x') (if b' then y else y') := by
  subst hb
  cases b' <;> assumption
end

theorem Follows.for4 {S S' : Type} {g : S → S'} {k : Fin 4 → S → Outcome S} {l : Fin 4 → S' → Outcome S'}
    (h : ∀ i s, Follows g (k i s) (l i (g s))) (s : S) :
    Follows g (Pbrt.for4 s k) (Pbrt.for4 (g s) l) := by
  unfold Pbrt.for4
  generalize ([0, 1, 2, 3] : List (Fin 4)) = L
  induction L generalizing s with
  | nil => exact Follows.pure g s
  | cons i L ih =>
    rw [List.foldlM_cons, List.foldlM_cons]
    exact Follows.bind (h i s) fun s => ih s

section
variable {T T' : Type} [Elem T] [Elem T'] {f : T → T'} (hf : Sim f)
include hf

theorem Sim.gt (a b : T) : Elem.gt (f a) (f b) = Elem.gt a b := hf.lt b a
theorem Sim.ge (a b : T) : Elem.ge (f a) (f b) = Elem.ge a b := hf.le b a

theorem Sim.pminFrom (a : T) (l : List T) : pminFrom (f a) (l.map f) = f (Pbrt.pminFrom a l) := by
  induction l generalizing a with
  | nil => rfl
  | cons b l ih =>
    simp only [Pbrt.pminFrom, List.map_cons, hf.lt]
    rw [← ih]
    split_ifs <;> rfl

theorem Sim.pmaxFrom (a : T) (l : List T) : pmaxFrom (f a) (l.map f) = f (Pbrt.pmaxFrom a l) := by
  induction l generalizing a with
  | nil => rfl
  | cons b l ih =>
    simp only [Pbrt.pmaxFrom, List.map_cons, hf.gt]
    rw [← ih]
    split_ifs <;> rfl

theorem Sim.min2 (a b : T) : Pbrt.pminFrom (f a) [f b] = f (Pbrt.pminFrom a [b]) := hf.pminFrom a [b]
theorem Sim.max2 (a b : T) : Pbrt.pmaxFrom (f a) [f b] = f (Pbrt.pmaxFrom a [b]) := hf.pmaxFrom a [b]

/-- Goes through the binds of both programs at once. -/
local macro "follow" : tactic => `(tactic|
  repeat' (first
    | exact Follows.pure _ _
    | exact hf.add _ _ | exact hf.sub _ _ | exact hf.mul _ _ | exact hf.div _ _
    | exact hf.neg _ | exact hf.abs _
    | (refine Follows.bind (hf.add _ _) ?_; intro _)
    | (refine Follows.bind (hf.sub _ _) ?_; intro _)
    | (refine Follows.bind (hf.mul _ _) ?_; intro _)
    | (refine Follows.bind (hf.div _ _) ?_; intro _)
    | (refine Follows.bind (hf.neg _) ?_; intro _)
    | (refine Follows.bind (hf.abs _) ?_; intro _)))

/-- **C68** for vectors. -/
theorem C68_vector (u v : Vector3 T) (s : T) :
    Follows (Vector3.map f) (u.add v) ((u.map f).add (v.map f)) ∧
    Follows (Vector3.map f) (u.sub v) ((u.map f).sub (v.map f)) ∧
    Follows (Vector3.map f) u.neg (u.map f).neg ∧
    Follows (Vector3.map f) (u.mul s) ((u.map f).mul (f s)) ∧
    Follows (Vector3.map f) (u.div s) ((u.map f).div (f s)) ∧
    Follows (Vector3.map f) (u.cross v) ((u.map f).cross (v.map f)) ∧
    Follows (Vector3.map f) (u.faceForward v) ((u.map f).faceForward (v.map f)) ∧
    Follows f (u.dot v) ((u.map f).dot (v.map f)) ∧
    Follows f u.lenSq (u.map f).lenSq ∧
    (u.map f).min (v.map f) = (u.min v).map f ∧ (u.map f).max (v.map f) = (u.max v).map f ∧
    (u.map f).minComponent = f u.minComponent ∧ (u.map f).maxComponent = f u.maxComponent ∧
    (u.map f).maxDimension = u.maxDimension := by
  refine ⟨?_, ?_, ?_, ?_, ?_, ?_, ?_, ?_, ?_, ?_, ?_, ?_, ?_, ?_⟩
  · follow
  · follow
  · follow
  · follow
  · follow
  · follow
  · refine Follows.bind (f := f) ?_ ?_
    · follow
    · intro d
      refine Follows.ite ?_ ?_ (Follows.pure _ _)
      · rw [← hf.fromInt 0 (by omega) (by omega), hf.lt]
      · follow
  · follow
  · follow
  · simp [Vector3.min, Vector3.map, hf.min2]
  · simp [Vector3.max, Vector3.map, hf.max2]
  · exact hf.pminFrom _ [_, _]
  · exact hf.pmaxFrom _ [_, _]
  · simp only [Vector3.maxDimension, Vector3.map, hf.gt]

example := C68_vector C68_release (iv 1 2 3) (iv (2 ^ 62) (2 ^ 62) 6) (i64 2)

/-- **C68** for normals. -/
theorem C68_normal (u v : Normal3 T) (s : T) :
    Follows (Normal3.map f) (u.add v) ((u.map f).add (v.map f)) ∧
    Follows (Normal3.map f) (u.sub v) ((u.map f).sub (v.map f)) ∧
    Follows (Normal3.map f) u.neg (u.map f).neg ∧
    Follows (Normal3.map f) (u.mul s) ((u.map f).mul (f s)) ∧
    Follows (Normal3.map f) (u.div s) ((u.map f).div (f s)) ∧
    Follows (Normal3.map f) (u.cross v) ((u.map f).cross (v.map f)) ∧
    Follows (Normal3.map f) (u.faceForward v) ((u.map f).faceForward (v.map f)) ∧
    Follows f (u.dot v) ((u.map f).dot (v.map f)) ∧
    Follows f u.lenSq (u.map f).lenSq ∧
    (u.map f).min (v.map f) = (u.min v).map f ∧ (u.map f).max (v.map f) = (u.max v).map f ∧
    (u.map f).minComponent = f u.minComponent ∧ (u.map f).maxComponent = f u.maxComponent ∧
    (u.map f).maxDimension = u.maxDimension := by
  refine ⟨?_, ?_, ?_, ?_, ?_, ?_, ?_, ?_, ?_, ?_, ?_, ?_, ?_, ?_⟩
  · follow
  · follow
  · follow
  · follow
  · follow
  · follow
  · refine Follows.bind (f := f) ?_ ?_
    · follow
    · intro d
      refine Follows.ite ?_ ?_ (Follows.pure _ _)
      · rw [← hf.fromInt 0 (by omega) (by omega), hf.lt]
      · follow
  · follow
  · follow
  · simp [Normal3.min, Normal3.map, hf.min2]
  · simp [Normal3.max, Normal3.map, hf.max2]
  · exact hf.pminFrom _ [_, _]
  · exact hf.pmaxFrom _ [_, _]
  · simp only [Normal3.maxDimension, Normal3.map, hf.gt]

example := C68_normal C68_release (⟨i64 1, i64 2, i64 3⟩ : Normal3 (I64 true)) ⟨i64 4, i64 5, i64 6⟩ (i64 2)

/-- **C68** for points. -/
theorem C68_point (p q : Point3 T) (v : Vector3 T) (p2 : Point2 T) (v2 : Vector2 T) (s : T) :
    Follows (Point3.map f) (p.add v) ((p.map f).add (v.map f)) ∧
    Follows (Point3.map f) (p.subVec v) ((p.map f).subVec (v.map f)) ∧
    Follows (Vector3.map f) (p.sub q) ((p.map f).sub (q.map f)) ∧
    Follows (Point3.map f) (p.mul s) ((p.map f).mul (f s)) ∧
    Follows (Point3.map f) (p.div s) ((p.map f).div (f s)) ∧
    Follows (Point3.map f) p.abs (p.map f).abs ∧
    Follows (Point2.map f) p2.abs (p2.map f).abs ∧
    Follows (Vector2.map f) (v2.div s) ((v2.map f).div (f s)) ∧
    Follows (Point2.map f) p.toPoint2 (p.map f).toPoint2 ∧
    (p.map f).min (q.map f) = (p.min q).map f ∧ (p.map f).max (q.map f) = (p.max q).map f := by
  refine ⟨?_, ?_, ?_, ?_, ?_, ?_, ?_, ?_, ?_, ?_, ?_⟩
  · follow
  · follow
  · follow
  · follow
  · follow
  · follow
  · follow
  · refine Follows.ite ?_ Follows.error ?_
    · rw [← hf.fromInt 0 (by omega) (by omega), hf.eq]
    · follow
  · refine Follows.ite ?_ Follows.error (Follows.ok rfl)
    simp only [Point3.hasNan, Point3.map, hf.isNan]
  · simp [Point3.min, Point3.map, hf.min2]
  · simp [Point3.max, Point3.map, hf.max2]

example := C68_point C68_release (ip 1 2 3) (ip 4 5 6) (iv (2 ^ 62) 1 1) ⟨i64 1, i64 2⟩ ⟨i64 3, i64 4⟩ (i64 2)

theorem Sim.new (p q : Point3 T) : Bounds3.new (p.map f) (q.map f) = (Bounds3.new p q).map f := by
  simp [Bounds3.new, Bounds3.map, Point3.map, hf.min2, hf.max2]

theorem Sim.diagonal (b : Bounds3 T) : Follows (Vector3.map f) b.diagonal (b.map f).diagonal :=
  (C68_point hf b.pMax b.pMin ⟨b.pMin.x, b.pMin.x, b.pMin.x⟩ ⟨b.pMin.x, b.pMin.x⟩
    ⟨b.pMin.x, b.pMin.x⟩ b.pMin.x).2.2.1

/-- **C68** for boxes. -/
theorem C68_box (a b : Bounds3 T) (p : Point3 T) (s : T) (n : Nat) :
    Follows (Bounds3.map f) (b.expand s) ((b.map f).expand (f s)) ∧
    Follows (Vector3.map f) b.diagonal (b.map f).diagonal ∧
    Follows f b.surfaceArea (b.map f).surfaceArea ∧
    Follows f b.volume (b.map f).volume ∧
    Follows id b.maximumExtent (b.map f).maximumExtent ∧
    Follows (Vector3.map f) (b.offset p) ((b.map f).offset (p.map f)) ∧
    (a.map f).union (b.map f) = (a.union b).map f ∧
    (a.map f).intersect (b.map f) = (a.intersect b).map f ∧
    (b.map f).unionPt (p.map f) = (b.unionPt p).map f ∧
    (b.map f).corner n = (b.corner n).map f ∧
    (a.map f).overlaps (b.map f) = a.overlaps b ∧
    (b.map f).inside (p.map f) = b.inside p ∧
    (b.map f).insideExclusive (p.map f) = b.insideExclusive p := by
  refine ⟨?_, hf.diagonal b, ?_, ?_, ?_, ?_, ?_, ?_, ?_, ?_, ?_, ?_, ?_⟩
  · refine Follows.bind (f := Point3.map f) ?_ fun p => Follows.bind (f := Point3.map f) ?_ fun q => ?_
    · follow
    · follow
    · rw [hf.new]
      exact Follows.pure _ _
  · refine Follows.bind (hf.diagonal b) fun d => ?_
    rw [← hf.fromInt 2 (by omega) (by omega)]
    follow
  · refine Follows.bind (hf.diagonal b) fun d => ?_
    follow
  · refine Follows.bind (hf.diagonal b) fun d => ?_
    simp only [Vector3.map, hf.gt]
    exact Follows.pure id _
  · refine Follows.bind (f := Vector3.map f) ?_ fun o => ?_
    · follow
    have hz : ∀ x y, Follows (Vector3.map f)
        (if Elem.gt b.pMax.z b.pMin.z then do
            let d ← Elem.sub b.pMax.z b.pMin.z
            let oz ← Elem.div o.z d
            pure ⟨x, y, oz⟩
          else do
            let oz ← pure o.z
            pure ⟨x, y, oz⟩)
        (if Elem.gt (f b.pMax.z) (f b.pMin.z) then do
            let d ← Elem.sub (f b.pMax.z) (f b.pMin.z)
            let oz ← Elem.div (f o.z) d
            pure ⟨f x, f y, oz⟩
          else do
            let oz ← pure (f o.z)
            pure ⟨f x, f y, oz⟩) := by
      intro x y
      refine Follows.ite (hf.gt _ _) ?_ (Follows.bind (Follows.pure f _) fun _ => Follows.pure _ _)
      follow
    refine Follows.ite (hf.gt _ _) ?_ ?_
    · refine Follows.bind (hf.sub _ _) fun d => Follows.bind (hf.div _ _) fun x =>
        Follows.ite (hf.gt _ _) ?_ ?_
      · exact Follows.bind (hf.sub _ _) fun d => Follows.bind (hf.div _ _) fun y => hz x y
      · exact Follows.bind (Follows.pure f _) fun y => hz x y
    · refine Follows.bind (Follows.pure f _) fun x => Follows.ite (hf.gt _ _) ?_ ?_
      · exact Follows.bind (hf.sub _ _) fun d => Follows.bind (hf.div _ _) fun y => hz x y
      · exact Follows.bind (Follows.pure f _) fun y => hz x y
  · simp only [Bounds3.union, ← hf.new]
    simp [Bounds3.map, Point3.map, hf.min2, hf.max2]
  · simp only [Bounds3.intersect, ← hf.new]
    simp [Bounds3.map, Point3.map, hf.min2, hf.max2]
  · simp only [Bounds3.unionPt, ← hf.new]
    simp [Bounds3.map, Point3.map, hf.min2, hf.max2]
  · simp only [Bounds3.corner, Bounds3.map, Point3.map]
    split_ifs <;> rfl
  · simp only [Bounds3.overlaps, Bounds3.map, Point3.map, hf.ge, hf.le]
  · simp only [Bounds3.inside, Bounds3.map, Point3.map, hf.ge, hf.le]
  · simp only [Bounds3.insideExclusive, Bounds3.map, Point3.map, hf.ge, hf.lt]

example := C68_box C68_release (⟨ip 0 0 0, ip 1 2 3⟩ : Bounds3 (I64 true)) ⟨ip 0 1 2, ip 3 4 5⟩ (ip 1 1 1) (i64 2) 3

/-- **C68** for the iteration over a rectangle. -/
theorem C68_iter (it : Bounds2Iter T) :
    Follows (fun r => (r.1.map (Point2.map f), r.2.map f)) it.next (it.map f).next := by
  refine Follows.ite ?_ (Follows.ok rfl) (Follows.ite (hf.ge _ _) ?_ ?_)
  · simp only [Bounds2Iter.map, Point2.map, hf.ge]
  · rw [← hf.fromInt 1 (by omega) (by omega), ← hf.fromInt 0 (by omega) (by omega)]
    follow
  · rw [← hf.fromInt 1 (by omega) (by omega)]
    follow

example := C68_iter C68_release (⟨⟨i64 2, i64 3⟩, i64 1, i64 0⟩ : Bounds2Iter (I64 true))

/-- **C68** for matrices. -/
theorem C68_matrix (a b : Matrix4 T) :
    Follows (Matrix4.map f) (a.add b) ((a.map f).add (b.map f)) ∧
    Follows (Matrix4.map f) (a.mul b) ((a.map f).mul (b.map f)) ∧
    (a.map f).transpose = a.transpose.map f ∧
    (a.map f).eq (b.map f) = a.eq b := by
  have hset : ∀ (m : Mat44 T) r c v, (fun i j => f (m.set r c v i j)) =
      Mat44.set (fun i j => f (m i j)) r c (f v) := by
    intro m r c v
    funext i j
    simp only [Mat44.set]
    split_ifs <;> rfl
  have h0 : (fun (_ _ : Fin 4) => (Elem.fromInt 0 : T')) =
      (fun (m : Mat44 T) i j => f (m i j)) (fun _ _ => Elem.fromInt 0) := by
    funext _ _
    exact (hf.fromInt 0 (by omega) (by omega)).symm
  refine ⟨?_, ?_, ?_, ?_⟩
  · unfold Matrix4.add
    rw [h0]
    refine Follows.bind (f := fun (m : Mat44 T) i j => f (m i j))
      (Follows.for4 (fun r m => Follows.for4 (g := fun (m : Mat44 T) i j => f (m i j)) (fun c m => ?_) _) _)
      fun m => Follows.pure (Matrix4.map f) ⟨m⟩
    refine Follows.bind (hf.add _ _) fun v => ?_
    rw [← hset]
    exact Follows.pure (fun (m : Mat44 T) i j => f (m i j)) _
  · unfold Matrix4.mul
    rw [h0]
    refine Follows.bind (f := fun (m : Mat44 T) i j => f (m i j))
      (Follows.for4 (fun r m => Follows.for4 (g := fun (m : Mat44 T) i j => f (m i j)) (fun c m => ?_) _) _)
      fun m => Follows.pure (Matrix4.map f) ⟨m⟩
    refine Follows.bind (f := f) ?_ fun v => ?_
    · rw [← hf.fromInt 0 (by omega) (by omega)]
      refine Follows.for4 (fun i s => ?_) _
      follow
    rw [← hset]
    exact Follows.pure (fun (m : Mat44 T) i j => f (m i j)) _
  · simp only [Matrix4.transpose, Matrix4.map, Matrix4.mk.injEq]
    funext i j
    fin_cases i <;> fin_cases j <;> rfl
  · simp only [Matrix4.eq, Matrix4.map, hf.eq]

example := C68_matrix C68_release ⟨fun i j => i64 (i.val * 7 - j.val)⟩ ⟨fun _ _ => i64 (2 ^ 62)⟩

end

/-- **C68**: casting to floats does not depend on the build, so neither do lengths that return in a
    debug build, nor any inverse. -/
theorem C68_casts (v : Vector3 (I64 true)) (n : Normal3 (I64 true)) (a : Matrix4 (I64 true)) :
    Follows id (v.len : Outcome Float32.Model) (v.map I64.release).len ∧
    Follows id (v.len : Outcome Float.Model) (v.map I64.release).len ∧
    Follows id (n.len : Outcome Float32.Model) (n.map I64.release).len ∧
    Follows id (n.len : Outcome Float.Model) (n.map I64.release).len ∧
    ((a.map I64.release).inverse : Outcome (Matrix4 Float32.Model)) = a.inverse ∧
    ((a.map I64.release).inverse : Outcome (Matrix4 Float.Model)) = a.inverse := by
  have hv := (C68_vector C68_release v v v.x).2.2.2.2.2.2.2.2.1
  have hn := (C68_normal C68_release n n n.x).2.2.2.2.2.2.2.2.1
  refine ⟨Follows.bind hv fun s => ?_, Follows.bind hv fun s => ?_, Follows.bind hn fun s => ?_,
    Follows.bind hn fun s => ?_, rfl, rfl⟩ <;> exact fun c h => h

/-! ### Coordinates that are small enough -/

/-- `|a| ≤ B` -/
def I64.Within (B : ℤ) (a : I64 true) : Prop := |a.toInt| ≤ B

theorem I64.exists_toInt {i : ℤ} (h : |i| < 2 ^ 63) : ∃ c : I64 true, c.toInt = i := by
  refine ⟨.ofInt i, ?_⟩
  rw [abs_lt] at h
  simp only [I64.toInt, I64.ofInt, BitVec.toInt_ofInt]
  rw [Int.bmod_eq_of_le] <;> omega

theorem I64.add_within {A B : ℤ} {a b : I64 true} (ha : a.Within A) (hb : b.Within B)
    (h : A + B < 2 ^ 63) : ∃ c, Elem.add a b = .ok c ∧ c.toInt = a.toInt + b.toInt ∧ c.Within (A + B) := by
  have h1 : |a.toInt + b.toInt| ≤ A + B := (abs_add_le _ _).trans (add_le_add ha hb)
  obtain ⟨c, hc⟩ := I64.exists_toInt (h1.trans_lt h)
  exact ⟨c, I64.add_checked.2 hc.symm, hc, by rw [I64.Within, hc]; exact h1⟩

theorem I64.sub_within {A B : ℤ} {a b : I64 true} (ha : a.Within A) (hb : b.Within B)
    (h : A + B < 2 ^ 63) : ∃ c, Elem.sub a b = .ok c ∧ c.toInt = a.toInt - b.toInt ∧ c.Within (A + B) := by
  have h1 : |a.toInt - b.toInt| ≤ A + B := (abs_sub _ _).trans (add_le_add ha hb)
  obtain ⟨c, hc⟩ := I64.exists_toInt (h1.trans_lt h)
  exact ⟨c, I64.sub_checked.2 hc.symm, hc, by rw [I64.Within, hc]; exact h1⟩

theorem I64.mul_within {A B : ℤ} {a b : I64 true} (ha : a.Within A) (hb : b.Within B)
    (h : A * B < 2 ^ 63) : ∃ c, Elem.mul a b = .ok c ∧ c.toInt = a.toInt * b.toInt ∧ c.Within (A * B) := by
  have h1 : |a.toInt * b.toInt| ≤ A * B := by
    rw [abs_mul]
    exact mul_le_mul ha hb (abs_nonneg _) ((abs_nonneg _).trans ha)
  obtain ⟨c, hc⟩ := I64.exists_toInt (h1.trans_lt h)
  exact ⟨c, I64.mul_checked.2 hc.symm, hc, by rw [I64.Within, hc]; exact h1⟩

/-- **C68**: products of coordinates up to `2^30` do not overflow: `dot`, `len_sq` and `cross` return
    the exact value in a debug build. -/
theorem C68_small_vector (u v : Vector3 (I64 true)) (hu : ∀ i, |(u.get i).toInt| ≤ 2 ^ 30)
    (hv : ∀ i, |(v.get i).toInt| ≤ 2 ^ 30) :
    (∃ d, u.dot v = .ok d ∧ d.toInt = ∑ i, (u.get i).toInt * (v.get i).toInt) ∧
    (∃ d, u.lenSq = .ok d ∧ d.toInt = ∑ i, (u.get i).toInt ^ 2) ∧
    (∃ w, u.cross v = .ok w ∧ ∀ i, (w.get i).toInt =
      (u.get (i + 1)).toInt * (v.get (i + 2)).toInt - (u.get (i + 2)).toInt * (v.get (i + 1)).toInt) := by
  have hdot : ∀ (u v : Vector3 (I64 true)), (∀ i, |(u.get i).toInt| ≤ 2 ^ 30) →
      (∀ i, |(v.get i).toInt| ≤ 2 ^ 30) →
      ∃ d, u.dot v = .ok d ∧ d.toInt = ∑ i, (u.get i).toInt * (v.get i).toInt := by
    intro u v hu hv
    obtain ⟨a, ha, va, wa⟩ := I64.mul_within (hu 0) (hv 0) (by norm_num)
    obtain ⟨b, hb, vb, wb⟩ := I64.mul_within (hu 1) (hv 1) (by norm_num)
    obtain ⟨c, hc, vc, wc⟩ := I64.mul_within (hu 2) (hv 2) (by norm_num)
    obtain ⟨e, he, ve, we⟩ := I64.add_within wa wb (by norm_num)
    obtain ⟨d, hd, vd, wd⟩ := I64.add_within we wc (by norm_num)
    refine ⟨d, ?_, ?_⟩
    · simp only [Vector3.get] at ha hb hc
      simp only [Vector3.dot, ha, hb, hc, he, hd, ok_bind]
    · rw [Fin.sum_univ_three, vd, ve, va, vb, vc]
  refine ⟨hdot u v hu hv, ?_, ?_⟩
  · obtain ⟨d, h1, h2⟩ := hdot u u hu hu
    exact ⟨d, h1, by simpa only [pow_two] using h2⟩
  · have hm : ∀ i j, ∃ c, Elem.mul (u.get i) (v.get j) = .ok c ∧
        c.toInt = (u.get i).toInt * (v.get j).toInt ∧ c.Within (2 ^ 30 * 2 ^ 30) :=
      fun i j => I64.mul_within (hu i) (hv j) (by norm_num)
    choose m hm vm wm using hm
    have hs : ∀ i j k l, ∃ c, Elem.sub (m i j) (m k l) = .ok c ∧
        c.toInt = (m i j).toInt - (m k l).toInt ∧ c.Within (2 ^ 30 * 2 ^ 30 + 2 ^ 30 * 2 ^ 30) :=
      fun i j k l => I64.sub_within (wm i j) (wm k l) (by norm_num)
    choose t ht vt wt using hs
    refine ⟨⟨t 1 2 2 1, t 2 0 0 2, t 0 1 1 0⟩, ?_, ?_⟩
    · have h1 := hm 1 2; have h2 := hm 2 1; have h3 := hm 2 0; have h4 := hm 0 2
      have h5 := hm 0 1; have h6 := hm 1 0
      simp only [Vector3.get] at h1 h2 h3 h4 h5 h6
      simp only [Vector3.cross, h1, h2, h3, h4, h5, h6, ht, ok_bind, pure_ok]
    · intro i
      fin_cases i
      · exact (vt 1 2 2 1).trans (by rw [vm, vm]; rfl)
      · exact (vt 2 0 0 2).trans (by rw [vm, vm]; rfl)
      · exact (vt 0 1 1 0).trans (by rw [vm, vm]; rfl)

example := C68_small_vector (iv 1 (-2) (2 ^ 30)) (iv 4 5 (-(2 ^ 30))) (by decide +kernel) (by decide +kernel)

/-- **C68**: boxes with coordinates up to `2^19` have a volume, a surface area and a diagonal in a
    debug build, and these are exact. -/
theorem C68_small_box (b : Bounds3 (I64 true)) (h0 : ∀ i, |(b.pMin.get i).toInt| ≤ 2 ^ 19)
    (h1 : ∀ i, |(b.pMax.get i).toInt| ≤ 2 ^ 19) (s : Fin 3 → ℤ)
    (hs : ∀ i, s i = (b.pMax.get i).toInt - (b.pMin.get i).toInt) :
    (∃ d, b.diagonal = .ok d ∧ ∀ i, (d.get i).toInt = s i) ∧
    (∃ v, b.volume = .ok v ∧ v.toInt = s 0 * s 1 * s 2) ∧
    (∃ a, b.surfaceArea = .ok a ∧ a.toInt = 2 * (s 0 * s 1 + s 0 * s 2 + s 1 * s 2)) := by
  have hd : ∀ i, ∃ c, Elem.sub (b.pMax.get i) (b.pMin.get i) = .ok c ∧
      c.toInt = (b.pMax.get i).toInt - (b.pMin.get i).toInt ∧ c.Within (2 ^ 19 + 2 ^ 19) :=
    fun i => I64.sub_within (h1 i) (h0 i) (by norm_num)
  choose d hd vd wd using hd
  have e : b.diagonal = .ok ⟨d 0, d 1, d 2⟩ := by
    have e0 := hd 0; have e1 := hd 1; have e2 := hd 2
    simp only [Point3.get] at e0 e1 e2
    simp only [Bounds3.diagonal, Point3.sub, e0, e1, e2, ok_bind, pure_ok]
  obtain ⟨xy, hxy, vxy, wxy⟩ := I64.mul_within (wd 0) (wd 1) (by norm_num)
  obtain ⟨xz, hxz, vxz, wxz⟩ := I64.mul_within (wd 0) (wd 2) (by norm_num)
  obtain ⟨yz, hyz, vyz, wyz⟩ := I64.mul_within (wd 1) (wd 2) (by norm_num)
  obtain ⟨t, ht, vt, wt⟩ := I64.add_within wxy wxz (by norm_num)
  obtain ⟨t', ht', vt', wt'⟩ := I64.add_within wt wyz (by norm_num)
  have w2 : I64.Within 2 (Elem.fromInt 2 : I64 true) := by
    show |(Elem.fromInt 2 : I64 true).toInt| ≤ 2
    decide
  have v2 : (Elem.fromInt 2 : I64 true).toInt = 2 := by decide
  obtain ⟨r, hr, vr, -⟩ := I64.mul_within w2 wt' (by norm_num)
  obtain ⟨q, hq, vq, -⟩ := I64.mul_within wxy (wd 2) (by norm_num)
  refine ⟨⟨_, e, ?_⟩, ⟨q, ?_, ?_⟩, ⟨r, ?_, ?_⟩⟩
  · intro i
    rw [hs, ← vd]
    fin_cases i <;> rfl
  · simp only [Bounds3.volume, e, hxy, hq, ok_bind]
  · rw [vq, vxy, vd, vd, vd, hs, hs, hs]
  · simp only [Bounds3.surfaceArea, e, hxy, hxz, hyz, ht, ht', hr, ok_bind]
  · rw [vr, v2, vt', vt, vxy, vxz, vyz, vd, vd, vd, hs, hs, hs]

/-- The bounds are close to best possible: these overflow. -/
example : (iv (2 ^ 31) (2 ^ 31) (2 ^ 31) : Vector3 (I64 true)).dot (iv (2 ^ 31) (2 ^ 31) (2 ^ 31)) =
      .error .overflow ∧
    (⟨ip (-2 ^ 20) (-2 ^ 20) (-2 ^ 20), ip (2 ^ 20) (2 ^ 20) (2 ^ 20)⟩ : Bounds3 (I64 true)).volume =
      .error .overflow := by
  decide +kernel

/-- In a release build the same computation returns a wrong value. -/
example : ((iv (2 ^ 31) (2 ^ 31) (2 ^ 31)).map I64.release).dot
    ((iv (2 ^ 31) (2 ^ 31) (2 ^ 31)).map I64.release) = .ok (i64 (-4611686018427387904)).release := by
  decide +kernel

example : (iv 1 (-2) 3 : Vector3 (I64 true)).cross (iv 4 5 6) = .ok (iv (-27) 6 13) ∧
    (iv 7 0 0 : Vector3 (I64 true)).div (i64 (-2)) = .ok (iv (-3) 0 0) ∧
    ((iv 7 0 0 : Vector3 (I64 true)).map I64.toInt).div (-2) = .ok ⟨-3, 0, 0⟩ := by
  decide +kernel

end Pbrt
