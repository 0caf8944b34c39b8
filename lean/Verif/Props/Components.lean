import Verif.Props.Vectors

/-!
# C65: arithmetic and order are component-wise

For every element type: integers with and without overflow checks, floats, exact numbers.  An
operation returns a vector exactly if the operation on every component returns, and the components
of the result are those results; otherwise it panics.
-/

namespace Pbrt

/-- The coordinate of a point of the plane on an axis. -/
def Point2.get {T : Type} (p : Point2 T) : Fin 2 → T
  | 0 => p.x
  | 1 => p.y

section
variable {T : Type} [Elem T]

local macro "componentwise" fs:ident,* : tactic => do
  let lemmas ← fs.getElems.mapM fun f => `(Lean.Parser.Tactic.simpLemma| $f:ident)
  `(tactic| (simp only [$lemmas,*, bind_eq_ok, pure_ok, Except.ok.injEq, forall_axis,
      Vector3.get, Normal3.get, Point3.get]
             constructor
             · rintro ⟨_, h1, _, h2, _, h3, e⟩
               subst e
               exact ⟨h1, h2, h3⟩
             · rintro ⟨h1, h2, h3⟩
               exact ⟨_, h1, _, h2, _, h3, rfl⟩))

/-- **C65**: vectors are added, subtracted, negated and divided component by component. -/
theorem C65_vector (u v w : Vector3 T) (s : T) :
    (u.add v = .ok w ↔ ∀ i, Elem.add (u.get i) (v.get i) = .ok (w.get i)) ∧
    (u.sub v = .ok w ↔ ∀ i, Elem.sub (u.get i) (v.get i) = .ok (w.get i)) ∧
    (u.neg = .ok w ↔ ∀ i, Elem.neg (u.get i) = .ok (w.get i)) ∧
    (u.mul s = .ok w ↔ ∀ i, Elem.mul s (u.get i) = .ok (w.get i)) ∧
    (u.div s = .ok w ↔ ∀ i, Elem.div (u.get i) s = .ok (w.get i)) := by
  refine ⟨?_, ?_, ?_, ?_, ?_⟩
  · componentwise Vector3.add
  · componentwise Vector3.sub
  · componentwise Vector3.neg
  · componentwise Vector3.mul
  · componentwise Vector3.div

/-- **C65**: the same for normals. -/
theorem C65_normal (u v w : Normal3 T) (s : T) :
    (u.add v = .ok w ↔ ∀ i, Elem.add (u.get i) (v.get i) = .ok (w.get i)) ∧
    (u.sub v = .ok w ↔ ∀ i, Elem.sub (u.get i) (v.get i) = .ok (w.get i)) ∧
    (u.neg = .ok w ↔ ∀ i, Elem.neg (u.get i) = .ok (w.get i)) ∧
    (u.mul s = .ok w ↔ ∀ i, Elem.mul s (u.get i) = .ok (w.get i)) ∧
    (u.div s = .ok w ↔ ∀ i, Elem.div (u.get i) s = .ok (w.get i)) := by
  refine ⟨?_, ?_, ?_, ?_, ?_⟩
  · componentwise Normal3.add
  · componentwise Normal3.sub
  · componentwise Normal3.neg
  · componentwise Normal3.mul
  · componentwise Normal3.div

/-- **C65**: the same for points. -/
theorem C65_point (p q : Point3 T) (v w : Vector3 T) (s : T) :
    (p.add v = .ok q ↔ ∀ i, Elem.add (p.get i) (v.get i) = .ok (q.get i)) ∧
    (p.subVec v = .ok q ↔ ∀ i, Elem.sub (p.get i) (v.get i) = .ok (q.get i)) ∧
    (p.sub q = .ok w ↔ ∀ i, Elem.sub (p.get i) (q.get i) = .ok (w.get i)) ∧
    (p.mul s = .ok q ↔ ∀ i, Elem.mul s (p.get i) = .ok (q.get i)) ∧
    (p.div s = .ok q ↔ ∀ i, Elem.div (p.get i) s = .ok (q.get i)) ∧
    (p.abs = .ok q ↔ ∀ i, Elem.abs (p.get i) = .ok (q.get i)) := by
  refine ⟨?_, ?_, ?_, ?_, ?_, ?_⟩
  · componentwise Point3.add
  · componentwise Point3.subVec
  · componentwise Point3.sub
  · componentwise Point3.mul
  · componentwise Point3.div
  · componentwise Point3.abs

/-- **C65**: `abs` of a point of the plane. -/
theorem C65_point2 (p q : Point2 T) :
    p.abs = .ok q ↔ ∀ i, Elem.abs (p.get i) = .ok (q.get i) := by
  simp only [Point2.abs, bind_eq_ok, pure_ok, Except.ok.injEq, Fin.forall_fin_two, Point2.get]
  constructor
  · rintro ⟨_, h1, _, h2, rfl⟩
    exact ⟨h1, h2⟩
  · rintro ⟨h1, h2⟩
    exact ⟨_, h1, _, h2, rfl⟩

variable [LawfulOrder T]

/-- **C65**: `min` is the greatest lower bound and `max` the least upper bound on every axis; each
    component of the result is one of the two given components. -/
theorem C65_min_max_vector (u v w : Vector3 T) (hu : ∀ i, NotNan (u.get i))
    (hv : ∀ i, NotNan (v.get i)) (i : Fin 3) :
    (Le (w.get i) ((u.min v).get i) ↔ Le (w.get i) (u.get i) ∧ Le (w.get i) (v.get i)) ∧
    (Le ((u.max v).get i) (w.get i) ↔ Le (u.get i) (w.get i) ∧ Le (v.get i) (w.get i)) ∧
    ((u.min v).get i = u.get i ∨ (u.min v).get i = v.get i) ∧
    ((u.max v).get i = u.get i ∨ (u.max v).get i = v.get i) := by
  have h1 : (u.min v).get i = min2 (u.get i) (v.get i) := by fin_cases i <;> rfl
  have h2 : (u.max v).get i = max2 (u.get i) (v.get i) := by fin_cases i <;> rfl
  rw [h1, h2]
  refine ⟨⟨fun h => ⟨h.trans (min2_left (hu i)), h.trans (min2_right (hu i) (hv i))⟩,
    fun h => le_min2 h.1 h.2⟩, ⟨fun h => ⟨(max2_left (hu i)).trans h,
    (max2_right (hu i) (hv i)).trans h⟩, fun h => max2_le h.1 h.2⟩, ?_, ?_⟩
  · rcases min2_cases (u.get i) (v.get i) with ⟨_, h⟩ | ⟨_, h⟩ <;> simp [h]
  · rcases max2_cases (u.get i) (v.get i) with ⟨_, h⟩ | ⟨_, h⟩ <;> simp [h]

example := C65_min_max_vector (fv 1 5 2) (fv 3 (-1) 2) (fv 0 0 0) (by decide +kernel) (by decide +kernel)

/-- **C65**: the same for normals. -/
theorem C65_min_max_normal (u v w : Normal3 T) (hu : ∀ i, NotNan (u.get i))
    (hv : ∀ i, NotNan (v.get i)) (i : Fin 3) :
    (Le (w.get i) ((u.min v).get i) ↔ Le (w.get i) (u.get i) ∧ Le (w.get i) (v.get i)) ∧
    (Le ((u.max v).get i) (w.get i) ↔ Le (u.get i) (w.get i) ∧ Le (v.get i) (w.get i)) ∧
    ((u.min v).get i = u.get i ∨ (u.min v).get i = v.get i) ∧
    ((u.max v).get i = u.get i ∨ (u.max v).get i = v.get i) := by
  have h1 : (u.min v).get i = min2 (u.get i) (v.get i) := by fin_cases i <;> rfl
  have h2 : (u.max v).get i = max2 (u.get i) (v.get i) := by fin_cases i <;> rfl
  rw [h1, h2]
  refine ⟨⟨fun h => ⟨h.trans (min2_left (hu i)), h.trans (min2_right (hu i) (hv i))⟩,
    fun h => le_min2 h.1 h.2⟩, ⟨fun h => ⟨(max2_left (hu i)).trans h,
    (max2_right (hu i) (hv i)).trans h⟩, fun h => max2_le h.1 h.2⟩, ?_, ?_⟩
  · rcases min2_cases (u.get i) (v.get i) with ⟨_, h⟩ | ⟨_, h⟩ <;> simp [h]
  · rcases max2_cases (u.get i) (v.get i) with ⟨_, h⟩ | ⟨_, h⟩ <;> simp [h]

example := C65_min_max_normal (⟨f32 1, f32 5, f32 2⟩ : Normal3 Float32.Model) ⟨f32 3, f32 (-1), f32 2⟩
  ⟨f32 0, f32 0, f32 0⟩ (by decide +kernel) (by decide +kernel)

/-- **C65**: the same for points. -/
theorem C65_min_max_point (u v w : Point3 T) (hu : u.Proper) (hv : v.Proper) (i : Fin 3) :
    (Le (w.get i) ((u.min v).get i) ↔ Le (w.get i) (u.get i) ∧ Le (w.get i) (v.get i)) ∧
    (Le ((u.max v).get i) (w.get i) ↔ Le (u.get i) (w.get i) ∧ Le (v.get i) (w.get i)) ∧
    ((u.min v).get i = u.get i ∨ (u.min v).get i = v.get i) ∧
    ((u.max v).get i = u.get i ∨ (u.max v).get i = v.get i) := by
  have h1 : (u.min v).get i = min2 (u.get i) (v.get i) := by fin_cases i <;> rfl
  have h2 : (u.max v).get i = max2 (u.get i) (v.get i) := by fin_cases i <;> rfl
  rw [h1, h2]
  refine ⟨⟨fun h => ⟨h.trans (min2_left (hu i)), h.trans (min2_right (hu i) (hv i))⟩,
    fun h => le_min2 h.1 h.2⟩, ⟨fun h => ⟨(max2_left (hu i)).trans h,
    (max2_right (hu i) (hv i)).trans h⟩, fun h => max2_le h.1 h.2⟩, ?_, ?_⟩
  · rcases min2_cases (u.get i) (v.get i) with ⟨_, h⟩ | ⟨_, h⟩ <;> simp [h]
  · rcases max2_cases (u.get i) (v.get i) with ⟨_, h⟩ | ⟨_, h⟩ <;> simp [h]

example := C65_min_max_point (fp 1 5 2) (fp 3 (-1) 2) (fp 0 0 0) (by decide +kernel) (by decide +kernel)

/-- **C65**: `min_component` and `max_component` of a vector or normal are its least and its
    greatest component. -/
theorem C65_components (u : Vector3 T) (n : Normal3 T) (hu : ∀ i, NotNan (u.get i))
    (hn : ∀ i, NotNan (n.get i)) :
    ((∃ i, u.minComponent = u.get i) ∧ ∀ i, Le u.minComponent (u.get i)) ∧
    ((∃ i, u.maxComponent = u.get i) ∧ ∀ i, Le (u.get i) u.maxComponent) ∧
    ((∃ i, n.minComponent = n.get i) ∧ ∀ i, Le n.minComponent (n.get i)) ∧
    ((∃ i, n.maxComponent = n.get i) ∧ ∀ i, Le (n.get i) n.maxComponent) := by
  have key : ∀ x y z : T, NotNan x → NotNan y → NotNan z →
      (pminFrom x [y, z] = x ∨ pminFrom x [y, z] = y ∨ pminFrom x [y, z] = z) ∧
      (Le (pminFrom x [y, z]) x ∧ Le (pminFrom x [y, z]) y ∧ Le (pminFrom x [y, z]) z) ∧
      (pmaxFrom x [y, z] = x ∨ pmaxFrom x [y, z] = y ∨ pmaxFrom x [y, z] = z) ∧
      (Le x (pmaxFrom x [y, z]) ∧ Le y (pmaxFrom x [y, z]) ∧ Le z (pmaxFrom x [y, z])) := by
    intro x y z hx hy hz
    have a := pminFrom_mem x [y, z]
    have b := pmaxFrom_mem x [y, z]
    have c2 := pminFrom_le x [y, z] hx
    have d2 := le_pmaxFrom x [y, z] hx
    simp only [List.mem_cons, List.not_mem_nil, or_false] at a b c2 d2
    exact ⟨a, ⟨c2 x (.inl rfl) hx, c2 y (.inr (.inl rfl)) hy, c2 z (.inr (.inr rfl)) hz⟩, b,
      ⟨d2 x (.inl rfl) hx, d2 y (.inr (.inl rfl)) hy, d2 z (.inr (.inr rfl)) hz⟩⟩
  obtain ⟨a1, a2, a3, a4⟩ := key _ _ _ (hu 0) (hu 1) (hu 2)
  obtain ⟨b1, b2, b3, b4⟩ := key _ _ _ (hn 0) (hn 1) (hn 2)
  have fin : ∀ (P : Fin 3 → Prop), P 0 ∨ P 1 ∨ P 2 → ∃ i, P i := by
    rintro P (h | h | h) <;> exact ⟨_, h⟩
  exact ⟨⟨fin _ a1, forall_axis.2 a2⟩, ⟨fin _ a3, forall_axis.2 a4⟩, ⟨fin _ b1, forall_axis.2 b2⟩,
    ⟨fin _ b3, forall_axis.2 b4⟩⟩

end

example : (iv 1 2 3).add (iv 4 5 (-9)) = .ok (iv 5 7 (-6)) ∧ (iv 7 (-7) 3).div (.ofInt 2) = .ok (iv 3 (-3) 1) ∧
    (iv 7 (-7) 3).div (.ofInt 0) = .error .divZero ∧ (iv 1 5 3).min (iv 4 2 3) = iv 1 2 3 ∧
    (ip (-1) 5 (-3)).abs = .ok (ip 1 5 3) ∧ (iv 4 2 9).minComponent = .ofInt 2 := by
  decide +kernel

end Pbrt
