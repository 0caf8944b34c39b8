import Verif.Proof.Exact
import Verif.Spec.Samples
import Mathlib.Data.List.Nodup
import Mathlib.Data.List.Range

/-!
# Iterating integer rectangles (C49)
-/

namespace Pbrt

variable {checks : Bool}

/-- A `for` loop over the iterator returns and runs its body on these points, in this order. -/
inductive Visits {T : Type} [Elem T] : Bounds2Iter T → List (Point2 T) → Prop
  | done {it it' : Bounds2Iter T} : it.next = .ok (none, it') → Visits it []
  | step {it it' : Bounds2Iter T} {p : Point2 T} {ps : List (Point2 T)} :
      it.next = .ok (some p, it') → Visits it' ps → Visits it (p :: ps)

/-- The point with integer coordinates -/
def Point2.toInts (p : Point2 (I64 checks)) : Int × Int := (p.x.toInt, p.y.toInt)

/-- The integers `lo + 1, ..., hi` (none if `hi <= lo`) -/
def upTo (lo hi : Int) : List Int := (List.range (hi - lo).toNat).map fun k : Nat => lo + 1 + (k : Int)

/-- What the code visits, by its corners: the rest of the first row, and then the rows up to `Y`,
    each from `0`. -/
def visitedPoints (x0 y0 X Y : Int) : List (Int × Int) :=
  (upTo x0 X).map (·, y0) ++ (upTo y0 Y).flatMap fun y => (0 :: upTo 0 X).map (·, y)

theorem mem_upTo {lo hi n : Int} : n ∈ upTo lo hi ↔ lo < n ∧ n ≤ hi := by
  simp only [upTo, List.mem_map, List.mem_range]
  constructor
  · rintro ⟨k, h, rfl⟩; omega
  · intro h; exact ⟨(n - lo - 1).toNat, by omega, by omega⟩

theorem nodup_upTo (lo hi : Int) : (upTo lo hi).Nodup :=
  List.nodup_range.map fun a b h => by
    have h : lo + 1 + (a : Int) = lo + 1 + (b : Int) := h
    omega

theorem upTo_nil {lo hi : Int} (h : hi ≤ lo) : upTo lo hi = [] := by
  simp [upTo, Int.toNat_of_nonpos (show hi - lo ≤ 0 by omega)]

theorem upTo_cons {lo hi : Int} (h : lo < hi) : upTo lo hi = (lo + 1) :: upTo (lo + 1) hi := by
  have : (hi - lo).toNat = (hi - (lo + 1)).toNat + 1 := by omega
  simp only [upTo, this, List.range_succ_eq_map, List.map_cons, List.map_map]
  congr 1
  · simp
  · refine List.map_congr_left fun k _ => ?_
    simp only [Function.comp]
    push_cast
    ring

theorem I64.toInt_fromInt {i : Int} (h1 : -9223372036854775808 ≤ i)
    (h2 : i ≤ 9223372036854775807) : (Elem.fromInt i : I64 checks).toInt = i := by
  show (BitVec.ofInt 64 i).toInt = i
  rw [BitVec.toInt_ofInt]
  exact Int.bmod_eq_of_le (by norm_num; omega) (by norm_num; omega)

/-- Adding one below the maximum neither overflows nor wraps, in any build. -/
theorem I64.add_one {a : I64 checks} (h : a.toInt < 9223372036854775807) :
    ∃ b, Elem.add a (Elem.fromInt 1) = .ok b ∧ b.toInt = a.toInt + 1 := by
  have h1 : (Elem.fromInt 1 : I64 checks).bits.toInt = 1 := I64.toInt_fromInt (by omega) (by omega)
  have ha := a.le_toInt
  have ho : a.bits.saddOverflow (Elem.fromInt 1 : I64 checks).bits = false := by
    simp only [I64.toInt] at h ha
    simp only [BitVec.saddOverflow, h1]
    simp
    omega
  refine ⟨⟨a.bits + (Elem.fromInt 1 : I64 checks).bits⟩, ?_, ?_⟩
  · show I64.checked _ _ = _
    rw [ho, I64.checked]; simp
  · show (a.bits + _).toInt = _
    rw [BitVec.toInt_add, h1]
    simp only [I64.toInt] at *
    exact Int.bmod_eq_of_le (by norm_num; omega) (by norm_num; omega)

theorem I64.ge_iff (a b : I64 checks) : Elem.ge a b = true ↔ b.toInt ≤ a.toInt := I64.le_iff b a

variable {pMax : Point2 (I64 checks)}

theorem next_none {x y : I64 checks} (hx : pMax.x.toInt ≤ x.toInt) (hy : pMax.y.toInt ≤ y.toInt) :
    (Bounds2Iter.mk pMax x y).next = .ok (none, ⟨pMax, x, y⟩) := by
  simp [Bounds2Iter.next, (I64.ge_iff _ _).2 hx, (I64.ge_iff _ _).2 hy]

theorem next_row {x y : I64 checks} (hx : x.toInt < pMax.x.toInt) :
    ∃ x' : I64 checks, x'.toInt = x.toInt + 1 ∧
      (Bounds2Iter.mk pMax x y).next = .ok (some ⟨x', y⟩, ⟨pMax, x', y⟩) := by
  have h : Elem.ge x pMax.x = false := by
    rw [← Bool.not_eq_true, I64.ge_iff]; omega
  obtain ⟨x', h1, h2⟩ := I64.add_one (a := x) (by have := pMax.x.toInt_le; omega)
  exact ⟨x', h2, by simp [Bounds2Iter.next, h, h1]⟩

theorem next_newline {x y : I64 checks} (hx : pMax.x.toInt ≤ x.toInt)
    (hy : y.toInt < pMax.y.toInt) : ∃ x' y' : I64 checks, x'.toInt = 0 ∧ y'.toInt = y.toInt + 1 ∧
      (Bounds2Iter.mk pMax x y).next = .ok (some ⟨x', y'⟩, ⟨pMax, x', y'⟩) := by
  have h : Elem.ge y pMax.y = false := by
    rw [← Bool.not_eq_true, I64.ge_iff]; omega
  obtain ⟨y', h1, h2⟩ := I64.add_one (a := y) (by have := pMax.y.toInt_le; omega)
  exact ⟨_, y', I64.toInt_fromInt (by omega) (by omega), h2, by
    simp [Bounds2Iter.next, (I64.ge_iff _ _).2 hx, h, h1]⟩

theorem visits_row (y : I64 checks) (qs : List (Int × Int))
    (hq : ∀ x : I64 checks, pMax.x.toInt ≤ x.toInt →
      ∃ ps, Visits ⟨pMax, x, y⟩ ps ∧ ps.map Point2.toInts = qs) (n : Nat) :
    ∀ x : I64 checks, (pMax.x.toInt - x.toInt).toNat = n →
      ∃ ps, Visits ⟨pMax, x, y⟩ ps ∧
        ps.map Point2.toInts = (upTo x.toInt pMax.x.toInt).map (·, y.toInt) ++ qs := by
  induction n with
  | zero =>
    intro x hn
    obtain ⟨ps, h1, h2⟩ := hq x (by omega)
    exact ⟨ps, h1, by rw [upTo_nil (by omega)]; simpa using h2⟩
  | succ n ih =>
    intro x hn
    have hx : x.toInt < pMax.x.toInt := by omega
    obtain ⟨x', h1, h2⟩ := next_row (y := y) hx
    obtain ⟨ps, h3, h4⟩ := ih x' (by omega)
    refine ⟨_, .step h2 h3, ?_⟩
    rw [upTo_cons hx, List.map_cons, h4, h1]
    simp [Point2.toInts, h1]

theorem visits_rows (m : Nat) : ∀ x y : I64 checks, pMax.x.toInt ≤ x.toInt →
    (pMax.y.toInt - y.toInt).toNat = m → ∃ ps, Visits ⟨pMax, x, y⟩ ps ∧
      ps.map Point2.toInts = (upTo y.toInt pMax.y.toInt).flatMap fun y =>
        (0 :: upTo 0 pMax.x.toInt).map (·, y) := by
  induction m with
  | zero =>
    intro x y hx hm
    exact ⟨[], .done (next_none hx (by omega)), by
      rw [upTo_nil (lo := y.toInt) (hi := pMax.y.toInt) (by omega)]; rfl⟩
  | succ m ih =>
    intro x y hx hm
    have hy : y.toInt < pMax.y.toInt := by omega
    obtain ⟨x', y', h1, h2, h3⟩ := next_newline hx hy
    obtain ⟨ps, h4, h5⟩ := visits_row y' _ (fun x hx => ih x y' hx (by omega)) _ x' rfl
    refine ⟨_, .step h3 h4, ?_⟩
    rw [upTo_cons hy, List.map_cons, h5, h1, h2]
    simp [Point2.toInts, h1, h2]

/-- What a loop over the iterator visits is determined by the iterator. -/
theorem Visits.unique {T : Type} [Elem T] {it : Bounds2Iter T} {ps qs : List (Point2 T)}
    (h1 : Visits it ps) (h2 : Visits it qs) : ps = qs := by
  induction h1 generalizing qs with
  | done h =>
    cases h2 with
    | done _ => rfl
    | step h' _ => rw [h] at h'; cases h'
  | step h _ ih =>
    cases h2 with
    | done h' => rw [h] at h'; cases h'
    | step h' hr => rw [h] at h'; cases h'; rw [ih hr]

/-- **C49**: iterating any integer rectangle ends without panic, in every build, and visits
    exactly the points `visitedPoints`, in that order. -/
theorem C49_visits (b : Bounds2 (I64 checks)) :
    ∃ ps, Visits b.intoIter ps ∧ ps.map Point2.toInts =
      visitedPoints b.pMin.x.toInt b.pMin.y.toInt b.pMax.x.toInt b.pMax.y.toInt :=
  visits_row b.pMin.y _ (fun x hx => visits_rows _ x b.pMin.y hx rfl) _ b.pMin.x rfl

/-- The points of `visitedPoints`, without their order -/
theorem mem_visitedPoints {x0 y0 X Y : Int} {p : Int × Int} : p ∈ visitedPoints x0 y0 X Y ↔
    (p.2 = y0 ∧ x0 < p.1 ∧ p.1 ≤ X) ∨ (y0 < p.2 ∧ p.2 ≤ Y ∧ 0 ≤ p.1 ∧ p.1 ≤ max X 0) := by
  obtain ⟨x, y⟩ := p
  simp only [visitedPoints, List.mem_append, List.mem_map, Prod.mk.injEq, List.mem_flatMap,
    List.mem_cons, mem_upTo]
  constructor
  · rintro (⟨a, h, rfl, rfl⟩ | ⟨a, h, b, hb, rfl, rfl⟩)
    · exact Or.inl ⟨rfl, h⟩
    · right; omega
  · rintro (⟨rfl, h⟩ | ⟨h1, h2, h3, h4⟩)
    · exact Or.inl ⟨x, h, rfl, rfl⟩
    · exact Or.inr ⟨y, ⟨h1, h2⟩, x, by omega, rfl, rfl⟩

/-- **C49**: no point is visited twice. -/
theorem C49_once (b : Bounds2 (I64 checks)) (ps : List (Point2 (I64 checks)))
    (h : Visits b.intoIter ps) : ps.Nodup := by
  obtain ⟨qs, h1, h2⟩ := C49_visits b
  rw [h.unique h1]
  refine List.Nodup.of_map Point2.toInts ?_
  rw [h2, visitedPoints, List.nodup_append]
  refine ⟨(nodup_upTo _ _).map fun a b h => (Prod.mk.inj h).1, ?_, ?_⟩
  · rw [List.nodup_flatMap]
    refine ⟨fun y _ => List.Nodup.map (fun a b h => (Prod.mk.inj h).1)
      (List.nodup_cons.2 ⟨by simp [mem_upTo], nodup_upTo _ _⟩), ?_⟩
    refine (nodup_upTo _ _).pairwise_of_forall_ne fun a _ b _ hab => ?_
    simp only [Function.onFun, List.disjoint_left, List.mem_map]
    rintro p ⟨x, _, rfl⟩ ⟨x', _, h⟩
    exact hab (Prod.mk.inj h).2.symm
  · intro p hp q hq hpq
    subst hpq
    simp only [List.mem_map, List.mem_flatMap, mem_upTo] at hp hq
    obtain ⟨x, _, rfl⟩ := hp
    obtain ⟨y, hy, x', _, h⟩ := hq
    have := (Prod.mk.inj h).2
    omega

/-- **C49**: an iterator that has ended stays so (and so do all later calls). -/
theorem C49_fused {T : Type} [Elem T] (it it' : Bounds2Iter T) (h : it.next = .ok (none, it')) :
    it' = it := by
  unfold Bounds2Iter.next at h
  split at h
  · cases h; rfl
  · split at h
    · obtain ⟨_, _, h⟩ := bind_eq_ok.1 h
      cases h
    · obtain ⟨_, _, h⟩ := bind_eq_ok.1 h
      cases h

/-- **C49**: a rectangle that starts at the origin: all integer points of the closed rectangle
    except the origin, and no others, are visited. -/
theorem C49_origin (b : Bounds2 (I64 checks)) (hx : b.pMin.x.toInt = 0) (hy : b.pMin.y.toInt = 0)
    (hX : 0 ≤ b.pMax.x.toInt) (ps : List (Point2 (I64 checks))) (h : Visits b.intoIter ps)
    (p : Point2 (I64 checks)) : p ∈ ps ↔
      (0 ≤ p.x.toInt ∧ p.x.toInt ≤ b.pMax.x.toInt ∧ 0 ≤ p.y.toInt ∧
        p.y.toInt ≤ max b.pMax.y.toInt 0) ∧ ¬ (p.x.toInt = 0 ∧ p.y.toInt = 0) := by
  obtain ⟨qs, h1, h2⟩ := C49_visits b
  rw [h.unique h1]
  have hinj : Function.Injective (Point2.toInts (checks := checks)) := by
    rintro ⟨a, b⟩ ⟨a', b'⟩ e
    simp only [Point2.toInts, Prod.mk.injEq] at e
    rw [I64.ext' e.1, I64.ext' e.2]
  rw [← List.mem_map_of_injective hinj, h2, mem_visitedPoints, hx, hy]
  simp only [Point2.toInts]
  omega

/-- **C49**, violated: a rectangle, as half-open or closed sets of points, contains its lower corner,
    but the iteration of no rectangle visits it. -/
theorem C49_lower_corner_refuted (b : Bounds2 (I64 checks)) (ps : List (Point2 (I64 checks)))
    (h : Visits b.intoIter ps) : b.pMin ∉ ps := by
  obtain ⟨qs, h1, h2⟩ := C49_visits b
  rw [h.unique h1]
  intro hm
  have := List.mem_map_of_mem (f := Point2.toInts) hm
  rw [h2, mem_visitedPoints] at this
  simp only [Point2.toInts] at this
  omega

/-- **C49**, violated: a rectangle that does not touch the column `x = 0` and has more than one row
    makes the loop visit a point outside the (closed) rectangle. -/
theorem C49_outside_refuted (b : Bounds2 (I64 checks)) (hx : 0 < b.pMin.x.toInt)
    (hy : b.pMin.y.toInt < b.pMax.y.toInt) (ps : List (Point2 (I64 checks)))
    (h : Visits b.intoIter ps) : ∃ p ∈ ps, p.x.toInt < b.pMin.x.toInt := by
  obtain ⟨qs, h1, h2⟩ := C49_visits b
  rw [h.unique h1]
  have : ((0 : Int), b.pMax.y.toInt) ∈ qs.map Point2.toInts := by
    rw [h2, mem_visitedPoints]; right; omega
  obtain ⟨p, hp, e⟩ := List.mem_map.1 this
  exact ⟨p, hp, by rw [show p.x.toInt = 0 from (Prod.mk.inj e).1]; exact hx⟩

/-- The rectangle from (0,0) to (2,2): not the 4 points of the half-open rectangle. -/
example : visitedPoints 0 0 2 2 = [(1, 0), (2, 0), (0, 1), (1, 1), (2, 1), (0, 2), (1, 2), (2, 2)] ∧
    visitedPoints 3 3 4 4 = [(4, 3), (0, 4), (1, 4), (2, 4), (3, 4), (4, 4)] ∧
    visitedPoints (-3) 0 (-1) 1 = [(-2, 0), (-1, 0), (0, 1)] := by decide +kernel

end Pbrt
