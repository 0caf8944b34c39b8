import Verif.Props.Pixels
import Mathlib.Tactic.Ring

/-!
# Number and order of the points of an iterated rectangle (C108)
-/

namespace Pbrt

variable {checks : Bool}

theorem Point2.toInts_injective : Function.Injective (Point2.toInts (checks := checks)) := by
  rintro ⟨a, b⟩ ⟨a', b'⟩ e
  simp only [Point2.toInts, Prod.mk.injEq] at e
  rw [I64.ext' e.1, I64.ext' e.2]

theorem visits_ints {b : Bounds2 (I64 checks)} {ps : List (Point2 (I64 checks))} (h : Visits b.intoIter ps) :
    ps.map Point2.toInts = visitedPoints b.pMin.x.toInt b.pMin.y.toInt b.pMax.x.toInt b.pMax.y.toInt := by
  obtain ⟨qs, h1, h2⟩ := C49_visits b
  rw [h.unique h1, h2]

/-- The points that are visited, by their coordinates -/
theorem visits_mem {b : Bounds2 (I64 checks)} {ps : List (Point2 (I64 checks))} (h : Visits b.intoIter ps)
    (p : Point2 (I64 checks)) : p ∈ ps ↔
      (p.y.toInt = b.pMin.y.toInt ∧ b.pMin.x.toInt < p.x.toInt ∧ p.x.toInt ≤ b.pMax.x.toInt) ∨
      (b.pMin.y.toInt < p.y.toInt ∧ p.y.toInt ≤ b.pMax.y.toInt ∧ 0 ≤ p.x.toInt ∧
        p.x.toInt ≤ max b.pMax.x.toInt 0) := by
  rw [← List.mem_map_of_injective Point2.toInts_injective, visits_ints h, mem_visitedPoints]
  rfl

theorem length_upTo (lo hi : Int) : ((upTo lo hi).length : Int) = max 0 (hi - lo) := by
  simp [upTo, max_comm]

theorem upTo_sorted (lo hi : Int) : (upTo lo hi).Pairwise (· < ·) := by
  rw [upTo, List.pairwise_map]
  exact List.pairwise_lt_range.imp fun h => by omega

/-- **C108**: how many points the loop visits. -/
theorem C108_count (b : Bounds2 (I64 checks)) (ps : List (Point2 (I64 checks))) (h : Visits b.intoIter ps) :
    (ps.length : ℤ) = max 0 (b.pMax.x.toInt - b.pMin.x.toInt) +
      max 0 (b.pMax.y.toInt - b.pMin.y.toInt) * (1 + max 0 b.pMax.x.toInt) := by
  have e := congrArg (fun l => (l.length : ℤ)) (visits_ints h)
  simp only [List.length_map, visitedPoints, List.length_append, Nat.cast_add, List.length_flatMap,
    List.length_cons, List.map_const', List.sum_replicate, smul_eq_mul, Nat.cast_mul, length_upTo, Nat.cast_one,
    sub_zero] at e
  rw [e]
  ring

/-- **C108**: row after row, and every row from left to right. -/
theorem C108_order (b : Bounds2 (I64 checks)) (ps : List (Point2 (I64 checks))) (h : Visits b.intoIter ps) :
    ps.Pairwise fun p q => p.y.toInt < q.y.toInt ∨ p.y.toInt = q.y.toInt ∧ p.x.toInt < q.x.toInt := by
  suffices hs : (ps.map Point2.toInts).Pairwise fun p q : ℤ × ℤ => p.2 < q.2 ∨ p.2 = q.2 ∧ p.1 < q.1 from
    (List.pairwise_map.1 hs)
  rw [visits_ints h, visitedPoints, List.pairwise_append]
  refine ⟨?_, ?_, ?_⟩
  · rw [List.pairwise_map]
    exact (upTo_sorted _ _).imp fun h => Or.inr ⟨rfl, h⟩
  · rw [List.pairwise_flatMap]
    refine ⟨fun y _ => ?_, (upTo_sorted _ _).imp fun {a b} hab => ?_⟩
    · rw [List.pairwise_map, List.pairwise_cons]
      exact ⟨fun x hx => Or.inr ⟨rfl, (mem_upTo.1 hx).1⟩, (upTo_sorted _ _).imp fun h => Or.inr ⟨rfl, h⟩⟩
    · intro p hp q hq
      obtain ⟨_, _, rfl⟩ := List.mem_map.1 hp
      obtain ⟨_, _, rfl⟩ := List.mem_map.1 hq
      exact Or.inl hab
  · intro p hp q hq
    obtain ⟨_, _, rfl⟩ := List.mem_map.1 hp
    obtain ⟨y, hy, hq⟩ := List.mem_flatMap.1 hq
    obtain ⟨_, _, rfl⟩ := List.mem_map.1 hq
    exact Or.inl (mem_upTo.1 hy).1

/-- **C108**: the loop visits nothing exactly if the upper corner is nowhere above the lower one; a
    rectangle without width that has some height is not empty for the loop. -/
theorem C108_nothing (b : Bounds2 (I64 checks)) (ps : List (Point2 (I64 checks))) (h : Visits b.intoIter ps) :
    ps = [] ↔ b.pMax.x.toInt ≤ b.pMin.x.toInt ∧ b.pMax.y.toInt ≤ b.pMin.y.toInt := by
  have e := C108_count b ps h
  constructor
  · rintro rfl
    simp only [List.length_nil, Nat.cast_zero] at e
    have h1 : 0 ≤ max 0 (b.pMax.y.toInt - b.pMin.y.toInt) * (1 + max 0 b.pMax.x.toInt) := by positivity
    have h2 : max 0 (b.pMax.y.toInt - b.pMin.y.toInt) * (1 + max 0 b.pMax.x.toInt) = 0 := by omega
    rcases mul_eq_zero.1 h2 with h2 | h2 <;> omega
  · rintro ⟨hx, hy⟩
    refine List.eq_nil_of_length_eq_zero ?_
    rw [max_eq_left (by omega), max_eq_left (by omega)] at e
    omega

/-- **C108**: the points that are visited are those of the half-open rectangle only if there are none of
    either. -/
theorem C108_half_open (b : Bounds2 (I64 checks)) (ps : List (Point2 (I64 checks))) (h : Visits b.intoIter ps) :
    (∀ p : Point2 (I64 checks), p ∈ ps ↔
      (b.pMin.x.toInt ≤ p.x.toInt ∧ p.x.toInt < b.pMax.x.toInt) ∧
      (b.pMin.y.toInt ≤ p.y.toInt ∧ p.y.toInt < b.pMax.y.toInt)) ↔
    b.pMax.x.toInt ≤ b.pMin.x.toInt ∧ b.pMax.y.toInt ≤ b.pMin.y.toInt := by
  rw [← C108_nothing b ps h]
  constructor
  · intro hp
    refine List.eq_nil_iff_forall_not_mem.2 fun p hm => ?_
    have := (hp p).1 hm
    exact C49_lower_corner_refuted b ps h ((hp b.pMin).2 (by omega))
  · rintro hn p
    have := (C108_nothing b ps h).1 hn
    rw [hn]
    simp only [List.not_mem_nil, false_iff]
    omega

/-- **C108**: when no point outside of the closed rectangle is visited. -/
theorem C108_inside (b : Bounds2 (I64 checks)) (ps : List (Point2 (I64 checks))) (h : Visits b.intoIter ps) :
    (∀ p ∈ ps, (b.pMin.x.toInt ≤ p.x.toInt ∧ p.x.toInt ≤ b.pMax.x.toInt) ∧
      (b.pMin.y.toInt ≤ p.y.toInt ∧ p.y.toInt ≤ b.pMax.y.toInt)) ↔
    (b.pMin.x.toInt < b.pMax.x.toInt → b.pMin.y.toInt ≤ b.pMax.y.toInt) ∧
    (b.pMin.y.toInt < b.pMax.y.toInt → b.pMin.x.toInt ≤ 0 ∧ 0 ≤ b.pMax.x.toInt) := by
  constructor
  · intro hp
    constructor
    · intro hx
      have := hp ⟨b.pMax.x, b.pMin.y⟩ ((visits_mem h _).2 (Or.inl ⟨rfl, hx, le_rfl⟩))
      exact this.2.2
    · intro hy
      have h0 : (Elem.fromInt 0 : I64 checks).toInt = 0 := I64.toInt_fromInt (by omega) (by omega)
      have := hp ⟨Elem.fromInt 0, b.pMax.y⟩ ((visits_mem h _).2 (Or.inr ⟨hy, le_rfl, by simp [h0], by simp [h0]⟩))
      simp only [h0] at this
      exact this.1
  · rintro ⟨h1, h2⟩ p hp
    have := (visits_mem h p).1 hp
    omega

/-- **C108**: what to write to visit the `w` times `h` pixels from the origin once each, row after row: the
    rectangle from `(-1, 0)` to `(w - 1, h - 1)`. -/
theorem C108_grid (b : Bounds2 (I64 checks)) (w h : ℕ) (hw : 0 < w) (hh : 0 < h) (h1 : b.pMin.toInts = (-1, 0))
    (h2 : b.pMax.toInts = ((w : ℤ) - 1, (h : ℤ) - 1)) :
    ∃ ps, Visits b.intoIter ps ∧
      ps.map Point2.toInts = (List.range h).flatMap fun y : ℕ => (List.range w).map fun x : ℕ => ((x : ℤ), (y : ℤ)) := by
  obtain ⟨ps, hv, e⟩ := C49_visits b
  refine ⟨ps, hv, ?_⟩
  have key : ∀ n : ℕ, 0 < n → 0 :: upTo 0 ((n : ℤ) - 1) = (List.range n).map fun k : ℕ => (k : ℤ) := by
    intro n hn
    have := upTo_cons (lo := -1) (hi := (n : ℤ) - 1) (by omega)
    rw [show (-1 : ℤ) + 1 = 0 from rfl] at this
    rw [← this, upTo, show ((n : ℤ) - 1 - -1).toNat = n by omega]
    exact List.map_congr_left fun k _ => by ring
  simp only [Point2.toInts, Prod.mk.injEq] at h1 h2
  rw [e, h1.1, h1.2, h2.1, h2.2, visitedPoints]
  have hr : upTo (-1) ((w : ℤ) - 1) = 0 :: upTo 0 ((w : ℤ) - 1) := upTo_cons (by omega)
  rw [hr]
  have : ((0 :: upTo 0 ((w : ℤ) - 1)).map (·, (0 : ℤ))) ++
      (upTo 0 ((h : ℤ) - 1)).flatMap (fun y => (0 :: upTo 0 ((w : ℤ) - 1)).map (·, y)) =
      (0 :: upTo 0 ((h : ℤ) - 1)).flatMap fun y => (0 :: upTo 0 ((w : ℤ) - 1)).map (·, y) := rfl
  rw [this, key w hw, key h hh, List.flatMap_map]
  simp only [List.map_map]
  rfl

/-- **C108**: a rectangle from the origin: the number of points is not the area. -/
theorem C108_origin_count (b : Bounds2 (I64 checks)) (ps : List (Point2 (I64 checks))) (h : Visits b.intoIter ps)
    (h0 : b.pMin.toInts = (0, 0)) (hx : 0 ≤ b.pMax.x.toInt) (hy : 0 ≤ b.pMax.y.toInt) :
    (ps.length : ℤ) = b.pMax.x.toInt * b.pMax.y.toInt + b.pMax.x.toInt + b.pMax.y.toInt := by
  simp only [Point2.toInts, Prod.mk.injEq] at h0
  rw [C108_count b ps h, h0.1, h0.2, max_eq_right (by omega), max_eq_right (by omega), max_eq_right (by omega)]
  ring

/-- **C108**: after a point, the iterator is that of the rectangle from this point to the upper corner.
    So what has been visited does not matter, and a loop that is broken off can be taken up again. -/
theorem C108_resume {T : Type} [Elem T] (b : Bounds2 T) (p : Point2 T) (it : Bounds2Iter T)
    (h : b.intoIter.next = .ok (some p, it)) : it = (⟨p, b.pMax⟩ : Bounds2 T).intoIter := by
  unfold Bounds2Iter.next at h
  split at h
  · cases h
  · split at h
    · obtain ⟨_, _, h⟩ := bind_eq_ok.1 h
      cases h; rfl
    · obtain ⟨_, _, h⟩ := bind_eq_ok.1 h
      cases h; rfl

/-- **C108**: hence a loop over the rectangle from a visited point to the upper corner visits what is left. -/
theorem C108_rest {T : Type} [Elem T] (b : Bounds2 T) (ps qs : List (Point2 T)) (p : Point2 T)
    (h : Visits b.intoIter (ps ++ p :: qs)) : Visits (⟨p, b.pMax⟩ : Bounds2 T).intoIter qs := by
  induction ps generalizing b with
  | nil =>
    cases h with
    | step h hr => rwa [C108_resume b p _ h] at hr
  | cons q ps ih =>
    cases h with
    | step h hr =>
      rw [C108_resume b q _ h] at hr
      exact ih ⟨q, b.pMax⟩ hr

/-- **C108**: builds with and without overflow checks visit the same points. -/
theorem C108_builds (b : Bounds2 (I64 true)) (c : Bounds2 (I64 false)) (ps : List (Point2 (I64 true)))
    (qs : List (Point2 (I64 false))) (h1 : b.pMin.toInts = c.pMin.toInts) (h2 : b.pMax.toInts = c.pMax.toInts)
    (hb : Visits b.intoIter ps) (hc : Visits c.intoIter qs) : ps.map Point2.toInts = qs.map Point2.toInts := by
  simp only [Point2.toInts, Prod.mk.injEq] at h1 h2
  rw [visits_ints hb, visits_ints hc, h1.1, h1.2, h2.1, h2.2]

/-! Cases that meet the hypotheses -/

/-- A loop over 3 times 2 pixels -/
example : ∃ ps, Visits (⟨⟨i64 (-1), i64 0⟩, ⟨i64 2, i64 1⟩⟩ : Bounds2 (I64 true)).intoIter ps ∧
    ps.map Point2.toInts = [(0, 0), (1, 0), (2, 0), (0, 1), (1, 1), (2, 1)] :=
  C108_grid _ 3 2 (by decide) (by decide) (by decide +kernel) (by decide +kernel)

/-- The rectangle from `(0, 0)` to `(2, 2)` has area 4, but 8 points are visited. -/
example : ∀ ps, Visits (⟨⟨i64 0, i64 0⟩, ⟨i64 2, i64 2⟩⟩ : Bounds2 (I64 true)).intoIter ps → ps.length = 8 := by
  intro ps h
  have := C108_origin_count _ ps h (by decide +kernel) (by decide +kernel) (by decide +kernel)
  rw [show (i64 2).toInt = 2 by decide +kernel] at this
  omega

/-- A rectangle without width: ten points outside of it are visited. -/
example : ∃ ps, Visits (⟨⟨i64 5, i64 0⟩, ⟨i64 5, i64 2⟩⟩ : Bounds2 (I64 true)).intoIter ps ∧
    ps.map Point2.toInts = visitedPoints 5 0 5 2 ∧ visitedPoints 5 0 5 2 =
      [(0, 1), (1, 1), (2, 1), (3, 1), (4, 1), (5, 1), (0, 2), (1, 2), (2, 2), (3, 2), (4, 2), (5, 2)] := by
  obtain ⟨ps, h1, h2⟩ := C49_visits (⟨⟨i64 5, i64 0⟩, ⟨i64 5, i64 2⟩⟩ : Bounds2 (I64 true))
  exact ⟨ps, h1, h2, by decide +kernel⟩

end Pbrt
