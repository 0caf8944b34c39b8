import Verif.Proof.Inversion
import Verif.Spec.Units
import Mathlib.Algebra.BigOperators.Field
import Mathlib.Tactic.IntervalCases

/-!
# Rounding errors of Gauss-Jordan elimination

The defect of a state of the elimination is the matrix by which it misses the equations `y = M x`.
One step of the elimination passes the defect on, and adds the rounding errors of the step.
-/

namespace Pbrt

/-! ### The defect, in real numbers -/

/-- By how much `W` misses being the equations `y = M x` solved for the `x_i` with `i` in `S` -/
noncomputable def defect (W : Mat44 ℝ) (S : Finset (Fin 4)) (M : Mat44 ℝ) (i j : Fin 4) : ℝ :=
  (if j ∈ S then (if i = j then 1 else 0) else W i j) - (if i ∈ S then 0 else M i j) - ∑ k ∈ S, W i k * M k j

/-- The defect depends on the matrix linearly. -/
theorem defect_add (W E : Mat44 ℝ) (S : Finset (Fin 4)) (M : Mat44 ℝ) (i j : Fin 4) :
    defect (fun i k => W i k + E i k) S M i j =
      defect W S M i j + ((if j ∈ S then 0 else E i j) - ∑ k ∈ S, E i k * M k j) := by
  unfold defect
  simp only [add_mul, Finset.sum_add_distrib]
  split <;> ring

theorem defect_eliminated_pivot {W : Mat44 ℝ} {S : Finset (Fin 4)} {M : Mat44 ℝ} {c : Fin 4} (hc : c ∉ S)
    (hd : W c c ≠ 0) (j : Fin 4) :
    defect (eliminated W c) (insert c S) M c j = defect W S M c j / W c c := by
  have hS : ∑ k ∈ S, eliminated W c c k * M k j = (∑ k ∈ S, W c k * M k j) / W c c := by
    rw [Finset.sum_div]
    refine Finset.sum_congr rfl fun k hk => ?_
    have : k ≠ c := fun e => hc (e ▸ hk)
    simp only [eliminated, if_true, this, if_false]
    rw [← div_eq_mul_inv]; ring
  unfold defect
  rw [Finset.sum_insert hc, hS]
  simp only [Finset.mem_insert_self, if_true, hc, if_false]
  by_cases hj : j = c
  · subst hj
    simp only [Finset.mem_insert_self, if_true, hc, if_false, eliminated]
    field_simp
    ring
  · by_cases hjS : j ∈ S
    · simp only [Finset.mem_insert, hj, hjS, or_true, if_true, Ne.symm hj, if_false, eliminated]
      field_simp
      ring
    · simp only [Finset.mem_insert, hj, hjS, or_false, if_true, if_false, eliminated]
      field_simp
      ring

theorem defect_eliminated {W : Mat44 ℝ} {S : Finset (Fin 4)} {M : Mat44 ℝ} {c : Fin 4} (hc : c ∉ S)
    (hd : W c c ≠ 0) {i : Fin 4} (hi : i ≠ c) (j : Fin 4) :
    defect (eliminated W c) (insert c S) M i j = defect W S M i j - W i c * (defect W S M c j / W c c) := by
  have hS : ∑ k ∈ S, eliminated W c i k * M k j =
      ∑ k ∈ S, W i k * M k j - W i c * ((∑ k ∈ S, W c k * M k j) / W c c) := by
    rw [Finset.sum_div, Finset.mul_sum, ← Finset.sum_sub_distrib]
    refine Finset.sum_congr rfl fun k hk => ?_
    have : k ≠ c := fun e => hc (e ▸ hk)
    simp only [eliminated, hi, this, if_false]
    rw [← div_eq_mul_inv]; ring
  unfold defect
  rw [Finset.sum_insert hc, hS]
  simp only [hc, if_false]
  have hiS : i ∈ insert c S ↔ i ∈ S := by simp [hi]
  simp only [hiS]
  by_cases hj : j = c
  · subst hj
    simp only [Finset.mem_insert_self, if_true, hc, if_false, eliminated, hi]
    field_simp
    ring
  · by_cases hjS : j ∈ S
    · simp only [Finset.mem_insert, hjS, or_true, if_true, if_false, eliminated, hi]
      have : c ≠ j := Ne.symm hj
      simp only [this, if_false]
      field_simp
      ring
    · simp only [Finset.mem_insert, hj, hjS, or_false, if_false, eliminated, hi, if_true]
      field_simp
      ring

/-- Exchanging two rows without pivots -/
theorem defect_swap (W : Mat44 ℝ) {S : Finset (Fin 4)} (M : Mat44 ℝ) {r c : Fin 4} (hr : r ∉ S) (hc : c ∉ S)
    (i j : Fin 4) :
    defect (fun i k => W (Equiv.swap r c i) k) S (fun i k => M (Equiv.swap r c i) k) i j =
      defect W S M (Equiv.swap r c i) j := by
  have hfix : ∀ i ∈ S, Equiv.swap r c i = i := fun i hi =>
    Equiv.swap_apply_of_ne_of_ne (fun e => hr (e ▸ hi)) (fun e => hc (e ▸ hi))
  have hmem : Equiv.swap r c i ∈ S ↔ i ∈ S := by
    constructor
    · intro hi
      have := hfix _ hi
      rw [Equiv.swap_apply_self] at this
      rwa [← this] at hi
    · intro hi; rwa [hfix i hi]
  unfold defect
  have hsum : ∑ k ∈ S, W (Equiv.swap r c i) k * M (Equiv.swap r c k) j = ∑ k ∈ S, W (Equiv.swap r c i) k * M k j :=
    Finset.sum_congr rfl fun k hk => by rw [hfix k hk]
  rw [hsum]
  simp only [hmem]
  congr 2
  split
  · next hj =>
    congr 1
    by_cases hi : i ∈ S
    · rw [hfix i hi]
    · have h1 : i ≠ j := fun e => hi (e ▸ hj)
      have h2 : Equiv.swap r c i ≠ j := fun e => hi (hmem.1 (e ▸ hj))
      simp [h1, h2]
  · rfl

/-! ### One step -/

/-- Sizes of the entries: without pivot in row and column, with pivot in the row, in the column, in both;
    and of the defect: in rows without and with pivot. -/
structure Sized (W : Mat44 ℝ) (S : Finset (Fin 4)) (M : Mat44 ℝ) (u t v w d e : ℝ) : Prop where
  uu : ∀ i k, i ∉ S → k ∉ S → |W i k| ≤ u
  ru : ∀ i k, i ∈ S → k ∉ S → |W i k| ≤ t
  ur : ∀ i k, i ∉ S → k ∈ S → |W i k| ≤ v
  rr : ∀ i k, i ∈ S → k ∈ S → |W i k| ≤ w
  du : ∀ i j, i ∉ S → |defect W S M i j| ≤ d
  dr : ∀ i j, i ∈ S → |defect W S M i j| ≤ e

theorem Sized.swap {W : Mat44 ℝ} {S : Finset (Fin 4)} {M : Mat44 ℝ} {u t v w d e : ℝ}
    (h : Sized W S M u t v w d e) {r c : Fin 4} (hr : r ∉ S) (hc : c ∉ S) :
    Sized (fun i k => W (Equiv.swap r c i) k) S (fun i k => M (Equiv.swap r c i) k) u t v w d e := by
  have hfix : ∀ i ∈ S, Equiv.swap r c i = i := fun i hi =>
    Equiv.swap_apply_of_ne_of_ne (fun e => hr (e ▸ hi)) (fun e => hc (e ▸ hi))
  have hmem : ∀ i, i ∉ S → Equiv.swap r c i ∉ S := fun i h hi => by
    have := hfix _ hi
    rw [Equiv.swap_apply_self] at this
    rw [← this] at hi
    exact h hi
  refine ⟨fun i k hi => h.uu _ k (hmem i hi), fun i k hi => ?_, fun i k hi => h.ur _ k (hmem i hi),
    fun i k hi => ?_, fun i j hi => ?_, fun i j hi => ?_⟩
  · rw [hfix i hi]; exact h.ru i k hi
  · rw [hfix i hi]; exact h.rr i k hi
  · rw [defect_swap W M hr hc]; exact h.du _ j (hmem i hi)
  · rw [defect_swap W M hr hc, hfix i hi]; exact h.dr _ j hi

/-- The rounding errors of one step: `ε` is the unit roundoff, `q` a bound of the reciprocal pivot -/
structure StepErrors (W W' : Mat44 ℝ) (S : Finset (Fin 4)) (c : Fin 4) (ε q u t v w : ℝ) : Prop where
  pu : ∀ k, k ∉ S → k ≠ c → |W' c k - eliminated W c c k| ≤ 2.01 * ε
  pc : |W' c c - eliminated W c c c| ≤ 2.01 * ε * q
  pr : ∀ k, k ∈ S → |W' c k - eliminated W c c k| ≤ 2.01 * ε * v * q
  uu : ∀ i k, i ∉ S → i ≠ c → k ∉ S → k ≠ c → |W' i k - eliminated W c i k| ≤ 5.05 * ε * u
  uc : ∀ i, i ∉ S → i ≠ c → |W' i c - eliminated W c i c| ≤ 4.05 * ε
  ur : ∀ i k, i ∉ S → i ≠ c → k ∈ S → |W' i k - eliminated W c i k| ≤ 5.05 * ε * v
  ru : ∀ i k, i ∈ S → k ∉ S → k ≠ c → |W' i k - eliminated W c i k| ≤ 5.05 * ε * t
  rc : ∀ i, i ∈ S → |W' i c - eliminated W c i c| ≤ 4.05 * ε * t * q
  rr : ∀ i k, i ∈ S → k ∈ S → |W' i k - eliminated W c i k| ≤ ε * (w + 4.05 * t * v * q)

theorem abs_of_error {x y e b : ℝ} (h : |x - y| ≤ e) (hy : |y| ≤ b) : |x| ≤ b + e := by
  calc |x| = |y + (x - y)| := by ring_nf
    _ ≤ |y| + |x - y| := abs_add_le _ _
    _ ≤ _ := by linarith

theorem sum_bound {S : Finset (Fin 4)} {n : ℕ} (hn : S.card = n) {E : Fin 4 → ℝ} {m : Fin 4 → ℝ} {b a : ℝ}
    (hE : ∀ k ∈ S, |E k| ≤ b) (hm : ∀ k, |m k| ≤ a) : |∑ k ∈ S, E k * m k| ≤ n * (b * a) := by
  rcases S.eq_empty_or_nonempty with rfl | ⟨k0, hk0⟩
  · simp at hn; subst hn; simp
  have hb : 0 ≤ b := (abs_nonneg _).trans (hE k0 hk0)
  calc |∑ k ∈ S, E k * m k| ≤ ∑ k ∈ S, |E k * m k| := Finset.abs_sum_le_sum_abs _ _
    _ ≤ ∑ k ∈ S, b * a := Finset.sum_le_sum fun k hk => by
        rw [abs_mul]; exact mul_le_mul (hE k hk) (hm k) (abs_nonneg _) hb
    _ = _ := by rw [Finset.sum_const, hn, nsmul_eq_mul]

/-- One step of the elimination, with the pivot `W c c` at least as large as all entries in question -/
theorem Sized.step {W W' : Mat44 ℝ} {S : Finset (Fin 4)} {M : Mat44 ℝ} {c : Fin 4} {n : ℕ}
    {ε q a u t v w d e u' t' v' w' d' e' : ℝ}
    (h : Sized W S M u t v w d e) (hE : StepErrors W W' S c ε q u t v w) (hn : S.card = n) (hc : c ∉ S)
    (hM : ∀ i j, |M i j| ≤ a) (hd : W c c ≠ 0) (hmax : ∀ i k, i ∉ S → k ∉ S → |W i k| ≤ |W c c|)
    (hq : 1 / |W c c| ≤ q) (ht0 : 0 ≤ t) (hv0 : 0 ≤ v) (hd0 : 0 ≤ d) 
    (hu' : 2 * u + 5.05 * ε * u ≤ u') (ht1 : 1 + 2.01 * ε ≤ t') (ht2 : 2 * t + 5.05 * ε * t ≤ t')
    (hv1 : 1 + 4.05 * ε ≤ v') (hv2 : 2 * v + 5.05 * ε * v ≤ v')
    (hw1 : q + 2.01 * ε * q ≤ w') (hw2 : v * q + 2.01 * ε * v * q ≤ w') (hw3 : t * q + 4.05 * ε * t * q ≤ w')
    (hw4 : w + t * v * q + ε * (w + 4.05 * t * v * q) ≤ w')
    (hd' : 2 * d + 5.05 * ε * u + (4.05 * ε * a + n * (5.05 * ε * v * a)) ≤ d')
    (he1 : d * q + 2.01 * ε + (2.01 * ε * q * a + n * (2.01 * ε * v * q * a)) ≤ e')
    (he2 : e + t * (d * q) + 5.05 * ε * t + (4.05 * ε * t * q * a + n * (ε * (w + 4.05 * t * v * q) * a)) ≤ e')
    (hε : 0 ≤ ε) (hu0 : 0 ≤ u) :
    Sized W' (insert c S) M u' t' v' w' d' e' := by
  have hP : 0 < |W c c| := abs_pos.2 hd
  have hq0 : 0 ≤ q := (one_div_nonneg.2 hP.le).trans hq
  have hWW : ∀ x, |x| ≤ |W c c| → |x / W c c| ≤ 1 := fun x hx => by
    rw [abs_div]; exact (div_le_one hP).2 hx
  have hWq : ∀ x b, |x| ≤ b → |x / W c c| ≤ b * q := fun x b hx => by
    rw [abs_div, div_eq_mul_one_div]
    exact mul_le_mul hx hq (one_div_nonneg.2 hP.le) ((abs_nonneg _).trans hx)
  -- entries of the exact elimination
  have hne : ∀ k ∈ S, k ≠ c := fun k hk e => hc (e ▸ hk)
  have epk : ∀ k, k ≠ c → eliminated W c c k = W c k / W c c := fun k hk => by
    simp [eliminated, hk, div_eq_mul_inv]
  have epc : eliminated W c c c = 1 / W c c := by simp [eliminated]
  have eik : ∀ i k, i ≠ c → k ≠ c → eliminated W c i k = W i k - W c k / W c c * W i c := fun i k hi hk => by
    simp [eliminated, hi, hk, div_eq_mul_inv]
  have eic : ∀ i, i ≠ c → eliminated W c i c = - (1 / W c c * W i c) := fun i hi => by
    simp [eliminated, hi]
  have hW' : W' = fun i k => eliminated W c i k + (W' i k - eliminated W c i k) := by
    funext i k; ring
  have hp1 : ∀ i, i ∉ S → |1 / W c c * W i c| ≤ 1 := fun i hi => by
    rw [one_div_mul_eq_div]; exact hWW _ (hmax i c hi hc)
  -- the errors as they enter the defect
  have hsum : ∀ (i j : Fin 4) (b1 b2 : ℝ), |W' i c - eliminated W c i c| ≤ b1 →
      (∀ k ∈ S, |W' i k - eliminated W c i k| ≤ b2) →
      |∑ k ∈ insert c S, (W' i k - eliminated W c i k) * M k j| ≤ b1 * a + n * (b2 * a) := by
    intro i j b1 b2 h1 h2
    rw [Finset.sum_insert hc]
    refine (abs_add_le _ _).trans (add_le_add ?_ (sum_bound hn h2 fun k => hM k j))
    rw [abs_mul]
    exact mul_le_mul h1 (hM c j) (abs_nonneg _) ((abs_nonneg _).trans h1)
  have herr : ∀ (i j : Fin 4) (b0 b : ℝ), 0 ≤ b0 → (j ∉ insert c S → |W' i j - eliminated W c i j| ≤ b0) →
      |∑ k ∈ insert c S, (W' i k - eliminated W c i k) * M k j| ≤ b →
      |(if j ∈ insert c S then 0 else W' i j - eliminated W c i j) -
        ∑ k ∈ insert c S, (W' i k - eliminated W c i k) * M k j| ≤ b0 + b := by
    intro i j b0 b h0 h1 h2
    refine (abs_sub _ _).trans (add_le_add ?_ h2)
    split
    · simpa using h0
    · next hj => exact h1 hj
  have hins : ∀ k, k ∉ insert c S → k ≠ c ∧ k ∉ S := fun k hk => by
    simpa [Finset.mem_insert, not_or] using hk
  have hdef : ∀ i j, defect W' (insert c S) M i j = defect (eliminated W c) (insert c S) M i j +
      ((if j ∈ insert c S then 0 else W' i j - eliminated W c i j) -
        ∑ k ∈ insert c S, (W' i k - eliminated W c i k) * M k j) := fun i j => by
    conv_lhs => rw [hW']
    exact defect_add _ _ _ _ _ _
  refine ⟨fun i k hi hk => ?_, fun i k hi hk => ?_, fun i k hi hk => ?_, fun i k hi hk => ?_,
    fun i j hi => ?_, fun i j hi => ?_⟩
  · obtain ⟨hic, hiS⟩ := hins i hi
    obtain ⟨hkc, hkS⟩ := hins k hk
    refine (abs_of_error (hE.uu i k hiS hic hkS hkc) ?_).trans hu'
    rw [eik i k hic hkc]
    refine (abs_sub _ _).trans ?_
    rw [two_mul]
    refine add_le_add (h.uu i k hiS hkS) ?_
    rw [abs_mul]
    calc |W c k / W c c| * |W i c| ≤ 1 * u :=
          mul_le_mul (hWW _ (hmax c k hc hkS)) (h.uu i c hiS hc) (abs_nonneg _) zero_le_one
      _ = u := one_mul u
  · obtain ⟨hkc, hkS⟩ := hins k hk
    rcases Finset.mem_insert.1 hi with rfl | hiS
    · refine (abs_of_error (hE.pu k hkS hkc) ?_).trans ht1
      rw [epk k hkc]
      exact hWW _ (hmax _ k hc hkS)
    · refine (abs_of_error (hE.ru i k hiS hkS hkc) ?_).trans ht2
      rw [eik i k (hne i hiS) hkc]
      refine (abs_sub _ _).trans ?_
      rw [two_mul]
      refine add_le_add (h.ru i k hiS hkS) ?_
      rw [abs_mul]
      calc |W c k / W c c| * |W i c| ≤ 1 * t :=
            mul_le_mul (hWW _ (hmax c k hc hkS)) (h.ru i c hiS hc) (abs_nonneg _) zero_le_one
        _ = t := one_mul t
  · obtain ⟨hic, hiS⟩ := hins i hi
    rcases Finset.mem_insert.1 hk with rfl | hkS
    · refine (abs_of_error (hE.uc i hiS hic) ?_).trans hv1
      rw [eic i hic, abs_neg]
      exact hp1 i hiS
    · refine (abs_of_error (hE.ur i k hiS hic hkS) ?_).trans hv2
      rw [eik i k hic (hne k hkS)]
      refine (abs_sub _ _).trans ?_
      rw [two_mul]
      refine add_le_add (h.ur i k hiS hkS) ?_
      rw [show W c k / W c c * W i c = W c k * (1 / W c c * W i c) by ring, abs_mul]
      calc |W c k| * |1 / W c c * W i c| ≤ v * 1 :=
            mul_le_mul (h.ur c k hc hkS) (hp1 i hiS) (abs_nonneg _) hv0
        _ = v := mul_one v
  · rcases Finset.mem_insert.1 hi with rfl | hiS
    · rcases Finset.mem_insert.1 hk with rfl | hkS
      · refine (abs_of_error hE.pc ?_).trans hw1
        rw [epc, abs_div, abs_one]
        exact hq
      · refine (abs_of_error (hE.pr k hkS) ?_).trans hw2
        rw [epk k (hne k hkS)]
        exact hWq _ _ (h.ur _ k hc hkS)
    · rcases Finset.mem_insert.1 hk with rfl | hkS
      · refine (abs_of_error (hE.rc i hiS) ?_).trans hw3
        rw [eic i (hne i hiS), abs_neg, one_div_mul_eq_div]
        exact hWq _ _ (h.ru i _ hiS hc)
      · refine (abs_of_error (hE.rr i k hiS hkS) ?_).trans hw4
        rw [eik i k (hne i hiS) (hne k hkS)]
        refine (abs_sub _ _).trans (add_le_add (h.rr i k hiS hkS) ?_)
        rw [abs_mul]
        calc |W c k / W c c| * |W i c| ≤ v * q * t :=
              mul_le_mul (hWq _ _ (h.ur c k hc hkS)) (h.ru i c hiS hc) (abs_nonneg _) (mul_nonneg hv0 hq0)
          _ = t * v * q := by ring
  · obtain ⟨hic, hiS⟩ := hins i hi
    rw [hdef, defect_eliminated hc hd hic]
    refine (abs_add_le _ _).trans ((add_le_add (b := 2 * d) ?_ (herr i j _ _ (by positivity)
      (fun hj => hE.uu i j hiS hic (hins j hj).2 (hins j hj).1)
      (hsum i j _ _ (hE.uc i hiS hic) fun k hk => hE.ur i k hiS hic hk))).trans ?_)
    · refine (abs_sub _ _).trans ?_
      rw [two_mul]
      refine add_le_add (h.du i j hiS) ?_
      rw [show W i c * (defect W S M c j / W c c) = defect W S M c j * (1 / W c c * W i c) by ring, abs_mul]
      calc _ ≤ d * 1 := mul_le_mul (h.du c j hc) (hp1 i hiS) (abs_nonneg _) hd0
        _ = d := mul_one d
    · linarith
  · rcases Finset.mem_insert.1 hi with rfl | hiS
    · rw [hdef, defect_eliminated_pivot hc hd]
      refine (abs_add_le _ _).trans ((add_le_add (hWq _ _ (h.du _ j hc)) (herr _ j _ _ (by positivity)
        (fun hj => hE.pu j (hins j hj).2 (hins j hj).1)
        (hsum _ j _ _ hE.pc fun k hk => hE.pr k hk))).trans ?_)
      linarith
    · rw [hdef, defect_eliminated hc hd (hne i hiS)]
      refine (abs_add_le _ _).trans ((add_le_add (b := e + t * (d * q)) ?_ (herr i j _ _ (by positivity)
        (fun hj => hE.ru i j hiS (hins j hj).2 (hins j hj).1)
        (hsum i j _ _ (hE.rc i hiS) fun k hk => hE.rr i k hiS hk))).trans ?_)
      · refine (abs_sub _ _).trans (add_le_add (h.dr i j hiS) ?_)
        rw [abs_mul]
        exact mul_le_mul (h.ru i c hiS hc) (hWq _ _ (h.du c j hc)) (abs_nonneg _) ht0
      · linarith

/-- All pivots of a matrix with a small inverse are large. -/
theorem Sized.pivot {W : Mat44 ℝ} {S : Finset (Fin 4)} {M N : Mat44 ℝ} {u t v w d e p κ : ℝ} {i : Fin 4}
    (h : Sized W S M u t v w d e) (hi : i ∉ S) (hp : ∀ k, k ∉ S → |W i k| ≤ p)
    (hMN : ∀ i j, ∑ k, M i k * N k j = if i = j then 1 else 0) (hN : ∑ k, |N k i| ≤ κ) (hp0 : 0 ≤ p) :
    1 ≤ (p + d) * κ := by
  have hd0 : 0 ≤ d := (abs_nonneg _).trans (h.du i i hi)
  have key : ∑ j, ((if j ∈ S then 0 else W i j) - defect W S M i j) * N j i = 1 := by
    have h1 : ∀ j, (if j ∈ S then 0 else W i j) - defect W S M i j = M i j + ∑ k ∈ S, W i k * M k j := by
      intro j
      unfold defect
      rw [if_neg hi]
      by_cases hj : j ∈ S
      · have : i ≠ j := fun e => hi (e ▸ hj)
        simp only [hj, if_true, this, if_false]; ring
      · simp only [hj, if_false]; ring
    have h2 : ∀ j, ((if j ∈ S then 0 else W i j) - defect W S M i j) * N j i =
        M i j * N j i + ∑ k ∈ S, W i k * (M k j * N j i) := by
      intro j
      rw [h1, add_mul, Finset.sum_mul]
      congr 1
      exact Finset.sum_congr rfl fun k _ => by ring
    rw [Finset.sum_congr rfl fun j _ => h2 j, Finset.sum_add_distrib, hMN, if_pos rfl, Finset.sum_comm]
    have h3 : ∑ k ∈ S, ∑ j, W i k * (M k j * N j i) = 0 := Finset.sum_eq_zero fun k hk => by
      rw [← Finset.mul_sum, hMN, if_neg (fun h' : k = i => hi (h' ▸ hk)), mul_zero]
    rw [h3, add_zero]
  calc (1 : ℝ) = |∑ j, ((if j ∈ S then 0 else W i j) - defect W S M i j) * N j i| := by rw [key, abs_one]
    _ ≤ ∑ j, |((if j ∈ S then 0 else W i j) - defect W S M i j) * N j i| := Finset.abs_sum_le_sum_abs _ _
    _ ≤ ∑ j, (p + d) * |N j i| := Finset.sum_le_sum fun j _ => by
        rw [abs_mul]
        refine mul_le_mul_of_nonneg_right ((abs_sub _ _).trans (add_le_add ?_ (h.du i j hi))) (abs_nonneg _)
        split
        · simpa using hp0
        · next hj => exact hp j hj
    _ = (p + d) * ∑ j, |N j i| := by rw [Finset.mul_sum]
    _ ≤ _ := mul_le_mul_of_nonneg_left hN (by linarith)

/-! ### One step, with floats -/

section
variable {T : Type} [Elem T] [As T T] [FloatFns T] [IEEE T]

local notation "𝔽" => IEEE.fmt T
local notation "z" => (Elem.fromInt 0 : T)
local notation "o" => (Elem.fromInt 1 : T)
local notation "ε" => unitRoundoff T

/-- Rounding a number of size at most `B`, where `B` is not too small -/
theorem RN_near {x B : ℝ} (hx : |x| ≤ B) (hB : minNormal T ≤ B) : |(grid 𝔽).RN x - x| ≤ ε * B := by
  have he := eps_pos (T := T)
  rcases le_or_gt (minNormal T) |x| with h | h
  · exact (RN_error_rel (grid 𝔽) x (.inr h)).trans (mul_le_mul_of_nonneg_left hx he.le)
  · rcases eq_or_ne x 0 with rfl | hx0
    · rw [RN_zero]
      simp only [sub_self, abs_zero]
      exact mul_nonneg he.le ((abs_nonneg _).trans hx)
    refine (RN_half (grid 𝔽) x).trans ?_
    have h1 : (grid 𝔽).ulpExp x = (𝔽).minExponent := by
      refine max_eq_right ?_
      have h2 := Int.zpow_log_le_self (b := 2) (by norm_num) (abs_pos.2 hx0)
      push_cast at h2
      have h3 := (zpow_lt_zpow_iff_right₀ (by norm_num : (1 : ℝ) < 2)).1 (h2.trans_lt h)
      show Int.log 2 |x| + 1 - ((𝔽).mantissaBits : ℤ) ≤ (𝔽).minExponent
      omega
    rw [h1]
    calc (2 : ℝ) ^ (𝔽).minExponent / 2 = ε * minNormal T := by
          unfold unitRoundoff minNormal
          rw [← zpow_add₀ (by norm_num), show -((𝔽).mantissaBits : ℤ) + ((𝔽).minExponent + (𝔽).mantissaBits - 1) =
            (𝔽).minExponent - 1 by ring, zpow_sub₀ (by norm_num), zpow_one]
      _ ≤ ε * B := mul_le_mul_of_nonneg_left hB he.le

theorem round_near {f : T} {x B : ℝ} (h : Elem.isNan f = false ∧ ext f = rnd 𝔽 x) (hx : |x| ≤ B)
    (hB : minNormal T ≤ B) (hbig : 2 * B < big 𝔽) : IsFinite f ∧ |val f - x| ≤ ε * B := by
  have h1 := RN_near hx hB
  have h2 : |(grid 𝔽).RN x| < big 𝔽 := by
    have := abs_of_error h1 hx
    have he := eps_le_half (T := T)
    have hB0 : 0 ≤ B := (abs_nonneg _).trans hx
    have := mul_le_mul_of_nonneg_right he hB0
    linarith
  obtain ⟨h3, h4⟩ := abs_lt.1 h2
  have h5 : ext f = (((grid 𝔽).RN x : ℝ) : EReal) := by
    rw [h.2]
    unfold rnd
    rw [if_neg (by linarith), if_neg (by linarith)]
  obtain ⟨h6, h7⟩ := finite_of_ext h.1 h5
  exact ⟨h6, by rw [h7]; exact h1⟩

/-- An entry of the pivot row -/
theorem recip_near {x p : T} (hx : IsFinite x) (hp : IsFinite p) (hp0 : val p ≠ 0) {X : ℝ} (hX : |val x| ≤ X)
    (he : ε ≤ 1 / 1000) (h1 : minNormal T ≤ 1 / |val p|) (h2 : minNormal T ≤ X * (1 / |val p|))
    (hb1 : 4 * (1 / |val p|) < big 𝔽) (hb2 : 4 * (X * (1 / |val p|)) < big 𝔽) :
    IsFinite (fmul x (fdiv o p)) ∧ |val (fmul x (fdiv o p)) - val x / val p| ≤ 2.01 * ε * (X * (1 / |val p|)) := by
  have e0 := eps_pos (T := T)
  have hX0 : 0 ≤ X := (abs_nonneg _).trans hX
  have hg0 : 0 ≤ 1 / |val p| := by positivity
  obtain ⟨hr, hre⟩ := round_near (B := 1 / |val p|) (fdiv_rnd finite_one hp hp0)
    (by rw [val_one, abs_div, abs_one]) h1 (by linarith)
  rw [val_one] at hre
  have hxg : |val x / val p| ≤ X * (1 / |val p|) := by
    rw [abs_div, div_eq_mul_one_div]; exact mul_le_mul_of_nonneg_right hX hg0
  have hrr : |val (fdiv o p)| ≤ (1 + ε) * (1 / |val p|) := by
    have := abs_of_error hre (b := 1 / |val p|) (by rw [abs_div, abs_one])
    linarith
  have hprod : |val x * val (fdiv o p)| ≤ (1 + ε) * (X * (1 / |val p|)) := by
    rw [abs_mul]
    calc _ ≤ X * ((1 + ε) * (1 / |val p|)) := mul_le_mul hX hrr (abs_nonneg _) hX0
      _ = _ := by ring
  have hdiff : |val x * val (fdiv o p) - val x / val p| ≤ ε * (X * (1 / |val p|)) := by
    rw [show val x * val (fdiv o p) - val x / val p = val x * (val (fdiv o p) - 1 / val p) by ring, abs_mul]
    calc _ ≤ X * (ε * (1 / |val p|)) := mul_le_mul hX hre (abs_nonneg _) hX0
      _ = _ := by ring
  have hG0 : 0 ≤ X * (1 / |val p|) := mul_nonneg hX0 hg0
  generalize X * (1 / |val p|) = G at *
  have hεG : ε * G ≤ 1 / 1000 * G := mul_le_mul_of_nonneg_right he hG0
  have hεG0 : 0 ≤ ε * G := mul_nonneg e0.le hG0
  have hεεG : ε * (ε * G) ≤ 1 / 1000 * (ε * G) := mul_le_mul_of_nonneg_right he hεG0
  obtain ⟨hf, hfe⟩ := round_near (fmul_rnd hx hr) hprod (by linarith) (by linarith)
  refine ⟨hf, ?_⟩
  calc _ = |(val (fmul x (fdiv o p)) - val x * val (fdiv o p)) + (val x * val (fdiv o p) - val x / val p)| := by
        ring_nf
    _ ≤ ε * ((1 + ε) * G) + ε * G := (abs_add_le _ _).trans (add_le_add hfe hdiff)
    _ ≤ _ := by linarith

/-- An entry of another row -/
theorem minus_near {w y m : T} (hw : IsFinite w) (hy : IsFinite y) (hm : IsFinite m) {y0 Y A Z : ℝ}
    (hy0 : |y0| ≤ Y) (hyy : |val y - y0| ≤ 2.01 * ε * Y) (hmA : |val m| ≤ A) (hwZ : |val w| ≤ Z)
    (he : ε ≤ 1 / 1000) (h1 : minNormal T ≤ Y * A) (hb : 4 * (Z + Y * A) < big 𝔽) :
    IsFinite (fsub w (fmul y m)) ∧
      |val (fsub w (fmul y m)) - (val w - y0 * val m)| ≤ ε * (Z + 4.05 * (Y * A)) := by
  have e0 := eps_pos (T := T)
  have hY0 : 0 ≤ Y := (abs_nonneg _).trans hy0
  have hA0 : 0 ≤ A := (abs_nonneg _).trans hmA
  have hZ0 : 0 ≤ Z := (abs_nonneg _).trans hwZ
  have hyY : |val y| ≤ (1 + 2.01 * ε) * Y := by
    have := abs_of_error hyy hy0
    linarith
  have hprod : |val y * val m| ≤ (1 + 2.01 * ε) * (Y * A) := by
    rw [abs_mul, ← mul_assoc]
    exact mul_le_mul hyY hmA (abs_nonneg _) (by positivity)
  have hdiff : |val y * val m - y0 * val m| ≤ 2.01 * ε * (Y * A) := by
    rw [← sub_mul, abs_mul, ← mul_assoc]
    exact mul_le_mul hyy hmA (abs_nonneg _) (by positivity)
  have hG0 : 0 ≤ Y * A := mul_nonneg hY0 hA0
  generalize Y * A = G at *
  have hεG : ε * G ≤ 1 / 1000 * G := mul_le_mul_of_nonneg_right he hG0
  have hεG0 : 0 ≤ ε * G := mul_nonneg e0.le hG0
  have hεεG : ε * (ε * G) ≤ 1 / 1000 * (ε * G) := mul_le_mul_of_nonneg_right he hεG0
  obtain ⟨hf, hfe⟩ := round_near (fmul_rnd hy hm) hprod (by linarith) (by linarith)
  have hprod' : |val (fmul y m)| ≤ 1.01 * G := by
    have := abs_of_error hfe hprod
    linarith
  have hs : |val w - val (fmul y m)| ≤ Z + 1.01 * G := (abs_sub _ _).trans (add_le_add hwZ hprod')
  obtain ⟨hf', hfe'⟩ := round_near (fsub_rnd hw hf) hs (by linarith) (by linarith)
  refine ⟨hf', ?_⟩
  calc _ = |(val (fsub w (fmul y m)) - (val w - val (fmul y m))) +
        (-((val (fmul y m) - val y * val m) + (val y * val m - y0 * val m)))| := by ring_nf
    _ ≤ ε * (Z + 1.01 * G) + (ε * ((1 + 2.01 * ε) * G) + 2.01 * ε * G) := by
        refine (abs_add_le _ _).trans (add_le_add hfe' ?_)
        rw [abs_neg]
        exact (abs_add_le _ _).trans (add_le_add hfe hdiff)
    _ ≤ _ := by linarith

/-- One step of the elimination of a matrix of floats -/
theorem step_errors {W : Mat44 T} {S : Finset (Fin 4)} {M : Mat44 ℝ} {c : Fin 4} {q u t v w d e : ℝ}
    (h : Sized (fun i k => val (W i k)) S M u t v w d e) (hf : ∀ i k, IsFinite (W i k)) (hc : c ∉ S)
    (hd : val (W c c) ≠ 0) (hmax : ∀ i k, i ∉ S → k ∉ S → |val (W i k)| ≤ |val (W c c)|)
    (hq : 1 / |val (W c c)| ≤ q) (he : ε ≤ 1 / 1000) (hS : S.Nonempty → 1 ≤ t ∧ 1 ≤ v)
    (m1 : minNormal T ≤ 1 / |val (W c c)|) (m2 : minNormal T ≤ |val (W c c)|) (m3 : minNormal T ≤ 1)
    (b0 : 8 < big 𝔽) (b1 : 4 * q < big 𝔽) (bu : 8 * u < big 𝔽) (bt : 8 * t < big 𝔽) (bv : 8 * v < big 𝔽)
    (bvq : 4 * (v * q) < big 𝔽) (btq : 4 * (t * q) < big 𝔽) (bw : 4 * (w + t * v * q) < big 𝔽) :
    (∀ i k, IsFinite (feliminated W c i k)) ∧
    StepErrors (fun i k => val (W i k)) (fun i k => val (feliminated W c i k)) S c ε q u t v w := by
  have e0 := eps_pos (T := T)
  have hP : 0 < |val (W c c)| := abs_pos.2 hd
  have hne : ∀ k ∈ S, k ≠ c := fun k hk e => hc (e ▸ hk)
  have hPu : |val (W c c)| ≤ u := h.uu c c hc hc
  set g := 1 / |val (W c c)| with hg
  have hg0 : 0 < g := by positivity
  have hPg : |val (W c c)| * g = 1 := by rw [hg]; field_simp
  -- the pivot row
  have rowc : IsFinite (pivotRow W c c) ∧ |val (pivotRow W c c) - 1 / val (W c c)| ≤ 2.01 * ε * (1 * g) := by
    unfold pivotRow
    rw [if_pos rfl]
    have := recip_near finite_one (hf c c) hd (X := 1) (by rw [val_one, abs_one]) he m1 (by linarith)
      (by linarith) (by linarith)
    rwa [val_one] at this
  have rowu : ∀ k, k ∉ S → k ≠ c → IsFinite (pivotRow W c k) ∧
      |val (pivotRow W c k) - val (W c k) / val (W c c)| ≤ 2.01 * ε * (|val (W c c)| * g) := by
    intro k hk hkc
    unfold pivotRow
    rw [if_neg hkc]
    exact recip_near (hf c k) (hf c c) hd (hmax c k hc hk) he m1 (by rw [hPg]; exact m3)
      (by linarith) (by rw [hPg]; linarith)
  have rowr : ∀ k, k ∈ S → IsFinite (pivotRow W c k) ∧
      |val (pivotRow W c k) - val (W c k) / val (W c c)| ≤ 2.01 * ε * (v * g) := by
    intro k hk
    have hv1 := (hS ⟨k, hk⟩).2
    unfold pivotRow
    rw [if_neg (hne k hk)]
    refine recip_near (hf c k) (hf c c) hd (h.ur c k hc hk) he m1 ?_ (by linarith) ?_
    · exact m1.trans (le_mul_of_one_le_left hg0.le hv1)
    · have := mul_le_mul_of_nonneg_left hq (show 0 ≤ v by linarith)
      linarith
  have hexu : ∀ k, k ∉ S → |val (W c k) / val (W c c)| ≤ |val (W c c)| * g := fun k hk => by
    rw [hPg, abs_div]; exact (div_le_one hP).2 (hmax c k hc hk)
  have hexc : |1 / val (W c c)| ≤ 1 * g := by rw [one_mul, abs_div, abs_one]
  have hexr : ∀ k, k ∈ S → |val (W c k) / val (W c c)| ≤ v * g := fun k hk => by
    rw [abs_div, div_eq_mul_one_div]; exact mul_le_mul_of_nonneg_right (h.ur c k hc hk) hg0.le
  -- the other rows
  have key : ∀ i k, i ≠ c → ∀ (y0 Y A Z : ℝ), IsFinite (pivotRow W c k) → |y0| ≤ Y →
      |val (pivotRow W c k) - y0| ≤ 2.01 * ε * Y → |val (W i c)| ≤ A →
      |val (if k = c then z else W i k)| ≤ Z → minNormal T ≤ Y * A → 4 * (Z + Y * A) < big 𝔽 →
      IsFinite (feliminated W c i k) ∧ |val (feliminated W c i k) -
        (val (if k = c then z else W i k) - y0 * val (W i c))| ≤ ε * (Z + 4.05 * (Y * A)) := by
    intro i k hi y0 Y A Z hrow h1 h2 h3 h4 h5 h6
    unfold feliminated
    rw [if_neg hi]
    refine minus_near ?_ hrow (hf i c) h1 h2 h3 h4 he h5 h6
    split
    · exact finite_zero
    · exact hf i k
  have kuu : ∀ i k, i ∉ S → i ≠ c → k ∉ S → k ≠ c → IsFinite (feliminated W c i k) ∧
      |val (feliminated W c i k) - (val (W i k) - val (W c k) / val (W c c) * val (W i c))| ≤ 5.05 * ε * u := by
    intro i k hi hic hk hkc
    have := key i k hic _ _ _ u (rowu k hk hkc).1 (hexu k hk) (rowu k hk hkc).2 (hmax i c hi hc)
      (by rw [if_neg hkc]; exact h.uu i k hi hk) (by rw [hPg]; linarith) (by rw [hPg]; linarith)
    rw [if_neg hkc, hPg, one_mul] at this
    refine ⟨this.1, this.2.trans ?_⟩
    have := mul_le_mul_of_nonneg_left hPu e0.le
    linarith
  have kuc : ∀ i, i ∉ S → i ≠ c → IsFinite (feliminated W c i c) ∧
      |val (feliminated W c i c) - (0 - 1 / val (W c c) * val (W i c))| ≤ 4.05 * ε := by
    intro i hi hic
    have := key i c hic _ _ _ 0 rowc.1 hexc rowc.2 (hmax i c hi hc)
      (by rw [if_pos rfl, val_zero, abs_zero]) (by rw [one_mul, mul_comm, hPg]; linarith)
      (by rw [one_mul, mul_comm g, hPg]; linarith)
    rw [if_pos rfl, val_zero, one_mul, mul_comm g, hPg] at this
    exact ⟨this.1, this.2.trans (by linarith)⟩
  have kur : ∀ i k, i ∉ S → i ≠ c → k ∈ S → IsFinite (feliminated W c i k) ∧
      |val (feliminated W c i k) - (val (W i k) - val (W c k) / val (W c c) * val (W i c))| ≤ 5.05 * ε * v := by
    intro i k hi hic hk
    have hv1 := (hS ⟨k, hk⟩).2
    have hvg : v * g * |val (W c c)| = v := by rw [mul_assoc, mul_comm g, hPg, mul_one]
    have := key i k hic _ _ _ v (rowr k hk).1 (hexr k hk) (rowr k hk).2 (hmax i c hi hc)
      (by rw [if_neg (hne k hk)]; exact h.ur i k hi hk) (by rw [hvg]; linarith) (by rw [hvg]; linarith)
    rw [if_neg (hne k hk), hvg] at this
    exact ⟨this.1, this.2.trans (by linarith)⟩
  have kru : ∀ i k, i ∈ S → k ∉ S → k ≠ c → IsFinite (feliminated W c i k) ∧
      |val (feliminated W c i k) - (val (W i k) - val (W c k) / val (W c c) * val (W i c))| ≤ 5.05 * ε * t := by
    intro i k hi hk hkc
    have ht1 := (hS ⟨i, hi⟩).1
    have := key i k (hne i hi) _ _ _ t (rowu k hk hkc).1 (hexu k hk) (rowu k hk hkc).2 (h.ru i c hi hc)
      (by rw [if_neg hkc]; exact h.ru i k hi hk) (by rw [hPg]; linarith) (by rw [hPg]; linarith)
    rw [if_neg hkc, hPg, one_mul] at this
    exact ⟨this.1, this.2.trans (by linarith)⟩
  have krc : ∀ i, i ∈ S → IsFinite (feliminated W c i c) ∧
      |val (feliminated W c i c) - (0 - 1 / val (W c c) * val (W i c))| ≤ 4.05 * ε * t * q := by
    intro i hi
    have ht1 := (hS ⟨i, hi⟩).1
    have htg : g ≤ t * g := le_mul_of_one_le_left hg0.le ht1
    have htq : t * g ≤ t * q := mul_le_mul_of_nonneg_left hq (by linarith)
    have := key i c (hne i hi) _ _ _ 0 rowc.1 hexc rowc.2 (h.ru i c hi hc)
      (by rw [if_pos rfl, val_zero, abs_zero]) (by rw [one_mul, mul_comm]; linarith)
      (by rw [one_mul, mul_comm g]; linarith)
    rw [if_pos rfl, val_zero, one_mul, mul_comm g] at this
    refine ⟨this.1, this.2.trans ?_⟩
    have := mul_le_mul_of_nonneg_left htq e0.le
    linarith
  have krr : ∀ i k, i ∈ S → k ∈ S → IsFinite (feliminated W c i k) ∧
      |val (feliminated W c i k) - (val (W i k) - val (W c k) / val (W c c) * val (W i c))| ≤
        ε * (w + 4.05 * t * v * q) := by
    intro i k hi hk
    obtain ⟨ht1, hv1⟩ := hS ⟨k, hk⟩
    have hvt : 1 ≤ v * t := one_le_mul_of_one_le_of_one_le hv1 ht1
    have h1 : g ≤ v * g * t := by
      calc g ≤ v * t * g := le_mul_of_one_le_left hg0.le hvt
        _ = _ := by ring
    have h2 : v * g * t ≤ t * v * q := by
      calc v * g * t = v * t * g := by ring
        _ ≤ v * t * q := mul_le_mul_of_nonneg_left hq (by linarith)
        _ = _ := by ring
    have := key i k (hne i hi) _ _ _ w (rowr k hk).1 (hexr k hk) (rowr k hk).2 (h.ru i c hi hc)
      (by rw [if_neg (hne k hk)]; exact h.rr i k hi hk) (by linarith) (by linarith)
    rw [if_neg (hne k hk)] at this
    exact ⟨this.1, this.2.trans (mul_le_mul_of_nonneg_left (by linarith) e0.le)⟩
  have epk : ∀ k, k ≠ c → eliminated (fun i k => val (W i k)) c c k = val (W c k) / val (W c c) := fun k hk => by
    simp [eliminated, hk, div_eq_mul_inv]
  have epc : eliminated (fun i k => val (W i k)) c c c = 1 / val (W c c) := by simp [eliminated]
  have eik : ∀ i k, i ≠ c → k ≠ c → eliminated (fun i k => val (W i k)) c i k =
      val (W i k) - val (W c k) / val (W c c) * val (W i c) := fun i k hi hk => by
    simp [eliminated, hi, hk, div_eq_mul_inv]
  have eic : ∀ i, i ≠ c → eliminated (fun i k => val (W i k)) c i c = 0 - 1 / val (W c c) * val (W i c) :=
    fun i hi => by simp [eliminated, hi]
  have fc : ∀ k, feliminated W c c k = pivotRow W c k := fun k => by simp [feliminated]
  refine ⟨fun i k => ?_, ⟨fun k hk hkc => ?_, ?_, fun k hk => ?_, fun i k hi hic hk hkc => ?_, fun i hi hic => ?_,
    fun i k hi hic hk => ?_, fun i k hi hk hkc => ?_, fun i hi => ?_, fun i k hi hk => ?_⟩⟩
  · by_cases hi : i = c
    · subst hi
      rw [fc]
      by_cases hk : k = i
      · subst hk; exact rowc.1
      · by_cases hkS : k ∈ S
        · exact (rowr k hkS).1
        · exact (rowu k hkS hk).1
    · by_cases hk : k = c
      · subst hk
        by_cases hiS : i ∈ S
        · exact (krc i hiS).1
        · exact (kuc i hiS hi).1
      · by_cases hiS : i ∈ S <;> by_cases hkS : k ∈ S
        · exact (krr i k hiS hkS).1
        · exact (kru i k hiS hkS hk).1
        · exact (kur i k hiS hi hkS).1
        · exact (kuu i k hiS hi hkS hk).1
  · rw [epk k hkc, fc]
    have := (rowu k hk hkc).2
    rwa [hPg, mul_one] at this
  · rw [epc, fc]
    refine rowc.2.trans ?_
    rw [one_mul]
    exact mul_le_mul_of_nonneg_left hq (by positivity)
  · rw [epk k (hne k hk), fc]
    refine (rowr k hk).2.trans ?_
    have hv1 := (hS ⟨k, hk⟩).2
    rw [mul_assoc (2.01 * ε)]
    exact mul_le_mul_of_nonneg_left (mul_le_mul_of_nonneg_left hq (by linarith)) (by positivity)
  · rw [eik i k hic hkc]; exact (kuu i k hi hic hk hkc).2
  · rw [eic i hic]; exact (kuc i hi hic).2
  · rw [eik i k hic (hne k hk)]; exact (kur i k hi hic hk).2
  · rw [eik i k (hne i hi) hkc]; exact (kru i k hi hk hkc).2
  · rw [eic i (hne i hi)]; exact (krc i hi).2
  · rw [eik i k (hne i hi) (hne k hk)]; exact (krr i k hi hk).2

/-! ### All steps -/

/-- How entries grow -/
noncomputable def growU : ℕ → ℝ | 0 => 1 | 1 => 2.001 | 2 => 4.01 | 3 => 8.1 | _ => 17
noncomputable def growT : ℕ → ℝ | 0 => 0 | 1 => 1.001 | 2 => 2.01 | 3 => 4.05 | _ => 9
noncomputable def growW : ℕ → ℝ | 0 => 0 | 1 => 1.001 | 2 => 2.01 | 3 => 6.1 | _ => 22.7
/-- How the defect grows -/
noncomputable def growD : ℕ → ℝ | 0 => 0 | 1 => 9.2 | 2 => 38 | 3 => 121 | _ => 350
noncomputable def growE : ℕ → ℝ | 0 => 0 | 1 => 4.1 | 2 => 28 | 3 => 160 | _ => 906

/-- The invariant of the main loop: the sizes of entries and defect -/
def StableInv (A : Mat44 ℝ) (a q : ℝ) (n : ℕ) (s : InvState T) : Prop :=
  ∃ S : Finset (Fin 4), S.card = n ∧ (∀ k, s.ipiv k = if k ∈ S then 1 else 0) ∧ (∀ i k, IsFinite (s.minv i k)) ∧
    Sized (fun i k => val (s.minv i k)) S (fun i k => A (rowPerm s.indxr s.indxc n i) k)
      (growU n * a) (growT n) (growT n) (growW n * q) (growD n * ε * a) (growE n * ε * a * q)

/-- The numbers of the table -/
theorem grow_step {e a q : ℝ} (he0 : 0 ≤ e) (he : e ≤ 1 / 1000000) (ha : 0 ≤ a) (hq : 0 ≤ q) (haq : 1 ≤ a * q)
    {n : ℕ} (hn : n < 4) :
    2 * (growU n * a) + 5.05 * e * (growU n * a) ≤ growU (n + 1) * a ∧
    1 + 2.01 * e ≤ growT (n + 1) ∧ 2 * growT n + 5.05 * e * growT n ≤ growT (n + 1) ∧
    1 + 4.05 * e ≤ growT (n + 1) ∧
    q + 2.01 * e * q ≤ growW (n + 1) * q ∧
    growT n * q + 2.01 * e * growT n * q ≤ growW (n + 1) * q ∧
    growT n * q + 4.05 * e * growT n * q ≤ growW (n + 1) * q ∧
    growW n * q + growT n * growT n * q + e * (growW n * q + 4.05 * growT n * growT n * q) ≤ growW (n + 1) * q ∧
    2 * (growD n * e * a) + 5.05 * e * (growU n * a) + (4.05 * e * a + n * (5.05 * e * growT n * a)) ≤
      growD (n + 1) * e * a ∧
    growD n * e * a * q + 2.01 * e + (2.01 * e * q * a + n * (2.01 * e * growT n * q * a)) ≤
      growE (n + 1) * e * a * q ∧
    growE n * e * a * q + growT n * (growD n * e * a * q) + 5.05 * e * growT n +
      (4.05 * e * growT n * q * a + n * (e * (growW n * q + 4.05 * growT n * growT n * q) * a)) ≤
      growE (n + 1) * e * a * q := by
  have h1 : e * a ≤ 1 / 1000000 * a := mul_le_mul_of_nonneg_right he ha
  have h2 : e * q ≤ 1 / 1000000 * q := mul_le_mul_of_nonneg_right he hq
  have h3 : e ≤ e * (a * q) := le_mul_of_one_le_right he0 haq
  have h4 : 0 ≤ e * a := mul_nonneg he0 ha
  have h5 : 0 ≤ e * q := mul_nonneg he0 hq
  interval_cases n <;> simp only [growU, growT, growW, growD, growE, Nat.cast_zero, Nat.cast_one, Nat.cast_ofNat] <;>
    refine ⟨?_, ?_, ?_, ?_, ?_, ?_, ?_, ?_, ?_, ?_, ?_⟩ <;> linarith

theorem grow_bounds {n : ℕ} (hn : n < 4) : 1 ≤ growU n ∧ growU n ≤ 8.1 ∧ 0 ≤ growT n ∧ growT n ≤ 4.05 ∧
    0 ≤ growW n ∧ growW n ≤ 6.1 ∧ 0 ≤ growD n ∧ growD n ≤ 121 ∧ (0 < n → 1 ≤ growT n) := by
  interval_cases n <;> simp only [growU, growT, growW, growD] <;> norm_num

theorem stableStep {A N : Mat44 ℝ} {a κ : ℝ} (hA : ∀ i j, |A i j| ≤ a)
    (hAN : ∀ i j, ∑ k, A i k * N k j = if i = j then 1 else 0) (hN : ∀ j, ∑ k, |N k j| ≤ κ)
    (he : ε ≤ 1 / 1000000) (hcond : 2000 * ε * a * κ ≤ 1) (ha : 32 * a * minNormal T ≤ 1)
    (hκ : 32 * κ * minNormal T ≤ 1) (hbig : 4 ≤ big 𝔽 * minNormal T) (hm : minNormal T ≤ 1 / 100)
    (i : Fin 4) (s : InvState T) (h : StableInv A a (1.065 * κ) i s) :
    ∃ s', invStep i s = .ok s' ∧ StableInv A a (1.065 * κ) (i + 1) s' := by
  obtain ⟨S, hcard, hpiv, hfin, hsz⟩ := h
  have e0 := eps_pos (T := T)
  have hm0 : 0 < minNormal T := two_zpow_pos _
  have ha0 : 0 ≤ a := (abs_nonneg _).trans (hA 0 0)
  have hκ0 : 0 ≤ κ := (Finset.sum_nonneg fun k _ => abs_nonneg _).trans (hN 0)
  have haκ : 1 ≤ a * κ := by
    calc (1 : ℝ) = |∑ k, A 0 k * N k 0| := by rw [hAN, if_pos rfl, abs_one]
      _ ≤ ∑ k, |A 0 k * N k 0| := Finset.abs_sum_le_sum_abs _ _
      _ ≤ ∑ k, a * |N k 0| := Finset.sum_le_sum fun k _ => by
          rw [abs_mul]; exact mul_le_mul_of_nonneg_right (hA 0 k) (abs_nonneg _)
      _ = a * ∑ k, |N k 0| := by rw [Finset.mul_sum]
      _ ≤ _ := mul_le_mul_of_nonneg_left (hN 0) ha0
  have hκpos : 0 < κ := by
    rcases hκ0.eq_or_lt with h | h
    · rw [← h, mul_zero] at haκ; linarith
    · exact h
  have hab : 128 * a ≤ big 𝔽 := by
    refine le_of_mul_le_mul_right ?_ hm0
    linarith
  have hκb : 128 * κ ≤ big 𝔽 := by
    refine le_of_mul_le_mul_right ?_ hm0
    linarith
  have hb : 400 ≤ big 𝔽 := by
    by_contra hlt
    push Not at hlt
    have := mul_lt_mul_of_pos_right hlt hm0
    linarith
  obtain ⟨k0, hk0⟩ : ∃ k0, k0 ∉ S := by
    by_contra hall
    push Not at hall
    have : S = Finset.univ := Finset.eq_univ_iff_forall.2 hall
    rw [this] at hcard
    simp at hcard
    have := i.isLt
    omega
  have hS : ∀ k, s.ipiv k = 0 ↔ k ∉ S := fun k => by rw [hpiv]; split <;> simp_all
  obtain ⟨p, hp, hpr, hpc, hmax⟩ := choosePivot_float s.ipiv s.minv
    (fun k => by rw [hpiv]; split <;> omega) (fun j k _ _ => hfin j k) ⟨k0, (hS k0).2 hk0⟩
  rw [hS] at hpr hpc
  set σ := rowPerm s.indxr s.indxc i with hσ
  have hmx : ∀ j k, j ∉ S → k ∉ S → |val (s.minv j k)| ≤ |val (s.minv p.irow p.icol)| :=
    fun j k hj hk => (hmax j k ((hS j).2 hj) ((hS k).2 hk)).1
  obtain ⟨gu1, gu2, gt1, gt2, gw1, gw2, gd1, gd2, gt3⟩ := grow_bounds i.isLt
  -- the pivot is not small
  have hpκ : 0.9395 ≤ |val (s.minv p.irow p.icol)| * κ := by
    have := hsz.pivot (N := fun k j => N k (σ j)) (κ := κ) hpr (fun k hk => hmx p.irow k hpr hk)
      (fun i j => by simp only [hAN, σ.injective.eq_iff]) (hN _) (abs_nonneg _)
    have h1 : growD i * ε * a * κ ≤ 121 * ε * a * κ := by gcongr
    linarith
  have hp0 : 0 < |val (s.minv p.irow p.icol)| := by
    rcases (abs_nonneg (val (s.minv p.irow p.icol))).eq_or_lt with h | h
    · rw [← h] at hpκ; norm_num at hpκ
    · exact h
  have hq : 1 / |val (s.minv p.irow p.icol)| ≤ 1.065 * κ := by
    rw [div_le_iff₀ hp0]
    linarith
  have hpu : |val (s.minv p.irow p.icol)| ≤ 8.1 * a :=
    (hsz.uu _ _ hpr hpc).trans (mul_le_mul_of_nonneg_right gu2 ha0)
  have hnz : Elem.eq (s.minv p.irow p.icol) z = false := by
    rw [Bool.eq_false_iff, ne_eq, eq_iff_val (hfin _ _) finite_zero, val_zero]
    exact abs_pos.1 hp0
  refine ⟨_, invStep_float i s p hp hnz, insert p.icol S, by rw [Finset.card_insert_of_notMem hpc, hcard],
    fun k => ?_, ?_⟩
  · simp only [hpiv, Finset.mem_insert]
    by_cases hk : k = p.icol
    · subst hk; simp [hpc]
    · simp [hk]
  have hσ' : rowPerm (fun k => if k = i then p.irow else s.indxr k)
      (fun k => if k = i then p.icol else s.indxc k) (i + 1) = σ * Equiv.swap p.irow p.icol := by
    simp only [rowPerm, i.isLt, dif_pos, Fin.eta, if_true]
    rw [rowPerm_congr (r' := s.indxr) (c' := s.indxc) i
      (fun j hj => if_neg fun e => by subst e; exact lt_irrefl _ hj)
      (fun j hj => if_neg fun e => by subst e; exact lt_irrefl _ hj)]
  simp only [hσ']
  have hsw := hsz.swap hpr hpc
  have hWc : s.minv (Equiv.swap p.irow p.icol p.icol) p.icol = s.minv p.irow p.icol := by
    rw [Equiv.swap_apply_right]
  have hmem : ∀ i, i ∉ S → Equiv.swap p.irow p.icol i ∉ S := fun i h hi => by
    rw [Equiv.swap_apply_def] at hi
    split at hi
    · exact hpc hi
    · split at hi
      · exact hpr hi
      · exact h hi
  have hmW : ∀ j k, j ∉ S → k ∉ S → |val (s.minv (Equiv.swap p.irow p.icol j) k)| ≤
      |val (s.minv (Equiv.swap p.irow p.icol p.icol) p.icol)| := fun j k hj hk => by
    rw [hWc]; exact hmx _ k (hmem j hj) hk
  have hcases : S.Nonempty → 1 ≤ growT i ∧ 1 ≤ growT i := fun h => by
    have h1 := Finset.card_pos.2 h
    have := gt3 (by omega)
    exact ⟨this, this⟩
  have tt : growT i * growT i ≤ 4.05 * 4.05 := mul_le_mul gt2 gt2 gt1 (by norm_num)
  have k1 : growT i * (1.065 * κ) ≤ 4.05 * (1.065 * κ) := mul_le_mul_of_nonneg_right gt2 (by positivity)
  have k2 : growW i * (1.065 * κ) ≤ 6.1 * (1.065 * κ) := mul_le_mul_of_nonneg_right gw2 (by positivity)
  have k3 : growT i * growT i * (1.065 * κ) ≤ 4.05 * 4.05 * (1.065 * κ) :=
    mul_le_mul_of_nonneg_right tt (by positivity)
  have k4 : growU i * a ≤ 8.1 * a := mul_le_mul_of_nonneg_right gu2 ha0
  have hapos : 0 < a := by linarith
  have m2 : minNormal T ≤ |val (s.minv p.irow p.icol)| := by
    refine le_of_mul_le_mul_right ?_ hκpos
    linarith
  obtain ⟨hfin', herr⟩ := step_errors (q := 1.065 * κ) hsw (fun i k => hfin _ _) hpc
    (by rw [hWc]; exact abs_pos.1 hp0) hmW (by rw [hWc]; exact hq) (by linarith) hcases
    (by
      rw [hWc, le_div_iff₀ hp0]
      have := mul_le_mul_of_nonneg_left hpu hm0.le
      linarith)
    (by rw [hWc]; exact m2) (by linarith) (by linarith) (by linarith) (by linarith) (by linarith) (by linarith)
    (by linarith) (by linarith) (by linarith)
  refine ⟨hfin', ?_⟩
  obtain ⟨s1, s2, s3, s4, s5, s6, s7, s8, s9, s10, s11⟩ := grow_step (a := a) (q := 1.065 * κ) e0.le he ha0
    (by positivity) (by linarith) i.isLt
  refine hsw.step herr hcard hpc (fun i j => hA _ j) (by rw [hWc]; exact abs_pos.1 hp0) hmW (by rw [hWc]; exact hq)
    gt1 gt1 (by positivity) s1 s2 s3 s4 s3 s5 s6 s7 s8 s9 s10 s11 e0.le (by positivity)

/-- **The error of `inverse`**: `X A` differs from the identity by at most `1000 ε a κ`, where `a` bounds the
    entries of the matrix and `κ` the columns of its inverse. -/
theorem stable_inverse {U : Type} [As U T] (m : Matrix4 U) {A N : Mat44 ℝ} {a κ : ℝ}
    (hfin : ∀ i j, IsFinite (As.as_ (m.mat i j) : T)) (hm : ∀ i j, val (As.as_ (m.mat i j) : T) = A i j)
    (hA : ∀ i j, |A i j| ≤ a)
    (hAN : ∀ i j, ∑ k, A i k * N k j = if i = j then 1 else 0) (hN : ∀ j, ∑ k, |N k j| ≤ κ)
    (he : ε ≤ 1 / 1000000) (hcond : 2000 * ε * a * κ ≤ 1) (ha : 32 * a * minNormal T ≤ 1)
    (hκ : 32 * κ * minNormal T ≤ 1) (hbig : 4 ≤ big 𝔽 * minNormal T) (hmin : minNormal T ≤ 1 / 100) :
    ∃ b : Matrix4 T, m.inverse = .ok b ∧ (∀ i j, IsFinite (b.mat i j)) ∧
      ∀ i j, |∑ k, val (b.mat i k) * A k j - if i = j then 1 else 0| ≤ 1000 * ε * a * κ := by
  obtain ⟨s, hs, S, hcard, -, hf, hsz⟩ := for4_inv (P := StableInv (T := T) A a (1.065 * κ)) (f := invStep)
    (s := ⟨fun _ => 0, fun _ => 0, fun _ => 0, (toMat4f m : Matrix4 T).mat⟩)
    ⟨∅, rfl, fun k => by simp, fun i k => hfin i k, by
      refine ⟨fun i k _ _ => ?_, fun i k h => absurd h (Finset.notMem_empty _),
        fun i k _ h => absurd h (Finset.notMem_empty _), fun i k h => absurd h (Finset.notMem_empty _),
        fun i j _ => ?_, fun i k h => absurd h (Finset.notMem_empty _)⟩
      · simp only [growU, one_mul]
        show |val (As.as_ (m.mat i k) : T)| ≤ a
        rw [hm]; exact hA i k
      · have : defect (fun i k => val ((toMat4f m : Matrix4 T).mat i k)) ∅ (fun i k => A (rowPerm (fun _ => 0) (fun _ => 0) 0 i) k) i j = 0 := by
          show defect (fun i k => val (As.as_ (m.mat i k) : T)) ∅ (fun i k => A i k) i j = 0
          simp [defect, hm]
        simp only [growD]
        rw [this]; simp⟩
    (fun i s h => stableStep hA hAN hN he hcond ha hκ hbig hmin i s h)
  obtain rfl : S = Finset.univ := Finset.eq_univ_of_card S hcard
  set σ := rowPerm s.indxr s.indxc 4 with hσ
  refine ⟨⟨fun i k => s.minv i (σ.symm k)⟩, ?_, fun i j => hf _ _, fun i j => ?_⟩
  · unfold Matrix4.inverse
    simp only []
    rw [hs, ok_bind, for4rev_ok fun j m => swapCols_value m (s.indxr j) (s.indxc j), ok_bind]
    simp only [hσ, rowPerm, Equiv.symm]
    rfl
  · have := hsz.dr i j (Finset.mem_univ _)
    unfold defect at this
    simp only [Finset.mem_univ, if_true, sub_zero, growE] at this
    rw [abs_sub_comm]
    have e1 : ∑ k, val (s.minv i (σ.symm k)) * A k j = ∑ k, val (s.minv i k) * A (σ k) j := by
      rw [← Equiv.sum_comp σ]
      exact Finset.sum_congr rfl fun k _ => by rw [Equiv.symm_apply_apply]
    rw [e1]
    refine this.trans ?_
    have e0 := eps_pos (T := T)
    have ha0 : 0 ≤ a := (abs_nonneg _).trans (hA 0 0)
    have hκ0 : 0 ≤ κ := (Finset.sum_nonneg fun k _ => abs_nonneg _).trans (hN 0)
    have : 0 ≤ ε * a * κ := by positivity
    linarith

end

end Pbrt
