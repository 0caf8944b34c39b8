import Verif.Model.Transform
import Verif.Proof.Exact
import Mathlib.Data.Matrix.Basic
import Mathlib.LinearAlgebra.Matrix.NonsingularInverse
import Mathlib.Algebra.BigOperators.Fin
import Mathlib.Tactic.FieldSimp
import Mathlib.Tactic.LinearCombination

/-!
# The loops of `matrix.rs`, and Gauss-Jordan elimination
-/

namespace Pbrt

/-! ### Loops -/

section
variable {S T : Type}

theorem for4_eq (s : S) (f : Fin 4 → S → Outcome S) :
    for4 s f = (do let s ← f 0 s; let s ← f 1 s; let s ← f 2 s; f 3 s) := by
  simp only [for4, List.foldlM_cons, List.foldlM_nil, bind_pure]

theorem for4rev_eq (s : S) (f : Fin 4 → S → Outcome S) :
    for4rev s f = (do let s ← f 3 s; let s ← f 2 s; let s ← f 1 s; f 0 s) := by
  simp only [for4rev, List.foldlM_cons, List.foldlM_nil, bind_pure]

theorem for4rev_ok {s : S} {f : Fin 4 → S → Outcome S} {g : Fin 4 → S → S}
    (h : ∀ i s, f i s = .ok (g i s)) : for4rev s f = .ok (g 0 (g 1 (g 2 (g 3 s)))) := by
  simp [for4rev_eq, h]

/-- A loop whose body does not fail -/
def fold4 (s : S) (g : Fin 4 → S → S) : S := g 3 (g 2 (g 1 (g 0 s)))

theorem for4_ok {s : S} {f : Fin 4 → S → Outcome S} {g : Fin 4 → S → S}
    (h : ∀ i s, f i s = .ok (g i s)) : for4 s f = .ok (fold4 s g) := by
  simp [for4_eq, h, fold4]

/-- A loop with an invariant -/
theorem for4_inv {P : Nat → S → Prop} {f : Fin 4 → S → Outcome S} {s : S} (h0 : P 0 s)
    (h : ∀ (i : Fin 4) s, P i s → ∃ s', f i s = .ok s' ∧ P (i + 1) s') :
    ∃ s', for4 s f = .ok s' ∧ P 4 s' := by
  obtain ⟨s1, e1, h1⟩ := h 0 s h0
  obtain ⟨s2, e2, h2⟩ := h 1 s1 h1
  obtain ⟨s3, e3, h3⟩ := h 2 s2 h2
  obtain ⟨s4, e4, h4⟩ := h 3 s3 h3
  exact ⟨s4, by rw [for4_eq, e1, ok_bind, e2, ok_bind, e3, ok_bind, e4], h4⟩

/-- A loop with an invariant that may fail in a way described by `E` -/
theorem for4_inv_err {P : Nat → S → Prop} {E : Panic → Prop} {f : Fin 4 → S → Outcome S} {s : S}
    (h0 : P 0 s) (h : ∀ (i : Fin 4) s, P i s →
      (∃ s', f i s = .ok s' ∧ P (i + 1) s') ∨ ∃ e, f i s = .error e ∧ E e) :
    (∃ s', for4 s f = .ok s' ∧ P 4 s') ∨ ∃ e, for4 s f = .error e ∧ E e := by
  rcases h 0 s h0 with ⟨s1, e1, h1⟩ | ⟨e, h1, h2⟩
  · rcases h 1 s1 h1 with ⟨s2, e2, h2⟩ | ⟨e, h2, h3⟩
    · rcases h 2 s2 h2 with ⟨s3, e3, h3⟩ | ⟨e, h3, h4⟩
      · rcases h 3 s3 h3 with ⟨s4, e4, h4⟩ | ⟨e, h4, h5⟩
        · exact Or.inl ⟨s4, by rw [for4_eq, e1, ok_bind, e2, ok_bind, e3, ok_bind, e4], h4⟩
        · exact Or.inr ⟨e, by rw [for4_eq, e1, ok_bind, e2, ok_bind, e3, ok_bind, h4], h5⟩
      · exact Or.inr ⟨e, by rw [for4_eq, e1, ok_bind, e2, ok_bind, h3]; rfl, h4⟩
    · exact Or.inr ⟨e, by rw [for4_eq, e1, ok_bind, h2]; rfl, h3⟩
  · exact Or.inr ⟨e, by rw [for4_eq, h1]; rfl, h2⟩

/-- Assigning a row whose new entries depend on their column only -/
theorem fold4_row (mat : Mat44 T) (r : Fin 4) (h : Fin 4 → (Fin 4 → T) → T) :
    fold4 mat (fun k m => m.set r k (h k fun i => m i k)) =
      fun i k => if i = r then h k (fun i => mat i k) else mat i k := by
  funext i k
  simp only [fold4, Mat44.set]
  by_cases hi : i = r
  · subst hi
    fin_cases k <;> simp
  · simp [hi]

theorem fold4_swap_rows (mat : Mat44 T) (r c : Fin 4) :
    fold4 mat (fun k m => mat4swap m r k c k) = fun i k => mat (Equiv.swap r c i) k := by
  funext i k
  simp only [fold4, mat4swap, Mat44.set, Equiv.swap_apply_def]
  by_cases hc : i = c
  · subst hc
    by_cases hr : i = r
    · subst hr; fin_cases k <;> simp
    · fin_cases k <;> simp [hr]
  · by_cases hr : i = r
    · subst hr; fin_cases k <;> simp [hc]
    · simp [hc, hr]

theorem fold4_swap_cols (mat : Mat44 T) (r c : Fin 4) :
    fold4 mat (fun k m => mat4swap m k r k c) = fun i k => mat i (Equiv.swap r c k) := by
  funext k i
  simp only [fold4, mat4swap, Mat44.set, Equiv.swap_apply_def]
  by_cases hc : i = c
  · subst hc
    by_cases hr : i = r
    · subst hr; fin_cases k <;> simp
    · fin_cases k <;> simp [hr]
  · by_cases hr : i = r
    · subst hr; fin_cases k <;> simp [hc]
    · simp [hc, hr]

/-- Changing all rows but one, each depending on itself and that one -/
theorem fold4_rows (mat : Mat44 T) (c : Fin 4) (H : (Fin 4 → T) → (Fin 4 → T) → Fin 4 → T) :
    fold4 mat (fun j m => if j ≠ c then (fun i => if i = j then H (m j) (m c) else m i) else m) =
      fun i => if i = c then mat i else H (mat i) (mat c) := by
  funext i
  fin_cases c <;> fin_cases i <;> simp [fold4]
end

/-! ### Multiplication and addition -/

section
variable {T : Type} [CommRing T] [Elem T] [ExactRing T]

omit [CommRing T] [Elem T] [ExactRing T] in
theorem fold4_const_row (mat : Mat44 T) (r : Fin 4) (v : Fin 4 → T) :
    fold4 mat (fun k m => m.set r k (v k)) = fun i k => if i = r then v k else mat i k :=
  fold4_row mat r fun k _ => v k

omit [CommRing T] [Elem T] [ExactRing T] in
theorem fold4_fill (mat : Mat44 T) (v : Mat44 T) :
    fold4 mat (fun r m => fun i k => if i = r then v r k else m i k) = v := by
  funext i k
  fin_cases i <;> simp [fold4]

theorem mul_value (a b : Matrix4 T) :
    a.mul b = .ok ⟨fun r c => ∑ i, a.mat r i * b.mat i c⟩ := by
  have h1 : ∀ r c, for4 (Elem.fromInt 0) (fun i acc => do
        let p ← Elem.mul (a.mat r i) (b.mat i c)
        Elem.add acc p) = .ok (∑ i, a.mat r i * b.mat i c) := by
    intro r c
    simp [for4_eq, Fin.sum_univ_four]
  have h2 : ∀ (r : Fin 4) (m : Mat44 T), for4 m (fun c mat => do
      let v ← for4 (Elem.fromInt 0) fun i acc => do
        let p ← Elem.mul (a.mat r i) (b.mat i c)
        Elem.add acc p
      pure (mat.set r c v)) =
        .ok (fun i k => if i = r then ∑ j, a.mat r j * b.mat j k else m i k) := by
    intro r m
    rw [← fold4_const_row]
    exact for4_ok fun c m => by rw [h1]; rfl
  simp only [Matrix4.mul]
  rw [for4_ok h2, fold4_fill (v := fun r c => ∑ i, a.mat r i * b.mat i c)]
  rfl

theorem add_value (a b : Matrix4 T) : a.add b = .ok ⟨fun r c => a.mat r c + b.mat r c⟩ := by
  have h2 : ∀ (r : Fin 4) (m : Mat44 T), for4 m (fun c mat => do
      let v ← Elem.add (a.mat r c) (b.mat r c)
      pure (mat.set r c v)) =
        .ok (fun i k => if i = r then a.mat r k + b.mat r k else m i k) := by
    intro r m
    rw [← fold4_const_row]
    exact for4_ok fun c m => by rw [add_ok]; rfl
  simp only [Matrix4.add]
  rw [for4_ok h2, fold4_fill (v := fun r c => a.mat r c + b.mat r c)]
  rfl

/-- The matrix of mathematics -/
def Matrix4.toMatrix (a : Matrix4 T) : Matrix (Fin 4) (Fin 4) T := Matrix.of a.mat

omit [CommRing T] [Elem T] [ExactRing T] in
@[ext] theorem Matrix4.ext_toMatrix {a b : Matrix4 T} (h : a.toMatrix = b.toMatrix) : a = b := by
  cases a; cases b; simpa [Matrix4.toMatrix] using h

theorem mul_toMatrix (a b : Matrix4 T) :
    ∃ c, a.mul b = .ok c ∧ c.toMatrix = a.toMatrix * b.toMatrix :=
  ⟨_, mul_value a b, by ext i j; simp [Matrix4.toMatrix, Matrix.mul_apply]⟩

theorem add_toMatrix (a b : Matrix4 T) :
    ∃ c, a.add b = .ok c ∧ c.toMatrix = a.toMatrix + b.toMatrix :=
  ⟨_, add_value a b, by ext i j; simp [Matrix4.toMatrix]⟩

omit [CommRing T] [Elem T] [ExactRing T] in
theorem transpose_toMatrix (a : Matrix4 T) : a.transpose.toMatrix = a.toMatrix.transpose := by
  ext i j
  fin_cases i <;> fin_cases j <;> rfl
end

/-! ### Gauss-Jordan elimination -/

section
variable {K : Type} [Field K] [LinearOrder K] [IsStrictOrderedRing K]

/-- The state of the elimination after the columns in `S`: the equations `y = M x`, solved for the
    `x_i` with `i` in `S`. -/
def Solved (W : Mat44 K) (S : Finset (Fin 4)) (x y : Fin 4 → K) : Prop :=
  ∀ i, (if i ∈ S then x i else 0) + ∑ k ∈ Sᶜ, W i k * x k =
    (if i ∈ S then 0 else y i) + ∑ k ∈ S, W i k * y k

omit [LinearOrder K] [IsStrictOrderedRing K] in
theorem Solved.swap {W : Mat44 K} {S : Finset (Fin 4)} {x y : Fin 4 → K} (h : Solved W S x y)
    {r c : Fin 4} (hr : r ∉ S) (hc : c ∉ S) :
    Solved (fun i k => W (Equiv.swap r c i) k) S x (fun i => y (Equiv.swap r c i)) := by
  have hfix : ∀ i ∈ S, Equiv.swap r c i = i := fun i hi =>
    Equiv.swap_apply_of_ne_of_ne (fun e => hr (e ▸ hi)) (fun e => hc (e ▸ hi))
  have hmem : ∀ i, Equiv.swap r c i ∈ S ↔ i ∈ S := fun i => by
    constructor
    · intro hi
      have := hfix _ hi
      rw [Equiv.swap_apply_self] at this
      rwa [← this] at hi
    · intro hi; rwa [hfix i hi]
  intro i
  have := h (Equiv.swap r c i)
  have e1 : ∑ k ∈ S, W (Equiv.swap r c i) k * y (Equiv.swap r c k) =
      ∑ k ∈ S, W (Equiv.swap r c i) k * y k :=
    Finset.sum_congr rfl fun k hk => by rw [hfix k hk]
  rw [e1]
  by_cases hi : i ∈ S
  · simpa [hi, (hmem i).2 hi, hfix i hi] using this
  · have hi' : Equiv.swap r c i ∉ S := fun e => hi ((hmem i).1 e)
    simpa [hi, hi'] using this

/-- What `eliminate` computes -/
def eliminated (W : Mat44 K) (c : Fin 4) : Mat44 K := fun i k =>
  if i = c then (if k = c then 1 else W c k) * (W c c)⁻¹
  else (if k = c then 0 else W i k) - (if k = c then 1 else W c k) * (W c c)⁻¹ * W i c

omit [LinearOrder K] [IsStrictOrderedRing K] in
theorem Solved.eliminated {W : Mat44 K} {S : Finset (Fin 4)} {x y : Fin 4 → K}
    (h : Solved W S x y) {c : Fin 4} (hc : c ∉ S) (hd : W c c ≠ 0) :
    Solved (eliminated W c) (insert c S) x y := by
  have hsplit : ∀ f : Fin 4 → K, ∑ k ∈ Sᶜ, f k = f c + ∑ k ∈ Sᶜ.erase c, f k := fun f =>
    (Finset.add_sum_erase _ _ (by simpa using hc)).symm
  have hne : ∀ k ∈ Sᶜ.erase c, k ≠ c := fun k hk => (Finset.mem_erase.1 hk).1
  have hneS : ∀ k ∈ S, k ≠ c := fun k hk e => hc (e ▸ hk)
  have hrow := h c
  rw [hsplit] at hrow
  simp only [hc, if_false, zero_add] at hrow
  intro i
  rw [Finset.compl_insert, Finset.sum_insert hc]
  by_cases hi : i = c
  · subst hi
    have e1 : ∑ k ∈ Sᶜ.erase i, Pbrt.eliminated W i i k * x k =
        (W i i)⁻¹ * ∑ k ∈ Sᶜ.erase i, W i k * x k := by
      rw [Finset.mul_sum]
      refine Finset.sum_congr rfl fun k hk => ?_
      simp only [Pbrt.eliminated, if_true, hne k hk, if_false]; ring
    have e2 : ∑ k ∈ S, Pbrt.eliminated W i i k * y k = (W i i)⁻¹ * ∑ k ∈ S, W i k * y k := by
      rw [Finset.mul_sum]
      refine Finset.sum_congr rfl fun k hk => ?_
      simp only [Pbrt.eliminated, if_true, hneS k hk, if_false]; ring
    rw [e1, e2]
    simp only [Finset.mem_insert_self, if_true, Pbrt.eliminated]
    field_simp
    linear_combination hrow
  · have e1 : ∑ k ∈ Sᶜ.erase c, Pbrt.eliminated W c i k * x k =
        ∑ k ∈ Sᶜ.erase c, W i k * x k - (W c c)⁻¹ * W i c * ∑ k ∈ Sᶜ.erase c, W c k * x k := by
      rw [Finset.mul_sum, ← Finset.sum_sub_distrib]
      refine Finset.sum_congr rfl fun k hk => ?_
      simp only [Pbrt.eliminated, hi, hne k hk, if_false]; ring
    have e2 : ∑ k ∈ S, Pbrt.eliminated W c i k * y k =
        ∑ k ∈ S, W i k * y k - (W c c)⁻¹ * W i c * ∑ k ∈ S, W c k * y k := by
      rw [Finset.mul_sum, ← Finset.sum_sub_distrib]
      refine Finset.sum_congr rfl fun k hk => ?_
      simp only [Pbrt.eliminated, hi, hneS k hk, if_false]; ring
    have hrow' := h i
    rw [hsplit] at hrow'
    rw [e1, e2]
    simp only [Finset.mem_insert, hi, false_or, Pbrt.eliminated, if_false, if_true]
    have hx : x c = (W c c)⁻¹ * (y c + ∑ k ∈ S, W c k * y k - ∑ k ∈ Sᶜ.erase c, W c k * x k) := by
      rw [← hrow]; field_simp; ring
    have hm : W i c * x c = W i c * ((W c c)⁻¹ *
      (y c + ∑ k ∈ S, W c k * y k - ∑ k ∈ Sᶜ.erase c, W c k * x k)) := by rw [← hx]
    linear_combination hrow' - hm

omit [IsStrictOrderedRing K] in
theorem eliminate_value (W : Mat44 K) (c : Fin 4) (hd : W c c ≠ 0) :
    eliminate W c = .ok (eliminated W c) := by
  have h1 : ∀ (p : K) (j : Fin 4) (m : Mat44 K), (do
      let v ← Elem.mul (m c j) p
      pure (m.set c j v) : Outcome (Mat44 K)) = .ok (m.set c j (m c j * p)) := by
    intro p j m; simp
  have h2 : ∀ (j : Fin 4) (m : Mat44 K), (if j ≠ c then do
      let save := m j c
      let minv := m.set j c (Elem.fromInt 0)
      for4 minv fun k minv => do
        let p ← Elem.mul (minv c k) save
        let v ← Elem.sub (minv j k) p
        pure (minv.set j k v)
      else pure m : Outcome (Mat44 K)) = .ok (if j ≠ c then
        (fun i => if i = j then (fun a b k => (if k = c then 0 else a k) - b k * a c) (m j) (m c)
          else m i) else m) := by
    intro j m
    by_cases hj : j = c
    · simp [hj]
    · simp only [ne_eq, hj, not_false_eq_true, if_true]
      rw [for4_ok (g := fun k m' => m'.set j k (m' j k - m' c k * m j c)) (by intro k m; simp),
        fold4_row _ _ (fun k col => col j - col c * m j c)]
      congr 1
      funext i k
      by_cases hi : i = j
      · subst hi
        have hcj : ¬ (c = i) := fun e => hj e.symm
        simp [Mat44.set, hcj]
      · simp [Mat44.set, hi]
  simp only [eliminate]
  rw [div_ok _ hd, ok_bind, for4_ok (h1 _), ok_bind, for4_ok h2]
  congr 1
  rw [fold4_rows _ c (fun a b k => (if k = c then 0 else a k) - b k * a c),
    fold4_row _ c (fun _ col => col c * _)]
  funext i k
  by_cases hi : i = c
  · subst hi
    simp [eliminated, Mat44.set]
  · simp [eliminated, Mat44.set, hi]

/-! #### The choice of the pivot -/

theorem choosePivot_spec (ipiv : Fin 4 → Nat) (W : Mat44 K) (hp : ∀ k, ipiv k ≤ 1)
    (hex : ∃ k, ipiv k = 0) : ∃ p, choosePivot ipiv W = .ok p ∧ ipiv p.irow = 0 ∧
      ipiv p.icol = 0 ∧ ∀ j k, ipiv j = 0 → ipiv k = 0 → |W j k| ≤ |W p.irow p.icol| := by
  let Inv (proc : Fin 4 → Fin 4 → Prop) (s : PivotState K) : Prop :=
    (∀ j k, proc j k → ipiv j = 0 → ipiv k = 0 → |W j k| ≤ s.big) ∧
    ((s.big = 0 ∧ ∀ j k, proc j k → ¬ (ipiv j = 0 ∧ ipiv k = 0)) ∨
      (ipiv s.irow = 0 ∧ ipiv s.icol = 0 ∧ |W s.irow s.icol| = s.big))
  have hinner : ∀ (j k : Fin 4) (s : PivotState K), ipiv j = 0 →
      Inv (fun j' k' => j' < j ∨ (j' = j ∧ k'.val < k.val)) s →
      ∃ s', (if ipiv k = 0 then do
          let a ← Elem.abs (W j k)
          if Elem.ge a s.big then pure ⟨j, k, a⟩ else pure s
        else if ipiv k > 1 then .error .singularPivotTwice
        else pure s : Outcome (PivotState K)) = .ok s' ∧
        Inv (fun j' k' => j' < j ∨ (j' = j ∧ k'.val < k.val + 1)) s' := by
    intro j k s hj ⟨h1, h2⟩
    by_cases hk : ipiv k = 0
    · rw [if_pos hk]
      simp only [abs_ok, ok_bind, Elem.ge, le_exact, decide_eq_true_eq]
      have hlast : ∀ k' : Fin 4, k'.val < k.val + 1 → k'.val < k.val ∨ k' = k := fun k' h => by
        rcases Nat.lt_succ_iff_lt_or_eq.1 h with h | h
        · exact Or.inl h
        · exact Or.inr (Fin.ext h)
      by_cases hge : s.big ≤ |W j k|
      · rw [if_pos hge]
        refine ⟨_, rfl, fun j' k' hp hj' hk' => ?_, Or.inr ⟨hj, hk, rfl⟩⟩
        rcases hp with hp | ⟨rfl, hp⟩
        · exact (h1 j' k' (Or.inl hp) hj' hk').trans hge
        · rcases hlast k' hp with hp | rfl
          · exact (h1 j' k' (Or.inr ⟨rfl, hp⟩) hj' hk').trans hge
          · exact le_refl _
      · rw [if_neg hge]
        refine ⟨_, rfl, fun j' k' hp hj' hk' => ?_, Or.inr ?_⟩
        · rcases hp with hp | ⟨rfl, hp⟩
          · exact h1 j' k' (Or.inl hp) hj' hk'
          · rcases hlast k' hp with hp | rfl
            · exact h1 j' k' (Or.inr ⟨rfl, hp⟩) hj' hk'
            · exact (not_le.1 hge).le
        · rcases h2 with ⟨h0, _⟩ | h2
          · exact absurd (h0 ▸ abs_nonneg _) hge
          · exact h2
    · rw [if_neg hk, if_neg (by have := hp k; omega)]
      refine ⟨_, rfl, fun j' k' hp hj' hk' => ?_, ?_⟩
      · rcases hp with hp | ⟨rfl, hp⟩
        · exact h1 j' k' (Or.inl hp) hj' hk'
        · refine h1 j' k' (Or.inr ⟨rfl, ?_⟩) hj' hk'
          rcases Nat.lt_succ_iff_lt_or_eq.1 hp with h | h
          · exact h
          · exact absurd (Fin.ext h ▸ hk') hk
      · refine h2.imp_left fun ⟨h0, h2⟩ => ⟨h0, fun j' k' hp h => ?_⟩
        rcases hp with hp | ⟨rfl, hp⟩
        · exact h2 j' k' (Or.inl hp) h
        · refine h2 j' k' (Or.inr ⟨rfl, ?_⟩) h
          rcases Nat.lt_succ_iff_lt_or_eq.1 hp with h' | h'
          · exact h'
          · exact absurd (Fin.ext h' ▸ h.2) hk
  have houter : ∃ s', choosePivot ipiv W = .ok s' ∧ Inv (fun j _ => j.val < 4) s' := by
    refine for4_inv (P := fun n => Inv fun j _ => j.val < n) ?_ ?_
    · exact ⟨fun j k h => absurd h (Nat.not_lt_zero _),
        Or.inl ⟨by simp, fun j k h => absurd h (Nat.not_lt_zero _)⟩⟩
    · intro j s ⟨h1, h2⟩
      by_cases hj : ipiv j = 1
      · rw [if_neg (by simp [hj])]
        refine ⟨s, rfl, fun j' k' hp hj' hk' => ?_, ?_⟩
        · rcases Nat.lt_succ_iff_lt_or_eq.1 hp with h | h
          · exact h1 j' k' h hj' hk'
          · have := Fin.ext h ▸ hj'; omega
        · refine h2.imp_left fun ⟨h0, h2⟩ => ⟨h0, fun j' k' hp h => ?_⟩
          rcases Nat.lt_succ_iff_lt_or_eq.1 hp with h' | h'
          · exact h2 j' k' h' h
          · have := Fin.ext h' ▸ h.1; omega
      · rw [if_pos hj]
        have hj0 : ipiv j = 0 := by have := hp j; omega
        obtain ⟨s', e, h1', h2'⟩ := for4_inv
          (P := fun n => Inv fun j' k' => j' < j ∨ (j' = j ∧ k'.val < n)) (s := s)
          ⟨fun j' k' h => h1 j' k' (h.elim (fun h => h) fun h => absurd h.2 (Nat.not_lt_zero _)),
            h2.imp_left fun ⟨h0, h2⟩ => ⟨h0, fun j' k' h => h2 j' k'
              (h.elim (fun h => h) fun h => absurd h.2 (Nat.not_lt_zero _))⟩⟩
          (fun k s h => hinner j k s hj0 h)
        refine ⟨s', e, fun j' k' hp hj' hk' => ?_, ?_⟩
        · refine h1' j' k' ?_ hj' hk'
          rcases Nat.lt_succ_iff_lt_or_eq.1 hp with h | h
          · exact Or.inl h
          · exact Or.inr ⟨Fin.ext h, k'.isLt⟩
        · refine h2'.imp_left fun ⟨h0, h2⟩ => ⟨h0, fun j' k' hp h => h2 j' k' ?_ h⟩
          rcases Nat.lt_succ_iff_lt_or_eq.1 hp with h | h
          · exact Or.inl h
          · exact Or.inr ⟨Fin.ext h, k'.isLt⟩
  obtain ⟨p, e, h1, h2⟩ := houter
  obtain ⟨k0, hk0⟩ := hex
  rcases h2 with ⟨_, h2⟩ | ⟨h2, h3, h4⟩
  · exact absurd ⟨hk0, hk0⟩ (h2 k0 k0 k0.isLt)
  · exact ⟨p, e, h2, h3, fun j k hj hk => by rw [h4]; exact h1 j k j.isLt hj hk⟩

/-! #### The main loop -/

/-- The permutation of the rows after `n` iterations -/
def rowPerm (indxr indxc : Fin 4 → Fin 4) : Nat → Equiv.Perm (Fin 4)
  | 0 => 1
  | n + 1 => rowPerm indxr indxc n *
      (if h : n < 4 then Equiv.swap (indxr ⟨n, h⟩) (indxc ⟨n, h⟩) else 1)

theorem rowPerm_congr {r r' c c' : Fin 4 → Fin 4} (n : Nat) (hr : ∀ j : Fin 4, j.val < n → r j = r' j)
    (hc : ∀ j : Fin 4, j.val < n → c j = c' j) : rowPerm r c n = rowPerm r' c' n := by
  induction n with
  | zero => rfl
  | succ n ih =>
    simp only [rowPerm]
    rw [ih (fun j hj => hr j (by omega)) (fun j hj => hc j (by omega))]
    split
    · next h => rw [hr ⟨n, h⟩ (Nat.lt_succ_self n), hc ⟨n, h⟩ (Nat.lt_succ_self n)]
    · rfl

/-- The invariant of the main loop on the matrix `M` -/
def LoopInv (M : Mat44 K) (n : Nat) (s : InvState K) : Prop :=
  ∃ S : Finset (Fin 4), S.card = n ∧ (∀ k, s.ipiv k = if k ∈ S then 1 else 0) ∧
    ∀ x : Fin 4 → K, Solved s.minv S x fun i =>
      ∑ k, M (rowPerm s.indxr s.indxc n i) k * x k

theorem invStep_spec (M : Mat44 K) (i : Fin 4) (s : InvState K) (h : LoopInv M i s) :
    (∃ s', invStep i s = .ok s' ∧ LoopInv M (i + 1) s') ∨
    ∃ e, invStep i s = .error e ∧ (e = .singularZeroPivot ∧ (Matrix.of M).det = 0) := by
  obtain ⟨S, hcard, hpiv, hsol⟩ := h
  obtain ⟨k0, hk0⟩ : ∃ k0, k0 ∉ S := by
    by_contra hall
    push Not at hall
    have : S = Finset.univ := Finset.eq_univ_iff_forall.2 hall
    rw [this] at hcard
    simp at hcard
    have := i.isLt
    omega
  have h0 : ∀ k, s.ipiv k = 0 ↔ k ∉ S := fun k => by rw [hpiv]; split <;> simp_all
  obtain ⟨p, hp, hr, hc, hmax⟩ := choosePivot_spec s.ipiv s.minv
    (fun k => by rw [hpiv]; split <;> omega) ⟨k0, (h0 k0).2 hk0⟩
  rw [h0] at hr hc
  have hswap : (if p.irow ≠ p.icol then
      for4 s.minv fun k minv => pure (mat4swap minv p.irow k p.icol k)
      else pure s.minv : Outcome (Mat44 K)) =
        .ok (fun i k => s.minv (Equiv.swap p.irow p.icol i) k) := by
    by_cases hrc : p.irow = p.icol
    · rw [if_neg (by simp [hrc]), hrc]; simp
    · rw [if_pos hrc, ← fold4_swap_rows]
      exact for4_ok fun k m => rfl
  have hstep : invStep i s =
      (if Elem.eq (s.minv (Equiv.swap p.irow p.icol p.icol) p.icol) (Elem.fromInt 0) then
        .error .singularZeroPivot
      else do
        let minv ← eliminate (fun i k => s.minv (Equiv.swap p.irow p.icol i) k) p.icol
        pure ⟨fun k => if k = i then p.icol else s.indxc k,
          fun k => if k = i then p.irow else s.indxr k,
          fun k => if k = p.icol then s.ipiv k + 1 else s.ipiv k, minv⟩) := by
    by_cases hrc : p.irow = p.icol
    · rw [if_neg (by simp [hrc])] at hswap
      unfold invStep
      rw [hp, ok_bind]
      simp only [hrc, ne_eq, not_true_eq_false, if_false, pure_ok, ok_bind]
      simp
    · rw [if_pos hrc] at hswap
      unfold invStep
      rw [hp, ok_bind]
      simp only [ne_eq, hrc, not_false_eq_true, if_true]
      rw [hswap, ok_bind]
  rw [hstep, Equiv.swap_apply_right]
  by_cases hz : s.minv p.irow p.icol = 0
  · right
    refine ⟨.singularZeroPivot, by simp [hz], rfl, ?_⟩
    by_contra hdet
    have hzero : ∀ j k, j ∉ S → k ∉ S → s.minv j k = 0 := fun j k hj hk => by
      have := hmax j k ((h0 j).2 hj) ((h0 k).2 hk)
      rw [hz, abs_zero] at this
      exact abs_nonpos_iff.1 this
    let σ := rowPerm s.indxr s.indxc i
    have hunit : IsUnit (Matrix.of M).det := isUnit_iff_ne_zero.2 hdet
    let y : Fin 4 → K := fun j => if j = σ k0 then 1 else 0
    have hy : ∀ j, ∑ k, M j k * ((Matrix.of M)⁻¹.mulVec y) k = y j := fun j => by
      have : (Matrix.of M).mulVec ((Matrix.of M)⁻¹.mulVec y) = y := by
        rw [Matrix.mulVec_mulVec, Matrix.mul_nonsing_inv _ hunit, Matrix.one_mulVec]
      exact congrFun this j
    have hk := hsol ((Matrix.of M)⁻¹.mulVec y) k0
    simp only [hy, hk0, if_false] at hk
    rw [Finset.sum_eq_zero (s := Sᶜ) (fun k hk => by rw [hzero k0 k hk0 (by simpa using hk), zero_mul]),
      Finset.sum_eq_zero (s := S) (fun k hk => by
        have : σ k ≠ σ k0 := fun e => hk0 (σ.injective e ▸ hk)
        simp [y, this, σ] at this ⊢)] at hk
    simp [y, σ] at hk
  · left
    rw [if_neg (by simpa using hz), eliminate_value _ _ (by simpa using hz)]
    refine ⟨_, rfl, insert p.icol S, by rw [Finset.card_insert_of_notMem hc, hcard], fun k => ?_,
      fun x => ?_⟩
    · simp only [hpiv, Finset.mem_insert]
      by_cases hk : k = p.icol
      · subst hk; simp [hc]
      · simp [hk]
    · have hsw := (hsol x).swap hr hc
      have hel := hsw.eliminated hc (by simpa using hz)
      have : (fun i' => ∑ k, M (rowPerm (fun k => if k = i then p.irow else s.indxr k)
          (fun k => if k = i then p.icol else s.indxc k) (i + 1) i') k * x k) =
          fun i' => ∑ k, M (rowPerm s.indxr s.indxc i (Equiv.swap p.irow p.icol i')) k * x k := by
        funext i'
        refine Finset.sum_congr rfl fun k _ => ?_
        simp only [rowPerm, i.isLt, dif_pos, Fin.eta, if_true, Equiv.Perm.coe_mul, Function.comp]
        rw [rowPerm_congr (r' := s.indxr) (c' := s.indxc) i
          (fun j hj => if_neg fun e => by subst e; exact lt_irrefl _ hj)
          (fun j hj => if_neg fun e => by subst e; exact lt_irrefl _ hj)]
      rw [this]
      exact hel

/-! #### The result -/

omit [Field K] [LinearOrder K] [IsStrictOrderedRing K] in
theorem swapCols_value (m : Mat44 K) (r c : Fin 4) : (if r ≠ c then
      for4 m fun k minv => pure (mat4swap minv k r k c) else pure m : Outcome (Mat44 K)) =
        .ok fun i k => m i (Equiv.swap r c k) := by
  by_cases hrc : r = c
  · rw [if_neg (by simp [hrc]), hrc]; simp
  · rw [if_pos hrc, ← fold4_swap_cols]
    exact for4_ok fun k m => rfl

theorem inverse_spec {T : Type} [Elem T] [As T K] (a : Matrix4 T) :
    (∃ b : Matrix4 K, a.inverse = .ok b ∧ b.toMatrix * (toMat4f a : Matrix4 K).toMatrix = 1) ∨
    ((a.inverse : Outcome (Matrix4 K)) = .error .singularZeroPivot ∧
      (toMat4f a : Matrix4 K).toMatrix.det = 0) := by
  let M : Mat44 K := (toMat4f a : Matrix4 K).mat
  rcases for4_inv_err (P := LoopInv M) (f := invStep)
      (s := ⟨fun _ => 0, fun _ => 0, fun _ => 0, M⟩)
      (E := fun e => e = .singularZeroPivot ∧ (Matrix.of M).det = 0)
      ⟨∅, rfl, fun k => by simp, fun x i => by simp [rowPerm]⟩
      (fun i s h => invStep_spec M i s h) with ⟨s, hs, S, hcard, _, hsol⟩ | ⟨e, hs, rfl, hdet⟩
  · left
    have hS : S = Finset.univ := Finset.eq_univ_of_card S hcard
    subst hS
    refine ⟨⟨fun i k => s.minv i ((rowPerm s.indxr s.indxc 4).symm k)⟩, ?_, ?_⟩
    · unfold Matrix4.inverse
      simp only []
      rw [hs, ok_bind, for4rev_ok fun j m => swapCols_value m (s.indxr j) (s.indxc j), ok_bind]
      simp only [rowPerm, Equiv.symm]
      rfl
    · ext i j
      let σ := rowPerm s.indxr s.indxc 4
      have h := hsol (fun k => if k = j then 1 else 0) i
      simp only [Finset.mem_univ, if_true, Finset.compl_univ, Finset.notMem_empty, if_false,
        add_zero, zero_add, mul_ite, mul_one, mul_zero, Finset.sum_ite_eq'] at h
      rw [Matrix.mul_apply, Matrix.one_apply, h, ← Equiv.sum_comp σ]
      simp [Matrix4.toMatrix, σ, M]
  · right
    refine ⟨?_, hdet⟩
    unfold Matrix4.inverse
    simp only []
    rw [hs]
    rfl
end

end Pbrt
