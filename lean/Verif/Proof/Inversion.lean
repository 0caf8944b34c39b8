import Verif.Proof.Gauss
import Verif.Proof.FloatErr
import Verif.Proof.Nearest

/-!
# Gauss-Jordan elimination on floats
-/

namespace Pbrt

open Float.Model (UnpackedFloat Format)

section
variable {T : Type} [Elem T] [As T T] [FloatFns T] [IEEE T]

local notation "𝔽" => IEEE.fmt T
local notation "z" => (Elem.fromInt 0 : T)
local notation "o" => (Elem.fromInt 1 : T)

theorem val_fabs (a : T) : val (fabs a) = |val a| := by
  unfold val; rw [up_fabs, uval_abs]

theorem fabs_finite {a : T} (ha : IsFinite a) : IsFinite (fabs a) := by
  rw [isFinite_iff] at *
  rw [up_fabs]
  revert ha
  cases up a <;> simp [IsFin, UnpackedFloat.abs]

/-! ### The choice of the pivot -/

/-- On finite numbers the pivot is the last of the largest entries among the rows and columns
    without a pivot. -/
theorem choosePivot_float (ipiv : Fin 4 → Nat) (W : Mat44 T) (hp : ∀ k, ipiv k ≤ 1)
    (hf : ∀ j k, ipiv j = 0 → ipiv k = 0 → IsFinite (W j k))
    (hex : ∃ k, ipiv k = 0) : ∃ p, choosePivot ipiv W = .ok p ∧ ipiv p.irow = 0 ∧
      ipiv p.icol = 0 ∧ ∀ j k, ipiv j = 0 → ipiv k = 0 →
        |val (W j k)| ≤ |val (W p.irow p.icol)| ∧
        (|val (W j k)| = |val (W p.irow p.icol)| → j < p.irow ∨ (j = p.irow ∧ k ≤ p.icol)) := by
  let Inv (proc : Fin 4 → Fin 4 → Prop) (s : PivotState T) : Prop :=
    IsFinite s.big ∧
    (∀ j k, proc j k → ipiv j = 0 → ipiv k = 0 → |val (W j k)| ≤ val s.big ∧
      (|val (W j k)| = val s.big → j < s.irow ∨ (j = s.irow ∧ k ≤ s.icol))) ∧
    ((val s.big = 0 ∧ ∀ j k, proc j k → ¬ (ipiv j = 0 ∧ ipiv k = 0)) ∨
      (ipiv s.irow = 0 ∧ ipiv s.icol = 0 ∧ |val (W s.irow s.icol)| = val s.big))
  have hinner : ∀ (j k : Fin 4) (s : PivotState T), ipiv j = 0 →
      Inv (fun j' k' => j' < j ∨ (j' = j ∧ k'.val < k.val)) s →
      ∃ s', (if ipiv k = 0 then do
          let a ← Elem.abs (W j k)
          if Elem.ge a s.big then pure ⟨j, k, a⟩ else pure s
        else if ipiv k > 1 then .error .singularPivotTwice
        else pure s : Outcome (PivotState T)) = .ok s' ∧
        Inv (fun j' k' => j' < j ∨ (j' = j ∧ k'.val < k.val + 1)) s' := by
    intro j k s hj ⟨h0, h1, h2⟩
    by_cases hk : ipiv k = 0
    · rw [if_pos hk]
      have hfa := fabs_finite (hf j k hj hk)
      simp only [fabs_ok, ok_bind]
      have hlast : ∀ k' : Fin 4, k'.val < k.val + 1 → k'.val < k.val ∨ k' = k := fun k' h => by
        rcases Nat.lt_succ_iff_lt_or_eq.1 h with h | h
        · exact Or.inl h
        · exact Or.inr (Fin.ext h)
      by_cases hge : Elem.ge (fabs (W j k)) s.big = true
      · rw [if_pos hge]
        rw [show Elem.ge (fabs (W j k)) s.big = Elem.le s.big (fabs (W j k)) from rfl,
          le_iff_val h0 hfa, val_fabs] at hge
        refine ⟨_, rfl, hfa, fun j' k' hp hj' hk' => ?_, Or.inr ⟨hj, hk, (val_fabs _).symm⟩⟩
        rw [val_fabs]
        rcases hp with hp | ⟨rfl, hp⟩
        · exact ⟨((h1 j' k' (Or.inl hp) hj' hk').1).trans hge, fun _ => Or.inl hp⟩
        · rcases hlast k' hp with hp | rfl
          · exact ⟨((h1 j' k' (Or.inr ⟨rfl, hp⟩) hj' hk').1).trans hge, fun _ => Or.inr ⟨rfl, hp.le⟩⟩
          · exact ⟨le_refl _, fun _ => Or.inr ⟨rfl, le_refl _⟩⟩
      · rw [if_neg hge]
        rw [show Elem.ge (fabs (W j k)) s.big = Elem.le s.big (fabs (W j k)) from rfl,
          le_iff_val h0 hfa, val_fabs] at hge
        refine ⟨_, rfl, h0, fun j' k' hp hj' hk' => ?_, Or.inr ?_⟩
        · rcases hp with hp | ⟨rfl, hp⟩
          · exact h1 j' k' (Or.inl hp) hj' hk'
          · rcases hlast k' hp with hp | rfl
            · exact h1 j' k' (Or.inr ⟨rfl, hp⟩) hj' hk'
            · exact ⟨(not_le.1 hge).le, fun e => absurd e.ge hge⟩
        · rcases h2 with ⟨h0, _⟩ | h2
          · exact absurd (h0 ▸ abs_nonneg _) hge
          · exact h2
    · rw [if_neg hk, if_neg (by have := hp k; omega)]
      refine ⟨_, rfl, h0, fun j' k' hp hj' hk' => ?_, ?_⟩
      · rcases hp with hp | ⟨rfl, hp⟩
        · exact h1 j' k' (Or.inl hp) hj' hk'
        · refine h1 j' k' (Or.inr ⟨rfl, ?_⟩) hj' hk'
          rcases Nat.lt_succ_iff_lt_or_eq.1 hp with h | h
          · exact h
          · exact absurd (Fin.ext h ▸ hk') hk
      · refine h2.imp_left fun ⟨h0, h2⟩ => ⟨h0, fun j' k' hp h => ?_⟩
        rcases hp with hp | ⟨rfl, hp⟩
        · exact h2 j' k' (Or.inl hp) h
        · refine h2 j' k' (Or.inr ⟨rfl, ?_⟩) h
          rcases Nat.lt_succ_iff_lt_or_eq.1 hp with h' | h'
          · exact h'
          · exact absurd (Fin.ext h' ▸ h.2) hk
  have houter : ∃ s', choosePivot ipiv W = .ok s' ∧ Inv (fun j _ => j.val < 4) s' := by
    refine for4_inv (P := fun n => Inv fun j _ => j.val < n) ?_ ?_
    · exact ⟨finite_zero, fun j k h => absurd h (Nat.not_lt_zero _),
        Or.inl ⟨val_zero, fun j k h => absurd h (Nat.not_lt_zero _)⟩⟩
    · intro j s ⟨h0, h1, h2⟩
      by_cases hj : ipiv j = 1
      · rw [if_neg (by simp [hj])]
        refine ⟨s, rfl, h0, fun j' k' hp hj' hk' => ?_, ?_⟩
        · rcases Nat.lt_succ_iff_lt_or_eq.1 hp with h | h
          · exact h1 j' k' h hj' hk'
          · have := Fin.ext h ▸ hj'; omega
        · refine h2.imp_left fun ⟨h0, h2⟩ => ⟨h0, fun j' k' hp h => ?_⟩
          rcases Nat.lt_succ_iff_lt_or_eq.1 hp with h' | h'
          · exact h2 j' k' h' h
          · have := Fin.ext h' ▸ h.1; omega
      · rw [if_pos hj]
        have hj0 : ipiv j = 0 := by have := hp j; omega
        obtain ⟨s', e, h0', h1', h2'⟩ := for4_inv
          (P := fun n => Inv fun j' k' => j' < j ∨ (j' = j ∧ k'.val < n)) (s := s)
          ⟨h0, fun j' k' h => h1 j' k' (h.elim (fun h => h) fun h => absurd h.2 (Nat.not_lt_zero _)),
            h2.imp_left fun ⟨h0, h2⟩ => ⟨h0, fun j' k' h => h2 j' k'
              (h.elim (fun h => h) fun h => absurd h.2 (Nat.not_lt_zero _))⟩⟩
          (fun k s h => hinner j k s hj0 h)
        refine ⟨s', e, h0', fun j' k' hp hj' hk' => ?_, ?_⟩
        · refine h1' j' k' ?_ hj' hk'
          rcases Nat.lt_succ_iff_lt_or_eq.1 hp with h | h
          · exact Or.inl h
          · exact Or.inr ⟨Fin.ext h, k'.isLt⟩
        · refine h2'.imp_left fun ⟨h0, h2⟩ => ⟨h0, fun j' k' hp h => h2 j' k' ?_ h⟩
          rcases Nat.lt_succ_iff_lt_or_eq.1 hp with h | h
          · exact Or.inl h
          · exact Or.inr ⟨Fin.ext h, k'.isLt⟩
  obtain ⟨p, e, -, h1, h2⟩ := houter
  obtain ⟨k0, hk0⟩ := hex
  rcases h2 with ⟨_, h2⟩ | ⟨h2, h3, h4⟩
  · exact absurd ⟨hk0, hk0⟩ (h2 k0 k0 k0.isLt)
  · exact ⟨p, e, h2, h3, fun j k hj hk => by rw [h4]; exact h1 j k j.isLt hj hk⟩

/-! ### The elimination -/

/-- The new pivot row -/
def pivotRow (W : Mat44 T) (c k : Fin 4) : T := fmul (if k = c then o else W c k) (fdiv o (W c c))

/-- What `eliminate` computes -/
def feliminated (W : Mat44 T) (c : Fin 4) : Mat44 T := fun i k =>
  if i = c then pivotRow W c k
  else fsub (if k = c then z else W i k) (fmul (pivotRow W c k) (W i c))

theorem feliminate_value (W : Mat44 T) (c : Fin 4) : eliminate W c = .ok (feliminated W c) := by
  have h1 : ∀ (p : T) (j : Fin 4) (m : Mat44 T), (do
      let v ← Elem.mul (m c j) p
      pure (m.set c j v) : Outcome (Mat44 T)) = .ok (m.set c j (fmul (m c j) p)) := by
    intro p j m; simp [fmul_ok]
  have h2 : ∀ (j : Fin 4) (m : Mat44 T), (if j ≠ c then do
      let save := m j c
      let minv := m.set j c (Elem.fromInt 0)
      for4 minv fun k minv => do
        let p ← Elem.mul (minv c k) save
        let v ← Elem.sub (minv j k) p
        pure (minv.set j k v)
      else pure m : Outcome (Mat44 T)) = .ok (if j ≠ c then
        (fun i => if i = j then (fun a b k => fsub (if k = c then z else a k) (fmul (b k) (a c))) (m j) (m c)
          else m i) else m) := by
    intro j m
    by_cases hj : j = c
    · simp [hj]
    · simp only [ne_eq, hj, not_false_eq_true, if_true]
      rw [for4_ok (g := fun k m' => m'.set j k (fsub (m' j k) (fmul (m' c k) (m j c))))
          (by intro k m; simp [fmul_ok, fsub_ok]),
        fold4_row _ _ (fun k col => fsub (col j) (fmul (col c) (m j c)))]
      congr 1
      funext i k
      by_cases hi : i = j
      · subst hi
        have hcj : ¬ (c = i) := fun e => hj e.symm
        simp [Mat44.set, hcj]
      · simp [Mat44.set, hi]
  simp only [eliminate]
  rw [fdiv_ok, ok_bind, for4_ok (h1 _), ok_bind, for4_ok h2]
  congr 1
  rw [fold4_rows _ c (fun a b k => fsub (if k = c then z else a k) (fmul (b k) (a c))),
    fold4_row _ c (fun _ col => fmul (col c) _)]
  funext i k
  by_cases hi : i = c
  · subst hi
    simp [feliminated, pivotRow, Mat44.set]
  · simp [feliminated, pivotRow, Mat44.set, hi]

/-! ### One iteration -/

/-- One iteration, given the pivot -/
theorem invStep_pivot (i : Fin 4) (s : InvState T) (p : PivotState T)
    (hp : choosePivot s.ipiv s.minv = .ok p) : invStep i s =
      if Elem.eq (s.minv p.irow p.icol) z then .error .singularZeroPivot
      else .ok ⟨fun k => if k = i then p.icol else s.indxc k,
        fun k => if k = i then p.irow else s.indxr k,
        fun k => if k = p.icol then s.ipiv k + 1 else s.ipiv k,
        feliminated (fun i k => s.minv (Equiv.swap p.irow p.icol i) k) p.icol⟩ := by
  have hswap : (if p.irow ≠ p.icol then
      for4 s.minv fun k minv => pure (mat4swap minv p.irow k p.icol k)
      else pure s.minv : Outcome (Mat44 T)) =
        .ok (fun i k => s.minv (Equiv.swap p.irow p.icol i) k) := by
    by_cases hrc : p.irow = p.icol
    · rw [if_neg (by simp [hrc]), hrc]; simp
    · rw [if_pos hrc, ← fold4_swap_rows]
      exact for4_ok fun k m => rfl
  have hstep : invStep i s =
      (if Elem.eq (s.minv (Equiv.swap p.irow p.icol p.icol) p.icol) (Elem.fromInt 0) then
        .error .singularZeroPivot
      else do
        let minv ← eliminate (fun i k => s.minv (Equiv.swap p.irow p.icol i) k) p.icol
        pure ⟨fun k => if k = i then p.icol else s.indxc k,
          fun k => if k = i then p.irow else s.indxr k,
          fun k => if k = p.icol then s.ipiv k + 1 else s.ipiv k, minv⟩) := by
    by_cases hrc : p.irow = p.icol
    · rw [if_neg (by simp [hrc])] at hswap
      unfold invStep
      rw [hp, ok_bind]
      simp only [hrc, ne_eq, not_true_eq_false, if_false, pure_ok, ok_bind]
      simp
    · rw [if_pos hrc] at hswap
      unfold invStep
      rw [hp, ok_bind]
      simp only [ne_eq, hrc, not_false_eq_true, if_true]
      rw [hswap, ok_bind]
  rw [hstep, Equiv.swap_apply_right, feliminate_value]
  rfl

theorem invStep_float (i : Fin 4) (s : InvState T) (p : PivotState T)
    (hp : choosePivot s.ipiv s.minv = .ok p) (hz : Elem.eq (s.minv p.irow p.icol) z = false) :
    invStep i s = .ok ⟨fun k => if k = i then p.icol else s.indxc k,
      fun k => if k = i then p.irow else s.indxr k,
      fun k => if k = p.icol then s.ipiv k + 1 else s.ipiv k,
      feliminated (fun i k => s.minv (Equiv.swap p.irow p.icol i) k) p.icol⟩ := by
  rw [invStep_pivot i s p hp, hz]
  rfl

theorem invStep_float_zero (i : Fin 4) (s : InvState T) (p : PivotState T)
    (hp : choosePivot s.ipiv s.minv = .ok p) (hz : Elem.eq (s.minv p.irow p.icol) z = true) :
    invStep i s = .error .singularZeroPivot := by
  rw [invStep_pivot i s p hp, hz]
  rfl

/-! ### Matrices with one entry per row and column -/

/-- Subtracting a zero -/
theorem fsub_isZero {a b : T} (ha : ¬ IsZero a) (hb : IsZero b) : fsub a b = a := by
  rw [fsub_eq_add]
  refine fadd_isZero ha ?_
  rw [isZero_iff] at *
  exact ⟨fneg_finite hb.1, by rw [val_fneg, hb.2, neg_zero]⟩

theorem isZero_fsub {a b : T} (ha : IsZero a) (hb : IsZero b) : IsZero (fsub a b) := by
  rw [isZero_iff] at *
  obtain ⟨h1, h2⟩ := fsub_rnd ha.1 hb.1
  rw [ha.2, hb.2, sub_zero, rnd_zero] at h2
  exact finite_of_ext h1 (by simpa using h2)

theorem not_isZero_one : ¬ IsZero o := fun h => by
  have := (isZero_iff.1 h).2
  rw [val_one] at this
  norm_num at this

/-- The value of a finite result -/
theorem val_of_finite_rnd {a : T} {x : ℝ} (h : IsFinite a) (hx : ext a = rnd 𝔽 x) :
    val a = (grid 𝔽).RN x := by
  rw [h.ext] at hx
  unfold rnd at hx
  split_ifs at hx
  · simp at hx
  · simp at hx
  · exact_mod_cast hx

/-- Reciprocals do not underflow to zero. -/
theorem recip_ne_zero {a : T} (ha : IsFinite a) (h0 : val a ≠ 0) (hr : IsFinite (fdiv o a)) :
    ¬ IsZero (fdiv o a) := by
  intro hz
  have hv := val_of_finite_rnd hr (fdiv_rnd finite_one ha h0).2
  rw [(isZero_iff.1 hz).2, val_one] at hv
  have hlt := val_lt_big ha
  have hx0 : 0 < |val a| := abs_pos.2 h0
  set x := 1 / val a with hx
  have hxa : |x| = 1 / |val a| := by rw [hx, abs_div, abs_one]
  have hbig : (2 : ℝ) ^ ((grid 𝔽).emin - 1) < |x| := by
    rw [hxa, lt_div_iff₀ hx0]
    calc (2 : ℝ) ^ ((grid 𝔽).emin - 1) * |val a| < 2 ^ ((grid 𝔽).emin - 1) * big 𝔽 :=
          mul_lt_mul_of_pos_left hlt (two_zpow_pos _)
      _ = 2 ^ ((grid 𝔽).emin - 1 + (emax 𝔽 + (𝔽).mantissaBits)) := by
          unfold big; rw [← zpow_add₀ (by norm_num)]
      _ ≤ 2 ^ (0 : ℤ) := by
          refine zpow_le_zpow_right₀ (by norm_num) ?_
          show (𝔽).minExponent - 1 + (emax 𝔽 + (𝔽).mantissaBits) ≤ 0
          have : 2 ≤ (𝔽).mantissaBits := by unfold Format.mantissaBits; have := (𝔽).hm; omega
          unfold Format.minExponent emax
          omega
      _ = 1 := zpow_zero _
  have hrep : (grid 𝔽).Rep (2 ^ (grid 𝔽).emin) := ⟨1, (grid 𝔽).emin, by
    rw [abs_one]; exact one_le_pow₀ (by norm_num), le_refl _, by simp⟩
  have hpos := two_zpow_pos (grid 𝔽).emin
  have hhalf : (2 : ℝ) ^ ((grid 𝔽).emin - 1) = 2 ^ (grid 𝔽).emin / 2 := by
    rw [zpow_sub₀ (by norm_num), zpow_one]
  rw [hhalf] at hbig
  rcases lt_or_gt_of_ne (fun e : x = 0 => by rw [e, abs_zero] at hbig; linarith) with hneg | hpos'
  · have := RN_nearest (x := x) (Rep_neg hrep)
    rw [← hv] at this
    rw [abs_of_neg hneg] at hbig
    rw [zero_sub, abs_neg, abs_of_neg hneg] at this
    rcases abs_cases (-2 ^ (grid 𝔽).emin - x) with ⟨h, _⟩ | ⟨h, _⟩ <;> linarith
  · have := RN_nearest (x := x) hrep
    rw [← hv] at this
    rw [abs_of_pos hpos'] at hbig
    rw [zero_sub, abs_neg, abs_of_pos hpos'] at this
    rcases abs_cases (2 ^ (grid 𝔽).emin - x) with ⟨h, _⟩ | ⟨h, _⟩ <;> linarith

/-- The invariant: the entries `p k` of the columns, divided already for the columns in `S`; the
    other entries are zeros. -/
def MonoInv (σ : Equiv.Perm (Fin 4)) (p : Fin 4 → T) (n : Nat) (s : InvState T) : Prop :=
  ∃ S : Finset (Fin 4), S.card = n ∧ (∀ k, s.ipiv k = if k ∈ S then 1 else 0) ∧
    (∀ i, i ∈ S → (σ * rowPerm s.indxr s.indxc n) i = i) ∧
    ∀ i j, if j = (σ * rowPerm s.indxr s.indxc n) i
      then s.minv i j = if j ∈ S then fdiv o (p j) else p j
      else IsZero (s.minv i j)

theorem monoStep (σ : Equiv.Perm (Fin 4)) (p : Fin 4 → T) (hp : ∀ k, IsFinite (p k))
    (h0 : ∀ k, val (p k) ≠ 0) (hr : ∀ k, IsFinite (fdiv o (p k))) (i : Fin 4) (s : InvState T)
    (h : MonoInv σ p i s) : ∃ s', invStep i s = .ok s' ∧ MonoInv σ p (i + 1) s' := by
  obtain ⟨S, hcard, hpiv, hfix, hmat⟩ := h
  set τ := σ * rowPerm s.indxr s.indxc i with hτ
  obtain ⟨k0, hk0⟩ : ∃ k0, k0 ∉ S := by
    by_contra hall
    push Not at hall
    have : S = Finset.univ := Finset.eq_univ_iff_forall.2 hall
    rw [this] at hcard
    simp at hcard
    have := i.isLt
    omega
  have hS : ∀ k, s.ipiv k = 0 ↔ k ∉ S := fun k => by rw [hpiv]; split <;> simp_all
  have hτS : ∀ i, i ∈ S ↔ τ i ∈ S := fun i => by
    constructor
    · intro h; rw [hfix i h]; exact h
    · intro h
      have := hfix _ h
      rw [τ.injective this] at h; exact h
  have hfin : ∀ j k, IsFinite (s.minv j k) := fun j k => by
    have := hmat j k
    split at this
    · rw [this]; split
      · exact hr _
      · exact hp _
    · exact (isZero_iff.1 this).1
  obtain ⟨q, hq, hqr, hqc, hmax⟩ := choosePivot_float s.ipiv s.minv
    (fun k => by rw [hpiv]; split <;> omega) (fun j k _ _ => hfin j k) ⟨k0, (hS k0).2 hk0⟩
  rw [hS] at hqr hqc
  -- the pivot is the entry of its row
  have hcol : q.icol = τ q.irow := by
    by_contra hne
    have h1 := hmat q.irow q.icol
    rw [if_neg hne] at h1
    have h2 := (hmax q.irow (τ q.irow) ((hS _).2 hqr) ((hS _).2 (by rwa [← hτS]))).1
    rw [(isZero_iff.1 h1).2] at h2
    have h3 := hmat q.irow (τ q.irow)
    rw [if_pos rfl, if_neg (by rwa [← hτS])] at h3
    rw [h3] at h2
    simp only [abs_zero] at h2
    exact h0 _ (abs_nonpos_iff.1 h2)
  have hpv : s.minv q.irow q.icol = p q.icol := by
    have h1 := hmat q.irow q.icol
    rwa [if_pos hcol, if_neg hqc] at h1
  have hnz : Elem.eq (s.minv q.irow q.icol) z = false := by
    rw [hpv, Bool.eq_false_iff, ne_eq, eq_iff_val (hp _) finite_zero, val_zero]
    exact h0 _
  refine ⟨_, invStep_float i s q hq hnz, insert q.icol S, by rw [Finset.card_insert_of_notMem hqc, hcard],
    fun k => ?_, ?_⟩
  · simp only [hpiv, Finset.mem_insert]
    by_cases hk : k = q.icol
    · subst hk; simp [hqc]
    · simp [hk]
  have hτ' : σ * rowPerm (fun k => if k = i then q.irow else s.indxr k)
      (fun k => if k = i then q.icol else s.indxc k) (i + 1) = τ * Equiv.swap q.irow q.icol := by
    simp only [rowPerm, i.isLt, dif_pos, Fin.eta, if_true]
    rw [rowPerm_congr (r' := s.indxr) (c' := s.indxc) i
      (fun j hj => if_neg fun e => by subst e; exact lt_irrefl _ hj)
      (fun j hj => if_neg fun e => by subst e; exact lt_irrefl _ hj), ← mul_assoc]
  show (∀ i_1 ∈ insert q.icol S, (σ * rowPerm _ _ (i.val + 1)) i_1 = i_1) ∧ _
  rw [hτ']
  set c := q.icol with hc
  -- the matrix after the exchange of rows
  set W : Mat44 T := fun i k => s.minv (Equiv.swap q.irow c i) k with hW
  set τ' := τ * Equiv.swap q.irow c with hτ''
  have hτc : τ' c = c := by simp [τ', ← hcol]
  have hfix' : ∀ i ∈ insert c S, τ' i = i := fun i hi => by
    rcases Finset.mem_insert.1 hi with rfl | hi
    · exact hτc
    · have h1 : i ≠ q.irow := fun e => hqr (e ▸ hi)
      have h2 : i ≠ c := fun e => hqc (e ▸ hi)
      simp only [τ', Equiv.Perm.coe_mul, Function.comp, Equiv.swap_apply_of_ne_of_ne h1 h2]
      exact hfix i hi
  have hWm : ∀ i j, if j = τ' i then W i j = if j ∈ S then fdiv o (p j) else p j else IsZero (W i j) :=
    fun i j => hmat (Equiv.swap q.irow c i) j
  have hWf : ∀ i j, IsFinite (W i j) := fun i j => hfin _ _
  have hWcc : W c c = p c := by
    have := hWm c c
    rwa [if_pos hτc.symm, if_neg hqc] at this
  have hrow : ∀ k, if k = c then pivotRow W c k = fdiv o (p c) else IsZero (pivotRow W c k) := fun k => by
    unfold pivotRow
    rw [hWcc]
    by_cases hk : k = c
    · subst hk; simp [fone_mul]
    · rw [if_neg hk, if_neg hk]
      have := hWm c k
      rw [hτc, if_neg hk] at this
      exact fmul_isZero this (hr _)
  refine ⟨hfix', fun i j => ?_⟩
  show if j = τ' i then feliminated W c i j = _ else IsZero (feliminated W c i j)
  unfold feliminated
  by_cases hi : i = c
  · subst hi
    rw [hτc]
    have := hrow j
    by_cases hj : j = c
    · subst hj
      simpa using this
    · rw [if_neg hj] at this ⊢
      simpa using this
  · rw [if_neg hi]
    -- the entry of the row in the column of the pivot
    have hsave : IsZero (W i c) := by
      have := hWm i c
      rwa [if_neg] at this
      intro e
      exact hi (τ'.injective (e.symm.trans hτc.symm))
    have hprod : IsZero (fmul (pivotRow W c j) (W i c)) := by
      rw [fmul_comm']
      refine fmul_isZero hsave ?_
      have := hrow j
      split at this
      · rw [this]; exact hr _
      · exact (isZero_iff.1 this).1
    by_cases hj : j = τ' i
    · rw [if_pos hj]
      have hjc : j ≠ c := fun e => hi (τ'.injective ((hj.symm.trans e).trans hτc.symm))
      rw [if_neg hjc]
      have := hWm i j
      rw [if_pos hj] at this
      rw [fsub_isZero _ hprod, this]
      · simp [hjc]
      · rw [this]
        intro hz
        split at hz
        · exact recip_ne_zero (hp j) (h0 j) (hr j) hz
        · exact h0 j (isZero_iff.1 hz).2
    · rw [if_neg hj]
      refine isZero_fsub ?_ hprod
      split
      · exact zero_isZero
      · have := hWm i j
        rwa [if_neg hj] at this

/-- A matrix with one entry per row and column is inverted by inverting the entries. -/
theorem monomial_inverse {U : Type} [As U T] (a : Matrix4 U) (σ : Equiv.Perm (Fin 4))
    (h0 : ∀ i j, j ≠ σ i → IsZero (As.as_ (a.mat i j) : T))
    (hp : ∀ i, IsFinite (As.as_ (a.mat i (σ i)) : T)) (hn : ∀ i, val (As.as_ (a.mat i (σ i)) : T) ≠ 0)
    (hr : ∀ i, IsFinite (fdiv o (As.as_ (a.mat i (σ i)) : T))) :
    ∃ b : Matrix4 T, a.inverse = .ok b ∧ ∀ i j, if i = σ j
      then b.mat i j = fdiv o (As.as_ (a.mat j i)) else IsZero (b.mat i j) := by
  let p : Fin 4 → T := fun k => As.as_ (a.mat (σ.symm k) k)
  have hps : ∀ k, p k = As.as_ (a.mat (σ.symm k) (σ (σ.symm k))) := fun k => by simp [p]
  obtain ⟨s, hs, S, hcard, -, hfix, hmat⟩ := for4_inv (P := MonoInv σ p) (f := invStep)
    (s := ⟨fun _ => 0, fun _ => 0, fun _ => 0, (toMat4f a : Matrix4 T).mat⟩)
    ⟨∅, rfl, fun k => by simp, fun i h => by simp at h, fun i j => by
      simp only [rowPerm, mul_one, Finset.notMem_empty, if_false]
      split
      · next e => subst e; simp [p, toMat4f]
      · next e => exact h0 i j e⟩
    (fun i s h => monoStep σ p (fun k => by rw [hps]; exact hp _) (fun k => by rw [hps]; exact hn _)
      (fun k => by rw [hps]; exact hr _) i s h)
  obtain rfl : S = Finset.univ := Finset.eq_univ_of_card S hcard
  have hτ : σ * rowPerm s.indxr s.indxc 4 = 1 := Equiv.ext fun i => hfix i (Finset.mem_univ _)
  have hσ : (rowPerm s.indxr s.indxc 4).symm = σ := by
    have := eq_inv_of_mul_eq_one_left hτ
    rw [this]; rfl
  refine ⟨⟨fun i k => s.minv i (σ k)⟩, ?_, fun i j => ?_⟩
  · unfold Matrix4.inverse
    simp only []
    rw [hs, ok_bind, for4rev_ok fun j m => swapCols_value m (s.indxr j) (s.indxc j), ok_bind, ← hσ]
    simp only [rowPerm, Equiv.symm]
    rfl
  · have := hmat i (σ j)
    rw [hτ] at this
    simp only [Equiv.Perm.coe_one, id, Finset.mem_univ, if_true] at this
    by_cases e : i = σ j
    · rw [if_pos e]
      rw [if_pos e.symm] at this
      refine this.trans ?_
      simp [p, e]
    · rw [if_neg e]
      rwa [if_neg fun e' => e e'.symm] at this

/-! ### Eliminations without rounding -/

/-- The float stands for the number. -/
def Is (a : T) (x : ℝ) : Prop := IsFinite a ∧ val a = x

theorem is_of_rnd {a c : T} {x : ℝ} (h : Elem.isNan a = false ∧ ext a = rnd 𝔽 x) (hc : Is c x) : Is a x := by
  obtain ⟨h1, h2⟩ := h
  rw [← hc.2, rnd_val hc.1, hc.2] at h2
  exact finite_of_ext h1 h2

theorem Is.fmul {a b c : T} {x y : ℝ} (ha : Is a x) (hb : Is b y) (hc : Is c (x * y)) :
    Is (Pbrt.fmul a b) (x * y) :=
  is_of_rnd (by rw [← ha.2, ← hb.2]; exact fmul_rnd ha.1 hb.1) hc

theorem Is.fsub {a b c : T} {x y : ℝ} (ha : Is a x) (hb : Is b y) (hc : Is c (x - y)) :
    Is (Pbrt.fsub a b) (x - y) :=
  is_of_rnd (by rw [← ha.2, ← hb.2]; exact fsub_rnd ha.1 hb.1) hc

theorem Is.fdiv {a b c : T} {x y : ℝ} (ha : Is a x) (hb : Is b y) (h0 : y ≠ 0) (hc : Is c (x / y)) :
    Is (Pbrt.fdiv a b) (x / y) :=
  is_of_rnd (by rw [← ha.2, ← hb.2]; exact fdiv_rnd ha.1 hb.1 (by rw [hb.2]; exact h0)) hc

theorem Is.zero : Is z 0 := ⟨finite_zero, val_zero⟩
theorem Is.one : Is o 1 := ⟨finite_one, val_one⟩
theorem Is.neg {a : T} {x : ℝ} (h : Is a x) : Is (fneg a) (-x) := ⟨fneg_finite h.1, by rw [val_fneg, h.2]⟩

/-- The pivot row of a pivot 1 -/
theorem pivotRow_one {W : Mat44 T} {V : Fin 4 → Fin 4 → ℝ} (h : ∀ i k, Is (W i k) (V i k)) {c : Fin 4}
    (hc : V c c = 1) (k : Fin 4) : Is (pivotRow W c k) (V c k) := by
  have hd : Is (fdiv o (W c c)) 1 := by
    have := Is.fdiv (c := o) Is.one (h c c) (by rw [hc]; norm_num) (by rw [hc, div_one]; exact Is.one)
    rwa [hc, div_one] at this
  unfold pivotRow
  split
  · next e => subst e; rw [fone_mul, hc]; exact hd
  · have := Is.fmul (h c k) hd (by rw [mul_one]; exact h c k)
    rwa [mul_one] at this

/-- Eliminating in a column of the identity changes no values. -/
theorem felim_unit {W : Mat44 T} {V : Fin 4 → Fin 4 → ℝ} (h : ∀ i k, Is (W i k) (V i k)) {c : Fin 4}
    (hc : ∀ i, V i c = if i = c then 1 else 0) (i k : Fin 4) : Is (feliminated W c i k) (V i k) := by
  have hrow := pivotRow_one h (c := c) (by simp [hc])
  unfold feliminated
  split
  · next e => subst e; exact hrow k
  · next e =>
    have h0 : V i c = 0 := by simp [hc, e]
    have hic := h i c
    rw [h0] at hic
    have hm := Is.fmul (hrow k) hic (by rw [mul_zero]; exact Is.zero)
    rw [mul_zero] at hm
    have hx : Is (if k = c then z else W i k) (V i k) := by
      split
      · next e' => subst e'; rw [h0]; exact Is.zero
      · exact h i k
    have := Is.fsub hx hm (by rw [sub_zero]; exact hx)
    rwa [sub_zero] at this

/-- The matrix of a translation -/
def shift (d : Fin 3 → ℝ) (i k : Fin 4) : ℝ :=
  if i = k then 1 else if k = 3 then (if h : i.val < 3 then d ⟨i, h⟩ else 0) else 0

theorem felim_shift {W : Mat44 T} {d : Fin 3 → ℝ} (h : ∀ i k, Is (W i k) (shift d i k)) (i k : Fin 4) :
    Is (feliminated W 3 i k) (shift (fun j => - d j) i k) := by
  have hrow := pivotRow_one h (c := 3) (by simp [shift])
  unfold feliminated
  split
  · next e =>
    subst e
    have := hrow k
    have e2 : shift (fun j => - d j) 3 k = shift d 3 k := by simp [shift]
    rwa [e2]
  · next e =>
    have hlt : i.val < 3 := by have := i.isLt; have : i.val ≠ 3 := fun h => e (Fin.ext h); omega
    have hic : Is (W i 3) (d ⟨i, hlt⟩) := by
      have := h i 3
      simpa [shift, e, hlt] using this
    by_cases hk : k = 3
    · subst hk
      have h3 := hrow 3
      rw [show shift d 3 3 = 1 by simp [shift]] at h3
      have hm := Is.fmul h3 hic (by rw [one_mul]; exact hic)
      rw [one_mul] at hm
      rw [if_pos rfl]
      have := Is.fsub Is.zero hm (by rw [zero_sub]; exact hic.neg)
      rw [zero_sub] at this
      simpa [shift, e, hlt] using this
    · have h3 := hrow k
      rw [show shift d 3 k = 0 by simp [shift, Ne.symm hk, hk]] at h3
      have hm := Is.fmul h3 hic (by rw [zero_mul]; exact Is.zero)
      rw [zero_mul] at hm
      rw [if_neg hk]
      have hx := h i k
      have e2 : shift (fun j => - d j) i k = shift d i k := by simp [shift, hk]
      rw [e2]
      have := Is.fsub hx hm (by rw [sub_zero]; exact hx)
      rwa [sub_zero] at this

/-- The invariant for translations: the pivots are taken from the last to the first. -/
def ShiftInv (d : Fin 3 → ℝ) (n : Nat) (s : InvState T) : Prop :=
  (∀ k : Fin 4, s.ipiv k = if 4 ≤ k.val + n then 1 else 0) ∧
  (∀ j : Fin 4, j.val < n → s.indxr j = s.indxc j) ∧
  ∀ i k, Is (s.minv i k) (shift (if n = 0 then d else fun j => - d j) i k)

theorem shiftStep (d : Fin 3 → ℝ) (hd : ∀ j, |d j| ≤ 1) (i : Fin 4) (s : InvState T)
    (h : ShiftInv d i s) : ∃ s', invStep i s = .ok s' ∧ ShiftInv d (i + 1) s' := by
  obtain ⟨hpiv, hidx, hmat⟩ := h
  have hi := i.isLt
  let c : Fin 4 := ⟨3 - i.val, by omega⟩
  have hS : ∀ k, s.ipiv k = 0 ↔ k ≤ c := fun k => by
    rw [hpiv, Fin.le_def]
    split <;> simp [c] <;> omega
  obtain ⟨q, hq, hqr, hqc, hmax⟩ := choosePivot_float s.ipiv s.minv
    (fun k => by rw [hpiv]; split <;> omega) (fun j k _ _ => (hmat j k).1) ⟨c, (hS c).2 (le_refl _)⟩
  rw [hS] at hqr hqc
  have hone : ∀ D : Fin 3 → ℝ, shift D c c = 1 := fun D => by simp [shift]
  have hle : |shift (if i.val = 0 then d else fun j => - d j) q.irow q.icol| ≤ 1 := by
    unfold shift
    split_ifs with h1 h2 h3 h4
    · simp
    · exact hd _
    · simp only [abs_neg]; exact hd _
    · simp
    · simp
  obtain ⟨hm1, hm2⟩ := hmax c c ((hS c).2 (le_refl _)) ((hS c).2 (le_refl _))
  rw [(hmat c c).2, hone, (hmat _ _).2, abs_one] at hm1 hm2
  have hpos := hm2 (le_antisymm hm1 hle)
  have hrc : q.irow = c ∧ q.icol = c := by
    rcases hpos with h | ⟨h, h'⟩
    · exact absurd hqr (not_le.2 h)
    · exact ⟨h.symm, le_antisymm hqc h'⟩
  obtain ⟨hr, hc⟩ := hrc
  have hnz : Elem.eq (s.minv q.irow q.icol) z = false := by
    rw [hr, hc, Bool.eq_false_iff, ne_eq, eq_iff_val (hmat c c).1 finite_zero, val_zero, (hmat c c).2, hone]
    norm_num
  refine ⟨_, invStep_float i s q hq hnz, fun k => ?_, fun j hj => ?_, fun a b => ?_⟩
  · simp only [hc, hpiv]
    by_cases hk : k = c
    · rw [if_pos hk, hk, if_neg (by simp only [c]; omega), if_pos (by simp only [c]; omega)]
    · have : k.val ≠ 3 - i.val := fun e => hk (Fin.ext e)
      rw [if_neg hk]
      split <;> split <;> omega
  · simp only []
    split
    · rw [hr, hc]
    · next hne => exact hidx j (by have : j.val ≠ i.val := fun e => hne (Fin.ext e); omega)
  · simp only [hr, hc, Equiv.swap_self, Equiv.refl_apply]
    rw [if_neg (by omega)]
    by_cases h0 : i.val = 0
    · have e3 : c = 3 := Fin.ext (by simp [c, h0])
      rw [e3]
      refine felim_shift (fun i' k => ?_) a b
      have := hmat i' k
      rwa [if_pos h0] at this
    · refine felim_unit (V := shift fun j => - d j) (fun i' k => ?_) (fun i' => ?_) a b
      · have := hmat i' k
        rwa [if_neg h0] at this
      · have e3 : c ≠ 3 := fun e => by have := congrArg Fin.val e; simp [c] at this; omega
        simp [shift, e3]

/-- The inverse of a translation by components of at most 1 is exact. -/
theorem shift_inverse {U : Type} [As U T] (a : Matrix4 U) (d : Fin 3 → ℝ) (hd : ∀ j, |d j| ≤ 1)
    (h : ∀ i k, Is (As.as_ (a.mat i k) : T) (shift d i k)) :
    ∃ b : Matrix4 T, a.inverse = .ok b ∧ ∀ i k, Is (b.mat i k) (shift (fun j => - d j) i k) := by
  obtain ⟨s, hs, -, hidx, hmat⟩ := for4_inv (P := ShiftInv (T := T) d) (f := invStep)
    (s := ⟨fun _ => 0, fun _ => 0, fun _ => 0, (toMat4f a : Matrix4 T).mat⟩)
    ⟨fun k => by have := k.isLt; rw [if_neg (by omega)], fun j hj => absurd hj (Nat.not_lt_zero _), fun i k => h i k⟩
    (fun i s h => shiftStep d hd i s h)
  refine ⟨⟨s.minv⟩, ?_, hmat⟩
  unfold Matrix4.inverse
  simp only []
  rw [hs, ok_bind, for4rev_ok fun j m => swapCols_value m (s.indxr j) (s.indxc j), ok_bind]
  simp only [fun j : Fin 4 => hidx j j.isLt, Equiv.swap_self, Equiv.refl_apply]
  rfl

end

end Pbrt
