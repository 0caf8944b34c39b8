import Verif.Spec.Whole
import Verif.Props.Moderate
import Verif.Props.FloatTransforms
import Verif.Props.FloorCeil
import Verif.Props.Numbers

/-!
# C102: whole numbers of moderate size are computed exactly
-/

namespace Pbrt

open Spec UnitTests Float.Model

/-! ### The number types -/

/-- **C102**: `i64` computes exactly with whole numbers below `2 ^ 63`, with and without overflow
    checks. -/
theorem C102_i64 (checks : Bool) : WholeArith (I64 checks) IsInt (2 ^ 63 - 1) := by
  have H := C77_i64 checks
  have key : ∀ {x : ℤ} {o : Outcome (I64 checks)}, Returns x o → |x| ≤ 2 ^ 63 - 1 → ∃ c, o = .ok c ∧ c.toInt = x := by
    intro x o h hx
    unfold Returns at h
    rw [abs_le] at hx
    rwa [if_pos (by omega)] at h
  refine ⟨?_, ?_, ?_, ?_, ?_, ?_, ?_, ?_, ?_, ?_, ?_⟩
  · rintro a b m n rfl rfl h
    exact key (H.add a b) h
  · rintro a b m n rfl rfl h
    exact key (H.sub a b) h
  · rintro a b m n rfl rfl h
    exact key (H.mul a b) h
  · rintro a m rfl h
    exact key (H.neg a) (by rwa [abs_neg])
  · rintro a m rfl h
    exact key (H.abs a) (by rwa [abs_abs])
  · rintro a b m n ha rfl h0 h
    unfold IsInt at ha
    obtain ⟨c, hc, hv⟩ := H.div a b h0 (by
      rintro ⟨h1, h2⟩
      rw [h2] at ha
      rw [abs_le] at h
      omega)
    exact ⟨c, hc, by rw [IsInt, hv, ha, Int.mul_tdiv_cancel _ h0]⟩
  · rintro a b m n rfl rfl
    exact H.le a b
  · rintro a b m n rfl rfl
    exact H.lt a b
  · rintro a b m n rfl rfl
    exact H.eq a b
  · rintro a m rfl
    exact H.nan a
  · intro n h
    rw [abs_le] at h
    exact H.int n (by omega) (by omega)

section
variable {T : Type} [Elem T] [As T T] [FloatFns T] [IEEE T]

local notation "𝔽" => IEEE.fmt T

/-- A whole number of at most `2 ^ p` is a float. -/
theorem whole_rnd {a : T} {n : ℤ} (h : Elem.isNan a = false ∧ ext a = rnd 𝔽 n) (hn : |n| ≤ 2 ^ (𝔽).mantissaBits) :
    IsWhole a n := by
  have h0 : (grid 𝔽).RN n = n := by
    refine RN_rep ⟨n, 0, hn, ?_, by simp⟩
    have heb := IEEE.heb (T := T)
    have h4 : (2 : ℤ) ^ 1 ≤ 2 ^ ((𝔽).exponentBits - 1) := pow_le_pow_right₀ (by norm_num) (by omega)
    have hp : 2 ≤ (𝔽).mantissaBits := by unfold Format.mantissaBits; have := (𝔽).hm; omega
    show (𝔽).minExponent ≤ 0
    unfold Format.minExponent
    omega
  have h2 : |(n : ℝ)| < big 𝔽 := by
    have h1 : |(n : ℝ)| ≤ 2 ^ (𝔽).mantissaBits := by exact_mod_cast hn
    have h3 : (2 : ℝ) ^ ((𝔽).mantissaBits : ℤ) < big 𝔽 := by
      refine zpow_lt_zpow_right₀ (by norm_num) ?_
      have := IEEE.hwide (T := T)
      have h5 : ((𝔽).mantissaBits : ℤ) < 2 ^ ((𝔽).exponentBits - 1) := by exact_mod_cast this
      unfold emax
      omega
    rw [zpow_natCast] at h3
    linarith
  have := finite_of_rnd h (by rw [h0]; exact h2)
  exact ⟨this.1, this.2.trans h0⟩

theorem whole_float (L : Lits T) (he : unitRoundoff T < 1 / 1000) :
    WholeFloat T IsWhole (2 ^ (𝔽).mantissaBits) := by
  refine ⟨⟨?_, ?_, ?_, ?_, ?_, ?_, ?_, ?_, ?_, ?_, ?_⟩, ?_, ?_⟩
  · rintro a b m n ⟨ha, hm⟩ ⟨hb, hn⟩ h
    refine ⟨_, fadd_ok a b, whole_rnd ?_ h⟩
    have := fadd_rnd ha hb
    rw [hm, hn] at this
    exact_mod_cast this
  · rintro a b m n ⟨ha, hm⟩ ⟨hb, hn⟩ h
    refine ⟨_, fsub_ok a b, whole_rnd ?_ h⟩
    have := fsub_rnd ha hb
    rw [hm, hn] at this
    exact_mod_cast this
  · rintro a b m n ⟨ha, hm⟩ ⟨hb, hn⟩ h
    refine ⟨_, fmul_ok a b, whole_rnd ?_ h⟩
    have := fmul_rnd ha hb
    rw [hm, hn] at this
    exact_mod_cast this
  · rintro a m ⟨ha, hm⟩ h
    exact ⟨_, fneg_ok a, fneg_finite ha, by rw [val_fneg, hm]; push_cast; rfl⟩
  · rintro a m ⟨ha, hm⟩ h
    exact ⟨_, fabs_ok a, fabs_finite ha, by rw [val_fabs, hm]; push_cast; rfl⟩
  · rintro a b m n ⟨ha, hm⟩ ⟨hb, hn⟩ h0 h
    refine ⟨_, fdiv_ok a b, whole_rnd ?_ h⟩
    have h0' : (n : ℝ) ≠ 0 := by exact_mod_cast h0
    have := fdiv_rnd ha hb (by rw [hn]; exact h0')
    rw [hm, hn] at this
    push_cast at this
    rwa [mul_div_cancel_right₀ _ h0'] at this
  · rintro a b m n ⟨ha, hm⟩ ⟨hb, hn⟩
    rw [le_iff_val ha hb, hm, hn]
    exact Int.cast_le
  · rintro a b m n ⟨ha, hm⟩ ⟨hb, hn⟩
    rw [lt_iff_val ha hb, hm, hn]
    exact Int.cast_lt
  · rintro a b m n ⟨ha, hm⟩ ⟨hb, hn⟩
    rw [eq_iff_val ha hb, hm, hn]
    exact Int.cast_inj
  · rintro a m ⟨ha, hm⟩
    exact ha.notNan
  · intro n h
    have hr := (normalize_rounded (fmt := 𝔽) (n := n) (e := 0) (z := .positive) (x := n) (by simp)).1
    have h3 := uext_over IEEE.heb hr
    have hu : up (Elem.fromInt n : T) = over 𝔽 (UnpackedFloat.ofInt 𝔽 n) := by
      rw [IEEE.int_eq, up_pk]; exact hr.canon
    refine whole_rnd ⟨?_, ?_⟩ h
    · rw [nan_iff, hu]; exact h3.2
    · unfold ext; rw [hu]; exact h3.1
  · rintro a k ⟨ha, hm⟩ h0 h
    refine ⟨_, fsqrt_ok a, whole_rnd ?_ (by rwa [abs_of_nonneg h0])⟩
    have := fsqrt_rnd ha (by rw [hm]; positivity)
    rw [hm] at this
    push_cast at this
    rwa [Real.sqrt_sq (by exact_mod_cast h0)] at this
  · rintro a n ⟨ha, hm⟩
    have h := notOne_near L ha
    rw [hm] at h
    have hL := L.v1001
    by_cases h1 : n = 1
    · subst h1
      rw [h.1 (by simp; linarith)]
      simp
    · rw [h.2 ?_]
      · simpa using h1
      · have : (1 : ℝ) ≤ |(n : ℝ) - 1| := by
          have : 1 ≤ |n - 1| := Int.one_le_abs (by omega)
          exact_mod_cast this
        linarith

end

/-- **C102**: `f32` computes exactly with whole numbers up to `2 ^ 24`. -/
theorem C102_f32 : WholeFloat Float32.Model IsWhole (2 ^ 24) :=
  whole_float lits32 (by rw [show unitRoundoff Float32.Model = 2 ^ (-24 : ℤ) from rfl]; norm_num)

/-- **C102**: `f64` computes exactly with whole numbers up to `2 ^ 53`. -/
theorem C102_f64 : WholeFloat Float.Model IsWhole (2 ^ 53) :=
  whole_float lits64 (by rw [show unitRoundoff Float.Model = 2 ^ (-53 : ℤ) from rfl]; norm_num)

/-- **C102**: the casts between the types keep whole numbers. -/
theorem C102_casts (checks : Bool) (n : ℤ) :
    (∀ a : I64 checks, IsInt a n → |n| ≤ 2 ^ 24 → IsWhole (As.as_ a : Float32.Model) n) ∧
    (∀ a : I64 checks, IsInt a n → |n| ≤ 2 ^ 53 → IsWhole (As.as_ a : Float.Model) n) ∧
    (∀ a : Float32.Model, IsWhole a n → IsWhole (As.as_ a : Float32.Model) n) ∧
    ∀ a : Float.Model, IsWhole a n → IsWhole (As.as_ a : Float.Model) n := by
  refine ⟨?_, ?_, fun a h => h, fun a h => h⟩
  · rintro a rfl h
    exact C102_f32.int a.toInt h
  · rintro a rfl h
    exact C102_f64.int a.toInt h

theorem Spec.WholeArith.below {T : Type} [Elem T] {Is : T → ℤ → Prop} {K L : ℤ} (W : WholeArith T Is L) (h : K ≤ L) :
    WholeArith T Is K :=
  ⟨fun _ _ _ _ ha hb hm => W.add _ _ _ _ ha hb (hm.trans h), fun _ _ _ _ ha hb hm => W.sub _ _ _ _ ha hb (hm.trans h),
    fun _ _ _ _ ha hb hm => W.mul _ _ _ _ ha hb (hm.trans h), fun _ _ ha hm => W.neg _ _ ha (hm.trans h),
    fun _ _ ha hm => W.abs _ _ ha (hm.trans h), fun _ _ _ _ ha hb h0 hm => W.div _ _ _ _ ha hb h0 (hm.trans h),
    W.le, W.lt, W.eq, W.nan, fun _ hm => W.int _ (hm.trans h)⟩

/-! ### Vectors, normals, points -/

section
variable {T : Type} [Elem T] {Is : T → ℤ → Prop} {L M : ℤ}

theorem sum_le {m n : ℤ} (h : |m| ≤ M) (h' : |n| ≤ M) (hM : 2 * M ≤ L) : |m + n| ≤ L := by
  rw [abs_le] at *; omega

theorem diff_le {m n : ℤ} (h : |m| ≤ M) (h' : |n| ≤ M) (hM : 2 * M ≤ L) : |m - n| ≤ L := by
  rw [abs_le] at *; omega

theorem one_le {m : ℤ} (h : |m| ≤ M) (hM : 2 * M ≤ L) : |m| ≤ L := by
  have := abs_nonneg m; omega

theorem prod_le {m n : ℤ} (h : |m| ≤ M) (h' : |n| ≤ M) (hM : M ^ 2 ≤ L) : |m * n| ≤ L := by
  have := abs_nonneg m
  rw [abs_mul]
  nlinarith [mul_le_mul h h' (abs_nonneg n) (by omega)]

theorem square_le {m : ℤ} (h : |m| ≤ M) (hM : M ^ 2 ≤ L) : |m| ≤ L := by
  have := abs_nonneg m
  nlinarith

theorem whole_dot (W : WholeArith T Is L) {x y : Fin 3 → T} {a b : Fin 3 → ℤ} (hu : Coords Is M x a)
    (hv : Coords Is M y b) (hM : 3 * M ^ 2 ≤ L) :
    ∃ d, (do
      let p ← Elem.mul (x 0) (y 0)
      let q ← Elem.mul (x 1) (y 1)
      let pq ← Elem.add p q
      let r ← Elem.mul (x 2) (y 2)
      Elem.add pq r) = .ok d ∧ Is d (∑ i, a i * b i) := by
  have hM1 : M ^ 2 ≤ L := le_trans (by nlinarith [sq_nonneg M]) hM
  have bd := fun i => abs_le.1 (prod_le (L := M ^ 2) (hu i).2 (hv i).2 le_rfl)
  choose p hp ep using fun i => W.mul _ _ _ _ (hu i).1 (hv i).1 (prod_le (hu i).2 (hv i).2 hM1)
  obtain ⟨s, hs, es⟩ := W.add _ _ _ _ (ep 0) (ep 1) (by
    have := bd 0; have := bd 1; have := sq_nonneg M; rw [abs_le]; constructor <;> linarith)
  obtain ⟨d, hd, ed⟩ := W.add _ _ _ _ es (ep 2) (by
    have := bd 0; have := bd 1; have := bd 2; rw [abs_le]; constructor <;> linarith)
  refine ⟨d, by simp only [hp, hs, hd, ok_bind], ?_⟩
  rw [Fin.sum_univ_three]
  exact ed

theorem whole_minor (W : WholeArith T Is L) {x y : Fin 3 → T} {a b : Fin 3 → ℤ} (hu : Coords Is M x a)
    (hv : Coords Is M y b) (hM : 3 * M ^ 2 ≤ L) (_ j k : Fin 3) :
    ∃ d, (∃ p q, Elem.mul (x j) (y k) = .ok p ∧ Elem.mul (x k) (y j) = .ok q ∧ Elem.sub p q = .ok d) ∧
      Is d (a j * b k - a k * b j) := by
  have hM1 : M ^ 2 ≤ L := le_trans (by nlinarith [sq_nonneg M]) hM
  have bd := fun i j => abs_le.1 (prod_le (L := M ^ 2) (hu i).2 (hv j).2 le_rfl)
  obtain ⟨p, hp, ep⟩ := W.mul _ _ _ _ (hu j).1 (hv k).1 (prod_le (hu j).2 (hv k).2 hM1)
  obtain ⟨q, hq, eq⟩ := W.mul _ _ _ _ (hu k).1 (hv j).1 (prod_le (hu k).2 (hv j).2 hM1)
  obtain ⟨d, hd, ed⟩ := W.sub _ _ _ _ ep eq (by
    have := bd j k; have := bd k j; have := sq_nonneg M; rw [abs_le]; constructor <;> linarith)
  exact ⟨d, ⟨p, q, hp, hq, hd⟩, ed⟩

theorem whole_min (W : WholeArith T Is L) {x y : T} {m n : ℤ} (hx : Is x m) (hy : Is y n) :
    Is (pminFrom x [y]) (min m n) ∧ Is (pmaxFrom x [y]) (max m n) := by
  have h1 := W.lt y x n m hy hx
  have h2 : Elem.gt y x = true ↔ m < n := W.lt x y m n hx hy
  simp only [pminFrom, pmaxFrom]
  constructor
  · by_cases h : n < m
    · rw [if_pos (h1.2 h), min_eq_right h.le]; exact hy
    · rw [if_neg (fun hc => h (h1.1 hc)), min_eq_left (not_lt.1 h)]; exact hx
  · by_cases h : m < n
    · rw [if_pos (h2.2 h), max_eq_right h.le]; exact hy
    · rw [if_neg (fun hc => h (h2.1 hc)), max_eq_left (not_lt.1 h)]; exact hx

theorem whole_largest (W : WholeArith T Is L) {x y z : T} {a : Fin 3 → ℤ} (hx : Is x (a 0)) (hy : Is y (a 1))
    (hz : Is z (a 2)) :
    ∃ d : Fin 3, (if Elem.gt x y then if Elem.gt x z then 0 else 2 else if Elem.gt y z then 1 else 2) = d.val ∧
      ∀ j, a j ≤ a d ∧ (d < j → a j < a d) := by
  have h1 := W.lt y x _ _ hy hx
  have h2 := W.lt z x _ _ hz hx
  have h3 := W.lt z y _ _ hz hy
  simp only [Elem.gt, h1, h2, h3]
  split_ifs
  · refine ⟨0, rfl, fun j => ?_⟩; fin_cases j <;> simp <;> omega
  · refine ⟨2, rfl, fun j => ?_⟩; fin_cases j <;> simp <;> omega
  · refine ⟨1, rfl, fun j => ?_⟩; fin_cases j <;> simp <;> omega
  · refine ⟨2, rfl, fun j => ?_⟩; fin_cases j <;> simp <;> omega

/-- **C102**: vectors: sums, differences and negation. -/
theorem C102_vector_sums (W : WholeArith T Is L) (u v : Vector3 T) (a b : Fin 3 → ℤ) (hu : Coords Is M u.get a)
    (hv : Coords Is M v.get b) (hM : 2 * M ≤ L) :
    (∃ w, u.add v = .ok w ∧ ∀ i, Is (w.get i) (a i + b i)) ∧
    (∃ w, u.sub v = .ok w ∧ ∀ i, Is (w.get i) (a i - b i)) ∧ ∃ w, u.neg = .ok w ∧ ∀ i, Is (w.get i) (-a i) := by
  choose x hx ex using fun i => W.add _ _ _ _ (hu i).1 (hv i).1 (sum_le (hu i).2 (hv i).2 hM)
  choose y hy ey using fun i => W.sub _ _ _ _ (hu i).1 (hv i).1 (diff_le (hu i).2 (hv i).2 hM)
  choose s hs es using fun i => W.neg _ _ (hu i).1 (one_le (hu i).2 hM)
  have h0 := hx 0; have h1 := hx 1; have h2 := hx 2
  have g0 := hy 0; have g1 := hy 1; have g2 := hy 2
  have f0 := hs 0; have f1 := hs 1; have f2 := hs 2
  change Elem.add u.x v.x = _ at h0; change Elem.add u.y v.y = _ at h1; change Elem.add u.z v.z = _ at h2
  change Elem.sub u.x v.x = _ at g0; change Elem.sub u.y v.y = _ at g1; change Elem.sub u.z v.z = _ at g2
  change Elem.neg u.x = _ at f0; change Elem.neg u.y = _ at f1; change Elem.neg u.z = _ at f2
  refine ⟨⟨⟨x 0, x 1, x 2⟩, ?_, ?_⟩, ⟨⟨y 0, y 1, y 2⟩, ?_, ?_⟩, ⟨s 0, s 1, s 2⟩, ?_, ?_⟩
  · simp only [Vector3.add, h0, h1, h2, ok_bind, pure_ok]
  · intro i; fin_cases i; exacts [ex 0, ex 1, ex 2]
  · simp only [Vector3.sub, g0, g1, g2, ok_bind, pure_ok]
  · intro i; fin_cases i; exacts [ey 0, ey 1, ey 2]
  · simp only [Vector3.neg, f0, f1, f2, ok_bind, pure_ok]
  · intro i; fin_cases i; exacts [es 0, es 1, es 2]

/-- **C102**: vectors: multiples, and division without remainder. -/
theorem C102_vector_scaled (W : WholeArith T Is L) (u : Vector3 T) (s : T) (a : Fin 3 → ℤ) (k : ℤ)
    (hu : Coords Is M u.get a) (hs : Is s k) (hk : |k| ≤ M) (hM : M ^ 2 ≤ L) :
    (∃ w, u.mul s = .ok w ∧ ∀ i, Is (w.get i) (k * a i)) ∧
    ∀ w, u.mul s = .ok w → k ≠ 0 → ∃ v, w.div s = .ok v ∧ ∀ i, Is (v.get i) (a i) := by
  choose x hx ex using fun i => W.mul _ _ _ _ hs (hu i).1 (prod_le hk (hu i).2 hM)
  have h0 := hx 0; have h1 := hx 1; have h2 := hx 2
  change Elem.mul s u.x = _ at h0; change Elem.mul s u.y = _ at h1; change Elem.mul s u.z = _ at h2
  have hm : u.mul s = .ok ⟨x 0, x 1, x 2⟩ := by simp only [Vector3.mul, h0, h1, h2, ok_bind, pure_ok]
  refine ⟨⟨_, hm, ?_⟩, ?_⟩
  · intro i; fin_cases i; exacts [ex 0, ex 1, ex 2]
  intro w hw hk0
  cases hw.symm.trans hm
  choose y hy ey using fun i => W.div (x i) s (a i) k (by rw [mul_comm]; exact ex i) hs hk0
    (square_le (hu i).2 hM)
  refine ⟨⟨y 0, y 1, y 2⟩, by simp only [Vector3.div, hy, ok_bind, pure_ok], ?_⟩
  intro i; fin_cases i; exacts [ey 0, ey 1, ey 2]

/-- **C102**: vectors: products. -/
theorem C102_vector_products (W : WholeArith T Is L) (u v : Vector3 T) (a b : Fin 3 → ℤ) (hu : Coords Is M u.get a)
    (hv : Coords Is M v.get b) (hM : 3 * M ^ 2 ≤ L) :
    (∃ d, u.dot v = .ok d ∧ Is d (∑ i, a i * b i)) ∧ (∃ d, u.lenSq = .ok d ∧ Is d (∑ i, a i ^ 2)) ∧
    (∃ w, u.cross v = .ok w ∧ ∀ i, Is (w.get i) (a (i + 1) * b (i + 2) - a (i + 2) * b (i + 1))) ∧
    ∃ w, u.faceForward v = .ok w ∧ ∀ i, Is (w.get i) (if ∑ i, a i * b i < 0 then -a i else a i) := by
  obtain ⟨d, hd, ed⟩ : ∃ d, u.dot v = .ok d ∧ Is d (∑ i, a i * b i) := by
    obtain ⟨d, hd, ed⟩ := whole_dot W hu hv hM
    exact ⟨d, hd, ed⟩
  obtain ⟨n, hn, en⟩ : ∃ d, u.lenSq = .ok d ∧ Is d (∑ i, a i ^ 2) := by
    obtain ⟨d, hd, ed⟩ := whole_dot W hu hu hM
    exact ⟨d, hd, by simpa only [pow_two] using ed⟩
  refine ⟨⟨d, hd, ed⟩, ⟨n, hn, en⟩, ?_, ?_⟩
  · choose x hx ex using fun i => whole_minor W hu hv hM i (i + 1) (i + 2)
    obtain ⟨p0, q0, hp0, hq0, h0⟩ := hx 0
    obtain ⟨p1, q1, hp1, hq1, h1⟩ := hx 1
    obtain ⟨p2, q2, hp2, hq2, h2⟩ := hx 2
    change Elem.mul u.y v.z = _ at hp0; change Elem.mul u.z v.y = _ at hq0
    change Elem.mul u.z v.x = _ at hp1; change Elem.mul u.x v.z = _ at hq1
    change Elem.mul u.x v.y = _ at hp2; change Elem.mul u.y v.x = _ at hq2
    refine ⟨⟨x 0, x 1, x 2⟩, ?_, ?_⟩
    · simp only [Vector3.cross, hp0, hp1, hp2, hq0, hq1, hq2, h0, h1, h2, ok_bind, pure_ok]
    · intro i; fin_cases i; exacts [ex 0, ex 1, ex 2]
  · have h0 : (0 : ℤ) ≤ L := le_trans (by positivity) hM
    have lt := W.lt d (Elem.fromInt 0) _ 0 ed (W.int 0 (by simpa using h0))
    simp only [Vector3.faceForward, hd, ok_bind]
    by_cases hlt : ∑ i, a i * b i < 0
    · rw [if_pos (lt.2 hlt)]
      simp only [if_pos hlt]
      choose s hs es using fun i => W.neg _ _ (hu i).1 (square_le (hu i).2 (le_trans (by nlinarith [sq_nonneg M]) hM))
      have f0 := hs 0; have f1 := hs 1; have f2 := hs 2
      change Elem.neg u.x = _ at f0; change Elem.neg u.y = _ at f1; change Elem.neg u.z = _ at f2
      refine ⟨⟨s 0, s 1, s 2⟩, by simp only [Vector3.neg, f0, f1, f2, ok_bind, pure_ok], ?_⟩
      intro i; fin_cases i; exacts [es 0, es 1, es 2]
    · rw [if_neg (fun h => hlt (lt.1 h))]
      simp only [if_neg hlt]
      exact ⟨u, rfl, fun i => (hu i).1⟩

/-- **C102**: vectors: smaller and larger coordinates, and the last axis with the largest one. -/
theorem C102_vector_order (W : WholeArith T Is L) (u v : Vector3 T) (a b : Fin 3 → ℤ) (hu : Coords Is M u.get a)
    (hv : Coords Is M v.get b) :
    (∀ i, Is ((u.min v).get i) (min (a i) (b i)) ∧ Is ((u.max v).get i) (max (a i) (b i))) ∧
    Is u.minComponent (min (a 0) (min (a 1) (a 2))) ∧ Is u.maxComponent (max (a 0) (max (a 1) (a 2))) ∧
    ∃ d : Fin 3, u.maxDimension = d ∧ ∀ j, a j ≤ a d ∧ (d < j → a j < a d) := by
  have x := (hu 0).1; have y := (hu 1).1; have z := (hu 2).1
  refine ⟨fun i => ?_, ?_, ?_, ?_⟩
  · fin_cases i
    · exact whole_min W (hu 0).1 (hv 0).1
    · exact whole_min W (hu 1).1 (hv 1).1
    · exact whole_min W (hu 2).1 (hv 2).1
  · rw [← min_assoc]; exact (whole_min W (whole_min W x y).1 z).1
  · rw [← max_assoc]; exact (whole_min W (whole_min W x y).2 z).2
  · exact whole_largest W x y z

/-- **C102**: normals: sums, differences and negation. -/
theorem C102_normal_sums (W : WholeArith T Is L) (u v : Normal3 T) (a b : Fin 3 → ℤ) (hu : Coords Is M u.get a)
    (hv : Coords Is M v.get b) (hM : 2 * M ≤ L) :
    (∃ w, u.add v = .ok w ∧ ∀ i, Is (w.get i) (a i + b i)) ∧
    (∃ w, u.sub v = .ok w ∧ ∀ i, Is (w.get i) (a i - b i)) ∧ ∃ w, u.neg = .ok w ∧ ∀ i, Is (w.get i) (-a i) := by
  choose x hx ex using fun i => W.add _ _ _ _ (hu i).1 (hv i).1 (sum_le (hu i).2 (hv i).2 hM)
  choose y hy ey using fun i => W.sub _ _ _ _ (hu i).1 (hv i).1 (diff_le (hu i).2 (hv i).2 hM)
  choose s hs es using fun i => W.neg _ _ (hu i).1 (one_le (hu i).2 hM)
  have h0 := hx 0; have h1 := hx 1; have h2 := hx 2
  have g0 := hy 0; have g1 := hy 1; have g2 := hy 2
  have f0 := hs 0; have f1 := hs 1; have f2 := hs 2
  change Elem.add u.x v.x = _ at h0; change Elem.add u.y v.y = _ at h1; change Elem.add u.z v.z = _ at h2
  change Elem.sub u.x v.x = _ at g0; change Elem.sub u.y v.y = _ at g1; change Elem.sub u.z v.z = _ at g2
  change Elem.neg u.x = _ at f0; change Elem.neg u.y = _ at f1; change Elem.neg u.z = _ at f2
  refine ⟨⟨⟨x 0, x 1, x 2⟩, ?_, ?_⟩, ⟨⟨y 0, y 1, y 2⟩, ?_, ?_⟩, ⟨s 0, s 1, s 2⟩, ?_, ?_⟩
  · simp only [Normal3.add, h0, h1, h2, ok_bind, pure_ok]
  · intro i; fin_cases i; exacts [ex 0, ex 1, ex 2]
  · simp only [Normal3.sub, g0, g1, g2, ok_bind, pure_ok]
  · intro i; fin_cases i; exacts [ey 0, ey 1, ey 2]
  · simp only [Normal3.neg, f0, f1, f2, ok_bind, pure_ok]
  · intro i; fin_cases i; exacts [es 0, es 1, es 2]

/-- **C102**: normals: multiples, and division without remainder. -/
theorem C102_normal_scaled (W : WholeArith T Is L) (u : Normal3 T) (s : T) (a : Fin 3 → ℤ) (k : ℤ)
    (hu : Coords Is M u.get a) (hs : Is s k) (hk : |k| ≤ M) (hM : M ^ 2 ≤ L) :
    (∃ w, u.mul s = .ok w ∧ ∀ i, Is (w.get i) (k * a i)) ∧
    ∀ w, u.mul s = .ok w → k ≠ 0 → ∃ v, w.div s = .ok v ∧ ∀ i, Is (v.get i) (a i) := by
  choose x hx ex using fun i => W.mul _ _ _ _ hs (hu i).1 (prod_le hk (hu i).2 hM)
  have h0 := hx 0; have h1 := hx 1; have h2 := hx 2
  change Elem.mul s u.x = _ at h0; change Elem.mul s u.y = _ at h1; change Elem.mul s u.z = _ at h2
  have hm : u.mul s = .ok ⟨x 0, x 1, x 2⟩ := by simp only [Normal3.mul, h0, h1, h2, ok_bind, pure_ok]
  refine ⟨⟨_, hm, ?_⟩, ?_⟩
  · intro i; fin_cases i; exacts [ex 0, ex 1, ex 2]
  intro w hw hk0
  cases hw.symm.trans hm
  choose y hy ey using fun i => W.div (x i) s (a i) k (by rw [mul_comm]; exact ex i) hs hk0
    (square_le (hu i).2 hM)
  refine ⟨⟨y 0, y 1, y 2⟩, by simp only [Normal3.div, hy, ok_bind, pure_ok], ?_⟩
  intro i; fin_cases i; exacts [ey 0, ey 1, ey 2]

/-- **C102**: normals: products. -/
theorem C102_normal_products (W : WholeArith T Is L) (u v : Normal3 T) (a b : Fin 3 → ℤ) (hu : Coords Is M u.get a)
    (hv : Coords Is M v.get b) (hM : 3 * M ^ 2 ≤ L) :
    (∃ d, u.dot v = .ok d ∧ Is d (∑ i, a i * b i)) ∧ (∃ d, u.lenSq = .ok d ∧ Is d (∑ i, a i ^ 2)) ∧
    (∃ w, u.cross v = .ok w ∧ ∀ i, Is (w.get i) (a (i + 1) * b (i + 2) - a (i + 2) * b (i + 1))) ∧
    ∃ w, u.faceForward v = .ok w ∧ ∀ i, Is (w.get i) (if ∑ i, a i * b i < 0 then -a i else a i) := by
  obtain ⟨d, hd, ed⟩ : ∃ d, u.dot v = .ok d ∧ Is d (∑ i, a i * b i) := by
    obtain ⟨d, hd, ed⟩ := whole_dot W hu hv hM
    exact ⟨d, hd, ed⟩
  obtain ⟨n, hn, en⟩ : ∃ d, u.lenSq = .ok d ∧ Is d (∑ i, a i ^ 2) := by
    obtain ⟨d, hd, ed⟩ := whole_dot W hu hu hM
    exact ⟨d, hd, by simpa only [pow_two] using ed⟩
  refine ⟨⟨d, hd, ed⟩, ⟨n, hn, en⟩, ?_, ?_⟩
  · choose x hx ex using fun i => whole_minor W hu hv hM i (i + 1) (i + 2)
    obtain ⟨p0, q0, hp0, hq0, h0⟩ := hx 0
    obtain ⟨p1, q1, hp1, hq1, h1⟩ := hx 1
    obtain ⟨p2, q2, hp2, hq2, h2⟩ := hx 2
    change Elem.mul u.y v.z = _ at hp0; change Elem.mul u.z v.y = _ at hq0
    change Elem.mul u.z v.x = _ at hp1; change Elem.mul u.x v.z = _ at hq1
    change Elem.mul u.x v.y = _ at hp2; change Elem.mul u.y v.x = _ at hq2
    refine ⟨⟨x 0, x 1, x 2⟩, ?_, ?_⟩
    · simp only [Normal3.cross, hp0, hp1, hp2, hq0, hq1, hq2, h0, h1, h2, ok_bind, pure_ok]
    · intro i; fin_cases i; exacts [ex 0, ex 1, ex 2]
  · have h0 : (0 : ℤ) ≤ L := le_trans (by positivity) hM
    have lt := W.lt d (Elem.fromInt 0) _ 0 ed (W.int 0 (by simpa using h0))
    simp only [Normal3.faceForward, hd, ok_bind]
    by_cases hlt : ∑ i, a i * b i < 0
    · rw [if_pos (lt.2 hlt)]
      simp only [if_pos hlt]
      choose s hs es using fun i => W.neg _ _ (hu i).1 (square_le (hu i).2 (le_trans (by nlinarith [sq_nonneg M]) hM))
      have f0 := hs 0; have f1 := hs 1; have f2 := hs 2
      change Elem.neg u.x = _ at f0; change Elem.neg u.y = _ at f1; change Elem.neg u.z = _ at f2
      refine ⟨⟨s 0, s 1, s 2⟩, by simp only [Normal3.neg, f0, f1, f2, ok_bind, pure_ok], ?_⟩
      intro i; fin_cases i; exacts [es 0, es 1, es 2]
    · rw [if_neg (fun h => hlt (lt.1 h))]
      simp only [if_neg hlt]
      exact ⟨u, rfl, fun i => (hu i).1⟩

/-- **C102**: normals: smaller and larger coordinates, and the last axis with the largest one. -/
theorem C102_normal_order (W : WholeArith T Is L) (u v : Normal3 T) (a b : Fin 3 → ℤ) (hu : Coords Is M u.get a)
    (hv : Coords Is M v.get b) :
    (∀ i, Is ((u.min v).get i) (min (a i) (b i)) ∧ Is ((u.max v).get i) (max (a i) (b i))) ∧
    Is u.minComponent (min (a 0) (min (a 1) (a 2))) ∧ Is u.maxComponent (max (a 0) (max (a 1) (a 2))) ∧
    ∃ d : Fin 3, u.maxDimension = d ∧ ∀ j, a j ≤ a d ∧ (d < j → a j < a d) := by
  have x := (hu 0).1; have y := (hu 1).1; have z := (hu 2).1
  refine ⟨fun i => ?_, ?_, ?_, ?_⟩
  · fin_cases i
    · exact whole_min W (hu 0).1 (hv 0).1
    · exact whole_min W (hu 1).1 (hv 1).1
    · exact whole_min W (hu 2).1 (hv 2).1
  · rw [← min_assoc]; exact (whole_min W (whole_min W x y).1 z).1
  · rw [← max_assoc]; exact (whole_min W (whole_min W x y).2 z).2
  · exact whole_largest W x y z

/-- **C102**: points: steps, differences, multiples, absolute values, smaller and larger coordinates. -/
theorem C102_points (W : WholeArith T Is L) (p q : Point3 T) (v : Vector3 T) (a b c : Fin 3 → ℤ)
    (hp : Coords Is M p.get a) (hq : Coords Is M q.get b) (hv : Coords Is M v.get c) (hM : 2 * M ≤ L) :
    (∃ w, p.add v = .ok w ∧ ∀ i, Is (w.get i) (a i + c i)) ∧
    (∃ w, p.subVec v = .ok w ∧ ∀ i, Is (w.get i) (a i - c i)) ∧
    (∃ w, p.sub q = .ok w ∧ ∀ i, Is (w.get i) (a i - b i)) ∧ (∃ w, p.abs = .ok w ∧ ∀ i, Is (w.get i) |a i|) ∧
    ∀ i, Is ((p.min q).get i) (min (a i) (b i)) ∧ Is ((p.max q).get i) (max (a i) (b i)) := by
  choose x hx ex using fun i => W.add _ _ _ _ (hp i).1 (hv i).1 (sum_le (hp i).2 (hv i).2 hM)
  choose y hy ey using fun i => W.sub _ _ _ _ (hp i).1 (hv i).1 (diff_le (hp i).2 (hv i).2 hM)
  choose r hr er using fun i => W.sub _ _ _ _ (hp i).1 (hq i).1 (diff_le (hp i).2 (hq i).2 hM)
  choose s hs es using fun i => W.abs _ _ (hp i).1 (one_le (hp i).2 hM)
  have h0 := hx 0; have h1 := hx 1; have h2 := hx 2
  have g0 := hy 0; have g1 := hy 1; have g2 := hy 2
  have f0 := hs 0; have f1 := hs 1; have f2 := hs 2
  have k0 := hr 0; have k1 := hr 1; have k2 := hr 2
  change Elem.add p.x v.x = _ at h0; change Elem.add p.y v.y = _ at h1; change Elem.add p.z v.z = _ at h2
  change Elem.sub p.x v.x = _ at g0; change Elem.sub p.y v.y = _ at g1; change Elem.sub p.z v.z = _ at g2
  change Elem.sub p.x q.x = _ at k0; change Elem.sub p.y q.y = _ at k1; change Elem.sub p.z q.z = _ at k2
  change Elem.abs p.x = _ at f0; change Elem.abs p.y = _ at f1; change Elem.abs p.z = _ at f2
  refine ⟨⟨⟨x 0, x 1, x 2⟩, ?_, ?_⟩, ⟨⟨y 0, y 1, y 2⟩, ?_, ?_⟩, ⟨⟨r 0, r 1, r 2⟩, ?_, ?_⟩, ⟨⟨s 0, s 1, s 2⟩, ?_, ?_⟩, ?_⟩
  · simp only [Point3.add, h0, h1, h2, ok_bind, pure_ok]
  · intro i; fin_cases i; exacts [ex 0, ex 1, ex 2]
  · simp only [Point3.subVec, g0, g1, g2, ok_bind, pure_ok]
  · intro i; fin_cases i; exacts [ey 0, ey 1, ey 2]
  · simp only [Point3.sub, k0, k1, k2, ok_bind, pure_ok]
  · intro i; fin_cases i; exacts [er 0, er 1, er 2]
  · simp only [Point3.abs, f0, f1, f2, ok_bind, pure_ok]
  · intro i; fin_cases i; exacts [es 0, es 1, es 2]
  · intro i
    fin_cases i
    · exact whole_min W (hp 0).1 (hq 0).1
    · exact whole_min W (hp 1).1 (hq 1).1
    · exact whole_min W (hp 2).1 (hq 2).1

/-- **C102**: multiples of points, and division without remainder. -/
theorem C102_points_scaled (W : WholeArith T Is L) (u : Point3 T) (s : T) (a : Fin 3 → ℤ) (k : ℤ)
    (hu : Coords Is M u.get a) (hs : Is s k) (hk : |k| ≤ M) (hM : M ^ 2 ≤ L) :
    (∃ w, u.mul s = .ok w ∧ ∀ i, Is (w.get i) (k * a i)) ∧
    ∀ w, u.mul s = .ok w → k ≠ 0 → ∃ v, w.div s = .ok v ∧ ∀ i, Is (v.get i) (a i) := by
  choose x hx ex using fun i => W.mul _ _ _ _ hs (hu i).1 (prod_le hk (hu i).2 hM)
  have h0 := hx 0; have h1 := hx 1; have h2 := hx 2
  change Elem.mul s u.x = _ at h0; change Elem.mul s u.y = _ at h1; change Elem.mul s u.z = _ at h2
  have hm : u.mul s = .ok ⟨x 0, x 1, x 2⟩ := by simp only [Point3.mul, h0, h1, h2, ok_bind, pure_ok]
  refine ⟨⟨_, hm, ?_⟩, ?_⟩
  · intro i; fin_cases i; exacts [ex 0, ex 1, ex 2]
  intro w hw hk0
  cases hw.symm.trans hm
  choose y hy ey using fun i => W.div (x i) s (a i) k (by rw [mul_comm]; exact ex i) hs hk0
    (square_le (hu i).2 hM)
  refine ⟨⟨y 0, y 1, y 2⟩, by simp only [Point3.div, hy, ok_bind, pure_ok], ?_⟩
  intro i; fin_cases i; exacts [ey 0, ey 1, ey 2]

/-! ### Boxes -/

theorem whole_new (W : WholeArith T Is L) {p q : Point3 T} {a b : Fin 3 → ℤ} (hp : ∀ i, Is (p.get i) (a i))
    (hq : ∀ i, Is (q.get i) (b i)) (i : Fin 3) :
    Is ((Bounds3.new p q).pMin.get i) (min (a i) (b i)) ∧ Is ((Bounds3.new p q).pMax.get i) (max (a i) (b i)) := by
  fin_cases i
  · exact whole_min W (hp 0) (hq 0)
  · exact whole_min W (hp 1) (hq 1)
  · exact whole_min W (hp 2) (hq 2)

/-- **C102**: the box around two points, around a box and a point, and around two boxes; the common
    part of two boxes that meet. -/
theorem C102_boxes (W : WholeArith T Is L) (b c : Bounds3 T) (p q : Point3 T) (l h l' h' x y : Fin 3 → ℤ)
    (hb : ∀ i, Is (b.pMin.get i) (l i) ∧ Is (b.pMax.get i) (h i) ∧ l i ≤ h i)
    (hc : ∀ i, Is (c.pMin.get i) (l' i) ∧ Is (c.pMax.get i) (h' i) ∧ l' i ≤ h' i)
    (hp : ∀ i, Is (p.get i) (x i)) (hq : ∀ i, Is (q.get i) (y i)) :
    (∀ i, Is ((Bounds3.new p q).pMin.get i) (min (x i) (y i)) ∧ Is ((Bounds3.new p q).pMax.get i) (max (x i) (y i))) ∧
    (∀ i, Is ((b.unionPt p).pMin.get i) (min (l i) (x i)) ∧ Is ((b.unionPt p).pMax.get i) (max (h i) (x i))) ∧
    (∀ i, Is ((b.union c).pMin.get i) (min (l i) (l' i)) ∧ Is ((b.union c).pMax.get i) (max (h i) (h' i))) ∧
    ((∀ i, l i ≤ h' i ∧ l' i ≤ h i) → ∀ i,
      Is ((b.intersect c).pMin.get i) (max (l i) (l' i)) ∧ Is ((b.intersect c).pMax.get i) (min (h i) (h' i))) := by
  have lo := fun i => (hb i).1
  have hi := fun i => (hb i).2.1
  have lo' := fun i => (hc i).1
  have hi' := fun i => (hc i).2.1
  refine ⟨whole_new W hp hq, ?_, ?_, ?_⟩
  · intro i
    have := whole_new W (p := b.pMin.min p) (q := b.pMax.max p) (a := fun i => min (l i) (x i))
      (b := fun i => max (h i) (x i)) (fun i => (by fin_cases i; exacts [(whole_min W (lo 0) (hp 0)).1,
        (whole_min W (lo 1) (hp 1)).1, (whole_min W (lo 2) (hp 2)).1]))
      (fun i => (by fin_cases i; exacts [(whole_min W (hi 0) (hp 0)).2, (whole_min W (hi 1) (hp 1)).2,
        (whole_min W (hi 2) (hp 2)).2])) i
    have e := (min_le_left (l i) (x i)).trans ((hb i).2.2.trans (le_max_left (h i) (x i)))
    rwa [min_eq_left e, max_eq_right e] at this
  · intro i
    have := whole_new W (p := b.pMin.min c.pMin) (q := b.pMax.max c.pMax) (a := fun i => min (l i) (l' i))
      (b := fun i => max (h i) (h' i)) (fun i => (by fin_cases i; exacts [(whole_min W (lo 0) (lo' 0)).1,
        (whole_min W (lo 1) (lo' 1)).1, (whole_min W (lo 2) (lo' 2)).1]))
      (fun i => (by fin_cases i; exacts [(whole_min W (hi 0) (hi' 0)).2, (whole_min W (hi 1) (hi' 1)).2,
        (whole_min W (hi 2) (hi' 2)).2])) i
    have e := (min_le_left (l i) (l' i)).trans ((hb i).2.2.trans (le_max_left (h i) (h' i)))
    rwa [min_eq_left e, max_eq_right e] at this
  · intro hm i
    have := whole_new W (p := b.pMin.max c.pMin) (q := b.pMax.min c.pMax) (a := fun i => max (l i) (l' i))
      (b := fun i => min (h i) (h' i)) (fun i => (by fin_cases i; exacts [(whole_min W (lo 0) (lo' 0)).2,
        (whole_min W (lo 1) (lo' 1)).2, (whole_min W (lo 2) (lo' 2)).2]))
      (fun i => (by fin_cases i; exacts [(whole_min W (hi 0) (hi' 0)).1, (whole_min W (hi 1) (hi' 1)).1,
        (whole_min W (hi 2) (hi' 2)).1])) i
    have e : max (l i) (l' i) ≤ min (h i) (h' i) :=
      max_le (le_min (hb i).2.2 (hm i).1) (le_min (hm i).2 (hc i).2.2)
    rwa [min_eq_left e, max_eq_right e] at this

/-- **C102**: the tests on boxes. -/
theorem C102_box_tests (W : WholeArith T Is L) (b c : Bounds3 T) (p : Point3 T) (l h l' h' x : Fin 3 → ℤ)
    (hb : ∀ i, Is (b.pMin.get i) (l i) ∧ Is (b.pMax.get i) (h i))
    (hc : ∀ i, Is (c.pMin.get i) (l' i) ∧ Is (c.pMax.get i) (h' i)) (hp : ∀ i, Is (p.get i) (x i)) :
    (b.overlaps c = true ↔ ∀ i, l i ≤ h' i ∧ l' i ≤ h i) ∧ (b.inside p = true ↔ ∀ i, l i ≤ x i ∧ x i ≤ h i) ∧
    (b.insideExclusive p = true ↔ ∀ i, l i ≤ x i ∧ x i < h i) := by
  have three : ∀ {P Q : Fin 3 → Prop}, (∀ i, P i ↔ Q i) → ((∀ i, P i) ↔ ∀ i, Q i) := fun h => forall_congr' h
  have f3 : ∀ P : Fin 3 → Prop, (∀ i, P i) ↔ P 0 ∧ P 1 ∧ P 2 := fun P =>
    ⟨fun h => ⟨h 0, h 1, h 2⟩, fun h i => by fin_cases i; exacts [h.1, h.2.1, h.2.2]⟩
  refine ⟨?_, ?_, ?_⟩
  · rw [← three fun i => and_congr (W.le _ _ _ _ (hb i).1 (hc i).2) (W.le _ _ _ _ (hc i).1 (hb i).2), f3]
    simp only [Bounds3.overlaps, Elem.ge, Bool.and_eq_true, Point3.get]
    tauto
  · rw [← three fun i => and_congr (W.le _ _ _ _ (hb i).1 (hp i)) (W.le _ _ _ _ (hp i) (hb i).2), f3]
    simp only [Bounds3.inside, Elem.ge, Bool.and_eq_true, Point3.get]
    tauto
  · rw [← three fun i => and_congr (W.le _ _ _ _ (hb i).1 (hp i)) (W.lt _ _ _ _ (hp i) (hb i).2), f3]
    simp only [Bounds3.insideExclusive, Elem.ge, Bool.and_eq_true, Point3.get]
    tauto

/-- **C102**: a box grown by a distance, its diagonal, and the last axis along which it is longest. -/
theorem C102_extent (W : WholeArith T Is L) (b : Bounds3 T) (s : T) (l h : Fin 3 → ℤ) (k : ℤ)
    (hl : Coords Is M b.pMin.get l) (hh : Coords Is M b.pMax.get h) (hs : Is s k) (hk : |k| ≤ M) (hM : 2 * M ≤ L) :
    (∃ d, b.diagonal = .ok d ∧ ∀ i, Is (d.get i) (h i - l i)) ∧
    (∃ d : Fin 3, b.maximumExtent = .ok d.val ∧
      ∀ j, h j - l j ≤ h d - l d ∧ (d < j → h j - l j < h d - l d)) ∧
    ((∀ i, l i - k ≤ h i + k) → ∃ c, b.expand s = .ok c ∧
      ∀ i, Is (c.pMin.get i) (l i - k) ∧ Is (c.pMax.get i) (h i + k)) := by
  have hd : ∃ d, b.diagonal = .ok d ∧ ∀ i, Is (d.get i) (h i - l i) :=
    (C102_points W b.pMax b.pMin ⟨s, s, s⟩ h l (fun _ => k) hh hl
      (fun i => by fin_cases i <;> exact ⟨hs, hk⟩) hM).2.2.1
  refine ⟨hd, ?_, fun hlt => ?_⟩
  · obtain ⟨d, hd, ed⟩ := hd
    have h1 := W.lt _ _ _ _ (ed 1) (ed 0)
    have h2 := W.lt _ _ _ _ (ed 2) (ed 0)
    have h3 := W.lt _ _ _ _ (ed 2) (ed 1)
    change Elem.gt d.x d.y = true ↔ _ at h1
    change Elem.gt d.x d.z = true ↔ _ at h2
    change Elem.gt d.y d.z = true ↔ _ at h3
    simp only [Bounds3.maximumExtent, hd, ok_bind, pure_ok, Bool.and_eq_true, h1, h2, h3]
    split_ifs
    · refine ⟨0, rfl, fun j => ?_⟩; fin_cases j <;> simp <;> omega
    · refine ⟨1, rfl, fun j => ?_⟩; fin_cases j <;> simp <;> omega
    · refine ⟨2, rfl, fun j => ?_⟩; fin_cases j <;> simp <;> omega
  · obtain ⟨p, hp, ep⟩ := (C102_points W b.pMin b.pMin ⟨s, s, s⟩ l l (fun _ => k) hl hl
      (fun i => by fin_cases i <;> exact ⟨hs, hk⟩) hM).2.1
    obtain ⟨q, hq, eq⟩ := (C102_points W b.pMax b.pMin ⟨s, s, s⟩ h l (fun _ => k) hh hl
      (fun i => by fin_cases i <;> exact ⟨hs, hk⟩) hM).1
    refine ⟨Bounds3.new p q, by simp only [Bounds3.expand, hp, hq, ok_bind, pure_ok], fun i => ?_⟩
    have := whole_new W ep eq i
    rwa [min_eq_left (hlt i), max_eq_right (hlt i)] at this

/-- **C102**: surface and volume of a box. -/
theorem C102_measures (W : WholeArith T Is L) (b : Bounds3 T) (l h : Fin 3 → ℤ)
    (hl : Coords Is M b.pMin.get l) (hh : Coords Is M b.pMax.get h) :
    (24 * M ^ 2 ≤ L → 2 ≤ L → ∃ s, b.surfaceArea = .ok s ∧ Is s (2 * ∑ i, (h i - l i) * (h (i + 1) - l (i + 1)))) ∧
    (8 * M ^ 3 ≤ L → ∃ s, b.volume = .ok s ∧ Is s (∏ i, (h i - l i))) := by
  have m0 : 0 ≤ M := (abs_nonneg _).trans (hl 0).2
  have m1 : M ≤ M ^ 2 := by nlinarith
  have m2 : M ^ 2 ≤ M ^ 3 := by
    rcases eq_or_lt_of_le m0 with h0 | h0
    · rw [← h0]; norm_num
    · exact pow_le_pow_right₀ h0 (by norm_num)
  have bd : ∀ i, |h i - l i| ≤ 2 * M := fun i => diff_le (hh i).2 (hl i).2 le_rfl
  have bp : ∀ i j, |(h i - l i) * (h j - l j)| ≤ 4 * M ^ 2 := fun i j =>
    prod_le (bd i) (bd j) (by ring_nf; exact le_rfl)
  have dia : 2 * M ≤ L → ∃ d, b.diagonal = .ok d ∧ ∀ i, Is (d.get i) (h i - l i) := fun hM =>
    (C102_points W b.pMax b.pMin (Vector3.ofPoint b.pMax) h l h hh hl
      (fun i => by fin_cases i; exacts [hh 0, hh 1, hh 2]) hM).2.2.1
  constructor
  · intro hM h2
    obtain ⟨d, hd, ed⟩ := dia (by linarith)
    obtain ⟨p, hp, ep⟩ := W.mul _ _ _ _ (ed 0) (ed 1) ((bp 0 1).trans (by linarith [sq_nonneg M]))
    obtain ⟨q, hq, eq⟩ := W.mul _ _ _ _ (ed 0) (ed 2) ((bp 0 2).trans (by linarith [sq_nonneg M]))
    obtain ⟨r, hr, er⟩ := W.mul _ _ _ _ (ed 1) (ed 2) ((bp 1 2).trans (by linarith [sq_nonneg M]))
    have b1 := abs_le.1 (bp 0 1)
    have b2 := abs_le.1 (bp 0 2)
    have b3 := abs_le.1 (bp 1 2)
    have n0 := sq_nonneg M
    obtain ⟨s, hs, es⟩ := W.add _ _ _ _ ep eq (by rw [abs_le]; constructor <;> linarith)
    obtain ⟨t, ht, et⟩ := W.add _ _ _ _ es er (by rw [abs_le]; constructor <;> linarith)
    obtain ⟨a, ha, ea⟩ := W.mul _ _ _ _ (W.int 2 h2) et (by rw [abs_le]; constructor <;> linarith)
    change Elem.mul d.x d.y = _ at hp
    change Elem.mul d.x d.z = _ at hq
    change Elem.mul d.y d.z = _ at hr
    refine ⟨a, by simp only [Bounds3.surfaceArea, hd, hp, hq, hr, hs, ht, ha, ok_bind], ?_⟩
    rw [Fin.sum_univ_three]
    convert ea using 2
    show (h 0 - l 0) * (h 1 - l 1) + (h 1 - l 1) * (h 2 - l 2) + (h 2 - l 2) * (h 0 - l 0) = _
    ring
  · intro hM
    obtain ⟨d, hd, ed⟩ := dia (by nlinarith)
    obtain ⟨p, hp, ep⟩ := W.mul _ _ _ _ (ed 0) (ed 1) ((bp 0 1).trans (by nlinarith))
    obtain ⟨a, ha, ea⟩ := W.mul _ _ _ _ ep (ed 2) (by
      have n0 := sq_nonneg M
      rw [abs_mul]
      have := mul_le_mul (bp 0 1) (bd 2) (abs_nonneg _) (by linarith)
      nlinarith)
    change Elem.mul d.x d.y = _ at hp
    refine ⟨a, by simp only [Bounds3.volume, hd, hp, ok_bind]; exact ha, ?_⟩
    rw [Fin.prod_univ_three]
    exact ea

/-! ### Rays -/

/-- **C102**: points on a ray. -/
theorem C102_ray (W : WholeArith T Is L) (r : Ray T) (t : T) (a d : Fin 3 → ℤ) (k : ℤ) (ho : Coords Is M r.o.get a)
    (hd : Coords Is M r.d.get d) (ht : Is t k) (hk : |k| ≤ M) (hM : M + M ^ 2 ≤ L) :
    ∃ p, r.at t = .ok p ∧ ∀ i, Is (p.get i) (a i + k * d i) := by
  have m0 : 0 ≤ M := (abs_nonneg _).trans hk
  obtain ⟨v, hv, ev⟩ := (C102_vector_scaled W r.d t d k hd ht hk (by linarith)).1
  choose x hx ex using fun i => W.add _ _ _ _ (ho i).1 (ev i) (by
    have h1 := abs_le.1 (ho i).2
    have h2 := abs_le.1 (prod_le (L := M ^ 2) hk (hd i).2 le_rfl)
    rw [abs_le]; constructor <;> linarith)
  have h0 := hx 0; have h1 := hx 1; have h2 := hx 2
  change Elem.add r.o.x v.x = _ at h0; change Elem.add r.o.y v.y = _ at h1; change Elem.add r.o.z v.z = _ at h2
  refine ⟨⟨x 0, x 1, x 2⟩, by simp only [Ray.at, hv, Point3.add, h0, h1, h2, ok_bind, pure_ok], ?_⟩
  intro i; fin_cases i; exacts [ex 0, ex 1, ex 2]

/-- **C102**: scaled ray differentials. -/
theorem C102_differentials (W : WholeArith T Is L) (r : RayDifferential T) (s : T) (o d ox dx oy dy : Fin 3 → ℤ) (k : ℤ)
    (ho : Coords Is M r.ray.o.get o) (hd : Coords Is M r.ray.d.get d) (hox : Coords Is M r.rxOrigin.get ox)
    (hdx : Coords Is M r.rxDirection.get dx) (hoy : Coords Is M r.ryOrigin.get oy)
    (hdy : Coords Is M r.ryDirection.get dy) (hs : Is s k) (hk : |k| ≤ M) (hM : M + 2 * M ^ 2 ≤ L) :
    ∃ q, r.scaleDifferentials s = .ok q ∧ ∀ i, Is (q.rxOrigin.get i) (o i + k * (ox i - o i)) ∧
      Is (q.rxDirection.get i) (d i + k * (dx i - d i)) ∧ Is (q.ryOrigin.get i) (o i + k * (oy i - o i)) ∧
      Is (q.ryDirection.get i) (d i + k * (dy i - d i)) := by
  have m0 : 0 ≤ M := (abs_nonneg _).trans hk
  have m1 : M ≤ M ^ 2 := by nlinarith
  have key : ∀ {a x : Fin 3 → T} {m n : Fin 3 → ℤ}, Coords Is M a m → Coords Is M x n → ∀ i, ∃ e f g,
      Elem.sub (x i) (a i) = .ok e ∧ Elem.mul s e = .ok f ∧ Elem.add (a i) f = .ok g ∧
      Is g (m i + k * (n i - m i)) := by
    intro a x m n ha hx i
    have b1 : |n i - m i| ≤ 2 * M := diff_le (hx i).2 (ha i).2 le_rfl
    have b2 : |k * (n i - m i)| ≤ 2 * M ^ 2 := by
      rw [abs_mul]
      have := mul_le_mul hk b1 (abs_nonneg _) m0
      linarith
    have b3 := (ha i).2
    obtain ⟨e, he, ee⟩ := W.sub _ _ _ _ (hx i).1 (ha i).1 (b1.trans (by linarith))
    obtain ⟨f, hf, ef⟩ := W.mul _ _ _ _ hs ee (b2.trans (by linarith))
    obtain ⟨g, hg, eg⟩ := W.add _ _ _ _ (ha i).1 ef (by
      rw [abs_le] at b2 b3 ⊢; constructor <;> linarith)
    exact ⟨e, f, g, he, hf, hg, eg⟩
  choose e1 f1 g1 he1 hf1 hg1 eg1 using key ho hox
  choose e2 f2 g2 he2 hf2 hg2 eg2 using key hd hdx
  choose e3 f3 g3 he3 hf3 hg3 eg3 using key ho hoy
  choose e4 f4 g4 he4 hf4 hg4 eg4 using key hd hdy
  have k1 : r.rxOrigin.sub r.ray.o = .ok ⟨e1 0, e1 1, e1 2⟩ := by
    have h0 := he1 0; have h1 := he1 1; have h2 := he1 2
    simp only [Point3.get] at h0 h1 h2
    simp only [Point3.sub, h0, h1, h2, ok_bind, pure_ok]
  have k2 : r.rxDirection.sub r.ray.d = .ok ⟨e2 0, e2 1, e2 2⟩ := by
    have h0 := he2 0; have h1 := he2 1; have h2 := he2 2
    simp only [Vector3.get] at h0 h1 h2
    simp only [Vector3.sub, h0, h1, h2, ok_bind, pure_ok]
  have k3 : r.ryOrigin.sub r.ray.o = .ok ⟨e3 0, e3 1, e3 2⟩ := by
    have h0 := he3 0; have h1 := he3 1; have h2 := he3 2
    simp only [Point3.get] at h0 h1 h2
    simp only [Point3.sub, h0, h1, h2, ok_bind, pure_ok]
  have k4 : r.ryDirection.sub r.ray.d = .ok ⟨e4 0, e4 1, e4 2⟩ := by
    have h0 := he4 0; have h1 := he4 1; have h2 := he4 2
    simp only [Vector3.get] at h0 h1 h2
    simp only [Vector3.sub, h0, h1, h2, ok_bind, pure_ok]
  have scaled : ∀ {e f : Fin 3 → T}, (∀ i, Elem.mul s (e i) = .ok (f i)) →
      (⟨e 0, e 1, e 2⟩ : Vector3 T).mul s = .ok ⟨f 0, f 1, f 2⟩ := fun h => by
    simp only [Vector3.mul, h, ok_bind, pure_ok]
  have moved : ∀ {f g : Fin 3 → T}, (∀ i, Elem.add (r.ray.o.get i) (f i) = .ok (g i)) →
      r.ray.o.add ⟨f 0, f 1, f 2⟩ = .ok ⟨g 0, g 1, g 2⟩ := fun h => by
    have h0 := h 0; have h1 := h 1; have h2 := h 2
    simp only [Point3.get] at h0 h1 h2
    simp only [Point3.add, h0, h1, h2, ok_bind, pure_ok]
  have turned : ∀ {f g : Fin 3 → T}, (∀ i, Elem.add (r.ray.d.get i) (f i) = .ok (g i)) →
      r.ray.d.add ⟨f 0, f 1, f 2⟩ = .ok ⟨g 0, g 1, g 2⟩ := fun h => by
    have h0 := h 0; have h1 := h 1; have h2 := h 2
    simp only [Vector3.get] at h0 h1 h2
    simp only [Vector3.add, h0, h1, h2, ok_bind, pure_ok]
  refine ⟨⟨r.ray, r.hasDifferentials, ⟨g1 0, g1 1, g1 2⟩, ⟨g3 0, g3 1, g3 2⟩, ⟨g2 0, g2 1, g2 2⟩,
    ⟨g4 0, g4 1, g4 2⟩⟩, ?_, fun i => ⟨?_, ?_, ?_, ?_⟩⟩
  · simp only [RayDifferential.scaleDifferentials, k1, k2, k3, k4, scaled hf1, scaled hf2, scaled hf3, scaled hf4,
      moved hg1, turned hg2, moved hg3, turned hg4, ok_bind, pure_ok]
  · fin_cases i; exacts [eg1 0, eg1 1, eg1 2]
  · fin_cases i; exacts [eg2 0, eg2 1, eg2 2]
  · fin_cases i; exacts [eg3 0, eg3 1, eg3 2]
  · fin_cases i; exacts [eg4 0, eg4 1, eg4 2]

/-! ### Matrices -/

/-- **C102**: sum and product of matrices, and the transposed matrix. -/
theorem C102_matrices (W : WholeArith T Is L) (x y : Matrix4 T) (a b : Fin 4 → Fin 4 → ℤ)
    (hx : Entries Is M x.mat a) (hy : Entries Is M y.mat b) :
    (2 * M ≤ L → ∃ c, x.add y = .ok c ∧ ∀ i j, Is (c.mat i j) (a i j + b i j)) ∧
    (4 * M ^ 2 ≤ L → ∃ c, x.mul y = .ok c ∧ ∀ i j, Is (c.mat i j) (∑ k, a i k * b k j)) ∧
    (∀ i j, Is (x.transpose.mat i j) (a j i)) ∧ (x.eq y = true ↔ a = b) := by
  refine ⟨fun hM => ?_, fun hM => ?_, fun i j => ?_, ?_⟩
  · choose m hm em using fun i j => W.add _ _ _ _ (hx i j).1 (hy i j).1 (sum_le (hx i j).2 (hy i j).2 hM)
    refine ⟨⟨m⟩, ?_, em⟩
    unfold Matrix4.add
    rw [fill_iff.2 hm]
    rfl
  · have key : ∀ i j, ∃ d, (for4 (Elem.fromInt 0) fun k acc => do
        let p ← Elem.mul (x.mat i k) (y.mat k j)
        Elem.add acc p) = .ok d ∧ Is d (∑ k, a i k * b k j) := by
      intro i j
      have n0 := sq_nonneg M
      choose p hp ep using fun k => W.mul _ _ _ _ (hx i k).1 (hy k j).1 (prod_le (hx i k).2 (hy k j).2 (by linarith))
      have bd := fun k => abs_le.1 (prod_le (L := M ^ 2) (hx i k).2 (hy k j).2 le_rfl)
      have b0 := bd 0; have b1 := bd 1; have b2 := bd 2; have b3 := bd 3
      obtain ⟨s0, h0, e0⟩ := W.add _ _ _ _ (W.int 0 (by simp; linarith)) (ep 0) (by rw [abs_le]; constructor <;> linarith)
      obtain ⟨s1, h1, e1⟩ := W.add _ _ _ _ e0 (ep 1) (by rw [abs_le]; constructor <;> linarith)
      obtain ⟨s2, h2, e2⟩ := W.add _ _ _ _ e1 (ep 2) (by rw [abs_le]; constructor <;> linarith)
      obtain ⟨s3, h3, e3⟩ := W.add _ _ _ _ e2 (ep 3) (by rw [abs_le]; constructor <;> linarith)
      refine ⟨s3, ?_, ?_⟩
      · rw [for4_eq]
        simp only [hp, h0, h1, h2, h3, ok_bind]
      · rw [Fin.sum_univ_four]
        convert e3 using 2
        ring
    choose m hm em using key
    refine ⟨⟨m⟩, ?_, em⟩
    unfold Matrix4.mul
    rw [fill_iff.2 hm]
    rfl
  · fin_cases i <;> fin_cases j <;> exact (hx _ _).1
  · have h := fun i j => W.eq _ _ _ _ (hx i j).1 (hy i j).1
    simp only [Matrix4.eq, List.all_cons, List.all_nil, Bool.and_true, Bool.and_eq_true, h]
    constructor
    · intro hc
      funext i j
      fin_cases i <;> fin_cases j <;> simp <;> tauto
    · rintro rfl
      simp

end

section
variable {T F : Type} [Elem F] [FloatFns F] [As T F] {Is : T → ℤ → Prop} {Is' : F → ℤ → Prop} {L M : ℤ}

/-- **C102**: vectors of whole numbers (also of type `i64`) transformed by a matrix of whole numbers. -/
theorem C102_transform (W : WholeArith F Is' L) (hc : ∀ a n, Is a n → |n| ≤ L → Is' (As.as_ a) n) (v : Vector3 T)
    (t : Transform F) (x : Fin 3 → ℤ) (a : Fin 4 → Fin 4 → ℤ) (hv : Coords Is M v.get x) (ht : Entries Is' M t.m.mat a)
    (hM : 3 * M ^ 2 ≤ L) :
    ∃ w, v.transform t = .ok w ∧ ∀ i : Fin 3, Is' (w.get i) (∑ j : Fin 3, a i.castSucc j.castSucc * x j) := by
  have hx : Coords Is' M (fun i => (As.as_ (v.get i) : F)) x := fun i =>
    ⟨hc _ _ (hv i).1 (square_le (hv i).2 (le_trans (by nlinarith [sq_nonneg M]) hM)), (hv i).2⟩
  have hr : ∀ i : Fin 4, Coords Is' M (fun j : Fin 3 => t.m.mat i j.castSucc) (fun j => a i j.castSucc) :=
    fun i j => ht i j.castSucc
  choose d hd ed using fun i => whole_dot W (hr i) hx hM
  refine ⟨⟨d 0, d 1, d 2⟩, ?_, ?_⟩
  · have h0 := hd 0; have h1 := hd 1; have h2 := hd 2
    unfold Vector3.transform
    exact (congrArg (· >>= _) h0).trans ((ok_bind _ _).trans ((congrArg (· >>= _) h1).trans ((ok_bind _ _).trans
      ((congrArg (· >>= _) h2).trans (ok_bind _ _)))))
  · intro i; fin_cases i; exacts [ed 0, ed 1, ed 2]

/-- **C102**: a length that is a whole number is computed exactly. -/
theorem C102_len [Elem T] (W : WholeFloat F Is' L) (W' : WholeArith T Is L)
    (hc : ∀ a n, Is a n → |n| ≤ L → Is' (As.as_ a) n) (v : Vector3 T) (n : Normal3 T)
    (x : Fin 3 → ℤ) (k : ℤ) (hv : Coords Is M v.get x) (hn : Coords Is M n.get x) (hM : 3 * M ^ 2 ≤ L) (hk : 0 ≤ k)
    (hx : ∑ i, x i ^ 2 = k ^ 2) :
    (∃ l : F, v.len = .ok l ∧ Is' l k) ∧ ∃ l : F, n.len = .ok l ∧ Is' l k := by
  have hs : k ^ 2 ≤ L := by
    rw [← hx, Fin.sum_univ_three]
    have b : ∀ i, x i ^ 2 ≤ M ^ 2 := fun i => sq_le_sq' (abs_le.1 (hv i).2).1 (abs_le.1 (hv i).2).2
    linarith [b 0, b 1, b 2]
  have hkL : k ≤ L := by nlinarith
  obtain ⟨d, hd, ed⟩ := (C102_vector_products W' v v x x hv hv hM).2.1
  obtain ⟨e, he, ee⟩ := (C102_normal_products W' n n x x hn hn hM).2.1
  rw [hx] at ed ee
  have h2 : |k ^ 2| ≤ L := by rwa [abs_of_nonneg (sq_nonneg k)]
  obtain ⟨l, hl, el⟩ := W.sqrt _ k (hc _ _ ed h2) hk hkL
  obtain ⟨m, hm, em⟩ := W.sqrt _ k (hc _ _ ee h2) hk hkL
  exact ⟨⟨l, by simp only [Vector3.len, hd, ok_bind]; exact hl, el⟩, m, by simp only [Normal3.len, he, ok_bind]; exact hm, em⟩

end

/-- **C102**: `has_scale` is exact on matrices of whole numbers: it is false exactly if every axis is
    mapped to a vector of length one. -/
theorem C102_has_scale {F : Type} [Elem F] [FloatFns F] [As F F] {Is : F → ℤ → Prop} {L M : ℤ} (W : WholeFloat F Is L)
    (hc : ∀ a n, Is a n → |n| ≤ L → Is (As.as_ a) n) (t : Transform F) (a : Fin 4 → Fin 4 → ℤ)
    (ht : Entries Is M t.m.mat a) (hM : 3 * M ^ 2 ≤ L) (h1 : 1 ≤ M) :
    ∃ r, t.hasScale = .ok r ∧ (r = false ↔ ∀ j : Fin 3, ∑ i : Fin 3, a i.castSucc j.castSucc ^ 2 = 1) := by
  have hL : 1 ≤ L := by nlinarith
  have hL0 : (0 : ℤ) ≤ L := by omega
  have z := W.int 0 (by simpa using hL0)
  have o := W.int 1 (by simpa using hL)
  have axis : ∀ (v : Vector3 F) (j : Fin 3), (∀ i, Is (v.get i) (if i = j then 1 else 0)) →
      ∃ w d, v.transform t = .ok w ∧ w.lenSq = .ok d ∧ Is d (∑ i : Fin 3, a i.castSucc j.castSucc ^ 2) := by
    intro v j hv
    obtain ⟨w, hw, ew⟩ := C102_transform W.toWholeArith hc v t (fun i => if i = j then 1 else 0) a
      (fun i => ⟨hv i, by show |if i = j then (1 : ℤ) else 0| ≤ M; split_ifs <;> simp <;> omega⟩) ht hM
    simp only [mul_ite, mul_one, mul_zero, Finset.sum_ite_eq', Finset.mem_univ, if_true] at ew
    obtain ⟨d, hd, ed⟩ := (C102_vector_products W.toWholeArith w w (fun i => a i.castSucc j.castSucc)
      (fun i => a i.castSucc j.castSucc) (fun i => ⟨ew i, (ht _ _).2⟩) (fun i => ⟨ew i, (ht _ _).2⟩) hM).2.1
    exact ⟨w, d, hw, hd, ed⟩
  obtain ⟨w0, d0, hw0, hd0, e0⟩ := axis ⟨Elem.fromInt 1, Elem.fromInt 0, Elem.fromInt 0⟩ 0
    (fun i => by fin_cases i; exacts [o, z, z])
  obtain ⟨w1, d1, hw1, hd1, e1⟩ := axis ⟨Elem.fromInt 0, Elem.fromInt 1, Elem.fromInt 0⟩ 1
    (fun i => by fin_cases i; exacts [z, o, z])
  obtain ⟨w2, d2, hw2, hd2, e2⟩ := axis ⟨Elem.fromInt 0, Elem.fromInt 0, Elem.fromInt 1⟩ 2
    (fun i => by fin_cases i; exacts [z, z, o])
  refine ⟨notOne d0 || notOne d1 || notOne d2,
    by simp only [Transform.hasScale, hw0, hw1, hw2, hd0, hd1, hd2, ok_bind, pure_ok], ?_⟩
  rw [Bool.or_eq_false_iff, Bool.or_eq_false_iff, ← Bool.not_eq_true, ← Bool.not_eq_true, ← Bool.not_eq_true,
    W.notOne _ _ e0, W.notOne _ _ e1, W.notOne _ _ e2, Fin.forall_fin_succ, Fin.forall_fin_succ, Fin.forall_fin_succ]
  simp only [ne_eq, not_not, Fin.forall_fin_zero, and_true, and_assoc]
  rfl

/-- **C102**: beyond the limits the claim fails. In `f32`, `2 ^ 24 + 1` is `2 ^ 24`, and the square of the
    length of `(4097, 0, 0)` is `4097 ^ 2 - 1`. In `i64`, `2 ^ 62 + 2 ^ 62` panics, or wraps around. -/
theorem C102_limit_refuted :
    Elem.add (f32 (2 ^ 24)) (f32 1) = .ok (f32 (2 ^ 24)) ∧
    (fv 4097 0 0).lenSq = .ok (f32 (4097 ^ 2 - 1)) ∧
    Elem.add (i64 (2 ^ 62)) (i64 (2 ^ 62)) = .error .overflow ∧
    Elem.add (.ofInt (2 ^ 62) : I64 false) (.ofInt (2 ^ 62)) = .ok (.ofInt (-2 ^ 63)) := by
  decide +kernel

/-! ### Examples -/

/-- A quarter turn about the third axis, and a shift -/
def turned32 : Transform Float32.Model :=
  let m : Matrix4 Float32.Model := ⟨fun i j => f32 (Mat44.ofRows 0 (-1) 0 5 1 0 0 6 0 0 1 7 0 0 0 1 i j)⟩
  ⟨m, m⟩

/-- A float given by a whole number -/
theorem is32 {n : ℤ} (h : |n| ≤ 2 ^ 24) : IsWhole (f32 n) n := C102_f32.int n h

/-- A vector given by whole numbers -/
theorem coords32 {M x y z : ℤ} (hx : |x| ≤ M) (hy : |y| ≤ M) (hz : |z| ≤ M) (hM : M ≤ 2 ^ 24) :
    Coords IsWhole M (fv x y z).get ![x, y, z] := fun i => by
  fin_cases i
  · exact ⟨is32 (hx.trans hM), hx⟩
  · exact ⟨is32 (hy.trans hM), hy⟩
  · exact ⟨is32 (hz.trans hM), hz⟩

theorem coords64 {checks : Bool} {M x y z : ℤ} (hx : |x| ≤ M) (hy : |y| ≤ M) (hz : |z| ≤ M) (hM : M ≤ 2 ^ 63 - 1) :
    Coords (IsInt (checks := checks)) M (⟨.ofInt x, .ofInt y, .ofInt z⟩ : Vector3 (I64 checks)).get ![x, y, z] :=
    fun i => by
  fin_cases i
  · exact ⟨(C102_i64 checks).int x (hx.trans hM), hx⟩
  · exact ⟨(C102_i64 checks).int y (hy.trans hM), hy⟩
  · exact ⟨(C102_i64 checks).int z (hz.trans hM), hz⟩

-- the same product of vectors, by floats and by integers
example := C102_vector_products C102_f32.toWholeArith (fv 2000 (-300) 7) (fv 1 2 (-2000)) ![2000, -300, 7] ![1, 2, -2000]
  (M := 2000) (coords32 (by decide) (by decide) (by decide) (by decide))
  (coords32 (by decide) (by decide) (by decide) (by decide)) (by decide)
example := C102_vector_products (C102_i64 true) ⟨i64 2000, i64 (-300), i64 7⟩ ⟨i64 1, i64 2, i64 (-2000)⟩ ![2000, -300, 7]
  ![1, 2, -2000] (M := 2000) (coords64 (by decide) (by decide) (by decide) (by decide))
  (coords64 (by decide) (by decide) (by decide) (by decide)) (by decide)
example : (fv 2000 (-300) 7).dot (fv 1 2 (-2000)) = .ok (f32 (-12600)) ∧
    (⟨i64 2000, i64 (-300), i64 7⟩ : Vector3 (I64 true)).dot ⟨i64 1, i64 2, i64 (-2000)⟩ = .ok (i64 (-12600)) := by
  decide +kernel
-- a length: 2 ^ 2 + 3 ^ 2 + 6 ^ 2 = 7 ^ 2
example := C102_len C102_f32 ((C102_i64 true).below (K := 2 ^ 24) (by decide))
  (fun a n ha h => (C102_casts true n).1 a ha h) ⟨i64 2, i64 (-3), i64 6⟩ ⟨i64 2, i64 (-3), i64 6⟩ ![2, -3, 6] 7 (M := 6)
  (coords64 (by decide) (by decide) (by decide) (by decide))
  (fun i => coords64 (checks := true) (M := 6) (x := 2) (y := -3) (z := 6) (by decide) (by decide) (by decide) (by decide) i)
  (by decide) (by decide) (by decide)
example : (⟨i64 2, i64 (-3), i64 6⟩ : Vector3 (I64 true)).len (F := Float32.Model) = .ok (f32 7) := by decide +kernel
-- a box with sides 100, 200 and 3, grown by 4
example := C102_measures C102_f32.toWholeArith ⟨fp (-50) (-100) 7, fp 50 100 10⟩ ![-50, -100, 7] ![50, 100, 10] (M := 100)
  (coords32 (by decide) (by decide) (by decide) (by decide)) (coords32 (by decide) (by decide) (by decide) (by decide))
example := C102_extent C102_f32.toWholeArith ⟨fp (-50) (-100) 7, fp 50 100 10⟩ (f32 4) ![-50, -100, 7] ![50, 100, 10] 4
  (M := 100) (coords32 (by decide) (by decide) (by decide) (by decide))
  (coords32 (by decide) (by decide) (by decide) (by decide)) (is32 (by decide)) (by decide) (by decide)
example : (⟨fp (-50) (-100) 7, fp 50 100 10⟩ : Bounds3 Float32.Model).volume = .ok (f32 60000) ∧
    (⟨fp (-50) (-100) 7, fp 50 100 10⟩ : Bounds3 Float32.Model).surfaceArea = .ok (f32 41800) := by decide +kernel
example := C102_ray C102_f32.toWholeArith ⟨fp 1 2 3, fv 4 (-5) 6, f32 0, f32 0⟩ (f32 10) ![1, 2, 3] ![4, -5, 6] 10 (M := 10)
  (coords32 (by decide) (by decide) (by decide) (by decide)) (coords32 (by decide) (by decide) (by decide) (by decide))
  (is32 (by decide)) (by decide) (by decide)
-- a quarter turn has no scale, a shear has one
example := C102_has_scale C102_f32 (fun a n ha _ => (C102_casts true n).2.2.1 a ha) turned32
  (fun i j => Mat44.ofRows 0 (-1) 0 5 1 0 0 6 0 0 1 7 0 0 0 1 i j) (M := 7)
  (fun i j => by fin_cases i <;> fin_cases j <;> exact ⟨is32 (by decide), by decide⟩) (by decide) (by decide)

end Pbrt
