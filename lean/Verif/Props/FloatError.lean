import Verif.Proof.FloatErr
import Verif.Props.Length

/-!
# C69: how far floats are from the exact result

For `f32` and `f64`, all operands.  `ε` is the unit roundoff and `η` half the smallest positive float.
The only hypothesis is that the result is finite (no overflow): cancellation, subnormal numbers and
signed zeros are covered.
-/

namespace Pbrt

open Float.Model (UnpackedFloat Format)

section
variable {T : Type} [Elem T] [As T T] [FloatFns T] [IEEE T]

local notation "ε" => unitRoundoff T
local notation "η" => tiny T
local notation "z" => (Elem.fromInt 0 : T)
local notation "o" => (Elem.fromInt 1 : T)

theorem within_dot3 {a b c a' b' c' : T}
    (hf : IsFinite (fadd (fadd (fmul a a') (fmul b b')) (fmul c c'))) :
    Within T 3 (3 * η) (val (fadd (fadd (fmul a a') (fmul b b')) (fmul c c')))
      (val a * val a' + val b * val b' + val c * val c')
      (|val a * val a'| + |val b * val b'| + |val c * val c'|) := by
  obtain ⟨h1, h2⟩ := fadd_finite hf
  obtain ⟨h3, h4⟩ := fadd_finite h1
  have := ((Within.prod h3).fadd (Within.prod h4) h1).fadd
    ((Within.prod h2).mono (k' := 2) (by omega) (le_refl _)) hf
  rwa [show η + η + η = 3 * η by ring] at this

/-- **C69**: the error of `dot`. -/
theorem C69_dot (u v : Vector3 T) (d : T) (h : u.dot v = .ok d) (hf : IsFinite d) :
    |val d - ∑ i, val (u.get i) * val (v.get i)| ≤
      ((1 + ε) ^ 3 - 1) * ∑ i, |val (u.get i) * val (v.get i)| + 3 * η * (1 + ε) ^ 3 := by
  simp only [Vector3.dot, fmul_ok, fadd_ok, ok_bind, Except.ok.injEq] at h
  subst h
  rw [Fin.sum_univ_three, Fin.sum_univ_three]
  exact (within_dot3 hf).err

example := C69_dot (fv 16777217 1 0) (fv 1 1 0) (f32 16777216) (by decide +kernel) (by decide +kernel)

/-- **C69**: the error of `dot` of normals. -/
theorem C69_dot_normal (u v : Normal3 T) (d : T) (h : u.dot v = .ok d) (hf : IsFinite d) :
    |val d - ∑ i, val (u.get i) * val (v.get i)| ≤
      ((1 + ε) ^ 3 - 1) * ∑ i, |val (u.get i) * val (v.get i)| + 3 * η * (1 + ε) ^ 3 := by
  simp only [Normal3.dot, fmul_ok, fadd_ok, ok_bind, Except.ok.injEq] at h
  subst h
  rw [Fin.sum_univ_three, Fin.sum_univ_three]
  exact (within_dot3 hf).err

example := C69_dot_normal (⟨f32 16777217, f32 1, f32 0⟩ : Normal3 Float32.Model) ⟨f32 1, f32 1, f32 0⟩ (f32 16777216)
  (by decide +kernel) (by decide +kernel)

/-- **C69**: the error of `len_sq`: relative, up to subnormal numbers. -/
theorem C69_len_sq (v : Vector3 T) (d : T) (h : v.lenSq = .ok d) (hf : IsFinite d) :
    |val d - ∑ i, val (v.get i) ^ 2| ≤
      ((1 + ε) ^ 3 - 1) * ∑ i, val (v.get i) ^ 2 + 3 * η * (1 + ε) ^ 3 := by
  have := C69_dot v v d h hf
  simpa only [← pow_two, abs_sq] using this

example := C69_len_sq (fv 5001 1 0) (f32 25010000) (by decide +kernel) (by decide +kernel)

/-- **C69**: the error of `len`, stated for its square. -/
theorem C69_len (v : Vector3 T) (l : T) (h : v.len = .ok l) (hf : IsFinite l) :
    0 ≤ val l ∧
    val l ^ 2 ≤ (∑ i, val (v.get i) ^ 2 + 3 * η) * (1 + ε) ^ 5 ∧
    (1 - ε) ^ 2 * ((2 - (1 + ε) ^ 3) * ∑ i, val (v.get i) ^ 2 - 3 * η * (1 + ε) ^ 3) ≤ val l ^ 2 := by
  rw [flen_vector, Except.ok.injEq] at h
  subst h
  have he := fsqrt_err hf
  obtain ⟨hf', h0⟩ := fsqrt_finite hf
  have hw := C69_len_sq v _ (by simp only [Vector3.lenSq, fmul_ok, fadd_ok, ok_bind]) hf'
  set s := val (fadd (fadd (fmul v.x v.x) (fmul v.y v.y)) (fmul v.z v.z)) with hs
  have hl : flen v.x v.y v.z = fsqrt (fadd (fadd (fmul v.x v.x) (fmul v.y v.y)) (fmul v.z v.z)) := rfl
  rw [hl]
  set S := ∑ i, val (v.get i) ^ 2
  set l := val (fsqrt (fadd (fadd (fmul v.x v.x) (fmul v.y v.y)) (fmul v.z v.z)))
  have hr := Real.sqrt_nonneg s
  have hrr := Real.sq_sqrt h0
  have e0 := eps_pos (T := T)
  have e1 := eps_le_half (T := T)
  rw [abs_le] at he hw
  have l1 : (1 - ε) * Real.sqrt s ≤ l := by linarith [he.1]
  have l2 : l ≤ (1 + ε) * Real.sqrt s := by linarith [he.2]
  have l0 : 0 ≤ (1 - ε) * Real.sqrt s := mul_nonneg (by linarith) hr
  have hl0 : 0 ≤ l := l0.trans l1
  refine ⟨hl0, ?_, ?_⟩
  · have h1 : l ^ 2 ≤ (1 + ε) ^ 2 * s := by
      have := pow_le_pow_left₀ hl0 l2 2
      rwa [mul_pow, hrr] at this
    have h2 : s ≤ (S + 3 * η) * (1 + ε) ^ 3 := by linarith [hw.2]
    have h3 := mul_le_mul_of_nonneg_left h2 (by positivity : 0 ≤ (1 + ε) ^ 2)
    calc l ^ 2 ≤ _ := h1
      _ ≤ _ := h3
      _ = _ := by ring
  · have h1 : (1 - ε) ^ 2 * s ≤ l ^ 2 := by
      have := pow_le_pow_left₀ l0 l1 2
      rwa [mul_pow, hrr] at this
    have h2 : (2 - (1 + ε) ^ 3) * S - 3 * η * (1 + ε) ^ 3 ≤ s := by linarith [hw.1]
    exact (mul_le_mul_of_nonneg_left h2 (sq_nonneg _)).trans h1

example := C69_len (fv 3 4 12) (f32 13) (by decide +kernel) (by decide +kernel)

theorem within_cross {a b c d : T} (hf : IsFinite (fsub (fmul a b) (fmul c d))) :
    Within T 2 (2 * η) (val (fsub (fmul a b) (fmul c d))) (val a * val b - val c * val d)
      (|val a * val b| + |val c * val d|) := by
  obtain ⟨h1, h2⟩ := fsub_finite hf
  have := (Within.prod h1).fsub (Within.prod h2) hf
  rwa [show η + η = 2 * η by ring] at this

/-- **C69**: the error of `cross`, on each axis. -/
theorem C69_cross (u v w : Vector3 T) (h : u.cross v = .ok w) (i : Fin 3) (hf : IsFinite (w.get i)) :
    |val (w.get i) - (val (u.get (i + 1)) * val (v.get (i + 2)) - val (u.get (i + 2)) * val (v.get (i + 1)))| ≤
      ((1 + ε) ^ 2 - 1) * (|val (u.get (i + 1)) * val (v.get (i + 2))| +
        |val (u.get (i + 2)) * val (v.get (i + 1))|) + 2 * η * (1 + ε) ^ 2 := by
  simp only [Vector3.cross, fmul_ok, fsub_ok, ok_bind, pure_ok, Except.ok.injEq] at h
  subst h
  fin_cases i <;> exact (within_cross hf).err

example := C69_cross (fv 1 2 3) (fv 4 5 7) (fv (-1) 5 (-3)) (by decide +kernel) 1 (by decide +kernel)

/-- **C69**: the error of `cross` of normals. -/
theorem C69_cross_normal (u v w : Normal3 T) (h : u.cross v = .ok w) (i : Fin 3) (hf : IsFinite (w.get i)) :
    |val (w.get i) - (val (u.get (i + 1)) * val (v.get (i + 2)) - val (u.get (i + 2)) * val (v.get (i + 1)))| ≤
      ((1 + ε) ^ 2 - 1) * (|val (u.get (i + 1)) * val (v.get (i + 2))| +
        |val (u.get (i + 2)) * val (v.get (i + 1))|) + 2 * η * (1 + ε) ^ 2 := by
  simp only [Normal3.cross, fmul_ok, fsub_ok, ok_bind, pure_ok, Except.ok.injEq] at h
  subst h
  fin_cases i <;> exact (within_cross hf).err

example := C69_cross_normal (⟨f32 1, f32 2, f32 3⟩ : Normal3 Float32.Model) ⟨f32 4, f32 5, f32 7⟩
  ⟨f32 (-1), f32 5, f32 (-3)⟩ (by decide +kernel) 1 (by decide +kernel)

/-- **C69**: the error of a point on a ray. -/
theorem C69_at (r : Ray T) (t : T) (p : Point3 T) (h : r.at t = .ok p) (i : Fin 3) (hf : IsFinite (p.get i)) :
    |val (p.get i) - (val (r.o.get i) + val t * val (r.d.get i))| ≤
      ((1 + ε) ^ 2 - 1) * (|val (r.o.get i)| + |val t * val (r.d.get i)|) + η * (1 + ε) ^ 2 := by
  have key : ∀ a d : T, IsFinite (fadd a (fmul t d)) → Within T 2 η (val (fadd a (fmul t d)))
      (val a + val t * val d) (|val a| + |val t * val d|) := by
    intro a d h
    have := ((Within.val a).mono (k' := 1) (by omega) (le_refl _)).fadd (Within.prod (fadd_finite h).2) h
    rwa [zero_add] at this
  simp only [Ray.at, Vector3.mul, Point3.add, fmul_ok, fadd_ok, ok_bind, pure_ok, Except.ok.injEq] at h
  subst h
  fin_cases i <;> exact (key _ _ hf).err

example := C69_at (⟨fp 1 2 3, fv 4 5 6, f32 10, f32 0⟩ : Ray Float32.Model) (f32 2) (fp 9 12 15) (by decide +kernel) 1
  (by decide +kernel)

theorem within_lerp {t a b : T} (hf : IsFinite (fadd (fmul (fsub o t) a) (fmul t b))) :
    Within T 3 (2 * η) (val (fadd (fmul (fsub o t) a) (fmul t b)))
      ((1 - val t) * val a + val t * val b) (|(1 - val t) * val a| + |val t * val b|) := by
  obtain ⟨h1, h2⟩ := fadd_finite hf
  obtain ⟨h3, _⟩ := fmul_finite h1
  have w1 := (Within.diff h3).fmul (Within.val a) h1
  simp only [zero_mul, mul_zero, add_zero, zero_add] at w1
  rw [← abs_mul, val_one] at w1
  have := w1.fadd ((Within.prod h2).mono (k' := 2) (by omega) (le_refl _)) hf
  rwa [show η + η = 2 * η by ring] at this

/-- **C69**: the error of `lerp` of numbers. -/
theorem C69_lerp (t a b c : T) (h : lerp t a b = .ok c) (hf : IsFinite c) :
    |val c - ((1 - val t) * val a + val t * val b)| ≤
      ((1 + ε) ^ 3 - 1) * (|(1 - val t) * val a| + |val t * val b|) + 2 * η * (1 + ε) ^ 3 := by
  simp only [lerp, fsub_ok, fmul_ok, fadd_ok, ok_bind, Except.ok.injEq] at h
  subst h
  exact (within_lerp hf).err

example := C69_lerp (f32 3) (f32 10) (f32 30) (f32 70) (by decide +kernel) (by decide +kernel)

/-- **C69**: the error of `lerp` of points. -/
theorem C69_lerp_point (t : T) (p q c : Point3 T) (h : Point3.lerp t p q = .ok c) (i : Fin 3)
    (hf : IsFinite (c.get i)) :
    |val (c.get i) - ((1 - val t) * val (p.get i) + val t * val (q.get i))| ≤
      ((1 + ε) ^ 3 - 1) * (|(1 - val t) * val (p.get i)| + |val t * val (q.get i)|) + 2 * η * (1 + ε) ^ 3 := by
  simp only [Point3.lerp, Point3.mul, Point3.add, Vector3.ofPoint, fsub_ok, fmul_ok, fadd_ok, ok_bind,
    pure_ok, Except.ok.injEq] at h
  subst h
  fin_cases i <;> exact (within_lerp hf).err

example := C69_lerp_point (f32 3) (fp 10 0 1) (fp 30 0 2) (fp 70 0 4) (by decide +kernel) 2 (by decide +kernel)

/-- **C69**: the error of scaling the differentials of a ray, here of the first origin. -/
theorem C69_scale_differentials (r r' : RayDifferential T) (s : T) (h : r.scaleDifferentials s = .ok r')
    (i : Fin 3) :
    (IsFinite (r'.rxOrigin.get i) →
      |val (r'.rxOrigin.get i) - (val (r.ray.o.get i) + val s * (val (r.rxOrigin.get i) - val (r.ray.o.get i)))| ≤
        ((1 + ε) ^ 3 - 1) * (|val (r.ray.o.get i)| + |val s * (val (r.rxOrigin.get i) - val (r.ray.o.get i))|) +
          η * (1 + ε) ^ 3) ∧
    (IsFinite (r'.ryOrigin.get i) →
      |val (r'.ryOrigin.get i) - (val (r.ray.o.get i) + val s * (val (r.ryOrigin.get i) - val (r.ray.o.get i)))| ≤
        ((1 + ε) ^ 3 - 1) * (|val (r.ray.o.get i)| + |val s * (val (r.ryOrigin.get i) - val (r.ray.o.get i))|) +
          η * (1 + ε) ^ 3) ∧
    (IsFinite (r'.rxDirection.get i) →
      |val (r'.rxDirection.get i) -
          (val (r.ray.d.get i) + val s * (val (r.rxDirection.get i) - val (r.ray.d.get i)))| ≤
        ((1 + ε) ^ 3 - 1) * (|val (r.ray.d.get i)| +
          |val s * (val (r.rxDirection.get i) - val (r.ray.d.get i))|) + η * (1 + ε) ^ 3) ∧
    (IsFinite (r'.ryDirection.get i) →
      |val (r'.ryDirection.get i) -
          (val (r.ray.d.get i) + val s * (val (r.ryDirection.get i) - val (r.ray.d.get i)))| ≤
        ((1 + ε) ^ 3 - 1) * (|val (r.ray.d.get i)| +
          |val s * (val (r.ryDirection.get i) - val (r.ray.d.get i))|) + η * (1 + ε) ^ 3) := by
  have key : ∀ a x : T, IsFinite (fadd a (fmul s (fsub x a))) → Within T 3 η (val (fadd a (fmul s (fsub x a))))
      (val a + val s * (val x - val a)) (|val a| + |val s * (val x - val a)|) := by
    intro a x h
    obtain ⟨h1, h2⟩ := fadd_finite h
    obtain ⟨_, h3⟩ := fmul_finite h2
    have w1 := (Within.val s).fmul (Within.diff h3) h2
    simp only [zero_mul, mul_zero, add_zero, zero_add] at w1
    rw [← abs_mul] at w1
    have := ((Within.val a).mono (k' := 2) (by omega) (le_refl _)).fadd w1 h
    rwa [zero_add] at this
  simp only [RayDifferential.scaleDifferentials, Point3.sub, Vector3.mul, Point3.add, Vector3.sub,
    Vector3.add, fsub_ok, fmul_ok, fadd_ok, ok_bind, pure_ok, Except.ok.injEq] at h
  subst h
  refine ⟨fun hf => ?_, fun hf => ?_, fun hf => ?_, fun hf => ?_⟩ <;>
  · fin_cases i <;> exact (key _ _ hf).err

example := C69_scale_differentials
  (⟨⟨fp 1 2 3, fv 4 5 6, f32 10, f32 0⟩, true, fp 2 2 3, fp 1 3 3, fv 4 6 6, fv 4 5 7⟩ : RayDifferential Float32.Model)
  _ (f32 2) rfl 0

theorem val_zero_add (a : T) : val (fadd z a) = val a := by
  rw [fzero_add]
  split_ifs with h
  · have := (isZero_iff.1 (eq_zero_iff.1 h)).2
    rw [this, val_zero]
  · rfl

/-- **C69**: the error of an entry of a matrix product. -/
theorem C69_matrix_mul (a b c : Matrix4 T) (h : a.mul b = .ok c) (i j : Fin 4) (hf : IsFinite (c.mat i j)) :
    |val (c.mat i j) - ∑ n, val (a.mat i n) * val (b.mat n j)| ≤
      ((1 + ε) ^ 4 - 1) * ∑ n, |val (a.mat i n) * val (b.mat n j)| + 4 * η * (1 + ε) ^ 4 := by
  rw [fmul_mat, Except.ok.injEq] at h
  subst h
  simp only [fdot4] at hf ⊢
  obtain ⟨h1, p4⟩ := fadd_finite hf
  obtain ⟨h2, p3⟩ := fadd_finite h1
  obtain ⟨h3, p2⟩ := fadd_finite h2
  obtain ⟨_, p1⟩ := fadd_finite h3
  have w1 := Within.prod p1
  rw [← val_zero_add] at w1
  have w2 := w1.fadd (Within.prod p2) h2
  have w3 := w2.fadd ((Within.prod p3).mono (k' := 2) (by omega) (le_refl _)) h1
  have w4 := w3.fadd ((Within.prod p4).mono (k' := 3) (by omega) (le_refl _)) hf
  rw [Fin.sum_univ_four, Fin.sum_univ_four]
  have := w4.err
  rwa [show η + η + η + η = 4 * η by ring] at this

example := C69_matrix_mul (rows4 fun i j => f32 (i.val * 7 - j.val)) (rows4 fun i j => f32 (i.val + j.val))
  _ rfl 1 2 (by decide +kernel)

/-- **C69**: the error of transforming a vector. -/
theorem C69_transform (v w : Vector3 T) (t : Transform T) (h : v.transform t = .ok w) (i : Fin 3)
    (hf : IsFinite (w.get i)) :
    |val (w.get i) - ∑ n : Fin 3, val (t.m.mat i.castSucc n.castSucc) * val (v.get n)| ≤
      ((1 + ε) ^ 3 - 1) * ∑ n : Fin 3, |val (t.m.mat i.castSucc n.castSucc) * val (v.get n)| +
        3 * η * (1 + ε) ^ 3 := by
  simp only [Vector3.transform, IEEE.as_eq, fmul_ok, fadd_ok, ok_bind, pure_ok, Except.ok.injEq] at h
  subst h
  rw [Fin.sum_univ_three, Fin.sum_univ_three]
  fin_cases i <;> exact (within_dot3 hf).err

example := C69_transform (fv 1 2 3) (fv (-8) 34 76) (⟨rows4 fun i j => f32 (i.val * 7 - j.val), Matrix4.one _⟩ : Transform Float32.Model)
  (by decide +kernel) 1 (by decide +kernel)

/-- **C69**: the error of the volume of a box; `s i` is the exact length of its side on axis `i`. -/
theorem C69_volume (b : Bounds3 T) (v : T) (h : b.volume = .ok v) (hf : IsFinite v) (s : Fin 3 → ℝ)
    (hs : ∀ i, s i = val (b.pMax.get i) - val (b.pMin.get i)) :
    |val v - s 0 * s 1 * s 2| ≤
      ((1 + ε) ^ 5 - 1) * |s 0 * s 1 * s 2| + η * (1 + |s 2|) * (1 + ε) ^ 5 := by
  simp only [Bounds3.volume, Bounds3.diagonal, Point3.sub, fsub_ok, fmul_ok, ok_bind, pure_ok,
    Except.ok.injEq] at h
  subst h
  obtain ⟨h1, h2⟩ := fmul_finite hf
  obtain ⟨h3, h4⟩ := fmul_finite h1
  have w1 := (Within.diff h3).fmul (Within.diff h4) h1
  have w2 := w1.fmul (Within.diff h2) hf
  simp only [zero_mul, mul_zero, add_zero, zero_add, ← abs_mul] at w2
  have := w2.err
  rw [hs, hs, hs]
  rw [show η * (1 + |val (b.pMax.get 2) - val (b.pMin.get 2)|) =
    η * |val (b.pMax.get 2) - val (b.pMin.get 2)| + η by ring]
  exact this

example := C69_volume (⟨fp 0 0 0, fp 1 2 3⟩ : Bounds3 Float32.Model) (f32 6) (by decide +kernel) (by decide +kernel) _
  (fun _ => rfl)

/-- **C69**: the error of the surface area of a box. -/
theorem C69_surface (b : Bounds3 T) (v : T) (h : b.surfaceArea = .ok v) (hf : IsFinite v) (s : Fin 3 → ℝ)
    (hs : ∀ i, s i = val (b.pMax.get i) - val (b.pMin.get i)) :
    |val v - 2 * (s 0 * s 1 + s 0 * s 2 + s 1 * s 2)| ≤
      ((1 + ε) ^ 6 - 1) * (2 * (|s 0 * s 1| + |s 0 * s 2| + |s 1 * s 2|)) + 7 * η * (1 + ε) ^ 6 := by
  simp only [Bounds3.surfaceArea, Bounds3.diagonal, Point3.sub, fsub_ok, fmul_ok, fadd_ok, ok_bind,
    pure_ok, Except.ok.injEq] at h
  subst h
  obtain ⟨_, h1⟩ := fmul_finite hf
  obtain ⟨h2, hyz⟩ := fadd_finite h1
  obtain ⟨hxy, hxz⟩ := fadd_finite h2
  obtain ⟨dx, dy⟩ := fmul_finite hxy
  obtain ⟨_, dz⟩ := fmul_finite hxz
  have w1 := (Within.diff dx).fmul (Within.diff dy) hxy
  have w2 := (Within.diff dx).fmul (Within.diff dz) hxz
  have w3 := (Within.diff dy).fmul (Within.diff dz) hyz
  have w4 := w1.fadd w2 h2
  have w5 := w4.fadd (w3.mono (k' := 4) (by omega) (le_refl _)) h1
  have w6 := (Within.val (Elem.fromInt 2 : T)).fmul w5 hf
  have h2v : val (Elem.fromInt 2 : T) = 2 := by
    have := (fromInt_small (T := T) 2 (by norm_num)).2
    exact_mod_cast this
  rw [h2v] at w6
  simp only [zero_mul, mul_zero, add_zero, zero_add, ← abs_mul, abs_two] at w6
  have := w6.err
  rw [hs, hs, hs]
  rw [show 2 * (η + η + η) + η = 7 * η by ring] at this
  exact this

example := C69_surface (⟨fp 0 0 0, fp 1 2 3⟩ : Bounds3 Float32.Model) (f32 22) (by decide +kernel) (by decide +kernel) _
  (fun _ => rfl)

/-- **C69**: the error of a side of a box is relative only. -/
theorem C69_diagonal (b : Bounds3 T) (d : Vector3 T) (h : b.diagonal = .ok d) (i : Fin 3)
    (hf : IsFinite (d.get i)) :
    |val (d.get i) - (val (b.pMax.get i) - val (b.pMin.get i))| ≤
      ε * |val (b.pMax.get i) - val (b.pMin.get i)| := by
  obtain ⟨d', hd, g⟩ := fdiagonal b
  obtain rfl : d' = d := by simpa using hd.symm.trans h
  rw [g] at hf ⊢
  exact fsub_err hf

example := C69_diagonal (⟨fp (-1) 0 0, fp 16777216 2 3⟩ : Bounds3 Float32.Model) (fv 16777216 2 3) (by decide +kernel) 0
  (by decide +kernel)

end

/-- **C69**: the two constants for `f32` and `f64`. -/
theorem C69_constants :
    unitRoundoff Float32.Model = 2 ^ (-24 : ℤ) ∧ tiny Float32.Model = 2 ^ (-150 : ℤ) ∧
    unitRoundoff Float.Model = 2 ^ (-53 : ℤ) ∧ tiny Float.Model = 2 ^ (-1075 : ℤ) := by
  refine ⟨?_, ?_, ?_, ?_⟩ <;> (simp only [unitRoundoff, tiny]; congr 1)

/-- `16777217 * 1 + 1 * 1 + 0 * 0` with rounding: the operand and the sum are rounded. -/
example : (fv 16777217 1 0).dot (fv 1 1 0) = .ok (f32 16777216) ∧ IsFinite (f32 16777216) := by
  decide +kernel

end Pbrt
