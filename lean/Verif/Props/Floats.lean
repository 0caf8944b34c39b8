import Verif.Proof.IEEE
import Verif.Proof.Order
import Verif.Props.Matrices

/-!
# Guarantees under IEEE rounding (C60, and the float parts of C44, C45, C47, C51, C58)

Everything here is about any float type `T` of class `IEEE`: `f32` and `f64` with rounding to
nearest, infinities, NaN, signed zeros and subnormal numbers.  `IsFinite` and `val` are those of
`Spec/FloatValue.lean`.
-/

namespace Pbrt

section
variable {T : Type} [Elem T] [As T T] [FloatFns T] [IEEE T]

/-- The order laws of the floats -/
theorem ieee_lawful : LawfulOrder T where
  le_refl a h := by rw [le_iff_ext]; exact ⟨h, h, le_refl _⟩
  le_trans a b c h1 h2 := by
    rw [le_iff_ext] at *
    exact ⟨h1.1, h2.2.1, h1.2.2.trans h2.2.2⟩
  le_total a b ha hb := by
    rw [le_iff_ext, le_iff_ext]
    rcases le_total (ext a) (ext b) with h | h
    · exact .inl ⟨ha, hb, h⟩
    · exact .inr ⟨hb, ha, h⟩
  le_nan a b h := by rw [le_iff_ext] at h; exact ⟨h.1, h.2.1⟩
  lt_iff a b := by
    rw [le_iff_ext, le_iff_ext, lt_iff_ext]
    constructor
    · rintro ⟨h1, h2, h3⟩; exact ⟨⟨h1, h2, h3.le⟩, fun h => absurd h3 (not_lt.2 h.2.2)⟩
    · rintro ⟨⟨h1, h2, _⟩, h⟩; exact ⟨h1, h2, not_le.1 fun hc => h ⟨h2, h1, hc⟩⟩
  eq_iff a b := by
    rw [le_iff_ext, le_iff_ext, eq_iff_ext]
    constructor
    · rintro ⟨h1, h2, h3⟩; exact ⟨⟨h1, h2, h3.le⟩, h2, h1, h3.ge⟩
    · rintro ⟨⟨h1, h2, h⟩, _, _, h'⟩; exact ⟨h1, h2, le_antisymm h h'⟩

local notation "z" => (Elem.fromInt 0 : T)
local notation "o" => (Elem.fromInt 1 : T)

theorem eq_zero_iff {a : T} : Elem.eq a z = true ↔ IsZero a := by
  constructor
  · intro h
    rw [eq_iff_ext, ext_zero] at h
    obtain ⟨h1, h2⟩ := finite_of_ext (x := 0) h.1 h.2.2
    exact isZero_iff.2 ⟨h1, h2⟩
  · intro h; exact same_of_isZero h zero_isZero

theorem one_not_zero : ¬ IsZero (o : T) := fun h => by
  have := (isZero_iff.1 h).2
  rw [val_one] at this; norm_num at this

/-! ### C60: matrices -/

theorem zf {b : T} (h : IsFinite b) : fadd z (fmul z b) = z := zero_fadd_isZero (fmul_isZero zero_isZero h)
theorem zf' {b : T} (h : IsFinite b) : fadd z (fmul b z) = z := by rw [fmul_comm', zf h]
theorem zn {a b : T} (ha : ¬ IsZero a) (h : IsFinite b) : fadd a (fmul z b) = a :=
  fadd_isZero ha (fmul_isZero zero_isZero h)
theorem zn' {a b : T} (ha : ¬ IsZero a) (h : IsFinite b) : fadd a (fmul b z) = a := by
  rw [fmul_comm', zn ha h]

/-- The sum of products of `Mul` -/
def fdot4 (a b : Fin 4 → T) : T :=
  fadd (fadd (fadd (fadd z (fmul (a 0) (b 0))) (fmul (a 1) (b 1))) (fmul (a 2) (b 2))) (fmul (a 3) (b 3))

theorem fmul_mat (a b : Matrix4 T) :
    a.mul b = .ok ⟨fun r c => fdot4 (a.mat r) (fun i => b.mat i c)⟩ := by
  unfold Matrix4.mul
  have : ∀ r c, (for4 (Elem.fromInt 0) fun i acc => do
        let p ← Elem.mul (a.mat r i) (b.mat i c)
        Elem.add acc p) = .ok (fdot4 (a.mat r) (fun i => b.mat i c)) := by
    intro r c
    rw [for4_eq]
    simp only [fmul_ok, fadd_ok, ok_bind]
    rfl
  rw [fill_iff.2 this]
  rfl

/-- What adding `+0` does: `-0` becomes `+0`. -/
theorem fzero_add (a : T) : fadd z a = if Elem.eq a z then z else a := by
  by_cases h : IsZero a
  · rw [if_pos (eq_zero_iff.2 h), zero_fadd_isZero h]
  · rw [if_neg (fun hc => h (eq_zero_iff.1 hc)), isZero_fadd zero_isZero h]

theorem fdot4_unit (a : Fin 4 → T) (h : ∀ i, IsFinite (a i)) (c : Fin 4) :
    fdot4 a (fun i => if i = c then o else z) = if Elem.eq (a c) z then z else a c := by
  by_cases hz : IsZero (a c)
  · rw [if_pos (eq_zero_iff.2 hz)]
    unfold fdot4
    fin_cases c <;> simp only [Fin.isValue, Fin.reduceEq, if_true, if_false, Fin.zero_eta, Fin.mk_one, Fin.reduceFinMk] at hz ⊢ <;>
      simp [fmul_one, zf', h, zero_fadd_isZero hz]
  · rw [if_neg (fun hc => hz (eq_zero_iff.1 hc))]
    unfold fdot4
    fin_cases c <;> simp only [Fin.isValue, Fin.reduceEq, if_true, if_false, Fin.zero_eta, Fin.mk_one, Fin.reduceFinMk] at hz ⊢ <;>
      simp [fmul_one, zf', zn' hz, h, isZero_fadd zero_isZero hz]

theorem fdot4_comm (a b : Fin 4 → T) : fdot4 a b = fdot4 b a := by
  simp only [fdot4, fmul_comm']

/-- **C60**: multiplying a finite matrix with the identity matrix, from either side, gives the
    matrix back, up to `-0` that become `+0`. -/
theorem C60_mul_one (a : Matrix4 T) (h : ∀ i j, IsFinite (a.mat i j)) :
    ∃ m, a.mul (Matrix4.one T) = .ok m ∧ (Matrix4.one T).mul a = .ok m ∧
      (∀ i j, Same (m.mat i j) (a.mat i j)) ∧
      ∀ i j, ¬ Same (a.mat i j) z → m.mat i j = a.mat i j := by
  refine ⟨⟨fun i j => if Elem.eq (a.mat i j) z then z else a.mat i j⟩, ?_, ?_, fun i j => ?_, fun i j hij => ?_⟩
  · rw [fmul_mat]
    congr 2
    funext i j
    exact fdot4_unit _ (h i) j
  · rw [fmul_mat]
    congr 2
    funext i j
    rw [fdot4_comm]
    have := fdot4_unit (fun k => a.mat k j) (fun k => h k j) i
    simp only [eq_comm (a := i), Matrix4.one] at this ⊢
    exact this
  · show Elem.eq _ _ = true
    dsimp only
    split
    · next hc => exact same_of_isZero zero_isZero (eq_zero_iff.1 hc)
    · rw [eq_iff_val (h i j) (h i j)]
  · exact if_neg hij

example := C60_mul_one (rows4 fun i j => f32 (i.val * 7 - j.val)) (by decide +kernel)

/-- **C60**: a translation by a finite vector and its stored inverse are inverse to each other, bit
    for bit. -/
theorem C60_translate (d : Vector3 T) (h : ∀ i, IsFinite (d.get i)) (t : Transform T)
    (ht : Transform.translate d = .ok t) :
    t.m.mul t.mInv = .ok (Matrix4.one T) ∧ t.mInv.mul t.m = .ok (Matrix4.one T) := by
  have hx : IsFinite d.x := h 0
  have hy : IsFinite d.y := h 1
  have hz : IsFinite d.z := h 2
  have f0 : IsFinite (z : T) := finite_zero
  have key : ∀ a b : T, (IsFinite a) → a = fneg b ∨ b = fneg a → IsFinite b ∧ (fadd (fadd z a) b = z) := by
    intro a b ha hab
    have hbf : IsFinite b := by
      rcases hab with rfl | rfl
      · have := fneg_finite ha
        rw [isFinite_iff, up_fneg, up_fneg] at this
        rw [isFinite_iff]
        cases hb : up b <;> simp_all [Float.Model.UnpackedFloat.neg, IsFin]
      · exact fneg_finite ha
    refine ⟨hbf, ?_⟩
    by_cases hz : IsZero a
    · have hb : IsZero b := by
        rw [isZero_iff] at *
        refine ⟨hbf, ?_⟩
        rcases hab with rfl | rfl
        · have := hz.2
          rw [val_fneg] at this; linarith
        · rw [val_fneg, hz.2, neg_zero]
      rw [zero_fadd_isZero hz, zero_fadd_isZero hb]
    · rw [isZero_fadd zero_isZero hz]
      rcases hab with rfl | rfl
      · exact fneg_fadd hbf
      · rw [fadd_comm', fneg_fadd ha]
  have zs : ∀ a b : T, IsFinite b → fadd (fadd z a) (fmul z b) = fadd z a := by
    intro a b hb
    by_cases ha : IsZero a
    · rw [zero_fadd_isZero ha, zf hb]
    · rw [isZero_fadd zero_isZero ha, zn ha hb]
  have n1 := one_not_zero (T := T)
  have z1 : fadd z o = o := isZero_fadd zero_isZero n1
  have z0 : fadd z z = z := zero_fadd_isZero zero_isZero
  have gx := key _ _ (fneg_finite hx) (.inl rfl)
  have gy := key _ _ (fneg_finite hy) (.inl rfl)
  have gz := key _ _ (fneg_finite hz) (.inl rfl)
  have gx' := key _ _ hx (.inr rfl)
  have gy' := key _ _ hy (.inr rfl)
  have gz' := key _ _ hz (.inr rfl)
  simp only [Transform.translate, fneg_ok, ok_bind, pure_ok] at ht
  cases ht
  constructor <;>
  · rw [fmul_mat]
    congr 2
    funext i j
    fin_cases i <;> fin_cases j <;>
      simp [fdot4, Mat44.ofRows, fmul_one, fone_mul, zf, zf', zn', n1, z0, z1, zs, f0, hx, hy, hz, gx.2, gy.2, gz.2,
        gx'.1, gy'.1, gz'.1, gx'.2, gy'.2, gz'.2]

example := C60_translate (⟨f32 3, negZero32, f32 (-16777217)⟩ : Vector3 Float32.Model) (by decide +kernel) _ rfl

/-! ### C60: rays, vectors -/

/-- `a + b` for a zero `b` -/
theorem fadd_zero_same {a b : T} (ha : NotNan a) (hb : IsZero b) :
    Same (fadd a b) a ∧ (¬ Same a z → fadd a b = a) := by
  by_cases h : IsZero a
  · refine ⟨?_, fun h' => absurd (eq_zero_iff.2 h) h'⟩
    have hf := isZero_iff.1 h
    have hb' := isZero_iff.1 hb
    have := fadd_rnd hf.1 hb'.1
    rw [hf.2, hb'.2, add_zero, rnd_zero] at this
    show Elem.eq _ _ = true
    rw [eq_iff_ext, this.2, hf.1.ext, hf.2]
    exact ⟨this.1, ha, rfl⟩
  · rw [fadd_isZero h hb]
    exact ⟨ieee_lawful.eq_iff _ _ |>.2 ⟨ieee_lawful.le_refl _ ha, ieee_lawful.le_refl _ ha⟩, fun _ => rfl⟩

/-- **C60**: `at(0)` is the origin, up to the sign of zeros. -/
theorem C60_at_zero (r : Ray T) (hd : ∀ i, IsFinite (r.d.get i)) (ho : r.o.Proper) :
    ∃ p, r.at z = .ok p ∧ p.Same r.o ∧ ∀ i, ¬ Same (r.o.get i) z → p.get i = r.o.get i := by
  refine ⟨⟨fadd r.o.x (fmul z r.d.x), fadd r.o.y (fmul z r.d.y), fadd r.o.z (fmul z r.d.z)⟩, ?_, ?_⟩
  · simp [Ray.at, Vector3.mul, Point3.add, fmul_ok, fadd_ok]
  · have h := fun i => fadd_zero_same (ho i) (fmul_isZero zero_isZero (hd i))
    refine ⟨forall_axis.2 ⟨(h 0).1, (h 1).1, (h 2).1⟩, forall_axis.2 ⟨(h 0).2, (h 1).2, (h 2).2⟩⟩

example := C60_at_zero (⟨fp 1 2 3, fv 4 5 6, f32 10, f32 0⟩ : Ray Float32.Model) (by decide +kernel) (by decide +kernel)

/-- **C60**: `dot` is symmetric, bit for bit, whatever the inputs. -/
theorem C60_dot_symm (u v : Vector3 T) : u.dot v = v.dot u := by
  simp [Vector3.dot, fmul_ok, fadd_ok, fmul_comm' u.x, fmul_comm' u.y, fmul_comm' u.z]

/-- **C60**, for normals. -/
theorem C60_dot_symm_normal (u v : Normal3 T) : u.dot v = v.dot u := by
  simp [Normal3.dot, fmul_ok, fadd_ok, fmul_comm' u.x, fmul_comm' u.y, fmul_comm' u.z]

theorem le_zero_iff {a : T} : Le z a ↔ NotNan a ∧ 0 ≤ ext a := by
  show Elem.le _ _ = true ↔ _
  rw [le_iff_ext, ext_zero]
  exact ⟨fun h => h.2, fun h => ⟨finite_zero.notNan, h⟩⟩

theorem not_lt_zero_iff {a : T} : ¬ Lt a z ↔ (NotNan a → 0 ≤ ext a) := by
  show ¬ Elem.lt _ _ = true ↔ _
  rw [lt_iff_ext, ext_zero]
  constructor
  · intro h hn; exact not_lt.1 fun hc => h ⟨hn, finite_zero.notNan, hc⟩
  · rintro h ⟨h1, _, h2⟩; exact absurd (h h1) (not_le.2 h2)

theorem fadd_nn {a b : T} (ha : ¬ Lt a z) (hb : ¬ Lt b z) : ¬ Lt (fadd a b) z := by
  rw [not_lt_zero_iff] at *
  intro h
  obtain ⟨h1, h2, _⟩ := fadd_nan h
  rw [fadd_ext' h]
  exact rndE_nonneg (add_nonneg (ha h1) (hb h2))

theorem fmul_nn {a b : T} (ha : ¬ Lt a z) (hb : ¬ Lt b z) : ¬ Lt (fmul a b) z := by
  rw [not_lt_zero_iff] at *
  intro h
  obtain ⟨h1, h2, _⟩ := fmul_nan h
  rw [fmul_ext' h]
  exact rndE_nonneg (EReal.mul_nonneg (ha h1) (hb h2))

theorem ereal_sq_nonneg (x : EReal) : 0 ≤ x * x := by
  induction x with
  | bot => simp
  | top => simp
  | coe x => exact_mod_cast mul_self_nonneg x

theorem fmul_self_le {a : T} (h : NotNan a) : Le z (fmul a a) := by
  rw [le_zero_iff]
  have := fmul_ext h h (fun h => by simp [h]) (fun h => by simp [h])
  refine ⟨this.1, ?_⟩
  rw [this.2]
  exact rndE_nonneg (ereal_sq_nonneg _)

theorem fmul_self_nn (a : T) : ¬ Lt (fmul a a) z := by
  rw [not_lt_zero_iff]
  intro h
  rw [fmul_ext' h]
  exact rndE_nonneg (ereal_sq_nonneg _)

theorem fadd_le {a b : T} (ha : Le z a) (hb : Le z b) : Le z (fadd a b) := by
  rw [le_zero_iff] at *
  have := fadd_ext ha.1 hb.1 (fun h => absurd hb.2 (by simp [h.2])) (fun h => absurd ha.2 (by simp [h.1]))
  refine ⟨this.1, ?_⟩
  rw [this.2]
  exact rndE_nonneg (add_nonneg ha.2 hb.2)

/-- **C60**: `len_sq` is never negative; it is NaN only if a component is NaN. -/
theorem C60_len_sq (v : Vector3 T) :
    ∃ l, v.lenSq = .ok l ∧ ¬ Lt l z ∧ ((∀ i, NotNan (v.get i)) → Le z l) :=
  ⟨_, by simp only [Vector3.lenSq, fmul_ok, fadd_ok, ok_bind]; rfl,
    fadd_nn (fadd_nn (fmul_self_nn _) (fmul_self_nn _)) (fmul_self_nn _),
    fun h => fadd_le (fadd_le (fmul_self_le (h 0)) (fmul_self_le (h 1))) (fmul_self_le (h 2))⟩

/-- **C60**, for normals. -/
theorem C60_len_sq_normal (v : Normal3 T) :
    ∃ l, v.lenSq = .ok l ∧ ¬ Lt l z ∧ ((∀ i, NotNan (v.get i)) → Le z l) :=
  ⟨_, by simp only [Normal3.lenSq, fmul_ok, fadd_ok, ok_bind]; rfl,
    fadd_nn (fadd_nn (fmul_self_nn _) (fmul_self_nn _)) (fmul_self_nn _),
    fun h => fadd_le (fadd_le (fmul_self_le (h 0)) (fmul_self_le (h 1))) (fmul_self_le (h 2))⟩

/-! ### C60, C45: the diagonal and what is computed from it -/

/-- The diagonal, component by component -/
theorem fdiagonal (b : Bounds3 T) : ∃ d, b.diagonal = .ok d ∧
    ∀ i, d.get i = fsub (b.pMax.get i) (b.pMin.get i) := by
  refine ⟨⟨_, _, _⟩, by simp only [Bounds3.diagonal, Point3.sub, fsub_ok, ok_bind]; rfl, ?_⟩
  exact forall_axis.2 ⟨rfl, rfl, rfl⟩

theorem fsub_nn {a b : T} (h : Le a b) : ¬ Lt (fsub b a) z := by
  rw [not_lt_zero_iff]
  intro hn
  obtain ⟨h1, h2, h3, h4⟩ := fsub_nan hn
  rw [fsub_ext' hn]
  refine rndE_nonneg ?_
  have := ((le_iff_ext _ _).1 h).2.2
  rcases eq_or_ne (ext a) ⊤ with ha | ha
  · exact absurd ⟨top_le_iff.1 (ha ▸ this), ha⟩ h3
  · rcases eq_or_ne (ext a) ⊥ with hb | hb
    · rcases eq_or_ne (ext b) ⊥ with hc | hc
      · exact absurd ⟨hc, hb⟩ h4
      · rw [hb, sub_eq_add_neg, EReal.neg_bot, EReal.add_top_of_ne_bot hc]; exact le_top
    · exact (EReal.sub_nonneg (.inr ha) (.inr hb)).2 this

theorem fsub_notNan {a b : T} (ha : NotNan a) (hb : NotNan b) (h : IsFinite a ∨ IsFinite b) :
    NotNan (fsub a b) := by
  refine (fsub_ext ha hb ?_ ?_).1 <;>
  · rintro ⟨h1, h2⟩
    rcases h with h | h
    · exact absurd h1 (by rw [h.ext]; simp)
    · exact absurd h2 (by rw [h.ext]; simp)

/-- **C60**, **C45**: the diagonal of a well-formed box is never negative, and on an axis where one
    of the two coordinates is finite it is not NaN either. -/
theorem C60_diagonal (b : Bounds3 T) (hb : b.WellFormed) :
    ∃ d, b.diagonal = .ok d ∧ ∀ i, ¬ Lt (d.get i) z ∧
      (IsFinite (b.pMin.get i) ∨ IsFinite (b.pMax.get i) → Le z (d.get i)) := by
  obtain ⟨d, hd, g⟩ := fdiagonal b
  refine ⟨d, hd, fun i => ?_⟩
  rw [g]
  have h := fsub_nn (hb i)
  refine ⟨h, fun hf => ?_⟩
  have h1 := (le_iff_ext _ _).1 (hb i)
  have := fsub_notNan h1.2.1 h1.1 hf.symm
  exact le_zero_iff.2 ⟨this, not_lt_zero_iff.1 h this⟩

example := C60_diagonal (⟨fp 1 2 3, fp 4 2 7⟩ : Bounds3 Float32.Model) (by decide +kernel)

theorem two_nn : ¬ Lt (Elem.fromInt 2 : T) z := by
  rw [not_lt_zero_iff]
  intro _
  have := fromInt_small (T := T) 2 (by norm_num)
  rw [this.1.ext, this.2]
  exact_mod_cast (by norm_num : (0 : ℝ) ≤ 2)

/-- **C45**, with floats: surface area and volume of a well-formed box are never negative. -/
theorem C45_float_nonneg (b : Bounds3 T) (hb : b.WellFormed) :
    ∃ v s, b.volume = .ok v ∧ b.surfaceArea = .ok s ∧ ¬ Lt v z ∧ ¬ Lt s z := by
  obtain ⟨d, hd, g⟩ := C60_diagonal b hb
  have h0 := (g 0).1
  have h1 := (g 1).1
  have h2 := (g 2).1
  refine ⟨_, _, ?_, ?_, fmul_nn (fmul_nn h0 h1) h2,
    fmul_nn two_nn (fadd_nn (fadd_nn (fmul_nn h0 h1) (fmul_nn h0 h2)) (fmul_nn h1 h2))⟩
  · simp only [Bounds3.volume, hd, ok_bind, fmul_ok, Vector3.get]
  · simp only [Bounds3.surfaceArea, hd, ok_bind, fmul_ok, fadd_ok, Vector3.get]

end

/-! Instances -/

example : (∀ i, IsFinite ((⟨f32 3, negZero32, f32 (-16777217)⟩ : Vector3 Float32.Model).get i)) ∧
    ∃ t, Transform.translate (⟨f32 3, negZero32, f32 (-16777217)⟩ : Vector3 Float32.Model) = .ok t :=
  ⟨by decide +kernel, _, rfl⟩

/-- Finiteness is needed: translations by infinity have no inverse. -/
example : (do
    let t ← Transform.translate (⟨inf32, f32 0, f32 0⟩ : Vector3 Float32.Model)
    let p ← t.m.mul t.mInv
    pure (p.mat 0 3)) = .ok nan32 := by decide +kernel

/-- Finiteness is needed: an infinite entry makes NaN of the others in its row. -/
example : (do
    let p ← (rows4 fun i j => if i = 0 ∧ j = 0 then inf32 else f32 1).mul (Matrix4.one Float32.Model)
    pure (p.mat 0 1)) = .ok nan32 := by decide +kernel

/-- `-0` does become `+0`. -/
example : (do
    let p ← (rows4 fun _ _ => negZero32).mul (Matrix4.one Float32.Model)
    pure (p.mat 0 1)) = .ok (f32 0) := by decide +kernel

example : let r : Ray Float32.Model := ⟨fp 1 2 3, fv 4 5 6, f32 10, f32 0⟩
    (∀ i, IsFinite (r.d.get i)) ∧ r.o.Proper ∧ r.at (f32 0) = .ok (fp 1 2 3) := by decide +kernel

/-- A well-formed finite box -/
example : let b : Bounds3 Float32.Model := ⟨fp 1 2 3, fp 4 2 7⟩
    b.WellFormed ∧ b.diagonal = .ok (fv 3 0 4) ∧ b.volume = .ok (f32 0) ∧ b.surfaceArea = .ok (f32 24) := by
  decide +kernel

/-- A limit of **C45**: the volume of a finite well-formed box may be NaN (the product of two sides
    overflows, and the third is 0). -/
theorem C45_float_volume_nan : ∃ b : Bounds3 Float32.Model, b.WellFormed ∧
    (∀ i, IsFinite (b.pMin.get i) ∧ IsFinite (b.pMax.get i)) ∧ b.volume = .ok nan32 :=
  ⟨⟨fp 0 0 0, fp (2 ^ 100) (2 ^ 100) 0⟩, by decide +kernel⟩

end Pbrt
