import Verif.Proof.Nearest

/-!
# Rounding to a wide format and to a narrow one

A float of the narrow format that is nearest to a number is also nearest to the float of the wide
format that is nearest to the number: the points half way between neighbours of the narrow format
are numbers of the wide one.
-/

namespace Pbrt.Proof.TwoPrecisions

open Pbrt Pbrt.Spec
open Float.Model (UnpackedFloat Format)

/-- Two sets of numbers: around each number in the span of the first there are two neighbours of the
    first set, and the point half way between them is in the second. -/
theorem nearest_chain {S D : ℝ → Prop} (hSD : ∀ r, S r → D r) {v x y a c : ℝ}
    (ha : S a) (hc : S c) (hav : a ≤ v) (hvc : v ≤ c) (gap : ∀ r, S r → r ≤ a ∨ c ≤ r)
    (hm : D ((a + c) / 2)) (hx : S x) (hxv : ∀ r, S r → |x - v| ≤ |r - v|)
    (hyv : ∀ r, D r → |y - v| ≤ |r - v|) (r : ℝ) (hr : S r) : |x - y| ≤ |r - y| := by
  have y1 := hyv a (hSD a ha)
  have y2 := hyv c (hSD c hc)
  have y3 := hyv _ hm
  have x1 := hxv a ha
  have x2 := hxv c hc
  have g1 := gap x hx
  have g2 := gap r hr
  simp only [abs_le, le_abs, neg_sub] at *
  have hya : a ≤ y := by
    by_contra h
    rcases y1 with ⟨p, q⟩ | ⟨p, q⟩ <;> linarith
  have hyc : y ≤ c := by
    by_contra h
    rcases y2 with ⟨p, q⟩ | ⟨p, q⟩ <;> linarith
  have hxac : x = a ∨ x = c := by
    rcases g1 with h | h
    · refine .inl (le_antisymm h ?_)
      by_contra h'
      rcases x1 with ⟨p, q⟩ | ⟨p, q⟩ <;> linarith
    · refine .inr (le_antisymm ?_ h)
      by_contra h'
      rcases x2 with ⟨p, q⟩ | ⟨p, q⟩ <;> linarith
  rcases hxac with rfl | rfl
  · -- the lower neighbour: `v`, and so `y`, are in the lower half
    have hv : v ≤ (x + c) / 2 := by
      rcases x2 with ⟨p, q⟩ | ⟨p, q⟩ <;> linarith
    have hy : y ≤ (x + c) / 2 := by
      by_contra h
      rcases y3 with ⟨p, q⟩ | ⟨p, q⟩ <;> linarith
    rcases g2 with h | h
    · right; constructor <;> linarith
    · left; constructor <;> linarith
  · have hv : (a + x) / 2 ≤ v := by
      rcases x1 with ⟨p, q⟩ | ⟨p, q⟩ <;> linarith
    have hy : (a + x) / 2 ≤ y := by
      by_contra h
      rcases y3 with ⟨p, q⟩ | ⟨p, q⟩ <;> linarith
    rcases g2 with h | h
    · right; constructor <;> linarith
    · left; constructor <;> linarith

/-- The numbers of a narrow grid and, between neighbours, of a wide one -/
theorem neighbours_pos {g w : Grid} (hp : g.p < w.p) (he : w.emin < g.emin) {v : ℝ} (hv : 0 < v) :
    ∃ a c, g.Rep a ∧ g.Rep c ∧ 0 ≤ a ∧ a ≤ v ∧ v ≤ c ∧ (∀ r, g.Rep r → r ≤ a ∨ c ≤ r) ∧
      w.Rep ((a + c) / 2) := by
  have hu := two_zpow_pos (g.ulpExp v)
  have h2 : (⌊v / 2 ^ g.ulpExp v⌋ : ℝ) * 2 ^ g.ulpExp v ≤ v := by
    rw [← le_div_iff₀ hu]; exact Int.floor_le _
  have h3 : v < ((⌊v / 2 ^ g.ulpExp v⌋ : ℝ) + 1) * 2 ^ g.ulpExp v := by
    rw [← div_lt_iff₀ hu]; exact Int.lt_floor_add_one _
  have h0 : 0 ≤ ⌊v / 2 ^ g.ulpExp v⌋ := Int.floor_nonneg.2 (div_pos hv hu).le
  have h1 : ⌊v / 2 ^ g.ulpExp v⌋ < 2 ^ g.p := by
    rw [Int.floor_lt, div_lt_iff₀ hu]
    push_cast
    have := abs_lt_ulp (g := g) v
    rw [abs_of_pos hv, add_comm, zpow_add₀ (by norm_num), zpow_natCast] at this
    exact this
  have hgap := fun r (hr : g.Rep r) => rep_gap hv hr
  have hmin := emin_le_ulpExp (g := g) v
  generalize ⌊v / 2 ^ g.ulpExp v⌋ = k at *
  generalize g.ulpExp v = e at *
  refine ⟨k * 2 ^ e, (k + 1) * 2 ^ e, ⟨k, e, ?_, hmin, rfl⟩, ⟨k + 1, e, ?_, hmin, by push_cast; ring⟩,
    mul_nonneg (by exact_mod_cast h0) hu.le, h2, h3.le, hgap, 2 * k + 1, e - 1, ?_, by omega, ?_⟩
  · rw [abs_of_nonneg h0]; exact h1.le
  · rw [abs_of_nonneg (by omega)]; omega
  · rw [abs_of_nonneg (by omega)]
    have : (2 : ℤ) ^ (g.p + 1) ≤ 2 ^ w.p := pow_le_pow_right₀ (by norm_num) hp
    rw [pow_succ] at this
    omega
  · rw [zpow_sub₀ (by norm_num)]
    push_cast
    ring

theorem neighbours {g w : Grid} (hp : g.p < w.p) (he : w.emin < g.emin) (v : ℝ) :
    ∃ a c, g.Rep a ∧ g.Rep c ∧ a ≤ v ∧ v ≤ c ∧ (∀ r, g.Rep r → r ≤ a ∨ c ≤ r) ∧
      w.Rep ((a + c) / 2) := by
  have hz : ∀ g : Grid, g.Rep 0 := fun g => ⟨0, g.emin, by simp, le_refl _, by simp⟩
  rcases lt_trichotomy v 0 with h | rfl | h
  · obtain ⟨a, c, h1, h2, _, h3, h4, h5, h6⟩ := neighbours_pos hp he (v := -v) (by linarith)
    refine ⟨-c, -a, Rep_neg h2, Rep_neg h1, by linarith, by linarith, fun r hr => ?_, ?_⟩
    · rcases h5 (-r) (Rep_neg hr) with h | h
      · right; linarith
      · left; linarith
    · have := Rep_neg h6
      convert this using 1
      ring
  · exact ⟨0, 0, hz g, hz g, le_refl _, le_refl _, fun r _ => le_total r 0, by simpa using hz w⟩
  · obtain ⟨a, c, h1, h2, _, h3, h4, h5, h6⟩ := neighbours_pos hp he h
    exact ⟨a, c, h1, h2, h3, h4, h5, h6⟩

theorem rep_wide {g w : Grid} (hp : g.p ≤ w.p) (he : w.emin ≤ g.emin) {r : ℝ} (h : g.Rep r) : w.Rep r := by
  obtain ⟨m, e, h1, h2, rfl⟩ := h
  exact ⟨m, e, h1.trans (pow_le_pow_right₀ (by norm_num) hp), he.trans h2, rfl⟩

/-- Rounding to the narrow grid gives a number nearest to the one rounded to the wide grid. -/
theorem RN_chain {g w : Grid} (hp : g.p < w.p) (he : w.emin < g.emin) (v : ℝ) {r : ℝ} (hr : g.Rep r) :
    |g.RN v - w.RN v| ≤ |r - w.RN v| := by
  obtain ⟨a, c, h1, h2, h3, h4, h5, h6⟩ := neighbours hp he v
  exact nearest_chain (S := g.Rep) (D := w.Rep) (fun _ => rep_wide hp.le he.le) h1 h2 h3 h4 h5 h6
    (rep_RN v) (fun _ h => RN_nearest h) (fun _ h => RN_nearest h) r hr

section
variable {T U : Type} [Elem T] [As T T] [FloatFns T] [IEEE T] [Elem U] [As U U] [FloatFns U] [IEEE U]

/-- The format `U` has more bits, smaller exponents and at least the range of `T`. -/
structure Wider (T U : Type) [Elem T] [As T T] [FloatFns T] [IEEE T] [Elem U] [As U U] [FloatFns U]
    [IEEE U] : Prop where
  bits : (IEEE.fmt T).mantissaBits < (IEEE.fmt U).mantissaBits
  exponent : (IEEE.fmt U).minExponent < (IEEE.fmt T).minExponent
  range : big (IEEE.fmt T) ≤ big (IEEE.fmt U)

theorem wider_double : Wider Float32.Model Float.Model where
  bits := by decide
  exponent := by decide
  range := by
    unfold big
    refine zpow_le_zpow_right₀ (by norm_num) ?_
    decide

theorem exists_wide (hW : Wider T U) {f : T} (hf : IsFinite f) : ∃ g : U, IsFinite g ∧ val g = val f :=
  exists_float (rep_wide hW.bits.le hW.exponent.le (rep_val f)) ((val_lt_big hf).trans_le hW.range)

theorem lt_big_of_between {lo hi : T} {r : ℝ} (hlo : IsFinite lo) (hhi : IsFinite hi) (h1 : val lo ≤ r)
    (h2 : r ≤ val hi) : |r| < big (IEEE.fmt T) := by
  have h3 := abs_lt.1 (val_lt_big hlo)
  have h4 := abs_lt.1 (val_lt_big hhi)
  rw [abs_lt]
  constructor <;> linarith

/-- The narrow float nearest to a number is nearest to the wide float nearest to the number. -/
theorem nearest_double (hW : Wider T U) {f : T} {g : U} {v : ℝ} (hf : Nearest f v) (hg : Nearest g v)
    (hv : InSpan T v) : Nearest f (val g) := by
  obtain ⟨lo, hi, hlo, hhi, h7, h8⟩ := hv
  by_cases hr : (grid (IEEE.fmt T)).Rep v
  · obtain ⟨f₀, h1, h2⟩ := exists_float (T := T) hr (lt_big_of_between hlo hhi h7 h8)
    obtain ⟨g₀, h3, h4⟩ := exists_wide hW h1
    rw [nearest_exact hg h3 (h4.trans h2)]
    exact hf
  · obtain ⟨a, c, h1, h2, h3, h4, h5, h6⟩ := neighbours (g := grid (IEEE.fmt T)) (w := grid (IEEE.fmt U))
      hW.bits hW.exponent v
    have hne : ∀ r, (grid (IEEE.fmt T)).Rep r → r ≠ v := fun r h e => hr (e ▸ h)
    have hal : val lo ≤ a := by
      rcases h5 _ (rep_val lo) with h | h
      · exact h
      · exact absurd (le_antisymm (h.trans h7) h4) (hne c h2)
    have hch : c ≤ val hi := by
      rcases h5 _ (rep_val hi) with h | h
      · exact absurd (le_antisymm h3 (h8.trans h)) (hne a h1)
      · exact h
    have ba := lt_big_of_between hlo hhi hal ((h3.trans h4).trans hch)
    have bc := lt_big_of_between hlo hhi (hal.trans (h3.trans h4)) hch
    obtain ⟨fa, ha1, ha2⟩ := exists_float (T := T) h1 ba
    obtain ⟨fc, hc1, hc2⟩ := exists_float (T := T) h2 bc
    obtain ⟨gm, hm1, hm2⟩ := exists_float (T := U) h6
      ((lt_big_of_between hlo hhi (by linarith) (by linarith)).trans_le hW.range)
    refine ⟨hf.1, fun y hy => ?_⟩
    refine nearest_chain (S := fun r => ∃ f : T, IsFinite f ∧ val f = r)
      (D := fun r => ∃ g : U, IsFinite g ∧ val g = r) ?_ ⟨fa, ha1, ha2⟩ ⟨fc, hc1, hc2⟩ h3 h4 ?_
      ⟨gm, hm1, hm2⟩ ⟨f, hf.1, rfl⟩ ?_ ?_ _ ⟨y, hy, rfl⟩
    · rintro r ⟨k, hk, rfl⟩; exact exists_wide hW hk
    · rintro r ⟨k, hk, rfl⟩; exact h5 _ (rep_val k)
    · rintro r ⟨k, hk, rfl⟩; exact hf.2 k hk
    · rintro r ⟨k, hk, rfl⟩; exact hg.2 k hk

/-- The wide float is in the span of the narrow format if the number is. -/
theorem inSpan_wide (hW : Wider T U) {g : U} {v : ℝ} (hg : Nearest g v) (hv : InSpan T v) :
    InSpan T (val g) := by
  obtain ⟨lo, hi, hlo, hhi, h7, h8⟩ := hv
  obtain ⟨lo', hlo1, hlo2⟩ := exists_wide hW hlo
  obtain ⟨hi', hhi1, hhi2⟩ := exists_wide hW hhi
  refine ⟨lo, hi, hlo, hhi, ?_, ?_⟩
  · have := hg.2 lo' hlo1
    rw [hlo2] at this
    by_contra h
    rw [abs_of_neg (by linarith), abs_of_nonpos (by linarith)] at this
    linarith
  · have := hg.2 hi' hhi1
    rw [hhi2] at this
    by_contra h
    rw [abs_of_pos (by linarith), abs_of_nonneg (by linarith)] at this
    linarith

/-- The floats of both formats for one rounded number -/
theorem pk_chain (hW : Wider T U) {u u' : UnpackedFloat} {v : ℝ} (h : Rounded (IEEE.fmt T) v u)
    (h' : Rounded (IEEE.fmt U) v u') (hg : IsFinite (IEEE.pk u' : U))
    (hv : InSpan T (val (IEEE.pk u' : U))) : Nearest (IEEE.pk u : T) (val (IEEE.pk u' : U)) := by
  have hb : |(grid (IEEE.fmt U)).RN v| < big (IEEE.fmt U) := by
    have h3 := uext_over IEEE.heb h'
    have hu : up (IEEE.pk u' : U) = over (IEEE.fmt U) u' := up_pk h'.canon
    by_contra hc
    rw [not_lt, le_abs] at hc
    have hp := big_pos (IEEE.fmt U)
    have h4 : ext (IEEE.pk u' : U) = rnd (IEEE.fmt U) v := by unfold ext; rw [hu]; exact h3.1
    have h5 := hg.ext
    rw [h4] at h5
    unfold rnd at h5
    split_ifs at h5 with h6 h7
    · simp at h5
    · simp at h5
    · rcases hc with hc | hc <;> linarith
  have hy := (pk_rounded (T := U) h' hb).2
  rw [hy] at hv ⊢
  have hch := fun r => RN_chain (g := grid (IEEE.fmt T)) (w := grid (IEEE.fmt U)) hW.bits hW.exponent v (r := r)
  obtain ⟨lo, hi, hlo, hhi, h7, h8⟩ := hv
  have h1 := hch _ (rep_val lo)
  have h2 := hch _ (rep_val hi)
  have hx := pk_rounded (T := T) h (lt_big_of_between hlo hhi
    (by
      by_contra hc
      rw [abs_of_neg (by linarith), abs_of_nonpos (by linarith)] at h1
      linarith)
    (by
      by_contra hc
      rw [abs_of_pos (by linarith), abs_of_nonneg (by linarith)] at h2
      linarith))
  refine ⟨hx.1, fun y _ => ?_⟩
  rw [hx.2]
  exact hch _ (rep_val y)
end

end Pbrt.Proof.TwoPrecisions
