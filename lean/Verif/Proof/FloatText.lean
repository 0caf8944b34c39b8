import Verif.Spec.FloatText
import Verif.Proof.Printer

/-!
# Lemmas on the shortest decimals
-/

namespace Pbrt.Proof

open Float.Model (UnpackedFloat Format)
open Pbrt.Spec

section
variable {fmt : Format} {m : ℕ} {e : ℤ} {hm : 0 < m}

theorem isRead_iff (hc : Canon fmt (.finite .positive m e hm)) {n d : ℕ} (hd : 0 < d) :
    isRead fmt m e n d = true ↔ (grid fmt).RN ((n : ℝ) / d) = m * 2 ^ e := by
  have hR : Rounded fmt ((n : ℝ) / d) (ratio fmt false n d) := by
    simpa using ratio_rounded fmt false n d hd
  have hq : (0 : ℝ) < m * 2 ^ e := mul_pos (by exact_mod_cast hm) (two_zpow_pos e)
  have h0 : (0 : ℝ) ≤ (n : ℝ) / d := by positivity
  unfold isRead
  generalize ratio fmt false n d = u at hR
  rw [← hR.val]
  constructor
  · intro h
    have hpos : 0 ≤ uval u := by rw [hR.val]; exact RN_nonneg h0
    cases u with
    | finite s m' e' h' =>
      simp only [Bool.decide_and, Bool.and_eq_true, decide_eq_true_eq] at h
      obtain ⟨rfl, rfl⟩ := h
      rw [uval_finite] at hpos ⊢
      cases s with
      | positive => simp [sgn]
      | negative => simp only [sgn] at hpos; linarith
    | _ => simp at h
  · intro h
    have hx : (0 : ℝ) < (n : ℝ) / d := by
      rcases h0.lt_or_eq with h1 | h1
      · exact h1
      · rw [hR.val, ← h1, RN_zero] at h; linarith
    have hs := hR.pos hx
    have : u = .finite .positive m e hm := by
      refine canon_unique hR.canon hc hR.fin trivial ?_ ?_
      · rw [h, uval_finite]; simp [sgn]
      · cases u <;> simp_all [HasSign, usign]
    rw [this]
    simp

theorem readsAt_iff (hc : Canon fmt (.finite .positive m e hm)) {s : ℤ} {c : ℕ} :
    readsAt fmt m e s c = true ↔ (grid fmt).RN ((c : ℝ) * 10 ^ s) = m * 2 ^ e := by
  unfold readsAt
  rw [isRead_iff hc (by positivity)]
  have : ((c * 10 ^ s.toNat : ℕ) : ℝ) / (10 ^ (-s).toNat : ℕ) = c * 10 ^ s := by
    push_cast
    rcases le_total 0 s with h | h
    · rw [show (-s).toNat = 0 by omega]
      conv_rhs => rw [show s = (s.toNat : ℤ) by omega, zpow_natCast]
      simp
    · rw [show s.toNat = 0 by omega]
      conv_rhs => rw [show s = -((-s).toNat : ℤ) by omega, zpow_neg, zpow_natCast]
      simp [div_eq_mul_inv]
  rw [this]

theorem RN_self (hc : Canon fmt (.finite .positive m e hm)) : (grid fmt).RN ((m : ℝ) * 2 ^ e) = m * 2 ^ e := by
  have := RN_uval hc
  rwa [uval_finite, show sgn .positive = 1 from rfl, one_mul] at this

/-- What lies between the float and a number that reads as the float reads as the float. -/
theorem between_above (hc : Canon fmt (.finite .positive m e hm)) {y z : ℝ} (h1 : m * 2 ^ e ≤ y) (h2 : y ≤ z)
    (h : (grid fmt).RN z = m * 2 ^ e) : (grid fmt).RN y = m * 2 ^ e :=
  le_antisymm (h ▸ RN_mono h2) ((RN_self hc).symm.le.trans (RN_mono h1))

theorem between_below (hc : Canon fmt (.finite .positive m e hm)) {y z : ℝ} (h1 : z ≤ y) (h2 : y ≤ m * 2 ^ e)
    (h : (grid fmt).RN z = m * 2 ^ e) : (grid fmt).RN y = m * 2 ^ e :=
  le_antisymm ((RN_mono h2).trans (RN_self hc).le) (h ▸ RN_mono h1)

theorem div_place (m : ℕ) (e s : ℤ) :
    ((m * 2 ^ e.toNat * 10 ^ (-s).toNat : ℕ) : ℝ) = m * 2 ^ e / 10 ^ s * (2 ^ (-e).toNat * 10 ^ s.toNat : ℕ) := by
  have key : ∀ (b : ℝ), 0 < b → ∀ k : ℤ, b ^ k.toNat = b ^ k * b ^ (-k).toNat := fun b hb k => by
    rw [← zpow_natCast, ← zpow_natCast, ← zpow_add₀ hb.ne']
    congr 1; omega
  push_cast
  rw [key 2 (by norm_num) e, key 10 (by norm_num) s]
  have : (10 : ℝ) ^ s ≠ 0 := (zpow_pos (by norm_num) s).ne'
  field_simp

/-- The multiples of `10 ^ s` around the float -/
theorem place_bounds (m : ℕ) (e s : ℤ) :
    let n := m * 2 ^ e.toNat * 10 ^ (-s).toNat
    let d := 2 ^ (-e).toNat * 10 ^ s.toNat
    ((n / d : ℕ) : ℝ) * 10 ^ s ≤ m * 2 ^ e ∧ (m : ℝ) * 2 ^ e < ((n / d : ℕ) + 1 : ℝ) * 10 ^ s ∧
    (d ≤ 2 * (n % d) → ((n / d : ℕ) + 1 : ℝ) * 10 ^ s - m * 2 ^ e ≤ m * 2 ^ e - ((n / d : ℕ) : ℝ) * 10 ^ s) ∧
    (¬ d ≤ 2 * (n % d) → m * 2 ^ e - ((n / d : ℕ) : ℝ) * 10 ^ s ≤ ((n / d : ℕ) + 1 : ℝ) * 10 ^ s - m * 2 ^ e) := by
  intro n d
  have hn : (n : ℝ) = m * 2 ^ e / 10 ^ s * d := div_place m e s
  have hd : 0 < d := by positivity
  have hd' : (0 : ℝ) < d := by exact_mod_cast hd
  have ht : (0 : ℝ) < 10 ^ s := zpow_pos (by norm_num) s
  have hq : (m : ℝ) * 2 ^ e = n / d * 10 ^ s := by rw [hn]; field_simp
  have hdm : (n : ℝ) = d * (n / d : ℕ) + (n % d : ℕ) := by exact_mod_cast (Nat.div_add_mod n d).symm
  have hlt : ((n % d : ℕ) : ℝ) < d := by exact_mod_cast Nat.mod_lt n hd
  have h0 : (0 : ℝ) ≤ ((n % d : ℕ) : ℝ) := by positivity
  have hr : (n : ℝ) / d = (n / d : ℕ) + ((n % d : ℕ) : ℝ) / d := by
    conv_lhs => rw [hdm]
    field_simp
  generalize ((n / d : ℕ) : ℝ) = c at *
  have hf0 : 0 ≤ ((n % d : ℕ) : ℝ) / d := by positivity
  have hf1 : ((n % d : ℕ) : ℝ) / d < 1 := by rwa [div_lt_one hd']
  rw [hq, hr]
  refine ⟨by nlinarith, by nlinarith, fun h => ?_, fun h => ?_⟩
  · have : (1 : ℝ) / 2 ≤ ((n % d : ℕ) : ℝ) / d := by
      rw [div_le_div_iff₀ (by norm_num) hd']
      have : (d : ℝ) ≤ 2 * (n % d : ℕ) := by exact_mod_cast h
      linarith
    nlinarith
  · have : ((n % d : ℕ) : ℝ) / d ≤ 1 / 2 := by
      rw [div_le_div_iff₀ hd' (by norm_num)]
      have : (2 : ℝ) * (n % d : ℕ) ≤ d := by exact_mod_cast (not_le.1 h).le
      linarith
    nlinarith

/-- If any multiple of `10 ^ s` reads as the float, `nearPlace` finds the closest one that does. -/
theorem nearPlace_spec (hc : Canon fmt (.finite .positive m e hm)) (s : ℤ) :
    match nearPlace fmt m e s with
    | some c => (grid fmt).RN ((c : ℝ) * 10 ^ s) = m * 2 ^ e ∧
        ∀ c' : ℕ, (grid fmt).RN ((c' : ℝ) * 10 ^ s) = m * 2 ^ e →
          |(c : ℝ) * 10 ^ s - m * 2 ^ e| ≤ |(c' : ℝ) * 10 ^ s - m * 2 ^ e|
    | none => ∀ c' : ℕ, (grid fmt).RN ((c' : ℝ) * 10 ^ s) ≠ m * 2 ^ e := by
  obtain ⟨h1, h2, h3, h4⟩ := place_bounds m e s
  unfold nearPlace
  dsimp only
  generalize m * 2 ^ e.toNat * 10 ^ (-s).toNat = n at *
  generalize 2 ^ (-e).toNat * 10 ^ s.toNat = d at *
  have ht : (0 : ℝ) < 10 ^ s := zpow_pos (by norm_num) s
  have side : ∀ c' : ℕ, (c' : ℝ) * 10 ^ s ≤ (n / d : ℕ) * 10 ^ s ∨ ((n / d : ℕ) + 1 : ℝ) * 10 ^ s ≤ c' * 10 ^ s := fun c' => by
    rcases Nat.lt_or_ge c' (n / d + 1) with h | h
    · exact .inl (mul_le_mul_of_nonneg_right (by exact_mod_cast Nat.lt_succ_iff.1 h) ht.le)
    · exact .inr (mul_le_mul_of_nonneg_right (by exact_mod_cast h) ht.le)
  have bA := fun {y z : ℝ} => between_above hc (y := y) (z := z)
  have bB := fun {y z : ℝ} => between_below hc (y := y) (z := z)
  have lo := readsAt_iff hc (s := s) (c := n / d)
  have hi := readsAt_iff hc (s := s) (c := n / d + 1)
  push_cast at hi
  generalize hL : ((n / d : ℕ) : ℝ) * 10 ^ s = L at *
  have hcast : ((n / d + 1 : ℕ) : ℝ) * 10 ^ s = ((n / d : ℕ) + 1 : ℝ) * 10 ^ s := by push_cast; ring
  generalize ((n / d : ℕ) + 1 : ℝ) * 10 ^ s = U at *
  generalize (m : ℝ) * 2 ^ e = q at *
  have aL : |L - q| = q - L := by rw [abs_of_nonpos (by linarith)]; ring
  have aU : |U - q| = U - q := abs_of_pos (by linarith)
  have close : ∀ c' : ℕ, |L - q| ≤ |(c' : ℝ) * 10 ^ s - q| ∨ |U - q| ≤ |(c' : ℝ) * 10 ^ s - q| := fun c' => by
    rcases side c' with h | h
    · left; rw [aL, abs_of_nonpos (by linarith)]; linarith
    · right; rw [aU, abs_of_pos (by linarith)]; linarith
  have lower : ¬ (grid fmt).RN L = q → ∀ c' : ℕ, (grid fmt).RN ((c' : ℝ) * 10 ^ s) = q → U ≤ (c' : ℝ) * 10 ^ s := fun hL c' h => by
    rcases side c' with h' | h'
    · exact absurd (bB h' h1 h) hL
    · exact h'
  have upper : ¬ (grid fmt).RN U = q → ∀ c' : ℕ, (grid fmt).RN ((c' : ℝ) * 10 ^ s) = q → (c' : ℝ) * 10 ^ s ≤ L := fun hU c' h => by
    rcases side c' with h' | h'
    · exact h'
    · exact absurd (bA h2.le h' h) hU
  simp only [lo, hi]
  split_ifs with g1 g2 g2
  · refine ⟨hcast ▸ g2.1, fun c' _ => ?_⟩
    rw [hcast]
    have := h3 g2.2
    rcases close c' with h | h
    · rw [aU]; rw [aL] at h; linarith
    · exact h
  · refine ⟨by rw [hL]; exact g1, fun c' h => ?_⟩
    rw [hL]
    rcases close c' with h' | h'
    · exact h'
    · by_cases hU : (grid fmt).RN U = q
      · have := h4 fun hd => g2 ⟨hU, hd⟩
        rw [aL]; rw [aU] at h'; linarith
      · have := upper hU c' h
        rw [aL, abs_of_nonpos (by linarith)]; linarith
  · refine ⟨hcast ▸ g2, fun c' h => ?_⟩
    have := lower g1 c' h
    rw [hcast, aU, abs_of_pos (by linarith)]; linarith
  · intro c' h
    rcases side c' with h' | h'
    · exact absurd (bB h' h1 h) g1
    · exact absurd (bA h2.le h' h) g2

theorem lt_topPlace (m : ℕ) (e : ℤ) : (m : ℝ) * 2 ^ e < 10 ^ (topPlace m e : ℤ) := by
  have hn := place_bounds m e 0
  simp only [Int.toNat_zero, neg_zero, pow_zero, mul_one, zpow_zero] at hn
  refine hn.2.1.trans_le ?_
  unfold topPlace
  generalize m * 2 ^ e.toNat / 2 ^ (-e).toNat = n
  rw [zpow_natCast]
  have h1 : n + 1 ≤ 2 ^ (n.log2 + 1) := Nat.lt_log2_self
  have h2 : 2 ^ (n.log2 + 1) ≤ 10 ^ (n.log2 / 3 + 1) := calc
    2 ^ (n.log2 + 1) ≤ 2 ^ (3 * (n.log2 / 3 + 1)) := Nat.pow_le_pow_right (by norm_num) (by omega)
    _ = 8 ^ (n.log2 / 3 + 1) := by rw [pow_mul]; norm_num
    _ ≤ 10 ^ (n.log2 / 3 + 1) := Nat.pow_le_pow_left (by norm_num) _
  exact_mod_cast h1.trans h2

theorem nearPlace_isSome (hc : Canon fmt (.finite .positive m e hm)) {s : ℤ} {c : ℕ}
    (h : (grid fmt).RN ((c : ℝ) * 10 ^ s) = m * 2 ^ e) : (nearPlace fmt m e s).isSome = true := by
  have := nearPlace_spec hc s
  cases hn : nearPlace fmt m e s with
  | some => rfl
  | none => rw [hn] at this; exact absurd h (this c)

theorem exact_place (m : ℕ) (e : ℤ) :
    ((m * 2 ^ e.toNat * 5 ^ (-e).toNat : ℕ) : ℝ) * 10 ^ (-((-e).toNat : ℤ)) = m * 2 ^ e := by
  push_cast
  rw [zpow_neg, zpow_natCast]
  have h : (2 : ℝ) ^ e = 2 ^ e.toNat / 2 ^ (-e).toNat := by
    rcases le_total 0 e with h | h
    · rw [show (-e).toNat = 0 by omega]
      conv_lhs => rw [show e = (e.toNat : ℤ) by omega, zpow_natCast]
      simp
    · rw [show e.toNat = 0 by omega]
      conv_lhs => rw [show e = -((-e).toNat : ℤ) by omega, zpow_neg, zpow_natCast]
      simp
  rw [h, show (10 : ℝ) = 2 * 5 by norm_num, mul_pow]
  field_simp

/-- The shortest decimal reads as the float, no multiple of a higher power of ten does, and no multiple of the
    same power that does is closer. -/
theorem shortest_spec (hc : Canon fmt (.finite .positive m e hm)) :
    (grid fmt).RN (((shortest fmt m e).1 : ℝ) * 10 ^ (shortest fmt m e).2) = m * 2 ^ e ∧
    (∀ (c' : ℕ) (s' : ℤ), (shortest fmt m e).2 < s' → (grid fmt).RN ((c' : ℝ) * 10 ^ s') ≠ m * 2 ^ e) ∧
    (∀ c' : ℕ, (grid fmt).RN ((c' : ℝ) * 10 ^ (shortest fmt m e).2) = m * 2 ^ e →
      |((shortest fmt m e).1 : ℝ) * 10 ^ (shortest fmt m e).2 - m * 2 ^ e| ≤
        |(c' : ℝ) * 10 ^ (shortest fmt m e).2 - m * 2 ^ e|) := by
  have hq : (0 : ℝ) < m * 2 ^ e := mul_pos (by exact_mod_cast hm) (two_zpow_pos e)
  have hlast : (nearPlace fmt m e (topPlace m e - (topPlace m e + (-e).toNat : ℕ))).isSome = true := by
    refine nearPlace_isSome hc (c := m * 2 ^ e.toNat * 5 ^ (-e).toNat) ?_
    rw [show ((topPlace m e : ℤ) - (topPlace m e + (-e).toNat : ℕ)) = -((-e).toNat : ℤ) by push_cast; ring, exact_place,
      RN_self hc]
  obtain ⟨i, hi⟩ : ∃ i, (List.range (topPlace m e + (-e).toNat + 1)).find?
      (fun (i : ℕ) => (nearPlace fmt m e (topPlace m e - i)).isSome) = some i := by
    cases h : (List.range (topPlace m e + (-e).toNat + 1)).find?
      (fun (i : ℕ) => (nearPlace fmt m e (topPlace m e - i)).isSome) with
    | some i => exact ⟨i, rfl⟩
    | none =>
      have := List.find?_range_eq_none.1 h _ (Nat.lt_succ_self _)
      rw [hlast] at this
      simp at this
  have hp : placesDown fmt m e = i := by unfold placesDown; rw [hi]; rfl
  obtain ⟨h1, -, h3⟩ := List.find?_range_eq_some.1 hi
  unfold shortest
  rw [hp]
  dsimp only
  have hs := nearPlace_spec hc (topPlace m e - i)
  cases hn : nearPlace fmt m e (topPlace m e - i) with
  | none => rw [hn] at h1; simp at h1
  | some c =>
    rw [hn] at hs
    refine ⟨hs.1, fun c' s' h hr => ?_, hs.2⟩
    rcases le_or_gt s' (topPlace m e) with ht | ht
    · have := h3 (topPlace m e - s').toNat (by omega)
      rw [show (topPlace m e : ℤ) - (topPlace m e - s').toNat = s' by omega, nearPlace_isSome hc hr] at this
      simp at this
    · have hc' : 1 ≤ c' := by
        rcases Nat.eq_zero_or_pos c' with rfl | h
        · rw [Nat.cast_zero, zero_mul, RN_zero] at hr; linarith
        · exact h
      have a1 : (10 : ℝ) ^ ((topPlace m e : ℤ) + 1) ≤ 10 ^ s' := zpow_le_zpow_right₀ (by norm_num) (by omega)
      rw [zpow_add_one₀ (by norm_num)] at a1
      have a2 : (1 : ℝ) ≤ c' := by exact_mod_cast hc'
      have a3 : (0 : ℝ) < 10 ^ s' := zpow_pos (by norm_num) s'
      have a4 := lt_topPlace m e
      have a5 : (10 : ℝ) ^ s' ≤ c' * 10 ^ s' := by nlinarith
      have rep : (grid fmt).Rep (2 * ((m : ℝ) * 2 ^ e)) := by
        have := hc.rep
        rw [uval_finite, show sgn .positive = 1 from rfl, one_mul] at this
        obtain ⟨m', e', b1, b2, b3⟩ := this
        refine ⟨m', e' + 1, b1, by omega, ?_⟩
        rw [b3, zpow_add_one₀ (by norm_num)]
        ring
      have := RN_nearest (x := (c' : ℝ) * 10 ^ s') rep
      rw [hr, abs_of_nonpos (by linarith), abs_of_nonpos (by linarith)] at this
      linarith

theorem shortest_pos (hc : Canon fmt (.finite .positive m e hm)) : 0 < (shortest fmt m e).1 := by
  have h := (shortest_spec hc).1
  have hq : (0 : ℝ) < m * 2 ^ e := mul_pos (by exact_mod_cast hm) (two_zpow_pos e)
  rcases Nat.eq_zero_or_pos (shortest fmt m e).1 with h0 | h0
  · rw [h0, Nat.cast_zero, zero_mul, RN_zero] at h; linarith
  · exact h0

theorem shortest_last (hc : Canon fmt (.finite .positive m e hm)) : ¬ 10 ∣ (shortest fmt m e).1 := by
  rintro ⟨k, hk⟩
  obtain ⟨h1, h2, -⟩ := shortest_spec hc
  refine h2 k _ (lt_add_one _) ?_
  rw [← h1, hk, zpow_add_one₀ (by norm_num)]
  push_cast
  ring_nf

end

section
variable {fmt : Format} {m : ℕ} {e : ℤ} {hm : 0 < m}

/-- Another number of the format differs from the float by at least the last of `p` bits. -/
theorem canon_gap (hc : Canon fmt (.finite .positive m e hm)) {r : ℝ} {n e' : ℤ} (hn : |n| ≤ 2 ^ fmt.mantissaBits - 1)
    (he' : fmt.minExponent ≤ e') (hr : r = n * 2 ^ e') (h : r ≠ m * 2 ^ e) :
    (m : ℝ) * 2 ^ e ≤ 2 ^ fmt.mantissaBits * |r - m * 2 ^ e| := by
  have hp1 : 1 ≤ fmt.mantissaBits := by unfold Format.mantissaBits; omega
  obtain ⟨c1, c2, c3⟩ := hc
  have hmR : (m : ℝ) ≤ 2 ^ fmt.mantissaBits := by exact_mod_cast c1.le
  have hue := two_zpow_pos e
  have hP : (1 : ℝ) ≤ 2 ^ fmt.mantissaBits := one_le_pow₀ (by norm_num)
  by_cases hle : e ≤ e'
  · obtain ⟨k, hk⟩ := zpow_mul_of_le hle
    have ht : r - m * 2 ^ e = ((n * k - m : ℤ) : ℝ) * 2 ^ e := by rw [hr, hk]; push_cast; ring
    have ht0 : n * k - m ≠ 0 := fun h0 => by
      rw [h0, Int.cast_zero, zero_mul, sub_eq_zero] at ht
      exact h ht
    have h1 : (1 : ℝ) ≤ |((n * k - m : ℤ) : ℝ)| := by exact_mod_cast Int.one_le_abs ht0
    rw [ht, abs_mul, abs_of_pos hue]
    nlinarith [mul_le_mul_of_nonneg_right h1 hue.le, mul_le_mul_of_nonneg_right hmR hue.le,
      mul_le_mul_of_nonneg_left (mul_le_mul_of_nonneg_right h1 hue.le) (by linarith : (0 : ℝ) ≤ 2 ^ fmt.mantissaBits)]
  · have hm2 : 2 ^ (fmt.mantissaBits - 1) ≤ m := c3.resolve_right (by omega)
    have hmR2 : (2 : ℝ) ^ fmt.mantissaBits ≤ 2 * m := by
      have : 2 ^ fmt.mantissaBits ≤ 2 * m := by
        rw [show fmt.mantissaBits = fmt.mantissaBits - 1 + 1 by omega, pow_succ]
        omega
      exact_mod_cast this
    have hnR : |(n : ℝ)| ≤ 2 ^ fmt.mantissaBits - 1 := by exact_mod_cast hn
    have hu1 := two_zpow_pos (e - 1)
    have hgb : |r| ≤ (2 ^ fmt.mantissaBits - 1) * 2 ^ (e - 1) := by
      rw [hr, abs_mul, abs_of_pos (two_zpow_pos e')]
      exact mul_le_mul hnR (zpow_le_zpow_right₀ (by norm_num) (by omega)) (two_zpow_pos e').le
        ((abs_nonneg _).trans hnR)
    have he2 : (2 : ℝ) ^ e = 2 * 2 ^ (e - 1) := by
      rw [show e = 1 + (e - 1) by ring, zpow_add₀ (by norm_num)]
      simp
    have h3 : m * 2 ^ e - r ≤ |r - m * 2 ^ e| := by rw [abs_sub_comm]; exact le_abs_self _
    have h4 := (abs_le.1 hgb).2
    rw [he2] at h3 ⊢
    generalize (2 : ℝ) ^ (e - 1) = w at *
    generalize (2 : ℝ) ^ fmt.mantissaBits = P at *
    have h5 : (2 * m - P + 1) * w ≤ |r - m * (2 * w)| := by nlinarith
    have h6 : 2 * (m : ℝ) ≤ P * (2 * m - P + 1) := by nlinarith
    nlinarith [mul_le_mul_of_nonneg_left h5 (by linarith : (0 : ℝ) ≤ P), mul_le_mul_of_nonneg_right h6 hu1.le]

/-- A decimal close to the float reads as the float. -/
theorem reads_close (hc : Canon fmt (.finite .positive m e hm)) {c : ℕ} {s : ℤ}
    (h : 2 * 2 ^ fmt.mantissaBits * |(c : ℝ) * 10 ^ s - m * 2 ^ e| < m * 2 ^ e) :
    (grid fmt).RN ((c : ℝ) * 10 ^ s) = m * 2 ^ e := by
  by_contra hne
  have hrat : ((c * 10 ^ s.toNat : ℕ) : ℝ) / (10 ^ (-s).toNat : ℕ) = c * 10 ^ s := by
    push_cast
    rcases le_total 0 s with h | h
    · rw [show (-s).toNat = 0 by omega]
      conv_rhs => rw [show s = (s.toNat : ℤ) by omega, zpow_natCast]
      simp
    · rw [show s.toNat = 0 by omega]
      conv_rhs => rw [show s = -((-s).toNat : ℤ) by omega, zpow_neg, zpow_natCast]
      simp [div_eq_mul_inv]
  have hR : Rounded fmt ((c : ℝ) * 10 ^ s) (ratio fmt false (c * 10 ^ s.toNat) (10 ^ (-s).toNat)) := by
    rw [← hrat]
    simpa using ratio_rounded fmt false (c * 10 ^ s.toNat) (10 ^ (-s).toNat) (by positivity)
  generalize ratio fmt false (c * 10 ^ s.toNat) (10 ^ (-s).toNat) = u at hR
  obtain ⟨n, e', hn, he', hv⟩ : ∃ n e' : ℤ, |n| ≤ 2 ^ fmt.mantissaBits - 1 ∧ fmt.minExponent ≤ e' ∧ uval u = n * 2 ^ e' := by
    have h1 : (1 : ℤ) ≤ 2 ^ fmt.mantissaBits := one_le_pow₀ (by norm_num)
    have hu := hR.canon
    have hf := hR.fin
    cases u with
    | zero s => exact ⟨0, fmt.minExponent, by rw [abs_zero]; omega, le_refl _, by simp [uval]⟩
    | finite s' m' e' h' =>
      have h2 : (m' : ℤ) < 2 ^ fmt.mantissaBits := by exact_mod_cast hu.1
      rw [uval_finite]
      cases s'
      · exact ⟨-m', e', by rw [abs_neg, abs_of_nonneg (by omega)]; omega, hu.2.1, by simp [sgn]⟩
      · exact ⟨m', e', by rw [abs_of_nonneg (by omega)]; omega, hu.2.1, by simp [sgn]⟩
    | _ => exact hf.elim
  have hgap := canon_gap hc hn he' hv (by rw [hR.val]; exact hne)
  have hrep := hc.rep
  rw [uval_finite, show sgn .positive = 1 from rfl, one_mul] at hrep
  have hnear := RN_nearest (x := (c : ℝ) * 10 ^ s) hrep
  rw [← hR.val, abs_sub_comm ((m : ℝ) * 2 ^ e)] at hnear
  have htri : |uval u - m * 2 ^ e| ≤ |uval u - (c : ℝ) * 10 ^ s| + |(c : ℝ) * 10 ^ s - m * 2 ^ e| := abs_sub_le _ _ _
  have hP : (0 : ℝ) < 2 ^ fmt.mantissaBits := by positivity
  nlinarith

theorem reads_lt (hc : Canon fmt (.finite .positive m e hm)) {z : ℝ} (h : (grid fmt).RN z = m * 2 ^ e) : z < 2 * (m * 2 ^ e) := by
  have hq : (0 : ℝ) < m * 2 ^ e := mul_pos (by exact_mod_cast hm) (two_zpow_pos e)
  have rep : (grid fmt).Rep (2 * ((m : ℝ) * 2 ^ e)) := by
    have := hc.rep
    rw [uval_finite, show sgn .positive = 1 from rfl, one_mul] at this
    obtain ⟨m', e', b1, b2, b3⟩ := this
    refine ⟨m', e' + 1, b1, by omega, ?_⟩
    rw [b3, zpow_add_one₀ (by norm_num)]
    ring
  by_contra hcon
  have hcon := not_lt.1 hcon
  have := RN_nearest (x := z) rep
  rw [h, abs_of_nonpos (by linarith), abs_of_nonpos (by linarith)] at this
  linarith

/-- One digit more than `2^p` has is enough. -/
theorem shortest_digits (hc : Canon fmt (.finite .positive m e hm)) {N : ℕ} (hN : 2 ^ fmt.mantissaBits < 10 ^ N) :
    (shortest fmt m e).1 < 10 ^ (N + 1) := by
  have hq : (0 : ℝ) < m * 2 ^ e := mul_pos (by exact_mod_cast hm) (two_zpow_pos e)
  obtain ⟨g1, g2, -⟩ := shortest_spec hc
  set k : ℤ := Int.log 10 ((m : ℝ) * 2 ^ e) with hk
  have k1 : (10 : ℝ) ^ k ≤ m * 2 ^ e := by exact_mod_cast Int.zpow_log_le_self (b := 10) (by norm_num) hq
  have k2 : (m : ℝ) * 2 ^ e < 10 ^ (k + 1) := by exact_mod_cast Int.lt_zpow_succ_log_self (b := 10) (by norm_num) ((m : ℝ) * 2 ^ e)
  have ht : (0 : ℝ) < 10 ^ (k - N) := zpow_pos (by norm_num) _
  have hkN : (10 : ℝ) ^ k = 10 ^ N * 10 ^ (k - N) := by
    rw [← zpow_natCast, ← zpow_add₀ (by norm_num)]; congr 1; ring
  have hNR : (2 : ℝ) ^ fmt.mantissaBits < 10 ^ N := by exact_mod_cast hN
  -- the nearest multiple of `10 ^ (k - N)`
  set y : ℝ := m * 2 ^ e / 10 ^ (k - N) with hy
  have hy0 : 0 < y := div_pos hq ht
  have hyq : y * 10 ^ (k - N) = m * 2 ^ e := by rw [hy]; field_simp
  obtain ⟨c', hc'⟩ : ∃ c' : ℕ, |(c' : ℝ) - y| ≤ 1 / 2 := by
    refine ⟨(round y).toNat, ?_⟩
    have h0 : 0 ≤ round y := by rw [round_eq]; exact Int.floor_nonneg.2 (by linarith)
    have : ((round y).toNat : ℝ) = (round y : ℝ) := by exact_mod_cast Int.toNat_of_nonneg h0
    rw [this, abs_sub_comm]
    exact abs_sub_round y
  have hdiff : |(c' : ℝ) * 10 ^ (k - N) - m * 2 ^ e| ≤ 10 ^ (k - N) / 2 := by
    rw [← hyq, ← sub_mul, abs_mul, abs_of_pos ht]
    nlinarith
  have hread := reads_close hc (c := c') (s := k - N) (by
    have hP : (0 : ℝ) < 2 ^ fmt.mantissaBits := by positivity
    calc 2 * 2 ^ fmt.mantissaBits * |(c' : ℝ) * 10 ^ (k - N) - m * 2 ^ e|
        ≤ 2 * 2 ^ fmt.mantissaBits * (10 ^ (k - N) / 2) := mul_le_mul_of_nonneg_left hdiff (by positivity)
      _ = 2 ^ fmt.mantissaBits * 10 ^ (k - N) := by ring
      _ < 10 ^ N * 10 ^ (k - N) := mul_lt_mul_of_pos_right hNR ht
      _ ≤ m * 2 ^ e := by rw [← hkN]; exact k1)
  have hplace : k - N ≤ (shortest fmt m e).2 := not_lt.1 fun h => g2 c' _ h hread
  by_contra hge
  have hge' : (10 : ℝ) ^ (N + 1) ≤ (shortest fmt m e).1 := by exact_mod_cast not_lt.1 hge
  -- then `10 ^ (k + 1)` would read as the float, and end at a higher place
  have hs : (10 : ℝ) ^ (k - N) ≤ 10 ^ (shortest fmt m e).2 := zpow_le_zpow_right₀ (by norm_num) hplace
  have htop : (10 : ℝ) ^ (k + 1) ≤ (shortest fmt m e).1 * 10 ^ (shortest fmt m e).2 := by
    rw [show k + 1 = ((N + 1 : ℕ) : ℤ) + (k - N) by push_cast; ring, zpow_add₀ (by norm_num), zpow_natCast]
    exact mul_le_mul hge' hs ht.le (by positivity)
  have hmid := between_above hc k2.le htop g1
  have hlast : (shortest fmt m e).2 < k + 1 := by
    by_contra hcon
    have h1 : (10 : ℝ) ^ (k + 1) ≤ 10 ^ (shortest fmt m e).2 := zpow_le_zpow_right₀ (by norm_num) (not_lt.1 hcon)
    have h3 : (10 : ℝ) * 10 ^ (k + 1) ≤ (shortest fmt m e).1 * 10 ^ (shortest fmt m e).2 := by
      refine mul_le_mul ?_ h1 (zpow_pos (by norm_num) _).le (by positivity)
      refine le_trans ?_ hge'
      exact le_self_pow₀ (by norm_num) (by omega)
    have := reads_lt hc g1
    linarith
  exact g2 1 _ hlast (by rw [Nat.cast_one, one_mul]; exact hmid)

end

/-- The comparison of the number of digits is a comparison of numbers. -/
theorem isExtreme_iff {c : ℕ} (hc : 0 < c) (s : ℤ) :
    isExtreme c s = true ↔ (c : ℝ) * 10 ^ s < 10 ^ (-4 : ℤ) ∨ (10 : ℝ) ^ (16 : ℤ) ≤ c * 10 ^ s := by
  have lt : ∀ k : ℤ, s + (Nat.toDigits 10 c).length ≤ k ↔ (c : ℝ) * 10 ^ s < 10 ^ k := fun k => by
    have ht : (0 : ℝ) < 10 ^ s := zpow_pos (by norm_num) s
    have hl := Nat.length_toDigits_pos (b := 10) (n := c)
    rw [show (10 : ℝ) ^ k = 10 ^ (k - s) * 10 ^ s by rw [← zpow_add₀ (by norm_num)]; congr 1; ring,
      mul_lt_mul_iff_left₀ ht]
    rcases lt_or_ge 0 (k - s) with h | h
    · have := Nat.length_toDigits_le_iff (b := 10) (n := c) (k := (k - s).toNat) (by norm_num) (by omega)
      rw [show (10 : ℝ) ^ (k - s) = ((10 ^ (k - s).toNat : ℕ) : ℝ) by
        push_cast; rw [← zpow_natCast]; congr 1; omega, Nat.cast_lt, ← this]
      omega
    · have h1 : (10 : ℝ) ^ (k - s) ≤ 1 := zpow_le_one_of_nonpos₀ (by norm_num) h
      have h2 : (1 : ℝ) ≤ c := by exact_mod_cast hc
      constructor
      · intro; omega
      · intro; linarith
  unfold isExtreme
  have h1 := lt (-4)
  have h2 := not_congr (lt 16)
  rw [not_lt] at h2
  rw [← h1, ← h2]
  simp only [Bool.decide_or, Bool.or_eq_true, decide_eq_true_eq]
  omega

theorem plainDigits_spec (c : ℕ) (s : ℤ) :
    (∀ x ∈ (plainDigits c s).1 ++ (plainDigits c s).2, IsDigit x) ∧ (plainDigits c s).1 ≠ [] ∧ (plainDigits c s).2 ≠ [] ∧
    (decVal ((plainDigits c s).1 ++ (plainDigits c s).2) : ℝ) / (10 ^ (plainDigits c s).2.length : ℕ) = c * 10 ^ s := by
  unfold plainDigits
  by_cases hs : 0 ≤ s
  · rw [if_pos hs]
    obtain ⟨h1, h2, h3⟩ := intText_digits 0 (c * 10 ^ s.toNat)
    simp only [List.replicate_zero, List.nil_append] at h1 h2 h3
    refine ⟨?_, h1, by simp, ?_⟩
    · intro x hx
      rcases List.mem_append.1 hx with hx | hx
      · exact h2 x hx
      · rw [List.mem_singleton.1 hx]; unfold IsDigit; decide
    · have e1 : decVal (Nat.toDigits 10 (c * 10 ^ s.toNat) ++ ['0']) = 10 * (c * 10 ^ s.toNat) := by
        conv_rhs => rw [← h3]
        simp [decVal]
      rw [e1]
      conv_rhs => rw [show s = (s.toNat : ℤ) by omega, zpow_natCast]
      push_cast
      simp
  · rw [if_neg hs]
    obtain ⟨h1, h2, h3, h4⟩ := pointDigits_spec (-s).toNat c
    refine ⟨h1, h2, fun h => ?_, ?_⟩
    · rw [h] at h3; simp at h3; omega
    · rw [h4, h3]
      conv_rhs => rw [show s = -((-s).toNat : ℤ) by omega, zpow_neg, zpow_natCast]
      push_cast
      rfl

section
variable {T : Type} [Elem T] [As T T] [FloatFns T] [IEEE T]

local notation "𝔽" => IEEE.fmt T

theorem canon_pos {f : T} {s : UnpackedFloat.Sign} {m : ℕ} {e : ℤ} {hm : 0 < m} (hu : up f = .finite s m e hm) :
    Canon 𝔽 (.finite .positive m e hm) := by
  have := up_canon f
  rw [hu] at this
  exact this

/-- A fraction that rounds to a float is read as that float, with its sign. -/
theorem pk_ratio {f : T} {s : UnpackedFloat.Sign} {m : ℕ} {e : ℤ} {hm : 0 < m} (hu : up f = .finite s m e hm) {n d : ℕ}
    (hd : 0 < d) (h : (grid 𝔽).RN ((n : ℝ) / d) = m * 2 ^ e) :
    (IEEE.pk (ratio 𝔽 (floatSign s).isMinus n d) : T) = f := by
  have hq : (0 : ℝ) < m * 2 ^ e := mul_pos (by exact_mod_cast hm) (two_zpow_pos e)
  have hx : (0 : ℝ) < (n : ℝ) / d := by
    rcases (show (0 : ℝ) ≤ (n : ℝ) / d by positivity).lt_or_eq with h1 | h1
    · exact h1
    · rw [← h1, RN_zero] at h; linarith
  have hR := ratio_rounded 𝔽 (floatSign s).isMinus n d hd
  have hf := up_canon f
  have hr := up_range f
  rw [hu] at hf hr
  have key : ratio 𝔽 (floatSign s).isMinus n d = .finite s m e hm := by
    refine canon_unique hR.canon hf hR.fin trivial ?_ ?_
    · rw [hR.val, uval_finite]
      cases s with
      | positive => simpa [floatSign, Spec.Sign.isMinus, sgn] using h
      | negative => simpa [floatSign, Spec.Sign.isMinus, sgn, RN_neg] using h
    · generalize ratio 𝔽 (floatSign s).isMinus n d = u at *
      cases s with
      | positive =>
        have := hR.pos (by simpa [floatSign, Spec.Sign.isMinus] using hx)
        cases u <;> simp_all [HasSign, usign]
      | negative =>
        have := hR.neg (by simp only [floatSign, Spec.Sign.isMinus, if_true]; linarith)
        cases u <;> simp_all [HasSign, usign]
  apply up_inj
  rw [up_pk (by rw [key]; exact hf), key, hu, over_self hr]

end

end Pbrt.Proof
