import Verif.Proof.FloatText
import Verif.Props.DebugText
import Verif.Props.Main

/-!
# C125: floats as the standard library shows them

`{:?}` writes the shortest decimal that reads back as the float.
-/

namespace Pbrt

open Spec Proof
open Float.Model (UnpackedFloat Format)

section
variable {T : Type} [Elem T] [As T T] [FloatFns T] [IEEE T]

local notation "𝔽" => IEEE.fmt T

/-! ### Forms of the texts -/

/-- Finite floats are shown as a sign and a decimal. -/
theorem rustFloat_finite {f : T} (hf : IsFinite f) (b : Bool) :
    (∃ s, up f = .zero s ∧ (rustFloat b f).toList = (floatSign s).text ++ ['0', '.', '0']) ∨
    ∃ s m e hm, up f = .finite s m e hm ∧
      (rustFloat b f).toList = (floatSign s).text ++ decimalText b (shortest 𝔽 m e).1 (shortest 𝔽 m e).2 := by
  rw [isFinite_iff] at hf
  unfold rustFloat
  cases hu : up f with
  | infinity s => rw [hu] at hf; exact hf.elim
  | notANumber => rw [hu] at hf; exact hf.elim
  | zero s => exact .inl ⟨s, rfl, by simp [String.toList_ofList]⟩
  | finite s m e hm => exact .inr ⟨s, m, e, hm, rfl, by simp [String.toList_ofList]⟩

theorem rustFloat_cases (f : T) (b : Bool) : IsFinite f ∨ (up f = .infinity .positive ∧ rustFloat b f = "inf") ∨
    (up f = .infinity .negative ∧ rustFloat b f = "-inf") ∨ (up f = .notANumber ∧ rustFloat b f = "NaN") := by
  unfold rustFloat IsFinite
  rcases up f with (_ | _) | _ | _ | _ <;> simp [UnpackedFloat.isFinite]

theorem intDigits_chars (i : Int) : ∀ c ∈ intDigits i, IsDigit c ∨ c = '-' := by
  intro c hc
  unfold intDigits at hc
  rcases List.mem_append.1 hc with hc | hc
  · right; split_ifs at hc <;> simp_all
  · left
    obtain ⟨-, h2, -⟩ := intText_digits 0 i.natAbs
    simp only [List.replicate_zero, List.nil_append] at h2
    exact h2 c hc

theorem toDigits_digits (n : ℕ) : Nat.toDigits 10 n ≠ [] ∧ (∀ c ∈ Nat.toDigits 10 n, IsDigit c) ∧ decVal (Nat.toDigits 10 n) = n := by
  obtain ⟨h1, h2, h3⟩ := intText_digits 0 n
  simp only [List.replicate_zero, List.nil_append] at h1 h2 h3
  exact ⟨h1, h2, h3⟩

theorem intDigits_inj {i j : Int} (h : intDigits i = intDigits j) : i = j := by
  have key : ∀ i : Int, (intDigits i).head? = some '-' ↔ i < 0 := fun i => by
    unfold intDigits
    obtain ⟨h1, h2, -⟩ := toDigits_digits i.natAbs
    split_ifs with hi
    · simp [hi]
    · obtain ⟨c, cs, hc⟩ := List.exists_cons_of_ne_nil h1
      have := h2 c (by simp [hc])
      simp only [List.nil_append, hc, List.head?_cons, Option.some.injEq, hi, iff_false]
      rintro rfl
      exact absurd this (by unfold IsDigit; decide)
  have hneg : i < 0 ↔ j < 0 := by rw [← key, ← key, h]
  unfold intDigits at h
  have habs : i.natAbs = j.natAbs := by
    rw [← (toDigits_digits i.natAbs).2.2, ← (toDigits_digits j.natAbs).2.2]
    by_cases hi : i < 0
    · rw [if_pos hi, if_pos (hneg.1 hi)] at h
      rw [List.append_cancel_left h]
    · rw [if_neg hi, if_neg (fun hj => hi (hneg.2 hj))] at h
      rw [List.append_cancel_left h]
  omega

/-- The part of a scientific text before the exponent -/
def mantissaText (c : ℕ) : List Char :=
  (Nat.toDigits 10 c).take 1 ++ (if (Nat.toDigits 10 c).length = 1 then [] else '.' :: (Nat.toDigits 10 c).drop 1)

theorem scientificText_eq (c : ℕ) (s : ℤ) : scientificText c s =
    mantissaText c ++ 'e' :: intDigits (s + ((Nat.toDigits 10 c).length - 1 : ℕ)) := rfl

theorem mantissaText_chars (c : ℕ) : ∀ x ∈ mantissaText c, IsDigit x ∨ x = '.' := by
  intro x hx
  have h2 := (toDigits_digits c).2.1
  unfold mantissaText at hx
  rcases List.mem_append.1 hx with hx | hx
  · exact .inl (h2 x (List.mem_of_mem_take hx))
  · split_ifs at hx
    · simp at hx
    · rcases List.mem_cons.1 hx with rfl | hx
      · exact .inr rfl
      · exact .inl (h2 x (List.mem_of_mem_drop hx))

theorem mantissaText_digits (c : ℕ) : (mantissaText c).filter (· != '.') = Nat.toDigits 10 c := by
  have h2 := (toDigits_digits c).2.1
  have dig : ∀ l : List Char, (∀ x ∈ l, IsDigit x) → l.filter (· != '.') = l := fun l hl => by
    rw [List.filter_eq_self]
    intro x hx
    have := hl x hx
    simp only [bne_iff_ne, ne_eq]
    rintro rfl
    exact absurd this (by unfold IsDigit; decide)
  unfold mantissaText
  rw [List.filter_append, dig _ fun x hx => h2 x (List.mem_of_mem_take hx)]
  conv_rhs => rw [← List.take_append_drop 1 (Nat.toDigits 10 c)]
  congr 1
  split_ifs with h
  · rw [List.drop_of_length_le h.le]; rfl
  · rw [List.filter_cons_of_neg (by simp)]
    exact dig _ fun x hx => h2 x (List.mem_of_mem_drop hx)

theorem not_e {x : Char} (h : IsDigit x ∨ x = '.') : x ≠ 'e' := by
  rintro rfl
  rcases h with h | h
  · exact absurd h (by unfold IsDigit; decide)
  · exact absurd h (by decide)

/-- A text with an exponent determines the decimal. -/
theorem scientificText_inj {c c' : ℕ} {s s' : ℤ} (h : scientificText c s = scientificText c' s') : c = c' ∧ s = s' := by
  rw [scientificText_eq, scientificText_eq] at h
  obtain ⟨h1, h2⟩ : mantissaText c = mantissaText c' ∧
      intDigits (s + ((Nat.toDigits 10 c).length - 1 : ℕ)) = intDigits (s' + ((Nat.toDigits 10 c').length - 1 : ℕ)) := by
    have n1 : ∀ x ∈ mantissaText c, x ≠ 'e' := fun x hx => not_e (mantissaText_chars c x hx)
    have n2 : ∀ x ∈ mantissaText c', x ≠ 'e' := fun x hx => not_e (mantissaText_chars c' x hx)
    generalize mantissaText c = l at *
    generalize mantissaText c' = l' at *
    induction l generalizing l' with
    | nil =>
      cases l' with
      | nil => simpa using h
      | cons y l' => exact absurd (List.cons.inj h).1.symm (n2 y (by simp))
    | cons x l ih =>
      cases l' with
      | nil => exact absurd (List.cons.inj h).1 (n1 x (by simp))
      | cons y l' =>
        obtain ⟨rfl, h2⟩ := List.cons.inj h
        obtain ⟨rfl, h'⟩ := ih (fun z hz => n1 z (by simp [hz])) l' (fun z hz => n2 z (by simp [hz])) h2
        exact ⟨rfl, h'⟩
  have hd : Nat.toDigits 10 c = Nat.toDigits 10 c' := by rw [← mantissaText_digits, h1, mantissaText_digits]
  have hc : c = c' := by rw [← (toDigits_digits c).2.2, hd, (toDigits_digits c').2.2]
  subst hc
  exact ⟨rfl, by have := intDigits_inj h2; omega⟩

/-- The characters of a decimal -/
theorem decimalText_chars (b : Bool) (c : ℕ) (s : ℤ) : ∀ x ∈ decimalText b c s, IsDigit x ∨ x = '.' ∨ x = 'e' ∨ x = '-' := by
  intro x hx
  unfold decimalText at hx
  split_ifs at hx
  · rw [scientificText_eq] at hx
    rcases List.mem_append.1 hx with hx | hx
    · rcases mantissaText_chars c x hx with h | h <;> simp [h]
    · rcases List.mem_cons.1 hx with hx | hx
      · simp [hx]
      · rcases intDigits_chars _ x hx with h | h <;> simp [h]
  · obtain ⟨h, -⟩ := plainDigits_spec c s
    rcases List.mem_append.1 hx with hx | hx
    · exact .inl (h x (List.mem_append_left _ hx))
    · rcases List.mem_cons.1 hx with hx | hx
      · simp [hx]
      · exact .inl (h x (List.mem_append_right _ hx))

theorem rustFloat_chars {f : T} (hf : IsFinite f) (b : Bool) :
    (rustFloat b f).toList ≠ [] ∧ ∀ x ∈ (rustFloat b f).toList, IsDigit x ∨ x = '.' ∨ x = 'e' ∨ x = '-' := by
  have sign : ∀ s, ∀ x ∈ (floatSign s).text, x = '-' := fun s x hx => by
    cases s <;> simp [floatSign, Sign.text] at hx
    exact hx
  rcases rustFloat_finite hf b with ⟨s, -, h⟩ | ⟨s, m, e, hm, -, h⟩ <;> rw [h]
  · refine ⟨by simp, fun x hx => ?_⟩
    rcases List.mem_append.1 hx with hx | hx
    · simp [sign s x hx]
    · simp only [List.mem_cons, List.not_mem_nil, or_false] at hx
      rcases hx with rfl | rfl | rfl <;> (unfold IsDigit; decide)
  · refine ⟨fun h => ?_, fun x hx => ?_⟩
    · have := (List.append_eq_nil_iff.1 h).2
      unfold decimalText at this
      split_ifs at this
      · rw [scientificText_eq] at this; simp at this
      · simp at this
    · rcases List.mem_append.1 hx with hx | hx
      · simp [sign s x hx]
      · exact decimalText_chars b _ _ x hx

/-! ### Reading -/

/-- **C125**: what is shown of a finite float without an exponent is a literal for that float, for the parser too. -/
theorem C125_reads_back {f : T} (hf : IsFinite f) (b checks : Bool) (he : 'e' ∉ (rustFloat b f).toList) :
    NumLit (ieeeEnv T checks) (rustFloat b f).toList (.Float f) := by
  rcases rustFloat_finite hf b with ⟨s, hu, h⟩ | ⟨s, m, e, hm, hu, h⟩
  · rw [h]
    obtain ⟨g, h1, h2⟩ := ieeeEnv_zeros (T := T) checks (floatSign s) ['0'] ['0'] (by simp) (by simp)
    obtain rfl : g = f := by
      refine up_inj ?_
      rw [h2, hu]
      cases s <;> rfl
    exact NumLit.frac (floatSign s) ['0', '.', '0'] g
      (fracBody_digits (ieeeEnv_sane checks) (a := ['0']) (b := ['0']) (by unfold IsDigit; decide)) h1
  · rw [h] at he ⊢
    unfold decimalText at he ⊢
    by_cases hx : b = true ∧ isExtreme (shortest 𝔽 m e).1 (shortest 𝔽 m e).2 = true
    · rw [if_pos hx, scientificText_eq] at he
      exact absurd (by simp) he
    · rw [if_neg hx]
      obtain ⟨h1, h2, h3, h4⟩ := plainDigits_spec (shortest 𝔽 m e).1 (shortest 𝔽 m e).2
      refine NumLit.frac (floatSign s) _ f (fracBody_digits (ieeeEnv_sane checks) h1) ?_
      refine (ieeeParse_body (floatSign s) _ _ _ h1 (by simp [h2]) (.inl rfl)).trans ?_
      rw [pk_ratio hu (by positivity) (by rw [h4]; exact (shortest_spec (canon_pos hu)).1)]

/-- **C125**: earlier releases of the library write no exponents. -/
theorem C125_no_exponents {f : T} (hf : IsFinite f) : 'e' ∉ (rustFloat false f).toList := by
  have sign : ∀ s, 'e' ∉ (floatSign s).text := fun s => by cases s <;> decide
  rcases rustFloat_finite hf false with ⟨s, -, h⟩ | ⟨s, m, e, hm, -, h⟩ <;> rw [h]
  · simp [sign s]
  · obtain ⟨h1, -⟩ := plainDigits_spec (shortest 𝔽 m e).1 (shortest 𝔽 m e).2
    unfold decimalText
    rw [if_neg (by simp)]
    intro hx
    rcases List.mem_append.1 hx with hx | hx
    · exact sign s hx
    · rcases List.mem_append.1 hx with hx | hx
      · exact not_e (.inl (h1 _ (List.mem_append_left _ hx))) rfl
      · rcases List.mem_cons.1 hx with hx | hx
        · exact absurd hx (by decide)
        · exact not_e (.inl (h1 _ (List.mem_append_right _ hx))) rfl

/-- From `10^-4` on and below `10^16` no exponent is written, if `10^16` is not rounded down. -/
theorem plain_range {f : T} (hf : IsFinite f) (b : Bool) (h16 : (10 : ℝ) ^ (16 : ℤ) ≤ (grid 𝔽).RN (10 ^ (16 : ℤ)))
    (h1 : 10 ^ (-4 : ℤ) ≤ |val f|) (h2 : |val f| < 10 ^ (16 : ℤ)) : 'e' ∉ (rustFloat b f).toList := by
  intro he
  rcases rustFloat_finite hf b with ⟨s, -, h⟩ | ⟨s, m, e, hm, hu, h⟩
  · rw [h] at he
    cases s <;> exact absurd he (by decide)
  have hc := canon_pos hu
  have hq : (0 : ℝ) < m * 2 ^ e := mul_pos (by exact_mod_cast hm) (two_zpow_pos e)
  have hval : |val f| = m * 2 ^ e := by
    unfold val
    rw [hu, uval_finite, abs_mul, abs_of_pos hq]
    cases s <;> simp [sgn]
  rw [hval] at h1 h2
  obtain ⟨g1, g2, -⟩ := shortest_spec hc
  by_cases hx : isExtreme (shortest 𝔽 m e).1 (shortest 𝔽 m e).2 = true
  · rcases (isExtreme_iff (shortest_pos hc) _).1 hx with hx | hx
    · have h4 := between_below hc hx.le h1 g1
      refine g2 1 (-4) ?_ (by rw [Nat.cast_one, one_mul]; exact h4)
      by_contra hge
      have a1 : (10 : ℝ) ^ (-4 : ℤ) ≤ 10 ^ (shortest 𝔽 m e).2 := zpow_le_zpow_right₀ (by norm_num) (not_lt.1 hge)
      have a2 : (1 : ℝ) ≤ (shortest 𝔽 m e).1 := by exact_mod_cast shortest_pos hc
      have a3 : (0 : ℝ) < 10 ^ (shortest 𝔽 m e).2 := zpow_pos (by norm_num) _
      nlinarith
    · have := between_above hc h2.le hx g1
      linarith
  · have hsame : (rustFloat false f).toList = (rustFloat b f).toList := by
      rw [h]
      rcases rustFloat_finite hf false with ⟨s', hu', -⟩ | ⟨s', m', e', hm', hu', h'⟩
      · rw [hu] at hu'; cases hu'
      · rw [hu] at hu'
        cases hu'
        rw [h']
        unfold decimalText
        rw [if_neg (by simp), if_neg (fun h => hx h.2)]
    rw [← hsame] at he
    exact absurd he (C125_no_exponents hf)

/-! ### Shortest -/

/-- A literal that the library reads as a float rounds to its magnitude. -/
theorem read_rounds {f : T} {s : UnpackedFloat.Sign} {m : ℕ} {e : ℤ} {hm : 0 < m} (hu : up f = .finite s m e hm)
    {t : Sign} {a b : List Char} (hd : ∀ c ∈ a ++ b, IsDigit c) (hne : a ++ b ≠ [])
    (h : ieeeParse T (t.kept ++ (a ++ '.' :: b)) = .ok f) : (grid 𝔽).RN |decimal t a b| = m * 2 ^ e := by
  rw [ieeeParse_body t a b _ hd hne (.inl rfl)] at h
  have h := Except.ok.inj h
  have hR := ratio_rounded 𝔽 t.isMinus (decVal (a ++ b)) (10 ^ b.length) (by positivity)
  rw [← decimal_eq] at hR
  generalize ratio 𝔽 t.isMinus (decVal (a ++ b)) (10 ^ b.length) = u at *
  have hup : over 𝔽 u = .finite s m e hm := by rw [← up_pk hR.canon, h, hu]
  have hueq : u = .finite s m e hm := by
    cases u with
    | finite s' m' e' h' =>
      simp only [over] at hup
      split_ifs at hup
      exact hup
    | _ => cases hup
  have hv := hR.val
  rw [hueq, uval_finite] at hv
  have hq : (0 : ℝ) < m * 2 ^ e := mul_pos (by exact_mod_cast hm) (two_zpow_pos e)
  rcases abs_cases (decimal t a b) with ⟨h1, h2⟩ | ⟨h1, h2⟩ <;> rw [h1]
  · have := RN_nonneg (g := grid 𝔽) h2
    cases s <;> simp only [sgn] at hv <;> linarith
  · have := hR.neg h2
    rw [hueq] at this
    cases this
    rw [RN_neg, ← hv]
    simp [sgn]

/-- **C125**: what is shown of a finite float other than zero, without an exponent, is `c * 10^k` with a sign, where `c` does
    not end in zero and has at most one digit more than `2^p`. Every decimal that is read as the float is a multiple of
    no higher power of ten and has no fewer significant digits. None of those with the same last place is closer to the float. -/
theorem C125_shortest {f : T} (hf : IsFinite f) (h0 : val f ≠ 0) :
    ∃ (s : Sign) (a b : List Char) (c : ℕ) (k : ℤ), (rustFloat false f).toList = s.text ++ (a ++ '.' :: b) ∧
      a ≠ [] ∧ b ≠ [] ∧ (∀ x ∈ a ++ b, IsDigit x) ∧ |decimal s a b| = c * 10 ^ k ∧ 0 < c ∧ ¬ 10 ∣ c ∧
      (∀ N : ℕ, 2 ^ (𝔽).mantissaBits < 10 ^ N → c < 10 ^ (N + 1)) ∧
      ∀ (s' : Sign) (a' b' : List Char) (c' : ℕ) (k' : ℤ), (∀ x ∈ a' ++ b', IsDigit x) → a' ++ b' ≠ [] →
        ieeeParse T (s'.kept ++ (a' ++ '.' :: b')) = .ok f → |decimal s' a' b'| = c' * 10 ^ k' →
        k' ≤ k ∧ (∀ n : ℕ, c' < 10 ^ n → c < 10 ^ n) ∧
        (k' = k → |(|decimal s a b| - |val f|)| ≤ |(|decimal s' a' b'| - |val f|)|) := by
  rcases rustFloat_finite hf false with ⟨s, hu, -⟩ | ⟨s, m, e, hm, hu, h⟩
  · exact absurd (by unfold val; rw [hu]; rfl) h0
  have hc := canon_pos hu
  have hq : (0 : ℝ) < m * 2 ^ e := mul_pos (by exact_mod_cast hm) (two_zpow_pos e)
  obtain ⟨h1, h2, h3, h4⟩ := plainDigits_spec (shortest 𝔽 m e).1 (shortest 𝔽 m e).2
  obtain ⟨g1, g2, g3⟩ := shortest_spec hc
  have hten : (0 : ℝ) < 10 ^ (shortest 𝔽 m e).2 := zpow_pos (by norm_num) _
  have hdec : |decimal (floatSign s) (plainDigits (shortest 𝔽 m e).1 (shortest 𝔽 m e).2).1
      (plainDigits (shortest 𝔽 m e).1 (shortest 𝔽 m e).2).2| = (shortest 𝔽 m e).1 * 10 ^ (shortest 𝔽 m e).2 := by
    rw [decimal_eq, h4, abs_mul, abs_of_nonneg (by positivity : (0 : ℝ) ≤ ((shortest 𝔽 m e).1 : ℝ) * 10 ^ (shortest 𝔽 m e).2)]
    cases s <;> simp [floatSign, Sign.isMinus]
  have hval : |val f| = m * 2 ^ e := by
    unfold val
    rw [hu, uval_finite, abs_mul, abs_of_pos hq]
    cases s <;> simp [sgn]
  refine ⟨floatSign s, _, _, _, _, ?_, h2, h3, h1, hdec, shortest_pos hc, shortest_last hc,
    fun N hN => shortest_digits hc hN, ?_⟩
  · rw [h]; unfold decimalText; rw [if_neg (by simp)]
  · intro s' a' b' c' k' hd hne hr hv
    have hR := read_rounds hu hd hne hr
    rw [hv] at hR
    have hk : k' ≤ (shortest 𝔽 m e).2 := not_lt.1 fun hlt => g2 c' k' hlt hR
    refine ⟨hk, fun n hn => ?_, ?_⟩
    · by_contra hge
      have hc' : c' ≠ 0 := by
        rintro rfl
        rw [Nat.cast_zero, zero_mul, RN_zero] at hR; linarith
      obtain ⟨n, rfl⟩ : ∃ l, n = l + 1 := ⟨n - 1, by
        rcases Nat.eq_zero_or_pos n with rfl | h
        · rw [pow_zero] at hn; omega
        · omega⟩
      refine g2 (10 ^ n) _ (lt_add_one _) ?_
      have e1 : ((10 ^ n : ℕ) : ℝ) * 10 ^ ((shortest 𝔽 m e).2 + 1) = 10 ^ (n + 1) * 10 ^ (shortest 𝔽 m e).2 := by
        push_cast
        rw [zpow_add_one₀ (by norm_num), pow_succ]; ring
      rw [e1]
      refine le_antisymm ?_ ?_
      · rw [← g1]
        refine RN_mono (mul_le_mul_of_nonneg_right ?_ hten.le)
        exact_mod_cast not_lt.1 hge
      · rw [← hR]
        refine RN_mono (mul_le_mul ?_ ?_ (zpow_pos (by norm_num) _).le (by positivity))
        · exact_mod_cast hn.le
        · exact zpow_le_zpow_right₀ (by norm_num) hk
    · rintro rfl
      rw [hdec, hval, hv]
      exact g3 c' hR

/-- What is shown of a finite float without an exponent rounds to it. -/
theorem shown_rounds {f : T} (hf : IsFinite f) : ∃ (s : Sign) (a b : List Char),
    (rustFloat false f).toList = s.text ++ (a ++ '.' :: b) ∧ (∀ x ∈ a ++ b, IsDigit x) ∧ (grid 𝔽).RN (decimal s a b) = val f := by
  rcases rustFloat_finite hf false with ⟨s, hu, h⟩ | ⟨s, m, e, hm, hu, h⟩
  · refine ⟨floatSign s, ['0'], ['0'], h, by unfold IsDigit; decide, ?_⟩
    have h0 : decimal (floatSign s) ['0'] ['0'] = 0 := by
      rw [decimal_eq]
      have : decVal (['0'] ++ ['0']) = 0 := by decide
      rw [this]; simp
    rw [h0, RN_zero]
    unfold val; rw [hu]; rfl
  · have hc := canon_pos hu
    obtain ⟨h1, -, -, h4⟩ := plainDigits_spec (shortest 𝔽 m e).1 (shortest 𝔽 m e).2
    obtain ⟨g1, -, -⟩ := shortest_spec hc
    refine ⟨floatSign s, _, _, ?_, h1, ?_⟩
    · rw [h]; unfold decimalText; rw [if_neg (by simp)]
    · rw [decimal_eq, h4]
      unfold val
      rw [hu, uval_finite]
      cases s
      · simpa [floatSign, Sign.isMinus, sgn, RN_neg] using g1
      · simpa [floatSign, Sign.isMinus, sgn] using g1

/-- **C125**: the texts are in the order of the floats, -/
theorem C125_ordered {f g : T} (hf : IsFinite f) (hg : IsFinite g) (h : val f < val g) :
    ∃ (s : Sign) (a b : List Char) (s' : Sign) (a' b' : List Char),
      (rustFloat false f).toList = s.text ++ (a ++ '.' :: b) ∧ (∀ x ∈ a ++ b, IsDigit x) ∧
      (rustFloat false g).toList = s'.text ++ (a' ++ '.' :: b') ∧ (∀ x ∈ a' ++ b', IsDigit x) ∧
      decimal s a b < decimal s' a' b' := by
  obtain ⟨s, a, b, h1, h2, h3⟩ := shown_rounds hf
  obtain ⟨s', a', b', h1', h2', h3'⟩ := shown_rounds hg
  refine ⟨s, a, b, s', a', b', h1, h2, h1', h2', lt_of_not_ge fun hle => ?_⟩
  have := RN_mono (g := grid 𝔽) hle
  rw [h3, h3'] at this
  linarith

/-- **C125**: and no float is closer to the text of a float than that float. -/
theorem C125_nearest {f : T} (hf : IsFinite f) : ∃ (s : Sign) (a b : List Char),
    (rustFloat false f).toList = s.text ++ (a ++ '.' :: b) ∧ (∀ x ∈ a ++ b, IsDigit x) ∧ Nearest f (decimal s a b) := by
  obtain ⟨s, a, b, h1, h2, h3⟩ := shown_rounds hf
  refine ⟨s, a, b, h1, h2, hf, fun y hy => ?_⟩
  rw [← h3]
  exact RN_nearest (rep_val y)

/-- The forms of a text, and that what is shown rounds to the float -/
theorem exponent_forms {f : T} (hf : IsFinite f) (h0 : val f ≠ 0) : ∃ (s : Sign) (a b : List Char),
    (rustFloat false f).toList = s.text ++ (a ++ '.' :: b) ∧ (∀ x ∈ a ++ b, IsDigit x) ∧ (grid 𝔽).RN (decimal s a b) = val f ∧
    ((10 ^ (-4 : ℤ) ≤ |decimal s a b| ∧ |decimal s a b| < 10 ^ (16 : ℤ) ∧ rustFloat true f = rustFloat false f) ∨
     ((|decimal s a b| < 10 ^ (-4 : ℤ) ∨ 10 ^ (16 : ℤ) ≤ |decimal s a b|) ∧ ∃ (a' b' : List Char) (k : ℤ),
      (rustFloat true f).toList = s.text ++ (a' ++ (if b' = [] then [] else '.' :: b') ++ 'e' :: intDigits k) ∧
      a'.length = 1 ∧ (∀ x ∈ a' ++ b', IsDigit x) ∧ 1 ≤ |decimal s a' b'| ∧ |decimal s a' b'| < 10 ∧
      decimal s a' b' * 10 ^ k = decimal s a b)) := by
  rcases rustFloat_finite hf false with ⟨s, hu, -⟩ | ⟨s, m, e, hm, hu, h⟩
  · exact absurd (by unfold val; rw [hu]; rfl) h0
  rcases rustFloat_finite hf true with ⟨s', hu', -⟩ | ⟨s', m', e', hm', hu', h'⟩
  · rw [hu] at hu'; cases hu'
  rw [hu] at hu'
  cases hu'
  have hc := shortest_pos (canon_pos hu)
  obtain ⟨h1, -, -, h4⟩ := plainDigits_spec (shortest 𝔽 m e).1 (shortest 𝔽 m e).2
  obtain ⟨g1, -, -⟩ := shortest_spec (canon_pos hu)
  generalize (shortest 𝔽 m e).1 = c at *
  generalize (shortest 𝔽 m e).2 = k at *
  have hdec : |decimal (floatSign s) (plainDigits c k).1 (plainDigits c k).2| = c * 10 ^ k := by
    rw [decimal_eq, h4, abs_mul, abs_of_nonneg (by positivity : (0 : ℝ) ≤ (c : ℝ) * 10 ^ k)]
    cases s <;> simp [floatSign, Sign.isMinus]
  refine ⟨floatSign s, _, _, ?_, h1, ?_, ?_⟩
  · rw [h]; unfold decimalText; rw [if_neg (by simp)]
  · rw [decimal_eq, h4]
    unfold val
    rw [hu, uval_finite]
    cases s
    · simpa [floatSign, Sign.isMinus, sgn, RN_neg] using g1
    · simpa [floatSign, Sign.isMinus, sgn] using g1
  rw [hdec]
  by_cases hx : isExtreme c k = true
  · refine .inr ⟨(isExtreme_iff hc k).1 hx, (Nat.toDigits 10 c).take 1, (Nat.toDigits 10 c).drop 1,
      k + ((Nat.toDigits 10 c).length - 1 : ℕ), ?_⟩
    obtain ⟨d1, d2, d3⟩ := toDigits_digits c
    have hl : 0 < (Nat.toDigits 10 c).length := List.length_pos_of_ne_nil d1
    have lo : 10 ^ ((Nat.toDigits 10 c).length - 1) ≤ c := by
      rcases Nat.lt_or_ge 1 (Nat.toDigits 10 c).length with h | h
      · have := Nat.length_toDigits_le_iff (b := 10) (n := c) (k := (Nat.toDigits 10 c).length - 1) (by norm_num) (by omega)
        rw [← not_lt, ← this]; omega
      · rw [show (Nat.toDigits 10 c).length - 1 = 0 by omega]; exact hc
    have hi : c < 10 * 10 ^ ((Nat.toDigits 10 c).length - 1) := by
      rw [← pow_succ', Nat.sub_add_cancel hl]
      exact (Nat.length_toDigits_le_iff (b := 10) (n := c) (by norm_num) hl).1 le_rfl
    have ten : (0 : ℝ) < ((10 ^ ((Nat.toDigits 10 c).length - 1) : ℕ) : ℝ) := by positivity
    have hm : decimal (floatSign s) ((Nat.toDigits 10 c).take 1) ((Nat.toDigits 10 c).drop 1) =
        (if (floatSign s).isMinus then -1 else 1) * ((c : ℝ) / ((10 ^ ((Nat.toDigits 10 c).length - 1) : ℕ) : ℝ)) := by
      rw [decimal_eq, List.take_append_drop, d3, List.length_drop]
    have hma : |decimal (floatSign s) ((Nat.toDigits 10 c).take 1) ((Nat.toDigits 10 c).drop 1)| =
        (c : ℝ) / ((10 ^ ((Nat.toDigits 10 c).length - 1) : ℕ) : ℝ) := by
      rw [hm, abs_mul, abs_of_nonneg (by positivity : (0 : ℝ) ≤ (c : ℝ) / ((10 ^ ((Nat.toDigits 10 c).length - 1) : ℕ) : ℝ))]
      cases s <;> simp [floatSign, Sign.isMinus]
    refine ⟨?_, by rw [List.length_take]; omega, by rwa [List.take_append_drop], ?_, ?_, ?_⟩
    · rw [h']
      unfold decimalText
      rw [if_pos ⟨rfl, hx⟩]
      unfold scientificText
      have : ((Nat.toDigits 10 c).drop 1 = []) ↔ (Nat.toDigits 10 c).length = 1 := by rw [List.drop_eq_nil_iff]; omega
      simp only [this]
    · rw [hma, le_div_iff₀ ten, one_mul]; exact_mod_cast lo
    · rw [hma, div_lt_iff₀ ten]; exact_mod_cast hi
    · rw [hm, decimal_eq, h4, zpow_add₀ (by norm_num), zpow_natCast, mul_assoc]
      congr 1
      push_cast at ten ⊢
      field_simp
  · refine .inl ⟨?_, ?_, ?_⟩
    · exact not_lt.1 fun h => hx ((isExtreme_iff hc k).2 (.inl h))
    · exact not_le.1 fun h => hx ((isExtreme_iff hc k).2 (.inr h))
    · refine String.toList_injective ?_
      rw [h, h']
      unfold decimalText
      rw [if_neg (fun h => hx h.2), if_neg (by simp)]

/-- **C125**: newer releases of the library write the same decimal, with an exponent exactly if it is below `10^-4` or from
    `10^16` on. There is one digit other than zero before the point, and the point is written if digits follow. -/
theorem C125_exponents {f : T} (hf : IsFinite f) (h0 : val f ≠ 0) : ∃ (s : Sign) (a b : List Char),
    (rustFloat false f).toList = s.text ++ (a ++ '.' :: b) ∧ (∀ x ∈ a ++ b, IsDigit x) ∧
    ((10 ^ (-4 : ℤ) ≤ |decimal s a b| ∧ |decimal s a b| < 10 ^ (16 : ℤ) ∧ rustFloat true f = rustFloat false f) ∨
     ((|decimal s a b| < 10 ^ (-4 : ℤ) ∨ 10 ^ (16 : ℤ) ≤ |decimal s a b|) ∧ ∃ (a' b' : List Char) (k : ℤ),
      (rustFloat true f).toList = s.text ++ (a' ++ (if b' = [] then [] else '.' :: b') ++ 'e' :: intDigits k) ∧
      a'.length = 1 ∧ (∀ x ∈ a' ++ b', IsDigit x) ∧ 1 ≤ |decimal s a' b'| ∧ |decimal s a' b'| < 10 ∧
      decimal s a' b' * 10 ^ k = decimal s a b)) := by
  obtain ⟨s, a, b, h1, h2, -, h3⟩ := exponent_forms hf h0
  exact ⟨s, a, b, h1, h2, h3⟩

/-- **C125**: a scene whose floats are finite can be written with these texts, and the parser returns the scene for it. -/
theorem C125_scene (checks : Bool) (s : WScene T) (hs : s.Ok (ieeeEnv T checks)) (hb : s.BlocksLast)
    (hw : s.Writable (ieeeEnv T checks) IsFinite) :
    ∃ toks, tokenize (ieeeEnv T checks) (s.text fun f => (rustFloat false f).toList) = .ok toks ∧ toks.map Token.ty = s.toks ∧
      parse (ieeeEnv T checks) (s.text fun f => (rustFloat false f).toList) =
        .ok (s.place (ieeeEnv T checks) (toks.map Token.pos)) :=
  C98_layout (ieeeEnv_sane checks) (fun _ hf => C125_reads_back hf false checks (C125_no_exponents hf)) s hs hb hw [] _ .nil
    (spaced_layout (ieeeEnv_sane checks) _)

/-! ### Telling floats apart -/

/-- Only numbers other than zero are shown with an exponent. -/
theorem rustFloat_e {f : T} (hf : IsFinite f) {b : Bool} (he : 'e' ∈ (rustFloat b f).toList) :
    ∃ s m e hm, up f = .finite s m e hm ∧
      (rustFloat b f).toList = (floatSign s).text ++ scientificText (shortest 𝔽 m e).1 (shortest 𝔽 m e).2 := by
  rcases rustFloat_finite hf b with ⟨s, -, h⟩ | ⟨s, m, e, hm, hu, h⟩
  · rw [h] at he
    cases s <;> exact absurd he (by decide)
  · refine ⟨s, m, e, hm, hu, ?_⟩
    by_cases hx : b = true ∧ isExtreme (shortest 𝔽 m e).1 (shortest 𝔽 m e).2 = true
    · rw [h]; unfold decimalText; rw [if_pos hx]
    · have hsame : (rustFloat false f).toList = (rustFloat b f).toList := by
        rw [h]
        rcases rustFloat_finite hf false with ⟨s', hu', -⟩ | ⟨s', m', e', hm', hu', h'⟩
        · rw [hu] at hu'; cases hu'
        · rw [hu] at hu'
          cases hu'
          rw [h']
          unfold decimalText
          rw [if_neg hx, if_neg (by simp)]
      rw [← hsame] at he
      exact absurd he (C125_no_exponents hf)

theorem signed_inj {s s' : UnpackedFloat.Sign} {c c' : ℕ} {k k' : ℤ}
    (h : (floatSign s).text ++ scientificText c k = (floatSign s').text ++ scientificText c' k') :
    s = s' ∧ scientificText c k = scientificText c' k' := by
  have head : ∀ (c : ℕ) (k : ℤ), (scientificText c k).head? ≠ some '-' := fun c k => by
    rw [scientificText_eq]
    cases hm : mantissaText c with
    | nil => simp
    | cons x l =>
      have := mantissaText_chars c x (by rw [hm]; simp)
      simp only [List.cons_append, List.head?_cons, ne_eq, Option.some.injEq]
      rintro rfl
      rcases this with h | h
      · exact absurd h (by unfold IsDigit; decide)
      · exact absurd h (by decide)
  have h' := congrArg List.head? h
  cases s <;> cases s' <;> simp only [floatSign, Sign.text, List.nil_append, List.cons_append, List.head?_cons] at h h'
  · exact ⟨rfl, by simpa using h⟩
  · exact absurd h'.symm (head _ _)
  · exact absurd h' (head _ _)
  · exact ⟨rfl, h⟩

theorem rustFloat_inj (b : Bool) (f g : T) (h : rustFloat b f = rustFloat b g) : f = g := by
  have odd : ∀ {f : T} {s : String} (c : Char), IsFinite f → c ∈ s.toList → (¬ IsDigit c ∧ c ≠ '.' ∧ c ≠ 'e' ∧ c ≠ '-') →
      rustFloat b f ≠ s := fun c hf hs hc e => by
    have := (rustFloat_chars hf b).2 c (by rw [e]; exact hs)
    tauto
  rcases rustFloat_cases f b with hf | ⟨hf, e⟩ | ⟨hf, e⟩ | ⟨hf, e⟩ <;>
    rcases rustFloat_cases g b with hg | ⟨hg, e'⟩ | ⟨hg, e'⟩ | ⟨hg, e'⟩
  · by_cases he : 'e' ∈ (rustFloat b f).toList
    · obtain ⟨s, m, e, hm, hu, ht⟩ := rustFloat_e hf he
      rw [h] at he ht
      obtain ⟨s', m', e', hm', hu', ht'⟩ := rustFloat_e hg he
      obtain ⟨rfl, hsci⟩ := signed_inj (ht.symm.trans ht')
      obtain ⟨hc, hk⟩ := scientificText_inj hsci
      refine eq_of_val hf hg ?_ (by rw [hu, hu']; rfl)
      unfold val
      rw [hu, hu', uval_finite, uval_finite, ← (shortest_spec (canon_pos hu)).1, ← (shortest_spec (canon_pos hu')).1, hc, hk]
    · have h1 := C125_reads_back hf b true he
      rw [h] at he h1
      exact TokenType.Float.inj (numLit_unique (ieeeEnv_sane true) h1 (C125_reads_back hg b true he))
  all_goals first
    | exact up_inj (hf.trans hg.symm)
    | exact absurd (e.symm.trans (h.trans e')) (by decide)
    | (rw [e'] at h; first
        | exact absurd h (odd 'n' hf (by decide) (by unfold IsDigit; decide))
        | exact absurd h (odd 'N' hf (by decide) (by unfold IsDigit; decide)))
    | (rw [e] at h; first
        | exact absurd h.symm (odd 'n' hg (by decide) (by unfold IsDigit; decide))
        | exact absurd h.symm (odd 'N' hg (by decide) (by unfold IsDigit; decide)))

theorem rustFloat_unmarked (b : Bool) (f : T) : rustFloat b f ≠ "" ∧ Unmarked (rustFloat b f).toList := by
  rcases rustFloat_cases f b with hf | ⟨hf, e⟩ | ⟨hf, e⟩ | ⟨hf, e⟩
  · obtain ⟨h1, h2⟩ := rustFloat_chars hf b
    refine ⟨fun h => h1 (by rw [h]; rfl), fun c hc => ?_⟩
    rcases h2 c hc with h | rfl | rfl | rfl
    · have key : ∀ m ∈ marks, ¬ ('0' ≤ m ∧ m ≤ '9') := by decide
      exact fun hm => key c hm h
    all_goals decide
  all_goals (rw [e]; exact ⟨by decide, by unfold Unmarked; decide⟩)

/-- **C125**: the assumptions of C121 hold for floats as the library shows them: a value can be read off what `Debug`
    writes for it. -/
theorem C125_legible (b : Bool) (D D' : DebugTable) : Legible (rustLeaves T b D D') where
  float := rustFloat_unmarked b
  floats := rustFloat_inj b
  str := str_quoted D
  strs s t h := (C112_string D s t "" "" (by rw [show D.str s = D.str t from h])).1
  path := str_quoted D'
  paths s t h := (C112_string D' s t "" "" (by rw [show D'.str s = D'.str t from h])).1

/-- **C125**: the assumptions of C112 hold too: values can be read off the messages. -/
theorem C125_readable (b checks : Bool) (D : DebugTable) :
    Readable { ieeeEnv T checks with dbgStr := D.str, dbgFloat := rustFloat b } where
  str := C112_string D
  float := rustFloat_inj b
  close f hc := (rustFloat_unmarked b f).2 _ hc (by decide)

end

/-- **C125**: nine digits for an `f32`, -/
theorem C125_digits32 {f : Float32.Model} (hf : IsFinite f) (h0 : val f ≠ 0) :
    ∃ (s : Sign) (a b : List Char) (c : ℕ) (k : ℤ), (rustFloat false f).toList = s.text ++ (a ++ '.' :: b) ∧
      |decimal s a b| = c * 10 ^ k ∧ c < 10 ^ 9 := by
  obtain ⟨s, a, b, c, k, h1, -, -, -, h2, -, -, h3, -⟩ := C125_shortest hf h0
  exact ⟨s, a, b, c, k, h1, h2, h3 8 (by decide)⟩

/-- **C125**: and seventeen for an `f64`, are enough. -/
theorem C125_digits64 {f : Float.Model} (hf : IsFinite f) (h0 : val f ≠ 0) :
    ∃ (s : Sign) (a b : List Char) (c : ℕ) (k : ℤ), (rustFloat false f).toList = s.text ++ (a ++ '.' :: b) ∧
      |decimal s a b| = c * 10 ^ k ∧ c < 10 ^ 17 := by
  obtain ⟨s, a, b, c, k, h1, -, -, -, h2, -, -, h3, -⟩ := C125_shortest hf h0
  exact ⟨s, a, b, c, k, h1, h2, h3 16 (by decide)⟩

/-- **C125**: between `0.0001` and `10^16` what is shown is read back by the parser, with every release of the library. -/
theorem C125_range32 {f : Float32.Model} (hf : IsFinite f) (b checks : Bool) (h1 : 1 / 10000 ≤ |val f|) (h2 : |val f| < 10 ^ 16) :
    NumLit (ieeeEnv Float32.Model checks) (rustFloat b f).toList (.Float f) := by
  refine C125_reads_back hf b checks (plain_range hf b ?_ (by norm_num at h1 ⊢; exact h1) (by exact_mod_cast h2))
  have := (isRead_iff (fmt := IEEE.fmt Float32.Model) (m := 9313226) (e := 30) (hm := by norm_num) (n := 10 ^ 16) (d := 1)
    (by unfold Canon; decide +kernel) (by norm_num)).1 (by decide +kernel)
  norm_num at this ⊢
  rw [this]
  norm_num

theorem C125_range64 {f : Float.Model} (hf : IsFinite f) (b checks : Bool) (h1 : 1 / 10000 ≤ |val f|) (h2 : |val f| < 10 ^ 16) :
    NumLit (ieeeEnv Float.Model checks) (rustFloat b f).toList (.Float f) := by
  refine C125_reads_back hf b checks (plain_range hf b ?_ (by norm_num at h1 ⊢; exact h1) (by exact_mod_cast h2))
  have := (isRead_iff (fmt := IEEE.fmt Float.Model) (m := 5000000000000000) (e := 1) (hm := by norm_num) (n := 10 ^ 16) (d := 1)
    (by unfold Canon; decide +kernel) (by norm_num)).1 (by decide +kernel)
  norm_num at this ⊢
  rw [this]

/-! ### Texts with an exponent -/

def shownSmall64 : Float.Model := .pack (.finite .positive 8854437155380585 (-68) (by norm_num))
def shownSmall64' : Float.Model := .pack (.finite .positive 8854437155380586 (-68) (by norm_num))
def shownLarge64 : Float.Model := .pack (.finite .positive 4882812500000000 (11) (by norm_num))
def shownSmall32 : Float32.Model := .pack (.finite .positive 14293651 (-40) (by norm_num))
def shownSmall32' : Float32.Model := .pack (.finite .positive 14293650 (-40) (by norm_num))
def shownLarge32 : Float32.Model := .pack (.finite .positive 9313226 (30) (by norm_num))

/-- **C125** (an expectation that fails): what is shown with an exponent is not always read as the same float by the
    parser. `3e-5` (`f64`) and `1.3e-5` (`f32`) denote other floats, `1e16` (`f32`) denotes an integer, and with overflow
    checks `1e19` (`f64`) stops the program. -/
theorem C125_exponent_refuted :
    (rustFloat true shownSmall64 = "3e-5" ∧
      tokenize (ieeeEnv Float.Model true) "3e-5".toList = .ok [⟨⟨1, 1⟩, .Float shownSmall64'⟩] ∧ shownSmall64' ≠ shownSmall64) ∧
    (rustFloat true shownSmall32 = "1.3e-5" ∧
      tokenize (ieeeEnv Float32.Model true) "1.3e-5".toList = .ok [⟨⟨1, 1⟩, .Float shownSmall32'⟩] ∧ shownSmall32' ≠ shownSmall32) ∧
    (rustFloat true shownLarge32 = "1e16" ∧
      tokenize (ieeeEnv Float32.Model true) "1e16".toList = .ok [⟨⟨1, 1⟩, .Int 10000000000000000⟩]) ∧
    (rustFloat true shownLarge64 = "1e19" ∧ tokenize (ieeeEnv Float.Model true) "1e19".toList = .panic) := by
  refine ⟨⟨?_, ?_, ?_⟩, ⟨?_, ?_, ?_⟩, ⟨?_, ?_⟩, ⟨?_, ?_⟩⟩ <;> decide +kernel

-- the hypotheses of the theorems above
example : IsFinite shownSmall32 ∧ 'e' ∉ (rustFloat false shownSmall32).toList ∧ rustFloat false shownSmall32 = "0.000013" := by decide +kernel
example : IsFinite (Elem.fromInt 3 : Float.Model) ∧ rustFloat true (Elem.fromInt 3 : Float.Model) = "3.0" := by decide +kernel
example : 1 / 10000 ≤ |val (Elem.fromInt 3 : Float.Model)| ∧ |val (Elem.fromInt 3 : Float.Model)| < 10 ^ 16 := by
  rw [(fromInt_small (T := Float.Model) 3 (by norm_num)).2]
  norm_num
example : val shownSmall32 ≠ 0 := by
  unfold val
  rw [show up shownSmall32 = .finite .positive 14293651 (-40) (by norm_num) from rfl, uval_finite]
  norm_num [sgn]
example : IsFinite shownSmall32' ∧ val shownSmall32' < val shownSmall32 := by
  refine ⟨by decide +kernel, ?_⟩
  unfold val
  rw [show up shownSmall32 = .finite .positive 14293651 (-40) (by norm_num) from rfl,
    show up shownSmall32' = .finite .positive 14293650 (-40) (by norm_num) from rfl, uval_finite, uval_finite]
  norm_num [sgn]
-- texts of one digit, of eight and of seven; the largest float and the smallest one
example : [(13421773, -27), (16777215, -1), (8388609, 0), (10066331, 70), (16777215, 104), (1, -149)].map
    (fun (p : ℕ × ℤ) => shortest (IEEE.fmt Float32.Model) p.1 p.2) =
    [(1, -1), (83886075, -1), (8388609, 0), (11884226, 21), (34028235, 31), (1, -45)] := by decide +kernel

/-! ### What the program prints -/

theorem main_tables {F : Type} [Elem F] [As F F] [FloatFns F] [IEEE F] (checks b : Bool) [As (I64 checks) F] (D D' : DebugTable)
    (args : List String) : mainOutput checks (rustLeaves F b D D') true args =
      mainOutput checks (rustLeaves F b asciiTable asciiTable) true [] := rfl

/-- **C125**: what the program prints in single precision, with the library of today. -/
theorem C125_main (checks : Bool) (D D' : DebugTable) (args : List String) :
    mainOutput checks (rustLeaves Float32.Model true D D') true args = .ok (
      "Matrix4 {\n    mat: [\n        [\n            0.15384609,\n            0.23076919,\n            -0.38461515,\n".toList ++
      "            0.15384598,\n        ],\n        [\n            1.4871792,\n            0.8974358,\n".toList ++
      "            -6.051281,\n            4.1538453,\n        ],\n        [\n            1.307692,\n".toList ++
      "            0.46153843,\n            -4.7692304,\n            3.3076918,\n        ],\n        [\n".toList ++
      "            -2.666666,\n            -1.3333331,\n            10.333332,\n            -6.999999,\n        ],\n    ],\n}\n".toList) := by
  rw [main_tables checks true D D' args]
  cases checks <;> decide +kernel

/-- **C125**: what it prints with the feature `float_as_f64`. -/
theorem C125_main_double (checks : Bool) (D D' : DebugTable) (args : List String) :
    mainOutput checks (rustLeaves Float.Model true D D') true args = .ok (
      "Matrix4 {\n    mat: [\n        [\n            0.1538461538461543,\n            0.23076923076923098,\n".toList ++
      "            -0.38461538461538625,\n            0.15384615384615494,\n        ],\n        [\n".toList ++
      "            1.487179487179493,\n            0.8974358974358997,\n            -6.0512820512820715,\n".toList ++
      "            4.1538461538461675,\n        ],\n        [\n            1.3076923076923124,\n".toList ++
      "            0.46153846153846334,\n            -4.769230769230785,\n            3.3076923076923186,\n        ],\n".toList ++
      "        [\n            -2.6666666666666767,\n            -1.3333333333333373,\n            10.333333333333368,\n".toList ++
      "            -7.000000000000023,\n        ],\n    ],\n}\n".toList) := by
  rw [main_tables checks true D D' args]
  cases checks <;> decide +kernel

end Pbrt
