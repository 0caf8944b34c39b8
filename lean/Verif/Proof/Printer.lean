import Verif.Spec.Printer
import Verif.Props.Literals
import Verif.Props.Parsing

/-!
# Lemmas on the texts of floats and scenes
-/

namespace Pbrt.Proof

open Float.Model (UnpackedFloat Format)
open Pbrt.Spec

theorem pointDigits_spec (k n : ℕ) :
    (∀ c ∈ (pointDigits k n).1 ++ (pointDigits k n).2, IsDigit c) ∧ (pointDigits k n).1 ≠ [] ∧
    (pointDigits k n).2.length = k ∧ decVal ((pointDigits k n).1 ++ (pointDigits k n).2) = n := by
  obtain ⟨-, h2, h3⟩ := intText_digits (k + 1 - (Nat.toDigits 10 n).length) n
  unfold pointDigits
  generalize hd : List.replicate (k + 1 - (Nat.toDigits 10 n).length) '0' ++ Nat.toDigits 10 n = ds at *
  have hl : k < ds.length := by
    rw [← hd, List.length_append, List.length_replicate]
    omega
  simp only [List.take_append_drop]
  refine ⟨h2, ?_, ?_, h3⟩
  · intro h
    have := congrArg List.length h
    simp only [List.length_take, List.length_nil] at this
    omega
  · rw [List.length_drop]
    omega

theorem lowest_spec (k m : ℕ) : (lowest k m).1 ≤ k ∧
    ((lowest k m).2 : ℝ) / 2 ^ (lowest k m).1 = m / 2 ^ k := by
  induction k generalizing m with
  | zero => simp [lowest]
  | succ k ih =>
    rw [lowest]
    by_cases h : m % 2 = 0
    · rw [if_pos h]
      obtain ⟨h1, h2⟩ := ih (m / 2)
      refine ⟨by omega, ?_⟩
      have e : (m : ℝ) = 2 * ((m / 2 : ℕ) : ℝ) := by
        have : m = 2 * (m / 2) := by omega
        exact_mod_cast this
      rw [h2, e, pow_succ]
      field_simp
    · rw [if_neg h]
      exact ⟨le_refl _, rfl⟩

theorem fractionDigits_spec (k n : ℕ) :
    (∀ c ∈ (fractionDigits k n).1 ++ (fractionDigits k n).2, IsDigit c) ∧ (fractionDigits k n).1 ≠ [] ∧
    (fractionDigits k n).2.length = max 1 k ∧
    (decVal ((fractionDigits k n).1 ++ (fractionDigits k n).2) : ℝ) / 10 ^ (fractionDigits k n).2.length =
      n / 2 ^ k := by
  unfold fractionDigits
  by_cases hk : k = 0
  · rw [if_pos hk]
    subst hk
    obtain ⟨h1, h2, h3⟩ := intText_digits 0 n
    simp only [List.replicate_zero, List.nil_append] at h1 h2 h3
    refine ⟨?_, h1, by simp, ?_⟩
    · intro c hc
      rcases List.mem_append.1 hc with hc | hc
      · exact h2 c hc
      · rw [List.mem_singleton.1 hc]; unfold IsDigit; decide
    · have e1 : decVal (Nat.toDigits 10 n ++ ['0']) = 10 * n := by
        conv_rhs => rw [← h3]
        simp [decVal]
      rw [e1]
      push_cast
      simp
  · rw [if_neg hk]
    obtain ⟨h1, h2, h3, h4⟩ := pointDigits_spec k (n * 5 ^ k)
    refine ⟨h1, h2, by rw [h3]; omega, ?_⟩
    rw [h4, h3]
    push_cast
    rw [show (10 : ℝ) = 2 * 5 by norm_num, mul_pow]
    field_simp

theorem binaryDigits_spec (m : ℕ) (e : ℤ) :
    (∀ c ∈ (binaryDigits m e).1 ++ (binaryDigits m e).2, IsDigit c) ∧ (binaryDigits m e).1 ≠ [] ∧
    (1 ≤ (binaryDigits m e).2.length ∧ (binaryDigits m e).2.length ≤ max 1 (-e).toNat) ∧
    (decVal ((binaryDigits m e).1 ++ (binaryDigits m e).2) : ℝ) / 10 ^ (binaryDigits m e).2.length =
      m * 2 ^ e := by
  unfold binaryDigits
  by_cases he : 0 ≤ e
  · rw [if_pos he]
    obtain ⟨h1, h2, h3, h4⟩ := fractionDigits_spec 0 (m * 2 ^ e.toNat)
    refine ⟨h1, h2, by rw [h3]; omega, ?_⟩
    have e2 : e = (e.toNat : ℤ) := by omega
    rw [h4]
    conv_rhs => rw [e2, zpow_natCast]
    push_cast
    simp
  · rw [if_neg he]
    obtain ⟨h1, h2, h3, h4⟩ := fractionDigits_spec (lowest (-e).toNat m).1 (lowest (-e).toNat m).2
    obtain ⟨h5, h6⟩ := lowest_spec (-e).toNat m
    refine ⟨h1, h2, by rw [h3]; omega, ?_⟩
    have e2 : e = -((-e).toNat : ℤ) := by omega
    rw [h4, h6]
    conv_rhs => rw [e2, zpow_neg, zpow_natCast]
    rfl

section
variable {T : Type} [Elem T] [As T T] [FloatFns T] [IEEE T]

local notation "𝔽" => IEEE.fmt T

/-- The parts of a finite float are digits, and denote it exactly. -/
theorem floatParts_spec {f : T} (hf : IsFinite f) :
    ∃ s a b, floatParts (up f) = some (s, a, b) ∧ (∀ c ∈ a ++ b, IsDigit c) ∧ a ≠ [] ∧ b ≠ [] ∧
      decimal s a b = val f ∧
      (val f = 0 → (∀ c ∈ a ++ b, c = '0') ∧ up f = .zero (match s with | .minus => .negative | _ => .positive)) := by
  rw [isFinite_iff] at hf
  unfold val
  cases hu : up f with
  | infinity s => rw [hu] at hf; exact hf.elim
  | notANumber => rw [hu] at hf; exact hf.elim
  | zero s =>
    refine ⟨_, _, _, rfl, by unfold IsDigit; decide, by simp, by simp, ?_, fun _ => ⟨by simp, by cases s <;> rfl⟩⟩
    simp only [uval, decimal]
    cases s <;> simp [floatSign, Sign.apply, decVal]
  | finite s m e hm =>
    obtain ⟨h1, h2, h3, h4⟩ := binaryDigits_spec m e
    have hp : (0 : ℝ) < m * 2 ^ e := mul_pos (by exact_mod_cast hm) (two_zpow_pos e)
    refine ⟨floatSign s, (binaryDigits m e).1, (binaryDigits m e).2, rfl, h1, h2, ?_, ?_, ?_⟩
    · intro h; rw [h] at h3; simp at h3
    · rw [uval_finite, ← h4, decimal]
      cases s <;> simp [floatSign, Sign.apply, sgn, neg_div]
    · intro h
      rw [uval_finite] at h
      cases s <;> simp only [sgn] at h <;> linarith

/-- A number of the format: at most `p` bits and an exponent -/
theorem val_form (g : T) : ∃ (n : ℤ) (e : ℤ), |n| ≤ 2 ^ (𝔽).mantissaBits - 1 ∧ (𝔽).minExponent ≤ e ∧
    val g = n * 2 ^ e := by
  have hc := up_canon g
  have h1 : (1 : ℤ) ≤ 2 ^ (𝔽).mantissaBits := one_le_pow₀ (by norm_num)
  have triv : val g = 0 → ∃ (n : ℤ) (e : ℤ), |n| ≤ 2 ^ (𝔽).mantissaBits - 1 ∧ (𝔽).minExponent ≤ e ∧
      val g = n * 2 ^ e := fun h => ⟨0, (𝔽).minExponent, by rw [abs_zero]; omega, le_refl _, by simp [h]⟩
  cases hu : up g with
  | infinity s => exact triv (by unfold val; rw [hu]; rfl)
  | notANumber => exact triv (by unfold val; rw [hu]; rfl)
  | zero s => exact triv (by unfold val; rw [hu]; rfl)
  | finite s m e hm =>
    rw [hu] at hc
    have h2 : (m : ℤ) < 2 ^ (𝔽).mantissaBits := by exact_mod_cast hc.1
    have hv : val g = sgn s * (m * 2 ^ e) := by unfold val; rw [hu, uval_finite]
    cases s
    · exact ⟨-m, e, by rw [abs_neg, abs_of_nonneg (by omega)]; omega, hc.2.1, by rw [hv]; simp [sgn]⟩
    · exact ⟨m, e, by rw [abs_of_nonneg (by omega)]; omega, hc.2.1, by rw [hv]; simp [sgn]⟩

/-- Two numbers of the format that differ, differ by at least the last of `p` bits of the one. -/
theorem val_gap {f g : T} (h : val f ≠ val g) :
    |val f| * 2 ^ (-((𝔽).mantissaBits : ℤ)) ≤ |val g - val f| := by
  have hp1 : 1 ≤ (𝔽).mantissaBits := by unfold Format.mantissaBits; omega
  have hcf := up_canon f
  obtain ⟨n, e', hn, he', hg⟩ := val_form g
  have triv : val f = 0 → |val f| * 2 ^ (-((𝔽).mantissaBits : ℤ)) ≤ |val g - val f| := by
    intro h0; rw [h0, abs_zero, zero_mul]; exact abs_nonneg _
  cases hu : up f with
  | infinity s => exact triv (by unfold val; rw [hu]; rfl)
  | notANumber => exact triv (by unfold val; rw [hu]; rfl)
  | zero s => exact triv (by unfold val; rw [hu]; rfl)
  | finite s m e hm =>
    rw [hu] at hcf
    obtain ⟨c1, c2, c3⟩ := hcf
    have hv : val f = sgn s * (m * 2 ^ e) := by unfold val; rw [hu, uval_finite]
    have ha : |val f| = m * 2 ^ e := by
      rw [hv, abs_mul, abs_of_pos (mul_pos (by exact_mod_cast hm) (two_zpow_pos e))]
      cases s <;> simp [sgn]
    have hmR : (m : ℝ) ≤ 2 ^ (𝔽).mantissaBits := by exact_mod_cast c1.le
    have hue := two_zpow_pos e
    by_cases hle : e ≤ e'
    · obtain ⟨k, hk⟩ := zpow_mul_of_le hle
      obtain ⟨t, ht⟩ : ∃ t : ℤ, val g - val f = t * 2 ^ e := by
        rw [hg, hv, hk]
        cases s
        · exact ⟨n * k + m, by simp only [sgn]; push_cast; ring⟩
        · exact ⟨n * k - m, by simp only [sgn]; push_cast; ring⟩
      have ht0 : t ≠ 0 := by
        rintro rfl
        rw [Int.cast_zero, zero_mul, sub_eq_zero] at ht
        exact h ht.symm
      have h1 : (1 : ℝ) ≤ |(t : ℝ)| := by exact_mod_cast Int.one_le_abs ht0
      rw [ht, abs_mul, abs_of_pos hue, ha, zpow_neg, zpow_natCast]
      calc (m : ℝ) * 2 ^ e * (2 ^ (𝔽).mantissaBits)⁻¹ = m / 2 ^ (𝔽).mantissaBits * 2 ^ e := by ring
        _ ≤ 1 * 2 ^ e := by
            refine mul_le_mul_of_nonneg_right ?_ hue.le
            rw [div_le_one (by positivity)]
            exact hmR
        _ ≤ _ := mul_le_mul_of_nonneg_right h1 hue.le
    · have hm2 : 2 ^ ((𝔽).mantissaBits - 1) ≤ m := c3.resolve_right (by omega)
      have hmR2 : (2 : ℝ) ^ (𝔽).mantissaBits ≤ 2 * m := by
        have : 2 ^ (𝔽).mantissaBits ≤ 2 * m := by
          rw [show (𝔽).mantissaBits = (𝔽).mantissaBits - 1 + 1 by omega, pow_succ]
          omega
        exact_mod_cast this
      have hnR : |(n : ℝ)| ≤ 2 ^ (𝔽).mantissaBits - 1 := by exact_mod_cast hn
      have hu1 := two_zpow_pos (e - 1)
      have hgb : |val g| ≤ (2 ^ (𝔽).mantissaBits - 1) * 2 ^ (e - 1) := by
        rw [hg, abs_mul, abs_of_pos (two_zpow_pos e')]
        exact mul_le_mul hnR (zpow_le_zpow_right₀ (by norm_num) (by omega)) (two_zpow_pos e').le
          ((abs_nonneg _).trans hnR)
      have he2 : (2 : ℝ) ^ e = 2 * 2 ^ (e - 1) := by
        rw [show e = 1 + (e - 1) by ring, zpow_add₀ (by norm_num)]
        simp
      have h3 : |val f| - |val g| ≤ |val g - val f| := by
        rw [abs_sub_comm]; exact abs_sub_abs_le_abs_sub _ _
      refine le_trans ?_ h3
      have hP : (0 : ℝ) < 2 ^ (𝔽).mantissaBits := by positivity
      have h4 : (m : ℝ) * (2 * 2 ^ (e - 1)) * (2 ^ (𝔽).mantissaBits)⁻¹ ≤
          (2 * m - 2 ^ (𝔽).mantissaBits + 1) * 2 ^ (e - 1) := by
        rw [show (m : ℝ) * (2 * 2 ^ (e - 1)) * (2 ^ (𝔽).mantissaBits)⁻¹ =
          (2 * m / 2 ^ (𝔽).mantissaBits) * 2 ^ (e - 1) by ring]
        refine mul_le_mul_of_nonneg_right ?_ hu1.le
        rw [div_le_iff₀ hP]
        have : (1 : ℝ) ≤ 2 ^ (𝔽).mantissaBits := one_le_pow₀ (by norm_num)
        nlinarith
      rw [ha, he2, zpow_neg, zpow_natCast]
      linarith

/-- Less than half the distance to its neighbours away from a float, it is the nearest float. -/
theorem nearest_close {f g : T} {x : ℝ} (hf : IsFinite f) (hg : Nearest g x)
    (h : |x - val f| < |val f| * 2 ^ (-((𝔽).mantissaBits : ℤ)) / 2) : val g = val f := by
  by_contra hne
  have h1 := val_gap (f := f) (g := g) (Ne.symm hne)
  have h2 := hg.2 f hf
  have h3 : |val g - val f| ≤ |val g - x| + |x - val f| := abs_sub_le _ _ _
  rw [abs_sub_comm (val f) x] at h2
  linarith

variable {E : Env T}

/-- The text of a finite float is a literal for a float with the same value. -/
theorem floatText_value (hE : Sane E) (hR : Rounds E) {f : T} (hf : IsFinite f) :
    ∃ g, NumLit E (floatText f) (.Float g) ∧ IsFinite g ∧ val g = val f := by
  obtain ⟨s, a, b, h1, h2, h3, -, h5, -⟩ := floatParts_spec hf
  have hx : InSpan T (decimal s a b) := ⟨f, f, hf, hf, h5.ge, h5.le⟩
  obtain ⟨g, hg, hn⟩ := hR.point s a b h2 (by simp [h3]) hx
  refine ⟨g, ?_, hn.1, ?_⟩
  · unfold floatText
    rw [h1]
    exact NumLit.frac s _ g (fracBody_digits hE h2) hg
  · rw [← h5]
    exact nearest_exact hn hf h5.symm

/-- The text of a finite float is a literal for that float. -/
theorem floatText_numLit (hE : Sane E) (hR : Rounds E) (hZ : SignedZeros E) {f : T} (hf : IsFinite f) :
    NumLit E (floatText f) (.Float f) := by
  obtain ⟨g, hg, hgf, hv⟩ := floatText_value hE hR hf
  rcases lt_trichotomy (val f) 0 with h | h | h
  · rwa [eq_of_val hgf hf hv (by
      rw [(sign_of_val hf).2 h, (sign_of_val hgf).2 (by rw [hv]; exact h)])] at hg
  · obtain ⟨s, a, b, h1, h2, h3, -, -, h6⟩ := floatParts_spec hf
    obtain ⟨h7, h8⟩ := h6 h
    obtain ⟨z, hz, hu⟩ := hZ s a b h7 (by simp [h3])
    rw [up_inj (h8.trans hu.symm)]
    unfold floatText
    rw [← up_inj (h8.trans hu.symm), h1]
    rw [← up_inj (h8.trans hu.symm)] at hz
    exact NumLit.frac s _ f (fracBody_digits hE h2) hz
  · rwa [eq_of_val hgf hf hv (by
      rw [(sign_of_val hf).1 h, (sign_of_val hgf).1 (by rw [hv]; exact h)])] at hg

theorem ieeeEnv_zeros (checks : Bool) : SignedZeros (ieeeEnv T checks) := by
  intro s a b h hne
  have hd : ∀ c ∈ a ++ b, IsDigit c := fun c hc => by rw [h c hc]; unfold IsDigit; decide
  refine ⟨_, ieeeParse_body s a b _ hd hne (Or.inl rfl), ?_⟩
  have h0 : decVal (a ++ b) = 0 := by
    rw [List.eq_replicate_of_mem h]
    exact Nat.ofDigitChars_replicate_zero
  rw [h0, show ratio 𝔽 s.isMinus 0 (10 ^ b.length) = .zero (if s.isMinus then .negative else .positive) from rfl]
  cases s <;> exact up_pk (T := T) (u := .zero _) trivial

end

/-! ### Tokens and scenes -/

variable {F : Type} {E : Env F}

theorem intDigits_numLit {i : Int} (h : Fits i) : NumLit E (intDigits i) (.Int i) := by
  obtain ⟨h1, h2, h3⟩ := intText_digits 0 i.natAbs
  simp only [List.replicate_zero, List.nil_append] at h1 h2 h3
  unfold intDigits
  by_cases hi : i < 0
  · rw [if_pos hi]
    have e : Sign.minus.apply i.natAbs = i := by simp only [Sign.apply]; omega
    have := NumLit.int (E := E) .minus _ h1 h2 (by rw [h3, e]; exact h)
    rwa [h3, e] at this
  · rw [if_neg hi]
    have e : Sign.none.apply i.natAbs = i := by simp only [Sign.apply]; omega
    have := NumLit.int (E := E) .none _ h1 h2 (by rw [h3, e]; exact h)
    rwa [h3, e] at this

theorem isIdent_letters (hE : Sane E) (s : String)
    (h : (s.toList ≠ [] ∧ ∀ d ∈ s.toList, ('a' ≤ d ∧ d ≤ 'z') ∨ ('A' ≤ d ∧ d ≤ 'Z'))) : IsIdent E s := by
  obtain ⟨h0, h⟩ := h
  obtain ⟨c, cs, hc⟩ := List.exists_cons_of_ne_nil h0
  rw [hc] at h
  obtain ⟨h1, h2, h3⟩ := hE.letter c (h c (by simp))
  refine ⟨c, cs, hc, ⟨h1, h2, h3, ?_⟩, fun d hd => .inl (hE.letter d (h d (by simp [hd]))).1⟩
  intro hm
  have := (hE.punct c (by simp only [List.mem_cons, List.not_mem_nil, or_false] at hm ⊢; tauto)).2.1
  simp [h1] at this

theorem isIdent_noLf (hE : Sane E) {s : String} (h : IsIdent E s) : '\n' ∉ s.toList := by
  obtain ⟨c, cs, hc, h1, h2⟩ := h
  obtain ⟨w1, w2⟩ := hE.white '\n' (hE.space _ (by simp))
  rw [hc]
  intro hm
  rcases List.mem_cons.1 hm with rfl | hm
  · have := h1.1; rw [w2] at this; simp at this
  · rcases h2 _ hm with h | h
    · rw [w2] at h; simp at h
    · rw [w1] at h; simp at h

/-- The text of a token is a lexeme for it. -/
theorem tokenText_lexeme (hE : Sane E) {ft : F → List Char} {P : F → Prop}
    (hft : ∀ f, P f → NumLit E (ft f) (.Float f)) (t : TokenType F)
    (h1 : ∀ f, t = .Float f → P f) (h2 : ∀ i, t = .Int i → Fits i)
    (h3 : ∀ n, t = .Identifier n → IsIdent E n) :
    Lexeme E (tokenText ft t) t [] ∧ NoCrlf (tokenText ft t) := by
  cases t with
  | LBracket => exact ⟨.lbracket _, noCrlf_of_noLf (by simp [tokenText])⟩
  | RBracket => exact ⟨.rbracket _, noCrlf_of_noLf (by simp [tokenText])⟩
  | Str s =>
    have := Lexeme.str (E := E) _ s.toList [] (unesc_quote s.toList)
    rw [String.ofList_toList] at this
    exact ⟨this, noCrlf_of_noLf (quote_noLf _)⟩
  | Int i =>
    have := intDigits_numLit (E := E) (h2 i rfl)
    exact ⟨lexeme_of_numLit hE this (numFollow_nil E), numLit_noCrlf hE this⟩
  | Float f =>
    have := hft f (h1 f rfl)
    exact ⟨lexeme_of_numLit hE this (numFollow_nil E), numLit_noCrlf hE this⟩
  | Identifier n =>
    have hi := h3 n rfl
    refine ⟨?_, noCrlf_of_noLf (isIdent_noLf hE hi)⟩
    obtain ⟨c, cs, hc, i1, i2⟩ := hi
    have := Lexeme.ident (E := E) c cs [] i1 i2 (by simp)
    rw [← hc, String.ofList_toList] at this
    exact this

theorem spaced_layout (hE : Sane E) (ls : List (List Char)) : Layout E ls (spaced ls) := by
  have hb : Blank E ' ' := by
    have := hE.space ' ' (by simp)
    exact ⟨this, (hE.white _ this).1, by decide⟩
  induction ls with
  | nil => exact .nil
  | cons l ls ih =>
    cases ls with
    | nil => exact .one l
    | cons k ls =>
      have := Layout.cons l [' '] _ (k :: ls) (.blank ' ' [] hb .nil) (by simp) ih
      rwa [List.append_assoc] at this

/-! ### The identifiers of a scene -/

theorem num_ident (x : Num F) (n : String) : x.tok ≠ .Identifier n := by cases x <;> simp [Num.tok]

theorem num_ident' (x : Num F) (n : String) : .Identifier n ≠ x.tok := by cases x <;> simp [Num.tok]

theorem val_toks_ident (v : WVal F) {n : String} : .Identifier n ∉ v.toks := by
  cases v <;> simp [WVal.toks, brackets, pairToks, boolTok, num_ident, num_ident']

theorem params_ident (ps : List (WParam F)) {n : String} : .Identifier n ∉ ps.flatMap WParam.toks := by
  simp [WParam.toks, val_toks_ident]

theorem dirKey_ident (hE : Sane E) (k : DirKey) : IsIdent E k.word := by
  cases k <;> exact isIdent_letters hE _ (by decide +kernel)

theorem preKey_ident (hE : Sane E) (k : PreKey) : IsIdent E k.word := by
  cases k <;> exact isIdent_letters hE _ (by decide +kernel)

theorem open_ident (hE : Sane E) (k : BlockKey) : IsIdent E k.open := by
  cases k <;> exact isIdent_letters hE _ (by decide +kernel)

theorem close_ident (hE : Sane E) (k : BlockKey) : IsIdent E k.close := by
  cases k <;> exact isIdent_letters hE _ (by decide +kernel)

mutual
theorem dir_ident (hE : Sane E) : ∀ (d : WDir F) (n : String), .Identifier n ∈ d.toks → IsIdent E n
  | .typed k ty ps, n, h => by
    simp only [WDir.toks, List.mem_cons, TokenType.Identifier.injEq, reduceCtorEq, params_ident, or_false] at h
    rw [h]; exact dirKey_ident hE k
  | .texture _ _ _ ps, n, h => by
    simp only [WDir.toks, List.mem_cons, TokenType.Identifier.injEq, reduceCtorEq, params_ident, or_false] at h
    rw [h]; exact isIdent_letters hE _ (by decide +kernel)
  | .incl _, n, h => by
    simp only [WDir.toks, List.mem_cons, TokenType.Identifier.injEq, reduceCtorEq, List.not_mem_nil, or_false] at h
    rw [h]; exact isIdent_letters hE _ (by decide +kernel)
  | .block k ds, n, h => by
    simp only [WDir.toks, List.mem_cons, List.mem_append, TokenType.Identifier.injEq, List.not_mem_nil, or_false] at h
    rcases h with rfl | h | rfl
    · exact open_ident hE k
    · exact dirs_ident hE ds n h
    · exact close_ident hE k
theorem dirs_ident (hE : Sane E) : ∀ (ds : List (WDir F)) (n : String),
    .Identifier n ∈ WDir.toksAll ds → IsIdent E n
  | [], n, h => by simp [WDir.toksAll] at h
  | d :: ds, n, h => by
    simp only [WDir.toksAll, List.mem_append] at h
    rcases h with h | h
    · exact dir_ident hE d n h
    · exact dirs_ident hE ds n h
end

theorem pre_ident (hE : Sane E) (d : WPre F) (n : String) (h : .Identifier n ∈ d.toks) :
    IsIdent E n ∨ d = .activeTransform n := by
  cases d with
  | activeTransform s =>
    simp only [WPre.toks, List.mem_cons, TokenType.Identifier.injEq, List.not_mem_nil, or_false] at h
    rcases h with rfl | rfl
    · exact .inl (isIdent_letters hE _ (by decide +kernel))
    · exact .inr rfl
  | typed k ty ps =>
    simp only [WPre.toks, List.mem_cons, TokenType.Identifier.injEq, reduceCtorEq, params_ident, or_false] at h
    rw [h]; exact .inl (preKey_ident hE k)
  | _ =>
    simp only [WPre.toks, matToks, List.mem_cons, TokenType.Identifier.injEq, reduceCtorEq, List.not_mem_nil, or_false,
      num_ident'] at h
    rw [h]; exact .inl (isIdent_letters hE _ (by decide +kernel))

theorem scene_ident (hE : Sane E) (s : WScene F) (h : ∀ n, WPre.activeTransform n ∈ s.pre → IsIdent E n)
    (n : String) (hn : .Identifier n ∈ s.toks) : IsIdent E n := by
  unfold WScene.toks at hn
  rcases List.mem_append.1 hn with hn | hn
  · obtain ⟨d, hd, hn⟩ := List.mem_flatMap.1 hn
    rcases pre_ident hE d n hn with h' | rfl
    · exact h'
    · exact h n hd
  · exact dir_ident hE _ n hn

/-- The texts of the tokens of a scene are lexemes for them. -/
theorem scene_lexemes (hE : Sane E) {ft : F → List Char} {P : F → Prop}
    (hft : ∀ f, P f → NumLit E (ft f) (.Float f)) (s : WScene F) (h : s.Writable E P) :
    List.Forall₂ (fun l v => Lexeme E l v [] ∧ NoCrlf l) (s.toks.map (tokenText ft)) s.toks := by
  obtain ⟨h1, h2, h3⟩ := h
  have h4 := scene_ident hE s h3
  generalize s.toks = ts at *
  induction ts with
  | nil => exact .nil
  | cons t ts ih =>
    refine .cons (tokenText_lexeme hE hft t ?_ ?_ ?_) (ih ?_ ?_ ?_)
    · rintro f rfl; exact h1 f (by simp)
    · rintro i rfl; exact h2 i (by simp)
    · rintro n rfl; exact h4 n (by simp)
    · exact fun f hf => h1 f (by simp [hf])
    · exact fun f hf => h2 f (by simp [hf])
    · exact fun f hf => h4 f (by simp [hf])

end Pbrt.Proof
