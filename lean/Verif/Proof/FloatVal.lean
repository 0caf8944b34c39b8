import Verif.Proof.FloatRound
import Mathlib.Data.EReal.Basic

/-!
# Floats as numbers

Packing and unpacking, the class of float types, and their operations as rounded operations on
extended real numbers.
-/

namespace Pbrt

open Float.Model (UnpackedFloat Format totalExponent)
open Float.Model.UnpackedFloat (Sign unpackMantissa unpackExponent unpackSign packComponents)

/-- The largest exponent of a format -/
def emax (fmt : Format) : ℤ := 2 ^ (fmt.exponentBits - 1) - fmt.mantissaBits

/-- The exponent is not too large -/
def InRange (fmt : Format) : UnpackedFloat → Prop
  | .finite _ _ e _ => e ≤ emax fmt
  | _ => True

/-- Overflow -/
def over (fmt : Format) : UnpackedFloat → UnpackedFloat
  | .finite s m e h => if e ≤ emax fmt then .finite s m e h else .infinity s
  | u => u

theorem two_pow_eb (fmt : Format) : 2 ^ fmt.exponentBits = 2 * 2 ^ (fmt.exponentBits - 1) := by
  have := fmt.he
  rw [← pow_succ']
  congr 1
  omega

theorem bias_cast (fmt : Format) : (fmt.exponentBias : ℤ) = 2 ^ (fmt.exponentBits - 1) - 1 := by
  unfold Format.exponentBias
  have : 1 ≤ 2 ^ (fmt.exponentBits - 1) := Nat.one_le_two_pow
  push_cast [Nat.cast_sub this]
  rfl

theorem unpack_form (fmt : Format) (heb : 2 ≤ fmt.exponentBits) (b : BitVec fmt.numBits) :
    Canon fmt (UnpackedFloat.unpack fmt b) ∧ InRange fmt (UnpackedFloat.unpack fmt b) := by
  have hb := bias_cast fmt
  have h2 := two_pow_eb fmt
  have h2z : ((2 ^ fmt.exponentBits : ℕ) : ℤ) = 2 * 2 ^ (fmt.exponentBits - 1) := by
    rw [h2]; push_cast; rfl
  fun_cases UnpackedFloat.unpack with
  | case1 => exact ⟨trivial, trivial⟩
  | case2 => exact ⟨trivial, trivial⟩
  | case3 => exact ⟨trivial, trivial⟩
  | case4 mvec evec e svec s h1 h3 h4 =>
    have hlt := mvec.isLt
    have he : e = -(fmt.exponentBias + fmt.mantissaBitsWithoutImplicit) := by
      simp only [e, h3]; simp
    have hmin : e + 1 = fmt.minExponent := by
      unfold Format.minExponent Format.mantissaBits
      push_cast
      omega
    refine ⟨⟨?_, hmin.ge, Or.inr hmin⟩, ?_⟩
    · refine hlt.trans_le ?_
      unfold Format.mantissaBits
      exact Nat.pow_le_pow_right (by norm_num) (by omega)
    · show e + 1 ≤ emax fmt
      have : (2 : ℤ) ^ 1 ≤ 2 ^ (fmt.exponentBits - 1) := pow_le_pow_right₀ (by norm_num) (by omega)
      rw [hmin]
      unfold emax Format.minExponent Format.mantissaBits
      push_cast
      omega
  | case5 mvec evec e svec s h1 h3 =>
    have hlt := mvec.isLt
    have hm : (1#1 ++ mvec).toNat = 2 ^ fmt.mantissaBitsWithoutImplicit + mvec.toNat := by
      have := Nat.two_pow_add_eq_or_of_lt mvec.isLt (a := 1)
      rw [Nat.mul_one] at this
      simp only [BitVec.toNat_append, BitVec.toNat_ofNat, Nat.pow_one, Nat.mod_succ,
        Nat.one_shiftLeft, ← this]
    have hev : 1 ≤ evec.toNat := by
      by_contra hc
      exact h3 (BitVec.eq_of_toNat_eq (by simp; omega))
    have hev2 : evec.toNat + 1 < 2 ^ fmt.exponentBits := by
      have := h1
      simp only [BitVec.neg_one_eq_allOnes, ← BitVec.lt_allOnes_iff, BitVec.lt_def,
        BitVec.toNat_allOnes] at this
      omega
    have hev3 : (evec.toNat : ℤ) + 1 < 2 * 2 ^ (fmt.exponentBits - 1) := by
      rw [← h2z]; exact_mod_cast hev2
    have he : e = evec.toNat - (fmt.exponentBias + fmt.mantissaBitsWithoutImplicit) := rfl
    refine ⟨⟨?_, ?_, Or.inl ?_⟩, ?_⟩
    · rw [hm]
      unfold Format.mantissaBits
      rw [Nat.add_comm 1, pow_succ]
      omega
    · unfold Format.minExponent Format.mantissaBits
      push_cast
      omega
    · rw [hm]
      unfold Format.mantissaBits
      simp
    · show e ≤ emax fmt
      unfold emax Format.mantissaBits
      push_cast
      omega

theorem unpack_pack {fmt : Format} {u : UnpackedFloat} (h : Canon fmt u) :
    UnpackedFloat.unpack fmt (UnpackedFloat.pack fmt u) = over fmt u := by
  cases u with
  | infinity s => exact unpack_packedInfinity ..
  | notANumber => exact UnpackedFloat.unpack_packedNaN
  | zero s => exact UnpackedFloat.unpack_packedZero
  | finite s m e hm =>
    obtain ⟨h1, h2, h3⟩ := h
    have hb := bias_cast fmt
    have hz : ((2 ^ fmt.exponentBits : ℕ) : ℤ) = 2 * 2 ^ (fmt.exponentBits - 1) := by
      rw [two_pow_eb]; push_cast; rfl
    have hminv : fmt.minExponent = 2 - 2 ^ (fmt.exponentBits - 1) - fmt.mantissaBitsWithoutImplicit := by
      unfold Format.minExponent Format.mantissaBits; push_cast; ring
    have hmaxv : emax fmt = 2 ^ (fmt.exponentBits - 1) - 1 - fmt.mantissaBitsWithoutImplicit := by
      unfold emax Format.mantissaBits; push_cast; ring
    have hp : fmt.mantissaBits = fmt.mantissaBitsWithoutImplicit + 1 := by
      unfold Format.mantissaBits; omega
    set B := (e + fmt.exponentBias + fmt.mantissaBitsWithoutImplicit).toNat with hB
    have hBz : (B : ℤ) = e + fmt.exponentBias + fmt.mantissaBitsWithoutImplicit := by omega
    have hB1 : 1 ≤ B := by omega
    unfold UnpackedFloat.pack
    simp only [← hB, over]
    by_cases hr : e ≤ emax fmt
    · have hlt : ¬ 2 ^ fmt.exponentBits ≤ B + 1 := by
        intro hc
        have : ((2 ^ fmt.exponentBits : ℕ) : ℤ) ≤ B + 1 := by exact_mod_cast hc
        omega
      rw [if_pos hr, if_neg hlt]
      have hBne : BitVec.ofNat fmt.exponentBits B ≠ -1#_ := by
        intro hc
        have := congrArg BitVec.toNat hc
        simp only [BitVec.neg_one_eq_allOnes, BitVec.toNat_allOnes, BitVec.toNat_ofNat] at this
        rw [Nat.mod_eq_of_lt (by omega)] at this
        omega
      have hBmod : B % 2 ^ fmt.exponentBits = B := Nat.mod_eq_of_lt (by omega)
      have hBne0 : BitVec.ofNat fmt.exponentBits B ≠ 0#_ := by
        intro hc
        have := congrArg BitVec.toNat hc
        simp only [BitVec.toNat_ofNat, hBmod, Nat.zero_mod] at this
        omega
      by_cases hn : m.log2 + 1 = fmt.mantissaBits
      · rw [if_pos hn]
        have hmlo : 2 ^ fmt.mantissaBitsWithoutImplicit ≤ m := by
          refine (Nat.le_log2 hm.ne').1 ?_
          omega
        have hmhi : m < 2 ^ fmt.mantissaBitsWithoutImplicit + 2 ^ fmt.mantissaBitsWithoutImplicit := by
          rw [hp, pow_succ] at h1; omega
        unfold UnpackedFloat.unpack
        simp only [UnpackedFloat.unpackExponent_packComponents, UnpackedFloat.unpackMantissa_packComponents,
          UnpackedFloat.unpackSign_packComponents, if_neg hBne, if_neg hBne0, Sign.ofBitVec_toBitVec]
        have e1 : ((BitVec.ofNat fmt.exponentBits B).toNat : ℤ) -
            (fmt.exponentBias + fmt.mantissaBitsWithoutImplicit) = e := by
          rw [BitVec.toNat_ofNat, hBmod]; omega
        have e2 : (1#1 ++ BitVec.ofNat fmt.mantissaBitsWithoutImplicit m).toNat = m := by
          have := Nat.two_pow_add_eq_or_of_lt (BitVec.ofNat fmt.mantissaBitsWithoutImplicit m).isLt (a := 1)
          rw [Nat.mul_one] at this
          simp only [BitVec.toNat_append, Nat.pow_one, 
            Nat.one_shiftLeft, show (1#1).toNat = 1 from rfl]
          rw [← this, BitVec.toNat_ofNat, Nat.mod_eq_sub_mod hmlo, Nat.mod_eq_of_lt (by omega)]
          omega
        simp only [e1, e2]
      · rw [if_neg hn]
        have hmhi : m < 2 ^ fmt.mantissaBitsWithoutImplicit := by
          refine (Nat.log2_lt hm.ne').1 ?_
          have := (Nat.log2_lt hm.ne').2 h1
          omega
        have he : e = fmt.minExponent := by
          refine h3.resolve_left ?_
          rw [hp]
          simp only [Nat.add_sub_cancel]
          omega
        have hmmod : m % 2 ^ fmt.mantissaBitsWithoutImplicit = m := Nat.mod_eq_of_lt hmhi
        have hm0 : BitVec.ofNat fmt.mantissaBitsWithoutImplicit m ≠ 0#_ := by
          intro hc
          have := congrArg BitVec.toNat hc
          simp only [BitVec.toNat_ofNat, hmmod, Nat.zero_mod] at this
          omega
        have h01 : (0#fmt.exponentBits) ≠ -1#_ := by
          simp [BitVec.zero_eq_neg_one_iff, Nat.ne_of_gt fmt.he]
        unfold UnpackedFloat.unpack
        simp only [UnpackedFloat.unpackExponent_packComponents, UnpackedFloat.unpackMantissa_packComponents,
          UnpackedFloat.unpackSign_packComponents, if_neg h01, if_true, dif_neg hm0, Sign.ofBitVec_toBitVec]
        have e1 : ((0#fmt.exponentBits).toNat : ℤ) -
            (fmt.exponentBias + fmt.mantissaBitsWithoutImplicit) + 1 = e := by
          simp; omega
        have e2 : (BitVec.ofNat fmt.mantissaBitsWithoutImplicit m).toNat = m := by
          rw [BitVec.toNat_ofNat, hmmod]
        simp only [e1, e2]
    · have hlt : 2 ^ fmt.exponentBits ≤ B + 1 := by
        have : ((2 ^ fmt.exponentBits : ℕ) : ℤ) ≤ B + 1 := by omega
        exact_mod_cast this
      rw [if_neg hr, if_pos hlt]
      exact unpack_packedInfinity ..

theorem canon_lt {fmt : Format} {m m' : ℕ} {e e' : ℤ} {s s' : Sign} {h h'}
    (hc : Canon fmt (.finite s m e h)) (hc' : Canon fmt (.finite s' m' e' h'))
    (hlt : e < e' ∨ (e = e' ∧ m < m')) : (m : ℝ) * 2 ^ e < m' * 2 ^ e' := by
  rcases hlt with hlt | ⟨rfl, hlt⟩
  · have hn := hc'.2.2.resolve_right (by have := hc.2.1; omega)
    have h1 : (m : ℝ) < 2 ^ fmt.mantissaBits := by exact_mod_cast hc.1
    have h2 : (2 : ℝ) ^ (fmt.mantissaBits - 1) ≤ m' := by exact_mod_cast hn
    have h3 : (2 : ℝ) ^ fmt.mantissaBits * 2 ^ e ≤ 2 ^ (fmt.mantissaBits - 1) * 2 ^ e' := by
      rw [← zpow_natCast, ← zpow_natCast, ← zpow_add₀ (by norm_num), ← zpow_add₀ (by norm_num)]
      refine zpow_le_zpow_right₀ (by norm_num) ?_
      have : 1 ≤ fmt.mantissaBits := by unfold Format.mantissaBits; omega
      omega
    have h4 := mul_lt_mul_of_pos_right h1 (two_zpow_pos e)
    have h5 := mul_le_mul_of_nonneg_right h2 (two_zpow_pos e').le
    linarith
  · exact mul_lt_mul_of_pos_right (by exact_mod_cast hlt) (two_zpow_pos e)

theorem uext_lt_of_key {fmt : Format} {a b : UnpackedFloat} (ha : Canon fmt a) (hb : Canon fmt b)
    (h : fkey a < fkey b) : uext a < uext b := by
  have hpos : ∀ (m : ℕ) (e : ℤ), 0 < m → (0 : ℝ) < m * 2 ^ e :=
    fun m e h => mul_pos (by exact_mod_cast h) (two_zpow_pos e)
  rcases a with (_|_) | _ | (_|_) | ⟨(_|_), m, e, hm⟩ <;>
  rcases b with (_|_) | _ | (_|_) | ⟨(_|_), m', e', hm'⟩ <;>
  simp only [fkey, key_lt] at h <;> try omega
  all_goals simp only [uext, uval, Sign.apply, bot_lt_top, EReal.bot_lt_coe, EReal.coe_lt_top,
    EReal.coe_lt_coe_iff, Int.cast_neg, Int.cast_natCast, neg_mul]
  all_goals try have h1 := hpos m e hm
  all_goals try have h2 := hpos m' e' hm'
  all_goals try linarith
  · have := canon_lt hb ha (by simp only [lt_irrefl, true_and, false_or] at h; omega)
    linarith
  · exact canon_lt ha hb (by simp only [lt_irrefl, true_and, false_or] at h; omega)

theorem uext_eq_of_key {a b : UnpackedFloat} (h : fkey a = fkey b) : uext a = uext b := by
  rcases a with (_|_) | _ | (_|_) | ⟨(_|_), m, e, hm⟩ <;>
  rcases b with (_|_) | _ | (_|_) | ⟨(_|_), m', e', hm'⟩ <;>
  simp only [fkey, key_eq] at h <;> try omega
  all_goals try rfl
  · obtain ⟨_, h1, h2⟩ := h
    have h1 : e = e' := by omega
    have h2 : m = m' := by omega
    subst h1 h2; rfl
  · obtain ⟨_, h1, h2⟩ := h
    have h2 : m = m' := by omega
    subst h1 h2; rfl

theorem key_lt_iff {fmt : Format} {a b : UnpackedFloat} (ha : Canon fmt a) (hb : Canon fmt b) :
    fkey a < fkey b ↔ uext a < uext b := by
  refine ⟨uext_lt_of_key ha hb, fun h => ?_⟩
  rcases lt_trichotomy (fkey a) (fkey b) with h' | h' | h'
  · exact h'
  · exact absurd (uext_eq_of_key h') h.ne
  · exact absurd (uext_lt_of_key hb ha h') h.asymm

theorem key_le_iff {fmt : Format} {a b : UnpackedFloat} (ha : Canon fmt a) (hb : Canon fmt b) :
    fkey a ≤ fkey b ↔ uext a ≤ uext b := by
  rw [← not_lt, ← not_lt, key_lt_iff hb ha]

theorem key_eq_iff {fmt : Format} {a b : UnpackedFloat} (ha : Canon fmt a) (hb : Canon fmt b) :
    fkey a = fkey b ↔ uext a = uext b := by
  rw [le_antisymm_iff, le_antisymm_iff, key_le_iff ha hb, key_le_iff hb ha]

/-- The first number that is too large for the format -/
noncomputable def big (fmt : Format) : ℝ := 2 ^ (emax fmt + fmt.mantissaBits)

theorem big_pos (fmt : Format) : 0 < big fmt := two_zpow_pos _

/-- IEEE rounding: to the nearest number of the format, ties to even, infinite on overflow -/
noncomputable def rnd (fmt : Format) (x : ℝ) : EReal :=
  if big fmt ≤ (grid fmt).RN x then ⊤ else if (grid fmt).RN x ≤ - big fmt then ⊥
  else ((grid fmt).RN x : ℝ)

theorem rnd_mono {fmt : Format} {x y : ℝ} (h : x ≤ y) : rnd fmt x ≤ rnd fmt y := by
  have hm := RN_mono (g := grid fmt) h
  have hb := big_pos fmt
  unfold rnd
  split_ifs <;> first | exact le_top | exact bot_le | exact le_refl _ |
    (exfalso; linarith) | exact_mod_cast hm

theorem rnd_neg (fmt : Format) (x : ℝ) : rnd fmt (-x) = - rnd fmt x := by
  have hb := big_pos fmt
  unfold rnd
  rw [RN_neg]
  split_ifs <;> first | rfl | (exfalso; linarith) | simp

theorem over_eq_iff {fmt : Format} {s : Sign} {m : ℕ} {e : ℤ} {h : 0 < m}
    (hc : Canon fmt (.finite s m e h)) (heb : 2 ≤ fmt.exponentBits) :
    e ≤ emax fmt ↔ (m : ℝ) * 2 ^ e < big fmt := by
  have hp := two_zpow_pos e
  constructor
  · intro he
    have h1 : (m : ℝ) < 2 ^ fmt.mantissaBits := by exact_mod_cast hc.1
    unfold big
    refine (mul_lt_mul_of_pos_right h1 hp).trans_le ?_
    rw [← zpow_natCast, ← zpow_add₀ (by norm_num)]
    exact zpow_le_zpow_right₀ (by norm_num) (by omega)
  · intro hlt
    by_contra hcon
    have hmax : fmt.minExponent ≤ emax fmt := by
      have : (2 : ℤ) ^ 1 ≤ 2 ^ (fmt.exponentBits - 1) := pow_le_pow_right₀ (by norm_num) (by omega)
      unfold emax Format.minExponent
      omega
    have hn := hc.2.2.resolve_right (by omega)
    have h2 : (2 : ℝ) ^ (fmt.mantissaBits - 1) ≤ m := by exact_mod_cast hn
    have h3 : big fmt ≤ 2 ^ (fmt.mantissaBits - 1) * 2 ^ e := by
      unfold big
      rw [← zpow_natCast, ← zpow_add₀ (by norm_num)]
      refine zpow_le_zpow_right₀ (by norm_num) ?_
      have : 1 ≤ fmt.mantissaBits := by unfold Format.mantissaBits; omega
      omega
    have h5 := mul_le_mul_of_nonneg_right h2 hp.le
    linarith

theorem uext_over {fmt : Format} {u : UnpackedFloat} {x : ℝ} (heb : 2 ≤ fmt.exponentBits)
    (h : Rounded fmt x u) : uext (over fmt u) = rnd fmt x ∧ over fmt u ≠ .notANumber := by
  have hb := big_pos fmt
  have hv := h.val
  cases u with
  | infinity s => exact h.fin.elim
  | notANumber => exact h.fin.elim
  | zero s =>
    simp only [over, uext, rnd, ← hv, uval]
    rw [if_neg (by linarith), if_neg (by linarith)]
    simp
  | finite s m e hm =>
    have hi := over_eq_iff h.canon heb
    have hpos : (0 : ℝ) < m * 2 ^ e := mul_pos (by exact_mod_cast hm) (two_zpow_pos e)
    have hvs : uval (.finite s m e hm) = sgn s * (m * 2 ^ e) := uval_finite ..
    simp only [over, rnd, ← hv]
    by_cases he : e ≤ emax fmt
    · have := hi.1 he
      rw [if_pos he, if_neg, if_neg]
      · exact ⟨by simp only [uext], by simp⟩
      · rw [hvs]; cases s <;> simp only [sgn] <;> linarith
      · rw [hvs]; cases s <;> simp only [sgn] <;> linarith
    · have := mt hi.2 he
      rw [if_neg he]
      cases s <;> simp only [sgn] at hvs
      · rw [if_neg (by rw [hvs]; linarith), if_pos (by rw [hvs]; linarith)]; simp [uext]
      · rw [if_pos (by rw [hvs]; linarith)]; simp [uext]

end Pbrt
