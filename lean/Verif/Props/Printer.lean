import Verif.Proof.Printer

/-!
# C98: every scene of finite floats can be written down

Every finite float has a text that reads back as that float, and so has every scene whose floats
are finite.
-/

namespace Pbrt

open Float.Model (UnpackedFloat Format)
open Pbrt.Spec Pbrt.Proof

section
variable {T : Type} [Elem T] [As T T] [FloatFns T] [IEEE T] {E : Env T}

local notation "𝔽" => IEEE.fmt T

/-! ### Floats -/

/-- **C98**: the text of a finite float is its exact value: an optional minus sign, digits, a point
    and digits, with no more of them after the point than the smallest exponent has bits. -/
theorem C98_exact {f : T} (hf : IsFinite f) :
    ∃ s a b, floatText f = s.text ++ (a ++ '.' :: b) ∧ s ≠ .plus ∧ (∀ c ∈ a ++ b, IsDigit c) ∧
      a ≠ [] ∧ b ≠ [] ∧ b.length ≤ max 1 (-(𝔽).minExponent).toNat ∧ decimal s a b = val f := by
  obtain ⟨s, a, b, h1, h2, h3, h4, h5, -⟩ := floatParts_spec hf
  refine ⟨s, a, b, by unfold floatText; rw [h1], ?_, h2, h3, h4, ?_, h5⟩
  · have hc := up_canon f
    cases hu : up f with
    | infinity t => rw [hu] at h1; simp [floatParts] at h1
    | notANumber => rw [hu] at h1; simp [floatParts] at h1
    | zero t => rw [hu] at h1; cases t <;> simp [floatParts, floatSign] at h1 <;> rw [← h1.1] <;> simp
    | finite t m e hm => rw [hu] at h1; cases t <;> simp [floatParts, floatSign] at h1 <;> rw [← h1.1] <;> simp
  · have hc := up_canon f
    cases hu : up f with
    | infinity t => rw [hu] at h1; simp [floatParts] at h1
    | notANumber => rw [hu] at h1; simp [floatParts] at h1
    | zero t =>
      rw [hu] at h1
      simp only [floatParts, Option.some.injEq, Prod.mk.injEq] at h1
      rw [← h1.2.2, List.length_singleton]
      exact le_max_left _ _
    | finite t m e hm =>
      rw [hu] at h1 hc
      simp only [floatParts, Option.some.injEq, Prod.mk.injEq] at h1
      rw [show b = (binaryDigits m e).2 by rw [h1.2]]
      have := (binaryDigits_spec m e).2.2.1.2
      have := hc.2.1
      omega

/-- **C98**: it reads back as that float, bit for bit. -/
theorem C98_float (hE : Sane E) (hR : Rounds E) (hZ : SignedZeros E) {f : T} (hf : IsFinite f) :
    tokenize E (floatText f) = .ok [⟨⟨1, 1⟩, .Float f⟩] :=
  tokenize_numLit hE (floatText_numLit hE hR hZ hf)

/-- **C98**: if nothing is known about the sign of a zero that is read, it still reads back as a float
    that is `==` to it. -/
theorem C98_float_same (hE : Sane E) (hR : Rounds E) {f : T} (hf : IsFinite f) :
    ∃ g, tokenize E (floatText f) = .ok [⟨⟨1, 1⟩, .Float g⟩] ∧ IsFinite g ∧ Same g f ∧
      (val f ≠ 0 → g = f) := by
  obtain ⟨g, hg, hgf, hv⟩ := floatText_value hE hR hf
  refine ⟨g, tokenize_numLit hE hg, hgf, ?_, ?_⟩
  · exact (eq_iff_val hgf hf).2 hv
  · intro h
    refine eq_of_val hgf hf hv ?_
    rcases lt_or_gt_of_ne h with h | h
    · rw [(sign_of_val hf).2 h, (sign_of_val hgf).2 (by rw [hv]; exact h)]
    · rw [(sign_of_val hf).1 h, (sign_of_val hgf).1 (by rw [hv]; exact h)]

/-- **C98**: no two finite floats have the same text. -/
theorem C98_injective {f g : T} (hf : IsFinite f) (hg : IsFinite g) (h : floatText f = floatText g) :
    f = g := by
  have h1 := C98_float (ieeeEnv_sane true) (ieeeEnv_rounds true) (ieeeEnv_zeros true) hf
  have h2 := C98_float (ieeeEnv_sane true) (ieeeEnv_rounds true) (ieeeEnv_zeros true) hg
  rw [h, h2] at h1
  simpa using h1.symm

/-- **C98**: a number less than half a unit of `p` bits away from a float reads back as that float. -/
theorem C98_close (hE : Sane E) (hR : Rounds E) {f g : T} (hf : IsFinite f) {s : Sign} {a b l : List Char}
    (hl : Written s a b l) (hx : InSpan T (decimal s a b)) (hg : ReadAs E l g)
    (h : |decimal s a b - val f| < |val f| * 2 ^ (-((𝔽).mantissaBits : ℤ)) / 2) : g = f := by
  have hn := (C70_nearest hE hR hl hx).2 g hg
  have hv := nearest_close hf hn h
  have h0 : val f ≠ 0 := by
    intro h0
    rw [h0, abs_zero, zero_mul, zero_div] at h
    exact absurd h (not_lt.2 (abs_nonneg _))
  refine eq_of_val hn.1 hf hv ?_
  rcases lt_or_gt_of_ne h0 with h0 | h0
  · rw [(sign_of_val hf).2 h0, (sign_of_val hn.1).2 (by rw [hv]; exact h0)]
  · rw [(sign_of_val hf).1 h0, (sign_of_val hn.1).1 (by rw [hv]; exact h0)]

end

/-- **C98**: nine significant digits are enough for an `f32` -/
theorem C98_digits32 {E : Env Float32.Model} (hE : Sane E) (hR : Rounds E) {f g : Float32.Model}
    (hf : IsFinite f) {s : Sign} {a b l : List Char} (hl : Written s a b l)
    (hx : InSpan Float32.Model (decimal s a b)) (hg : ReadAs E l g) (k : ℤ) (hk : 10 ^ k ≤ |val f|)
    (h : |decimal s a b - val f| ≤ 10 ^ (k - 8) / 2) : g = f := by
  refine C98_close hE hR hf hl hx hg (h.trans_lt ?_)
  rw [show ((IEEE.fmt Float32.Model).mantissaBits : ℤ) = ((24 : ℕ) : ℤ) from rfl, zpow_neg, zpow_natCast,
    show k - 8 = k - ((8 : ℕ) : ℤ) from rfl, zpow_sub₀ (by norm_num), zpow_natCast]
  have : (0 : ℝ) < 10 ^ k := zpow_pos (by norm_num) k
  have h2 : (10 : ℝ) ^ k / 10 ^ 8 < |val f| * (2 ^ 24)⁻¹ := by
    rw [div_lt_iff₀ (by norm_num)]
    norm_num
    linarith
  linarith

/-- **C98**: seventeen significant digits are enough for an `f64` -/
theorem C98_digits64 {E : Env Float.Model} (hE : Sane E) (hR : Rounds E) {f g : Float.Model}
    (hf : IsFinite f) {s : Sign} {a b l : List Char} (hl : Written s a b l)
    (hx : InSpan Float.Model (decimal s a b)) (hg : ReadAs E l g) (k : ℤ) (hk : 10 ^ k ≤ |val f|)
    (h : |decimal s a b - val f| ≤ 10 ^ (k - 16) / 2) : g = f := by
  refine C98_close hE hR hf hl hx hg (h.trans_lt ?_)
  rw [show ((IEEE.fmt Float.Model).mantissaBits : ℤ) = ((53 : ℕ) : ℤ) from rfl, zpow_neg, zpow_natCast,
    show k - 16 = k - ((16 : ℕ) : ℤ) from rfl, zpow_sub₀ (by norm_num), zpow_natCast]
  have : (0 : ℝ) < 10 ^ k := zpow_pos (by norm_num) k
  have h2 : (10 : ℝ) ^ k / 10 ^ 16 < |val f| * (2 ^ 53)⁻¹ := by
    rw [div_lt_iff₀ (by norm_num)]
    norm_num
    linarith
  linarith

/-- `1000 + 2^-14` and the next float -/
def thousand32 : Float32.Model := .pack (.finite .positive 16384001 (-14) (by norm_num))
def thousand32' : Float32.Model := .pack (.finite .positive 16384002 (-14) (by norm_num))

/-- `5 + 2^-48` and the next float -/
def five64 : Float.Model := .pack (.finite .positive 5629499534213124 (-50) (by norm_num))
def five64' : Float.Model := .pack (.finite .positive 5629499534213125 (-50) (by norm_num))

theorem val_thousand : val thousand32 = 1000 + 2 ^ (-14 : ℤ) := by
  unfold val
  rw [show up thousand32 = .finite .positive 16384001 (-14) (by norm_num) from rfl, uval_finite]
  norm_num [sgn]

theorem val_five : val five64 = 5 + 2 ^ (-48 : ℤ) := by
  unfold val
  rw [show up five64 = .finite .positive 5629499534213124 (-50) (by norm_num) from rfl, uval_finite]
  norm_num [sgn]

/-- **C98** (expectations that fail): eight digits are not enough for an `f32`, sixteen not for an
    `f64`: these literals are the floats to eight (sixteen) digits, and read back as the next float. -/
theorem C98_digits_refuted :
    (IsFinite thousand32 ∧ (10 : ℝ) ^ (3 : ℤ) ≤ |val thousand32| ∧
      |decimal .none "1000".toList "0001".toList - val thousand32| ≤ 10 ^ ((3 : ℤ) - 7) / 2 ∧
      tokenize (ieeeEnv Float32.Model true) "1000.0001".toList = .ok [⟨⟨1, 1⟩, .Float thousand32'⟩] ∧
      ¬ Same thousand32' thousand32) ∧
    (IsFinite five64 ∧ (10 : ℝ) ^ (0 : ℤ) ≤ |val five64| ∧
      |decimal .none "5".toList "000000000000004".toList - val five64| ≤ 10 ^ ((0 : ℤ) - 15) / 2 ∧
      tokenize (ieeeEnv Float.Model true) "5.000000000000004".toList = .ok [⟨⟨1, 1⟩, .Float five64'⟩] ∧
      ¬ Same five64' five64) := by
  have d1 : decimal .none "1000".toList "0001".toList = 10000001 / 10000 := by
    rw [decimal, show Sign.none.apply (decVal ("1000".toList ++ "0001".toList)) = 10000001 by decide +kernel,
      show "0001".toList.length = 4 by decide +kernel]
    norm_num
  have d2 : decimal .none "5".toList "000000000000004".toList = 5000000000000004 / 1000000000000000 := by
    rw [decimal, show Sign.none.apply (decVal ("5".toList ++ "000000000000004".toList)) = 5000000000000004 by
      decide +kernel, show "000000000000004".toList.length = 15 by decide +kernel]
    norm_num
  refine ⟨⟨by decide +kernel, ?_, ?_, by decide +kernel, by decide +kernel⟩,
    ⟨by decide +kernel, ?_, ?_, by decide +kernel, by decide +kernel⟩⟩
  · rw [val_thousand, abs_of_pos (by norm_num)]; norm_num
  · rw [val_thousand, d1, abs_of_pos (by norm_num)]; norm_num
  · rw [val_five, abs_of_pos (by norm_num)]; norm_num
  · rw [val_five, d2]; norm_num [abs_of_pos, abs_of_neg]

/-! ### Scenes -/

/-- **C98**: whatever the float type is, if the texts `ft` are literals for the floats of the scene, then
    the tokens of the scene, written with any layout, read back as the scene. -/
theorem C98_layout {F : Type} {E : Env F} (hE : Sane E) {ft : F → List Char} {P : F → Prop}
    (hft : ∀ f, P f → NumLit E (ft f) (.Float f)) (s : WScene F) (hs : s.Ok E) (hb : s.BlocksLast)
    (hw : s.Writable E P) (lead text : List Char) (hlead : Sep E lead)
    (htext : Layout E (s.toks.map (tokenText ft)) text) :
    ∃ toks, tokenize E (lead ++ text) = .ok toks ∧ toks.map Token.ty = s.toks ∧
      parse E (lead ++ text) = .ok (s.place E (toks.map Token.pos)) :=
  C17_round_trip hE s hs hb _ (scene_lexemes hE hft s hw) lead text hlead htext

section
variable {T : Type} [Elem T] [As T T] [FloatFns T] [IEEE T] {E : Env T}

/-- **C98**: every scene of finite floats has a text, and the parser returns the scene for it, every
    float bit for bit. -/
theorem C98_scene (hE : Sane E) (hR : Rounds E) (hZ : SignedZeros E) (s : WScene T) (hs : s.Ok E)
    (hb : s.BlocksLast) (hw : s.Writable E IsFinite) :
    ∃ toks, tokenize E (s.text floatText) = .ok toks ∧ toks.map Token.ty = s.toks ∧
      parse E (s.text floatText) = .ok (s.place E (toks.map Token.pos)) :=
  C98_layout hE (fun _ hf => floatText_numLit hE hR hZ hf) s hs hb hw [] _ .nil (spaced_layout hE _)

/-- **C98**: the library that the assumptions are proved for -/
theorem C98_ieee (checks : Bool) (s : WScene T) (hs : s.Ok (ieeeEnv T checks)) (hb : s.BlocksLast)
    (hw : s.Writable (ieeeEnv T checks) IsFinite) :
    ∃ toks, tokenize (ieeeEnv T checks) (s.text floatText) = .ok toks ∧ toks.map Token.ty = s.toks ∧
      parse (ieeeEnv T checks) (s.text floatText) = .ok (s.place (ieeeEnv T checks) (toks.map Token.pos)) :=
  C98_scene (ieeeEnv_sane checks) (ieeeEnv_rounds checks) (ieeeEnv_zeros checks) s hs hb hw

end

/-! ### Concrete cases -/

-- `0.9` as an `f32`, -0, the largest `f32`, -1/16 as an `f64`
example : floatText nine32 = "0.89999997615814208984375".toList := by decide +kernel
example : floatText (.pack (.zero .negative) : Float32.Model) = "-0.0".toList := by decide +kernel
example : floatText (.pack (.finite .positive 16777215 104 (by norm_num)) : Float32.Model) =
    "340282346638528859811704183484516925440.0".toList := by decide +kernel
example : floatText (.pack (.finite .negative 4503599627370496 (-56) (by norm_num)) : Float.Model) = "-0.0625".toList := by
  decide +kernel
example : IsFinite nine32 ∧ tokenize (ieeeEnv Float32.Model true) "0.89999997615814208984375".toList =
    .ok [⟨⟨1, 1⟩, .Float nine32⟩] := by decide +kernel
example : tokenize (ieeeEnv Float32.Model true) "-0.0".toList =
    .ok [⟨⟨1, 1⟩, .Float (.pack (.zero .negative))⟩] := by decide +kernel

-- nine digits of that `f32`
example : Written .none "0".toList "899999976".toList "0.899999976".toList ∧
    (10 : ℝ) ^ (-1 : ℤ) ≤ |val nine32| ∧
    |decimal .none "0".toList "899999976".toList - val nine32| ≤ 10 ^ ((-1 : ℤ) - 8) / 2 ∧
    tokenize (ieeeEnv Float32.Model true) "0.899999976".toList = .ok [⟨⟨1, 1⟩, .Float nine32⟩] := by
  have v : val nine32 = 15099494 / 2 ^ 24 := by
    unfold val
    rw [show up nine32 = .finite .positive 15099494 (-24) (by norm_num) from rfl, uval_finite]
    norm_num [sgn]
  have d : decimal .none "0".toList "899999976".toList = 899999976 / 1000000000 := by
    rw [decimal, show Sign.none.apply (decVal ("0".toList ++ "899999976".toList)) = 899999976 by decide +kernel,
      show "899999976".toList.length = 9 by decide +kernel]
    norm_num
  refine ⟨⟨by unfold IsDigit; decide +kernel, by decide +kernel, Or.inl (by decide +kernel)⟩, ?_, ?_, by decide +kernel⟩
  · rw [v, abs_of_pos (by norm_num)]; norm_num
  · rw [v, d]; norm_num [abs_of_pos, abs_of_neg]

/-- A scene: `Translate 0.9 -3 0.5`, and in the world a sphere of radius 0.9 in an attribute block -/
def printScene : WScene Float32.Model where
  pre := [.translate (.flt nine32) (.int (-3)) (.flt (.pack (.finite .positive 8388608 (-24) (by norm_num)))),
    .activeTransform "All"]
  world := [.typed .Material "a \"b\"\n" [],
    .block .Attribute [.typed .Shape "sphere" [⟨"float radius", "radius", .floats [.flt nine32, .int 2]⟩]]]

-- its text, and that it meets the hypotheses of `C98_ieee`
example : printScene.text floatText =
    ("Translate 0.89999997615814208984375 -3 0.5 ActiveTransform All WorldBegin Material " ++
      "\"a \\\"b\\\"\\n\" AttributeBegin Shape \"sphere\" \"float radius\" [ 0.89999997615814208984375 2 ] " ++
      "AttributeEnd WorldEnd").toList := by decide +kernel

example : printScene.Ok (ieeeEnv Float32.Model true) ∧ printScene.BlocksLast ∧
    printScene.Writable (ieeeEnv Float32.Model true) IsFinite := by
  refine ⟨⟨?_, ?_⟩, ?_, ?_, ?_, ?_⟩
  · simp [printScene, WPre.Ok]
  · simp only [printScene, WDir.OkAll, WDir.Ok, List.not_mem_nil, false_implies, implies_true, List.mem_singleton,
      forall_eq, true_and, and_true, WParam.Ok, WVal.Ok]
    exact ⟨⟨[], [' '], [], by decide +kernel, by decide +kernel, by simp, by decide +kernel, by decide +kernel,
      by decide +kernel⟩, by simp⟩
  · simp [printScene, WScene.BlocksLast, WDir.BlocksLastAll, WDir.BlocksLast, WDir.isBlock]
  · intro f hf
    have h : ∀ t ∈ printScene.toks, (match t with | .Float f => decide (IsFinite f) | _ => true) = true := by
      decide +kernel
    exact of_decide_eq_true (h _ hf)
  · intro i hi
    have h : ∀ t ∈ printScene.toks, (match t with | .Int i => decide (-(2 ^ 63) ≤ i ∧ i < 2 ^ 63) | _ => true) = true := by
      decide +kernel
    have h2 : -(2 ^ 63) ≤ i ∧ i < 2 ^ 63 := of_decide_eq_true (h _ hi)
    exact h2
  · intro n hn
    have : n = "All" := by simpa [printScene] using hn
    subst this
    exact isIdent_letters (ieeeEnv_sane true) _ (by decide +kernel)

end Pbrt
