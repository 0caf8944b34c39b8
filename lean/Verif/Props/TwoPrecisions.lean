import Verif.Proof.TwoPrecisions
import Verif.Props.FloatType
import Verif.Spec.TwoPrecisions

/-!
# C122: how far the two precisions differ
-/

namespace Pbrt

open Spec Proof Proof.TwoPrecisions
open Float.Model (UnpackedFloat)

section
variable {F G : Type} {E : Env F} {E' : Env G}

/-- Formulas and their values -/
theorem alike_formulas (E : Env F) : Alike (Formula.Value E) (formulas E) E where
  numeric := rfl
  alphabetic := rfl
  whitespace := rfl
  intError := rfl
  quoted := rfl
  checks := rfl
  literal cs := by
    simp only [formulas]
    cases h : E.parseFloat cs with
    | ok x => exact .inl ⟨_, _, rfl, rfl, .literal _ _ h⟩
    | error m => exact .inr ⟨_, rfl, rfl⟩
  times _ _ _ _ h h' := .times _ _ _ _ h h'
  power _ _ h := .power _ _ h
  ofInt i := .int i

theorem value_unique {φ : Formula} {x y : F} (h : Formula.Value E φ x) (h' : Formula.Value E φ y) : x = y := by
  induction h generalizing y with
  | literal cs x h =>
    cases h' with
    | literal _ _ h' => rw [h] at h'; exact Except.ok.inj h'
  | int i => cases h'; rfl
  | times a b x y _ _ iha ihb =>
    cases h' with
    | times _ _ _ _ ha' hb' => rw [iha ha', ihb hb']
  | power a x _ ih =>
    cases h' with
    | power _ _ ha' => rw [ih ha']

/-- **C122**: every float of a scene is the value of a formula that depends on the text only: of a
    text given to the library, of an integer, or of products and powers of ten of such. -/
theorem C122_formulas (E : Env F) (text : List Char) :
    ((∃ s, parse E text = .ok s) ↔ ∃ fs, parse (formulas E) text = .ok fs) ∧
    ∀ s fs, parse E text = .ok s → parse (formulas E) text = .ok fs →
      shapeScene fs = shapeScene s ∧ scenePaths fs = scenePaths s ∧
      List.Forall₂ (Formula.Value E) (sceneFloats fs) (sceneFloats s) := by
  have := C92_parse (alike_formulas E) text
  generalize parse E text = x at this
  generalize parse (formulas E) text = y at this
  cases this with
  | ok a a' h =>
    refine ⟨by simp, ?_⟩
    rintro s fs ⟨⟩ ⟨⟩
    exact ⟨h.1, h.2.2, h.2.1⟩
  | err e e' h => simp
  | panic => simp
  | diverge => simp

/-- **C122**: the formulas are the same for both builds. -/
theorem C122_same_formulas (hE : Alike (fun _ _ => True) E E') : formulas E = formulas E' := by
  have hp : (fun cs => match E.parseFloat cs with
      | .ok _ => Except.ok (Formula.literal cs)
      | .error m => .error m) = fun cs => match E'.parseFloat cs with
      | .ok _ => Except.ok (Formula.literal cs)
      | .error m => .error m := by
    funext cs
    rcases hE.literal cs with ⟨x, y, h1, h2, -⟩ | ⟨m, h1, h2⟩ <;> rw [h1, h2]
  unfold formulas
  rw [hE.numeric, hE.alphabetic, hE.whitespace, hE.intError, hE.quoted, hE.checks]
  simp only [Env.mk.injEq, true_and, and_true]
  exact hp
end

/-- **C122**: the formula of a literal is plain exactly if the literal has no exponent. -/
theorem C122_exponents {F : Type} {E : Env F} (hE : Sane E) {l : List Char} {φ : Formula}
    (h : NumLit (formulas E) l (.Float φ)) : φ.Plain ↔ 'e' ∉ l := by
  generalize ht : TokenType.Float φ = t at h
  have hp : ∀ cs ψ, (formulas E).parseFloat cs = .ok ψ → ψ = .literal cs := by
    intro cs ψ h
    simp only [formulas] at h
    split at h
    · exact (Except.ok.inj h).symm
    · simp at h
  have he : E.isNumeric 'e' = false := (hE.letter 'e' (by decide)).2.1
  have hint : ∀ ds, IntBody (formulas E) ds → 'e' ∉ ds := by
    intro ds h hc
    have h' : E.isNumeric 'e' = true := h 'e' hc
    rw [he] at h'
    simp at h'
  cases h with
  | int => simp at ht
  | frac s ds f hds hf =>
    obtain rfl := TokenType.Float.inj ht
    rw [hp _ _ hf]
    obtain ⟨a, b, rfl, ha, hb⟩ := hds
    have := hint a ha
    have := hint b hb
    simp only [Formula.Plain, true_iff]
    cases s <;> simp [Sign.text, *]
  | intExp => simp at ht
  | negExp s ds x m k => obtain rfl := TokenType.Float.inj ht; simp [formulas, Formula.Plain]
  | fracExp s ds x m k => obtain rfl := TokenType.Float.inj ht; simp [formulas, Formula.Plain]
  | floatExp s ds x m f => obtain rfl := TokenType.Float.inj ht; simp [formulas, Formula.Plain]

section
variable {E : Env Float32.Model} {E' : Env Float.Model}

theorem span_double {v : ℝ} (hx : InSpan Float32.Model v) : InSpan Float.Model v := by
  obtain ⟨lo, hi, h1, h2, h3, h4⟩ := hx
  obtain ⟨lo', h5, h6⟩ := exists_wide wider_double h1
  obtain ⟨hi', h7, h8⟩ := exists_wide wider_double h2
  exact ⟨lo', hi', h5, h7, by rwa [h6], by rwa [h8]⟩

/-- **C122**: the single precision float of a literal without exponent is a float nearest to the
    double precision one. -/
theorem C122_literal (hE : Sane E) (hR : Rounds E) (hE' : Sane E') (hR' : Rounds E') {s : Sign}
    {a b l : List Char} {f : Float32.Model} {g : Float.Model} (hl : Written s a b l)
    (hx : InSpan Float32.Model (decimal s a b)) (hf : ReadAs E l f) (hg : ReadAs E' l g) :
    Nearest f (val g) := by
  have hx' := span_double hx
  exact nearest_double wider_double ((C70_nearest hE hR hl hx).2 f hf)
    ((C70_nearest hE' hR' hl hx').2 g hg) hx

/-- **C122**: so the two differ by at most half a unit in the last place of the single precision
    one. -/
theorem C122_error (hE : Sane E) (hR : Rounds E) (hE' : Sane E') (hR' : Rounds E') {s : Sign}
    {a b l : List Char} {f : Float32.Model} {g : Float.Model} (hl : Written s a b l)
    (hx : InSpan Float32.Model (decimal s a b)) (hf : ReadAs E l f) (hg : ReadAs E' l g) :
    |val f - val g| ≤ 2 ^ (-24 : ℤ) * |val g| + 2 ^ (-150 : ℤ) := by
  have hx' := span_double hx
  have h := nearest_error (C122_literal hE hR hE' hR' hl hx hf hg)
    (inSpan_wide wider_double ((C70_nearest hE' hR' hl hx').2 g hg) hx)
  exact h

/-- **C122**: a number of at most 24 bits is read the same. -/
theorem C122_exact (hE : Sane E) (hR : Rounds E) (hE' : Sane E') (hR' : Rounds E') {s : Sign}
    {a b l : List Char} {f : Float32.Model} {g : Float.Model} (hl : Written s a b l)
    (hx : InSpan Float32.Model (decimal s a b)) (hf : ReadAs E l f) (hg : ReadAs E' l g) (n e : ℤ)
    (hn : |n| ≤ 2 ^ 24) (he : -149 ≤ e) (h : decimal s a b = n * 2 ^ e) : val f = val g := by
  have hx' := span_double hx
  rw [C70_exact hE hR hl hx hf n e hn he h, C70_exact hE' hR' hl hx' hg n e ?_ ?_ h]
  · exact hn.trans (by decide)
  · exact le_trans (by decide) he
end

/-- A text or an integer, rounded to both formats -/
theorem plain_chain (checks : Bool) {φ : Formula} (hφ : φ.Plain) {x : Float32.Model} {y : Float.Model}
    (hx : Formula.Value (ieeeEnv Float32.Model checks) φ x)
    (hy : Formula.Value (ieeeEnv Float.Model checks) φ y) (hf : IsFinite y)
    (hv : InSpan Float32.Model (val y)) : Nearest x (val y) := by
  cases hx with
  | literal cs x hx =>
    cases hy with
    | literal _ _ hy =>
      change ieeeParse _ cs = .ok x at hx
      change ieeeParse _ cs = .ok y at hy
      unfold ieeeParse at hx hy
      simp only at hx hy
      split_ifs at hx hy
      all_goals
        obtain rfl := Except.ok.inj hx
        obtain rfl := Except.ok.inj hy
        exact pk_chain wider_double (ratio_rounded _ _ _ _ (by positivity))
          (ratio_rounded _ _ _ _ (by positivity)) hf hv
  | int i =>
    cases hy
    change Nearest (Elem.fromInt i : Float32.Model) (val (Elem.fromInt i : Float.Model))
    change IsFinite (Elem.fromInt i : Float.Model) at hf
    change InSpan _ (val (Elem.fromInt i : Float.Model)) at hv
    rw [IEEE.int_eq] at hf hv ⊢
    rw [IEEE.int_eq]
    exact pk_chain wider_double
      (normalize_rounded (n := i) (e := 0) (z := .positive) (x := i) (by simp)).1
      (normalize_rounded (n := i) (e := 0) (z := .positive) (x := i) (by simp)).1 hf hv
  | times => exact hφ.elim
  | power => exact hφ.elim

/-- **C122**, for whole scenes: the floats of the two builds are the values of the same formulas, and
    where the formula is a literal without exponent or an integer, the single precision float is a
    float nearest to the double precision one (if that is in the range of single precision). -/
theorem C122_scene (checks : Bool) {text : List Char}
    {s : List (PreDirective Float32.Model) × Directive Float32.Model}
    {s' : List (PreDirective Float.Model) × Directive Float.Model}
    (hs : parse (ieeeEnv Float32.Model checks) text = .ok s)
    (hs' : parse (ieeeEnv Float.Model checks) text = .ok s') :
    ∃ fs, parse (formulas (ieeeEnv Float.Model checks)) text = .ok fs ∧
      (sceneFloats fs).length = (sceneFloats s).length ∧
      (sceneFloats fs).length = (sceneFloats s').length ∧
      ∀ (i : ℕ) φ x y, (sceneFloats fs)[i]? = some φ → (sceneFloats s)[i]? = some x →
        (sceneFloats s')[i]? = some y →
        Formula.Value (ieeeEnv Float32.Model checks) φ x ∧ Formula.Value (ieeeEnv Float.Model checks) φ y ∧
        (φ.Plain → IsFinite y → InSpan Float32.Model (val y) → Nearest x (val y)) := by
  obtain ⟨fs, hfs⟩ := (C122_formulas (ieeeEnv Float.Model checks) text).1.1 ⟨s', hs'⟩
  have h1 := (C122_formulas (ieeeEnv Float.Model checks) text).2 s' fs hs' hfs
  have h2 := (C122_formulas (ieeeEnv Float32.Model checks) text).2 s fs hs
    (by rw [C122_same_formulas (alike_ieee checks)]; exact hfs)
  refine ⟨fs, hfs, h2.2.2.length_eq, h1.2.2.length_eq, fun i φ x y hi hx hy => ?_⟩
  have e1 : Formula.Value (ieeeEnv Float32.Model checks) φ x := by
    obtain ⟨k1, rfl⟩ := List.getElem?_eq_some_iff.1 hi
    obtain ⟨k2, rfl⟩ := List.getElem?_eq_some_iff.1 hx
    exact h2.2.2.get k1 k2
  have e2 : Formula.Value (ieeeEnv Float.Model checks) φ y := by
    obtain ⟨k1, rfl⟩ := List.getElem?_eq_some_iff.1 hi
    obtain ⟨k2, rfl⟩ := List.getElem?_eq_some_iff.1 hy
    exact h1.2.2.get k1 k2
  exact ⟨e1, e2, fun hp hf hv => plain_chain checks hp e1 e2 hf hv⟩

/-- One and a bit more than half a unit in the last place of single precision -/
def tieText : String := "1.0000000596046447753906251"

/-- The `f32` above one -/
def next32 : Float32.Model := .pack (.finite .positive 8388609 (-23) (by norm_num))

/-- The `f64` half way between one and `next32` -/
def half64 : Float.Model := .pack (.finite .positive 4503599895805952 (-52) (by norm_num))

/-- **C122** (an expectation that fails): converting the double precision float with ties to even is
    not the same as reading with single precision: the text is read as the `f32` above one, the `f64`
    is half way between the two, and half way is rounded to one. -/
theorem C122_convert_refuted :
    tokenize (ieeeEnv Float32.Model true) tieText.toList = .ok [⟨⟨1, 1⟩, .Float next32⟩] ∧
    tokenize (ieeeEnv Float.Model true) tieText.toList = .ok [⟨⟨1, 1⟩, .Float half64⟩] ∧
    val half64 = ((2 ^ 24 + 1 : ℕ) : ℝ) / (2 ^ 24 : ℕ) ∧
    (IEEE.pk (ratio (IEEE.fmt Float32.Model) false (2 ^ 24 + 1) (2 ^ 24)) : Float32.Model) =
      Elem.fromInt 1 ∧
    (Elem.fromInt 1 : Float32.Model) ≠ next32 := by
  refine ⟨by decide +kernel, by decide +kernel, ?_, by decide +kernel, by decide +kernel⟩
  unfold val
  rw [show up half64 = .finite .positive 4503599895805952 (-52) (by norm_num) from rfl, uval_finite]
  norm_num [sgn]

-- a literal in the range of single precision, with the floats of both builds
example : Nearest nine32 (val nine64) := by
  have e : decimal .none ['0'] ['9'] = 9 / 10 := by
    rw [decimal, show Sign.none.apply (decVal (['0'] ++ ['9'])) = 9 from rfl]; norm_num
  have hx : InSpan Float32.Model (decimal .none ['0'] ['9']) := by
    rw [e, C70_range32]; norm_num [abs_of_pos]
  have hd : ∀ c ∈ ['0'] ++ ['9'], IsDigit c := by unfold IsDigit; decide
  obtain ⟨f, h1, h2, -⟩ := C70_decimal (ieeeEnv_sane true) (ieeeEnv_rounds true) .none ['0'] ['9'] hd
    (by simp) hx
  obtain ⟨g, h3, h4, -⟩ := C70_decimal (ieeeEnv_sane true) (ieeeEnv_rounds true) .none ['0'] ['9'] hd
    (by simp) (span_double hx)
  have hf : nine32 = f := by
    have := (show tokenize (ieeeEnv Float32.Model true) "0.9".toList =
      .ok [⟨⟨1, 1⟩, .Float nine32⟩] by decide +kernel).symm.trans h1
    simpa using this
  have hg : nine64 = g := by
    have := (show tokenize (ieeeEnv Float.Model true) "0.9".toList =
      .ok [⟨⟨1, 1⟩, .Float nine64⟩] by decide +kernel).symm.trans h3
    simpa using this
  subst hf hg
  exact C122_literal (ieeeEnv_sane true) (ieeeEnv_rounds true) (ieeeEnv_sane true) (ieeeEnv_rounds true)
    (l := "0.9".toList) ⟨hd, by simp, .inl rfl⟩ hx ⟨⟨1, 1⟩, _, h2, _, .inl rfl⟩ ⟨⟨1, 1⟩, _, h4, _, .inl rfl⟩

/-- The formulas of a text -/
def formulasOf (text : String) : Option (List Formula) :=
  match parse (formulas (ieeeEnv Float.Model true)) text.toList with
  | .ok s => some (sceneFloats s)
  | _ => none

-- a text with a literal, an integer and a literal with an exponent
example : formulasOf "Scale 0.9 2 9e-1 WorldBegin WorldEnd" =
    some [.literal "0.9".toList, .int 2, .times (.literal "9".toList) (.power (.int (-1)))] := by
  decide +kernel

end Pbrt
