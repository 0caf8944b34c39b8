import Verif.Proof.FloatTypeParser
import Verif.Props.Literals

/-!
# C92: the float type does not decide what is a scene
-/

namespace Pbrt

open Spec Proof Proof.FloatType
open Float.Model (UnpackedFloat)

section
variable {F G : Type} {R : F → G → Prop} {E : Env F} {E' : Env G}

/-- **C92**: two builds that differ in the float type split every text into the same tokens, at the
    same places, up to related floats, or both reject it with the same message, or both panic. -/
theorem C92_tokens (hE : Alike R E E') (text : List Char) :
    AlikeOutcome Eq (List.Forall₂ (AlikeToken R)) (tokenize E text) (tokenize E' text) := by
  have := rel_tokenize (alike_on hE) True (text := text) fun _ _ => trivial
  generalize tokenize E text = x at this
  generalize tokenize E' text = y at this
  cases this with
  | ok a a' h => exact .ok _ _ (h.imp fun _ _ h => h.alike)
  | err e e' h =>
    cases h with
    | str m m' h => rw [h trivial]; exact .err _ _ rfl
    | eof => exact .err _ _ rfl
  | panic => exact .panic
  | diverge => exact .diverge

/-- **C92**: both builds read the same scene up to related floats, or both reject the text (with the
    same message, if related floats are displayed alike), or both panic. -/
theorem C92_parse (hE : Alike R E E') (text : List Char) :
    AlikeOutcome (AlikeError (ShownAlike R E E')) (AlikeScene R) (parse E text) (parse E' text) := by
  have := rel_parse (alike_on hE) (text := text) fun _ _ => trivial
  generalize parse E text = x at this
  generalize parse E' text = y at this
  cases this with
  | ok a a' h => exact .ok _ _ h
  | err e e' h =>
    refine .err _ _ ?_
    cases h with
    | str m m' h => exact .str _ _ fun hh => h ⟨hh, hE.quoted⟩
    | eof => exact .eof
  | panic => exact .panic
  | diverge => exact .diverge

/-- **C92**: no matter how the floats are computed, the text is a scene for both builds or for
    neither, and the two scenes have the same directives, positions, strings, integers and paths,
    and the same number of floats. -/
theorem C92_accepts (hE : Alike (fun _ _ => True) E E') (text : List Char) :
    ((∃ s, parse E text = .ok s) ↔ ∃ s', parse E' text = .ok s') ∧
    ((∃ e, parse E text = .err e) ↔ ∃ e, parse E' text = .err e) ∧
    (parse E text = .panic ↔ parse E' text = .panic) ∧
    ∀ s s', parse E text = .ok s → parse E' text = .ok s' →
      shapeScene s = shapeScene s' ∧ scenePaths s = scenePaths s' ∧
        (sceneFloats s).length = (sceneFloats s').length := by
  have := C92_parse hE text
  generalize parse E text = x at this
  generalize parse E' text = y at this
  cases this with
  | ok a a' h =>
    simp only [Res.ok.injEq, exists_eq', reduceCtorEq, exists_false, true_and]
    rintro s s' rfl rfl
    exact ⟨h.1, h.2.2, h.2.1.length_eq⟩
  | err e e' h => simp
  | panic => simp
  | diverge => simp

/-- **C92**: if the operations of the second build are the images of those of the first, then so are
    the floats of the scene. -/
theorem C92_image {h : F → G} (hE : Alike (fun x y => h x = y) E E') {text : List Char}
    {s : List (PreDirective F) × Directive F} (hs : parse E text = .ok s) :
    ∃ s', parse E' text = .ok s' ∧ shapeScene s' = shapeScene s ∧ scenePaths s' = scenePaths s ∧
      sceneFloats s' = (sceneFloats s).map h := by
  have := C92_parse hE text
  rw [hs] at this
  generalize parse E' text = y at this
  cases this with
  | ok _ a' h =>
    refine ⟨a', rfl, h.1.symm, h.2.2.symm, ?_⟩
    have := h.2.1
    generalize sceneFloats s = l at this
    generalize sceneFloats a' = m at this
    induction this with
    | nil => rfl
    | cons h _ ih => rw [List.map_cons, h, ih]

/-- **C92**: the reports are the same message if related floats are displayed alike. -/
theorem C92_message (hE : Alike R E E') (hS : ShownAlike R E E') (text : List Char) (e : ParserError) :
    parse E text = .err e ↔ parse E' text = .err e := by
  have := C92_parse hE text
  generalize parse E text = x at this
  generalize parse E' text = y at this
  cases this with
  | ok a a' h => simp
  | err a a' h =>
    cases h with
    | str m m' h => simp [h hS]
    | eof => simp
  | panic => simp
  | diverge => simp
end

/-- The two float types of the crate, with correctly rounded literals -/
theorem alike_ieee (checks : Bool) :
    Alike (fun _ _ => True) (ieeeEnv Float32.Model checks) (ieeeEnv Float.Model checks) where
  numeric := rfl
  alphabetic := rfl
  whitespace := rfl
  intError := rfl
  quoted := rfl
  checks := rfl
  literal cs := by
    simp only [ieeeEnv, ieeeParse]
    generalize (if decide (cs.head? = some '-') = true then cs.tail else cs) = body
    by_cases h : (body.takeWhile (· != '.') ++ (body.dropWhile (· != '.')).tail).all
        (fun c => '0' ≤ c ∧ c ≤ '9') ∧ body.takeWhile (· != '.') ++ (body.dropWhile (· != '.')).tail ≠ []
    · rw [if_pos h, if_pos h]; exact .inl ⟨_, _, rfl, rfl, trivial⟩
    · rw [if_neg h, if_neg h]; exact .inr ⟨_, rfl, rfl⟩
  times _ _ _ _ _ _ := trivial
  power _ _ _ := trivial
  ofInt _ := trivial

/-- **C92**, for `f32` and `f64`: a text is a scene with single precision exactly if it is one with
    double precision. -/
theorem C92_precision (checks : Bool) (text : List Char) :
    (∃ s, parse (ieeeEnv Float32.Model checks) text = .ok s) ↔
      ∃ s, parse (ieeeEnv Float.Model checks) text = .ok s :=
  (C92_accepts (alike_ieee checks) text).1

/-- The `f64` nearest to nine tenths -/
def nine64 : Float.Model := .pack (.finite .positive 8106479329266893 (-53) (by norm_num))

/-- **C92** (an expectation that fails): the float read with single precision is not always the one
    nearest to the float read with double precision. -/
theorem C92_rounding_refuted :
    tokenize (ieeeEnv Float32.Model true) "9e-1".toList = .ok [⟨⟨1, 1⟩, .Float nine32'⟩] ∧
    tokenize (ieeeEnv Float.Model true) "9e-1".toList = .ok [⟨⟨1, 1⟩, .Float nine64⟩] ∧
    ¬ Nearest nine32' (val nine64) := by
  refine ⟨by decide +kernel, by decide +kernel, fun h => ?_⟩
  have v32 : val nine32 = 15099494 / 2 ^ 24 := by
    unfold val
    rw [show up nine32 = .finite .positive 15099494 (-24) (by norm_num) from rfl, uval_finite]
    norm_num [sgn]
  have v32' : val nine32' = 15099495 / 2 ^ 24 := by
    unfold val
    rw [show up nine32' = .finite .positive 15099495 (-24) (by norm_num) from rfl, uval_finite]
    norm_num [sgn]
  have v64 : val nine64 = 8106479329266893 / 2 ^ 53 := by
    unfold val
    rw [show up nine64 = .finite .positive 8106479329266893 (-53) (by norm_num) from rfl, uval_finite]
    norm_num [sgn]
  have := h.2 nine32 (by decide +kernel)
  rw [v64, v32, v32'] at this
  norm_num [abs_of_pos, abs_of_neg] at this

-- a text that is a scene for both, with different floats
example : (∃ s, parse (ieeeEnv Float32.Model true) "Scale 0.9 1 1 WorldBegin WorldEnd".toList = .ok s ∧
      sceneFloats s = [nine32, Elem.fromInt 1, Elem.fromInt 1]) ∧
    ∃ s, parse (ieeeEnv Float.Model true) "Scale 0.9 1 1 WorldBegin WorldEnd".toList = .ok s ∧
      sceneFloats s = [nine64, Elem.fromInt 1, Elem.fromInt 1] := by
  have h32 : (match parse (ieeeEnv Float32.Model true) "Scale 0.9 1 1 WorldBegin WorldEnd".toList with
      | .ok s => decide (sceneFloats s = [nine32, Elem.fromInt 1, Elem.fromInt 1])
      | _ => false) = true := by decide +kernel
  have h64 : (match parse (ieeeEnv Float.Model true) "Scale 0.9 1 1 WorldBegin WorldEnd".toList with
      | .ok s => decide (sceneFloats s = [nine64, Elem.fromInt 1, Elem.fromInt 1])
      | _ => false) = true := by decide +kernel
  constructor
  · revert h32
    generalize parse (ieeeEnv Float32.Model true) _ = r
    cases r <;> simp
  · revert h64
    generalize parse (ieeeEnv Float.Model true) _ = r
    cases r <;> simp

-- a text that both reject, with the same message
example : ∃ e, parse (ieeeEnv Float32.Model true) "Scale 0.9 1 WorldBegin WorldEnd".toList = .err e ∧
    parse (ieeeEnv Float.Model true) "Scale 0.9 1 WorldBegin WorldEnd".toList = .err e := by
  have h : (match parse (ieeeEnv Float32.Model true) "Scale 0.9 1 WorldBegin WorldEnd".toList with
      | .err _ => true
      | _ => false) = true := by decide +kernel
  rcases hp : parse (ieeeEnv Float32.Model true) "Scale 0.9 1 WorldBegin WorldEnd".toList with s | e | _ | _
  · rw [hp] at h; simp at h
  · exact ⟨e, rfl, (C92_message (alike_ieee true) (fun _ _ _ => rfl) _ e).mp hp⟩
  · rw [hp] at h; simp at h
  · rw [hp] at h; simp at h

-- a text at which both panic
example : parse (ieeeEnv Float32.Model true) "Scale 1e19 1 1 WorldBegin WorldEnd".toList = .panic ∧
    parse (ieeeEnv Float.Model true) "Scale 1e19 1 1 WorldBegin WorldEnd".toList = .panic := by
  have h : (match parse (ieeeEnv Float32.Model true) "Scale 1e19 1 1 WorldBegin WorldEnd".toList with
      | .panic => true
      | _ => false) = true := by decide +kernel
  have hp : parse (ieeeEnv Float32.Model true) "Scale 1e19 1 1 WorldBegin WorldEnd".toList = .panic := by
    revert h
    generalize parse (ieeeEnv Float32.Model true) _ = r
    cases r <;> simp
  exact ⟨hp, ((C92_accepts (alike_ieee true) _).2.2.1).mp hp⟩

-- operations that are images of operations: rational numbers, and rational numbers that
-- are all the same
example : Alike (fun (_ : Rat) (y : Unit) => () = y) (exEnv true)
    { exEnv true with
      parseFloat := fun cs => (exParse cs).map fun _ => ()
      fmul := fun _ _ => ()
      powf10 := fun _ => ()
      ofIsize := fun _ => ()
      dbgFloat := fun _ => "float" } where
  numeric := rfl
  alphabetic := rfl
  whitespace := rfl
  intError := rfl
  quoted := rfl
  checks := rfl
  literal cs := by
    cases h : exParse cs with
    | ok x => exact .inl ⟨x, (), h, by simp [h, Except.map], rfl⟩
    | error m => exact .inr ⟨m, h, by simp [h, Except.map]⟩
  times _ _ _ _ _ _ := rfl
  power _ _ _ := rfl
  ofInt _ := rfl

end Pbrt
