import Verif.Spec.ParamFaults
import Verif.Spec.Reader
import Verif.Proof.ParamFaults
import Verif.Props.BreakOff

/-!
# C120: why a parameter is malformed, and that nobody is told
-/

namespace Pbrt

open Spec Proof Proof.ParamFaults

section
variable {F : Type} {E : Env F}

namespace ParamFaults

theorem iff_of {T U : Type} {parser : PM F T} {s : Parser F} {P : Prop} {X : String → Prop}
    (hs : ∀ m, X m → ∃ st, parser s = (.err (.Str m), st)) (ha : P ∨ ∃ m, X m)
    (hp : P → ∃ (x : U) (f : U → T) (st : Parser F), parser s = (.ok (f x), st)) (m : String) :
    (∃ st, parser s = (.err (.Str m), st)) ↔ X m := by
  constructor
  · rintro ⟨st, h⟩
    rcases ha with h' | ⟨m', h'⟩
    · obtain ⟨x, f, st', h'⟩ := hp h'
      rw [h'] at h
      cases h
    · obtain ⟨st', h2⟩ := hs m' h'
      rw [h2] at h
      cases h
      exact h'
  · exact hs m

theorem item_iff {T : Type} {parser : PM F T} {R : List (Token F) → T → Prop}
    {X : List (Token F) → String → Prop} (h : Says parser R X) (done ts : List (Token F)) (m : String) :
    parser (reading done ts) = (.err (.Str m), reading done ts) ↔ X ts m := by
  constructor
  · intro hm
    rcases h.all ts with ⟨a, x, rest, rfl, hr⟩ | ⟨m', hx⟩
    · have := h.read.ok a x done rest hr
      rw [show PS done (a ++ rest) = reading done (a ++ rest) from rfl, hm] at this
      cases this
    · have := h.says done ts m' hx
      rw [show PS done ts = reading done ts from rfl, hm] at this
      cases this
      exact hx
  · exact h.says done ts m

end ParamFaults

/-- **C120**: the readers of single items stay where they are and give the reason of `ItemFault`, exactly when
    there is one. -/
theorem C120_items (done ts : List (Token F)) (m : String) :
    (parseInt E (reading done ts) = (.err (.Str m), reading done ts) ↔ ItemFault E "int" ts m) ∧
    (parseFloat E (reading done ts) = (.err (.Str m), reading done ts) ↔ ItemFault E "float" ts m) ∧
    (parseString E (reading done ts) = (.err (.Str m), reading done ts) ↔ ItemFault E "string" ts m) ∧
    (parseBool E (reading done ts) = (.err (.Str m), reading done ts) ↔ ItemFault E "bool" ts m) ∧
    (parsePoint2f E (reading done ts) = (.err (.Str m), reading done ts) ↔ ItemFault E "point2f" ts m) ∧
    (parseVector2f E (reading done ts) = (.err (.Str m), reading done ts) ↔ ItemFault E "vector2f" ts m) :=
  ⟨ParamFaults.item_iff (says_int E) done ts m, ParamFaults.item_iff (says_float E) done ts m,
    ParamFaults.item_iff (says_string E) done ts m, ParamFaults.item_iff (says_bool E) done ts m,
    ParamFaults.item_iff (says_point E) done ts m, ParamFaults.item_iff (says_vector E) done ts m⟩

/-- **C120**: the reader of a parameter gives the reason of `ParamFault`, exactly when there is one. -/
theorem C120_param (ps : ParamSet F) (done ts : List (Token F)) (m : String) :
    (∃ st, parseParamList E ps (reading done ts) = (.err (.Str m), st)) ↔ ParamFault E ts m := by
  refine ParamFaults.iff_of (U := ParamSet F) (fun m h => param_says E h ps done) (param_all E ts) ?_ m
  rintro ⟨a, p, rest, rfl, h⟩
  exact ⟨addParam ps p, id, _, parseParamList_ok E h ps done rest⟩

/-- **C120**: either a parameter starts here or there is one reason why not; there is never both, and never a
    second reason. -/
theorem C120_exactly_one (ts : List (Token F)) :
    ((∃ a p rest, ts = a ++ rest ∧ ParamText E a p) ∧ ∀ m, ¬ ParamFault E ts m) ∨
    ((¬ ∃ a p rest, ts = a ++ rest ∧ ParamText E a p) ∧ ∃ m, ParamFault E ts m ∧ ∀ m', ParamFault E ts m' → m' = m) := by
  by_cases h : ∃ a p rest, ts = a ++ rest ∧ ParamText E a p
  · refine .inl ⟨h, fun m hm => ?_⟩
    obtain ⟨a, p, rest, rfl, h⟩ := h
    obtain ⟨st, hst⟩ := param_says E hm .default []
    rw [parseParamList_ok E h .default [] rest] at hst
    cases hst
  · obtain ⟨m, hm⟩ := (param_all E ts).resolve_left h
    refine .inr ⟨h, m, hm, fun m' hm' => ?_⟩
    obtain ⟨st, hst⟩ := param_says E hm .default []
    obtain ⟨st', hst'⟩ := param_says E hm' .default []
    rw [hst] at hst'
    cases hst'
    rfl

/-- **C120**: an empty list is no list.  The reason is not that it is empty (parser.rs:709-713 and 764-770, which
    are never reached) but that a bracket is no item. -/
theorem C120_empty (p q r : Pos) (s ty name : String) (w : List (Token F)) (m : String) (h : TwoWords E s ty name)
    (ht : (ty, name') ∈ [("integer", "int"), ("float", "float"), ("spectrum", "float"), ("bool", "bool"), ("string", "string")]) :
    ParamFault E (⟨p, .Str s⟩ :: ⟨q, .LBracket⟩ :: ⟨r, .RBracket⟩ :: w) m ↔
      m = "parse_many_" ++ name' ++ "s(): error while processing " ++ name' ++ "s:\n  " ++
        (r.fmt ++ (if name' = "bool" then " parse_bool(): expected int but got RBracket" else
          " parse_" ++ name' ++ "(): expected " ++ name' ++ " but got RBracket")) := by
  have one : ParamFault E (⟨p, .Str s⟩ :: ⟨q, .LBracket⟩ :: ⟨r, .RBracket⟩ :: w)
      ("parse_many_" ++ name' ++ "s(): error while processing " ++ name' ++ "s:\n  " ++
        (r.fmt ++ (if name' = "bool" then " parse_bool(): expected int but got RBracket" else
          " parse_" ++ name' ++ "(): expected " ++ name' ++ " but got RBracket"))) := by
    have nn : ¬ IsNumber (⟨r, .RBracket⟩ : Token F) := by rintro (⟨i, h⟩ | ⟨i, h⟩) <;> cases h
    have ns : ¬ IsStr (⟨r, .RBracket⟩ : Token F) := by rintro ⟨i, h⟩; cases h
    have ni : ¬ ∃ i, (⟨r, .RBracket⟩ : Token F).ty = .Int i := by rintro ⟨i, h⟩; cases h
    simp only [List.mem_cons, Prod.mk.injEq, List.not_mem_nil, or_false] at ht
    rcases ht with ⟨rfl, rfl⟩ | ⟨rfl, rfl⟩ | ⟨rfl, rfl⟩ | ⟨rfl, rfl⟩ | ⟨rfl, rfl⟩
    · have := ItemFault.int (E := E) ⟨r, .RBracket⟩ w ni
      rw [String.append_assoc] at this
      exact .value _ _ _ _ _ _ h (.ints _ _ (.list _ _ _ (.noItem _ _ _ this)))
    · have := ItemFault.float (E := E) ⟨r, .RBracket⟩ w nn
      rw [String.append_assoc] at this
      exact .value _ _ _ _ _ _ h (.floats _ _ (.list _ _ _ (.noItem _ _ _ this)))
    · have := ItemFault.float (E := E) ⟨r, .RBracket⟩ w nn
      rw [String.append_assoc] at this
      exact .value _ _ _ _ _ _ h (.spectrum _ _ (.list _ _ _ (.noItem _ _ _ this)))
    · have := ItemFault.bool (E := E) ⟨r, .RBracket⟩ w ns
      rw [String.append_assoc] at this
      exact .value _ _ _ _ _ _ h (.bools _ _ (.list _ _ _ (.noItem _ _ _ this)))
    · have := ItemFault.string (E := E) ⟨r, .RBracket⟩ w ns
      rw [String.append_assoc] at this
      exact .value _ _ _ _ _ _ h (.strings _ _ (.list _ _ _ (.noItem _ _ _ this)))
  constructor
  · intro hm
    rcases C120_exactly_one (E := E) (⟨p, .Str s⟩ :: ⟨q, .LBracket⟩ :: ⟨r, .RBracket⟩ :: w) with ⟨_, h'⟩ | ⟨_, m', h1, h2⟩
    · exact absurd hm (h' m)
    · rw [h2 m hm, ← h2 _ one]
  · rintro rfl
    exact one

end

/-! ### Examples -/

/-- `"rgb c" [ 1 2 ]` -/
example : ParamFault (exEnv true)
    [⟨⟨1, 1⟩, .Str "rgb c"⟩, ⟨⟨1, 9⟩, .LBracket⟩, ⟨⟨1, 11⟩, .Int 1⟩, ⟨⟨1, 13⟩, .Int 2⟩, ⟨⟨1, 15⟩, .RBracket⟩]
    "parse_3_floats(): error while processing floats:\n  Str((1, 15) parse_float(): expected float but got RBracket)" := by
  refine .value _ _ _ "rgb" "c" _ ?_ (.rgb _ _ (.few ⟨1, 9⟩ [⟨⟨1, 11⟩, .Int 1⟩, ⟨⟨1, 13⟩, .Int 2⟩]
    [⟨⟨1, 15⟩, .RBracket⟩] "(1, 15) parse_float(): expected float but got RBracket" ?_ (by decide) ?_))
  · exact ⟨[], [' '], [], by decide, by decide, by decide, by decide, by decide, by decide⟩
  · intro t ht
    simp only [List.mem_cons, List.not_mem_nil, or_false] at ht
    rcases ht with rfl | rfl
    · exact .inl ⟨1, rfl⟩
    · exact .inl ⟨2, rfl⟩
  · exact .float ⟨⟨1, 15⟩, .RBracket⟩ [] (by rintro (⟨i, h⟩ | ⟨i, h⟩) <;> cases h)

/-- **C120** (what a user would expect and does not get): of two shapes with a malformed parameter, one is reported
    with another message than the reason, and the other is accepted without the parameter, so that the reason is
    never seen.  (parser.rs:563-566 only asks whether the reader succeeded.) -/
theorem C120_refuted :
    (∃ m m', tokenize (exEnv true) "WorldBegin Shape \"s\" \"integer n\" [ ] WorldEnd".toList =
        .ok ([kw ⟨1, 1⟩ "WorldBegin", kw ⟨1, 12⟩ "Shape", ⟨⟨1, 18⟩, .Str "s"⟩] ++
          [⟨⟨1, 22⟩, .Str "integer n"⟩, ⟨⟨1, 34⟩, .LBracket⟩, ⟨⟨1, 36⟩, .RBracket⟩, kw ⟨1, 38⟩ "WorldEnd"]) ∧
      ParamFault (exEnv true)
        [⟨⟨1, 22⟩, .Str "integer n"⟩, ⟨⟨1, 34⟩, .LBracket⟩, ⟨⟨1, 36⟩, .RBracket⟩, kw ⟨1, 38⟩ "WorldEnd"] m ∧
      parse (exEnv true) "WorldBegin Shape \"s\" \"integer n\" [ ] WorldEnd".toList = .err (.Str m') ∧
      m = "parse_many_ints(): error while processing ints:\n  (1, 36) parse_int(): expected int but got RBracket" ∧
      m' = "(1, 36) parse_directives(): expected identifier or block close but got RBracket") ∧
    (∃ m r, tokenize (exEnv true) "WorldBegin Shape \"s\" \"integer n\" [ 1 WorldEnd".toList =
        .ok ([kw ⟨1, 1⟩ "WorldBegin", kw ⟨1, 12⟩ "Shape", ⟨⟨1, 18⟩, .Str "s"⟩] ++
          [⟨⟨1, 22⟩, .Str "integer n"⟩, ⟨⟨1, 34⟩, .LBracket⟩, ⟨⟨1, 36⟩, .Int 1⟩, kw ⟨1, 38⟩ "WorldEnd"]) ∧
      ParamFault (exEnv true)
        [⟨⟨1, 22⟩, .Str "integer n"⟩, ⟨⟨1, 34⟩, .LBracket⟩, ⟨⟨1, 36⟩, .Int 1⟩, kw ⟨1, 38⟩ "WorldEnd"] m ∧
      parse (exEnv true) "WorldBegin Shape \"s\" \"integer n\" [ 1 WorldEnd".toList = .ok r ∧
      m = "(1, 38) parse_list_int(): expected ']' but got Identifier(WorldEnd)") := by
  have tw : TwoWords (exEnv true) "integer n" "integer" "n" :=
    ⟨[], [' '], [], by decide, by decide, by decide, by decide, by decide, by decide⟩
  constructor
  · refine ⟨_, _, by decide +kernel, ?_, err_of_reported (by decide +kernel), rfl, rfl⟩
    refine .value _ _ _ "integer" "n" _ tw (.ints _ _ (.list _ _ _ (.noItem _ _
      "(1, 36) parse_int(): expected int but got RBracket" ?_)))
    exact .int ⟨⟨1, 36⟩, .RBracket⟩ _ (by rintro ⟨i, h⟩; cases h)
  · have hk : outcomeKind (parse (exEnv true) "WorldBegin Shape \"s\" \"integer n\" [ 1 WorldEnd".toList) = 0 := by
      decide +kernel
    obtain ⟨r, hr⟩ : ∃ r, parse (exEnv true) "WorldBegin Shape \"s\" \"integer n\" [ 1 WorldEnd".toList = .ok r := by
      generalize parse (exEnv true) "WorldBegin Shape \"s\" \"integer n\" [ 1 WorldEnd".toList = r at hk
      match r with
      | .ok r => exact ⟨r, rfl⟩
      | .err _ | .panic | .diverge => cases hk
    refine ⟨_, r, by decide +kernel, ?_, hr, rfl⟩
    have hm : Many IntTok [(⟨⟨1, 36⟩, .Int 1⟩ : Token Rat)] [1] := .cons [_] [] 1 [] ⟨⟨1, 36⟩, rfl⟩ .nil
    refine .value _ _ _ "integer" "n" _ tw (.ints _ _ (.list _ _ _ (.noClose ⟨1, 34⟩ [⟨⟨1, 36⟩, .Int 1⟩] [1]
      (kw ⟨1, 38⟩ "WorldEnd") [] _ hm (by simp) (by simp [kw])
      (.int _ _ (by rintro ⟨i, h⟩; cases h)))))

end Pbrt
