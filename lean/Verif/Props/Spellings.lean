import Verif.Proof.Spellings
import Verif.Props.Edit
import Verif.Props.Reorder

/-!
# C113: several ways to write the same scene
-/

namespace Pbrt

open Spec Proof Proof.Reorder

section
variable {F : Type} {E : Env F}

theorem otherWay_param {u v : List (Token F)} (h : OtherWay E u v) :
    ∃ q, ParamText E u q ∧ ParamText E v q := by
  cases h with
  | blanks p decl decl' ty name vs val hd hd' hv =>
    exact ⟨⟨p, name, val⟩, ⟨decl, ty, vs, rfl, hd, hv⟩, ⟨decl', ty, vs, rfl, hd', hv⟩⟩
  | brackets p q r s decl ty name t hd ht =>
    have one : ∀ {α : Type} {P : List (Token F) → α → Prop} {x : α},
        P [⟨q, t⟩] x → OneOrList P [⟨q, t⟩] [x] ∧ OneOrList P [⟨r, .LBracket⟩, ⟨q, t⟩, ⟨s, .RBracket⟩] [x] := by
      intro α P x h
      have hm : Many P [(⟨q, t⟩ : Token F)] [x] := by
        have := Many.cons [(⟨q, t⟩ : Token F)] [] x [] h .nil
        simpa using this
      have hb : Bracketed P [⟨r, .LBracket⟩, ⟨q, t⟩, ⟨s, .RBracket⟩] [x] :=
        ⟨by simp, r, s, [⟨q, t⟩], rfl, hm⟩
      exact ⟨.inl ⟨x, h, rfl⟩, .inr hb⟩
    have key : ∃ v, ValText E ty [⟨q, t⟩] v ∧
        ValText E ty [⟨r, .LBracket⟩, ⟨q, t⟩, ⟨s, .RBracket⟩] v := by
      cases ht with
      | int i => exact ⟨_, .ints _ _ (one ⟨q, rfl⟩).1, .ints _ _ (one ⟨q, rfl⟩).2⟩
      | float x => exact ⟨_, .floats _ _ (one ⟨q, .inl rfl⟩).1, .floats _ _ (one ⟨q, .inl rfl⟩).2⟩
      | number i =>
        exact ⟨_, .floats _ _ (one ⟨q, .inr ⟨i, rfl, rfl⟩⟩).1, .floats _ _ (one ⟨q, .inr ⟨i, rfl, rfl⟩⟩).2⟩
      | yes => exact ⟨_, .bools _ _ (one (x := true) ⟨q, rfl⟩).1, .bools _ _ (one (x := true) ⟨q, rfl⟩).2⟩
      | no => exact ⟨_, .bools _ _ (one (x := false) ⟨q, rfl⟩).1, .bools _ _ (one (x := false) ⟨q, rfl⟩).2⟩
      | str s => exact ⟨_, .strings _ _ (one ⟨q, rfl⟩).1, .strings _ _ (one ⟨q, rfl⟩).2⟩
    obtain ⟨v, h1, h2⟩ := key
    exact ⟨⟨p, name, v⟩, ⟨decl, ty, _, rfl, hd, h1⟩, ⟨decl, ty, _, rfl, hd, h2⟩⟩

/-- **C113**: one parameter may be written without or with brackets (if it is one integer, float, truth
    value or string), and with other blanks in its declaration: the tokens are read as the same scene, or
    not at all both. Before the parameter there may be others, and what stands before the directive and
    after the parameter is arbitrary. -/
theorem C113_tokens {k : String} {p : Pos} {x strs ts u v rest : List (Token F)} {ps : List (SParam F)}
    (hk : (k, strs.length) ∈ paramKeys) (hs : ∀ t ∈ strs, ∃ s, t.ty = .Str s)
    (hm : Many (ParamText E) ts ps) (h : OtherWay E u v) :
    (∀ r, parseTokens E (x ++ kw p k :: (strs ++ ts ++ u ++ rest)) = .ok r ↔
      parseTokens E (x ++ kw p k :: (strs ++ ts ++ v ++ rest)) = .ok r) ∧
    (parseTokens E (x ++ kw p k :: (strs ++ ts ++ u ++ rest)) = .err .Eof ↔
      parseTokens E (x ++ kw p k :: (strs ++ ts ++ v ++ rest)) = .err .Eof) := by
  obtain ⟨q, hu, hv⟩ := otherWay_param h
  have one : ∀ {w : List (Token F)}, ParamText E w q → Many (ParamText E) (ts ++ w) (ps ++ [q]) := by
    intro w hw
    have := many_append hm (Many.cons w [] q [] hw .nil)
    simpa using this
  exact C103_tokens hk ⟨strs, ts ++ u, ts ++ v, rest, ps ++ [q], ps ++ [q], by simp, by simp, rfl, hs, one hu,
    one hv, fun _ => rfl⟩

/-- **C113**, for texts: both are the same scene, up to positions, or both are rejected. -/
theorem C113_text {k : String} {p : Pos} {x strs ts u v rest t : List (Token F)} {ps : List (SParam F)}
    {a b : List Char} (hk : (k, strs.length) ∈ paramKeys) (hs : ∀ t ∈ strs, ∃ s, t.ty = .Str s)
    (hm : Many (ParamText E) ts ps) (h : OtherWay E u v)
    (ha : tokenize E a = .ok (x ++ kw p k :: (strs ++ ts ++ u ++ rest))) (hb : tokenize E b = .ok t)
    (ht : t.map Token.ty = (x ++ kw p k :: (strs ++ ts ++ v ++ rest)).map Token.ty) :
    view (parse E a) = view (parse E b) := by
  obtain ⟨q, hu, hv⟩ := otherWay_param h
  have one : ∀ {w : List (Token F)}, ParamText E w q → Many (ParamText E) (ts ++ w) (ps ++ [q]) := by
    intro w hw
    have := many_append hm (Many.cons w [] q [] hw .nil)
    simpa using this
  refine C103_text hk ⟨strs, ts ++ u, ts ++ v, rest, ps ++ [q], ps ++ [q], by simp, rfl, rfl, hs, one hu,
    one hv, fun _ => rfl⟩ ha hb (by simpa using ht)

/-- **C113**: a float may be replaced everywhere by an integer that is converted to it: what was a scene
    is the same scene afterwards. -/
theorem C113_integers {ts us : List (Token F)} (h : List.Forall₂ (IntFor E) ts us)
    {r : List (PreDirective F) × Directive F} (hr : parseTokens E us = .ok r) : parseTokens E ts = .ok r := by
  obtain ⟨pre, w⟩ := r
  rw [parseTokens_iff] at *
  exact Spellings.accepts hr h

/-- **C113**: and what stopped at the end of the file does so afterwards. -/
theorem C113_integers_eof {ts us : List (Token F)} (h : List.Forall₂ (IntFor E) ts us)
    (hr : parseTokens E us = .err .Eof) : parseTokens E ts = .err .Eof := by
  rw [parseTokens_eof_iff] at *
  exact Spellings.unfinished hr h

/-- **C113**: an integer may be replaced by its float as long as the text is still accepted: then the
    scene is the same. -/
theorem C113_floats {ts us : List (Token F)} (h : List.Forall₂ (IntFor E) ts us)
    {r s : List (PreDirective F) × Directive F} (hr : parseTokens E ts = .ok r)
    (hs : parseTokens E us = .ok s) : r = s := by
  rw [C113_integers h hs] at hr
  injection hr with hr
  exact hr.symm

/-- **C113**, for texts, with any layout. -/
theorem C113_integers_text {ts us t : List (Token F)} {a b : List Char}
    (h : List.Forall₂ (IntFor E) ts us) (ha : tokenize E a = .ok t)
    (ht : t.map Token.ty = ts.map Token.ty) (hb : tokenize E b = .ok us)
    {r : List (PreDirective F) × Directive F} (hr : parse E b = .ok r) :
    view (parse E a) = view (parse E b) := by
  rw [parse_of hb] at hr ⊢
  rw [parse_of ha, C62_tokens _ _ ht, C113_integers h hr, hr]

end

/-! ### Examples -/

/-- A camera with one float, without and with brackets, after another parameter. -/
example : ∃ (strs ts u v rest t : List (Token Rat)) (ps : List (SParam Rat)), OtherWay (exEnv true) u v ∧
    Many (ParamText (exEnv true)) ts ps ∧ ps ≠ [] ∧ ("Camera", strs.length) ∈ paramKeys ∧
    (∀ t ∈ strs, ∃ s, t.ty = .Str s) ∧
    tokenize (exEnv true) "Camera \"a\" \"bool b\" \"true\" \"float fov\" 39 WorldBegin WorldEnd".toList =
      .ok ([] ++ kw ⟨1, 1⟩ "Camera" :: (strs ++ ts ++ u ++ rest)) ∧
    tokenize (exEnv true) "Camera \"a\" \"bool b\" \"true\" \"float fov\" [ 39 ] WorldBegin WorldEnd".toList = .ok t ∧
    t.map Token.ty = ([] ++ kw ⟨1, 1⟩ "Camera" :: (strs ++ ts ++ v ++ rest)).map Token.ty := by
  have hb : ParamText (exEnv true) [⟨⟨1, 12⟩, .Str "bool b"⟩, ⟨⟨1, 21⟩, .Str "true"⟩] ⟨⟨1, 12⟩, "b", .bools [true]⟩ :=
    ⟨"bool b", "bool", _, rfl, ⟨[], [' '], [], by decide, by decide, by decide, by decide, by decide, by decide⟩,
      .bools _ _ (.inl ⟨true, ⟨_, rfl⟩, rfl⟩)⟩
  refine ⟨[⟨⟨1, 8⟩, .Str "a"⟩], _, _, _, [kw ⟨1, 43⟩ "WorldBegin", kw ⟨1, 54⟩ "WorldEnd"],
    [kw ⟨1, 1⟩ "Camera", ⟨⟨1, 8⟩, .Str "a"⟩, ⟨⟨1, 12⟩, .Str "bool b"⟩, ⟨⟨1, 21⟩, .Str "true"⟩,
      ⟨⟨1, 28⟩, .Str "float fov"⟩, ⟨⟨1, 40⟩, .LBracket⟩, ⟨⟨1, 42⟩, .Int 39⟩, ⟨⟨1, 45⟩, .RBracket⟩,
      kw ⟨1, 47⟩ "WorldBegin", kw ⟨1, 58⟩ "WorldEnd"], _,
    .brackets ⟨1, 28⟩ ⟨1, 40⟩ ⟨1, 39⟩ ⟨1, 41⟩ "float fov" "float" "fov" (.Int 39)
      ⟨[], [' '], [], by decide, by decide, by decide, by decide, by decide, by decide⟩ (.number 39),
    by simpa using Many.cons _ [] _ [] hb .nil, by simp, by decide, by simp, ?_, ?_, ?_⟩ <;> decide +kernel

/-- A declaration with other blanks. -/
example : OtherWay (exEnv true) [⟨⟨1, 1⟩, .Str "float fov"⟩, ⟨⟨1, 13⟩, .Int 39⟩]
    [⟨⟨1, 1⟩, .Str " float \t fov"⟩, ⟨⟨1, 13⟩, .Int 39⟩] :=
  .blanks _ _ _ "float" "fov" _ (.floats [39])
    ⟨[], [' '], [], by decide, by decide, by decide, by decide, by decide, by decide⟩
    ⟨[' '], [' ', '\t', ' '], [], by decide, by decide, by decide, by decide, by decide, by decide⟩
    (.floats _ _ (.inl ⟨39, ⟨_, .inr ⟨39, rfl, by decide⟩⟩, rfl⟩))

/-- Integers for floats in a transformation and in a parameter. -/
example : ∃ (ts us : List (Token Rat)),
    List.Forall₂ (IntFor (exEnv true)) ts us ∧ ts ≠ us ∧
    tokenize (exEnv true) "TransformTimes -1 2.5 WorldBegin Shape \"a\" \"float r\" [3 4.0] WorldEnd".toList = .ok ts ∧
    tokenize (exEnv true) "TransformTimes -1.0 2.5 WorldBegin Shape \"a\" \"float r\" [3.0 4.0] WorldEnd".toList =
      .ok (us.zipWith (fun u n => ⟨⟨1, n⟩, u.ty⟩) [1, 16, 21, 25, 36, 42, 46, 56, 57, 61, 64, 66]) ∧
    outcomeKind (parseTokens (exEnv true) us) = 0 := by
  refine ⟨[kw ⟨1, 1⟩ "TransformTimes", ⟨⟨1, 16⟩, .Int (-1)⟩, ⟨⟨1, 19⟩, .Float (5 / 2)⟩, kw ⟨1, 23⟩ "WorldBegin",
      kw ⟨1, 34⟩ "Shape", ⟨⟨1, 40⟩, .Str "a"⟩, ⟨⟨1, 44⟩, .Str "float r"⟩, ⟨⟨1, 54⟩, .LBracket⟩, ⟨⟨1, 55⟩, .Int 3⟩,
      ⟨⟨1, 57⟩, .Float 4⟩, ⟨⟨1, 60⟩, .RBracket⟩, kw ⟨1, 62⟩ "WorldEnd"],
    [kw ⟨1, 1⟩ "TransformTimes", ⟨⟨1, 16⟩, .Float (-1)⟩, ⟨⟨1, 19⟩, .Float (5 / 2)⟩, kw ⟨1, 23⟩ "WorldBegin",
      kw ⟨1, 34⟩ "Shape", ⟨⟨1, 40⟩, .Str "a"⟩, ⟨⟨1, 44⟩, .Str "float r"⟩, ⟨⟨1, 54⟩, .LBracket⟩, ⟨⟨1, 55⟩, .Float 3⟩,
      ⟨⟨1, 57⟩, .Float 4⟩, ⟨⟨1, 60⟩, .RBracket⟩, kw ⟨1, 62⟩ "WorldEnd"], ?_, by decide, by decide +kernel,
    by decide +kernel, by decide +kernel⟩
  exact .cons (.inl rfl) <| .cons (.inr ⟨_, -1, rfl, by decide⟩) <| .cons (.inl rfl) <| .cons (.inl rfl) <|
    .cons (.inl rfl) <| .cons (.inl rfl) <| .cons (.inl rfl) <| .cons (.inl rfl) <|
    .cons (.inr ⟨_, 3, rfl, by decide⟩) <| .cons (.inl rfl) <| .cons (.inl rfl) <| .cons (.inl rfl) .nil

/-! ### Expectations that fail -/

/-- **C113** (expectations that fail): brackets are optional for the four types only: a texture name, or the
    file of a spectrum, must not have them, and a point must. A float must not be written for an integer in a
    parameter declared `integer`. -/
theorem C113_elsewhere_refuted :
    outcomeKind (parse (exEnv true) "WorldBegin Shape \"s\" \"texture t\" \"x\" WorldEnd".toList) = 0 ∧
    outcomeKind (parse (exEnv true) "WorldBegin Shape \"s\" \"texture t\" [\"x\"] WorldEnd".toList) = 1 ∧
    outcomeKind (parse (exEnv true) "WorldBegin Shape \"s\" \"spectrum t\" \"x\" WorldEnd".toList) = 0 ∧
    outcomeKind (parse (exEnv true) "WorldBegin Shape \"s\" \"spectrum t\" [\"x\"] WorldEnd".toList) = 1 ∧
    outcomeKind (parse (exEnv true) "WorldBegin Shape \"s\" \"point2 t\" [1 2] WorldEnd".toList) = 0 ∧
    outcomeKind (parse (exEnv true) "WorldBegin Shape \"s\" \"point2 t\" 1 2 WorldEnd".toList) = 1 ∧
    outcomeKind (parse (exEnv true) "WorldBegin Shape \"s\" \"integer t\" 1 WorldEnd".toList) = 0 ∧
    outcomeKind (parse (exEnv true) "WorldBegin Shape \"s\" \"integer t\" 1.0 WorldEnd".toList) = 1 := by
  decide +kernel

/-- What the first `Include` of the world names -/
def firstInclude : Res PError (List (PreDirective Rat) × Directive Rat) → Option String
  | .ok (_, .World _ (.Include _ s :: _)) => some s
  | _ => none

/-- **C113** (an expectation that fails): blanks in a string that is not a declaration count. -/
theorem C113_blanks_refuted :
    view (parse (exEnv true) "WorldBegin Include \"a b\" WorldEnd".toList) ≠
      view (parse (exEnv true) "WorldBegin Include \"a  b\" WorldEnd".toList) := by
  intro h
  have := congrArg firstInclude h
  exact absurd this (by decide +kernel)

end Pbrt
