import Verif.Spec.Version3
import Verif.Props.CutText

/-!
# C118: what of the scene format of pbrt, version 3, is understood
-/

namespace Pbrt

open Spec Proof Proof.BreakOff Proof.CutText

section
variable {F : Type} {E : Env F}

theorem unknown_header {x : List (Token F)} {pre : List (PreDirective F)} (h : Many (PreText E) x pre) (p : Pos) {k : String}
    (hk : k ∉ preKeys) (hw : k ≠ "WorldBegin") (u : List (Token F)) :
    parseTokens E (x ++ kw p k :: u) = .err (.Str (p.fmt ++ " parse_predirective(): Unknown predirective: " ++ k)) :=
  (C72_error E _ _).2 (pres_fault h (.unknown p k u hk hw))

theorem not_end {p : Pos} {k : String} (hk : k ∉ closers) : ¬ IsEnd (kw p k : Token F) := by
  rintro ⟨_, k', e, hk'⟩
  simp only [kw, Token.mk.injEq, TokenType.Identifier.injEq] at e
  obtain ⟨rfl, rfl⟩ := e
  exact hk hk'

theorem unknown_world {x y : List (Token F)} {pre : List (PreDirective F)} {ds : List (Directive F)}
    (h : Many (PreText E) x pre) (hy : DirsText E y ds) (q p : Pos) {k : String} (hk : k ∉ dirKeys) (hw : k ∉ closers)
    (u : List (Token F)) :
    parseTokens E (x ++ kw q "WorldBegin" :: (y ++ kw p k :: u)) =
      .err (.Str (p.fmt ++ " parse_directive(): unknown identifier " ++ k)) :=
  (C72_error E _ _).2 (pres_fault h (.body q _ _ (dirs_fault hy (.unknown p k u hk (not_end hk')))))
where hk' := hw

/-- **C118**: of the keywords allowed before `WorldBegin` all but three (`noHeader`) can start a scene; these three are
    rejected wherever they stand, whatever follows, and named in the message. -/
theorem C118_header (p : Pos) {k : String} (hk : k ∈ Version3.header) :
    ((∃ u r, parseTokens E (kw p k :: u) = .ok r) ↔ k ∉ Version3.noHeader) ∧
    (k ∈ Version3.noHeader → ∀ x pre u, Many (PreText E) x pre → parseTokens E (x ++ kw p k :: u) =
      .err (.Str (p.fmt ++ " parse_predirective(): Unknown predirective: " ++ k))) := by
  have hno : k ∈ Version3.noHeader → ∀ x pre u, Many (PreText E) x pre → parseTokens E (x ++ kw p k :: u) =
      .err (.Str (p.fmt ++ " parse_predirective(): Unknown predirective: " ++ k)) := by
    intro h x pre u hx
    have : ∀ k ∈ Version3.noHeader, k ∉ preKeys ∧ k ≠ "WorldBegin" := by decide
    exact unknown_header hx p (this k h).1 (this k h).2 u
  refine ⟨⟨fun ⟨u, r, h⟩ hn => ?_, fun hn => ?_⟩, hno⟩
  · have := hno hn [] [] u .nil
    rw [List.nil_append, h] at this
    cases this
  · have end' : ∀ a : List (Token F), ∀ r, parseTokens E (kw p k :: a ++ [kw p "WorldBegin", kw p "WorldEnd"]) = .ok r →
        ∃ u r, parseTokens E (kw p k :: u) = .ok r := fun a r h => ⟨_, r, h⟩
    simp only [Version3.header, Version3.transforms, Version3.noHeader, List.cons_append, List.nil_append, List.mem_cons,
      List.not_mem_nil, or_false, not_or] at hk hn
    obtain ⟨h1, h2, h3⟩ := hn
    rcases hk with rfl | rfl | rfl | rfl | rfl | rfl | rfl | rfl | rfl | rfl | rfl | rfl | rfl | rfl | rfl | rfl | rfl |
      rfl | rfl | rfl
    · exact end' [] _ rfl
    · exact end' (List.replicate 3 ⟨p, .Int 0⟩) _ rfl
    · exact end' (List.replicate 3 ⟨p, .Int 0⟩) _ rfl
    · exact end' (List.replicate 4 ⟨p, .Int 0⟩) _ rfl
    · exact end' (List.replicate 9 ⟨p, .Int 0⟩) _ rfl
    · exact end' [⟨p, .Str "s"⟩] _ rfl
    · exact end' [⟨p, .Str "s"⟩] _ rfl
    · exact end' (List.replicate 9 ⟨p, .Int 0⟩) _ rfl
    · exact end' (List.replicate 9 ⟨p, .Int 0⟩) _ rfl
    · exact end' [kw p "All"] _ rfl
    · exact end' (List.replicate 2 ⟨p, .Int 0⟩) _ rfl
    · exact end' [⟨p, .Str "s"⟩] _ rfl
    · exact end' [⟨p, .Str "s"⟩] _ rfl
    · exact end' [⟨p, .Str "s"⟩] _ rfl
    · exact absurd rfl h1
    · exact end' [⟨p, .Str "s"⟩] _ rfl
    · exact end' [⟨p, .Str "s"⟩] _ rfl
    · exact absurd rfl h2
    · exact absurd rfl h3
    · exact end' [⟨p, .Str "s"⟩] _ rfl

/-- **C118**: inside the world the transformations and seven more keywords (`noWorld`) are missing: they are rejected
    wherever they stand and named in the message. All others can be used. -/
theorem C118_world (q p : Pos) {k : String} (hk : k ∈ Version3.world) :
    ((∃ u r, parseTokens E (kw q "WorldBegin" :: kw p k :: u) = .ok r) ↔ k ∉ Version3.noWorld) ∧
    (k ∈ Version3.noWorld → ∀ x pre y ds u, Many (PreText E) x pre → DirsText E y ds →
      parseTokens E (x ++ kw q "WorldBegin" :: (y ++ kw p k :: u)) =
        .err (.Str (p.fmt ++ " parse_directive(): unknown identifier " ++ k))) := by
  have hno : k ∈ Version3.noWorld → ∀ x pre y ds u, Many (PreText E) x pre → DirsText E y ds →
      parseTokens E (x ++ kw q "WorldBegin" :: (y ++ kw p k :: u)) =
        .err (.Str (p.fmt ++ " parse_directive(): unknown identifier " ++ k)) := by
    intro h x pre y ds u hx hy
    have : ∀ k ∈ Version3.noWorld, k ∉ dirKeys ∧ k ∉ closers := by decide
    exact unknown_world hx hy q p (this k h).1 (this k h).2 u
  refine ⟨⟨fun ⟨u, r, h⟩ hn => ?_, fun hn => ?_⟩, hno⟩
  · have := hno hn [] [] [] [] u .nil .nil
    rw [List.nil_append, List.nil_append, h] at this
    cases this
  · have end' : ∀ a : List (Token F), ∀ r, parseTokens E (kw q "WorldBegin" :: kw p k :: a ++ [kw p "WorldEnd"]) = .ok r →
        ∃ u r, parseTokens E (kw q "WorldBegin" :: kw p k :: u) = .ok r := fun a r h => ⟨_, r, h⟩
    have hk' : k ∈ ["AttributeBegin", "TransformBegin", "Shape", "LightSource", "AreaLightSource", "Material", "Texture",
        "Include"] := by
      have : ∀ k ∈ Version3.world, k ∉ Version3.noWorld → k ∈ ["AttributeBegin", "TransformBegin", "Shape", "LightSource",
        "AreaLightSource", "Material", "Texture", "Include"] := by decide
      exact this k hk hn
    simp only [List.mem_cons, List.not_mem_nil, or_false] at hk'
    rcases hk' with rfl | rfl | rfl | rfl | rfl | rfl | rfl | rfl
    · exact end' [] _ rfl
    · exact end' [] _ rfl
    · exact end' [⟨p, .Str "s"⟩] _ rfl
    · exact end' [⟨p, .Str "s"⟩] _ rfl
    · exact end' [⟨p, .Str "s"⟩] _ rfl
    · exact end' [⟨p, .Str "s"⟩] _ rfl
    · exact end' [⟨p, .Str "s"⟩, ⟨p, .Str "s"⟩, ⟨p, .Str "s"⟩] _ rfl
    · exact end' [⟨p, .Str "s"⟩] _ rfl

theorem bad_longest {a z : List (Token F)} {ps : List (SParam F)} (ha : Many (ParamText E) a ps) (q : Pos) {decl : String}
    (hd : ∀ ty name, TwoWords E decl ty name → ty ∉ paramTypes) :
    Longest (fun b => ∃ ps, ParamsText E b ps) (a ++ ⟨q, .Str decl⟩ :: z) a := by
  refine ⟨⟨_, rfl⟩, ⟨ps, a, [], by simp, ha, .none⟩, fun b ⟨w, hw⟩ ⟨xs, hb⟩ => ?_⟩
  have h : ∃ e, parseParamList E (collect ps) (PS ([] ++ a) (⟨q, .Str decl⟩ :: z)) =
        (.err e, PS ([] ++ a) (⟨q, .Str decl⟩ :: z)) := by
    by_cases h2 : ∃ ty name, TwoWords E decl ty name
    · obtain ⟨ty, name, h2⟩ := h2
      obtain ⟨m, hm⟩ := parseParamList_unknown E (collect ps) ([] ++ a) z q h2 (hd ty name h2)
      exact ⟨_, hm⟩
    · obtain ⟨m, hm⟩ := parseParamList_notTwo E (collect ps) ([] ++ a) z q decl h2
      exact ⟨_, hm⟩
  obtain ⟨e, he⟩ := h
  have h1 := parseParamLists_run E ha [] _ he
  have h2 := parseParamLists_reach E hb [] w
  rw [hw, h1] at h2
  simpa [Past, PS] using h2

/-- **C118**: a parameter of one of the eleven known types is recorded, with any keyword that takes parameters; one of
    another type makes the parse fail, and the message shows the declaration as something unexpected between two
    directives. -/
theorem C118_types (q p r : Pos) {decl ty name : String} (hd : TwoWords E decl ty name) (ht : ty ∈ Version3.types) :
    (ty ∉ Version3.noTypes → (∃ vs v, ValText E ty vs v) ∧ ∀ vs v, ValText E ty vs v → ∀ (k : DirKey) (s : String),
      parseTokens E (kw q "WorldBegin" :: kw p k.word :: ⟨p, .Str s⟩ :: ⟨r, .Str decl⟩ :: vs ++ [kw q "WorldEnd"]) =
        .ok ([], .World q [k.mk ⟨s, p, collect [⟨r, name, v⟩]⟩])) ∧
    (ty ∈ Version3.noTypes → ∀ x pre y ds strs params ps k n u, Many (PreText E) x pre → DirsText E y ds →
      (k, n) ∈ paramKeys → (∀ t ∈ strs, IsStr t) → strs.length = n → Many (ParamText E) params ps →
      (k ∈ dirKeys → parseTokens E (x ++ kw q "WorldBegin" :: (y ++ kw p k :: (strs ++ (params ++ ⟨r, .Str decl⟩ :: u)))) =
        .err (.Str (r.fmt ++ " parse_directives(): expected identifier or block close but got " ++ ("Str(" ++ E.dbgStr decl ++ ")")))) ∧
      (k ∈ preKeys → parseTokens E (x ++ kw p k :: (strs ++ (params ++ ⟨r, .Str decl⟩ :: u))) =
        .err (.Str (r.fmt ++ " parse_predirectives(): expected predirective but got " ++ ("Str(" ++ E.dbgStr decl ++ ")"))))) := by
  refine ⟨fun hn => ?_, fun hn x pre y ds strs params ps k n u hx hy hk hs hl hp => ?_⟩
  · have num : NumTok E [⟨r, .Int 0⟩] (E.ofIsize 0) := ⟨r, .inr ⟨0, rfl, rfl⟩⟩
    have list : ∀ {α : Type} {R : List (Token F) → α → Prop} (vs : List (Token F)) (xs : List α), xs ≠ [] → Many R vs xs →
        Bracketed R (⟨r, .LBracket⟩ :: vs ++ [⟨r, .RBracket⟩]) xs := fun vs xs h hm => ⟨h, r, r, vs, rfl, hm⟩
    have : ∃ vs v, ValText E ty vs v := by
      have : ty ∈ paramTypes := by
        have : ∀ t ∈ Version3.types, t ∉ Version3.noTypes → t ∈ paramTypes := by decide
        exact this ty ht hn
      simp only [paramTypes, List.mem_cons, List.not_mem_nil, or_false] at this
      rcases this with rfl | rfl | rfl | rfl | rfl | rfl | rfl | rfl | rfl | rfl | rfl
      · exact ⟨_, _, .ints _ [0] (.inl ⟨0, ⟨r, rfl⟩, rfl⟩)⟩
      · exact ⟨_, _, .floats _ _ (.inl ⟨_, num, rfl⟩)⟩
      · exact ⟨_, _, .point2s _ [⟨E.ofIsize 0, E.ofIsize 0⟩] (list _ _ (by simp) (.cons _ _ _ _ ⟨_, _, rfl, num, num⟩ .nil))⟩
      · exact ⟨_, _, .vector2s _ [⟨E.ofIsize 0, E.ofIsize 0⟩] (list _ _ (by simp) (.cons _ _ _ _ ⟨_, _, rfl, num, num⟩ .nil))⟩
      · exact ⟨_, _, .bools _ [true] (.inl ⟨true, ⟨r, rfl⟩, rfl⟩)⟩
      · exact ⟨_, _, .strings _ [""] (.inl ⟨"", ⟨r, rfl⟩, rfl⟩)⟩
      · exact ⟨_, _, .rgb _ _ _ _ (list _ _ (by simp) (.cons _ _ _ _ num (.cons _ _ _ _ num (.cons _ _ _ _ num .nil))))⟩
      · exact ⟨_, _, .xyz _ _ _ _ (list _ _ (by simp) (.cons _ _ _ _ num (.cons _ _ _ _ num (.cons _ _ _ _ num .nil))))⟩
      · exact ⟨_, _, .file _ "" ⟨r, rfl⟩⟩
      · exact ⟨_, _, .blackbody _ _ _ (list _ _ (by simp) (.cons _ _ _ _ num (.cons _ _ _ _ num .nil)))⟩
      · exact ⟨_, _, .texture _ "" ⟨r, rfl⟩⟩
    refine ⟨this, fun vs v h k s => ?_⟩
    have := C18_world_directive (E := E) k [] (⟨r, .Str decl⟩ :: vs) [] [] q p p (kw q "WorldEnd") s [⟨r, name, v⟩] .nil ?_ ?_
    · simpa using this
    · have := Many.cons (R := ParamText E) (⟨r, .Str decl⟩ :: vs) [] ⟨r, name, v⟩ [] ⟨decl, ty, vs, rfl, hd, h⟩ .nil
      simpa using this
    · exact ⟨q, _, rfl, by decide⟩
  · have h1 : ∀ ty' name', TwoWords E decl ty' name' → ty' ∉ paramTypes := by
      intro ty' name' h
      rw [← splitWhitespace_two] at h hd
      rw [h] at hd
      obtain ⟨rfl, rfl⟩ : ty' = ty ∧ name' = name := by simpa using hd
      have : ∀ t ∈ Version3.noTypes, t ∉ paramTypes := by decide
      exact this _ hn
    have h2 := bad_longest (z := u) hp r h1
    have h3 : ¬ IsId (⟨r, .Str decl⟩ : Token F) := by rintro ⟨_, _, h⟩; simp [kw] at h
    constructor
    · intro hk'
      refine (C72_error E _ _).2 (pres_fault hx (.body q _ _ (dirs_fault hy (.later p k _ _ _ hk' (.params k n strs params _ hk hs hl h2) ?_))))
      exact .notKey _ u h3
    · intro hk'
      refine (C72_error E _ _).2 (pres_fault hx (.later p k _ _ _ hk' (.params k n strs params _ hk hs hl h2) ?_))
      exact .notKey _ u h3

/-- **C118**: a matrix is written in brackets in version 3; such a matrix is never read. -/
theorem C118_matrix {x : List (Token F)} {pre : List (PreDirective F)} (h : Many (PreText E) x pre) (p q : Pos) {k : String}
    (hk : k ∈ ["Transform", "ConcatTransform"]) (u : List (Token F)) :
    parseTokens E (x ++ kw p k :: ⟨q, .LBracket⟩ :: u) =
      .err (.Str (floatsHeader ++ (q.fmt ++ " parse_float(): expected float but got " ++ "LBracket"))) := by
  have h1 : ¬ IsNumber (⟨q, .LBracket⟩ : Token F) := by simp [IsNumber]
  have : ∀ k ∈ ["Transform", "ConcatTransform"], k ∈ preKeys ∧ (k, 9) ∈ numKeys := by decide
  refine (C72_error E _ _).2 (pres_fault h (.args p k _ _ (this k hk).1 ?_))
  exact .notNumber k 9 _ u (this k hk).2 h1

end

/-- **C118**, the expectation that fails: each of these is a scene of version 3. -/
theorem C118_refuted :
    reported (parse (exEnv true) "PixelFilter \"box\" WorldBegin WorldEnd".toList) =
      some (some "(1, 1) parse_predirective(): Unknown predirective: PixelFilter") ∧
    reported (parse (exEnv true) "Transform [ 1 0 0 0 0 1 0 0 0 0 1 0 0 0 0 1 ] WorldBegin WorldEnd".toList) =
      some (some ("parse_many_floats(): error while processing floats:\n  " ++
        "(1, 11) parse_float(): expected float but got LBracket")) ∧
    reported (parse (exEnv true) "WorldBegin AttributeBegin Translate 1 2 3 Shape \"sphere\" AttributeEnd WorldEnd".toList) =
      some (some "(1, 27) parse_directive(): unknown identifier Translate") ∧
    reported (parse (exEnv true) "WorldBegin Shape \"trianglemesh\" \"point P\" [ 0 0 0 1 0 0 0 1 0 ] WorldEnd".toList) =
      some (some "(1, 33) parse_directives(): expected identifier or block close but got Str(point P)") := by
  decide +kernel

/-- The hypotheses of the theorems above are met by these words. -/
example : TwoWords (exEnv true) "point P" "point" "P" ∧ "point" ∈ Version3.noTypes ∧ "point" ∈ Version3.types ∧
    TwoWords (exEnv true) "float r" "float" "r" ∧ "float" ∈ Version3.types ∧ "float" ∉ Version3.noTypes := by
  refine ⟨(splitWhitespace_two _ _ _ _).1 (by decide +kernel), by decide, by decide,
    (splitWhitespace_two _ _ _ _).1 (by decide +kernel), by decide, by decide⟩

end Pbrt
