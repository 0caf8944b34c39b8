import Verif.Proof.ParseCut
import Verif.Proof.Writer
import Verif.Props.Lexing
import Verif.Spec.Concrete

/-!
# Properties C14–C29: the scene parser

Every theorem is for an arbitrary standard library parameter `E`; those about texts need `Sane E`,
those about tokens need nothing.  After each theorem an `example` shows a concrete case that meets
its hypotheses.
-/

namespace Pbrt
open Pbrt.Spec Pbrt.Proof

variable {F : Type} {E : Env F}

/-- Keywords of a result, for the examples. -/
def Spec.summary (r : Res ParserError (List (PreDirective F) × Directive F)) :
    Option (List (Pos × String) × List (Pos × String)) :=
  match r with
  | .ok (pre, w) => some (pre.map preKey, dirKey w)
  | _ => none

theorem Proof.parse_ok {input : List Char} {r : List (PreDirective F) × Directive F}
    (h : parse E input = .ok r) : ∃ toks, tokenize E input = .ok toks ∧ parseTokens E toks = .ok r := by
  unfold parse at h
  generalize tokenize E input = t at h
  cases t with
  | ok toks => exact ⟨toks, rfl, h⟩
  | _ => simp at h

theorem Proof.parse_of {input : List Char} {toks : List (Token F)}
    (h : tokenize E input = .ok toks) : parse E input = parseTokens E toks := by
  unfold parse
  rw [h]

/-! ### C14 -/

/-- C14: a successful parse is pre-world directives, returned in text order, and then a `World`
    block at the position of the first `WorldBegin` that is not the argument of
    `ActiveTransform`. -/
theorem C14_success (input : List Char) (pre : List (PreDirective F)) (w : Directive F)
    (h : parse E input = .ok (pre, w)) :
    ∃ toks a p rest ds, tokenize E input = .ok toks ∧ toks = a ++ kw p "WorldBegin" :: rest ∧
      Many (PreText E) a pre ∧ w = .World p ds ∧
      ∀ x q y, a = x ++ kw q "WorldBegin" :: y → ∃ x' q', x = x' ++ [kw q' "ActiveTransform"] := by
  obtain ⟨toks, h1, h2⟩ := parse_ok h
  rw [parseTokens_iff] at h2
  obtain ⟨a, p, body, e, rest, ds, rfl, h3, h4, h5, rfl⟩ := h2
  refine ⟨_, a, p, body ++ e :: rest, ds, h1, by simp, h3, rfl, ?_⟩
  intro x q y ho
  rcases pres_occ h3 x y q "WorldBegin" ho with ⟨h6, _⟩ | h6
  · exact absurd h6 worldBegin_notin_preKeys
  · exact h6

/-- C14: a text in which the word `WorldBegin` does not occur is never accepted. -/
theorem C14_no_world (hE : Sane E) (input : List Char)
    (h : ¬ ∃ a b, input = a ++ "WorldBegin".toList ++ b) :
    (∃ e, parse E input = .err e) ∨ parse E input = .panic := by
  have hd := parse_ne_diverge hE input
  generalize hr : parse E input = r at hd
  cases r with
  | err e => exact .inl ⟨e, rfl⟩
  | panic => exact .inr rfl
  | diverge => exact absurd rfl hd
  | ok r =>
    exfalso
    obtain ⟨pre, w⟩ := r
    obtain ⟨toks, a, p, rest, ds, h1, h2, _⟩ := C14_success input pre w hr
    obtain ⟨text, offs, hn, _, h3⟩ := C04_positions hE input toks h1
    have hmem : kw p "WorldBegin" ∈ toks := by rw [h2]; simp
    obtain ⟨i, hi, hti⟩ := List.mem_iff_getElem.1 hmem
    have h4 := (List.forall₂_iff_get.1 h3).2 i (by rw [(List.forall₂_iff_get.1 h3).1]; exact hi) hi
    obtain ⟨_, _, l, b, h5, h6⟩ := h4
    simp only [List.get_eq_getElem, hti] at h6 h5
    have hl : l = "WorldBegin".toList := by
      generalize hv : (kw p "WorldBegin" : Token F).ty = v at h6
      cases h6 with
      | ident c cs _ hc hcs hrest =>
        have hv' : "WorldBegin" = String.ofList (c :: cs) := by
          simpa [kw] using hv
        rw [hv']
        simp
      | num l _ v hl _ _ => cases hl <;> simp [kw] at hv
      | _ => simp [kw] at hv
    rw [norm_iff] at hn
    subst hn
    have h7 : replaceCrlf input = (replaceCrlf input).take (offs[i]'(by
        rw [(List.forall₂_iff_get.1 h3).1]; exact hi)) ++ (l ++ b) := by
      rw [← h5, List.take_append_drop]
    obtain ⟨x, t', rfl, h8⟩ := replaceCrlf_suffix _ _ _ h7
    obtain ⟨b', rfl⟩ := replaceCrlf_prefix _ _ _ (by rw [hl]; decide) h8
    exact h ⟨x, b', by rw [hl]; simp⟩

example : summary (parse (exEnv true) "Identity ActiveTransform WorldBegin WorldBegin WorldEnd".toList) =
    some ([(⟨1, 1⟩, "Identity"), (⟨1, 10⟩, "ActiveTransform")], [(⟨1, 37⟩, "WorldBegin")]) := by
  decide +kernel
example : ¬ ∃ a b, "Identity".toList = a ++ "WorldBegin".toList ++ b := by
  rintro ⟨a, b, h⟩
  have := congrArg List.length h
  simp at this
  omega

/-! ### C15 -/

/-- C15: what follows the first block end after `WorldBegin` does not matter. -/
theorem C15_tail_ignored (toks : List (Token F)) (pre : List (PreDirective F)) (w : Directive F)
    (h : parseTokens E toks = .ok (pre, w)) :
    ∃ a p body e rest, toks = a ++ kw p "WorldBegin" :: body ++ e :: rest ∧
      Many (PreText E) a pre ∧ (∀ t ∈ body, ¬ IsEnd t) ∧ IsEnd e ∧
      ∀ rest', parseTokens E (a ++ kw p "WorldBegin" :: body ++ e :: rest') = .ok (pre, w) := by
  rw [parseTokens_iff] at h
  obtain ⟨a, p, body, e, rest, ds, rfl, h3, h4, h5, rfl⟩ := h
  refine ⟨a, p, body, e, rest, rfl, h3, dirs_noEnd h4, h5, fun rest' => ?_⟩
  rw [parseTokens_iff]
  exact ⟨a, p, body, e, rest', ds, rfl, h3, h4, h5, rfl⟩

/-- C15: lines appended to an accepted text change nothing if they can be split into tokens, and
    otherwise make the parse fail. -/
theorem C15_lines (hE : Sane E) (a b : List Char) (r : List (PreDirective F) × Directive F)
    (h : parse E a = .ok r) :
    ((∃ tb, tokenize E b = .ok tb) → parse E (a ++ '\n' :: b) = .ok r) ∧
    ((∀ tb, tokenize E b ≠ .ok tb) → ∀ r', parse E (a ++ '\n' :: b) ≠ .ok r') := by
  obtain ⟨ta, h1, h2⟩ := parse_ok h
  obtain ⟨h3, h4⟩ := C12_lines hE a b ta h1
  constructor
  · rintro ⟨tb, hb⟩
    rw [parse_of (h3 tb hb)]
    obtain ⟨x, p, body, e, rest, rfl, _, _, _, h5⟩ := C15_tail_ignored ta r.1 r.2 h2
    have := h5 (rest ++ tb.map (down ((a ++ ['\n']).count '\n')))
    simpa using this
  · intro hb r' hr
    obtain ⟨t, h5, _⟩ := parse_ok hr
    exact h4 hb t h5

example : ∃ r, parse (exEnv true) "WorldBegin AttributeBegin AttributeEnd".toList = .ok r ∧
    parse (exEnv true) "WorldBegin AttributeBegin AttributeEnd\nShape ] 3".toList = .ok r := by
  have h1 : ∃ r, parse (exEnv true) "WorldBegin AttributeBegin AttributeEnd".toList = .ok r := by
    have : (summary (parse (exEnv true) "WorldBegin AttributeBegin AttributeEnd".toList)).isSome := by
      decide +kernel
    generalize parse (exEnv true) "WorldBegin AttributeBegin AttributeEnd".toList = r at this
    cases r with
    | ok r => exact ⟨r, rfl⟩
    | _ => simp [summary] at this
  obtain ⟨r, h⟩ := h1
  refine ⟨r, h, (C15_lines (exEnv_sane _) _ "Shape ] 3".toList r h).1 ⟨[⟨⟨1, 1⟩, .Identifier "Shape"⟩,
    ⟨⟨1, 7⟩, .RBracket⟩, ⟨⟨1, 9⟩, .Int 3⟩], by decide +kernel⟩⟩

/-! ### C16 and C17 -/

/-- C16, C17 on tokens: the parse of tokens that spell a scene is the scene without what follows
    the first nested block of a block. -/
theorem C16_written_tokens (s : WScene F) (hs : s.Ok E) (toks : List (Token F))
    (h : toks.map Token.ty = s.toks) :
    parseTokens E toks = .ok (s.trunc.place E (toks.map Token.pos)) :=
  (parseTokens_iff _ _ _ _).2 (wscene_accepts E s hs toks h)

/-- C16: what the code returns for a written scene `s`: in every block, everything after its first
    nested block is lost (`trunc`).  `ls` are the lexemes, `Layout` puts separators between
    them. -/
theorem C16_written_scene (hE : Sane E) (s : WScene F) (hs : s.Ok E) (ls : List (List Char))
    (hl : List.Forall₂ (fun l v => Lexeme E l v [] ∧ NoCrlf l) ls s.toks)
    (lead text : List Char) (hlead : Sep E lead) (htext : Layout E ls text) :
    ∃ toks, tokenize E (lead ++ text) = .ok toks ∧ toks.map Token.ty = s.toks ∧
      parse E (lead ++ text) = .ok (s.trunc.place E (toks.map Token.pos)) := by
  obtain ⟨toks, h1, h2⟩ := C05_separators hE ls s.toks hl lead text hlead htext
  exact ⟨toks, h1, h2, by rw [parse_of h1]; exact C16_written_tokens s hs toks h2⟩

/-- C17: if nested blocks come last, the whole scene is returned. -/
theorem C17_round_trip (hE : Sane E) (s : WScene F) (hs : s.Ok E) (hb : s.BlocksLast)
    (ls : List (List Char))
    (hl : List.Forall₂ (fun l v => Lexeme E l v [] ∧ NoCrlf l) ls s.toks)
    (lead text : List Char) (hlead : Sep E lead) (htext : Layout E ls text) :
    ∃ toks, tokenize E (lead ++ text) = .ok toks ∧ toks.map Token.ty = s.toks ∧
      parse E (lead ++ text) = .ok (s.place E (toks.map Token.pos)) := by
  have := C16_written_scene hE s hs ls hl lead text hlead htext
  rwa [show s.trunc = s by unfold WScene.trunc; rw [truncAll_eq _ hb]] at this

/-- C17 on tokens. -/
theorem C17_round_trip_tokens (s : WScene F) (hs : s.Ok E) (hb : s.BlocksLast)
    (toks : List (Token F)) (h : toks.map Token.ty = s.toks) :
    parseTokens E toks = .ok (s.place E (toks.map Token.pos)) := by
  have := C16_written_tokens (E := E) s hs toks h
  rwa [show s.trunc = s by unfold WScene.trunc; rw [truncAll_eq _ hb]] at this

/-- C16: the expectation is false: a scene whose `Shape` is lost. -/
theorem C16_complete_refuted (E : Env F) :
    ¬ ∀ (s : WScene F), s.Ok E → ∀ toks : List (Token F), toks.map Token.ty = s.toks →
      parseTokens E toks = .ok (s.place E (toks.map Token.pos)) := by
  intro h
  let s : WScene F := ⟨[], [.block .Attribute [], .typed .Shape "sphere" []]⟩
  let toks : List (Token F) := s.toks.map fun t => ⟨⟨1, 1⟩, t⟩
  have hs : s.Ok E := ⟨by simp [s], by simp [s, WDir.OkAll, WDir.Ok]⟩
  have ht : toks.map Token.ty = s.toks := by simp only [toks, List.map_map]; exact List.map_id _
  have h1 := h s hs toks ht
  have h2 := C16_written_tokens (E := E) s hs toks ht
  rw [h1] at h2
  injection h2 with h2
  have h3 := congrArg (fun r => (dirKey r.2).length) h2
  simp [s, WScene.trunc, WScene.place, WDir.place, WDir.placeAll, BlockKey.mk, DirKey.mk,
    WDir.truncAll, WDir.trunc, WDir.isBlock, dirKey, dirKeyAll] at h3

/-- The same on a text: the two results are the same although one text has a shape more. -/
example : summary (parse (exEnv true)
      "WorldBegin AttributeBegin AttributeEnd Shape \"sphere\" WorldEnd".toList) =
    some ([], [(⟨1, 1⟩, "WorldBegin"), (⟨1, 12⟩, "AttributeBegin")]) := by decide +kernel

/-- A scene with a parameter and a nested block. -/
def Spec.exScene : WScene Rat :=
  ⟨[.translate (.int 1) (.int 2) (.flt (1 / 2))],
   [.typed .Shape "sphere" [⟨"float radius", "radius", .floats [.int 3, .flt (1 / 2)]⟩],
    .block .Attribute [.incl "f"]]⟩

theorem Spec.exScene_ok (b : Bool) : exScene.Ok (exEnv b) ∧ exScene.BlocksLast := by
  constructor
  · refine ⟨by simp [exScene, WPre.Ok], ?_⟩
    simp only [exScene, WDir.OkAll, WDir.Ok, and_true]
    intro p hp
    rw [List.mem_singleton] at hp
    subst hp
    exact ⟨⟨[], [' '], [], by decide, by cases b <;> decide, by decide, by decide, by decide,
      by cases b <;> decide⟩, by simp [WVal.Ok]⟩
  · simp [exScene, WScene.BlocksLast, WDir.BlocksLastAll, WDir.BlocksLast, WDir.isBlock]

/-- A text that spells it. -/
example : tokenize (exEnv true)
      "Translate 1 2 .5 WorldBegin Shape \"sphere\" \"float radius\" [ 3 0.5 ] AttributeBegin Include \"f\" AttributeEnd WorldEnd".toList
    = .ok ((exScene.toks.zip [1, 11, 13, 15, 18, 29, 35, 44, 59, 61, 63, 67, 69, 84, 92, 96, 109]).map
      fun t => ⟨⟨1, t.2⟩, t.1⟩) := by decide +kernel
example : summary (.ok (exScene.place (exEnv true) ([1, 11, 13, 15, 18, 29, 35, 44, 59, 61, 63, 67,
      69, 84, 92, 96, 109].map fun c => ⟨1, c⟩))) =
    some ([(⟨1, 1⟩, "Translate")], [(⟨1, 18⟩, "WorldBegin"), (⟨1, 29⟩, "Shape"),
      (⟨1, 69⟩, "AttributeBegin"), (⟨1, 84⟩, "Include")]) := by decide +kernel

/-! ### C18 -/

/-- C18: well-formed parameters are collected by type, in text order, with name, position and
    values (`collect`), and nothing else is recorded. -/
theorem C18_params (done ts rest : List (Token F)) (ps : List (SParam F))
    (h : Many (ParamText E) ts ps) (hr : Stop rest) :
    parseParamLists E .default (reading done (ts ++ rest)) =
      (.ok (collect ps), reading (done ++ ts) rest) :=
  parseParamLists_ok E ⟨ts, [], by simp, h, .none⟩ done hr

/-- C18: the same for a whole scene, for every world directive with parameters. -/
theorem C18_world_directive (k : DirKey) (a ts rest : List (Token F)) (pre : List (PreDirective F))
    (p q q' : Pos) (e : Token F) (ty : String) (ps : List (SParam F))
    (ha : Many (PreText E) a pre) (h : Many (ParamText E) ts ps) (he : IsEnd e) :
    parseTokens E (a ++ kw p "WorldBegin" :: (kw q k.word :: ⟨q', .Str ty⟩ :: ts) ++ e :: rest) =
      .ok (pre, .World p [k.mk ⟨ty, q, collect ps⟩]) := by
  rw [parseTokens_iff]
  have ht : Typed E k.word (kw q k.word :: ⟨q', .Str ty⟩ :: ts) ⟨ty, q, collect ps⟩ :=
    ⟨q', ts, ps, rfl, ⟨ts, [], by simp, h, .none⟩, rfl⟩
  refine ⟨a, p, _, e, rest, _, rfl, ha, ?_, he, rfl⟩
  rw [← List.append_nil (kw q k.word :: ⟨q', .Str ty⟩ :: ts)]
  cases k with
  | Material => exact .cons _ [] _ [] id (.material _ _ ht) .nil
  | Shape => exact .cons _ [] _ [] id (.shape _ _ ht) .nil
  | LightSource => exact .cons _ [] _ [] id (.lightSource _ _ ht) .nil
  | AreaLightSource => exact .cons _ [] _ [] id (.areaLightSource _ _ ht) .nil

/-- C18: the same for every pre-world directive with parameters. -/
theorem C18_pre_directive (k : PreKey) (ts rest : List (Token F)) (q q' : Pos) (ty : String)
    (ps : List (SParam F)) (pre : List (PreDirective F)) (w : Directive F)
    (h : Many (ParamText E) ts ps) (hr : parseTokens E rest = .ok (pre, w)) :
    parseTokens E (kw q k.word :: ⟨q', .Str ty⟩ :: ts ++ rest) =
      .ok (k.mk ⟨ty, q, collect ps⟩ :: pre, w) := by
  rw [parseTokens_iff] at *
  have ht : Typed E k.word (kw q k.word :: ⟨q', .Str ty⟩ :: ts) ⟨ty, q, collect ps⟩ :=
    ⟨q', ts, ps, rfl, ⟨ts, [], by simp, h, .none⟩, rfl⟩
  have hp : PreText E (kw q k.word :: ⟨q', .Str ty⟩ :: ts) (k.mk ⟨ty, q, collect ps⟩) := by
    cases k with
    | Camera => exact .camera _ _ ht
    | Sampler => exact .sampler _ _ ht
    | Film => exact .film _ _ ht
    | Filter => exact .filter _ _ ht
    | Integrator => exact .integrator _ _ ht
    | Accelerator => exact .accelerator _ _ ht
  obtain ⟨a, p, body, e, r, ds, rfl, h1, h2⟩ := hr
  exact ⟨_, p, body, e, r, ds, by simp, .cons _ a _ pre hp h1, h2⟩

/-- `"integer n" 3 "float r" [ 1 ] "integer m" [ 4 5 ]` -/
example : ∃ ts : List (Token Rat), Many (ParamText (exEnv true)) ts
      [⟨⟨1, 1⟩, "n", .ints [3]⟩, ⟨⟨1, 2⟩, "r", .floats [1]⟩, ⟨⟨1, 3⟩, "m", .ints [4, 5]⟩] ∧
    (collect [⟨⟨1, 1⟩, "n", .ints [3]⟩, ⟨⟨1, 2⟩, "r", .floats [1]⟩,
      ⟨⟨1, 3⟩, "m", .ints [4, 5]⟩] : ParamSet Rat).ints =
        [⟨"n", ⟨1, 1⟩, [3]⟩, ⟨"m", ⟨1, 3⟩, [4, 5]⟩] := by
  refine ⟨[⟨⟨1, 1⟩, .Str "integer n"⟩, ⟨⟨1, 1⟩, .Int 3⟩] ++ ([⟨⟨1, 2⟩, .Str "float r"⟩,
    ⟨⟨1, 2⟩, .LBracket⟩, ⟨⟨1, 2⟩, .Int 1⟩, ⟨⟨1, 2⟩, .RBracket⟩] ++ ([⟨⟨1, 3⟩, .Str "integer m"⟩,
    ⟨⟨1, 2⟩, .LBracket⟩, ⟨⟨1, 2⟩, .Int 4⟩, ⟨⟨1, 2⟩, .Int 5⟩, ⟨⟨1, 2⟩, .RBracket⟩] ++ [])), ?_, rfl⟩
  refine .cons _ _ _ _ ⟨"integer n", "integer", _, rfl, ⟨[], [' '], [], by decide, by decide,
    by decide, by decide, by decide, by decide⟩, .ints _ _ (.inl ⟨3, ⟨_, rfl⟩, rfl⟩)⟩
    (.cons _ _ _ _ ⟨"float r", "float", _, rfl, ⟨[], [' '], [], by decide, by decide,
    by decide, by decide, by decide, by decide⟩, .floats _ _ (.inr ⟨by simp, _, _, _, rfl,
      many_tok ⟨_, .inr ⟨1, rfl, by decide⟩⟩ .nil⟩)⟩
    (.cons _ _ _ _ ⟨"integer m", "integer", _, rfl, ⟨[], [' '], [], by decide, by decide,
    by decide, by decide, by decide, by decide⟩, .ints _ _ (.inr ⟨by simp, _, _, _, rfl,
      many_tok ⟨_, rfl⟩ (many_tok ⟨_, rfl⟩ .nil)⟩)⟩ .nil))

/-! ### C19 -/

/-- C19: the parse fails whenever the parameter reader stops in front of a token that is not an
    identifier.  `strs` are the strings between the keyword and the parameters; the keyword is not
    behind a block end, nor the argument of `ActiveTransform`. -/
theorem C19_reader_stops (x strs y : List (Token F)) (p : Pos) (key : String) (n : Nat)
    (hk : (key, n) ∈ paramKeys) (hx : ∀ t ∈ x, ¬ IsEnd t)
    (hat : ∀ q, x.getLast? ≠ some (kw q "ActiveTransform")) (hl : strs.length = n)
    (read rest : List (Token F)) (t : Token F) (hy : y = read ++ t :: rest)
    (hs : (parseParamLists E .default (reading (x ++ kw p key :: strs) y)).2 =
      reading (x ++ kw p key :: strs ++ read) (t :: rest)) (ht : ¬ IsId t) :
    ∀ r, parseTokens E (x ++ kw p key :: strs ++ y) ≠ .ok r := by
  rintro ⟨pre, w⟩ hr
  rw [parseTokens_iff, List.append_assoc, List.cons_append] at hr
  obtain ⟨ts, rest', ps, h1, h2, h3⟩ := paramsAt_stop E hl (accepts_params E hr hk hx hat)
    (x ++ kw p key :: strs)
  have h4 : PS (x ++ kw p key :: strs ++ ts) rest' =
      reading (x ++ kw p key :: strs ++ read) (t :: rest) := by
    rw [← hs]
    exact (congrArg Prod.snd h3).symm
  have h5 : ts.length = read.length := by
    have := congrArg Parser.index h4
    simpa [PS, reading] using this
  have h6 := List.append_inj (h1.symm.trans hy) h5
  rw [h6.2] at h2
  exact ht (stop_isId h2)

/-- C19: after well-formed parameters, a declaration that is not two words or of an unknown type
    makes the parse fail. -/
theorem C19_bad_declaration (x strs ts z : List (Token F)) (p q : Pos) (key decl : String) (n : Nat)
    (hk : (key, n) ∈ paramKeys) (hx : ∀ t ∈ x, ¬ IsEnd t)
    (hat : ∀ q, x.getLast? ≠ some (kw q "ActiveTransform")) (hl : strs.length = n)
    (ps : List (SParam F)) (hts : Many (ParamText E) ts ps)
    (hd : ∀ ty name, TwoWords E decl ty name → ty ∉ paramTypes) :
    ∀ r, parseTokens E (x ++ kw p key :: strs ++ (ts ++ ⟨q, .Str decl⟩ :: z)) ≠ .ok r := by
  have h : ∃ e, parseParamList E (collect ps)
      (PS (x ++ kw p key :: strs ++ ts) (⟨q, .Str decl⟩ :: z)) =
        (.err e, PS (x ++ kw p key :: strs ++ ts) (⟨q, .Str decl⟩ :: z)) := by
    by_cases h2 : ∃ ty name, TwoWords E decl ty name
    · obtain ⟨ty, name, h2⟩ := h2
      obtain ⟨m, hm⟩ := parseParamList_unknown E (collect ps) (x ++ kw p key :: strs ++ ts) z q h2
        (hd ty name h2)
      exact ⟨_, hm⟩
    · obtain ⟨m, hm⟩ := parseParamList_notTwo E (collect ps) (x ++ kw p key :: strs ++ ts) z q decl h2
      exact ⟨_, hm⟩
  obtain ⟨e, he⟩ := h
  exact C19_reader_stops x strs _ p key n hk hx hat hl ts z ⟨q, .Str decl⟩ rfl
    (congrArg Prod.snd (parseParamLists_run E hts _ _ he)) (not_isId _ _ (by simp))

/-- C19: which malformed parameters are swallowed (`Dropped`): the directive is accepted without
    them if an identifier follows. -/
theorem C19_swallowed (k : DirKey) (a ts d rest : List (Token F)) (pre : List (PreDirective F))
    (p q q' : Pos) (e : Token F) (ty : String) (ps : List (SParam F))
    (ha : Many (PreText E) a pre) (h : Many (ParamText E) ts ps) (hd : Dropped E d) (he : IsEnd e) :
    parseTokens E (a ++ kw p "WorldBegin" :: (kw q k.word :: ⟨q', .Str ty⟩ :: (ts ++ d)) ++ e :: rest) =
      .ok (pre, .World p [k.mk ⟨ty, q, collect ps⟩]) := by
  rw [parseTokens_iff]
  have ht : Typed E k.word (kw q k.word :: ⟨q', .Str ty⟩ :: (ts ++ d)) ⟨ty, q, collect ps⟩ :=
    ⟨q', ts ++ d, ps, rfl, ⟨ts, d, rfl, h, hd⟩, rfl⟩
  refine ⟨a, p, _, e, rest, _, rfl, ha, ?_, he, rfl⟩
  rw [← List.append_nil (kw q k.word :: ⟨q', .Str ty⟩ :: (ts ++ d))]
  cases k with
  | Material => exact .cons _ [] _ [] id (.material _ _ ht) .nil
  | Shape => exact .cons _ [] _ [] id (.shape _ _ ht) .nil
  | LightSource => exact .cons _ [] _ [] id (.lightSource _ _ ht) .nil
  | AreaLightSource => exact .cons _ [] _ [] id (.areaLightSource _ _ ht) .nil

/-- C19: the expectation is false: the parameter `"float r" [ 1 ` without closing bracket is
    accepted, and ignored. -/
theorem C19_malformed_refuted :
    summary (parse (exEnv true) "WorldBegin Shape \"s\" \"float r\" [ 1 WorldEnd".toList) =
      some ([], [(⟨1, 1⟩, "WorldBegin"), (⟨1, 12⟩, "Shape")]) ∧
    ¬ ∃ p : SParam Rat, ParamText (exEnv true)
      [⟨⟨1, 22⟩, .Str "float r"⟩, ⟨⟨1, 32⟩, .LBracket⟩, ⟨⟨1, 34⟩, .Int 1⟩] p := by
  refine ⟨by decide +kernel, ?_⟩
  rintro ⟨p, decl, ty, vs, h1, h2, h3⟩
  simp only [List.cons.injEq] at h1
  obtain ⟨h1, rfl⟩ := h1
  injection h1 with h4 h5
  injection h5 with h5
  subst h5
  have h6 : TwoWords (exEnv true) "float r" "float" "r" :=
    ⟨[], [' '], [], by decide, by decide, by decide, by decide, by decide, by decide⟩
  obtain ⟨rfl, -⟩ := twoWords_unique _ h2 h6
  generalize p.val = v at h3
  generalize hty : "float" = ty at h3
  cases h3 with
  | floats _ l h =>
    rcases h with ⟨x, ⟨p, h | ⟨i, h, _⟩⟩, _⟩ | ⟨_, p, q, vs, h, _⟩
    · simp at h
    · simp at h
    · have := congrArg List.getLast? h
      rw [List.getLast?_concat] at this
      simp at this
  | _ => simp at hty

example : ∀ r, parse (exEnv true) "WorldBegin Shape \"s\" \"float\" 1 WorldEnd".toList ≠ .ok r := by
  have h : tokenize (exEnv true) "WorldBegin Shape \"s\" \"float\" 1 WorldEnd".toList =
      .ok ([kw ⟨1, 1⟩ "WorldBegin"] ++ kw ⟨1, 12⟩ "Shape" :: [⟨⟨1, 18⟩, .Str "s"⟩] ++
        ([] ++ ⟨⟨1, 22⟩, .Str "float"⟩ :: [⟨⟨1, 30⟩, .Int 1⟩, kw ⟨1, 32⟩ "WorldEnd"])) := by
    decide +kernel
  rw [parse_of h]
  refine C19_bad_declaration _ _ _ _ _ _ "Shape" "float" 1 (by decide) ?_ (by simp [kw]) rfl [] .nil ?_
  · intro t ht
    rw [List.mem_singleton] at ht
    subst ht
    rintro ⟨p, s, h, hs⟩
    injection h with _ h
    injection h with h
    subst h
    revert hs
    decide
  · rintro ty name h
    rw [← splitWhitespace_two] at h
    revert h
    rw [show splitWhitespace (exEnv true) "float" = ["float"] by decide +kernel]
    simp

/-! ### C20 -/

/-- C20: with the right count the directive is returned with its numbers in order, and the rest of
    the text is read as if it stood alone. -/
theorem C20_exact (key : String) (n : Nat) (hk : (key, n) ∈ xformArity) (p : Pos)
    (a ts y : List (Token F)) (l : List F) (pre0 : List (PreDirective F))
    (ha : Many (PreText E) a pre0) (hts : Many (NumTok E) ts l) (hl : l.length = n) (hy : Stop y) :
    ∃ d, xform p key l = some d ∧ ∀ pre w,
      parseTokens E (a ++ kw p key :: ts ++ y) = .ok (pre, w) ↔
        ∃ pre', pre = pre0 ++ d :: pre' ∧ parseTokens E y = .ok (pre', w) := by
  have h : ∃ d, xform p key l = some d ∧ PreText E (kw p key :: ts) d := by
    simp only [xformArity, List.mem_cons, List.not_mem_nil, or_false, Prod.mk.injEq] at hk
    rcases hk with ⟨rfl, rfl⟩ | ⟨rfl, rfl⟩ | ⟨rfl, rfl⟩ | ⟨rfl, rfl⟩ | ⟨rfl, rfl⟩ | ⟨rfl, rfl⟩ |
      ⟨rfl, rfl⟩
    · obtain ⟨x, y, z, rfl⟩ := length3 hl
      exact ⟨_, rfl, .translate _ _ _ _ _ hts⟩
    · obtain ⟨x, y, z, rfl⟩ := length3 hl
      exact ⟨_, rfl, .scale _ _ _ _ _ hts⟩
    · obtain ⟨t, x, y, z, rfl⟩ := length4 hl
      exact ⟨_, rfl, .rotate _ _ _ _ _ _ hts⟩
    · obtain ⟨a, b, c, d, e, f, g, h, i, rfl⟩ := length9 hl
      exact ⟨_, rfl, .lookAt _ _ _ _ _ _ _ _ _ _ _ hts⟩
    · obtain ⟨a, b, c, d, e, f, g, h, i, rfl⟩ := length9 hl
      exact ⟨_, rfl, .transform _ _ _ _ _ _ _ _ _ _ _ hts⟩
    · obtain ⟨a, b, c, d, e, f, g, h, i, rfl⟩ := length9 hl
      exact ⟨_, rfl, .concatTransform _ _ _ _ _ _ _ _ _ _ _ hts⟩
    · obtain ⟨x, y, rfl⟩ := length2 hl
      exact ⟨_, rfl, .transformTimes _ _ _ _ hts⟩
  obtain ⟨d, h1, h2⟩ := h
  refine ⟨d, h1, fun pre w => ?_⟩
  rw [parseTokens_iff, accepts_pre E (many_snoc ha h2) hy]
  simp [parseTokens_iff]

/-- C20: with any other count the parse fails. -/
theorem C20_wrong_count (key : String) (n : Nat) (hk : (key, n) ∈ xformArity) (p : Pos)
    (a ts y : List (Token F)) (l : List F) (pre0 : List (PreDirective F))
    (ha : Many (PreText E) a pre0) (hts : Many (NumTok E) ts l) (hl : l.length ≠ n)
    (hy : ¬ ∃ b x c, y = b ++ c ∧ NumTok E b x) :
    ∀ r, parseTokens E (a ++ kw p key :: ts ++ y) ≠ .ok r := by
  rintro ⟨pre, w⟩ hr
  rw [parseTokens_iff, List.append_assoc, List.cons_append, accepts_pre E ha (stop_kw _ _ _)] at hr
  obtain ⟨pre', -, b, q, body, e, rest, ds, h1, h2, h3, h4, -⟩ := hr
  have hkw : key ≠ "WorldBegin" := by
    rintro rfl
    revert hk
    simp [xformArity]
  cases h2 with
  | nil =>
    simp only [List.nil_append, List.cons_append, List.cons.injEq] at h1
    injection h1.1 with _ h5
    injection h5 with h5
    exact hkw h5
  | cons b c d ds' h5 h6 =>
    -- the directive read first starts with the keyword, so it takes exactly `n` numbers
    have key_nums : ∃ ts' l', b = kw p key :: ts' ∧ Many (NumTok E) ts' l' ∧ l'.length = n := by
      obtain ⟨p', s', b', rfl, hk'⟩ := preText_head h5
      have he : p' = p ∧ s' = key := by
        simp only [List.cons_append, List.cons.injEq] at h1
        injection h1.1 with h7 h8
        injection h8 with h8
        exact ⟨h7.symm, h8.symm⟩
      obtain ⟨rfl, rfl⟩ := he
      generalize hd' : (kw p' s' :: b' : List (Token F)) = b at h5
      simp only [xformArity, List.mem_cons, List.not_mem_nil, or_false, Prod.mk.injEq] at hk
      have typed : ∀ key' (d : DirectiveStruct F), Typed E key' b d →
          key' ∉ xformArity.map Prod.fst → s' ∈ xformArity.map Prod.fst → False := by
        rintro key' d ⟨q, rest, ps, rfl, _⟩ h9 h10
        injection hd' with h11 _
        injection h11 with _ h12
        injection h12 with h12
        subst h12
        exact h9 h10
      have hmem : s' ∈ xformArity.map Prod.fst := by
        simp only [xformArity, List.map_cons, List.map_nil, List.mem_cons, List.not_mem_nil, or_false]
        rcases hk with h | h | h | h | h | h | h <;> simp [h.1]
      have nums : ∀ key' q ts' (l' : List F), kw p' s' :: b' = kw q key' :: ts' →
          Many (NumTok E) ts' l' → (key', l'.length) ∈ xformArity →
          ∃ ts'' l'', kw q key' :: ts' = kw p' s' :: ts'' ∧ Many (NumTok E) ts'' l'' ∧
            l''.length = n := by
        intro key' q ts' l' h9 h10 h11
        injection h9 with h12 h13
        injection h12 with h14 h15
        injection h15 with h15
        subst h14 h15
        refine ⟨ts', l', rfl, h10, ?_⟩
        simp only [xformArity, List.mem_cons, List.not_mem_nil, or_false, Prod.mk.injEq] at h11
        rcases hk with ⟨rfl, rfl⟩ | ⟨rfl, rfl⟩ | ⟨rfl, rfl⟩ | ⟨rfl, rfl⟩ | ⟨rfl, rfl⟩ | ⟨rfl, rfl⟩ |
          ⟨rfl, rfl⟩ <;> simpa using h11
      have other : ∀ key' q ts', kw p' s' :: b' = (kw q key' :: ts' : List (Token F)) →
          key' ∉ xformArity.map Prod.fst → False := by
        intro key' q ts' h9 h10
        injection h9 with h12 h13
        injection h12 with h14 h15
        injection h15 with h15
        subst h15
        exact h10 hmem
      cases h5 with
      | translate q ts' x y z h => exact nums _ _ _ _ hd' h (by simp [xformArity])
      | scale q ts' x y z h => exact nums _ _ _ _ hd' h (by simp [xformArity])
      | rotate q ts' t x y z h => exact nums _ _ _ _ hd' h (by simp [xformArity])
      | lookAt q ts' _ _ _ _ _ _ _ _ _ h => exact nums _ _ _ _ hd' h (by simp [xformArity])
      | transform q ts' _ _ _ _ _ _ _ _ _ h => exact nums _ _ _ _ hd' h (by simp [xformArity])
      | concatTransform q ts' _ _ _ _ _ _ _ _ _ h => exact nums _ _ _ _ hd' h (by simp [xformArity])
      | transformTimes q ts' _ _ h => exact nums _ _ _ _ hd' h (by simp [xformArity])
      | identity q => exact (other _ _ _ hd' (by simp [xformArity])).elim
      | coordinateSystem q ts' s h => exact (other _ _ _ hd' (by simp [xformArity])).elim
      | coordSysTransform q ts' s h => exact (other _ _ _ hd' (by simp [xformArity])).elim
      | incl q ts' s h => exact (other _ _ _ hd' (by simp [xformArity])).elim
      | activeTransform q q' s => exact (other _ _ _ hd' (by simp [xformArity])).elim
      | camera _ d h => exact (typed _ _ h (by simp [xformArity]) hmem).elim
      | sampler _ d h => exact (typed _ _ h (by simp [xformArity]) hmem).elim
      | film _ d h => exact (typed _ _ h (by simp [xformArity]) hmem).elim
      | filter _ d h => exact (typed _ _ h (by simp [xformArity]) hmem).elim
      | integrator _ d h => exact (typed _ _ h (by simp [xformArity]) hmem).elim
      | accelerator _ d h => exact (typed _ _ h (by simp [xformArity]) hmem).elim
    obtain ⟨ts', l', rfl, h7, h8⟩ := key_nums
    simp only [List.cons_append, List.append_assoc, List.cons.injEq, true_and] at h1
    -- the reader of all numbers stops at the same place in both readings
    have hst : ¬ ∃ b x d, c ++ kw q "WorldBegin" :: (body ++ e :: rest) = b ++ d ∧ NumTok E b x := by
      have := no_item_of_stop (starts_num E) (stop_pres h6 (stop_kw q "WorldBegin" (body ++ e :: rest)))
      exact this
    have r1 := parseMany_run (reads_float E) "float" hts [] y hy
    have r2 := parseMany_run (reads_float E) "float" h7 [] _ hst
    have hne' : l' ≠ [] := by
      rintro rfl
      simp at h8
      subst h8
      revert hk
      simp [xformArity]
    by_cases hne : l = []
    · subst hne
      cases hts
      have h9 := r2.1 hne'
      rw [← h1] at h9
      obtain ⟨m, h10⟩ := r1.2 rfl
      rw [h10] at h9
      simp at h9
    · have h9 := r1.1 hne
      have h10 := r2.1 hne'
      rw [h1, h10] at h9
      injection h9 with h11 _
      injection h11 with h11
      exact hl (by rw [← h11]; exact h8)

example : summary (parse (exEnv true) "Rotate 1 0.5 -1 2 WorldBegin WorldEnd".toList) =
    some ([(⟨1, 1⟩, "Rotate")], [(⟨1, 19⟩, "WorldBegin")]) := by decide +kernel
example : Many (NumTok (exEnv true)) [⟨⟨1, 8⟩, .Int 1⟩, ⟨⟨1, 10⟩, .Float (1 / 2)⟩] [1, 1 / 2] :=
  many_tok ⟨_, .inr ⟨1, rfl, by decide⟩⟩ (many_tok ⟨_, .inl rfl⟩ .nil)
example : summary (parse (exEnv true) "Scale 1 2 WorldBegin WorldEnd".toList) = none := by
  decide +kernel
example : summary (parse (exEnv true) "Scale 1 2 3 4 WorldBegin WorldEnd".toList) = none := by
  decide +kernel

/-! ### C21 -/

/-- C21: a bracketed list is read completely. -/
theorem C21_list {T : Type} {parser : PM F T} {R : List (Token F) → T → Prop}
    (hp : ElemReader E parser R) (name : String) (done ts rest : List (Token F)) (xs : List T)
    (h : Bracketed R ts xs) :
    parseList E parser name (reading done (ts ++ rest)) = (.ok xs, reading (done ++ ts) rest) :=
  parseList_ok E (elem_reads hp).1 (elem_reads hp).2 name h done rest

/-- C21: everything else fails. -/
theorem C21_fails {T : Type} {parser : PM F T} {R : List (Token F) → T → Prop}
    (hp : ElemReader E parser R) (name : String) (done ts : List (Token F))
    (h : ¬ ∃ a xs rest, ts = a ++ rest ∧ Bracketed R a xs) :
    ∃ m, (parseList E parser name (reading done ts)).1 = .err (.Str m) := by
  rcases parseList_cases E (elem_reads hp).1 (elem_reads hp).2 name done ts with
    ⟨a, xs, rest, h1, h2, _⟩ | ⟨a, rest, m, h1, h2, _⟩
  · exact absurd ⟨a, xs, rest, h1, h2⟩ h
  · exact ⟨m, congrArg Prod.fst h2⟩

/-- C21: the cases that fail: no opening bracket, an empty list, an element of another type, a
    missing closing bracket. -/
theorem C21_cases {T : Type} {parser : PM F T} {R : List (Token F) → T → Prop}
    (hp : ElemReader E parser R) (name : String) (done ts : List (Token F)) :
    ((∀ t, ts.head? = some t → t.ty ≠ .LBracket) →
      ∃ m, (parseList E parser name (reading done ts)).1 = .err (.Str m)) ∧
    (∀ p vs xs rest, ts = ⟨p, .LBracket⟩ :: vs ++ rest → Many R vs xs →
      (¬ ∃ b x c, rest = b ++ c ∧ R b x) →
      (xs = [] ∨ ∀ t, rest.head? = some t → t.ty ≠ .RBracket) →
      ∃ m, (parseList E parser name (reading done ts)).1 = .err (.Str m)) := by
  obtain ⟨hr, hs⟩ := elem_reads hp
  constructor
  · intro h
    obtain ⟨m, hm⟩ := parseList_nobracket (parser := parser) E name done ts h
    exact ⟨m, congrArg Prod.fst hm⟩
  · rintro p vs xs rest rfl hm hf hc
    apply C21_fails hp
    rintro ⟨a, ys, r, h1, hne, p', q', vs', rfl, hm'⟩
    have h1' : ⟨p, .LBracket⟩ :: (vs ++ rest) =
        (⟨p', .LBracket⟩ :: (vs' ++ ⟨q', .RBracket⟩ :: r) : List (Token F)) := by simpa using h1
    injection h1' with _ h2
    have r1 := parseMany_run hr name hm [] rest hf
    have r2 := parseMany_run hr name hm' [] _ (no_item_of_rb hs (q := q') (rest := r))
    have h3 := r2.1 hne
    by_cases hx : xs = []
    · obtain ⟨m, h4⟩ := r1.2 hx
      rw [h2, h3] at h4
      simp at h4
    · have h4 := r1.1 hx
      rw [h2, h3] at h4
      injection h4 with _ h5
      have hlen : vs.length = vs'.length := by
        have := congrArg Parser.index h5
        simpa [PS] using this.symm
      obtain ⟨_, rfl⟩ := List.append_inj h2 hlen
      rcases hc with hc | hc
      · exact hx hc
      · exact hc _ rfl rfl

/-- C21: lists of a given length `n` (used for colours): exactly `n` elements, or failure. -/
theorem C21_list_of_n {T : Type} {parser : PM F T} {R : List (Token F) → T → Prop}
    (hp : ElemReader E parser R) (name : String) (n : Nat) (hn : n > 0)
    (done ts : List (Token F)) :
    (∀ a xs rest, ts = a ++ rest → Bracketed R a xs → xs.length = n →
      parseListOfN E parser n name (reading done ts) = (.ok xs, reading (done ++ a) rest)) ∧
    ((¬ ∃ a xs rest, ts = a ++ rest ∧ Bracketed R a xs ∧ xs.length = n) →
      ∃ m, (parseListOfN E parser n name (reading done ts)).1 = .err (.Str m)) := by
  obtain ⟨hr, hs⟩ := elem_reads hp
  constructor
  · rintro a xs rest rfl h hl
    exact parseListOfN_ok E hr n hn name h hl done rest
  · intro h
    rcases parseListOfN_cases E hr n hn name done ts with
      ⟨a, xs, rest, h1, h2, h3, _⟩ | ⟨a, rest, m, h1, h2, _⟩
    · exact absurd ⟨a, xs, rest, h1, h2, h3⟩ h
    · exact ⟨m, congrArg Prod.fst h2⟩

example : Bracketed (F := Rat) IntTok [⟨⟨1, 1⟩, .LBracket⟩, ⟨⟨1, 2⟩, .Int 7⟩, ⟨⟨1, 3⟩, .RBracket⟩] [7] :=
  ⟨by simp, _, _, [⟨⟨1, 2⟩, .Int 7⟩], rfl, many_tok ⟨_, rfl⟩ .nil⟩
example : (parseList (exEnv true) (parseInt (exEnv true)) "int"
    ⟨[⟨⟨1, 1⟩, .LBracket⟩, ⟨⟨1, 3⟩, .RBracket⟩], 0⟩).1 ≠ .ok [] := by decide +kernel

/-! ### C22 -/

/-- C22: a bracketed list of `2n` numbers is `n` points, the `i`-th made of numbers `2i` and
    `2i+1`; zero numbers or an odd count fails. -/
theorem C22_points (name : String) (done ts rest : List (Token F)) (l : List F)
    (p q : Pos) (hl : Many (NumTok E) ts l) :
    (∀ n, n > 0 → l.length = 2 * n → ∃ xs : List (Point2f F), xs.length = n ∧
      (∀ i (hi : i < xs.length), some xs[i].x = l[2 * i]? ∧ some xs[i].y = l[2 * i + 1]?) ∧
      parseList E (parsePoint2f E) name
        (reading done (⟨p, .LBracket⟩ :: ts ++ ⟨q, .RBracket⟩ :: rest)) =
          (.ok xs, reading (done ++ ⟨p, .LBracket⟩ :: ts ++ [⟨q, .RBracket⟩]) rest)) ∧
    (l = [] ∨ l.length % 2 = 1 → ∃ m, (parseList E (parsePoint2f E) name
        (reading done (⟨p, .LBracket⟩ :: ts ++ ⟨q, .RBracket⟩ :: rest))).1 = .err (.Str m)) := by
  constructor
  · intro n hn h
    obtain ⟨xs, h1, h2, h3⟩ : ∃ xs : List (Point2f F), xs.length = n ∧
        (∀ i (hi : i < xs.length), some xs[i].x = l[2 * i]? ∧ some xs[i].y = l[2 * i + 1]?) ∧
        Many (PointTok E) ts xs := by
      clear hn
      induction n generalizing l ts with
      | zero =>
        have : l = [] := by simpa using h
        subst this
        cases hl
        exact ⟨[], rfl, by simp, .nil⟩
      | succ n ih =>
        match l, h, hl with
        | x :: y :: l, h, hl =>
          generalize hw : x :: y :: l = w at hl
          cases hl with
          | nil => simp at hw
          | cons a b x' ys ha hb =>
            generalize hw' : y :: l = w' at hw
            injection hw with h4 h5
            subst h4 h5 hw'
            generalize hw'' : y :: l = w'' at hb
            cases hb with
            | nil => simp at hw''
            | cons b c y' zs hb hc =>
              injection hw'' with h4 h5
              subst h4 h5
              obtain ⟨xs, h6, h7, h8⟩ := ih c l hc (by simp at h; omega)
              refine ⟨⟨x, y⟩ :: xs, by simp [h6], ?_, ?_⟩
              · intro i hi
                cases i with
                | zero => simp
                | succ i =>
                  have := h7 i (by simpa using hi)
                  simpa [Nat.mul_succ] using this
              · rw [← List.append_assoc]
                exact .cons (a ++ b) c _ _ ⟨a, b, rfl, ha, hb⟩ h8
    refine ⟨xs, h1, h2, ?_⟩
    have hb : Bracketed (PointTok E) (⟨p, .LBracket⟩ :: ts ++ [⟨q, .RBracket⟩]) xs :=
      ⟨by rintro rfl; simp at h1; omega, p, q, ts, rfl, h3⟩
    have := C21_list .point name done _ rest xs hb
    simpa using this
  · intro h
    apply C21_fails .point
    rintro ⟨a, xs, r, h1, hne, p', q', vs, rfl, hm⟩
    have h1' : ⟨p, .LBracket⟩ :: (ts ++ ⟨q, .RBracket⟩ :: rest) =
        (⟨p', .LBracket⟩ :: (vs ++ ⟨q', .RBracket⟩ :: r) : List (Token F)) := by simpa using h1
    injection h1' with _ h2
    -- the numbers of the points
    have hv : Many (NumTok E) vs (xs.flatMap fun p => [p.x, p.y]) := by
      clear h2 h1 hne
      induction hm with
      | nil => exact .nil
      | cons a b x xs hx _ ih =>
        obtain ⟨c, d, rfl, h3, h4⟩ := hx
        rw [List.append_assoc]
        exact .cons c _ _ _ h3 (.cons d _ _ _ h4 ih)
    have hlen : ∀ xs : List (Point2f F), (xs.flatMap fun p => [p.x, p.y]).length = 2 * xs.length := by
      intro xs
      induction xs with
      | nil => rfl
      | cons x xs ih => rw [List.flatMap_cons, List.length_append, ih]; simp; omega
    have r1 := parseMany_run (reads_float E) name hl [] _ (no_item_of_rb (starts_num E) (q := q) (rest := rest))
    have r2 := parseMany_run (reads_float E) name hv [] _ (no_item_of_rb (starts_num E) (q := q') (rest := r))
    have hne' : (xs.flatMap fun p => [p.x, p.y]) ≠ [] := by
      intro h0
      have := hlen xs
      rw [h0] at this
      simp only [List.length_nil] at this
      exact hne (List.length_eq_zero_iff.1 (by omega))
    have h3 := r2.1 hne'
    rcases h with rfl | h
    · obtain ⟨m, h4⟩ := r1.2 rfl
      rw [h2, h3] at h4
      simp at h4
    · have h4 := r1.1 (by rintro rfl; simp at h)
      rw [h2, h3] at h4
      injection h4 with h5 _
      injection h5 with h5
      rw [← h5, hlen] at h
      omega

/-- C22: a bracketed list of `2n` numbers is `n` vectors, the `i`-th made of numbers `2i` and
    `2i+1`; zero numbers or an odd count fails. -/
theorem C22_vectors (name : String) (done ts rest : List (Token F)) (l : List F)
    (p q : Pos) (hl : Many (NumTok E) ts l) :
    (∀ n, n > 0 → l.length = 2 * n → ∃ xs : List (Vector2f F), xs.length = n ∧
      (∀ i (hi : i < xs.length), some xs[i].x = l[2 * i]? ∧ some xs[i].y = l[2 * i + 1]?) ∧
      parseList E (parseVector2f E) name
        (reading done (⟨p, .LBracket⟩ :: ts ++ ⟨q, .RBracket⟩ :: rest)) =
          (.ok xs, reading (done ++ ⟨p, .LBracket⟩ :: ts ++ [⟨q, .RBracket⟩]) rest)) ∧
    (l = [] ∨ l.length % 2 = 1 → ∃ m, (parseList E (parseVector2f E) name
        (reading done (⟨p, .LBracket⟩ :: ts ++ ⟨q, .RBracket⟩ :: rest))).1 = .err (.Str m)) := by
  constructor
  · intro n hn h
    obtain ⟨xs, h1, h2, h3⟩ : ∃ xs : List (Vector2f F), xs.length = n ∧
        (∀ i (hi : i < xs.length), some xs[i].x = l[2 * i]? ∧ some xs[i].y = l[2 * i + 1]?) ∧
        Many (VectorTok E) ts xs := by
      clear hn
      induction n generalizing l ts with
      | zero =>
        have : l = [] := by simpa using h
        subst this
        cases hl
        exact ⟨[], rfl, by simp, .nil⟩
      | succ n ih =>
        match l, h, hl with
        | x :: y :: l, h, hl =>
          generalize hw : x :: y :: l = w at hl
          cases hl with
          | nil => simp at hw
          | cons a b x' ys ha hb =>
            generalize hw' : y :: l = w' at hw
            injection hw with h4 h5
            subst h4 h5 hw'
            generalize hw'' : y :: l = w'' at hb
            cases hb with
            | nil => simp at hw''
            | cons b c y' zs hb hc =>
              injection hw'' with h4 h5
              subst h4 h5
              obtain ⟨xs, h6, h7, h8⟩ := ih c l hc (by simp at h; omega)
              refine ⟨⟨x, y⟩ :: xs, by simp [h6], ?_, ?_⟩
              · intro i hi
                cases i with
                | zero => simp
                | succ i =>
                  have := h7 i (by simpa using hi)
                  simpa [Nat.mul_succ] using this
              · rw [← List.append_assoc]
                exact .cons (a ++ b) c _ _ ⟨a, b, rfl, ha, hb⟩ h8
    refine ⟨xs, h1, h2, ?_⟩
    have hb : Bracketed (VectorTok E) (⟨p, .LBracket⟩ :: ts ++ [⟨q, .RBracket⟩]) xs :=
      ⟨by rintro rfl; simp at h1; omega, p, q, ts, rfl, h3⟩
    have := C21_list .vector name done _ rest xs hb
    simpa using this
  · intro h
    apply C21_fails .vector
    rintro ⟨a, xs, r, h1, hne, p', q', vs, rfl, hm⟩
    have h1' : ⟨p, .LBracket⟩ :: (ts ++ ⟨q, .RBracket⟩ :: rest) =
        (⟨p', .LBracket⟩ :: (vs ++ ⟨q', .RBracket⟩ :: r) : List (Token F)) := by simpa using h1
    injection h1' with _ h2
    -- the numbers of the vectors
    have hv : Many (NumTok E) vs (xs.flatMap fun p => [p.x, p.y]) := by
      clear h2 h1 hne
      induction hm with
      | nil => exact .nil
      | cons a b x xs hx _ ih =>
        obtain ⟨c, d, rfl, h3, h4⟩ := hx
        rw [List.append_assoc]
        exact .cons c _ _ _ h3 (.cons d _ _ _ h4 ih)
    have hlen : ∀ xs : List (Vector2f F), (xs.flatMap fun p => [p.x, p.y]).length = 2 * xs.length := by
      intro xs
      induction xs with
      | nil => rfl
      | cons x xs ih => rw [List.flatMap_cons, List.length_append, ih]; simp; omega
    have r1 := parseMany_run (reads_float E) name hl [] _ (no_item_of_rb (starts_num E) (q := q) (rest := rest))
    have r2 := parseMany_run (reads_float E) name hv [] _ (no_item_of_rb (starts_num E) (q := q') (rest := r))
    have hne' : (xs.flatMap fun p => [p.x, p.y]) ≠ [] := by
      intro h0
      have := hlen xs
      rw [h0] at this
      simp only [List.length_nil] at this
      exact hne (List.length_eq_zero_iff.1 (by omega))
    have h3 := r2.1 hne'
    rcases h with rfl | h
    · obtain ⟨m, h4⟩ := r1.2 rfl
      rw [h2, h3] at h4
      simp at h4
    · have h4 := r1.1 (by rintro rfl; simp at h)
      rw [h2, h3] at h4
      injection h4 with h5 _
      injection h5 with h5
      rw [← h5, hlen] at h
      omega

example : (parseList (exEnv true) (parsePoint2f (exEnv true)) "p"
    ⟨[⟨⟨1, 1⟩, .LBracket⟩, ⟨⟨1, 2⟩, .Int 1⟩, ⟨⟨1, 2⟩, .Int 2⟩, ⟨⟨1, 3⟩, .RBracket⟩], 0⟩).1 =
      .ok [⟨1, 2⟩] := by decide +kernel

/-! ### C23 -/

/-- C23: a sampled spectrum of `2n` numbers is `n` pairs, in order; a string is a file; anything
    else, in particular an odd count, is an error. -/
theorem C23_spectrum (done ts : List (Token F)) :
    (∀ a rest l n, ts = a ++ rest → Bracketed (NumTok E) a l → l.length = 2 * n →
      ∃ ps : List (F × F), ps.length = n ∧
        (∀ i (hi : i < ps.length), some ps[i].1 = l[2 * i]? ∧ some ps[i].2 = l[2 * i + 1]?) ∧
        parseSpectrum E (reading done ts) = (.ok (.Spectrum ps), reading (done ++ a) rest)) ∧
    (∀ p s rest, ts = ⟨p, .Str s⟩ :: rest →
      parseSpectrum E (reading done ts) = (.ok (.File s), reading (done ++ [⟨p, .Str s⟩]) rest)) ∧
    (∀ a rest l, ts = a ++ rest → Bracketed (NumTok E) a l → l.length % 2 = 1 →
      ∃ m, (parseSpectrum E (reading done ts)).1 = .err (.Str m)) ∧
    ((¬ ∃ a rest l, ts = a ++ rest ∧ Bracketed (NumTok E) a l) →
      (∀ p s rest, ts ≠ ⟨p, .Str s⟩ :: rest) →
      ∃ m, (parseSpectrum E (reading done ts)).1 = .err (.Str m)) := by
  have list : ∀ a rest l, ts = a ++ rest → Bracketed (NumTok E) a l → ∃ p : Pos,
      parseSpectrum E (reading done ts) =
        (if l.length % 2 ≠ 0 then
          M.throw (.Str (p.fmt ++ " parse_spectrum(): Expected an even number of floats but got "
            ++ toString l.length))
        else chunks2 l >>= fun samples => pure (.Spectrum samples)) (PS (done ++ a) rest) := by
    rintro a rest l rfl h
    have h1 := parseList_ok E (reads_float E) (starts_num E) "float" h done rest
    obtain ⟨_, p, q, vs, rfl, _⟩ := h
    refine ⟨p, ?_⟩
    rw [List.append_assoc, List.cons_append] at *
    refine (parseSpectrum_list E done _ p).trans ?_
    rw [bind_ok h1]
  refine ⟨?_, ?_, ?_, ?_⟩
  · intro a rest l n h1 h2 hl
    obtain ⟨ps, hps⟩ := pairs_of_even n l hl
    obtain ⟨p, h⟩ := list a rest l h1 h2
    refine ⟨ps, by have := pairs_even hps; omega, ?_, ?_⟩
    · rw [PairsOf] at hps
      subst hps
      clear h h1 h2 hl list
      induction ps generalizing n with
      | nil => simp
      | cons q ps ih =>
        intro i hi
        cases i with
        | zero => simp
        | succ i =>
          have := ih 0 i (by simpa using hi)
          simpa [Nat.mul_succ] using this
    · rw [h, if_neg (by omega), bind_ok (chunks2_pairs hps _)]
      rfl
  · rintro p s rest rfl
    exact parseSpectrum_file E done rest p s
  · intro a rest l h1 h2 hl
    obtain ⟨p, h⟩ := list a rest l h1 h2
    rw [h, if_pos (by omega)]
    exact ⟨_, rfl⟩
  · intro h1 h2
    by_cases hb : ∃ p rest, ts = ⟨p, .LBracket⟩ :: rest
    · obtain ⟨p, rest, rfl⟩ := hb
      rcases parseList_cases E (reads_float E) (starts_num E) "float" done (⟨p, .LBracket⟩ :: rest)
        with ⟨a, xs, r, h3, h4, _⟩ | ⟨a, r, m, h3, h4, _⟩
      · exact absurd ⟨a, r, xs, h3, h4⟩ h1
      · exact ⟨m, congrArg Prod.fst ((parseSpectrum_list E done rest p).trans (bind_err h4))⟩
    · obtain ⟨m, hm⟩ := parseSpectrum_other E done ts (by
        intro t ht
        cases ts with
        | nil => simp at ht
        | cons u us =>
          simp only [List.head?_cons, Option.some.injEq] at ht
          subst ht
          constructor
          · intro h
            exact hb ⟨u.pos, us, by rw [← h]⟩
          · intro s h
            exact h2 u.pos s us (by rw [← h]))
      exact ⟨m, congrArg Prod.fst hm⟩

/-- C23: colours need exactly 3 numbers, `blackbody` exactly 2: a parameter list `decl` followed by
    a bracketed list of another length is not accepted as a parameter. -/
theorem C23_colour_count (decl name ty : String) (n : Nat)
    (hty : (ty, n) ∈ [("rgb", 3), ("xyz", 3), ("blackbody", 2)]) (hd : TwoWords E decl ty name)
    (p : Pos) (done vs rest : List (Token F)) (l : List F) (hv : Bracketed (NumTok E) vs l)
    (ps : ParamSet F) :
    (l.length ≠ n → ∃ e s, parseParamList E ps (reading done (⟨p, .Str decl⟩ :: vs ++ rest)) =
      (.err e, s)) ∧
    (l.length = n → ∃ sp : Spectrum F,
      (ty = "rgb" → ∃ r g b, l = [r, g, b] ∧ sp = .Rgb r g b) ∧
      (ty = "xyz" → ∃ x y z, l = [x, y, z] ∧ sp = .Xyz x y z) ∧
      (ty = "blackbody" → ∃ t s, l = [t, s] ∧ sp = .Blackbody t s) ∧
      parseParamList E ps (reading done (⟨p, .Str decl⟩ :: vs ++ rest)) =
        (.ok { ps with spectra := ps.spectra ++ [⟨name, p, [sp]⟩] },
          reading (done ++ ⟨p, .Str decl⟩ :: vs) rest)) := by
  constructor
  · intro hl
    have hmem : ty ∈ paramTypes := by
      simp only [List.mem_cons, List.not_mem_nil, or_false, Prod.mk.injEq] at hty
      rcases hty with ⟨rfl, _⟩ | ⟨rfl, _⟩ | ⟨rfl, _⟩ <;> simp [paramTypes]
    have hk := parseParamList_known E ps done (vs ++ rest) p hd hmem
    have fail : ∀ {T : Type} (k : List F → PM F T) (n : Nat), n > 0 → l.length ≠ n → ∃ e s,
        (parseListOfN E (parseFloat E) n "float" >>= k) (PS (done ++ [⟨p, .Str decl⟩]) (vs ++ rest)) =
          (.err e, s) := by
      intro T k n hn hl
      rcases parseListOfN_cases E (reads_float E) n hn "float" (done ++ [⟨p, .Str decl⟩]) (vs ++ rest)
        with ⟨a, xs, r, h1, h2, h3, h4⟩ | ⟨a, r, m, h1, h2, _⟩
      · exfalso
        have h5 := parseList_ok E (reads_float E) (starts_num E) "float" hv [] rest
        have h6 := parseList_ok E (reads_float E) (starts_num E) "float" h2 [] r
        rw [h1, h6] at h5
        injection h5 with h7 _
        injection h7 with h7
        subst h7
        exact hl h3
      · exact ⟨_, _, bind_err h2⟩
    have fin : ∀ x : PM F (PVal F), (∃ e s, x (PS (done ++ [⟨p, .Str decl⟩]) (vs ++ rest)) = (.err e, s)) →
        ∃ e s, (x >>= fun v => pure (addParam ps ⟨p, name, v⟩))
          (PS (done ++ [⟨p, .Str decl⟩]) (vs ++ rest)) = (.err e, s) := by
      rintro x ⟨e, s, h⟩
      exact ⟨e, s, bind_err h⟩
    rw [List.cons_append]
    have : ∃ e s, valueParser E ty (PS (done ++ [⟨p, .Str decl⟩]) (vs ++ rest)) = (.err e, s) := by
      simp only [List.mem_cons, List.not_mem_nil, or_false, Prod.mk.injEq] at hty
      rcases hty with ⟨rfl, rfl⟩ | ⟨rfl, rfl⟩ | ⟨rfl, rfl⟩
      · simp only [valueParser, String.reduceEq, if_true, if_false]
        exact fail _ 3 (by decide) hl
      · simp only [valueParser, String.reduceEq, if_true, if_false]
        exact fail _ 3 (by decide) hl
      · simp only [valueParser, String.reduceEq, if_true, if_false]
        exact fail _ 2 (by decide) hl
    obtain ⟨e, s, h⟩ := fin _ this
    exact ⟨e, s, hk.trans h⟩
  · intro hl
    have run : ∀ sp : Spectrum F, ValText E ty vs (.spectrum sp) →
        parseParamList E ps (reading done (⟨p, .Str decl⟩ :: vs ++ rest)) =
        (.ok { ps with spectra := ps.spectra ++ [⟨name, p, [sp]⟩] },
          reading (done ++ ⟨p, .Str decl⟩ :: vs) rest) := by
      intro sp h
      exact parseParamList_ok E (p := ⟨p, name, .spectrum sp⟩) ⟨decl, ty, vs, rfl, hd, h⟩ ps done rest
    simp only [List.mem_cons, List.not_mem_nil, or_false, Prod.mk.injEq] at hty
    rcases hty with ⟨rfl, rfl⟩ | ⟨rfl, rfl⟩ | ⟨rfl, rfl⟩
    · obtain ⟨r, g, b, rfl⟩ := length3 hl
      exact ⟨.Rgb r g b, fun _ => ⟨r, g, b, rfl, rfl⟩, by simp, by simp, run _ (.rgb _ _ _ _ hv)⟩
    · obtain ⟨r, g, b, rfl⟩ := length3 hl
      exact ⟨.Xyz r g b, by simp, fun _ => ⟨r, g, b, rfl, rfl⟩, by simp, run _ (.xyz _ _ _ _ hv)⟩
    · obtain ⟨r, g, rfl⟩ := length2 hl
      exact ⟨.Blackbody r g, by simp, by simp, fun _ => ⟨r, g, rfl, rfl⟩, run _ (.blackbody _ _ _ hv)⟩

/-- `[ 400 1 ]` -/
example : Bracketed (NumTok (exEnv true)) [⟨⟨1, 1⟩, .LBracket⟩, ⟨⟨1, 3⟩, .Int 400⟩, ⟨⟨1, 7⟩, .Int 1⟩,
    ⟨⟨1, 9⟩, .RBracket⟩] [400, 1] :=
  ⟨by simp, _, _, [⟨⟨1, 3⟩, .Int 400⟩, ⟨⟨1, 7⟩, .Int 1⟩], rfl,
    many_tok ⟨_, .inr ⟨400, rfl, by decide⟩⟩ (many_tok ⟨_, .inr ⟨1, rfl, by decide⟩⟩ .nil)⟩
example : TwoWords (exEnv true) "rgb Kd" "rgb" "Kd" :=
  ⟨[], [' '], [], by decide, by decide, by decide, by decide, by decide, by decide⟩

/-! ### C24 -/

/-- C24: an integer token is accepted as a float, and converted. -/
theorem C24_int_as_float (done rest : List (Token F)) (p : Pos) (i : Int) :
    parseFloat E (reading done (⟨p, .Int i⟩ :: rest)) =
      (.ok (E.ofIsize i), reading (done ++ [⟨p, .Int i⟩]) rest) :=
  (reads_float E).ok [⟨p, .Int i⟩] (E.ofIsize i) done rest ⟨p, .inr ⟨i, rfl, rfl⟩⟩

/-- C24: a float token is not accepted as an integer. -/
theorem C24_float_not_int (done rest : List (Token F)) (p : Pos) (f : F) :
    ∃ m, parseInt E (reading done (⟨p, .Float f⟩ :: rest)) =
      (.err (.Str m), reading done (⟨p, .Float f⟩ :: rest)) := by
  refine (reads_int E).fail done _ ?_
  rintro ⟨a, x, rest', h, p', rfl⟩
  simp at h

/-- C24: an integer literal has no point, and its exponent, if any, is a non-negative integer. -/
theorem Proof.int_literal {l : List Char} {i : Int} (h : NumLit E l (.Int i)) :
    '.' ∉ l ∧ ∀ m x, 'e' ∉ m → l = m ++ 'e' :: x → ∃ k, 0 ≤ k ∧ NumLit E x (.Int k) := by
  have dig : ∀ ds : List Char, (∀ c ∈ ds, IsDigit c) → '.' ∉ ds ∧ 'e' ∉ ds := by
    intro ds h
    constructor <;> intro h1 <;> have h2 := h _ h1 <;> revert h2 <;> unfold IsDigit <;> decide
  have sgn : ∀ s : Sign, '.' ∉ s.text ∧ 'e' ∉ s.text := by
    intro s; cases s <;> decide
  generalize hv : (TokenType.Int i : TokenType F) = v at h
  induction h generalizing i with
  | int s ds hne hds hfit =>
    refine ⟨by simp [(dig ds hds).1, (sgn s).1], ?_⟩
    intro m x _ he
    have : 'e' ∈ s.text ++ ds := by rw [he]; simp
    rcases List.mem_append.1 this with h | h
    · exact absurd h (sgn s).2
    · exact absurd h (dig ds hds).2
  | intExp s ds x k v hne hds hfit hx hk hv' ih =>
    refine ⟨?_, ?_⟩
    · have := (ih rfl).1
      simp [(dig ds hds).1, (sgn s).1, this]
    · intro m y hm he
      have h1 : 'e' ∉ s.text ++ ds := by simp [(dig ds hds).2, (sgn s).2]
      have h2 : m = s.text ++ ds ∧ y = x := by
        rcases List.append_eq_append_iff.1 he with ⟨c, h3, h4⟩ | ⟨c, h3, h4⟩
        · cases c with
          | nil =>
            simp only [List.nil_append, List.cons.injEq, true_and] at h4
            exact ⟨by simpa using h3, h4.symm⟩
          | cons u c =>
            simp only [List.cons_append, List.cons.injEq] at h4
            exact absurd (by rw [h3, ← h4.1]; simp) hm
        · cases c with
          | nil =>
            simp only [List.nil_append, List.cons.injEq, true_and] at h4
            exact ⟨by simpa using h3.symm, h4⟩
          | cons u c =>
            simp only [List.cons_append, List.cons.injEq] at h4
            exact absurd (by rw [h3, ← h4.1]; simp) h1
      rw [h2.2]
      exact ⟨k, hk, hx⟩
  | _ => simp at hv

/-- C24: a value of a parameter declared `integer` is an integer token, so its literal `l` has
    no decimal point and no negative exponent. -/
theorem C24_integer_values (hE : Sane E) (input : List Char) (pre : List (PreDirective F))
    (w : Directive F) (h : parse E input = .ok (pre, w)) (ps : ParamSet F)
    (hps : ps ∈ pre.flatMap preSets ++ dirSets w) (prm : Param Int) (hp : prm ∈ ps.ints)
    (v : Int) (hv : v ∈ prm.values) :
    ∃ text x l y, Norm input text ∧ text = x ++ l ++ y ∧ NumLit E l (.Int v) ∧ '.' ∉ l ∧
      ∀ m x, 'e' ∉ m → l = m ++ 'e' :: x → ∃ k, 0 ≤ k ∧ NumLit E x (.Int k) := by
  obtain ⟨toks, h1, h2⟩ := parse_ok h
  rw [parseTokens_iff] at h2
  obtain ⟨a, p, body, e, rest, ds, h2, h3, h4, h5, rfl⟩ := h2
  have hfrom : FromToks E toks ps := by
    rcases List.mem_append.1 hps with hps | hps
    · obtain ⟨d, hd, hps⟩ := List.mem_flatMap.1 hps
      exact ((pres_from h3 (toks := toks) (by intro t ht; rw [h2]; simp [ht])).2 d hd).2.2.1 ps hps
    · rw [dirSets] at hps
      exact (dirs_from h4 (toks := toks) (by intro t ht; rw [h2]; simp [ht])).sets ps hps
  obtain ⟨q, hq⟩ := (hfrom.ints prm hp).2 v hv
  obtain ⟨text, offs, hn, _, h6⟩ := C04_positions hE input toks h1
  obtain ⟨i, hi, hti⟩ := List.mem_iff_getElem.1 hq
  obtain ⟨_, _, l, b, h7, h8⟩ := (List.forall₂_iff_get.1 h6).2 i
    (by rw [(List.forall₂_iff_get.1 h6).1]; exact hi) hi
  simp only [List.get_eq_getElem, hti] at h8 h7
  have hl : NumLit E l (.Int v) := by
    generalize hv : (TokenType.Int v : TokenType F) = v at h8
    cases h8 with
    | num l _ v' hl _ _ => exact hl
    | _ => simp at hv
  obtain ⟨h9, h10⟩ := int_literal hl
  exact ⟨text, _, l, b, hn, by rw [List.append_assoc, ← h7, List.take_append_drop], hl, h9, h10⟩

example : (match parse (exEnv true) "WorldBegin Shape \"s\" \"integer n\" [ 3 2e1 ] WorldEnd".toList with
    | .ok (_, w) => (dirSets w).flatMap fun s => s.ints.flatMap fun p => p.values
    | _ => []) = [3, 20] := by decide +kernel
example : summary (parse (exEnv true)
    "WorldBegin Shape \"s\" \"integer n\" [ 3.0 ] WorldEnd".toList) = none := by decide +kernel

/-! ### C25 -/

/-- C25: keywords and their positions are those of identifier tokens, in the same order; all
    strings are string tokens, all numbers number tokens, all parameters come from tokens. -/
theorem C25_nothing_invented (toks : List (Token F)) (pre : List (PreDirective F)) (w : Directive F)
    (h : parseTokens E toks = .ok (pre, w)) :
    (pre.map preKey ++ dirKey w).Sublist (idents toks) ∧
    (∀ s ∈ pre.flatMap preStrs ++ dirStrs w, Text toks s) ∧
    (∀ x ∈ pre.flatMap preNums, Number E toks x) ∧
    (∀ p s, PreDirective.ActiveTransform p s ∈ pre → ∃ q, kw q s ∈ toks) ∧
    (∀ ps ∈ pre.flatMap preSets ++ dirSets w, FromToks E toks ps) := by
  rw [parseTokens_iff] at h
  obtain ⟨a, p, body, e, rest, ds, h2, h3, h4, h5, rfl⟩ := h
  obtain ⟨k1, f1⟩ := pres_from h3 (toks := toks) (by intro t ht; rw [h2]; simp [ht])
  obtain ⟨k2, s2, f2⟩ := dirs_from h4 (toks := toks) (by intro t ht; rw [h2]; simp [ht])
  refine ⟨?_, ?_, ?_, ?_, ?_⟩
  · rw [h2, dirKey, List.append_assoc, idents_append]
    refine List.Sublist.append k1 ?_
    rw [List.cons_append, idents_kw, idents_append, ← k2]
    exact List.Sublist.cons_cons _ (List.sublist_append_left _ _)
  · intro s hs
    rcases List.mem_append.1 hs with hs | hs
    · obtain ⟨d, hd, hs⟩ := List.mem_flatMap.1 hs
      exact (f1 d hd).1 s hs
    · rw [dirStrs] at hs
      exact s2 s hs
  · intro x hx
    obtain ⟨d, hd, hx⟩ := List.mem_flatMap.1 hx
    exact (f1 d hd).2.1 x hx
  · intro q s hs
    exact (f1 _ hs).2.2.2 q s rfl
  · intro s hs
    rcases List.mem_append.1 hs with hs | hs
    · obtain ⟨d, hd, hs⟩ := List.mem_flatMap.1 hs
      exact (f1 d hd).2.2.1 s hs
    · rw [dirSets] at hs
      exact f2 s hs

/-- C25: directives appear in strictly increasing text order. -/
theorem C25_text_order (hE : Sane E) (input : List Char) (pre : List (PreDirective F))
    (w : Directive F) (h : parse E input = .ok (pre, w)) :
    (pre.map preKey ++ dirKey w).Pairwise fun a b => Before a.1 b.1 := by
  obtain ⟨toks, h1, h2⟩ := parse_ok h
  have hb := lex_before ((tokenize_iff hE input toks).1 h1)
  refine List.Pairwise.sublist (C25_nothing_invented toks pre w h2).1 ?_
  unfold idents
  rw [List.pairwise_filterMap]
  refine hb.imp ?_
  intro s t hst x hx y hy
  obtain ⟨p, ty⟩ := s
  obtain ⟨q, ty'⟩ := t
  cases ty <;> simp at hx
  cases ty' <;> simp at hy
  subst hx hy
  exact hst

example : summary (parse (exEnv true) "Film \"f\"\nWorldBegin\n TransformBegin Include \"x\" WorldEnd".toList) =
    some ([(⟨1, 1⟩, "Film")], [(⟨2, 1⟩, "WorldBegin"), (⟨3, 2⟩, "TransformBegin"), (⟨3, 17⟩, "Include")]) := by
  decide +kernel

/-! ### C26 -/

/-- C26: the result does not depend on which end keywords are used.  (`ActiveTransform` takes any
    identifier as argument; an end keyword there ends nothing.) -/
theorem C26_ends_interchangeable (ts us : List (Token F)) (h : EndSwap ts us)
    (hat : ∀ x p t y, ts = x ++ kw p "ActiveTransform" :: t :: y → ¬ IsEnd t) (r : List (PreDirective F) × Directive F) :
    parseTokens E ts = .ok r ↔ parseTokens E us = .ok r := by
  have key : ∀ ts us : List (Token F), EndSwap ts us →
      (∀ x p t y, ts = x ++ kw p "ActiveTransform" :: t :: y → ¬ IsEnd t) →
      parseTokens E ts = .ok r → parseTokens E us = .ok r := by
    intro ts us h hat hr
    obtain ⟨pre, w⟩ := r
    rw [parseTokens_iff] at *
    obtain ⟨a, p, body, e, rest, ds, rfl, h3, h4, h5, rfl⟩ := hr
    have same : ∀ x y : List (Token F), List.Forall₂ (fun t u => t = u ∨ (IsEnd t ∧ IsEnd u)) x y →
        (∀ t ∈ x, ¬ IsEnd t) → x = y := by
      intro x y hxy
      induction hxy with
      | nil => intro _; rfl
      | cons h _ ih =>
        intro hx
        rcases h with rfl | ⟨h, _⟩
        · rw [ih fun t ht => hx t (by simp [ht])]
        · exact absurd h (hx _ (by simp))
    have ha : ∀ t ∈ a, ¬ IsEnd t := by
      rintro t ht ⟨q, s, rfl, hs⟩
      obtain ⟨x, y, rfl⟩ := List.append_of_mem ht
      rcases pres_occ h3 x y q s rfl with ⟨h6, _⟩ | ⟨x', q', rfl⟩
      · simp only [List.mem_cons, List.not_mem_nil, or_false] at hs
        rcases hs with rfl | rfl | rfl <;> revert h6 <;> decide
      · exact hat x' q' (kw q s) (y ++ kw p "WorldBegin" :: body ++ e :: rest) (by simp)
          ⟨q, s, rfl, hs⟩
    have hw : ¬ IsEnd (kw p "WorldBegin" : Token F) := by
      rintro ⟨q, s, h6, hs⟩
      injection h6 with _ h6
      injection h6 with h6
      subst h6
      revert hs
      decide
    have hab : ∀ t ∈ a ++ kw p "WorldBegin" :: body, ¬ IsEnd t := by
      intro t ht
      rcases List.mem_append.1 ht with ht | ht
      · exact ha t ht
      · rcases List.mem_cons.1 ht with rfl | ht
        · exact hw
        · exact dirs_noEnd h4 t ht
    have hsplit := List.forall₂_take (a ++ kw p "WorldBegin" :: body).length h
    have hsplit' := List.forall₂_drop (a ++ kw p "WorldBegin" :: body).length h
    rw [List.take_left] at hsplit
    rw [List.drop_left] at hsplit'
    have h6 := same _ _ hsplit hab
    generalize hd : us.drop (a ++ kw p "WorldBegin" :: body).length = us' at hsplit'
    cases hsplit' with
    | cons h7 h8 =>
      rename_i e' rest'
      refine ⟨a, p, body, e', rest', ds, ?_, h3, h4, ?_, rfl⟩
      · rw [h6, ← hd, List.take_append_drop]
      · rcases h7 with rfl | ⟨_, h7⟩
        · exact h5
        · exact h7
  constructor
  · exact key ts us h hat
  · refine key us ts ?_ ?_
    · exact (List.Forall₂.flip h).imp fun a b h => by
        rcases h with rfl | ⟨h1, h2⟩
        · exact .inl rfl
        · exact .inr ⟨h2, h1⟩
    · rintro x p t y rfl ht
      -- `ActiveTransform` is not an end, so it is the same token in `ts`
      have : ∀ x zs : List (Token F), EndSwap zs (x ++ kw p "ActiveTransform" :: t :: y) →
          ∃ x' t' y', zs = x' ++ kw p "ActiveTransform" :: t' :: y' ∧ IsEnd t' := by
        intro x
        induction x with
        | nil =>
          intro zs hz
          rcases hz with _ | ⟨h1, _ | ⟨h2, h3⟩⟩
          rename_i t' y'
          refine ⟨[], t', y', ?_, ?_⟩
          · rcases h1 with rfl | ⟨_, q, s, h, hs⟩
            · rfl
            · injection h with _ h
              injection h with h
              subst h
              exact absurd hs (by decide)
          · rcases h2 with rfl | ⟨h2, _⟩
            · exact ht
            · exact h2
        | cons u x ih =>
          intro zs hz
          rcases hz with _ | ⟨h1, h2⟩
          obtain ⟨x', t', y', rfl, h3⟩ := ih _ h2
          exact ⟨_ :: x', t', y', rfl, h3⟩
      obtain ⟨x', t', y', h1, h2⟩ := this x ts h
      exact hat x' p t' y' h1 h2

/-- C26: the expectation is false: an attribute block closed by `WorldEnd`, and one closed by
    `TransformEnd`, are accepted. -/
theorem C26_matching_refuted :
    summary (parse (exEnv true) "WorldBegin AttributeBegin WorldEnd".toList) =
      some ([], [(⟨1, 1⟩, "WorldBegin"), (⟨1, 12⟩, "AttributeBegin")]) ∧
    summary (parse (exEnv true) "WorldBegin AttributeBegin TransformEnd WorldEnd".toList) =
      some ([], [(⟨1, 1⟩, "WorldBegin"), (⟨1, 12⟩, "AttributeBegin")]) := by
  constructor <;> decide +kernel

example : EndSwap ([kw ⟨1, 1⟩ "WorldBegin", kw ⟨1, 12⟩ "WorldEnd"] : List (Token F))
    [kw ⟨1, 1⟩ "WorldBegin", kw ⟨1, 12⟩ "AttributeEnd"] :=
  .cons (.inl rfl) (.cons (.inr ⟨⟨_, _, rfl, by simp⟩, ⟨_, _, rfl, by simp⟩⟩) .nil)

/-! ### C27 -/

/-- C27: before `WorldBegin`, an identifier that is not a pre-world directive is an error. -/
theorem C27_unknown_pre (a z : List (Token F)) (pre0 : List (PreDirective F)) (p : Pos) (s : String)
    (ha : Many (PreText E) a pre0) (hs : s ∉ preKeys) (hw : s ≠ "WorldBegin") :
    ∀ r, parseTokens E (a ++ kw p s :: z) ≠ .ok r := by
  rintro ⟨pre, w⟩ hr
  rw [parseTokens_iff, accepts_pre E ha (stop_kw _ _ _)] at hr
  obtain ⟨pre', -, b, q, body, e, rest, ds, h1, h2, h3, h4, -⟩ := hr
  rcases pres_head h2 with rfl | ⟨p', s', c, rfl, hs'⟩
  · simp only [List.nil_append, List.cons_append, List.cons.injEq] at h1
    injection h1.1 with _ h5
    injection h5 with h5
    exact hw h5
  · simp only [List.cons_append, List.cons.injEq] at h1
    injection h1.1 with _ h5
    injection h5 with h5
    rw [h5] at hs
    exact hs hs'

/-- C27: inside a block (at any depth), an identifier that is neither a world directive nor a block
    end is an error. -/
theorem C27_unknown_world (a body z : List (Token F)) (pre0 : List (PreDirective F))
    (ds : List (Directive F)) (p q : Pos) (s : String) (ha : Many (PreText E) a pre0)
    (hb : DirsText E body ds) (hs : s ∉ dirKeys)
    (he : s ∉ ["AttributeEnd", "TransformEnd", "WorldEnd"]) :
    ∀ r, parseTokens E (a ++ kw q "WorldBegin" :: (body ++ kw p s :: z)) ≠ .ok r := by
  rintro ⟨pre, w⟩ hr
  rw [parseTokens_iff, accepts_pre E ha (stop_kw _ _ _)] at hr
  obtain ⟨pre', -, h⟩ := hr
  rw [accepts_world] at h
  obtain ⟨-, body', e, rest, ds', h1, h2, h3, -⟩ := h
  rcases occ_append h1.symm with ⟨y', h4, -⟩ | ⟨x', h4, h5⟩
  · exact hs (dirsText_occ h2 _ _ _ _ h4).1
  · cases x' with
    | nil =>
      simp only [List.nil_append, List.cons.injEq] at h4
      obtain ⟨p', s', h6, h7⟩ := h3
      rw [h6] at h4
      injection h4.1 with _ h8
      injection h8 with h8
      subst h8
      exact he h7
    | cons t x' =>
      simp only [List.cons_append, List.cons.injEq] at h4
      exact dirs_noEnd hb e (by rw [h5, h4.1]; simp) h3

/-- C27: in an accepted text, every identifier read before `WorldBegin` is a pre-world keyword (or
    the argument of `ActiveTransform`), every identifier of the world up to the first block end is
    a world keyword; the two sets share only `Include`. -/
theorem C27_accepted (toks : List (Token F)) (r : List (PreDirective F) × Directive F)
    (h : parseTokens E toks = .ok r) :
    ∃ a p body e rest, toks = a ++ kw p "WorldBegin" :: body ++ e :: rest ∧ IsEnd e ∧
      (∀ x q s y, a = x ++ kw q s :: y →
        s ∈ preKeys ∨ ∃ x' q', x = x' ++ [kw q' "ActiveTransform"]) ∧
      (∀ q s, kw q s ∈ body → s ∈ dirKeys) := by
  obtain ⟨pre, w⟩ := r
  rw [parseTokens_iff] at h
  obtain ⟨a, p, body, e, rest, ds, rfl, h3, h4, h5, rfl⟩ := h
  refine ⟨a, p, body, e, rest, rfl, h5, ?_, ?_⟩
  · intro x q s y ho
    rcases pres_occ h3 x y q s ho with h6 | h6
    · exact .inl h6.1
    · exact .inr h6
  · intro q s hm
    obtain ⟨x, y, rfl⟩ := List.append_of_mem hm
    exact (dirsText_occ h4 x y q s rfl).1

/-- C27: the two keyword sets share only `Include`. -/
theorem C27_shared (s : String) : s ∈ preKeys ∧ s ∈ dirKeys ↔ s = "Include" := by
  constructor
  · rintro ⟨h1, h2⟩
    simp only [preKeys, List.mem_cons, List.not_mem_nil, or_false] at h1
    rcases h1 with rfl | rfl | rfl | rfl | rfl | rfl | rfl | rfl | rfl | rfl | rfl | rfl | rfl | rfl |
      rfl | rfl | rfl | rfl <;> revert h2 <;> decide
  · rintro rfl
    decide

example : summary (parse (exEnv true) "Shape \"s\" WorldBegin WorldEnd".toList) = none := by
  decide +kernel
example : summary (parse (exEnv true) "WorldBegin Transform 1 2 3 4 5 6 7 8 9 WorldEnd".toList) = none := by
  decide +kernel

/-! ### C28 -/

/-- C28: reading `n > 0` values consumes exactly `n` values or fails and leaves the reader where it
    was; it fails only if there are fewer than `n`. -/
theorem C28_fixed_size {T : Type} {parser : PM F T} {R : List (Token F) → T → Prop}
    (hp : ElemReader E parser R) (name : String) (n : Nat) (hn : n > 0) (done ts : List (Token F)) :
    (∀ a xs rest, ts = a ++ rest → Many R a xs → xs.length = n →
      parseN E parser n name (reading done ts) = (.ok xs, reading (done ++ a) rest)) ∧
    ((¬ ∃ a xs rest, ts = a ++ rest ∧ Many R a xs ∧ xs.length = n) →
      ∃ m, parseN E parser n name (reading done ts) = (.err (.Str m), reading done ts)) := by
  obtain ⟨hr, hs⟩ := elem_reads hp
  constructor
  · rintro a xs rest rfl h hl
    exact parseN_ok E hr n hn name h hl done rest
  · intro h
    rcases many_split_n (R := R) n ts with ⟨a, xs, rest, h1, h2, h3⟩ | ⟨a, xs, rest, rfl, h2, h3, h4⟩
    · exact absurd ⟨a, xs, rest, h1, h2, h3⟩ h
    · exact parseN_fail E hr n name h2 h3 done rest h4

/-- C28: tokens per value: one, or two for points and vectors. -/
theorem C28_tokens {T : Type} {parser : PM F T} {R : List (Token F) → T → Prop}
    (hp : ElemReader E parser R) :
    (∀ a x, R a x → a.length = 1) ∨ (∀ a x, R a x → a.length = 2) := by
  have num : ∀ a x, NumTok E a x → a.length = 1 := by
    rintro a x ⟨p, rfl | ⟨i, rfl, _⟩⟩ <;> rfl
  cases hp with
  | int => left; rintro a x ⟨p, rfl⟩; rfl
  | float => left; exact num
  | string => left; rintro a x ⟨p, rfl⟩; rfl
  | bool => left; rintro a x ⟨p, rfl⟩; rfl
  | point =>
    right
    rintro a x ⟨b, c, rfl, h1, h2⟩
    rw [List.length_append, num _ _ h1, num _ _ h2]
  | vector =>
    right
    rintro a x ⟨b, c, rfl, h1, h2⟩
    rw [List.length_append, num _ _ h1, num _ _ h2]

example : ¬ ∃ a xs rest, ([⟨⟨1, 1⟩, .Int 1⟩, ⟨⟨1, 3⟩, .LBracket⟩] : List (Token Rat)) = a ++ rest ∧
    Many IntTok a xs ∧ xs.length = 2 := by
  rintro ⟨a, xs, rest, h, hm, hl⟩
  cases hm with
  | nil => simp at hl
  | cons a b x xs h1 h2 =>
    obtain ⟨p, rfl⟩ := h1
    cases h2 with
    | nil => simp at hl
    | cons a' b' x' xs' h3 h4 =>
      obtain ⟨p', rfl⟩ := h3
      simp at h

/-! ### C29 -/

/-- C29: an accepted token list cut anywhere before or at its first block end (the one in `e`) is
    not accepted. -/
theorem C29_cut (toks : List (Token F)) (r : List (PreDirective F) × Directive F)
    (h : parseTokens E toks = .ok r) :
    ∃ a p body e rest, toks = a ++ kw p "WorldBegin" :: body ++ e :: rest ∧ IsEnd e ∧
      (∀ t ∈ body, ¬ IsEnd t) ∧
      ∀ k ≤ (a ++ kw p "WorldBegin" :: body).length, ∀ r', parseTokens E (toks.take k) ≠ .ok r' := by
  obtain ⟨pre, w⟩ := r
  rw [parseTokens_iff] at h
  obtain ⟨a, p, body, e, rest, ds, rfl, h3, h4, h5, rfl⟩ := h
  refine ⟨a, p, body, e, rest, rfl, h5, dirs_noEnd h4, ?_⟩
  rintro k hk ⟨pre', w'⟩ hr
  rw [parseTokens_iff] at hr
  generalize htoks : a ++ kw p "WorldBegin" :: body ++ e :: rest = toks at *
  obtain ⟨a', p', body', e', rest', ds', h6, h7, h8, h9, -⟩ := hr
  have hwhole : a ++ kw p "WorldBegin" :: body ++ e :: rest =
      a' ++ kw p' "WorldBegin" :: body' ++ e' :: (rest' ++ toks.drop k) := by
    rw [htoks]
    conv => lhs; rw [← List.take_append_drop k toks, h6]
    simp
  obtain ⟨h10, -⟩ := read_unique E h3 h4 h5 h7 h8 h9 hwhole
  have h11 := congrArg List.length h6
  rw [List.length_append, ← h10, List.length_cons, List.length_take] at h11
  omega

/-- C29: the parse returns the plain end-of-input error exactly when the text ends where a
    directive or a block end was expected (`Unfinished`). -/
theorem C29_eof (hE : Sane E) (input : List Char) :
    parse E input = .err .Eof ↔ ∃ toks, tokenize E input = .ok toks ∧ Unfinished E toks := by
  constructor
  · intro h
    unfold parse at h
    generalize ht : tokenize E input = t at h
    cases t with
    | ok toks => exact ⟨toks, rfl, (parseTokens_eof_iff E toks).1 h⟩
    | err e =>
      obtain ⟨m, rfl, -⟩ := C13_error_positions hE input e ht
      simp [ParserError.ofTokenizer] at h
    | _ => simp at h
  · rintro ⟨toks, h1, h2⟩
    rw [parse_of h1]
    exact (parseTokens_eof_iff E toks).2 h2

example : ∃ toks, tokenize (exEnv true) "WorldBegin AttributeBegin".toList = .ok toks ∧
    Unfinished (exEnv true) toks :=
  ⟨[kw ⟨1, 1⟩ "WorldBegin", kw ⟨1, 12⟩ "AttributeBegin"], by decide +kernel,
    .inr ⟨[], _, _, [], _, rfl, .nil, .block _ (.Attribute ⟨1, 12⟩ []) trivial (.attribute _ _ _ .nil)⟩⟩

end Pbrt
