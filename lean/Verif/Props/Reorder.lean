import Verif.Proof.Reorder
import Verif.Props.Layout

/-!
# C103: the order of parameters of different types does not matter
-/

namespace Pbrt

open Spec Proof Proof.Reorder

section
variable {F : Type} {E : Env F}

/-- **C103**: reordering the parameters of one directive, but not those of the same type, changes neither
    the scene that is read nor whether one is read: with `Texture` after three strings, with the other
    directives after one. What stands before the directive and after the parameters is arbitrary. -/
theorem C103_tokens {n : Nat} {k : String} {p : Pos} {x y y' : List (Token F)} (hk : (k, n) ∈ paramKeys)
    (h : Swap E n y y') :
    (∀ r, parseTokens E (x ++ kw p k :: y) = .ok r ↔ parseTokens E (x ++ kw p k :: y') = .ok r) ∧
      (parseTokens E (x ++ kw p k :: y) = .err .Eof ↔ parseTokens E (x ++ kw p k :: y') = .err .Eof) := by
  refine ⟨fun ⟨pre, w⟩ => ?_, ?_⟩
  · rw [parseTokens_iff, parseTokens_iff]
    exact ⟨fun ha => accepts_swap ha hk h, fun ha => accepts_swap ha hk (swap_symm h)⟩
  · rw [parseTokens_eof_iff, parseTokens_eof_iff]
    exact ⟨fun ha => unfinished_swap ha hk h, fun ha => unfinished_swap ha hk (swap_symm h)⟩

theorem reorder_view {n : Nat} {k : String} {p : Pos} {x y y' : List (Token F)} (hk : (k, n) ∈ paramKeys)
    (h : Swap E n y y') : view (parseTokens E (x ++ kw p k :: y)) = view (parseTokens E (x ++ kw p k :: y')) := by
  obtain ⟨h1, h2⟩ := C103_tokens (x := x) (p := p) hk h
  have a1 := parseTokens_ne (E := E) (x ++ kw p k :: y)
  have a2 := parseTokens_ne (E := E) (x ++ kw p k :: y')
  revert h1 h2 a1 a2
  generalize parseTokens E (x ++ kw p k :: y) = s
  generalize parseTokens E (x ++ kw p k :: y') = t
  intro h1 h2 a1 a2
  cases s with
  | ok r => rw [(h1 r).1 rfl]
  | panic => exact absurd rfl a1.2
  | diverge => exact absurd rfl a1.1
  | err e =>
    cases t with
    | ok r => exact absurd ((h1 r).2 rfl) (by simp)
    | panic => exact absurd rfl a2.2
    | diverge => exact absurd rfl a2.1
    | err e' =>
      cases e <;> cases e' <;> simp_all [view]

/-- **C103**, for texts: the tokens of the second text are, apart from their positions, those of the
    first in another order of the parameters of one directive; then both are read as the same scene, up
    to positions, or both are rejected. -/
theorem C103_text {n : Nat} {k : String} {p : Pos} {x y y' t : List (Token F)} {a b : List Char}
    (hk : (k, n) ∈ paramKeys) (h : Swap E n y y') (ha : tokenize E a = .ok (x ++ kw p k :: y))
    (hb : tokenize E b = .ok t) (ht : t.map Token.ty = (x ++ kw p k :: y').map Token.ty) :
    view (parse E a) = view (parse E b) := by
  rw [parse_of ha, parse_of hb, reorder_view hk h]
  exact C62_tokens _ _ ht.symm

theorem swap_two {strs ts u v rest : List (Token F)} {ps : List (SParam F)} {q r : SParam F}
    (hs : ∀ t ∈ strs, ∃ s, t.ty = .Str s) (hm : Many (ParamText E) ts ps) (hu : ParamText E u q)
    (hv : ParamText E v r) (hd : q.val.kind ≠ r.val.kind) :
    Swap E strs.length (strs ++ ts ++ u ++ v ++ rest) (strs ++ ts ++ v ++ u ++ rest) := by
  refine ⟨strs, ts ++ (u ++ v), ts ++ (v ++ u), rest, ps ++ [q, r], ps ++ [r, q], by simp, by simp, rfl, hs,
    many_append hm ?_, many_append hm ?_, ?_⟩
  · have := Many.cons u (v ++ []) q [r] hu (.cons v [] r [] hv .nil)
    simpa using this
  · have := Many.cons v (u ++ []) r [q] hv (.cons u [] q [] hu .nil)
    simpa using this
  · intro k
    rw [List.filter_append, List.filter_append]
    congr 1
    by_cases h1 : q.val.kind = k <;> by_cases h2 : r.val.kind = k <;> simp_all

/-- **C103**: in particular two neighbouring parameters of different types may be exchanged. -/
theorem C103_exchange {k : String} {p : Pos} {x strs ts u v rest t : List (Token F)} {ps : List (SParam F)}
    {q r : SParam F} {a b : List Char} (hk : (k, strs.length) ∈ paramKeys) (hs : ∀ t ∈ strs, ∃ s, t.ty = .Str s)
    (hm : Many (ParamText E) ts ps) (hu : ParamText E u q) (hv : ParamText E v r) (hd : q.val.kind ≠ r.val.kind)
    (ha : tokenize E a = .ok (x ++ kw p k :: (strs ++ ts ++ u ++ v ++ rest))) (hb : tokenize E b = .ok t)
    (ht : t.map Token.ty = (x ++ kw p k :: (strs ++ ts ++ v ++ u ++ rest)).map Token.ty) :
    view (parse E a) = view (parse E b) :=
  C103_text hk (swap_two hs hm hu hv hd) ha hb ht

theorem collect_inj {ps qs : List (SParam F)} (h : collect ps = collect qs) : SameByType ps qs := by
  have key : ∀ {α : Type} (f : SParam F → Option α) (g : α → SParam F) (k : Kind),
      (∀ p, (f p).map g = if p.val.kind = k then some p else none) → ps.filterMap f = qs.filterMap f →
      ps.filter (fun p => p.val.kind = k) = qs.filter (fun p => p.val.kind = k) := by
    intro α f g k hf he
    have : ∀ l : List (SParam F), l.filter (fun p => p.val.kind = k) = (l.filterMap f).map g := by
      intro l
      rw [List.map_filterMap, ← List.filterMap_eq_filter]
      congr 1
      funext p
      rw [hf p]
      by_cases hp : p.val.kind = k <;> simp [hp, Option.guard]
    rw [this, this, he]
  have h1 := congrArg ParamSet.bools h
  have h2 := congrArg ParamSet.ints h
  have h3 := congrArg ParamSet.floats h
  have h4 := congrArg ParamSet.point2fs h
  have h5 := congrArg ParamSet.vector2fs h
  have h6 := congrArg ParamSet.strings h
  have h7 := congrArg ParamSet.spectra h
  have h8 := congrArg ParamSet.textures h
  intro k
  cases k with
  | bools => exact key _ (fun e : Param Bool => ⟨e.pos, e.name, .bools e.values⟩) .bools (by rintro ⟨_, _, v⟩; cases v <;> rfl) h1
  | ints => exact key _ (fun e : Param Int => ⟨e.pos, e.name, .ints e.values⟩) .ints (by rintro ⟨_, _, v⟩; cases v <;> rfl) h2
  | floats => exact key _ (fun e : Param F => ⟨e.pos, e.name, .floats e.values⟩) .floats (by rintro ⟨_, _, v⟩; cases v <;> rfl) h3
  | point2s =>
    exact key _ (fun e : Param (Point2f F) => ⟨e.pos, e.name, .point2s e.values⟩) .point2s (by rintro ⟨_, _, v⟩; cases v <;> rfl) h4
  | vector2s =>
    exact key _ (fun e : Param (Vector2f F) => ⟨e.pos, e.name, .vector2s e.values⟩) .vector2s (by rintro ⟨_, _, v⟩; cases v <;> rfl) h5
  | strings =>
    exact key _ (fun e : Param String => ⟨e.pos, e.name, .strings e.values⟩) .strings (by rintro ⟨_, _, v⟩; cases v <;> rfl) h6
  | spectra =>
    exact key _ (fun e : Param (Spectrum F) => ⟨e.pos, e.name, match e.values with | s :: _ => .spectrum s | [] => .bools []⟩) .spectra
      (by rintro ⟨_, _, v⟩; cases v <;> rfl) h7
  | textures =>
    exact key _ (fun e : Param String => ⟨e.pos, e.name, match e.values with | s :: _ => .texture s | [] => .bools []⟩) .textures
      (by rintro ⟨_, _, v⟩; cases v <;> rfl) h8

/-- **C103**: and nothing else is forgotten: if two lists of parameters of a shape give the same scene,
    their parameters are the same for every type. -/
theorem C103_exact {p q r s : Pos} {ty : String} {ts us : List (Token F)} {ps qs : List (SParam F)}
    (h1 : Many (ParamText E) ts ps) (h2 : Many (ParamText E) us qs) :
    parseTokens E (kw p "WorldBegin" :: kw q "Shape" :: ⟨r, .Str ty⟩ :: (ts ++ [kw s "WorldEnd"])) =
      parseTokens E (kw p "WorldBegin" :: kw q "Shape" :: ⟨r, .Str ty⟩ :: (us ++ [kw s "WorldEnd"])) ↔
    SameByType ps qs := by
  have key : ∀ {ts : List (Token F)} {ps : List (SParam F)}, Many (ParamText E) ts ps →
      parseTokens E (kw p "WorldBegin" :: kw q "Shape" :: ⟨r, .Str ty⟩ :: (ts ++ [kw s "WorldEnd"])) =
        .ok ([], .World p [.Shape ⟨ty, q, collect ps⟩]) := by
    intro ts ps hm
    rw [parseTokens_iff]
    refine ⟨[], p, kw q "Shape" :: ⟨r, .Str ty⟩ :: ts, kw s "WorldEnd", [], _, by simp, .nil,
      ?_, ⟨s, _, rfl, by simp⟩, rfl⟩
    have := DirsText.cons (E := E) _ [] _ [] (by simp [IsBlock]) (.shape _ ⟨ty, q, collect ps⟩ ⟨r, ts, ps, rfl, ⟨ts, [], by simp, hm, .none⟩, rfl⟩) .nil
    simpa using this
  rw [key h1, key h2]
  constructor
  · intro h
    simp only [Res.ok.injEq, Prod.mk.injEq, true_and, Directive.World.injEq, List.cons.injEq, Directive.Shape.injEq,
      DirectiveStruct.mk.injEq, and_true] at h
    exact collect_inj h
  · intro h
    rw [collect_same h]
end

/-! ### Examples -/

/-- A shape with floats and a texture; in the second text the texture is first. -/
example : ∃ (x y y' t : List (Token Rat)), Swap (exEnv true) 1 y y' ∧ y ≠ y' ∧
    tokenize (exEnv true) "WorldBegin Shape \"a\" \"float r\" [1 2] \"texture t\" \"u\" \"float s\" 3 WorldEnd".toList =
      .ok (x ++ kw ⟨1, 12⟩ "Shape" :: y) ∧
    tokenize (exEnv true) "WorldBegin Shape \"a\" \"texture t\" \"u\" \"float r\" [1 2] \"float s\" 3 WorldEnd".toList =
      .ok t ∧ t.map Token.ty = (x ++ kw ⟨1, 12⟩ "Shape" :: y').map Token.ty := by
  have hu : ParamText (exEnv true) [⟨⟨1, 22⟩, .Str "float r"⟩, ⟨⟨1, 32⟩, .LBracket⟩, ⟨⟨1, 33⟩, .Int 1⟩,
      ⟨⟨1, 35⟩, .Int 2⟩, ⟨⟨1, 36⟩, .RBracket⟩] ⟨⟨1, 22⟩, "r", .floats [1, 2]⟩ :=
    ⟨"float r", "float", _, rfl, ⟨[], [' '], [], by decide, by decide, by decide, by decide, by decide, by decide⟩,
      .floats _ _ (.inr ⟨by simp, _, _, _, rfl,
        many_tok ⟨_, .inr ⟨1, rfl, by decide⟩⟩ (many_tok ⟨_, .inr ⟨2, rfl, by decide⟩⟩ .nil)⟩)⟩
  have hv : ParamText (exEnv true) [⟨⟨1, 38⟩, .Str "texture t"⟩, ⟨⟨1, 50⟩, .Str "u"⟩] ⟨⟨1, 38⟩, "t", .texture "u"⟩ :=
    ⟨"texture t", "texture", _, rfl, ⟨[], [' '], [], by decide, by decide, by decide, by decide, by decide, by decide⟩,
      .texture _ _ ⟨_, rfl⟩⟩
  refine ⟨[kw ⟨1, 1⟩ "WorldBegin"], _, _, [kw ⟨1, 1⟩ "WorldBegin", kw ⟨1, 12⟩ "Shape", ⟨⟨1, 18⟩, .Str "a"⟩,
    ⟨⟨1, 22⟩, .Str "texture t"⟩, ⟨⟨1, 34⟩, .Str "u"⟩, ⟨⟨1, 38⟩, .Str "float r"⟩, ⟨⟨1, 48⟩, .LBracket⟩, ⟨⟨1, 49⟩, .Int 1⟩,
    ⟨⟨1, 51⟩, .Int 2⟩, ⟨⟨1, 52⟩, .RBracket⟩, ⟨⟨1, 54⟩, .Str "float s"⟩, ⟨⟨1, 64⟩, .Int 3⟩, kw ⟨1, 66⟩ "WorldEnd"],
    swap_two (strs := [⟨⟨1, 18⟩, .Str "a"⟩]) (ts := []) (ps := [])
      (rest := [⟨⟨1, 54⟩, .Str "float s"⟩, ⟨⟨1, 64⟩, .Int 3⟩, kw ⟨1, 66⟩ "WorldEnd"]) (by simp) .nil hu hv (by simp [PVal.kind]), ?_, ?_, ?_, ?_⟩ <;>
    decide +kernel

/-- The names of the `float` parameters of the first shape of the world -/
def floatNames : Res PError (List (PreDirective Rat) × Directive Rat) → List String
  | .ok (_, .World _ (.Shape d :: _)) => d.paramSet.floats.map (·.name)
  | _ => []

/-- **C103**: without the condition on the types `C103_exchange` is false: the order of parameters of the
    same type is kept, so exchanging two of them changes the scene. -/
theorem C103_same_type_refuted : ¬ ∀ (k : String) (p : Pos) (x strs ts u v rest t : List (Token Rat))
    (ps : List (SParam Rat)) (q r : SParam Rat) (a b : List Char), (k, strs.length) ∈ paramKeys →
    (∀ t ∈ strs, ∃ s, t.ty = .Str s) → Many (ParamText (exEnv true)) ts ps → ParamText (exEnv true) u q →
    ParamText (exEnv true) v r → tokenize (exEnv true) a = .ok (x ++ kw p k :: (strs ++ ts ++ u ++ v ++ rest)) →
    tokenize (exEnv true) b = .ok t → t.map Token.ty = (x ++ kw p k :: (strs ++ ts ++ v ++ u ++ rest)).map Token.ty →
    view (parse (exEnv true) a) = view (parse (exEnv true) b) := by
  intro h
  have := h "Shape" ⟨1, 12⟩ [kw ⟨1, 1⟩ "WorldBegin"] [⟨⟨1, 18⟩, .Str "a"⟩] []
    [⟨⟨1, 22⟩, .Str "float r"⟩, ⟨⟨1, 32⟩, .Int 1⟩] [⟨⟨1, 34⟩, .Str "float s"⟩, ⟨⟨1, 44⟩, .Int 1⟩] [kw ⟨1, 46⟩ "WorldEnd"]
    [kw ⟨1, 1⟩ "WorldBegin", kw ⟨1, 12⟩ "Shape", ⟨⟨1, 18⟩, .Str "a"⟩, ⟨⟨1, 22⟩, .Str "float s"⟩, ⟨⟨1, 32⟩, .Int 1⟩,
      ⟨⟨1, 34⟩, .Str "float r"⟩, ⟨⟨1, 44⟩, .Int 1⟩, kw ⟨1, 46⟩ "WorldEnd"]
    [] ⟨⟨1, 22⟩, "r", .floats [1]⟩ ⟨⟨1, 34⟩, "s", .floats [1]⟩
    "WorldBegin Shape \"a\" \"float r\" 1 \"float s\" 1 WorldEnd".toList
    "WorldBegin Shape \"a\" \"float s\" 1 \"float r\" 1 WorldEnd".toList (by decide) (by simp) .nil
    ⟨"float r", "float", _, rfl, ⟨[], [' '], [], by decide, by decide, by decide, by decide, by decide, by decide⟩,
      .floats _ _ (.inl ⟨1, ⟨_, .inr ⟨1, rfl, by decide⟩⟩, rfl⟩)⟩
    ⟨"float s", "float", _, rfl, ⟨[], [' '], [], by decide, by decide, by decide, by decide, by decide, by decide⟩,
      .floats _ _ (.inl ⟨1, ⟨_, .inr ⟨1, rfl, by decide⟩⟩, rfl⟩)⟩
    (by decide +kernel) (by decide +kernel) (by decide +kernel)
  have := congrArg floatNames this
  exact absurd this (by decide +kernel)

end Pbrt
