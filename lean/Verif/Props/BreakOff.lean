import Verif.Proof.BreakOff
import Verif.Props.Edit

/-!
# C115: scenes that break off
-/

namespace Pbrt

open Spec Proof Proof.BreakOff

section
variable {F : Type} {E : Env F}

/-- **C115**: tokens that break off inside of a directive that needs more are reported as such; nobody has to
    know how they would go on. -/
theorem C115_report {toks : List (Token F)} {m : String} (h : BreaksOff E toks m) :
    parseTokens E toks = .err (.Str m) :=
  (C72_error E toks m).2 (breaksOff_fault h)

/-- **C115**: an accepted list of tokens is cut somewhere before the end of its block: this is reported as
    the end of the input, unless the cut is inside of a directive that needs more; then there is a message. -/
theorem C115_cut {toks : List (Token F)} {r : List (PreDirective F) × Directive F} (h : parseTokens E toks = .ok r) :
    ∃ a p body e rest, toks = a ++ kw p "WorldBegin" :: body ++ e :: rest ∧ IsEnd e ∧ (∀ t ∈ body, ¬ IsEnd t) ∧
      (∀ k ≤ (a ++ kw p "WorldBegin" :: body).length,
        (parseTokens E (toks.take k) = .err .Eof ∧ ∀ m, ¬ BreaksOff E (toks.take k) m) ∨
        ∃ m, parseTokens E (toks.take k) = .err (.Str m) ∧ BreaksOff E (toks.take k) m) ∧
      ∀ k > (a ++ kw p "WorldBegin" :: body).length, parseTokens E (toks.take k) = .ok r := by
  obtain ⟨pre, w⟩ := r
  rw [parseTokens_iff] at h
  obtain ⟨a, p, body, e, rest, ds, rfl, h3, h4, h5, rfl⟩ := h
  refine ⟨a, p, body, e, rest, rfl, h5, dirs_noEnd h4, fun k hk => ?_, fun k hk => ?_⟩
  · rw [List.take_append_of_le_length hk]
    rcases accepts_cut h3 h4 (List.take_append_drop k _).symm with h | ⟨m, h⟩
    · refine .inl ⟨(parseTokens_eof_iff E _).2 h, fun m hm => ?_⟩
      exact (C72_exactly_one E _).2.2.2.1 m h (breaksOff_fault hm)
    · exact .inr ⟨m, C115_report h, h⟩
  · rw [List.take_append]
    obtain ⟨n, hn⟩ : ∃ n, k - (a ++ kw p "WorldBegin" :: body).length = n + 1 := ⟨k - (a ++ kw p "WorldBegin" :: body).length - 1, by omega⟩
    rw [hn, List.take_succ_cons, List.take_of_length_le (by omega), parseTokens_iff]
    exact ⟨a, p, body, e, _, ds, rfl, h3, h4, h5, rfl⟩

theorem breaks_keyword {w s m : String} {p : Pos} {v : List (Token F)} (h : Breaks E w p s v m) (q : Pos) (k : String)
    (u : List (Token F)) : (s = "ActiveTransform" ∧ v = []) ∨ (∃ m', ArgsFault E p s (v ++ kw q k :: u) m') ∨
      ∃ t u', Args E s (v ++ kw q k :: u) (t :: u') ∧ ¬ IsId t := by
  have hid : ¬ IsStr (kw q k : Token F) := by rintro ⟨x, h⟩; simp [kw] at h
  cases h with
  | noNumber s n hs => exact .inr (.inl ⟨_, .notNumber s n _ u hs (kw_notNumber q k)⟩)
  | numbers s n v hs hv h0 hn =>
    refine .inr (.inl ⟨_, .count s n v _ hs hv h0 (by omega) ?_⟩)
    intro t ht
    simp only [List.head?_cons, Option.some.injEq] at ht
    subst ht
    exact kw_notNumber q k
  | strings s n v hs hv hn => exact .inr (.inl ⟨_, .notString s n v _ u hs hv hn hid⟩)
  | active => exact .inl ⟨rfl, rfl⟩
  | value s n strs a ps q' r decl ty name good t bad hs hv hn ha hd hnum ht =>
    refine .inr (.inr ⟨t, bad ++ kw q k :: u, ?_, number_notId (hnum t (by simp))⟩)
    have := Args.params s n strs _ _ hs hv hn (stuck_longest (q := q') (r := r) ha hd hnum ht)
    have := args_longer q k u this
    simpa using this

/-- **C115**: before a keyword the cut is harmless; the one exception is the name behind `ActiveTransform`. -/
theorem C115_keyword {u v : List (Token F)} {q : Pos} {k : String} {r : List (PreDirective F) × Directive F}
    (h : parseTokens E (u ++ kw q k :: v) = .ok r) (hu : ∀ r', parseTokens E u ≠ .ok r') :
    parseTokens E u = .err .Eof ∨ ∃ x p, u = x ++ [kw p "ActiveTransform"] := by
  obtain ⟨a, p, body, e, rest, he, _, _, hcut, hlong⟩ := C115_cut h
  have htake : (u ++ kw q k :: v).take u.length = u := List.take_left
  rcases Nat.lt_or_ge (a ++ kw p "WorldBegin" :: body).length u.length with hlt | hge
  · have := hlong _ hlt
    rw [htake] at this
    exact absurd this (hu r)
  · have := hcut _ hge
    rw [htake] at this
    rcases this with ⟨h, _⟩ | ⟨m, _, w, x, keys, p', s, v', rfl, hat, hs, hb⟩
    · exact .inl h
    · right
      rcases breaks_keyword hb q k v with ⟨rfl, rfl⟩ | hf
      · exact ⟨x, p', rfl⟩
      · exfalso
        have hfault : ∃ m', SceneFault E (x ++ kw p' s :: (v' ++ kw q k :: v)) m' := by
          cases hat with
          | pre x pre hx =>
            rcases hf with ⟨m', hf⟩ | ⟨t, u', h1, h2⟩
            · exact ⟨m', pres_fault hx (.args p' s _ m' hs hf)⟩
            · exact ⟨_, pres_fault hx (.later p' s _ _ _ hs h1 (.notKey t u' h2))⟩
          | body a q' body pre ds ha hd =>
            rw [List.append_assoc, List.cons_append]
            rcases hf with ⟨m', hf⟩ | ⟨t, u', h1, h2⟩
            · exact ⟨m', pres_fault ha (.body q' _ m' (dirs_fault hd (.args p' s _ m' hs hf)))⟩
            · exact ⟨_, pres_fault ha (.body q' _ _ (dirs_fault hd (.later p' s _ _ _ hs h1 (.notKey t u' h2))))⟩
        obtain ⟨m', hm'⟩ := hfault
        have h1 := (C72_error E _ m').2 hm'
        rw [List.append_assoc, List.cons_append, h1] at h
        cases h

/-- **C115**, for texts: of an accepted text only the first lines are read. -/
theorem C115_lines (hE : Sane E) {a b : List Char} {r : List (PreDirective F) × Directive F}
    (h : parse E (a ++ '\n' :: b) = .ok r) {ta : List (Token F)} (ha : tokenize E a = .ok ta) :
    parse E a = .ok r ∨ (parse E a = .err .Eof ∧ ∀ m, ¬ BreaksOff E ta m) ∨
      ∃ m, parse E a = .err (.Str m) ∧ BreaksOff E ta m := by
  have h2 := C12_lines hE a b ta ha
  unfold parse at h
  generalize hb : tokenize E (a ++ '\n' :: b) = x at h
  cases x with
  | err e => simp at h
  | panic => simp at h
  | diverge => simp at h
  | ok toks =>
    obtain ⟨tb, htb⟩ : ∃ tb, tokenize E b = .ok tb := by
      by_contra hn
      push Not at hn
      exact h2.2 hn toks hb
    rw [h2.1 tb htb] at hb
    injection hb with hb
    subst hb
    obtain ⟨a', p, body, e, rest, he, _, _, hcut, hlong⟩ := C115_cut h
    rw [parse_of ha]
    rcases Nat.lt_or_ge (a' ++ kw p "WorldBegin" :: body).length ta.length with hlt | hge
    · have := hlong _ hlt
      rw [List.take_left] at this
      exact .inl this
    · have := hcut _ hge
      rw [List.take_left] at this
      exact .inr this

end

/-! ### Examples -/

/-- What is reported: nothing, the end of the input, or a message -/
def reported {F : Type} (r : Res ParserError (List (PreDirective F) × Directive F)) : Option (Option String) :=
  match r with
  | .err (.Str m) => some (some m)
  | .err .Eof => some none
  | _ => none

theorem err_of_reported {F : Type} {r : Res ParserError (List (PreDirective F) × Directive F)} {m : String}
    (h : reported r = some (some m)) : r = .err (.Str m) := by
  match r with
  | .err (.Str m') => exact congrArg _ (congrArg _ (Option.some.inj (Option.some.inj h)))
  | .err .Eof => simp [reported] at h
  | .ok _ | .panic | .diverge => cases h

theorem eof_of_reported {F : Type} {r : Res ParserError (List (PreDirective F) × Directive F)}
    (h : reported r = some none) : r = .err .Eof := by
  match r with
  | .err (.Str m') => simp [reported] at h
  | .err .Eof => rfl
  | .ok _ | .panic | .diverge => cases h

/-- **C115**, the expectation that fails: the first part of a scene is not always reported as incomplete. A number
    that belongs to a colour is blamed, though nothing is wrong with it. -/
theorem C115_blame_refuted :
    ∃ a b r, parse (exEnv true) (a ++ '\n' :: b) = .ok r ∧
      parse (exEnv true) a =
        .err (.Str "(1, 32) parse_directives(): expected identifier or block close but got Int(1)") := by
  refine ⟨"WorldBegin Shape \"a\" \"rgb L\" [ 1 2".toList, "3 ] WorldEnd".toList, ?_⟩
  have hk : outcomeKind (parse (exEnv true) ("WorldBegin Shape \"a\" \"rgb L\" [ 1 2".toList ++ '\n' :: "3 ] WorldEnd".toList)) =
      0 := by decide +kernel
  generalize parse (exEnv true) ("WorldBegin Shape \"a\" \"rgb L\" [ 1 2".toList ++ '\n' :: "3 ] WorldEnd".toList) = r at hk ⊢
  match r with
  | .ok r => exact ⟨r, rfl, err_of_reported (by decide +kernel)⟩
  | .err _ | .panic | .diverge => cases hk

/-- Cuts at other places: between directives, behind a declaration, in a list, in the numbers of a transform. -/
example :
    reported (parse (exEnv true) "Translate 1 2 3".toList) = some none ∧
    reported (parse (exEnv true) "WorldBegin Shape \"a\" \"float r\"".toList) = some none ∧
    reported (parse (exEnv true) "WorldBegin Shape \"a\" \"float r\" [ 1 2".toList) = some none ∧
    reported (parse (exEnv true) "WorldBegin Shape \"a\" \"point2 r\" [ 1 2".toList) = some none ∧
    reported (parse (exEnv true) "WorldBegin Shape \"a\" \"point2 r\" [ 1 2 3".toList) =
      some (some "(1, 39) parse_directives(): expected identifier or block close but got Int(3)") ∧
    reported (parse (exEnv true) "Translate 1 2".toList) =
      some (some "(1, 1) parse_predirective(): Translate expects 3 floats but was given 2") ∧
    reported (parse (exEnv true) "WorldBegin Shape".toList) = some (some "parse_string(): EOF while processing string") ∧
    reported (parse (exEnv true) "ActiveTransform".toList) =
      some (some "parse_identifier(): EOF while processing identifier") := by
  decide +kernel

/-- Half a point, as the hypothesis of `C115_report` -/
example : ∃ m, BreaksOff (exEnv true) [kw ⟨1, 1⟩ "WorldBegin", kw ⟨1, 12⟩ "Shape", ⟨⟨1, 18⟩, .Str "a"⟩,
    ⟨⟨1, 22⟩, .Str "point2 r"⟩, ⟨⟨1, 33⟩, .LBracket⟩, ⟨⟨1, 35⟩, .Int 1⟩, ⟨⟨1, 37⟩, .Int 2⟩, ⟨⟨1, 39⟩, .Int 3⟩] m := by
  refine ⟨_, _, [kw ⟨1, 1⟩ "WorldBegin"], _, ⟨1, 12⟩, "Shape", _, rfl, .body [] ⟨1, 1⟩ [] [] [] .nil .nil, by decide,
    .value "Shape" 1 [⟨⟨1, 18⟩, .Str "a"⟩] [] [] ⟨1, 22⟩ ⟨1, 33⟩ "point2 r" "point2" "r" [⟨⟨1, 35⟩, .Int 1⟩, ⟨⟨1, 37⟩, .Int 2⟩]
      ⟨⟨1, 39⟩, .Int 3⟩ [] (by decide) ?_ rfl .nil
      ⟨[], [' '], [], by decide, by decide, by decide, by decide, by decide, by decide⟩ ?_ (.inl ⟨by decide, rfl, rfl⟩)⟩
  · intro t ht
    simp only [List.mem_cons, List.not_mem_nil, or_false] at ht
    subst ht
    exact ⟨_, rfl⟩
  · intro t ht
    simp only [List.mem_append, List.mem_cons, List.not_mem_nil, or_false] at ht
    rcases ht with (rfl | rfl) | rfl <;> exact .inl ⟨_, rfl⟩

end Pbrt
