import Verif.Proof.CutText

/-!
# C116: texts that are cut off, or to which something is added, at any character
-/

namespace Pbrt

open Spec Proof Proof.BreakOff Proof.CutText

section
variable {F : Type} {E : Env F}

/-- **C116**: the tokens of the first part of a text are the first tokens of the text; only the last one may be
    the first part of an identifier, or another number. -/
theorem C116_tokens (hE : Sane E) {a b : List Char} {ta tb : List (Token F)} (ha : tokenize E a = .ok ta)
    (hb : tokenize E (a ++ b) = .ok tb) :
    ta <+: tb ∨ ∃ c t u r, ta = c ++ [t] ∧ tb = c ++ u :: r ∧ Cut t u :=
  tokens_more hE ha hb

theorem shorter_end {p : Pos} {s s' : String} (hs : IsEnd (kw p s : Token F)) (h : Shorter s s') (q : Pos) :
    s ∈ closers ∧ s' ∉ dirKeys ∧ ¬ IsEnd (kw q s' : Token F) := by
  obtain ⟨_, k, e, hk⟩ := hs
  simp only [kw, Token.mk.injEq, TokenType.Identifier.injEq] at e
  obtain ⟨rfl, rfl⟩ := e
  have key : ∀ s ∈ closers, ∀ s' ∈ dirKeys ++ closers, s.toList <+: s'.toList → s = s' := by decide
  refine ⟨hk, fun h' => h.2 (key s hk s' (List.mem_append_left _ h') h.1), ?_⟩
  rintro ⟨_, k', e, hk'⟩
  simp only [kw, Token.mk.injEq, TokenType.Identifier.injEq] at e
  obtain ⟨rfl, rfl⟩ := e
  exact h.2 (key s hk s' (List.mem_append_right _ hk') h.1)

/-- **C116**: something is added to an accepted text, at any character. If it is still a sequence of tokens, it is
    the same scene; the one exception is that the keyword of the block end is made longer, and then it is rejected. -/
theorem C116_append (hE : Sane E) {a b : List Char} {r : List (PreDirective F) × Directive F} (h : parse E a = .ok r)
    {tb : List (Token F)} (hb : tokenize E (a ++ b) = .ok tb) :
    parse E (a ++ b) = .ok r ∨ ∃ (p : Pos) (s s' : String), s ∈ closers ∧ Shorter s s' ∧
      parse E (a ++ b) = .err (.Str (p.fmt ++ " parse_directive(): unknown identifier " ++ s')) := by
  obtain ⟨ta, ha, h⟩ := parse_ok h
  obtain ⟨pre, w⟩ := r
  rw [parseTokens_iff] at h
  obtain ⟨x, p, body, e, rest, ds, rfl, h3, h4, h5, rfl⟩ := h
  rw [parse_of hb]
  have same : ∀ rest', parseTokens E (x ++ kw p "WorldBegin" :: body ++ e :: rest') = .ok (pre, .World p ds) := fun rest' =>
    (parseTokens_iff E _ _ _).2 ⟨x, p, body, e, rest', ds, rfl, h3, h4, h5, rfl⟩
  rcases tokens_more hE ha hb with ⟨z, rfl⟩ | ⟨c, t, u, z, h6, rfl, hc⟩
  · left
    rw [List.append_assoc, List.cons_append, same]
  · rcases List.eq_nil_or_concat rest with rfl | ⟨rest, t', rfl⟩
    · obtain ⟨rfl, h7⟩ := List.append_inj' h6 rfl
      obtain rfl : e = t := by injection h7
      obtain ⟨q, s, rfl, hs⟩ := id h5
      cases hc with
      | ident _ _ s' hss =>
        obtain ⟨h7, h8, h9⟩ := shorter_end h5 hss q
        right
        refine ⟨q, s, s', h7, hss, ?_⟩
        have := (C72_error E _ _).2 (pres_fault h3 (.body p _ _ (dirs_fault h4 (.unknown q s' z h8 h9))))
        rw [List.append_assoc, List.cons_append]
        rw [show (⟨q, .Identifier s'⟩ : Token F) = kw q s' from rfl, this]
      | number _ _ _ ht => simp [IsNumber, kw] at ht
    · left
      rw [List.concat_eq_append, ← List.cons_append, ← List.append_assoc] at h6
      obtain ⟨rfl, _⟩ := List.append_inj' h6 rfl
      rw [List.append_assoc, List.cons_append, same]

/-- **C116**: a text and its first part are never two different scenes. -/
theorem C116_same (hE : Sane E) {a b : List Char} {r r' : List (PreDirective F) × Directive F} (h : parse E a = .ok r)
    (h' : parse E (a ++ b) = .ok r') : r = r' := by
  obtain ⟨tb, hb, _⟩ := parse_ok h'
  rcases C116_append hE h hb with h2 | ⟨p, s, s', _, _, h2⟩
  · rw [h'] at h2
    injection h2 with h2
    exact h2.symm
  · rw [h'] at h2
    cases h2

theorem shorter_keys : ∀ s ∈ preKeys, ∀ s' ∈ "WorldBegin" :: preKeys, s.toList <+: s'.toList →
    s = s' ∨ (s = "Transform" ∧ s' = "TransformTimes") := by decide

theorem shorter_keys' : ∀ s' ∈ dirKeys ++ closers, ∀ s ∈ dirKeys ++ closers, s.toList <+: s'.toList → s = s' := by decide

/-- **C116**: an accepted text is cut inside of an identifier. The scene is already complete, or the identifier is a
    name behind `ActiveTransform` and the end of the input is reported, or the part of the keyword is said to be
    unknown at its place; one keyword is the beginning of another: `Transform`. -/
theorem C116_keyword {a b : List Char} {r : List (PreDirective F) × Directive F} (h : parse E (a ++ b) = .ok r)
    {c rest : List (Token F)} {p : Pos} {s s' : String} (ha : tokenize E a = .ok (c ++ [kw p s]))
    (hb : tokenize E (a ++ b) = .ok (c ++ kw p s' :: rest)) (hs : Shorter s s') :
    parse E a = .ok r ∨ ((∃ x q, c = x ++ [kw q "ActiveTransform"]) ∧ parse E a = .err .Eof) ∨
    parse E a = .err (.Str (p.fmt ++ " parse_predirective(): Unknown predirective: " ++ s)) ∨
    parse E a = .err (.Str (p.fmt ++ " parse_directive(): unknown identifier " ++ s)) ∨
    (s = "Transform" ∧ s' = "TransformTimes" ∧
      parse E a = .err (.Str (floatsHeader ++ "parse_float(): EOF while parsing float"))) := by
  rw [parse_of hb] at h
  rw [parse_of ha]
  have h1 : parseTokens E (c ++ kw p s' :: rest) = .ok r := h
  obtain ⟨x, q, body, e, rest', he, _, _, hcut, hlong⟩ := C115_cut h1
  have htake : (c ++ kw p s' :: rest).take c.length = c := List.take_left
  have hno : ∀ m, ¬ SceneFault E (c ++ kw p s' :: rest) m := fun m hm => by
    rw [(C72_error E _ m).2 hm] at h1
    cases h1
  rcases Nat.lt_or_ge (x ++ kw q "WorldBegin" :: body).length c.length with hlt | hge
  · left
    have := hlong _ hlt
    rw [htake] at this
    obtain ⟨pre, w⟩ := r
    rw [parseTokens_iff] at this
    obtain ⟨x, p0, body, e, rest0, ds, rfl, h3, h4, h5, rfl⟩ := this
    exact (parseTokens_iff E _ _ _).2 ⟨x, p0, body, e, rest0 ++ [kw p s], ds, by simp, h3, h4, h5, rfl⟩
  right
  have := hcut _ hge
  rw [htake] at this
  rcases this with ⟨h2, _⟩ | ⟨m, _, w, x, keys, p', k, v', rfl, hat, hk, hbr⟩
  · right
    rw [parseTokens_eof_iff] at h2
    rcases h2 with ⟨pre, h2⟩ | ⟨y, q, body, pre, ds, rfl, h2, h3⟩
    · have hs' : s' ∈ "WorldBegin" :: preKeys := by
        by_contra hn
        simp only [List.mem_cons, not_or] at hn
        exact hno _ (pres_fault h2 (.unknown p s' rest hn.2 hn.1))
      by_cases hw : s ∈ preKeys
      · rcases shorter_keys s hw s' hs' hs.1 with rfl | ⟨rfl, rfl⟩
        · exact absurd rfl hs.2
        · right; right
          refine ⟨rfl, rfl, ?_⟩
          rw [(C72_error E _ _).2 (pres_fault h2 (.args p _ [] _ hw (.noNumber "Transform" 9 (by decide))))]
      · left
        have hwb : s ≠ "WorldBegin" := by
          rintro rfl
          have : ∀ s' ∈ "WorldBegin" :: preKeys, "WorldBegin".toList <+: s'.toList → "WorldBegin" = s' := by decide
          exact hs.2 (this s' hs' hs.1)
        rw [(C72_error E _ _).2 (pres_fault h2 (.unknown p s [] hw hwb))]
    · right; left
      have hend : ∀ k : String, IsEnd (kw p k : Token F) ↔ k ∈ closers := fun k => by
        constructor
        · rintro ⟨_, k', e, hk⟩
          simp only [kw, Token.mk.injEq, TokenType.Identifier.injEq] at e
          obtain ⟨_, rfl⟩ := e
          exact hk
        · exact fun h => ⟨p, k, rfl, h⟩
      have hs' : s' ∈ dirKeys ++ closers := by
        by_contra hn
        rw [List.mem_append, not_or] at hn
        refine hno (p.fmt ++ " parse_directive(): unknown identifier " ++ s') ?_
        rw [List.append_assoc, List.cons_append]
        exact pres_fault h2 (.body q _ _ (dirs_fault h3 (.unknown p s' rest hn.1 (by rw [hend]; exact hn.2))))
      have hn : s ∉ dirKeys ++ closers := fun hw => hs.2 (shorter_keys' s' hs' s hw hs.1)
      rw [List.mem_append, not_or] at hn
      rw [List.append_assoc, List.cons_append, (C72_error E _ _).2 (pres_fault h2 (.body q _ _ (dirs_fault h3
        (.unknown p s [] hn.1 (by rw [hend]; exact hn.2)))))]
  · rcases breaks_keyword hbr p s' rest with ⟨rfl, rfl⟩ | hf
    · left
      cases hat with
      | pre x pre hx =>
        refine ⟨⟨x, p', rfl⟩, ?_⟩
        refine (parseTokens_eof_iff E (x ++ [kw p' "ActiveTransform"] ++ [kw p s])).2 (.inl ⟨pre ++ [.ActiveTransform p' s], ?_⟩)
        rw [List.append_assoc]
        refine many_append hx ?_
        simpa using Many.cons _ [] _ [] (PreText.activeTransform (E := E) p' p s) .nil
      | body => exact absurd hk (by decide)
    · exfalso
      cases hat with
      | pre x pre hx =>
        rcases hf with ⟨m', hf⟩ | ⟨t, u', h1, h2⟩
        · exact hno m' (by simpa using pres_fault hx (.args p' k _ m' hk hf))
        · exact hno _ (by simpa using pres_fault hx (.later p' k _ _ _ hk h1 (.notKey t u' h2)))
      | body y q' body pre ds hy hd =>
        rcases hf with ⟨m', hf⟩ | ⟨t, u', h1, h2⟩
        · exact hno m' (by simpa using pres_fault hy (.body q' _ m' (dirs_fault hd (.args p' k _ m' hk hf))))
        · exact hno _ (by simpa using pres_fault hy (.body q' _ _ (dirs_fault hd (.later p' k _ _ _ hk h1 (.notKey t u' h2)))))

/-- **C116**: if a text is a sequence of tokens and its first part is not, it was cut inside of a string or a number. -/
theorem C116_inside (hE : Sane E) {a b : List Char} (hcr : NoCrlf (a ++ b)) {tb : List (Token F)}
    (hb : tokenize E (a ++ b) = .ok tb) (ha : ∀ ta, tokenize E a ≠ .ok ta) :
    ∃ x ts l l' r v, a = x ++ l ∧ l ++ b = l' ++ r ∧ l ≠ [] ∧ l.length < l'.length ∧ LexTo E [] x ts (l ++ b) ∧
      Lexeme E l' v r ∧ ((∃ s, v = .Str s) ∨ IsNumber (⟨posOf x, v⟩ : Token F)) := by
  rw [tokenize_iff hE, replaceCrlf_id hcr] at hb
  have hcr' : NoCrlf a := by
    rintro ⟨u, w, rfl⟩
    exact hcr ⟨u, w ++ b, by simp⟩
  have ha' : ¬ ∃ ts, Lex E [] a ts := by
    rintro ⟨ts, h⟩
    exact ha ts ((tokenize_iff hE _ _).2 (by rw [replaceCrlf_id hcr']; exact h))
  have := lex_part hE hb a b rfl
  simpa using this.resolve_left ha'

end

/-! ### Examples -/

/-- Something behind the block end is not looked at, and a letter behind it is an error. -/
example : outcomeKind (parse (exEnv true) "WorldBegin WorldEnd".toList) = 0 ∧
    outcomeKind (parse (exEnv true) ("WorldBegin WorldEnd".toList ++ "[ 1 foo".toList)) = 0 ∧
    reported (parse (exEnv true) ("WorldBegin WorldEnd".toList ++ "s".toList)) =
      some (some "(1, 12) parse_directive(): unknown identifier WorldEnds") := by decide +kernel

/-- A scene cut inside of keywords and names -/
example :
    outcomeKind (parse (exEnv true) "ActiveTransform All TransformTimes 0 1 WorldBegin Shape \"s\" WorldEnd".toList) = 0 ∧
    reported (parse (exEnv true) "ActiveTr".toList) =
      some (some "(1, 1) parse_predirective(): Unknown predirective: ActiveTr") ∧
    reported (parse (exEnv true) "ActiveTransform A".toList) = some none ∧
    reported (parse (exEnv true) "ActiveTransform All Transform".toList) =
      some (some (floatsHeader ++ "parse_float(): EOF while parsing float")) ∧
    reported (parse (exEnv true) "ActiveTransform All TransformTimes 0 1 WorldBegin Sha".toList) =
      some (some "(1, 51) parse_directive(): unknown identifier Sha") := by decide +kernel

theorem ok_of_kind {ε α : Type} {r : Res ε α} (h : outcomeKind r = 0) : ∃ x, r = .ok x := by
  match r with
  | .ok x => exact ⟨x, rfl⟩
  | .err _ | .panic | .diverge => cases h

theorem panic_of_kind {ε α : Type} {r : Res ε α} (h : outcomeKind r = 2) : r = .panic := by
  match r with
  | .panic => rfl
  | .ok _ | .err _ | .diverge => cases h

/-- **C116**, an expectation that fails: reading the first part of a text that is accepted may panic, in a build with
    overflow checks. -/
theorem C116_panic_refuted :
    ∃ a b r, parse (exEnv true) (a ++ b) = .ok r ∧ parse (exEnv true) a = .panic := by
  obtain ⟨r, hr⟩ := ok_of_kind (r := parse (exEnv true) ("Scale 1e30".toList ++ ".5 1 1 WorldBegin WorldEnd".toList))
    (by decide +kernel)
  exact ⟨_, _, r, hr, panic_of_kind (by decide +kernel)⟩

/-- **C116**, an expectation that fails: the first part of a text that is accepted may be rejected by the tokenizer. -/
theorem C116_number_refuted :
    outcomeKind (parse (exEnv true) "Scale 1e3 1 1 WorldBegin WorldEnd".toList) = 0 ∧
    reported (parse (exEnv true) "Scale 1e".toList) = some (some "(1, 9) tokenize_num(): no number") := by decide +kernel

example := fun r => C116_append (a := "WorldBegin WorldEnd".toList) (b := "s".toList) (E := exEnv true) (exEnv_sane true) (r := r)

end Pbrt
