import Verif.Proof.Erase
import Verif.Props.Parsing

/-!
# Properties C61, C62, C64: the language of scenes, layout, composition
-/

namespace Pbrt
open Pbrt.Spec Pbrt.Proof

variable {F : Type} {E : Env F}

/-! ### C61 -/

/-- C61: a text is parsed to a result exactly if, after normalising line ends, it is split by the
    lexical grammar into tokens that the scene grammar gives this result. -/
theorem C61_language (hE : Sane E) (input : List Char) (pre : List (PreDirective F))
    (w : Directive F) :
    parse E input = .ok (pre, w) ↔
      ∃ text toks, Norm input text ∧ Lex E [] text toks ∧ Accepts E toks pre w := by
  constructor
  · intro h
    obtain ⟨toks, h1, h2⟩ := parse_ok h
    obtain ⟨text, h3, h4⟩ := (C11_grammar hE input toks).1 h1
    exact ⟨text, toks, h3, h4, (parseTokens_iff E toks pre w).1 h2⟩
  · rintro ⟨text, toks, h1, h2, h3⟩
    rw [parse_of ((C11_grammar hE input toks).2 ⟨text, h1, h2⟩), parseTokens_iff]
    exact h3

/-- C61: the scene grammar is unambiguous. -/
theorem C61_deterministic (toks : List (Token F)) (pre pre' : List (PreDirective F))
    (w w' : Directive F) (h : Accepts E toks pre w) (h' : Accepts E toks pre' w') :
    pre = pre' ∧ w = w' := by
  rw [← parseTokens_iff] at h h'
  rw [h] at h'
  simpa using h'

/-- C61: tokens outside the scene grammar are an error: with a message, or `Eof` exactly if they
    stop where a directive or a block end could follow. -/
theorem C61_rejects (toks : List (Token F)) (h : ∀ pre w, ¬ Accepts E toks pre w) :
    (Unfinished E toks ∧ parseTokens E toks = .err .Eof) ∨
    (¬ Unfinished E toks ∧ ∃ m, parseTokens E toks = .err (.Str m)) := by
  have hn := parseTokens_ne (E := E) toks
  generalize hr : parseTokens E toks = r at hn
  match r, hn with
  | .ok (pre, w), _ => exact absurd ((parseTokens_iff E toks pre w).1 hr) (h pre w)
  | .err .Eof, _ => exact .inl ⟨(parseTokens_eof_iff E toks).1 hr, rfl⟩
  | .err (.Str m), _ =>
    refine .inr ⟨fun hu => ?_, m, rfl⟩
    rw [(parseTokens_eof_iff E toks).2 hu] at hr
    simp at hr
  | .panic, hn => simp at hn
  | .diverge, hn => simp at hn

/-- A text of the language, and its result. -/
example : ∃ text toks, Norm "WorldBegin WorldEnd".toList text ∧
    Lex (exEnv true) [] text toks ∧ Accepts (exEnv true) toks [] (.World ⟨1, 1⟩ []) := by
  rw [← C61_language (exEnv_sane true)]
  have ht : tokenize (exEnv true) "WorldBegin WorldEnd".toList =
      .ok [kw ⟨1, 1⟩ "WorldBegin", kw ⟨1, 12⟩ "WorldEnd"] := by decide +kernel
  rw [parse_of ht, parseTokens_iff]
  exact ⟨[], ⟨1, 1⟩, [], kw ⟨1, 12⟩ "WorldEnd", [], [], rfl, .nil, .nil,
    ⟨_, _, rfl, by simp⟩, rfl⟩

/-- Tokens outside the language. -/
example : ∀ pre w, ¬ Accepts (exEnv true) [kw ⟨1, 1⟩ "WorldEnd"] pre w := by
  intro pre w h
  rw [← parseTokens_iff] at h
  have := congrArg summary h
  have h2 : summary (parseTokens (exEnv true) [kw ⟨1, 1⟩ "WorldEnd"]) = none := by decide +kernel
  rw [h2] at this
  simp [summary] at this

/-! ### C62 -/

/-- What a user sees of a parse apart from positions: the result without positions, or the kind of
    failure. -/
def Spec.view (r : Res ParserError (List (PreDirective F) × Directive F)) :
    Res ParserError (List (PreDirective F) × Directive F) :=
  match r with
  | .ok r => .ok (erase r)
  | .err .Eof => .err .Eof
  | .err (.Str _) => .err (.Str "")
  | .panic => .panic
  | .diverge => .diverge

/-- C62: the result of the parser depends on the positions of the tokens only in the positions it
    holds. -/
theorem C62_tokens (s t : List (Token F)) (h : s.map Token.ty = t.map Token.ty) :
    view (parseTokens E s) = view (parseTokens E t) := by
  have key : ∀ s t : List (Token F), SameTy s t → ∀ r, parseTokens E s = .ok r →
      view (parseTokens E t) = .ok (erase r) := by
    rintro s t h ⟨pre, w⟩ hr
    rw [parseTokens_iff] at hr
    obtain ⟨pre', w', h1, h2⟩ := accepts_erase E hr t h
    rw [← parseTokens_iff] at h1
    rw [h1]
    exact congrArg Res.ok h2
  have eof : ∀ s t : List (Token F), SameTy s t → parseTokens E s = .err .Eof →
      parseTokens E t = .err .Eof := by
    intro s t h hr
    rw [parseTokens_eof_iff] at hr ⊢
    exact unfinished_erase E hr t h
  have hs := parseTokens_ne (E := E) s
  have ht := parseTokens_ne (E := E) t
  generalize hr : parseTokens E s = r at hs
  generalize hr' : parseTokens E t = r' at ht
  match r, hs with
  | .ok r, _ => rw [← hr', key s t h r hr]; rfl
  | .panic, hs => simp at hs
  | .diverge, hs => simp at hs
  | .err .Eof, _ => rw [← hr', eof s t h hr]
  | .err (.Str m), _ =>
    match r', ht with
    | .ok r', _ =>
      have := key t s h.symm r' hr'
      rw [hr] at this
      simp [view] at this
    | .err .Eof, _ =>
      have := eof t s h.symm hr'
      rw [hr] at this
      simp at this
    | .err (.Str m'), _ => rfl
    | .panic, ht => simp at ht
    | .diverge, ht => simp at ht

/-- C62: two texts made of the same lexemes, with any separators, are the same scene. -/
theorem C62_layout (hE : Sane E) (ls : List (List Char)) (vs : List (TokenType F))
    (h : List.Forall₂ (fun l v => Lexeme E l v [] ∧ NoCrlf l) ls vs)
    (lead₁ lead₂ text₁ text₂ : List Char) (h₁ : Sep E lead₁) (h₂ : Sep E lead₂)
    (t₁ : Layout E ls text₁) (t₂ : Layout E ls text₂) :
    view (parse E (lead₁ ++ text₁)) = view (parse E (lead₂ ++ text₂)) := by
  obtain ⟨a, ha, hav⟩ := C05_separators hE ls vs h lead₁ text₁ h₁ t₁
  obtain ⟨b, hb, hbv⟩ := C05_separators hE ls vs h lead₂ text₂ h₂ t₂
  rw [parse_of ha, parse_of hb]
  exact C62_tokens a b (by rw [hav, hbv])

/-- One scene in two layouts: the same token values at different positions. -/
example : ∃ s t : List (Token Rat), s ≠ t ∧ s.map Token.ty = t.map Token.ty ∧
    tokenize (exEnv true) "Identity WorldBegin Shape \"a\" \"float r\" 1 WorldEnd".toList = .ok s ∧
    tokenize (exEnv true)
      "Identity#x\nWorldBegin\n\tShape \"a\"\n\"float r\"\n1\n#\nWorldEnd".toList = .ok t ∧
    summary (parseTokens (exEnv true) s) =
      some ([(⟨1, 1⟩, "Identity")], [(⟨1, 10⟩, "WorldBegin"), (⟨1, 21⟩, "Shape")]) ∧
    summary (parseTokens (exEnv true) t) =
      some ([(⟨1, 1⟩, "Identity")], [(⟨2, 1⟩, "WorldBegin"), (⟨3, 2⟩, "Shape")]) := by
  refine ⟨[kw ⟨1, 1⟩ "Identity", kw ⟨1, 10⟩ "WorldBegin", kw ⟨1, 21⟩ "Shape", ⟨⟨1, 27⟩, .Str "a"⟩,
    ⟨⟨1, 31⟩, .Str "float r"⟩, ⟨⟨1, 41⟩, .Int 1⟩, kw ⟨1, 43⟩ "WorldEnd"],
    [kw ⟨1, 1⟩ "Identity", kw ⟨2, 1⟩ "WorldBegin", kw ⟨3, 2⟩ "Shape", ⟨⟨3, 8⟩, .Str "a"⟩,
    ⟨⟨4, 1⟩, .Str "float r"⟩, ⟨⟨5, 1⟩, .Int 1⟩, kw ⟨7, 1⟩ "WorldEnd"], ?_, ?_, ?_, ?_, ?_, ?_⟩ <;>
    decide +kernel

/-! ### C64 -/

/-- C64: headers compose.  If the tokens `a`, in which `WorldBegin` does not occur, are read in
    front of an empty world as the pre-world directives `pre0`, then in front of any tokens that
    start with a keyword they add `pre0` in front, and they are accepted there exactly if the rest
    is accepted. -/
theorem C64_headers (a z : List (Token F)) (p : Pos) (e : Token F)
    (hw : ∀ r, kw r "WorldBegin" ∉ a) (hz : Stop z)
    (pre0 : List (PreDirective F)) (w0 : Directive F)
    (h : parseTokens E (a ++ [kw p "WorldBegin", e]) = .ok (pre0, w0))
    (pre : List (PreDirective F)) (w : Directive F) :
    parseTokens E (a ++ z) = .ok (pre, w) ↔
      ∃ pre', pre = pre0 ++ pre' ∧ parseTokens E z = .ok (pre', w) := by
  rw [parseTokens_iff] at h
  have ha : Many (PreText E) a pre0 := by
    obtain ⟨a', r, body, e', rest, ds, h1, h2, h3, h4, h5⟩ := h
    have h6 : a ++ [kw p "WorldBegin", e] = a' ++ kw r "WorldBegin" :: (body ++ e' :: rest) := by
      simpa using h1
    rcases List.append_eq_append_iff.1 h6 with ⟨c, rfl, h7⟩ | ⟨c, rfl, h7⟩
    · cases c with
      | nil => simpa using h2
      | cons t c =>
        exfalso
        simp only [List.cons_append, List.cons.injEq] at h7
        cases c with
        | nil =>
          simp only [List.nil_append, List.cons.injEq] at h7
          have := h7.2.2
          simp at this
        | cons u c =>
          simp only [List.cons_append, List.cons.injEq] at h7
          have := congrArg List.length h7.2.2
          simp at this
    · cases c with
      | nil => simpa using h2
      | cons t c =>
        exfalso
        simp only [List.cons_append, List.cons.injEq] at h7
        exact hw r (by rw [h7.1]; simp)
  simp only [parseTokens_iff]
  exact accepts_pre E ha hz

example : parseTokens (exEnv true) ([kw ⟨1, 1⟩ "Identity"] ++
    [kw ⟨1, 10⟩ "WorldBegin", kw ⟨1, 21⟩ "WorldEnd"]) =
      .ok ([.Identity ⟨1, 1⟩], .World ⟨1, 10⟩ []) := by
  rw [parseTokens_iff]
  exact ⟨_, _, [], _, [], [], rfl, .cons [_] [] _ _ (.identity _) .nil, .nil,
    ⟨_, _, rfl, by simp⟩, rfl⟩

/-- C64: world contents compose.  If the tokens `b`, in which no block end occurs, are read as the
    directives `ds0` of a world and none of them is a block, then in front of any tokens that start
    with a keyword they add `ds0` in front, and they are accepted there exactly if the rest is
    accepted. -/
theorem C64_contents (b z : List (Token F)) (p : Pos) (e : Token F) (hb : ∀ t ∈ b, ¬ IsEnd t)
    (hz : Stop z) (ds0 : List (Directive F))
    (h : parseTokens E (kw p "WorldBegin" :: (b ++ [e])) = .ok ([], .World p ds0))
    (hn : ∀ d ∈ ds0, ¬ IsBlock d) (pre : List (PreDirective F)) (w : Directive F) :
    parseTokens E (kw p "WorldBegin" :: (b ++ z)) = .ok (pre, w) ↔
      ∃ ds, pre = [] ∧ w = .World p (ds0 ++ ds) ∧
        parseTokens E (kw p "WorldBegin" :: z) = .ok ([], .World p ds) := by
  rw [parseTokens_iff, accepts_world] at h
  obtain ⟨-, body, e', rest, ds, h1, h2, h3, h4⟩ := h
  injection h4 with _ h4
  subst h4
  have hbody : b = body := by
    rcases List.append_eq_append_iff.1 h1 with ⟨c, rfl, h7⟩ | ⟨c, rfl, h7⟩
    · cases c with
      | nil => simp
      | cons t c =>
        have := congrArg List.length h7
        simp at this
    · cases c with
      | nil => simp
      | cons t c =>
        simp only [List.cons_append, List.cons.injEq] at h7
        exact absurd h3 (hb e' (by simp [h7.1]))
  subst hbody
  simp only [parseTokens_iff]
  exact accepts_contents E h2 hn hz

example : parseTokens (exEnv true) (kw ⟨1, 1⟩ "WorldBegin" ::
    ([kw ⟨2, 1⟩ "Include", ⟨⟨2, 9⟩, .Str "a.pbrt"⟩] ++ [kw ⟨3, 1⟩ "WorldEnd"])) =
      .ok ([], .World ⟨1, 1⟩ [.Include ⟨2, 1⟩ "a.pbrt"]) := by
  rw [parseTokens_iff]
  exact ⟨[], _, _, _, [], _, rfl, .nil, .cons _ [] _ [] (by simp [IsBlock]) (.incl _ _ _ ⟨_, rfl⟩) .nil,
    ⟨_, _, rfl, by simp⟩, rfl⟩

/-- With a block the claim is false: what follows the block is lost (finding of C16). -/
example : parseTokens (exEnv true) [kw ⟨1, 1⟩ "WorldBegin", kw ⟨2, 1⟩ "AttributeBegin",
    kw ⟨2, 16⟩ "AttributeEnd", kw ⟨3, 1⟩ "Include", ⟨⟨3, 9⟩, .Str "a.pbrt"⟩,
    kw ⟨4, 1⟩ "WorldEnd"] = .ok ([], .World ⟨1, 1⟩ [.Attribute ⟨2, 1⟩ []]) := by
  rw [parseTokens_iff]
  exact ⟨[], _, [kw ⟨2, 1⟩ "AttributeBegin"], kw ⟨2, 16⟩ "AttributeEnd", _, _, rfl, .nil,
    .block _ (.Attribute ⟨2, 1⟩ []) trivial (.attribute _ _ _ .nil), ⟨_, _, rfl, by simp⟩, rfl⟩

end Pbrt
