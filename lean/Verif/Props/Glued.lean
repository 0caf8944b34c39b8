import Verif.Spec.Glued
import Verif.Props.CutText
import Verif.Props.Layout

/-!
# C119: where blanks are needed, and letters behind numbers
-/

namespace Pbrt

open Spec Proof Proof.BreakOff Proof.CutText

section
variable {F : Type} {E : Env F}

namespace Glued

theorem lexTo_append {pre a b rest : List Char} {ts us : List (Token F)} (h : LexTo E pre a ts (b ++ rest))
    (h' : LexTo E (pre ++ a) b us rest) : LexTo E pre (a ++ b) (ts ++ us) rest := by
  generalize hr : b ++ rest = r at h
  induction h with
  | nil pre _ => simpa using h'
  | blank pre c cs ts _ hc _ ih => exact .blank pre c _ _ _ hc (ih (by simpa using h') hr)
  | comment pre body cs ts _ hb _ ih =>
    have := LexTo.comment pre body _ _ _ hb (ih (by simpa using h') hr)
    simpa using this
  | tok pre l cs v ts _ hl _ ih =>
    have := LexTo.tok pre l (cs ++ b) v _ rest (by rw [List.append_assoc, hr]; exact hl) (ih (by simpa using h') hr)
    simpa using this

/-- Only the first character of what follows matters. -/
theorem lexTo_head {pre a r r' : List Char} {ts : List (Token F)} (h : LexTo E pre a ts r) (hr : r'.head? = r.head?) :
    LexTo E pre a ts r' := by
  induction h with
  | nil pre _ => exact .nil pre _
  | blank pre c cs ts _ hc _ ih => exact .blank pre c _ _ _ hc (ih hr)
  | comment pre body cs ts _ hb _ ih => exact .comment pre body _ _ _ hb (ih hr)
  | tok pre l cs v ts _ hl _ ih =>
    refine .tok pre l cs v _ _ (lexeme_follow hl fun d hd => .inl ?_) (ih hr)
    rw [List.head?_append] at hd ⊢
    rw [← hr]
    exact hd

theorem lexTo_sep {sep : List Char} (h : Sep E sep) (pre rest : List Char) : LexTo E pre sep [] rest := by
  induction h generalizing pre with
  | nil => exact .nil _ _
  | blank c cs hc _ ih => exact .blank _ _ _ _ _ hc (ih _)
  | comment body cs hb _ ih => exact .comment _ _ _ _ _ hb (ih _)

theorem lex_types {pre text : List Char} {ts : List (Token F)} (h : Lex E pre text ts) (pre' : List Char) :
    ∃ us, Lex E pre' text us ∧ us.map Token.ty = ts.map Token.ty := by
  induction h generalizing pre' with
  | eof pre => exact ⟨[], .eof _, rfl⟩
  | blank pre c cs ts hc _ ih =>
    obtain ⟨us, h1, h2⟩ := ih (pre' ++ [c])
    exact ⟨us, .blank _ _ _ _ hc h1, h2⟩
  | comment pre body cs ts hb _ ih =>
    obtain ⟨us, h1, h2⟩ := ih (pre' ++ '#' :: body ++ ['\n'])
    exact ⟨us, .comment _ _ _ _ hb h1, h2⟩
  | lastComment pre body hb => exact ⟨[], .lastComment _ _ hb, rfl⟩
  | tok pre l rest v ts hl _ ih =>
    obtain ⟨us, h1, h2⟩ := ih (pre' ++ l)
    exact ⟨⟨posOf pre', v⟩ :: us, .tok _ _ _ _ _ hl h1, by simp [h2]⟩

/-- A lexeme ends where no character sticks to it. -/
theorem lexeme_before {l u : List Char} {v : TokenType F} (h : Lexeme E l v []) (hu : ∀ c, u.head? = some c → ¬ Sticks E v c) :
    Lexeme E l v u := by
  cases h with
  | lbracket => exact .lbracket _
  | rbracket => exact .rbracket _
  | str body s _ h => exact .str body s _ h
  | num l _ v h hs hf =>
    refine .num l _ v h hs fun c hc => ?_
    have := hu c hc
    rcases numLit_kind h with ⟨i, rfl⟩ | ⟨f, rfl⟩
    all_goals
      simp only [Sticks, not_or, Bool.not_eq_true] at this
      exact this
  | ident c cs _ hc hcs hr => exact .ident c cs _ hc hcs fun d hd => hu d hd

end Glued

open Glued

/-- **C119**: a lexeme is one token where it is followed by a character that does not stick to it, and only there: no
    separator is needed. -/
theorem C119_ends {l u : List Char} {v : TokenType F} (h : Lexeme E l v []) :
    Lexeme E l v u ↔ ∀ c, u.head? = some c → ¬ Sticks E v c := by
  refine ⟨fun h' c hc => ?_, lexeme_before h⟩
  cases h' with
  | lbracket => exact id
  | rbracket => exact id
  | str body s _ h => exact id
  | num l _ v h hs hf =>
    obtain ⟨h1, h2, h3⟩ := hf c hc
    rcases numLit_kind h with ⟨i, rfl⟩ | ⟨f, rfl⟩
    all_goals simp [Sticks, h1, h2, h3]
  | ident c' cs _ hc' hcs hr => exact hr c hc

/-- **C119**: where no character sticks, leaving out or adding blanks and comments between two lexemes changes nothing:
    both texts have the same tokens, up to positions, or none, and they are the same scene. -/
theorem C119_blanks (hE : Sane E) {x y a l u sep : List Char} {ta : List (Token F)} {v : TokenType F}
    (hx : Norm x (a ++ (l ++ u))) (hy : Norm y (a ++ (l ++ (sep ++ u)))) (ha : LexTo E [] a ta (l ++ u))
    (hl : Lexeme E l v []) (hu : ∀ c, u.head? = some c → ¬ Sticks E v c) (hs : Sep E sep) :
    (∀ ts, tokenize E x = .ok ts → ∃ us, tokenize E y = .ok us ∧ us.map Token.ty = ts.map Token.ty) ∧
    (∀ us, tokenize E y = .ok us → ∃ ts, tokenize E x = .ok ts ∧ ts.map Token.ty = us.map Token.ty) ∧
    ∀ ts, tokenize E x = .ok ts → view (parse E x) = view (parse E y) := by
  rw [norm_iff] at hx hy
  have hl' := lexeme_before hl hu
  have hne : l ≠ [] := lexeme_ne_nil hl
  have head : ∀ r r' : List Char, (l ++ r).head? = (l ++ r').head? := by
    intro r r'
    cases l with
    | nil => exact absurd rfl hne
    | cons c l => rfl
  have hlsep : Lexeme E l v (sep ++ u) := by
    cases sep with
    | nil => exact hl'
    | cons c sep => exact lexeme_follow hl fun d hd => .inr (sep_follow hE hs d hd)
  have one : ∀ r, Lexeme E l v r → LexTo E a l [⟨posOf a, v⟩] r := by
    intro r h
    have := LexTo.tok a l [] v [] r (by simpa using h) (.nil _ _)
    simpa using this
  have h1 : LexTo E [] (a ++ l) (ta ++ [⟨posOf a, v⟩]) u := lexTo_append ha (by simpa using one u hl')
  have h2 : LexTo E [] (a ++ l ++ sep) (ta ++ [⟨posOf a, v⟩]) u := by
    have h3 : LexTo E [] (a ++ l) (ta ++ [⟨posOf a, v⟩]) (sep ++ u) :=
      lexTo_append (lexTo_head ha (head _ _)) (by simpa using one _ hlsep)
    have := lexTo_append h3 (lexTo_sep hs _ u)
    simpa using this
  have e1 := tokenize_lexTo_ok hE (by simpa using hx) h1
  have e2 := tokenize_lexTo_ok hE (by simpa using hy) h2
  have g1 : ∀ ts, tokenize E x = .ok ts → ∃ us, tokenize E y = .ok us ∧ us.map Token.ty = ts.map Token.ty := by
    intro ts h
    obtain ⟨us, rfl, h0⟩ := (e1 ts).1 h
    obtain ⟨us', h3, h4⟩ := lex_types h0 (a ++ l ++ sep)
    exact ⟨_, (e2 _).2 ⟨us', rfl, h3⟩, by simp [h4]⟩
  refine ⟨g1, fun ts h => ?_, fun ts h => ?_⟩
  · obtain ⟨us, rfl, h0⟩ := (e2 ts).1 h
    obtain ⟨us', h3, h4⟩ := lex_types h0 (a ++ l)
    exact ⟨_, (e1 _).2 ⟨us', rfl, h3⟩, by simp [h4]⟩
  · obtain ⟨us, h3, h4⟩ := g1 ts h
    rw [parse_of h, parse_of h3]
    exact C62_tokens _ _ h4.symm

/-- **C119**: a number may be followed directly by a word that does not start with `e`: these are two tokens. -/
theorem C119_word (hE : Sane E) {input a l w rest : List Char} {ta : List (Token F)} {v : TokenType F} {s : String}
    (hi : Norm input (a ++ (l ++ (w ++ rest)))) (ha : LexTo E [] a ta (l ++ (w ++ rest))) (hl : NumLit E l v)
    (hw : Lexeme E w (.Identifier s) rest) (he : w.head? ≠ some 'e') (toks : List (Token F)) :
    tokenize E input = .ok toks ↔
      ∃ tb, toks = ta ++ ⟨posOf a, v⟩ :: kw (posOf (a ++ l)) s :: tb ∧ Lex E (a ++ l ++ w) rest tb := by
  rw [norm_iff] at hi
  have hf : NumFollow E (w ++ rest) := by
    generalize hv : (TokenType.Identifier s : TokenType F) = v' at hw
    cases hw with
    | lbracket => cases hv
    | rbracket => cases hv
    | str => cases hv
    | num l' _ v' h => rcases numLit_kind h with ⟨i, rfl⟩ | ⟨f, rfl⟩ <;> cases hv
    | ident c cs _ hc hcs hr =>
      intro d hd
      simp only [List.cons_append, List.head?_cons, Option.some.injEq] at hd he
      subst hd
      refine ⟨hc.2.1, ?_, fun h => he (congrArg some h)⟩
      rintro rfl
      exact absurd hc.2.2.2 (by simp)
  have hst : ∃ c, l.head? = some c ∧ NumStart E c := by
    obtain ⟨c, h1, h2 | rfl⟩ := numLit_head hE hl
    · exact ⟨c, h1, h2⟩
    · exact absurd h1 (numLit_not_e hE hl)
  have h1 : LexTo E [] (a ++ (l ++ w)) (ta ++ [⟨posOf a, v⟩, kw (posOf (a ++ l)) s]) rest := by
    refine lexTo_append (by simpa using ha) ?_
    refine .tok _ l w v _ _ (.num l _ v hl hst hf) ?_
    have := LexTo.tok ([] ++ a ++ l) w [] _ [] rest (by simpa using hw) (.nil _ _)
    simpa [kw] using this
  rw [tokenize_lexTo_ok hE (by simpa using hi) h1]
  constructor
  · rintro ⟨us, rfl, h⟩
    exact ⟨us, by simp, by simpa using h⟩
  · rintro ⟨us, rfl, h⟩
    exact ⟨us, by simp, by simpa using h⟩

/-- **C119**: a word that is no keyword cannot stand behind a number, unless a block has been closed before. -/
theorem C119_tokens {a b : List (Token F)} {t : Token F} {p : Pos} {s : String} (ha : ∀ u ∈ a, ¬ IsEnd u) (ht : IsNumber t)
    (hs : s ∉ preKeys ++ dirKeys ++ ["AttributeEnd", "TransformEnd", "WorldEnd"]) (r : List (PreDirective F) × Directive F) :
    parseTokens E (a ++ t :: kw p s :: b) ≠ .ok r := by
  intro h
  have hnot : ¬ IsId t := by
    rintro ⟨p, s, rfl⟩
    simp [IsNumber, kw] at ht
  obtain ⟨x, q, body, e, rest, h1, h2, h3, h4⟩ := C27_accepted _ _ h
  simp only [List.mem_append, not_or] at hs
  obtain ⟨⟨hs1, hs2⟩, hs3⟩ := hs
  have hsw : s ≠ "WorldBegin" := by rintro rfl; exact hs2 (by decide)
  have hne : ¬ IsEnd (kw p s : Token F) := by
    rintro ⟨_, k', e, hk'⟩
    simp only [kw, Token.mk.injEq, TokenType.Identifier.injEq] at e
    obtain ⟨rfl, rfl⟩ := e
    exact hs3 hk'
  have hW : ∀ {q : Pos}, (kw q "WorldBegin" : Token F) ≠ kw p s := by
    intro q e
    simp only [kw, Token.mk.injEq, TokenType.Identifier.injEq] at e
    exact hsw e.2.symm
  have h5 : ∀ u ∈ a ++ [t, kw p s], ¬ IsEnd u := by
    intro u hu
    simp only [List.mem_append, List.mem_cons, List.not_mem_nil, or_false] at hu
    rcases hu with hu | rfl | rfl
    · exact ha u hu
    · rintro ⟨p, s, rfl, _⟩
      exact hnot ⟨p, s, rfl⟩
    · exact hne
  have h6 : ∃ b', x ++ kw q "WorldBegin" :: body = (a ++ [t]) ++ kw p s :: b' := by
    have h1' : (x ++ kw q "WorldBegin" :: body) ++ e :: rest = (a ++ [t, kw p s]) ++ b := by simpa using h1.symm
    rcases List.append_eq_append_iff.1 h1' with ⟨as, h6, h7⟩ | ⟨bs, h6, h7⟩
    · cases as with
      | nil => exact ⟨[], by simpa using h6.symm⟩
      | cons u as =>
        obtain ⟨rfl, h7⟩ := List.cons.inj h7
        exact absurd h2 (h5 e (by rw [h6]; simp))
    · exact ⟨bs, by rw [h6]; simp⟩
  obtain ⟨b', h6⟩ := h6
  rcases List.append_eq_append_iff.1 h6 with ⟨as, h7, h8⟩ | ⟨bs, h7, h8⟩
  · cases as with
    | nil => exact hW (List.cons.inj h8).1
    | cons u as =>
      have h9 := (List.cons.inj h8).2
      exact hs2 (h4 p s (by rw [h9]; simp))
  · cases bs with
    | nil => exact hW (List.cons.inj h8).1.symm
    | cons u bs =>
      rw [← (List.cons.inj h8).1] at h7
      rcases h3 _ p s bs h7 with h9 | ⟨x', q', h9⟩
      · exact hs1 h9
      · have := (List.append_inj' h9 rfl).2
        simp only [List.cons.injEq, and_true] at this
        exact hnot ⟨_, _, this⟩

/-- **C119**: so a text in which a number is followed directly by a letter with which no keyword starts (and which is
    not `e`), before the end of a block, is no scene, whatever comes after it. In particular there is no exponent
    with a capital `E`, no hexadecimal number and no suffix. -/
theorem C119_letter (hE : Sane E) {input a l rest : List Char} {ta : List (Token F)} {v : TokenType F} {c : Char}
    (hi : Norm input (a ++ (l ++ (c :: rest)))) (ha : LexTo E [] a ta (l ++ (c :: rest))) (hend : ∀ t ∈ ta, ¬ IsEnd t)
    (hl : NumLit E l v) (hc : IdStart E c) (he : c ≠ 'e') (hk : StartsNoKey c)
    (r : List (PreDirective F) × Directive F) : parse E input ≠ .ok r := by
  intro h
  obtain ⟨toks, h1, h2⟩ := parse_ok h
  have hsplit : ∃ w rest', c :: rest = w ++ rest' ∧ Lexeme E w (.Identifier (String.ofList w)) rest' ∧ w.head? = some c := by
    classical
    refine ⟨c :: rest.takeWhile (fun d => decide (IdChar E d)), rest.dropWhile (fun d => decide (IdChar E d)), ?_, ?_, rfl⟩
    · simp [List.takeWhile_append_dropWhile]
    · refine .ident c _ _ hc (fun d hd => by simpa using List.all_eq_true.1 (List.all_takeWhile (l := rest) (p := fun d => decide (IdChar E d))) d hd) fun d hd => ?_
      have := List.head?_dropWhile_not (fun d => decide (IdChar E d)) rest
      rw [hd] at this
      simpa using this
  obtain ⟨w, rest', h3, h4, h5⟩ := hsplit
  rw [h3] at hi ha
  obtain ⟨tb, rfl, _⟩ := (C119_word hE hi ha hl h4 (by rw [h5]; simpa using he) toks).1 h1
  refine C119_tokens hend ?_ ?_ r h2
  · rcases numLit_kind hl with ⟨i, rfl⟩ | ⟨f, rfl⟩
    · exact .inl ⟨i, rfl⟩
    · exact .inr ⟨f, rfl⟩
  · intro hm
    refine hk _ hm ?_
    simpa using h5

end

/-- **C119**: the letters after which this holds: all small ones but `e`, and half of the capital ones -/
theorem C119_letters : ∀ c ∈ "abcdefghijklmnopqrstuvwxyzBDEGHJKNOPQUVXYZ".toList, StartsNoKey c := by
  decide

/-- **C119**: no blanks are needed around brackets and strings, before a sign, and between a number and a keyword. -/
theorem C119_dense :
    summary (parse (exEnv true) "Translate 1-2+3Scale.5.5 1WorldBegin Shape\"s\"\"float r\"[1 2]WorldEnd".toList) =
      none ∧
    summary (parse (exEnv true) "Translate 1-2+3Scale 5-5+1WorldBegin Shape\"s\"\"float r\"[1 2]WorldEnd".toList) =
      some ([(⟨1, 1⟩, "Translate"), (⟨1, 16⟩, "Scale")], [(⟨1, 27⟩, "WorldBegin"), (⟨1, 38⟩, "Shape")]) := by
  decide +kernel

/-- **C119**, the expectation that fails: an exponent with a capital `E`, as C and pbrt-v3 allow it, is not understood. -/
theorem C119_refuted :
    outcomeKind (parse (exEnv true) "WorldBegin Shape \"s\" \"float r\" 1e5 WorldEnd".toList) = 0 ∧
    reported (parse (exEnv true) "WorldBegin Shape \"s\" \"float r\" 1E5 WorldEnd".toList) =
      some (some "(1, 33) parse_directive(): unknown identifier E5") ∧
    tokenize (exEnv true) "1E-5".toList =
      .ok [⟨⟨1, 1⟩, .Int 1⟩, ⟨⟨1, 2⟩, .Identifier "E"⟩, ⟨⟨1, 3⟩, .Int (-5)⟩] := by
  decide +kernel

/-- The hypotheses of `C119_letter` are met by `Translate 1E5`. -/
example : ∃ ta, LexTo (exEnv true) [] "Translate ".toList ta ("1".toList ++ 'E' :: "5".toList) ∧ (∀ t ∈ ta, ¬ IsEnd t) ∧
    NumLit (exEnv true) "1".toList (.Int 1) ∧ IdStart (exEnv true) 'E' ∧ 'E' ≠ 'e' ∧ StartsNoKey 'E' := by
  refine ⟨[⟨posOf [], .Identifier "Translate"⟩], ?_, ?_, .int .none ['1'] (by simp) (by simp [IsDigit]) (by unfold Fits; decide), ?_, by decide,
    by decide⟩
  · exact .tok [] "Translate".toList " ".toList _ _ _ (.ident 'T' "ranslate".toList _ (by unfold IdStart; decide)
      (by unfold IdChar; decide) (by unfold IdChar; intro d hd; simp at hd; subst hd; decide))
      (.blank _ ' ' [] _ _ (by unfold Blank; decide) (.nil _ _))
  · intro t ht
    obtain rfl := List.mem_singleton.1 ht
    rintro ⟨_, k, e, hk⟩
    simp only [kw, Token.mk.injEq, TokenType.Identifier.injEq] at e
    rw [← e.2] at hk
    exact absurd hk (by decide)
  · unfold IdStart; decide

end Pbrt
