import Verif.Proof.Depth
import Verif.Proof.LexProps
import Verif.Proof.LexText
import Verif.Spec.Concrete

/-!
# C85: how many calls are open at the same time
-/

namespace Pbrt
open Pbrt.Spec Pbrt.Proof

variable {F : Type} {E : Env F}

/-! ### The limit changes nothing until it is reached -/

theorem tokenizeAt_same (d : Nat) (input : List Char) :
    tokenizeAt E d input = tokenize E input ∨ tokenizeAt E d input = .diverge := by
  by_cases h : tokenizeAt E d input = .diverge
  · exact .inr h
  · exact .inl (congrArg Prod.fst (fle_loopAt E d _ _ _ _ h).symm)

theorem parseTokensAt_same (d : Nat) (toks : List (Token F)) :
    parseTokensAt E d toks = parseTokens E toks ∨ parseTokensAt E d toks = .diverge := by
  by_cases h : parseTokensAt E d toks = .diverge
  · exact .inr h
  · have hle : FLe (do
        let pre ← predirectivesLoop E (parseFuel toks) []
        let world ← parseDirectiveAt E (parseFuel toks) d
        pure (pre, world)) (parseTokensFuel E (parseFuel toks)) :=
      FLe.bind (FLe.refl _) fun _ => FLe.bind (fle_directivesAt E _ d).1 fun _ => FLe.refl _
    exact .inl (congrArg Prod.fst (hle _ h).symm)

/-- **C85**: with room for `d` nested calls parsing gives the result it gives with unlimited room, or the
    room is exhausted. -/
theorem C85_same (d : Nat) (input : List Char) :
    parseAt E d input = parse E input ∨ parseAt E d input = .diverge := by
  unfold parseAt parse
  rcases tokenizeAt_same (E := E) d input with h | h <;> rw [h]
  · cases tokenize E input with
    | ok toks => exact parseTokensAt_same d toks
    | err e => exact .inl rfl
    | panic => exact .inl rfl
    | diverge => exact .inl rfl
  · exact .inr rfl

/-- **C85**: more room does not hurt. -/
theorem C85_more (d k : Nat) (input : List Char) (h : parseAt E d input ≠ .diverge) :
    parseAt E (d + k) input = parseAt E d input := by
  induction k with
  | zero => rfl
  | succ k ih =>
    rw [← ih, ← Nat.add_assoc]
    rw [← ih] at h
    generalize d + k = d at h
    unfold parseAt at h ⊢
    have h1 : tokenizeAt E d input ≠ .diverge := fun e => h (by rw [e])
    have h2 : tokenizeAt E (d + 1) input = tokenizeAt E d input :=
      congrArg Prod.fst (more_loopAt E d _ _ _ _ h1)
    rw [h2]
    cases ht : tokenizeAt E d input with
    | ok toks =>
      rw [ht] at h
      refine congrArg Prod.fst ((?_ : FLe _ _) _ h)
      exact FLe.bind (FLe.refl _) fun _ => FLe.bind (more_directivesAt E _ d).1 fun _ => FLe.refl _
    | err e => rfl
    | panic => rfl
    | diverge => rfl

/-! ### Scenes -/

/-- **C85**: reading a token list that is a scene takes exactly as much room as the directives of its world
    are nested. -/
theorem C85_scene (toks : List (Token F)) (pre : List (PreDirective F)) (w : Directive F)
    (h : parseTokens E toks = .ok (pre, w)) (d : Nat) :
    (height w ≤ d → parseTokensAt E d toks = .ok (pre, w)) ∧
    (d < height w → parseTokensAt E d toks = .diverge) := by
  unfold parseTokens parseTokensFuel at h
  rcases hx : (do
      let pre ← predirectivesLoop E (parseFuel toks) []
      let world ← parseDirective E (parseFuel toks)
      pure (pre, world) : PM F _) ⟨toks, 0⟩ with ⟨r, s'⟩
  rw [hx] at h
  obtain rfl : r = .ok (pre, w) := h
  obtain ⟨pre', s1, h1, h⟩ := bind_inv hx
  obtain ⟨w', s2, h2, h⟩ := bind_inv h
  obtain ⟨e, rfl⟩ := pure_inv h
  cases e
  obtain ⟨h3, h4⟩ := (dirAt_height E _ d).1 _ _ _ h2
  unfold parseTokensAt
  rw [bind_ok h1]
  refine ⟨fun hd => ?_, fun hd => bind_out (h4 hd)⟩
  rw [bind_ok (h3 hd)]; rfl

/-- **C85**: on any token list the parser needs no more room than the number of tokens that open a block,
    plus one. -/
theorem C85_blocks (toks : List (Token F)) (d : Nat) (hd : toks.countP opensBlock < d) :
    parseTokensAt E d toks = parseTokens E toks := by
  unfold parseTokensAt parseTokens parseTokensFuel
  have e0 : (⟨toks, 0⟩ : Parser F) = PS [] toks := rfl
  rw [e0]
  rcases predirectivesLoop_out E (parseFuel toks) [] [] toks (by unfold parseFuel; omega) with
    ⟨a, ds, p, rest, h, hm, hr⟩ | ⟨ds, s', hm, hr⟩ | ⟨m, s', hr⟩
  · rw [bind_ok hr, bind_ok hr, M.bind_apply, M.bind_apply, (dirAt_eq E _).1 d _ _ ?_ ?_]
    · rw [h]; unfold parseFuel; simp only [List.length_append, List.length_cons]; omega
    · rw [h, List.countP_append] at hd; omega
  · rw [bind_err hr, bind_err hr]
  · rw [bind_err hr.1, bind_err hr.1]

/-! ### Texts -/

theorem crlf_count (c : Char) (hc : c ≠ '\n') (input : List Char) : (replaceCrlf input).count c ≤ input.count c := by
  fun_induction replaceCrlf input with
  | case1 cs ih => simp only [List.count_cons]; omega
  | case2 x cs _ ih => simp only [List.count_cons]; omega
  | case3 => simp

theorem crlf_prefix (input : List Char) : ∀ (w b : List Char), '\n' ∉ w → replaceCrlf input = w ++ b →
    ∃ b', input = w ++ b' := by
  fun_induction replaceCrlf input with
  | case1 cs ih =>
    intro w b hw h
    cases w with
    | nil => exact ⟨_, rfl⟩
    | cons x w =>
      simp only [List.cons_append, List.cons.injEq] at h
      exact absurd (h.1 ▸ List.mem_cons_self) hw
  | case2 x cs _ ih =>
    intro w b hw h
    cases w with
    | nil => exact ⟨_, rfl⟩
    | cons y w =>
      simp only [List.cons_append, List.cons.injEq] at h
      obtain ⟨b', hb⟩ := ih w b (fun hm => hw (List.mem_cons_of_mem _ hm)) h.2
      exact ⟨b', by rw [hb, h.1]; rfl⟩
  | case3 =>
    intro w b hw h
    exact ⟨b, h⟩

theorem crlf_infix (input : List Char) : ∀ (a w b : List Char), '\n' ∉ w → replaceCrlf input = a ++ w ++ b →
    ∃ a' b', input = a' ++ w ++ b' := by
  fun_induction replaceCrlf input with
  | case1 cs ih =>
    intro a w b hw h
    cases a with
    | nil =>
      obtain ⟨b', hb⟩ := crlf_prefix ('\r' :: '\n' :: cs) w b hw (by rw [replaceCrlf]; exact h)
      exact ⟨[], b', hb⟩
    | cons x a =>
      simp only [List.cons_append, List.cons.injEq] at h
      obtain ⟨a', b', hb⟩ := ih a w b hw h.2
      exact ⟨'\r' :: '\n' :: a', b', by rw [hb]; rfl⟩
  | case2 x cs hx ih =>
    intro a w b hw h
    cases a with
    | nil =>
      obtain ⟨b', hb⟩ := crlf_prefix (x :: cs) w b hw (by rw [replaceCrlf]; exact h; exact hx)
      exact ⟨[], b', hb⟩
    | cons y a =>
      simp only [List.cons_append, List.cons.injEq] at h
      obtain ⟨a', b', hb⟩ := ih a w b hw h.2
      exact ⟨x :: a', b', by rw [hb]; rfl⟩
  | case3 =>
    intro a w b hw h
    exact ⟨a, b, h⟩

theorem crlf_exponents (hE : Sane E) {m : Nat} {input : List Char} (h : Exponents E m input) :
    Exponents E m (replaceCrlf input) := by
  intro a w b e hw
  have hn : '\n' ∉ w := by
    intro hm
    have := hw _ hm
    have h1 := (hE.white '\n' (hE.space _ (by simp))).1
    simp [numChar, h1] at this
  obtain ⟨a', b', e'⟩ := crlf_infix input a w b hn e
  exact h a' w b' e' hw

/-- **C85**: the tokenizer needs at most two calls for every comment, one for every exponent in a row, and
    three more. -/
theorem C85_tokens (hE : Sane E) (input : List Char) (m d : Nat) (hm : Exponents E m input)
    (hd : 2 * input.count '#' + m + 3 ≤ d) : tokenizeAt E d input = tokenize E input := by
  unfold tokenizeAt tokenize tokenizeFuel
  rw [new_eq]
  have := replaceCrlf_length input
  have := crlf_count '#' (by decide) input
  rw [loopAt_eq hE m d _ _ [] [] (replaceCrlf input) (by unfold lexFuel; omega)
    (crlf_exponents hE hm) (by omega)]

/-- **C85**: the room a text needs. -/
theorem C85_text (hE : Sane E) (input : List Char) (m d : Nat) (hm : Exponents E m input)
    (hd : 2 * input.count '#' + m + 3 ≤ d)
    (hb : ∀ toks, tokenize E input = .ok toks → toks.countP opensBlock < d) :
    parseAt E d input = parse E input := by
  unfold parseAt parse
  rw [C85_tokens hE input m d hm hd]
  cases h : tokenize E input with
  | ok toks => exact C85_blocks toks d (hb toks h)
  | err e => rfl
  | panic => rfl
  | diverge => rfl

/-- **C85**: twice the length of the text, plus three, is always enough. -/
theorem C85_linear (hE : Sane E) (input : List Char) : parseAt E (2 * input.length + 3) input = parse E input := by
  have h1 : input.count '#' + input.count 'e' ≤ input.length := by
    induction input with
    | nil => simp
    | cons c cs ih =>
      simp only [List.count_cons, List.length_cons, beq_iff_eq]
      by_cases h : c = '#'
      · subst h; simp; omega
      · by_cases h' : c = 'e' <;> simp [h, h'] <;> omega
  refine C85_text hE input (input.count 'e') _ ?_ (by omega) ?_
  · intro a w b e _
    rw [e, List.count_append, List.count_append]
    omega
  · intro toks ht
    have := lex_length ((tokenize_iff hE input toks).1 ht)
    have := replaceCrlf_length input
    have := List.countP_le_length (p := opensBlock) (l := toks)
    omega

/-! ### No fixed amount of room is enough -/

/-- `n` empty comments. -/
def commentLines (n : Nat) : List Char := (List.replicate n ['#', '\n']).flatten

/-- **C85**: a text of `n + 1` comments needs room for `n + 2` calls: each comment adds a call that stays open. -/
theorem C85_comments (n d : Nat) :
    tokenizeAt E d (commentLines (n + 1)) = if d ≤ n + 1 then .diverge else .ok [] := by
  have h0 : commentLines 0 = [] := rfl
  have hs : ∀ n, commentLines (n + 1) = '#' :: '\n' :: commentLines n := by
    intro n; simp [commentLines, List.replicate_succ]
  have hl : ∀ n, (commentLines n).length = 2 * n := by
    intro n; induction n with
    | zero => rfl
    | succ n ih => rw [hs]; simp only [List.length_cons, ih]; omega
  have hr : ∀ n, replaceCrlf (commentLines n) = commentLines n := by
    intro n; induction n with
    | zero => rfl
    | succ n ih =>
      rw [hs, replaceCrlf, replaceCrlf, ih]
      · simp
      · simp
  unfold tokenizeAt
  have hf : lexFuel (commentLines (n + 1)) = (4 * n + 5) + 1 := by unfold lexFuel; rw [hl]; omega
  rw [new_eq, hr, hf, loopAt_step, if_neg (by rw [hs]; simp)]
  have := oneAt_comments (E := E) commentLines h0 hs (n + 1) (4 * n + 5 + 1) d [] (by omega)
  rcases ho : tokenizeOneAt E (4 * n + 5 + 1) d (St [] (commentLines (n + 1))) with ⟨r, s⟩
  rw [ho] at this
  simp only at this
  subst this
  by_cases hd : d ≤ n + 1
  · simp only [hd, if_true]
  · simp only [hd, if_false]

/-- **C85**: the number `1e0e0…e0` with `n` exponents needs room for `n + 2` calls. -/
theorem C85_exponents (hE : Sane E) (n d : Nat) :
    tokenizeAt E d ('1' :: expTail n) = if d ≤ n + 1 then .diverge else .ok [⟨⟨1, 1⟩, .Int 1⟩] := by
  have hlit : NumLit E ('1' :: expTail n) (.Int 1) :=
    expTail_lit n ['1'] 1 (by simp) (by simp [IsDigit]) (by decide) (by unfold Fits; decide)
  have hd1 : E.isNumeric '1' = true := hE.digit '1' (by decide) (by decide)
  have hlex : Lexeme E ('1' :: expTail n) (.Int 1) [] :=
    .num _ [] _ hlit ⟨'1', rfl, .inl hd1, by decide⟩ (fun c h => by cases h)
  have hnc := numLit_noCrlf hE hlit
  have hex : exps E ('1' :: expTail n) = n := by
    have h0 : numChar E '0' = true := by simp [numChar, hE.digit '0' (by decide) (by decide)]
    have h1 : numChar E '1' = true := by simp [numChar, hd1]
    rw [exps_cons _ h1 (by decide)]
    clear hlit hlex hnc
    induction n with
    | zero => rfl
    | succ n ih => rw [expTail_succ, exps_e, exps_cons _ h0 (by decide), ih]
  unfold tokenizeAt
  rw [new_eq, replaceCrlf_id hnc]
  obtain ⟨g, hg⟩ : ∃ g, lexFuel ('1' :: expTail n) = g + 1 + 1 := ⟨lexFuel ('1' :: expTail n) - 2, by
    simp only [lexFuel, List.length_cons]; omega⟩
  rw [show tokenizeLoopAt E d (lexFuel ('1' :: expTail n)) (lexFuel ('1' :: expTail n)) [] = tokenizeLoopAt E d (lexFuel ('1' :: expTail n)) (g + 1 + 1) [] from by rw [hg],
    loopAt_step, if_neg (by simp)]
  have hone : ∀ d, (tokenizeOneAt E (lexFuel ('1' :: expTail n)) (d + 1) (St [] ('1' :: expTail n))) =
      tokenizeNumAt E (lexFuel ('1' :: expTail n)) d (St [] ('1' :: expTail n)) := by
    intro d
    rw [hg, oneAt_other _ _ _ _ _ (by decide), if_pos (by simp [hd1])]
  by_cases hd : d ≤ n + 1
  · rw [if_pos hd]
    have hv : (tokenizeOneAt E (lexFuel ('1' :: expTail n)) d (St [] ('1' :: expTail n))).1 = .diverge := by
      cases d with
      | zero => rw [hg, tokenizeOneAt]; rfl
      | succ d =>
        rw [hone]
        exact numAt_deep hE n '1' ⟨by decide, by decide⟩ _ d [] (by omega)
    rcases ho : tokenizeOneAt E (lexFuel ('1' :: expTail n)) d (St [] ('1' :: expTail n)) with ⟨r, s⟩
    rw [ho] at hv
    obtain rfl : r = .diverge := hv
    rfl
  · rw [if_neg hd]
    obtain ⟨d, rfl⟩ : ∃ k, d = k + 1 := ⟨d - 1, by omega⟩
    have h2 := tokenizeOne_lexeme hE hlex (lexFuel ('1' :: expTail n)) [] (by unfold lexFuel; omega)
    have h3 : tokenizeOne E (lexFuel ('1' :: expTail n)) (St [] ('1' :: expTail n)) =
        tokenizeNum E (lexFuel ('1' :: expTail n)) (St [] ('1' :: expTail n)) := by
      rw [hg, tokenizeOne_other _ _ _ _ (by decide), if_pos (by simp [hd1])]
    rw [List.append_nil, h3] at h2
    rw [hone, (numAt_eq hE _ d [] _).1 (by omega), h2]
    simp only []
    rw [loopAt_step, if_pos rfl]
    rfl

/-- `n` blocks inside of each other. -/
def nested (p : Pos) : Nat → List (Directive F)
  | 0 => []
  | n + 1 => [.Attribute p (nested p n)]

/-- **C85**: a world with `n` blocks inside of each other is a scene, and it needs room for `n + 1` calls. -/
theorem C85_nested (p : Pos) (n d : Nat) :
    parseTokensAt E d (kw p "WorldBegin" :: List.replicate n (kw p "AttributeBegin") ++ [kw p "WorldEnd"]) =
      if d ≤ n then .diverge else .ok ([], .World p (nested p n)) := by
  have hb : ∀ n, DirsText E (List.replicate n (kw p "AttributeBegin")) (nested (F := F) p n) := by
    intro n
    induction n with
    | zero => exact .nil
    | succ n ih => exact .block _ _ (by simp [IsBlock]) (.attribute p _ _ ih)
  have hh : ∀ n, heightAll (nested (F := F) p n) = n := by
    intro n
    induction n with
    | zero => simp [nested, heightAll]
    | succ n ih => simp only [nested, heightAll, height, ih]; omega
  have := C85_scene (E := E) _ _ _ ((parseTokens_iff E _ _ _).2
    ⟨[], p, List.replicate n (kw p "AttributeBegin"), kw p "WorldEnd", [], _, rfl, .nil, hb n,
      ⟨p, "WorldEnd", rfl, by simp⟩, rfl⟩) d
  simp only [height, hh] at this
  by_cases hd : d ≤ n
  · rw [if_pos hd]; exact this.2 (by omega)
  · rw [if_neg hd]; exact this.1 (by omega)

/-- A word of letters before something that does not continue it. -/
theorem word_lexeme (hE : Sane E) (c : Char) (cs rest : List Char)
    (h : (c :: cs).all (fun d => ('a' ≤ d ∧ d ≤ 'z') ∨ ('A' ≤ d ∧ d ≤ 'Z')) = true)
    (hr : ∀ d, rest.head? = some d → d = ' ') :
    Lexeme E (c :: cs) (.Identifier (String.ofList (c :: cs))) rest := by
  simp only [List.all_eq_true, decide_eq_true_eq] at h
  obtain ⟨h1, h2, h3⟩ := hE.letter c (h c (by simp))
  refine .ident c cs rest ⟨h1, h2, h3, ?_⟩ (fun d hd => .inl (hE.letter d (h d (by simp [hd]))).1) ?_
  · intro hc
    have hl := h c (by simp)
    simp only [List.mem_cons, List.not_mem_nil, or_false] at hc
    rcases hc with rfl | rfl | rfl | rfl | rfl | rfl | rfl <;> revert hl <;> decide
  · intro d hd
    obtain rfl := hr d hd
    have := hE.white ' ' (hE.space _ (by simp))
    simp [IdChar, this]

/-- **C85**, the expectation that fails: no fixed amount of room is enough for all scenes, not even for the
    empty world with comments before it. -/
theorem C85_refuted (hE : Sane E) :
    ¬ ∃ d, ∀ input scene, parse E input = .ok scene → parseAt E d input = .ok scene := by
  rintro ⟨d, h⟩
  let tail : List Char := "WorldBegin WorldEnd".toList
  have et : tail = 'W' :: "orldBegin".toList ++ (' ' :: ('W' :: "orldEnd".toList ++ [])) := by decide
  have hs : ∀ n, commentLines (n + 1) ++ tail = '#' :: '\n' :: (commentLines n ++ tail) := by
    intro n; simp [commentLines, List.replicate_succ]
  have hbl : Blank E ' ' :=
    ⟨hE.space _ (by simp), (hE.white ' ' (hE.space _ (by simp))).1, by decide⟩
  have hlex : ∀ n pre, ∃ p q, Lex E pre (commentLines n ++ tail) [kw p "WorldBegin", kw q "WorldEnd"] := by
    intro n
    induction n with
    | zero =>
      intro pre
      refine ⟨posOf pre, posOf (pre ++ 'W' :: "orldBegin".toList ++ [' ']), ?_⟩
      show Lex E pre tail _
      rw [et]
      exact .tok _ _ _ _ _ (word_lexeme hE _ _ _ (by decide) (by simp))
        (.blank _ _ _ _ hbl (.tok _ _ _ _ _ (word_lexeme hE _ _ _ (by decide) (by simp)) (.eof _)))
    | succ n ih =>
      intro pre
      obtain ⟨p, q, h⟩ := ih (pre ++ '#' :: [] ++ ['\n'])
      refine ⟨p, q, ?_⟩
      rw [hs]
      exact .comment pre [] _ _ (by simp) h
  have hr : ∀ n, replaceCrlf (commentLines n ++ tail) = commentLines n ++ tail := by
    intro n; induction n with
    | zero => decide
    | succ n ih =>
      rw [hs, replaceCrlf, replaceCrlf, ih]
      · simp
      · simp
  obtain ⟨p, q, hl⟩ := hlex (d + 1) []
  have ht : tokenize E (commentLines (d + 1) ++ tail) = .ok [kw p "WorldBegin", kw q "WorldEnd"] :=
    (tokenize_iff hE _ _).2 (by rw [hr]; exact hl)
  have hp : parse E (commentLines (d + 1) ++ tail) = .ok ([], .World p []) := by
    unfold parse
    rw [ht]
    exact (parseTokens_iff E _ _ _).2 ⟨[], p, [], kw q "WorldEnd", [], [], rfl, .nil, .nil,
      ⟨q, "WorldEnd", rfl, by simp⟩, rfl⟩
  have hx := h _ _ hp
  have hd : tokenizeAt E d (commentLines (d + 1) ++ tail) = .diverge := by
    unfold tokenizeAt
    rw [new_eq, hr]
    generalize lexFuel (commentLines (d + 1) ++ tail) = g
    cases g with
    | zero => rfl
    | succ g =>
      rw [loopAt_step, if_neg (by rw [hs]; simp)]
      have := oneAt_comments_tail (E := E) (fun n => commentLines n ++ tail) hs (d + 1) (g + 1) d [] (by omega)
      rcases ho : tokenizeOneAt E (g + 1) d (St [] (commentLines (d + 1) ++ tail)) with ⟨r, s⟩
      rw [ho] at this
      obtain rfl : r = .diverge := this
      rfl
  unfold parseAt at hx
  rw [hd] at hx
  cases hx

/-! ### Concrete cases -/

/-- Did the run end? -/
def ended {ε α : Type} : Res ε α → Bool
  | .diverge => false
  | _ => true

/-- Three comments before a scene: one call for each and one for the token after them. -/
example :
    ended (parseAt (exEnv true) 5 "#a\n#b\n#c\nWorldBegin AttributeBegin WorldEnd".toList) = true ∧
    ended (parseAt (exEnv true) 3 "#a\n#b\n#c\nWorldBegin AttributeBegin WorldEnd".toList) = false ∧
    ended (parse (exEnv true) "#a\n#b\n#c\nWorldBegin AttributeBegin WorldEnd".toList) = true := by
  decide +kernel

/-- A comment and the blank after it take one call each. -/
example :
    ended (tokenizeAt (exEnv true) 5 "#\n #\n 1".toList) = false ∧
    ended (tokenizeAt (exEnv true) 6 "#\n #\n 1".toList) = true := by
  decide +kernel

/-- The bounds for a concrete text: one comment, no more than two exponents in a row. -/
example : tokenizeAt (exEnv true) 7 "1e2e0 # x\n 5e1".toList = tokenize (exEnv true) "1e2e0 # x\n 5e1".toList ∧
    tokenize (exEnv true) "1e2e0 # x\n 5e1".toList = .ok [⟨⟨1, 1⟩, .Int 100⟩, ⟨⟨2, 2⟩, .Int 50⟩] := by
  decide +kernel

/-! ### A case of each theorem -/

section
local notation "𝔼" => exEnv true
example := C85_more (E := 𝔼) 5 3 "#a\n#b\n#c\nWorldBegin AttributeBegin WorldEnd".toList (fun h => by
  have := (by decide +kernel : ended (parseAt 𝔼 5 "#a\n#b\n#c\nWorldBegin AttributeBegin WorldEnd".toList) = true)
  rw [h] at this
  cases this)
example := C85_tokens (exEnv_sane true) "1e2e0 # x\n 5e1".toList 3 8
  (fun a w b h _ => by
    have : ("1e2e0 # x\n 5e1".toList).count 'e' = 3 := by decide
    rw [h, List.count_append, List.count_append] at this
    omega)
  (by decide)
example := C85_linear (exEnv_sane true) "1e2e0 # x\n 5e1".toList
example := C85_exponents (exEnv_sane true) 7 3
end

end Pbrt
