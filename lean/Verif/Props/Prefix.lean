import Verif.Spec.Prefix
import Verif.Props.Faults
import Verif.Props.Reports
import Verif.Proof.ParseProps

/-!
# C86: what follows a fault does not change what is reported about it
-/

namespace Pbrt
open Pbrt.Spec Pbrt.Proof

variable {F : Type} {E : Env F}

/-! ### Texts -/

theorem numFollow_line (hE : Sane E) {rest : List Char} (h : NumFollow E rest) (c : List Char) :
    NumFollow E (rest ++ '\n' :: c) := by
  cases rest with
  | nil =>
    intro d hd
    simp only [List.nil_append, List.head?_cons, Option.some.injEq] at hd
    subst hd
    exact ⟨(hE.white '\n' (hE.space _ (by simp))).1, by decide, by decide⟩
  | cons x rest => exact h

theorem numFault_line (hE : Sane E) (c : List Char) {pre text : List Char} {f : Fault} (h : NumFault E pre text f) :
    NumFault E pre (text ++ '\n' :: c) f := by
  induction h with
  | noNumber pre s rest hk hs hrest =>
    rw [List.append_assoc]
    refine .noNumber pre s _ hk ?_ ?_
    · intro h0 x hx
      cases rest with
      | nil => simp at hx; subst hx; decide
      | cons y rest => exact hs h0 x hx
    · intro x hx
      cases rest with
      | nil => simp at hx; subst hx; exact ⟨(hE.white '\n' (hE.space _ (by simp))).1, by decide⟩
      | cons y rest => exact hrest x hx
  | secondPoint pre s ds rest hds =>
    rw [List.append_assoc, List.cons_append]
    exact .secondPoint pre s ds _ hds
  | whole pre s ds rest hne hds hbad hrest =>
    rw [List.append_assoc]
    exact .whole pre s ds _ hne hds hbad (numFollow_line hE hrest c)
  | point pre s ds rest m hds hm hrest =>
    rw [List.append_assoc]
    exact .point pre s ds _ m hds hm (numFollow_line hE hrest c)
  | exponent pre s ds x f hne hds _ ih =>
    rw [List.append_assoc, List.cons_append]
    exact .exponent pre s ds _ f hne hds ih
  | wholeMantissa pre s ds x rest k hne hds hbad hx hk hrest =>
    rw [List.append_assoc]
    exact .wholeMantissa pre s ds x _ k hne hds hbad hx hk (numFollow_line hE hrest c)
  | floatMantissa pre s ds x rest v m hne hds hx hv hm hrest =>
    rw [List.append_assoc]
    exact .floatMantissa pre s ds x _ v m hne hds hx hv hm (numFollow_line hE hrest c)
  | overflow pre s ds x rest k hc hok hx hk hv hrest =>
    rw [List.append_assoc]
    exact .overflow pre s ds x _ k hc hok hx hk hv (numFollow_line hE hrest c)

theorem lexTo_longer {pre a rest : List Char} {ts : List (Token F)} (h : LexTo E pre a ts rest)
    (hr : rest ≠ []) (c : List Char) : LexTo E pre a ts (rest ++ c) := by
  induction h with
  | nil pre rest => exact .nil pre _
  | blank pre c' cs ts rest hc _ ih => exact .blank pre c' cs ts _ hc (ih hr)
  | comment pre body cs ts rest hb _ ih => exact .comment pre body cs ts _ hb (ih hr)
  | tok pre l cs v ts rest hl _ ih =>
    refine .tok pre l cs v ts _ (lexeme_follow hl fun d hd => .inl ?_) (ih hr)
    rw [← hd]
    cases cs with
    | nil =>
      cases rest with
      | nil => exact absurd rfl hr
      | cons x rest => rfl
    | cons y cs => rfl

theorem textFault_line (hE : Sane E) {text : List Char} {f : Fault} (h : TextFault E text f)
    (ho : ¬ OpenString E text) (c : List Char) : TextFault E (text ++ '\n' :: c) f := by
  obtain ⟨a, toks, b, rfl, hl, hb⟩ := h
  refine ⟨a, toks, b ++ '\n' :: c, by rw [List.append_assoc], lexTo_longer hl (bad_ne_nil hb) _, ?_⟩
  have hb0 := bad_ne_nil hb
  cases hb with
  | char x rest hc => exact .char _ x _ hc
  | number _ _ hs h =>
    refine .number _ _ _ ?_ (numFault_line hE c h)
    obtain ⟨x, hx, h'⟩ := hs
    exact ⟨x, by rw [List.head?_append, hx]; rfl, h'⟩
  | string body s h =>
    exact absurd ⟨a, toks, body, s, [], by simp, by simpa using hl, h, .inl rfl⟩ ho
  | escape body s h =>
    exact absurd ⟨a, toks, body, s, ['\\'], rfl, hl, h, .inr rfl⟩ ho

/-- **C86**: what is wrong with the characters of a text is reported in the same words when lines are
    appended, unless the text breaks off inside a string. -/
theorem C86_text (hE : Sane E) (a b text : List Char) (hcr : a.getLast? ≠ some '\r') (hn : Norm a text)
    (ho : ¬ OpenString E text) :
    (∀ e, tokenize E a = .err e → tokenize E (a ++ '\n' :: b) = .err e) ∧
    (tokenize E a = .panic → tokenize E (a ++ '\n' :: b) = .panic) := by
  rw [norm_iff] at hn
  subst hn
  have hx : replaceCrlf (a ++ '\n' :: b) = replaceCrlf a ++ '\n' :: replaceCrlf b := by
    rw [replaceCrlf_append (fun h => hcr h.1), replaceCrlf_cons (by simp)]
  constructor
  · intro e he
    obtain ⟨text, m, hn, hf, rfl⟩ := (C71_error hE a e).1 he
    rw [norm_iff] at hn
    subst hn
    refine (C71_error hE _ _).2 ⟨_, m, (norm_iff _ _).2 rfl, ?_, rfl⟩
    rw [hx]
    exact textFault_line hE hf ho _
  · intro he
    obtain ⟨text, hn, hf⟩ := (C71_panic hE a).1 he
    rw [norm_iff] at hn
    subst hn
    refine (C71_panic hE _).2 ⟨_, (norm_iff _ _).2 rfl, ?_⟩
    rw [hx]
    exact textFault_line hE hf ho _

/-- **C86**: a text that breaks off inside a string is rejected, and the message is about its end: so it
    changes when the text goes on. -/
theorem C86_open (hE : Sane E) (a text : List Char) (hn : Norm a text) (ho : OpenString E text) :
    ∃ s k, tokenize E a = .err (.Str ((posOf (text.take k)).fmt ++ s)) ∧ text.length ≤ k + 1 := by
  obtain ⟨x, toks, body, s, tail, rfl, hl, hu, rfl | rfl⟩ := ho
  · refine ⟨" tokenize_str(): EOF while processing string", (x ++ ('"' :: body ++ [])).length, ?_, by omega⟩
    rw [List.take_length]
    refine (C71_error hE a _).2 ⟨_, _, hn, ⟨x, toks, _, rfl, hl, ?_⟩, rfl⟩
    rw [List.append_nil]
    exact .string x body s hu
  · refine ⟨" tokenize_str(): EOF while processing escape seq", (x ++ '"' :: body).length, ?_, by simp; omega⟩
    rw [show x ++ ('"' :: body ++ ['\\']) = (x ++ '"' :: body) ++ ['\\'] by simp, List.take_left]
    refine (C71_error hE a _).2 ⟨_, _, hn, ⟨x, toks, '"' :: body ++ ['\\'], by simp, hl, ?_⟩, rfl⟩
    exact .escape x body s hu

/-! ### Tokens -/

theorem longest_longer {b w : List (Token F)} {ps : List (Token F) → Prop} (p : Pos) (s : String) (ts : List (Token F))
    (hP : ∀ b, ps b → NoId b) (h : Longest ps (b ++ w) b) : Longest ps (b ++ (w ++ kw p s :: ts)) b := by
  refine ⟨List.prefix_append _ _, h.2.1, ?_⟩
  intro b' hb' hp
  refine h.2.2 b' ?_ hp
  rw [← List.append_assoc] at hb'
  obtain ⟨z, hz⟩ := hb'
  rw [List.append_eq_append_iff] at hz
  rcases hz with ⟨y, h1, h2⟩ | ⟨y, h1, h2⟩
  · exact ⟨y, h1.symm⟩
  · cases y with
    | nil => exact ⟨[], by simpa using h1⟩
    | cons t y =>
      simp only [List.cons_append, List.cons.injEq] at h2
      have := hP b' hp t (by rw [h1]; simp)
      exact absurd ⟨p, s, h2.1.symm⟩ this

theorem args_longer {k : String} {v w : List (Token F)} (p : Pos) (s : String) (ts : List (Token F))
    (h : Args E k v w) : Args E k (v ++ kw p s :: ts) (w ++ kw p s :: ts) := by
  cases h with
  | none v => exact .none _
  | numbers k n a w hs ha hn hw =>
    rw [List.append_assoc]
    refine .numbers k n a _ hs ha hn ?_
    intro t ht
    cases w with
    | nil =>
      simp only [List.nil_append, List.head?_cons, Option.some.injEq] at ht
      subst ht
      rintro (⟨i, h⟩ | ⟨i, h⟩) <;> simp [kw] at h
    | cons x w => exact hw t ht
  | name k n t w hs ht => exact .name k n t _ hs ht
  | active t w ht => exact .active t _ ht
  | params k n a b w hs ha hn hb =>
    rw [List.append_assoc, List.append_assoc]
    exact .params k n a b _ hs ha hn (longest_longer p s ts (fun b ⟨_, h⟩ => noId_params h) hb)

theorem argsFault_longer {k m : String} {q : Pos} {v : List (Token F)} (p : Pos) (s : String) (ts : List (Token F))
    (hm : m ∉ eofMessages) (h : ArgsFault E q k v m) : ArgsFault E q k (v ++ kw p s :: ts) m := by
  cases h with
  | noNumber k n hs => exact absurd (by simp [eofMessages]) hm
  | notNumber k n t w hs ht => exact .notNumber k n t _ hs ht
  | count k n a w hs ha h0 hn hw =>
    rw [List.append_assoc]
    refine .count k n a _ hs ha h0 hn ?_
    intro t ht
    cases w with
    | nil =>
      simp only [List.nil_append, List.head?_cons, Option.some.injEq] at ht
      subst ht
      rintro (⟨i, h⟩ | ⟨i, h⟩) <;> simp [kw] at h
    | cons x w => exact hw t ht
  | noString k n a hs ha hn => exact absurd (by simp [eofMessages]) hm
  | notString k n a t w hs ha hn ht =>
    rw [List.append_assoc]
    exact .notString k n a t _ hs ha hn ht
  | noIdentifier => exact absurd (by simp [eofMessages]) hm
  | notIdentifier t w ht => exact .notIdentifier t _ ht

theorem bodyFault_longer {m : String} {v : List (Token F)} (p : Pos) (s : String) (ts : List (Token F))
    (hm : m ∉ eofMessages) (h : BodyFault E v m) : BodyFault E (v ++ kw p s :: ts) m := by
  induction h with
  | notKey t w ht => exact .notKey t _ ht
  | unknown q k w hs he => exact .unknown q k _ hs he
  | args q k v m hs h => exact .args q k _ m hs (argsFault_longer p s ts hm h)
  | later q k v w m hs h _ ih => exact .later q k _ _ m hs (args_longer p s ts h) (ih hm)
  | nested q k v m hs _ ih => exact .nested q k _ m hs (ih hm)

theorem sceneFault_longer {m : String} {v : List (Token F)} (p : Pos) (s : String) (ts : List (Token F))
    (hm : m ∉ eofMessages) (h : SceneFault E v m) : SceneFault E (v ++ kw p s :: ts) m := by
  induction h with
  | notKey t w ht => exact .notKey t _ ht
  | unknown q k w hs he => exact .unknown q k _ hs he
  | args q k v m hs h => exact .args q k _ m hs (argsFault_longer p s ts hm h)
  | later q k v w m hs h _ ih => exact .later q k _ _ m hs (args_longer p s ts h) (ih hm)
  | body q v m h => exact .body q _ m (bodyFault_longer p s ts hm h)

/-- **C86**: what is wrong with a list of tokens is reported in the same words when tokens are appended, the
    first of them being an identifier, unless the message says that the list ends too early. -/
theorem C86_tokens (toks : List (Token F)) (m : String) (h : parseTokens E toks = .err (.Str m))
    (hm : m ∉ eofMessages) (p : Pos) (s : String) (ts : List (Token F)) :
    parseTokens E (toks ++ kw p s :: ts) = .err (.Str m) :=
  (C72_error E _ m).2 (sceneFault_longer p s ts hm ((C72_error E toks m).1 h))

/-- **C86**: the same for texts. -/
theorem C86_lines (hE : Sane E) (a b : List Char) (m : String) (ta : List (Token F)) (p : Pos) (s : String)
    (tb : List (Token F)) (ha : tokenize E a = .ok ta) (hb : tokenize E b = .ok (kw p s :: tb))
    (h : parse E a = .err (.Str m)) (hm : m ∉ eofMessages) :
    parse E (a ++ '\n' :: b) = .err (.Str m) := by
  unfold parse at h ⊢
  rw [ha] at h
  rw [(C12_lines hE a b ta ha).1 _ hb]
  exact C86_tokens ta m h hm _ s _

/-- **C86**, the expectation that fails: without an identifier in between the report can change. `Translate 1 2`
    has too few numbers, and a third number makes it right; a message that the text ends is withdrawn. -/
theorem C86_number_refuted :
    report (parse (exEnv true) "Translate 1 2".toList) =
      "(1, 1) parse_predirective(): Translate expects 3 floats but was given 2" ∧
    report (parse (exEnv true) "Translate 1 2\n3 WorldBegin WorldEnd".toList) = "" ∧
    report (parse (exEnv true) "Include".toList) = "parse_string(): EOF while processing string" ∧
    report (parse (exEnv true) "Include\n\"f\" WorldBegin WorldEnd".toList) = "" ∧
    report (parse (exEnv true) "Include \"f".toList) = "(1, 11) tokenize_str(): EOF while processing string" ∧
    report (parse (exEnv true) "Include \"f\n\" WorldBegin WorldEnd".toList) = "" := by decide +kernel

/-- A text with a fault in the middle, and what may come after it. -/
example : report (parse (exEnv true) "Translate 1 2\nIdentity".toList) =
      "(1, 1) parse_predirective(): Translate expects 3 floats but was given 2" ∧
    report (parse (exEnv true) "Translate 1 2\nIdentity\nScale WorldEnd \"q\"".toList) =
      "(1, 1) parse_predirective(): Translate expects 3 floats but was given 2" ∧
    report (parse (exEnv true) "Translate 1 2.5.".toList) = "(1, 16) tokenize_num(): unexpected char '.'" ∧
    report (parse (exEnv true) "Translate 1 2.5.\n \"open".toList) =
      "(1, 16) tokenize_num(): unexpected char '.'" := by decide +kernel

end Pbrt
