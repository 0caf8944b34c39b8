import Verif.Proof.ParseBasic

/-!
# Symbolic execution of the parser: bracketed lists, spectra, parameters
-/

namespace Pbrt.Proof
open Pbrt.Spec

variable {F : Type}

/-- Items of kind `R` start with a number or a string. -/
def Starts {T : Type} (R : List (Token F) → T → Prop) : Prop :=
  ∀ a x, R a x → ∃ t, a.head? = some t ∧ ¬ IsId t ∧ t.ty ≠ .LBracket ∧ t.ty ≠ .RBracket

theorem starts_int : Starts (F := F) IntTok := by
  rintro a x ⟨p, rfl⟩
  exact ⟨_, rfl, by rintro ⟨_, _, h⟩; simp [kw] at h, by simp, by simp⟩
theorem starts_str : Starts (F := F) StrTok := by
  rintro a x ⟨p, rfl⟩
  exact ⟨_, rfl, by rintro ⟨_, _, h⟩; simp [kw] at h, by simp, by simp⟩
theorem starts_bool : Starts (F := F) BoolTok := by
  rintro a x ⟨p, rfl⟩
  exact ⟨_, rfl, by rintro ⟨_, _, h⟩; simp [kw] at h, by simp, by simp⟩
theorem starts_num (E : Env F) : Starts (NumTok E) := by
  rintro a x ⟨p, rfl | ⟨i, rfl, _⟩⟩
  · exact ⟨_, rfl, by rintro ⟨_, _, h⟩; simp [kw] at h, by simp, by simp⟩
  · exact ⟨_, rfl, by rintro ⟨_, _, h⟩; simp [kw] at h, by simp, by simp⟩
theorem starts_point (E : Env F) : Starts (PointTok E) := by
  rintro t x ⟨a, b, rfl, ha, hb⟩
  obtain ⟨t, h1, h2⟩ := starts_num E a _ ha
  refine ⟨t, ?_, h2⟩
  cases a with
  | nil => simp at h1
  | cons => simpa using h1
theorem starts_vector (E : Env F) : Starts (VectorTok E) := by
  rintro t x ⟨a, b, rfl, ha, hb⟩
  obtain ⟨t, h1, h2⟩ := starts_num E a _ ha
  refine ⟨t, ?_, h2⟩
  cases a with
  | nil => simp at h1
  | cons => simpa using h1

section
variable {T : Type} {parser : PM F T} {R : List (Token F) → T → Prop}

theorem head_append_of {a b : List (Token F)} {t : Token F} (h : a.head? = some t) :
    (a ++ b).head? = some t := by
  cases a with
  | nil => simp at h
  | cons => simpa using h

theorem no_item_of_stop (hs : Starts R) {rest : List (Token F)} (h : Stop rest) :
    ¬ ∃ b x c, rest = b ++ c ∧ R b x := by
  rintro ⟨b, x, c, rfl, hx⟩
  obtain ⟨t, h1, h2, _⟩ := hs b x hx
  exact h2 (h t (head_append_of h1))

theorem no_item_of_rb (hs : Starts R) {q : Pos} {rest : List (Token F)} :
    ¬ ∃ b x c, (⟨q, .RBracket⟩ : Token F) :: rest = b ++ c ∧ R b x := by
  rintro ⟨b, x, c, he, hx⟩
  obtain ⟨t, h1, _, _, h4⟩ := hs b x hx
  have := head_append_of (b := c) h1
  rw [← he] at this
  simp at this
  exact h4 (by rw [← this])

/-! ### `parse_list` -/

theorem parseList_ok (E : Env F) (hp : Reads parser R) (hs : Starts R) (name : String)
    {ts : List (Token F)} {xs : List T} (h : Bracketed R ts xs) (pre rest : List (Token F)) :
    parseList E parser name (PS pre (ts ++ rest)) = (.ok xs, PS (pre ++ ts) rest) := by
  obtain ⟨hne, p, q, vs, rfl, hm⟩ := h
  have e : (⟨p, .LBracket⟩ :: vs ++ [⟨q, .RBracket⟩] ++ rest : List (Token F)) =
      ⟨p, .LBracket⟩ :: (vs ++ ⟨q, .RBracket⟩ :: rest) := by simp
  rw [e, parseList, bind_ok (attempt_ok (peek_cons ..))]
  show (M.attempt next >>= fun _ => _) _ = _
  rw [bind_ok (attempt_ok (next_cons ..)),
    bind_ok ((parseMany_run hp name hm _ _ (no_item_of_rb hs)).1 hne),
    bind_ok (attempt_ok (peek_cons ..))]
  show (if xs = [] then _ else _ : PM F (List T)) _ = _
  rw [if_neg hne, bind_ok (next_cons ..)]
  simp [M.pure_apply]

theorem parseList_nobracket (E : Env F) (name : String) (pre ts : List (Token F))
    (h : ∀ t, ts.head? = some t → t.ty ≠ .LBracket) :
    ∃ m, parseList E parser name (PS pre ts) = (.err (.Str m), PS pre ts) := by
  rw [parseList]
  cases ts with
  | nil => rw [bind_ok (attempt_err (peek_nil ..))]; exact ⟨_, rfl⟩
  | cons t ts =>
    rw [bind_ok (attempt_ok (peek_cons ..))]
    obtain ⟨p, ty⟩ := t
    have := h _ rfl
    cases ty with
    | LBracket => exact absurd rfl this
    | _ => exact ⟨_, rfl⟩

/-- After the opening bracket: the items and no closing bracket behind them. -/
theorem parseList_unclosed (E : Env F) (hp : Reads parser R) (name : String) {p : Pos}
    {vs : List (Token F)} {xs : List T} (hm : Many R vs xs) (pre rest : List (Token F))
    (hr : ¬ ∃ b x c, rest = b ++ c ∧ R b x)
    (hb : xs = [] ∨ ∀ t, rest.head? = some t → t.ty ≠ .RBracket) :
    ∃ m, parseList E parser name (PS pre (⟨p, .LBracket⟩ :: vs ++ rest)) =
      (.err (.Str m), PS (pre ++ ⟨p, .LBracket⟩ :: vs) rest) := by
  have e : (⟨p, .LBracket⟩ :: vs ++ rest : List (Token F)) = ⟨p, .LBracket⟩ :: (vs ++ rest) := by
    simp
  rw [e, parseList, bind_ok (attempt_ok (peek_cons ..))]
  show ∃ m, (M.attempt next >>= fun _ => _) _ = _
  rw [bind_ok (attempt_ok (next_cons ..))]
  have hpm := parseMany_run hp name hm (pre ++ [⟨p, .LBracket⟩]) rest hr
  by_cases hne : xs = []
  · subst hne
    obtain ⟨m, h⟩ := hpm.2 rfl
    rw [bind_err h]
    cases hm
    exact ⟨m, rfl⟩
  · rw [bind_ok (hpm.1 hne)]
    have hb := hb.resolve_left hne
    rw [show pre ++ [⟨p, .LBracket⟩] ++ vs = pre ++ ⟨p, .LBracket⟩ :: vs by simp]
    cases rest with
    | nil => rw [bind_ok (attempt_err (peek_nil ..))]; exact ⟨_, rfl⟩
    | cons t rest =>
      rw [bind_ok (attempt_ok (peek_cons ..))]
      obtain ⟨p', ty⟩ := t
      have := hb _ rfl
      cases ty with
      | RBracket => exact absurd rfl this
      | _ => exact ⟨_, rfl⟩

/-- Every outcome of `parse_list`. -/
theorem parseList_cases (E : Env F) (hp : Reads parser R) (hs : Starts R) (name : String)
    (pre ts : List (Token F)) :
    (∃ a xs rest, ts = a ++ rest ∧ Bracketed R a xs ∧
      parseList E parser name (PS pre ts) = (.ok xs, PS (pre ++ a) rest)) ∨
    (∃ a rest m, ts = a ++ rest ∧
      parseList E parser name (PS pre ts) = (.err (.Str m), PS (pre ++ a) rest) ∧
      ((a = [] ∧ ∀ t, rest.head? = some t → t.ty ≠ .LBracket) ∨
        ∃ p vs xs, a = ⟨p, .LBracket⟩ :: vs ∧ Many R vs xs ∧
          (¬ ∃ b x c, rest = b ++ c ∧ R b x) ∧
          (xs = [] ∨ ∀ t, rest.head? = some t → t.ty ≠ .RBracket))) := by
  by_cases h : ∀ t, ts.head? = some t → t.ty ≠ .LBracket
  · obtain ⟨m, hm⟩ := parseList_nobracket (parser := parser) E name pre ts h
    exact .inr ⟨[], ts, m, rfl, by simpa using hm, .inl ⟨rfl, h⟩⟩
  · obtain ⟨p, ts', rfl⟩ : ∃ p ts', ts = ⟨p, .LBracket⟩ :: ts' := by
      cases ts with
      | nil => exact absurd (by simp) h
      | cons t ts =>
        obtain ⟨p, ty⟩ := t
        by_cases hty : ty = .LBracket
        · subst hty; exact ⟨p, ts, rfl⟩
        · exact absurd (fun t ht => by simp at ht; subst ht; exact hty) h
    obtain ⟨vs, xs, rest, rfl, hm, hf⟩ := many_split hp.nonempty _ ts' (Nat.le_refl _)
    by_cases hb : xs = [] ∨ ∀ t, rest.head? = some t → t.ty ≠ .RBracket
    · obtain ⟨m, hm'⟩ := parseList_unclosed E hp name (p := p) hm pre rest hf hb
      exact .inr ⟨⟨p, .LBracket⟩ :: vs, rest, m, by simp, by simpa using hm',
        .inr ⟨p, vs, xs, rfl, hm, hf, hb⟩⟩
    · simp only [not_or] at hb
      obtain ⟨hne, hb⟩ := hb
      obtain ⟨q, rest', rfl⟩ : ∃ q rest', rest = ⟨q, .RBracket⟩ :: rest' := by
        cases rest with
        | nil => exact absurd (by simp) hb
        | cons t ts =>
          obtain ⟨p, ty⟩ := t
          by_cases hty : ty = .RBracket
          · subst hty; exact ⟨p, ts, rfl⟩
          · exact absurd (fun t ht => by simp at ht; subst ht; exact hty) hb
      have hbr : Bracketed R (⟨p, .LBracket⟩ :: vs ++ [⟨q, .RBracket⟩]) xs :=
        ⟨hne, p, q, vs, rfl, hm⟩
      have := parseList_ok E hp hs name hbr pre rest'
      exact .inl ⟨_, xs, rest', by simp, hbr, by simpa using this⟩

/-! ### `parse_list_of_n` -/

theorem parseListOfN_ok (E : Env F) (hp : Reads parser R) (n : Nat) (hn : n > 0)
    (name : String) {ts : List (Token F)} {xs : List T} (h : Bracketed R ts xs)
    (hl : xs.length = n) (pre rest : List (Token F)) :
    parseListOfN E parser n name (PS pre (ts ++ rest)) = (.ok xs, PS (pre ++ ts) rest) := by
  obtain ⟨hne, p, q, vs, rfl, hm⟩ := h
  have e : (⟨p, .LBracket⟩ :: vs ++ [⟨q, .RBracket⟩] ++ rest : List (Token F)) =
      ⟨p, .LBracket⟩ :: (vs ++ ⟨q, .RBracket⟩ :: rest) := by simp
  rw [e, parseListOfN, bind_ok (attempt_ok (peek_cons ..))]
  show (M.attempt next >>= fun _ => _) _ = _
  rw [bind_ok (attempt_ok (next_cons ..)),
    bind_ok (parseN_ok E hp n hn name hm hl _ _),
    bind_ok (attempt_ok (peek_cons ..))]
  show (if xs = [] then _ else _ : PM F (List T)) _ = _
  rw [if_neg hne, bind_ok (next_cons ..)]
  simp [M.pure_apply]

theorem parseListOfN_nobracket (E : Env F) (n : Nat) (name : String) (pre ts : List (Token F))
    (h : ∀ t, ts.head? = some t → t.ty ≠ .LBracket) :
    ∃ m, parseListOfN E parser n name (PS pre ts) = (.err (.Str m), PS pre ts) := by
  rw [parseListOfN]
  cases ts with
  | nil => rw [bind_ok (attempt_err (peek_nil ..))]; exact ⟨_, rfl⟩
  | cons t ts =>
    rw [bind_ok (attempt_ok (peek_cons ..))]
    obtain ⟨p, ty⟩ := t
    have := h _ rfl
    cases ty with
    | LBracket => exact absurd rfl this
    | _ => exact ⟨_, rfl⟩

/-- Too few items: only the opening bracket is consumed. -/
theorem parseListOfN_few (E : Env F) (hp : Reads parser R) (n : Nat) (name : String) {p : Pos}
    {vs : List (Token F)} {xs : List T} (hm : Many R vs xs) (hl : xs.length < n)
    (pre rest : List (Token F)) (hr : ¬ ∃ b x c, rest = b ++ c ∧ R b x) :
    ∃ m, parseListOfN E parser n name (PS pre (⟨p, .LBracket⟩ :: (vs ++ rest))) =
      (.err (.Str m), PS (pre ++ [⟨p, .LBracket⟩]) (vs ++ rest)) := by
  rw [parseListOfN, bind_ok (attempt_ok (peek_cons ..))]
  show ∃ m, (M.attempt next >>= fun _ => _) _ = _
  rw [bind_ok (attempt_ok (next_cons ..))]
  obtain ⟨m, h⟩ := parseN_fail E hp n name hm hl (pre ++ [⟨p, .LBracket⟩]) rest hr
  rw [bind_err h]
  exact ⟨m, rfl⟩

/-- Enough items but no closing bracket behind them. -/
theorem parseListOfN_unclosed (E : Env F) (hp : Reads parser R) (n : Nat) (hn : n > 0)
    (name : String) {p : Pos} {vs : List (Token F)} {xs : List T} (hm : Many R vs xs)
    (hl : xs.length = n) (pre rest : List (Token F))
    (hb : ∀ t, rest.head? = some t → t.ty ≠ .RBracket) :
    ∃ m, parseListOfN E parser n name (PS pre (⟨p, .LBracket⟩ :: vs ++ rest)) =
      (.err (.Str m), PS (pre ++ ⟨p, .LBracket⟩ :: vs) rest) := by
  have e : (⟨p, .LBracket⟩ :: vs ++ rest : List (Token F)) = ⟨p, .LBracket⟩ :: (vs ++ rest) := by
    simp
  rw [e, parseListOfN, bind_ok (attempt_ok (peek_cons ..))]
  show ∃ m, (M.attempt next >>= fun _ => _) _ = _
  rw [bind_ok (attempt_ok (next_cons ..)), bind_ok (parseN_ok E hp n hn name hm hl _ _)]
  rw [show pre ++ [⟨p, .LBracket⟩] ++ vs = pre ++ ⟨p, .LBracket⟩ :: vs by simp]
  cases rest with
  | nil => rw [bind_ok (attempt_err (peek_nil ..))]; exact ⟨_, rfl⟩
  | cons t rest =>
    rw [bind_ok (attempt_ok (peek_cons ..))]
    obtain ⟨p', ty⟩ := t
    have := hb _ rfl
    cases ty with
    | RBracket => exact absurd rfl this
    | _ => exact ⟨_, rfl⟩

/-- Every outcome of `parse_list_of_n`. -/
theorem parseListOfN_cases (E : Env F) (hp : Reads parser R) (n : Nat) (hn : n > 0)
    (name : String) (pre ts : List (Token F)) :
    (∃ a xs rest, ts = a ++ rest ∧ Bracketed R a xs ∧ xs.length = n ∧
      parseListOfN E parser n name (PS pre ts) = (.ok xs, PS (pre ++ a) rest)) ∨
    (∃ a rest m, ts = a ++ rest ∧
      parseListOfN E parser n name (PS pre ts) = (.err (.Str m), PS (pre ++ a) rest) ∧
      ((a = [] ∧ ∀ t, rest.head? = some t → t.ty ≠ .LBracket) ∨
        (∃ p, a = [⟨p, .LBracket⟩] ∧ ∃ vs xs c, rest = vs ++ c ∧ Many R vs xs ∧ xs.length < n ∧
          ¬ ∃ b x d, c = b ++ d ∧ R b x) ∨
        ∃ p vs xs, a = ⟨p, .LBracket⟩ :: vs ∧ Many R vs xs ∧ xs.length = n ∧
          ∀ t, rest.head? = some t → t.ty ≠ .RBracket)) := by
  by_cases h : ∀ t, ts.head? = some t → t.ty ≠ .LBracket
  · obtain ⟨m, hm⟩ := parseListOfN_nobracket (parser := parser) E n name pre ts h
    exact .inr ⟨[], ts, m, rfl, by simpa using hm, .inl ⟨rfl, h⟩⟩
  · obtain ⟨p, ts', rfl⟩ : ∃ p ts', ts = ⟨p, .LBracket⟩ :: ts' := by
      cases ts with
      | nil => exact absurd (by simp) h
      | cons t ts =>
        obtain ⟨p, ty⟩ := t
        by_cases hty : ty = .LBracket
        · subst hty; exact ⟨p, ts, rfl⟩
        · exact absurd (fun t ht => by simp at ht; subst ht; exact hty) h
    rcases many_split_n (R := R) n ts' with ⟨vs, xs, rest, rfl, hm, hl⟩ | ⟨vs, xs, rest, rfl, hm, hl, hf⟩
    · by_cases hb : ∀ t, rest.head? = some t → t.ty ≠ .RBracket
      · obtain ⟨m, hm'⟩ := parseListOfN_unclosed E hp n hn name (p := p) hm hl pre rest hb
        exact .inr ⟨⟨p, .LBracket⟩ :: vs, rest, m, by simp, by simpa using hm',
          .inr (.inr ⟨p, vs, xs, rfl, hm, hl, hb⟩)⟩
      · obtain ⟨q, rest', rfl⟩ : ∃ q rest', rest = ⟨q, .RBracket⟩ :: rest' := by
          cases rest with
          | nil => exact absurd (by simp) hb
          | cons t ts =>
            obtain ⟨p, ty⟩ := t
            by_cases hty : ty = .RBracket
            · subst hty; exact ⟨p, ts, rfl⟩
            · exact absurd (fun t ht => by simp at ht; subst ht; exact hty) hb
        have hne : xs ≠ [] := by intro h; subst h; simp at hl; omega
        have hbr : Bracketed R (⟨p, .LBracket⟩ :: vs ++ [⟨q, .RBracket⟩]) xs :=
          ⟨hne, p, q, vs, rfl, hm⟩
        have := parseListOfN_ok E hp n hn name hbr hl pre rest'
        exact .inl ⟨_, xs, rest', by simp, hbr, hl, by simpa using this⟩
    · obtain ⟨m, hm'⟩ := parseListOfN_few E hp n name (p := p) hm hl pre rest hf
      exact .inr ⟨[⟨p, .LBracket⟩], vs ++ rest, m, by simp, hm',
        .inr (.inl ⟨p, rfl, vs, xs, rest, rfl, hm, hl, hf⟩)⟩

/-! ### `parse_one_or_list` -/

theorem parseOneOrList_list (E : Env F) (name : String) (pre ts : List (Token F)) (p : Pos) :
    parseOneOrList E parser name (PS pre (⟨p, .LBracket⟩ :: ts)) =
      parseList E parser name (PS pre (⟨p, .LBracket⟩ :: ts)) := by
  rw [parseOneOrList, bind_ok (attempt_ok (peek_cons ..))]

theorem parseOneOrList_one (E : Env F) (name : String) (pre ts : List (Token F)) (t : Token F)
    (h : t.ty ≠ .LBracket) :
    parseOneOrList E parser name (PS pre (t :: ts)) =
      (parser >>= fun v => pure [v]) (PS pre (t :: ts)) := by
  rw [parseOneOrList, bind_ok (attempt_ok (peek_cons ..))]
  obtain ⟨p, ty⟩ := t
  cases ty with
  | LBracket => exact absurd rfl h
  | _ => rfl

theorem parseOneOrList_ok (E : Env F) (hp : Reads parser R) (hs : Starts R) (name : String)
    {ts : List (Token F)} {xs : List T} (h : OneOrList R ts xs) (pre rest : List (Token F)) :
    parseOneOrList E parser name (PS pre (ts ++ rest)) = (.ok xs, PS (pre ++ ts) rest) := by
  rcases h with ⟨x, hx, rfl⟩ | h
  · obtain ⟨t, ht, _, hl, _⟩ := hs ts x hx
    obtain ⟨ts', rfl⟩ : ∃ ts', ts = t :: ts' := by
      cases ts with
      | nil => simp at ht
      | cons a b => simp at ht; subst ht; exact ⟨b, rfl⟩
    rw [List.cons_append, parseOneOrList_one E name _ _ _ hl, ← List.cons_append,
      bind_ok (hp.ok _ x pre rest hx)]
    rfl
  · have := parseList_ok E hp hs name h pre rest
    obtain ⟨hne, p, q, vs, rfl, hm⟩ := h
    rw [← this]
    exact parseOneOrList_list E name pre _ p

/-- Every outcome of `parse_one_or_list`. -/
theorem parseOneOrList_cases (E : Env F) (hp : Reads parser R) (hs : Starts R) (name : String)
    (pre ts : List (Token F)) :
    (∃ a xs rest, ts = a ++ rest ∧ OneOrList R a xs ∧
      parseOneOrList E parser name (PS pre ts) = (.ok xs, PS (pre ++ a) rest)) ∨
    (∃ a rest m, ts = a ++ rest ∧
      parseOneOrList E parser name (PS pre ts) = (.err m, PS (pre ++ a) rest) ∧
      ((a = [] ∧ (∀ t, rest.head? = some t → t.ty ≠ .LBracket) ∧
          ¬ ∃ b x c, rest = b ++ c ∧ R b x) ∨
        ∃ p vs xs, a = ⟨p, .LBracket⟩ :: vs ∧ Many R vs xs ∧
          (¬ ∃ b x c, rest = b ++ c ∧ R b x) ∧
          (xs = [] ∨ ∀ t, rest.head? = some t → t.ty ≠ .RBracket))) := by
  cases ts with
  | nil =>
    have hnil : ∃ m, parseOneOrList E parser name (PS pre []) = (.err m, PS pre []) := by
      rw [parseOneOrList, bind_ok (attempt_err (peek_nil ..))]
      exact ⟨_, rfl⟩
    obtain ⟨m, hm⟩ := hnil
    refine .inr ⟨[], [], m, rfl, by simpa using hm, .inl ⟨rfl, by simp, ?_⟩⟩
    · rintro ⟨b, x, c, he, hx⟩
      obtain ⟨t, h1, _⟩ := hs b x hx
      have := head_append_of (b := c) h1
      rw [← he] at this
      simp at this
  | cons t ts =>
    by_cases ht : t.ty = .LBracket
    · obtain ⟨p, ty⟩ := t
      simp only at ht
      subst ht
      rw [parseOneOrList_list]
      rcases parseList_cases E hp hs name pre (⟨p, .LBracket⟩ :: ts) with
        ⟨a, xs, rest, h1, h2, h3⟩ | ⟨a, rest, m, h1, h2, h3⟩
      · exact .inl ⟨a, xs, rest, h1, .inr h2, h3⟩
      · refine .inr ⟨a, rest, _, h1, h2, ?_⟩
        rcases h3 with ⟨rfl, h⟩ | h
        · simp at h1
          subst h1
          exact absurd rfl (h _ rfl)
        · exact .inr h
    · rw [parseOneOrList_one E name _ _ _ ht]
      by_cases hx : ∃ a x rest, t :: ts = a ++ rest ∧ R a x
      · obtain ⟨a, x, rest, h1, hx⟩ := hx
        refine .inl ⟨a, [x], rest, h1, .inl ⟨x, hx, rfl⟩, ?_⟩
        rw [h1, bind_ok (hp.ok a x pre rest hx)]
        rfl
      · obtain ⟨e, he⟩ := hp.fail pre (t :: ts) hx
        refine .inr ⟨[], t :: ts, .Str e, rfl, by rw [bind_err he]; simp, .inl ⟨rfl, ?_, hx⟩⟩
        intro t' ht'
        simp at ht'
        subst ht'
        exact ht

end

end Pbrt.Proof
