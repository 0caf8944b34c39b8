import Verif.Spec.Scene
import Verif.Proof.LexBasic
import Verif.Proof.Fuel

/-!
# Symbolic execution of the parser: states, primitive steps, values, lists
-/

namespace Pbrt.Proof
open Pbrt.Spec

variable {F : Type}

/-- The parser state after consuming `pre` with the tokens `ts` left. -/
def PS (pre ts : List (Token F)) : Parser F := ⟨pre ++ ts, pre.length⟩

theorem isEmpty_PS (pre ts : List (Token F)) : (PS pre ts).isEmpty = ts.isEmpty := by
  cases ts <;> simp [Parser.isEmpty, PS]

theorem getElem_PS (pre : List (Token F)) (t : Token F) (ts : List (Token F)) :
    (PS pre (t :: ts)).tokens[(PS pre (t :: ts)).index]? = some t := by
  simp [PS]

theorem peek_nil (pre : List (Token F)) : peek (PS pre []) = (.err .Eof, PS pre []) := by
  simp [peek, isEmpty_PS]

theorem peek_cons (pre : List (Token F)) (t : Token F) (ts : List (Token F)) :
    peek (PS pre (t :: ts)) = (.ok t, PS pre (t :: ts)) := by
  simp [peek, isEmpty_PS, getElem_PS]

theorem next_nil (pre : List (Token F)) : next (PS pre []) = (.err .Eof, PS pre []) := by
  simp [next, isEmpty_PS]

theorem next_cons (pre : List (Token F)) (t : Token F) (ts : List (Token F)) :
    next (PS pre (t :: ts)) = (.ok t, PS (pre ++ [t]) ts) := by
  simp only [next, isEmpty_PS, getElem_PS]
  simp [PS]

theorem pos_nil (pre : List (Token F)) : pos (PS pre []) = (.err .Eof, PS pre []) := by
  simp [pos, PS]

theorem pos_cons (pre : List (Token F)) (t : Token F) (ts : List (Token F)) :
    pos (PS pre (t :: ts)) = (.ok t.pos, PS pre (t :: ts)) := by
  simp [pos, PS]

theorem getIndex_PS (pre ts : List (Token F)) :
    getIndex (PS pre ts) = (.ok pre.length, PS pre ts) := rfl

theorem setIndex_PS (pre a ts : List (Token F)) :
    setIndex pre.length (PS (pre ++ a) ts) = (.ok (), PS pre (a ++ ts)) := by
  simp [setIndex, PS]

theorem idx_some {α : Type} {v : List α} {i : Nat} {a : α} (h : v[i]? = some a) (s : Parser F) :
    idx v i s = (.ok a, s) := by
  unfold idx; rw [h]; rfl

/-! ### Element readers -/

/-- `parser` reads one item of the kind `R`, or fails without moving. -/
structure Reads {T : Type} (parser : PM F T) (R : List (Token F) → T → Prop) : Prop where
  nonempty : ∀ a x, R a x → a ≠ []
  ok : ∀ a x pre rest, R a x → parser (PS pre (a ++ rest)) = (.ok x, PS (pre ++ a) rest)
  fail : ∀ pre ts, (¬ ∃ a x rest, ts = a ++ rest ∧ R a x) →
    ∃ m, parser (PS pre ts) = (.err (.Str m), PS pre ts)

theorem reads_int (E : Env F) : Reads (parseInt E) IntTok where
  nonempty := by rintro a x ⟨p, rfl⟩; simp
  ok := by
    rintro a x pre rest ⟨p, rfl⟩
    rw [parseInt, List.cons_append, bind_ok (attempt_ok (peek_cons ..))]
    show (M.attempt next >>= fun _ => _) _ = _
    rw [bind_ok (attempt_ok (next_cons ..))]; rfl
  fail := by
    intro pre ts h
    rw [parseInt]
    cases ts with
    | nil => rw [bind_ok (attempt_err (peek_nil ..))]; exact ⟨_, rfl⟩
    | cons t ts =>
      rw [bind_ok (attempt_ok (peek_cons ..))]
      obtain ⟨p, ty⟩ := t
      cases ty with
      | Int i => exact absurd ⟨[_], i, ts, rfl, p, rfl⟩ h
      | _ => exact ⟨_, rfl⟩

theorem reads_string (E : Env F) : Reads (parseString E) StrTok where
  nonempty := by rintro a x ⟨p, rfl⟩; simp
  ok := by
    rintro a x pre rest ⟨p, rfl⟩
    rw [parseString, List.cons_append, bind_ok (attempt_ok (peek_cons ..))]
    show (M.attempt next >>= fun _ => _) _ = _
    rw [bind_ok (attempt_ok (next_cons ..))]; rfl
  fail := by
    intro pre ts h
    rw [parseString]
    cases ts with
    | nil => rw [bind_ok (attempt_err (peek_nil ..))]; exact ⟨_, rfl⟩
    | cons t ts =>
      rw [bind_ok (attempt_ok (peek_cons ..))]
      obtain ⟨p, ty⟩ := t
      cases ty with
      | Str i => exact absurd ⟨[_], i, ts, rfl, p, rfl⟩ h
      | _ => exact ⟨_, rfl⟩

/-- One identifier token. -/
def IdTok (ts : List (Token F)) (s : String) : Prop := ∃ p, ts = [kw p s]

theorem reads_identifier (E : Env F) : Reads (parseIdentifier E) IdTok where
  nonempty := by rintro a x ⟨p, rfl⟩; simp
  ok := by
    rintro a x pre rest ⟨p, rfl⟩
    rw [parseIdentifier, List.cons_append, bind_ok (attempt_ok (peek_cons ..))]
    show (M.attempt next >>= fun _ => _) _ = _
    rw [bind_ok (attempt_ok (next_cons ..))]; rfl
  fail := by
    intro pre ts h
    rw [parseIdentifier]
    cases ts with
    | nil => rw [bind_ok (attempt_err (peek_nil ..))]; exact ⟨_, rfl⟩
    | cons t ts =>
      rw [bind_ok (attempt_ok (peek_cons ..))]
      obtain ⟨p, ty⟩ := t
      cases ty with
      | Identifier i => exact absurd ⟨[_], i, ts, rfl, p, rfl⟩ h
      | _ => exact ⟨_, rfl⟩

theorem reads_float (E : Env F) : Reads (parseFloat E) (NumTok E) where
  nonempty := by rintro a x ⟨p, rfl | ⟨i, rfl, _⟩⟩ <;> simp
  ok := by
    rintro a x pre rest ⟨p, rfl | ⟨i, rfl, rfl⟩⟩
    · rw [parseFloat, List.cons_append, bind_ok (attempt_ok (peek_cons ..))]
      show (next >>= fun _ => _) _ = _
      rw [bind_ok (next_cons ..)]; rfl
    · rw [parseFloat, List.cons_append, bind_ok (attempt_ok (peek_cons ..))]
      show (next >>= fun _ => _) _ = _
      rw [bind_ok (next_cons ..)]; rfl
  fail := by
    intro pre ts h
    rw [parseFloat]
    cases ts with
    | nil => rw [bind_ok (attempt_err (peek_nil ..))]; exact ⟨_, rfl⟩
    | cons t ts =>
      rw [bind_ok (attempt_ok (peek_cons ..))]
      obtain ⟨p, ty⟩ := t
      cases ty with
      | Int i => exact absurd ⟨[_], _, ts, rfl, p, .inr ⟨i, rfl, rfl⟩⟩ h
      | Float f => exact absurd ⟨[_], _, ts, rfl, p, .inl rfl⟩ h
      | _ => exact ⟨_, rfl⟩

theorem reads_bool (E : Env F) : Reads (parseBool E) BoolTok where
  nonempty := by rintro a x ⟨p, rfl⟩; simp
  ok := by
    rintro a x pre rest ⟨p, rfl⟩
    rw [parseBool, List.cons_append, bind_ok (attempt_ok (peek_cons ..))]
    cases x with
    | true =>
      show (if "true" = "true" then _ else _ : PM F Bool) _ = _
      rw [if_pos rfl, bind_ok (next_cons ..)]; rfl
    | false =>
      show (if "false" = "true" then _ else if "false" = "false" then _ else _ : PM F Bool) _ = _
      rw [if_neg (by decide), if_pos rfl, bind_ok (next_cons ..)]; rfl
  fail := by
    intro pre ts h
    rw [parseBool]
    cases ts with
    | nil => rw [bind_ok (attempt_err (peek_nil ..))]; exact ⟨_, rfl⟩
    | cons t ts =>
      rw [bind_ok (attempt_ok (peek_cons ..))]
      obtain ⟨p, ty⟩ := t
      cases ty with
      | Str s =>
        have h1 : s ≠ "true" := by
          rintro rfl; exact h ⟨[_], true, ts, rfl, p, rfl⟩
        have h2 : s ≠ "false" := by
          rintro rfl; exact h ⟨[_], false, ts, rfl, p, rfl⟩
        show ∃ m, (if s = "true" then _ else if s = "false" then _ else _ : PM F Bool) _ = _
        rw [if_neg h1, if_neg h2]
        exact ⟨_, rfl⟩
      | _ => exact ⟨_, rfl⟩

/-! ### Repetition -/

section
variable {T : Type} {parser : PM F T} {R : List (Token F) → T → Prop}

theorem many_append {α τ : Type} {R : List τ → α → Prop} {a b : List τ} {xs ys : List α}
    (ha : Many R a xs) (hb : Many R b ys) : Many R (a ++ b) (xs ++ ys) := by
  induction ha with
  | nil => exact hb
  | cons a b' x xs h _ ih => rw [List.append_assoc]; exact .cons _ _ _ _ h ih

theorem many_snoc {α τ : Type} {R : List τ → α → Prop} {a b : List τ} {xs : List α} {x : α}
    (ha : Many R a xs) (hb : R b x) : Many R (a ++ b) (xs ++ [x]) := by
  have : Many R b [x] := by simpa using Many.cons b [] x [] hb .nil
  exact many_append ha this

/-- The longest run of items at the start of the tokens. -/
theorem many_split (hR : ∀ a x, R a x → a ≠ []) (n : Nat) : ∀ ts : List (Token F), ts.length ≤ n →
    ∃ a xs rest, ts = a ++ rest ∧ Many R a xs ∧ ¬ ∃ b x c, rest = b ++ c ∧ R b x := by
  induction n using Nat.strongRecOn with
  | ind n IH =>
  intro ts hn
  by_cases h : ∃ a x rest, ts = a ++ rest ∧ R a x
  · obtain ⟨a, x, rest, rfl, hx⟩ := h
    have ha := hR a x hx
    have : a.length ≠ 0 := by simpa using ha
    simp only [List.length_append] at hn
    obtain ⟨b, xs, rest', rfl, hm, hf⟩ := IH rest.length (by omega) rest (Nat.le_refl _)
    exact ⟨a ++ b, x :: xs, rest', by simp, .cons _ _ _ _ hx hm, hf⟩
  · exact ⟨[], [], ts, rfl, .nil, h⟩

theorem many_length (hR : ∀ a x, R a x → a ≠ []) {a : List (Token F)} {xs : List T}
    (h : Many R a xs) : xs.length ≤ a.length := by
  induction h with
  | nil => simp
  | cons a b x xs h _ ih =>
    have : a.length ≠ 0 := by simpa using hR a x h
    simp; omega

theorem parseManyLoop_run (hp : Reads parser R) (name : String) {a : List (Token F)} {xs : List T}
    (hm : Many R a xs) : ∀ (fuel : Nat) (acc : List T) (pre rest : List (Token F)),
    parseManyLoop parser name (fuel + xs.length) acc (PS pre (a ++ rest)) =
      parseManyLoop parser name fuel (acc ++ xs) (PS (pre ++ a) rest) := by
  induction hm with
  | nil => intros; simp
  | cons a b x xs h _ ih =>
    intro fuel acc pre rest
    rw [List.length_cons, ← Nat.add_assoc, parseManyLoop, List.append_assoc,
      bind_ok (attempt_ok (hp.ok a x pre (b ++ rest) h))]
    refine (ih fuel (acc ++ [x]) (pre ++ a) rest).trans ?_
    simp

theorem parseManyLoop_stop (hp : Reads parser R) (name : String) (fuel : Nat) (acc : List T)
    (pre rest : List (Token F)) (hr : ¬ ∃ b x c, rest = b ++ c ∧ R b x) :
    (acc ≠ [] → parseManyLoop parser name (fuel + 1) acc (PS pre rest) = (.ok acc, PS pre rest)) ∧
    (acc = [] → ∃ m, parseManyLoop parser name (fuel + 1) acc (PS pre rest) =
      (.err (.Str m), PS pre rest)) := by
  obtain ⟨e, he⟩ := hp.fail pre rest hr
  constructor
  · intro hne
    rw [parseManyLoop, bind_ok (attempt_err he)]
    show (if acc = [] then _ else _ : PM F (List T)) _ = _
    rw [if_neg hne]; rfl
  · intro hne
    rw [parseManyLoop, bind_ok (attempt_err he)]
    show ∃ m, (if acc = [] then _ else _ : PM F (List T)) _ = _
    rw [if_pos hne]
    exact ⟨_, rfl⟩

/-- `parse_many` reads the longest run of items. -/
theorem parseMany_run (hp : Reads parser R) (name : String) {a : List (Token F)} {xs : List T}
    (hm : Many R a xs) (pre rest : List (Token F)) (hr : ¬ ∃ b x c, rest = b ++ c ∧ R b x) :
    (xs ≠ [] → parseMany parser name (PS pre (a ++ rest)) = (.ok xs, PS (pre ++ a) rest)) ∧
    (xs = [] → ∃ m, parseMany parser name (PS pre (a ++ rest)) = (.err (.Str m), PS pre rest)) := by
  have hlen := many_length hp.nonempty hm
  rw [parseMany, bind_ok (M.get_apply _)]
  obtain ⟨k, hk⟩ : ∃ k, (PS pre (a ++ rest)).tokens.length + 1 = (k + 1) + xs.length :=
    ⟨(PS pre (a ++ rest)).tokens.length - xs.length, by simp [PS]; omega⟩
  rw [hk, parseManyLoop_run hp name hm]
  have := parseManyLoop_stop hp name k ([] ++ xs) (pre ++ a) rest hr
  simp only [List.nil_append] at this ⊢
  refine ⟨this.1, fun h => ?_⟩
  obtain ⟨m, hm'⟩ := this.2 h
  refine ⟨m, ?_⟩
  subst h
  cases hm
  simpa using hm'

theorem parseNLoop_ok (E : Env F) (hp : Reads parser R) (n : Nat) (name : String) (si : Nat)
    {a : List (Token F)} {xs : List T} (hm : Many R a xs) : ∀ (acc : List T)
    (pre rest : List (Token F)),
    parseNLoop E parser n name si xs.length acc (PS pre (a ++ rest)) =
      (.ok (acc ++ xs), PS (pre ++ a) rest) := by
  induction hm with
  | nil => intros; simp [parseNLoop, M.pure_apply]
  | cons a b x xs h _ ih =>
    intro acc pre rest
    rw [List.length_cons, parseNLoop, List.append_assoc,
      bind_ok (attempt_ok (hp.ok a x pre (b ++ rest) h))]
    refine (ih (acc ++ [x]) (pre ++ a) rest).trans ?_
    simp

theorem parseNLoop_fail (E : Env F) (hp : Reads parser R) (n : Nat) (name : String)
    {a : List (Token F)} {xs : List T} (hm : Many R a xs) : ∀ (k : Nat) (acc : List T)
    (pre mid rest : List (Token F)), (¬ ∃ b x c, rest = b ++ c ∧ R b x) → k > xs.length →
    ∃ m, parseNLoop E parser n name pre.length k acc (PS (pre ++ mid) (a ++ rest)) =
      (.err (.Str m), PS pre (mid ++ (a ++ rest))) := by
  induction hm with
  | nil =>
    intro k acc pre mid rest hr hk
    obtain ⟨k, rfl⟩ : ∃ j, k = j + 1 := ⟨k - 1, by simp at hk; omega⟩
    obtain ⟨e, he⟩ := hp.fail (pre ++ mid) rest hr
    simp only [List.nil_append]
    rw [parseNLoop, bind_ok (attempt_err he)]
    show ∃ m, (setIndex pre.length >>= fun _ => _) _ = _
    rw [bind_ok (setIndex_PS ..)]
    exact ⟨_, rfl⟩
  | cons a b x xs h _ ih =>
    intro k acc pre mid rest hr hk
    obtain ⟨k, rfl⟩ : ∃ j, k = j + 1 := ⟨k - 1, by simp at hk; omega⟩
    rw [List.append_assoc, parseNLoop, bind_ok (attempt_ok (hp.ok a x _ (b ++ rest) h)),
      List.append_assoc]
    simp only [List.length_cons] at hk
    obtain ⟨m, hm'⟩ := ih k (acc ++ [x]) pre (mid ++ a) rest hr (by omega)
    exact ⟨m, by simpa using hm'⟩

/-- `parse_n` reads exactly `n` items, … -/
theorem parseN_ok (E : Env F) (hp : Reads parser R) (n : Nat) (hn : n > 0) (name : String)
    {a : List (Token F)} {xs : List T} (hm : Many R a xs) (hl : xs.length = n)
    (pre rest : List (Token F)) :
    parseN E parser n name (PS pre (a ++ rest)) = (.ok xs, PS (pre ++ a) rest) := by
  rw [parseN, if_pos hn, bind_ok (getIndex_PS ..)]
  conv => lhs; arg 6; rw [← hl]
  rw [parseNLoop_ok E hp n name _ hm]
  simp

/-- … or fails without moving. -/
theorem parseN_fail (E : Env F) (hp : Reads parser R) (n : Nat) (name : String)
    {a : List (Token F)} {xs : List T} (hm : Many R a xs) (hl : xs.length < n)
    (pre rest : List (Token F)) (hr : ¬ ∃ b x c, rest = b ++ c ∧ R b x) :
    ∃ m, parseN E parser n name (PS pre (a ++ rest)) = (.err (.Str m), PS pre (a ++ rest)) := by
  rw [parseN, if_pos (by omega), bind_ok (getIndex_PS ..)]
  obtain ⟨m, h⟩ := parseNLoop_fail E hp n name hm n [] pre [] rest hr hl
  exact ⟨m, by simpa using h⟩

/-- Exactly `n` items at the start, or fewer than `n` before something else. -/
theorem many_split_n (n : Nat) : ∀ ts : List (Token F),
    (∃ a xs rest, ts = a ++ rest ∧ Many R a xs ∧ xs.length = n) ∨
    (∃ a xs rest, ts = a ++ rest ∧ Many R a xs ∧ xs.length < n ∧
      ¬ ∃ b x c, rest = b ++ c ∧ R b x) := by
  induction n with
  | zero => intro ts; exact .inl ⟨[], [], ts, rfl, .nil, rfl⟩
  | succ n ih =>
    intro ts
    rcases ih ts with ⟨a, xs, rest, rfl, hm, hl⟩ | ⟨a, xs, rest, rfl, hm, hl, hf⟩
    · by_cases h : ∃ b x c, rest = b ++ c ∧ R b x
      · obtain ⟨b, x, c, rfl, hx⟩ := h
        exact .inl ⟨a ++ b, xs ++ [x], c, by simp, many_snoc hm hx, by simp [hl]⟩
      · exact .inr ⟨a, xs, rest, rfl, hm, by omega, h⟩
    · exact .inr ⟨a, xs, rest, rfl, hm, by omega, hf⟩

end

/-! ### Pairs -/

theorem many_two {α τ : Type} {R : List τ → α → Prop} {a : List τ} {xs : List α}
    (h : Many R a xs) (hl : xs.length = 2) :
    ∃ b c x y, a = b ++ c ∧ xs = [x, y] ∧ R b x ∧ R c y := by
  cases h with
  | nil => simp at hl
  | cons b c x xs hx hs =>
    cases hs with
    | nil => simp at hl
    | cons c d y ys hy hs =>
      cases hs with
      | nil => exact ⟨b, c, x, y, by simp, rfl, hx, hy⟩
      | cons => simp at hl

theorem many_of_two {α τ : Type} {R : List τ → α → Prop} {a b : List τ} {x y : α}
    (ha : R a x) (hb : R b y) : Many R (a ++ b) [x, y] := by
  have : Many R (b ++ []) [y] := .cons _ _ _ _ hb .nil
  rw [List.append_nil] at this
  exact .cons _ _ _ _ ha this

theorem numTok_ne {E : Env F} {a : List (Token F)} {x : F} (h : NumTok E a x) : a ≠ [] :=
  (reads_float E).nonempty a x h

theorem pair_fail {E : Env F} {ts : List (Token F)}
    (h : ¬ ∃ a b x y rest, ts = a ++ b ++ rest ∧ NumTok E a x ∧ NumTok E b y) (pre : List (Token F)) :
    ∃ m, parseN E (parseFloat E) 2 "float" (PS pre ts) = (.err (.Str m), PS pre ts) := by
  rcases many_split_n (R := NumTok E) 2 ts with
    ⟨a, xs, rest, rfl, hm, hl⟩ | ⟨a, xs, rest, rfl, hm, hl, hf⟩
  · obtain ⟨b, c, x, y, rfl, rfl, hx, hy⟩ := many_two hm hl
    exact absurd ⟨b, c, x, y, rest, rfl, hx, hy⟩ h
  · exact parseN_fail E (reads_float E) 2 "float" hm hl pre rest hf

theorem reads_point (E : Env F) : Reads (parsePoint2f E) (PointTok E) where
  nonempty := by
    rintro t x ⟨a, b, rfl, ha, hb⟩
    simp [numTok_ne ha]
  ok := by
    rintro t x pre rest ⟨a, b, rfl, ha, hb⟩
    rw [parsePoint2f, bind_ok (parseN_ok E (reads_float E) 2 (by decide) "float"
      (many_of_two ha hb) rfl pre rest), bind_ok (idx_some rfl _), bind_ok (idx_some rfl _)]
    rfl
  fail := by
    intro pre ts h
    have h' : ¬ ∃ a b x y rest, ts = a ++ b ++ rest ∧ NumTok E a x ∧ NumTok E b y := by
      rintro ⟨a, b, x, y, rest, rfl, hx, hy⟩
      exact h ⟨a ++ b, ⟨x, y⟩, rest, rfl, a, b, rfl, hx, hy⟩
    obtain ⟨m, hm⟩ := pair_fail h' pre
    rw [parsePoint2f, bind_err hm]
    exact ⟨_, rfl⟩

theorem reads_vector (E : Env F) : Reads (parseVector2f E) (VectorTok E) where
  nonempty := by
    rintro t x ⟨a, b, rfl, ha, hb⟩
    simp [numTok_ne ha]
  ok := by
    rintro t x pre rest ⟨a, b, rfl, ha, hb⟩
    rw [parseVector2f, bind_ok (parseN_ok E (reads_float E) 2 (by decide) "float"
      (many_of_two ha hb) rfl pre rest), bind_ok (idx_some rfl _), bind_ok (idx_some rfl _)]
    rfl
  fail := by
    intro pre ts h
    have h' : ¬ ∃ a b x y rest, ts = a ++ b ++ rest ∧ NumTok E a x ∧ NumTok E b y := by
      rintro ⟨a, b, x, y, rest, rfl, hx, hy⟩
      exact h ⟨a ++ b, ⟨x, y⟩, rest, rfl, a, b, rfl, hx, hy⟩
    obtain ⟨m, hm⟩ := pair_fail h' pre
    rw [parseVector2f, bind_err hm]
    exact ⟨_, rfl⟩

end Pbrt.Proof
