import Verif.Spec.ParamFaults
import Verif.Proof.Reports
import Verif.Proof.ParseParam

/-!
# The messages of the parameter readers
-/

namespace Pbrt.Proof
open Pbrt.Spec

variable {F : Type}

namespace ParamFaults

/-- `parser` reads an item of the kind `R`, or fails without moving and says `X`. -/
structure Says {T : Type} (parser : PM F T) (R : List (Token F) → T → Prop)
    (X : List (Token F) → String → Prop) : Prop where
  read : Reads parser R
  says : ∀ pre ts m, X ts m → parser (PS pre ts) = (.err (.Str m), PS pre ts)
  all : ∀ ts, (∃ a x rest, ts = a ++ rest ∧ R a x) ∨ ∃ m, X ts m

theorem Says.not {T : Type} {parser : PM F T} {R : List (Token F) → T → Prop}
    {X : List (Token F) → String → Prop} (h : Says parser R X) {ts : List (Token F)} {m : String}
    (hx : X ts m) : ¬ ∃ a x rest, ts = a ++ rest ∧ R a x := by
  rintro ⟨a, x, rest, rfl, hr⟩
  have h1 := h.says [] _ _ hx
  rw [h.read.ok a x [] rest hr] at h1
  cases h1

theorem says_int (E : Env F) : Says (parseInt E) IntTok (ItemFault E "int") where
  read := reads_int E
  says := by
    intro pre ts m h
    rw [parseInt]
    generalize hk : "int" = k at h
    cases h with
    | noInt => rw [bind_ok (attempt_err (peek_nil ..))]; rfl
    | int t w h =>
      rw [bind_ok (attempt_ok (peek_cons ..)), ← debug_shown]
      obtain ⟨p, ty⟩ := t
      cases ty with
      | Int i => exact absurd ⟨i, rfl⟩ h
      | _ => rfl
    | first _ _ _ hn => subst hk; simp at hn
    | second _ _ _ _ hn => subst hk; simp at hn
    | _ => exact absurd hk (by decide)
  all := by
    intro ts
    cases ts with
    | nil => exact .inr ⟨_, .noInt⟩
    | cons t w =>
      by_cases h : ∃ i, t.ty = .Int i
      · obtain ⟨p, ty⟩ := t
        obtain ⟨i, rfl⟩ := h
        exact .inl ⟨[_], i, w, rfl, p, rfl⟩
      · exact .inr ⟨_, .int t w h⟩

theorem says_string (E : Env F) : Says (parseString E) StrTok (ItemFault E "string") where
  read := reads_string E
  says := by
    intro pre ts m h
    rw [parseString]
    generalize hk : "string" = k at h
    cases h with
    | noString => rw [bind_ok (attempt_err (peek_nil ..))]; rfl
    | string t w h =>
      rw [bind_ok (attempt_ok (peek_cons ..)), ← debug_shown]
      obtain ⟨p, ty⟩ := t
      cases ty with
      | Str i => exact absurd ⟨i, rfl⟩ h
      | _ => rfl
    | first _ _ _ hn => subst hk; simp at hn
    | second _ _ _ _ hn => subst hk; simp at hn
    | _ => exact absurd hk (by decide)
  all := by
    intro ts
    cases ts with
    | nil => exact .inr ⟨_, .noString⟩
    | cons t w =>
      by_cases h : IsStr t
      · obtain ⟨p, ty⟩ := t
        obtain ⟨i, rfl⟩ := h
        exact .inl ⟨[_], i, w, rfl, p, rfl⟩
      · exact .inr ⟨_, .string t w h⟩

theorem says_float (E : Env F) : Says (parseFloat E) (NumTok E) (ItemFault E "float") where
  read := reads_float E
  says := by
    intro pre ts m h
    rw [parseFloat]
    generalize hk : "float" = k at h
    cases h with
    | noFloat => rw [bind_ok (attempt_err (peek_nil ..))]; rfl
    | float t w h =>
      rw [bind_ok (attempt_ok (peek_cons ..)), ← debug_shown]
      obtain ⟨p, ty⟩ := t
      cases ty with
      | Int i => exact absurd (.inl ⟨i, rfl⟩) h
      | Float i => exact absurd (.inr ⟨i, rfl⟩) h
      | _ => rfl
    | first _ _ _ hn => subst hk; simp at hn
    | second _ _ _ _ hn => subst hk; simp at hn
    | _ => exact absurd hk (by decide)
  all := by
    intro ts
    cases ts with
    | nil => exact .inr ⟨_, .noFloat⟩
    | cons t w =>
      by_cases h : IsNumber t
      · obtain ⟨p, ty⟩ := t
        rcases h with ⟨i, rfl⟩ | ⟨f, rfl⟩
        · exact .inl ⟨[_], E.ofIsize i, w, rfl, p, .inr ⟨i, rfl, rfl⟩⟩
        · exact .inl ⟨[_], f, w, rfl, p, .inl rfl⟩
      · exact .inr ⟨_, .float t w h⟩

theorem says_bool (E : Env F) : Says (parseBool E) BoolTok (ItemFault E "bool") where
  read := reads_bool E
  says := by
    intro pre ts m h
    rw [parseBool]
    generalize hk : "bool" = k at h
    cases h with
    | noBool => rw [bind_ok (attempt_err (peek_nil ..))]; rfl
    | bool t w h =>
      rw [bind_ok (attempt_ok (peek_cons ..)), ← debug_shown]
      obtain ⟨p, ty⟩ := t
      cases ty with
      | Str i => exact absurd ⟨i, rfl⟩ h
      | _ => rfl
    | otherWord p s w h =>
      simp only [List.mem_cons, List.not_mem_nil, or_false, not_or] at h
      rw [bind_ok (attempt_ok (peek_cons ..))]
      show (if s = "true" then _ else if s = "false" then _ else _ : PM F Bool) _ = _
      rw [if_neg h.1, if_neg h.2]
      rfl
    | first _ _ _ hn => subst hk; simp at hn
    | second _ _ _ _ hn => subst hk; simp at hn
    | _ => exact absurd hk (by decide)
  all := by
    intro ts
    cases ts with
    | nil => exact .inr ⟨_, .noBool⟩
    | cons t w =>
      by_cases h : IsStr t
      · obtain ⟨p, ty⟩ := t
        obtain ⟨s, rfl⟩ := h
        by_cases hs : s ∈ ["true", "false"]
        · simp only [List.mem_cons, List.not_mem_nil, or_false] at hs
          rcases hs with rfl | rfl
          · exact .inl ⟨[_], true, w, rfl, p, rfl⟩
          · exact .inl ⟨[_], false, w, rfl, p, rfl⟩
        · exact .inr ⟨_, .otherWord p s w hs⟩
      · exact .inr ⟨_, .bool t w h⟩

/-! ### A fixed number of items -/

theorem isNumber_tok (E : Env F) {t : Token F} (h : IsNumber t) : ∃ x, NumTok E [t] x := by
  obtain ⟨p, ty⟩ := t
  rcases h with ⟨i, rfl⟩ | ⟨f, rfl⟩
  · exact ⟨_, p, .inr ⟨i, rfl, rfl⟩⟩
  · exact ⟨f, p, .inl rfl⟩

theorem many_numbers (E : Env F) {a : List (Token F)} (h : ∀ t ∈ a, IsNumber t) :
    ∃ xs, Many (NumTok E) a xs ∧ xs.length = a.length := by
  induction a with
  | nil => exact ⟨[], .nil, rfl⟩
  | cons t a ih =>
    obtain ⟨x, hx⟩ := isNumber_tok E (h t (by simp))
    obtain ⟨xs, h1, h2⟩ := ih fun t ht => h t (by simp [ht])
    exact ⟨x :: xs, .cons [t] a x xs hx h1, by simp [h2]⟩

theorem numbers_many {E : Env F} {a : List (Token F)} {xs : List F} (h : Many (NumTok E) a xs) :
    (∀ t ∈ a, IsNumber t) ∧ a.length = xs.length := by
  induction h with
  | nil => simp
  | cons a b x xs h _ ih =>
    obtain ⟨p, rfl | ⟨i, rfl, _⟩⟩ := h
    · refine ⟨?_, by simp [ih.2]⟩
      intro t ht
      rcases List.mem_cons.1 ht with rfl | ht
      · exact .inr ⟨x, rfl⟩
      · exact ih.1 t ht
    · refine ⟨?_, by simp [ih.2]⟩
      intro t ht
      rcases List.mem_cons.1 ht with rfl | ht
      · exact .inl ⟨i, rfl⟩
      · exact ih.1 t ht

theorem parseNLoop_says (E : Env F) {T : Type} {parser : PM F T} {R : List (Token F) → T → Prop}
    {X : List (Token F) → String → Prop} (hp : Says parser R X) (n : Nat) (name : String)
    {a : List (Token F)} {xs : List T} (hm : Many R a xs) : ∀ (k : Nat) (acc : List T)
    (pre mid rest : List (Token F)) (m : String), X rest m → k > xs.length →
    parseNLoop E parser n name pre.length k acc (PS (pre ++ mid) (a ++ rest)) =
      (.err (.Str ("parse_" ++ toString n ++ "_" ++ name ++ "s(): error while processing "
        ++ name ++ "s:\n  " ++ ("Str(" ++ E.dbgStr m ++ ")"))), PS pre (mid ++ (a ++ rest))) := by
  induction hm with
  | nil =>
    intro k acc pre mid rest m hr hk
    obtain ⟨k, rfl⟩ : ∃ j, k = j + 1 := ⟨k - 1, by simp at hk; omega⟩
    simp only [List.nil_append]
    rw [parseNLoop, bind_ok (attempt_err (hp.says (pre ++ mid) rest m hr))]
    show (setIndex pre.length >>= fun _ => _) _ = _
    rw [bind_ok (setIndex_PS ..)]
    rfl
  | cons a b x xs h _ ih =>
    intro k acc pre mid rest m hr hk
    obtain ⟨k, rfl⟩ : ∃ j, k = j + 1 := ⟨k - 1, by simp at hk; omega⟩
    rw [List.append_assoc, parseNLoop, bind_ok (attempt_ok (hp.read.ok a x _ (b ++ rest) h)),
      List.append_assoc]
    simp only [List.length_cons] at hk
    have := ih k (acc ++ [x]) pre (mid ++ a) rest m hr (by omega)
    simpa using this

theorem parseN_says (E : Env F) {T : Type} {parser : PM F T} {R : List (Token F) → T → Prop}
    {X : List (Token F) → String → Prop} (hp : Says parser R X) (n : Nat) (name : String)
    {a : List (Token F)} {xs : List T} (hm : Many R a xs) (hl : xs.length < n)
    (pre rest : List (Token F)) {m : String} (hr : X rest m) :
    parseN E parser n name (PS pre (a ++ rest)) =
      (.err (.Str ("parse_" ++ toString n ++ "_" ++ name ++ "s(): error while processing "
        ++ name ++ "s:\n  " ++ ("Str(" ++ E.dbgStr m ++ ")"))), PS pre (a ++ rest)) := by
  rw [parseN, if_pos (by omega), bind_ok (getIndex_PS ..)]
  simpa using parseNLoop_says E hp n name hm n [] pre [] rest m hr hl

theorem header2 : "parse_" ++ toString 2 ++ "_" ++ "float" ++ "s(): error while processing "
    ++ "float" ++ "s:\n  " = "parse_2_floats(): error while processing floats:\n  " := by
  decide

theorem headerN (n : Nat) : "parse_" ++ toString n ++ "_" ++ "float" ++ "s(): error while processing "
    ++ "float" ++ "s:\n  " = "parse_" ++ toString n ++ "_floats(): error while processing floats:\n  " := by
  have : "_" ++ ("float" ++ ("s(): error while processing " ++ ("float" ++ "s:\n  "))) =
    "_floats(): error while processing floats:\n  " := by decide
  simp only [String.append_assoc, this]

theorem closeN (p : String) (n : Nat) : p ++ " parse_list_of_" ++ toString n ++ "_" ++ "float"
    ++ "s(): expected ']' but got " = p ++ " parse_list_of_" ++ toString n ++ "_floats(): expected ']' but got " := by
  have : "_" ++ ("float" ++ "s(): expected ']' but got ") = "_floats(): expected ']' but got " := by decide
  simp only [String.append_assoc, this]

theorem openN (p : String) : p ++ " parse_list_of_n_" ++ "float" ++ "s(): expected '[' but got " =
    p ++ " parse_list_of_n_floats(): expected '[' but got " := by
  have : " parse_list_of_n_" ++ ("float" ++ "s(): expected '[' but got ") =
    " parse_list_of_n_floats(): expected '[' but got " := by decide
  simp only [String.append_assoc, this]

theorem pair_says (E : Env F) (name : String) (hn : name ∈ ["point2f", "vector2f"])
    {ts : List (Token F)} {m : String} (h : ItemFault E name ts m) (pre : List (Token F)) :
    parseN E (parseFloat E) 2 "float" (PS pre ts) = (.err (.Str m), PS pre ts) := by
  cases h with
  | first _ _ m' _ h =>
    have := parseN_says E (says_float E) 2 "float" .nil (by simp) pre ts h
    rw [header2] at this
    exact this
  | second _ t ts m' _ ht h =>
    obtain ⟨x, hx⟩ := isNumber_tok E ht
    have := parseN_says E (says_float E) 2 "float" (.cons [t] [] x [] hx .nil) (by simp) pre ts h
    rw [header2] at this
    exact this
  | _ => simp at hn

theorem pair_all (E : Env F) (name : String) (hn : name ∈ ["point2f", "vector2f"]) (ts : List (Token F)) :
    (∃ a b x y rest, ts = (a ++ b) ++ rest ∧ NumTok E a x ∧ NumTok E b y) ∨
      ∃ m, ItemFault E name ts m := by
  rcases (says_float E).all ts with ⟨a, x, rest, rfl, ha⟩ | ⟨m, h⟩
  · rcases (says_float E).all rest with ⟨b, y, rest, rfl, hb⟩ | ⟨m, h⟩
    · exact .inl ⟨a, b, x, y, rest, by simp, ha, hb⟩
    · have hnum := (numbers_many (.cons a [] x [] ha .nil)).1
      obtain ⟨t, rfl⟩ : ∃ t, a = [t] := by
        obtain ⟨p, rfl | ⟨i, rfl, _⟩⟩ := ha <;> exact ⟨_, rfl⟩
      exact .inr ⟨_, .second name t rest m hn (hnum t (by simp)) h⟩
  · exact .inr ⟨_, .first name ts m hn h⟩

theorem says_point (E : Env F) : Says (parsePoint2f E) (PointTok E) (ItemFault E "point2f") where
  read := reads_point E
  says := by
    intro pre ts m h
    rw [parsePoint2f, bind_err (pair_says E _ (by simp) h pre)]
  all := by
    intro ts
    rcases pair_all E "point2f" (by simp) ts with ⟨a, b, x, y, rest, h, ha, hb⟩ | h
    · exact .inl ⟨a ++ b, ⟨x, y⟩, rest, h, a, b, rfl, ha, hb⟩
    · exact .inr h

theorem says_vector (E : Env F) : Says (parseVector2f E) (VectorTok E) (ItemFault E "vector2f") where
  read := reads_vector E
  says := by
    intro pre ts m h
    rw [parseVector2f, bind_err (pair_says E _ (by simp) h pre)]
  all := by
    intro ts
    rcases pair_all E "vector2f" (by simp) ts with ⟨a, b, x, y, rest, h, ha, hb⟩ | h
    · exact .inl ⟨a ++ b, ⟨x, y⟩, rest, h, a, b, rfl, ha, hb⟩
    · exact .inr h

/-! ### Lists -/

section
variable {T : Type} {parser : PM F T} {R : List (Token F) → T → Prop}

theorem parseMany_says {X : List (Token F) → String → Prop} (hp : Says parser R X) (name : String)
    (pre ts : List (Token F)) {m : String} (h : X ts m) :
    parseMany parser name (PS pre ts) =
      (.err (.Str ("parse_many_" ++ name ++ "s(): error while processing " ++ name ++ "s:\n  " ++ m)),
        PS pre ts) := by
  rw [parseMany, bind_ok (M.get_apply _), parseManyLoop, bind_ok (attempt_err (hp.says pre ts m h))]
  rfl

theorem list_says (E : Env F) (name : String) (hp : Says parser R (ItemFault E name)) {ts : List (Token F)} {m : String}
    (h : ListFault E name R ts m) (pre : List (Token F)) :
    ∃ st, parseList E parser name (PS pre ts) = (.err (.Str m), st) := by
  cases h with
  | eof =>
    rw [parseList, bind_ok (attempt_err (peek_nil ..))]
    exact ⟨_, rfl⟩
  | noOpen t w h =>
    rw [parseList, bind_ok (attempt_ok (peek_cons ..)), ← debug_shown]
    obtain ⟨p, ty⟩ := t
    cases ty with
    | LBracket => exact absurd rfl h
    | _ => exact ⟨_, rfl⟩
  | noItem p w m h =>
    rw [parseList, bind_ok (attempt_ok (peek_cons ..))]
    show ∃ st, (M.attempt next >>= fun _ => _) _ = _
    rw [bind_ok (attempt_ok (next_cons ..)), bind_err (parseMany_says hp name _ _ h)]
    exact ⟨_, rfl⟩
  | unfinished p a xs h hne =>
    rw [parseList, bind_ok (attempt_ok (peek_cons ..))]
    show ∃ st, (M.attempt next >>= fun _ => _) _ = _
    have hno : ¬ ∃ b x c, ([] : List (Token F)) = b ++ c ∧ R b x := by
      rintro ⟨b, x, c, he, hx⟩
      have := hp.read.nonempty b x hx
      simp at he
      exact this he.1
    have := (parseMany_run hp.read name h (pre ++ [⟨p, .LBracket⟩]) [] hno).1 hne
    rw [List.append_nil] at this
    rw [bind_ok (attempt_ok (next_cons ..)), bind_ok this, bind_ok (attempt_err (peek_nil ..))]
    exact ⟨_, rfl⟩
  | noClose p a xs t w m h hne ht hf =>
    rw [parseList, bind_ok (attempt_ok (peek_cons ..))]
    show ∃ st, (M.attempt next >>= fun _ => _) _ = _
    have := (parseMany_run hp.read name h (pre ++ [⟨p, .LBracket⟩]) (t :: w) (hp.not hf)).1 hne
    rw [bind_ok (attempt_ok (next_cons ..)), bind_ok this,
      bind_ok (attempt_ok (peek_cons ..)), ← debug_shown]
    obtain ⟨p', ty⟩ := t
    cases ty with
    | RBracket => exact absurd rfl ht
    | _ => exact ⟨_, rfl⟩

theorem list_all (E : Env F) (name : String) (hp : Says parser R (ItemFault E name)) (ts : List (Token F)) :
    (∃ a xs rest, ts = a ++ rest ∧ Bracketed R a xs) ∨ ∃ m, ListFault E name R ts m := by
  cases ts with
  | nil => exact .inr ⟨_, .eof⟩
  | cons t w =>
    by_cases ht : t.ty = .LBracket
    · obtain ⟨p, ty⟩ := t
      change ty = _ at ht
      subst ht
      obtain ⟨a, xs, rest, rfl, hm, hf⟩ := many_split hp.read.nonempty _ w (Nat.le_refl _)
      obtain ⟨m, hx⟩ := (hp.all rest).resolve_left hf
      by_cases hne : xs = []
      · subst hne
        cases hm
        exact .inr ⟨_, .noItem p _ m hx⟩
      · cases rest with
        | nil => exact .inr ⟨_, by rw [List.append_nil]; exact .unfinished p a xs hm hne⟩
        | cons u rest =>
          by_cases hu : u.ty = .RBracket
          · obtain ⟨q, ty⟩ := u
            change ty = _ at hu
            subst hu
            exact .inl ⟨⟨p, .LBracket⟩ :: a ++ [⟨q, .RBracket⟩], xs, rest, by simp, hne, p, q, a, rfl, hm⟩
          · exact .inr ⟨_, .noClose p a xs u rest m hm hne hu hx⟩
    · exact .inr ⟨_, .noOpen t w ht⟩

theorem one_says (E : Env F) (name : String) (hp : Says parser R (ItemFault E name)) {ts : List (Token F)} {m : String}
    (h : OneFault E name R ts m) (pre : List (Token F)) :
    ∃ st, parseOneOrList E parser name (PS pre ts) = (.err (.Str m), st) := by
  cases h with
  | eof =>
    rw [parseOneOrList, bind_ok (attempt_err (peek_nil ..))]
    exact ⟨_, rfl⟩
  | list p w m h =>
    rw [parseOneOrList_list]
    exact list_says E name hp h pre
  | one t w m ht h =>
    rw [parseOneOrList_one E name _ _ _ ht, bind_err (hp.says pre _ _ h)]
    exact ⟨_, rfl⟩

theorem one_all (E : Env F) (name : String) (hp : Says parser R (ItemFault E name)) (ts : List (Token F)) :
    (∃ a xs rest, ts = a ++ rest ∧ OneOrList R a xs) ∨ ∃ m, OneFault E name R ts m := by
  cases ts with
  | nil => exact .inr ⟨_, .eof⟩
  | cons t w =>
    by_cases ht : t.ty = .LBracket
    · obtain ⟨p, ty⟩ := t
      change ty = _ at ht
      subst ht
      rcases list_all E name hp (⟨p, .LBracket⟩ :: w) with ⟨a, xs, rest, h1, h2⟩ | ⟨m, h⟩
      · exact .inl ⟨a, xs, rest, h1, .inr h2⟩
      · exact .inr ⟨m, .list p w m h⟩
    · rcases hp.all (t :: w) with ⟨a, x, rest, h1, h2⟩ | ⟨m, h⟩
      · exact .inl ⟨a, [x], rest, h1, .inl ⟨x, h2, rfl⟩⟩
      · exact .inr ⟨m, .one t w m ht h⟩

end

theorem fixed_says (E : Env F) (n : Nat) (hn : 0 < n) {ts : List (Token F)} {m : String} (h : FixedFault E n ts m)
    (pre : List (Token F)) :
    ∃ st, parseListOfN E (parseFloat E) n "float" (PS pre ts) = (.err (.Str m), st) := by
  cases h with
  | eof =>
    rw [parseListOfN, bind_ok (attempt_err (peek_nil ..))]
    exact ⟨_, rfl⟩
  | noOpen t w h =>
    rw [parseListOfN, bind_ok (attempt_ok (peek_cons ..)), ← debug_shown]
    obtain ⟨p, ty⟩ := t
    cases ty with
    | LBracket => exact absurd rfl h
    | _ => rw [← openN]; exact ⟨_, rfl⟩
  | few p a w m ha hl h =>
    obtain ⟨xs, hm, hx⟩ := many_numbers E ha
    rw [parseListOfN, bind_ok (attempt_ok (peek_cons ..))]
    show ∃ st, (M.attempt next >>= fun _ => _) _ = _
    have := parseN_says E (says_float E) n "float" hm (by omega) (pre ++ [⟨p, .LBracket⟩]) w h
    rw [headerN] at this
    rw [bind_ok (attempt_ok (next_cons ..)), bind_err this]
    exact ⟨_, rfl⟩
  | unfinished p a ha hl =>
    obtain ⟨xs, hm, hx⟩ := many_numbers E ha
    rw [parseListOfN, bind_ok (attempt_ok (peek_cons ..))]
    show ∃ st, (M.attempt next >>= fun _ => _) _ = _
    have := parseN_ok E (reads_float E) n hn "float" hm (by omega) (pre ++ [⟨p, .LBracket⟩]) []
    rw [List.append_nil] at this
    rw [bind_ok (attempt_ok (next_cons ..)), bind_ok this, bind_ok (attempt_err (peek_nil ..))]
    exact ⟨_, rfl⟩
  | noClose p a t w ha hl ht =>
    obtain ⟨xs, hm, hx⟩ := many_numbers E ha
    rw [parseListOfN, bind_ok (attempt_ok (peek_cons ..))]
    show ∃ st, (M.attempt next >>= fun _ => _) _ = _
    have := parseN_ok E (reads_float E) n hn "float" hm (by omega) (pre ++ [⟨p, .LBracket⟩]) (t :: w)
    rw [bind_ok (attempt_ok (next_cons ..)), bind_ok this,
      bind_ok (attempt_ok (peek_cons ..)), ← debug_shown]
    obtain ⟨p', ty⟩ := t
    cases ty with
    | RBracket => exact absurd rfl ht
    | _ => rw [← closeN]; exact ⟨_, rfl⟩

theorem fixed_all (E : Env F) (n : Nat) (hn : 0 < n) (ts : List (Token F)) :
    (∃ a xs rest, ts = a ++ rest ∧ Bracketed (NumTok E) a xs ∧ xs.length = n) ∨ ∃ m, FixedFault E n ts m := by
  cases ts with
  | nil => exact .inr ⟨_, .eof⟩
  | cons t w =>
    by_cases ht : t.ty = .LBracket
    · obtain ⟨p, ty⟩ := t
      change ty = _ at ht
      subst ht
      rcases many_split_n (R := NumTok E) n w with ⟨a, xs, rest, rfl, hm, hl⟩ | ⟨a, xs, rest, rfl, hm, hl, hf⟩
      · obtain ⟨h1, h2⟩ := numbers_many hm
        cases rest with
        | nil => exact .inr ⟨_, by rw [List.append_nil]; exact .unfinished p a h1 (by omega)⟩
        | cons u rest =>
          by_cases hu : u.ty = .RBracket
          · obtain ⟨q, ty⟩ := u
            change ty = _ at hu
            subst hu
            have hne : xs ≠ [] := by rintro rfl; simp at hl; omega
            exact .inl ⟨⟨p, .LBracket⟩ :: a ++ [⟨q, .RBracket⟩], xs, rest, by simp, ⟨hne, p, q, a, rfl, hm⟩, hl⟩
          · exact .inr ⟨_, .noClose p a u rest h1 (by omega) hu⟩
      · obtain ⟨h1, h2⟩ := numbers_many hm
        obtain ⟨m, hx⟩ := ((says_float E).all rest).resolve_left hf
        exact .inr ⟨_, .few p a rest m h1 (by omega) hx⟩
    · exact .inr ⟨_, .noOpen t w ht⟩

theorem spectrum_says (E : Env F) {ts : List (Token F)} {m : String} (h : SpectrumFault E ts m)
    (pre : List (Token F)) : ∃ st, parseSpectrum E (PS pre ts) = (.err (.Str m), st) := by
  cases h with
  | eof =>
    rw [parseSpectrum, bind_ok (attempt_err (peek_nil ..))]
    exact ⟨_, rfl⟩
  | other t w h hs =>
    rw [parseSpectrum, bind_ok (attempt_ok (peek_cons ..)), ← debug_shown]
    obtain ⟨p, ty⟩ := t
    cases ty with
    | LBracket => exact absurd rfl h
    | Str s => exact absurd ⟨s, rfl⟩ hs
    | _ => exact ⟨_, rfl⟩
  | list p w m h =>
    obtain ⟨st, hst⟩ := list_says E "float" (says_float E) h pre
    rw [parseSpectrum_list, bind_err hst]
    exact ⟨_, rfl⟩
  | odd p q a w ha hl =>
    obtain ⟨xs, hm, hx⟩ := many_numbers E ha
    have hne : xs ≠ [] := by rintro rfl; simp at hx; simp [← hx] at hl
    have hb : Bracketed (NumTok E) (⟨p, .LBracket⟩ :: a ++ [⟨q, .RBracket⟩]) xs := ⟨hne, p, q, a, rfl, hm⟩
    have := parseList_ok E (reads_float E) (starts_num E) "float" hb pre w
    rw [show (⟨p, .LBracket⟩ :: a ++ [⟨q, .RBracket⟩] ++ w : List (Token F)) =
      ⟨p, .LBracket⟩ :: (a ++ ⟨q, .RBracket⟩ :: w) by simp] at this
    rw [parseSpectrum_list, bind_ok this, if_pos (by omega), hx]
    exact ⟨_, rfl⟩

theorem val_says (E : Env F) {ty : String} {ts : List (Token F)} {m : String} (h : ValFault E ty ts m)
    (pre : List (Token F)) : ∃ st, valueParser E ty (PS pre ts) = (.err (.Str m), st) := by
  cases h with
  | ints ts m h =>
    obtain ⟨st, hst⟩ := one_says E "int" (says_int E) h pre
    simp only [valueParser, String.reduceEq, if_true, if_false]
    rw [bind_err hst]; exact ⟨_, rfl⟩
  | floats ts m h =>
    obtain ⟨st, hst⟩ := one_says E "float" (says_float E) h pre
    simp only [valueParser, String.reduceEq, if_true, if_false]
    rw [bind_err hst]; exact ⟨_, rfl⟩
  | point2s ts m h =>
    obtain ⟨st, hst⟩ := list_says E "point2f" (says_point E) h pre
    simp only [valueParser, String.reduceEq, if_true, if_false]
    rw [bind_err hst]; exact ⟨_, rfl⟩
  | vector2s ts m h =>
    obtain ⟨st, hst⟩ := list_says E "vector2f" (says_vector E) h pre
    simp only [valueParser, String.reduceEq, if_true, if_false]
    rw [bind_err hst]; exact ⟨_, rfl⟩
  | bools ts m h =>
    obtain ⟨st, hst⟩ := one_says E "bool" (says_bool E) h pre
    simp only [valueParser, String.reduceEq, if_true, if_false]
    rw [bind_err hst]; exact ⟨_, rfl⟩
  | strings ts m h =>
    obtain ⟨st, hst⟩ := one_says E "string" (says_string E) h pre
    simp only [valueParser, String.reduceEq, if_true, if_false]
    rw [bind_err hst]; exact ⟨_, rfl⟩
  | rgb ts m h =>
    obtain ⟨st, hst⟩ := fixed_says E 3 (by decide) h pre
    simp only [valueParser, String.reduceEq, if_true, if_false]
    rw [bind_err hst]; exact ⟨_, rfl⟩
  | xyz ts m h =>
    obtain ⟨st, hst⟩ := fixed_says E 3 (by decide) h pre
    simp only [valueParser, String.reduceEq, if_true, if_false]
    rw [bind_err hst]; exact ⟨_, rfl⟩
  | blackbody ts m h =>
    obtain ⟨st, hst⟩ := fixed_says E 2 (by decide) h pre
    simp only [valueParser, String.reduceEq, if_true, if_false]
    rw [bind_err hst]; exact ⟨_, rfl⟩
  | spectrum ts m h =>
    obtain ⟨st, hst⟩ := spectrum_says E h pre
    simp only [valueParser, String.reduceEq, if_true, if_false]
    rw [bind_err hst]; exact ⟨_, rfl⟩
  | texture ts m h =>
    simp only [valueParser, String.reduceEq, if_false]
    rw [bind_err ((says_string E).says pre ts m h)]; exact ⟨_, rfl⟩

theorem val_all (E : Env F) {ty : String} (ht : ty ∈ paramTypes) (ts : List (Token F)) :
    (∃ a v rest, ts = a ++ rest ∧ ValText E ty a v) ∨ ∃ m, ValFault E ty ts m := by
  simp only [paramTypes, List.mem_cons, List.not_mem_nil, or_false] at ht
  rcases ht with rfl | rfl | rfl | rfl | rfl | rfl | rfl | rfl | rfl | rfl | rfl
  · rcases one_all E "int" (says_int E) ts with ⟨a, v, r, h1, h2⟩ | ⟨m, h⟩
    · exact .inl ⟨a, _, r, h1, .ints _ _ h2⟩
    · exact .inr ⟨m, .ints _ _ h⟩
  · rcases one_all E "float" (says_float E) ts with ⟨a, v, r, h1, h2⟩ | ⟨m, h⟩
    · exact .inl ⟨a, _, r, h1, .floats _ _ h2⟩
    · exact .inr ⟨m, .floats _ _ h⟩
  · rcases list_all E "point2f" (says_point E) ts with ⟨a, v, r, h1, h2⟩ | ⟨m, h⟩
    · exact .inl ⟨a, _, r, h1, .point2s _ _ h2⟩
    · exact .inr ⟨m, .point2s _ _ h⟩
  · rcases list_all E "vector2f" (says_vector E) ts with ⟨a, v, r, h1, h2⟩ | ⟨m, h⟩
    · exact .inl ⟨a, _, r, h1, .vector2s _ _ h2⟩
    · exact .inr ⟨m, .vector2s _ _ h⟩
  · rcases one_all E "bool" (says_bool E) ts with ⟨a, v, r, h1, h2⟩ | ⟨m, h⟩
    · exact .inl ⟨a, _, r, h1, .bools _ _ h2⟩
    · exact .inr ⟨m, .bools _ _ h⟩
  · rcases one_all E "string" (says_string E) ts with ⟨a, v, r, h1, h2⟩ | ⟨m, h⟩
    · exact .inl ⟨a, _, r, h1, .strings _ _ h2⟩
    · exact .inr ⟨m, .strings _ _ h⟩
  · rcases fixed_all E 3 (by decide) ts with ⟨a, v, r, h1, h2, hl⟩ | ⟨m, h⟩
    · match v, hl with
      | [x, y, z], _ => exact .inl ⟨a, _, r, h1, .rgb _ _ _ _ h2⟩
    · exact .inr ⟨m, .rgb _ _ h⟩
  · rcases fixed_all E 3 (by decide) ts with ⟨a, v, r, h1, h2, hl⟩ | ⟨m, h⟩
    · match v, hl with
      | [x, y, z], _ => exact .inl ⟨a, _, r, h1, .xyz _ _ _ _ h2⟩
    · exact .inr ⟨m, .xyz _ _ h⟩
  · cases ts with
    | nil => exact .inr ⟨_, .spectrum _ _ .eof⟩
    | cons t w =>
      obtain ⟨p, ty⟩ := t
      by_cases hb : ty = .LBracket
      · subst hb
        rcases list_all E "float" (says_float E) (⟨p, .LBracket⟩ :: w) with ⟨a, v, r, h1, h2⟩ | ⟨m, h⟩
        · by_cases he : v.length % 2 = 0
          · obtain ⟨ps, hps⟩ := pairs_of_even (v.length / 2) v (by omega)
            exact .inl ⟨a, _, r, h1, .samples _ _ _ h2 hps⟩
          · obtain ⟨hne, p', q, vs, rfl, hm⟩ := h2
            obtain ⟨hn, hl⟩ := numbers_many hm
            simp only [List.cons_append, List.append_assoc, List.cons.injEq, Token.mk.injEq, and_true,
              List.nil_append] at h1
            obtain ⟨rfl, rfl⟩ := h1
            exact .inr ⟨_, .spectrum _ _ (.odd p q vs r hn (by omega))⟩
        · exact .inr ⟨m, .spectrum _ _ (.list p w m h)⟩
      · by_cases hs : IsStr (⟨p, ty⟩ : Token F)
        · obtain ⟨s, hs⟩ := hs
          change ty = _ at hs
          subst hs
          exact .inl ⟨[_], _, w, rfl, .file _ s ⟨p, rfl⟩⟩
        · exact .inr ⟨_, .spectrum _ _ (.other _ w hb hs)⟩
  · rcases fixed_all E 2 (by decide) ts with ⟨a, v, r, h1, h2, hl⟩ | ⟨m, h⟩
    · match v, hl with
      | [x, y], _ => exact .inl ⟨a, _, r, h1, .blackbody _ _ _ h2⟩
    · exact .inr ⟨m, .blackbody _ _ h⟩
  · rcases (says_string E).all ts with ⟨a, v, r, h1, h2⟩ | ⟨m, h⟩
    · exact .inl ⟨a, _, r, h1, .texture _ _ h2⟩
    · exact .inr ⟨m, .texture _ _ h⟩

theorem valFault_type {E : Env F} {ty : String} {ts : List (Token F)} {m : String} (h : ValFault E ty ts m) :
    ty ∈ paramTypes := by
  cases h <;> simp [paramTypes]

theorem param_says (E : Env F) {ts : List (Token F)} {m : String} (h : ParamFault E ts m) (ps : ParamSet F)
    (pre : List (Token F)) : ∃ st, parseParamList E ps (PS pre ts) = (.err (.Str m), st) := by
  cases h with
  | eof =>
    rw [parseParamList, bind_ok (attempt_err (peek_nil ..))]
    exact ⟨_, rfl⟩
  | noString t w h =>
    rw [parseParamList, bind_ok (attempt_ok (peek_cons ..)), ← debug_shown]
    obtain ⟨p, ty⟩ := t
    cases ty with
    | Str s => exact absurd ⟨s, rfl⟩ h
    | _ => exact ⟨_, rfl⟩
  | words p s w h =>
    rw [parseParamList, bind_ok (attempt_ok (peek_cons ..))]
    have hl : (splitWhitespace E s).length ≠ 2 := by
      intro hl
      match hs : splitWhitespace E s, hl with
      | [a, b], _ => exact h ⟨a, b, (splitWhitespace_two E s a b).1 hs⟩
    show ∃ m, (if (splitWhitespace E s).length ≠ 2 then _ else _ : PM F _) _ = _
    rw [if_pos hl]
    exact ⟨_, rfl⟩
  | type p s w ty name h ht =>
    rw [parseParamList, bind_ok (attempt_ok (peek_cons ..))]
    rw [← splitWhitespace_two] at h
    show ∃ m, (if (splitWhitespace E s).length ≠ 2 then _ else _ : PM F _) _ = _
    rw [h, if_neg (by simp), bind_ok (idx_some (by rfl) _), bind_ok (idx_some (by rfl) _)]
    simp only [paramTypes, List.mem_cons, List.not_mem_nil, or_false, not_or] at ht
    obtain ⟨h1, h2, h3, h4, h5, h6, h7, h8, h9, h10, h11⟩ := ht
    rw [if_neg h1, if_neg h2, if_neg h3, if_neg h4, if_neg h5, if_neg h6, if_neg h7, if_neg h8,
      if_neg h9, if_neg h10, if_neg h11]
    exact ⟨_, rfl⟩
  | value p s w ty name m h hv =>
    obtain ⟨st, hst⟩ := val_says E hv (pre ++ [⟨p, .Str s⟩])
    rw [parseParamList_known E ps pre w p h (valFault_type hv), bind_err hst]
    exact ⟨_, rfl⟩

theorem param_all (E : Env F) (ts : List (Token F)) :
    (∃ a p rest, ts = a ++ rest ∧ ParamText E a p) ∨ ∃ m, ParamFault E ts m := by
  cases ts with
  | nil => exact .inr ⟨_, .eof⟩
  | cons t w =>
    by_cases hs : IsStr t
    · obtain ⟨p, ty⟩ := t
      obtain ⟨s, hs⟩ := hs
      change ty = _ at hs
      subst hs
      by_cases h : ∃ ty name, TwoWords E s ty name
      · obtain ⟨ty, name, h⟩ := h
        by_cases ht : ty ∈ paramTypes
        · rcases val_all E ht w with ⟨a, v, r, rfl, h2⟩ | ⟨m, hm⟩
          · exact .inl ⟨⟨p, .Str s⟩ :: a, ⟨p, name, v⟩, r, rfl, s, ty, a, rfl, h, h2⟩
          · exact .inr ⟨m, .value p s w ty name m h hm⟩
        · exact .inr ⟨_, .type p s w ty name h ht⟩
      · exact .inr ⟨_, .words p s w h⟩
    · exact .inr ⟨_, .noString t w hs⟩

end ParamFaults

end Pbrt.Proof
