import Verif.Proof.ParseDir
import Verif.Spec.Reports

/-!
# Symbolic execution of the parser: what is reported
-/

namespace Pbrt.Proof
open Pbrt.Spec

variable {F : Type}

theorem debug_shown (E : Env F) (t : TokenType F) : t.debug E = shown E t := by cases t <;> rfl

/-! ### How far the parameters reach -/

section
variable {T : Type} {parser : PM F T} {R : List (Token F) → T → Prop}

/-- The first tokens `n` have been read. -/
def Past (n : Nat) {α : Type} (r : Res ParserError α × Parser F) : Prop := n ≤ r.2.index

theorem past_bind {α β : Type} {x : PM F α} {f : α → PM F β} {s : Parser F} {n : Nat}
    (h : Past n (x s)) (hf : ∀ a s', n ≤ s'.index → Past n (f a s')) : Past n ((x >>= f) s) := by
  rcases hx : x s with ⟨r, s'⟩
  rw [hx] at h
  cases r with
  | ok a => rw [bind_ok hx]; exact hf a s' h
  | err e => rw [bind_err hx]; exact h
  | panic => simp only [M.bind_apply, hx]; exact h
  | diverge => simp only [M.bind_apply, hx]; exact h

theorem parseList_past (E : Env F) (hp : Reads parser R) (hs : Starts R) (name : String) (q : Pos)
    {vs : List (Token F)} {xs : List T} (hm : Many R vs xs) (pre w : List (Token F)) :
    Past (pre.length + 1 + vs.length)
      (parseList E parser name (PS pre (⟨q, .LBracket⟩ :: (vs ++ w)))) := by
  obtain ⟨vs2, xs2, rest, rfl, hm2, hf⟩ := many_split hp.nonempty _ w (Nat.le_refl _)
  have hma := many_append hm hm2
  by_cases hb : xs ++ xs2 = [] ∨ ∀ t, rest.head? = some t → t.ty ≠ .RBracket
  · obtain ⟨m, h⟩ := parseList_unclosed E hp name (p := q) hma pre rest hf hb
    rw [List.cons_append, List.append_assoc] at h
    rw [h]
    simp [Past, PS]; omega
  · simp only [not_or] at hb
    obtain ⟨hne, hb⟩ := hb
    obtain ⟨q', rest', rfl⟩ : ∃ q rest', rest = ⟨q, .RBracket⟩ :: rest' := by
      cases rest with
      | nil => exact absurd (by simp) hb
      | cons t ts =>
        obtain ⟨p, ty⟩ := t
        by_cases hty : ty = .RBracket
        · subst hty; exact ⟨p, ts, rfl⟩
        · exact absurd (fun t ht => by simp at ht; subst ht; exact hty) hb
    have h := parseList_ok E hp hs name (ts := ⟨q, .LBracket⟩ :: (vs ++ vs2) ++ [⟨q', .RBracket⟩])
      ⟨hne, q, q', vs ++ vs2, rfl, hma⟩ pre rest'
    simp only [List.cons_append, List.append_assoc, List.nil_append] at h
    rw [h]
    simp [Past, PS]; omega

theorem parseListOfN_past (E : Env F) (hp : Reads parser R) (n : Nat) (hn : n > 0)
    (name : String) (q : Pos) {vs : List (Token F)} {xs : List T} (hm : Many R vs xs)
    (hl : xs.length = n) (pre w : List (Token F)) :
    Past (pre.length + 1 + vs.length)
      (parseListOfN E parser n name (PS pre (⟨q, .LBracket⟩ :: (vs ++ w)))) := by
  by_cases hb : ∀ t, w.head? = some t → t.ty ≠ .RBracket
  · obtain ⟨m, h⟩ := parseListOfN_unclosed E hp n hn name (p := q) hm hl pre w hb
    rw [List.cons_append] at h
    rw [h]
    simp [Past, PS]; omega
  · obtain ⟨q', rest', rfl⟩ : ∃ q rest', w = ⟨q, .RBracket⟩ :: rest' := by
      cases w with
      | nil => exact absurd (by simp) hb
      | cons t ts =>
        obtain ⟨p, ty⟩ := t
        by_cases hty : ty = .RBracket
        · subst hty; exact ⟨p, ts, rfl⟩
        · exact absurd (fun t ht => by simp at ht; subst ht; exact hty) hb
    have hne : xs ≠ [] := by rintro rfl; simp at hl; omega
    have h := parseListOfN_ok E hp n hn name (ts := ⟨q, .LBracket⟩ :: vs ++ [⟨q', .RBracket⟩])
      ⟨hne, q, q', vs, rfl, hm⟩ hl pre rest'
    simp only [List.cons_append, List.append_assoc, List.nil_append] at h
    rw [h]
    simp [Past, PS]; omega

theorem parseListOfN_past0 (E : Env F) (hp : Reads parser R) (n : Nat) (hn : n > 0)
    (name : String) (q : Pos) (pre w : List (Token F)) :
    Past (pre.length + 1) (parseListOfN E parser n name (PS pre (⟨q, .LBracket⟩ :: w))) := by
  rcases parseListOfN_cases E hp n hn name pre (⟨q, .LBracket⟩ :: w) with
    ⟨a, xs, rest, h1, h2, hl, h3⟩ | ⟨a, rest, m, h1, h2, h3⟩
  · rw [h3]
    obtain ⟨_, p, q, vs, rfl, _⟩ := h2
    simp [Past, PS]
  · rw [h2]
    rcases h3 with ⟨rfl, h⟩ | ⟨p, rfl, _⟩ | ⟨p, vs, xs, rfl, _⟩
    · rw [List.nil_append] at h1
      subst h1
      exact absurd rfl (h _ rfl)
    · simp [Past, PS]
    · simp [Past, PS]

end

theorem past_pure {α : Type} {n : Nat} {a : α} {s : Parser F} (h : n ≤ s.index) :
    Past n ((pure a : PM F α) s) := h

theorem past_idx {α β : Type} {n : Nat} {v : List α} {i : Nat} {f : α → PM F β} {s : Parser F}
    (h : n ≤ s.index) (hf : ∀ a s', n ≤ s'.index → Past n (f a s')) :
    Past n ((idx v i >>= f) s) := by
  refine past_bind ?_ hf
  unfold idx
  cases v[i]? <;> exact h

theorem valueParser_past (E : Env F) {ty : String} {vs : List (Token F)} (hv : Unclosed E ty vs)
    (q : Pos) (pre w : List (Token F)) :
    Past (pre.length + 1 + vs.length) (valueParser E ty (PS pre (⟨q, .LBracket⟩ :: (vs ++ w)))) := by
  cases hv with
  | ints vs l hm =>
    simp only [valueParser, if_true]
    refine past_bind ?_ fun _ _ h => past_pure h
    rw [parseOneOrList_list]
    exact parseList_past E (reads_int E) starts_int _ q hm pre w
  | floats vs l hm =>
    simp only [valueParser, String.reduceEq, if_true, if_false]
    refine past_bind ?_ fun _ _ h => past_pure h
    rw [parseOneOrList_list]
    exact parseList_past E (reads_float E) (starts_num E) _ q hm pre w
  | point2s vs l hm =>
    simp only [valueParser, String.reduceEq, if_true, if_false]
    refine past_bind ?_ fun _ _ h => past_pure h
    exact parseList_past E (reads_point E) (starts_point E) _ q hm pre w
  | vector2s vs l hm =>
    simp only [valueParser, String.reduceEq, if_true, if_false]
    refine past_bind ?_ fun _ _ h => past_pure h
    exact parseList_past E (reads_vector E) (starts_vector E) _ q hm pre w
  | bools vs l hm =>
    simp only [valueParser, String.reduceEq, if_true, if_false]
    refine past_bind ?_ fun _ _ h => past_pure h
    rw [parseOneOrList_list]
    exact parseList_past E (reads_bool E) starts_bool _ q hm pre w
  | strings vs l hm =>
    simp only [valueParser, String.reduceEq, if_true, if_false]
    refine past_bind ?_ fun _ _ h => past_pure h
    rw [parseOneOrList_list]
    exact parseList_past E (reads_string E) starts_str _ q hm pre w
  | samples vs l hm =>
    simp only [valueParser, String.reduceEq, if_true, if_false]
    refine past_bind ?_ fun _ _ h => past_pure h
    rw [parseSpectrum_list]
    refine past_bind (parseList_past E (reads_float E) (starts_num E) _ q hm pre w) fun l s h => ?_
    refine ite_app (P := Past _) (fun _ => h) fun ho => ?_
    obtain ⟨ps, hps⟩ := pairs_of_even (l.length / 2) l (by omega)
    rw [bind_ok (chunks2_pairs hps s)]
    exact h
  | fixedNone ty ht =>
    simp only [List.mem_cons, List.not_mem_nil, or_false] at ht
    rcases ht with rfl | rfl | rfl <;>
      simp only [valueParser, String.reduceEq, if_true, if_false]
    · exact past_bind (parseListOfN_past0 E (reads_float E) 3 (by omega) _ q pre w) fun _ _ h =>
        past_idx h fun _ _ h => past_idx h fun _ _ h => past_idx h fun _ _ h => past_pure h
    · exact past_bind (parseListOfN_past0 E (reads_float E) 3 (by omega) _ q pre w) fun _ _ h =>
        past_idx h fun _ _ h => past_idx h fun _ _ h => past_idx h fun _ _ h => past_pure h
    · exact past_bind (parseListOfN_past0 E (reads_float E) 2 (by omega) _ q pre w) fun _ _ h =>
        past_idx h fun _ _ h => past_idx h fun _ _ h => past_pure h
  | rgb vs r g b hm =>
    simp only [valueParser, String.reduceEq, if_true, if_false]
    exact past_bind (parseListOfN_past E (reads_float E) 3 (by omega) _ q hm rfl pre w) fun _ _ h =>
      past_idx h fun _ _ h => past_idx h fun _ _ h => past_idx h fun _ _ h => past_pure h
  | xyz vs r g b hm =>
    simp only [valueParser, String.reduceEq, if_true, if_false]
    exact past_bind (parseListOfN_past E (reads_float E) 3 (by omega) _ q hm rfl pre w) fun _ _ h =>
      past_idx h fun _ _ h => past_idx h fun _ _ h => past_idx h fun _ _ h => past_pure h
  | blackbody vs t s hm =>
    simp only [valueParser, String.reduceEq, if_true, if_false]
    exact past_bind (parseListOfN_past E (reads_float E) 2 (by omega) _ q hm rfl pre w) fun _ _ h =>
      past_idx h fun _ _ h => past_idx h fun _ _ h => past_pure h

theorem parseParamList_past (E : Env F) {d : List (Token F)} (hd : Dropped E d) (ps : ParamSet F)
    (pre w : List (Token F)) :
    Past (pre.length + d.length) (parseParamList E ps (PS pre (d ++ w))) := by
  cases hd with
  | none =>
    rcases parseParamList_out E ps pre w with ⟨a, p, rest, h1, h2, h3⟩ | ⟨a, rest, e, h1, h2, h3⟩
    · rw [List.nil_append, h3]; simp [Past, PS]
    · rw [List.nil_append, h2]; simp [Past, PS]
  | noValue p decl ty name hd ht =>
    rw [List.cons_append, List.nil_append, parseParamList_known E ps pre w p hd ht]
    refine past_bind ?_ fun _ _ h => past_pure h
    rcases valueParser_out E ht (pre ++ [⟨p, .Str decl⟩]) w with ⟨a, v, rest, h1, h2, h3⟩ |
      ⟨a, rest, e, h1, h2, h3⟩
    · rw [h3]; simp [Past, PS]
    · rw [h2]; simp [Past, PS]
  | unclosed p q decl ty name vs hd hv =>
    rw [List.cons_append, parseParamList_known E ps pre _ p hd (unclosed_type hv)]
    refine past_bind ?_ fun _ _ h => past_pure h
    have := valueParser_past E hv q (pre ++ [⟨p, .Str decl⟩]) w
    simp only [Past, List.length_append, List.length_cons, List.length_nil, List.cons_append] at this ⊢
    omega
  | oddSpectrum p decl name vs l hd hv hl =>
    rw [List.cons_append, parseParamList_known E ps pre _ p hd (by simp [paramTypes])]
    obtain ⟨e, he⟩ := valueParser_odd E hv hl (pre ++ [⟨p, .Str decl⟩]) w
    rw [bind_err he]
    simp [Past, PS]

theorem paramListsLoop_past (E : Env F) : ∀ (fuel : Nat) (ps : ParamSet F) (pre ts : List (Token F)),
    Past pre.length (paramListsLoop E fuel ps (PS pre ts))
  | 0, _, _, _ => Nat.le_refl _
  | fuel + 1, ps, pre, ts => by
    rw [paramListsLoop]
    rcases parseParamList_out E ps pre ts with ⟨a, p, rest, h1, h2, h3⟩ | ⟨a, rest, e, h1, h2, h3⟩
    · rw [bind_ok (attempt_ok h3)]
      have := paramListsLoop_past E fuel (addParam ps p) (pre ++ a) rest
      simp only [Past, List.length_append] at this ⊢
      omega
    · rw [bind_ok (attempt_err h2)]
      show Past _ ((pure ps : PM F _) _)
      simp [past_pure, PS]

theorem paramListsLoop_reach (E : Env F) {d : List (Token F)} (hd : Dropped E d) (fuel : Nat)
    (ps : ParamSet F) (pre w : List (Token F)) :
    Past (pre.length + d.length) (paramListsLoop E (fuel + 1) ps (PS pre (d ++ w))) := by
  rw [paramListsLoop]
  have hp := parseParamList_past E hd ps pre w
  rcases parseParamList_out E ps pre (d ++ w) with ⟨a, p, rest, h1, h2, h3⟩ | ⟨a, rest, e, h1, h2, h3⟩
  · rw [h3] at hp
    rw [bind_ok (attempt_ok h3)]
    have := paramListsLoop_past E fuel (addParam ps p) (pre ++ a) rest
    simp only [Past, PS] at hp this ⊢
    omega
  · rw [h2] at hp
    rw [bind_ok (attempt_err h2)]
    exact hp

theorem parseParamLists_reach (E : Env F) {b : List (Token F)} {ps : List (SParam F)}
    (h : ParamsText E b ps) (pre w : List (Token F)) :
    Past (pre.length + b.length) (parseParamLists E .default (PS pre (b ++ w))) := by
  obtain ⟨a, d, rfl, hm, hd⟩ := h
  have hlen := many_len hm
  rw [parseParamLists, bind_ok (M.get_apply _)]
  obtain ⟨k, hk⟩ : ∃ k, (PS pre (a ++ d ++ w)).tokens.length + 1 = (k + 1) + ps.length :=
    ⟨(PS pre (a ++ d ++ w)).tokens.length - ps.length, by simp [PS]; omega⟩
  rw [hk, ← collect_nil, List.append_assoc, paramListsLoop_run E hm]
  have := paramListsLoop_reach E hd k (collect ([] ++ ps)) (pre ++ a) w
  simp only [List.length_append] at this ⊢
  rw [← Nat.add_assoc]
  exact this

/-- The parameters are everything that can be taken for parameters. -/
theorem parseParamLists_longest (E : Env F) {b w : List (Token F)}
    (h : Longest (fun b => ∃ ps, ParamsText E b ps) (b ++ w) b) (pre : List (Token F)) :
    ∃ xs, parseParamLists E .default (PS pre (b ++ w)) = (.ok (collect xs), PS (pre ++ b) w) := by
  obtain ⟨_, ⟨ps, hps⟩, hmax⟩ := h
  obtain ⟨a, xs, rest, h1, h2, h3⟩ := parseParamLists_out E pre (b ++ w)
  have hle := hmax a ⟨rest, h1.symm⟩ ⟨xs, h2⟩
  have hge := parseParamLists_reach E hps pre w
  rw [h3] at hge
  simp only [Past, PS, List.length_append] at hge
  obtain ⟨rfl, rfl⟩ := List.append_inj h1 (by omega)
  exact ⟨xs, h3⟩

theorem longest_exists (P : List (Token F) → Prop) (h0 : P []) (ts : List (Token F)) :
    ∃ a w, ts = a ++ w ∧ Longest P (a ++ w) a := by
  classical
  have key : ∀ n, n ≤ ts.length → (∀ b, b <+: ts → P b → b.length ≤ n) →
      ∃ a w, ts = a ++ w ∧ Longest P (a ++ w) a := by
    intro n
    induction n with
    | zero =>
      intro _ h
      exact ⟨[], ts, rfl, List.nil_prefix, h0, fun b hb hP => by simpa using h b hb hP⟩
    | succ n ih =>
      intro hn h
      by_cases hP : P (ts.take (n + 1))
      · refine ⟨ts.take (n + 1), ts.drop (n + 1), by simp, ?_⟩
        rw [List.take_append_drop]
        refine ⟨List.take_prefix _ _, hP, fun b hb hb' => ?_⟩
        have := h b hb hb'
        rw [List.length_take]
        omega
      · refine ih (by omega) fun b hb hb' => ?_
        have := h b hb hb'
        refine Nat.lt_succ_iff.1 (Nat.lt_of_le_of_ne this fun he => hP ?_)
        rw [show n + 1 = b.length from he.symm, ← List.prefix_iff_eq_take.1 hb]
        exact hb'
  exact key ts.length (Nat.le_refl _) fun b hb _ => hb.length_le

/-! ### The arguments of a keyword -/

section
variable {T : Type}

theorem string_ok (E : Env F) {t : Token F} (ht : IsStr t) (pre w : List (Token F)) :
    ∃ x, parseString E (PS pre (t :: w)) = (.ok x, PS (pre ++ [t]) w) := by
  obtain ⟨p, ty⟩ := t
  obtain ⟨x, rfl⟩ := ht
  exact ⟨x, (reads_string E).ok [⟨p, .Str x⟩] x pre w ⟨p, rfl⟩⟩

theorem string_nil (E : Env F) (pre : List (Token F)) :
    parseString E (PS pre []) =
      (.err (.Str "parse_string(): EOF while processing string"), PS pre []) := by
  rw [parseString, bind_ok (attempt_err (peek_nil ..))]
  rfl

theorem string_not (E : Env F) {t : Token F} (ht : ¬ IsStr t) (pre w : List (Token F)) :
    parseString E (PS pre (t :: w)) =
      (.err (.Str (t.pos.fmt ++ " parse_string(): expected string but got " ++ shown E t.ty)),
        PS pre (t :: w)) := by
  rw [parseString, bind_ok (attempt_ok (peek_cons ..)), ← debug_shown]
  obtain ⟨p, ty⟩ := t
  cases ty with
  | Str x => exact absurd ⟨x, rfl⟩ ht
  | _ => rfl

theorem identifier_ok (E : Env F) {t : Token F} (ht : IsId t) (pre w : List (Token F)) :
    ∃ x, parseIdentifier E (PS pre (t :: w)) = (.ok x, PS (pre ++ [t]) w) := by
  obtain ⟨p, x, rfl⟩ := ht
  exact ⟨x, (reads_identifier E).ok [kw p x] x pre w ⟨p, rfl⟩⟩

theorem identifier_nil (E : Env F) (pre : List (Token F)) :
    parseIdentifier E (PS pre []) =
      (.err (.Str "parse_identifier(): EOF while processing identifier"), PS pre []) := by
  rw [parseIdentifier, bind_ok (attempt_err (peek_nil ..))]
  rfl

theorem identifier_not (E : Env F) {t : Token F} (ht : ¬ IsId t) (pre w : List (Token F)) :
    parseIdentifier E (PS pre (t :: w)) =
      (.err (.Str (t.pos.fmt ++ " parse_identifier(): expected identifier but got " ++
        shown E t.ty)), PS pre (t :: w)) := by
  rw [parseIdentifier, bind_ok (attempt_ok (peek_cons ..)), ← debug_shown]
  obtain ⟨p, ty⟩ := t
  cases ty with
  | Identifier x => exact absurd ⟨p, x, rfl⟩ ht
  | _ => rfl

theorem float_nil (E : Env F) (pre : List (Token F)) :
    parseFloats E (PS pre []) =
      (.err (.Str (floatsHeader ++ "parse_float(): EOF while parsing float")), PS pre []) := by
  have h : parseFloat E (PS pre []) =
      (.err (.Str "parse_float(): EOF while parsing float"), PS pre []) := by
    rw [parseFloat, bind_ok (attempt_err (peek_nil ..))]
    rfl
  rw [parseFloats, parseMany, bind_ok (M.get_apply _), parseManyLoop, bind_ok (attempt_err h)]
  rfl

theorem float_not (E : Env F) {t : Token F} (ht : ¬ IsNumber t) (pre w : List (Token F)) :
    parseFloats E (PS pre (t :: w)) =
      (.err (.Str (floatsHeader ++ (t.pos.fmt ++ " parse_float(): expected float but got " ++
        shown E t.ty))), PS pre (t :: w)) := by
  have h : parseFloat E (PS pre (t :: w)) =
      (.err (.Str (t.pos.fmt ++ " parse_float(): expected float but got " ++ shown E t.ty)),
        PS pre (t :: w)) := by
    rw [parseFloat, bind_ok (attempt_ok (peek_cons ..)), ← debug_shown]
    obtain ⟨p, ty⟩ := t
    cases ty with
    | Int x => exact absurd (.inl ⟨x, rfl⟩) ht
    | Float x => exact absurd (.inr ⟨x, rfl⟩) ht
    | _ => rfl
  rw [parseFloats, parseMany, bind_ok (M.get_apply _), parseManyLoop, bind_ok (attempt_err h)]
  rfl

theorem many_numbers (E : Env F) : ∀ (a : List (Token F)), (∀ t ∈ a, IsNumber t) →
    ∃ l, Many (NumTok E) a l ∧ l.length = a.length
  | [], _ => ⟨[], .nil, rfl⟩
  | ⟨p, ty⟩ :: a, h => by
    obtain ⟨l, h1, h2⟩ := many_numbers E a fun t ht => h t (by simp [ht])
    rcases h ⟨p, ty⟩ (by simp) with ⟨i, rfl⟩ | ⟨f, rfl⟩
    · exact ⟨_ :: l, .cons [_] a _ l ⟨p, .inr ⟨i, rfl, rfl⟩⟩ h1, by simp [h2]⟩
    · exact ⟨_ :: l, .cons [_] a _ l ⟨p, .inl rfl⟩ h1, by simp [h2]⟩

theorem floats_ok (E : Env F) {a w : List (Token F)} (ha : ∀ t ∈ a, IsNumber t) (h0 : a ≠ [])
    (hw : ∀ t, w.head? = some t → ¬ IsNumber t) (pre : List (Token F)) :
    ∃ l, l.length = a.length ∧ parseFloats E (PS pre (a ++ w)) = (.ok l, PS (pre ++ a) w) := by
  obtain ⟨l, hm, hl⟩ := many_numbers E a ha
  refine ⟨l, hl, (parseMany_run (reads_float E) "float" hm pre w ?_).1 ?_⟩
  · rintro ⟨b, x, c, rfl, p, rfl | ⟨i, rfl, -⟩⟩
    · exact hw _ rfl (.inr ⟨x, rfl⟩)
    · exact hw _ rfl (.inl ⟨i, rfl⟩)
  · rintro rfl
    exact h0 (by simpa using hl.symm)

/-- `n` strings are read, and then `fin`. -/
def Strs (E : Env F) (fin : PM F T → Prop) : Nat → PM F T → Prop
  | 0, b => fin b
  | n + 1, b => ∃ f, b = (parseString E >>= f) ∧ ∀ x, Strs E fin n (f x)

theorem strs_ok (E : Env F) {fin : PM F T → Prop} : ∀ {n : Nat} {b : PM F T}, Strs E fin n b →
    ∀ (a : List (Token F)), (∀ t ∈ a, IsStr t) → a.length = n → ∀ pre w,
    ∃ b', fin b' ∧ b (PS pre (a ++ w)) = b' (PS (pre ++ a) w)
  | 0, b, hb, a, _, hl, pre, w => by
    obtain rfl := List.eq_nil_of_length_eq_zero hl
    exact ⟨b, hb, by simp⟩
  | n + 1, b, hb, [], _, hl, _, _ => by simp at hl
  | n + 1, b, hb, t :: a, ha, hl, pre, w => by
    obtain ⟨f, rfl, hf⟩ := hb
    obtain ⟨x, hx⟩ := string_ok E (ha t (by simp)) pre (a ++ w)
    obtain ⟨b', h1, h2⟩ := strs_ok E (hf x) a (fun t ht => ha t (by simp [ht])) (by simpa using hl)
      (pre ++ [t]) w
    refine ⟨b', h1, ?_⟩
    rw [List.cons_append, bind_ok hx, h2]
    simp

theorem strs_nil (E : Env F) {fin : PM F T → Prop} : ∀ {n : Nat} {b : PM F T}, Strs E fin n b →
    ∀ (a : List (Token F)), (∀ t ∈ a, IsStr t) → a.length < n → ∀ pre,
    ∃ s', b (PS pre a) = (.err (.Str "parse_string(): EOF while processing string"), s')
  | 0, b, hb, a, _, hl, pre => by omega
  | n + 1, b, hb, [], _, hl, pre => by
    obtain ⟨f, rfl, hf⟩ := hb
    rw [bind_err (string_nil E pre)]
    exact ⟨_, rfl⟩
  | n + 1, b, hb, t :: a, ha, hl, pre => by
    obtain ⟨f, rfl, hf⟩ := hb
    obtain ⟨x, hx⟩ := string_ok E (ha t (by simp)) pre a
    rw [bind_ok hx]
    exact strs_nil E (hf x) a (fun t ht => ha t (by simp [ht])) (by simpa using hl) _

theorem strs_not (E : Env F) {fin : PM F T → Prop} {t : Token F} (ht : ¬ IsStr t) :
    ∀ {n : Nat} {b : PM F T}, Strs E fin n b →
    ∀ (a : List (Token F)), (∀ t ∈ a, IsStr t) → a.length < n → ∀ pre w,
    ∃ s', b (PS pre (a ++ t :: w)) =
      (.err (.Str (t.pos.fmt ++ " parse_string(): expected string but got " ++ shown E t.ty)), s')
  | 0, b, hb, a, _, hl, pre, w => by omega
  | n + 1, b, hb, [], _, hl, pre, w => by
    obtain ⟨f, rfl, hf⟩ := hb
    rw [List.nil_append, bind_err (string_not E ht pre w)]
    exact ⟨_, rfl⟩
  | n + 1, b, hb, t :: a, ha, hl, pre, w => by
    obtain ⟨f, rfl, hf⟩ := hb
    obtain ⟨x, hx⟩ := string_ok E (ha t (by simp)) pre (a ++ _ :: w)
    rw [List.cons_append, bind_ok hx]
    exact strs_not E ht (hf x) a (fun t ht => ha t (by simp [ht])) (by simpa using hl) _ w

/-- The code behind a keyword, by the kind of its arguments -/
structure ArgBody (E : Env F) (p : Pos) (s : String) (b : PM F T) : Prop where
  none : s = "Identity" → ∃ d, b = pure d
  numbers : ∀ n, (s, n) ∈ numKeys → ∃ (k : List F → PM F T) (f : List F → T),
    b = numsReader E n (wrongCount p s n) k ∧ ∀ l st, l.length = n → k l st = (.ok (f l), st)
  name : ∀ n, (s, n) ∈ nameKeys → Strs E (fun b => ∃ d, b = pure d) n b
  active : s = "ActiveTransform" → ∃ k : String → T, b = (parseIdentifier E >>= fun x => pure (k x))
  params : ∀ n, (s, n) ∈ paramKeys →
    Strs E (fun b => ∃ k : ParamSet F → T, b = (parseParamLists E .default >>= fun ps => pure (k ps))) n b

theorem nameKeys_one {s : String} {n : Nat} (h : (s, n) ∈ nameKeys) : n = 1 := by
  simp only [nameKeys, List.mem_cons, List.not_mem_nil, or_false, Prod.mk.injEq] at h
  omega

theorem numKeys_pos {s : String} {n : Nat} (h : (s, n) ∈ numKeys) : n > 0 := by
  simp only [numKeys, List.mem_cons, List.not_mem_nil, or_false, Prod.mk.injEq] at h
  omega

theorem body_args {E : Env F} {p : Pos} {s : String} {b : PM F T} (hb : ArgBody E p s b)
    {v w : List (Token F)} (h : Args E s v w) (pre : List (Token F)) :
    ∃ a d, v = a ++ w ∧ b (PS pre v) = (.ok d, PS (pre ++ a) w) := by
  cases h with
  | none v =>
    obtain ⟨d, rfl⟩ := hb.none rfl
    exact ⟨[], d, rfl, by simp [M.pure_apply]⟩
  | numbers s n a w hs ha hn hw =>
    obtain ⟨k, f, rfl, hk⟩ := hb.numbers n hs
    have := numKeys_pos hs
    obtain ⟨l, hl, hr⟩ := floats_ok E ha (by rintro rfl; simp at hn; omega) hw pre
    refine ⟨a, f l, rfl, ?_⟩
    rw [numsReader, bind_ok hr, if_neg (by omega), hk l _ (by omega)]
  | name s n t w hs ht =>
    have h := hb.name n hs
    obtain rfl := nameKeys_one hs
    obtain ⟨_, ⟨d, rfl⟩, h2⟩ := strs_ok E h [t] (by simpa using ht) rfl pre w
    exact ⟨[t], d, rfl, h2⟩
  | active t w ht =>
    obtain ⟨k, rfl⟩ := hb.active rfl
    obtain ⟨x, hx⟩ := identifier_ok E ht pre w
    exact ⟨[t], k x, rfl, by rw [bind_ok hx]; rfl⟩
  | params s n a b w hs ha hn hl =>
    obtain ⟨_, ⟨k, rfl⟩, h2⟩ := strs_ok E (hb.params n hs) a ha hn pre (b ++ w)
    obtain ⟨xs, hx⟩ := parseParamLists_longest E hl (pre ++ a)
    refine ⟨a ++ b, k (collect xs), by simp, ?_⟩
    rw [h2, bind_ok hx]
    simp [M.pure_apply]

theorem body_fault {E : Env F} {p : Pos} {s : String} {b : PM F T} (hb : ArgBody E p s b)
    {v : List (Token F)} {m : String} (h : ArgsFault E p s v m) (pre : List (Token F)) :
    ∃ s', b (PS pre v) = (.err (.Str m), s') := by
  have strs : ∀ n, (s, n) ∈ nameKeys ++ paramKeys → ∃ fin, Strs E fin n b := by
    intro n hs
    rcases List.mem_append.1 hs with hs | hs
    · exact ⟨_, hb.name n hs⟩
    · exact ⟨_, hb.params n hs⟩
  cases h with
  | noNumber s n hs =>
    obtain ⟨k, f, rfl, hk⟩ := hb.numbers n hs
    rw [numsReader, bind_err (float_nil E pre)]
    exact ⟨_, rfl⟩
  | notNumber s n t w hs ht =>
    obtain ⟨k, f, rfl, hk⟩ := hb.numbers n hs
    rw [numsReader, bind_err (float_not E ht pre w)]
    exact ⟨_, rfl⟩
  | count s n a w hs ha h0 hn hw =>
    obtain ⟨k, f, rfl, hk⟩ := hb.numbers n hs
    obtain ⟨l, hl, hr⟩ := floats_ok E ha h0 hw pre
    rw [numsReader, bind_ok hr, if_pos (by omega), hl]
    exact ⟨_, rfl⟩
  | noString s n a hs ha hn =>
    obtain ⟨fin, hf⟩ := strs n hs
    exact strs_nil E hf v ha hn pre
  | notString s n a t w hs ha hn ht =>
    obtain ⟨fin, hf⟩ := strs n hs
    exact strs_not E ht hf a ha hn pre w
  | noIdentifier =>
    obtain ⟨k, rfl⟩ := hb.active rfl
    rw [bind_err (identifier_nil E pre)]
    exact ⟨_, rfl⟩
  | notIdentifier t w ht =>
    obtain ⟨k, rfl⟩ := hb.active rfl
    rw [bind_err (identifier_not E ht pre w)]
    exact ⟨_, rfl⟩

end

/-! ### There are arguments, or there is a fault -/

theorem take_while {P : Token F → Prop} : ∀ ts : List (Token F), ∃ a w, ts = a ++ w ∧
    (∀ t ∈ a, P t) ∧ ∀ t, w.head? = some t → ¬ P t
  | [] => ⟨[], [], rfl, by simp, by simp⟩
  | t :: ts => by
    by_cases h : P t
    · obtain ⟨a, w, rfl, h1, h2⟩ := take_while (P := P) ts
      refine ⟨t :: a, w, rfl, fun u hu => ?_, h2⟩
      rcases List.mem_cons.1 hu with rfl | hu
      · exact h
      · exact h1 u hu
    · exact ⟨[], t :: ts, rfl, by simp, by rintro _ ⟨⟩; exact h⟩

theorem args_total (E : Env F) (p : Pos) {s : String} (hs : s ∈ preKeys ∨ s ∈ dirKeys)
    (hb : s ∉ blockKeys) (v : List (Token F)) :
    (∃ w, Args E s v w) ∨ ∃ m, ArgsFault E p s v m := by
  have hk : s = "Identity" ∨ s = "ActiveTransform" ∨ (∃ n, (s, n) ∈ numKeys) ∨
      ∃ n, (s, n) ∈ nameKeys ++ paramKeys := by
    simp only [preKeys, dirKeys, blockKeys, List.mem_cons, List.not_mem_nil, or_false] at hs hb
    simp only [numKeys, nameKeys, paramKeys, List.cons_append, List.nil_append, List.mem_cons,
      List.not_mem_nil, or_false, Prod.mk.injEq, exists_or, exists_and_left, exists_eq, and_true]
    grind
  rcases hk with rfl | rfl | ⟨n, hs⟩ | ⟨n, hs⟩
  · exact .inl ⟨v, .none v⟩
  · cases v with
    | nil => exact .inr ⟨_, .noIdentifier⟩
    | cons t w =>
      by_cases ht : IsId t
      · exact .inl ⟨w, .active t w ht⟩
      · exact .inr ⟨_, .notIdentifier t w ht⟩
  · obtain ⟨a, w, rfl, ha, hw⟩ := take_while (P := IsNumber) v
    by_cases hn : a.length = n
    · exact .inl ⟨w, .numbers s n a w hs ha hn hw⟩
    · by_cases h0 : a = []
      · subst h0
        cases w with
        | nil => exact .inr ⟨_, .noNumber s n hs⟩
        | cons t w => exact .inr ⟨_, .notNumber s n t w hs (hw t rfl)⟩
      · exact .inr ⟨_, .count s n a w hs ha h0 hn hw⟩
  · have hsplit : ∃ a w, v = a ++ w ∧ (∀ t ∈ a, IsStr t) ∧ (a.length = n ∨
        a.length < n ∧ ∀ t, w.head? = some t → ¬ IsStr t) := by
      obtain ⟨a, w, rfl, ha, hw⟩ := take_while (P := IsStr) v
      by_cases hl : a.length < n
      · exact ⟨a, w, rfl, ha, .inr ⟨hl, hw⟩⟩
      · refine ⟨a.take n, a.drop n ++ w, by rw [← List.append_assoc, List.take_append_drop], fun t ht =>
          ha t (List.mem_of_mem_take ht), .inl ?_⟩
        rw [List.length_take]; omega
    obtain ⟨a, w, rfl, ha, hl | ⟨hl, hw⟩⟩ := hsplit
    · rcases List.mem_append.1 hs with hs | hs
      · obtain rfl := nameKeys_one hs
        obtain ⟨t, rfl⟩ := List.length_eq_one_iff.1 hl
        exact .inl ⟨w, .name s _ t w hs (ha t (by simp))⟩
      · obtain ⟨b, w, rfl, hb⟩ := longest_exists (fun b => ∃ ps, ParamsText E b ps)
          ⟨[], [], [], rfl, .nil, .none⟩ w
        exact .inl ⟨w, .params s n a b w hs ha hl hb⟩
    · cases w with
      | nil => rw [List.append_nil]; exact .inr ⟨_, .noString s n a hs ha hl⟩
      | cons t w => exact .inr ⟨_, .notString s n a t w hs ha hl (hw t rfl)⟩

/-! ### The keywords -/

theorem preBody_body (E : Env F) (p : Pos) {s : String} (hs : s ∈ preKeys) :
    ArgBody E p s (preBody E p s) where
  none := by rintro rfl; exact ⟨_, rfl⟩
  numbers := by
    intro n hn
    simp only [numKeys, List.mem_cons, List.not_mem_nil, or_false, Prod.mk.injEq] at hn
    rcases hn with ⟨rfl, rfl⟩ | ⟨rfl, rfl⟩ | ⟨rfl, rfl⟩ | ⟨rfl, rfl⟩ | ⟨rfl, rfl⟩ | ⟨rfl, rfl⟩ |
      ⟨rfl, rfl⟩ <;>
      simp only [preBody, String.reduceEq, if_true, if_false]
    · exact ⟨_, (fun l => match l with | [x, y, z] => .Translate p ⟨x, y, z⟩ | _ => .Identity p), rfl,
        fun l st h => by obtain ⟨a, b, c, rfl⟩ := length3 h; rfl⟩
    · exact ⟨_, (fun l => match l with | [x, y, z] => .Scale p ⟨x, y, z⟩ | _ => .Identity p), rfl,
        fun l st h => by obtain ⟨a, b, c, rfl⟩ := length3 h; rfl⟩
    · exact ⟨_, (fun l => match l with | [t, x, y, z] => .Rotate p t ⟨x, y, z⟩ | _ => .Identity p), rfl,
        fun l st h => by obtain ⟨a, b, c, d, rfl⟩ := length4 h; rfl⟩
    · exact ⟨_, (fun l => match l with
          | [a, b, c, d, e, f, g, i, j] => .LookAt p ⟨a, b, c, d, e, f, g, i, j⟩ | _ => .Identity p),
        rfl, fun l st h => by obtain ⟨a, b, c, d, e, f, g, i, j, rfl⟩ := length9 h; rfl⟩
    · exact ⟨_, (fun l => match l with
          | [a, b, c, d, e, f, g, i, j] => .Transform p ⟨a, b, c, d, e, f, g, i, j⟩ | _ => .Identity p),
        rfl, fun l st h => by obtain ⟨a, b, c, d, e, f, g, i, j, rfl⟩ := length9 h; rfl⟩
    · exact ⟨_, (fun l => match l with
          | [a, b, c, d, e, f, g, i, j] => .ConcatTransform p ⟨a, b, c, d, e, f, g, i, j⟩
          | _ => .Identity p),
        rfl, fun l st h => by obtain ⟨a, b, c, d, e, f, g, i, j, rfl⟩ := length9 h; rfl⟩
    · exact ⟨_, (fun l => match l with | [x, y] => .TransformTimes p x y | _ => .Identity p), rfl,
        fun l st h => by match l, h with | [a, b], _ => rfl⟩
  name := by
    intro n hn
    simp only [nameKeys, List.mem_cons, List.not_mem_nil, or_false, Prod.mk.injEq] at hn
    rcases hn with ⟨rfl, rfl⟩ | ⟨rfl, rfl⟩ | ⟨rfl, rfl⟩ <;>
      simp only [preBody, String.reduceEq, if_true, if_false] <;>
      exact ⟨_, rfl, fun x => ⟨_, rfl⟩⟩
  active := by rintro rfl; exact ⟨_, rfl⟩
  params := by
    intro n hn
    simp only [paramKeys, List.mem_cons, List.not_mem_nil, or_false, Prod.mk.injEq] at hn
    rcases hn with ⟨rfl, rfl⟩ | ⟨rfl, rfl⟩ | ⟨rfl, rfl⟩ | ⟨rfl, rfl⟩ | ⟨rfl, rfl⟩ | ⟨rfl, rfl⟩ |
      ⟨rfl, rfl⟩ | ⟨rfl, rfl⟩ | ⟨rfl, rfl⟩ | ⟨rfl, rfl⟩ | ⟨rfl, rfl⟩ <;>
      first
      | exact absurd hs (by decide)
      | simp only [preBody, String.reduceEq, if_true, if_false]
        exact ⟨_, rfl, fun x => ⟨_, rfl⟩⟩

theorem dirBody_body (E : Env F) (fuel : Nat) (p : Pos) {s : String} (hs : s ∈ dirKeys) :
    ArgBody E p s (dirBody E fuel p s) where
  none := by rintro rfl; exact absurd hs (by decide)
  numbers := by
    intro n hn
    simp only [numKeys, List.mem_cons, List.not_mem_nil, or_false, Prod.mk.injEq] at hn
    rcases hn with ⟨rfl, rfl⟩ | ⟨rfl, rfl⟩ | ⟨rfl, rfl⟩ | ⟨rfl, rfl⟩ | ⟨rfl, rfl⟩ | ⟨rfl, rfl⟩ |
      ⟨rfl, rfl⟩ <;> exact absurd hs (by decide)
  name := by
    intro n hn
    simp only [nameKeys, List.mem_cons, List.not_mem_nil, or_false, Prod.mk.injEq] at hn
    rcases hn with ⟨rfl, rfl⟩ | ⟨rfl, rfl⟩ | ⟨rfl, rfl⟩
    · exact absurd hs (by decide)
    · exact absurd hs (by decide)
    · simp only [dirBody, String.reduceEq, if_true, if_false]
      exact ⟨_, rfl, fun x => ⟨_, rfl⟩⟩
  active := by rintro rfl; exact absurd hs (by decide)
  params := by
    intro n hn
    simp only [paramKeys, List.mem_cons, List.not_mem_nil, or_false, Prod.mk.injEq] at hn
    rcases hn with ⟨rfl, rfl⟩ | ⟨rfl, rfl⟩ | ⟨rfl, rfl⟩ | ⟨rfl, rfl⟩ | ⟨rfl, rfl⟩ | ⟨rfl, rfl⟩ |
      ⟨rfl, rfl⟩ | ⟨rfl, rfl⟩ | ⟨rfl, rfl⟩ | ⟨rfl, rfl⟩ | ⟨rfl, rfl⟩ <;>
      first
      | exact absurd hs (by decide)
      | simp only [dirBody, String.reduceEq, if_true, if_false]
        first
        | exact ⟨_, rfl, fun x => ⟨_, rfl⟩⟩
        | exact ⟨_, rfl, fun x => ⟨_, rfl, fun y => ⟨_, rfl, fun z => ⟨_, rfl⟩⟩⟩⟩

/-! ### The loops -/

theorem dirLoop_step (E : Env F) (fuel : Nat) (acc : List (Directive F)) (pre v : List (Token F))
    (p : Pos) {s : String} (he : ¬ IsEnd (F := F) (kw p s)) :
    directivesLoop E (fuel + 2) acc (PS pre (kw p s :: v)) =
      (dirBody E fuel p s >>= fun d => directivesLoop E (fuel + 1) (acc ++ [d]))
        (PS (pre ++ [kw p s]) v) := by
  rw [directivesLoop, bind_ok (peek_cons ..)]
  show (if s = "AttributeEnd" ∨ s = "TransformEnd" ∨ s = "WorldEnd" then _ else _ : PM F _) _ = _
  rw [if_neg fun h => he ⟨p, s, rfl, by simpa using h⟩]
  simp only [M.bind_apply, parseDirective_kw]

theorem dirLoop_end (E : Env F) (fuel : Nat) (acc : List (Directive F)) (pre v : List (Token F))
    {t : Token F} (he : IsEnd t) :
    directivesLoop E (fuel + 1) acc (PS pre (t :: v)) = (.ok acc, PS pre (t :: v)) := by
  obtain ⟨p, s, rfl, hs⟩ := he
  rw [directivesLoop, bind_ok (peek_cons ..)]
  show (if s = "AttributeEnd" ∨ s = "TransformEnd" ∨ s = "WorldEnd" then _ else _ : PM F _) _ = _
  rw [if_pos (by simpa using hs)]
  rfl

theorem dirLoop_notKey (E : Env F) (fuel : Nat) (acc : List (Directive F)) (pre v : List (Token F))
    {t : Token F} (ht : ¬ IsId t) :
    directivesLoop E (fuel + 1) acc (PS pre (t :: v)) =
      (.err (.Str (t.pos.fmt ++ " parse_directives(): expected identifier or block close but got " ++
        shown E t.ty)), PS pre (t :: v)) := by
  rw [directivesLoop, bind_ok (peek_cons ..), ← debug_shown]
  obtain ⟨p, ty⟩ := t
  cases ty with
  | Identifier s => exact absurd ⟨p, s, rfl⟩ ht
  | _ => rfl

theorem dirKeys_end {s : String} (hs : s ∈ dirKeys) (p : Pos) : ¬ IsEnd (F := F) (kw p s) := by
  rintro ⟨q, k, h, hk⟩
  simp only [kw, Token.mk.injEq, TokenType.Identifier.injEq] at h
  rw [← h.2] at hk
  exact dirKeys_not_end hs (by simpa using hk)

theorem dirBody_block (E : Env F) (fuel : Nat) (p : Pos) {s : String} (hs : s ∈ blockKeys) :
    ∃ C : List (Directive F) → Directive F,
      dirBody E fuel p s = (directivesLoop E fuel [] >>= fun l => pure (C l)) := by
  simp only [blockKeys, List.mem_cons, List.not_mem_nil, or_false] at hs
  rcases hs with rfl | rfl | rfl <;> simp only [dirBody, String.reduceEq, if_true, if_false] <;>
    exact ⟨_, rfl⟩

theorem blockKeys_dirKeys {s : String} (hs : s ∈ blockKeys) : s ∈ dirKeys := by
  simp only [blockKeys, List.mem_cons, List.not_mem_nil, or_false] at hs
  rcases hs with rfl | rfl | rfl <;> decide

theorem dirBody_unknown (E : Env F) (fuel : Nat) (p : Pos) {s : String} (hs : s ∉ dirKeys)
    (st : Parser F) :
    dirBody E fuel p s st =
      (.err (.Str (p.fmt ++ " parse_directive(): unknown identifier " ++ s)), st) := by
  simp only [dirKeys, List.mem_cons, List.not_mem_nil, or_false, not_or] at hs
  simp only [dirBody, hs, if_false]
  rfl

theorem preBody_unknown (E : Env F) (p : Pos) {s : String} (hs : s ∉ preKeys) (st : Parser F) :
    preBody E p s st =
      (.err (.Str (p.fmt ++ " parse_predirective(): Unknown predirective: " ++ s)), st) := by
  simp only [preKeys, List.mem_cons, List.not_mem_nil, or_false, not_or] at hs
  simp only [preBody, hs, if_false]
  rfl

theorem body_run {E : Env F} {ts : List (Token F)} {m : String} (h : BodyFault E ts m) :
    ∀ (fuel : Nat) (acc : List (Directive F)) (pre : List (Token F)), fuel ≥ 2 * ts.length + 1 →
    ∃ s', directivesLoop E fuel acc (PS pre ts) = (.err (.Str m), s') := by
  induction h with
  | notKey t w ht =>
    intro fuel acc pre hf
    obtain ⟨k, rfl⟩ : ∃ k, fuel = k + 1 := ⟨fuel - 1, by omega⟩
    exact ⟨_, dirLoop_notKey E k acc pre w ht⟩
  | unknown p s w hs he =>
    intro fuel acc pre hf
    obtain ⟨k, rfl⟩ : ∃ k, fuel = k + 2 := ⟨fuel - 2, by simp at hf; omega⟩
    rw [dirLoop_step E k acc pre w p he, bind_err (dirBody_unknown E k p hs _)]
    exact ⟨_, rfl⟩
  | args p s v m hs h =>
    intro fuel acc pre hf
    obtain ⟨k, rfl⟩ : ∃ k, fuel = k + 2 := ⟨fuel - 2, by simp at hf; omega⟩
    obtain ⟨s', h'⟩ := body_fault (dirBody_body E k p hs) h (pre ++ [kw p s])
    rw [dirLoop_step E k acc pre v p (dirKeys_end hs p), bind_err h']
    exact ⟨_, rfl⟩
  | later p s v w m hs h hw ih =>
    intro fuel acc pre hf
    obtain ⟨k, rfl⟩ : ∃ k, fuel = k + 2 := ⟨fuel - 2, by simp at hf; omega⟩
    obtain ⟨a, d, rfl, h'⟩ := body_args (dirBody_body E k p hs) h (pre ++ [kw p s])
    rw [dirLoop_step E k acc pre _ p (dirKeys_end hs p), bind_ok h']
    exact ih _ _ _ (by simp at hf; omega)
  | nested p s v m hs h ih =>
    intro fuel acc pre hf
    obtain ⟨k, rfl⟩ : ∃ k, fuel = k + 2 := ⟨fuel - 2, by simp at hf; omega⟩
    obtain ⟨s', h'⟩ := ih k [] (pre ++ [kw p s]) (by simp at hf; omega)
    obtain ⟨C, hC⟩ := dirBody_block E k p hs
    rw [dirLoop_step E k acc pre _ p (dirKeys_end (blockKeys_dirKeys hs) p), hC,
      bind_err (bind_err h')]
    exact ⟨_, rfl⟩

theorem body_of_run (E : Env F) : ∀ (fuel : Nat) (acc : List (Directive F))
    (pre ts : List (Token F)) (m : String) (s' : Parser F), fuel ≥ 2 * ts.length + 1 →
    directivesLoop E fuel acc (PS pre ts) = (.err (.Str m), s') → BodyFault E ts m := by
  intro fuel
  induction fuel using Nat.strongRecOn with
  | ind fuel ih =>
  intro acc pre ts m s' hf hr
  cases ts with
  | nil =>
    obtain ⟨k, rfl⟩ : ∃ k, fuel = k + 1 := ⟨fuel - 1, by omega⟩
    rw [directivesLoop, bind_err (peek_nil ..)] at hr
    simp at hr
  | cons t v =>
    simp only [List.length_cons] at hf
    obtain ⟨k, rfl⟩ : ∃ k, fuel = k + 2 := ⟨fuel - 2, by omega⟩
    by_cases ht : IsId t
    · by_cases he : IsEnd t
      · rw [dirLoop_end E _ acc pre v he] at hr
        simp at hr
      · obtain ⟨p, s, rfl⟩ := ht
        rw [dirLoop_step E k acc pre v p he] at hr
        by_cases hs : s ∈ dirKeys
        · by_cases hb : s ∈ blockKeys
          · obtain ⟨C, hC⟩ := dirBody_block E k p hb
            rw [hC] at hr
            refine .nested p s v m hb ?_
            rcases (directives_out E k).2 (pre ++ [kw p s]) v [] (by omega) with
              ⟨a, ds, e, rest, rfl, he, -, h'⟩ | ⟨ds, s2, -, h'⟩ | ⟨m2, s2, h', -⟩
            · have h2 : (directivesLoop E k [] >>= fun l => (pure (C l) : PM F _))
                  (PS (pre ++ [kw p s]) (a ++ e :: rest)) = (.ok (C ([] ++ ds)), _) := bind_ok h'
              rw [bind_ok h2] at hr
              rw [dirLoop_end E _ _ _ rest he] at hr
              simp at hr
            · rw [bind_err (bind_err h')] at hr
              simp at hr
            · rw [bind_err (bind_err h')] at hr
              simp only [Prod.mk.injEq, Res.err.injEq, ParserError.Str.injEq] at hr
              rw [hr.1] at h'
              exact ih k (by omega) _ _ _ _ _ (by omega) h'
          · rcases args_total E p (.inr hs) hb v with ⟨w, h⟩ | ⟨m2, h⟩
            · refine .later p s v w m hs h ?_
              obtain ⟨a, d, rfl, h'⟩ := body_args (dirBody_body E k p hs) h (pre ++ [kw p s])
              rw [bind_ok h'] at hr
              simp only [List.length_append] at hf
              exact ih (k + 1) (by omega) _ _ _ _ _ (by omega) hr
            · obtain ⟨s2, h'⟩ := body_fault (dirBody_body E k p hs) h (pre ++ [kw p s])
              rw [bind_err h'] at hr
              simp only [Prod.mk.injEq, Res.err.injEq, ParserError.Str.injEq] at hr
              rw [← hr.1]
              exact .args p s v m2 hs h
        · rw [bind_err (dirBody_unknown E k p hs _)] at hr
          simp only [Prod.mk.injEq, Res.err.injEq, ParserError.Str.injEq] at hr
          rw [← hr.1]
          exact .unknown p s v hs he
    · rw [dirLoop_notKey E _ acc pre v ht] at hr
      simp only [Prod.mk.injEq, Res.err.injEq, ParserError.Str.injEq] at hr
      rw [← hr.1]
      exact .notKey t v ht

theorem preLoop_step (E : Env F) (fuel : Nat) (acc : List (PreDirective F)) (pre v : List (Token F))
    (p : Pos) {s : String} (he : s ≠ "WorldBegin") :
    predirectivesLoop E (fuel + 1) acc (PS pre (kw p s :: v)) =
      (preBody E p s >>= fun d => predirectivesLoop E fuel (acc ++ [d])) (PS (pre ++ [kw p s]) v) := by
  rw [predirectivesLoop, bind_ok (peek_cons ..)]
  show (if s = "WorldBegin" then _ else _ : PM F _) _ = _
  rw [if_neg he]
  simp only [M.bind_apply, parsePredirective_kw]

theorem preLoop_notKey (E : Env F) (fuel : Nat) (acc : List (PreDirective F))
    (pre v : List (Token F)) {t : Token F} (ht : ¬ IsId t) :
    predirectivesLoop E (fuel + 1) acc (PS pre (t :: v)) =
      (.err (.Str (t.pos.fmt ++ " parse_predirectives(): expected predirective but got " ++
        shown E t.ty)), PS pre (t :: v)) := by
  rw [predirectivesLoop, bind_ok (peek_cons ..), ← debug_shown]
  obtain ⟨p, ty⟩ := t
  cases ty with
  | Identifier s => exact absurd ⟨p, s, rfl⟩ ht
  | _ => rfl

/-- The parser from inside the first loop on -/
def restOf (E : Env F) (fuel fuel2 : Nat) (acc : List (PreDirective F)) :
    PM F (List (PreDirective F) × Directive F) := do
  let pre ← predirectivesLoop E fuel acc
  let world ← parseDirective E fuel2
  pure (pre, world)

theorem preKeys_world {s : String} (hs : s ∈ preKeys) : s ≠ "WorldBegin" := by
  rintro rfl
  exact worldBegin_notin_preKeys hs

theorem preKeys_block {s : String} (hs : s ∈ preKeys) : s ∉ blockKeys := by
  intro hb
  simp only [blockKeys, List.mem_cons, List.not_mem_nil, or_false] at hb
  rcases hb with rfl | rfl | rfl <;> exact absurd hs (by decide)

theorem scene_run {E : Env F} {ts : List (Token F)} {m : String} (h : SceneFault E ts m) :
    ∀ (fuel fuel2 : Nat) (acc : List (PreDirective F)) (pre : List (Token F)), fuel > ts.length →
    fuel2 ≥ 2 * ts.length + 2 →
    ∃ s', restOf E fuel fuel2 acc (PS pre ts) = (.err (.Str m), s') := by
  induction h with
  | notKey t w ht =>
    intro fuel fuel2 acc pre hf hf2
    obtain ⟨k, rfl⟩ : ∃ k, fuel = k + 1 := ⟨fuel - 1, by omega⟩
    rw [restOf, bind_err (preLoop_notKey E k acc pre w ht)]
    exact ⟨_, rfl⟩
  | unknown p s w hs hw =>
    intro fuel fuel2 acc pre hf hf2
    obtain ⟨k, rfl⟩ : ∃ k, fuel = k + 1 := ⟨fuel - 1, by omega⟩
    rw [restOf, bind_err ((preLoop_step E k acc pre w p hw).trans
      (bind_err (preBody_unknown E p hs _)))]
    exact ⟨_, rfl⟩
  | args p s v m hs h =>
    intro fuel fuel2 acc pre hf hf2
    obtain ⟨k, rfl⟩ : ∃ k, fuel = k + 1 := ⟨fuel - 1, by omega⟩
    obtain ⟨s', h'⟩ := body_fault (preBody_body E p hs) h (pre ++ [kw p s])
    rw [restOf, bind_err ((preLoop_step E k acc pre v p (preKeys_world hs)).trans (bind_err h'))]
    exact ⟨_, rfl⟩
  | later p s v w m hs h hw ih =>
    intro fuel fuel2 acc pre hf hf2
    obtain ⟨k, rfl⟩ : ∃ k, fuel = k + 1 := ⟨fuel - 1, by omega⟩
    obtain ⟨a, d, rfl, h'⟩ := body_args (preBody_body E p hs) h (pre ++ [kw p s])
    have hstep := (preLoop_step E k acc pre (a ++ w) p (preKeys_world hs)).trans (bind_ok h')
    simp only [List.length_cons, List.length_append] at hf hf2
    obtain ⟨s', h2⟩ := ih k fuel2 (acc ++ [d]) (pre ++ [kw p s] ++ a) (by omega) (by omega)
    refine ⟨s', ?_⟩
    rw [restOf, M.bind_apply] at h2 ⊢
    rw [hstep]
    exact h2
  | body p v m h =>
    intro fuel fuel2 acc pre hf hf2
    obtain ⟨k, rfl⟩ : ∃ k, fuel = k + 1 := ⟨fuel - 1, by omega⟩
    obtain ⟨k2, rfl⟩ : ∃ k, fuel2 = k + 1 := ⟨fuel2 - 1, by omega⟩
    obtain ⟨s', h'⟩ := body_run h k2 [] (pre ++ [kw p "WorldBegin"]) (by simp at hf2; omega)
    obtain ⟨C, hC⟩ := dirBody_block (F := F) E k2 p (s := "WorldBegin") (by decide)
    rw [restOf, bind_ok (predirectivesLoop_world E k acc pre v p),
      bind_err ((parseDirective_kw E k2 pre v p "WorldBegin").trans (hC ▸ bind_err h'))]
    exact ⟨_, rfl⟩

theorem scene_of_run (E : Env F) (fuel2 : Nat) : ∀ (fuel : Nat) (acc : List (PreDirective F))
    (pre ts : List (Token F)) (m : String) (s' : Parser F), fuel > ts.length →
    fuel2 ≥ 2 * ts.length + 2 →
    restOf E fuel fuel2 acc (PS pre ts) = (.err (.Str m), s') → SceneFault E ts m := by
  intro fuel
  induction fuel with
  | zero => intros; omega
  | succ k ih =>
  intro acc pre ts m s' hf hf2 hr
  cases ts with
  | nil =>
    rw [restOf, bind_err (predirectivesLoop_nil E k acc pre)] at hr
    simp at hr
  | cons t v =>
    simp only [List.length_cons] at hf hf2
    by_cases ht : IsId t
    · obtain ⟨p, s, rfl⟩ := ht
      by_cases hw : s = "WorldBegin"
      · subst hw
        refine .body p v m ?_
        obtain ⟨k2, rfl⟩ : ∃ k, fuel2 = k + 1 := ⟨fuel2 - 1, by omega⟩
        obtain ⟨C, hC⟩ := dirBody_block (F := F) E k2 p (s := "WorldBegin") (by decide)
        rw [restOf, bind_ok (predirectivesLoop_world E k acc pre v p)] at hr
        have hk := parseDirective_kw E k2 pre v p "WorldBegin"
        rw [hC] at hk
        rcases (directives_out E k2).2 (pre ++ [kw p "WorldBegin"]) v [] (by omega) with
          ⟨a, ds, e, rest, rfl, he, -, h'⟩ | ⟨ds, s2, -, h'⟩ | ⟨m2, s2, h', -⟩
        · rw [bind_ok (hk.trans (bind_ok h'))] at hr
          simp [M.pure_apply] at hr
        · rw [bind_err (hk.trans (bind_err h'))] at hr
          simp at hr
        · rw [bind_err (hk.trans (bind_err h'))] at hr
          simp only [Prod.mk.injEq, Res.err.injEq, ParserError.Str.injEq] at hr
          rw [hr.1] at h'
          exact body_of_run E k2 _ _ _ _ _ (by omega) h'
      · have hstep := preLoop_step E k acc pre v p hw
        by_cases hs : s ∈ preKeys
        · rcases args_total E p (.inl hs) (preKeys_block hs) v with ⟨w, h⟩ | ⟨m2, h⟩
          · refine .later p s v w m hs h ?_
            obtain ⟨a, d, rfl, h'⟩ := body_args (preBody_body E p hs) h (pre ++ [kw p s])
            rw [bind_ok h'] at hstep
            simp only [List.length_append] at hf hf2
            refine ih (acc ++ [d]) (pre ++ [kw p s] ++ a) w m s' (by omega) (by omega) ?_
            rw [restOf, M.bind_apply] at hr ⊢
            rw [hstep] at hr
            exact hr
          · obtain ⟨s2, h'⟩ := body_fault (preBody_body E p hs) h (pre ++ [kw p s])
            rw [restOf, bind_err (hstep.trans (bind_err h'))] at hr
            simp only [Prod.mk.injEq, Res.err.injEq, ParserError.Str.injEq] at hr
            rw [← hr.1]
            exact .args p s v m2 hs h
        · rw [restOf, bind_err (hstep.trans (bind_err (preBody_unknown E p hs _)))] at hr
          simp only [Prod.mk.injEq, Res.err.injEq, ParserError.Str.injEq] at hr
          rw [← hr.1]
          exact .unknown p s v hs hw
    · rw [restOf, bind_err (preLoop_notKey E _ acc pre v ht)] at hr
      simp only [Prod.mk.injEq, Res.err.injEq, ParserError.Str.injEq] at hr
      rw [← hr.1]
      exact .notKey t v ht

theorem parseTokens_str_iff (E : Env F) (toks : List (Token F)) (m : String) :
    parseTokens E toks = .err (.Str m) ↔ SceneFault E toks m := by
  have e0 : parseTokensFuel E (parseFuel toks) ⟨toks, 0⟩ =
    restOf E (parseFuel toks) (parseFuel toks) [] (PS [] toks) := rfl
  unfold parseTokens
  rw [e0]
  have h1 : parseFuel toks > toks.length := by unfold parseFuel; omega
  have h2 : parseFuel toks ≥ 2 * toks.length + 2 := by unfold parseFuel; omega
  constructor
  · intro h
    exact scene_of_run E _ _ [] [] toks m _ h1 h2 (Prod.ext h rfl)
  · intro h
    obtain ⟨s', h'⟩ := scene_run h _ _ [] [] h1 h2
    rw [h']

end Pbrt.Proof
