import Verif.Proof.ParseProps
import Verif.Proof.Contents
import Verif.Spec.Reader

/-!
# Splitting accepted token lists
-/

namespace Pbrt.Proof
open Pbrt.Spec

variable {F : Type}

theorem stop_isId {rest : List (Token F)} {t : Token F} (h : Stop (t :: rest)) : IsId t :=
  h t rfl

theorem elem_reads {E : Env F} {T : Type} {parser : PM F T} {R : List (Token F) → T → Prop}
    (h : ElemReader E parser R) : Reads parser R ∧ Starts R := by
  cases h with
  | int => exact ⟨reads_int E, starts_int⟩
  | float => exact ⟨reads_float E, starts_num E⟩
  | string => exact ⟨reads_string E, starts_str⟩
  | bool => exact ⟨reads_bool E, starts_bool⟩
  | point => exact ⟨reads_point E, starts_point E⟩
  | vector => exact ⟨reads_vector E, starts_vector E⟩

/-- One token per item. -/
theorem many_tok {α τ : Type} {R : List τ → α → Prop} {t : τ} {ts : List τ} {x : α} {xs : List α}
    (h : R [t] x) (hs : Many R ts xs) : Many R (t :: ts) (x :: xs) := .cons [t] ts x xs h hs

/-- The first directive of a text is determined by the text. -/
theorem pre_unique (E : Env F) {a b r s : List (Token F)} {d e : PreDirective F}
    (ha : PreText E a d) (hb : PreText E b e) (hr : Stop r) (hs : Stop s) (h : a ++ r = b ++ s) :
    a = b ∧ d = e ∧ r = s := by
  have h1 := parsePredirective_ok E ha [] hr
  have h2 := parsePredirective_ok E hb [] hs
  rw [h, h2] at h1
  injection h1 with h3 h4
  injection h3 with h3
  have hlen : a.length = b.length := by
    have := congrArg Parser.index h4
    simpa [PS] using this.symm
  have := List.append_inj h hlen
  exact ⟨this.1, h3.symm, this.2⟩

/-- Pre-world directives in front can be taken off. -/
theorem accepts_pre (E : Env F) {a z : List (Token F)} {pre0 pre : List (PreDirective F)}
    {w : Directive F} (ha : Many (PreText E) a pre0) (hz : Stop z) :
    Accepts E (a ++ z) pre w ↔ ∃ pre', pre = pre0 ++ pre' ∧ Accepts E z pre' w := by
  constructor
  · induction ha generalizing pre with
    | nil => intro h; exact ⟨pre, rfl, h⟩
    | cons a b d ds h hs ih =>
      rintro ⟨a', p, body, e, rest, es, h1, h2, h3, h4, h5⟩
      cases h2 with
      | nil =>
        obtain ⟨q, s, c, rfl, hk⟩ := preText_head h
        simp only [List.cons_append, List.nil_append, List.cons.injEq] at h1
        injection h1.1 with _ h6
        injection h6 with h6
        subst h6
        exact absurd hk worldBegin_notin_preKeys
      | cons a1 b1 d1 ds1 h6 h7 =>
        have hst1 : Stop (b ++ z) := stop_pres hs hz
        have hst2 : Stop (b1 ++ kw p "WorldBegin" :: body ++ e :: rest) := by
          rw [List.append_assoc]
          exact stop_pres h7 (stop_kw _ _ _)
        obtain ⟨rfl, rfl, h8⟩ := pre_unique E h h6 hst1 hst2 (by simpa using h1)
        obtain ⟨pre', rfl, h9⟩ := ih (pre := ds1) ⟨b1, p, body, e, rest, es, h8, h7, h3, h4, h5⟩
        exact ⟨pre', rfl, h9⟩
  · rintro ⟨pre', rfl, a', p, body, e, rest, es, rfl, h2, h3, h4, h5⟩
    exact ⟨a ++ a', p, body, e, rest, es, by simp, many_append ha h2, h3, h4, h5⟩

/-- A token list that starts with `WorldBegin`. -/
theorem accepts_world (E : Env F) {p : Pos} {z : List (Token F)} {pre : List (PreDirective F)}
    {w : Directive F} : Accepts E (kw p "WorldBegin" :: z) pre w ↔
      pre = [] ∧ ∃ body e rest ds, z = body ++ e :: rest ∧ DirsText E body ds ∧ IsEnd e ∧
        w = .World p ds := by
  constructor
  · rintro ⟨a, q, body, e, rest, ds, h1, h2, h3, h4, h5⟩
    rcases pres_head h2 with rfl | ⟨p', s, b, rfl, hs⟩
    · simp only [List.nil_append, List.cons_append, List.cons.injEq] at h1
      injection h1.1 with h6 _
      subst h6
      generalize hn : ([] : List (Token F)) = a at h2
      cases h2 with
      | nil => exact ⟨rfl, body, e, rest, ds, h1.2, h3, h4, h5⟩
      | cons a b d ds h _ =>
        obtain ⟨_, _, _, rfl, _⟩ := preText_head h
        simp at hn
    · simp only [List.cons_append, List.cons.injEq] at h1
      injection h1.1 with _ h6
      injection h6 with h6
      subst h6
      exact absurd hs worldBegin_notin_preKeys
  · rintro ⟨rfl, body, e, rest, ds, rfl, h3, h4, rfl⟩
    exact ⟨[], p, body, e, rest, ds, rfl, .nil, h3, h4, rfl⟩

theorem paramKeys_noEnd {s : String} {n : Nat} (h : (s, n) ∈ paramKeys) :
    s ∉ ["AttributeEnd", "TransformEnd", "WorldEnd"] ∧ s ≠ "WorldBegin" := by
  simp only [paramKeys, List.mem_cons, List.not_mem_nil, or_false, Prod.mk.injEq] at h
  rcases h with h | h | h | h | h | h | h | h | h | h | h <;>
  · obtain ⟨rfl, _⟩ := h
    decide

/-- In an accepted token list, a keyword that takes parameters and is not behind a block end, nor
    the argument of `ActiveTransform`, is followed by its strings and parameters. -/
theorem accepts_params (E : Env F) {x y : List (Token F)} {p : Pos} {key : String} {n : Nat}
    {pre : List (PreDirective F)} {w : Directive F}
    (h : Accepts E (x ++ kw p key :: y) pre w) (hk : (key, n) ∈ paramKeys)
    (hx : ∀ t ∈ x, ¬ IsEnd t) (hat : ∀ q, x.getLast? ≠ some (kw q "ActiveTransform")) :
    ParamsAt E n y := by
  obtain ⟨a, q, body, e, rest, ds, h1, h2, h3, h4, h5⟩ := h
  obtain ⟨hk1, hk2⟩ := paramKeys_noEnd hk
  rw [List.append_assoc] at h1
  rcases occ_append h1.symm with ⟨y', h6, rfl⟩ | ⟨x', h6, rfl⟩
  · rcases pres_occ h2 x y' p key h6 with ⟨_, h7⟩ | ⟨x', q', rfl⟩
    · exact paramsAt_append (h7 n hk) (stop_kw _ _ _)
    · exact absurd (by simp) (hat q')
  · cases x' with
    | nil =>
      simp only [List.nil_append, List.cons_append, List.cons.injEq] at h6
      injection h6.1 with _ h7
      injection h7 with h7
      exact absurd h7.symm hk2
    | cons t x' =>
      simp only [List.cons_append, List.cons.injEq] at h6
      rcases occ_append h6.2 with ⟨y', h7, rfl⟩ | ⟨x'', h7, rfl⟩
      · exact paramsAt_append ((dirsText_occ h3 x' y' p key h7).2 n hk) (stop_end h4 _)
      · cases x'' with
        | nil =>
          simp only [List.nil_append, List.cons.injEq] at h7
          obtain ⟨p', s', h8, h9⟩ := h4
          rw [h8] at h7
          injection h7.1 with _ h10
          injection h10 with h10
          subst h10
          exact absurd h9 hk1
        | cons t' x'' =>
          simp only [List.cons_append, List.cons.injEq] at h7
          exact absurd h4 (by rw [h7.1]; exact hx _ (by simp))

/-- What `parse_param_lists` leaves behind decides. -/
theorem paramsAt_stop (E : Env F) {n : Nat} {strs y : List (Token F)} (hl : strs.length = n)
    (h : ParamsAt E n (strs ++ y)) (done : List (Token F)) :
    ∃ ts rest ps, y = ts ++ rest ∧ Stop rest ∧
      parseParamLists E .default (PS done y) = (.ok (collect ps), PS (done ++ ts) rest) := by
  obtain ⟨strs', ts, rest, ps, h1, h2, _, h3, h4⟩ := h
  rw [List.append_assoc] at h1
  obtain ⟨rfl, rfl⟩ := List.append_inj h1 (by omega)
  exact ⟨ts, rest, ps, rfl, h4, parseParamLists_ok E h3 done h4⟩

end Pbrt.Proof
