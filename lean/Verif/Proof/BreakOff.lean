import Verif.Spec.BreakOff
import Verif.Proof.ParseCut
import Verif.Proof.Reorder
import Verif.Props.Prefix

/-!
# Scenes that break off: proofs
-/

namespace Pbrt.Proof.BreakOff

open Spec

variable {F : Type} {E : Env F}

/-- Where a sequence of items is cut -/
theorem many_cut {α τ : Type} {R : List τ → α → Prop} {a : List τ} {xs : List α} (h : Many R a xs) :
    ∀ u u', a = u ++ u' → ∃ x ys t, u = x ++ t ∧ Many R x ys ∧
      (t = [] ∨ ∃ d t', R (t ++ t') d ∧ t ≠ [] ∧ t' ≠ []) := by
  induction h with
  | nil =>
    intro u u' e
    obtain ⟨rfl, rfl⟩ := List.append_eq_nil_iff.1 e.symm
    exact ⟨[], [], [], rfl, .nil, .inl rfl⟩
  | cons a b d ds h hs ih =>
    intro u u' e
    rcases List.append_eq_append_iff.1 e with ⟨c, rfl, h2⟩ | ⟨c, h1, h2⟩
    · obtain ⟨x, ys, t, rfl, hx, ht⟩ := ih c u' h2
      exact ⟨a ++ x, d :: ys, t, by simp, .cons a x d ys h hx, ht⟩
    · by_cases hc : c = []
      · subst hc
        rw [List.append_nil] at h1
        subst h1
        exact ⟨a, [d], [], by simp, by simpa using Many.cons a [] d [] h .nil, .inl rfl⟩
      · by_cases hu : u = []
        · exact ⟨[], [], [], by simp [hu], .nil, .inl rfl⟩
        · exact ⟨[], [], u, rfl, .nil, .inr ⟨d, c, h1 ▸ h, hu, hc⟩⟩

theorem many_cut_one {α τ : Type} {R : List τ → α → Prop} (hR : ∀ a x, R a x → a.length ≤ 1) {u u' : List τ} {xs : List α}
    (h : Many R (u ++ u') xs) : ∃ ys, Many R u ys := by
  obtain ⟨x, ys, t, rfl, hx, rfl | ⟨d, t', hd, h1, h2⟩⟩ := many_cut h u u' rfl
  · exact ⟨ys, by simpa using hx⟩
  · have := hR _ _ hd
    rw [List.length_append] at this
    have h3 := List.length_pos_iff.2 h1
    have h4 := List.length_pos_iff.2 h2
    omega

theorem int_one {a : List (Token F)} {x : Int} (h : IntTok a x) : a.length ≤ 1 := by
  obtain ⟨p, rfl⟩ := h; simp
theorem str_one {a : List (Token F)} {x : String} (h : StrTok a x) : a.length ≤ 1 := by
  obtain ⟨p, rfl⟩ := h; simp
theorem bool_one {a : List (Token F)} {x : Bool} (h : BoolTok a x) : a.length ≤ 1 := by
  obtain ⟨p, rfl⟩ := h; simp
theorem num_one {a : List (Token F)} {x : F} (h : NumTok E a x) : a.length = 1 := by
  obtain ⟨p, rfl | ⟨i, rfl, _⟩⟩ := h <;> simp
theorem num_number {a : List (Token F)} {x : F} (h : NumTok E a x) : ∀ t ∈ a, IsNumber t := by
  obtain ⟨p, rfl | ⟨i, rfl, _⟩⟩ := h <;> intro t ht <;> simp at ht <;> subst ht
  · exact .inr ⟨x, rfl⟩
  · exact .inl ⟨i, rfl⟩

theorem nums {a : List (Token F)} {l : List F} (h : Many (NumTok E) a l) : (∀ t ∈ a, IsNumber t) ∧ a.length = l.length := by
  induction h with
  | nil => simp
  | cons a b x xs h _ ih =>
    refine ⟨fun t ht => ?_, by simp [num_one h, ih.2]; omega⟩
    rcases List.mem_append.1 ht with ht | ht
    · exact num_number h t ht
    · exact ih.1 t ht

theorem pair_nums {a b : List (Token F)} {x y : F} (h : NumTok E a x) (h' : NumTok E b y) :
    (∀ t ∈ a ++ b, IsNumber t) ∧ (a ++ b).length = 2 := by
  refine ⟨fun t ht => (List.mem_append.1 ht).elim (num_number h t) (num_number h' t), ?_⟩
  rw [List.length_append, num_one h, num_one h']

theorem pairs_nums {α : Type} {R : List (Token F) → α → Prop}
    (hR : ∀ a x, R a x → (∀ t ∈ a, IsNumber t) ∧ a.length = 2) {a : List (Token F)} {l : List α} (h : Many R a l) :
    (∀ t ∈ a, IsNumber t) ∧ a.length = 2 * l.length := by
  induction h with
  | nil => simp
  | cons a b x xs h _ ih =>
    refine ⟨fun t ht => ?_, by simp [(hR _ _ h).2, ih.2]; omega⟩
    rcases List.mem_append.1 ht with ht | ht
    · exact (hR _ _ h).1 t ht
    · exact ih.1 t ht

/-- An unfinished list that is stuck -/
def StuckList (ty : String) (u : List (Token F)) : Prop :=
  ∃ good t bad, u = good ++ t :: bad ∧ (∀ x ∈ u, IsNumber x) ∧ Stuck ty good.length (bad.length + 1)

theorem pairs_cut {α : Type} {R : List (Token F) → α → Prop} {ty : String} (hty : ty ∈ ["point2", "vector2"])
    (hR : ∀ a x, R a x → (∀ t ∈ a, IsNumber t) ∧ a.length = 2) {u u' : List (Token F)} {l : List α}
    (h : Many R (u ++ u') l) : (∃ l', Many R u l') ∨ StuckList ty u := by
  have hall := (pairs_nums hR h).1
  obtain ⟨x, ys, t, rfl, hx, rfl | ⟨d, t', hd, h1, h2⟩⟩ := many_cut h u u' rfl
  · exact .inl ⟨ys, by simpa using hx⟩
  · right
    have := (hR _ _ hd).2
    rw [List.length_append] at this
    have h3 := List.length_pos_iff.2 h1
    have h4 := List.length_pos_iff.2 h2
    obtain ⟨t0, rfl⟩ := List.length_eq_one_iff.1 (show t.length = 1 by omega)
    refine ⟨x, t0, [], rfl, fun y hy => hall y (by simp only [List.mem_append] at hy ⊢; exact .inl hy), .inl ⟨hty, ?_, rfl⟩⟩
    rw [(pairs_nums hR hx).2]
    omega

theorem fixed_cut {ty : String} {u u' : List (Token F)} {l : List F} (h : Many (NumTok E) (u ++ u') l)
    (hty : (ty ∈ ["rgb", "xyz"] ∧ l.length = 3) ∨ (ty = "blackbody" ∧ l.length = 2)) (hu : u ≠ []) (hu' : u' ≠ []) :
    StuckList ty u := by
  obtain ⟨h1, h2⟩ := nums h
  rw [List.length_append] at h2
  have h4 := List.length_pos_iff.2 hu'
  cases u with
  | nil => exact absurd rfl hu
  | cons t bad =>
    refine ⟨[], t, bad, rfl, fun y hy => h1 y (List.mem_append_left _ hy), ?_⟩
    simp only [List.length_cons] at h2
    rcases hty with ⟨hty, hl⟩ | ⟨hty, hl⟩
    · exact .inr (.inl ⟨hty, rfl, by omega, by omega⟩)
    · exact .inr (.inr ⟨hty, rfl, by omega⟩)

theorem unclosed_cut {ty : String} {u u' : List (Token F)} (h : Unclosed E ty (u ++ u')) :
    Unclosed E ty u ∨ StuckList ty u := by
  have fixed : ∀ ty : String, ∀ l : List F, ((ty ∈ ["rgb", "xyz"] ∧ l.length = 3) ∨ (ty = "blackbody" ∧ l.length = 2)) →
      (Many (NumTok E) (u ++ u') l) → (Many (NumTok E) (u ++ u') l → Unclosed E ty (u ++ u')) →
      Unclosed E ty u ∨ StuckList ty u := by
    intro ty l hty hm hun
    by_cases hu : u = []
    · subst hu
      refine .inl (.fixedNone ty ?_)
      rcases hty with ⟨hty, _⟩ | ⟨hty, _⟩ <;> simp at hty ⊢ <;> tauto
    · by_cases hu' : u' = []
      · subst hu'
        rw [List.append_nil] at hun hm
        exact .inl (hun hm)
      · exact .inr (fixed_cut hm hty hu hu')
  generalize he : u ++ u' = ts at h
  cases h with
  | ints _ l h =>
    subst he
    obtain ⟨l', h⟩ := many_cut_one (fun _ _ h => int_one h) h
    exact .inl (.ints _ _ h)
  | floats _ l h =>
    subst he
    obtain ⟨l', h⟩ := many_cut_one (fun _ _ h => (num_one h).le) h
    exact .inl (.floats _ _ h)
  | bools _ l h =>
    subst he
    obtain ⟨l', h⟩ := many_cut_one (fun _ _ h => bool_one h) h
    exact .inl (.bools _ _ h)
  | strings _ l h =>
    subst he
    obtain ⟨l', h⟩ := many_cut_one (fun _ _ h => str_one h) h
    exact .inl (.strings _ _ h)
  | samples _ l h =>
    subst he
    obtain ⟨l', h⟩ := many_cut_one (fun _ _ h => (num_one h).le) h
    exact .inl (.samples _ _ h)
  | point2s _ l h =>
    subst he
    rcases pairs_cut (ty := "point2") (by simp) (fun a x ⟨a1, a2, e, h1, h2⟩ => e ▸ pair_nums h1 h2) h with ⟨l', h⟩ | h
    · exact .inl (.point2s _ _ h)
    · exact .inr h
  | vector2s _ l h =>
    subst he
    rcases pairs_cut (ty := "vector2") (by simp) (fun a x ⟨a1, a2, e, h1, h2⟩ => e ▸ pair_nums h1 h2) h with ⟨l', h⟩ | h
    · exact .inl (.vector2s _ _ h)
    · exact .inr h
  | fixedNone ty h =>
    obtain ⟨rfl, rfl⟩ := List.append_eq_nil_iff.1 he
    exact .inl (.fixedNone ty h)
  | rgb _ r g b h => subst he; exact fixed _ _ (.inl ⟨by simp, by simp⟩) h (.rgb _ _ _ _)
  | xyz _ r g b h => subst he; exact fixed _ _ (.inl ⟨by simp, by simp⟩) h (.xyz _ _ _ _)
  | blackbody _ t s h => subst he; exact fixed _ _ (.inr ⟨rfl, by simp⟩) h (.blackbody _ _ _)

/-- A parameter that is stuck -/
def StuckParam (E : Env F) (d : List (Token F)) : Prop :=
  ∃ q r decl ty name vs, d = ⟨q, .Str decl⟩ :: ⟨r, .LBracket⟩ :: vs ∧ TwoWords E decl ty name ∧ StuckList ty vs

theorem bracketed_inner {α : Type} {R : List (Token F) → α → Prop} {ts : List (Token F)} {xs : List α} (h : Bracketed R ts xs) :
    ∃ p q vs, ts = ⟨p, .LBracket⟩ :: vs ++ [⟨q, .RBracket⟩] ∧ Many R vs xs := h.2

/-- A value is one token or a list in brackets. -/
theorem val_shape {ty : String} {vs : List (Token F)} {v : PVal F} (h : ValText E ty vs v) :
    ty ∈ paramTypes ∧ (vs.length = 1 ∨ ∃ p q ws, vs = ⟨p, .LBracket⟩ :: ws ++ [⟨q, .RBracket⟩] ∧ Unclosed E ty ws) := by
  have one : ∀ {α : Type} {R : List (Token F) → α → Prop} {l : List α} {ts : List (Token F)}, OneOrList R ts l →
      (∀ a x, R a x → a.length = 1) → (∀ ws, Many R ws l → Unclosed E ty ws) →
      (ts.length = 1 ∨ ∃ p q ws, ts = ⟨p, .LBracket⟩ :: ws ++ [⟨q, .RBracket⟩] ∧ Unclosed E ty ws) := by
    intro α R l ts h h1 h2
    rcases h with ⟨x, hx, _⟩ | h
    · exact .inl (h1 _ _ hx)
    · obtain ⟨p, q, ws, e, hm⟩ := h.2
      exact .inr ⟨p, q, ws, e, h2 _ hm⟩
  have br : ∀ {α : Type} {R : List (Token F) → α → Prop} {l : List α} {ts : List (Token F)}, Bracketed R ts l →
      (∀ ws, Many R ws l → Unclosed E ty ws) →
      (ts.length = 1 ∨ ∃ p q ws, ts = ⟨p, .LBracket⟩ :: ws ++ [⟨q, .RBracket⟩] ∧ Unclosed E ty ws) := by
    intro α R l ts h h2
    obtain ⟨p, q, ws, e, hm⟩ := h.2
    exact .inr ⟨p, q, ws, e, h2 _ hm⟩
  cases h with
  | ints _ l h => exact ⟨by decide, one h (by rintro _ _ ⟨p, rfl⟩; rfl) fun ws hm => .ints _ _ hm⟩
  | floats _ l h => exact ⟨by decide, one h (fun _ _ => num_one) fun ws hm => .floats _ _ hm⟩
  | point2s _ l h => exact ⟨by decide, br h fun ws hm => .point2s _ _ hm⟩
  | vector2s _ l h => exact ⟨by decide, br h fun ws hm => .vector2s _ _ hm⟩
  | bools _ l h => exact ⟨by decide, one h (by rintro _ _ ⟨p, rfl⟩; rfl) fun ws hm => .bools _ _ hm⟩
  | strings _ l h => exact ⟨by decide, one h (by rintro _ _ ⟨p, rfl⟩; rfl) fun ws hm => .strings _ _ hm⟩
  | rgb _ r g b h => exact ⟨by decide, br h fun ws hm => .rgb _ _ _ _ hm⟩
  | xyz _ r g b h => exact ⟨by decide, br h fun ws hm => .xyz _ _ _ _ hm⟩
  | samples _ l ps h hp => exact ⟨by decide, br h fun ws hm => .samples _ _ hm⟩
  | file _ s h => obtain ⟨p, rfl⟩ := h; exact ⟨by decide, .inl rfl⟩
  | blackbody _ t s h => exact ⟨by decide, br h fun ws hm => .blackbody _ _ _ hm⟩
  | texture _ s h => obtain ⟨p, rfl⟩ := h; exact ⟨by decide, .inl rfl⟩

/-- Inside of the brackets -/
theorem inner_cut {ws t t' : List (Token F)} {p q : Pos} {ty decl name : String} {r : Pos} (hd : TwoWords E decl ty name)
    (e : t ++ t' = ⟨p, .LBracket⟩ :: ws ++ [⟨q, .RBracket⟩]) (h1 : t ≠ []) (h2 : t' ≠ []) (hu : Unclosed E ty ws) :
    Dropped E (⟨r, .Str decl⟩ :: t) ∨ StuckParam E (⟨r, .Str decl⟩ :: t) := by
  cases t with
  | nil => exact absurd rfl h1
  | cons x t =>
    simp only [List.cons_append, List.cons.injEq] at e
    obtain ⟨rfl, e⟩ := e
    obtain ⟨c, hc⟩ : ∃ c, ws = t ++ c := by
      rcases List.append_eq_append_iff.1 e with ⟨c, h3, h4⟩ | ⟨c, h3, h4⟩
      · exact ⟨c, h3⟩
      · cases c with
        | nil => exact ⟨[], by simpa using h3.symm⟩
        | cons y c =>
          exfalso
          have := congrArg List.length h4
          have h5 := List.length_pos_iff.2 h2
          simp only [List.length_append, List.length_cons, List.length_nil] at this
          omega
    subst hc
    rcases unclosed_cut hu with h | h
    · exact .inl (.unclosed _ _ _ _ _ _ hd h)
    · exact .inr ⟨r, p, decl, ty, name, t, rfl, hd, h⟩

theorem param_cut {t t' : List (Token F)} {p : SParam F} (h : ParamText E (t ++ t') p) (h1 : t ≠ []) (h2 : t' ≠ []) :
    Dropped E t ∨ StuckParam E t := by
  obtain ⟨decl, ty, vs, e, hd, hv⟩ := h
  cases t with
  | nil => exact absurd rfl h1
  | cons x t =>
    simp only [List.cons_append, List.cons.injEq] at e
    obtain ⟨rfl, rfl⟩ := e
    obtain ⟨hty, hl | ⟨q, r, ws, e, hu⟩⟩ := val_shape hv
    · rw [List.length_append] at hl
      have h4 := List.length_pos_iff.2 h2
      obtain rfl : t = [] := List.eq_nil_of_length_eq_zero (by omega)
      exact .inl (.noValue _ _ _ _ hd hty)
    · by_cases ht : t = []
      · subst ht
        exact .inl (.noValue _ _ _ _ hd hty)
      · exact inner_cut hd e ht h2 hu

theorem dropped_cut {t t' : List (Token F)} (h : Dropped E (t ++ t')) : Dropped E t ∨ StuckParam E t := by
  by_cases h2 : t' = []
  · subst h2
    rw [List.append_nil] at h
    exact .inl h
  cases t with
  | nil => exact .inl .none
  | cons x t =>
  generalize e : x :: t ++ t' = ts at h
  cases h with
  | none => simp at e
  | noValue p decl ty name hd ht =>
    have := congrArg List.length e
    have h4 := List.length_pos_iff.2 h2
    simp only [List.length_append, List.length_cons, List.length_nil] at this
    omega
  | unclosed p q decl ty name vs hd hv =>
    simp only [List.cons_append, List.cons.injEq] at e
    obtain ⟨rfl, e⟩ := e
    cases t with
    | nil =>
      refine .inl (.noValue _ _ _ _ hd ?_)
      cases hv <;> first | (simp [paramTypes]; done) | skip
      rename_i h
      simp [paramTypes] at h ⊢
      tauto
    | cons y t =>
      simp only [List.cons_append, List.cons.injEq] at e
      obtain ⟨rfl, rfl⟩ := e
      rcases unclosed_cut hv with h | h
      · exact .inl (.unclosed _ _ _ _ _ _ hd h)
      · exact .inr ⟨p, q, decl, ty, name, t, rfl, hd, h⟩
  | oddSpectrum p decl name vs l hd hv hl =>
    simp only [List.cons_append, List.cons.injEq] at e
    obtain ⟨rfl, rfl⟩ := e
    by_cases ht : t = []
    · subst ht
      exact .inl (.noValue _ _ _ _ hd (by simp [paramTypes]))
    · obtain ⟨q, r, ws, e, hm⟩ := hv.2
      exact inner_cut hd e ht h2 (.samples _ _ hm)

theorem params_cut {u u' : List (Token F)} {ps : List (SParam F)} (h : ParamsText E (u ++ u') ps) :
    ∃ a qs d, u = a ++ d ∧ Many (ParamText E) a qs ∧ (Dropped E d ∨ StuckParam E d) := by
  obtain ⟨a, d, e, hm, hd⟩ := h
  rcases List.append_eq_append_iff.1 e with ⟨c, h1, h2⟩ | ⟨c, h1, h2⟩
  · obtain ⟨x, ys, t, rfl, hx, rfl | ⟨p, t', hp, h3, h4⟩⟩ := many_cut hm u c h1
    · exact ⟨x, ys, [], rfl, hx, .inl .none⟩
    · exact ⟨x, ys, t, rfl, hx, param_cut hp h3 h4⟩
  · subst h2
    exact ⟨a, ps, c, h1, hm, dropped_cut hd⟩

theorem stuck_breaks {w : String} {p : Pos} {s : String} {n : Nat} {strs a d : List (Token F)} {ps : List (SParam F)}
    (hs : (s, n) ∈ paramKeys) (hv : ∀ t ∈ strs, IsStr t) (hn : strs.length = n) (ha : Many (ParamText E) a ps)
    (hd : StuckParam E d) : ∃ m, Breaks E w p s (strs ++ (a ++ d)) m := by
  obtain ⟨q, r, decl, ty, name, vs, rfl, ht, good, t, bad, rfl, h1, h2⟩ := hd
  exact ⟨_, .value s n strs a ps q r decl ty name good t bad hs hv hn ha ht h1 h2⟩

/-- Strings and parameters -/
theorem args_cut {w : String} {p : Pos} {s : String} {n : Nat} {strs rest u u' : List (Token F)} {ps : List (SParam F)}
    (hs : (s, n) ∈ paramKeys) (hv : ∀ t ∈ strs, IsStr t) (hn : strs.length = n) (h : ParamsText E rest ps)
    (e : strs ++ rest = u ++ u') :
    (∃ m, Breaks E w p s u m) ∨ ∃ v qs, u = strs ++ v ∧ ParamsText E v qs := by
  rcases List.append_eq_append_iff.1 e with ⟨c, h1, h2⟩ | ⟨c, h1, h2⟩
  · subst h1 h2
    obtain ⟨a, qs, d, rfl, hm, hd | hd⟩ := params_cut h
    · exact .inr ⟨a ++ d, qs, rfl, a, d, rfl, hm, hd⟩
    · exact .inl (stuck_breaks hs hv hn hm hd)
  · by_cases hc : c = []
    · subst hc
      rw [List.append_nil] at h1
      subst h1
      exact .inr ⟨[], [], by simp, [], [], rfl, .nil, .none⟩
    · left
      refine ⟨_, .strings s n u (List.mem_append_right _ hs) (fun t ht => hv t (by rw [h1]; exact List.mem_append_left _ ht)) ?_⟩
      rw [← hn, h1, List.length_append]
      have := List.length_pos_iff.2 hc
      omega

theorem typed_cut {w key : String} {t t' : List (Token F)} {d : DirectiveStruct F} (hs : (key, 1) ∈ paramKeys)
    (h : Typed E key (t ++ t') d) (h1 : t ≠ []) :
    ∃ p v, t = kw p key :: v ∧ ((∃ m, Breaks E w p key v m) ∨ ∃ d', Typed E key t d') := by
  obtain ⟨q, rest, ps, e, hp, hc⟩ := h
  cases t with
  | nil => exact absurd rfl h1
  | cons x t =>
    simp only [List.cons_append, List.cons.injEq] at e
    obtain ⟨rfl, e⟩ := e
    refine ⟨d.pos, t, rfl, ?_⟩
    rcases args_cut (w := w) (p := d.pos) (strs := [⟨q, .Str d.ty⟩]) hs (by intro t ht; simp at ht; subst ht; exact ⟨_, rfl⟩) rfl hp
      (by simpa using e.symm) with h | ⟨v, qs, rfl, hv⟩
    · exact .inl h
    · exact .inr ⟨⟨d.ty, d.pos, collect qs⟩, q, v, qs, rfl, hv, rfl⟩

theorem name_cut {w s : String} {p : Pos} {ts t : List (Token F)} {t' : List (Token F)} {x : String} (hs : (s, 1) ∈ nameKeys)
    (h : StrTok ts x) (e : ts = t ++ t') (h2 : t' ≠ []) : ∃ m, Breaks E w p s t m := by
  obtain ⟨q, rfl⟩ := h
  have := congrArg List.length e
  have h4 := List.length_pos_iff.2 h2
  simp only [List.length_append, List.length_cons, List.length_nil] at this
  obtain rfl : t = [] := List.eq_nil_of_length_eq_zero (by omega)
  exact ⟨_, .strings s 1 [] (List.mem_append_left _ hs) (by simp) (by simp)⟩

theorem nums_cut {w s : String} {n : Nat} {p : Pos} {ts t t' : List (Token F)} {l : List F} (hs : (s, n) ∈ numKeys)
    (h : Many (NumTok E) ts l) (hl : l.length = n) (e : ts = t ++ t') (h2 : t' ≠ []) : ∃ m, Breaks E w p s t m := by
  subst e
  obtain ⟨h3, h5⟩ := nums h
  have h4 := List.length_pos_iff.2 h2
  rw [List.length_append] at h5
  by_cases ht : t = []
  · subst ht
    exact ⟨_, .noNumber s n hs⟩
  · exact ⟨_, .numbers s n t hs (fun x hx => h3 x (List.mem_append_left _ hx)) ht (by omega)⟩

/-- Where a directive before the world is cut -/
theorem pre_cut {w : String} {t t' : List (Token F)} {d : PreDirective F} (h : PreText E (t ++ t') d) (h1 : t ≠ []) (h2 : t' ≠ []) :
    ∃ p s v, t = kw p s :: v ∧ s ∈ preKeys ∧ ((∃ m, Breaks E w p s v m) ∨ ∃ d', PreText E t d') := by
  cases t with
  | nil => exact absurd rfl h1
  | cons x t =>
  generalize e : x :: t ++ t' = ts at h
  have typed : ∀ (key : String) (d : DirectiveStruct F), (key, 1) ∈ paramKeys → key ∈ preKeys → Typed E key ts d →
      (∀ ts d, Typed E key ts d → ∃ d', PreText E ts d') →
      ∃ p s v, x :: t = kw p s :: v ∧ s ∈ preKeys ∧ ((∃ m, Breaks E w p s v m) ∨ ∃ d', PreText E (x :: t) d') := by
    intro key d hs hk h hP
    subst e
    obtain ⟨p, v, e, h | ⟨d', h⟩⟩ := typed_cut (w := w) hs h h1
    · exact ⟨p, key, v, e, hk, .inl h⟩
    · exact ⟨p, key, v, e, hk, .inr (hP _ _ h)⟩
  cases h with
  | identity p =>
    have := congrArg List.length e
    have h4 := List.length_pos_iff.2 h2
    simp only [List.length_append, List.length_cons, List.length_nil] at this
    omega
  | translate p ts x y z h =>
    simp only [List.cons_append, List.cons.injEq] at e
    obtain ⟨rfl, e⟩ := e
    exact ⟨p, _, t, rfl, by decide, .inl (nums_cut (n := 3) (by decide) h rfl e.symm h2)⟩
  | scale p ts x y z h =>
    simp only [List.cons_append, List.cons.injEq] at e
    obtain ⟨rfl, e⟩ := e
    exact ⟨p, _, t, rfl, by decide, .inl (nums_cut (n := 3) (by decide) h rfl e.symm h2)⟩
  | rotate p ts _ x y z h =>
    simp only [List.cons_append, List.cons.injEq] at e
    obtain ⟨rfl, e⟩ := e
    exact ⟨p, _, t, rfl, by decide, .inl (nums_cut (n := 4) (by decide) h rfl e.symm h2)⟩
  | lookAt p ts _ _ _ _ _ _ _ _ _ h =>
    simp only [List.cons_append, List.cons.injEq] at e
    obtain ⟨rfl, e⟩ := e
    exact ⟨p, _, t, rfl, by decide, .inl (nums_cut (n := 9) (by decide) h rfl e.symm h2)⟩
  | transform p ts _ _ _ _ _ _ _ _ _ h =>
    simp only [List.cons_append, List.cons.injEq] at e
    obtain ⟨rfl, e⟩ := e
    exact ⟨p, _, t, rfl, by decide, .inl (nums_cut (n := 9) (by decide) h rfl e.symm h2)⟩
  | concatTransform p ts _ _ _ _ _ _ _ _ _ h =>
    simp only [List.cons_append, List.cons.injEq] at e
    obtain ⟨rfl, e⟩ := e
    exact ⟨p, _, t, rfl, by decide, .inl (nums_cut (n := 9) (by decide) h rfl e.symm h2)⟩
  | transformTimes p ts _ _ h =>
    simp only [List.cons_append, List.cons.injEq] at e
    obtain ⟨rfl, e⟩ := e
    exact ⟨p, _, t, rfl, by decide, .inl (nums_cut (n := 2) (by decide) h rfl e.symm h2)⟩
  | coordinateSystem p ts s h =>
    simp only [List.cons_append, List.cons.injEq] at e
    obtain ⟨rfl, e⟩ := e
    exact ⟨p, _, t, rfl, by decide, .inl (name_cut (by decide) h e.symm h2)⟩
  | coordSysTransform p ts s h =>
    simp only [List.cons_append, List.cons.injEq] at e
    obtain ⟨rfl, e⟩ := e
    exact ⟨p, _, t, rfl, by decide, .inl (name_cut (by decide) h e.symm h2)⟩
  | incl p ts s h =>
    simp only [List.cons_append, List.cons.injEq] at e
    obtain ⟨rfl, e⟩ := e
    exact ⟨p, _, t, rfl, by decide, .inl (name_cut (by decide) h e.symm h2)⟩
  | activeTransform p q s =>
    simp only [List.cons_append, List.cons.injEq] at e
    obtain ⟨rfl, e⟩ := e
    have := congrArg List.length e
    have h4 := List.length_pos_iff.2 h2
    simp only [List.length_append, List.length_cons, List.length_nil] at this
    obtain rfl : t = [] := List.eq_nil_of_length_eq_zero (by omega)
    exact ⟨p, _, [], rfl, by decide, .inl ⟨_, .active⟩⟩
  | camera _ d h => exact typed _ _ (by decide) (by decide) h fun _ _ h => ⟨_, .camera _ _ h⟩
  | sampler _ d h => exact typed _ _ (by decide) (by decide) h fun _ _ h => ⟨_, .sampler _ _ h⟩
  | film _ d h => exact typed _ _ (by decide) (by decide) h fun _ _ h => ⟨_, .film _ _ h⟩
  | filter _ d h => exact typed _ _ (by decide) (by decide) h fun _ _ h => ⟨_, .filter _ _ h⟩
  | integrator _ d h => exact typed _ _ (by decide) (by decide) h fun _ _ h => ⟨_, .integrator _ _ h⟩
  | accelerator _ d h => exact typed _ _ (by decide) (by decide) h fun _ _ h => ⟨_, .accelerator _ _ h⟩

/-- Directives before the world, cut anywhere -/
theorem pres_cut {u u' : List (Token F)} {pre : List (PreDirective F)} (h : Many (PreText E) (u ++ u') pre) :
    (∃ pre', Many (PreText E) u pre') ∨ ∃ m, BreaksOff E u m := by
  obtain ⟨x, ys, t, rfl, hx, rfl | ⟨d, t', hd, h1, h2⟩⟩ := many_cut h u u' rfl
  · exact .inl ⟨ys, by simpa using hx⟩
  · obtain ⟨p, s, v, rfl, hs, ⟨m, hm⟩ | ⟨d', hd'⟩⟩ := pre_cut (w := betweenPre) hd h1 h2
    · exact .inr ⟨m, _, x, _, p, s, v, rfl, .pre x ys hx, hs, hm⟩
    · refine .inl ⟨ys ++ [d'], many_append hx ?_⟩
      simpa using Many.cons _ [] d' [] hd' .nil

/-- Where the tokens of the world are cut -/
def BodyBreaks (E : Env F) (u : List (Token F)) : Prop :=
  ∃ x p s v ds m, u = x ++ kw p s :: v ∧ DirsText E x ds ∧ s ∈ dirKeys ∧ Breaks E betweenDirs p s v m

theorem dirs_one {u : List (Token F)} {d : Directive F} (h : DirText E u d) : DirsText E u [d] := by
  by_cases hb : IsBlock d
  · exact .block _ _ hb h
  · simpa using DirsText.cons u [] d [] hb h .nil

theorem dirs_cut {ts : List (Token F)} {ds : List (Directive F)} (h : DirsText E ts ds) :
    ∀ u u', ts = u ++ u' → (∃ ds', DirsText E u ds') ∨ BodyBreaks E u := by
  have typed : ∀ (key : String) (d : DirectiveStruct F) (u u' : List (Token F)), (key, 1) ∈ paramKeys → key ∈ dirKeys →
      Typed E key (u ++ u') d → (∀ ts d, Typed E key ts d → ∃ d', DirText E ts d') →
      (∃ ds', DirsText E u ds') ∨ BodyBreaks E u := by
    intro key d u u' hs hk h hP
    by_cases hu : u = []
    · subst hu
      exact .inl ⟨[], .nil⟩
    · obtain ⟨p, v, rfl, ⟨m, h⟩ | ⟨d', h⟩⟩ := typed_cut (w := betweenDirs) hs h hu
      · exact .inr ⟨[], p, key, v, [], m, rfl, .nil, hk, h⟩
      · obtain ⟨d', h⟩ := hP _ _ h
        exact .inl ⟨_, dirs_one h⟩
  have block : ∀ (key : String) (p : Pos) (ts u u' : List (Token F)),
      (∀ u u', ts = u ++ u' → (∃ ds', DirsText E u ds') ∨ BodyBreaks E u) →
      (∀ ts ds, DirsText E ts ds → ∃ d', IsBlock d' ∧ DirText E (kw p key :: ts) d') →
      kw p key :: ts = u ++ u' → (∃ ds', DirsText E u ds') ∨ BodyBreaks E u := by
    intro key p ts u u' ih hP e
    cases u with
    | nil => exact .inl ⟨[], .nil⟩
    | cons x u =>
      simp only [List.cons_append, List.cons.injEq] at e
      obtain ⟨rfl, e⟩ := e
      rcases ih u u' e with ⟨ds', h⟩ | ⟨x, q, s, v, ds', m, rfl, h1, h2, h3⟩
      · obtain ⟨d', hb, h⟩ := hP _ _ h
        exact .inl ⟨_, .block _ _ hb h⟩
      · obtain ⟨d', hb, h⟩ := hP _ _ h1
        exact .inr ⟨kw p key :: x, q, s, v, [d'], m, rfl, .block _ _ hb h, h2, h3⟩
  induction h using DirsText.rec
    (motive_1 := fun ts d _ => ∀ u u', ts = u ++ u' → (∃ ds', DirsText E u ds') ∨ BodyBreaks E u) with
  | material ts d h => rename_i u u' e; subst e; exact typed _ _ _ _ (by decide) (by decide) h fun _ _ h => ⟨_, .material _ _ h⟩
  | shape ts d h => rename_i u u' e; subst e; exact typed _ _ _ _ (by decide) (by decide) h fun _ _ h => ⟨_, .shape _ _ h⟩
  | lightSource ts d h =>
    rename_i u u' e; subst e; exact typed _ _ _ _ (by decide) (by decide) h fun _ _ h => ⟨_, .lightSource _ _ h⟩
  | areaLightSource ts d h =>
    rename_i u u' e; subst e; exact typed _ _ _ _ (by decide) (by decide) h fun _ _ h => ⟨_, .areaLightSource _ _ h⟩
  | «attribute» p ts ds h ih => rename_i u u' e; exact block _ _ _ _ _ ih (fun _ _ h => ⟨.Attribute p _, trivial, .attribute p _ _ h⟩) e
  | transform p ts ds h ih => rename_i u u' e; exact block _ _ _ _ _ ih (fun _ _ h => ⟨.Transform p _, trivial, .transform p _ _ h⟩) e
  | world p ts ds h ih => rename_i u u' e; exact block _ _ _ _ _ ih (fun _ _ h => ⟨.World p _, trivial, .world p _ _ h⟩) e
  | incl p ts s h =>
    rename_i u u' e
    cases u with
    | nil => exact .inl ⟨[], .nil⟩
    | cons x u =>
      simp only [List.cons_append, List.cons.injEq] at e
      obtain ⟨rfl, e⟩ := e
      by_cases h2 : u' = []
      · subst h2
        rw [List.append_nil] at e
        subst e
        exact .inl ⟨_, dirs_one (.incl p _ s h)⟩
      · obtain ⟨m, hm⟩ := name_cut (E := E) (w := betweenDirs) (p := p) (s := "Include") (by decide) h e h2
        exact .inr ⟨[], p, _, u, [], m, rfl, .nil, by decide, hm⟩
  | texture p q₁ q₂ q₃ name ty cls ts ps h =>
    rename_i u u' e
    cases u with
    | nil => exact .inl ⟨[], .nil⟩
    | cons x u =>
      simp only [List.cons_append, List.cons.injEq] at e
      obtain ⟨rfl, e⟩ := e
      rcases args_cut (w := betweenDirs) (p := p) (s := "Texture") (n := 3)
        (strs := [⟨q₁, .Str name⟩, ⟨q₂, .Str ty⟩, ⟨q₃, .Str cls⟩]) (by decide)
        (by intro t ht; simp at ht; rcases ht with rfl | rfl | rfl <;> exact ⟨_, rfl⟩) rfl h
        (by simpa using e) with ⟨m, hm⟩ | ⟨v, qs, rfl, hv⟩
      · exact .inr ⟨[], p, _, u, [], m, rfl, .nil, by decide, hm⟩
      · exact .inl ⟨_, dirs_one (.texture p q₁ q₂ q₃ name ty cls v qs hv)⟩
  | nil =>
    intro u u' e
    obtain ⟨rfl, rfl⟩ := List.append_eq_nil_iff.1 e.symm
    exact .inl ⟨[], .nil⟩
  | block ts d hb h ih => exact ih
  | cons a b d ds hb h hs ih1 ih2 =>
    intro u u' e
    rcases List.append_eq_append_iff.1 e with ⟨c, rfl, h2⟩ | ⟨c, h1, h2⟩
    · rcases ih2 c u' h2 with ⟨ds', h'⟩ | ⟨x, q, s, v, ds', m, rfl, h1, h2, h3⟩
      · exact .inl ⟨_, .cons _ _ _ _ hb h h'⟩
      · exact .inr ⟨a ++ x, q, s, v, d :: ds', m, by simp, .cons _ _ _ _ hb h h1, h2, h3⟩
    · exact ih1 u c h1

/-- An accepted list of tokens, cut before its end -/
theorem accepts_cut {a body u u' : List (Token F)} {p : Pos} {pre : List (PreDirective F)} {ds : List (Directive F)}
    (ha : Many (PreText E) a pre) (hb : DirsText E body ds) (e : a ++ kw p "WorldBegin" :: body = u ++ u') :
    Unfinished E u ∨ ∃ m, BreaksOff E u m := by
  rcases List.append_eq_append_iff.1 e with ⟨c, rfl, h2⟩ | ⟨c, h1, h2⟩
  · cases c with
    | nil => exact .inl (.inl ⟨pre, by simpa using ha⟩)
    | cons x c =>
      simp only [List.cons_append, List.cons.injEq] at h2
      obtain ⟨rfl, h2⟩ := h2
      rcases dirs_cut hb c u' h2 with ⟨ds', h'⟩ | ⟨x, q, s, v, ds', m, rfl, h1, h2, h3⟩
      · exact .inl (.inr ⟨a, p, c, pre, ds', rfl, ha, h'⟩)
      · exact .inr ⟨m, _, a ++ kw p "WorldBegin" :: x, _, q, s, v, by simp, .body a p x pre ds' ha h1, h2, h3⟩
  · subst h1
    rcases pres_cut ha with ⟨pre', h⟩ | ⟨m, h⟩
    · exact .inl (.inl ⟨pre', h⟩)
    · exact .inr ⟨m, h⟩

/-! ### What is reported -/

theorem longest_params {b : List (Token F)} {ps : List (SParam F)} (h : ParamsText E b ps) (p : Pos) (s : String)
    (v : List (Token F)) : Longest (fun b => ∃ ps, ParamsText E b ps) (b ++ kw p s :: v) b := by
  have := longest_longer (b := b) (w := []) (ps := fun b => ∃ ps, ParamsText E b ps) p s v (fun b ⟨_, h⟩ => noId_params h)
    ⟨by simp, ⟨ps, h⟩, fun b' hb' _ => by simpa using hb'.length_le⟩
  simpa using this

theorem unclosed_length {ty : String} {u : List (Token F)} (h : Unclosed E ty u) :
    (ty ∈ ["point2", "vector2"] → u.length % 2 = 0) ∧ (ty ∈ ["rgb", "xyz"] → u.length = 0 ∨ u.length = 3) ∧
    (ty = "blackbody" → u.length = 0 ∨ u.length = 2) := by
  have no : ∀ ty : String, ty ∉ ["point2", "vector2", "rgb", "xyz", "blackbody"] →
    (ty ∈ ["point2", "vector2"] → u.length % 2 = 0) ∧ (ty ∈ ["rgb", "xyz"] → u.length = 0 ∨ u.length = 3) ∧
    (ty = "blackbody" → u.length = 0 ∨ u.length = 2) := by
    intro ty h
    simp only [List.mem_cons, List.not_mem_nil, or_false] at h ⊢
    tauto
  cases h with
  | ints _ l h => exact no _ (by decide)
  | floats _ l h => exact no _ (by decide)
  | bools _ l h => exact no _ (by decide)
  | strings _ l h => exact no _ (by decide)
  | samples _ l h => exact no _ (by decide)
  | point2s _ l h =>
    have := (pairs_nums (fun a x ⟨a1, a2, e, h1, h2⟩ => e ▸ pair_nums h1 h2) h).2
    exact ⟨fun _ => by omega, fun h => absurd h (by decide), fun h => absurd h (by decide)⟩
  | vector2s _ l h =>
    have := (pairs_nums (fun a x ⟨a1, a2, e, h1, h2⟩ => e ▸ pair_nums h1 h2) h).2
    exact ⟨fun _ => by omega, fun h => absurd h (by decide), fun h => absurd h (by decide)⟩
  | fixedNone ty h => simp
  | rgb _ _ _ _ h =>
    exact ⟨fun h => absurd h (by decide), fun _ => .inr (nums h).2, fun h => absurd h (by decide)⟩
  | xyz _ _ _ _ h =>
    exact ⟨fun h => absurd h (by decide), fun _ => .inr (nums h).2, fun h => absurd h (by decide)⟩
  | blackbody _ _ _ h =>
    exact ⟨fun h => absurd h (by decide), fun h => absurd h (by decide), fun _ => .inr (nums h).2⟩

theorem stuck_longest {a good bad : List (Token F)} {t : Token F} {ps : List (SParam F)} {q r : Pos} {decl ty name : String}
    (ha : Many (ParamText E) a ps) (hd : TwoWords E decl ty name) (hnum : ∀ u ∈ good ++ t :: bad, IsNumber u)
    (ht : Stuck ty good.length (bad.length + 1)) :
    Longest (fun b => ∃ ps, ParamsText E b ps) ((a ++ ⟨q, .Str decl⟩ :: ⟨r, .LBracket⟩ :: good) ++ t :: bad)
      (a ++ ⟨q, .Str decl⟩ :: ⟨r, .LBracket⟩ :: good) := by
  have hgood : Unclosed E ty good := by
    obtain ⟨l, hl, hl'⟩ := many_numbers E good (fun u hu => hnum u (List.mem_append_left _ hu))
    have pair : ∀ {α : Type} {R : List (Token F) → α → Prop} (f : F → F → α),
        (∀ a b x y, NumTok E a x → NumTok E b y → R (a ++ b) (f x y)) → good.length % 2 = 0 → ∃ l, Many R good l := by
      intro α R f hR hev
      have : ∀ n (g : List (Token F)) (l : List F), g.length = 2 * n → Many (NumTok E) g l → ∃ l', Many R g l' := by
        intro n
        induction n with
        | zero =>
          intro g l hg _
          obtain rfl : g = [] := List.eq_nil_of_length_eq_zero (by omega)
          exact ⟨[], .nil⟩
        | succ n ih =>
          intro g l hg hm
          cases hm with
          | nil => simp at hg
          | cons a b x xs h1 h2 =>
            cases h2 with
            | nil => have := num_one h1; simp [this] at hg; omega
            | cons a' b' x' xs' h3 h4 =>
              obtain ⟨l', hl'⟩ := ih b' xs' (by
                have := num_one h1; have := num_one h3
                simp only [List.length_append] at hg; omega) h4
              exact ⟨f x x' :: l', by rw [← List.append_assoc]; exact .cons _ _ _ _ (hR _ _ _ _ h1 h3) hl'⟩
      exact this (good.length / 2) good l (by omega) hl
    rcases ht with ⟨hty, h1, h2⟩ | ⟨hty, h1, h2⟩ | ⟨hty, h1, h2⟩
    · simp only [List.mem_cons, List.not_mem_nil, or_false] at hty
      rcases hty with rfl | rfl
      · obtain ⟨l, h⟩ := pair (R := PointTok E) (fun x y => ⟨x, y⟩) (fun a b x y hx hy => ⟨a, b, rfl, hx, hy⟩) h1
        exact .point2s _ _ h
      · obtain ⟨l, h⟩ := pair (R := VectorTok E) (fun x y => ⟨x, y⟩) (fun a b x y hx hy => ⟨a, b, rfl, hx, hy⟩) h1
        exact .vector2s _ _ h
    · obtain rfl : good = [] := List.eq_nil_of_length_eq_zero h1
      refine .fixedNone ty ?_
      simp only [List.mem_cons, List.not_mem_nil, or_false] at hty ⊢
      tauto
    · obtain rfl : good = [] := List.eq_nil_of_length_eq_zero h1
      exact .fixedNone ty (by simp [hty])
  refine ⟨List.prefix_append _ _, ⟨ps, a, _, rfl, ha, .unclosed q r decl ty name good hd hgood⟩, ?_⟩
  rintro b' ⟨c, hb'⟩ ⟨ps', hp⟩
  by_contra hlt
  push Not at hlt
  -- the longer list ends with some of the numbers that are not taken
  obtain ⟨e, rfl, he0, hec⟩ : ∃ e, b' = a ++ ⟨q, .Str decl⟩ :: ⟨r, .LBracket⟩ :: (good ++ e) ∧ e ≠ [] ∧ e ++ c = t :: bad := by
    rcases List.append_eq_append_iff.1 hb' with ⟨y, h1, h2⟩ | ⟨y, h1, h2⟩
    · have := congrArg List.length h1
      rw [List.length_append (bs := y)] at this
      omega
    · refine ⟨y, by rw [h1]; simp, ?_, h2.symm⟩
      rintro rfl
      rw [h1, List.append_nil] at hlt
      omega
  have henum : ∀ u ∈ good ++ e, IsNumber u := by
    intro u hu
    refine hnum u ?_
    rw [← hec]
    rcases List.mem_append.1 hu with h | h
    · exact List.mem_append_left _ h
    · exact List.mem_append_right _ (List.mem_append_left _ h)
  have helen : 0 < e.length ∧ e.length ≤ bad.length + 1 := by
    have := congrArg List.length hec
    simp only [List.length_append, List.length_cons] at this
    exact ⟨List.length_pos_iff.2 he0, by omega⟩
  obtain ⟨zs, ⟨a2, d2, hz, hm2, hd2⟩, _⟩ := Reorder.params_prefix ha hp
  have notRB : ∀ s : Pos, (⟨s, .RBracket⟩ : Token F) ∉ good ++ e := by
    intro s hs
    rcases henum _ hs with ⟨i, h⟩ | ⟨i, h⟩ <;> simp at h
  have hun : Unclosed E ty (good ++ e) := by
    cases hm2 with
    | cons a3 b3 p3 ps3 h3 h4 =>
      exfalso
      obtain ⟨decl', ty', vs, rfl, _, hv⟩ := h3
      simp only [List.cons_append, List.cons.injEq, List.append_assoc] at hz
      obtain ⟨_, hz⟩ := hz
      obtain ⟨_, h5 | ⟨p5, q5, ws, rfl, _⟩⟩ := val_shape hv
      · obtain ⟨x, rfl⟩ := List.length_eq_one_iff.1 h5
        simp only [List.cons_append, List.nil_append, List.cons.injEq] at hz
        obtain ⟨rfl, _⟩ := hz
        -- a value without brackets is no bracket
        have one : ∀ {α : Type} {R : List (Token F) → α → Prop} {l : List α}, OneOrList R [⟨r, .LBracket⟩] l →
            (∀ x, ¬ R [⟨r, .LBracket⟩] x) → False := by
          rintro α R l (⟨x, hx, _⟩ | ⟨_, p, q, ws, e, _⟩) hR
          · exact hR x hx
          · have := congrArg List.length e; simp at this
        have br : ∀ {α : Type} {R : List (Token F) → α → Prop} {l : List α}, Bracketed R [⟨r, .LBracket⟩] l → False := by
          rintro α R l ⟨_, p, q, ws, e, _⟩
          have := congrArg List.length e; simp at this
        generalize p3.val = v3 at hv
        cases hv with
        | ints _ l h => exact one h (by rintro x ⟨p, h⟩; simp at h)
        | floats _ l h => exact one h (by rintro x ⟨p, h | ⟨i, h, _⟩⟩ <;> simp at h)
        | point2s _ l h => exact br h
        | vector2s _ l h => exact br h
        | bools _ l h => exact one h (by rintro x ⟨p, h⟩; simp at h)
        | strings _ l h => exact one h (by rintro x ⟨p, h⟩; simp at h)
        | rgb _ _ _ _ h => exact br h
        | xyz _ _ _ _ h => exact br h
        | samples _ _ _ h _ => exact br h
        | file _ s h => obtain ⟨p, h⟩ := h; simp at h
        | blackbody _ _ _ h => exact br h
        | texture _ s h => obtain ⟨p, h⟩ := h; simp at h
      · simp only [List.cons_append, List.cons.injEq, List.append_assoc] at hz
        refine notRB q5 ?_
        rw [hz.2]
        simp
    | nil =>
      rw [List.nil_append] at hz
      subst hz
      generalize hg : (⟨q, .Str decl⟩ :: ⟨r, .LBracket⟩ :: (good ++ e) : List (Token F)) = dd at hd2
      cases hd2 with
      | none => simp at hg
      | noValue => simp at hg
      | unclosed p q decl' ty' name' vs hd' hv =>
        simp only [List.cons.injEq, Token.mk.injEq, TokenType.Str.injEq] at hg
        obtain ⟨⟨_, rfl⟩, _, rfl⟩ := hg
        obtain ⟨rfl, _⟩ := twoWords_unique E hd hd'
        exact hv
      | oddSpectrum p decl' name' vs l hd' hv hl =>
        exfalso
        simp only [List.cons.injEq, Token.mk.injEq, TokenType.Str.injEq] at hg
        obtain ⟨_, rfl⟩ := hg
        obtain ⟨_, p5, q5, ws, e5, _⟩ := hv
        simp only [List.cons_append, List.cons.injEq] at e5
        refine notRB q5 ?_
        rw [e5.2]
        simp
  -- none of the types takes them
  have len : (good ++ e).length = good.length + e.length := List.length_append
  obtain ⟨l1, l2, l3⟩ := unclosed_length hun
  rcases ht with ⟨hty, h1, h2⟩ | ⟨hty, h1, h2, h3⟩ | ⟨hty, h1, h2⟩
  · have := l1 hty
    omega
  · have := l2 hty
    omega
  · have := l3 hty
    omega

theorem number_notId {t : Token F} (h : IsNumber t) : ¬ IsId t := by
  rintro ⟨p, s, rfl⟩
  rcases h with ⟨i, h⟩ | ⟨f, h⟩ <;> simp [kw] at h

theorem breaks_args {w m s : String} {p : Pos} {v : List (Token F)} (h : Breaks E w p s v m) :
    ArgsFault E p s v m ∨ ∃ t u, Args E s v (t :: u) ∧ ¬ IsId t ∧ m = t.pos.fmt ++ w ++ shown E t.ty := by
  cases h with
  | noNumber s n hs => exact .inl (.noNumber s n hs)
  | numbers s n v hs hv h0 hn =>
    left
    simpa using ArgsFault.count (E := E) (p := p) s n v [] hs hv h0 (by omega) (by simp)
  | strings s n v hs hv hn => exact .inl (.noString s n v hs hv hn)
  | active => exact .inl .noIdentifier
  | value s n strs a ps q r decl ty name good t bad hs hv hn ha hd hnum ht =>
    refine .inr ⟨t, bad, ?_, number_notId (hnum t (by simp)), rfl⟩
    have := Args.params s n strs _ _ hs hv hn (stuck_longest (q := q) (r := r) ha hd hnum ht)
    simpa using this

theorem breaks_scene {m s : String} {p : Pos} {v : List (Token F)} (h : Breaks E betweenPre p s v m) (hs : s ∈ preKeys) :
    SceneFault E (kw p s :: v) m := by
  rcases breaks_args h with h | ⟨t, u, h1, h2, rfl⟩
  · exact .args p s v m hs h
  · exact .later p s v _ _ hs h1 (.notKey t u h2)

theorem breaks_body {m s : String} {p : Pos} {v : List (Token F)} (h : Breaks E betweenDirs p s v m) (hs : s ∈ dirKeys) :
    BodyFault E (kw p s :: v) m := by
  rcases breaks_args h with h | ⟨t, u, h1, h2, rfl⟩
  · exact .args p s v m hs h
  · exact .later p s v _ _ hs h1 (.notKey t u h2)

theorem kw_notNumber (p : Pos) (s : String) : ¬ IsNumber (kw p s : Token F) := by
  rintro (⟨i, h⟩ | ⟨f, h⟩) <;> simp [kw] at h

theorem nums_args {s : String} {n : Nat} {ts : List (Token F)} {l : List F} (hs : (s, n) ∈ numKeys) (h : Many (NumTok E) ts l)
    (hl : l.length = n) (p : Pos) (k : String) (u : List (Token F)) : Args E s (ts ++ kw p k :: u) (kw p k :: u) :=
  .numbers s n ts _ hs (nums h).1 ((nums h).2.trans hl) (by
    intro t ht
    simp only [List.head?_cons, Option.some.injEq] at ht
    subst ht
    exact kw_notNumber p k)

theorem name_args {s : String} {ts : List (Token F)} {x : String} (hs : (s, 1) ∈ nameKeys) (h : StrTok ts x)
    (p : Pos) (k : String) (u : List (Token F)) : Args E s (ts ++ kw p k :: u) (kw p k :: u) := by
  obtain ⟨q, rfl⟩ := h
  exact .name s 1 _ _ hs ⟨_, rfl⟩

theorem typed_args {key : String} {ts : List (Token F)} {d : DirectiveStruct F} (hs : (key, 1) ∈ paramKeys) (h : Typed E key ts d) :
    ∃ q v, ts = kw q key :: v ∧ ∀ p k u, Args E key (v ++ kw p k :: u) (kw p k :: u) := by
  obtain ⟨q, rest, ps, rfl, hp, _⟩ := h
  refine ⟨d.pos, _, rfl, fun p k u => ?_⟩
  have := Args.params key 1 [(⟨q, .Str d.ty⟩ : Token F)] rest (kw p k :: u) hs
    (by intro t ht; simp at ht; subst ht; exact ⟨_, rfl⟩) rfl (longest_params hp p k u)
  simpa using this

theorem pre_args {a : List (Token F)} {d : PreDirective F} (h : PreText E a d) :
    ∃ q s v, a = kw q s :: v ∧ s ∈ preKeys ∧ ∀ p k u, Args E s (v ++ kw p k :: u) (kw p k :: u) := by
  have typed : ∀ (key : String) (d : DirectiveStruct F), (key, 1) ∈ paramKeys → key ∈ preKeys → Typed E key a d →
      ∃ q s v, a = kw q s :: v ∧ s ∈ preKeys ∧ ∀ p k u, Args E s (v ++ kw p k :: u) (kw p k :: u) := by
    intro key d h1 h2 h
    obtain ⟨q, v, e, h⟩ := typed_args h1 h
    exact ⟨q, key, v, e, h2, h⟩
  cases h with
  | identity p => exact ⟨p, _, [], rfl, by decide, fun _ _ _ => .none _⟩
  | translate p ts x y z h => exact ⟨p, _, _, rfl, by decide, nums_args (n := 3) (by decide) h rfl⟩
  | scale p ts x y z h => exact ⟨p, _, _, rfl, by decide, nums_args (n := 3) (by decide) h rfl⟩
  | rotate p ts _ x y z h => exact ⟨p, _, _, rfl, by decide, nums_args (n := 4) (by decide) h rfl⟩
  | lookAt p ts _ _ _ _ _ _ _ _ _ h => exact ⟨p, _, _, rfl, by decide, nums_args (n := 9) (by decide) h rfl⟩
  | transform p ts _ _ _ _ _ _ _ _ _ h => exact ⟨p, _, _, rfl, by decide, nums_args (n := 9) (by decide) h rfl⟩
  | concatTransform p ts _ _ _ _ _ _ _ _ _ h => exact ⟨p, _, _, rfl, by decide, nums_args (n := 9) (by decide) h rfl⟩
  | transformTimes p ts _ _ h => exact ⟨p, _, _, rfl, by decide, nums_args (n := 2) (by decide) h rfl⟩
  | coordinateSystem p ts s h => exact ⟨p, _, _, rfl, by decide, name_args (by decide) h⟩
  | coordSysTransform p ts s h => exact ⟨p, _, _, rfl, by decide, name_args (by decide) h⟩
  | incl p ts s h => exact ⟨p, _, _, rfl, by decide, name_args (by decide) h⟩
  | activeTransform p q s => exact ⟨p, _, _, rfl, by decide, fun _ _ _ => .active _ _ ⟨q, s, rfl⟩⟩
  | camera _ d h => exact typed _ _ (by decide) (by decide) h
  | sampler _ d h => exact typed _ _ (by decide) (by decide) h
  | film _ d h => exact typed _ _ (by decide) (by decide) h
  | filter _ d h => exact typed _ _ (by decide) (by decide) h
  | integrator _ d h => exact typed _ _ (by decide) (by decide) h
  | accelerator _ d h => exact typed _ _ (by decide) (by decide) h

theorem pres_fault {x : List (Token F)} {pre : List (PreDirective F)} (h : Many (PreText E) x pre) {p : Pos} {s m : String}
    {v : List (Token F)} (hf : SceneFault E (kw p s :: v) m) : SceneFault E (x ++ kw p s :: v) m := by
  induction h with
  | nil => exact hf
  | cons a b d ds h hs ih =>
    obtain ⟨q, k, v', rfl, hk, ha⟩ := pre_args h
    rcases pres_head hs with rfl | ⟨p2, s2, b2, rfl, _⟩
    · rw [List.append_nil]
      exact .later q k _ _ m hk (ha p s v) hf
    · rw [List.append_assoc, List.cons_append]
      exact .later q k _ _ m hk (ha p2 s2 _) ih

theorem dirs_fault {x : List (Token F)} {ds : List (Directive F)} (h : DirsText E x ds) {p : Pos} {s m : String}
    {v : List (Token F)} (hf : BodyFault E (kw p s :: v) m) : BodyFault E (x ++ kw p s :: v) m := by
  have typed : ∀ (key : String) (d : DirectiveStruct F) (ts : List (Token F)), (key, 1) ∈ paramKeys → key ∈ dirKeys →
      Typed E key ts d → ∃ q k v', ts = kw q k :: v' ∧ k ∈ dirKeys ∧ ∀ p s u, Args E k (v' ++ kw p s :: u) (kw p s :: u) := by
    intro key d ts h1 h2 h
    obtain ⟨q, v, e, h⟩ := typed_args h1 h
    exact ⟨q, key, v, e, h2, h⟩
  induction h using DirsText.rec
    (motive_1 := fun ts d _ => (IsBlock d → BodyFault E (ts ++ kw p s :: v) m) ∧ (¬ IsBlock d →
      ∃ q k v', ts = kw q k :: v' ∧ k ∈ dirKeys ∧ ∀ p s u, Args E k (v' ++ kw p s :: u) (kw p s :: u))) with
  | material ts d h => exact ⟨False.elim, fun _ => typed _ _ _ (by decide) (by decide) h⟩
  | shape ts d h => exact ⟨False.elim, fun _ => typed _ _ _ (by decide) (by decide) h⟩
  | lightSource ts d h => exact ⟨False.elim, fun _ => typed _ _ _ (by decide) (by decide) h⟩
  | areaLightSource ts d h => exact ⟨False.elim, fun _ => typed _ _ _ (by decide) (by decide) h⟩
  | «attribute» p ts ds h ih => exact ⟨fun _ => .nested _ _ _ _ (by decide) ih, fun h => absurd trivial h⟩
  | transform p ts ds h ih => exact ⟨fun _ => .nested _ _ _ _ (by decide) ih, fun h => absurd trivial h⟩
  | world p ts ds h ih => exact ⟨fun _ => .nested _ _ _ _ (by decide) ih, fun h => absurd trivial h⟩
  | incl p ts s h => exact ⟨False.elim, fun _ => ⟨p, _, _, rfl, by decide, name_args (by decide) h⟩⟩
  | texture p q₁ q₂ q₃ name ty cls ts ps h =>
    refine ⟨False.elim, fun _ => ⟨p, _, _, rfl, by decide, fun p k u => ?_⟩⟩
    have := Args.params "Texture" 3 [(⟨q₁, .Str name⟩ : Token F), ⟨q₂, .Str ty⟩, ⟨q₃, .Str cls⟩] ts (kw p k :: u) (by decide)
      (by intro t ht; simp at ht; rcases ht with rfl | rfl | rfl <;> exact ⟨_, rfl⟩) rfl (longest_params h p k u)
    simpa using this
  | nil => exact hf
  | block ts d hb h ih => exact ih.1 hb
  | cons a b d ds hb h hs ih1 ih2 =>
    obtain ⟨q, k, v', rfl, hk, ha⟩ := ih1.2 hb
    have : ∃ p2 s2 u2, b ++ kw p s :: v = kw p2 s2 :: u2 := by
      cases hs with
      | nil => exact ⟨p, s, v, rfl⟩
      | block _ _ _ h =>
        obtain ⟨p2, s2, b2, rfl, _⟩ := dirText_head h
        exact ⟨p2, s2, _, rfl⟩
      | cons _ _ _ _ _ h _ =>
        obtain ⟨p2, s2, b2, rfl, _⟩ := dirText_head h
        exact ⟨p2, s2, _, rfl⟩
    obtain ⟨p2, s2, u2, e⟩ := this
    rw [e] at ih2
    rw [List.append_assoc, e]
    exact .later q k _ _ m hk (ha p2 s2 u2) ih2

theorem breaksOff_fault {toks : List (Token F)} {m : String} (h : BreaksOff E toks m) : SceneFault E toks m := by
  obtain ⟨w, x, keys, p, s, v, rfl, hat, hs, hb⟩ := h
  cases hat with
  | pre x pre h => exact pres_fault h (breaks_scene hb hs)
  | body a q body pre ds ha hd =>
    rw [List.append_assoc, List.cons_append]
    exact pres_fault ha (.body q _ m (dirs_fault hd (breaks_body hb hs)))

end Pbrt.Proof.BreakOff
