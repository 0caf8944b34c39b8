import Verif.Spec.DebugText

/-! Helper lemmas for the output of `Debug` (C121). -/

namespace Pbrt.Proof.DebugTree

open Pbrt.Spec

/-! ### Well-formed trees -/

mutual
/-- Trees whose texts can be told apart -/
inductive WF : DTree → Prop
  | plain (s : List Char) (hs : Unmarked s) (h0 : s ≠ []) : WF (.leaf s)
  | quoted (s : List Char) (hs : Quoted s) : WF (.leaf s)
  | field (n : List Char) (t : DTree) (hn : Unmarked n) (h0 : n ≠ []) (ht : WF t) : WF (.field n t)
  | struct (n : List Char) (t : DTree) (ts : List DTree) (hn : Unmarked n) (h0 : n ≠ []) (ht : WF t) (hts : WFs ts) :
      WF (.node .struct n (t :: ts))
  | tuple (n : List Char) (t : DTree) (ts : List DTree) (hn : Unmarked n) (ht : WF t) (hts : WFs ts) :
      WF (.node .tuple n (t :: ts))
  | list (ts : List DTree) (hts : WFs ts) : WF (.node .list [] ts)
/-- Lists of such trees -/
inductive WFs : List DTree → Prop
  | nil : WFs []
  | cons (t : DTree) (ts : List DTree) (ht : WF t) (hts : WFs ts) : WFs (t :: ts)
end

theorem unmarked_head {c : Char} {s : List Char} (h : Unmarked (c :: s)) : c ∉ marks := h c (by simp)

theorem wfs_of : ∀ {ts : List DTree}, (∀ t ∈ ts, WF t) → WFs ts
  | [], _ => .nil
  | t :: ts, h => .cons t ts (h t (by simp)) (wfs_of fun u hu => h u (by simp [hu]))

/-! ### One renderer for both forms -/

/-- What is written before, between and behind the items -/
structure Layout where
  op : Builder → Nat → List Char
  sep : Nat → List Char
  close : Builder → Nat → List Char

mutual
/-- The text of a tree at a depth -/
def render (Y : Layout) (d : Nat) : DTree → List Char
  | .leaf s => s
  | .field n t => n ++ (':' :: ' ' :: render Y d t)
  | .node b n [] => n ++ b.empty
  | .node b n (t :: ts) => n ++ (Y.op b d ++ (render Y (d + 1) t ++ rest Y d b ts))
/-- The further items -/
def rest (Y : Layout) (d : Nat) (b : Builder) : List DTree → List Char
  | [] => Y.close b d
  | t :: ts => Y.sep d ++ (render Y (d + 1) t ++ rest Y d b ts)
end

/-- What may follow a tree -/
def Stop (r : List Char) : Prop := r = [] ∨ (∃ c s, r = c :: s ∧ c ∈ [',', ')', ']', '\n']) ∨ ∃ s, r = ' ' :: '}' :: s

/-- The first characters of the builders -/
def opening : Builder → List Char
  | .struct => [' ', '{']
  | .tuple => ['(']
  | .list => ['[']

/-- What a layout must grant -/
structure Lawful (Y : Layout) : Prop where
  op : ∀ b d, ∃ x, Y.op b d = opening b ++ x
  empty : ∀ d c x y, c ≠ ']' → Y.op .list d ++ c :: x ≠ '[' :: ']' :: y
  sep : ∀ d r, Stop (Y.sep d ++ r)
  close : ∀ b d r, Stop (Y.close b d ++ r)
  apart : ∀ b d x y, Y.sep d ++ x ≠ Y.close b d ++ y

/-! ### Reading the text back -/

/-- What stands behind the first word -/
def tag : List Char → Nat
  | '"' :: _ => 1
  | ':' :: _ => 2
  | ' ' :: '{' :: _ => 3
  | '(' :: _ => 4
  | '[' :: _ => 5
  | _ => 0

/-- A text that does not continue a word -/
def Ends (x : List Char) : Prop := ∀ c s, x = c :: s → c ∈ marks

theorem split_word : ∀ {a b x y : List Char}, Unmarked a → Unmarked b → Ends x → Ends y → a ++ x = b ++ y → a = b ∧ x = y
  | [], [], _, _, _, _, _, _, h => ⟨rfl, h⟩
  | [], c :: b, x, y, _, hb, hx, _, h => absurd (hx c (b ++ y) h) (hb c (by simp))
  | c :: a, [], x, y, ha, _, _, hy, h => absurd (hy c (a ++ x) h.symm) (ha c (by simp))
  | c :: a, e :: b, x, y, ha, hb, hx, hy, h => by
    simp only [List.cons_append, List.cons.injEq] at h
    obtain ⟨h1, h2⟩ := split_word (a := a) (b := b) (fun z hz => ha z (by simp [hz])) (fun z hz => hb z (by simp [hz])) hx hy h.2
    exact ⟨by rw [h.1, h1], h2⟩

theorem ends_of {c : Char} {x : List Char} (h : c ∈ marks) : Ends (c :: x) := by
  intro e s he
  simp only [List.cons.injEq] at he
  exact he.1 ▸ h

theorem stop_ends {r : List Char} (h : Stop r) : Ends r := by
  rcases h with h | ⟨c, s, h, hc⟩ | ⟨s, h⟩
  · subst h; intro c s hs; simp at hs
  · subst h
    apply ends_of
    simp at hc
    rcases hc with h | h | h | h <;> subst h <;> decide
  · subst h; exact ends_of (by decide)

theorem stop_tag {r : List Char} (h : Stop r) : tag r = 0 := by
  rcases h with h | ⟨c, s, h, hc⟩ | ⟨s, h⟩
  · subst h; rfl
  · subst h
    simp at hc
    rcases hc with h | h | h | h <;> subst h <;> rfl
  · subst h; rfl

theorem unmarked_nil : Unmarked [] := by intro c hc; simp at hc

/-- The part of a text behind its first word -/
def Cut (x p q : List Char) : Prop := Unmarked p ∧ Ends q ∧ x = p ++ q

theorem cut_eq {x p q p' q'} (h : Cut x p q) (h' : Cut x p' q') : p = p' ∧ q = q' :=
  split_word h.1 h'.1 h.2.1 h'.2.1 (h.2.2.symm.trans h'.2.2)

theorem escaped_inj : ∀ {a b : List Char}, Escaped a → Escaped b → ∀ {r s}, a ++ '"' :: r = b ++ '"' :: s → a = b ∧ r = s := by
  intro a b ha
  induction ha generalizing b with
  | nil =>
    intro hb r s h
    cases hb with
    | nil => simpa using h
    | plain c s hc hs => simp at h; exact absurd h.1.symm hc.1
    | slash c s hc hs => simp at h
  | plain c a hc _ ih =>
    intro hb r s h
    cases hb with
    | nil => simp at h; exact absurd h.1 hc.1
    | plain e b he hb =>
      simp only [List.cons_append, List.cons.injEq] at h
      obtain ⟨h1, h2⟩ := ih hb h.2
      exact ⟨by rw [h.1, h1], h2⟩
    | slash e b he hb => simp at h; exact absurd h.1 hc.2.1
  | slash c a hc _ ih =>
    intro hb r s h
    cases hb with
    | nil => simp at h
    | plain e b he hb => simp at h; exact absurd h.1.symm he.2.1
    | slash e b he hb =>
      simp only [List.cons_append, List.cons.injEq, true_and] at h
      obtain ⟨h1, h2⟩ := ih hb h.2
      exact ⟨by rw [h.1, h1], h2⟩

theorem quoted_inj {a b r s : List Char} (ha : Quoted a) (hb : Quoted b) (h : a ++ r = b ++ s) : a = b ∧ r = s := by
  obtain ⟨x, hx, rfl⟩ := ha
  obtain ⟨y, hy, rfl⟩ := hb
  have := escaped_inj hx hy (r := r) (s := s) (by simpa using h)
  exact ⟨by rw [this.1], this.2⟩

section
variable {Y : Layout} (hY : Lawful Y)
include hY

theorem stop_rest (d b r) : ∀ ts, Stop (rest Y d b ts ++ r)
  | [] => by rw [rest]; exact hY.close b d r
  | t :: ts => by rw [rest, List.append_assoc]; exact hY.sep d _

theorem cut_node (d : Nat) (b : Builder) (n : List Char) (hn : Unmarked n) (x r : List Char) :
    Cut (n ++ (Y.op b d ++ x) ++ r) n (Y.op b d ++ (x ++ r)) := by
  refine ⟨hn, ?_, by simp⟩
  obtain ⟨y, hy⟩ := hY.op b d
  rw [hy]
  cases b <;> exact ends_of (by decide)

theorem tag_op (d : Nat) (b : Builder) (x : List Char) :
    tag (Y.op b d ++ x) = match b with | .struct => 3 | .tuple => 4 | .list => 5 := by
  obtain ⟨y, hy⟩ := hY.op b d
  rw [hy]
  cases b <;> rfl

/-- The first character of a text is none that closes. -/
theorem render_head {t : DTree} (h : WF t) (d : Nat) (r : List Char) :
    ∃ c x, render Y d t ++ r = c :: x ∧ c ≠ ']' ∧ c ≠ '\n' := by
  have word : ∀ n : List Char, Unmarked n → n ≠ [] → ∀ x, ∃ c y, n ++ x = c :: y ∧ c ≠ ']' ∧ c ≠ '\n' := by
    intro n hn h0 x
    cases n with
    | nil => exact absurd rfl h0
    | cons c n =>
      refine ⟨c, n ++ x, rfl, ?_, ?_⟩ <;> rintro rfl <;> exact absurd (unmarked_head hn) (by decide)
  have opens : ∀ b, b ≠ Builder.struct → ∀ x, ∃ c y, Y.op b d ++ x = c :: y ∧ c ≠ ']' ∧ c ≠ '\n' := by
    intro b hb x
    obtain ⟨y, hy⟩ := hY.op b d
    rw [hy]
    cases b with
    | struct => exact absurd rfl hb
    | tuple => exact ⟨'(', y ++ x, rfl, by decide, by decide⟩
    | list => exact ⟨'[', y ++ x, rfl, by decide, by decide⟩
  cases h with
  | plain s hs h0 => rw [render]; exact word s hs h0 r
  | quoted s hs =>
    obtain ⟨b, _, rfl⟩ := hs
    rw [render]
    exact ⟨'"', _, rfl, by decide, by decide⟩
  | field n t hn h0 ht => rw [render, List.append_assoc]; exact word n hn h0 _
  | struct n t ts hn h0 ht hts => rw [render, List.append_assoc]; exact word n hn h0 _
  | tuple n t ts hn ht hts =>
    rw [render]
    cases n with
    | nil => rw [List.nil_append, List.append_assoc]; exact opens _ (by decide) _
    | cons c n => rw [List.append_assoc]; exact word _ hn (by simp) _
  | list ts hts =>
    cases ts with
    | nil => rw [render]; exact ⟨'[', _, rfl, by decide, by decide⟩
    | cons t ts => rw [render, List.nil_append, List.append_assoc]; exact opens _ (by decide) _

/-- How the text of a tree is cut, and what its tag is -/
theorem cut_render {t : DTree} (h : WF t) (d : Nat) {r : List Char} (hr : Stop r) :
    ∃ p q, Cut (render Y d t ++ r) p q ∧ tag q = match t with
      | .leaf s => if s.head? = some '"' then 1 else 0
      | .field _ _ => 2
      | .node .struct _ _ => 3
      | .node .tuple _ _ => 4
      | .node .list _ _ => 5 := by
  cases h with
  | plain s hs h0 =>
    refine ⟨s, r, ⟨hs, stop_ends hr, by rw [render]⟩, ?_⟩
    rw [stop_tag hr]
    cases s with
    | nil => exact absurd rfl h0
    | cons c s =>
      have : c ≠ '"' := by rintro rfl; exact absurd (unmarked_head hs) (by decide)
      simp [this]
  | quoted s hs =>
    obtain ⟨b, _, rfl⟩ := hs
    exact ⟨[], '"' :: (b ++ ['"'] ++ r), ⟨unmarked_nil, ends_of (by decide), by rw [render]; rfl⟩, rfl⟩
  | field n t hn h0 ht =>
    exact ⟨n, ':' :: ' ' :: (render Y d t ++ r), ⟨hn, ends_of (by decide), by rw [render]; simp⟩, rfl⟩
  | struct n t ts hn h0 ht hts =>
    exact ⟨_, _, by rw [render]; exact cut_node hY d _ n hn _ r, tag_op hY d _ _⟩
  | tuple n t ts hn ht hts =>
    exact ⟨_, _, by rw [render]; exact cut_node hY d _ n hn _ r, tag_op hY d _ _⟩
  | list ts hts =>
    cases ts with
    | nil => exact ⟨[], '[' :: ']' :: r, ⟨unmarked_nil, ends_of (by decide), by rw [render]; rfl⟩, rfl⟩
    | cons t ts => exact ⟨_, _, by rw [render]; exact cut_node hY d _ [] unmarked_nil _ r, tag_op hY d _ _⟩

mutual
theorem render_inj : ∀ (t u : DTree), WF t → WF u → ∀ (d : Nat) (r s : List Char), Stop r → Stop s →
    render Y d t ++ r = render Y d u ++ s → t = u ∧ r = s
  | .leaf a, u, ht, hu, d, r, s, hr, hs, h => by
    obtain ⟨p, q, hp, hq⟩ := cut_render hY ht d hr
    obtain ⟨p', q', hp', hq'⟩ := cut_render hY hu d hs
    have e := (cut_eq (h ▸ hp) hp').2
    rw [e, hq'] at hq
    match u, hu with
    | .field _ _, _ => simp only at hq; split at hq <;> simp at hq
    | .node .struct _ _, _ => simp only at hq; split at hq <;> simp at hq
    | .node .tuple _ _, _ => simp only at hq; split at hq <;> simp at hq
    | .node .list _ _, _ => simp only at hq; split at hq <;> simp at hq
    | .leaf b, hu =>
      simp only at hq
      rw [render, render] at h
      have head : ∀ x : List Char, Unmarked x → x.head? ≠ some '"' := by
        intro x hx h
        cases x with
        | nil => simp at h
        | cons c x => simp at h; subst h; exact absurd (unmarked_head hx) (by decide)
      cases ht with
      | plain _ ha _ =>
        cases hu with
        | plain _ hb _ =>
          obtain ⟨h1, h2⟩ := split_word ha hb (stop_ends hr) (stop_ends hs) h
          exact ⟨by rw [h1], h2⟩
        | quoted _ hb =>
          obtain ⟨y, _, rfl⟩ := hb
          simp [head a ha] at hq
      | quoted _ ha =>
        cases hu with
        | plain _ hb _ =>
          obtain ⟨y, _, rfl⟩ := ha
          simp [head b hb] at hq
        | quoted _ hb =>
          obtain ⟨h1, h2⟩ := quoted_inj ha hb h
          exact ⟨by rw [h1], h2⟩
  | .field n t, u, ht, hu, d, r, s, hr, hs, h => by
    obtain ⟨p, q, hp, hq⟩ := cut_render hY ht d hr
    obtain ⟨p', q', hp', hq'⟩ := cut_render hY hu d hs
    have e := (cut_eq (h ▸ hp) hp').2
    rw [e, hq'] at hq
    match u, hu with
    | .leaf _, _ => simp only at hq; split at hq <;> simp at hq
    | .node .struct _ _, _ => simp at hq
    | .node .tuple _ _, _ => simp at hq
    | .node .list _ _, _ => simp at hq
    | .field m u, hu =>
      cases ht with
      | field _ _ hn _ ht =>
        cases hu with
        | field _ _ hm _ hu =>
          rw [render, render, List.append_assoc, List.append_assoc] at h
          obtain ⟨h1, h2⟩ := split_word hn hm (ends_of (by decide)) (ends_of (by decide)) h
          have h2' : ':' :: ' ' :: (render Y d t ++ r) = ':' :: ' ' :: (render Y d u ++ s) := h2
          simp only [List.cons.injEq, true_and] at h2'
          obtain ⟨h3, h4⟩ := render_inj t u ht hu d r s hr hs h2'
          exact ⟨by rw [h1, h3], h4⟩
  | .node b n [], u, ht, hu, d, r, s, hr, hs, h => by
    obtain ⟨p, q, hp, hq⟩ := cut_render hY ht d hr
    obtain ⟨p', q', hp', hq'⟩ := cut_render hY hu d hs
    have e := (cut_eq (h ▸ hp) hp').2
    rw [e, hq'] at hq
    cases ht
    match u, hu with
    | .leaf _, _ => simp only at hq; split at hq <;> simp at hq
    | .field _ _, _ => simp at hq
    | .node .struct _ _, _ => simp at hq
    | .node .tuple _ _, _ => simp at hq
    | .node .list _ [], hu =>
      cases hu
      rw [render] at h
      exact ⟨rfl, List.append_cancel_left h⟩
    | .node .list _ (u :: us), hu =>
      cases hu with
      | list _ hus =>
        cases hus with
        | cons _ _ hu hus =>
          exfalso
          rw [render, render] at h
          simp only [List.nil_append, List.append_assoc] at h
          obtain ⟨c, x, hx, hc, _⟩ := render_head hY hu (d + 1) (rest Y d .list us ++ s)
          rw [hx] at h
          exact hY.empty d c x r hc h.symm
  | .node b n (t :: ts), u, ht, hu, d, r, s, hr, hs, h => by
    obtain ⟨p, q, hp, hq⟩ := cut_render hY ht d hr
    obtain ⟨p', q', hp', hq'⟩ := cut_render hY hu d hs
    have e := (cut_eq (h ▸ hp) hp').2
    rw [e, hq'] at hq
    have parts : Unmarked n ∧ WF t ∧ WFs ts := by
      cases ht with
      | struct _ _ _ hn _ ht hts => exact ⟨hn, ht, hts⟩
      | tuple _ _ _ hn ht hts => exact ⟨hn, ht, hts⟩
      | list _ hts => cases hts with | cons _ _ ht hts => exact ⟨unmarked_nil, ht, hts⟩
    obtain ⟨hn, wt, wts⟩ := parts
    match u, hu with
    | .leaf _, _ => cases b <;> simp only at hq <;> split at hq <;> simp at hq
    | .field _ _, _ => cases b <;> simp at hq
    | .node b' m [], hu =>
      cases hu
      cases b with
      | struct => simp at hq
      | tuple => simp at hq
      | list =>
        cases ht
        exfalso
        rw [render, render] at h
        simp only [List.nil_append, List.append_assoc] at h
        obtain ⟨c, x, hx, hc, _⟩ := render_head hY wt (d + 1) (rest Y d .list ts ++ r)
        rw [hx] at h
        exact hY.empty d c x s hc h
    | .node b' m (u :: us), hu =>
      have hb : b = b' := by
        cases b <;> cases b' <;> first | rfl | (simp at hq)
      subst hb
      have parts : Unmarked m ∧ WF u ∧ WFs us := by
        cases hu with
        | struct _ _ _ hn _ ht hts => exact ⟨hn, ht, hts⟩
        | tuple _ _ _ hn ht hts => exact ⟨hn, ht, hts⟩
        | list _ hts => cases hts with | cons _ _ ht hts => exact ⟨unmarked_nil, ht, hts⟩
      obtain ⟨hm, wu, wus⟩ := parts
      rw [render, render] at h
      obtain ⟨h1, h2⟩ := cut_eq (h ▸ cut_node hY d b n hn _ r) (cut_node hY d b m hm _ s)
      have h3 := List.append_cancel_left h2
      rw [List.append_assoc, List.append_assoc] at h3
      obtain ⟨h4, h5⟩ := render_inj t u wt wu (d + 1) _ _ (stop_rest hY d b r ts) (stop_rest hY d b s us) h3
      obtain ⟨h6, h7⟩ := rest_inj ts us wts wus b d r s hr hs h5
      exact ⟨by rw [h1, h4, h6], h7⟩
theorem rest_inj : ∀ (ts us : List DTree), WFs ts → WFs us → ∀ (b : Builder) (d : Nat) (r s : List Char), Stop r → Stop s →
    rest Y d b ts ++ r = rest Y d b us ++ s → ts = us ∧ r = s
  | [], [], _, _, b, d, r, s, _, _, h => by
    rw [rest] at h
    exact ⟨rfl, List.append_cancel_left h⟩
  | [], u :: us, _, _, b, d, r, s, _, _, h => by
    rw [rest, rest, List.append_assoc (Y.sep d)] at h
    exact absurd h.symm (hY.apart b d _ _)
  | t :: ts, [], _, _, b, d, r, s, _, _, h => by
    rw [rest, rest, List.append_assoc (Y.sep d)] at h
    exact absurd h (hY.apart b d _ _)
  | t :: ts, u :: us, ht, hu, b, d, r, s, hr, hs, h => by
    cases ht with
    | cons _ _ wt wts =>
      cases hu with
      | cons _ _ wu wus =>
        rw [rest, rest] at h
        simp only [List.append_assoc] at h
        have h3 := List.append_cancel_left h
        obtain ⟨h4, h5⟩ := render_inj t u wt wu (d + 1) _ _ (stop_rest hY d b r ts) (stop_rest hY d b s us) h3
        obtain ⟨h6, h7⟩ := rest_inj ts us wts wus b d r s hr hs h5
        exact ⟨by rw [h4, h6], h7⟩
end

end

/-! ### `{:?}` -/

/-- Everything in one line -/
def flatLayout : Layout where
  op b _ := match b with
    | .struct => [' ', '{', ' ']
    | .tuple => ['(']
    | .list => ['[']
  sep _ := [',', ' ']
  close b _ := match b with
    | .struct => [' ', '}']
    | .tuple => [')']
    | .list => [']']

theorem flat_lawful : Lawful flatLayout where
  op b d := match b with
    | .struct => ⟨[' '], rfl⟩
    | .tuple => ⟨[], rfl⟩
    | .list => ⟨[], rfl⟩
  empty d c x y hc h := by simp [flatLayout] at h; exact hc h.1
  sep d r := .inr (.inl ⟨',', ' ' :: r, rfl, by decide⟩)
  close b d r := by
    cases b
    · exact .inr (.inr ⟨r, rfl⟩)
    · exact .inr (.inl ⟨')', r, rfl, by decide⟩)
    · exact .inr (.inl ⟨']', r, rfl, by decide⟩)
  apart b d x y h := by cases b <;> simp [flatLayout] at h

mutual
theorem flat_eq : ∀ (t : DTree) (d : Nat), t.flat = render flatLayout d t
  | .leaf s, d => by rw [DTree.flat, render]
  | .field n t, d => by rw [DTree.flat, render, flat_eq t d]; simp
  | .node b n [], d => by rw [DTree.flat, render, DTree.flats, Builder.flat.eq_def]; simp
  | .node b n (t :: ts), d => by
    rw [DTree.flat, render, DTree.flats, Builder.flat.eq_def, if_neg (by simp), flat_eq t (d + 1)]
    have := flats_eq ts d b (render flatLayout (d + 1) t)
    cases b <;> simp [flatLayout] at this ⊢ <;> exact this
theorem flats_eq : ∀ (ts : List DTree) (d : Nat) (b : Builder) (x : List Char),
    sepBy [',', ' '] (x :: DTree.flats ts) ++ flatLayout.close b d = x ++ rest flatLayout d b ts
  | [], d, b, x => by rw [DTree.flats, sepBy, rest]
  | t :: ts, d, b, x => by
    rw [DTree.flats, sepBy, rest, flat_eq t (d + 1), List.append_assoc, List.append_assoc, flats_eq ts d b]
    rfl
end

theorem flat_inj {t u : DTree} (ht : WF t) (hu : WF u) (h : t.flat = u.flat) : t = u := by
  rw [flat_eq t 0, flat_eq u 0] at h
  exact (render_inj flat_lawful t u ht hu 0 [] [] (.inl rfl) (.inl rfl) (by simpa using h)).1

/-! ### `{:#?}` -/

/-- A line break with the indentation of a depth -/
def ind (d : Nat) : List Char := List.replicate (4 * d) ' '

theorem ind_succ (d : Nat) : ind (d + 1) = ' ' :: ' ' :: ' ' :: ' ' :: ind d := by
  simp [ind, Nat.mul_add, List.replicate_succ]

theorem ind_succ' (d : Nat) : ind (d + 1) = ind d ++ [' ', ' ', ' ', ' '] := by
  rw [ind, ind, Nat.mul_add, ← List.replicate_append_replicate]
  rfl

/-- One item per line -/
def prettyLayout (trailing : Bool) : Layout where
  op b d := match b with
    | .struct => [' ', '{', '\n'] ++ ind (d + 1)
    | .tuple => ['(', '\n'] ++ ind (d + 1)
    | .list => ['[', '\n'] ++ ind (d + 1)
  sep d := [',', '\n'] ++ ind (d + 1)
  close b d := (if trailing then [','] else []) ++ ('\n' :: ind d) ++ match b with
    | .struct => ['}']
    | .tuple => [')']
    | .list => [']']

theorem pretty_lawful (trailing : Bool) : Lawful (prettyLayout trailing) where
  op b d := match b with
    | .struct => ⟨'\n' :: ind (d + 1), rfl⟩
    | .tuple => ⟨'\n' :: ind (d + 1), rfl⟩
    | .list => ⟨'\n' :: ind (d + 1), rfl⟩
  empty d c x y hc h := by simp [prettyLayout] at h
  sep d r := .inr (.inl ⟨',', '\n' :: (ind (d + 1) ++ r), rfl, by decide⟩)
  close b d r := by
    cases trailing
    · exact .inr (.inl ⟨'\n', _, by simp [prettyLayout]; rfl, by decide⟩)
    · exact .inr (.inl ⟨',', _, by simp [prettyLayout]; rfl, by decide⟩)
  apart b d x y h := by
    cases trailing
    · cases b <;> simp [prettyLayout] at h
    · cases b <;> simp [prettyLayout, ind_succ'] at h

/-- The same text one level deeper -/
inductive Shifted : List Char → List Char → Prop
  | nil : Shifted [] []
  | chr (c : Char) (x y : List Char) (hc : c ≠ '\n') (h : Shifted x y) : Shifted (c :: x) (c :: y)
  | brk (d : Nat) (x y : List Char) (h : Shifted x y) (hx : ∃ c s, x = c :: s ∧ c ≠ '\n') :
      Shifted ('\n' :: (ind d ++ x)) ('\n' :: (ind (d + 1) ++ y))

theorem pad_ind : ∀ (k : Nat) (x : List Char), padAdapter false (List.replicate k ' ' ++ x) = List.replicate k ' ' ++ padAdapter false x
  | 0, x => by simp
  | k + 1, x => by
    have := pad_ind k x
    simp [List.replicate_succ, padAdapter, this]

theorem pad_true {x : List Char} (h : ∃ c s, x = c :: s) : padAdapter true x = "    ".toList ++ padAdapter false x := by
  obtain ⟨c, s, rfl⟩ := h
  simp [padAdapter]

theorem shifted_pad {x y : List Char} (h : Shifted x y) (r : List Char) : padAdapter false (x ++ r) = y ++ padAdapter false r := by
  induction h with
  | nil => rfl
  | chr c x y hc h ih =>
    have : (c == '\n') = false := by simpa using hc
    simp [padAdapter, this, ih]
  | brk d x y h hx ih =>
    obtain ⟨c, s, hcs, hc⟩ := hx
    have h1 : padAdapter true (ind d ++ x ++ r) = "    ".toList ++ padAdapter false (ind d ++ x ++ r) := by
      apply pad_true
      cases hd : ind d with
      | nil => exact ⟨c, s ++ r, by simp [hcs]⟩
      | cons e l => exact ⟨e, l ++ x ++ r, by simp⟩
    have h2 : padAdapter false (ind d ++ (x ++ r)) = ind d ++ padAdapter false (x ++ r) := pad_ind _ _
    have h3 : padAdapter false ('\n' :: (ind d ++ x) ++ r) = '\n' :: padAdapter true (ind d ++ x ++ r) := by
      simp [padAdapter]
    rw [h3, h1, List.append_assoc, h2, ih, ind_succ]
    simp

theorem shifted_word : ∀ {n : List Char}, '\n' ∉ n → ∀ {x y}, Shifted x y → Shifted (n ++ x) (n ++ y)
  | [], _, _, _, h => h
  | c :: n, hn, x, y, h => .chr c _ _ (by rintro rfl; simp at hn) (shifted_word (n := n) (by intro h; apply hn; simp [h]) h)

theorem unmarked_line {n : List Char} (h : Unmarked n) : '\n' ∉ n := fun hn => h _ hn (by decide)

theorem escaped_line {b : List Char} (h : Escaped b) : '\n' ∉ b := by
  induction h with
  | nil => simp
  | plain c s hc _ ih => simp [ih, hc.2.2.symm]
  | slash c s hc _ ih => simp [ih, hc.symm]

theorem quoted_line {s : List Char} (h : Quoted s) : '\n' ∉ s := by
  obtain ⟨b, hb, rfl⟩ := h
  simp [escaped_line hb]

section
variable (c : Bool)

theorem shifted_op (b : Builder) (d : Nat) {x y : List Char} (h : Shifted x y) (hx : ∃ c s, x = c :: s ∧ c ≠ '\n') :
    Shifted ((prettyLayout c).op b d ++ x) ((prettyLayout c).op b (d + 1) ++ y) := by
  have := Shifted.brk (d + 1) x y h hx
  cases b
  · exact .chr _ _ _ (by decide) (.chr _ _ _ (by decide) this)
  · exact .chr _ _ _ (by decide) this
  · exact .chr _ _ _ (by decide) this

theorem shifted_sep (d : Nat) {x y : List Char} (h : Shifted x y) (hx : ∃ c s, x = c :: s ∧ c ≠ '\n') :
    Shifted ((prettyLayout c).sep d ++ x) ((prettyLayout c).sep (d + 1) ++ y) :=
  .chr _ _ _ (by decide) (Shifted.brk (d + 1) x y h hx)

theorem shifted_close (b : Builder) (d : Nat) {x y : List Char} (h : Shifted x y) :
    Shifted ((prettyLayout c).close b d ++ x) ((prettyLayout c).close b (d + 1) ++ y) := by
  have key : ∀ e : Char, e ≠ '\n' → Shifted ('\n' :: (ind d ++ e :: x)) ('\n' :: (ind (d + 1) ++ e :: y)) := fun e he =>
    .brk d _ _ (.chr e _ _ he h) ⟨e, x, rfl, he⟩
  cases c <;> cases b <;> simp only [prettyLayout, List.append_assoc, List.cons_append, List.nil_append, if_true, Bool.false_eq_true, if_false]
  · exact key '}' (by decide)
  · exact key ')' (by decide)
  · exact key ']' (by decide)
  · exact .chr _ _ _ (by decide) (key '}' (by decide))
  · exact .chr _ _ _ (by decide) (key ')' (by decide))
  · exact .chr _ _ _ (by decide) (key ']' (by decide))

theorem head_line {t : DTree} (h : WF t) (d : Nat) (r : List Char) :
    ∃ e x, render (prettyLayout c) d t ++ r = e :: x ∧ e ≠ '\n' := by
  obtain ⟨e, x, h1, _, h2⟩ := render_head (pretty_lawful c) h d r
  exact ⟨e, x, h1, h2⟩

mutual
theorem shifted_render : ∀ (t : DTree), WF t → ∀ (d : Nat) (x y : List Char), Shifted x y →
    Shifted (render (prettyLayout c) d t ++ x) (render (prettyLayout c) (d + 1) t ++ y)
  | .leaf s, ht, d, x, y, h => by
    rw [render, render]
    refine shifted_word ?_ h
    cases ht with
    | plain _ hs _ => exact unmarked_line hs
    | quoted _ hs => exact quoted_line hs
  | .field n t, ht, d, x, y, h => by
    cases ht with
    | field _ _ hn _ ht =>
      rw [render, render, List.append_assoc, List.append_assoc]
      refine shifted_word (unmarked_line hn) ?_
      exact .chr _ _ _ (by decide) (.chr _ _ _ (by decide) (shifted_render t ht d x y h))
  | .node b n [], ht, d, x, y, h => by
    cases ht
    rw [render, render, List.append_assoc]
    exact .chr _ _ _ (by decide) (.chr _ _ _ (by decide) h)
  | .node b n (t :: ts), ht, d, x, y, h => by
    have parts : Unmarked n ∧ WF t ∧ WFs ts := by
      cases ht with
      | struct _ _ _ hn _ ht hts => exact ⟨hn, ht, hts⟩
      | tuple _ _ _ hn ht hts => exact ⟨hn, ht, hts⟩
      | list _ hts => cases hts with | cons _ _ ht hts => exact ⟨unmarked_nil, ht, hts⟩
    obtain ⟨hn, wt, wts⟩ := parts
    rw [render, render]
    simp only [List.append_assoc]
    refine shifted_word (unmarked_line hn) (shifted_op c b d (shifted_render t wt (d + 1) _ _ (shifted_rest ts wts b d x y h)) ?_)
    exact head_line c wt _ _
theorem shifted_rest : ∀ (ts : List DTree), WFs ts → ∀ (b : Builder) (d : Nat) (x y : List Char), Shifted x y →
    Shifted (rest (prettyLayout c) d b ts ++ x) (rest (prettyLayout c) (d + 1) b ts ++ y)
  | [], _, b, d, x, y, h => by rw [rest, rest]; exact shifted_close c b d h
  | t :: ts, ht, b, d, x, y, h => by
    cases ht with
    | cons _ _ wt wts =>
      rw [rest, rest]
      simp only [List.append_assoc]
      exact shifted_sep c d (shifted_render t wt (d + 1) _ _ (shifted_rest ts wts b d x y h)) (head_line c wt _ _)
end

/-- An item on lines of its own -/
theorem pad_item {t : DTree} (h : WF t) (e : List Char) (he : padAdapter false e = e) (h0 : e ≠ []) :
    padAdapter true (render (prettyLayout c) 0 t ++ e) = ind 1 ++ (render (prettyLayout c) 1 t ++ e) := by
  have hs := shifted_render c t h 0 [] [] .nil
  simp only [List.append_nil] at hs
  obtain ⟨x, y, hx, _⟩ := head_line c h 0 e
  rw [pad_true ⟨x, y, hx⟩, shifted_pad hs e, he]
  rfl

mutual
theorem pretty_eq : ∀ (t : DTree), WF t → t.pretty c = render (prettyLayout c) 0 t
  | .leaf s, _ => by rw [DTree.pretty, render]
  | .field n t, ht => by
    cases ht with
    | field _ _ _ _ ht => rw [DTree.pretty, render, pretty_eq t ht]; simp
  | .node b n [], _ => by rw [DTree.pretty, render, DTree.pretties, Builder.pretty]; simp
  | .node b n (t :: ts), ht => by
    have parts : WF t ∧ WFs ts := by
      cases ht with
      | struct _ _ _ hn _ ht hts => exact ⟨ht, hts⟩
      | tuple _ _ _ hn ht hts => exact ⟨ht, hts⟩
      | list _ hts => cases hts with | cons _ _ ht hts => exact ⟨ht, hts⟩
    obtain ⟨wt, wts⟩ := parts
    rw [DTree.pretty, render, DTree.pretties, Builder.pretty, if_neg (by simp), pretty_eq t wt]
    have := pretties_eq ts wts b t wt
    cases b <;> simp [prettyLayout] at this ⊢ <;> rw [this]
theorem pretties_eq : ∀ (ts : List DTree), WFs ts → ∀ (b : Builder) (t : DTree), WF t →
    (endLines c (render (prettyLayout c) 0 t :: DTree.pretties c ts)).flatMap (padAdapter true) ++
        (match b with | .struct => ['}'] | .tuple => [')'] | .list => [']']) =
      ind 1 ++ (render (prettyLayout c) 1 t ++ rest (prettyLayout c) 0 b ts)
  | [], _, b, t, ht => by
    rw [DTree.pretties, endLines, rest]
    simp only [List.flatMap_cons, List.flatMap_nil, List.append_nil]
    rw [pad_item c ht _ (by cases c <;> decide) (by cases c <;> decide)]
    cases c <;> simp [prettyLayout, ind]
  | u :: us, hu, b, t, ht => by
    cases hu with
    | cons _ _ wu wus =>
      rw [DTree.pretties, endLines, List.flatMap_cons, pad_item c ht _ (by decide) (by decide), pretty_eq u wu, List.append_assoc,
        pretties_eq us wus b u wu, rest]
      simp [prettyLayout]
end

end

theorem pretty_inj (c : Bool) {t u : DTree} (ht : WF t) (hu : WF u) (h : t.pretty c = u.pretty c) : t = u := by
  rw [pretty_eq c t ht, pretty_eq c u hu] at h
  exact (render_inj (pretty_lawful c) t u ht hu 0 [] [] (.inl rfl) (.inl rfl) (by simpa using h)).1

mutual
theorem flat_line : ∀ (t : DTree), WF t → ∀ d, '\n' ∉ render flatLayout d t
  | .leaf s, ht, d => by
    rw [render]
    cases ht with
    | plain _ hs _ => exact unmarked_line hs
    | quoted _ hs => exact quoted_line hs
  | .field n t, ht, d => by
    cases ht with
    | field _ _ hn _ ht =>
      rw [render]
      simp [unmarked_line hn, flat_line t ht d]
  | .node b n [], ht, d => by
    cases ht
    rw [render]
    decide
  | .node b n (t :: ts), ht, d => by
    have parts : Unmarked n ∧ WF t ∧ WFs ts := by
      cases ht with
      | struct _ _ _ hn _ ht hts => exact ⟨hn, ht, hts⟩
      | tuple _ _ _ hn ht hts => exact ⟨hn, ht, hts⟩
      | list _ hts => cases hts with | cons _ _ ht hts => exact ⟨unmarked_nil, ht, hts⟩
    obtain ⟨hn, wt, wts⟩ := parts
    rw [render]
    have h1 := flat_line t wt (d + 1)
    have h2 := flat_lines ts wts b d
    have h3 : '\n' ∉ flatLayout.op b d := by cases b <;> simp [flatLayout]
    simp [unmarked_line hn, h1, h2, h3]
theorem flat_lines : ∀ (ts : List DTree), WFs ts → ∀ b d, '\n' ∉ rest flatLayout d b ts
  | [], _, b, d => by rw [rest]; cases b <;> simp [flatLayout]
  | t :: ts, ht, b, d => by
    cases ht with
    | cons _ _ wt wts =>
      rw [rest]
      have h1 := flat_line t wt (d + 1)
      have h2 := flat_lines ts wts b d
      have h3 : '\n' ∉ flatLayout.sep d := by simp [flatLayout]
      simp [h1, h2, h3]
end

end Pbrt.Proof.DebugTree
