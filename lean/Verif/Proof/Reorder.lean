import Verif.Spec.Reorder
import Verif.Proof.ParseProps
import Verif.Proof.Format

/-!
# The order of parameters: proofs
-/

namespace Pbrt.Proof.Reorder

open Spec

variable {F : Type} {E : Env F}

theorem filterMap_kind {α : Type} {ps qs : List (SParam F)} (h : SameByType ps qs) (k : Kind)
    (f : SParam F → Option α) (hf : ∀ p, p.val.kind ≠ k → f p = none) : ps.filterMap f = qs.filterMap f := by
  have key : ∀ l : List (SParam F), l.filterMap f = (l.filter (fun p => p.val.kind = k)).filterMap f := by
    intro l
    rw [List.filterMap_filter]
    congr 1
    funext p
    by_cases hp : p.val.kind = k
    · simp [hp]
    · simp [hp, hf p hp]
  rw [key ps, key qs, h k]

/-- What a directive stores depends on the parameters of each type only. -/
theorem collect_same {ps qs : List (SParam F)} (h : SameByType ps qs) : collect ps = collect qs := by
  unfold collect
  rw [filterMap_kind h .bools, filterMap_kind h .ints, filterMap_kind h .floats, filterMap_kind h .point2s,
    filterMap_kind h .vector2s, filterMap_kind h .spectra, filterMap_kind h .strings, filterMap_kind h .textures]
  all_goals
    rintro ⟨_, _, v⟩ hp
    cases v <;> first | rfl | exact absurd rfl hp

theorem same_symm {ps qs : List (SParam F)} (h : SameByType ps qs) : SameByType qs ps := fun k => (h k).symm

theorem same_append {ps qs rs : List (SParam F)} (h : SameByType ps qs) : SameByType (ps ++ rs) (qs ++ rs) := by
  intro k
  rw [List.filter_append, List.filter_append, h k]

theorem swap_symm {n : Nat} {a b : List (Token F)} (h : Swap E n a b) : Swap E n b a := by
  obtain ⟨strs, ts, us, rest, ps, qs, h1, h2, h3, h4, h5, h6, h7⟩ := h
  exact ⟨strs, us, ts, rest, qs, ps, h2, h1, h3, h4, h6, h5, same_symm h7⟩

/-- Parameters at the start of a list are read first. -/
theorem params_prefix {a d : List (Token F)} {xs ys : List (SParam F)} (hm : Many (ParamText E) a xs)
    (h : ParamsText E (a ++ d) ys) : ∃ zs, ParamsText E d zs ∧ collect ys = collect (xs ++ zs) := by
  obtain ⟨a1, zs, rest, rfl, hm1, hf⟩ := params_split E _ d (Nat.le_refl _)
  have hmm := many_append hm hm1
  rcases parseParamList_out E (collect (xs ++ zs)) ([] ++ (a ++ a1)) rest with ⟨b, p, c, h1, h2, _⟩ |
    ⟨b, c, e, h1, h2, h3⟩
  · exact absurd ⟨b, p, c, h1, h2⟩ hf
  have r1 := parseParamLists_run E hmm [] rest h2
  have r2 := parseParamLists_ok E h [] stop_nil
  rw [List.append_nil, ← List.append_assoc] at r2
  rw [r2] at r1
  injection r1 with e1 e2
  injection e1 with e1
  have e3 := congrArg Parser.index e2
  simp only [PS, List.nil_append, List.length_append] at e3
  rw [h1, List.length_append] at e3
  have : c = [] := List.eq_nil_of_length_eq_zero (by omega)
  subst this
  rw [List.append_nil] at h1
  exact ⟨zs, ⟨a1, b, by rw [h1], hm1, h3⟩, e1⟩

theorem params_swap {ts us rest : List (Token F)} {ps qs ys : List (SParam F)} (h1 : Many (ParamText E) ts ps)
    (h2 : Many (ParamText E) us qs) (hs : SameByType ps qs) (h : ParamsText E (ts ++ rest) ys) :
    ∃ zs, ParamsText E (us ++ rest) zs ∧ collect ys = collect zs := by
  obtain ⟨zs, ⟨a, d, rfl, h3, h4⟩, h5⟩ := params_prefix h1 h
  refine ⟨qs ++ zs, ⟨us ++ a, d, by simp, many_append h2 h3, h4⟩, ?_⟩
  rw [h5]
  exact collect_same (same_append hs)

theorem not_isId_str {t : Token F} (h : ∃ s, t.ty = .Str s) : ¬ IsId t := by
  obtain ⟨p, ty⟩ := t
  obtain ⟨s, rfl⟩ := h
  exact not_isId _ _ (by simp)

/-- The reordered part ends before the next keyword. -/
theorem swap_append {n : Nat} {y b z : List (Token F)} (h : Swap E n (y ++ b) z) (hb : Stop b) :
    ∃ y', z = y' ++ b ∧ Swap E n y y' := by
  obtain ⟨strs, ts, us, rest, ps, qs, h1, rfl, h3, h4, h5, h6, h7⟩ := h
  have hno : NoId (strs ++ ts) := noId_append (fun t ht => not_isId_str (h4 t ht)) (noId_many noId_param h5)
  rcases List.append_eq_append_iff.1 h1 with ⟨c, h8, h9⟩ | ⟨c, h8, h9⟩
  · cases c with
    | nil =>
      rw [List.append_nil] at h8
      rw [List.nil_append] at h9
      subst h9
      exact ⟨strs ++ us, by simp, strs, ts, us, [], ps, qs, by simp [← h8], by simp, h3, h4, h5, h6, h7⟩
    | cons t c =>
      exact absurd (hb t (by rw [h9]; rfl)) (hno t (by rw [h8]; simp))
  · subst h9
    exact ⟨strs ++ us ++ c, by simp, strs, ts, us, c, ps, qs, h8, rfl, h3, h4, h5, h6, h7⟩

theorem swap_head {n : Nat} {y z : List (Token F)} (h : Swap E n y z) (hn : n ≠ 0) : ¬ Stop y := by
  obtain ⟨strs, ts, us, rest, ps, qs, rfl, rfl, h3, h4, h5, h6, h7⟩ := h
  cases strs with
  | nil => exact absurd h3.symm hn
  | cons t strs => exact fun hs => not_isId_str (h4 t (by simp)) (hs t (by simp))

theorem typed_swap {key : String} {p : Pos} {y y' : List (Token F)} {d : DirectiveStruct F}
    (h : Typed E key (kw p key :: y) d) (hs : Swap E 1 y y') : Typed E key (kw p key :: y') d := by
  obtain ⟨q, rest, ps, h1, h2, h3⟩ := h
  obtain ⟨strs, ts, us, rest', ps', qs', rfl, rfl, h4, h5, h6, h7, h8⟩ := hs
  obtain ⟨t, rfl⟩ := List.length_eq_one_iff.1 h4
  simp only [List.cons.injEq, List.cons_append, List.nil_append, List.append_eq] at h1
  obtain ⟨h9, rfl, rfl⟩ := h1
  obtain ⟨zs, h10, h11⟩ := params_swap h6 h7 h8 h2
  exact ⟨q, us ++ rest', zs, by rw [h9]; simp, h10, by rw [h3, h11]⟩

theorem typed_key {key k : String} {p : Pos} {y : List (Token F)} {d : DirectiveStruct F}
    (h : Typed E key (kw p k :: y) d) : k = key := by
  obtain ⟨q, rest, ps, h1, -, -⟩ := h
  injection h1 with h1 _
  injection h1 with _ h1
  injection h1

theorem leaf {key k : String} {n : Nat} {x y y' ts : List (Token F)} {p : Pos} {d : DirectiveStruct F}
    (h : Typed E key ts d) (ho : ts = x ++ kw p k :: y) (hk : (k, n) ∈ paramKeys)
    (h1 : ∀ n, (key, n) ∈ paramKeys → n = 1) (hs : Swap E n y y') : Typed E key (x ++ kw p k :: y') d := by
  obtain ⟨b, hb, hno, -⟩ := typed_noId h
  obtain ⟨rfl, h4, rfl⟩ := only_head hno (hb.symm.trans ho)
  rw [ho, List.nil_append] at h
  have := typed_key h
  subst this
  rw [h1 n hk] at hs
  exact typed_swap h hs

theorem pre_swap {n : Nat} {y y' x a : List (Token F)} {p : Pos} {k : String} {d : PreDirective F} (h : PreText E a d)
    (ho : a = x ++ kw p k :: y) (hk : (k, n) ∈ paramKeys) (hs : Swap E n y y') : PreText E (x ++ kw p k :: y') d := by
  have hn : n ≠ 0 := by
    rintro rfl
    simp [paramKeys] at hk
  have other : ∀ {key : String} {q : Pos} {ts : List (Token F)}, NoId ts → kw q key :: ts = x ++ kw p k :: y →
      (∀ n, (key, n) ∉ paramKeys) → False := by
    intro key q ts h1 h2 h3
    obtain ⟨-, h4, -⟩ := only_head h1 h2
    injection h4 with _ h5; injection h5 with h5; subst h5
    exact h3 n hk
  cases h with
  | identity q => exact (other noId_nil ho (by simp [paramKeys])).elim
  | translate q ts _ _ _ h => exact (other (noId_many (noId_num E) h) ho (by simp [paramKeys])).elim
  | scale q ts _ _ _ h => exact (other (noId_many (noId_num E) h) ho (by simp [paramKeys])).elim
  | rotate q ts _ _ _ _ h => exact (other (noId_many (noId_num E) h) ho (by simp [paramKeys])).elim
  | lookAt q ts _ _ _ _ _ _ _ _ _ h => exact (other (noId_many (noId_num E) h) ho (by simp [paramKeys])).elim
  | transform q ts _ _ _ _ _ _ _ _ _ h => exact (other (noId_many (noId_num E) h) ho (by simp [paramKeys])).elim
  | concatTransform q ts _ _ _ _ _ _ _ _ _ h => exact (other (noId_many (noId_num E) h) ho (by simp [paramKeys])).elim
  | transformTimes q ts _ _ h => exact (other (noId_many (noId_num E) h) ho (by simp [paramKeys])).elim
  | coordinateSystem q ts s h => exact (other (noId_str _ _ h) ho (by simp [paramKeys])).elim
  | coordSysTransform q ts s h => exact (other (noId_str _ _ h) ho (by simp [paramKeys])).elim
  | incl q ts s h => exact (other (noId_str _ _ h) ho (by simp [paramKeys])).elim
  | activeTransform q r s =>
    exfalso
    cases x with
    | nil =>
      simp only [List.nil_append, List.cons.injEq] at ho
      injection ho.1 with _ h6; injection h6 with h6; subst h6
      simp [paramKeys] at hk
    | cons u x =>
      simp only [List.cons_append, List.cons.injEq] at ho
      cases x with
      | nil =>
        simp only [List.nil_append, List.cons.injEq] at ho
        rw [← ho.2.2] at hs
        exact swap_head hs hn stop_nil
      | cons => simp at ho
  | camera _ d h => exact .camera _ _ (leaf h ho hk (by simp [paramKeys]) hs)
  | sampler _ d h => exact .sampler _ _ (leaf h ho hk (by simp [paramKeys]) hs)
  | film _ d h => exact .film _ _ (leaf h ho hk (by simp [paramKeys]) hs)
  | filter _ d h => exact .filter _ _ (leaf h ho hk (by simp [paramKeys]) hs)
  | integrator _ d h => exact .integrator _ _ (leaf h ho hk (by simp [paramKeys]) hs)
  | accelerator _ d h => exact .accelerator _ _ (leaf h ho hk (by simp [paramKeys]) hs)

theorem pres_swap {n : Nat} {a : List (Token F)} {ds : List (PreDirective F)} (h : Many (PreText E) a ds) :
    ∀ (x y y' : List (Token F)) (p : Pos) (k : String), a = x ++ kw p k :: y → (k, n) ∈ paramKeys → Swap E n y y' →
      Many (PreText E) (x ++ kw p k :: y') ds := by
  induction h with
  | nil => intro x y y' p k ho; simp at ho
  | cons a b d ds h hs ih =>
    intro x y y' p k ho hk hw
    rcases occ_append ho with ⟨y1, h1, rfl⟩ | ⟨x', h1, rfl⟩
    · obtain ⟨z, rfl, hz⟩ := swap_append hw (by simpa using stop_pres hs stop_nil)
      have := Many.cons _ b d ds (pre_swap h h1 hk hz) hs
      simpa using this
    · have := Many.cons _ _ d ds h (ih x' y y' p k h1 hk hw)
      simpa using this

mutual
theorem dirText_swap {n : Nat} {a : List (Token F)} {d : Directive F} (h : DirText E a d)
    (x y y' : List (Token F)) (p : Pos) (k : String) (ho : a = x ++ kw p k :: y) (hk : (k, n) ∈ paramKeys)
    (hs : Swap E n y y') : DirText E (x ++ kw p k :: y') d := by
  match h with
  | .attribute p' ts ds h =>
    cases x with
    | nil =>
      simp only [List.nil_append, List.cons.injEq] at ho
      injection ho.1 with _ h2; injection h2 with h2; subst h2
      simp [paramKeys] at hk
    | cons u x =>
      simp only [List.cons_append, List.cons.injEq] at ho
      rw [List.cons_append, ← ho.1]
      exact .attribute _ _ _ (dirsText_swap h x y y' p k ho.2 hk hs)
  | .transform p' ts ds h =>
    cases x with
    | nil =>
      simp only [List.nil_append, List.cons.injEq] at ho
      injection ho.1 with _ h2; injection h2 with h2; subst h2
      simp [paramKeys] at hk
    | cons u x =>
      simp only [List.cons_append, List.cons.injEq] at ho
      rw [List.cons_append, ← ho.1]
      exact .transform _ _ _ (dirsText_swap h x y y' p k ho.2 hk hs)
  | .world p' ts ds h =>
    cases x with
    | nil =>
      simp only [List.nil_append, List.cons.injEq] at ho
      injection ho.1 with _ h2; injection h2 with h2; subst h2
      simp [paramKeys] at hk
    | cons u x =>
      simp only [List.cons_append, List.cons.injEq] at ho
      rw [List.cons_append, ← ho.1]
      exact .world _ _ _ (dirsText_swap h x y y' p k ho.2 hk hs)
  | .material ts d h => exact .material _ _ (leaf h ho hk (by simp [paramKeys]) hs)
  | .shape ts d h => exact .shape _ _ (leaf h ho hk (by simp [paramKeys]) hs)
  | .lightSource ts d h => exact .lightSource _ _ (leaf h ho hk (by simp [paramKeys]) hs)
  | .areaLightSource ts d h => exact .areaLightSource _ _ (leaf h ho hk (by simp [paramKeys]) hs)
  | .incl p' ts s' h =>
    obtain ⟨-, h4, rfl⟩ := only_head (noId_str _ _ h) ho
    injection h4 with _ h5; injection h5 with h5; subst h5
    simp [paramKeys] at hk
  | .texture p' q₁ q₂ q₃ name ty cls ts ps h =>
    have hno : NoId (⟨q₁, .Str name⟩ :: ⟨q₂, .Str ty⟩ :: ⟨q₃, .Str cls⟩ :: ts) :=
      noId_cons (not_isId _ _ (by simp)) (noId_cons (not_isId _ _ (by simp))
        (noId_cons (not_isId _ _ (by simp)) (noId_params h)))
    obtain ⟨rfl, h4, h5⟩ := only_head hno ho
    injection h4 with h6 h7; injection h7 with h7; subst h6; subst h7
    have : n = 3 := by simpa [paramKeys] using hk
    subst this
    obtain ⟨strs, us, vs, rest', ps', qs', h8, rfl, h9, h10, h11, h12, h13⟩ := hs
    obtain ⟨t1, t2, t3, rfl⟩ := List.length_eq_three.1 h9
    rw [h8] at h5
    simp only [List.cons.injEq, List.cons_append, List.nil_append, List.append_eq] at h5
    obtain ⟨rfl, rfl, rfl, rfl⟩ := h5
    obtain ⟨zs, h14, h15⟩ := params_swap h11 h12 h13 h
    rw [h15]
    exact .texture _ _ _ _ _ _ _ _ _ h14

theorem dirsText_swap {n : Nat} {a : List (Token F)} {ds : List (Directive F)} (h : DirsText E a ds)
    (x y y' : List (Token F)) (p : Pos) (k : String) (ho : a = x ++ kw p k :: y) (hk : (k, n) ∈ paramKeys)
    (hs : Swap E n y y') : DirsText E (x ++ kw p k :: y') ds := by
  match h with
  | .nil => simp at ho
  | .block ts d hb h => exact .block _ _ hb (dirText_swap h x y y' p k ho hk hs)
  | .cons a b d ds hb h hd =>
    rcases occ_append ho with ⟨y1, h1, h2⟩ | ⟨x', h1, h2⟩
    · rw [h2] at hs
      obtain ⟨z, h3, hz⟩ := swap_append hs (by simpa using stop_dirs hd stop_nil)
      have := DirsText.cons _ b d ds hb (dirText_swap h x y1 z p k h1 hk hz) hd
      rw [h3]
      simpa using this
    · have := DirsText.cons _ _ d ds hb h (dirsText_swap hd x' y y' p k h1 hk hs)
      rw [h2]
      simpa using this
end

theorem not_key {p q : Pos} {s k : String} {n : Nat} (h : (kw p s : Token F) = kw q k) (hk : (k, n) ∈ paramKeys)
    (hs : ∀ n, (s, n) ∉ paramKeys) : False := by
  injection h with _ h; injection h with h; subst h
  exact hs n hk

theorem accepts_swap {n : Nat} {x y y' : List (Token F)} {p : Pos} {k : String} {pre : List (PreDirective F)}
    {w : Directive F} (h : Accepts E (x ++ kw p k :: y) pre w) (hk : (k, n) ∈ paramKeys) (hs : Swap E n y y') :
    Accepts E (x ++ kw p k :: y') pre w := by
  obtain ⟨a, q, body, e, rest, ds, h1, hm, hd, he, rfl⟩ := h
  rw [List.append_assoc] at h1
  rcases occ_append h1.symm with ⟨y1, h2, rfl⟩ | ⟨x1, h2, rfl⟩
  · obtain ⟨z, rfl, hz⟩ := swap_append hs (stop_kw _ _ _)
    exact ⟨_, q, body, e, rest, ds, by simp, pres_swap hm x y1 z p k h2 hk hz, hd, he, rfl⟩
  · cases x1 with
    | nil =>
      simp only [List.nil_append, List.cons_append, List.cons.injEq] at h2
      exact (not_key h2.1 hk (by simp [paramKeys])).elim
    | cons u x1 =>
      simp only [List.cons_append, List.cons.injEq] at h2
      obtain ⟨rfl, h2⟩ := h2
      rcases occ_append h2 with ⟨y1, h3, rfl⟩ | ⟨x2, h3, rfl⟩
      · obtain ⟨z, rfl, hz⟩ := swap_append hs (stop_end he _)
        exact ⟨a, q, _, e, rest, ds, by simp, hm, dirsText_swap hd x1 y1 z p k h3 hk hz, he, rfl⟩
      · cases x2 with
        | nil =>
          simp only [List.nil_append, List.cons.injEq] at h3
          obtain ⟨r, s, rfl, hs'⟩ := he
          refine (not_key h3.1 hk fun n hn => ?_).elim
          simp only [List.mem_cons, List.not_mem_nil, or_false] at hs'
          rcases hs' with rfl | rfl | rfl <;> simp [paramKeys] at hn
        | cons u x2 =>
          simp only [List.cons_append, List.cons.injEq] at h3
          exact ⟨a, q, body, e, x2 ++ kw p k :: y', ds, by rw [h3.1]; simp, hm, hd, he, rfl⟩

theorem unfinished_swap {n : Nat} {x y y' : List (Token F)} {p : Pos} {k : String}
    (h : Unfinished E (x ++ kw p k :: y)) (hk : (k, n) ∈ paramKeys) (hs : Swap E n y y') :
    Unfinished E (x ++ kw p k :: y') := by
  rcases h with ⟨pre, hm⟩ | ⟨a, q, body, pre, ds, h1, hm, hd⟩
  · exact .inl ⟨pre, pres_swap hm x y y' p k rfl hk hs⟩
  · rcases occ_append h1.symm with ⟨y1, h2, rfl⟩ | ⟨x1, h2, rfl⟩
    · obtain ⟨z, rfl, hz⟩ := swap_append hs (stop_kw _ _ _)
      exact .inr ⟨_, q, body, pre, ds, by simp, pres_swap hm x y1 z p k h2 hk hz, hd⟩
    · cases x1 with
      | nil =>
        simp only [List.nil_append, List.cons.injEq] at h2
        exact (not_key h2.1 hk (by simp [paramKeys])).elim
      | cons u x1 =>
        simp only [List.cons_append, List.cons.injEq] at h2
        obtain ⟨rfl, h2⟩ := h2
        exact .inr ⟨a, q, _, pre, ds, by simp, hm, dirsText_swap hd x1 y y' p k h2 hk hs⟩

end Pbrt.Proof.Reorder
