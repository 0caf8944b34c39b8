import Verif.Proof.ParseDir
import Verif.Proof.LexProps

/-!
# Consequences of the scene grammar used by the parser properties
-/

namespace Pbrt.Proof
open Pbrt.Spec

variable {F : Type}

/-! ### Where identifiers occur -/

/-- No token is an identifier. -/
def NoId (ts : List (Token F)) : Prop := ∀ t ∈ ts, ¬ IsId t

theorem noId_nil : NoId ([] : List (Token F)) := by intro t h; simp at h

theorem noId_append {a b : List (Token F)} (ha : NoId a) (hb : NoId b) : NoId (a ++ b) := by
  intro t ht
  rcases List.mem_append.1 ht with h | h
  · exact ha t h
  · exact hb t h

theorem noId_cons {t : Token F} {b : List (Token F)} (ha : ¬ IsId t) (hb : NoId b) :
    NoId (t :: b) := by
  intro u hu
  rcases List.mem_cons.1 hu with rfl | h
  · exact ha
  · exact hb u h

theorem noId_many {T : Type} {R : List (Token F) → T → Prop} (hR : ∀ a x, R a x → NoId a)
    {a : List (Token F)} {xs : List T} (h : Many R a xs) : NoId a := by
  induction h with
  | nil => exact noId_nil
  | cons a b x xs h _ ih => exact noId_append (hR a x h) ih

theorem not_isId (p : Pos) (v : TokenType F) (h : ∀ s, v ≠ .Identifier s) :
    ¬ IsId (⟨p, v⟩ : Token F) := by
  rintro ⟨q, s, h'⟩
  injection h' with _ h'
  exact h s h'

theorem noId_int (a : List (Token F)) (x : Int) (h : IntTok a x) : NoId a := by
  obtain ⟨p, rfl⟩ := h
  exact noId_cons (not_isId _ _ (by simp)) noId_nil

theorem noId_str (a : List (Token F)) (x : String) (h : StrTok a x) : NoId a := by
  obtain ⟨p, rfl⟩ := h
  exact noId_cons (not_isId _ _ (by simp)) noId_nil

theorem noId_bool (a : List (Token F)) (x : Bool) (h : BoolTok a x) : NoId a := by
  obtain ⟨p, rfl⟩ := h
  exact noId_cons (not_isId _ _ (by simp)) noId_nil

theorem noId_num (E : Env F) (a : List (Token F)) (x : F) (h : NumTok E a x) : NoId a := by
  obtain ⟨p, rfl | ⟨i, rfl, _⟩⟩ := h
  · exact noId_cons (not_isId _ _ (by simp)) noId_nil
  · exact noId_cons (not_isId _ _ (by simp)) noId_nil

theorem noId_point (E : Env F) (a : List (Token F)) (x : Point2f F) (h : PointTok E a x) :
    NoId a := by
  obtain ⟨b, c, rfl, h1, h2⟩ := h
  exact noId_append (noId_num E _ _ h1) (noId_num E _ _ h2)

theorem noId_vector (E : Env F) (a : List (Token F)) (x : Vector2f F) (h : VectorTok E a x) :
    NoId a := by
  obtain ⟨b, c, rfl, h1, h2⟩ := h
  exact noId_append (noId_num E _ _ h1) (noId_num E _ _ h2)

section
variable {T : Type} {R : List (Token F) → T → Prop}

theorem noId_bracketed (hR : ∀ a x, R a x → NoId a) {a : List (Token F)} {xs : List T}
    (h : Bracketed R a xs) : NoId a := by
  obtain ⟨_, p, q, vs, rfl, h⟩ := h
  exact noId_append (noId_cons (not_isId _ _ (by simp)) (noId_many hR h))
    (noId_cons (not_isId _ _ (by simp)) noId_nil)

theorem noId_oneOrList (hR : ∀ a x, R a x → NoId a) {a : List (Token F)} {xs : List T}
    (h : OneOrList R a xs) : NoId a := by
  rcases h with ⟨x, h, _⟩ | h
  · exact hR a x h
  · exact noId_bracketed hR h
end

theorem noId_val {E : Env F} {ty : String} {a : List (Token F)} {v : PVal F}
    (h : ValText E ty a v) : NoId a := by
  cases h with
  | ints ts l h => exact noId_oneOrList noId_int h
  | floats ts l h => exact noId_oneOrList (noId_num E) h
  | point2s ts l h => exact noId_bracketed (noId_point E) h
  | vector2s ts l h => exact noId_bracketed (noId_vector E) h
  | bools ts l h => exact noId_oneOrList noId_bool h
  | strings ts l h => exact noId_oneOrList noId_str h
  | rgb ts r g b h => exact noId_bracketed (noId_num E) h
  | xyz ts r g b h => exact noId_bracketed (noId_num E) h
  | samples ts l ps h hp => exact noId_bracketed (noId_num E) h
  | file ts s h => exact noId_str _ _ h
  | blackbody ts t s h => exact noId_bracketed (noId_num E) h
  | texture ts s h => exact noId_str _ _ h

theorem noId_param {E : Env F} (a : List (Token F)) (p : SParam F) (h : ParamText E a p) :
    NoId a := by
  obtain ⟨decl, ty, vs, rfl, _, h⟩ := h
  exact noId_cons (not_isId _ _ (by simp)) (noId_val h)

theorem noId_unclosed {E : Env F} {ty : String} {a : List (Token F)} (h : Unclosed E ty a) :
    NoId a := by
  cases h with
  | ints _ l h => exact noId_many noId_int h
  | floats _ l h => exact noId_many (noId_num E) h
  | point2s _ l h => exact noId_many (noId_point E) h
  | vector2s _ l h => exact noId_many (noId_vector E) h
  | bools _ l h => exact noId_many noId_bool h
  | strings _ l h => exact noId_many noId_str h
  | samples _ l h => exact noId_many (noId_num E) h
  | fixedNone _ h => exact noId_nil
  | rgb _ r g b h => exact noId_many (noId_num E) h
  | xyz _ r g b h => exact noId_many (noId_num E) h
  | blackbody _ t s h => exact noId_many (noId_num E) h

theorem noId_dropped {E : Env F} {a : List (Token F)} (h : Dropped E a) : NoId a := by
  cases h with
  | none => exact noId_nil
  | noValue p decl ty name hd ht => exact noId_cons (not_isId _ _ (by simp)) noId_nil
  | unclosed p q decl ty name vs hd hv =>
    exact noId_cons (not_isId _ _ (by simp)) (noId_cons (not_isId _ _ (by simp)) (noId_unclosed hv))
  | oddSpectrum p decl name vs l hd hv hl =>
    exact noId_cons (not_isId _ _ (by simp)) (noId_bracketed (noId_num E) hv)

theorem noId_params {E : Env F} {a : List (Token F)} {ps : List (SParam F)}
    (h : ParamsText E a ps) : NoId a := by
  obtain ⟨b, d, rfl, h1, h2⟩ := h
  exact noId_append (noId_many noId_param h1) (noId_dropped h2)

theorem isId_kw (p : Pos) (s : String) : IsId (kw p s : Token F) := ⟨p, s, rfl⟩

/-- An identifier of `k :: a`, with no identifier in `a`, is `k`. -/
theorem only_head {k : Token F} {a x y : List (Token F)} {p : Pos} {s : String} (ha : NoId a)
    (h : k :: a = x ++ kw p s :: y) : x = [] ∧ k = kw p s ∧ a = y := by
  cases x with
  | nil =>
    simp only [List.nil_append, List.cons.injEq] at h
    exact ⟨rfl, h.1, h.2⟩
  | cons u x =>
    simp only [List.cons_append, List.cons.injEq] at h
    exact absurd (isId_kw p s) (ha _ (by rw [h.2]; simp))

/-- Split an occurrence in `a ++ b`. -/
theorem occ_append {a b x y : List (Token F)} {t : Token F} (h : a ++ b = x ++ t :: y) :
    (∃ y', a = x ++ t :: y' ∧ y = y' ++ b) ∨ (∃ x', b = x' ++ t :: y ∧ x = a ++ x') := by
  rcases List.append_eq_append_iff.1 h with ⟨c, h1, h2⟩ | ⟨c, h1, h2⟩
  · exact .inr ⟨c, h2, h1⟩
  · cases c with
    | nil => exact .inr ⟨[], by simpa using h2.symm, by simpa using h1.symm⟩
    | cons u c =>
      simp only [List.cons_append, List.cons.injEq] at h2
      exact .inl ⟨c, by rw [h1, h2.1], h2.2⟩

/-- What stands after a keyword with parameters. -/
def ParamsAt (E : Env F) (n : Nat) (y : List (Token F)) : Prop :=
  ∃ strs ts rest ps, y = strs ++ ts ++ rest ∧ strs.length = n ∧ (∀ t ∈ strs, ∃ s, t.ty = .Str s) ∧
    ParamsText E ts ps ∧ Stop rest

theorem paramsAt_append {E : Env F} {n : Nat} {y z : List (Token F)} (h : ParamsAt E n y)
    (hz : Stop z) : ParamsAt E n (y ++ z) := by
  obtain ⟨strs, ts, rest, ps, rfl, h1, h2, h3, h4⟩ := h
  refine ⟨strs, ts, rest ++ z, ps, by simp, h1, h2, h3, ?_⟩
  cases rest with
  | nil => simpa using hz
  | cons t rest => intro u hu; exact h4 u (by simpa using hu)

theorem typed_noId {E : Env F} {key : String} {a : List (Token F)} {d : DirectiveStruct F}
    (h : Typed E key a d) : ∃ b, a = kw d.pos key :: b ∧ NoId b ∧ ParamsAt E 1 b := by
  obtain ⟨q, rest, ps, rfl, h, _⟩ := h
  refine ⟨_, rfl, noId_cons (not_isId _ _ (by simp)) (noId_params h), ?_⟩
  exact ⟨[⟨q, .Str d.ty⟩], rest, [], ps, by simp, rfl, by simp, h, stop_nil⟩

/-- The tokens of a directive that is not a block: a keyword, then no identifier. -/
theorem dir_noId {E : Env F} {a : List (Token F)} {d : Directive F} (h : DirText E a d)
    (hb : ¬ IsBlock d) : ∃ p s b, a = kw p s :: b ∧ NoId b ∧ s ∈ dirKeys ∧
      ∀ n, (s, n) ∈ paramKeys → ParamsAt E n b := by
  have typed : ∀ key ts (d : DirectiveStruct F), Typed E key ts d → key ∈ dirKeys →
      (∀ n, (key, n) ∈ paramKeys → n = 1) →
      ∃ p s b, ts = kw p s :: b ∧ NoId b ∧ s ∈ dirKeys ∧
        ∀ n, (s, n) ∈ paramKeys → ParamsAt E n b := by
    intro key ts d h hk hn
    obtain ⟨b, rfl, h1, h2⟩ := typed_noId h
    exact ⟨_, _, _, rfl, h1, hk, fun n h => by rw [hn n h]; exact h2⟩
  cases h with
  | material _ d h => exact typed _ _ _ h (by simp [dirKeys]) (by simp [paramKeys])
  | shape _ d h => exact typed _ _ _ h (by simp [dirKeys]) (by simp [paramKeys])
  | lightSource _ d h => exact typed _ _ _ h (by simp [dirKeys]) (by simp [paramKeys])
  | areaLightSource _ d h => exact typed _ _ _ h (by simp [dirKeys]) (by simp [paramKeys])
  | «attribute» => exact absurd trivial hb
  | transform => exact absurd trivial hb
  | world => exact absurd trivial hb
  | incl p ts s h => exact ⟨_, _, _, rfl, noId_str _ _ h, by simp [dirKeys], by simp [paramKeys]⟩
  | texture p q₁ q₂ q₃ name ty cls ts ps h =>
    refine ⟨_, _, _, rfl, ?_, by simp [dirKeys], ?_⟩
    · exact noId_cons (not_isId _ _ (by simp)) (noId_cons (not_isId _ _ (by simp))
        (noId_cons (not_isId _ _ (by simp)) (noId_params h)))
    · intro n hn
      have : n = 3 := by simpa [paramKeys] using hn
      subst this
      exact ⟨[⟨q₁, .Str name⟩, ⟨q₂, .Str ty⟩, ⟨q₃, .Str cls⟩], ts, [], ps, by simp, rfl, by simp, h,
        stop_nil⟩

mutual
/-- Every identifier in the tokens of a directive is a directive keyword, followed by its
    parameters. -/
theorem dirText_occ {E : Env F} {a : List (Token F)} {d : Directive F} (h : DirText E a d)
    (x y : List (Token F)) (p : Pos) (s : String) (ho : a = x ++ kw p s :: y) :
    s ∈ dirKeys ∧ ∀ n, (s, n) ∈ paramKeys → ParamsAt E n y := by
  match h with
  | .attribute p' ts ds h =>
    cases x with
    | nil =>
      simp only [List.nil_append, List.cons.injEq] at ho
      injection ho.1 with _ h2; injection h2 with h2; subst h2
      exact ⟨by simp [dirKeys], by simp [paramKeys]⟩
    | cons u x =>
      simp only [List.cons_append, List.cons.injEq] at ho
      exact dirsText_occ h x y p s ho.2
  | .transform p' ts ds h =>
    cases x with
    | nil =>
      simp only [List.nil_append, List.cons.injEq] at ho
      injection ho.1 with _ h2; injection h2 with h2; subst h2
      exact ⟨by simp [dirKeys], by simp [paramKeys]⟩
    | cons u x =>
      simp only [List.cons_append, List.cons.injEq] at ho
      exact dirsText_occ h x y p s ho.2
  | .world p' ts ds h =>
    cases x with
    | nil =>
      simp only [List.nil_append, List.cons.injEq] at ho
      injection ho.1 with _ h2; injection h2 with h2; subst h2
      exact ⟨by simp [dirKeys], by simp [paramKeys]⟩
    | cons u x =>
      simp only [List.cons_append, List.cons.injEq] at ho
      exact dirsText_occ h x y p s ho.2
  | .material ts d h =>
    obtain ⟨p', s', b, rfl, h1, h2, h3⟩ := dir_noId (.material ts d h) id
    obtain ⟨-, h4, rfl⟩ := only_head h1 ho
    injection h4 with _ h5; injection h5 with h5; subst h5
    exact ⟨h2, h3⟩
  | .shape ts d h =>
    obtain ⟨p', s', b, rfl, h1, h2, h3⟩ := dir_noId (.shape ts d h) id
    obtain ⟨-, h4, rfl⟩ := only_head h1 ho
    injection h4 with _ h5; injection h5 with h5; subst h5
    exact ⟨h2, h3⟩
  | .lightSource ts d h =>
    obtain ⟨p', s', b, rfl, h1, h2, h3⟩ := dir_noId (.lightSource ts d h) id
    obtain ⟨-, h4, rfl⟩ := only_head h1 ho
    injection h4 with _ h5; injection h5 with h5; subst h5
    exact ⟨h2, h3⟩
  | .areaLightSource ts d h =>
    obtain ⟨p', s', b, rfl, h1, h2, h3⟩ := dir_noId (.areaLightSource ts d h) id
    obtain ⟨-, h4, rfl⟩ := only_head h1 ho
    injection h4 with _ h5; injection h5 with h5; subst h5
    exact ⟨h2, h3⟩
  | .incl p' ts s' h =>
    obtain ⟨-, h4, rfl⟩ := only_head (noId_str _ _ h) ho
    injection h4 with _ h5; injection h5 with h5; subst h5
    exact ⟨by simp [dirKeys], by simp [paramKeys]⟩
  | .texture p' q₁ q₂ q₃ name ty cls ts ps h =>
    obtain ⟨p'', s'', b, hb, h1, h2, h3⟩ := dir_noId (.texture p' q₁ q₂ q₃ name ty cls ts ps h) id
    rw [hb] at ho
    obtain ⟨-, h4, rfl⟩ := only_head h1 ho
    injection h4 with _ h5; injection h5 with h5; subst h5
    exact ⟨h2, h3⟩

theorem dirsText_occ {E : Env F} {a : List (Token F)} {ds : List (Directive F)}
    (h : DirsText E a ds) (x y : List (Token F)) (p : Pos) (s : String)
    (ho : a = x ++ kw p s :: y) :
    s ∈ dirKeys ∧ ∀ n, (s, n) ∈ paramKeys → ParamsAt E n y := by
  match h with
  | .nil => simp at ho
  | .block ts d hb h => exact dirText_occ h x y p s ho
  | .cons a b d ds hb h hs =>
    rcases occ_append ho with ⟨y', h1, rfl⟩ | ⟨x', h1, rfl⟩
    · obtain ⟨h2, h3⟩ := dirText_occ h x y' p s h1
      exact ⟨h2, fun n hn => paramsAt_append (h3 n hn) (by simpa using stop_dirs hs stop_nil)⟩
    · exact dirsText_occ hs x' y p s h1
end

theorem dirs_noEnd {E : Env F} {a : List (Token F)} {ds : List (Directive F)}
    (h : DirsText E a ds) : ∀ t ∈ a, ¬ IsEnd t := by
  rintro t ht ⟨p, s, rfl, hs⟩
  obtain ⟨x, y, rfl⟩ := List.append_of_mem ht
  have := (dirsText_occ h x y p s rfl).1
  exact dirKeys_not_end this (by simpa using hs)

/-- The tokens of a pre-world directive: a keyword, then no identifier, except `ActiveTransform`
    and its argument. -/
theorem pre_noId {E : Env F} {a : List (Token F)} {d : PreDirective F} (h : PreText E a d) :
    (∃ p s b, a = kw p s :: b ∧ NoId b ∧ s ∈ preKeys ∧
      ∀ n, (s, n) ∈ paramKeys → ParamsAt E n b) ∨
    ∃ p q s, a = [kw p "ActiveTransform", kw q s] := by
  have typed : ∀ key ts (d : DirectiveStruct F), Typed E key ts d → key ∈ preKeys →
      (∀ n, (key, n) ∈ paramKeys → n = 1) →
      ∃ p s b, ts = kw p s :: b ∧ NoId b ∧ s ∈ preKeys ∧
        ∀ n, (s, n) ∈ paramKeys → ParamsAt E n b := by
    intro key ts d h hk hn
    obtain ⟨b, rfl, h1, h2⟩ := typed_noId h
    exact ⟨_, _, _, rfl, h1, hk, fun n h => by rw [hn n h]; exact h2⟩
  have nums : ∀ key p ts (l : List F), Many (NumTok E) ts l → key ∈ preKeys →
      (∀ n, (key, n) ∉ paramKeys) →
      ∃ p' s b, kw p key :: ts = kw p' s :: b ∧ NoId b ∧ s ∈ preKeys ∧
        ∀ n, (s, n) ∈ paramKeys → ParamsAt E n b := by
    intro key p ts l h hk hn
    exact ⟨_, _, _, rfl, noId_many (noId_num E) h, hk, fun n h => absurd h (hn n)⟩
  have str : ∀ key p ts s, StrTok ts s → key ∈ preKeys →
      (∀ n, (key, n) ∉ paramKeys) →
      ∃ p' s b, kw p key :: ts = kw p' s :: b ∧ NoId b ∧ s ∈ preKeys ∧
        ∀ n, (s, n) ∈ paramKeys → ParamsAt (F := F) E n b := by
    intro key p ts l h hk hn
    exact ⟨_, _, _, rfl, noId_str _ _ h, hk, fun n h => absurd h (hn n)⟩
  cases h with
  | identity p => exact .inl ⟨_, _, _, rfl, noId_nil, by simp [preKeys], by simp [paramKeys]⟩
  | translate p ts x y z h => exact .inl (nums _ _ _ _ h (by simp [preKeys]) (by simp [paramKeys]))
  | scale p ts x y z h => exact .inl (nums _ _ _ _ h (by simp [preKeys]) (by simp [paramKeys]))
  | rotate p ts t x y z h => exact .inl (nums _ _ _ _ h (by simp [preKeys]) (by simp [paramKeys]))
  | lookAt p ts _ _ _ _ _ _ _ _ _ h => exact .inl (nums _ _ _ _ h (by simp [preKeys]) (by simp [paramKeys]))
  | transform p ts _ _ _ _ _ _ _ _ _ h => exact .inl (nums _ _ _ _ h (by simp [preKeys]) (by simp [paramKeys]))
  | concatTransform p ts _ _ _ _ _ _ _ _ _ h => exact .inl (nums _ _ _ _ h (by simp [preKeys]) (by simp [paramKeys]))
  | transformTimes p ts _ _ h => exact .inl (nums _ _ _ _ h (by simp [preKeys]) (by simp [paramKeys]))
  | coordinateSystem p ts s h => exact .inl (str _ _ _ _ h (by simp [preKeys]) (by simp [paramKeys]))
  | coordSysTransform p ts s h => exact .inl (str _ _ _ _ h (by simp [preKeys]) (by simp [paramKeys]))
  | incl p ts s h => exact .inl (str _ _ _ _ h (by simp [preKeys]) (by simp [paramKeys]))
  | activeTransform p q s => exact .inr ⟨p, q, s, rfl⟩
  | camera _ d h => exact .inl (typed _ _ _ h (by simp [preKeys]) (by simp [paramKeys]))
  | sampler _ d h => exact .inl (typed _ _ _ h (by simp [preKeys]) (by simp [paramKeys]))
  | film _ d h => exact .inl (typed _ _ _ h (by simp [preKeys]) (by simp [paramKeys]))
  | filter _ d h => exact .inl (typed _ _ _ h (by simp [preKeys]) (by simp [paramKeys]))
  | integrator _ d h => exact .inl (typed _ _ _ h (by simp [preKeys]) (by simp [paramKeys]))
  | accelerator _ d h => exact .inl (typed _ _ _ h (by simp [preKeys]) (by simp [paramKeys]))

/-- Every identifier in a sequence of pre-world directives is a pre-world keyword followed by its
    parameters, or the argument of `ActiveTransform`. -/
theorem pres_occ {E : Env F} {a : List (Token F)} {ds : List (PreDirective F)}
    (h : Many (PreText E) a ds) : ∀ (x y : List (Token F)) (p : Pos) (s : String),
    a = x ++ kw p s :: y →
    (s ∈ preKeys ∧ ∀ n, (s, n) ∈ paramKeys → ParamsAt E n y) ∨
      ∃ x' q, x = x' ++ [kw q "ActiveTransform"] := by
  induction h with
  | nil => intro x y p s ho; simp at ho
  | cons a b d ds h hs ih =>
    intro x y p s ho
    rcases occ_append ho with ⟨y', h1, rfl⟩ | ⟨x', h1, rfl⟩
    · rcases pre_noId h with ⟨p', s', c, rfl, h2, h3, h4⟩ | ⟨p', q', s', rfl⟩
      · obtain ⟨-, h5, rfl⟩ := only_head h2 h1
        injection h5 with _ h6; injection h6 with h6; subst h6
        exact .inl ⟨h3, fun n hn => paramsAt_append (h4 n hn) (by simpa using stop_pres hs stop_nil)⟩
      · cases x with
        | nil =>
          simp only [List.nil_append, List.cons.injEq] at h1
          injection h1.1 with _ h6; injection h6 with h6; subst h6
          exact .inl ⟨by simp [preKeys], by simp [paramKeys]⟩
        | cons u x =>
          simp only [List.cons_append, List.cons.injEq] at h1
          cases x with
          | nil => exact .inr ⟨[], p', by rw [← h1.1]; rfl⟩
          | cons => simp at h1
    · rcases ih x' y p s h1 with h2 | ⟨x'', q, rfl⟩
      · exact .inl h2
      · exact .inr ⟨a ++ x'', q, by simp⟩

/-! ### The read part of the tokens is unique -/

theorem parseTokensFuel_state (E : Env F) {a body rest : List (Token F)} {p : Pos} {e : Token F}
    {pre : List (PreDirective F)} {ds : List (Directive F)} (hm : Many (PreText E) a pre)
    (hd : DirsText E body ds) (he : IsEnd e) (fuel : Nat)
    (hf : fuel ≥ parseFuel (a ++ kw p "WorldBegin" :: body ++ e :: rest)) :
    parseTokensFuel E fuel ⟨a ++ kw p "WorldBegin" :: body ++ e :: rest, 0⟩ =
      (.ok (pre, .World p ds), PS (a ++ kw p "WorldBegin" :: body) (e :: rest)) := by
  have e0 : ∀ t : List (Token F), (⟨t, 0⟩ : Parser F) = PS [] t := fun _ => rfl
  unfold parseFuel at hf
  simp only [List.length_append, List.length_cons] at hf
  have hlen := presFuel hm
  have h1 := predirectivesLoop_run E hm (fuel - pre.length - 1 + 1) [] []
    (rest := kw p "WorldBegin" :: (body ++ e :: rest)) (stop_kw _ _ _)
  rw [predirectivesLoop_world, show fuel - pre.length - 1 + 1 + pre.length = fuel by omega] at h1
  have h2 := parseDirective_ok E (.world p body ds hd) fuel (by simp; omega) ([] ++ a)
    (rest := e :: rest) (stop_end he _) (fun _ => ⟨e, rest, rfl, he⟩)
  rw [e0, parseTokensFuel]
  rw [show a ++ kw p "WorldBegin" :: body ++ e :: rest =
    a ++ kw p "WorldBegin" :: (body ++ e :: rest) by simp, bind_ok h1]
  rw [List.cons_append] at h2
  rw [bind_ok h2]
  rfl

/-- Two readings of token lists, one of which extends the other, read the same tokens. -/
theorem read_unique (E : Env F) {a body rest a' body' rest' : List (Token F)} {p p' : Pos}
    {e e' : Token F} {pre pre' : List (PreDirective F)} {ds ds' : List (Directive F)}
    (hm : Many (PreText E) a pre) (hd : DirsText E body ds) (he : IsEnd e)
    (hm' : Many (PreText E) a' pre') (hd' : DirsText E body' ds') (he' : IsEnd e')
    (h : a ++ kw p "WorldBegin" :: body ++ e :: rest =
      a' ++ kw p' "WorldBegin" :: body' ++ e' :: rest') :
    a ++ kw p "WorldBegin" :: body = a' ++ kw p' "WorldBegin" :: body' ∧ e = e' ∧ rest = rest' ∧
      pre = pre' ∧ p = p' ∧ ds = ds' := by
  have h1 := parseTokensFuel_state E (rest := rest) (p := p) hm hd he _ (Nat.le_refl _)
  have h2 := parseTokensFuel_state E (rest := rest') (p := p') hm' hd' he' _ (Nat.le_refl _)
  rw [h] at h1
  rw [h1] at h2
  injection h2 with h3 h4
  injection h3 with h3
  injection h3 with h5 h6
  injection h6 with h6 h7
  have hlen : (a ++ kw p "WorldBegin" :: body).length =
      (a' ++ kw p' "WorldBegin" :: body').length := by
    have := congrArg Parser.index h4
    exact this
  have h8 := List.append_inj h hlen
  simp only [List.cons.injEq] at h8
  exact ⟨h8.1, h8.2.1, h8.2.2, h5, h6, h7⟩

end Pbrt.Proof
