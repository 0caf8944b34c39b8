import Verif.Proof.ParsePre

/-!
# Symbolic execution of the parser: world directives and the whole parser
-/

namespace Pbrt.Proof
open Pbrt.Spec

variable {F : Type}

/-- The three block ends, as strings. -/
def endKeys : List String := ["AttributeEnd", "TransformEnd", "WorldEnd"]

theorem dirText_head {E : Env F} {a : List (Token F)} {d : Directive F} (h : DirText E a d) :
    ∃ p s b, a = kw p s :: b ∧ s ∈ dirKeys := by
  have typed : ∀ key ts (d : DirectiveStruct F), Typed E key ts d → key ∈ dirKeys →
      ∃ p s b, ts = kw p s :: b ∧ s ∈ dirKeys := by
    rintro key ts d ⟨q, rest, ps, rfl, _⟩ hk
    exact ⟨_, _, _, rfl, hk⟩
  cases h with
  | material ts d h => exact typed _ _ _ h (by simp [dirKeys])
  | shape ts d h => exact typed _ _ _ h (by simp [dirKeys])
  | lightSource ts d h => exact typed _ _ _ h (by simp [dirKeys])
  | areaLightSource ts d h => exact typed _ _ _ h (by simp [dirKeys])
  | _ => exact ⟨_, _, _, rfl, by simp [dirKeys]⟩

theorem dirsText_head {E : Env F} {a : List (Token F)} {ds : List (Directive F)}
    (h : DirsText E a ds) : a = [] ∨ ∃ p s b, a = kw p s :: b ∧ s ∈ dirKeys := by
  cases h with
  | nil => exact .inl rfl
  | block ts d hb h => exact .inr (dirText_head h)
  | cons a b d ds hb h hs =>
    obtain ⟨p, s, c, rfl, hs⟩ := dirText_head h
    exact .inr ⟨p, s, c ++ b, rfl, hs⟩

theorem stop_dirs {E : Env F} {a : List (Token F)} {ds : List (Directive F)}
    (h : DirsText E a ds) {rest : List (Token F)} (hs : Stop rest) : Stop (a ++ rest) := by
  rcases dirsText_head h with rfl | ⟨p, s, b, rfl, _⟩
  · simpa using hs
  · exact stop_kw _ _ _

theorem stop_end {e : Token F} (h : IsEnd e) (rest : List (Token F)) : Stop (e :: rest) := by
  obtain ⟨p, s, rfl, _⟩ := h
  exact stop_kw _ _ _

theorem dirKeys_not_end {s : String} (h : s ∈ dirKeys) :
    ¬ (s = "AttributeEnd" ∨ s = "TransformEnd" ∨ s = "WorldEnd") := by
  simp only [dirKeys, List.mem_cons, List.not_mem_nil, or_false] at h
  rcases h with rfl | rfl | rfl | rfl | rfl | rfl | rfl | rfl | rfl <;> decide

/-- The part of `parse_directive` after the keyword. -/
def dirBody (E : Env F) (fuel : Nat) (startPos : Pos) (id : String) : PM F (Directive F) :=
  if id = "Material" then typedReader E fun ty ps => .Material ⟨ty, startPos, ps⟩
  else if id = "Shape" then typedReader E fun ty ps => .Shape ⟨ty, startPos, ps⟩
  else if id = "LightSource" then typedReader E fun ty ps => .LightSource ⟨ty, startPos, ps⟩
  else if id = "AreaLightSource" then
    typedReader E fun ty ps => .AreaLightSource ⟨ty, startPos, ps⟩
  else if id = "AttributeBegin" then
    directivesLoop E fuel [] >>= fun children => pure (.Attribute startPos children)
  else if id = "TransformBegin" then
    directivesLoop E fuel [] >>= fun children => pure (.Transform startPos children)
  else if id = "WorldBegin" then
    directivesLoop E fuel [] >>= fun children => pure (.World startPos children)
  else if id = "Include" then parseString E >>= fun path => pure (.Include startPos path)
  else if id = "Texture" then do
    let name ← parseString E
    let ty ← parseString E
    typedReader E fun cls ps => .Texture ⟨name, ty, cls, startPos, ps⟩
  else
    M.throw (.Str (startPos.fmt ++ " parse_directive(): unknown identifier " ++ id))

theorem parseDirective_kw (E : Env F) (fuel : Nat) (pre ts : List (Token F)) (p : Pos)
    (s : String) :
    parseDirective E (fuel + 1) (PS pre (kw p s :: ts)) =
      dirBody E fuel p s (PS (pre ++ [kw p s]) ts) := by
  have h1 := (reads_identifier E).ok [kw p s] s pre ts ⟨p, rfl⟩
  rw [parseDirective, bind_ok (pos_cons ..)]
  refine (bind_ok h1).trans ?_
  rfl

/-! ### Completeness -/

mutual
theorem parseDirective_ok (E : Env F) {a : List (Token F)} {d : Directive F} (h : DirText E a d)
    (fuel : Nat) (hf : fuel ≥ 2 * a.length) (pre : List (Token F)) {rest : List (Token F)}
    (hs : Stop rest) (hb : IsBlock d → ∃ e r, rest = e :: r ∧ IsEnd e) :
    parseDirective E fuel (PS pre (a ++ rest)) = (.ok d, PS (pre ++ a) rest) := by
  have typed : ∀ (key : String) (C : DirectiveStruct F → Directive F) (ts : List (Token F))
      (d : DirectiveStruct F), ts = a → Typed E key ts d →
      (∀ fuel p, dirBody E fuel p key = typedReader E (fun ty ps => C ⟨ty, p, ps⟩)) →
      parseDirective E fuel (PS pre (ts ++ rest)) = (.ok (C d), PS (pre ++ ts) rest) := by
    rintro key C ts ⟨ty, p, dps⟩ rfl ⟨q, b, ps, rfl, hps, hc⟩ hC
    simp only at hc
    subst hc
    obtain ⟨fuel, rfl⟩ : ∃ k, fuel = k + 1 := ⟨fuel - 1, by simp at hf; omega⟩
    rw [List.cons_append, parseDirective_kw, hC, typedReader_ok E _ q ty hps _ hs]
    simp
  match h with
  | .material ts d h => exact typed _ _ _ _ rfl h fun _ _ => rfl
  | .shape ts d h => exact typed _ _ _ _ rfl h fun _ _ => rfl
  | .lightSource ts d h => exact typed _ _ _ _ rfl h fun _ _ => rfl
  | .areaLightSource ts d h => exact typed _ _ _ _ rfl h fun _ _ => rfl
  | .attribute p ts ds h =>
    obtain ⟨e, r, rfl, he⟩ := hb trivial
    simp only [List.length_cons] at hf
    obtain ⟨fuel, rfl⟩ : ∃ k, fuel = k + 1 := ⟨fuel - 1, by omega⟩
    rw [List.cons_append, parseDirective_kw]
    simp only [dirBody, String.reduceEq, if_true, if_false]
    rw [bind_ok (directivesLoop_ok E h fuel (by omega) [] _ he r)]
    simp [M.pure_apply]
  | .transform p ts ds h =>
    obtain ⟨e, r, rfl, he⟩ := hb trivial
    simp only [List.length_cons] at hf
    obtain ⟨fuel, rfl⟩ : ∃ k, fuel = k + 1 := ⟨fuel - 1, by omega⟩
    rw [List.cons_append, parseDirective_kw]
    simp only [dirBody, String.reduceEq, if_true, if_false]
    rw [bind_ok (directivesLoop_ok E h fuel (by omega) [] _ he r)]
    simp [M.pure_apply]
  | .world p ts ds h =>
    obtain ⟨e, r, rfl, he⟩ := hb trivial
    simp only [List.length_cons] at hf
    obtain ⟨fuel, rfl⟩ : ∃ k, fuel = k + 1 := ⟨fuel - 1, by omega⟩
    rw [List.cons_append, parseDirective_kw]
    simp only [dirBody, String.reduceEq, if_true, if_false]
    rw [bind_ok (directivesLoop_ok E h fuel (by omega) [] _ he r)]
    simp [M.pure_apply]
  | .incl p ts s h =>
    simp only [List.length_cons] at hf
    obtain ⟨fuel, rfl⟩ : ∃ k, fuel = k + 1 := ⟨fuel - 1, by omega⟩
    rw [List.cons_append, parseDirective_kw]
    simp only [dirBody, String.reduceEq, if_true, if_false]
    exact (item_ok (reads_string E) _ h _ rest).trans (by simp)
  | .texture p q₁ q₂ q₃ name ty cls ts ps h =>
    simp only [List.length_cons] at hf
    obtain ⟨fuel, rfl⟩ : ∃ k, fuel = k + 1 := ⟨fuel - 1, by omega⟩
    rw [List.cons_append, parseDirective_kw]
    simp only [dirBody, String.reduceEq, if_true, if_false]
    refine (bind_ok ((reads_string E).ok [⟨q₁, .Str name⟩] name _ _ ⟨q₁, rfl⟩)).trans ?_
    refine (bind_ok ((reads_string E).ok [⟨q₂, .Str ty⟩] ty _ _ ⟨q₂, rfl⟩)).trans ?_
    refine (typedReader_ok E _ q₃ cls h _ hs).trans ?_
    simp

theorem directivesLoop_ok (E : Env F) {a : List (Token F)} {ds : List (Directive F)}
    (h : DirsText E a ds) (fuel : Nat) (hf : fuel ≥ 2 * a.length + 1) (acc : List (Directive F))
    (pre : List (Token F)) {e : Token F} (he : IsEnd e) (rest : List (Token F)) :
    directivesLoop E fuel acc (PS pre (a ++ e :: rest)) =
      (.ok (acc ++ ds), PS (pre ++ a) (e :: rest)) := by
  obtain ⟨fuel, rfl⟩ : ∃ k, fuel = k + 1 := ⟨fuel - 1, by omega⟩
  have hend : ∀ fuel acc pre, directivesLoop E (fuel + 1) acc (PS pre (e :: rest)) =
      (.ok acc, PS pre (e :: rest)) := by
    intro fuel acc pre
    obtain ⟨p, s, rfl, hs⟩ := he
    rw [directivesLoop, bind_ok (peek_cons ..)]
    show (if s = "AttributeEnd" ∨ s = "TransformEnd" ∨ s = "WorldEnd" then _ else _ : PM F _) _ = _
    rw [if_pos (by simpa using hs)]
    rfl
  match h with
  | .nil => simpa using hend fuel acc pre
  | .block ts d hb h =>
    have hok := parseDirective_ok E h fuel (by omega) pre (stop_end he rest)
      (fun _ => ⟨e, rest, rfl, he⟩)
    obtain ⟨p, s, c, rfl, hk⟩ := dirText_head h
    simp only [List.length_cons] at hf
    obtain ⟨fuel, rfl⟩ : ∃ k, fuel = k + 1 := ⟨fuel - 1, by omega⟩
    rw [directivesLoop]
    refine (bind_ok (peek_cons pre (kw p s) (c ++ (e :: rest)))).trans ?_
    show (if s = "AttributeEnd" ∨ s = "TransformEnd" ∨ s = "WorldEnd" then _ else _ : PM F _) _ = _
    rw [if_neg (dirKeys_not_end hk)]
    refine (bind_ok hok).trans ?_
    exact hend fuel _ _
  | .cons a b d ds hb h hs =>
    have hst := stop_dirs hs (stop_end he rest)
    simp only [List.length_append] at hf
    have hok := parseDirective_ok E h fuel (by omega) pre hst (fun hb' => absurd hb' hb)
    obtain ⟨p, s, c, rfl, hk⟩ := dirText_head h
    simp only [List.length_cons] at hf
    rw [directivesLoop, List.append_assoc]
    refine (bind_ok (peek_cons pre (kw p s) (c ++ (b ++ e :: rest)))).trans ?_
    show (if s = "AttributeEnd" ∨ s = "TransformEnd" ∨ s = "WorldEnd" then _ else _ : PM F _) _ = _
    rw [if_neg (dirKeys_not_end hk)]
    refine (bind_ok hok).trans ?_
    refine (directivesLoop_ok E hs fuel (by omega) (acc ++ [d]) _ he rest).trans ?_
    simp
end

mutual
theorem parseDirective_eof (E : Env F) {a : List (Token F)} {d : Directive F} (h : DirText E a d)
    (fuel : Nat) (hf : fuel ≥ 2 * a.length) (pre : List (Token F)) (hb : IsBlock d) :
    ∃ s', parseDirective E fuel (PS pre a) = (.err .Eof, s') := by
  match h, hb with
  | .attribute p ts ds h, _ =>
    simp only [List.length_cons] at hf
    obtain ⟨fuel, rfl⟩ : ∃ k, fuel = k + 1 := ⟨fuel - 1, by omega⟩
    rw [parseDirective_kw]
    simp only [dirBody, String.reduceEq, if_true, if_false]
    obtain ⟨s', h'⟩ := directivesLoop_eof E h fuel (by omega) [] (pre ++ [kw p "AttributeBegin"])
    rw [bind_err h']
    exact ⟨_, rfl⟩
  | .transform p ts ds h, _ =>
    simp only [List.length_cons] at hf
    obtain ⟨fuel, rfl⟩ : ∃ k, fuel = k + 1 := ⟨fuel - 1, by omega⟩
    rw [parseDirective_kw]
    simp only [dirBody, String.reduceEq, if_true, if_false]
    obtain ⟨s', h'⟩ := directivesLoop_eof E h fuel (by omega) [] (pre ++ [kw p "TransformBegin"])
    rw [bind_err h']
    exact ⟨_, rfl⟩
  | .world p ts ds h, _ =>
    simp only [List.length_cons] at hf
    obtain ⟨fuel, rfl⟩ : ∃ k, fuel = k + 1 := ⟨fuel - 1, by omega⟩
    rw [parseDirective_kw]
    simp only [dirBody, String.reduceEq, if_true, if_false]
    obtain ⟨s', h'⟩ := directivesLoop_eof E h fuel (by omega) [] (pre ++ [kw p "WorldBegin"])
    rw [bind_err h']
    exact ⟨_, rfl⟩

theorem directivesLoop_eof (E : Env F) {a : List (Token F)} {ds : List (Directive F)}
    (h : DirsText E a ds) (fuel : Nat) (hf : fuel ≥ 2 * a.length + 1) (acc : List (Directive F))
    (pre : List (Token F)) : ∃ s', directivesLoop E fuel acc (PS pre a) = (.err .Eof, s') := by
  obtain ⟨fuel, rfl⟩ : ∃ k, fuel = k + 1 := ⟨fuel - 1, by omega⟩
  match h with
  | .nil => rw [directivesLoop, bind_err (peek_nil ..)]; exact ⟨_, rfl⟩
  | .block ts d hb h =>
    obtain ⟨s', h'⟩ := parseDirective_eof E h fuel (by omega) pre hb
    obtain ⟨p, s, c, rfl, hk⟩ := dirText_head h
    rw [directivesLoop, bind_ok (peek_cons ..)]
    show ∃ s', (if s = "AttributeEnd" ∨ s = "TransformEnd" ∨ s = "WorldEnd" then _ else _ : PM F _) _ = _
    rw [if_neg (dirKeys_not_end hk), bind_err h']
    exact ⟨_, rfl⟩
  | .cons a b d ds hb h hs =>
    have hst := stop_dirs hs stop_nil
    rw [List.append_nil] at hst
    simp only [List.length_append] at hf
    have hok := parseDirective_ok E h fuel (by omega) pre hst (fun hb' => absurd hb' hb)
    obtain ⟨p, s, c, rfl, hk⟩ := dirText_head h
    simp only [List.length_cons] at hf
    obtain ⟨s', h'⟩ := directivesLoop_eof E hs fuel (by omega) (acc ++ [d]) (pre ++ kw p s :: c)
    refine ⟨s', ?_⟩
    rw [directivesLoop]
    refine (bind_ok (peek_cons pre (kw p s) (c ++ b))).trans ?_
    show (if s = "AttributeEnd" ∨ s = "TransformEnd" ∨ s = "WorldEnd" then _ else _ : PM F _) _ = _
    rw [if_neg (dirKeys_not_end hk)]
    exact (bind_ok hok).trans h'
end

/-! ### Soundness -/

/-- Every outcome of `parse_directive`. -/
def DirOut (E : Env F) (pre ts : List (Token F)) (r : Res ParserError (Directive F) × Parser F) :
    Prop :=
  (∃ a d rest, ts = a ++ rest ∧ a ≠ [] ∧
    DirText E a d ∧ (IsBlock d → ∃ e r, rest = e :: r ∧ IsEnd e) ∧
    r = (.ok d, PS (pre ++ a) rest)) ∨
  (∃ d s', IsBlock d ∧ DirText E ts d ∧ r = (.err .Eof, s')) ∨
  (∃ m s', r = (.err (.Str m), s') ∧
    Blames (fun c => c = [] ∨ ∃ more d, DirText E (c ++ more) d) ts m)

/-- Every outcome of `parse_directives`. -/
def DirsOut (E : Env F) (pre ts : List (Token F)) (acc : List (Directive F))
    (r : Res ParserError (List (Directive F)) × Parser F) : Prop :=
  (∃ a ds e rest, ts = a ++ e :: rest ∧ IsEnd e ∧ DirsText E a ds ∧
    r = (.ok (acc ++ ds), PS (pre ++ a) (e :: rest))) ∨
  (∃ ds s', DirsText E ts ds ∧ r = (.err .Eof, s')) ∨
  (∃ m s', r = (.err (.Str m), s') ∧
    Blames (fun c => ∃ more ds, DirsText E (c ++ more) ds) ts m)

theorem block_out (E : Env F) (key : String) (p : Pos) (C : List (Directive F) → Directive F)
    (hC : ∀ ts ds, DirsText E ts ds → DirText E (kw p key :: ts) (C ds))
    (hB : ∀ ds, IsBlock (C ds)) (fuel : Nat) (pre ts : List (Token F))
    (h : DirsOut E (pre ++ [kw p key]) ts [] (directivesLoop E fuel [] (PS (pre ++ [kw p key]) ts))) :
    DirOut E pre (kw p key :: ts)
      ((directivesLoop E fuel [] >>= fun children => pure (C children)) (PS (pre ++ [kw p key]) ts)) := by
  rcases h with ⟨a, ds, e, rest, rfl, he, hd, hr⟩ | ⟨ds, s', hd, hr⟩ |
    ⟨m, s', hr, hb⟩
  · rw [bind_ok hr]
    exact .inl ⟨kw p key :: a, C ds, e :: rest, by simp, by simp,
      hC _ _ hd, fun _ => ⟨e, rest, rfl, he⟩, by simp [M.pure_apply]⟩
  · rw [bind_err hr]
    exact .inr (.inl ⟨C ds, _, hB ds, hC _ _ hd, rfl⟩)
  · rw [bind_err hr]
    refine .inr (.inr ⟨_, _, rfl, hb.prepend [kw p key] ?_⟩)
    rintro c ⟨more, ds, hd⟩
    exact .inr ⟨more, C ds, hC _ _ hd⟩

theorem read_dir (E : Env F) (R : List (Token F) → Directive F → Prop) (key : String) (p : Pos)
    (hR : ∀ a d, R a d → DirText E (kw p key :: a) d ∧ ¬ IsBlock d)
    (pre ts : List (Token F)) {r : Res ParserError (Directive F) × Parser F}
    (h : ReadOut p R (pre ++ [kw p key]) ts r) : DirOut E pre (kw p key :: ts) r := by
  rcases h with ⟨a, x, rest, rfl, h2, h3⟩ | ⟨m, s', h, hn | hb⟩
  · have := hR a x h2
    exact .inl ⟨kw p key :: a, x, rest, by simp, by simp, this.1, fun hb => absurd hb this.2,
      by rw [h3]; simp⟩
  · exact .inr (.inr ⟨m, s', h, .token [] _ ts rfl hn (.inl rfl)⟩)
  · refine .inr (.inr ⟨m, s', h, hb.prepend [kw p key] ?_⟩)
    rintro c ⟨more, x, hx⟩
    exact .inr ⟨more, x, (hR _ _ hx).1⟩

theorem dirBody_out (E : Env F) (fuel : Nat) (p : Pos) (s : String) (pre ts : List (Token F))
    (ih : DirsOut E (pre ++ [kw p s]) ts [] (directivesLoop E fuel [] (PS (pre ++ [kw p s]) ts))) :
    DirOut E pre (kw p s :: ts) (dirBody E fuel p s (PS (pre ++ [kw p s]) ts)) := by
  have typed : ∀ (C : DirectiveStruct F → Directive F),
      (∀ ts d, Typed E s ts d → DirText E ts (C d)) → (∀ d, ¬ IsBlock (C d)) →
      DirOut E pre (kw p s :: ts)
        (typedReader E (fun ty ps => C ⟨ty, p, ps⟩) (PS (pre ++ [kw p s]) ts)) := by
    intro C hC hB
    refine read_dir E _ s p ?_ pre ts (typedReader_out E p _ _ ts)
    rintro a x ⟨q, ty, b, ps, rfl, hps, rfl⟩
    exact ⟨hC _ _ ⟨q, b, ps, rfl, hps, rfl⟩, hB _⟩
  unfold dirBody
  refine ite_app (fun h => ?_) (fun _ => ?_)
  · subst h; exact typed _ .material fun _ h => h
  refine ite_app (fun h => ?_) (fun _ => ?_)
  · subst h; exact typed _ .shape fun _ h => h
  refine ite_app (fun h => ?_) (fun _ => ?_)
  · subst h; exact typed _ .lightSource fun _ h => h
  refine ite_app (fun h => ?_) (fun _ => ?_)
  · subst h; exact typed _ .areaLightSource fun _ h => h
  refine ite_app (fun h => ?_) (fun _ => ?_)
  · subst h; exact block_out E _ p _ (.attribute p) (fun _ => trivial) fuel pre ts ih
  refine ite_app (fun h => ?_) (fun _ => ?_)
  · subst h; exact block_out E _ p _ (.transform p) (fun _ => trivial) fuel pre ts ih
  refine ite_app (fun h => ?_) (fun _ => ?_)
  · subst h; exact block_out E _ p _ (.world p) (fun _ => trivial) fuel pre ts ih
  refine ite_app (fun h => ?_) (fun _ => ?_)
  · subst h
    refine read_dir E _ _ p ?_ pre ts (item_out (reads_string E) (fails_string E) str_inh p _ _ ts)
    rintro a x ⟨u, hu, rfl⟩
    exact ⟨.incl _ _ _ hu, fun h => h⟩
  refine ite_app (fun h => ?_) (fun _ => ?_)
  · subst h
    by_cases h1 : ∃ a x rest, ts = a ++ rest ∧ StrTok a x
    · obtain ⟨_, name, rest, rfl, q₁, rfl⟩ := h1
      rw [bind_ok ((reads_string E).ok [⟨q₁, .Str name⟩] name _ rest ⟨q₁, rfl⟩)]
      by_cases h2 : ∃ a x rest', rest = a ++ rest' ∧ StrTok a x
      · obtain ⟨_, ty, rest', rfl, q₂, rfl⟩ := h2
        rw [bind_ok ((reads_string E).ok [⟨q₂, .Str ty⟩] ty _ rest' ⟨q₂, rfl⟩)]
        rcases typedReader_out E p (fun cls ps => Directive.Texture ⟨name, ty, cls, p, ps⟩)
          (pre ++ [kw p "Texture"] ++ [⟨q₁, .Str name⟩] ++ [⟨q₂, .Str ty⟩]) rest' with
          ⟨a, x, rest, rfl, h3, h4⟩ | ⟨m, s', h, hn | hb⟩
        · obtain ⟨q₃, cls, b, ps, rfl, hps, rfl⟩ := h3
          exact .inl ⟨kw p "Texture" :: ⟨q₁, .Str name⟩ :: ⟨q₂, .Str ty⟩ :: ⟨q₃, .Str cls⟩ :: b, _,
            rest, by simp, by simp, .texture _ _ _ _ _ _ _ _ _ hps, fun h => h.elim,
            by rw [h4]; simp⟩
        · exact .inr (.inr ⟨m, s', h, .token [] _ _ rfl hn (.inl rfl)⟩)
        · refine .inr (.inr ⟨m, s', h,
            hb.prepend [kw p "Texture", ⟨q₁, .Str name⟩, ⟨q₂, .Str ty⟩] ?_⟩)
          rintro c ⟨more, x, q₃, cls, b, ps, hc, hps, -⟩
          refine .inr ⟨more, Directive.Texture ⟨name, ty, cls, p, collect ps⟩, ?_⟩
          rw [List.append_assoc, hc]
          exact .texture _ _ _ _ _ _ _ _ _ hps
      · obtain ⟨m, hm, hb⟩ := fails_string E (pre ++ [kw p "Texture"] ++ [⟨q₁, .Str name⟩]) rest h2
        rw [bind_err hm]
        refine .inr (.inr ⟨_, _, rfl, hb.prepend [kw p "Texture", ⟨q₁, .Str name⟩] ?_⟩)
        rintro _ rfl
        exact .inr ⟨[⟨p, .Str ""⟩, ⟨p, .Str ""⟩], _,
          .texture p q₁ p p name "" "" [] [] ⟨[], [], rfl, .nil, .none⟩⟩
    · obtain ⟨m, hm, hb⟩ := fails_string E (pre ++ [kw p "Texture"]) ts h1
      rw [bind_err hm]
      refine .inr (.inr ⟨_, _, rfl, hb.prepend [kw p "Texture"] ?_⟩)
      rintro _ rfl
      exact .inr ⟨[⟨p, .Str ""⟩, ⟨p, .Str ""⟩, ⟨p, .Str ""⟩], _,
        .texture p p p p "" "" "" [] [] ⟨[], [], rfl, .nil, .none⟩⟩
  · exact .inr (.inr ⟨_, _, rfl, .token [] _ ts rfl
      ⟨_, .inl (String.append_assoc ..)⟩ (.inl rfl)⟩)

theorem dirs_single {E : Env F} {a : List (Token F)} {d : Directive F} (h : DirText E a d) :
    DirsText E a [d] := by
  by_cases hb : IsBlock d
  · exact .block a d hb h
  · simpa using DirsText.cons a [] d [] hb h .nil

theorem directives_out (E : Env F) : ∀ (fuel : Nat),
    (∀ (pre ts : List (Token F)) (p : Pos) (s : String), fuel ≥ 2 * (ts.length + 1) →
      DirOut E pre (kw p s :: ts) (parseDirective E fuel (PS pre (kw p s :: ts)))) ∧
    (∀ (pre ts : List (Token F)) (acc : List (Directive F)), fuel ≥ 2 * ts.length + 1 →
      DirsOut E pre ts acc (directivesLoop E fuel acc (PS pre ts))) := by
  intro fuel
  induction fuel with
  | zero => exact ⟨fun _ _ _ _ h => by omega, fun _ _ _ h => by omega⟩
  | succ fuel ih =>
    obtain ⟨ih1, ih2⟩ := ih
    constructor
    · intro pre ts p s hf
      rw [parseDirective_kw]
      exact dirBody_out E fuel p s pre ts (ih2 _ _ _ (by omega))
    · intro pre ts acc hf
      cases ts with
      | nil =>
        rw [directivesLoop, bind_err (peek_nil ..)]
        exact .inr (.inl ⟨[], _, .nil, rfl⟩)
      | cons t ts =>
        obtain ⟨p, ty⟩ := t
        rw [directivesLoop, bind_ok (peek_cons ..)]
        cases ty with
        | Identifier s =>
          show DirsOut E pre (kw p s :: ts) acc
            ((if s = "AttributeEnd" ∨ s = "TransformEnd" ∨ s = "WorldEnd" then _ else _ : PM F _)
              (PS pre (kw p s :: ts)))
          refine ite_app (fun he => ?_) (fun he => ?_)
          · exact .inl ⟨[], [], kw p s, ts, rfl, ⟨p, s, rfl, by simpa using he⟩, .nil,
              by simp [M.pure_apply]⟩
          · simp only [List.length_cons] at hf
            rcases ih1 pre ts p s (by omega) with ⟨a, d, rest, h1, hne, hdt, hbk, h3⟩ |
              ⟨d, s', hb, hd, hr⟩ | ⟨m, s', hr, hb⟩
            · rw [bind_ok h3, h1]
              have hlen : ts.length + 1 = a.length + rest.length := by
                have := congrArg List.length h1
                simpa using this
              have ha : a.length ≠ 0 := by simpa using hne
              rcases ih2 (pre ++ a) rest (acc ++ [d]) (by omega) with
                ⟨b, ds, e, rest', rfl, he', hd, hr⟩ | ⟨ds, s', hd, hr⟩ |
                ⟨m, s', hr, hbl⟩
              · by_cases hb : IsBlock d
                · have hbn : b = [] := by
                    obtain ⟨e2, r2, h4, he2⟩ := hbk hb
                    rcases dirsText_head hd with rfl | ⟨q, k, c, rfl, hk⟩
                    · rfl
                    · simp only [List.cons_append, List.cons.injEq] at h4
                      obtain ⟨q2, k2, hk2, hm2⟩ := he2
                      rw [hk2, kw, kw] at h4
                      simp only [Token.mk.injEq, TokenType.Identifier.injEq] at h4
                      rw [h4.1.2] at hk
                      exact absurd (by simpa using hm2) (dirKeys_not_end hk)
                  subst hbn
                  have hds : ds = [] := by
                    have hd' := hd
                    generalize hb0 : ([] : List (Token F)) = b0 at hd'
                    cases hd' with
                    | nil => rfl
                    | block ts d hb h => obtain ⟨_, _, _, h5, _⟩ := dirText_head h; subst hb0; cases h5
                    | cons a b d ds hb h hs =>
                      obtain ⟨_, _, _, h5, _⟩ := dirText_head h
                      rw [h5] at hb0
                      cases hb0
                  subst hds
                  refine .inl ⟨a, [d], e, rest', by simp, he', .block a d hb hdt, ?_⟩
                  rw [hr]
                  simp
                · refine .inl ⟨a ++ b, d :: ds, e, rest', by simp, he', .cons a b d ds hb hdt hd, ?_⟩
                  rw [hr]
                  simp
              · refine .inr (.inl ?_)
                have hb : ¬ IsBlock d := by
                  intro hb
                  obtain ⟨e2, r2, h4, he2⟩ := hbk hb
                  rcases dirsText_head hd with rfl | ⟨q, k, c, rfl, hk⟩
                  · cases h4
                  · simp only [List.cons.injEq] at h4
                    obtain ⟨q2, k2, hk2, hm2⟩ := he2
                    rw [hk2, kw, kw] at h4
                    simp only [Token.mk.injEq, TokenType.Identifier.injEq] at h4
                    rw [h4.1.2] at hk
                    exact absurd (by simpa using hm2) (dirKeys_not_end hk)
                exact ⟨d :: ds, s', .cons a rest d ds hb hdt hd, hr⟩
              · refine .inr (.inr ⟨m, s', hr, hbl.prepend a ?_⟩)
                rintro c ⟨more, ds, hd⟩
                by_cases hb : IsBlock d
                · exfalso
                  obtain ⟨e2, r2, rfl, q2, k2, rfl, hm2⟩ := hbk hb
                  obtain ⟨f', rfl⟩ : ∃ f', fuel = f' + 1 := ⟨fuel - 1, by simp at hlen; omega⟩
                  rw [directivesLoop, bind_ok (peek_cons ..)] at hr
                  change (if k2 = "AttributeEnd" ∨ k2 = "TransformEnd" ∨ k2 = "WorldEnd" then _
                    else _ : PM F _) _ = _ at hr
                  rw [if_pos (by simpa using hm2)] at hr
                  simp [M.pure_apply] at hr
                · refine ⟨more, d :: ds, ?_⟩
                  rw [List.append_assoc]
                  exact .cons _ _ _ _ hb hdt hd
            · rw [bind_err hr]
              exact .inr (.inl ⟨[d], s', .block _ d hb hd, rfl⟩)
            · rw [bind_err hr]
              refine .inr (.inr ⟨m, s', rfl, hb.mono ?_⟩)
              rintro c (rfl | ⟨more, d, hd⟩)
              · exact ⟨[], [], .nil⟩
              · exact ⟨more, [d], dirs_single hd⟩
        | _ =>
          exact .inr (.inr ⟨_, _, rfl, .token [] _ ts rfl
            ⟨_, .inl (by simp only [String.append_assoc]; rfl)⟩ ⟨[], [], .nil⟩⟩)

/-! ### The whole parser -/

/-- Every outcome of the parser on tokens. -/
def TokensOut (E : Env F) (toks : List (Token F)) :
    Res ParserError (List (PreDirective F) × Directive F) → Prop
  | .ok (pre, w) => Accepts E toks pre w
  | .err .Eof => Unfinished E toks
  | .err (.Str m) => Blames (Viable E) toks m
  | .panic => False
  | .diverge => False

theorem parseTokensFuel_out (E : Env F) (toks : List (Token F)) (fuel : Nat)
    (hf : fuel ≥ parseFuel toks) : TokensOut E toks (parseTokensFuel E fuel ⟨toks, 0⟩).1 := by
  have e0 : (⟨toks, 0⟩ : Parser F) = PS [] toks := rfl
  unfold parseFuel at hf
  rw [e0, parseTokensFuel]
  rcases predirectivesLoop_out E fuel [] [] toks (by omega) with
    ⟨a, ds, p, rest, rfl, hm, hr⟩ | ⟨ds, s', hm, hr⟩ | ⟨m, s', hr⟩
  · rw [bind_ok hr]
    simp only [List.length_append, List.length_cons] at hf
    have hd := (directives_out E fuel).1 ([] ++ a) rest p "WorldBegin" (by omega)
    have hw : ∀ d a', DirText E (kw p "WorldBegin" :: a') d → ∃ ws, d = .World p ws ∧ DirsText E a' ws := by
      intro d a' h
      generalize hx : kw p "WorldBegin" :: a' = x at h
      have typed : ∀ key ts (d : DirectiveStruct F), Typed E key ts d → "WorldBegin" ≠ key →
          kw p "WorldBegin" :: a' = ts → False := by
        rintro key ts d ⟨q, rest, ps, rfl, _⟩ hk h
        simp only [List.cons.injEq, kw, Token.mk.injEq, TokenType.Identifier.injEq] at h
        exact hk h.1.2
      cases h with
      | material ts d h => exact (typed _ _ _ h (by decide) hx).elim
      | shape ts d h => exact (typed _ _ _ h (by decide) hx).elim
      | lightSource ts d h => exact (typed _ _ _ h (by decide) hx).elim
      | areaLightSource ts d h => exact (typed _ _ _ h (by decide) hx).elim
      | world q ts ws h =>
        simp only [List.cons.injEq, kw, Token.mk.injEq, and_true] at hx
        obtain ⟨rfl, rfl⟩ := hx
        exact ⟨ws, rfl, h⟩
      | _ => simp [kw] at hx
    rcases hd with ⟨b, d, rest', h1, hne, -, -, h3⟩ | ⟨d, s', hb, hd, hr2⟩ | ⟨m, s', hr2, hb⟩
    · rw [bind_ok h3]
      -- the directive is a block, whatever follows
      have hkw := parseDirective_kw E (fuel - 1) ([] ++ a) rest p "WorldBegin"
      rw [show fuel - 1 + 1 = fuel by omega] at hkw
      have hl := (directives_out E (fuel - 1)).2 ([] ++ a ++ [kw p "WorldBegin"]) rest [] (by omega)
      simp only [dirBody, String.reduceEq, if_true, if_false] at hkw
      rcases hl with ⟨c, ws, e, rest2, rfl, he, hdt, hr3⟩ | ⟨ws, s', hdt, hr3⟩ | ⟨m, s', hr3, -⟩
      · rw [hkw, bind_ok hr3, M.pure_apply] at h3
        simp only [List.nil_append, Prod.mk.injEq, Res.ok.injEq] at h3
        rw [← h3.1]
        exact ⟨a, p, c, e, rest2, ws, by simp, hm, hdt, he, rfl⟩
      · rw [hkw, bind_err hr3] at h3
        simp at h3
      · rw [hkw, bind_err hr3] at h3
        simp at h3
    · rw [bind_err hr2]
      obtain ⟨ws, rfl, hws⟩ := hw d rest hd
      exact .inr ⟨a, p, rest, ds, ws, rfl, hm, hws⟩
    · rw [bind_err hr2]
      have start : Viable E a :=
        ⟨[kw p "WorldBegin", kw p "WorldEnd"], ds, _, a, p, [], _, [], [], by simp, hm, .nil,
          ⟨p, "WorldEnd", rfl, by simp⟩, rfl⟩
      have inside : ∀ c' more d, DirText E (kw p "WorldBegin" :: c' ++ more) d →
          Viable E (a ++ kw p "WorldBegin" :: c') := by
        intro c' more d hd
        obtain ⟨ws, -, hws⟩ := hw d (c' ++ more) hd
        exact ⟨more ++ [kw p "WorldEnd"], ds, _, a, p, c' ++ more, _, [], ws, by simp, hm, hws,
          ⟨p, "WorldEnd", rfl, by simp⟩, rfl⟩
      cases hb with
      | token done t r h hn hok =>
        refine .token (a ++ done) t r (by simp [h]) hn ?_
        rcases hok with rfl | ⟨more, d, hd⟩
        · simpa using start
        · cases done with
          | nil => simpa using start
          | cons x c' =>
            simp only [List.cons_append, List.cons.injEq] at h
            rw [← h.1] at hd ⊢
            exact inside c' more d hd
      | eof hm' hok =>
        refine .eof hm' ?_
        rcases hok with h | ⟨more, d, hd⟩
        · cases h
        · exact inside rest more d hd
  · rw [bind_err hr]
    exact .inl ⟨ds, hm⟩
  · obtain ⟨hr, hb⟩ := hr
    rw [bind_err hr]
    refine hb.mono ?_
    rintro c ⟨more, ds, hm⟩
    exact ⟨more ++ [kw ⟨0, 0⟩ "WorldBegin", kw ⟨0, 0⟩ "WorldEnd"], ds, _, c ++ more, ⟨0, 0⟩, [],
      kw ⟨0, 0⟩ "WorldEnd", [], [], by simp, hm, .nil, ⟨_, "WorldEnd", rfl, by simp⟩, rfl⟩

theorem presFuel {E : Env F} {a : List (Token F)} {ds : List (PreDirective F)}
    (h : Many (PreText E) a ds) : ds.length ≤ a.length := by
  induction h with
  | nil => simp
  | cons a b x xs h _ ih =>
    obtain ⟨p, s, c, rfl, _⟩ := preText_head h
    simp; omega

theorem parseTokensFuel_complete (E : Env F) {toks : List (Token F)} {pre : List (PreDirective F)}
    {w : Directive F} (h : Accepts E toks pre w) (fuel : Nat) (hf : fuel ≥ parseFuel toks) :
    (parseTokensFuel E fuel ⟨toks, 0⟩).1 = .ok (pre, w) := by
  obtain ⟨a, p, body, e, rest, ds, rfl, hm, hd, he, rfl⟩ := h
  have e0 : ∀ t : List (Token F), (⟨t, 0⟩ : Parser F) = PS [] t := fun _ => rfl
  unfold parseFuel at hf
  simp only [List.length_append, List.length_cons] at hf
  have hlen := presFuel hm
  have h1 := predirectivesLoop_run E hm (fuel - pre.length - 1 + 1) [] []
    (rest := kw p "WorldBegin" :: (body ++ e :: rest)) (stop_kw _ _ _)
  rw [predirectivesLoop_world, show fuel - pre.length - 1 + 1 + pre.length = fuel by omega] at h1
  have h2 := parseDirective_ok E (.world p body ds hd) fuel (by simp; omega) ([] ++ a)
    (rest := e :: rest) (stop_end he _) (fun _ => ⟨e, rest, rfl, he⟩)
  rw [e0, parseTokensFuel]
  rw [show a ++ kw p "WorldBegin" :: body ++ e :: rest =
    a ++ kw p "WorldBegin" :: (body ++ e :: rest) by simp, bind_ok h1]
  rw [List.cons_append] at h2
  rw [bind_ok h2]
  rfl

theorem parseTokensFuel_eof (E : Env F) {toks : List (Token F)} (h : Unfinished E toks)
    (fuel : Nat) (hf : fuel ≥ parseFuel toks) :
    (parseTokensFuel E fuel ⟨toks, 0⟩).1 = .err .Eof := by
  have e0 : ∀ t : List (Token F), (⟨t, 0⟩ : Parser F) = PS [] t := fun _ => rfl
  unfold parseFuel at hf
  rw [e0, parseTokensFuel]
  rcases h with ⟨pre, hm⟩ | ⟨a, p, body, pre, ds, rfl, hm, hd⟩
  · have hlen := presFuel hm
    have h1 := predirectivesLoop_run E hm (fuel - pre.length - 1 + 1) [] [] (rest := []) stop_nil
    rw [predirectivesLoop_nil, show fuel - pre.length - 1 + 1 + pre.length = fuel by omega,
      List.append_nil] at h1
    rw [bind_err h1]
  · have hlen := presFuel hm
    simp only [List.length_append, List.length_cons] at hf
    have h1 := predirectivesLoop_run E hm (fuel - pre.length - 1 + 1) [] []
      (rest := kw p "WorldBegin" :: body) (stop_kw _ _ _)
    rw [predirectivesLoop_world, show fuel - pre.length - 1 + 1 + pre.length = fuel by omega] at h1
    obtain ⟨s', h2⟩ := parseDirective_eof E (.world p body ds hd) fuel (by simp; omega) ([] ++ a) trivial
    rw [bind_ok h1, bind_err h2]

theorem parseTokens_iff (E : Env F) (toks : List (Token F)) (pre : List (PreDirective F))
    (w : Directive F) : parseTokens E toks = .ok (pre, w) ↔ Accepts E toks pre w := by
  constructor
  · intro h
    have := parseTokensFuel_out E toks _ (Nat.le_refl _)
    rw [parseTokens] at h
    rw [h] at this
    exact this
  · intro h
    exact parseTokensFuel_complete E h _ (Nat.le_refl _)

theorem parseTokens_eof_iff (E : Env F) (toks : List (Token F)) :
    parseTokens E toks = .err .Eof ↔ Unfinished E toks := by
  constructor
  · intro h
    have := parseTokensFuel_out E toks _ (Nat.le_refl _)
    rw [parseTokens] at h
    rw [h] at this
    exact this
  · intro h
    exact parseTokensFuel_eof E h _ (Nat.le_refl _)

end Pbrt.Proof
