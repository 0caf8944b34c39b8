import Verif.Proof.ParseParam
import Verif.Spec.Messages

/-!
# Symbolic execution of the parser: pre-world directives
-/

namespace Pbrt.Proof
open Pbrt.Spec

variable {F : Type}

/-! ### Messages -/

theorem _root_.Pbrt.Spec.Blames.mono {ok ok' : List (Token F) → Prop} {ts : List (Token F)} {m : String}
    (h : Blames ok ts m) (hi : ∀ d, ok d → ok' d) : Blames ok' ts m := by
  cases h with
  | token done t rest h hn hok => exact .token done t rest h hn (hi _ hok)
  | eof hm hok => exact .eof hm (hi _ hok)

theorem _root_.Pbrt.Spec.Blames.prepend {ok ok' : List (Token F) → Prop} {ts : List (Token F)} {m : String}
    (a : List (Token F)) (h : Blames ok ts m) (hi : ∀ d, ok d → ok' (a ++ d)) :
    Blames ok' (a ++ ts) m := by
  cases h with
  | token done t rest h hn hok =>
    exact .token (a ++ done) t rest (by simp [h]) hn (hi _ hok)
  | eof hm hok => exact .eof hm (hi _ hok)

/-- `parser` names the token it does not like. -/
def Fails {T : Type} (parser : PM F T) (R : List (Token F) → T → Prop) : Prop :=
  ∀ pre ts, (¬ ∃ a x rest, ts = a ++ rest ∧ R a x) →
    ∃ m, parser (PS pre ts) = (.err (.Str m), PS pre ts) ∧ Blames (· = []) ts m

theorem fails_string (E : Env F) : Fails (parseString E) StrTok := by
  intro pre ts h
  rw [parseString]
  cases ts with
  | nil =>
    rw [bind_ok (attempt_err (peek_nil ..))]
    exact ⟨_, rfl, .eof (by simp [eofMessages]) rfl⟩
  | cons t ts =>
    rw [bind_ok (attempt_ok (peek_cons ..))]
    obtain ⟨p, ty⟩ := t
    cases ty with
    | Str i => exact absurd ⟨[_], i, ts, rfl, p, rfl⟩ h
    | _ => exact ⟨_, rfl, .token [] _ ts rfl ⟨_, .inl (by rw [String.append_assoc])⟩ rfl⟩

theorem fails_identifier (E : Env F) : Fails (parseIdentifier E) IdTok := by
  intro pre ts h
  rw [parseIdentifier]
  cases ts with
  | nil =>
    rw [bind_ok (attempt_err (peek_nil ..))]
    exact ⟨_, rfl, .eof (by simp [eofMessages]) rfl⟩
  | cons t ts =>
    rw [bind_ok (attempt_ok (peek_cons ..))]
    obtain ⟨p, ty⟩ := t
    cases ty with
    | Identifier i => exact absurd ⟨[_], i, ts, rfl, p, rfl⟩ h
    | _ => exact ⟨_, rfl, .token [] _ ts rfl ⟨_, .inl (by rw [String.append_assoc])⟩ rfl⟩

theorem fails_floats (E : Env F) (pre ts : List (Token F))
    (h : ¬ ∃ a x rest, ts = a ++ rest ∧ NumTok E a x) :
    ∃ m, parseFloats E (PS pre ts) = (.err (.Str m), PS pre ts) ∧ Blames (· = []) ts m := by
  rw [parseFloats, parseMany, bind_ok (M.get_apply _), parseManyLoop]
  have hf : ∃ m, parseFloat E (PS pre ts) = (.err (.Str m), PS pre ts) ∧
      Blames (· = []) ts (floatsHeader ++ m) := by
    rw [parseFloat]
    cases ts with
    | nil =>
      rw [bind_ok (attempt_err (peek_nil ..))]
      exact ⟨_, rfl, .eof (by simp [eofMessages]) rfl⟩
    | cons t ts =>
      rw [bind_ok (attempt_ok (peek_cons ..))]
      obtain ⟨p, ty⟩ := t
      cases ty with
      | Int i => exact absurd ⟨[_], _, ts, rfl, p, .inr ⟨i, rfl, rfl⟩⟩ h
      | Float f => exact absurd ⟨[_], _, ts, rfl, p, .inl rfl⟩ h
      | _ => exact ⟨_, rfl, .token [] _ ts rfl ⟨_, .inr (by rw [String.append_assoc])⟩ rfl⟩
  obtain ⟨m, hm, hb⟩ := hf
  rw [bind_ok (attempt_err hm)]
  exact ⟨_, rfl, hb⟩

/-- Either a value was read, or there is an error with a message that names the keyword at `p` or
    the first wrong token. -/
def ReadOut {T : Type} (p : Pos) (R : List (Token F) → T → Prop) (pre ts : List (Token F))
    (r : Res ParserError T × Parser F) : Prop :=
  (∃ a x rest, ts = a ++ rest ∧ R a x ∧ r = (.ok x, PS (pre ++ a) rest)) ∨
  (∃ m s', r = (.err (.Str m), s') ∧
    (Names m p ∨ Blames (fun d => ∃ more x, R (d ++ more) x) ts m))

theorem stop_kw (p : Pos) (s : String) (ts : List (Token F)) : Stop (kw p s :: ts) := by
  intro t ht
  simp at ht
  exact ⟨p, s, ht.symm⟩

theorem stop_nil : Stop ([] : List (Token F)) := by intro t ht; simp at ht

/-! ### Type string and parameters -/

section
variable {T : Type}

/-- `let ty = self.parse_string()?; self.parse_param_lists(&mut ps);` -/
def typedReader (E : Env F) (k : String → ParamSet F → T) : PM F T := do
  let ty ← parseString E
  let ps ← parseParamLists E .default
  pure (k ty ps)

theorem typedReader_ok (E : Env F) (k : String → ParamSet F → T) (q : Pos) (ty : String)
    {ts : List (Token F)} {ps : List (SParam F)} (h : ParamsText E ts ps) (pre : List (Token F))
    {rest : List (Token F)} (hs : Stop rest) :
    typedReader E k (PS pre (⟨q, .Str ty⟩ :: ts ++ rest)) =
      (.ok (k ty (collect ps)), PS (pre ++ ⟨q, .Str ty⟩ :: ts) rest) := by
  have h1 := (reads_string E).ok [⟨q, .Str ty⟩] ty pre (ts ++ rest) ⟨q, rfl⟩
  rw [typedReader, List.cons_append]
  refine (bind_ok h1).trans ?_
  rw [bind_ok (parseParamLists_ok E h _ hs)]
  simp [M.pure_apply]

theorem typedReader_out (E : Env F) (p : Pos) (k : String → ParamSet F → T) (pre ts : List (Token F)) :
    ReadOut p (fun a x => ∃ q ty b ps, a = ⟨q, .Str ty⟩ :: b ∧ ParamsText E b ps ∧
      x = k ty (collect ps)) pre ts (typedReader E k (PS pre ts)) := by
  rw [typedReader]
  by_cases hx : ∃ a x rest, ts = a ++ rest ∧ StrTok a x
  · obtain ⟨_, ty, rest, rfl, q, rfl⟩ := hx
    have h1 := (reads_string E).ok [⟨q, .Str ty⟩] ty pre rest ⟨q, rfl⟩
    rw [bind_ok h1]
    obtain ⟨a, xs, rest', rfl, h2, h3⟩ := parseParamLists_out E (pre ++ [⟨q, .Str ty⟩]) rest
    rw [bind_ok h3]
    exact .inl ⟨⟨q, .Str ty⟩ :: a, _, rest', by simp, ⟨q, ty, a, xs, rfl, h2, rfl⟩,
      by simp [M.pure_apply]⟩
  · obtain ⟨m, hm, hb⟩ := fails_string E pre ts hx
    rw [bind_err hm]
    refine .inr ⟨_, _, rfl, .inr (hb.mono ?_)⟩
    rintro _ rfl
    exact ⟨[⟨p, .Str ""⟩], _, p, "", [], [], rfl, ⟨[], [], rfl, .nil, .none⟩, rfl⟩

/-! ### One item -/

theorem item_ok {U : Type} {parser : PM F U} {R : List (Token F) → U → Prop}
    (hp : Reads parser R) (k : U → T) {a : List (Token F)} {x : U} (h : R a x)
    (pre rest : List (Token F)) :
    (parser >>= fun u => pure (k u)) (PS pre (a ++ rest)) = (.ok (k x), PS (pre ++ a) rest) := by
  rw [bind_ok (hp.ok a x pre rest h)]
  rfl

theorem item_out {U : Type} {parser : PM F U} {R : List (Token F) → U → Prop}
    (hp : Reads parser R) (hf : Fails parser R) (hi : ∃ a x, R a x) (p : Pos) (k : U → T)
    (pre ts : List (Token F)) :
    ReadOut p (fun a x => ∃ u, R a u ∧ x = k u) pre ts
      ((parser >>= fun u => pure (k u)) (PS pre ts)) := by
  by_cases hx : ∃ a x rest, ts = a ++ rest ∧ R a x
  · obtain ⟨a, x, rest, rfl, hx⟩ := hx
    rw [item_ok hp k hx]
    exact .inl ⟨a, _, rest, rfl, ⟨x, hx, rfl⟩, rfl⟩
  · obtain ⟨m, hm, hb⟩ := hf pre ts hx
    rw [bind_err hm]
    refine .inr ⟨_, _, rfl, .inr (hb.mono ?_)⟩
    rintro _ rfl
    obtain ⟨a, x, hx⟩ := hi
    exact ⟨a, _, x, hx, rfl⟩

/-! ### A fixed number of floats -/

/-- `let floats = self.parse_floats()?; if floats.len() != n { return Err } …` -/
def numsReader (E : Env F) (n : Nat) (err : Nat → ParserError) (k : List F → PM F T) : PM F T := do
  let floats ← parseFloats E
  if floats.length ≠ n then M.throw (err floats.length) else k floats

theorem numsReader_ok (E : Env F) (n : Nat) (hn : n > 0) (err : Nat → ParserError)
    (k : List F → PM F T) (f : List F → T) (hk : ∀ l s, l.length = n → k l s = (.ok (f l), s))
    {ts : List (Token F)} {l : List F} (h : Many (NumTok E) ts l) (hl : l.length = n)
    (pre : List (Token F)) {rest : List (Token F)} (hs : Stop rest) :
    numsReader E n err k (PS pre (ts ++ rest)) = (.ok (f l), PS (pre ++ ts) rest) := by
  have hne : l ≠ [] := by rintro rfl; simp at hl; omega
  rw [numsReader, parseFloats, bind_ok ((parseMany_run (reads_float E) "float" h pre rest
    (no_item_of_stop (starts_num E) hs)).1 hne), if_neg (by omega), hk l _ hl]

theorem many_num (E : Env F) (p : Pos) : ∀ n : Nat,
    ∃ a l, Many (NumTok E) a l ∧ l.length = n
  | 0 => ⟨[], [], .nil, rfl⟩
  | n + 1 => by
    obtain ⟨a, l, h, hl⟩ := many_num E p n
    exact ⟨[⟨p, .Int 0⟩] ++ a, E.ofIsize 0 :: l, .cons _ a _ l ⟨p, .inr ⟨0, rfl, rfl⟩⟩ h, by simp [hl]⟩

theorem numsReader_out (E : Env F) (n : Nat) (p : Pos) (err : Nat → ParserError)
    (herr : ∀ i, ∃ m, err i = .Str m ∧ Names m p)
    (k : List F → PM F T) (f : List F → T) (hk : ∀ l s, l.length = n → k l s = (.ok (f l), s))
    (pre ts : List (Token F)) :
    ReadOut p (fun a x => ∃ l, Many (NumTok E) a l ∧ l.length = n ∧ x = f l) pre ts
      (numsReader E n err k (PS pre ts)) := by
  obtain ⟨a, l, rest, rfl, hm, hf⟩ := many_split (reads_float E).nonempty _ ts (Nat.le_refl _)
  have hrun := parseMany_run (reads_float E) "float" hm pre rest hf
  rw [numsReader, parseFloats]
  by_cases hne : l = []
  · subst hne
    cases hm with
    | nil =>
    obtain ⟨m, hm', hb⟩ := fails_floats E pre rest hf
    rw [parseFloats] at hm'
    rw [List.nil_append, bind_err hm']
    refine .inr ⟨_, _, rfl, .inr (hb.mono ?_)⟩
    rintro _ rfl
    obtain ⟨a, l, h1, h2⟩ := many_num E p n
    exact ⟨a, _, l, h1, h2, rfl⟩
  · rw [bind_ok (hrun.1 hne)]
    by_cases hl : l.length = n
    · rw [if_neg (by omega), hk l _ hl]
      exact .inl ⟨a, _, rest, rfl, ⟨l, hm, hl, rfl⟩, rfl⟩
    · rw [if_pos hl]
      obtain ⟨m, hm', hn⟩ := herr l.length
      exact .inr ⟨m, _, by rw [hm']; rfl, .inl hn⟩

end

theorem length4 {α : Type} {l : List α} (h : l.length = 4) : ∃ a b c d, l = [a, b, c, d] := by
  match l, h with
  | [a, b, c, d], _ => exact ⟨a, b, c, d, rfl⟩
theorem length9 {α : Type} {l : List α} (h : l.length = 9) :
    ∃ a b c d e f g i j, l = [a, b, c, d, e, f, g, i, j] := by
  match l, h with
  | [a, b, c, d, e, f, g, i, j], _ => exact ⟨a, b, c, d, e, f, g, i, j, rfl⟩

/-! ### `parse_predirective` -/

/-- The part of `parse_predirective` after the keyword. -/
def preBody (E : Env F) (startPos : Pos) (id : String) : PM F (PreDirective F) :=
  if id = "Identity" then pure (.Identity startPos)
  else if id = "Translate" then
    numsReader E 3 (wrongCount startPos "Translate" 3) fun floats => do
      pure (.Translate startPos ⟨← idx floats 0, ← idx floats 1, ← idx floats 2⟩)
  else if id = "Scale" then
    numsReader E 3 (wrongCount startPos "Scale" 3) fun floats => do
      pure (.Scale startPos ⟨← idx floats 0, ← idx floats 1, ← idx floats 2⟩)
  else if id = "Rotate" then
    numsReader E 4 (wrongCount startPos "Rotate" 4) fun floats => do
      pure (.Rotate startPos (← idx floats 0) ⟨← idx floats 1, ← idx floats 2, ← idx floats 3⟩)
  else if id = "LookAt" then
    numsReader E 9 (wrongCount startPos "LookAt" 9) fun floats => do
      pure (.LookAt startPos
        ⟨← idx floats 0, ← idx floats 1, ← idx floats 2, ← idx floats 3, ← idx floats 4,
         ← idx floats 5, ← idx floats 6, ← idx floats 7, ← idx floats 8⟩)
  else if id = "CoordinateSystem" then
    parseString E >>= fun name => pure (.CoordinateSystem startPos name)
  else if id = "CoordSysTransform" then
    parseString E >>= fun name => pure (.CoordSysTransform startPos name)
  else if id = "Transform" then
    numsReader E 9 (wrongCount startPos "Transform" 9) fun floats => do
      pure (.Transform startPos
        ⟨← idx floats 0, ← idx floats 1, ← idx floats 2, ← idx floats 3, ← idx floats 4,
         ← idx floats 5, ← idx floats 6, ← idx floats 7, ← idx floats 8⟩)
  else if id = "ConcatTransform" then
    numsReader E 9 (wrongCount startPos "ConcatTransform" 9) fun floats => do
      pure (.ConcatTransform startPos
        ⟨← idx floats 0, ← idx floats 1, ← idx floats 2, ← idx floats 3, ← idx floats 4,
         ← idx floats 5, ← idx floats 6, ← idx floats 7, ← idx floats 8⟩)
  else if id = "ActiveTransform" then
    parseIdentifier E >>= fun id => pure (.ActiveTransform startPos id)
  else if id = "TransformTimes" then
    numsReader E 2 (wrongCount startPos "TransformTimes" 2) fun floats => do
      pure (.TransformTimes startPos (← idx floats 0) (← idx floats 1))
  else if id = "Camera" then typedReader E fun ty ps => .Camera ⟨ty, startPos, ps⟩
  else if id = "Sampler" then typedReader E fun ty ps => .Sampler ⟨ty, startPos, ps⟩
  else if id = "Film" then typedReader E fun ty ps => .Film ⟨ty, startPos, ps⟩
  else if id = "Filter" then typedReader E fun ty ps => .Filter ⟨ty, startPos, ps⟩
  else if id = "Integrator" then typedReader E fun ty ps => .Integrator ⟨ty, startPos, ps⟩
  else if id = "Accelerator" then typedReader E fun ty ps => .Accelerator ⟨ty, startPos, ps⟩
  else if id = "Include" then parseString E >>= fun path => pure (.Include startPos path)
  else
    M.throw (.Str (startPos.fmt ++ " parse_predirective(): Unknown predirective: " ++ id))

theorem parsePredirective_kw (E : Env F) (pre ts : List (Token F)) (p : Pos) (s : String) :
    parsePredirective E (PS pre (kw p s :: ts)) = preBody E p s (PS (pre ++ [kw p s]) ts) := by
  have h1 := (reads_identifier E).ok [kw p s] s pre ts ⟨p, rfl⟩
  rw [parsePredirective, bind_ok (pos_cons ..)]
  refine (bind_ok h1).trans ?_
  rfl

theorem str_inh : ∃ (a : List (Token F)) (x : String), StrTok a x := ⟨_, "", ⟨0, 0⟩, rfl⟩
theorem id_inh : ∃ (a : List (Token F)) (x : String), IdTok a x := ⟨_, "", ⟨0, 0⟩, rfl⟩

theorem preBody_out (E : Env F) (p : Pos) (s : String) (pre ts : List (Token F)) :
    ReadOut p (fun a d => PreText E (kw p s :: a) d) pre ts (preBody E p s (PS pre ts)) := by
  have mono : ∀ {R R' : List (Token F) → PreDirective F → Prop} {r},
      ReadOut p R pre ts r → (∀ a x, R a x → R' a x) → ReadOut p R' pre ts r := by
    intro R R' r h hi
    rcases h with ⟨a, x, rest, h1, h2, h3⟩ | ⟨m, s', h1, h2 | h2⟩
    · exact .inl ⟨a, x, rest, h1, hi _ _ h2, h3⟩
    · exact .inr ⟨m, s', h1, .inl h2⟩
    · refine .inr ⟨m, s', h1, .inr (h2.mono ?_)⟩
      rintro d ⟨more, x, hx⟩
      exact ⟨more, x, hi _ _ hx⟩
  have herr : ∀ n name i, ∃ m, wrongCount p name n i = .Str m ∧ Names m p :=
    fun n name i => ⟨_, rfl, _, .inl (by simp only [String.append_assoc]; rfl)⟩
  have typed : ∀ (key : String) (C : DirectiveStruct F → PreDirective F),
      (∀ ts d, Typed E key ts d → PreText E ts (C d)) →
      ReadOut p (fun a d => PreText E (kw p key :: a) d) pre ts
        (typedReader E (fun ty ps => C ⟨ty, p, ps⟩) (PS pre ts)) := by
    intro key C hC
    refine mono (typedReader_out E p _ pre ts) ?_
    rintro a x ⟨q, ty, b, ps, rfl, hps, rfl⟩
    exact hC _ _ ⟨q, b, ps, rfl, hps, rfl⟩
  unfold preBody
  refine ite_app (fun h => ?_) (fun _ => ?_)
  · subst h
    exact .inl ⟨[], _, ts, rfl, by exact .identity p, by simp [M.pure_apply]⟩
  refine ite_app (fun h => ?_) (fun _ => ?_)
  · subst h
    refine mono (numsReader_out E 3 p _ (herr 3 "Translate") _
      (fun l => match l with | [x, y, z] => .Translate p ⟨x, y, z⟩ | _ => .Identity p) ?_ pre ts) ?_
    · intro l s h; obtain ⟨a, b, c, rfl⟩ := length3 h; rfl
    · rintro a x ⟨l, hm, hl, rfl⟩; obtain ⟨a, b, c, rfl⟩ := length3 hl
      exact .translate _ _ _ _ _ hm
  refine ite_app (fun h => ?_) (fun _ => ?_)
  · subst h
    refine mono (numsReader_out E 3 p _ (herr 3 "Scale") _
      (fun l => match l with | [x, y, z] => .Scale p ⟨x, y, z⟩ | _ => .Identity p) ?_ pre ts) ?_
    · intro l s h; obtain ⟨a, b, c, rfl⟩ := length3 h; rfl
    · rintro a x ⟨l, hm, hl, rfl⟩; obtain ⟨a, b, c, rfl⟩ := length3 hl
      exact .scale _ _ _ _ _ hm
  refine ite_app (fun h => ?_) (fun _ => ?_)
  · subst h
    refine mono (numsReader_out E 4 p _ (herr 4 "Rotate") _
      (fun l => match l with | [t, x, y, z] => .Rotate p t ⟨x, y, z⟩ | _ => .Identity p) ?_ pre ts) ?_
    · intro l s h; obtain ⟨a, b, c, d, rfl⟩ := length4 h; rfl
    · rintro a x ⟨l, hm, hl, rfl⟩; obtain ⟨a, b, c, d, rfl⟩ := length4 hl
      exact .rotate _ _ _ _ _ _ hm
  refine ite_app (fun h => ?_) (fun _ => ?_)
  · subst h
    refine mono (numsReader_out E 9 p _ (herr 9 "LookAt") _
      (fun l => match l with
        | [a, b, c, d, e, f, g, h, i] => .LookAt p ⟨a, b, c, d, e, f, g, h, i⟩
        | _ => .Identity p) ?_ pre ts) ?_
    · intro l s h; obtain ⟨a, b, c, d, e, f, g, h, i, rfl⟩ := length9 h; rfl
    · rintro a x ⟨l, hm, hl, rfl⟩; obtain ⟨a, b, c, d, e, f, g, h, i, rfl⟩ := length9 hl
      exact .lookAt _ _ _ _ _ _ _ _ _ _ _ hm
  refine ite_app (fun h => ?_) (fun _ => ?_)
  · subst h
    refine mono (item_out (reads_string E) (fails_string E) str_inh p _ pre ts) ?_
    rintro a x ⟨u, hu, rfl⟩
    exact .coordinateSystem _ _ _ hu
  refine ite_app (fun h => ?_) (fun _ => ?_)
  · subst h
    refine mono (item_out (reads_string E) (fails_string E) str_inh p _ pre ts) ?_
    rintro a x ⟨u, hu, rfl⟩
    exact .coordSysTransform _ _ _ hu
  refine ite_app (fun h => ?_) (fun _ => ?_)
  · subst h
    refine mono (numsReader_out E 9 p _ (herr 9 "Transform") _
      (fun l => match l with
        | [a, b, c, d, e, f, g, h, i] => .Transform p ⟨a, b, c, d, e, f, g, h, i⟩
        | _ => .Identity p) ?_ pre ts) ?_
    · intro l s h; obtain ⟨a, b, c, d, e, f, g, h, i, rfl⟩ := length9 h; rfl
    · rintro a x ⟨l, hm, hl, rfl⟩; obtain ⟨a, b, c, d, e, f, g, h, i, rfl⟩ := length9 hl
      exact .transform _ _ _ _ _ _ _ _ _ _ _ hm
  refine ite_app (fun h => ?_) (fun _ => ?_)
  · subst h
    refine mono (numsReader_out E 9 p _ (herr 9 "ConcatTransform") _
      (fun l => match l with
        | [a, b, c, d, e, f, g, h, i] => .ConcatTransform p ⟨a, b, c, d, e, f, g, h, i⟩
        | _ => .Identity p) ?_ pre ts) ?_
    · intro l s h; obtain ⟨a, b, c, d, e, f, g, h, i, rfl⟩ := length9 h; rfl
    · rintro a x ⟨l, hm, hl, rfl⟩; obtain ⟨a, b, c, d, e, f, g, h, i, rfl⟩ := length9 hl
      exact .concatTransform _ _ _ _ _ _ _ _ _ _ _ hm
  refine ite_app (fun h => ?_) (fun _ => ?_)
  · subst h
    refine mono (item_out (reads_identifier E) (fails_identifier E) id_inh p _ pre ts) ?_
    rintro a x ⟨u, ⟨q, rfl⟩, rfl⟩
    exact .activeTransform _ _ _
  refine ite_app (fun h => ?_) (fun _ => ?_)
  · subst h
    refine mono (numsReader_out E 2 p _ (herr 2 "TransformTimes") _
      (fun l => match l with | [x, y] => .TransformTimes p x y | _ => .Identity p) ?_ pre ts) ?_
    · intro l s h; obtain ⟨a, b, rfl⟩ := length2 h; rfl
    · rintro a x ⟨l, hm, hl, rfl⟩; obtain ⟨a, b, rfl⟩ := length2 hl
      exact .transformTimes _ _ _ _ hm
  refine ite_app (fun h => ?_) (fun _ => ?_)
  · subst h; exact typed _ _ .camera
  refine ite_app (fun h => ?_) (fun _ => ?_)
  · subst h; exact typed _ _ .sampler
  refine ite_app (fun h => ?_) (fun _ => ?_)
  · subst h; exact typed _ _ .film
  refine ite_app (fun h => ?_) (fun _ => ?_)
  · subst h; exact typed _ _ .filter
  refine ite_app (fun h => ?_) (fun _ => ?_)
  · subst h; exact typed _ _ .integrator
  refine ite_app (fun h => ?_) (fun _ => ?_)
  · subst h; exact typed _ _ .accelerator
  refine ite_app (fun h => ?_) (fun _ => ?_)
  · subst h
    refine mono (item_out (reads_string E) (fails_string E) str_inh p _ pre ts) ?_
    rintro a x ⟨u, hu, rfl⟩
    exact .incl _ _ _ hu
  · exact .inr ⟨_, _, rfl, .inl ⟨_, .inl (String.append_assoc ..)⟩⟩

theorem parsePredirective_ok (E : Env F) {a : List (Token F)} {d : PreDirective F}
    (h : PreText E a d) (pre : List (Token F)) {rest : List (Token F)} (hs : Stop rest) :
    parsePredirective E (PS pre (a ++ rest)) = (.ok d, PS (pre ++ a) rest) := by
  have typed : ∀ (key : String) (C : DirectiveStruct F → PreDirective F) (ts : List (Token F))
      (d : DirectiveStruct F), Typed E key ts d →
      (∀ p, preBody E p key = typedReader E (fun ty ps => C ⟨ty, p, ps⟩)) →
      parsePredirective E (PS pre (ts ++ rest)) = (.ok (C d), PS (pre ++ ts) rest) := by
    rintro key C ts ⟨ty, p, dps⟩ ⟨q, b, ps, rfl, hps, hc⟩ hC
    simp only at hc
    subst hc
    rw [List.cons_append, parsePredirective_kw, hC, typedReader_ok E _ q ty hps _ hs]
    simp
  cases h with
  | identity p =>
    rw [List.cons_append, parsePredirective_kw]
    rfl
  | translate p ts x y z h =>
    rw [List.cons_append, parsePredirective_kw]
    simp only [preBody, String.reduceEq, if_true, if_false]
    refine (numsReader_ok E 3 (by omega) _ _
      (fun l => match l with | [x, y, z] => .Translate p ⟨x, y, z⟩ | _ => .Identity p) ?_ h rfl _ hs).trans
        (by simp)
    intro l s h; obtain ⟨a, b, c, rfl⟩ := length3 h; rfl
  | scale p ts x y z h =>
    rw [List.cons_append, parsePredirective_kw]
    simp only [preBody, String.reduceEq, if_true, if_false]
    refine (numsReader_ok E 3 (by omega) _ _
      (fun l => match l with | [x, y, z] => .Scale p ⟨x, y, z⟩ | _ => .Identity p) ?_ h rfl _ hs).trans
        (by simp)
    intro l s h; obtain ⟨a, b, c, rfl⟩ := length3 h; rfl
  | rotate p ts t x y z h =>
    rw [List.cons_append, parsePredirective_kw]
    simp only [preBody, String.reduceEq, if_true, if_false]
    refine (numsReader_ok E 4 (by omega) _ _
      (fun l => match l with | [t, x, y, z] => .Rotate p t ⟨x, y, z⟩ | _ => .Identity p) ?_ h rfl _ hs).trans
        (by simp)
    intro l s h; obtain ⟨a, b, c, d, rfl⟩ := length4 h; rfl
  | lookAt p ts a b c d e f g h i hn =>
    rw [List.cons_append, parsePredirective_kw]
    simp only [preBody, String.reduceEq, if_true, if_false]
    refine (numsReader_ok E 9 (by omega) _ _
      (fun l => match l with
        | [a, b, c, d, e, f, g, h, i] => .LookAt p ⟨a, b, c, d, e, f, g, h, i⟩
        | _ => .Identity p) ?_ hn rfl _ hs).trans (by simp)
    intro l s h; obtain ⟨a, b, c, d, e, f, g, h, i, rfl⟩ := length9 h; rfl
  | coordinateSystem p ts s h =>
    rw [List.cons_append, parsePredirective_kw]
    simp only [preBody, String.reduceEq, if_true, if_false]
    exact (item_ok (reads_string E) _ h _ rest).trans (by simp)
  | coordSysTransform p ts s h =>
    rw [List.cons_append, parsePredirective_kw]
    simp only [preBody, String.reduceEq, if_true, if_false]
    exact (item_ok (reads_string E) _ h _ rest).trans (by simp)
  | transform p ts a b c d e f g h i hn =>
    rw [List.cons_append, parsePredirective_kw]
    simp only [preBody, String.reduceEq, if_true, if_false]
    refine (numsReader_ok E 9 (by omega) _ _
      (fun l => match l with
        | [a, b, c, d, e, f, g, h, i] => .Transform p ⟨a, b, c, d, e, f, g, h, i⟩
        | _ => .Identity p) ?_ hn rfl _ hs).trans (by simp)
    intro l s h; obtain ⟨a, b, c, d, e, f, g, h, i, rfl⟩ := length9 h; rfl
  | concatTransform p ts a b c d e f g h i hn =>
    rw [List.cons_append, parsePredirective_kw]
    simp only [preBody, String.reduceEq, if_true, if_false]
    refine (numsReader_ok E 9 (by omega) _ _
      (fun l => match l with
        | [a, b, c, d, e, f, g, h, i] => .ConcatTransform p ⟨a, b, c, d, e, f, g, h, i⟩
        | _ => .Identity p) ?_ hn rfl _ hs).trans (by simp)
    intro l s h; obtain ⟨a, b, c, d, e, f, g, h, i, rfl⟩ := length9 h; rfl
  | activeTransform p q s =>
    rw [List.cons_append, parsePredirective_kw]
    simp only [preBody, String.reduceEq, if_true, if_false]
    exact (item_ok (reads_identifier E) _ ⟨q, rfl⟩ _ rest).trans (by simp)
  | transformTimes p ts a b h =>
    rw [List.cons_append, parsePredirective_kw]
    simp only [preBody, String.reduceEq, if_true, if_false]
    refine (numsReader_ok E 2 (by omega) _ _
      (fun l => match l with | [x, y] => .TransformTimes p x y | _ => .Identity p) ?_ h rfl _ hs).trans
        (by simp)
    intro l s h; obtain ⟨a, b, rfl⟩ := length2 h; rfl
  | camera ts d h => exact typed _ _ _ _ h fun _ => rfl
  | sampler ts d h => exact typed _ _ _ _ h fun _ => rfl
  | film ts d h => exact typed _ _ _ _ h fun _ => rfl
  | filter ts d h => exact typed _ _ _ _ h fun _ => rfl
  | integrator ts d h => exact typed _ _ _ _ h fun _ => rfl
  | accelerator ts d h => exact typed _ _ _ _ h fun _ => rfl
  | incl p ts s h =>
    rw [List.cons_append, parsePredirective_kw]
    simp only [preBody, String.reduceEq, if_true, if_false]
    exact (item_ok (reads_string E) _ h _ rest).trans (by simp)

/-! ### `parse_predirectives` -/

theorem preText_head {E : Env F} {a : List (Token F)} {d : PreDirective F} (h : PreText E a d) :
    ∃ p s b, a = kw p s :: b ∧ s ∈ preKeys := by
  have typed : ∀ key ts (d : DirectiveStruct F), Typed E key ts d → key ∈ preKeys →
      ∃ p s b, ts = kw p s :: b ∧ s ∈ preKeys := by
    rintro key ts d ⟨q, rest, ps, rfl, _⟩ hk
    exact ⟨_, _, _, rfl, hk⟩
  cases h with
  | camera ts d h => exact typed _ _ _ h (by simp [preKeys])
  | sampler ts d h => exact typed _ _ _ h (by simp [preKeys])
  | film ts d h => exact typed _ _ _ h (by simp [preKeys])
  | filter ts d h => exact typed _ _ _ h (by simp [preKeys])
  | integrator ts d h => exact typed _ _ _ h (by simp [preKeys])
  | accelerator ts d h => exact typed _ _ _ h (by simp [preKeys])
  | _ => exact ⟨_, _, _, rfl, by simp [preKeys]⟩

theorem pres_head {E : Env F} {a : List (Token F)} {ds : List (PreDirective F)}
    (h : Many (PreText E) a ds) : a = [] ∨ ∃ p s b, a = kw p s :: b ∧ s ∈ preKeys := by
  cases h with
  | nil => exact .inl rfl
  | cons a b x xs h _ =>
    obtain ⟨p, s, c, rfl, hs⟩ := preText_head h
    exact .inr ⟨p, s, c ++ b, rfl, hs⟩

theorem stop_pres {E : Env F} {a : List (Token F)} {ds : List (PreDirective F)}
    (h : Many (PreText E) a ds) {rest : List (Token F)} (hs : Stop rest) : Stop (a ++ rest) := by
  rcases pres_head h with rfl | ⟨p, s, b, rfl, _⟩
  · simpa using hs
  · exact stop_kw _ _ _

theorem worldBegin_notin_preKeys : "WorldBegin" ∉ preKeys := by decide

theorem predirectivesLoop_run (E : Env F) {a : List (Token F)} {ds : List (PreDirective F)}
    (hm : Many (PreText E) a ds) : ∀ (fuel : Nat) (acc : List (PreDirective F))
    (pre : List (Token F)) {rest : List (Token F)}, Stop rest →
    predirectivesLoop E (fuel + ds.length) acc (PS pre (a ++ rest)) =
      predirectivesLoop E fuel (acc ++ ds) (PS (pre ++ a) rest) := by
  induction hm with
  | nil => intros; simp
  | cons a b x xs h hm ih =>
    intro fuel acc pre rest hs
    have hst := stop_pres hm hs
    have hok := parsePredirective_ok E h pre hst
    obtain ⟨p, s, c, rfl, hk⟩ := preText_head h
    have hne : s ≠ "WorldBegin" := by rintro rfl; exact worldBegin_notin_preKeys hk
    rw [List.length_cons, ← Nat.add_assoc, predirectivesLoop, List.append_assoc]
    refine (bind_ok (peek_cons pre (kw p s) (c ++ (b ++ rest)))).trans ?_
    show (if s = "WorldBegin" then _ else _ : PM F _) _ = _
    rw [if_neg hne]
    refine (bind_ok hok).trans ?_
    refine (ih fuel (acc ++ [x]) (pre ++ kw p s :: c) hs).trans ?_
    simp

theorem predirectivesLoop_world (E : Env F) (fuel : Nat) (acc : List (PreDirective F))
    (pre rest : List (Token F)) (p : Pos) :
    predirectivesLoop E (fuel + 1) acc (PS pre (kw p "WorldBegin" :: rest)) =
      (.ok acc, PS pre (kw p "WorldBegin" :: rest)) := by
  rw [predirectivesLoop, bind_ok (peek_cons ..)]
  show (if "WorldBegin" = "WorldBegin" then _ else _ : PM F _) _ = _
  rw [if_pos rfl]
  rfl

theorem predirectivesLoop_nil (E : Env F) (fuel : Nat) (acc : List (PreDirective F))
    (pre : List (Token F)) :
    predirectivesLoop E (fuel + 1) acc (PS pre []) = (.err .Eof, PS pre []) := by
  rw [predirectivesLoop, bind_err (peek_nil ..)]

/-- Every outcome of the loop. -/
def PresOut (E : Env F) (pre ts : List (Token F)) (acc : List (PreDirective F))
    (r : Res ParserError (List (PreDirective F)) × Parser F) : Prop :=
  (∃ a ds p rest, ts = a ++ kw p "WorldBegin" :: rest ∧ Many (PreText E) a ds ∧
    r = (.ok (acc ++ ds), PS (pre ++ a) (kw p "WorldBegin" :: rest))) ∨
  (∃ ds s', Many (PreText E) ts ds ∧ r = (.err .Eof, s')) ∨
  (∃ m s', r = (.err (.Str m), s') ∧
    Blames (fun d => ∃ more ds, Many (PreText E) (d ++ more) ds) ts m)

theorem predirectivesLoop_out (E : Env F) : ∀ (fuel : Nat) (acc : List (PreDirective F))
    (pre ts : List (Token F)), fuel > ts.length →
    PresOut E pre ts acc (predirectivesLoop E fuel acc (PS pre ts)) := by
  intro fuel
  induction fuel with
  | zero => intro acc pre ts h; omega
  | succ fuel ih =>
    intro acc pre ts hf
    cases ts with
    | nil =>
      rw [predirectivesLoop_nil]
      exact .inr (.inl ⟨[], _, .nil, rfl⟩)
    | cons t ts =>
      obtain ⟨p, ty⟩ := t
      rw [predirectivesLoop, bind_ok (peek_cons ..)]
      cases ty with
      | Identifier s =>
        show PresOut E pre _ acc ((if s = "WorldBegin" then _ else _ : PM F _) _)
        by_cases hw : s = "WorldBegin"
        · subst hw
          rw [if_pos rfl]
          exact .inl ⟨[], [], p, ts, rfl, .nil, by simp [M.pure_apply, kw]⟩
        · rw [if_neg hw]
          have hk := parsePredirective_kw E pre ts p s
          show PresOut E pre (kw p s :: ts) acc
            ((parsePredirective E >>= fun d => predirectivesLoop E fuel (acc ++ [d]))
              (PS pre (kw p s :: ts)))
          rcases preBody_out E p s (pre ++ [kw p s]) ts with
            ⟨a, d, rest, rfl, h2, h3⟩ | ⟨m, s', h, hn | hb⟩
          · rw [bind_ok (hk.trans h3)]
            simp only [List.length_cons, List.length_append] at hf
            have := ih (acc ++ [d]) (pre ++ [kw p s] ++ a) rest (by omega)
            rcases this with ⟨b, ds, q, rest', rfl, hm, hr⟩ | ⟨ds, s', hm, hr⟩ |
              ⟨m, s', hr, hb⟩
            · refine .inl ⟨kw p s :: a ++ b, d :: ds, q, rest', by simp [kw],
                .cons _ _ _ _ h2 hm, ?_⟩
              rw [hr]
              simp
            · refine .inr (.inl ⟨d :: ds, s', ?_, hr⟩)
              exact .cons (kw p s :: a) rest _ _ h2 hm
            · refine .inr (.inr ⟨m, s', hr, hb.prepend (kw p s :: a) ?_⟩)
              rintro e ⟨more, ds, hd⟩
              refine ⟨more, d :: ds, ?_⟩
              rw [List.append_assoc]
              exact .cons _ _ _ _ h2 hd
          · rw [bind_err (hk.trans h)]
            exact .inr (.inr ⟨m, s', rfl, .token [] (kw p s) ts rfl hn ⟨[], [], .nil⟩⟩)
          · rw [bind_err (hk.trans h)]
            refine .inr (.inr ⟨m, s', rfl, hb.prepend [kw p s] ?_⟩)
            rintro e ⟨more, d, hd⟩
            refine ⟨more, [d], ?_⟩
            have := Many.cons (R := PreText E) _ [] _ [] hd .nil
            simpa using this
      | _ =>
        exact .inr (.inr ⟨_, _, rfl, .token [] _ ts rfl
          ⟨_, .inl (by simp only [String.append_assoc]; rfl)⟩ ⟨[], [], .nil⟩⟩)

end Pbrt.Proof
