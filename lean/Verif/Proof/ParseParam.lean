import Verif.Proof.ParseList

/-!
# Symbolic execution of the parser: parameters
-/

namespace Pbrt.Proof
open Pbrt.Spec

variable {F : Type}

/-! ### `split_whitespace` -/

section
variable (ws : Char → Bool)

theorem splitWs_ws (a : List Char) (h : ∀ x ∈ a, ws x = true) (cs : List Char) :
    splitWs ws [] (a ++ cs) = splitWs ws [] cs := by
  induction a with
  | nil => rfl
  | cons c a ih =>
    rw [List.cons_append, splitWs, if_pos (h c (by simp)), if_pos rfl]
    exact ih fun x hx => h x (by simp [hx])

theorem splitWs_word (w : List Char) (h : ∀ x ∈ w, ws x = false) (cur cs : List Char) :
    splitWs ws cur (w ++ cs) = splitWs ws (cur ++ w) cs := by
  induction w generalizing cur with
  | nil => simp
  | cons c w ih =>
    rw [List.cons_append, splitWs, if_neg (by simp [h c (by simp)]),
      ih (fun x hx => h x (by simp [hx]))]
    simp

theorem splitWs_flush (cur b cs : List Char) (hc : cur ≠ []) (hb : b ≠ [])
    (h : ∀ x ∈ b, ws x = true) : splitWs ws cur (b ++ cs) = cur :: splitWs ws [] cs := by
  cases b with
  | nil => exact absurd rfl hb
  | cons c b =>
    rw [List.cons_append, splitWs, if_pos (h c (by simp)), if_neg hc,
      splitWs_ws ws b (fun x hx => h x (by simp [hx]))]

theorem splitWs_end (cur b : List Char) (hc : cur ≠ []) (h : ∀ x ∈ b, ws x = true) :
    splitWs ws cur b = [cur] := by
  cases b with
  | nil => rw [splitWs, if_neg hc]
  | cons c b =>
    have := splitWs_flush ws cur (c :: b) [] hc (by simp) h
    rw [List.append_nil] at this
    rw [this]
    simp [splitWs]

/-- The longest prefix satisfying a test. -/
theorem prefix_exists (P : Char → Prop) [DecidablePred P] (cs : List Char) :
    ∃ a b, cs = a ++ b ∧ (∀ x ∈ a, P x) ∧ ∀ x, b.head? = some x → ¬ P x := by
  induction cs with
  | nil => exact ⟨[], [], rfl, by simp, by simp⟩
  | cons c cs ih =>
    by_cases h : P c
    · obtain ⟨a, b, rfl, h1, h2⟩ := ih
      refine ⟨c :: a, b, rfl, ?_, h2⟩
      intro x hx
      rcases List.mem_cons.1 hx with rfl | hx
      · exact h
      · exact h1 x hx
    · exact ⟨[], c :: cs, rfl, by simp, by simp; exact h⟩

/-- The first word of a text and what follows. -/
theorem first_word (cs : List Char) :
    (∀ x ∈ cs, ws x = true) ∨ ∃ a w b, cs = a ++ w ++ b ∧ (∀ x ∈ a, ws x = true) ∧
      w ≠ [] ∧ (∀ x ∈ w, ws x = false) ∧ ∀ x, b.head? = some x → ws x = true := by
  obtain ⟨a, r, rfl, ha, hr⟩ := prefix_exists (fun x => ws x = true) cs
  obtain ⟨w, b, rfl, hw, hb⟩ := prefix_exists (fun x => ws x = false) r
  by_cases hwe : w = []
  · subst hwe
    left
    cases b with
    | nil => simpa using ha
    | cons c b => exact absurd (by simpa using hr c rfl) (hb c rfl)
  · exact .inr ⟨a, w, b, by simp, ha, hwe, hw, fun x hx => by simpa using hb x hx⟩

theorem splitWs_two (cs t n : List Char) :
    splitWs ws [] cs = [t, n] ↔
    ∃ a b c : List Char, cs = a ++ t ++ b ++ n ++ c ∧
      (∀ x ∈ a ++ b ++ c, ws x = true) ∧ b ≠ [] ∧ t ≠ [] ∧ n ≠ [] ∧
      (∀ x ∈ t ++ n, ws x = false) := by
  constructor
  · intro h
    rcases first_word ws cs with hw | ⟨a, w, r, rfl, ha, hwe, hw, hr⟩
    · have := splitWs_ws ws cs hw []
      rw [List.append_nil] at this
      rw [this] at h
      simp [splitWs] at h
    · rw [List.append_assoc, splitWs_ws ws a ha, splitWs_word ws w hw, List.nil_append] at h
      cases r with
      | nil => rw [splitWs_end ws w [] hwe (by simp)] at h; simp at h
      | cons d r =>
        rw [splitWs, if_pos (hr d rfl), if_neg hwe] at h
        simp only [List.cons.injEq] at h
        obtain ⟨rfl, h⟩ := h
        rcases first_word ws r with hw2 | ⟨b, v, r2, rfl, hb, hve, hv, hr2⟩
        · have := splitWs_ws ws r hw2 []
          rw [List.append_nil] at this
          rw [this] at h
          simp [splitWs] at h
        · rw [List.append_assoc, splitWs_ws ws b hb, splitWs_word ws v hv, List.nil_append] at h
          rcases first_word ws r2 with hw3 | ⟨c, u, r3, rfl, hc, hue, hu, hr3⟩
          · rw [splitWs_end ws v r2 hve hw3] at h
            simp only [List.cons.injEq, and_true] at h
            subst h
            refine ⟨a, d :: b, r2, by simp, ?_, by simp, hwe, hve, ?_⟩
            · intro x hx
              simp only [List.mem_append, List.mem_cons] at hx
              rcases hx with (hx | rfl | hx) | hx
              · exact ha x hx
              · exact hr _ rfl
              · exact hb x hx
              · exact hw3 x hx
            · intro x hx
              rcases List.mem_append.1 hx with hx | hx
              · exact hw x hx
              · exact hv x hx
          · exfalso
            have hce : c ≠ [] := by
              rintro rfl
              cases u with
              | nil => exact hue rfl
              | cons y u =>
                have h1 := hr2 y rfl
                have h2 := hu y (by simp)
                rw [h1] at h2
                cases h2
            rw [List.append_assoc, splitWs_flush ws v c _ hve hce hc, splitWs_word ws u hu,
              List.nil_append] at h
            have hlen : splitWs ws u r3 ≠ [] := by
              cases r3 with
              | nil => rw [splitWs, if_neg hue]; simp
              | cons y r3 => rw [splitWs, if_pos (hr3 y rfl), if_neg hue]; simp
            simp only [List.cons.injEq] at h
            exact hlen h.2
  · rintro ⟨a, b, c, rfl, h1, hb, ht, hn, h2⟩
    simp only [List.append_assoc]
    rw [splitWs_ws ws a (fun x hx => h1 x (by simp [hx])),
      splitWs_word ws t (fun x hx => h2 x (by simp [hx])), List.nil_append,
      splitWs_flush ws t b _ ht hb (fun x hx => h1 x (by simp [hx])),
      splitWs_word ws n (fun x hx => h2 x (by simp [hx])), List.nil_append,
      splitWs_end ws n c hn (fun x hx => h1 x (by simp [hx]))]

end

theorem splitWhitespace_two (E : Env F) (s t n : String) :
    splitWhitespace E s = [t, n] ↔ TwoWords E s t n := by
  rw [TwoWords, ← splitWs_two, splitWhitespace]
  constructor
  · intro h
    obtain ⟨x, y, hxy⟩ : ∃ x y, splitWs E.isWhitespace [] s.toList = [x, y] := by
      match hs : splitWs E.isWhitespace [] s.toList, h with
      | [x, y], _ => exact ⟨x, y, rfl⟩
    rw [hxy] at h ⊢
    simp only [List.map_cons, List.map_nil, List.cons.injEq, and_true] at h
    rw [← h.1, ← h.2]
    simp
  · intro h; rw [h]; simp

theorem twoWords_unique (E : Env F) {s t n t' n' : String} (h : TwoWords E s t n)
    (h' : TwoWords E s t' n') : t = t' ∧ n = n' := by
  rw [← splitWhitespace_two] at h h'
  rw [h] at h'
  simpa using h'

/-! ### The value of a parameter -/

/-- The reader for the value of a parameter of a known type. -/
def valueParser (E : Env F) (ty : String) : PM F (PVal F) :=
  if ty = "integer" then parseOneOrList E (parseInt E) "int" >>= fun v => pure (.ints v)
  else if ty = "float" then parseOneOrList E (parseFloat E) "float" >>= fun v => pure (.floats v)
  else if ty = "point2" then parseList E (parsePoint2f E) "point2f" >>= fun v => pure (.point2s v)
  else if ty = "vector2" then
    parseList E (parseVector2f E) "vector2f" >>= fun v => pure (.vector2s v)
  else if ty = "bool" then parseOneOrList E (parseBool E) "bool" >>= fun v => pure (.bools v)
  else if ty = "string" then
    parseOneOrList E (parseString E) "string" >>= fun v => pure (.strings v)
  else if ty = "rgb" then do
    let rgb ← parseListOfN E (parseFloat E) 3 "float"
    pure (.spectrum (.Rgb (← idx rgb 0) (← idx rgb 1) (← idx rgb 2)))
  else if ty = "xyz" then do
    let rgb ← parseListOfN E (parseFloat E) 3 "float"
    pure (.spectrum (.Xyz (← idx rgb 0) (← idx rgb 1) (← idx rgb 2)))
  else if ty = "spectrum" then parseSpectrum E >>= fun v => pure (.spectrum v)
  else if ty = "blackbody" then do
    let rgb ← parseListOfN E (parseFloat E) 2 "float"
    pure (.spectrum (.Blackbody (← idx rgb 0) (← idx rgb 1)))
  else parseString E >>= fun v => pure (.texture v)

/-- Store a parameter. -/
def addParam (ps : ParamSet F) (p : SParam F) : ParamSet F :=
  match p.val with
  | .ints v => { ps with ints := ps.ints ++ [⟨p.name, p.pos, v⟩] }
  | .floats v => { ps with floats := ps.floats ++ [⟨p.name, p.pos, v⟩] }
  | .point2s v => { ps with point2fs := ps.point2fs ++ [⟨p.name, p.pos, v⟩] }
  | .vector2s v => { ps with vector2fs := ps.vector2fs ++ [⟨p.name, p.pos, v⟩] }
  | .bools v => { ps with bools := ps.bools ++ [⟨p.name, p.pos, v⟩] }
  | .strings v => { ps with strings := ps.strings ++ [⟨p.name, p.pos, v⟩] }
  | .spectrum v => { ps with spectra := ps.spectra ++ [⟨p.name, p.pos, [v]⟩] }
  | .texture v => { ps with textures := ps.textures ++ [⟨p.name, p.pos, [v]⟩] }

theorem collect_nil : collect ([] : List (SParam F)) = .default := rfl

theorem collect_snoc (l : List (SParam F)) (p : SParam F) :
    collect (l ++ [p]) = addParam (collect l) p := by
  obtain ⟨pos, name, val⟩ := p
  cases val <;> simp [collect, addParam]

theorem bind_assoc' {σ ε α β γ : Type} (x : M σ ε α) (f : α → M σ ε β) (g : β → M σ ε γ) :
    ((x >>= f) >>= g) = (x >>= fun a => f a >>= g) := by
  funext s
  simp only [M.bind_apply]
  rcases x s with ⟨r, s'⟩
  cases r <;> rfl

theorem pure_bind' {σ ε α β : Type} (a : α) (f : α → M σ ε β) :
    ((pure a : M σ ε α) >>= f) = f a := rfl

theorem parseParamList_nil (E : Env F) (ps : ParamSet F) (pre : List (Token F)) :
    ∃ m, parseParamList E ps (PS pre []) = (.err (.Str m), PS pre []) := by
  rw [parseParamList, bind_ok (attempt_err (peek_nil ..))]
  exact ⟨_, rfl⟩

theorem parseParamList_other (E : Env F) (ps : ParamSet F) (pre ts : List (Token F)) (t : Token F)
    (h : ∀ s, t.ty ≠ .Str s) :
    ∃ m, parseParamList E ps (PS pre (t :: ts)) = (.err (.Str m), PS pre (t :: ts)) := by
  rw [parseParamList, bind_ok (attempt_ok (peek_cons ..))]
  obtain ⟨p, ty⟩ := t
  cases ty with
  | Str s => exact absurd rfl (h s)
  | _ => exact ⟨_, rfl⟩

theorem parseParamList_notTwo (E : Env F) (ps : ParamSet F) (pre ts : List (Token F)) (p : Pos)
    (s : String) (h : ¬ ∃ ty name, TwoWords E s ty name) :
    ∃ m, parseParamList E ps (PS pre (⟨p, .Str s⟩ :: ts)) =
      (.err (.Str m), PS pre (⟨p, .Str s⟩ :: ts)) := by
  rw [parseParamList, bind_ok (attempt_ok (peek_cons ..))]
  have hl : (splitWhitespace E s).length ≠ 2 := by
    intro hl
    match hs : splitWhitespace E s, hl with
    | [a, b], _ => exact h ⟨a, b, (splitWhitespace_two E s a b).1 hs⟩
  show ∃ m, (if (splitWhitespace E s).length ≠ 2 then _ else _ : PM F _) _ = _
  rw [if_pos hl]
  exact ⟨_, rfl⟩

theorem parseParamList_unknown (E : Env F) (ps : ParamSet F) (pre ts : List (Token F)) (p : Pos)
    {s ty name : String} (h : TwoWords E s ty name) (ht : ty ∉ paramTypes) :
    ∃ m, parseParamList E ps (PS pre (⟨p, .Str s⟩ :: ts)) =
      (.err (.Str m), PS pre (⟨p, .Str s⟩ :: ts)) := by
  rw [parseParamList, bind_ok (attempt_ok (peek_cons ..))]
  rw [← splitWhitespace_two] at h
  show ∃ m, (if (splitWhitespace E s).length ≠ 2 then _ else _ : PM F _) _ = _
  rw [h, if_neg (by simp), bind_ok (idx_some (by rfl) _), bind_ok (idx_some (by rfl) _)]
  simp only [paramTypes, List.mem_cons, List.not_mem_nil, or_false, not_or] at ht
  obtain ⟨h1, h2, h3, h4, h5, h6, h7, h8, h9, h10, h11⟩ := ht
  rw [if_neg h1, if_neg h2, if_neg h3, if_neg h4, if_neg h5, if_neg h6, if_neg h7, if_neg h8,
    if_neg h9, if_neg h10, if_neg h11]
  exact ⟨_, rfl⟩

theorem parseParamList_known (E : Env F) (ps : ParamSet F) (pre ts : List (Token F)) (p : Pos)
    {s ty name : String} (h : TwoWords E s ty name) (ht : ty ∈ paramTypes) :
    parseParamList E ps (PS pre (⟨p, .Str s⟩ :: ts)) =
      (valueParser E ty >>= fun v => pure (addParam ps ⟨p, name, v⟩))
        (PS (pre ++ [⟨p, .Str s⟩]) ts) := by
  rw [parseParamList, bind_ok (attempt_ok (peek_cons ..))]
  rw [← splitWhitespace_two] at h
  show (if (splitWhitespace E s).length ≠ 2 then _ else _ : PM F _) _ = _
  rw [h, if_neg (by simp), bind_ok (idx_some (by rfl) _), bind_ok (idx_some (by rfl) _)]
  simp only [paramTypes, List.mem_cons, List.not_mem_nil, or_false] at ht
  rcases ht with rfl | rfl | rfl | rfl | rfl | rfl | rfl | rfl | rfl | rfl | rfl
  all_goals
    simp only [valueParser, String.reduceEq, if_true, if_false, bind_assoc', pure_bind']
    rw [bind_ok (next_cons ..)]
    rfl

/-! ### Reading values: success -/

theorem chunks2_pairs {l : List F} {ps : List (F × F)} (h : PairsOf l ps) (s : Parser F) :
    chunks2 l s = (.ok ps, s) := by
  rw [PairsOf] at h
  subst h
  induction ps with
  | nil => rfl
  | cons p ps ih =>
    show (chunks2 (ps.flatMap fun p => [p.1, p.2]) >>= fun r => _) s = _
    rw [bind_ok ih]
    rfl

theorem pairs_even {l : List F} {ps : List (F × F)} (h : PairsOf l ps) : l.length = 2 * ps.length := by
  rw [PairsOf] at h
  subst h
  induction ps with
  | nil => rfl
  | cons p ps ih => rw [List.flatMap_cons, List.length_append, ih]; simp; omega

theorem pairs_of_even : ∀ (n : Nat) (l : List F), l.length = 2 * n → ∃ ps, PairsOf l ps
  | 0, l, h => ⟨[], by simp at h; subst h; rfl⟩
  | n + 1, l, h => by
    match l, h with
    | a :: b :: l, h =>
      obtain ⟨ps, hps⟩ := pairs_of_even n l (by simp at h; omega)
      exact ⟨(a, b) :: ps, by rw [PairsOf] at *; rw [hps]; rfl⟩

theorem parseSpectrum_list (E : Env F) (pre ts : List (Token F)) (p : Pos) :
    parseSpectrum E (PS pre (⟨p, .LBracket⟩ :: ts)) =
      (parseList E (parseFloat E) "float" >>= fun floats =>
        if floats.length % 2 ≠ 0 then
          M.throw (.Str (p.fmt ++ " parse_spectrum(): Expected an even number of floats but got "
            ++ toString floats.length))
        else chunks2 floats >>= fun samples => pure (.Spectrum samples))
        (PS pre (⟨p, .LBracket⟩ :: ts)) := by
  rw [parseSpectrum, bind_ok (attempt_ok (peek_cons ..))]

theorem parseSpectrum_file (E : Env F) (pre ts : List (Token F)) (p : Pos) (s : String) :
    parseSpectrum E (PS pre (⟨p, .Str s⟩ :: ts)) = (.ok (.File s), PS (pre ++ [⟨p, .Str s⟩]) ts) := by
  rw [parseSpectrum, bind_ok (attempt_ok (peek_cons ..))]
  show (next >>= fun _ => _) _ = _
  rw [bind_ok (next_cons ..)]
  rfl

theorem parseSpectrum_other (E : Env F) (pre ts : List (Token F))
    (h : ∀ t, ts.head? = some t → t.ty ≠ .LBracket ∧ ∀ s, t.ty ≠ .Str s) :
    ∃ m, parseSpectrum E (PS pre ts) = (.err (.Str m), PS pre ts) := by
  rw [parseSpectrum]
  cases ts with
  | nil => rw [bind_ok (attempt_err (peek_nil ..))]; exact ⟨_, rfl⟩
  | cons t ts =>
    rw [bind_ok (attempt_ok (peek_cons ..))]
    obtain ⟨p, ty⟩ := t
    obtain ⟨h1, h2⟩ := h _ rfl
    cases ty with
    | LBracket => exact absurd rfl h1
    | Str s => exact absurd rfl (h2 s)
    | _ => exact ⟨_, rfl⟩

theorem valueParser_ok (E : Env F) {ty : String} {vs : List (Token F)} {v : PVal F}
    (h : ValText E ty vs v) (pre rest : List (Token F)) :
    valueParser E ty (PS pre (vs ++ rest)) = (.ok v, PS (pre ++ vs) rest) := by
  cases h with
  | ints ts l h =>
    simp only [valueParser, String.reduceEq, if_true, if_false]
    rw [bind_ok (parseOneOrList_ok E (reads_int E) starts_int _ h pre rest)]; rfl
  | floats ts l h =>
    simp only [valueParser, String.reduceEq, if_true, if_false]
    rw [bind_ok (parseOneOrList_ok E (reads_float E) (starts_num E) _ h pre rest)]; rfl
  | point2s ts l h =>
    simp only [valueParser, String.reduceEq, if_true, if_false]
    rw [bind_ok (parseList_ok E (reads_point E) (starts_point E) _ h pre rest)]; rfl
  | vector2s ts l h =>
    simp only [valueParser, String.reduceEq, if_true, if_false]
    rw [bind_ok (parseList_ok E (reads_vector E) (starts_vector E) _ h pre rest)]; rfl
  | bools ts l h =>
    simp only [valueParser, String.reduceEq, if_true, if_false]
    rw [bind_ok (parseOneOrList_ok E (reads_bool E) starts_bool _ h pre rest)]; rfl
  | strings ts l h =>
    simp only [valueParser, String.reduceEq, if_true, if_false]
    rw [bind_ok (parseOneOrList_ok E (reads_string E) starts_str _ h pre rest)]; rfl
  | rgb ts r g b h =>
    simp only [valueParser, String.reduceEq, if_true, if_false]
    rw [bind_ok (parseListOfN_ok E (reads_float E) 3 (by omega) _ h rfl pre rest)]; rfl
  | xyz ts r g b h =>
    simp only [valueParser, String.reduceEq, if_true, if_false]
    rw [bind_ok (parseListOfN_ok E (reads_float E) 3 (by omega) _ h rfl pre rest)]; rfl
  | blackbody ts t s h =>
    simp only [valueParser, String.reduceEq, if_true, if_false]
    rw [bind_ok (parseListOfN_ok E (reads_float E) 2 (by omega) _ h rfl pre rest)]; rfl
  | samples ts l ps h hp =>
    simp only [valueParser, String.reduceEq, if_true, if_false]
    have hl := parseList_ok E (reads_float E) (starts_num E) "float" h pre rest
    obtain ⟨hne, p, q, vs, rfl, hm⟩ := h
    have : parseSpectrum E (PS pre (⟨p, .LBracket⟩ :: vs ++ [⟨q, .RBracket⟩] ++ rest)) =
        (.ok (.Spectrum ps), PS (pre ++ (⟨p, .LBracket⟩ :: vs ++ [⟨q, .RBracket⟩])) rest) := by
      refine (parseSpectrum_list E pre _ p).trans ?_
      refine (bind_ok hl).trans ?_
      rw [if_neg (by rw [pairs_even hp]; omega), bind_ok (chunks2_pairs hp _)]
      rfl
    rw [bind_ok this]
    rfl
  | file ts s h =>
    obtain ⟨p, rfl⟩ := h
    simp only [valueParser, String.reduceEq, if_true, if_false]
    rw [List.cons_append, bind_ok (parseSpectrum_file E pre _ p s)]
    rfl
  | texture ts s h =>
    simp only [valueParser, String.reduceEq, if_false]
    rw [bind_ok ((reads_string E).ok _ s pre rest h)]
    rfl

/-! ### Reading values: failure -/

section
variable {T : Type} {parser : PM F T} {R : List (Token F) → T → Prop}

theorem stop_nobracket {rest : List (Token F)} (h : Stop rest) :
    ∀ t, rest.head? = some t → t.ty ≠ .LBracket ∧ t.ty ≠ .RBracket ∧ ∀ s, t.ty ≠ .Str s := by
  intro t ht
  obtain ⟨p, s, rfl⟩ := h t ht
  simp [kw]

theorem parseOneOrList_stop (E : Env F) (hp : Reads parser R) (hs : Starts R) (name : String)
    (pre : List (Token F)) {rest : List (Token F)} (h : Stop rest) :
    ∃ e, parseOneOrList E parser name (PS pre rest) = (.err e, PS pre rest) := by
  cases rest with
  | nil => rw [parseOneOrList, bind_ok (attempt_err (peek_nil ..))]; exact ⟨_, rfl⟩
  | cons t ts =>
    rw [parseOneOrList_one E name _ _ _ (stop_nobracket h t rfl).1]
    obtain ⟨e, he⟩ := hp.fail pre (t :: ts) (no_item_of_stop hs h)
    rw [bind_err he]
    exact ⟨_, rfl⟩

theorem parseList_unclosed_stop (E : Env F) (hp : Reads parser R) (hs : Starts R) (name : String)
    {p : Pos} {vs : List (Token F)} {xs : List T} (hm : Many R vs xs) (pre : List (Token F))
    {rest : List (Token F)} (h : Stop rest) :
    ∃ m, parseList E parser name (PS pre (⟨p, .LBracket⟩ :: vs ++ rest)) =
      (.err (.Str m), PS (pre ++ ⟨p, .LBracket⟩ :: vs) rest) :=
  parseList_unclosed E hp name hm pre rest (no_item_of_stop hs h)
    (.inr fun t ht => (stop_nobracket h t ht).2.1)

theorem parseOneOrList_unclosed_stop (E : Env F) (hp : Reads parser R) (hs : Starts R)
    (name : String) {p : Pos} {vs : List (Token F)} {xs : List T} (hm : Many R vs xs)
    (pre : List (Token F)) {rest : List (Token F)} (h : Stop rest) :
    ∃ m, parseOneOrList E parser name (PS pre (⟨p, .LBracket⟩ :: vs ++ rest)) =
      (.err (.Str m), PS (pre ++ ⟨p, .LBracket⟩ :: vs) rest) := by
  obtain ⟨m, hm'⟩ := parseList_unclosed_stop E hp hs name (p := p) hm pre h
  exact ⟨m, (parseOneOrList_list E name pre (vs ++ rest) p).trans hm'⟩

end

theorem ite_app {σ ε α : Type} {c : Prop} [Decidable c] {x y : M σ ε α} {s : σ}
    {P : Res ε α × σ → Prop} (h1 : c → P (x s)) (h2 : ¬ c → P (y s)) :
    P ((if c then x else y) s) := by
  by_cases h : c
  · rw [if_pos h]; exact h1 h
  · rw [if_neg h]; exact h2 h

/-- A missing value. -/
theorem valueParser_stop (E : Env F) (ty : String) (pre : List (Token F)) {rest : List (Token F)}
    (h : Stop rest) : ∃ e, valueParser E ty (PS pre rest) = (.err e, PS pre rest) := by
  have hb := stop_nobracket h
  have hnum : ∀ n name, ∃ m, parseListOfN E (parseFloat E) n name (PS pre rest) =
      (.err (.Str m), PS pre rest) := fun n name =>
    parseListOfN_nobracket E n name pre rest fun t ht => (hb t ht).1
  unfold valueParser
  refine ite_app (P := fun r => ∃ e, r = (.err e, PS pre rest)) (fun _ => ?_) (fun _ => ?_)
  · obtain ⟨e, he⟩ := parseOneOrList_stop E (reads_int E) starts_int "int" pre h
    rw [bind_err he]; exact ⟨_, rfl⟩
  refine ite_app (P := fun r => ∃ e, r = (.err e, PS pre rest)) (fun _ => ?_) (fun _ => ?_)
  · obtain ⟨e, he⟩ := parseOneOrList_stop E (reads_float E) (starts_num E) "float" pre h
    rw [bind_err he]; exact ⟨_, rfl⟩
  refine ite_app (P := fun r => ∃ e, r = (.err e, PS pre rest)) (fun _ => ?_) (fun _ => ?_)
  · obtain ⟨e, he⟩ := parseList_nobracket (parser := parsePoint2f E) E "point2f" pre rest
      fun t ht => (hb t ht).1
    rw [bind_err he]; exact ⟨_, rfl⟩
  refine ite_app (P := fun r => ∃ e, r = (.err e, PS pre rest)) (fun _ => ?_) (fun _ => ?_)
  · obtain ⟨e, he⟩ := parseList_nobracket (parser := parseVector2f E) E "vector2f" pre rest
      fun t ht => (hb t ht).1
    rw [bind_err he]; exact ⟨_, rfl⟩
  refine ite_app (P := fun r => ∃ e, r = (.err e, PS pre rest)) (fun _ => ?_) (fun _ => ?_)
  · obtain ⟨e, he⟩ := parseOneOrList_stop E (reads_bool E) starts_bool "bool" pre h
    rw [bind_err he]; exact ⟨_, rfl⟩
  refine ite_app (P := fun r => ∃ e, r = (.err e, PS pre rest)) (fun _ => ?_) (fun _ => ?_)
  · obtain ⟨e, he⟩ := parseOneOrList_stop E (reads_string E) starts_str "string" pre h
    rw [bind_err he]; exact ⟨_, rfl⟩
  refine ite_app (P := fun r => ∃ e, r = (.err e, PS pre rest)) (fun _ => ?_) (fun _ => ?_)
  · obtain ⟨e, he⟩ := hnum 3 "float"
    rw [bind_err he]; exact ⟨_, rfl⟩
  refine ite_app (P := fun r => ∃ e, r = (.err e, PS pre rest)) (fun _ => ?_) (fun _ => ?_)
  · obtain ⟨e, he⟩ := hnum 3 "float"
    rw [bind_err he]; exact ⟨_, rfl⟩
  refine ite_app (P := fun r => ∃ e, r = (.err e, PS pre rest)) (fun _ => ?_) (fun _ => ?_)
  · obtain ⟨e, he⟩ := parseSpectrum_other E pre rest fun t ht => ⟨(hb t ht).1, (hb t ht).2.2⟩
    rw [bind_err he]; exact ⟨_, rfl⟩
  refine ite_app (P := fun r => ∃ e, r = (.err e, PS pre rest)) (fun _ => ?_) (fun _ => ?_)
  · obtain ⟨e, he⟩ := hnum 2 "float"
    rw [bind_err he]; exact ⟨_, rfl⟩
  · obtain ⟨e, he⟩ := (reads_string E).fail pre rest (no_item_of_stop starts_str h)
    rw [bind_err he]; exact ⟨_, rfl⟩

theorem listOfN_none (E : Env F) (n : Nat) (hn : n > 0) (pre : List (Token F))
    {rest : List (Token F)} (q : Pos) (h : Stop rest) :
    ∃ m, parseListOfN E (parseFloat E) n "float" (PS pre (⟨q, .LBracket⟩ :: rest)) =
      (.err (.Str m), PS (pre ++ [⟨q, .LBracket⟩]) rest) :=
  parseListOfN_few E (reads_float E) n "float" (vs := []) (xs := []) .nil hn pre rest
    (no_item_of_stop (starts_num E) h)

/-- A list that is not closed. -/
theorem valueParser_unclosed (E : Env F) {ty : String} {vs : List (Token F)}
    (hv : Unclosed E ty vs) (pre : List (Token F)) {rest : List (Token F)} (q : Pos)
    (h : Stop rest) : ∃ e, valueParser E ty (PS pre (⟨q, .LBracket⟩ :: vs ++ rest)) =
      (.err e, PS (pre ++ ⟨q, .LBracket⟩ :: vs) rest) := by
  have hb := stop_nobracket h
  cases hv with
  | ints vs l hm =>
    simp only [valueParser, if_true]
    obtain ⟨e, he⟩ := parseOneOrList_unclosed_stop E (reads_int E) starts_int "int" hm pre h
    rw [bind_err he]; exact ⟨_, rfl⟩
  | floats vs l hm =>
    simp only [valueParser, String.reduceEq, if_true, if_false]
    obtain ⟨e, he⟩ := parseOneOrList_unclosed_stop E (reads_float E) (starts_num E) "float" hm pre h
    rw [bind_err he]; exact ⟨_, rfl⟩
  | point2s vs l hm =>
    simp only [valueParser, String.reduceEq, if_true, if_false]
    obtain ⟨e, he⟩ := parseList_unclosed_stop E (reads_point E) (starts_point E) "point2f" hm pre h
    rw [bind_err he]; exact ⟨_, rfl⟩
  | vector2s vs l hm =>
    simp only [valueParser, String.reduceEq, if_true, if_false]
    obtain ⟨e, he⟩ := parseList_unclosed_stop E (reads_vector E) (starts_vector E) "vector2f" hm pre h
    rw [bind_err he]; exact ⟨_, rfl⟩
  | bools vs l hm =>
    simp only [valueParser, String.reduceEq, if_true, if_false]
    obtain ⟨e, he⟩ := parseOneOrList_unclosed_stop E (reads_bool E) starts_bool "bool" hm pre h
    rw [bind_err he]; exact ⟨_, rfl⟩
  | strings vs l hm =>
    simp only [valueParser, String.reduceEq, if_true, if_false]
    obtain ⟨e, he⟩ := parseOneOrList_unclosed_stop E (reads_string E) starts_str "string" hm pre h
    rw [bind_err he]; exact ⟨_, rfl⟩
  | samples vs l hm =>
    simp only [valueParser, String.reduceEq, if_true, if_false]
    obtain ⟨e, he⟩ := parseList_unclosed_stop E (reads_float E) (starts_num E) "float" (p := q) hm pre h
    have : parseSpectrum E (PS pre (⟨q, .LBracket⟩ :: vs ++ rest)) =
        (.err (.Str e), PS (pre ++ ⟨q, .LBracket⟩ :: vs) rest) :=
      (parseSpectrum_list E pre (vs ++ rest) q).trans (bind_err he)
    rw [bind_err this]; exact ⟨_, rfl⟩
  | fixedNone ty ht =>
    simp only [List.mem_cons, List.not_mem_nil, or_false] at ht
    rcases ht with rfl | rfl | rfl
    · simp only [valueParser, String.reduceEq, if_true, if_false]
      obtain ⟨e, he⟩ := listOfN_none E 3 (by omega) pre q h
      rw [List.cons_append, List.nil_append, bind_err he]; exact ⟨_, rfl⟩
    · simp only [valueParser, String.reduceEq, if_true, if_false]
      obtain ⟨e, he⟩ := listOfN_none E 3 (by omega) pre q h
      rw [List.cons_append, List.nil_append, bind_err he]; exact ⟨_, rfl⟩
    · simp only [valueParser, String.reduceEq, if_true, if_false]
      obtain ⟨e, he⟩ := listOfN_none E 2 (by omega) pre q h
      rw [List.cons_append, List.nil_append, bind_err he]; exact ⟨_, rfl⟩
  | rgb vs r g b hm =>
    simp only [valueParser, String.reduceEq, if_true, if_false]
    obtain ⟨e, he⟩ := parseListOfN_unclosed E (reads_float E) 3 (by omega) "float" (p := q) hm rfl pre rest
      fun t ht => (hb t ht).2.1
    rw [bind_err he]; exact ⟨_, rfl⟩
  | xyz vs r g b hm =>
    simp only [valueParser, String.reduceEq, if_true, if_false]
    obtain ⟨e, he⟩ := parseListOfN_unclosed E (reads_float E) 3 (by omega) "float" (p := q) hm rfl pre rest
      fun t ht => (hb t ht).2.1
    rw [bind_err he]; exact ⟨_, rfl⟩
  | blackbody vs t s hm =>
    simp only [valueParser, String.reduceEq, if_true, if_false]
    obtain ⟨e, he⟩ := parseListOfN_unclosed E (reads_float E) 2 (by omega) "float" (p := q) hm rfl pre rest
      fun t ht => (hb t ht).2.1
    rw [bind_err he]; exact ⟨_, rfl⟩

/-- A sampled spectrum of odd length. -/
theorem valueParser_odd (E : Env F) {vs : List (Token F)} {l : List F}
    (hv : Bracketed (NumTok E) vs l) (hl : l.length % 2 = 1) (pre rest : List (Token F)) :
    ∃ e, valueParser E "spectrum" (PS pre (vs ++ rest)) = (.err e, PS (pre ++ vs) rest) := by
  simp only [valueParser, String.reduceEq, if_true, if_false]
  have hok := parseList_ok E (reads_float E) (starts_num E) "float" hv pre rest
  obtain ⟨hne, p, q, vs, rfl, hm⟩ := hv
  have : ∃ e, parseSpectrum E (PS pre (⟨p, .LBracket⟩ :: vs ++ [⟨q, .RBracket⟩] ++ rest)) =
      (.err e, PS (pre ++ (⟨p, .LBracket⟩ :: vs ++ [⟨q, .RBracket⟩])) rest) := by
    have h1 := parseSpectrum_list E pre (vs ++ [⟨q, .RBracket⟩] ++ rest) p
    have h2 := h1.trans (bind_ok hok)
    rw [if_pos (by omega)] at h2
    exact ⟨_, h2⟩
  obtain ⟨e, he⟩ := this
  rw [bind_err he]
  exact ⟨_, rfl⟩

/-! ### Reading values: every outcome -/

/-- What the tokens consumed by a failed value reader look like. -/
inductive ValueDropped (E : Env F) : String → List (Token F) → Prop
  | none (ty) : ValueDropped E ty []
  | unclosed (ty q vs) (h : Unclosed E ty vs) : ValueDropped E ty (⟨q, .LBracket⟩ :: vs)
  | odd (vs l) (hv : Bracketed (NumTok E) vs l) (hl : l.length % 2 = 1) :
      ValueDropped E "spectrum" vs

/-- Every outcome of a value reader started on `ts`. -/
def ValueOut (E : Env F) (ty : String) (pre ts : List (Token F))
    (r : Res ParserError (PVal F) × Parser F) : Prop :=
  (∃ a v rest, ts = a ++ rest ∧ ValText E ty a v ∧ r = (.ok v, PS (pre ++ a) rest)) ∨
  (∃ a rest e, ts = a ++ rest ∧ r = (.err e, PS (pre ++ a) rest) ∧
    ValueDropped E ty a)

section
variable {T : Type} {parser : PM F T} {R : List (Token F) → T → Prop}

theorem out_oneOrList (E : Env F) (hp : Reads parser R) (hs : Starts R) (name ty : String)
    (con : List T → PVal F) (hv : ∀ ts l, OneOrList R ts l → ValText E ty ts (con l))
    (hu : ∀ ts l, Many R ts l → Unclosed E ty ts) (pre ts : List (Token F)) :
    ValueOut E ty pre ts ((parseOneOrList E parser name >>= fun v => pure (con v)) (PS pre ts)) := by
  rcases parseOneOrList_cases E hp hs name pre ts with ⟨a, xs, rest, h1, h2, h3⟩ |
    ⟨a, rest, m, h1, h2, h3⟩
  · rw [bind_ok h3]
    exact .inl ⟨a, con xs, rest, h1, hv a xs h2, rfl⟩
  · rw [bind_err h2]
    refine .inr ⟨a, rest, m, h1, rfl, ?_⟩
    rcases h3 with ⟨rfl, _⟩ | ⟨p, vs, xs, rfl, hm, _⟩
    · exact .none _
    · exact .unclosed _ _ _ (hu vs xs hm)

theorem out_list (E : Env F) (hp : Reads parser R) (hs : Starts R) (name ty : String)
    (con : List T → PVal F) (hv : ∀ ts l, Bracketed R ts l → ValText E ty ts (con l))
    (hu : ∀ ts l, Many R ts l → Unclosed E ty ts) (pre ts : List (Token F)) :
    ValueOut E ty pre ts ((parseList E parser name >>= fun v => pure (con v)) (PS pre ts)) := by
  rcases parseList_cases E hp hs name pre ts with ⟨a, xs, rest, h1, h2, h3⟩ |
    ⟨a, rest, m, h1, h2, h3⟩
  · rw [bind_ok h3]
    exact .inl ⟨a, con xs, rest, h1, hv a xs h2, rfl⟩
  · rw [bind_err h2]
    refine .inr ⟨a, rest, _, h1, rfl, ?_⟩
    rcases h3 with ⟨rfl, _⟩ | ⟨p, vs, xs, rfl, hm, _⟩
    · exact .none _
    · exact .unclosed _ _ _ (hu vs xs hm)

end

theorem out_listOfN (E : Env F) (n : Nat) (hn : n > 0) (ty : String)
    (k : List F → PM F (PVal F)) (con : List F → PVal F)
    (hk : ∀ l s, l.length = n → k l s = (.ok (con l), s))
    (hv : ∀ ts l, l.length = n → Bracketed (NumTok E) ts l → ValText E ty ts (con l))
    (h0 : Unclosed E ty [])
    (hu : ∀ ts l, l.length = n → Many (NumTok E) ts l → Unclosed E ty ts) (pre ts : List (Token F)) :
    ValueOut E ty pre ts ((parseListOfN E (parseFloat E) n "float" >>= k) (PS pre ts)) := by
  rcases parseListOfN_cases E (reads_float E) n hn "float" pre ts with ⟨a, xs, rest, h1, h2, hl, h3⟩ |
    ⟨a, rest, m, h1, h2, h3⟩
  · rw [bind_ok h3, hk _ _ hl]
    exact .inl ⟨a, con xs, rest, h1, hv a xs hl h2, rfl⟩
  · rw [bind_err h2]
    refine .inr ⟨a, rest, _, h1, rfl, ?_⟩
    rcases h3 with ⟨rfl, _⟩ | ⟨p, rfl, vs, xs, c, rfl, hm, hlt, _⟩ | ⟨p, vs, xs, rfl, hm, hl, _⟩
    · exact .none _
    · exact .unclosed _ _ _ h0
    · exact .unclosed _ _ _ (hu vs xs hl hm)

theorem out_spectrum (E : Env F) (pre ts : List (Token F)) :
    ValueOut E "spectrum" pre ts ((parseSpectrum E >>= fun v => pure (.spectrum v)) (PS pre ts)) := by
  by_cases ho : ∀ t, ts.head? = some t → t.ty ≠ .LBracket ∧ ∀ s, t.ty ≠ .Str s
  · obtain ⟨m, hm⟩ := parseSpectrum_other E pre ts ho
    rw [bind_err hm]
    exact .inr ⟨[], ts, .Str m, rfl, by simp, .none _⟩
  cases ts with
  | nil => exact absurd (by simp) ho
  | cons t ts =>
    obtain ⟨p, tty⟩ := t
    cases tty with
    | Str s =>
      rw [bind_ok (parseSpectrum_file E pre ts p s)]
      exact .inl ⟨[⟨p, .Str s⟩], _, ts, rfl, .file _ s ⟨p, rfl⟩, rfl⟩
    | LBracket =>
      rcases parseList_cases E (reads_float E) (starts_num E) "float" pre (⟨p, .LBracket⟩ :: ts) with
        ⟨a, xs, rest, h1, h2, h3⟩ | ⟨a, rest, m, h1, h2, h3⟩
      · by_cases hodd : xs.length % 2 = 1
        · obtain ⟨e, he⟩ := valueParser_odd E h2 hodd pre rest
          simp only [valueParser, String.reduceEq, if_true, if_false] at he
          rw [← h1] at he
          rw [he]
          exact .inr ⟨a, rest, e, h1, rfl, .odd a xs h2 hodd⟩
        · obtain ⟨ps, hps⟩ := pairs_of_even (xs.length / 2) xs (by omega)
          have hvt : ValText E "spectrum" a (.spectrum (.Spectrum ps)) := .samples a xs ps h2 hps
          have he := valueParser_ok E hvt pre rest
          simp only [valueParser, String.reduceEq, if_true, if_false] at he
          rw [← h1] at he
          rw [he]
          exact .inl ⟨a, _, rest, h1, hvt, rfl⟩
      · rw [bind_err ((parseSpectrum_list E pre ts p).trans (bind_err h2))]
        refine .inr ⟨a, rest, _, h1, rfl, ?_⟩
        rcases h3 with ⟨rfl, _⟩ | ⟨p, vs, xs, rfl, hm, _⟩
        · exact .none _
        · exact .unclosed _ _ _ (.samples _ _ hm)
    | _ => exact absurd (by simp) ho

theorem length3 {α : Type} {l : List α} (h : l.length = 3) : ∃ a b c, l = [a, b, c] := by
  match l, h with
  | [a, b, c], _ => exact ⟨a, b, c, rfl⟩
theorem length2 {α : Type} {l : List α} (h : l.length = 2) : ∃ a b, l = [a, b] := by
  match l, h with
  | [a, b], _ => exact ⟨a, b, rfl⟩

theorem valueParser_out (E : Env F) {ty : String} (ht : ty ∈ paramTypes) (pre ts : List (Token F)) :
    ValueOut E ty pre ts (valueParser E ty (PS pre ts)) := by
  simp only [paramTypes, List.mem_cons, List.not_mem_nil, or_false] at ht
  rcases ht with rfl | rfl | rfl | rfl | rfl | rfl | rfl | rfl | rfl | rfl | rfl <;>
    simp only [valueParser, String.reduceEq, if_true, if_false]
  · exact out_oneOrList E (reads_int E) starts_int _ _ _ .ints .ints pre ts
  · exact out_oneOrList E (reads_float E) (starts_num E) _ _ _ .floats .floats pre ts
  · exact out_list E (reads_point E) (starts_point E) _ _ _ .point2s .point2s pre ts
  · exact out_list E (reads_vector E) (starts_vector E) _ _ _ .vector2s .vector2s pre ts
  · exact out_oneOrList E (reads_bool E) starts_bool _ _ _ .bools .bools pre ts
  · exact out_oneOrList E (reads_string E) starts_str _ _ _ .strings .strings pre ts
  · refine out_listOfN E 3 (by omega) "rgb" _
      (fun l => match l with | [a, b, c] => .spectrum (.Rgb a b c) | _ => .ints []) ?_ ?_
      (.fixedNone _ (by simp)) ?_ pre ts
    · intro l s h; obtain ⟨a, b, c, rfl⟩ := length3 h; rfl
    · intro ts l h hb; obtain ⟨a, b, c, rfl⟩ := length3 h; exact .rgb _ _ _ _ hb
    · intro ts l h hb; obtain ⟨a, b, c, rfl⟩ := length3 h; exact .rgb _ _ _ _ hb
  · refine out_listOfN E 3 (by omega) "xyz" _
      (fun l => match l with | [a, b, c] => .spectrum (.Xyz a b c) | _ => .ints []) ?_ ?_
      (.fixedNone _ (by simp)) ?_ pre ts
    · intro l s h; obtain ⟨a, b, c, rfl⟩ := length3 h; rfl
    · intro ts l h hb; obtain ⟨a, b, c, rfl⟩ := length3 h; exact .xyz _ _ _ _ hb
    · intro ts l h hb; obtain ⟨a, b, c, rfl⟩ := length3 h; exact .xyz _ _ _ _ hb
  · exact out_spectrum E pre ts
  · refine out_listOfN E 2 (by omega) "blackbody" _
      (fun l => match l with | [a, b] => .spectrum (.Blackbody a b) | _ => .ints []) ?_ ?_
      (.fixedNone _ (by simp)) ?_ pre ts
    · intro l s h; obtain ⟨a, b, rfl⟩ := length2 h; rfl
    · intro ts l h hb; obtain ⟨a, b, rfl⟩ := length2 h; exact .blackbody _ _ _ hb
    · intro ts l h hb; obtain ⟨a, b, rfl⟩ := length2 h; exact .blackbody _ _ _ hb
  · by_cases hx : ∃ a x rest, ts = a ++ rest ∧ StrTok a x
    · obtain ⟨a, x, rest, h1, hx⟩ := hx
      have := (reads_string E).ok a x pre rest hx
      rw [← h1] at this
      rw [bind_ok this]
      exact .inl ⟨a, _, rest, h1, .texture _ _ hx, rfl⟩
    · obtain ⟨e, he⟩ := (reads_string E).fail pre ts hx
      rw [bind_err he]
      exact .inr ⟨[], ts, .Str e, rfl, by simp, .none _⟩

theorem valText_type {E : Env F} {ty : String} {vs : List (Token F)} {v : PVal F}
    (h : ValText E ty vs v) : ty ∈ paramTypes := by
  cases h <;> simp [paramTypes]

theorem unclosed_type {E : Env F} {ty : String} {vs : List (Token F)}
    (h : Unclosed E ty vs) : ty ∈ paramTypes := by
  cases h with
  | fixedNone ty h =>
    simp only [List.mem_cons, List.not_mem_nil, or_false] at h
    rcases h with rfl | rfl | rfl <;> simp [paramTypes]
  | _ => simp [paramTypes]

/-! ### `parse_param_list` -/

theorem parseParamList_ok (E : Env F) {a : List (Token F)} {p : SParam F} (h : ParamText E a p)
    (ps : ParamSet F) (pre rest : List (Token F)) :
    parseParamList E ps (PS pre (a ++ rest)) = (.ok (addParam ps p), PS (pre ++ a) rest) := by
  obtain ⟨decl, ty, vs, rfl, htw, hv⟩ := h
  rw [List.cons_append, parseParamList_known E ps pre _ _ htw (valText_type hv),
    bind_ok (valueParser_ok E hv _ rest)]
  simp [M.pure_apply]

theorem parseParamList_dropped (E : Env F) {d : List (Token F)} (h : Dropped E d)
    (ps : ParamSet F) (pre : List (Token F)) {rest : List (Token F)} (hs : Stop rest) :
    ∃ e, parseParamList E ps (PS pre (d ++ rest)) = (.err e, PS (pre ++ d) rest) := by
  cases h with
  | none =>
    rw [List.nil_append, List.append_nil]
    cases rest with
    | nil => obtain ⟨m, h⟩ := parseParamList_nil E ps pre; exact ⟨_, h⟩
    | cons t ts =>
      obtain ⟨m, h⟩ := parseParamList_other E ps pre ts t (stop_nobracket hs t rfl).2.2
      exact ⟨_, h⟩
  | noValue p decl ty name hd ht =>
    rw [List.cons_append, List.nil_append, parseParamList_known E ps pre rest p hd ht]
    obtain ⟨e, he⟩ := valueParser_stop E ty (pre ++ [⟨p, .Str decl⟩]) hs
    rw [bind_err he]
    exact ⟨e, rfl⟩
  | unclosed p q decl ty name vs hd hv =>
    rw [List.cons_append, parseParamList_known E ps pre _ p hd (unclosed_type hv)]
    obtain ⟨e, he⟩ := valueParser_unclosed E hv (pre ++ [⟨p, .Str decl⟩]) q hs
    rw [bind_err he]
    exact ⟨e, by simp⟩
  | oddSpectrum p decl name vs l hd hv hl =>
    rw [List.cons_append, parseParamList_known E ps pre _ p hd (by simp [paramTypes])]
    obtain ⟨e, he⟩ := valueParser_odd E hv hl (pre ++ [⟨p, .Str decl⟩]) rest
    rw [bind_err he]
    exact ⟨e, by simp⟩

/-- Every outcome of `parse_param_list`. -/
theorem parseParamList_out (E : Env F) (ps : ParamSet F) (pre ts : List (Token F)) :
    (∃ a p rest, ts = a ++ rest ∧ ParamText E a p ∧
      parseParamList E ps (PS pre ts) = (.ok (addParam ps p), PS (pre ++ a) rest)) ∨
    (∃ a rest e, ts = a ++ rest ∧ parseParamList E ps (PS pre ts) = (.err e, PS (pre ++ a) rest) ∧
      Dropped E a) := by
  cases ts with
  | nil =>
    obtain ⟨m, h⟩ := parseParamList_nil E ps pre
    exact .inr ⟨[], [], _, rfl, by simpa using h, .none⟩
  | cons t ts =>
    by_cases hstr : ∃ s, t.ty = .Str s
    · obtain ⟨p, tty⟩ := t
      obtain ⟨s, rfl⟩ := hstr
      by_cases htw : ∃ ty name, TwoWords E s ty name
      · obtain ⟨ty, name, htw⟩ := htw
        by_cases hty : ty ∈ paramTypes
        · rw [parseParamList_known E ps pre ts p htw hty]
          rcases valueParser_out E hty (pre ++ [⟨p, .Str s⟩]) ts with ⟨a, v, rest, h1, h2, h3⟩ |
            ⟨a, rest, e, h1, h2, h3⟩
          · rw [bind_ok h3]
            exact .inl ⟨⟨p, .Str s⟩ :: a, ⟨p, name, v⟩, rest, by simp [h1],
              ⟨s, ty, a, rfl, htw, h2⟩, by simp [M.pure_apply]⟩
          · rw [bind_err h2]
            refine .inr ⟨⟨p, .Str s⟩ :: a, rest, e, by simp [h1], by simp, ?_⟩
            cases h3 with
            | none => exact .noValue p s ty name htw hty
            | unclosed ty q vs hu => exact .unclosed p q s ty name vs htw hu
            | odd vs l hv hl => exact .oddSpectrum p s name _ l htw hv hl
        · obtain ⟨m, h⟩ := parseParamList_unknown E ps pre ts p htw hty
          exact .inr ⟨[], _, _, rfl, by simpa using h, .none⟩
      · obtain ⟨m, h⟩ := parseParamList_notTwo E ps pre ts p s htw
        exact .inr ⟨[], _, _, rfl, by simpa using h, .none⟩
    · obtain ⟨m, h⟩ := parseParamList_other E ps pre ts t fun s hs => hstr ⟨s, hs⟩
      exact .inr ⟨[], _, _, rfl, by simpa using h, .none⟩

theorem paramText_ne {E : Env F} {a : List (Token F)} {p : SParam F} (h : ParamText E a p) :
    a ≠ [] := by
  obtain ⟨decl, ty, vs, rfl, _⟩ := h
  simp

/-! ### `parse_param_lists` -/

theorem paramListsLoop_run (E : Env F) {a : List (Token F)} {xs : List (SParam F)}
    (hm : Many (ParamText E) a xs) : ∀ (fuel : Nat) (acc : List (SParam F))
    (pre rest : List (Token F)),
    paramListsLoop E (fuel + xs.length) (collect acc) (PS pre (a ++ rest)) =
      paramListsLoop E fuel (collect (acc ++ xs)) (PS (pre ++ a) rest) := by
  induction hm with
  | nil => intros; simp
  | cons a b x xs h _ ih =>
    intro fuel acc pre rest
    rw [List.length_cons, ← Nat.add_assoc, paramListsLoop, List.append_assoc,
      bind_ok (attempt_ok (parseParamList_ok E h (collect acc) pre (b ++ rest))), ← collect_snoc]
    refine (ih fuel (acc ++ [x]) (pre ++ a) rest).trans ?_
    simp

theorem paramListsLoop_stop (E : Env F) (fuel : Nat) {ps : ParamSet F} {s s' : Parser F}
    {e : ParserError} (h : parseParamList E ps s = (.err e, s')) :
    paramListsLoop E (fuel + 1) ps s = (.ok ps, s') := by
  rw [paramListsLoop, bind_ok (attempt_err h)]
  rfl

theorem many_len {E : Env F} {a : List (Token F)} {xs : List (SParam F)}
    (h : Many (ParamText E) a xs) : xs.length ≤ a.length := by
  induction h with
  | nil => simp
  | cons a b x xs h _ ih =>
    have : a.length ≠ 0 := by simpa using paramText_ne h
    simp; omega

theorem parseParamLists_run (E : Env F) {a : List (Token F)} {xs : List (SParam F)}
    (hm : Many (ParamText E) a xs) (pre rest : List (Token F)) {s' : Parser F} {e : ParserError}
    (h : parseParamList E (collect xs) (PS (pre ++ a) rest) = (.err e, s')) :
    parseParamLists E .default (PS pre (a ++ rest)) = (.ok (collect xs), s') := by
  have hlen := many_len hm
  rw [parseParamLists, bind_ok (M.get_apply _)]
  obtain ⟨k, hk⟩ : ∃ k, (PS pre (a ++ rest)).tokens.length + 1 = (k + 1) + xs.length :=
    ⟨(PS pre (a ++ rest)).tokens.length - xs.length, by simp [PS]; omega⟩
  rw [hk, ← collect_nil, paramListsLoop_run E hm, List.nil_append]
  exact paramListsLoop_stop E k h

/-- Well-formed parameters, then something dropped, then a keyword or the end of the text. -/
theorem parseParamLists_ok (E : Env F) {ts : List (Token F)} {ps : List (SParam F)}
    (h : ParamsText E ts ps) (pre : List (Token F)) {rest : List (Token F)} (hs : Stop rest) :
    parseParamLists E .default (PS pre (ts ++ rest)) = (.ok (collect ps), PS (pre ++ ts) rest) := by
  obtain ⟨a, d, rfl, hm, hd⟩ := h
  obtain ⟨e, he⟩ := parseParamList_dropped E hd (collect ps) (pre ++ a) hs
  have := parseParamLists_run E hm pre (d ++ rest) he
  simpa using this

/-- The longest run of well-formed parameters. -/
theorem params_split (E : Env F) (n : Nat) : ∀ ts : List (Token F), ts.length ≤ n →
    ∃ a xs rest, ts = a ++ rest ∧ Many (ParamText E) a xs ∧
      ¬ ∃ b x c, rest = b ++ c ∧ ParamText E b x :=
  many_split (R := ParamText E) (fun _ _ => paramText_ne) n

/-- `parse_param_lists` always succeeds. -/
theorem parseParamLists_out (E : Env F) (pre ts : List (Token F)) :
    ∃ a xs rest, ts = a ++ rest ∧ ParamsText E a xs ∧
      parseParamLists E .default (PS pre ts) = (.ok (collect xs), PS (pre ++ a) rest) := by
  obtain ⟨a, xs, rest, rfl, hm, hf⟩ := params_split E _ ts (Nat.le_refl _)
  rcases parseParamList_out E (collect xs) (pre ++ a) rest with ⟨b, p, c, h1, h2, _⟩ |
    ⟨b, c, e, h1, h2, h3⟩
  · exact absurd ⟨b, p, c, h1, h2⟩ hf
  · refine ⟨a ++ b, xs, c, by simp [h1], ⟨a, b, rfl, hm, h3⟩, ?_⟩
    rw [parseParamLists_run E hm pre rest h2]
    simp

end Pbrt.Proof
