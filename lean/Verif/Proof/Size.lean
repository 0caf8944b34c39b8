import Verif.Proof.ParseDir
import Verif.Proof.LexProps
import Verif.Spec.Size

/-!
# A scene is no larger than its text
-/

namespace Pbrt.Proof
open Pbrt.Spec

variable {F : Type} {E : Env F}

/-! ### Tokens and characters -/

theorem unesc_length {b s : List Char} (h : Unesc b s) : s.length ≤ b.length := by
  induction h <;> simp <;> omega

theorem lexeme_size {l rest : List Char} {v : TokenType F} (h : Lexeme E l v rest) :
    tokSize v ≤ l.length := by
  have hp := List.length_pos_iff.2 (lexeme_ne_nil h)
  cases h with
  | lbracket => exact hp
  | rbracket => exact hp
  | str body s _ h =>
    have := unesc_length h
    simp only [tokSize, strSize, String.toList_ofList, List.length_cons, List.length_append,
      List.length_nil]
    omega
  | num _ _ _ h =>
    cases h <;> exact hp
  | ident c cs => simp [tokSize]

theorem lex_size {pre text : List Char} {ts : List (Token F)} (h : Lex E pre text ts) :
    toksSize ts ≤ text.length := by
  induction h with
  | eof => simp [toksSize]
  | blank _ _ _ _ _ _ ih => simp only [List.length_cons]; omega
  | comment _ _ _ _ _ _ ih => simp only [List.length_cons, List.length_append]; omega
  | lastComment => simp [toksSize]
  | tok pre l rest v ts hl h ih =>
    have := lexeme_size hl
    simp only [toksSize, List.map_cons, List.sum_cons, List.length_append] at ih ⊢
    omega

theorem toksSize_nil : toksSize ([] : List (Token F)) = 0 := rfl

theorem toksSize_cons (t : Token F) (ts : List (Token F)) :
    toksSize (t :: ts) = tokSize t.ty + toksSize ts := rfl

theorem toksSize_append (a b : List (Token F)) : toksSize (a ++ b) = toksSize a + toksSize b := by
  simp [toksSize]

/-! ### Values -/

section
variable {T : Type} {R : List (Token F) → T → Prop} {size : T → Nat}

theorem many_size (hR : ∀ ts x, R ts x → size x ≤ toksSize ts) {ts : List (Token F)} {xs : List T}
    (h : Many R ts xs) : (xs.map size).sum ≤ toksSize ts := by
  induction h with
  | nil => simp
  | cons a b x xs h _ ih =>
    have := hR _ _ h
    rw [toksSize_append, List.map_cons, List.sum_cons]
    omega

theorem bracketed_size (hR : ∀ ts x, R ts x → size x ≤ toksSize ts) {ts : List (Token F)}
    {xs : List T} (h : Bracketed R ts xs) : (xs.map size).sum ≤ toksSize ts := by
  obtain ⟨_, p, q, vs, rfl, h⟩ := h
  have := many_size hR h
  simp only [List.cons_append, toksSize_cons, toksSize_append]
  omega

theorem oneOrList_size (hR : ∀ ts x, R ts x → size x ≤ toksSize ts) {ts : List (Token F)}
    {xs : List T} (h : OneOrList R ts xs) : (xs.map size).sum ≤ toksSize ts := by
  rcases h with ⟨x, h, rfl⟩ | h
  · simpa using hR _ _ h
  · exact bracketed_size hR h

end

theorem intTok_size (ts : List (Token F)) (i : Int) (h : IntTok ts i) : 1 ≤ toksSize ts := by
  obtain ⟨p, rfl⟩ := h
  exact Nat.le_refl _

theorem numTok_size (ts : List (Token F)) (x : F) (h : NumTok E ts x) : 1 ≤ toksSize ts := by
  obtain ⟨p, rfl | ⟨i, rfl, _⟩⟩ := h
  · exact Nat.le_refl _
  · exact Nat.le_refl _

theorem strTok_size (ts : List (Token F)) (s : String) (h : StrTok ts s) :
    strSize s ≤ toksSize ts := by
  obtain ⟨p, rfl⟩ := h
  exact Nat.le_refl _

theorem boolTok_size (ts : List (Token F)) (b : Bool) (h : BoolTok ts b) : 1 ≤ toksSize ts := by
  obtain ⟨p, rfl⟩ := h
  simp only [toksSize_cons, tokSize, strSize]
  omega

theorem pointTok_size (ts : List (Token F)) (x : Point2f F) (h : PointTok E ts x) :
    2 ≤ toksSize ts := by
  obtain ⟨a, b, rfl, h1, h2⟩ := h
  have := numTok_size _ _ h1
  have := numTok_size _ _ h2
  rw [toksSize_append]
  omega

theorem vectorTok_size (ts : List (Token F)) (x : Vector2f F) (h : VectorTok E ts x) :
    2 ≤ toksSize ts := by
  obtain ⟨a, b, rfl, h1, h2⟩ := h
  have := numTok_size _ _ h1
  have := numTok_size _ _ h2
  rw [toksSize_append]
  omega

theorem nums_size {ts : List (Token F)} {l : List F} (h : Many (NumTok E) ts l) :
    l.length ≤ toksSize ts := by
  have := many_size (size := fun _ => 1) numTok_size h
  simpa using this

theorem bracketedNums_size {ts : List (Token F)} {l : List F} (h : Bracketed (NumTok E) ts l) :
    l.length ≤ toksSize ts := by
  have := bracketed_size (size := fun _ => 1) numTok_size h
  simpa using this

theorem pairsOf_length {l : List F} {ps : List (F × F)} (h : PairsOf l ps) :
    l.length = 2 * ps.length := by
  rw [PairsOf] at h
  subst h
  induction ps with
  | nil => rfl
  | cons p ps ih => simp [List.flatMap_cons] at ih ⊢; omega

/-- The size of the values of a parameter. -/
def valSize : PVal F → Nat
  | .ints l => (l.map fun _ => 1).sum
  | .floats l => (l.map fun _ => 1).sum
  | .point2s l => (l.map fun _ => 2).sum
  | .vector2s l => (l.map fun _ => 2).sum
  | .bools l => (l.map fun _ => 1).sum
  | .strings l => (l.map strSize).sum
  | .spectrum s => spectrumSize s
  | .texture s => strSize s

theorem valText_size {ty : String} {ts : List (Token F)} {v : PVal F} (h : ValText E ty ts v) :
    valSize v ≤ toksSize ts := by
  cases h with
  | ints _ l h => exact oneOrList_size intTok_size h
  | floats _ l h => exact oneOrList_size numTok_size h
  | point2s _ l h => exact bracketed_size pointTok_size h
  | vector2s _ l h => exact bracketed_size vectorTok_size h
  | bools _ l h => exact oneOrList_size boolTok_size h
  | strings _ l h => exact oneOrList_size strTok_size h
  | rgb _ r g b h => exact bracketedNums_size h
  | xyz _ r g b h => exact bracketedNums_size h
  | samples _ l ps h hp =>
    have := bracketedNums_size h
    rw [pairsOf_length hp] at this
    exact this
  | file _ s h => exact strTok_size _ _ h
  | blackbody _ t s h => exact bracketedNums_size h
  | texture _ s h => exact strTok_size _ _ h

theorem paramText_size (ts : List (Token F)) (p : SParam F) (h : ParamText E ts p) :
    strSize p.name + valSize p.val ≤ toksSize ts := by
  obtain ⟨decl, ty, vs, rfl, ⟨a, b, c, h1, _⟩, h2⟩ := h
  have := valText_size h2
  have hl : p.name.toList.length ≤ decl.toList.length := by
    rw [h1]
    simp only [List.length_append]
    omega
  simp only [toksSize_cons, tokSize, strSize]
  omega

theorem collect_size (ps : List (SParam F)) :
    setSize (collect ps) = (ps.map fun p => strSize p.name + valSize p.val).sum := by
  induction ps with
  | nil => rfl
  | cons p ps ih =>
    rw [List.map_cons, List.sum_cons, ← ih]
    rcases p with ⟨q, n, v⟩
    cases v <;>
      simp only [setSize, collect, paramsSize, List.filterMap_cons, List.map_cons, List.sum_cons,
        valSize, List.map_nil, List.sum_nil] <;> omega

theorem paramsText_size {ts : List (Token F)} {ps : List (SParam F)} (h : ParamsText E ts ps) :
    setSize (collect ps) ≤ toksSize ts := by
  obtain ⟨a, d, rfl, h, _⟩ := h
  rw [collect_size, toksSize_append]
  have := many_size paramText_size h
  omega

/-! ### Directives -/

theorem typed_size {key : String} {ts : List (Token F)} {d : DirectiveStruct F}
    (h : Typed E key ts d) :
    partsSize [(d.pos, key)] [d.ty] 0 [d.paramSet] ≤ toksSize ts := by
  obtain ⟨q, rest, ps, rfl, h, hs⟩ := h
  have := paramsText_size h
  simp only [partsSize, List.map_cons, List.map_nil, List.sum_cons, List.sum_nil, hs, toksSize_cons,
    kw, tokSize]
  omega

theorem preText_size (ts : List (Token F)) (d : PreDirective F) (h : PreText E ts d) :
    preSize d ≤ toksSize ts := by
  cases h with
  | identity p =>
    simp only [preSize, partsSize, preKey, preStrs, preNums, preSets, preWord, List.map_cons, List.map_nil,
      List.sum_cons, List.sum_nil, toksSize_cons, toksSize_nil, kw, tokSize, List.length_nil]
    omega
  | activeTransform p q s =>
    simp only [preSize, partsSize, preKey, preStrs, preNums, preSets, preWord, List.map_cons, List.map_nil,
      List.sum_cons, List.sum_nil, toksSize_cons, toksSize_nil, kw, tokSize, List.length_nil]
    omega
  | camera _ d h => exact typed_size h
  | sampler _ d h => exact typed_size h
  | film _ d h => exact typed_size h
  | filter _ d h => exact typed_size h
  | integrator _ d h => exact typed_size h
  | accelerator _ d h => exact typed_size h
  | incl p ts s h | coordinateSystem p ts s h | coordSysTransform p ts s h =>
    have := strTok_size _ _ h
    simp only [preSize, partsSize, preKey, preStrs, preNums, preSets, preWord, List.map_cons, List.map_nil,
      List.sum_cons, List.sum_nil, toksSize_cons, kw, tokSize, List.length_nil]
    omega
  | _ =>
    rename_i h
    have := nums_size h
    simp only [List.length_cons, List.length_nil] at this
    simp only [preSize, partsSize, preKey, preStrs, preNums, preSets, preWord, List.map_cons, List.map_nil,
      List.sum_cons, List.sum_nil, toksSize_cons, kw, tokSize, List.length_nil, List.length_cons]
    omega

theorem partsSize_append (k₁ k₂ : List (Pos × String)) (s₁ s₂ : List String)
    (p₁ p₂ : List (ParamSet F)) :
    partsSize (k₁ ++ k₂) (s₁ ++ s₂) 0 (p₁ ++ p₂) = partsSize k₁ s₁ 0 p₁ + partsSize k₂ s₂ 0 p₂ := by
  simp only [partsSize, List.map_append, List.sum_append]
  omega

theorem partsSize_key (k : Pos × String) (ks : List (Pos × String)) (s : List String)
    (p : List (ParamSet F)) :
    partsSize (k :: ks) s 0 p = k.2.toList.length + partsSize ks s 0 p := by
  simp only [partsSize, List.map_cons, List.sum_cons]
  omega

mutual
theorem dirText_size {ts : List (Token F)} {d : Directive F} (h : DirText E ts d) :
    dirSize d ≤ toksSize ts := by
  match h with
  | .material ts d h => rw [dirSize, dirKey, dirStrs, dirSets]; exact typed_size h
  | .shape ts d h => rw [dirSize, dirKey, dirStrs, dirSets]; exact typed_size h
  | .lightSource ts d h => rw [dirSize, dirKey, dirStrs, dirSets]; exact typed_size h
  | .areaLightSource ts d h => rw [dirSize, dirKey, dirStrs, dirSets]; exact typed_size h
  | .attribute p ts ds h =>
    rw [dirSize, dirKey, dirStrs, dirSets, partsSize_key, toksSize_cons]
    exact Nat.add_le_add (Nat.le_refl _) (dirsText_size h)
  | .transform p ts ds h =>
    rw [dirSize, dirKey, dirStrs, dirSets, partsSize_key, toksSize_cons]
    exact Nat.add_le_add (Nat.le_refl _) (dirsText_size h)
  | .world p ts ds h =>
    rw [dirSize, dirKey, dirStrs, dirSets, partsSize_key, toksSize_cons]
    exact Nat.add_le_add (Nat.le_refl _) (dirsText_size h)
  | .incl p ts s h =>
    have := strTok_size _ _ h
    rw [dirSize, dirKey, dirStrs, dirSets, partsSize_key, toksSize_cons]
    refine Nat.add_le_add (Nat.le_refl _) ?_
    simp only [partsSize, List.map_cons, List.map_nil, List.sum_cons, List.sum_nil]
    omega
  | .texture p q₁ q₂ q₃ name ty cls ts ps h =>
    have := paramsText_size h
    rw [dirSize, dirKey, dirStrs, dirSets, partsSize_key, toksSize_cons]
    refine Nat.add_le_add (Nat.le_refl _) ?_
    simp only [partsSize, List.map_cons, List.map_nil, List.sum_cons, List.sum_nil, toksSize_cons,
      tokSize]
    omega
theorem dirsText_size {ts : List (Token F)} {ds : List (Directive F)} (h : DirsText E ts ds) :
    partsSize (dirKeyAll ds) (dirStrsAll ds) 0 (dirSetsAll ds) ≤ toksSize ts := by
  match h with
  | .nil => rw [dirKeyAll, dirStrsAll, dirSetsAll]; exact Nat.zero_le _
  | .block ts d hb h =>
    rw [dirKeyAll, dirKeyAll, dirStrsAll, dirStrsAll, dirSetsAll, dirSetsAll, List.append_nil,
      List.append_nil, List.append_nil]
    exact dirText_size h
  | .cons a b d ds hb h hs =>
    rw [dirKeyAll, dirStrsAll, dirSetsAll, partsSize_append, toksSize_append]
    exact Nat.add_le_add (dirText_size h) (dirsText_size hs)
end

/-- A scene is smaller than its tokens, by at least the word that ends the world. -/
theorem accepts_size {toks : List (Token F)} {pre : List (PreDirective F)} {w : Directive F}
    (h : Accepts E toks pre w) : sceneSize pre w + 8 ≤ toksSize toks := by
  obtain ⟨a, p, body, e, rest, ds, rfl, h1, h2, ⟨q, s, rfl, hs⟩, rfl⟩ := h
  have g1 := many_size preText_size h1
  have g2 := dirText_size (.world p body ds h2)
  have g3 : 8 ≤ tokSize (kw (F := F) q s).ty := by
    simp only [List.mem_cons, List.not_mem_nil, or_false] at hs
    rcases hs with rfl | rfl | rfl <;> simp [kw, tokSize]
  rw [sceneSize, toksSize_append, toksSize_append, toksSize_cons (kw q s)]
  omega

end Pbrt.Proof
