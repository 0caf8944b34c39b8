import Verif.Spec.Format
import Verif.Proof.Printer
import Verif.Proof.Contents

/-!
# Lemmas on printing parse results
-/

namespace Pbrt.Proof.Printing

open Pbrt.Spec Pbrt.Proof

variable {F : Type} {E : Env F}

/-! ### What is read, up to positions, is what was printed -/

/-- A parameter without its position -/
def eraseSParam (p : SParam F) : SParam F := ⟨nowhere, p.name, p.val⟩

theorem eraseSet_collect (ps : List (SParam F)) : eraseSet (collect ps) = collect (ps.map eraseSParam) := by
  unfold eraseSet collect eraseParam
  simp only [List.map_nil, ParamSet.mk.injEq, List.map_filterMap, List.filterMap_map]
  refine ⟨?_, ?_, ?_, ?_, ?_, trivial, trivial, trivial, ?_, ?_, ?_⟩ <;>
  · congr 1
    funext p
    simp only [Function.comp, eraseSParam]
    cases p.val <;> rfl

theorem placeParams_erase (ps : List (WParam F)) (q : List Pos) :
    (placeParams E ps q).map eraseSParam = ps.map fun p => ⟨nowhere, p.name, p.val.mean E⟩ := by
  induction ps generalizing q with
  | nil => rfl
  | cons p ps ih => simp only [placeParams, List.map_cons, ih]; rfl

theorem spectrumVal_mean (v : Spectrum F) : (spectrumVal v).mean E = .spectrum v := by
  cases v <;> simp [spectrumVal, WVal.mean, Num.val, List.map_map, Function.comp_def]

theorem collect_append (a b : List (SParam F)) : collect (a ++ b) =
    ⟨(collect a).bools ++ (collect b).bools, (collect a).ints ++ (collect b).ints,
      (collect a).floats ++ (collect b).floats, (collect a).point2fs ++ (collect b).point2fs,
      (collect a).vector2fs ++ (collect b).vector2fs, [], [], [],
      (collect a).spectra ++ (collect b).spectra, (collect a).strings ++ (collect b).strings,
      (collect a).textures ++ (collect b).textures⟩ := by
  simp only [collect, List.filterMap_append]

theorem filterMap_none {α β : Type} (l : List α) : l.filterMap (fun _ => (none : Option β)) = [] := by
  induction l <;> simp_all

theorem filterMap_some {α β : Type} (f : α → β) (l : List α) : l.filterMap (fun x => some (f x)) = l.map f := by
  induction l <;> simp_all

theorem set_of_params (s : ParamSet F) (hs : FilledSet s) (q : List Pos) :
    eraseSet (collect (placeParams E (paramsOf s) q)) = eraseSet s := by
  rw [eraseSet_collect, placeParams_erase]
  have h1 : ∀ p ∈ s.spectra, ∃ x, p.values = [x] := fun p hp => (hs.spectra p hp).imp fun _ h => h.1
  have h2 := hs.textures
  obtain ⟨o1, o2, o3⟩ := hs.others
  have sp : ∀ l : List (Param (Spectrum F)), (∀ p ∈ l, ∃ x, p.values = [x]) →
      (l.flatMap fun p => p.values.map fun v => declared p.name (spectrumVal v)).map
        (fun p => (⟨nowhere, p.name, p.val.mean E⟩ : SParam F)) =
      l.map fun p => ⟨nowhere, p.name, (.spectrum (p.values.headD (.File "")))⟩ := by
    intro l hl
    induction l with
    | nil => rfl
    | cons p l ih =>
      obtain ⟨x, hx⟩ := hl p (by simp)
      rw [List.flatMap_cons, List.map_append, ih fun p hp => hl p (by simp [hp]), hx]
      simp [declared, spectrumVal_mean, hx]
  have tx : ∀ l : List (Param String), (∀ p ∈ l, ∃ x, p.values = [x]) →
      (l.flatMap fun p => p.values.map fun v => declared p.name (.texture v)).map
        (fun p => (⟨nowhere, p.name, p.val.mean E⟩ : SParam F)) =
      l.map fun p => ⟨nowhere, p.name, (.texture (p.values.headD ""))⟩ := by
    intro l hl
    induction l with
    | nil => rfl
    | cons p l ih =>
      obtain ⟨x, hx⟩ := hl p (by simp)
      rw [List.flatMap_cons, List.map_append, ih fun p hp => hl p (by simp [hp]), hx]
      simp [declared, WVal.mean, hx]
  have one : ∀ {S : Type} (d : S) (l : List (Param S)), (∀ p ∈ l, ∃ x, p.values = [x]) →
      (l.map fun p => (⟨p.name, nowhere, [p.values.headD d]⟩ : Param S)) = l.map eraseParam := by
    intro S d l hl
    refine List.map_congr_left fun p hp => ?_
    obtain ⟨x, hx⟩ := hl p hp
    simp [eraseParam, hx]
  unfold paramsOf
  simp only [List.map_append, sp _ h1, tx _ h2, List.map_map]
  simp only [collect, List.filterMap_append, List.filterMap_map, Function.comp_def, declared, WVal.mean,
    filterMap_none, filterMap_some, List.nil_append, List.append_nil, List.map_map, Num.val]
  simp only [eraseSet, o1, o2, o3, one _ _ h1, one _ _ h2, ParamSet.mk.injEq, List.map_id']
  simp [eraseParam]

mutual
theorem dir_of_placed : ∀ (d : Directive F) (q : List Pos), (∀ s ∈ dirSets d, FilledSet s) →
    eraseDir ((dirOf d).place E q) = eraseDir d
  | .Material d, q, h => by
    simp only [dirOf, WDir.place, DirKey.mk, eraseDir, eraseStruct]
    rw [set_of_params _ (h _ (by simp [dirSets]))]
  | .Shape d, q, h => by
    simp only [dirOf, WDir.place, DirKey.mk, eraseDir, eraseStruct]
    rw [set_of_params _ (h _ (by simp [dirSets]))]
  | .LightSource d, q, h => by
    simp only [dirOf, WDir.place, DirKey.mk, eraseDir, eraseStruct]
    rw [set_of_params _ (h _ (by simp [dirSets]))]
  | .AreaLightSource d, q, h => by
    simp only [dirOf, WDir.place, DirKey.mk, eraseDir, eraseStruct]
    rw [set_of_params _ (h _ (by simp [dirSets]))]
  | .Attribute _ ds, q, h => by
    simp only [dirOf, WDir.place, BlockKey.mk, eraseDir]
    rw [dirs_of_placed ds _ (by simpa [dirSets] using h)]
  | .Transform _ ds, q, h => by
    simp only [dirOf, WDir.place, BlockKey.mk, eraseDir]
    rw [dirs_of_placed ds _ (by simpa [dirSets] using h)]
  | .World _ ds, q, h => by
    simp only [dirOf, WDir.place, BlockKey.mk, eraseDir]
    rw [dirs_of_placed ds _ (by simpa [dirSets] using h)]
  | .Include _ s, q, h => by simp only [dirOf, WDir.place, eraseDir]
  | .Texture t, q, h => by
    simp only [dirOf, WDir.place, eraseDir]
    rw [set_of_params _ (h _ (by simp [dirSets]))]
theorem dirs_of_placed : ∀ (ds : List (Directive F)) (q : List Pos), (∀ s ∈ dirSetsAll ds, FilledSet s) →
    eraseDirs (WDir.placeAll E (dirsOf ds) q) = eraseDirs ds
  | [], q, h => by simp only [dirsOf, WDir.placeAll]
  | d :: ds, q, h => by
    simp only [dirSetsAll, List.mem_append] at h
    simp only [dirsOf, WDir.placeAll, eraseDirs]
    rw [dir_of_placed d _ fun s hs => h s (.inl hs), dirs_of_placed ds _ fun s hs => h s (.inr hs)]
end

theorem pre_of_placed (d : PreDirective F) (q : List Pos) (h : ∀ s ∈ preSets d, FilledSet s) :
    erasePre ((preOf d).place E q) = erasePre d := by
  cases d <;> simp only [preOf, WPre.place, erasePre, PreKey.mk, eraseStruct, Num.val, matVal, matOf] <;>
    rw [set_of_params _ (h _ (by simp [preSets]))]

theorem pres_of_placed (ds : List (PreDirective F)) (q : List Pos) (h : ∀ d ∈ ds, ∀ s ∈ preSets d, FilledSet s) :
    (WPre.placeAll E (ds.map preOf) q).map erasePre = ds.map erasePre := by
  induction ds generalizing q with
  | nil => rfl
  | cons d ds ih =>
    simp only [List.map_cons, WPre.placeAll]
    rw [pre_of_placed d _ (h d (by simp)), ih _ fun d hd => h d (by simp [hd])]

theorem scene_of_placed (r : List (PreDirective F) × Directive F) (h : Regular E r) (q : List Pos) :
    erase ((sceneOf r).place E q) = erase r := by
  obtain ⟨pre, w⟩ := r
  obtain ⟨p, ds, hw⟩ := h.world
  simp only at hw
  subst hw
  have hs : ∀ s ∈ pre.flatMap preSets ++ dirSetsAll ds, FilledSet s := fun s hs =>
    (h.sets s (by simpa [dirSets] using hs)).filled
  unfold erase WScene.place sceneOf
  simp only [worldOf, Prod.mk.injEq, WDir.place, BlockKey.mk, eraseDir]
  rw [pres_of_placed _ _ fun d hd s hs' => hs s (by simp only [List.mem_append, List.mem_flatMap]; exact .inl ⟨d, hd, hs'⟩),
    dirs_of_placed _ _ fun s hs' => hs s (by simp [hs'])]
  exact ⟨rfl, rfl⟩

/-! ### Printing ignores positions -/

theorem paramsOf_erase (s : ParamSet F) : paramsOf (eraseSet s) = paramsOf s := by
  simp [paramsOf, eraseSet, eraseParam, Function.comp_def, List.flatMap_map]

mutual
theorem dirOf_erase : ∀ d : Directive F, dirOf (eraseDir d) = dirOf d
  | .Material d => by simp only [eraseDir, dirOf, eraseStruct, paramsOf_erase]
  | .Shape d => by simp only [eraseDir, dirOf, eraseStruct, paramsOf_erase]
  | .LightSource d => by simp only [eraseDir, dirOf, eraseStruct, paramsOf_erase]
  | .AreaLightSource d => by simp only [eraseDir, dirOf, eraseStruct, paramsOf_erase]
  | .Attribute _ ds => by simp only [eraseDir, dirOf, dirsOf_erase ds]
  | .Transform _ ds => by simp only [eraseDir, dirOf, dirsOf_erase ds]
  | .World _ ds => by simp only [eraseDir, dirOf, dirsOf_erase ds]
  | .Include _ s => by simp only [eraseDir, dirOf]
  | .Texture t => by simp only [eraseDir, dirOf, paramsOf_erase]
theorem dirsOf_erase : ∀ ds : List (Directive F), dirsOf (eraseDirs ds) = dirsOf ds
  | [] => by simp only [eraseDirs]
  | d :: ds => by simp only [eraseDirs, dirsOf, dirOf_erase d, dirsOf_erase ds]
end

theorem sceneOf_erase (r : List (PreDirective F) × Directive F) : sceneOf (erase r) = sceneOf r := by
  unfold sceneOf erase
  simp only [WScene.mk.injEq, List.map_map]
  constructor
  · refine List.map_congr_left fun d _ => ?_
    cases d <;> simp [erasePre, preOf, eraseStruct, paramsOf_erase]
  · cases r.2 <;> simp [eraseDir, worldOf, dirsOf_erase]

/-! ### What is printed can be read -/

theorem ty_word (hE : Sane E) (v : WVal F) :
    v.ty.toList ≠ [] ∧ ∀ c ∈ v.ty.toList, E.isWhitespace c = false := by
  have hm : v.ty ∈ paramTypes := by cases v <;> simp [WVal.ty, paramTypes]
  have h : ∀ s ∈ paramTypes, s.toList ≠ [] ∧ ∀ c ∈ s.toList,
      (('a' ≤ c ∧ c ≤ 'z') ∨ ('A' ≤ c ∧ c ≤ 'Z')) ∨ ('0' ≤ c ∧ c ≤ '9') := by decide +kernel
  obtain ⟨h1, h2⟩ := h _ hm
  refine ⟨h1, fun c hc => ?_⟩
  rcases h2 c hc with h | h
  · exact (hE.letter c h).2.2
  · cases hw : E.isWhitespace c with
    | false => rfl
    | true => have := (hE.white c hw).1; rw [hE.digit c h.1 h.2] at this; exact absurd this (by simp)

theorem declared_ok (hE : Sane E) {n : String} (hn : IsWord E n) {v : WVal F} (hv : v.Ok) :
    (declared n v).Ok E := by
  obtain ⟨h1, h2⟩ := ty_word hE v
  refine ⟨⟨[], [' '], [], ?_, ?_, by simp, h1, hn.1, ?_⟩, hv⟩
  · simp [declared, String.toList_append]
  · intro x hx
    simp only [List.nil_append, List.append_nil, List.mem_singleton] at hx
    subst hx
    exact hE.space ' ' (by simp)
  · intro x hx
    rcases List.mem_append.1 hx with hx | hx
    · exact h2 x hx
    · exact hn.2 x hx

theorem paramsOf_ok (hE : Sane E) {s : ParamSet F} (hs : RegularSet E s) : ∀ p ∈ paramsOf s, p.Ok E := by
  intro p hp
  have hn := hs.names
  simp only [setNames, List.mem_append] at hn
  simp only [paramsOf, List.mem_append, List.mem_map, List.mem_flatMap] at hp
  rcases hp with ((((((⟨q, hq, rfl⟩ | ⟨q, hq, rfl⟩) | ⟨q, hq, rfl⟩) | ⟨q, hq, rfl⟩) | ⟨q, hq, rfl⟩) |
    ⟨q, hq, v, hv, rfl⟩) | ⟨q, hq, rfl⟩) | ⟨q, hq, v, hv, rfl⟩
  · exact declared_ok hE (hn _ (by have := List.mem_map_of_mem (f := Param.name) hq; tauto)) (hs.filled.bools q hq)
  · exact declared_ok hE (hn _ (by have := List.mem_map_of_mem (f := Param.name) hq; tauto)) (hs.filled.ints q hq)
  · exact declared_ok hE (hn _ (by have := List.mem_map_of_mem (f := Param.name) hq; tauto))
      (by simpa [WVal.Ok] using hs.filled.floats q hq)
  · exact declared_ok hE (hn _ (by have := List.mem_map_of_mem (f := Param.name) hq; tauto))
      (by simpa [WVal.Ok] using hs.filled.point2fs q hq)
  · exact declared_ok hE (hn _ (by have := List.mem_map_of_mem (f := Param.name) hq; tauto))
      (by simpa [WVal.Ok] using hs.filled.vector2fs q hq)
  · obtain ⟨x, hx, hne⟩ := hs.filled.spectra q hq
    rw [hx, List.mem_singleton] at hv
    subst hv
    refine declared_ok hE (hn _ (by have := List.mem_map_of_mem (f := Param.name) hq; tauto)) ?_
    cases v with
    | Spectrum l =>
      simp only [spectrumVal, WVal.Ok, ne_eq, List.map_eq_nil_iff]
      intro h
      exact hne (by rw [h])
    | _ => simp [spectrumVal, WVal.Ok]
  · exact declared_ok hE (hn _ (by have := List.mem_map_of_mem (f := Param.name) hq; tauto)) (hs.filled.strings q hq)
  · exact declared_ok hE (hn _ (by have := List.mem_map_of_mem (f := Param.name) hq; tauto)) trivial

mutual
theorem dirOf_ok (hE : Sane E) : ∀ d : Directive F, (∀ s ∈ dirSets d, RegularSet E s) → (dirOf d).Ok E
  | .Material d, h => by rw [dirOf, WDir.Ok]; exact paramsOf_ok hE (h _ (by simp [dirSets]))
  | .Shape d, h => by rw [dirOf, WDir.Ok]; exact paramsOf_ok hE (h _ (by simp [dirSets]))
  | .LightSource d, h => by rw [dirOf, WDir.Ok]; exact paramsOf_ok hE (h _ (by simp [dirSets]))
  | .AreaLightSource d, h => by rw [dirOf, WDir.Ok]; exact paramsOf_ok hE (h _ (by simp [dirSets]))
  | .Attribute _ ds, h => by rw [dirOf, WDir.Ok]; exact dirsOf_ok hE ds (by simpa [dirSets] using h)
  | .Transform _ ds, h => by rw [dirOf, WDir.Ok]; exact dirsOf_ok hE ds (by simpa [dirSets] using h)
  | .World _ ds, h => by rw [dirOf, WDir.Ok]; exact dirsOf_ok hE ds (by simpa [dirSets] using h)
  | .Include _ s, h => by rw [dirOf, WDir.Ok]; trivial
  | .Texture t, h => by rw [dirOf, WDir.Ok]; exact paramsOf_ok hE (h _ (by simp [dirSets]))
theorem dirsOf_ok (hE : Sane E) : ∀ ds : List (Directive F), (∀ s ∈ dirSetsAll ds, RegularSet E s) →
    WDir.OkAll E (dirsOf ds)
  | [], h => by rw [dirsOf, WDir.OkAll]; trivial
  | d :: ds, h => by
    simp only [dirSetsAll, List.mem_append] at h
    rw [dirsOf, WDir.OkAll]
    exact ⟨dirOf_ok hE d fun s hs => h s (.inl hs), dirsOf_ok hE ds fun s hs => h s (.inr hs)⟩
end

theorem preOf_ok (hE : Sane E) (d : PreDirective F) (h : ∀ s ∈ preSets d, RegularSet E s) : (preOf d).Ok E := by
  cases d <;> first | trivial | exact paramsOf_ok hE (h _ (by simp [preSets]))

theorem dirOf_isBlock (d : Directive F) : (dirOf d).isBlock = true ↔ IsBlock d := by
  cases d <;> simp [dirOf, WDir.isBlock, IsBlock]

theorem dirsOf_nil (ds : List (Directive F)) : dirsOf ds = [] ↔ ds = [] := by
  cases ds <;> simp [dirsOf]

mutual
theorem dirOf_blocks : ∀ d : Directive F, LastBlocks d → (dirOf d).BlocksLast
  | .Material d, h => by rw [dirOf]; trivial
  | .Shape d, h => by rw [dirOf]; trivial
  | .LightSource d, h => by rw [dirOf]; trivial
  | .AreaLightSource d, h => by rw [dirOf]; trivial
  | .Attribute _ ds, h => by rw [LastBlocks] at h; rw [dirOf, WDir.BlocksLast]; exact dirsOf_blocks ds h
  | .Transform _ ds, h => by rw [LastBlocks] at h; rw [dirOf, WDir.BlocksLast]; exact dirsOf_blocks ds h
  | .World _ ds, h => by rw [LastBlocks] at h; rw [dirOf, WDir.BlocksLast]; exact dirsOf_blocks ds h
  | .Include _ s, h => by rw [dirOf]; trivial
  | .Texture t, h => by rw [dirOf]; trivial
theorem dirsOf_blocks : ∀ ds : List (Directive F), LastBlocksAll ds → WDir.BlocksLastAll (dirsOf ds)
  | [], h => by rw [dirsOf, WDir.BlocksLastAll]; trivial
  | d :: ds, h => by
    rw [LastBlocksAll] at h
    rw [dirsOf, WDir.BlocksLastAll, dirOf_isBlock, dirsOf_nil]
    exact ⟨h.1, dirOf_blocks d h.2.1, dirsOf_blocks ds h.2.2⟩
end

/-- The numbers among tokens: floats from `l`, integers that fit -/
def NumsFrom (l : List F) (ts : List (TokenType F)) : Prop :=
  (∀ f, TokenType.Float f ∈ ts → f ∈ l) ∧ ∀ i, TokenType.Int i ∈ ts → Fits i

theorem NumsFrom.append {l l' : List F} {a b : List (TokenType F)} (ha : NumsFrom l a) (hb : NumsFrom l' b) :
    NumsFrom (l ++ l') (a ++ b) := by
  constructor
  · intro f hf
    rcases List.mem_append.1 hf with hf | hf
    · exact List.mem_append_left _ (ha.1 f hf)
    · exact List.mem_append_right _ (hb.1 f hf)
  · intro f hf
    rcases List.mem_append.1 hf with hf | hf
    · exact ha.2 f hf
    · exact hb.2 f hf

theorem NumsFrom.cons {l : List F} {t : TokenType F} {a : List (TokenType F)} (ha : NumsFrom l a)
    (h1 : ∀ f, t ≠ .Float f) (h2 : ∀ i, t ≠ .Int i) : NumsFrom l (t :: a) := by
  constructor
  · intro f hf
    rcases List.mem_cons.1 hf with hf | hf
    · exact absurd hf.symm (h1 f)
    · exact ha.1 f hf
  · intro f hf
    rcases List.mem_cons.1 hf with hf | hf
    · exact absurd hf.symm (h2 f)
    · exact ha.2 f hf

theorem params_nums {s : ParamSet F} (hs : RegularSet E s) :
    NumsFrom (setFloats s) ((paramsOf s).flatMap WParam.toks) := by
  constructor
  · intro f hf
    obtain ⟨p, hp, hf⟩ := List.mem_flatMap.1 hf
    simp only [setFloats, paramParts, List.mem_append, List.mem_flatMap]
    simp only [paramsOf, List.mem_append, List.mem_map, List.mem_flatMap] at hp
    rcases hp with ((((((⟨q, hq, rfl⟩ | ⟨q, hq, rfl⟩) | ⟨q, hq, rfl⟩) | ⟨q, hq, rfl⟩) | ⟨q, hq, rfl⟩) |
      ⟨q, hq, v, hv, rfl⟩) | ⟨q, hq, rfl⟩) | ⟨q, hq, v, hv, rfl⟩
    · simp [WParam.toks, declared, WVal.toks, brackets, boolTok] at hf
    · simp [WParam.toks, declared, WVal.toks, brackets] at hf
    · simp [WParam.toks, declared, WVal.toks, brackets, Num.tok] at hf
      exact .inl (.inl (.inl (.inl (.inl (.inl ⟨q, hq, f, hf, by simp⟩)))))
    · simp [WParam.toks, declared, WVal.toks, brackets, Num.tok, pairToks, List.flatMap_map] at hf
      obtain ⟨v, hv, hf⟩ := hf
      exact .inl (.inl (.inl (.inl (.inl (.inr ⟨q, hq, v, hv, by simpa using hf⟩)))))
    · simp [WParam.toks, declared, WVal.toks, brackets, Num.tok, pairToks, List.flatMap_map] at hf
      obtain ⟨v, hv, hf⟩ := hf
      exact .inl (.inl (.inl (.inl (.inr ⟨q, hq, v, hv, by simpa using hf⟩))))
    · refine .inr ⟨q, hq, v, hv, ?_⟩
      cases v with
      | Spectrum l =>
        simp [WParam.toks, declared, spectrumVal, WVal.toks, brackets, Num.tok, pairToks, List.flatMap_map] at hf
        simp only [spectrumFloats, List.mem_flatMap]
        obtain ⟨a, b, hab, hf⟩ := hf
        exact ⟨(a, b), hab, by simpa using hf⟩
      | File s => simp [WParam.toks, declared, spectrumVal, WVal.toks] at hf
      | _ => simpa [WParam.toks, declared, spectrumVal, WVal.toks, brackets, Num.tok, spectrumFloats] using hf
    · simp [WParam.toks, declared, WVal.toks, brackets] at hf
    · simp [WParam.toks, declared, WVal.toks] at hf
  · intro f hf
    obtain ⟨p, hp, hf⟩ := List.mem_flatMap.1 hf
    simp only [paramsOf, List.mem_append, List.mem_map, List.mem_flatMap] at hp
    rcases hp with ((((((⟨q, hq, rfl⟩ | ⟨q, hq, rfl⟩) | ⟨q, hq, rfl⟩) | ⟨q, hq, rfl⟩) | ⟨q, hq, rfl⟩) |
      ⟨q, hq, v, hv, rfl⟩) | ⟨q, hq, rfl⟩) | ⟨q, hq, v, hv, rfl⟩
    · simp [WParam.toks, declared, WVal.toks, brackets, boolTok] at hf
    · simp [WParam.toks, declared, WVal.toks, brackets] at hf
      exact hs.fits q hq f hf
    · simp [WParam.toks, declared, WVal.toks, brackets, Num.tok] at hf
    · simp [WParam.toks, declared, WVal.toks, brackets, Num.tok, pairToks, List.flatMap_map] at hf
    · simp [WParam.toks, declared, WVal.toks, brackets, Num.tok, pairToks, List.flatMap_map] at hf
    · cases v <;>
        simp [WParam.toks, declared, spectrumVal, WVal.toks, brackets, Num.tok, pairToks, List.flatMap_map] at hf
    · simp [WParam.toks, declared, WVal.toks, brackets] at hf
    · simp [WParam.toks, declared, WVal.toks] at hf

theorem nums_nil (l : List F) : NumsFrom l [] := ⟨by simp, by simp⟩

mutual
theorem dir_nums : ∀ d : Directive F, (∀ s ∈ dirSets d, RegularSet E s) → NumsFrom (dirFloats d) (dirOf d).toks
  | .Material d, h => by
    rw [dirOf, dirFloats, WDir.toks]
    exact ((params_nums (h _ (by simp [dirSets]))).cons (by simp) (by simp)).cons (by simp) (by simp)
  | .Shape d, h => by
    rw [dirOf, dirFloats, WDir.toks]
    exact ((params_nums (h _ (by simp [dirSets]))).cons (by simp) (by simp)).cons (by simp) (by simp)
  | .LightSource d, h => by
    rw [dirOf, dirFloats, WDir.toks]
    exact ((params_nums (h _ (by simp [dirSets]))).cons (by simp) (by simp)).cons (by simp) (by simp)
  | .AreaLightSource d, h => by
    rw [dirOf, dirFloats, WDir.toks]
    exact ((params_nums (h _ (by simp [dirSets]))).cons (by simp) (by simp)).cons (by simp) (by simp)
  | .Attribute _ ds, h => by
    rw [dirOf, dirFloats, WDir.toks, ← List.append_nil (dirsFloats ds)]
    exact ((dirs_nums ds (by simpa [dirSets] using h)).append
      ((nums_nil []).cons (by simp) (by simp))).cons (by simp) (by simp)
  | .Transform _ ds, h => by
    rw [dirOf, dirFloats, WDir.toks, ← List.append_nil (dirsFloats ds)]
    exact ((dirs_nums ds (by simpa [dirSets] using h)).append
      ((nums_nil []).cons (by simp) (by simp))).cons (by simp) (by simp)
  | .World _ ds, h => by
    rw [dirOf, dirFloats, WDir.toks, ← List.append_nil (dirsFloats ds)]
    exact ((dirs_nums ds (by simpa [dirSets] using h)).append
      ((nums_nil []).cons (by simp) (by simp))).cons (by simp) (by simp)
  | .Include _ s, h => by
    rw [dirOf, dirFloats, WDir.toks]
    exact ((nums_nil []).cons (by simp) (by simp)).cons (by simp) (by simp)
  | .Texture t, h => by
    rw [dirOf, dirFloats, WDir.toks]
    exact ((((params_nums (h _ (by simp [dirSets]))).cons (by simp) (by simp)).cons (by simp) (by simp)).cons
      (by simp) (by simp)).cons (by simp) (by simp)
theorem dirs_nums : ∀ ds : List (Directive F), (∀ s ∈ dirSetsAll ds, RegularSet E s) →
    NumsFrom (dirsFloats ds) (WDir.toksAll (dirsOf ds))
  | [], h => by rw [dirsOf, dirsFloats, WDir.toksAll]; exact nums_nil _
  | d :: ds, h => by
    simp only [dirSetsAll, List.mem_append] at h
    rw [dirsOf, dirsFloats, WDir.toksAll]
    exact (dir_nums d fun s hs => h s (.inl hs)).append (dirs_nums ds fun s hs => h s (.inr hs))
end

theorem pre_nums (d : PreDirective F) (h : ∀ s ∈ preSets d, RegularSet E s) :
    NumsFrom (preFloats d) (preOf d).toks := by
  cases d with
  | Camera d => exact ((params_nums (h _ (by simp [preSets]))).cons (by simp) (by simp)).cons (by simp) (by simp)
  | Sampler d => exact ((params_nums (h _ (by simp [preSets]))).cons (by simp) (by simp)).cons (by simp) (by simp)
  | Film d => exact ((params_nums (h _ (by simp [preSets]))).cons (by simp) (by simp)).cons (by simp) (by simp)
  | Filter d => exact ((params_nums (h _ (by simp [preSets]))).cons (by simp) (by simp)).cons (by simp) (by simp)
  | Integrator d =>
    exact ((params_nums (h _ (by simp [preSets]))).cons (by simp) (by simp)).cons (by simp) (by simp)
  | Accelerator d =>
    exact ((params_nums (h _ (by simp [preSets]))).cons (by simp) (by simp)).cons (by simp) (by simp)
  | _ => simp [NumsFrom, preOf, WPre.toks, preFloats, Num.tok, matToks, matOf]

theorem pres_nums (ds : List (PreDirective F)) (h : ∀ d ∈ ds, ∀ s ∈ preSets d, RegularSet E s) :
    NumsFrom (ds.flatMap preFloats) ((ds.map preOf).flatMap WPre.toks) := by
  induction ds with
  | nil => exact nums_nil _
  | cons d ds ih =>
    rw [List.map_cons, List.flatMap_cons, List.flatMap_cons]
    exact (pre_nums d (h d (by simp))).append (ih fun d hd => h d (by simp [hd]))

theorem regular_writable (hE : Sane E) {r : List (PreDirective F) × Directive F} (h : Regular E r) {P : F → Prop}
    (hP : ∀ f ∈ sceneFloats r, P f) :
    (sceneOf r).Ok E ∧ (sceneOf r).BlocksLast ∧ (sceneOf r).Writable E P := by
  obtain ⟨pre, w⟩ := r
  obtain ⟨p, ds, hw⟩ := h.world
  simp only at hw
  subst hw
  have hpre : ∀ d ∈ pre, ∀ s ∈ preSets d, RegularSet E s := fun d hd s hs =>
    h.sets s (List.mem_append_left _ (List.mem_flatMap.2 ⟨d, hd, hs⟩))
  have hds : ∀ s ∈ dirSetsAll ds, RegularSet E s := fun s hs =>
    h.sets s (List.mem_append_right _ (by simpa [dirSets] using hs))
  have hn : NumsFrom (sceneFloats (pre, .World p ds)) (sceneOf (pre, .World p ds)).toks := by
    have h2 := dir_nums (E := E) (.World p ds) (by simpa [dirSets] using hds)
    rw [dirOf] at h2
    exact (pres_nums pre hpre).append h2
  refine ⟨⟨?_, dirsOf_ok hE ds hds⟩, ?_, fun f hf => hP f (hn.1 f hf), hn.2, ?_⟩
  · intro d hd
    obtain ⟨e, he, rfl⟩ := List.mem_map.1 hd
    exact preOf_ok hE e (hpre e he)
  · have := h.blocks
    simp only [LastBlocks] at this
    exact dirsOf_blocks ds this
  · intro n hn
    obtain ⟨d, hd, hn⟩ := List.mem_map.1 hn
    cases d <;> simp [preOf] at hn
    subst hn
    exact h.active _ _ hd

/-! ### Parse results are regular -/

theorem many_filled {ps : List (SParam F)} (h : ∀ p ∈ ps, ∃ a, ParamText E a p) : FilledSet (collect ps) := by
  have one : ∀ p ∈ ps, ∃ ty vs, ValText E ty vs p.val := by
    intro p hp
    obtain ⟨a, decl, ty, vs, -, -, h3⟩ := h p hp
    exact ⟨ty, vs, h3⟩
  have ne : ∀ {α : Type} {R : List (Token F) → α → Prop} {ts xs}, OneOrList R ts xs → xs ≠ [] := by
    rintro α R ts xs (⟨y, -, rfl⟩ | h)
    · simp
    · exact h.1
  refine ⟨?_, ?_, ?_, ?_, ?_, ?_, ?_, ?_, rfl, rfl, rfl⟩ <;>
    (intro q hq
     simp only [collect, List.mem_filterMap] at hq
     obtain ⟨p, hp, hq⟩ := hq
     obtain ⟨ty, vs, h3⟩ := one p hp
     generalize p.val = v at hq h3
     cases h3 <;> simp only [Option.some.injEq, reduceCtorEq] at hq <;> subst hq)
  · exact ne ‹_›
  · exact ne ‹_›
  · exact ne ‹_›
  · rename_i h; exact h.1
  · rename_i h; exact h.1
  · exact ⟨_, rfl, by simp⟩
  · exact ⟨_, rfl, by simp⟩
  · refine ⟨_, rfl, ?_⟩
    intro h0
    injection h0 with h0
    subst h0
    have hb := ‹Bracketed (NumTok E) _ _›
    have hp' := ‹PairsOf _ []›
    exact hb.1 hp'
  · exact ⟨_, rfl, by simp⟩
  · exact ⟨_, rfl, by simp⟩
  · exact ne ‹_›
  · exact ⟨_, rfl⟩

theorem params_filled {a : List (Token F)} {ps : List (SParam F)} (h : ParamsText E a ps) :
    FilledSet (collect ps) := by
  obtain ⟨b, d, rfl, h1, -⟩ := h
  refine many_filled (E := E) fun p hp => ?_
  obtain ⟨c, -, h3⟩ := many_mem h1 p hp
  exact ⟨c, h3⟩

theorem typed_filled {key : String} {a : List (Token F)} {d : DirectiveStruct F} (h : Typed E key a d) :
    FilledSet d.paramSet := by
  obtain ⟨q, rest, ps, -, h1, h2⟩ := h
  rw [h2]
  exact params_filled h1

mutual
theorem dir_regular {a : List (Token F)} {d : Directive F} (h : DirText E a d) :
    (∀ s ∈ dirSets d, FilledSet s) ∧ LastBlocks d := by
  match h with
  | .material ts d h => simp only [dirSets, LastBlocks, List.mem_singleton, forall_eq, and_true]; exact typed_filled h
  | .shape ts d h => simp only [dirSets, LastBlocks, List.mem_singleton, forall_eq, and_true]; exact typed_filled h
  | .lightSource ts d h =>
    simp only [dirSets, LastBlocks, List.mem_singleton, forall_eq, and_true]; exact typed_filled h
  | .areaLightSource ts d h =>
    simp only [dirSets, LastBlocks, List.mem_singleton, forall_eq, and_true]; exact typed_filled h
  | .attribute p ts ds h => rw [dirSets, LastBlocks]; exact dirs_regular h
  | .transform p ts ds h => rw [dirSets, LastBlocks]; exact dirs_regular h
  | .world p ts ds h => rw [dirSets, LastBlocks]; exact dirs_regular h
  | .incl p ts s h => simp [dirSets, LastBlocks]
  | .texture p q₁ q₂ q₃ name ty cls ts ps h =>
    simp only [dirSets, LastBlocks, List.mem_singleton, forall_eq, and_true]; exact params_filled h
theorem dirs_regular {a : List (Token F)} {ds : List (Directive F)} (h : DirsText E a ds) :
    (∀ s ∈ dirSetsAll ds, FilledSet s) ∧ LastBlocksAll ds := by
  match h with
  | .nil => simp [dirSetsAll, LastBlocksAll]
  | .block ts d hb h =>
    obtain ⟨h1, h2⟩ := dir_regular h
    simp only [dirSetsAll, LastBlocksAll, List.append_nil, implies_true, true_and, and_true]
    exact ⟨h1, h2⟩
  | .cons a b d ds hb h hs =>
    obtain ⟨h1, h2⟩ := dir_regular h
    obtain ⟨h3, h4⟩ := dirs_regular hs
    rw [dirSetsAll, LastBlocksAll]
    refine ⟨fun s hs => ?_, fun hb' => absurd hb' hb, h2, h4⟩
    rcases List.mem_append.1 hs with hs | hs
    · exact h1 s hs
    · exact h3 s hs
end

theorem pre_filled {a : List (Token F)} {d : PreDirective F} (h : PreText E a d) : ∀ s ∈ preSets d, FilledSet s := by
  cases h <;> simp only [preSets, List.not_mem_nil, false_implies, implies_true, List.mem_singleton, forall_eq] <;>
    exact typed_filled ‹_›

theorem numLit_fits {l : List Char} {i : Int} (h : NumLit E l (.Int i)) : Fits i := by
  generalize hv : (TokenType.Int i : TokenType F) = v at h
  cases h with
  | int s ds hne hds hfit => injection hv with hv; rw [hv]; exact hfit
  | intExp s ds x k v hne hds hfit hx hk hv' =>
    injection hv with hv
    subst hv
    obtain ⟨p, -, ⟨h, rfl⟩ | ⟨-, -, h, -⟩⟩ := hv'
    · exact h
    · exact h
  | _ => simp at hv

/-! ### Positions are irrelevant -/

theorem params_eraseSet {S : Type} (l : List (Param S)) (Q : String → List S → Prop) :
    (∀ p ∈ l.map eraseParam, Q p.name p.values) ↔ ∀ p ∈ l, Q p.name p.values := by
  simp [eraseParam]

theorem filled_erase (s : ParamSet F) : FilledSet (eraseSet s) ↔ FilledSet s := by
  constructor
  · rintro ⟨h1, h2, h3, h4, h5, h6, h7, h8, h9⟩
    simp only [eraseSet] at h1 h2 h3 h4 h5 h6 h7 h8 h9
    exact ⟨(params_eraseSet _ fun _ v => v ≠ []).1 h1, (params_eraseSet _ fun _ v => v ≠ []).1 h2,
      (params_eraseSet _ fun _ v => v ≠ []).1 h3, (params_eraseSet _ fun _ v => v ≠ []).1 h4,
      (params_eraseSet _ fun _ v => v ≠ []).1 h5,
      (params_eraseSet _ fun _ v => ∃ x, v = [x] ∧ x ≠ Spectrum.Spectrum []).1 h6,
      (params_eraseSet _ fun _ v => v ≠ []).1 h7, (params_eraseSet _ fun _ v => ∃ x, v = [x]).1 h8,
      by simpa [eraseParam] using h9⟩
  · rintro ⟨h1, h2, h3, h4, h5, h6, h7, h8, h9⟩
    exact ⟨(params_eraseSet _ fun _ v => v ≠ []).2 h1, (params_eraseSet _ fun _ v => v ≠ []).2 h2,
      (params_eraseSet _ fun _ v => v ≠ []).2 h3, (params_eraseSet _ fun _ v => v ≠ []).2 h4,
      (params_eraseSet _ fun _ v => v ≠ []).2 h5,
      (params_eraseSet _ fun _ v => ∃ x, v = [x] ∧ x ≠ Spectrum.Spectrum []).2 h6,
      (params_eraseSet _ fun _ v => v ≠ []).2 h7, (params_eraseSet _ fun _ v => ∃ x, v = [x]).2 h8,
      by simpa [eraseSet, eraseParam] using h9⟩

theorem setNames_erase (s : ParamSet F) : setNames (eraseSet s) = setNames s := by
  simp [setNames, eraseSet, eraseParam, Function.comp_def]

theorem regularSet_erase (s : ParamSet F) : RegularSet E (eraseSet s) ↔ RegularSet E s := by
  constructor
  · rintro ⟨h1, h2, h3⟩
    exact ⟨(filled_erase s).1 h1, by rwa [setNames_erase] at h2,
      (params_eraseSet _ fun _ v => ∀ i ∈ v, Fits i).1 h3⟩
  · rintro ⟨h1, h2, h3⟩
    exact ⟨(filled_erase s).2 h1, by rwa [setNames_erase],
      (params_eraseSet _ fun _ v => ∀ i ∈ v, Fits i).2 h3⟩

theorem setFloats_erase (s : ParamSet F) : setFloats (eraseSet s) = setFloats s := by
  simp [setFloats, paramParts, eraseSet, eraseParam, List.flatMap_map]

theorem isBlock_erase (d : Directive F) : IsBlock (eraseDir d) ↔ IsBlock d := by
  cases d <;> simp [eraseDir, IsBlock]

theorem eraseDirs_nil (ds : List (Directive F)) : eraseDirs ds = [] ↔ ds = [] := by
  cases ds <;> simp [eraseDirs]

mutual
theorem dir_erase : ∀ d : Directive F, dirSets (eraseDir d) = (dirSets d).map eraseSet ∧
    dirFloats (eraseDir d) = dirFloats d ∧ (LastBlocks (eraseDir d) ↔ LastBlocks d)
  | .Material d => by simp [eraseDir, eraseStruct, dirSets, dirFloats, LastBlocks, setFloats_erase]
  | .Shape d => by simp [eraseDir, eraseStruct, dirSets, dirFloats, LastBlocks, setFloats_erase]
  | .LightSource d => by simp [eraseDir, eraseStruct, dirSets, dirFloats, LastBlocks, setFloats_erase]
  | .AreaLightSource d => by simp [eraseDir, eraseStruct, dirSets, dirFloats, LastBlocks, setFloats_erase]
  | .Attribute _ ds => by simp only [eraseDir, dirSets, dirFloats, LastBlocks]; exact dirs_erase ds
  | .Transform _ ds => by simp only [eraseDir, dirSets, dirFloats, LastBlocks]; exact dirs_erase ds
  | .World _ ds => by simp only [eraseDir, dirSets, dirFloats, LastBlocks]; exact dirs_erase ds
  | .Include _ s => by simp [eraseDir, dirSets, dirFloats, LastBlocks]
  | .Texture t => by simp [eraseDir, dirSets, dirFloats, LastBlocks, setFloats_erase]
theorem dirs_erase : ∀ ds : List (Directive F), dirSetsAll (eraseDirs ds) = (dirSetsAll ds).map eraseSet ∧
    dirsFloats (eraseDirs ds) = dirsFloats ds ∧ (LastBlocksAll (eraseDirs ds) ↔ LastBlocksAll ds)
  | [] => by simp [eraseDirs, dirSetsAll, dirsFloats]
  | d :: ds => by
    obtain ⟨h1, h2, h3⟩ := dir_erase d
    obtain ⟨h4, h5, h6⟩ := dirs_erase ds
    simp only [eraseDirs, dirSetsAll, dirsFloats, LastBlocksAll, List.map_append, h1, h2, h3, h4, h5, h6,
      isBlock_erase, eraseDirs_nil, and_self]
end

theorem preSets_erase (d : PreDirective F) : preSets (erasePre d) = (preSets d).map eraseSet := by
  cases d <;> simp [erasePre, preSets, eraseStruct]

theorem preFloats_erase (d : PreDirective F) : preFloats (erasePre d) = preFloats d := by
  cases d <;> simp [erasePre, preFloats, eraseStruct, setFloats_erase]

theorem sceneFloats_erase (r : List (PreDirective F) × Directive F) :
    sceneFloats (erase r) = sceneFloats r := by
  simp [sceneFloats, erase, List.flatMap_map, preFloats_erase, (dir_erase r.2).2.1]

theorem regular_erase (r : List (PreDirective F) × Directive F) : Regular E (erase r) ↔ Regular E r := by
  have hs : (erase r).1.flatMap preSets ++ dirSets (erase r).2 =
      (r.1.flatMap preSets ++ dirSets r.2).map eraseSet := by
    simp [erase, List.flatMap_map, preSets_erase, (dir_erase r.2).1, List.map_flatMap]
  constructor
  · rintro ⟨h1, h2, h3, h4⟩
    rw [hs] at h1
    refine ⟨fun s hs => (regularSet_erase s).1 (h1 _ (List.mem_map_of_mem hs)), ?_, ?_, (dir_erase r.2).2.2.1 h4⟩
    · intro p n hn
      exact h2 nowhere n (List.mem_map.2 ⟨_, hn, rfl⟩)
    · obtain ⟨p, ds, h⟩ := h3
      cases hd : r.2 <;> simp [erase, hd, eraseDir] at h
      exact ⟨_, _, rfl⟩
  · rintro ⟨h1, h2, h3, h4⟩
    refine ⟨?_, ?_, ?_, (dir_erase r.2).2.2.2 h4⟩
    · rw [hs]
      intro s hs
      obtain ⟨t, ht, rfl⟩ := List.mem_map.1 hs
      exact (regularSet_erase t).2 (h1 t ht)
    · intro p n hn
      obtain ⟨d, hd, hn⟩ := List.mem_map.1 hn
      cases d <;> simp [erasePre] at hn
      obtain ⟨-, rfl⟩ := hn
      exact h2 _ _ hd
    · obtain ⟨p, ds, h⟩ := h3
      exact ⟨nowhere, eraseDirs ds, by simp [erase, h, eraseDir]⟩

end Pbrt.Proof.Printing
