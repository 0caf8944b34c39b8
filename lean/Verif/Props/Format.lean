import Verif.Proof.Format
import Verif.Props.Printer

/-!
# C99: printing a parse result

`C99_regular` says what parse results look like, `C99_print` that such a result can be printed and
parsed again with nothing changed but positions, `C99_image` that nothing else comes out of the parser.
-/

namespace Pbrt

open Spec Proof Proof.Printing

variable {F : Type} {E : Env F}

theorem Proof.token_lexeme (hE : Sane E) {input : List Char} {toks : List (Token F)}
    (h : tokenize E input = .ok toks) {t : Token F} (ht : t ∈ toks) : ∃ l rest, Lexeme E l t.ty rest := by
  obtain ⟨text, offs, -, -, h6⟩ := C04_positions hE input toks h
  obtain ⟨i, hi, hti⟩ := List.mem_iff_getElem.1 ht
  obtain ⟨_, _, l, b, -, h8⟩ := (List.forall₂_iff_get.1 h6).2 i
    (by rw [(List.forall₂_iff_get.1 h6).1]; exact hi) hi
  simp only [List.get_eq_getElem, hti] at h8
  exact ⟨l, b, h8⟩

/-- **C99**: what is true of every parse result: every parameter has a name without white space and at
    least one value (spectra and textures exactly one), integers fit in a machine word, the name after
    `ActiveTransform` is an identifier, the second part is a world block, and nested blocks come last. -/
theorem C99_regular (hE : Sane E) {input : List Char} {r : List (PreDirective F) × Directive F}
    (h : parse E input = .ok r) : Regular E r := by
  obtain ⟨toks, h1, h2⟩ := parse_ok h
  obtain ⟨pre, w⟩ := r
  rw [parseTokens_iff] at h2
  obtain ⟨a, p, body, e, rest, ds, h2, h3, h4, h5, rfl⟩ := h2
  have hpre := pres_from h3 (toks := toks) (by intro t ht; rw [h2]; simp [ht])
  have hdir := dirs_from h4 (toks := toks) (by intro t ht; rw [h2]; simp [ht])
  obtain ⟨hfill, hlast⟩ := dirs_regular h4
  have hdecl : ∀ {ty p name}, Declared E toks ty p name → IsWord E name := by
    rintro ty p name ⟨decl, -, a, b, c, -, -, -, -, h1, h2⟩
    exact ⟨h1, fun x hx => h2 x (List.mem_append_right _ hx)⟩
  have hset : ∀ s, FromToks E toks s → FilledSet s → RegularSet E s := by
    intro s hs hf
    refine ⟨hf, ?_, ?_⟩
    · intro n hn
      simp only [setNames, List.mem_append, List.mem_map] at hn
      rcases hn with ((((((⟨q, hq, rfl⟩ | ⟨q, hq, rfl⟩) | ⟨q, hq, rfl⟩) | ⟨q, hq, rfl⟩) | ⟨q, hq, rfl⟩) |
        ⟨q, hq, rfl⟩) | ⟨q, hq, rfl⟩) | ⟨q, hq, rfl⟩
      · exact hdecl (hs.bools q hq).1
      · exact hdecl (hs.ints q hq).1
      · exact hdecl (hs.floats q hq).1
      · exact hdecl (hs.point2fs q hq).1
      · exact hdecl (hs.vector2fs q hq).1
      · obtain ⟨ty, h, -⟩ := hs.spectra q hq
        exact hdecl h
      · exact hdecl (hs.strings q hq).1
      · exact hdecl (hs.textures q hq).1
    · intro q hq i hi
      obtain ⟨pos, hm⟩ := (hs.ints q hq).2 i hi
      obtain ⟨l, rest, hl⟩ := token_lexeme hE h1 hm
      generalize hv : (TokenType.Int i : TokenType F) = v at hl
      cases hl with
      | num l _ v' hl _ _ => rw [← hv] at hl; exact numLit_fits hl
      | _ => simp at hv
  refine ⟨?_, ?_, ⟨p, ds, rfl⟩, by simpa only [LastBlocks] using hlast⟩
  · intro s hs
    rcases List.mem_append.1 hs with hs | hs
    · obtain ⟨d, hd, hs⟩ := List.mem_flatMap.1 hs
      obtain ⟨b, -, hb⟩ := many_mem h3 d hd
      exact hset s ((hpre.2 d hd).2.2.1 s hs) (pre_filled hb s hs)
    · rw [dirSets] at hs
      exact hset s (hdir.sets s hs) (hfill s hs)
  · intro q n hn
    obtain ⟨pos, hm⟩ := (hpre.2 _ hn).2.2.2 q n rfl
    obtain ⟨l, rest, hl⟩ := token_lexeme hE h1 hm
    simp only [kw] at hl
    generalize hv : (TokenType.Identifier n : TokenType F) = v at hl
    cases hl with
    | ident c cs _ hc hcs _ =>
      injection hv with hv
      subst hv
      exact ⟨c, cs, by simp, hc, hcs⟩
    | num l _ v' hl _ _ => subst hv; cases hl
    | _ => simp at hv

/-- **C99**: a regular result can be written in any layout, and what is parsed is the same but for positions. -/
theorem C99_print (hE : Sane E) {ft : F → List Char} {P : F → Prop}
    (hft : ∀ f, P f → NumLit E (ft f) (.Float f)) {r : List (PreDirective F) × Directive F} (hr : Regular E r)
    (hP : ∀ f ∈ sceneFloats r, P f) (lead text : List Char) (hlead : Sep E lead)
    (htext : Layout E ((sceneOf r).toks.map (tokenText ft)) text) :
    ∃ r', parse E (lead ++ text) = .ok r' ∧ erase r' = erase r := by
  obtain ⟨h1, h2, h3⟩ := regular_writable hE hr hP
  obtain ⟨toks, -, -, h⟩ := C98_layout hE hft _ h1 h2 h3 lead text hlead htext
  exact ⟨_, h, scene_of_placed r hr _⟩

/-- **C99**: in particular with one space between tokens. -/
theorem C99_printed (hE : Sane E) {ft : F → List Char} {P : F → Prop}
    (hft : ∀ f, P f → NumLit E (ft f) (.Float f)) {r : List (PreDirective F) × Directive F} (hr : Regular E r)
    (hP : ∀ f ∈ sceneFloats r, P f) :
    ∃ r', parse E (printed ft r) = .ok r' ∧ erase r' = erase r :=
  C99_print hE hft hr hP [] _ .nil (spaced_layout hE _)

/-- **C99**: printing does not depend on positions, nor do the floats of a scene or `Regular`. -/
theorem C99_positions (ft : F → List Char) {r r' : List (PreDirective F) × Directive F}
    (h : erase r = erase r') :
    printed ft r = printed ft r' ∧ sceneFloats r = sceneFloats r' ∧ (Regular E r ↔ Regular E r') := by
  refine ⟨?_, ?_, ?_⟩
  · unfold printed
    rw [← sceneOf_erase r, h, sceneOf_erase]
  · rw [← sceneFloats_erase r, h, sceneFloats_erase]
  · rw [← regular_erase r, h, regular_erase]

/-- **C99**: printing what was parsed and parsing that again changes only positions, and printing once
    more gives the same text. -/
theorem C99_print_parse (hE : Sane E) {ft : F → List Char} {P : F → Prop}
    (hft : ∀ f, P f → NumLit E (ft f) (.Float f)) {input : List Char}
    {r : List (PreDirective F) × Directive F} (h : parse E input = .ok r) (hP : ∀ f ∈ sceneFloats r, P f) :
    ∃ r', parse E (printed ft r) = .ok r' ∧ erase r' = erase r ∧ printed ft r' = printed ft r := by
  obtain ⟨r', h1, h2⟩ := C99_printed hE hft (C99_regular hE h) hP
  exact ⟨r', h1, h2, (C99_positions (E := E) ft h2).1⟩

/-- **C99**: two texts are printed alike exactly if they are parsed alike but for positions. -/
theorem C99_canonical (hE : Sane E) {ft : F → List Char} {P : F → Prop}
    (hft : ∀ f, P f → NumLit E (ft f) (.Float f)) {r r' : List (PreDirective F) × Directive F}
    (hr : Regular E r) (hr' : Regular E r') (hP : ∀ f ∈ sceneFloats r, P f) (hP' : ∀ f ∈ sceneFloats r', P f) :
    printed ft r = printed ft r' ↔ erase r = erase r' := by
  refine ⟨fun h => ?_, fun h => (C99_positions (E := E) ft h).1⟩
  obtain ⟨s, h1, h2⟩ := C99_printed hE hft hr hP
  obtain ⟨s', h3, h4⟩ := C99_printed hE hft hr' hP'
  rw [h, h3] at h1
  injection h1 with h1
  rw [← h2, ← h4, h1]

/-- **C99**: the regular scenes are exactly the parse results, up to positions. -/
theorem C99_image (hE : Sane E) {ft : F → List Char} {P : F → Prop}
    (hft : ∀ f, P f → NumLit E (ft f) (.Float f)) {r : List (PreDirective F) × Directive F}
    (hP : ∀ f ∈ sceneFloats r, P f) :
    (∃ input r', parse E input = .ok r' ∧ erase r' = erase r) ↔ Regular E r := by
  constructor
  · rintro ⟨input, r', h, he⟩
    exact (C99_positions (E := E) ft he).2.2.1 (C99_regular hE h)
  · intro hr
    obtain ⟨r', h1, h2⟩ := C99_printed hE hft hr hP
    exact ⟨_, r', h1, h2⟩

section
variable {T : Type} [Elem T] [As T T] [FloatFns T] [IEEE T]

/-- **C99**: for the binary formats: a parse result of finite floats, printed with all digits, is parsed
    as the same scene, every float bit for bit. -/
theorem C99_ieee {E : Env T} (hE : Sane E) (hR : Rounds E) (hZ : SignedZeros E) {input : List Char}
    {r : List (PreDirective T) × Directive T} (h : parse E input = .ok r) (hf : ∀ f ∈ sceneFloats r, IsFinite f) :
    ∃ r', parse E (printed floatText r) = .ok r' ∧ erase r' = erase r ∧
      printed floatText r' = printed floatText r :=
  C99_print_parse hE (fun _ hf => floatText_numLit hE hR hZ hf) h hf

/-- **C99**: the library that the assumptions are proved for -/
theorem C99_ieee_env (checks : Bool) {input : List Char} {r : List (PreDirective T) × Directive T}
    (h : parse (ieeeEnv T checks) input = .ok r) (hf : ∀ f ∈ sceneFloats r, IsFinite f) :
    ∃ r', parse (ieeeEnv T checks) (printed floatText r) = .ok r' ∧ erase r' = erase r ∧
      printed floatText r' = printed floatText r :=
  C99_ieee (ieeeEnv_sane checks) (ieeeEnv_rounds checks) (ieeeEnv_zeros checks) h hf

end

/-! ### Concrete cases -/

/-- A text with comments, a parameter whose value is missing, integers where floats are meant, several
    forms of numbers and of brackets -/
def formatText : List Char :=
  ("# scene\r\nTranslate .9 -3 # shift\n +0.5\nActiveTransform All Camera \"c\"\t\"float  fov\" 90 \"float x\"\n" ++
   "WorldBegin LightSource \"point\" \"rgb I\" [ 1 .25 1 ] \"integer n\" [ 3 -2e1 ] \"string s\" \"a\\\"b\"\n" ++
   "  TransformBegin Shape \"sphere\" TransformEnd Shape \"lost\" WorldEnd rest").toList

/-- How it is printed: the directive after the block is lost (C16), values have brackets, types are in the
    order of the parameter set. -/
def formatPrinted : List Char :=
  ("Translate 0.89999997615814208984375 -3.0 0.5 ActiveTransform All Camera \"c\" \"float fov\" [ 90.0 ] " ++
   "WorldBegin LightSource \"point\" \"integer n\" [ 3 -20 ] \"rgb I\" [ 1.0 0.25 1.0 ] " ++
   "\"string s\" [ \"a\\\"b\" ] TransformBegin Shape \"sphere\" TransformEnd WorldEnd").toList

def formatView (r : Res ParserError (List (PreDirective Float32.Model) × Directive Float32.Model)) :
    Option (List Char × Bool) :=
  match r with
  | .ok r => some (printed floatText r, (sceneFloats r).all fun f => decide (IsFinite f))
  | _ => none

-- the first is parsed and printed as the second, which is printed as itself; all floats are finite
example : formatView (parse (ieeeEnv Float32.Model true) formatText) = some (formatPrinted, true) := by
  decide +kernel
example : formatView (parse (ieeeEnv Float32.Model true) formatPrinted) = some (formatPrinted, true) := by
  decide +kernel

-- scenes that are not regular, so no text has them as its result: a parameter without values, a directive
-- after a nested block, something else than a world block
example : ¬ Regular E (([], .World ⟨1, 1⟩ [.Shape ⟨"s", ⟨1, 1⟩, { collect [] with floats := [⟨"x", ⟨1, 1⟩, []⟩] }⟩]) :
    List (PreDirective F) × Directive F) := fun h => by
  have h := h.sets
  simp only [List.flatMap_nil, List.nil_append, dirSets, dirSetsAll, List.append_nil, List.mem_singleton,
    forall_eq] at h
  exact h.filled.floats _ (List.mem_singleton.2 rfl) rfl
example : ¬ Regular E (([], .World ⟨1, 1⟩ [.Attribute ⟨1, 1⟩ [], .Include ⟨1, 1⟩ "a"]) :
    List (PreDirective F) × Directive F) := fun h => by
  have := h.blocks
  simp [LastBlocks, LastBlocksAll, IsBlock] at this
example : ¬ Regular E (([], .Include ⟨1, 1⟩ "a") : List (PreDirective F) × Directive F) := fun h => by
  obtain ⟨p, ds, h⟩ := h.world
  simp at h

-- a scene that is, with its text
example : Regular (ieeeEnv Float32.Model true) (([.ActiveTransform ⟨7, 7⟩ "All"], .World ⟨9, 9⟩ [.Shape ⟨"s", ⟨9, 9⟩,
    { collect [] with floats := [⟨"x", ⟨9, 9⟩, [nine32]⟩] }⟩]) :
    List (PreDirective Float32.Model) × Directive Float32.Model) := by
  refine ⟨?_, ?_, ⟨_, _, rfl⟩, by simp [LastBlocks, LastBlocksAll, IsBlock]⟩
  · simp only [List.flatMap_cons, preSets, List.flatMap_nil, List.nil_append, dirSets, dirSetsAll, List.append_nil,
      List.mem_singleton, forall_eq]
    refine ⟨⟨?_, ?_, ?_, ?_, ?_, ?_, ?_, ?_, rfl, rfl, rfl⟩, ?_, ?_⟩ <;> simp [collect, setNames]
    exact ⟨by decide +kernel, by decide +kernel⟩
  · intro p n h
    simp only [List.mem_singleton, PreDirective.ActiveTransform.injEq] at h
    rw [h.2]
    exact isIdent_letters (ieeeEnv_sane true) _ (by decide +kernel)

end Pbrt
