import Verif.Proof.Edit
import Verif.Props.Layout

/-!
# C96: replacing numbers and names
-/

namespace Pbrt

open Spec Proof Proof.FloatType Proof.Edit List

variable {F : Type} {C : Change F} {E : Env F}

/-- **C96**: numbers and plain strings may be replaced by others of their kind in the tokens: both
    token lists are scenes, and corresponding parts of the two scenes are replaced or the same, or
    both are rejected in the same way. -/
theorem C96_tokens (hE : C.Fits E) {ts ts' : List (Token F)} (h : Forall₂ (EditToken C E) ts ts') :
    AlikeOutcome SameKind (EditScene C E) (parseTokens E ts) (parseTokens E ts') := by
  have := ed_parseTokens hE h
  generalize parseTokens E ts = x at this
  generalize parseTokens E ts' = y at this
  cases this with
  | ok a a' h => exact .ok _ _ h
  | err e e' h => cases h with
    | str m m' _ => exact .err _ _ (.str _ _)
    | eof => exact .err _ _ .eof
  | panic => exact .panic
  | diverge => exact .diverge

/-- **C96**: the same for two texts. -/
theorem C96_text (hE : C.Fits E) (hp : ∀ p q, C.pos p q) {a b : List Char} {ts ts' : List (Token F)}
    (ha : tokenize E a = .ok ts) (hb : tokenize E b = .ok ts')
    (h : Forall₂ (EditType C E) (ts.map Token.ty) (ts'.map Token.ty)) :
    AlikeOutcome SameKind (EditScene C E) (parse E a) (parse E b) := by
  rw [parse_of ha, parse_of hb]
  rw [forall₂_map_left_iff, forall₂_map_right_iff] at h
  exact C96_tokens hE (h.imp fun _ _ h => ⟨hp _ _, h⟩)

/-- **C96**: the same for two texts given by their lexemes, with any layout. -/
theorem C96_lexemes (hS : Sane E) (hE : C.Fits E) (hp : ∀ p q, C.pos p q) {ls ls' : List (List Char)}
    {vs vs' : List (TokenType F)}
    (h : Forall₂ (fun l v => Lexeme E l v [] ∧ NoCrlf l) ls vs)
    (h' : Forall₂ (fun l v => Lexeme E l v [] ∧ NoCrlf l) ls' vs')
    (hv : Forall₂ (EditType C E) vs vs')
    {lead lead' text text' : List Char} (hl : Sep E lead) (hl' : Sep E lead')
    (ht : Layout E ls text) (ht' : Layout E ls' text') :
    AlikeOutcome SameKind (EditScene C E) (parse E (lead ++ text)) (parse E (lead' ++ text')) := by
  obtain ⟨ts, h1, h2⟩ := C05_separators hS ls vs h lead text hl ht
  obtain ⟨ts', h3, h4⟩ := C05_separators hS ls' vs' h' lead' text' hl' ht'
  exact C96_text hE hp h1 h3 (by rw [h2, h4]; exact hv)

/-- **C96**: which numbers and plain strings there are does not decide whether the tokens are a
    scene. -/
theorem C96_accepts {ts ts' : List (Token F)}
    (h : Forall₂ (EditType .any E) (ts.map Token.ty) (ts'.map Token.ty)) :
    ((∃ s, parseTokens E ts = .ok s) ↔ ∃ s, parseTokens E ts' = .ok s) ∧
    (parseTokens E ts = .err .Eof ↔ parseTokens E ts' = .err .Eof) := by
  rw [forall₂_map_left_iff, forall₂_map_right_iff] at h
  have := C96_tokens (C := .any) (E := E) (fun _ _ _ => trivial) (h.imp fun _ _ h => ⟨trivial, h⟩)
  generalize parseTokens E ts = x at this
  generalize parseTokens E ts' = y at this
  cases this with
  | ok a a' h => simp
  | err e e' h => cases h <;> simp
  | panic => simp
  | diverge => simp

/-! ### One value -/

theorem edit_refl (hi : ∀ i, C.int i i) (hf : ∀ x, C.float x x) : ∀ v, EditType C E v v
  | .Identifier s => .identifier s
  | .Int i => .int i i (hi i)
  | .Float x => .float x x (hf x)
  | .Str s => .str s s (.inl rfl)
  | .LBracket => .lbracket
  | .RBracket => .rbracket

theorem edit_one (hi : ∀ i, C.int i i) (hf : ∀ x, C.float x x) {v v' : TokenType F} (h : EditType C E v v')
    (xs ys : List (TokenType F)) : Forall₂ (EditType C E) (xs ++ v :: ys) (xs ++ v' :: ys) :=
  rel_append (forall₂_same.mpr fun x _ => edit_refl hi hf x)
    (.cons h (forall₂_same.mpr fun x _ => edit_refl hi hf x))

/-- **C96**: one integer is replaced in a text. -/
theorem C96_int {a b : List Char} {ts ts' : List (Token F)} {xs ys : List (TokenType F)} {i j : Int}
    (ha : tokenize E a = .ok ts) (hb : tokenize E b = .ok ts')
    (h : ts.map Token.ty = xs ++ .Int i :: ys) (h' : ts'.map Token.ty = xs ++ .Int j :: ys) :
    AlikeOutcome SameKind (EditScene (.oneInt E i j) E) (parse E a) (parse E b) := by
  refine C96_text ?_ (fun _ _ => trivial) ha hb ?_
  · rintro a b (rfl | ⟨rfl, rfl⟩)
    · exact .inl rfl
    · exact .inr ⟨rfl, rfl⟩
  · rw [h, h']
    exact edit_one (fun _ => Or.inl rfl) (fun _ => Or.inl rfl) (.int _ _ (Or.inr ⟨rfl, rfl⟩)) _ _

/-- **C96**: one float is replaced in a text. -/
theorem C96_float {a b : List Char} {ts ts' : List (Token F)} {xs ys : List (TokenType F)} {x y : F}
    (ha : tokenize E a = .ok ts) (hb : tokenize E b = .ok ts')
    (h : ts.map Token.ty = xs ++ .Float x :: ys) (h' : ts'.map Token.ty = xs ++ .Float y :: ys) :
    AlikeOutcome SameKind (EditScene (.oneFloat x y) E) (parse E a) (parse E b) := by
  refine C96_text ?_ (fun _ _ => trivial) ha hb ?_
  · rintro a b (rfl : a = b)
    exact .inl rfl
  · rw [h, h']
    exact edit_one (fun _ => rfl) (fun _ => Or.inl rfl) (.float _ _ (Or.inr ⟨rfl, rfl⟩)) _ _

/-- **C96**: one plain string is replaced in a text. -/
theorem C96_str {a b : List Char} {ts ts' : List (Token F)} {xs ys : List (TokenType F)} {s t : String}
    (ha : tokenize E a = .ok ts) (hb : tokenize E b = .ok ts')
    (h : ts.map Token.ty = xs ++ .Str s :: ys) (h' : ts'.map Token.ty = xs ++ .Str t :: ys)
    (hs : PlainStr E s) (ht : PlainStr E t) :
    AlikeOutcome SameKind (EditScene (.oneStr s t) E) (parse E a) (parse E b) := by
  refine C96_text ?_ (fun _ _ => trivial) ha hb ?_
  · rintro a b (rfl : a = b)
    exact rfl
  · rw [h, h']
    exact edit_one (fun _ => rfl) (fun _ => rfl) (.str _ _ (.inr ⟨hs, ht, Or.inr ⟨rfl, rfl⟩⟩)) _ _

/-! ### The floats of both scenes -/

theorem edit_spectrumFloats {s s' : Spectrum F} (h : EditSpectrum C E s s') :
    Forall₂ C.float (spectrumFloats s) (spectrumFloats s') := by
  cases h with
  | rgb h h' h'' => exact .cons h (.cons h' (.cons h'' .nil))
  | xyz h h' h'' => exact .cons h (.cons h' (.cons h'' .nil))
  | samples h => exact forall₂_flat h fun _ _ hh => .cons hh.1 (.cons hh.2 .nil)
  | file s => exact .nil
  | blackbody h h' => exact .cons h (.cons h' .nil)

theorem edit_parts {S V : Type} {A : S → S → Prop} {B : V → V → Prop} {f : S → List V}
    {l l' : List (Param S)} (h : Forall₂ (EditParam C A) l l')
    (hf : ∀ a b, A a b → Forall₂ B (f a) (f b)) : Forall₂ B (paramParts f l) (paramParts f l') :=
  forall₂_flat h fun _ _ hh => forall₂_flat hh.values hf

theorem edit_setFloats {s s' : ParamSet F} (h : EditSet C E s s') :
    Forall₂ C.float (setFloats s) (setFloats s') := by
  rw [setFloats, setFloats, h.point3fs.1, h.point3fs.2, h.vector3fs.1, h.vector3fs.2, h.normal3fs.1,
    h.normal3fs.2]
  refine rel_append (rel_append (rel_append (rel_append (rel_append (rel_append ?_ ?_) ?_) .nil) .nil) .nil) ?_
  · exact edit_parts h.floats fun _ _ hh => .cons hh .nil
  · exact edit_parts h.point2fs fun _ _ hh => .cons hh.1 (.cons hh.2 .nil)
  · exact edit_parts h.vector2fs fun _ _ hh => .cons hh.1 (.cons hh.2 .nil)
  · exact edit_parts h.spectra fun _ _ hh => edit_spectrumFloats hh

mutual
theorem edit_dirFloats : ∀ {d d' : Directive F}, EditDir C E d d' → Forall₂ C.float (dirFloats d) (dirFloats d')
  | _, _, .material h => by rw [dirFloats, dirFloats]; exact edit_setFloats h.params
  | _, _, .shape h => by rw [dirFloats, dirFloats]; exact edit_setFloats h.params
  | _, _, .lightSource h => by rw [dirFloats, dirFloats]; exact edit_setFloats h.params
  | _, _, .areaLightSource h => by rw [dirFloats, dirFloats]; exact edit_setFloats h.params
  | _, _, .attribute _ h => by rw [dirFloats, dirFloats]; exact edit_dirsFloats h
  | _, _, .transform _ h => by rw [dirFloats, dirFloats]; exact edit_dirsFloats h
  | _, _, .world _ h => by rw [dirFloats, dirFloats]; exact edit_dirsFloats h
  | _, _, .incl _ _ => by rw [dirFloats, dirFloats]; exact .nil
  | _, _, .texture _ _ _ _ h => by rw [dirFloats, dirFloats]; exact edit_setFloats h
theorem edit_dirsFloats : ∀ {l l' : List (Directive F)}, Forall₂ (EditDir C E) l l' →
    Forall₂ C.float (dirsFloats l) (dirsFloats l')
  | _, _, .nil => by rw [dirsFloats]; exact .nil
  | _, _, .cons h t => by rw [dirsFloats, dirsFloats]; exact rel_append (edit_dirFloats h) (edit_dirsFloats t)
end

theorem edit_preFloats {d d' : PreDirective F} (h : EditPre C E d d') :
    Forall₂ C.float (preFloats d) (preFloats d') := by
  cases h with
  | identity => exact .nil
  | translate _ h => exact h
  | scale _ h => exact h
  | rotate _ ht h => exact .cons ht h
  | lookAt _ h => exact h
  | coordinateSystem => exact .nil
  | coordSysTransform => exact .nil
  | transform _ h => exact h
  | concatTransform _ h => exact h
  | activeTransform => exact .nil
  | transformTimes _ ha hb => exact .cons ha (.cons hb .nil)
  | camera h => exact edit_setFloats h.params
  | sampler h => exact edit_setFloats h.params
  | film h => exact edit_setFloats h.params
  | filter h => exact edit_setFloats h.params
  | integrator h => exact edit_setFloats h.params
  | accelerator h => exact edit_setFloats h.params
  | incl => exact .nil

/-- **C96**: the floats of the two scenes correspond one by one. -/
theorem C96_floats (hE : C.Fits E) {ts ts' : List (Token F)} (h : Forall₂ (EditToken C E) ts ts')
    {s s' : List (PreDirective F) × Directive F} (hs : parseTokens E ts = .ok s)
    (hs' : parseTokens E ts' = .ok s') : Forall₂ C.float (sceneFloats s) (sceneFloats s') := by
  have := C96_tokens hE h
  rw [hs, hs'] at this
  cases this with
  | ok _ _ h => exact rel_append (forall₂_flat h.1 fun _ _ h => edit_preFloats h) (edit_dirFloats h.2)

/-! ### What may not be replaced -/

/-- The kind of an outcome -/
def outcomeKind {ε α : Type} : Res ε α → Nat
  | .ok _ => 0
  | .err _ => 1
  | .panic => 2
  | .diverge => 3

/-- **C96** (an expectation that fails): an integer may not be replaced by a float, a truth value not
    by another string, and a plain string not by two words. -/
theorem C96_kind_refuted :
    outcomeKind (parse (exEnv true) "WorldBegin Shape \"s\" \"integer n\" 1 WorldEnd".toList) = 0 ∧
    outcomeKind (parse (exEnv true) "WorldBegin Shape \"s\" \"integer n\" 1.5 WorldEnd".toList) = 1 ∧
    outcomeKind (parse (exEnv true) "WorldBegin Shape \"s\" \"bool b\" \"true\" WorldEnd".toList) = 0 ∧
    outcomeKind (parse (exEnv true) "WorldBegin Shape \"s\" \"bool b\" \"yes\" WorldEnd".toList) = 1 ∧
    outcomeKind (parse (exEnv true) "WorldBegin Shape \"s\" \"r\" WorldEnd".toList) = 1 ∧
    outcomeKind (parse (exEnv true) "WorldBegin Shape \"s\" \"float r\" WorldEnd".toList) = 0 := by
  refine ⟨?_, ?_, ?_, ?_, ?_, ?_⟩ <;> decide +kernel

/-- What the example looks at -/
def editView (text : String) : Option (List (TokenType Rat)) × Option (List Rat) :=
  (match tokenize (exEnv true) text.toList with | .ok ts => some (ts.map Token.ty) | _ => none,
    match parse (exEnv true) text.toList with | .ok s => some (sceneFloats s) | _ => none)

-- a text, the same with another integer at another place, and both scenes
example :
    editView "Scale 1 2 3 WorldBegin WorldEnd" =
      (some ([.Identifier "Scale", .Int 1] ++ .Int 2 :: [.Int 3, .Identifier "WorldBegin", .Identifier "WorldEnd"]),
        some [1, 2, 3]) ∧
    editView "Scale 1\n250 3 WorldBegin WorldEnd" =
      (some ([.Identifier "Scale", .Int 1] ++ .Int 250 :: [.Int 3, .Identifier "WorldBegin", .Identifier "WorldEnd"]),
        some [1, 250, 3]) := by
  constructor <;> decide +kernel

-- plain strings
example : PlainStr (exEnv true) "sphere" ∧ PlainStr (exEnv true) "a b c" := by
  have plain (s : String) (h : (splitWhitespace (exEnv true) s).length ≠ 2) (ht : s ≠ "true") (hf : s ≠ "false") :
      PlainStr (exEnv true) s :=
    ⟨ht, hf, fun ty name hw => h (by rw [(splitWhitespace_two _ _ _ _).2 hw]; rfl)⟩
  exact ⟨plain _ (by decide +kernel) (by decide) (by decide), plain _ (by decide +kernel) (by decide) (by decide)⟩

/-- One number of a text replaced -/
example := C96_int (E := exEnv true) (i := 2) (j := 250) (a := "Scale 1 2 3 WorldBegin WorldEnd".toList)
  (b := "Scale 1\n250 3 WorldBegin WorldEnd".toList)
  (ts := [⟨⟨1, 1⟩, .Identifier "Scale"⟩, ⟨⟨1, 7⟩, .Int 1⟩, ⟨⟨1, 9⟩, .Int 2⟩, ⟨⟨1, 11⟩, .Int 3⟩,
    ⟨⟨1, 13⟩, .Identifier "WorldBegin"⟩, ⟨⟨1, 24⟩, .Identifier "WorldEnd"⟩])
  (ts' := [⟨⟨1, 1⟩, .Identifier "Scale"⟩, ⟨⟨1, 7⟩, .Int 1⟩, ⟨⟨2, 1⟩, .Int 250⟩, ⟨⟨2, 5⟩, .Int 3⟩,
    ⟨⟨2, 7⟩, .Identifier "WorldBegin"⟩, ⟨⟨2, 18⟩, .Identifier "WorldEnd"⟩])
  (xs := [.Identifier "Scale", .Int 1]) (ys := [.Int 3, .Identifier "WorldBegin", .Identifier "WorldEnd"])
  (by decide +kernel) (by decide +kernel) rfl rfl

/-- One fraction of a text replaced -/
example := C96_float (E := exEnv true) (x := 1 / 2) (y := 3 / 4) (a := "Scale .5 2 3 WorldBegin WorldEnd".toList)
  (b := "Scale .75 2 3 WorldBegin WorldEnd".toList)
  (ts := [⟨⟨1, 1⟩, .Identifier "Scale"⟩, ⟨⟨1, 7⟩, .Float (1 / 2)⟩, ⟨⟨1, 10⟩, .Int 2⟩, ⟨⟨1, 12⟩, .Int 3⟩,
    ⟨⟨1, 14⟩, .Identifier "WorldBegin"⟩, ⟨⟨1, 25⟩, .Identifier "WorldEnd"⟩])
  (ts' := [⟨⟨1, 1⟩, .Identifier "Scale"⟩, ⟨⟨1, 7⟩, .Float (3 / 4)⟩, ⟨⟨1, 11⟩, .Int 2⟩, ⟨⟨1, 13⟩, .Int 3⟩,
    ⟨⟨1, 15⟩, .Identifier "WorldBegin"⟩, ⟨⟨1, 26⟩, .Identifier "WorldEnd"⟩])
  (xs := [.Identifier "Scale"]) (ys := [.Int 2, .Int 3, .Identifier "WorldBegin", .Identifier "WorldEnd"])
  (by decide +kernel) (by decide +kernel) rfl rfl

/-- One name of a text replaced -/
example (hs : PlainStr (exEnv true) "sphere") (ht : PlainStr (exEnv true) "a b c") :=
  C96_str (E := exEnv true) (s := "sphere") (t := "a b c") (a := "WorldBegin Shape \"sphere\" WorldEnd".toList)
  (b := "WorldBegin Shape \"a b c\" WorldEnd".toList)
  (ts := [⟨⟨1, 1⟩, .Identifier "WorldBegin"⟩, ⟨⟨1, 12⟩, .Identifier "Shape"⟩, ⟨⟨1, 18⟩, .Str "sphere"⟩,
    ⟨⟨1, 27⟩, .Identifier "WorldEnd"⟩])
  (ts' := [⟨⟨1, 1⟩, .Identifier "WorldBegin"⟩, ⟨⟨1, 12⟩, .Identifier "Shape"⟩, ⟨⟨1, 18⟩, .Str "a b c"⟩,
    ⟨⟨1, 26⟩, .Identifier "WorldEnd"⟩])
  (xs := [.Identifier "WorldBegin", .Identifier "Shape"]) (ys := [.Identifier "WorldEnd"])
  (by decide +kernel) (by decide +kernel) rfl rfl hs ht

end Pbrt
