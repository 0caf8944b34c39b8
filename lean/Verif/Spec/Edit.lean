import Mathlib.Data.List.Forall2
import Verif.Spec.FloatType
import Verif.Spec.Scene

/-!
# Editing the values of a scene

Which parts of a text may be replaced without another look at the text, and what the new scene has
in common with the old one.
-/

namespace Pbrt.Spec

open List

variable {F : Type}

/-- What may be replaced by what -/
structure Change (F : Type) where
  pos : Pos → Pos → Prop
  int : Int → Int → Prop
  float : F → F → Prop
  str : String → String → Prop

/-- Replacing an integer is replacing the float it is converted to, too. -/
def Change.Fits (C : Change F) (E : Env F) : Prop :=
  ∀ i j, C.int i j → C.float (E.ofIsize i) (E.ofIsize j)

/-- A string that is neither a truth value nor two words, so that it cannot declare a parameter -/
def PlainStr (E : Env F) (s : String) : Prop :=
  s ≠ "true" ∧ s ≠ "false" ∧ ∀ ty name, ¬ TwoWords E s ty name

/-- The same string, or a plain string in place of another one -/
def EditStr (C : Change F) (E : Env F) (s t : String) : Prop :=
  s = t ∨ (PlainStr E s ∧ PlainStr E t ∧ C.str s t)

/-- A token and what may stand in its place -/
inductive EditType (C : Change F) (E : Env F) : TokenType F → TokenType F → Prop
  | identifier (s) : EditType C E (.Identifier s) (.Identifier s)
  | int (i j) (h : C.int i j) : EditType C E (.Int i) (.Int j)
  | float (x y) (h : C.float x y) : EditType C E (.Float x) (.Float y)
  | str (s t) (h : EditStr C E s t) : EditType C E (.Str s) (.Str t)
  | lbracket : EditType C E .LBracket .LBracket
  | rbracket : EditType C E .RBracket .RBracket

/-- The same with its position -/
def EditToken (C : Change F) (E : Env F) (t t' : Token F) : Prop :=
  C.pos t.pos t'.pos ∧ EditType C E t.ty t'.ty

/-! ### What becomes of a scene -/

inductive EditSpectrum (C : Change F) (E : Env F) : Spectrum F → Spectrum F → Prop
  | rgb {r g b r' g' b'} (hr : C.float r r') (hg : C.float g g') (hb : C.float b b') :
      EditSpectrum C E (.Rgb r g b) (.Rgb r' g' b')
  | xyz {x y z x' y' z'} (hx : C.float x x') (hy : C.float y y') (hz : C.float z z') :
      EditSpectrum C E (.Xyz x y z) (.Xyz x' y' z')
  | samples {l l'} (h : Forall₂ (fun s s' => C.float s.1 s'.1 ∧ C.float s.2 s'.2) l l') :
      EditSpectrum C E (.Spectrum l) (.Spectrum l')
  | file {s s'} (h : EditStr C E s s') : EditSpectrum C E (.File s) (.File s')
  | blackbody {t s t' s'} (ht : C.float t t') (hs : C.float s s') :
      EditSpectrum C E (.Blackbody t s) (.Blackbody t' s')

/-- A parameter keeps its name and the number of its values. -/
structure EditParam {S : Type} (C : Change F) (A : S → S → Prop) (p p' : Param S) : Prop where
  name : p.name = p'.name
  pos : C.pos p.pos p'.pos
  values : Forall₂ A p.values p'.values

/-- Parameters of a directive -/
structure EditSet (C : Change F) (E : Env F) (s s' : ParamSet F) : Prop where
  bools : Forall₂ (EditParam C Eq) s.bools s'.bools
  ints : Forall₂ (EditParam C C.int) s.ints s'.ints
  floats : Forall₂ (EditParam C C.float) s.floats s'.floats
  point2fs : Forall₂ (EditParam C fun p p' => C.float p.x p'.x ∧ C.float p.y p'.y) s.point2fs s'.point2fs
  vector2fs : Forall₂ (EditParam C fun p p' => C.float p.x p'.x ∧ C.float p.y p'.y) s.vector2fs s'.vector2fs
  point3fs : s.point3fs = [] ∧ s'.point3fs = []
  vector3fs : s.vector3fs = [] ∧ s'.vector3fs = []
  normal3fs : s.normal3fs = [] ∧ s'.normal3fs = []
  spectra : Forall₂ (EditParam C (EditSpectrum C E)) s.spectra s'.spectra
  strings : Forall₂ (EditParam C (EditStr C E)) s.strings s'.strings
  textures : Forall₂ (EditParam C (EditStr C E)) s.textures s'.textures

structure EditStruct (C : Change F) (E : Env F) (d d' : DirectiveStruct F) : Prop where
  ty : EditStr C E d.ty d'.ty
  pos : C.pos d.pos d'.pos
  params : EditSet C E d.paramSet d'.paramSet

/-- A directive remains the same kind of directive, with the same number of directives inside. -/
inductive EditDir (C : Change F) (E : Env F) : Directive F → Directive F → Prop
  | material {d d'} (h : EditStruct C E d d') : EditDir C E (.Material d) (.Material d')
  | shape {d d'} (h : EditStruct C E d d') : EditDir C E (.Shape d) (.Shape d')
  | lightSource {d d'} (h : EditStruct C E d d') : EditDir C E (.LightSource d) (.LightSource d')
  | areaLightSource {d d'} (h : EditStruct C E d d') : EditDir C E (.AreaLightSource d) (.AreaLightSource d')
  | attribute {p p' l l'} (hp : C.pos p p') (h : Forall₂ (EditDir C E) l l') :
      EditDir C E (.Attribute p l) (.Attribute p' l')
  | transform {p p' l l'} (hp : C.pos p p') (h : Forall₂ (EditDir C E) l l') :
      EditDir C E (.Transform p l) (.Transform p' l')
  | world {p p' l l'} (hp : C.pos p p') (h : Forall₂ (EditDir C E) l l') :
      EditDir C E (.World p l) (.World p' l')
  | incl {p p' s s'} (hp : C.pos p p') (h : EditStr C E s s') : EditDir C E (.Include p s) (.Include p' s')
  | texture {t t'} (hn : EditStr C E t.name t'.name) (ht : EditStr C E t.ty t'.ty)
      (hc : EditStr C E t.cls t'.cls) (hp : C.pos t.pos t'.pos) (h : EditSet C E t.paramSet t'.paramSet) :
      EditDir C E (.Texture t) (.Texture t')

/-- Three and nine floats -/
def EditThree (C : Change F) (v v' : Vector3f F) : Prop := Forall₂ C.float [v.x, v.y, v.z] [v'.x, v'.y, v'.z]
def EditNine (C : Change F) (m m' : Matrix3f F) : Prop :=
  Forall₂ C.float [m.m00, m.m01, m.m02, m.m10, m.m11, m.m12, m.m20, m.m21, m.m22]
    [m'.m00, m'.m01, m'.m02, m'.m10, m'.m11, m'.m12, m'.m20, m'.m21, m'.m22]

inductive EditPre (C : Change F) (E : Env F) : PreDirective F → PreDirective F → Prop
  | identity {p p'} (hp : C.pos p p') : EditPre C E (.Identity p) (.Identity p')
  | translate {p p' v v'} (hp : C.pos p p') (h : EditThree C v v') :
      EditPre C E (.Translate p v) (.Translate p' v')
  | scale {p p' v v'} (hp : C.pos p p') (h : EditThree C v v') : EditPre C E (.Scale p v) (.Scale p' v')
  | rotate {p p' t t' v v'} (hp : C.pos p p') (ht : C.float t t') (h : EditThree C v v') :
      EditPre C E (.Rotate p t v) (.Rotate p' t' v')
  | lookAt {p p' m m'} (hp : C.pos p p') (h : EditNine C m m') : EditPre C E (.LookAt p m) (.LookAt p' m')
  | coordinateSystem {p p' s s'} (hp : C.pos p p') (h : EditStr C E s s') :
      EditPre C E (.CoordinateSystem p s) (.CoordinateSystem p' s')
  | coordSysTransform {p p' s s'} (hp : C.pos p p') (h : EditStr C E s s') :
      EditPre C E (.CoordSysTransform p s) (.CoordSysTransform p' s')
  | transform {p p' m m'} (hp : C.pos p p') (h : EditNine C m m') :
      EditPre C E (.Transform p m) (.Transform p' m')
  | concatTransform {p p' m m'} (hp : C.pos p p') (h : EditNine C m m') :
      EditPre C E (.ConcatTransform p m) (.ConcatTransform p' m')
  | activeTransform {p p'} (hp : C.pos p p') (s) : EditPre C E (.ActiveTransform p s) (.ActiveTransform p' s)
  | transformTimes {p p' a b a' b'} (hp : C.pos p p') (ha : C.float a a') (hb : C.float b b') :
      EditPre C E (.TransformTimes p a b) (.TransformTimes p' a' b')
  | camera {d d'} (h : EditStruct C E d d') : EditPre C E (.Camera d) (.Camera d')
  | sampler {d d'} (h : EditStruct C E d d') : EditPre C E (.Sampler d) (.Sampler d')
  | film {d d'} (h : EditStruct C E d d') : EditPre C E (.Film d) (.Film d')
  | filter {d d'} (h : EditStruct C E d d') : EditPre C E (.Filter d) (.Filter d')
  | integrator {d d'} (h : EditStruct C E d d') : EditPre C E (.Integrator d) (.Integrator d')
  | accelerator {d d'} (h : EditStruct C E d d') : EditPre C E (.Accelerator d) (.Accelerator d')
  | incl {p p' s s'} (hp : C.pos p p') (h : EditStr C E s s') : EditPre C E (.Include p s) (.Include p' s')

/-- The scene before and after -/
def EditScene (C : Change F) (E : Env F) (a b : List (PreDirective F) × Directive F) : Prop :=
  Forall₂ (EditPre C E) a.1 b.1 ∧ EditDir C E a.2 b.2

/-- Two errors of the same kind; the messages may differ. -/
inductive SameKind : ParserError → ParserError → Prop
  | str (m m') : SameKind (.Str m) (.Str m')
  | eof : SameKind .Eof .Eof

/-- Everything may be replaced by everything of its kind. -/
def Change.any : Change F := ⟨fun _ _ => True, fun _ _ => True, fun _ _ => True, fun _ _ => True⟩

/-- One integer and the float it is converted to are replaced; everything else remains except for the
    positions. -/
def Change.oneInt (E : Env F) (i j : Int) : Change F where
  pos _ _ := True
  int a b := a = b ∨ a = i ∧ b = j
  float x y := x = y ∨ x = E.ofIsize i ∧ y = E.ofIsize j
  str a b := a = b

/-- One float is replaced. -/
def Change.oneFloat (x y : F) : Change F where
  pos _ _ := True
  int a b := a = b
  float a b := a = b ∨ a = x ∧ b = y
  str a b := a = b

/-- One string is replaced. -/
def Change.oneStr (s t : String) : Change F where
  pos _ _ := True
  int a b := a = b
  float a b := a = b
  str a b := a = b ∨ a = s ∧ b = t

end Pbrt.Spec
