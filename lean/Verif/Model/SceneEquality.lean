import Verif.Model.Parser
import Verif.Model.Equality

/-!
# `==` on tokens and parse results

Derived `PartialEq` compares the variants, then the fields in the order of their declaration. Two
`Vec`s are equal if they have the same length and equal elements. Two `PathBuf`s are equal if
their components are (`std::path::Components`, on Unix).
-/

namespace Pbrt

/-- `std::path::Component` on Unix -/
inductive PathComponent where
  | RootDir
  | CurDir
  | ParentDir
  | Normal (name : List Char)
deriving DecidableEq

/-- The pieces of a path between its separators -/
def splitPath : List Char → List (List Char)
  | [] => [[]]
  | c :: cs =>
    match splitPath cs with
    | [] => [[]]
    | p :: ps => if c = '/' then [] :: p :: ps else (c :: p) :: ps

/-- `Components::parse_single_component`: empty pieces and single dots are skipped. -/
def singleComponent (piece : List Char) : Option PathComponent :=
  if piece = [] then none
  else if piece = ['.'] then none
  else if piece = ['.', '.'] then some .ParentDir
  else some (.Normal piece)

/-- `Path::components`: the root if the path starts with a separator, otherwise the current
    directory if the first piece is a single dot, then the other pieces. -/
def pathComponents (path : List Char) : List PathComponent :=
  let pieces := splitPath path
  let start :=
    if path.head? = some '/' then [.RootDir]
    else if pieces.head? = some ['.'] then [.CurDir]
    else []
  start ++ pieces.filterMap singleComponent

/-- `==` on `PathBuf` -/
def pathEq (a b : String) : Bool := pathComponents a.toList = pathComponents b.toList

/-- `==` on `Vec` -/
def listEq {α : Type} (eq : α → α → Bool) : List α → List α → Bool
  | [], [] => true
  | a :: as, b :: bs => eq a b && listEq eq as bs
  | _, _ => false

variable {T : Type} [Elem T]

/-- `==` on `Spectrum` (derived, core/mod.rs:123) -/
def spectrumEq : Spectrum T → Spectrum T → Bool
  | .Rgb r g b, .Rgb r' g' b' => Elem.eq r r' && Elem.eq g g' && Elem.eq b b'
  | .Xyz x y z, .Xyz x' y' z' => Elem.eq x x' && Elem.eq y y' && Elem.eq z z'
  | .Spectrum l, .Spectrum l' => listEq (fun a b => Elem.eq a.1 b.1 && Elem.eq a.2 b.2) l l'
  | .File p, .File p' => pathEq p p'
  | .Blackbody t s, .Blackbody t' s' => Elem.eq t t' && Elem.eq s s'
  | _, _ => false

/-- `==` on `Param` (derived, parser.rs:178) -/
def Param.eq {S : Type} (eq : S → S → Bool) (a b : Param S) : Bool :=
  a.name == b.name && a.pos == b.pos && listEq eq a.values b.values

/-- `==` on `ParamSet` (derived, parser.rs:63) -/
def ParamSet.eq (a b : ParamSet T) : Bool :=
  listEq (Param.eq (· == ·)) a.bools b.bools &&
  listEq (Param.eq (· == ·)) a.ints b.ints &&
  listEq (Param.eq Elem.eq) a.floats b.floats &&
  listEq (Param.eq Point2.eq) a.point2fs b.point2fs &&
  listEq (Param.eq Vector2.eq) a.vector2fs b.vector2fs &&
  listEq (Param.eq Point3.eq) a.point3fs b.point3fs &&
  listEq (Param.eq Vector3.eq) a.vector3fs b.vector3fs &&
  listEq (Param.eq Normal3.eq) a.normal3fs b.normal3fs &&
  listEq (Param.eq spectrumEq) a.spectra b.spectra &&
  listEq (Param.eq (· == ·)) a.strings b.strings &&
  listEq (Param.eq (· == ·)) a.textures b.textures

/-- `==` on `DirectiveStruct` (derived, parser.rs:156) -/
def DirectiveStruct.eq (a b : DirectiveStruct T) : Bool :=
  a.ty == b.ty && a.pos == b.pos && a.paramSet.eq b.paramSet

/-- `==` on `TextureStruct` (derived, parser.rs:163) -/
def TextureStruct.eq (a b : TextureStruct T) : Bool :=
  a.name == b.name && a.ty == b.ty && a.cls == b.cls && a.pos == b.pos && a.paramSet.eq b.paramSet

mutual
/-- `==` on `Directive` (derived, parser.rs:143) and `BlockStruct` (derived, parser.rs:172) -/
def Directive.eq : Directive T → Directive T → Bool
  | .Material d, .Material d' => d.eq d'
  | .Shape d, .Shape d' => d.eq d'
  | .LightSource d, .LightSource d' => d.eq d'
  | .AreaLightSource d, .AreaLightSource d' => d.eq d'
  | .Attribute p ds, .Attribute p' ds' => p == p' && Directive.eqs ds ds'
  | .Transform p ds, .Transform p' ds' => p == p' && Directive.eqs ds ds'
  | .World p ds, .World p' ds' => p == p' && Directive.eqs ds ds'
  | .Include p s, .Include p' s' => p == p' && pathEq s s'
  | .Texture t, .Texture t' => t.eq t'
  | _, _ => false
/-- `==` on the `children` of a block -/
def Directive.eqs : List (Directive T) → List (Directive T) → Bool
  | [], [] => true
  | d :: ds, d' :: ds' => d.eq d' && Directive.eqs ds ds'
  | _, _ => false
end

/-- `==` on `PreDirective` (derived, parser.rs:36) -/
def PreDirective.eq : PreDirective T → PreDirective T → Bool
  | .Identity p, .Identity p' => p == p'
  | .Translate p v, .Translate p' v' => p == p' && v.eq v'
  | .Scale p v, .Scale p' v' => p == p' && v.eq v'
  | .Rotate p a v, .Rotate p' a' v' => p == p' && Elem.eq a a' && v.eq v'
  | .LookAt p m, .LookAt p' m' => p == p' && m.eq m'
  | .CoordinateSystem p s, .CoordinateSystem p' s' => p == p' && s == s'
  | .CoordSysTransform p s, .CoordSysTransform p' s' => p == p' && s == s'
  | .Transform p m, .Transform p' m' => p == p' && m.eq m'
  | .ConcatTransform p m, .ConcatTransform p' m' => p == p' && m.eq m'
  | .ActiveTransform p s, .ActiveTransform p' s' => p == p' && s == s'
  | .TransformTimes p a b, .TransformTimes p' a' b' => p == p' && Elem.eq a a' && Elem.eq b b'
  | .Camera d, .Camera d' => d.eq d'
  | .Sampler d, .Sampler d' => d.eq d'
  | .Film d, .Film d' => d.eq d'
  | .Filter d, .Filter d' => d.eq d'
  | .Integrator d, .Integrator d' => d.eq d'
  | .Accelerator d, .Accelerator d' => d.eq d'
  | .Include p s, .Include p' s' => p == p' && pathEq s s'
  | _, _ => false

/-- `==` on the scenes that `Parser::parse` returns (a pair) -/
def sceneEq (a b : List (PreDirective T) × Directive T) : Bool :=
  listEq PreDirective.eq a.1 b.1 && a.2.eq b.2

/-- `==` on `TokenType` (derived, parser.rs:195) -/
def TokenType.eq : TokenType T → TokenType T → Bool
  | .Identifier s, .Identifier s' => s == s'
  | .Int i, .Int i' => i == i'
  | .Float f, .Float f' => Elem.eq f f'
  | .Str s, .Str s' => s == s'
  | .LBracket, .LBracket => true
  | .RBracket, .RBracket => true
  | _, _ => false

/-- `==` on `Token` (derived, parser.rs:24) -/
def Token.eq (a b : Token T) : Bool := a.pos == b.pos && a.ty.eq b.ty

end Pbrt
