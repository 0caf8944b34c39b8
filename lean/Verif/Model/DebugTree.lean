import Verif.Model.Debug
import Verif.Model.Transform

/-!
# Derived `Debug`

Nearly every type of the program derives `Debug`; `src/bin/pbrt.rs:20` prints a matrix with `{:#?}`, and
failing tests print scenes. A derived `fmt` hands the name of the variant and its fields to the builders of
`core::fmt` (`DebugStruct`, `DebugTuple`, `DebugList`), which write them in one line (`{:?}`) or with one
field per line (`{:#?}`).

Simplification: what is handed to the builders is first made into a tree. How floats, strings and paths are
shown is a parameter; so is the comma behind the last field of `{:#?}`, which older versions of the library
do not write.
-/

namespace Pbrt

/-- The builders `debug_struct`, `debug_tuple` and `debug_list` -/
inductive Builder where
  | struct
  | tuple
  | list
deriving DecidableEq

/-- What a derived `fmt` hands to the builders -/
inductive DTree where
  /-- a text without further structure -/
  | leaf (text : List Char)
  /-- a field with its name -/
  | field (name : List Char) (value : DTree)
  /-- a variant, a tuple or a list -/
  | node (b : Builder) (name : List Char) (items : List DTree)

/-- Texts with a separator between them -/
def sepBy (sep : List Char) : List (List Char) → List Char
  | [] => []
  | [x] => x
  | x :: y :: xs => x ++ sep ++ sepBy sep (y :: xs)

/-- What a builder writes without any items -/
def Builder.empty : Builder → List Char
  | .list => "[]".toList
  | _ => []

/-- `{:?}`: what a builder writes around and between the items -/
def Builder.flat (b : Builder) (items : List (List Char)) : List Char :=
  if items = [] then b.empty
  else match b with
    | .struct => " { ".toList ++ sepBy ", ".toList items ++ " }".toList
    | .tuple => "(".toList ++ sepBy ", ".toList items ++ ")".toList
    | .list => "[".toList ++ sepBy ", ".toList items ++ "]".toList

/-- `PadAdapter`: four blanks at the start of every line; `start` says whether the next character starts one. -/
def padAdapter (start : Bool) : List Char → List Char
  | [] => []
  | c :: cs => (if start then "    ".toList else []) ++ c :: padAdapter (c == '\n') cs

/-- The items with what ends their lines -/
def endLines (trailing : Bool) : List (List Char) → List (List Char)
  | [] => []
  | [x] => [x ++ (if trailing then ",\n".toList else "\n".toList)]
  | x :: y :: xs => (x ++ ",\n".toList) :: endLines trailing (y :: xs)

/-- `{:#?}`: what a builder writes around and between the items -/
def Builder.pretty (trailing : Bool) (b : Builder) (items : List (List Char)) : List Char :=
  if items = [] then b.empty
  else
    let body := (endLines trailing items).flatMap (padAdapter true)
    match b with
    | .struct => " {\n".toList ++ body ++ "}".toList
    | .tuple => "(\n".toList ++ body ++ ")".toList
    | .list => "[\n".toList ++ body ++ "]".toList

mutual
/-- `{:?}` -/
def DTree.flat : DTree → List Char
  | .leaf text => text
  | .field name value => name ++ ": ".toList ++ value.flat
  | .node b name items => name ++ b.flat (DTree.flats items)
/-- `{:?}` of the items -/
def DTree.flats : List DTree → List (List Char)
  | [] => []
  | t :: ts => t.flat :: DTree.flats ts
end

mutual
/-- `{:#?}` -/
def DTree.pretty (trailing : Bool) : DTree → List Char
  | .leaf text => text
  | .field name value => name ++ ": ".toList ++ value.pretty trailing
  | .node b name items => name ++ b.pretty trailing (DTree.pretties trailing items)
/-- `{:#?}` of the items -/
def DTree.pretties (trailing : Bool) : List DTree → List (List Char)
  | [] => []
  | t :: ts => t.pretty trailing :: DTree.pretties trailing ts
end

/-- How the standard library shows floats, strings and paths -/
structure DebugLeaves (F : Type) where
  float : F → String
  str : String → String
  path : String → String

/-- A struct -/
def dStruct (name : String) (fields : List (String × DTree)) : DTree :=
  .node .struct name.toList (fields.map fun f => .field f.1.toList f.2)
/-- A variant with fields -/
def dVariant (name : String) (items : List DTree) : DTree := .node .tuple name.toList items
/-- A tuple -/
def dTuple (items : List DTree) : DTree := .node .tuple [] items
/-- A `Vec` or an array -/
def dList (items : List DTree) : DTree := .node .list [] items
/-- A text -/
def dText (s : String) : DTree := .leaf s.toList

section
variable {F : Type} (L : DebugLeaves F)

/-- `usize` -/
def natTree (n : Nat) : DTree := dText (toString n)

/-- `isize` -/
def intTree (i : Int) : DTree := dText (toString i)

/-- parser.rs:6 `Pos` -/
def Pos.tree (p : Pos) : DTree := dStruct "Pos" [("r", natTree p.r), ("c", natTree p.c)]

/-- `bool` -/
def boolTree (b : Bool) : DTree := dText (if b then "true" else "false")

/-- vector.rs:5 `Vector2` -/
def Vector2.tree (v : Vector2 F) : DTree := dStruct "Vector2" [("x", dText (L.float v.x)), ("y", dText (L.float v.y))]
/-- vector.rs:40 `Vector3` -/
def Vector3.tree (v : Vector3 F) : DTree :=
  dStruct "Vector3" [("x", dText (L.float v.x)), ("y", dText (L.float v.y)), ("z", dText (L.float v.z))]
/-- point.rs:5 `Point2` -/
def Point2.tree (v : Point2 F) : DTree := dStruct "Point2" [("x", dText (L.float v.x)), ("y", dText (L.float v.y))]
/-- point.rs:21 `Point3` -/
def Point3.tree (v : Point3 F) : DTree :=
  dStruct "Point3" [("x", dText (L.float v.x)), ("y", dText (L.float v.y)), ("z", dText (L.float v.z))]
/-- normal.rs:4 `Normal3` -/
def Normal3.tree (v : Normal3 F) : DTree :=
  dStruct "Normal3" [("x", dText (L.float v.x)), ("y", dText (L.float v.y)), ("z", dText (L.float v.z))]

/-- matrix.rs:4 `Matrix3` -/
def Matrix3.tree (a : Matrix3 F) : DTree :=
  dStruct "Matrix3" [("mat", dList [
    dList [dText (L.float a.m00), dText (L.float a.m01), dText (L.float a.m02)],
    dList [dText (L.float a.m10), dText (L.float a.m11), dText (L.float a.m12)],
    dList [dText (L.float a.m20), dText (L.float a.m21), dText (L.float a.m22)]])]

/-- A row of a `Matrix4` -/
def Matrix4.rowTree (a : Matrix4 F) (r : Fin 4) : DTree :=
  dList [dText (L.float (a.mat r 0)), dText (L.float (a.mat r 1)), dText (L.float (a.mat r 2)), dText (L.float (a.mat r 3))]

/-- matrix.rs:9 `Matrix4` -/
def Matrix4.tree (a : Matrix4 F) : DTree :=
  dStruct "Matrix4" [("mat", dList [a.rowTree L 0, a.rowTree L 1, a.rowTree L 2, a.rowTree L 3])]

/-- transform.rs:3 `Transform` -/
def Transform.tree (t : Transform F) : DTree := dStruct "Transform" [("m", t.m.tree L), ("m_inv", t.mInv.tree L)]

/-- mod.rs:123 `Spectrum` -/
def Spectrum.tree : Pbrt.Spectrum F → DTree
  | .Rgb r g b => dVariant "Rgb" [dText (L.float r), dText (L.float g), dText (L.float b)]
  | .Xyz x y z => dVariant "Xyz" [dText (L.float x), dText (L.float y), dText (L.float z)]
  | .Spectrum l => dVariant "Spectrum" [dList (l.map fun p => dTuple [dText (L.float p.1), dText (L.float p.2)])]
  | .File path => dVariant "File" [dText (L.path path)]
  | .Blackbody t s => dVariant "Blackbody" [dText (L.float t), dText (L.float s)]

/-- parser.rs:195 `TokenType` -/
def TokenType.tree : TokenType F → DTree
  | .Identifier s => dVariant "Identifier" [dText (L.str s)]
  | .Int i => dVariant "Int" [intTree i]
  | .Float f => dVariant "Float" [dText (L.float f)]
  | .Str s => dVariant "Str" [dText (L.str s)]
  | .LBracket => dText "LBracket"
  | .RBracket => dText "RBracket"

/-- parser.rs:24 `Token` -/
def Token.tree (t : Token F) : DTree := dStruct "Token" [("pos", t.pos.tree), ("ty", t.ty.tree L)]

/-- parser.rs:227 `ParserError` -/
def ParserError.tree : ParserError → DTree
  | .Str s => dVariant "Str" [dText (L.str s)]
  | .Eof => dText "Eof"

/-- parser.rs:178 `Param` -/
def Param.tree {S : Type} (value : S → DTree) (p : Param S) : DTree :=
  dStruct "Param" [("name", dText (L.str p.name)), ("pos", p.pos.tree), ("values", dList (p.values.map value))]

/-- parser.rs:63 `ParamSet` -/
def ParamSet.tree (p : ParamSet F) : DTree :=
  dStruct "ParamSet" [
    ("bools", dList (p.bools.map (Param.tree L boolTree))),
    ("ints", dList (p.ints.map (Param.tree L intTree))),
    ("floats", dList (p.floats.map (Param.tree L fun f => dText (L.float f)))),
    ("point2fs", dList (p.point2fs.map (Param.tree L (Point2.tree L)))),
    ("vector2fs", dList (p.vector2fs.map (Param.tree L (Vector2.tree L)))),
    ("point3fs", dList (p.point3fs.map (Param.tree L (Point3.tree L)))),
    ("vector3fs", dList (p.vector3fs.map (Param.tree L (Vector3.tree L)))),
    ("normal3fs", dList (p.normal3fs.map (Param.tree L (Normal3.tree L)))),
    ("spectra", dList (p.spectra.map (Param.tree L (Spectrum.tree L)))),
    ("strings", dList (p.strings.map (Param.tree L fun s => dText (L.str s)))),
    ("textures", dList (p.textures.map (Param.tree L fun s => dText (L.str s))))]

/-- parser.rs:156 `DirectiveStruct` -/
def DirectiveStruct.tree (d : DirectiveStruct F) : DTree :=
  dStruct "DirectiveStruct" [("ty", dText (L.str d.ty)), ("pos", d.pos.tree), ("param_set", d.paramSet.tree L)]

/-- parser.rs:163 `TextureStruct` -/
def TextureStruct.tree (t : TextureStruct F) : DTree :=
  dStruct "TextureStruct" [("name", dText (L.str t.name)), ("ty", dText (L.str t.ty)), ("class", dText (L.str t.cls)),
    ("pos", t.pos.tree), ("param_set", t.paramSet.tree L)]

mutual
/-- parser.rs:143 `Directive`, 172 `BlockStruct` -/
def Directive.tree : Directive F → DTree
  | .Material d => dVariant "Material" [d.tree L]
  | .Shape d => dVariant "Shape" [d.tree L]
  | .LightSource d => dVariant "LightSource" [d.tree L]
  | .AreaLightSource d => dVariant "AreaLightSource" [d.tree L]
  | .Attribute p ds => dVariant "Attribute" [dStruct "BlockStruct" [("pos", p.tree), ("children", dList (Directive.trees ds))]]
  | .Transform p ds => dVariant "Transform" [dStruct "BlockStruct" [("pos", p.tree), ("children", dList (Directive.trees ds))]]
  | .World p ds => dVariant "World" [dStruct "BlockStruct" [("pos", p.tree), ("children", dList (Directive.trees ds))]]
  | .Include p s => dVariant "Include" [p.tree, dText (L.path s)]
  | .Texture t => dVariant "Texture" [t.tree L]
/-- The children of a block -/
def Directive.trees : List (Directive F) → List DTree
  | [] => []
  | d :: ds => d.tree :: Directive.trees ds
end

/-- parser.rs:36 `PreDirective` -/
def PreDirective.tree : PreDirective F → DTree
  | .Identity p => dVariant "Identity" [p.tree]
  | .Translate p v => dVariant "Translate" [p.tree, v.tree L]
  | .Scale p v => dVariant "Scale" [p.tree, v.tree L]
  | .Rotate p a v => dVariant "Rotate" [p.tree, dText (L.float a), v.tree L]
  | .LookAt p m => dVariant "LookAt" [p.tree, m.tree L]
  | .CoordinateSystem p s => dVariant "CoordinateSystem" [p.tree, dText (L.str s)]
  | .CoordSysTransform p s => dVariant "CoordSysTransform" [p.tree, dText (L.str s)]
  | .Transform p m => dVariant "Transform" [p.tree, m.tree L]
  | .ConcatTransform p m => dVariant "ConcatTransform" [p.tree, m.tree L]
  | .ActiveTransform p s => dVariant "ActiveTransform" [p.tree, dText (L.str s)]
  | .TransformTimes p a b => dVariant "TransformTimes" [p.tree, dText (L.float a), dText (L.float b)]
  | .Camera d => dVariant "Camera" [d.tree L]
  | .Sampler d => dVariant "Sampler" [d.tree L]
  | .Film d => dVariant "Film" [d.tree L]
  | .Filter d => dVariant "Filter" [d.tree L]
  | .Integrator d => dVariant "Integrator" [d.tree L]
  | .Accelerator d => dVariant "Accelerator" [d.tree L]
  | .Include p s => dVariant "Include" [p.tree, dText (L.path s)]

/-- The pair that `Parser::parse` returns -/
def sceneTree (r : List (PreDirective F) × Directive F) : DTree :=
  dTuple [dList (r.1.map (PreDirective.tree L)), r.2.tree L]

end

end Pbrt
