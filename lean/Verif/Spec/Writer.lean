import Verif.Spec.Scene

/-!
# Scenes and how they are written

The abstract syntax of a scene as a user writes it, the token values it is written with (`toks`),
and what a reader should make of it (`place`: the scene, with the position of the first token of
every directive and parameter).  Nothing here refers to the parser.
-/

namespace Pbrt.Spec

variable {F : Type}

/-- A written number. -/
inductive Num (F : Type) where
  | int (i : Int)
  | flt (f : F)
deriving DecidableEq

/-- Its token. -/
def Num.tok : Num F → TokenType F
  | .int i => .Int i
  | .flt f => .Float f

/-- Its value as a float. -/
def Num.val (E : Env F) : Num F → F
  | .int i => E.ofIsize i
  | .flt f => f

/-- A parameter value as written: `…1` is a single value without brackets, the others are
    bracketed lists. -/
inductive WVal (F : Type) where
  | int1 (i : Int)
  | ints (l : List Int)
  | float1 (n : Num F)
  | floats (l : List (Num F))
  | point2s (l : List (Num F × Num F))
  | vector2s (l : List (Num F × Num F))
  | bool1 (b : Bool)
  | bools (l : List Bool)
  | string1 (s : String)
  | strings (l : List String)
  | rgb (r g b : Num F)
  | xyz (x y z : Num F)
  | samples (l : List (Num F × Num F))
  | file (s : String)
  | blackbody (t s : Num F)
  | texture (s : String)
deriving DecidableEq

/-- The type it must be declared with. -/
def WVal.ty : WVal F → String
  | .int1 _ | .ints _ => "integer"
  | .float1 _ | .floats _ => "float"
  | .point2s _ => "point2"
  | .vector2s _ => "vector2"
  | .bool1 _ | .bools _ => "bool"
  | .string1 _ | .strings _ => "string"
  | .rgb .. => "rgb"
  | .xyz .. => "xyz"
  | .samples _ | .file _ => "spectrum"
  | .blackbody .. => "blackbody"
  | .texture _ => "texture"

/-- A string token saying `true` or `false`. -/
def boolTok (b : Bool) : TokenType F := .Str (if b then "true" else "false")

/-- A bracketed list. -/
def brackets (l : List (TokenType F)) : List (TokenType F) := .LBracket :: l ++ [.RBracket]

/-- The numbers of a list of pairs. -/
def pairToks (l : List (Num F × Num F)) : List (TokenType F) :=
  l.flatMap fun p => [p.1.tok, p.2.tok]

/-- The tokens of a value. -/
def WVal.toks : WVal F → List (TokenType F)
  | .int1 i => [.Int i]
  | .ints l => brackets (l.map .Int)
  | .float1 n => [n.tok]
  | .floats l => brackets (l.map Num.tok)
  | .point2s l => brackets (pairToks l)
  | .vector2s l => brackets (pairToks l)
  | .bool1 b => [boolTok b]
  | .bools l => brackets (l.map boolTok)
  | .string1 s => [.Str s]
  | .strings l => brackets (l.map .Str)
  | .rgb r g b => brackets [r.tok, g.tok, b.tok]
  | .xyz x y z => brackets [x.tok, y.tok, z.tok]
  | .samples l => brackets (pairToks l)
  | .file s => [.Str s]
  | .blackbody t s => brackets [t.tok, s.tok]
  | .texture s => [.Str s]

/-- What it means. -/
def WVal.mean (E : Env F) : WVal F → PVal F
  | .int1 i => .ints [i]
  | .ints l => .ints l
  | .float1 n => .floats [n.val E]
  | .floats l => .floats (l.map (Num.val E))
  | .point2s l => .point2s (l.map fun p => ⟨p.1.val E, p.2.val E⟩)
  | .vector2s l => .vector2s (l.map fun p => ⟨p.1.val E, p.2.val E⟩)
  | .bool1 b => .bools [b]
  | .bools l => .bools l
  | .string1 s => .strings [s]
  | .strings l => .strings l
  | .rgb r g b => .spectrum (.Rgb (r.val E) (g.val E) (b.val E))
  | .xyz x y z => .spectrum (.Xyz (x.val E) (y.val E) (z.val E))
  | .samples l => .spectrum (.Spectrum (l.map fun p => (p.1.val E, p.2.val E)))
  | .file s => .spectrum (.File s)
  | .blackbody t s => .spectrum (.Blackbody (t.val E) (s.val E))
  | .texture s => .texture s

/-- Lists must not be empty. -/
def WVal.Ok : WVal F → Prop
  | .ints l => l ≠ []
  | .floats l => l ≠ []
  | .point2s l => l ≠ []
  | .vector2s l => l ≠ []
  | .bools l => l ≠ []
  | .strings l => l ≠ []
  | .samples l => l ≠ []
  | _ => True

/-- A parameter as written: the declaration string, e.g. `"float radius"`, and the value. -/
structure WParam (F : Type) where
  decl : String
  name : String
  val : WVal F

/-- The declaration says the type and the name. -/
def WParam.Ok (E : Env F) (p : WParam F) : Prop := TwoWords E p.decl p.val.ty p.name ∧ p.val.Ok

/-- The tokens of a parameter. -/
def WParam.toks (p : WParam F) : List (TokenType F) := .Str p.decl :: p.val.toks

/-- The first position of a list. -/
def at0 (q : List Pos) : Pos := q.headD ⟨0, 0⟩

/-- The parameter, written at the positions `q`. -/
def WParam.place (E : Env F) (p : WParam F) (q : List Pos) : SParam F :=
  ⟨at0 q, p.name, p.val.mean E⟩

/-- A sequence of parameters, written at the positions `q`. -/
def placeParams (E : Env F) : List (WParam F) → List Pos → List (SParam F)
  | [], _ => []
  | p :: ps, q => p.place E q :: placeParams E ps (q.drop p.toks.length)

/-! ### Directives of the world -/

/-- The directives with a type string and parameters. -/
inductive DirKey where
  | Material
  | Shape
  | LightSource
  | AreaLightSource
deriving DecidableEq

/-- The keyword. -/
def DirKey.word : DirKey → String
  | .Material => "Material"
  | .Shape => "Shape"
  | .LightSource => "LightSource"
  | .AreaLightSource => "AreaLightSource"

/-- The result. -/
def DirKey.mk : DirKey → DirectiveStruct F → Directive F
  | .Material => .Material
  | .Shape => .Shape
  | .LightSource => .LightSource
  | .AreaLightSource => .AreaLightSource

/-- The three kinds of block. -/
inductive BlockKey where
  | Attribute
  | Transform
  | World
deriving DecidableEq

/-- The opening keyword. -/
def BlockKey.open : BlockKey → String
  | .Attribute => "AttributeBegin"
  | .Transform => "TransformBegin"
  | .World => "WorldBegin"

/-- The closing keyword. -/
def BlockKey.close : BlockKey → String
  | .Attribute => "AttributeEnd"
  | .Transform => "TransformEnd"
  | .World => "WorldEnd"

/-- The result. -/
def BlockKey.mk : BlockKey → Pos → List (Directive F) → Directive F
  | .Attribute => .Attribute
  | .Transform => .Transform
  | .World => .World

/-- A directive of the world as written. -/
inductive WDir (F : Type) where
  | typed (k : DirKey) (ty : String) (ps : List (WParam F))
  | texture (name ty cls : String) (ps : List (WParam F))
  | incl (path : String)
  | block (k : BlockKey) (children : List (WDir F))

mutual
/-- The tokens of a directive; a block ends with the end keyword of its kind. -/
def WDir.toks : WDir F → List (TokenType F)
  | .typed k ty ps => .Identifier k.word :: .Str ty :: ps.flatMap WParam.toks
  | .texture name ty cls ps =>
    .Identifier "Texture" :: .Str name :: .Str ty :: .Str cls :: ps.flatMap WParam.toks
  | .incl path => [.Identifier "Include", .Str path]
  | .block k ds => .Identifier k.open :: (WDir.toksAll ds ++ [.Identifier k.close])
/-- The tokens of a list of directives. -/
def WDir.toksAll : List (WDir F) → List (TokenType F)
  | [] => []
  | d :: ds => d.toks ++ WDir.toksAll ds
end

mutual
/-- The directive, written at the positions `q`. -/
def WDir.place (E : Env F) : WDir F → List Pos → Directive F
  | .typed k ty ps, q => k.mk ⟨ty, at0 q, collect (placeParams E ps (q.drop 2))⟩
  | .texture name ty cls ps, q =>
    .Texture ⟨name, ty, cls, at0 q, collect (placeParams E ps (q.drop 4))⟩
  | .incl path, q => .Include (at0 q) path
  | .block k ds, q => k.mk (at0 q) (WDir.placeAll E ds (q.drop 1))
/-- A list of directives, written at the positions `q`. -/
def WDir.placeAll (E : Env F) : List (WDir F) → List Pos → List (Directive F)
  | [], _ => []
  | d :: ds, q => d.place E q :: WDir.placeAll E ds (q.drop d.toks.length)
end

/-- Is it a block? -/
def WDir.isBlock : WDir F → Bool
  | .block .. => true
  | _ => false

mutual
/-- All parameters are well-formed. -/
def WDir.Ok (E : Env F) : WDir F → Prop
  | .typed _ _ ps => ∀ p ∈ ps, p.Ok E
  | .texture _ _ _ ps => ∀ p ∈ ps, p.Ok E
  | .incl _ => True
  | .block _ ds => WDir.OkAll E ds
/-- All parameters are well-formed. -/
def WDir.OkAll (E : Env F) : List (WDir F) → Prop
  | [] => True
  | d :: ds => d.Ok E ∧ WDir.OkAll E ds
end

mutual
/-- In every block, remove everything after its first nested block. -/
def WDir.trunc : WDir F → WDir F
  | .typed k ty ps => .typed k ty ps
  | .texture name ty cls ps => .texture name ty cls ps
  | .incl path => .incl path
  | .block k ds => .block k (WDir.truncAll ds)
/-- Remove everything after the first nested block of a list. -/
def WDir.truncAll : List (WDir F) → List (WDir F)
  | [] => []
  | d :: ds => if d.isBlock then [d.trunc] else d :: WDir.truncAll ds
end

mutual
/-- In every block, a nested block is the last child. -/
def WDir.BlocksLast : WDir F → Prop
  | .block _ ds => WDir.BlocksLastAll ds
  | _ => True
/-- Only the last element is a block. -/
def WDir.BlocksLastAll : List (WDir F) → Prop
  | [] => True
  | d :: ds => (d.isBlock = true → ds = []) ∧ d.BlocksLast ∧ WDir.BlocksLastAll ds
end

/-! ### Pre-world directives -/

/-- The pre-world directives with a type string and parameters. -/
inductive PreKey where
  | Camera
  | Sampler
  | Film
  | Filter
  | Integrator
  | Accelerator
deriving DecidableEq

/-- The keyword. -/
def PreKey.word : PreKey → String
  | .Camera => "Camera"
  | .Sampler => "Sampler"
  | .Film => "Film"
  | .Filter => "Filter"
  | .Integrator => "Integrator"
  | .Accelerator => "Accelerator"

/-- The result. -/
def PreKey.mk : PreKey → DirectiveStruct F → PreDirective F
  | .Camera => .Camera
  | .Sampler => .Sampler
  | .Film => .Film
  | .Filter => .Filter
  | .Integrator => .Integrator
  | .Accelerator => .Accelerator

/-- Nine numbers, row by row. -/
abbrev Mat (F : Type) := Matrix3f (Num F)

/-- The tokens of nine numbers. -/
def matToks (m : Mat F) : List (TokenType F) :=
  [m.m00.tok, m.m01.tok, m.m02.tok, m.m10.tok, m.m11.tok, m.m12.tok, m.m20.tok, m.m21.tok,
   m.m22.tok]

/-- The values of nine numbers. -/
def matVal (E : Env F) (m : Mat F) : Matrix3f F :=
  ⟨m.m00.val E, m.m01.val E, m.m02.val E, m.m10.val E, m.m11.val E, m.m12.val E, m.m20.val E,
   m.m21.val E, m.m22.val E⟩

/-- A pre-world directive as written. -/
inductive WPre (F : Type) where
  | identity
  | translate (x y z : Num F)
  | scale (x y z : Num F)
  | rotate (t x y z : Num F)
  | lookAt (m : Mat F)
  | coordinateSystem (s : String)
  | coordSysTransform (s : String)
  | transform (m : Mat F)
  | concatTransform (m : Mat F)
  | activeTransform (s : String)
  | transformTimes (a b : Num F)
  | typed (k : PreKey) (ty : String) (ps : List (WParam F))
  | incl (path : String)

/-- The tokens of a pre-world directive. -/
def WPre.toks : WPre F → List (TokenType F)
  | .identity => [.Identifier "Identity"]
  | .translate x y z => [.Identifier "Translate", x.tok, y.tok, z.tok]
  | .scale x y z => [.Identifier "Scale", x.tok, y.tok, z.tok]
  | .rotate t x y z => [.Identifier "Rotate", t.tok, x.tok, y.tok, z.tok]
  | .lookAt m => .Identifier "LookAt" :: matToks m
  | .coordinateSystem s => [.Identifier "CoordinateSystem", .Str s]
  | .coordSysTransform s => [.Identifier "CoordSysTransform", .Str s]
  | .transform m => .Identifier "Transform" :: matToks m
  | .concatTransform m => .Identifier "ConcatTransform" :: matToks m
  | .activeTransform s => [.Identifier "ActiveTransform", .Identifier s]
  | .transformTimes a b => [.Identifier "TransformTimes", a.tok, b.tok]
  | .typed k ty ps => .Identifier k.word :: .Str ty :: ps.flatMap WParam.toks
  | .incl path => [.Identifier "Include", .Str path]

/-- All parameters are well-formed. -/
def WPre.Ok (E : Env F) : WPre F → Prop
  | .typed _ _ ps => ∀ p ∈ ps, p.Ok E
  | _ => True

/-- The directive, written at the positions `q`. -/
def WPre.place (E : Env F) : WPre F → List Pos → PreDirective F
  | .identity, q => .Identity (at0 q)
  | .translate x y z, q => .Translate (at0 q) ⟨x.val E, y.val E, z.val E⟩
  | .scale x y z, q => .Scale (at0 q) ⟨x.val E, y.val E, z.val E⟩
  | .rotate t x y z, q => .Rotate (at0 q) (t.val E) ⟨x.val E, y.val E, z.val E⟩
  | .lookAt m, q => .LookAt (at0 q) (matVal E m)
  | .coordinateSystem s, q => .CoordinateSystem (at0 q) s
  | .coordSysTransform s, q => .CoordSysTransform (at0 q) s
  | .transform m, q => .Transform (at0 q) (matVal E m)
  | .concatTransform m, q => .ConcatTransform (at0 q) (matVal E m)
  | .activeTransform s, q => .ActiveTransform (at0 q) s
  | .transformTimes a b, q => .TransformTimes (at0 q) (a.val E) (b.val E)
  | .typed k ty ps, q => k.mk ⟨ty, at0 q, collect (placeParams E ps (q.drop 2))⟩
  | .incl path, q => .Include (at0 q) path

/-- A list of pre-world directives, written at the positions `q`. -/
def WPre.placeAll (E : Env F) : List (WPre F) → List Pos → List (PreDirective F)
  | [], _ => []
  | d :: ds, q => d.place E q :: WPre.placeAll E ds (q.drop d.toks.length)

/-! ### Scenes -/

/-- A scene as written. -/
structure WScene (F : Type) where
  pre : List (WPre F)
  world : List (WDir F)

/-- The tokens of a scene. -/
def WScene.toks (s : WScene F) : List (TokenType F) :=
  s.pre.flatMap WPre.toks ++ (WDir.block .World s.world).toks

/-- All parameters are well-formed. -/
def WScene.Ok (E : Env F) (s : WScene F) : Prop := (∀ d ∈ s.pre, d.Ok E) ∧ WDir.OkAll E s.world

/-- What a reader should return for the scene written at the positions `q`. -/
def WScene.place (E : Env F) (s : WScene F) (q : List Pos) :
    List (PreDirective F) × Directive F :=
  (WPre.placeAll E s.pre q,
   (WDir.block .World s.world).place E (q.drop (s.pre.flatMap WPre.toks).length))

/-- The scene without what the code loses. -/
def WScene.trunc (s : WScene F) : WScene F := ⟨s.pre, WDir.truncAll s.world⟩

/-- In every block of the scene, a nested block is the last child. -/
def WScene.BlocksLast (s : WScene F) : Prop := WDir.BlocksLastAll s.world

end Pbrt.Spec
