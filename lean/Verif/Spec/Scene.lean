import Verif.Model.Parser

/-!
# Specification of the scene language on tokens

A grammar of the token sequences the parser accepts and of what they mean, written without any
function of the parser model (only its result types are used).  Where the grammar has rules a
user does not expect (unfinished parameters, block ends), that is how the code behaves; see the
findings in DESIGN.md.
-/

namespace Pbrt.Spec

variable {F : Type}

/-! ### Values -/

/-- Concatenation of items, each spanning some tokens. -/
inductive Many {α τ : Type} (R : List τ → α → Prop) : List τ → List α → Prop
  | nil : Many R [] []
  | cons (a b : List τ) (x : α) (xs : List α) (h : R a x) (hs : Many R b xs) :
      Many R (a ++ b) (x :: xs)

/-- One integer token. -/
def IntTok (ts : List (Token F)) (i : Int) : Prop := ∃ p, ts = [⟨p, .Int i⟩]

/-- One number token, seen as a float: an integer is converted. -/
def NumTok (E : Env F) (ts : List (Token F)) (f : F) : Prop :=
  ∃ p, ts = [⟨p, .Float f⟩] ∨ ∃ i, ts = [⟨p, .Int i⟩] ∧ f = E.ofIsize i

/-- One string token. -/
def StrTok (ts : List (Token F)) (s : String) : Prop := ∃ p, ts = [⟨p, .Str s⟩]

/-- One string token that says `true` or `false`. -/
def BoolTok (ts : List (Token F)) (b : Bool) : Prop :=
  ∃ p, ts = [⟨p, .Str (if b then "true" else "false")⟩]

/-- Two number tokens. -/
def PointTok (E : Env F) (ts : List (Token F)) (p : Point2f F) : Prop :=
  ∃ a b, ts = a ++ b ∧ NumTok E a p.x ∧ NumTok E b p.y

/-- Two number tokens. -/
def VectorTok (E : Env F) (ts : List (Token F)) (p : Vector2f F) : Prop :=
  ∃ a b, ts = a ++ b ∧ NumTok E a p.x ∧ NumTok E b p.y

/-- A non-empty bracketed list. -/
def Bracketed {α : Type} (R : List (Token F) → α → Prop) (ts : List (Token F)) (xs : List α) :
    Prop :=
  xs ≠ [] ∧ ∃ p q vs, ts = ⟨p, .LBracket⟩ :: vs ++ [⟨q, .RBracket⟩] ∧ Many R vs xs

/-- One value without brackets, or a non-empty bracketed list. -/
def OneOrList {α : Type} (R : List (Token F) → α → Prop) (ts : List (Token F)) (xs : List α) :
    Prop :=
  (∃ x, R ts x ∧ xs = [x]) ∨ Bracketed R ts xs

/-! ### Parameters -/

/-- `s` consists of exactly two words. -/
def TwoWords (E : Env F) (s ty name : String) : Prop :=
  ∃ a b c : List Char, s.toList = a ++ ty.toList ++ b ++ name.toList ++ c ∧
    (∀ x ∈ a ++ b ++ c, E.isWhitespace x = true) ∧ b ≠ [] ∧
    ty.toList ≠ [] ∧ name.toList ≠ [] ∧
    (∀ x ∈ ty.toList ++ name.toList, E.isWhitespace x = false)

/-- A parameter's values, by type. -/
inductive PVal (F : Type) where
  | ints (l : List Int)
  | floats (l : List F)
  | point2s (l : List (Point2f F))
  | vector2s (l : List (Vector2f F))
  | bools (l : List Bool)
  | strings (l : List String)
  | spectrum (s : Spectrum F)
  | texture (s : String)

/-- A parameter: where it is declared, its name, its values. -/
structure SParam (F : Type) where
  pos : Pos
  name : String
  val : PVal F

/-- `PairsOf l ps`: the numbers of `l`, taken two by two, are the pairs `ps`. -/
def PairsOf (l : List F) (ps : List (F × F)) : Prop := l = ps.flatMap fun p => [p.1, p.2]

/-- `ValText E ty ts v`: the tokens `ts` are a well-formed value of declared type `ty`. -/
inductive ValText (E : Env F) : String → List (Token F) → PVal F → Prop
  | ints (ts l) (h : OneOrList IntTok ts l) : ValText E "integer" ts (.ints l)
  | floats (ts l) (h : OneOrList (NumTok E) ts l) : ValText E "float" ts (.floats l)
  | point2s (ts l) (h : Bracketed (PointTok E) ts l) : ValText E "point2" ts (.point2s l)
  | vector2s (ts l) (h : Bracketed (VectorTok E) ts l) : ValText E "vector2" ts (.vector2s l)
  | bools (ts l) (h : OneOrList BoolTok ts l) : ValText E "bool" ts (.bools l)
  | strings (ts l) (h : OneOrList StrTok ts l) : ValText E "string" ts (.strings l)
  | rgb (ts r g b) (h : Bracketed (NumTok E) ts [r, g, b]) :
      ValText E "rgb" ts (.spectrum (.Rgb r g b))
  | xyz (ts x y z) (h : Bracketed (NumTok E) ts [x, y, z]) :
      ValText E "xyz" ts (.spectrum (.Xyz x y z))
  | samples (ts l ps) (h : Bracketed (NumTok E) ts l) (hp : PairsOf l ps) :
      ValText E "spectrum" ts (.spectrum (.Spectrum ps))
  | file (ts s) (h : StrTok ts s) : ValText E "spectrum" ts (.spectrum (.File s))
  | blackbody (ts t s) (h : Bracketed (NumTok E) ts [t, s]) :
      ValText E "blackbody" ts (.spectrum (.Blackbody t s))
  | texture (ts s) (h : StrTok ts s) : ValText E "texture" ts (.texture s)

/-- A well-formed parameter: a declaration string and a value. -/
def ParamText (E : Env F) (ts : List (Token F)) (p : SParam F) : Prop :=
  ∃ decl ty vs, ts = ⟨p.pos, .Str decl⟩ :: vs ∧ TwoWords E decl ty p.name ∧ ValText E ty vs p.val

/-- The eleven parameter types. -/
def paramTypes : List String :=
  ["integer", "float", "point2", "vector2", "bool", "string", "rgb", "xyz", "spectrum",
   "blackbody", "texture"]

/-- `Unclosed E ty vs`: values of a list of type `ty` that is not closed: for the types of
    variable length any number of elements, for the others none or all of them. -/
inductive Unclosed (E : Env F) : String → List (Token F) → Prop
  | ints (vs l) (h : Many IntTok vs l) : Unclosed E "integer" vs
  | floats (vs l) (h : Many (NumTok E) vs l) : Unclosed E "float" vs
  | point2s (vs l) (h : Many (PointTok E) vs l) : Unclosed E "point2" vs
  | vector2s (vs l) (h : Many (VectorTok E) vs l) : Unclosed E "vector2" vs
  | bools (vs l) (h : Many BoolTok vs l) : Unclosed E "bool" vs
  | strings (vs l) (h : Many StrTok vs l) : Unclosed E "string" vs
  | samples (vs l) (h : Many (NumTok E) vs l) : Unclosed E "spectrum" vs
  | fixedNone (ty) (h : ty ∈ ["rgb", "xyz", "blackbody"]) : Unclosed E ty []
  | rgb (vs r g b) (h : Many (NumTok E) vs [r, g, b]) : Unclosed E "rgb" vs
  | xyz (vs r g b) (h : Many (NumTok E) vs [r, g, b]) : Unclosed E "xyz" vs
  | blackbody (vs t s) (h : Many (NumTok E) vs [t, s]) : Unclosed E "blackbody" vs

/-- A parameter the parser silently drops if a directive keyword or a block end follows: nothing
    at all, a declaration without value, a list that is not closed, or a sampled spectrum of odd
    length. -/
inductive Dropped (E : Env F) : List (Token F) → Prop
  | none : Dropped E []
  | noValue (p decl ty name) (hd : TwoWords E decl ty name) (ht : ty ∈ paramTypes) :
      Dropped E [⟨p, .Str decl⟩]
  | unclosed (p q decl ty name vs) (hd : TwoWords E decl ty name) (hv : Unclosed E ty vs) :
      Dropped E (⟨p, .Str decl⟩ :: ⟨q, .LBracket⟩ :: vs)
  | oddSpectrum (p decl name vs l) (hd : TwoWords E decl "spectrum" name)
      (hv : Bracketed (NumTok E) vs l) (hl : l.length % 2 = 1) :
      Dropped E (⟨p, .Str decl⟩ :: vs)

/-- The parameters of a directive: well-formed ones, then possibly a dropped one. -/
def ParamsText (E : Env F) (ts : List (Token F)) (ps : List (SParam F)) : Prop :=
  ∃ a d, ts = a ++ d ∧ Many (ParamText E) a ps ∧ Dropped E d

/-- What a directive stores: the parameters sorted into one list per type, each list in text
    order. -/
def collect (ps : List (SParam F)) : ParamSet F where
  bools := ps.filterMap fun p => match p.val with | .bools l => some ⟨p.name, p.pos, l⟩ | _ => none
  ints := ps.filterMap fun p => match p.val with | .ints l => some ⟨p.name, p.pos, l⟩ | _ => none
  floats := ps.filterMap fun p =>
    match p.val with | .floats l => some ⟨p.name, p.pos, l⟩ | _ => none
  point2fs := ps.filterMap fun p =>
    match p.val with | .point2s l => some ⟨p.name, p.pos, l⟩ | _ => none
  vector2fs := ps.filterMap fun p =>
    match p.val with | .vector2s l => some ⟨p.name, p.pos, l⟩ | _ => none
  point3fs := []
  vector3fs := []
  normal3fs := []
  spectra := ps.filterMap fun p =>
    match p.val with | .spectrum s => some ⟨p.name, p.pos, [s]⟩ | _ => none
  strings := ps.filterMap fun p =>
    match p.val with | .strings l => some ⟨p.name, p.pos, l⟩ | _ => none
  textures := ps.filterMap fun p =>
    match p.val with | .texture s => some ⟨p.name, p.pos, [s]⟩ | _ => none

/-! ### Pre-world directives -/

/-- A keyword token. -/
def kw (p : Pos) (s : String) : Token F := ⟨p, .Identifier s⟩

/-- Is the token an identifier? -/
def IsId (t : Token F) : Prop := ∃ p s, t = kw p s

/-- The tokens left start with an identifier, or there are none. -/
def Stop (ts : List (Token F)) : Prop := ∀ t, ts.head? = some t → IsId t

/-- A directive made of a keyword, a type string and parameters. -/
def Typed (E : Env F) (key : String) (ts : List (Token F)) (d : DirectiveStruct F) : Prop :=
  ∃ q rest ps, ts = kw d.pos key :: ⟨q, .Str d.ty⟩ :: rest ∧ ParamsText E rest ps ∧
    d.paramSet = collect ps

/-- The pre-world directives. -/
inductive PreText (E : Env F) : List (Token F) → PreDirective F → Prop
  | identity (p) : PreText E [kw p "Identity"] (.Identity p)
  | translate (p ts x y z) (h : Many (NumTok E) ts [x, y, z]) :
      PreText E (kw p "Translate" :: ts) (.Translate p ⟨x, y, z⟩)
  | scale (p ts x y z) (h : Many (NumTok E) ts [x, y, z]) :
      PreText E (kw p "Scale" :: ts) (.Scale p ⟨x, y, z⟩)
  | rotate (p ts t x y z) (h : Many (NumTok E) ts [t, x, y, z]) :
      PreText E (kw p "Rotate" :: ts) (.Rotate p t ⟨x, y, z⟩)
  | lookAt (p ts a b c d e f g h i) (hn : Many (NumTok E) ts [a, b, c, d, e, f, g, h, i]) :
      PreText E (kw p "LookAt" :: ts) (.LookAt p ⟨a, b, c, d, e, f, g, h, i⟩)
  | coordinateSystem (p ts s) (h : StrTok ts s) :
      PreText E (kw p "CoordinateSystem" :: ts) (.CoordinateSystem p s)
  | coordSysTransform (p ts s) (h : StrTok ts s) :
      PreText E (kw p "CoordSysTransform" :: ts) (.CoordSysTransform p s)
  | transform (p ts a b c d e f g h i) (hn : Many (NumTok E) ts [a, b, c, d, e, f, g, h, i]) :
      PreText E (kw p "Transform" :: ts) (.Transform p ⟨a, b, c, d, e, f, g, h, i⟩)
  | concatTransform (p ts a b c d e f g h i)
      (hn : Many (NumTok E) ts [a, b, c, d, e, f, g, h, i]) :
      PreText E (kw p "ConcatTransform" :: ts) (.ConcatTransform p ⟨a, b, c, d, e, f, g, h, i⟩)
  | activeTransform (p q s) :
      PreText E [kw p "ActiveTransform", kw q s] (.ActiveTransform p s)
  | transformTimes (p ts a b) (h : Many (NumTok E) ts [a, b]) :
      PreText E (kw p "TransformTimes" :: ts) (.TransformTimes p a b)
  | camera (ts d) (h : Typed E "Camera" ts d) : PreText E ts (.Camera d)
  | sampler (ts d) (h : Typed E "Sampler" ts d) : PreText E ts (.Sampler d)
  | film (ts d) (h : Typed E "Film" ts d) : PreText E ts (.Film d)
  | filter (ts d) (h : Typed E "Filter" ts d) : PreText E ts (.Filter d)
  | integrator (ts d) (h : Typed E "Integrator" ts d) : PreText E ts (.Integrator d)
  | accelerator (ts d) (h : Typed E "Accelerator" ts d) : PreText E ts (.Accelerator d)
  | incl (p ts s) (h : StrTok ts s) : PreText E (kw p "Include" :: ts) (.Include p s)

/-! ### World directives -/

/-- The three block ends. -/
def IsEnd (t : Token F) : Prop :=
  ∃ p s, t = kw p s ∧ s ∈ ["AttributeEnd", "TransformEnd", "WorldEnd"]

/-- Is the directive a block? -/
def IsBlock : Directive F → Prop
  | .Attribute .. => True
  | .Transform .. => True
  | .World .. => True
  | _ => False

mutual
/-- `DirText E ts d`: the tokens `ts` give the directive `d`, *if the next token is a keyword, and
    a block end in case `d` is a block*.  The end of a block does not belong to `ts`. -/
inductive DirText (E : Env F) : List (Token F) → Directive F → Prop
  | material (ts d) (h : Typed E "Material" ts d) : DirText E ts (.Material d)
  | shape (ts d) (h : Typed E "Shape" ts d) : DirText E ts (.Shape d)
  | lightSource (ts d) (h : Typed E "LightSource" ts d) : DirText E ts (.LightSource d)
  | areaLightSource (ts d) (h : Typed E "AreaLightSource" ts d) : DirText E ts (.AreaLightSource d)
  | attribute (p ts ds) (h : DirsText E ts ds) :
      DirText E (kw p "AttributeBegin" :: ts) (.Attribute p ds)
  | transform (p ts ds) (h : DirsText E ts ds) :
      DirText E (kw p "TransformBegin" :: ts) (.Transform p ds)
  | world (p ts ds) (h : DirsText E ts ds) : DirText E (kw p "WorldBegin" :: ts) (.World p ds)
  | incl (p ts s) (h : StrTok ts s) : DirText E (kw p "Include" :: ts) (.Include p s)
  | texture (p q₁ q₂ q₃ name ty cls ts ps) (h : ParamsText E ts ps) :
      DirText E (kw p "Texture" :: ⟨q₁, .Str name⟩ :: ⟨q₂, .Str ty⟩ :: ⟨q₃, .Str cls⟩ :: ts)
        (.Texture ⟨name, ty, cls, p, collect ps⟩)

/-- The children of a block: directives one after the other; a nested block can only be the last
    child (its end also ends the enclosing block). -/
inductive DirsText (E : Env F) : List (Token F) → List (Directive F) → Prop
  | nil : DirsText E [] []
  | block (ts d) (hb : IsBlock d) (h : DirText E ts d) : DirsText E ts [d]
  | cons (a b d ds) (hb : ¬ IsBlock d) (h : DirText E a d) (hs : DirsText E b ds) :
      DirsText E (a ++ b) (d :: ds)
end

/-- Keywords of the pre-world directives. -/
def preKeys : List String :=
  ["Identity", "Translate", "Scale", "Rotate", "LookAt", "CoordinateSystem", "CoordSysTransform",
   "Transform", "ConcatTransform", "ActiveTransform", "TransformTimes", "Camera", "Sampler", "Film",
   "Filter", "Integrator", "Accelerator", "Include"]

/-- Keywords of the world directives. -/
def dirKeys : List String :=
  ["Material", "Shape", "LightSource", "AreaLightSource", "AttributeBegin", "TransformBegin",
   "WorldBegin", "Include", "Texture"]

/-- The keywords that take parameters, with the number of strings before them. -/
def paramKeys : List (String × Nat) :=
  [("Camera", 1), ("Sampler", 1), ("Film", 1), ("Filter", 1), ("Integrator", 1),
   ("Accelerator", 1), ("Material", 1), ("Shape", 1), ("LightSource", 1), ("AreaLightSource", 1),
   ("Texture", 3)]

/-- `Accepts E toks pre world`: the token list is pre-world directives, `WorldBegin`, the contents
    of the world up to the first block end, and anything after it. -/
def Accepts (E : Env F) (toks : List (Token F)) (pre : List (PreDirective F))
    (world : Directive F) : Prop :=
  ∃ a p body e rest ds, toks = a ++ kw p "WorldBegin" :: body ++ e :: rest ∧
    Many (PreText E) a pre ∧ DirsText E body ds ∧ IsEnd e ∧ world = .World p ds

/-- The text stops where a directive or the end of a block is expected. -/
def Unfinished (E : Env F) (toks : List (Token F)) : Prop :=
  (∃ pre, Many (PreText E) toks pre) ∨
  ∃ a p body pre ds, toks = a ++ kw p "WorldBegin" :: body ∧ Many (PreText E) a pre ∧
    DirsText E body ds

end Pbrt.Spec
