import Verif.Model.Lexer
import Verif.Model.Matrix

/-!
# Model of the parser — `/repo/src/parser.rs` lines 36–193, 213–261, 522–1362

Simplifications: `PathBuf` is the `String` it is built from; `usize` is `Nat`; the matrices of
`LookAt`/`Transform`/`ConcatTransform` are a structure of nine numbers.
-/

namespace Pbrt

variable {F : Type}

/-- core/mod.rs:24 `Point2f` -/
abbrev Point2f (F : Type) : Type := Point2 F

/-- core/mod.rs:26 `Vector2f` -/
abbrev Vector2f (F : Type) : Type := Vector2 F

/-- core/mod.rs:27 `Vector3f` -/
abbrev Vector3f (F : Type) : Type := Vector3 F

/-- core/mod.rs:29 `Matrix3f` -/
abbrev Matrix3f (F : Type) : Type := Matrix3 F

/-- core/mod.rs:123-130 `enum Spectrum` -/
inductive Spectrum (F : Type) where
  | Rgb (r g b : F)
  | Xyz (x y z : F)
  | Spectrum (samples : List (F × F))
  | File (path : String)
  | Blackbody (t s : F)
deriving DecidableEq

/-- parser.rs:178-193 `struct Param<T>` and `Param::new` -/
structure Param (T : Type) where
  name : String
  pos : Pos
  values : List T
deriving DecidableEq

/-- parser.rs:63-76 `struct ParamSet`.  `point3fs`, `vector3fs` and `normal3fs` exist in the code
    but nothing ever adds to them. -/
structure ParamSet (F : Type) where
  bools : List (Param Bool)
  ints : List (Param Int)
  floats : List (Param F)
  point2fs : List (Param (Point2f F))
  vector2fs : List (Param (Vector2f F))
  point3fs : List (Param (Point3 F))
  vector3fs : List (Param (Vector3f F))
  normal3fs : List (Param (Normal3 F))
  spectra : List (Param (Spectrum F))
  strings : List (Param String)
  textures : List (Param String)
deriving DecidableEq

/-- parser.rs:78-94 `impl Default for ParamSet` -/
def ParamSet.default : ParamSet F := ⟨[], [], [], [], [], [], [], [], [], [], []⟩

/-- parser.rs:156-161 `struct DirectiveStruct` -/
structure DirectiveStruct (F : Type) where
  ty : String
  pos : Pos
  paramSet : ParamSet F
deriving DecidableEq

/-- parser.rs:163-170 `struct TextureStruct` -/
structure TextureStruct (F : Type) where
  name : String
  ty : String
  cls : String
  pos : Pos
  paramSet : ParamSet F
deriving DecidableEq

/-- parser.rs:143-154, 172-176 `enum Directive` and `struct BlockStruct` (inlined: the two fields
    of `BlockStruct` are the arguments of the three block constructors). -/
inductive Directive (F : Type) where
  | Material (d : DirectiveStruct F)
  | Shape (d : DirectiveStruct F)
  | LightSource (d : DirectiveStruct F)
  | AreaLightSource (d : DirectiveStruct F)
  | Attribute (pos : Pos) (children : List (Directive F))
  | Transform (pos : Pos) (children : List (Directive F))
  | World (pos : Pos) (children : List (Directive F))
  | Include (pos : Pos) (path : String)
  | Texture (t : TextureStruct F)

/-- parser.rs:36-61 `enum PreDirective` -/
inductive PreDirective (F : Type) where
  | Identity (pos : Pos)
  | Translate (pos : Pos) (v : Vector3f F)
  | Scale (pos : Pos) (v : Vector3f F)
  | Rotate (pos : Pos) (angle : F) (v : Vector3f F)
  | LookAt (pos : Pos) (m : Matrix3f F)
  | CoordinateSystem (pos : Pos) (name : String)
  | CoordSysTransform (pos : Pos) (name : String)
  | Transform (pos : Pos) (m : Matrix3f F)
  | ConcatTransform (pos : Pos) (m : Matrix3f F)
  | ActiveTransform (pos : Pos) (id : String)
  | TransformTimes (pos : Pos) (t0 t1 : F)
  | Camera (d : DirectiveStruct F)
  | Sampler (d : DirectiveStruct F)
  | Film (d : DirectiveStruct F)
  | Filter (d : DirectiveStruct F)
  | Integrator (d : DirectiveStruct F)
  | Accelerator (d : DirectiveStruct F)
  | Include (pos : Pos) (path : String)
deriving DecidableEq

/-- parser.rs:213-216 `struct Parser` -/
structure Parser (F : Type) where
  tokens : List (Token F)
  index : Nat
deriving DecidableEq

/-- parser.rs:227-231 `enum ParserError` -/
inductive ParserError where
  | Str (s : String)
  | Eof
deriving DecidableEq

/-- parser.rs:233-240 `impl fmt::Display for ParserError` -/
def ParserError.display : ParserError → String
  | .Str s => s
  | .Eof => "EOF"

/-- `{:?}` of `ParserError` (derived `Debug`, parser.rs:227) -/
def ParserError.debug (E : Env F) : ParserError → String
  | .Str s => "Str(" ++ E.dbgStr s ++ ")"
  | .Eof => "Eof"

/-- parser.rs:254-261 `impl From<TokenizerError> for ParserError` -/
def ParserError.ofTokenizer : TokenizerError → ParserError
  | .Str s => .Str s
  | .Eof => .Eof

/-- `{:?}` of `TokenType` (derived `Debug`, parser.rs:195) -/
def TokenType.debug (E : Env F) : TokenType F → String
  | .Identifier s => "Identifier(" ++ E.dbgStr s ++ ")"
  | .Int i => "Int(" ++ toString i ++ ")"
  | .Float f => "Float(" ++ E.dbgFloat f ++ ")"
  | .Str s => "Str(" ++ E.dbgStr s ++ ")"
  | .LBracket => "LBracket"
  | .RBracket => "RBracket"

/-- A parser method. -/
abbrev PM (F : Type) (α : Type) := M (Parser F) ParserError α

/-- parser.rs:547-549 `Parser::is_empty` -/
def Parser.isEmpty (p : Parser F) : Bool := decide (p.index ≥ p.tokens.length)

/-- parser.rs:530-536 `Parser::peek` -/
def peek : PM F (Token F) := fun p =>
  if !p.isEmpty then
    match p.tokens[p.index]? with
    | some t => (.ok t, p)
    | none => (.panic, p)
  else
    (.err .Eof, p)

/-- parser.rs:538-545 `Parser::next` -/
def next : PM F (Token F) := fun p =>
  if p.isEmpty then
    (.err .Eof, p)
  else
    match p.tokens[p.index]? with
    | some t => (.ok t, { p with index := p.index + 1 })
    | none => (.panic, p)

/-- parser.rs:551-557 `Parser::pos` -/
def pos : PM F Pos := fun p =>
  if p.index ≥ p.tokens.length then
    (.err .Eof, p)
  else
    match p.tokens[p.index]? with
    | some t => (.ok t.pos, p)
    | none => (.panic, p)

/-- parser.rs:559-561 `Parser::set_index` -/
def setIndex (index : Nat) : PM F Unit := fun p => (.ok (), { p with index := index })

/-- `self.index` -/
def getIndex : PM F Nat := fun p => (.ok p.index, p)

/-- `v[i]` on a vector: out of bounds panics. -/
def idx {α : Type} (v : List α) (i : Nat) : PM F α :=
  match v[i]? with
  | some a => pure a
  | none => M.panic

/-- parser.rs:823-841 `Parser::parse_int` -/
def parseInt (E : Env F) : PM F Int := do
  match ← M.attempt peek with
  | .ok ⟨_, .Int i⟩ =>
    let _ ← M.attempt next
    pure i
  | .ok ⟨pos, ty⟩ =>
    M.throw (.Str (pos.fmt ++ " parse_int(): expected int but got " ++ ty.debug E))
  | .error .Eof => M.throw (.Str "parse_int(): EOF while parsing int")
  | .error err => M.throw err

/-- parser.rs:843-861 `Parser::parse_string` -/
def parseString (E : Env F) : PM F String := do
  match ← M.attempt peek with
  | .ok ⟨_, .Str s⟩ =>
    let _ ← M.attempt next
    pure s
  | .ok ⟨pos, ty⟩ =>
    M.throw (.Str (pos.fmt ++ " parse_string(): expected string but got " ++ ty.debug E))
  | .error .Eof => M.throw (.Str "parse_string(): EOF while processing string")
  | .error err => M.throw err

/-- parser.rs:863-881 `Parser::parse_identifier` -/
def parseIdentifier (E : Env F) : PM F String := do
  match ← M.attempt peek with
  | .ok ⟨_, .Identifier id⟩ =>
    let _ ← M.attempt next
    pure id
  | .ok ⟨pos, ty⟩ =>
    M.throw (.Str (pos.fmt ++ " parse_identifier(): expected identifier but got " ++ ty.debug E))
  | .error .Eof => M.throw (.Str "parse_identifier(): EOF while processing identifier")
  | .error err => M.throw err

/-- parser.rs:883-911 `Parser::parse_bool` -/
def parseBool (E : Env F) : PM F Bool := do
  match ← M.attempt peek with
  | .ok ⟨pos, .Str s⟩ =>
    if s = "true" then
      let _ ← next
      pure true
    else if s = "false" then
      let _ ← next
      pure false
    else
      M.throw (.Str (pos.fmt ++ " parse_bool(): expected bool but got " ++ E.dbgStr s))
  | .ok ⟨pos, ty⟩ =>
    M.throw (.Str (pos.fmt ++ " parse_bool(): expected int but got " ++ ty.debug E))
  | .error .Eof => M.throw (.Str "parse_bool(): EOF while parsing bool")
  | .error err => M.throw err

/-- parser.rs:913-938 `Parser::parse_float` -/
def parseFloat (E : Env F) : PM F F := do
  match ← M.attempt peek with
  | .ok ⟨_, .Float f⟩ =>
    let _ ← next
    pure f
  | .ok ⟨_, .Int i⟩ =>
    let _ ← next
    pure (E.ofIsize i)
  | .ok ⟨pos, ty⟩ =>
    M.throw (.Str (pos.fmt ++ " parse_float(): expected float but got " ++ ty.debug E))
  | .error .Eof => M.throw (.Str "parse_float(): EOF while parsing float")
  | .error err => M.throw err

/-- parser.rs:949-965: the loop of `parse_many` (second argument: fuel). -/
def parseManyLoop {T : Type} (parser : PM F T) (name : String) : Nat → List T → PM F (List T)
  | 0, _ => M.diverge
  | fuel + 1, values => do
    match ← M.attempt parser with
    | .ok i => parseManyLoop parser name fuel (values ++ [i])
    | .error err =>
      if values = [] then
        M.throw (.Str ("parse_many_" ++ name ++ "s(): error while processing " ++ name ++ "s:\n  "
          ++ err.display))
      else
        pure values

/-- parser.rs:944-966 `Parser::parse_many`.  Fuel: one more than the number of tokens. -/
def parseMany {T : Type} (parser : PM F T) (name : String) : PM F (List T) := do
  let self ← M.get
  parseManyLoop parser name (self.tokens.length + 1) []

/-- parser.rs:940-942 `Parser::parse_floats` -/
def parseFloats (E : Env F) : PM F (List F) := parseMany (parseFloat E) "float"

/-- parser.rs:976-991: the loop of `parse_n`; `k` is the number of iterations left. -/
def parseNLoop {T : Type} (E : Env F) (parser : PM F T) (n : Nat) (name : String)
    (startIndex : Nat) : Nat → List T → PM F (List T)
  | 0, values => pure values
  | k + 1, values => do
    match ← M.attempt parser with
    | .ok i => parseNLoop E parser n name startIndex k (values ++ [i])
    | .error err =>
      setIndex startIndex
      M.throw (.Str ("parse_" ++ toString n ++ "_" ++ name ++ "s(): error while processing "
        ++ name ++ "s:\n  " ++ err.debug E))

/-- parser.rs:968-992 `Parser::parse_n` -/
def parseN {T : Type} (E : Env F) (parser : PM F T) (n : Nat) (name : String) :
    PM F (List T) := do
  if n > 0 then
    let startIndex ← getIndex
    parseNLoop E parser n name startIndex n []
  else M.panic

/-- parser.rs:691-744 `Parser::parse_list` -/
def parseList {T : Type} (E : Env F) (parser : PM F T) (name : String) : PM F (List T) := do
  match ← M.attempt peek with
  | .ok ⟨startPos, .LBracket⟩ =>
    let _ ← M.attempt next
    let values ← parseMany parser name
    match ← M.attempt peek with
    | .ok ⟨_, .RBracket⟩ =>
      if values = [] then
        M.throw (.Str (startPos.fmt ++ " parse_list_" ++ name ++ "(): parsed empty list"))
      else
        let _ ← next
        pure values
    | .ok ⟨pos, ty⟩ =>
      M.throw (.Str (pos.fmt ++ " parse_list_" ++ name ++ "(): expected ']' but got " ++ ty.debug E))
    | .error .Eof => M.throw (.Str ("parse_list_" ++ name ++ "(): EOF while processing list"))
    | .error err => M.throw err
  | .ok ⟨pos, ty⟩ =>
    M.throw (.Str (pos.fmt ++ " parse_list_" ++ name ++ "(): expected '[' but got " ++ ty.debug E))
  | .error .Eof => M.throw (.Str ("parse_list_" ++ name ++ "(): EOF while processing list"))
  | .error err => M.throw err

/-- parser.rs:746-802 `Parser::parse_list_of_n` -/
def parseListOfN {T : Type} (E : Env F) (parser : PM F T) (n : Nat) (name : String) :
    PM F (List T) := do
  match ← M.attempt peek with
  | .ok ⟨startPos, .LBracket⟩ =>
    let _ ← M.attempt next
    let values ← parseN E parser n name
    match ← M.attempt peek with
    | .ok ⟨_, .RBracket⟩ =>
      if values = [] then
        M.throw (.Str (startPos.fmt ++ " parse_list_of_" ++ toString n ++ "_" ++ name
          ++ "s(): parsed empty list"))
      else
        let _ ← next
        pure values
    | .ok ⟨pos, ty⟩ =>
      M.throw (.Str (pos.fmt ++ " parse_list_of_" ++ toString n ++ "_" ++ name
        ++ "s(): expected ']' but got " ++ ty.debug E))
    | .error .Eof =>
      M.throw (.Str ("parse_list_of_n_" ++ name ++ "s(): EOF while processing list"))
    | .error err => M.throw err
  | .ok ⟨pos, ty⟩ =>
    M.throw (.Str (pos.fmt ++ " parse_list_of_n_" ++ name ++ "s(): expected '[' but got "
      ++ ty.debug E))
  | .error .Eof => M.throw (.Str ("parse_list_of_n_" ++ name ++ "(): EOF while processing list"))
  | .error err => M.throw err

/-- parser.rs:804-821 `Parser::parse_one_or_list` -/
def parseOneOrList {T : Type} (E : Env F) (parser : PM F T) (name : String) :
    PM F (List T) := do
  match ← M.attempt peek with
  | .ok ⟨_, .LBracket⟩ => parseList E parser name
  | .ok _ =>
    let v ← parser
    pure [v]
  | .error .Eof =>
    M.throw (.Str ("parse_one_or_list_" ++ name ++ "(): EOF while processing list"))
  | .error err => M.throw err

/-- parser.rs:994-997 `Parser::parse_point2f` -/
def parsePoint2f (E : Env F) : PM F (Point2f F) := do
  let floats ← parseN E (parseFloat E) 2 "float"
  pure ⟨← idx floats 0, ← idx floats 1⟩

/-- parser.rs:999-1002 `Parser::parse_vector2f` -/
def parseVector2f (E : Env F) : PM F (Vector2f F) := do
  let floats ← parseN E (parseFloat E) 2 "float"
  pure ⟨← idx floats 0, ← idx floats 1⟩

/-- `floats.chunks(2).map(|chunk| (chunk[0], chunk[1])).collect()` (parser.rs:1336): a last chunk
    of one element makes `chunk[1]` panic. -/
def chunks2 {α : Type} : List α → PM F (List (α × α))
  | [] => pure []
  | [_] => M.panic
  | a :: b :: rest => do
    let r ← chunks2 rest
    pure ((a, b) :: r)

/-- parser.rs:1321-1356 `Parser::parse_spectrum` -/
def parseSpectrum (E : Env F) : PM F (Spectrum F) := do
  match ← M.attempt peek with
  | .ok ⟨pos, .LBracket⟩ =>
    let floats ← parseList E (parseFloat E) "float"
    if floats.length % 2 ≠ 0 then
      M.throw (.Str (pos.fmt ++ " parse_spectrum(): Expected an even number of floats but got "
        ++ toString floats.length))
    else
      let samples ← chunks2 floats
      pure (.Spectrum samples)
  | .ok ⟨_, .Str s⟩ =>
    let _ ← next
    pure (.File s)
  | .ok ⟨pos, ty⟩ =>
    M.throw (.Str (pos.fmt ++ " parse_spectrum(): expected '[' or string but got " ++ ty.debug E))
  | .error .Eof => M.throw (.Str "parse_spectrum(): EOF while processing spectrum")
  | .error err => M.throw err

/-- `str::split_whitespace` on the characters of a string (standard library); `cur` is the word
    being read, in order. -/
def splitWs (isWs : Char → Bool) (cur : List Char) : List Char → List (List Char)
  | [] => if cur = [] then [] else [cur]
  | c :: cs =>
    if isWs c then
      if cur = [] then splitWs isWs [] cs else cur :: splitWs isWs [] cs
    else splitWs isWs (cur ++ [c]) cs

/-- `s.split_whitespace().collect::<Vec<&str>>()` (parser.rs:574) -/
def splitWhitespace (E : Env F) (s : String) : List String :=
  (splitWs E.isWhitespace [] s.toList).map String.ofList

/-- parser.rs:568-689 `Parser::parse_param_list`.  `param_set: &mut ParamSet` becomes an argument
    and a result; it is only modified after everything succeeded. -/
def parseParamList (E : Env F) (ps : ParamSet F) : PM F (ParamSet F) := do
  match ← M.attempt peek with
  | .ok ⟨pos, .Str s⟩ =>
    let splitS := splitWhitespace E s
    if splitS.length ≠ 2 then
      M.throw (.Str (pos.fmt ++
        " parse_param_list(): expecting a string with two arguments but got " ++ s))
    else
      let ty ← idx splitS 0
      let var ← idx splitS 1
      if ty = "integer" then
        let _ ← next
        let v ← parseOneOrList E (parseInt E) "int"
        pure { ps with ints := ps.ints ++ [⟨var, pos, v⟩] }
      else if ty = "float" then
        let _ ← next
        let v ← parseOneOrList E (parseFloat E) "float"
        pure { ps with floats := ps.floats ++ [⟨var, pos, v⟩] }
      else if ty = "point2" then
        let _ ← next
        let v ← parseList E (parsePoint2f E) "point2f"
        pure { ps with point2fs := ps.point2fs ++ [⟨var, pos, v⟩] }
      else if ty = "vector2" then
        let _ ← next
        let v ← parseList E (parseVector2f E) "vector2f"
        pure { ps with vector2fs := ps.vector2fs ++ [⟨var, pos, v⟩] }
      else if ty = "bool" then
        let _ ← next
        let v ← parseOneOrList E (parseBool E) "bool"
        pure { ps with bools := ps.bools ++ [⟨var, pos, v⟩] }
      else if ty = "string" then
        let _ ← next
        let v ← parseOneOrList E (parseString E) "string"
        pure { ps with strings := ps.strings ++ [⟨var, pos, v⟩] }
      else if ty = "rgb" then
        let _ ← next
        let rgb ← parseListOfN E (parseFloat E) 3 "float"
        let v : Spectrum F := .Rgb (← idx rgb 0) (← idx rgb 1) (← idx rgb 2)
        pure { ps with spectra := ps.spectra ++ [⟨var, pos, [v]⟩] }
      else if ty = "xyz" then
        let _ ← next
        let rgb ← parseListOfN E (parseFloat E) 3 "float"
        let v : Spectrum F := .Xyz (← idx rgb 0) (← idx rgb 1) (← idx rgb 2)
        pure { ps with spectra := ps.spectra ++ [⟨var, pos, [v]⟩] }
      else if ty = "spectrum" then
        let _ ← next
        let v ← parseSpectrum E
        pure { ps with spectra := ps.spectra ++ [⟨var, pos, [v]⟩] }
      else if ty = "blackbody" then
        let _ ← next
        let rgb ← parseListOfN E (parseFloat E) 2 "float"
        let v : Spectrum F := .Blackbody (← idx rgb 0) (← idx rgb 1)
        pure { ps with spectra := ps.spectra ++ [⟨var, pos, [v]⟩] }
      else if ty = "texture" then
        let _ ← next
        let v ← parseString E
        pure { ps with textures := ps.textures ++ [⟨var, pos, [v]⟩] }
      else
        M.throw (.Str (pos.fmt ++ " parse_param_list(): expecting a type but got " ++ ty))
  | .ok ⟨pos, ty⟩ =>
    M.throw (.Str (pos.fmt ++ " parse_param_list(): expected param list, got " ++ ty.debug E))
  | .error .Eof => M.throw (.Str "parse_param_list(): EOF while processing param list")
  | .error err => M.throw err

/-- parser.rs:564: `while self.parse_param_list(param_set).is_ok() {}` (second argument: fuel). -/
def paramListsLoop (E : Env F) : Nat → ParamSet F → PM F (ParamSet F)
  | 0, _ => M.diverge
  | fuel + 1, ps => do
    match ← M.attempt (parseParamList E ps) with
    | .ok ps' => paramListsLoop E fuel ps'
    | .error _ => pure ps

/-- parser.rs:563-566 `Parser::parse_param_lists`.  Fuel: one more than the number of tokens. -/
def parseParamLists (E : Env F) (ps : ParamSet F) : PM F (ParamSet F) := do
  let self ← M.get
  paramListsLoop E (self.tokens.length + 1) ps

mutual
/-- parser.rs:1004-1079 `Parser::parse_directive` (second argument: fuel). -/
def parseDirective (E : Env F) : Nat → PM F (Directive F)
  | 0 => M.diverge
  | fuel + 1 => do
    let startPos ← pos
    let id ← parseIdentifier E
    if id = "Material" then
      let ty ← parseString E
      let ps ← parseParamLists E .default
      pure (.Material ⟨ty, startPos, ps⟩)
    else if id = "Shape" then
      let ty ← parseString E
      let ps ← parseParamLists E .default
      pure (.Shape ⟨ty, startPos, ps⟩)
    else if id = "LightSource" then
      let ty ← parseString E
      let ps ← parseParamLists E .default
      pure (.LightSource ⟨ty, startPos, ps⟩)
    else if id = "AreaLightSource" then
      let ty ← parseString E
      let ps ← parseParamLists E .default
      pure (.AreaLightSource ⟨ty, startPos, ps⟩)
    else if id = "AttributeBegin" then
      let children ← directivesLoop E fuel []
      pure (.Attribute startPos children)
    else if id = "TransformBegin" then
      let children ← directivesLoop E fuel []
      pure (.Transform startPos children)
    else if id = "WorldBegin" then
      let children ← directivesLoop E fuel []
      pure (.World startPos children)
    else if id = "Include" then
      let path ← parseString E
      pure (.Include startPos path)
    else if id = "Texture" then
      let name ← parseString E
      let ty ← parseString E
      let cls ← parseString E
      let ps ← parseParamLists E .default
      pure (.Texture ⟨name, ty, cls, startPos, ps⟩)
    else
      M.throw (.Str (startPos.fmt ++ " parse_directive(): unknown identifier " ++ id))

/-- parser.rs:1081-1103 `Parser::parse_directives`: the loop, started with `directives = []`. -/
def directivesLoop (E : Env F) : Nat → List (Directive F) → PM F (List (Directive F))
  | 0, _ => M.diverge
  | fuel + 1, directives => do
    match ← peek with
    | ⟨_, .Identifier s⟩ =>
      if s = "AttributeEnd" ∨ s = "TransformEnd" ∨ s = "WorldEnd" then pure directives
      else
        let d ← parseDirective E fuel
        directivesLoop E fuel (directives ++ [d])
    | ⟨pos, ty⟩ =>
      M.throw (.Str (pos.fmt
        ++ " parse_directives(): expected identifier or block close but got " ++ ty.debug E))
end

/-- parser.rs:1112-1118 and its six siblings: the arity check of the transform directives. -/
def wrongCount (startPos : Pos) (name : String) (n got : Nat) : ParserError :=
  .Str (startPos.fmt ++ " parse_predirective(): " ++ name ++ " expects " ++ toString n
    ++ " floats but was given " ++ toString got)

/-- parser.rs:1105-1295 `Parser::parse_predirective` -/
def parsePredirective (E : Env F) : PM F (PreDirective F) := do
  let startPos ← pos
  let id ← parseIdentifier E
  if id = "Identity" then pure (.Identity startPos)
  else if id = "Translate" then
    let floats ← parseFloats E
    if floats.length ≠ 3 then M.throw (wrongCount startPos "Translate" 3 floats.length)
    else pure (.Translate startPos ⟨← idx floats 0, ← idx floats 1, ← idx floats 2⟩)
  else if id = "Scale" then
    let floats ← parseFloats E
    if floats.length ≠ 3 then M.throw (wrongCount startPos "Scale" 3 floats.length)
    else pure (.Scale startPos ⟨← idx floats 0, ← idx floats 1, ← idx floats 2⟩)
  else if id = "Rotate" then
    let floats ← parseFloats E
    if floats.length ≠ 4 then M.throw (wrongCount startPos "Rotate" 4 floats.length)
    else pure (.Rotate startPos (← idx floats 0) ⟨← idx floats 1, ← idx floats 2, ← idx floats 3⟩)
  else if id = "LookAt" then
    let floats ← parseFloats E
    if floats.length ≠ 9 then M.throw (wrongCount startPos "LookAt" 9 floats.length)
    else pure (.LookAt startPos
      ⟨← idx floats 0, ← idx floats 1, ← idx floats 2, ← idx floats 3, ← idx floats 4,
       ← idx floats 5, ← idx floats 6, ← idx floats 7, ← idx floats 8⟩)
  else if id = "CoordinateSystem" then
    let name ← parseString E
    pure (.CoordinateSystem startPos name)
  else if id = "CoordSysTransform" then
    let name ← parseString E
    pure (.CoordSysTransform startPos name)
  else if id = "Transform" then
    let floats ← parseFloats E
    if floats.length ≠ 9 then M.throw (wrongCount startPos "Transform" 9 floats.length)
    else pure (.Transform startPos
      ⟨← idx floats 0, ← idx floats 1, ← idx floats 2, ← idx floats 3, ← idx floats 4,
       ← idx floats 5, ← idx floats 6, ← idx floats 7, ← idx floats 8⟩)
  else if id = "ConcatTransform" then
    let floats ← parseFloats E
    if floats.length ≠ 9 then M.throw (wrongCount startPos "ConcatTransform" 9 floats.length)
    else pure (.ConcatTransform startPos
      ⟨← idx floats 0, ← idx floats 1, ← idx floats 2, ← idx floats 3, ← idx floats 4,
       ← idx floats 5, ← idx floats 6, ← idx floats 7, ← idx floats 8⟩)
  else if id = "ActiveTransform" then
    let id ← parseIdentifier E
    pure (.ActiveTransform startPos id)
  else if id = "TransformTimes" then
    let floats ← parseFloats E
    if floats.length ≠ 2 then M.throw (wrongCount startPos "TransformTimes" 2 floats.length)
    else pure (.TransformTimes startPos (← idx floats 0) (← idx floats 1))
  else if id = "Camera" then
    let ty ← parseString E
    let ps ← parseParamLists E .default
    pure (.Camera ⟨ty, startPos, ps⟩)
  else if id = "Sampler" then
    let ty ← parseString E
    let ps ← parseParamLists E .default
    pure (.Sampler ⟨ty, startPos, ps⟩)
  else if id = "Film" then
    let ty ← parseString E
    let ps ← parseParamLists E .default
    pure (.Film ⟨ty, startPos, ps⟩)
  else if id = "Filter" then
    let ty ← parseString E
    let ps ← parseParamLists E .default
    pure (.Filter ⟨ty, startPos, ps⟩)
  else if id = "Integrator" then
    let ty ← parseString E
    let ps ← parseParamLists E .default
    pure (.Integrator ⟨ty, startPos, ps⟩)
  else if id = "Accelerator" then
    let ty ← parseString E
    let ps ← parseParamLists E .default
    pure (.Accelerator ⟨ty, startPos, ps⟩)
  else if id = "Include" then
    let path ← parseString E
    pure (.Include startPos path)
  else
    M.throw (.Str (startPos.fmt ++ " parse_predirective(): Unknown predirective: " ++ id))

/-- parser.rs:1297-1319 `Parser::parse_predirectives`: the loop (second argument: fuel). -/
def predirectivesLoop (E : Env F) : Nat → List (PreDirective F) → PM F (List (PreDirective F))
  | 0, _ => M.diverge
  | fuel + 1, predirectives => do
    match ← peek with
    | ⟨_, .Identifier s⟩ =>
      if s = "WorldBegin" then pure predirectives
      else
        let d ← parsePredirective E
        predirectivesLoop E fuel (predirectives ++ [d])
    | ⟨pos, ty⟩ =>
      M.throw (.Str (pos.fmt ++ " parse_predirectives(): expected predirective but got "
        ++ ty.debug E))

/-- parser.rs:1360: what `Parser::parse` does with the token list, with explicit fuel. -/
def parseTokensFuel (E : Env F) (fuel : Nat) : PM F (List (PreDirective F) × Directive F) := do
  let pre ← predirectivesLoop E fuel []
  let world ← parseDirective E fuel
  pure (pre, world)

/-- The fuel used by the model for the directive loops: twice the number of tokens plus two.
    C01 proves that this, and every larger amount, is enough. -/
def parseFuel (tokens : List (Token F)) : Nat := 2 * tokens.length + 2

/-- `Parser::parse` after tokenization. -/
def parseTokens (E : Env F) (tokens : List (Token F)) :
    Res ParserError (List (PreDirective F) × Directive F) :=
  (parseTokensFuel E (parseFuel tokens) ⟨tokens, 0⟩).1

/-- parser.rs:523-528, 1358-1361 `Parser::new` and `Parser::parse` -/
def parse (E : Env F) (input : List Char) :
    Res ParserError (List (PreDirective F) × Directive F) :=
  match tokenize E input with
  | .ok tokens => parseTokens E tokens
  | .err e => .err (.ofTokenizer e)
  | .panic => .panic
  | .diverge => .diverge

end Pbrt
