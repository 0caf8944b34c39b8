import Verif.Model.Parser

/-!
# Model of the work done — the same functions, counting what they read

The functions of `Model/Lexer` and `Model/Parser` once more, word for word, over a state that also
has a counter. `tkPeek` and `tkNext` (parser.rs:286-307) count one read of a character; `peek`, `next`
and `pos` (parser.rs:530-557) count one read of a token. C89 proves that the results are the same
and bounds the counter.

Simplifications: every read counts the same, although a read of a token copies the token; what the
standard library does to a literal that was read is not counted.
-/

namespace Pbrt.Cost

variable {F : Type}

/-- A state and the number of reads so far -/
structure Counted (σ : Type) where
  state : σ
  reads : Nat

/-- A method on the state that counts as `k` reads -/
def counting {σ ε α : Type} (k : Nat) (x : M σ ε α) : M (Counted σ) ε α := fun s =>
  ((x s.state).1, ⟨(x s.state).2, s.reads + k⟩)

/-- A tokenizer method. -/
abbrev TM (α : Type) := M (Counted Tokenizer) TokenizerError α

/-- parser.rs:286-292 `Tokenizer::peek` -/
def tkPeek : TM Char := counting 1 Pbrt.tkPeek
/-- parser.rs:294-307 `Tokenizer::next` -/
def tkNext : TM Char := counting 1 Pbrt.tkNext
/-- `self.pos` -/
def tkPos : TM Pos := counting 0 Pbrt.tkPos
/-- `self.prev_pos` -/
def tkPrevPos : TM Pos := counting 0 Pbrt.tkPrevPos
/-- `self` -/
def theSelf {σ ε : Type} : M (Counted σ) ε σ := counting 0 M.get

/-- `num_chars.into_iter().collect::<String>().parse::<isize>()?`
    (with `From<ParseIntError>`, parser.rs:242-246) -/
def parseIntM (E : Env F) (cs : List Char) : TM Int :=
  match parseIsize cs with
  | some i => pure i
  | none => M.throw (.Str (E.parseIntError cs))

/-- `num_chars.into_iter().collect::<String>().parse::<Float>()?`
    (with `From<ParseFloatError>`, parser.rs:248-252) -/
def parseFloatM (E : Env F) (cs : List Char) : TM F :=
  match E.parseFloat cs with
  | .ok f => pure f
  | .error e => M.throw (.Str e)

/-- Result of an `isize` operation whose exact value is `i`: overflow panics in a build with
    overflow checks and wraps around in a build without. -/
def isizeOp (E : Env F) (i : Int) : TM Int :=
  if inIsize i then pure i
  else if E.overflowChecks then M.panic
  else pure (wrapIsize i)

/-- `isize::pow(10, i as u32)` (parser.rs:410); the square-and-multiply of the standard library
    overflows exactly when the exact power does not fit. `as u32` keeps the low 32 bits. -/
def pow10M (E : Env F) (i : Int) : TM Int :=
  isizeOp E ((10 : Int) ^ (i.toNat % 4294967296))

mutual
/-- parser.rs:361-374 `Tokenizer::tokenize_num` up to the start of its loop.
    The first argument is the fuel of the recursion. -/
def tokenizeNum (E : Env F) : Nat → TM (Token F)
  | 0 => M.diverge
  | fuel + 1 => do
    let startPos ← tkPos
    let numChars ← (do
      match ← M.attempt tkPeek with
      | .ok '-' =>
        let _ ← M.attempt tkNext
        pure ['-']
      | .ok '+' =>
        let _ ← M.attempt tkNext
        pure []
      | _ => pure [])
    numLoop E fuel startPos numChars false

/-- parser.rs:375-434: the loop of `tokenize_num` (it ends in `numFinish`). -/
def numLoop (E : Env F) : Nat → Pos → List Char → Bool → TM (Token F)
  | 0, _, _, _ => M.diverge
  | fuel + 1, startPos, numChars, isFloat => do
    match ← M.attempt tkPeek with
    | .ok ch =>
      if E.isNumeric ch then
        let ch ← tkNext
        numLoop E fuel startPos (numChars ++ [ch]) isFloat
      else if ch = '.' then
        if isFloat then
          let p ← tkPos
          M.throw (.Str (p.fmt ++ " tokenize_num(): unexpected char '" ++ String.singleton ch ++ "'"))
        else
          let ch ← tkNext
          numLoop E fuel startPos (numChars ++ [ch]) true
      else if ch = 'e' then
        if numChars = [] then
          let p ← tkPos
          M.throw (noNumber p)
        else
          let _ ← M.attempt tkNext
          match (← tokenizeNum E fuel).removePos with
          | .Float f =>
            let m ← parseFloatM E numChars
            pure ⟨startPos, .Float (E.fmul m (E.powf10 f))⟩
          | .Int i =>
            if i ≥ 0 ∧ isFloat = false then
              let m ← parseIntM E numChars
              let p ← pow10M E i
              let v ← isizeOp E (m * p)
              pure ⟨startPos, .Int v⟩
            else
              let m ← parseFloatM E numChars
              pure ⟨startPos, .Float (E.fmul m (E.powf10 (E.ofIsize i)))⟩
          | _ => M.throw (noNumber startPos)
      else
        numFinish E startPos numChars isFloat
    | .error .Eof => numFinish E startPos numChars isFloat
    | .error err => M.throw err

/-- parser.rs:435-452: the end of `tokenize_num`, after the loop was left by `break`. -/
def numFinish (E : Env F) (startPos : Pos) (numChars : List Char) (isFloat : Bool) :
    TM (Token F) := do
  if numChars = [] then
    let p ← tkPos
    M.throw (noNumber p)
  else if isFloat then
    let f ← parseFloatM E numChars
    pure ⟨startPos, .Float f⟩
  else
    let i ← parseIntM E numChars
    pure ⟨startPos, .Int i⟩
end

/-- parser.rs:468-496: the loop of `tokenize_str` (first argument: fuel). -/
def strLoop : Nat → Pos → List Char → TM (Token F)
  | 0, _, _ => M.diverge
  | fuel + 1, startPos, strChars => do
    match ← M.attempt tkNext with
    | .ok '\\' =>
      match ← M.attempt tkNext with
      | .ok 'n' => strLoop fuel startPos (strChars ++ ['\n'])
      | .ok ch => strLoop fuel startPos (strChars ++ [ch])
      | .error .Eof =>
        let p ← tkPrevPos
        M.throw (.Str (p.fmt ++ " tokenize_str(): EOF while processing escape seq"))
      | .error err => M.throw err
    | .ok '"' => pure ⟨startPos, .Str (String.ofList strChars)⟩
    | .ok ch => strLoop fuel startPos (strChars ++ [ch])
    | .error .Eof =>
      let p ← tkPos
      M.throw (.Str (p.fmt ++ " tokenize_str(): EOF while processing string"))
    | .error err => M.throw err

/-- parser.rs:454-497 `Tokenizer::tokenize_str` -/
def tokenizeStr (fuel : Nat) : TM (Token F) := do
  let startPos ← tkPos
  match ← M.attempt tkNext with
  | .ok _ => strLoop fuel startPos []
  | .error .Eof =>
    let p ← tkPos
    M.throw (.Str (p.fmt ++ " tokenize_str(): EOF while processing string"))
  | .error err => M.throw err

/-- parser.rs:502-508: the loop of `tokenize_id` (first argument: fuel). -/
def idLoop (E : Env F) : Nat → List Char → TM (List Char)
  | 0, _ => M.diverge
  | fuel + 1, idChars => do
    match ← M.attempt tkPeek with
    | .ok ch =>
      if E.isAlphanumeric ch then
        let ch ← tkNext
        idLoop E fuel (idChars ++ [ch])
      else pure idChars
    | .error .Eof => pure idChars
    | .error err => M.throw err

/-- parser.rs:499-519 `Tokenizer::tokenize_id` -/
def tokenizeId (E : Env F) (fuel : Nat) : TM (Token F) := do
  let startPos ← tkPos
  let c ← tkNext
  let idChars ← idLoop E fuel [c]
  if idChars = [] then
    let p ← tkPos
    M.throw (.Str (p.fmt ++ " tokenize_id(): no identifier"))
  else
    pure ⟨startPos, .Identifier (String.ofList idChars)⟩

/-- parser.rs:316-320: `while let Ok(ch) = self.next() { if ch == '\n' { break; } }` -/
def skipComment : Nat → TM Unit
  | 0 => M.diverge
  | fuel + 1 => do
    match ← M.attempt tkNext with
    | .ok ch => if ch = '\n' then pure () else skipComment fuel
    | .error _ => pure ()

/-- parser.rs:342-349: `while let Ok(ch) = self.peek() { ... self.next()?; ... }` -/
def skipWhitespace (E : Env F) : Nat → TM Unit
  | 0 => M.diverge
  | fuel + 1 => do
    match ← M.attempt tkPeek with
    | .ok ch =>
      if E.isWhitespace ch then
        let _ ← tkNext
        skipWhitespace E fuel
      else pure ()
    | .error _ => pure ()

/-- parser.rs:313-359 `Tokenizer::tokenize_one` (first argument: fuel, also handed to the loops
    it calls). -/
def tokenizeOne (E : Env F) : Nat → TM (Token F)
  | 0 => M.diverge
  | fuel + 1 => do
    match ← M.attempt tkPeek with
    | .ok '#' =>
      skipComment (fuel + 1)
      tokenizeOne E fuel
    | .ok '"' => tokenizeStr (fuel + 1)
    | .ok '[' =>
      let pos ← tkPos
      let _ ← M.attempt tkNext
      pure ⟨pos, .LBracket⟩
    | .ok ']' =>
      let pos ← tkPos
      let _ ← M.attempt tkNext
      pure ⟨pos, .RBracket⟩
    | .ok c =>
      if c = '-' ∨ c = '+' ∨ c = '.' ∨ E.isNumeric c then tokenizeNum E (fuel + 1)
      else if E.isWhitespace c then
        skipWhitespace E (fuel + 1)
        tokenizeOne E fuel
      else if E.isAlphabetic c then tokenizeId E (fuel + 1)
      else
        let p ← tkPos
        M.throw (.Str (p.fmt ++ " tokenize_one(): unexpected char '" ++ String.singleton c ++ "'"))
    | .error err => M.throw err

/-- parser.rs:276-282: the loop of `Tokenizer::tokenize`. `fuelOne` is the fuel given to every
    call of `tokenize_one`. -/
def tokenizeLoop (E : Env F) (fuelOne : Nat) : Nat → List (Token F) → TM (List (Token F))
  | 0, _ => M.diverge
  | fuel + 1, tokens => do
    let self ← theSelf
    if !self.isEmpty then
      match ← M.attempt (tokenizeOne E fuelOne) with
      | .ok tok => tokenizeLoop E fuelOne fuel (tokens ++ [tok])
      | .error .Eof => pure tokens
      | .error err => M.throw err
    else pure tokens

/-- parser.rs:273-284 `Tokenizer::tokenize`, and the number of reads of characters -/
def tokenize (E : Env F) (input : List Char) : Res TokenizerError (List (Token F)) × Nat :=
  let r := tokenizeLoop E (lexFuel input) (lexFuel input) [] ⟨Tokenizer.new input, 0⟩
  (r.1, r.2.reads)

/-! ### The parser -/

/-- A parser method. -/
abbrev PM (F : Type) (α : Type) := M (Counted (Parser F)) ParserError α

/-- parser.rs:530-536 `Parser::peek` -/
def peek : PM F (Token F) := counting 1 Pbrt.peek
/-- parser.rs:538-545 `Parser::next` -/
def next : PM F (Token F) := counting 1 Pbrt.next
/-- parser.rs:551-557 `Parser::pos` -/
def pos : PM F Pos := counting 1 Pbrt.pos
/-- parser.rs:559-561 `Parser::set_index` -/
def setIndex (index : Nat) : PM F Unit := counting 0 (Pbrt.setIndex index)
/-- `self.index` -/
def getIndex : PM F Nat := counting 0 Pbrt.getIndex

/-- `v[i]` on a vector: out of bounds panics. -/
def idx {α : Type} (v : List α) (i : Nat) : PM F α :=
  match v[i]? with
  | some a => pure a
  | none => M.panic

/-- parser.rs:823-841 `Parser::parse_int` -/
def parseInt (E : Env F) : PM F Int := do
  match ← M.attempt peek with
  | .ok ⟨_, .Int i⟩ =>
    let _ ← M.attempt next
    pure i
  | .ok ⟨pos, ty⟩ =>
    M.throw (.Str (pos.fmt ++ " parse_int(): expected int but got " ++ ty.debug E))
  | .error .Eof => M.throw (.Str "parse_int(): EOF while parsing int")
  | .error err => M.throw err

/-- parser.rs:843-861 `Parser::parse_string` -/
def parseString (E : Env F) : PM F String := do
  match ← M.attempt peek with
  | .ok ⟨_, .Str s⟩ =>
    let _ ← M.attempt next
    pure s
  | .ok ⟨pos, ty⟩ =>
    M.throw (.Str (pos.fmt ++ " parse_string(): expected string but got " ++ ty.debug E))
  | .error .Eof => M.throw (.Str "parse_string(): EOF while processing string")
  | .error err => M.throw err

/-- parser.rs:863-881 `Parser::parse_identifier` -/
def parseIdentifier (E : Env F) : PM F String := do
  match ← M.attempt peek with
  | .ok ⟨_, .Identifier id⟩ =>
    let _ ← M.attempt next
    pure id
  | .ok ⟨pos, ty⟩ =>
    M.throw (.Str (pos.fmt ++ " parse_identifier(): expected identifier but got " ++ ty.debug E))
  | .error .Eof => M.throw (.Str "parse_identifier(): EOF while processing identifier")
  | .error err => M.throw err

/-- parser.rs:883-911 `Parser::parse_bool` -/
def parseBool (E : Env F) : PM F Bool := do
  match ← M.attempt peek with
  | .ok ⟨pos, .Str s⟩ =>
    if s = "true" then
      let _ ← next
      pure true
    else if s = "false" then
      let _ ← next
      pure false
    else
      M.throw (.Str (pos.fmt ++ " parse_bool(): expected bool but got " ++ E.dbgStr s))
  | .ok ⟨pos, ty⟩ =>
    M.throw (.Str (pos.fmt ++ " parse_bool(): expected int but got " ++ ty.debug E))
  | .error .Eof => M.throw (.Str "parse_bool(): EOF while parsing bool")
  | .error err => M.throw err

/-- parser.rs:913-938 `Parser::parse_float` -/
def parseFloat (E : Env F) : PM F F := do
  match ← M.attempt peek with
  | .ok ⟨_, .Float f⟩ =>
    let _ ← next
    pure f
  | .ok ⟨_, .Int i⟩ =>
    let _ ← next
    pure (E.ofIsize i)
  | .ok ⟨pos, ty⟩ =>
    M.throw (.Str (pos.fmt ++ " parse_float(): expected float but got " ++ ty.debug E))
  | .error .Eof => M.throw (.Str "parse_float(): EOF while parsing float")
  | .error err => M.throw err

/-- parser.rs:949-965: the loop of `parse_many` (second argument: fuel). -/
def parseManyLoop {T : Type} (parser : PM F T) (name : String) : Nat → List T → PM F (List T)
  | 0, _ => M.diverge
  | fuel + 1, values => do
    match ← M.attempt parser with
    | .ok i => parseManyLoop parser name fuel (values ++ [i])
    | .error err =>
      if values = [] then
        M.throw (.Str ("parse_many_" ++ name ++ "s(): error while processing " ++ name ++ "s:\n  "
          ++ err.display))
      else
        pure values

/-- parser.rs:944-966 `Parser::parse_many`.  Fuel: one more than the number of tokens. -/
def parseMany {T : Type} (parser : PM F T) (name : String) : PM F (List T) := do
  let self ← theSelf
  parseManyLoop parser name (self.tokens.length + 1) []

/-- parser.rs:940-942 `Parser::parse_floats` -/
def parseFloats (E : Env F) : PM F (List F) := parseMany (parseFloat E) "float"

/-- parser.rs:976-991: the loop of `parse_n`; `k` is the number of iterations left. -/
def parseNLoop {T : Type} (E : Env F) (parser : PM F T) (n : Nat) (name : String)
    (startIndex : Nat) : Nat → List T → PM F (List T)
  | 0, values => pure values
  | k + 1, values => do
    match ← M.attempt parser with
    | .ok i => parseNLoop E parser n name startIndex k (values ++ [i])
    | .error err =>
      setIndex startIndex
      M.throw (.Str ("parse_" ++ toString n ++ "_" ++ name ++ "s(): error while processing "
        ++ name ++ "s:\n  " ++ err.debug E))

/-- parser.rs:968-992 `Parser::parse_n` -/
def parseN {T : Type} (E : Env F) (parser : PM F T) (n : Nat) (name : String) :
    PM F (List T) := do
  if n > 0 then
    let startIndex ← getIndex
    parseNLoop E parser n name startIndex n []
  else M.panic

/-- parser.rs:691-744 `Parser::parse_list` -/
def parseList {T : Type} (E : Env F) (parser : PM F T) (name : String) : PM F (List T) := do
  match ← M.attempt peek with
  | .ok ⟨startPos, .LBracket⟩ =>
    let _ ← M.attempt next
    let values ← parseMany parser name
    match ← M.attempt peek with
    | .ok ⟨_, .RBracket⟩ =>
      if values = [] then
        M.throw (.Str (startPos.fmt ++ " parse_list_" ++ name ++ "(): parsed empty list"))
      else
        let _ ← next
        pure values
    | .ok ⟨pos, ty⟩ =>
      M.throw (.Str (pos.fmt ++ " parse_list_" ++ name ++ "(): expected ']' but got " ++ ty.debug E))
    | .error .Eof => M.throw (.Str ("parse_list_" ++ name ++ "(): EOF while processing list"))
    | .error err => M.throw err
  | .ok ⟨pos, ty⟩ =>
    M.throw (.Str (pos.fmt ++ " parse_list_" ++ name ++ "(): expected '[' but got " ++ ty.debug E))
  | .error .Eof => M.throw (.Str ("parse_list_" ++ name ++ "(): EOF while processing list"))
  | .error err => M.throw err

/-- parser.rs:746-802 `Parser::parse_list_of_n` -/
def parseListOfN {T : Type} (E : Env F) (parser : PM F T) (n : Nat) (name : String) :
    PM F (List T) := do
  match ← M.attempt peek with
  | .ok ⟨startPos, .LBracket⟩ =>
    let _ ← M.attempt next
    let values ← parseN E parser n name
    match ← M.attempt peek with
    | .ok ⟨_, .RBracket⟩ =>
      if values = [] then
        M.throw (.Str (startPos.fmt ++ " parse_list_of_" ++ toString n ++ "_" ++ name
          ++ "s(): parsed empty list"))
      else
        let _ ← next
        pure values
    | .ok ⟨pos, ty⟩ =>
      M.throw (.Str (pos.fmt ++ " parse_list_of_" ++ toString n ++ "_" ++ name
        ++ "s(): expected ']' but got " ++ ty.debug E))
    | .error .Eof =>
      M.throw (.Str ("parse_list_of_n_" ++ name ++ "s(): EOF while processing list"))
    | .error err => M.throw err
  | .ok ⟨pos, ty⟩ =>
    M.throw (.Str (pos.fmt ++ " parse_list_of_n_" ++ name ++ "s(): expected '[' but got "
      ++ ty.debug E))
  | .error .Eof => M.throw (.Str ("parse_list_of_n_" ++ name ++ "(): EOF while processing list"))
  | .error err => M.throw err

/-- parser.rs:804-821 `Parser::parse_one_or_list` -/
def parseOneOrList {T : Type} (E : Env F) (parser : PM F T) (name : String) :
    PM F (List T) := do
  match ← M.attempt peek with
  | .ok ⟨_, .LBracket⟩ => parseList E parser name
  | .ok _ =>
    let v ← parser
    pure [v]
  | .error .Eof =>
    M.throw (.Str ("parse_one_or_list_" ++ name ++ "(): EOF while processing list"))
  | .error err => M.throw err

/-- parser.rs:994-997 `Parser::parse_point2f` -/
def parsePoint2f (E : Env F) : PM F (Point2f F) := do
  let floats ← parseN E (parseFloat E) 2 "float"
  pure ⟨← idx floats 0, ← idx floats 1⟩

/-- parser.rs:999-1002 `Parser::parse_vector2f` -/
def parseVector2f (E : Env F) : PM F (Vector2f F) := do
  let floats ← parseN E (parseFloat E) 2 "float"
  pure ⟨← idx floats 0, ← idx floats 1⟩

/-- `floats.chunks(2).map(|chunk| (chunk[0], chunk[1])).collect()` (parser.rs:1336): a last chunk
    of one element makes `chunk[1]` panic. -/
def chunks2 {α : Type} : List α → PM F (List (α × α))
  | [] => pure []
  | [_] => M.panic
  | a :: b :: rest => do
    let r ← chunks2 rest
    pure ((a, b) :: r)

/-- parser.rs:1321-1356 `Parser::parse_spectrum` -/
def parseSpectrum (E : Env F) : PM F (Spectrum F) := do
  match ← M.attempt peek with
  | .ok ⟨pos, .LBracket⟩ =>
    let floats ← parseList E (parseFloat E) "float"
    if floats.length % 2 ≠ 0 then
      M.throw (.Str (pos.fmt ++ " parse_spectrum(): Expected an even number of floats but got "
        ++ toString floats.length))
    else
      let samples ← chunks2 floats
      pure (.Spectrum samples)
  | .ok ⟨_, .Str s⟩ =>
    let _ ← next
    pure (.File s)
  | .ok ⟨pos, ty⟩ =>
    M.throw (.Str (pos.fmt ++ " parse_spectrum(): expected '[' or string but got " ++ ty.debug E))
  | .error .Eof => M.throw (.Str "parse_spectrum(): EOF while processing spectrum")
  | .error err => M.throw err

/-- parser.rs:568-689 `Parser::parse_param_list`.  `param_set: &mut ParamSet` becomes an argument
    and a result; it is only modified after everything succeeded. -/
def parseParamList (E : Env F) (ps : ParamSet F) : PM F (ParamSet F) := do
  match ← M.attempt peek with
  | .ok ⟨pos, .Str s⟩ =>
    let splitS := splitWhitespace E s
    if splitS.length ≠ 2 then
      M.throw (.Str (pos.fmt ++
        " parse_param_list(): expecting a string with two arguments but got " ++ s))
    else
      let ty ← idx splitS 0
      let var ← idx splitS 1
      if ty = "integer" then
        let _ ← next
        let v ← parseOneOrList E (parseInt E) "int"
        pure { ps with ints := ps.ints ++ [⟨var, pos, v⟩] }
      else if ty = "float" then
        let _ ← next
        let v ← parseOneOrList E (parseFloat E) "float"
        pure { ps with floats := ps.floats ++ [⟨var, pos, v⟩] }
      else if ty = "point2" then
        let _ ← next
        let v ← parseList E (parsePoint2f E) "point2f"
        pure { ps with point2fs := ps.point2fs ++ [⟨var, pos, v⟩] }
      else if ty = "vector2" then
        let _ ← next
        let v ← parseList E (parseVector2f E) "vector2f"
        pure { ps with vector2fs := ps.vector2fs ++ [⟨var, pos, v⟩] }
      else if ty = "bool" then
        let _ ← next
        let v ← parseOneOrList E (parseBool E) "bool"
        pure { ps with bools := ps.bools ++ [⟨var, pos, v⟩] }
      else if ty = "string" then
        let _ ← next
        let v ← parseOneOrList E (parseString E) "string"
        pure { ps with strings := ps.strings ++ [⟨var, pos, v⟩] }
      else if ty = "rgb" then
        let _ ← next
        let rgb ← parseListOfN E (parseFloat E) 3 "float"
        let v : Spectrum F := .Rgb (← idx rgb 0) (← idx rgb 1) (← idx rgb 2)
        pure { ps with spectra := ps.spectra ++ [⟨var, pos, [v]⟩] }
      else if ty = "xyz" then
        let _ ← next
        let rgb ← parseListOfN E (parseFloat E) 3 "float"
        let v : Spectrum F := .Xyz (← idx rgb 0) (← idx rgb 1) (← idx rgb 2)
        pure { ps with spectra := ps.spectra ++ [⟨var, pos, [v]⟩] }
      else if ty = "spectrum" then
        let _ ← next
        let v ← parseSpectrum E
        pure { ps with spectra := ps.spectra ++ [⟨var, pos, [v]⟩] }
      else if ty = "blackbody" then
        let _ ← next
        let rgb ← parseListOfN E (parseFloat E) 2 "float"
        let v : Spectrum F := .Blackbody (← idx rgb 0) (← idx rgb 1)
        pure { ps with spectra := ps.spectra ++ [⟨var, pos, [v]⟩] }
      else if ty = "texture" then
        let _ ← next
        let v ← parseString E
        pure { ps with textures := ps.textures ++ [⟨var, pos, [v]⟩] }
      else
        M.throw (.Str (pos.fmt ++ " parse_param_list(): expecting a type but got " ++ ty))
  | .ok ⟨pos, ty⟩ =>
    M.throw (.Str (pos.fmt ++ " parse_param_list(): expected param list, got " ++ ty.debug E))
  | .error .Eof => M.throw (.Str "parse_param_list(): EOF while processing param list")
  | .error err => M.throw err

/-- parser.rs:564: `while self.parse_param_list(param_set).is_ok() {}` (second argument: fuel). -/
def paramListsLoop (E : Env F) : Nat → ParamSet F → PM F (ParamSet F)
  | 0, _ => M.diverge
  | fuel + 1, ps => do
    match ← M.attempt (parseParamList E ps) with
    | .ok ps' => paramListsLoop E fuel ps'
    | .error _ => pure ps

/-- parser.rs:563-566 `Parser::parse_param_lists`.  Fuel: one more than the number of tokens. -/
def parseParamLists (E : Env F) (ps : ParamSet F) : PM F (ParamSet F) := do
  let self ← theSelf
  paramListsLoop E (self.tokens.length + 1) ps

mutual
/-- parser.rs:1004-1079 `Parser::parse_directive` (second argument: fuel). -/
def parseDirective (E : Env F) : Nat → PM F (Directive F)
  | 0 => M.diverge
  | fuel + 1 => do
    let startPos ← pos
    let id ← parseIdentifier E
    if id = "Material" then
      let ty ← parseString E
      let ps ← parseParamLists E .default
      pure (.Material ⟨ty, startPos, ps⟩)
    else if id = "Shape" then
      let ty ← parseString E
      let ps ← parseParamLists E .default
      pure (.Shape ⟨ty, startPos, ps⟩)
    else if id = "LightSource" then
      let ty ← parseString E
      let ps ← parseParamLists E .default
      pure (.LightSource ⟨ty, startPos, ps⟩)
    else if id = "AreaLightSource" then
      let ty ← parseString E
      let ps ← parseParamLists E .default
      pure (.AreaLightSource ⟨ty, startPos, ps⟩)
    else if id = "AttributeBegin" then
      let children ← directivesLoop E fuel []
      pure (.Attribute startPos children)
    else if id = "TransformBegin" then
      let children ← directivesLoop E fuel []
      pure (.Transform startPos children)
    else if id = "WorldBegin" then
      let children ← directivesLoop E fuel []
      pure (.World startPos children)
    else if id = "Include" then
      let path ← parseString E
      pure (.Include startPos path)
    else if id = "Texture" then
      let name ← parseString E
      let ty ← parseString E
      let cls ← parseString E
      let ps ← parseParamLists E .default
      pure (.Texture ⟨name, ty, cls, startPos, ps⟩)
    else
      M.throw (.Str (startPos.fmt ++ " parse_directive(): unknown identifier " ++ id))

/-- parser.rs:1081-1103 `Parser::parse_directives`: the loop, started with `directives = []`. -/
def directivesLoop (E : Env F) : Nat → List (Directive F) → PM F (List (Directive F))
  | 0, _ => M.diverge
  | fuel + 1, directives => do
    match ← peek with
    | ⟨_, .Identifier s⟩ =>
      if s = "AttributeEnd" ∨ s = "TransformEnd" ∨ s = "WorldEnd" then pure directives
      else
        let d ← parseDirective E fuel
        directivesLoop E fuel (directives ++ [d])
    | ⟨pos, ty⟩ =>
      M.throw (.Str (pos.fmt
        ++ " parse_directives(): expected identifier or block close but got " ++ ty.debug E))
end

/-- parser.rs:1105-1295 `Parser::parse_predirective` -/
def parsePredirective (E : Env F) : PM F (PreDirective F) := do
  let startPos ← pos
  let id ← parseIdentifier E
  if id = "Identity" then pure (.Identity startPos)
  else if id = "Translate" then
    let floats ← parseFloats E
    if floats.length ≠ 3 then M.throw (wrongCount startPos "Translate" 3 floats.length)
    else pure (.Translate startPos ⟨← idx floats 0, ← idx floats 1, ← idx floats 2⟩)
  else if id = "Scale" then
    let floats ← parseFloats E
    if floats.length ≠ 3 then M.throw (wrongCount startPos "Scale" 3 floats.length)
    else pure (.Scale startPos ⟨← idx floats 0, ← idx floats 1, ← idx floats 2⟩)
  else if id = "Rotate" then
    let floats ← parseFloats E
    if floats.length ≠ 4 then M.throw (wrongCount startPos "Rotate" 4 floats.length)
    else pure (.Rotate startPos (← idx floats 0) ⟨← idx floats 1, ← idx floats 2, ← idx floats 3⟩)
  else if id = "LookAt" then
    let floats ← parseFloats E
    if floats.length ≠ 9 then M.throw (wrongCount startPos "LookAt" 9 floats.length)
    else pure (.LookAt startPos
      ⟨← idx floats 0, ← idx floats 1, ← idx floats 2, ← idx floats 3, ← idx floats 4,
       ← idx floats 5, ← idx floats 6, ← idx floats 7, ← idx floats 8⟩)
  else if id = "CoordinateSystem" then
    let name ← parseString E
    pure (.CoordinateSystem startPos name)
  else if id = "CoordSysTransform" then
    let name ← parseString E
    pure (.CoordSysTransform startPos name)
  else if id = "Transform" then
    let floats ← parseFloats E
    if floats.length ≠ 9 then M.throw (wrongCount startPos "Transform" 9 floats.length)
    else pure (.Transform startPos
      ⟨← idx floats 0, ← idx floats 1, ← idx floats 2, ← idx floats 3, ← idx floats 4,
       ← idx floats 5, ← idx floats 6, ← idx floats 7, ← idx floats 8⟩)
  else if id = "ConcatTransform" then
    let floats ← parseFloats E
    if floats.length ≠ 9 then M.throw (wrongCount startPos "ConcatTransform" 9 floats.length)
    else pure (.ConcatTransform startPos
      ⟨← idx floats 0, ← idx floats 1, ← idx floats 2, ← idx floats 3, ← idx floats 4,
       ← idx floats 5, ← idx floats 6, ← idx floats 7, ← idx floats 8⟩)
  else if id = "ActiveTransform" then
    let id ← parseIdentifier E
    pure (.ActiveTransform startPos id)
  else if id = "TransformTimes" then
    let floats ← parseFloats E
    if floats.length ≠ 2 then M.throw (wrongCount startPos "TransformTimes" 2 floats.length)
    else pure (.TransformTimes startPos (← idx floats 0) (← idx floats 1))
  else if id = "Camera" then
    let ty ← parseString E
    let ps ← parseParamLists E .default
    pure (.Camera ⟨ty, startPos, ps⟩)
  else if id = "Sampler" then
    let ty ← parseString E
    let ps ← parseParamLists E .default
    pure (.Sampler ⟨ty, startPos, ps⟩)
  else if id = "Film" then
    let ty ← parseString E
    let ps ← parseParamLists E .default
    pure (.Film ⟨ty, startPos, ps⟩)
  else if id = "Filter" then
    let ty ← parseString E
    let ps ← parseParamLists E .default
    pure (.Filter ⟨ty, startPos, ps⟩)
  else if id = "Integrator" then
    let ty ← parseString E
    let ps ← parseParamLists E .default
    pure (.Integrator ⟨ty, startPos, ps⟩)
  else if id = "Accelerator" then
    let ty ← parseString E
    let ps ← parseParamLists E .default
    pure (.Accelerator ⟨ty, startPos, ps⟩)
  else if id = "Include" then
    let path ← parseString E
    pure (.Include startPos path)
  else
    M.throw (.Str (startPos.fmt ++ " parse_predirective(): Unknown predirective: " ++ id))

/-- parser.rs:1297-1319 `Parser::parse_predirectives`: the loop (second argument: fuel). -/
def predirectivesLoop (E : Env F) : Nat → List (PreDirective F) → PM F (List (PreDirective F))
  | 0, _ => M.diverge
  | fuel + 1, predirectives => do
    match ← peek with
    | ⟨_, .Identifier s⟩ =>
      if s = "WorldBegin" then pure predirectives
      else
        let d ← parsePredirective E
        predirectivesLoop E fuel (predirectives ++ [d])
    | ⟨pos, ty⟩ =>
      M.throw (.Str (pos.fmt ++ " parse_predirectives(): expected predirective but got "
        ++ ty.debug E))

/-- parser.rs:1360: what `Parser::parse` does with the token list, with explicit fuel. -/
def parseTokensFuel (E : Env F) (fuel : Nat) : PM F (List (PreDirective F) × Directive F) := do
  let pre ← predirectivesLoop E fuel []
  let world ← parseDirective E fuel
  pure (pre, world)

/-- `Parser::parse` after tokenization, and the number of reads of tokens -/
def parseTokens (E : Env F) (tokens : List (Token F)) :
    Res ParserError (List (PreDirective F) × Directive F) × Nat :=
  let r := parseTokensFuel E (parseFuel tokens) ⟨⟨tokens, 0⟩, 0⟩
  (r.1, r.2.reads)

/-- parser.rs:523-528, 1358-1361 `Parser::new` and `Parser::parse`, and the number of reads of
    characters and tokens -/
def parse (E : Env F) (input : List Char) :
    Res ParserError (List (PreDirective F) × Directive F) × Nat :=
  match tokenize E input with
  | (.ok tokens, n) => ((parseTokens E tokens).1, n + (parseTokens E tokens).2)
  | (.err e, n) => (.err (.ofTokenizer e), n)
  | (.panic, n) => (.panic, n)
  | (.diverge, n) => (.diverge, n)

end Pbrt.Cost
