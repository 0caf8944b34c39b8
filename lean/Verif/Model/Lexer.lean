import Verif.Model.Basic

/-!
# Model of the tokenizer — `/repo/src/parser.rs` lines 6–34, 195–231, 242–520

Simplifications (all of them are listed in DESIGN.md):
* `usize` counters (`index`, rows, columns) are natural numbers: they are bounded by the length
  of a text held in memory;
* `isize` is the 64-bit one; values are integers with an explicit range check;
* `Vec<char>`/`String` are `List Char`/`String`;
* functions of the Rust standard library that are not part of the repository are the fields of
  `Env`.
-/

namespace Pbrt

/-- The parts of the Rust standard library (and of the build mode) the parser depends on.
`F` is the type `Float` of `/repo/src/core/mod.rs:31-34`. -/
structure Env (F : Type) where
  /-- `char::is_numeric` (Unicode Nd, Nl, No) -/
  isNumeric : Char → Bool
  /-- `char::is_alphabetic` -/
  isAlphabetic : Char → Bool
  /-- `char::is_whitespace` (Unicode White_Space) -/
  isWhitespace : Char → Bool
  /-- `str::parse::<Float>`; the error is `ParseFloatError::to_string` -/
  parseFloat : List Char → Except String F
  /-- `ParseIntError::to_string` of the error of a failed `str::parse::<isize>` -/
  parseIntError : List Char → String
  /-- `*` on `Float` -/
  fmul : F → F → F
  /-- `Float::powf(10.0, _)` -/
  powf10 : F → F
  /-- `_ as Float` on `isize` -/
  ofIsize : Int → F
  /-- `{:?}` of a `Float` -/
  dbgFloat : F → String
  /-- `{:?}` of a `str` -/
  dbgStr : String → String
  /-- Is the crate built with overflow checks (debug build) or not (release build)? -/
  overflowChecks : Bool

variable {F : Type}

/-- `char::is_alphanumeric` of the standard library: alphabetic or numeric. -/
def Env.isAlphanumeric (E : Env F) (c : Char) : Bool := E.isAlphabetic c || E.isNumeric c

/-- parser.rs:6-10 `struct Pos` -/
structure Pos where
  r : Nat
  c : Nat
deriving DecidableEq, Repr

/-- parser.rs:12-16 `impl fmt::Display for Pos` -/
def Pos.fmt (p : Pos) : String := "(" ++ toString p.r ++ ", " ++ toString p.c ++ ")"

/-- parser.rs:195-203 `enum TokenType` -/
inductive TokenType (F : Type) where
  | Identifier (s : String)
  | Int (i : Int)
  | Float (f : F)
  | Str (s : String)
  | LBracket
  | RBracket
deriving DecidableEq

/-- parser.rs:24-28 `struct Token` -/
structure Token (F : Type) where
  pos : Pos
  ty : TokenType F
deriving DecidableEq

/-- parser.rs:30-34 `Token::remove_pos` -/
def Token.removePos (t : Token F) : TokenType F := t.ty

/-- parser.rs:205-211 `struct Tokenizer` -/
structure Tokenizer where
  chars : List Char
  index : Nat
  pos : Pos
  prevPos : Pos
deriving DecidableEq

/-- parser.rs:221-225 `enum TokenizerError` -/
inductive TokenizerError where
  | Str (s : String)
  | Eof
deriving DecidableEq

/-- A tokenizer method. -/
abbrev TM (α : Type) := M Tokenizer TokenizerError α

/-- `str::replace("\r\n", "\n")` on the characters of the text (used at parser.rs:266). -/
def replaceCrlf : List Char → List Char
  | '\r' :: '\n' :: cs => '\n' :: replaceCrlf cs
  | c :: cs => c :: replaceCrlf cs
  | [] => []

/-- parser.rs:264-271 `Tokenizer::new` -/
def Tokenizer.new (input : List Char) : Tokenizer where
  chars := replaceCrlf input
  index := 0
  pos := ⟨1, 1⟩
  prevPos := ⟨1, 1⟩

/-- parser.rs:309-311 `Tokenizer::is_empty` -/
def Tokenizer.isEmpty (t : Tokenizer) : Bool := decide (t.index ≥ t.chars.length)

/-- parser.rs:286-292 `Tokenizer::peek`; indexing out of bounds would panic. -/
def tkPeek : TM Char := fun t =>
  if !t.isEmpty then
    match t.chars[t.index]? with
    | some ch => (.ok ch, t)
    | none => (.panic, t)
  else
    (.err .Eof, t)

/-- parser.rs:294-307 `Tokenizer::next` -/
def tkNext : TM Char := fun t =>
  if t.isEmpty then
    (.err .Eof, t)
  else
    match t.chars[t.index]? with
    | none => (.panic, t)
    | some ch =>
      (.ok ch,
        { t with
          prevPos := t.pos
          pos := if ch = '\n' then ⟨t.pos.r + 1, 1⟩ else ⟨t.pos.r, t.pos.c + 1⟩
          index := t.index + 1 })

/-- `self.pos` -/
def tkPos : TM Pos := fun t => (.ok t.pos, t)
/-- `self.prev_pos` -/
def tkPrevPos : TM Pos := fun t => (.ok t.prevPos, t)

/-! ### `isize` of the standard library (64 bit) -/

def isizeMin : Int := -9223372036854775808
def isizeMax : Int := 9223372036854775807

/-- Does the integer fit in `isize`? -/
def inIsize (i : Int) : Bool := decide (isizeMin ≤ i) && decide (i ≤ isizeMax)

/-- Two's complement wrap-around to 64 bits. -/
def wrapIsize (i : Int) : Int := Int.bmod i 18446744073709551616

/-- Value of an ASCII decimal digit. -/
def digitVal (c : Char) : Option Nat :=
  if '0' ≤ c ∧ c ≤ '9' then some (c.toNat - '0'.toNat) else none

/-- Value of a string of ASCII digits read left to right from accumulator `acc`;
    `none` on a character that is not an ASCII digit. -/
def digitsVal : Nat → List Char → Option Nat
  | acc, [] => some acc
  | acc, c :: cs =>
    match digitVal c with
    | some d => digitsVal (10 * acc + d) cs
    | none => none

/-- An integer outside `isize` is an error of `str::parse::<isize>`. -/
def rangeCheck (i : Int) : Option Int := if inIsize i then some i else none

/-- `str::parse::<isize>` (standard library): an optional sign, at least one ASCII digit, value in
    range; `none` is `Err`. -/
def parseIsize : List Char → Option Int
  | [] => none
  | '-' :: ds => if ds = [] then none else (digitsVal 0 ds).bind fun n => rangeCheck (-(n : Int))
  | '+' :: ds => if ds = [] then none else (digitsVal 0 ds).bind fun n => rangeCheck n
  | ds => (digitsVal 0 ds).bind fun n => rangeCheck n

/-- `num_chars.into_iter().collect::<String>().parse::<isize>()?`
    (with `From<ParseIntError>`, parser.rs:242-246) -/
def parseIntM (E : Env F) (cs : List Char) : TM Int :=
  match parseIsize cs with
  | some i => pure i
  | none => M.throw (.Str (E.parseIntError cs))

/-- `num_chars.into_iter().collect::<String>().parse::<Float>()?`
    (with `From<ParseFloatError>`, parser.rs:248-252) -/
def parseFloatM (E : Env F) (cs : List Char) : TM F :=
  match E.parseFloat cs with
  | .ok f => pure f
  | .error e => M.throw (.Str e)

/-- Result of an `isize` operation whose exact value is `i`: overflow panics in a build with
    overflow checks and wraps around in a build without. -/
def isizeOp (E : Env F) (i : Int) : TM Int :=
  if inIsize i then pure i
  else if E.overflowChecks then M.panic
  else pure (wrapIsize i)

/-- `isize::pow(10, i as u32)` (parser.rs:410); the square-and-multiply of the standard library
    overflows exactly when the exact power does not fit. `as u32` keeps the low 32 bits. -/
def pow10M (E : Env F) (i : Int) : TM Int :=
  isizeOp E ((10 : Int) ^ (i.toNat % 4294967296))

/-- parser.rs:389-392, 424-427, 436-439 text `"{pos} tokenize_num(): ..."` -/
def noNumber (p : Pos) : TokenizerError := .Str (p.fmt ++ " tokenize_num(): no number")

mutual
/-- parser.rs:361-374 `Tokenizer::tokenize_num` up to the start of its loop.
    The first argument is the fuel of the recursion. -/
def tokenizeNum (E : Env F) : Nat → TM (Token F)
  | 0 => M.diverge
  | fuel + 1 => do
    let startPos ← tkPos
    let numChars ← (do
      match ← M.attempt tkPeek with
      | .ok '-' =>
        let _ ← M.attempt tkNext
        pure ['-']
      | .ok '+' =>
        let _ ← M.attempt tkNext
        pure []
      | _ => pure [])
    numLoop E fuel startPos numChars false

/-- parser.rs:375-434: the loop of `tokenize_num` (it ends in `numFinish`). -/
def numLoop (E : Env F) : Nat → Pos → List Char → Bool → TM (Token F)
  | 0, _, _, _ => M.diverge
  | fuel + 1, startPos, numChars, isFloat => do
    match ← M.attempt tkPeek with
    | .ok ch =>
      if E.isNumeric ch then
        let ch ← tkNext
        numLoop E fuel startPos (numChars ++ [ch]) isFloat
      else if ch = '.' then
        if isFloat then
          let p ← tkPos
          M.throw (.Str (p.fmt ++ " tokenize_num(): unexpected char '" ++ String.singleton ch ++ "'"))
        else
          let ch ← tkNext
          numLoop E fuel startPos (numChars ++ [ch]) true
      else if ch = 'e' then
        if numChars = [] then
          let p ← tkPos
          M.throw (noNumber p)
        else
          let _ ← M.attempt tkNext
          match (← tokenizeNum E fuel).removePos with
          | .Float f =>
            let m ← parseFloatM E numChars
            pure ⟨startPos, .Float (E.fmul m (E.powf10 f))⟩
          | .Int i =>
            if i ≥ 0 ∧ isFloat = false then
              let m ← parseIntM E numChars
              let p ← pow10M E i
              let v ← isizeOp E (m * p)
              pure ⟨startPos, .Int v⟩
            else
              let m ← parseFloatM E numChars
              pure ⟨startPos, .Float (E.fmul m (E.powf10 (E.ofIsize i)))⟩
          | _ => M.throw (noNumber startPos)
      else
        numFinish E startPos numChars isFloat
    | .error .Eof => numFinish E startPos numChars isFloat
    | .error err => M.throw err

/-- parser.rs:435-452: the end of `tokenize_num`, after the loop was left by `break`. -/
def numFinish (E : Env F) (startPos : Pos) (numChars : List Char) (isFloat : Bool) :
    TM (Token F) := do
  if numChars = [] then
    let p ← tkPos
    M.throw (noNumber p)
  else if isFloat then
    let f ← parseFloatM E numChars
    pure ⟨startPos, .Float f⟩
  else
    let i ← parseIntM E numChars
    pure ⟨startPos, .Int i⟩
end

/-- parser.rs:468-496: the loop of `tokenize_str` (first argument: fuel). -/
def strLoop : Nat → Pos → List Char → TM (Token F)
  | 0, _, _ => M.diverge
  | fuel + 1, startPos, strChars => do
    match ← M.attempt tkNext with
    | .ok '\\' =>
      match ← M.attempt tkNext with
      | .ok 'n' => strLoop fuel startPos (strChars ++ ['\n'])
      | .ok ch => strLoop fuel startPos (strChars ++ [ch])
      | .error .Eof =>
        let p ← tkPrevPos
        M.throw (.Str (p.fmt ++ " tokenize_str(): EOF while processing escape seq"))
      | .error err => M.throw err
    | .ok '"' => pure ⟨startPos, .Str (String.ofList strChars)⟩
    | .ok ch => strLoop fuel startPos (strChars ++ [ch])
    | .error .Eof =>
      let p ← tkPos
      M.throw (.Str (p.fmt ++ " tokenize_str(): EOF while processing string"))
    | .error err => M.throw err

/-- parser.rs:454-497 `Tokenizer::tokenize_str` -/
def tokenizeStr (fuel : Nat) : TM (Token F) := do
  let startPos ← tkPos
  match ← M.attempt tkNext with
  | .ok _ => strLoop fuel startPos []
  | .error .Eof =>
    let p ← tkPos
    M.throw (.Str (p.fmt ++ " tokenize_str(): EOF while processing string"))
  | .error err => M.throw err

/-- parser.rs:502-508: the loop of `tokenize_id` (first argument: fuel). -/
def idLoop (E : Env F) : Nat → List Char → TM (List Char)
  | 0, _ => M.diverge
  | fuel + 1, idChars => do
    match ← M.attempt tkPeek with
    | .ok ch =>
      if E.isAlphanumeric ch then
        let ch ← tkNext
        idLoop E fuel (idChars ++ [ch])
      else pure idChars
    | .error .Eof => pure idChars
    | .error err => M.throw err

/-- parser.rs:499-519 `Tokenizer::tokenize_id` -/
def tokenizeId (E : Env F) (fuel : Nat) : TM (Token F) := do
  let startPos ← tkPos
  let c ← tkNext
  let idChars ← idLoop E fuel [c]
  if idChars = [] then
    let p ← tkPos
    M.throw (.Str (p.fmt ++ " tokenize_id(): no identifier"))
  else
    pure ⟨startPos, .Identifier (String.ofList idChars)⟩

/-- parser.rs:316-320: `while let Ok(ch) = self.next() { if ch == '\n' { break; } }` -/
def skipComment : Nat → TM Unit
  | 0 => M.diverge
  | fuel + 1 => do
    match ← M.attempt tkNext with
    | .ok ch => if ch = '\n' then pure () else skipComment fuel
    | .error _ => pure ()

/-- parser.rs:342-349: `while let Ok(ch) = self.peek() { ... self.next()?; ... }` -/
def skipWhitespace (E : Env F) : Nat → TM Unit
  | 0 => M.diverge
  | fuel + 1 => do
    match ← M.attempt tkPeek with
    | .ok ch =>
      if E.isWhitespace ch then
        let _ ← tkNext
        skipWhitespace E fuel
      else pure ()
    | .error _ => pure ()

/-- parser.rs:313-359 `Tokenizer::tokenize_one` (first argument: fuel, also handed to the loops
    it calls). -/
def tokenizeOne (E : Env F) : Nat → TM (Token F)
  | 0 => M.diverge
  | fuel + 1 => do
    match ← M.attempt tkPeek with
    | .ok '#' =>
      skipComment (fuel + 1)
      tokenizeOne E fuel
    | .ok '"' => tokenizeStr (fuel + 1)
    | .ok '[' =>
      let pos ← tkPos
      let _ ← M.attempt tkNext
      pure ⟨pos, .LBracket⟩
    | .ok ']' =>
      let pos ← tkPos
      let _ ← M.attempt tkNext
      pure ⟨pos, .RBracket⟩
    | .ok c =>
      if c = '-' ∨ c = '+' ∨ c = '.' ∨ E.isNumeric c then tokenizeNum E (fuel + 1)
      else if E.isWhitespace c then
        skipWhitespace E (fuel + 1)
        tokenizeOne E fuel
      else if E.isAlphabetic c then tokenizeId E (fuel + 1)
      else
        let p ← tkPos
        M.throw (.Str (p.fmt ++ " tokenize_one(): unexpected char '" ++ String.singleton c ++ "'"))
    | .error err => M.throw err

/-- parser.rs:276-282: the loop of `Tokenizer::tokenize`. `fuelOne` is the fuel given to every
    call of `tokenize_one`. -/
def tokenizeLoop (E : Env F) (fuelOne : Nat) : Nat → List (Token F) → TM (List (Token F))
  | 0, _ => M.diverge
  | fuel + 1, tokens => do
    let self ← M.get
    if !self.isEmpty then
      match ← M.attempt (tokenizeOne E fuelOne) with
      | .ok tok => tokenizeLoop E fuelOne fuel (tokens ++ [tok])
      | .error .Eof => pure tokens
      | .error err => M.throw err
    else pure tokens

/-- parser.rs:273-284 `Tokenizer::tokenize`, with explicit fuel. -/
def tokenizeFuel (E : Env F) (fuel : Nat) (input : List Char) :
    Res TokenizerError (List (Token F)) :=
  (tokenizeLoop E fuel fuel [] (Tokenizer.new input)).1

/-- The fuel used by the model for a text: twice its length plus two (a number literal uses at
    most two units per character).  C01 proves that this, and every larger amount, is enough. -/
def lexFuel (input : List Char) : Nat := 2 * input.length + 2

/-- parser.rs:273-284 `Tokenizer::tokenize` -/
def tokenize (E : Env F) (input : List Char) : Res TokenizerError (List (Token F)) :=
  tokenizeFuel E (lexFuel input) input

end Pbrt
