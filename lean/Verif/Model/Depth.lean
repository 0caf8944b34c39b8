import Verif.Model.Parser

/-!
# Model of the nesting of calls — the recursive functions with a limited call stack

`tokenize_one`, `tokenize_num` and `parse_directive` (through `parse_directives`) are the recursive
functions of `/repo/src/parser.rs`.  Here they are once more, with one more argument: the number of
calls of recursive functions that may be open at the same time.  A call beyond this number ends in
`diverge`, which stands for an exhausted stack; everything else is as in `Model/Lexer` and
`Model/Parser` (C85 proves that the results are the same whenever the stack is not exhausted).

Simplifications: only calls of these functions are counted, in all builds (an optimizing build may
turn some of the calls into jumps); the helper functions they call add a constant number of frames.
-/

namespace Pbrt

variable {F : Type}

mutual
/-- parser.rs:361-374 `Tokenizer::tokenize_num`, with `depth` calls left. -/
def tokenizeNumAt (E : Env F) : Nat → Nat → TM (Token F)
  | 0, _ => M.diverge
  | _ + 1, 0 => M.diverge
  | fuel + 1, depth + 1 => do
    let startPos ← tkPos
    let numChars ← (do
      match ← M.attempt tkPeek with
      | .ok '-' =>
        let _ ← M.attempt tkNext
        pure ['-']
      | .ok '+' =>
        let _ ← M.attempt tkNext
        pure []
      | _ => pure [])
    numLoopAt E fuel depth startPos numChars false

/-- parser.rs:375-434: the loop of `tokenize_num`; the call of `tokenize_num` for the exponent is at
    line 395. -/
def numLoopAt (E : Env F) : Nat → Nat → Pos → List Char → Bool → TM (Token F)
  | 0, _, _, _, _ => M.diverge
  | fuel + 1, depth, startPos, numChars, isFloat => do
    match ← M.attempt tkPeek with
    | .ok ch =>
      if E.isNumeric ch then
        let ch ← tkNext
        numLoopAt E fuel depth startPos (numChars ++ [ch]) isFloat
      else if ch = '.' then
        if isFloat then
          let p ← tkPos
          M.throw (.Str (p.fmt ++ " tokenize_num(): unexpected char '" ++ String.singleton ch ++ "'"))
        else
          let ch ← tkNext
          numLoopAt E fuel depth startPos (numChars ++ [ch]) true
      else if ch = 'e' then
        if numChars = [] then
          let p ← tkPos
          M.throw (noNumber p)
        else
          let _ ← M.attempt tkNext
          match (← tokenizeNumAt E fuel depth).removePos with
          | .Float f =>
            let m ← parseFloatM E numChars
            pure ⟨startPos, .Float (E.fmul m (E.powf10 f))⟩
          | .Int i =>
            if i ≥ 0 ∧ isFloat = false then
              let m ← parseIntM E numChars
              let p ← pow10M E i
              let v ← isizeOp E (m * p)
              pure ⟨startPos, .Int v⟩
            else
              let m ← parseFloatM E numChars
              pure ⟨startPos, .Float (E.fmul m (E.powf10 (E.ofIsize i)))⟩
          | _ => M.throw (noNumber startPos)
      else
        numFinish E startPos numChars isFloat
    | .error .Eof => numFinish E startPos numChars isFloat
    | .error err => M.throw err
end

/-- parser.rs:313-359 `Tokenizer::tokenize_one`, with `depth` calls left; it calls itself after a comment
    (line 321) and after white space (line 350). -/
def tokenizeOneAt (E : Env F) : Nat → Nat → TM (Token F)
  | 0, _ => M.diverge
  | _ + 1, 0 => M.diverge
  | fuel + 1, depth + 1 => do
    match ← M.attempt tkPeek with
    | .ok '#' =>
      skipComment (fuel + 1)
      tokenizeOneAt E fuel depth
    | .ok '"' => tokenizeStr (fuel + 1)
    | .ok '[' =>
      let pos ← tkPos
      let _ ← M.attempt tkNext
      pure ⟨pos, .LBracket⟩
    | .ok ']' =>
      let pos ← tkPos
      let _ ← M.attempt tkNext
      pure ⟨pos, .RBracket⟩
    | .ok c =>
      if c = '-' ∨ c = '+' ∨ c = '.' ∨ E.isNumeric c then tokenizeNumAt E (fuel + 1) depth
      else if E.isWhitespace c then
        skipWhitespace E (fuel + 1)
        tokenizeOneAt E fuel depth
      else if E.isAlphabetic c then tokenizeId E (fuel + 1)
      else
        let p ← tkPos
        M.throw (.Str (p.fmt ++ " tokenize_one(): unexpected char '" ++ String.singleton c ++ "'"))
    | .error err => M.throw err

/-- parser.rs:276-282: the loop of `Tokenizer::tokenize`. -/
def tokenizeLoopAt (E : Env F) (depth fuelOne : Nat) : Nat → List (Token F) → TM (List (Token F))
  | 0, _ => M.diverge
  | fuel + 1, tokens => do
    let self ← M.get
    if !self.isEmpty then
      match ← M.attempt (tokenizeOneAt E fuelOne depth) with
      | .ok tok => tokenizeLoopAt E depth fuelOne fuel (tokens ++ [tok])
      | .error .Eof => pure tokens
      | .error err => M.throw err
    else pure tokens

/-- parser.rs:273-284 `Tokenizer::tokenize` with room for `depth` nested calls. -/
def tokenizeAt (E : Env F) (depth : Nat) (input : List Char) : Res TokenizerError (List (Token F)) :=
  (tokenizeLoopAt E depth (lexFuel input) (lexFuel input) [] (Tokenizer.new input)).1

mutual
/-- parser.rs:1004-1079 `Parser::parse_directive`, with `depth` calls left. -/
def parseDirectiveAt (E : Env F) : Nat → Nat → PM F (Directive F)
  | 0, _ => M.diverge
  | _ + 1, 0 => M.diverge
  | fuel + 1, depth + 1 => do
    let startPos ← pos
    let id ← parseIdentifier E
    if id = "Material" then
      let ty ← parseString E
      let ps ← parseParamLists E .default
      pure (.Material ⟨ty, startPos, ps⟩)
    else if id = "Shape" then
      let ty ← parseString E
      let ps ← parseParamLists E .default
      pure (.Shape ⟨ty, startPos, ps⟩)
    else if id = "LightSource" then
      let ty ← parseString E
      let ps ← parseParamLists E .default
      pure (.LightSource ⟨ty, startPos, ps⟩)
    else if id = "AreaLightSource" then
      let ty ← parseString E
      let ps ← parseParamLists E .default
      pure (.AreaLightSource ⟨ty, startPos, ps⟩)
    else if id = "AttributeBegin" then
      let children ← directivesLoopAt E fuel depth []
      pure (.Attribute startPos children)
    else if id = "TransformBegin" then
      let children ← directivesLoopAt E fuel depth []
      pure (.Transform startPos children)
    else if id = "WorldBegin" then
      let children ← directivesLoopAt E fuel depth []
      pure (.World startPos children)
    else if id = "Include" then
      let path ← parseString E
      pure (.Include startPos path)
    else if id = "Texture" then
      let name ← parseString E
      let ty ← parseString E
      let cls ← parseString E
      let ps ← parseParamLists E .default
      pure (.Texture ⟨name, ty, cls, startPos, ps⟩)
    else
      M.throw (.Str (startPos.fmt ++ " parse_directive(): unknown identifier " ++ id))

/-- parser.rs:1081-1103 `Parser::parse_directives`: the loop, started with `directives = []`. -/
def directivesLoopAt (E : Env F) : Nat → Nat → List (Directive F) → PM F (List (Directive F))
  | 0, _, _ => M.diverge
  | fuel + 1, depth, directives => do
    match ← peek with
    | ⟨_, .Identifier s⟩ =>
      if s = "AttributeEnd" ∨ s = "TransformEnd" ∨ s = "WorldEnd" then pure directives
      else
        let d ← parseDirectiveAt E fuel depth
        directivesLoopAt E fuel depth (directives ++ [d])
    | ⟨pos, ty⟩ =>
      M.throw (.Str (pos.fmt
        ++ " parse_directives(): expected identifier or block close but got " ++ ty.debug E))
end

/-- parser.rs:1360: what `Parser::parse` does with the token list, with room for `depth` nested calls. -/
def parseTokensAt (E : Env F) (depth : Nat) (tokens : List (Token F)) :
    Res ParserError (List (PreDirective F) × Directive F) :=
  ((do
    let pre ← predirectivesLoop E (parseFuel tokens) []
    let world ← parseDirectiveAt E (parseFuel tokens) depth
    pure (pre, world)) ⟨tokens, 0⟩ : Res ParserError _ × Parser F).1

/-- parser.rs:523-528, 1358-1361 `Parser::new` and `Parser::parse`, with room for `depth` nested calls. -/
def parseAt (E : Env F) (depth : Nat) (input : List Char) :
    Res ParserError (List (PreDirective F) × Directive F) :=
  match tokenizeAt E depth input with
  | .ok tokens => parseTokensAt E depth tokens
  | .err e => .err (.ofTokenizer e)
  | .panic => .panic
  | .diverge => .diverge

end Pbrt
