import Verif.Model.Parser

/-!
# `{:?}` of strings

`TokenType` and `ParserError` derive `Debug` (parser.rs:195, 227), and the messages of the parser contain
tokens shown with `{:?}`.  `TokenType.debug` in `Verif.Model.Parser` leaves the text of a string to
`Env.dbgStr`.  This file follows `<str as Debug>::fmt` of the standard library: a string stands between
double quotes, and every character is written as by `char::escape_debug`.

Simplification: which characters are written as they are is a table of the Unicode version of the library;
it is a parameter, as are the points in which versions of the library differ.
-/

namespace Pbrt

/-- What differs between versions of the standard library -/
structure DebugTable where
  /-- is the character written as it is (printable and no combining mark)? -/
  plain : Char → Bool
  /-- is `'` written as `\'` in strings? (older versions) -/
  quote : Bool
  /-- is the character 0 written as `\0`? (newer versions) -/
  nul : Bool

/-- The letter after the backslash, for characters with a short escape -/
def DebugTable.letter (D : DebugTable) (c : Char) : Option Char :=
  if c = '\t' then some 't'
  else if c = '\r' then some 'r'
  else if c = '\n' then some 'n'
  else if c = '"' then some '"'
  else if c = '\\' then some '\\'
  else if c = '\'' then (if D.quote then some '\'' else none)
  else if c = Char.ofNat 0 then (if D.nul then some '0' else none)
  else none

/-- `char::escape_debug` -/
def DebugTable.escape (D : DebugTable) (c : Char) : List Char :=
  match D.letter c with
  | some l => ['\\', l]
  | none => if D.plain c then [c] else '\\' :: 'u' :: '{' :: (Nat.toDigits 16 c.toNat ++ ['}'])

/-- `<str as Debug>::fmt` -/
def DebugTable.str (D : DebugTable) (s : String) : String :=
  String.ofList ('"' :: (s.toList.flatMap D.escape ++ ['"']))

end Pbrt
