import Verif.Model.Lexer

/-!
# Where the characters of a text stand

A character of a text stands outside of strings and comments, in a comment, or between quotes.  To
find out one only has to look for `#`, the line break, `"` and the backslash.
-/

namespace Pbrt.Spec

/-- Where a character stands -/
inductive Zone where
  /-- outside of strings and comments; the `#` and the opening quote themselves belong here -/
  | code
  /-- after a `#`, up to and including the line break -/
  | comment
  /-- between quotes, including the closing one -/
  | string
  /-- between quotes, directly after a backslash that escapes it -/
  | escape
deriving DecidableEq

/-- Where the next character stands -/
def Zone.after : Zone → Char → Zone
  | .code, c => if c = '#' then .comment else if c = '"' then .string else .code
  | .comment, c => if c = '\n' then .code else .comment
  | .string, c => if c = '"' then .code else if c = '\\' then .escape else .string
  | .escape, _ => .string

/-- The characters of a text, each with the place where it stands -/
def zones : Zone → List Char → List (Char × Zone)
  | _, [] => []
  | z, c :: cs => (c, z) :: zones (z.after c) cs

/-- The characters outside of strings and comments -/
def bareText (text : List Char) : List Char :=
  ((zones .code text).filter fun p => p.2 = .code).map Prod.fst

/-- The characters between quotes -/
def quotedText (text : List Char) : List Char :=
  ((zones .code text).filter fun p => p.2 = .string ∨ p.2 = .escape).map Prod.fst

/-- The two characters that open a comment or a string are not letters, digits or white space. -/
structure Delimiters {F : Type} (E : Env F) : Prop where
  numeric : E.isNumeric '#' = false ∧ E.isNumeric '"' = false
  alphabetic : E.isAlphabetic '#' = false ∧ E.isAlphabetic '"' = false
  whitespace : E.isWhitespace '#' = false ∧ E.isWhitespace '"' = false

end Pbrt.Spec
