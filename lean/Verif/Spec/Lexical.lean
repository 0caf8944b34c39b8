import Verif.Model.Lexer

/-!
# Specification of the lexical language

Written without any function of the tokenizer model: only its data types (`Pos`, `TokenType`,
`Token`) and the standard library parameter `Env` are used.
-/

namespace Pbrt.Spec

variable {F : Type}

/-! ### Rows and columns -/

/-- Position of the character that follows the text `pre`: the row is one plus the number of line
    feeds in `pre`, the column one plus the number of characters after the last line feed. -/
def posOf (pre : List Char) : Pos where
  r := 1 + pre.count '\n'
  c := 1 + (pre.reverse.takeWhile (fun c => c != '\n')).length

/-! ### The character classes -/

/-- The facts about the Unicode classes of the Rust standard library that the theorems use. -/
structure Sane (E : Env F) : Prop where
  digit : ∀ c, '0' ≤ c → c ≤ '9' → E.isNumeric c = true
  letter : ∀ c, ('a' ≤ c ∧ c ≤ 'z') ∨ ('A' ≤ c ∧ c ≤ 'Z') →
    E.isAlphabetic c = true ∧ E.isNumeric c = false ∧ E.isWhitespace c = false
  space : ∀ c ∈ [' ', '\n', '\t', '\r'], E.isWhitespace c = true
  punct : ∀ c ∈ ['.', '-', '+', '#', '"', '[', ']', '\\'],
    E.isNumeric c = false ∧ E.isAlphabetic c = false ∧ E.isWhitespace c = false
  white : ∀ c, E.isWhitespace c = true → E.isNumeric c = false ∧ E.isAlphabetic c = false

/-! ### Numbers -/

/-- ASCII decimal digit -/
def IsDigit (c : Char) : Prop := '0' ≤ c ∧ c ≤ '9'

/-- Value of a decimal digit string, most significant digit first. -/
def decVal (ds : List Char) : Nat := ds.foldl (fun n c => 10 * n + (c.toNat - 48)) 0

/-- Does the integer fit in a 64-bit two's complement word? -/
def Fits (i : Int) : Prop := -(2 ^ 63) ≤ i ∧ i < 2 ^ 63

/-- Optional sign of a number. -/
inductive Sign where
  | none
  | plus
  | minus

/-- The sign as written. -/
def Sign.text : Sign → List Char
  | .none => []
  | .plus => ['+']
  | .minus => ['-']

/-- The part of the sign that is handed to the number conversion: a leading `+` is dropped. -/
def Sign.kept : Sign → List Char
  | .none => []
  | .plus => []
  | .minus => ['-']

/-- The integer with a given sign and absolute value. -/
def Sign.apply : Sign → Nat → Int
  | .minus, n => -(n : Int)
  | _, n => n

/-- `v` is the machine result of an integer operation with exact result `x`: `x` itself if it
    fits; otherwise nothing with overflow checks, and the word congruent to `x` without. -/
def Machine (E : Env F) (x v : Int) : Prop :=
  (Fits x ∧ v = x) ∨
  (¬ Fits x ∧ E.overflowChecks = false ∧ Fits v ∧ (2 ^ 64 : Int) ∣ (x - v))

/-- `v` is the result of `m * 10^k` in machine arithmetic, the exponent being cut to 32 bits. -/
def ScaledBy (E : Env F) (m k v : Int) : Prop :=
  ∃ p, Machine E (10 ^ (k.toNat % 2 ^ 32)) p ∧ Machine E (m * p) v

/-- A run of digits (in the sense of `char::is_numeric`) without a point. -/
def IntBody (E : Env F) (ds : List Char) : Prop := ∀ c ∈ ds, E.isNumeric c = true

/-- Digits with exactly one point among, before or after them. -/
def FracBody (E : Env F) (ds : List Char) : Prop :=
  ∃ a b, ds = a ++ '.' :: b ∧ IntBody E a ∧ IntBody E b

/-- `NumLit E text value`: the number literals and what they denote. -/
inductive NumLit (E : Env F) : List Char → TokenType F → Prop
  | int (s : Sign) (ds : List Char) (hne : ds ≠ []) (hds : ∀ c ∈ ds, IsDigit c)
      (hfit : Fits (s.apply (decVal ds))) :
      NumLit E (s.text ++ ds) (.Int (s.apply (decVal ds)))
  | frac (s : Sign) (ds : List Char) (f : F) (hds : FracBody E ds)
      (hf : E.parseFloat (s.kept ++ ds) = .ok f) :
      NumLit E (s.text ++ ds) (.Float f)
  | intExp (s : Sign) (ds x : List Char) (k v : Int) (hne : ds ≠ []) (hds : ∀ c ∈ ds, IsDigit c)
      (hfit : Fits (s.apply (decVal ds))) (hx : NumLit E x (.Int k)) (hk : 0 ≤ k)
      (hv : ScaledBy E (s.apply (decVal ds)) k v) :
      NumLit E (s.text ++ ds ++ 'e' :: x) (.Int v)
  | negExp (s : Sign) (ds x : List Char) (m : F) (k : Int) (hne : s.kept ++ ds ≠ [])
      (hds : IntBody E ds) (hm : E.parseFloat (s.kept ++ ds) = .ok m)
      (hx : NumLit E x (.Int k)) (hk : k < 0) :
      NumLit E (s.text ++ ds ++ 'e' :: x) (.Float (E.fmul m (E.powf10 (E.ofIsize k))))
  | fracExp (s : Sign) (ds x : List Char) (m : F) (k : Int)
      (hds : FracBody E ds) (hm : E.parseFloat (s.kept ++ ds) = .ok m)
      (hx : NumLit E x (.Int k)) :
      NumLit E (s.text ++ ds ++ 'e' :: x) (.Float (E.fmul m (E.powf10 (E.ofIsize k))))
  | floatExp (s : Sign) (ds x : List Char) (m f : F) (hne : s.kept ++ ds ≠ [])
      (hds : IntBody E ds ∨ FracBody E ds) (hm : E.parseFloat (s.kept ++ ds) = .ok m)
      (hx : NumLit E x (.Float f)) :
      NumLit E (s.text ++ ds ++ 'e' :: x) (.Float (E.fmul m (E.powf10 f)))

/-- What may follow a number: the end of the text, or a character that cannot continue it. -/
def NumFollow (E : Env F) (rest : List Char) : Prop :=
  ∀ c, rest.head? = some c → E.isNumeric c = false ∧ c ≠ '.' ∧ c ≠ 'e'

/-! ### Strings -/

/-- `Unesc body s`: the text `body` between two quotes denotes the string `s`. -/
inductive Unesc : List Char → List Char → Prop
  | nil : Unesc [] []
  | plain (c : Char) (body s : List Char) (hq : c ≠ '"') (hb : c ≠ '\\') (h : Unesc body s) :
      Unesc (c :: body) (c :: s)
  | newline (body s : List Char) (h : Unesc body s) : Unesc ('\\' :: 'n' :: body) ('\n' :: s)
  | other (c : Char) (body s : List Char) (hn : c ≠ 'n') (h : Unesc body s) :
      Unesc ('\\' :: c :: body) (c :: s)

/-! ### Lexemes -/

/-- First character of an identifier. -/
def IdStart (E : Env F) (c : Char) : Prop :=
  E.isAlphabetic c = true ∧ E.isNumeric c = false ∧ E.isWhitespace c = false ∧
  c ∉ ['#', '"', '[', ']', '-', '+', '.']

/-- Other characters of an identifier. -/
def IdChar (E : Env F) (c : Char) : Prop := E.isAlphabetic c = true ∨ E.isNumeric c = true

/-- First character of a number. -/
def NumStart (E : Env F) (c : Char) : Prop :=
  (E.isNumeric c = true ∨ c ∈ ['-', '+', '.']) ∧ c ∉ ['#', '"', '[', ']']

/-- `Lexeme E text value rest`: `text` is a lexeme with the given value, and `rest` does not
    continue it (longest match). -/
inductive Lexeme (E : Env F) : List Char → TokenType F → List Char → Prop
  | lbracket (rest) : Lexeme E ['['] .LBracket rest
  | rbracket (rest) : Lexeme E [']'] .RBracket rest
  | str (body s rest : List Char) (h : Unesc body s) :
      Lexeme E ('"' :: body ++ ['"']) (.Str (String.ofList s)) rest
  | num (l rest : List Char) (v : TokenType F) (h : NumLit E l v)
      (hstart : ∃ c, l.head? = some c ∧ NumStart E c) (hrest : NumFollow E rest) :
      Lexeme E l v rest
  | ident (c : Char) (cs rest : List Char) (hc : IdStart E c) (hcs : ∀ d ∈ cs, IdChar E d)
      (hrest : ∀ d, rest.head? = some d → ¬ IdChar E d) :
      Lexeme E (c :: cs) (.Identifier (String.ofList (c :: cs))) rest

/-- A whitespace character. -/
def Blank (E : Env F) (c : Char) : Prop :=
  E.isWhitespace c = true ∧ E.isNumeric c = false ∧
  c ∉ ['#', '"', '[', ']', '-', '+', '.']

/-- A separator: any mix of whitespace and comments, every comment being ended by a line feed. -/
inductive Sep (E : Env F) : List Char → Prop
  | nil : Sep E []
  | blank (c : Char) (cs : List Char) (hc : Blank E c) (h : Sep E cs) : Sep E (c :: cs)
  | comment (body cs : List Char) (hb : '\n' ∉ body) (h : Sep E cs) :
      Sep E ('#' :: body ++ '\n' :: cs)

/-- `Lex E pre text toks`: the text `text`, which starts after the text `pre`, is a sequence of
    separators and lexemes, and `toks` are its tokens. -/
inductive Lex (E : Env F) : List Char → List Char → List (Token F) → Prop
  | eof (pre) : Lex E pre [] []
  | blank (pre : List Char) (c : Char) (cs : List Char) (ts) (hc : Blank E c)
      (h : Lex E (pre ++ [c]) cs ts) : Lex E pre (c :: cs) ts
  | comment (pre body cs : List Char) (ts) (hb : '\n' ∉ body)
      (h : Lex E (pre ++ '#' :: body ++ ['\n']) cs ts) : Lex E pre ('#' :: body ++ '\n' :: cs) ts
  | lastComment (pre body : List Char) (hb : '\n' ∉ body) : Lex E pre ('#' :: body) []
  | tok (pre l rest : List Char) (v : TokenType F) (ts) (hl : Lexeme E l v rest)
      (h : Lex E (pre ++ l) rest ts) : Lex E pre (l ++ rest) (⟨posOf pre, v⟩ :: ts)

/-! ### Line ends -/

/-- `Norm t u`: `u` is `t` with every carriage return directly before a line feed removed. -/
inductive Norm : List Char → List Char → Prop
  | nil : Norm [] []
  | crlf (t u : List Char) (h : Norm t u) : Norm ('\r' :: '\n' :: t) ('\n' :: u)
  | other (c : Char) (t u : List Char) (hc : ¬ (c = '\r' ∧ t.head? = some '\n')) (h : Norm t u) :
      Norm (c :: t) (c :: u)

/-- The text contains no carriage return directly before a line feed. -/
def NoCrlf (t : List Char) : Prop := ¬ ∃ a b, t = a ++ '\r' :: '\n' :: b

/-- Every line feed becomes carriage return and line feed. -/
def toCrlf (t : List Char) : List Char := t.flatMap fun c => if c = '\n' then ['\r', '\n'] else [c]

/-! ### Pieces of a text -/

/-- `LexTo E pre text toks rest`: the text `text`, which stands between `pre` and `rest`, is a
    sequence of complete separators and lexemes with tokens `toks`. -/
inductive LexTo (E : Env F) : List Char → List Char → List (Token F) → List Char → Prop
  | nil (pre rest) : LexTo E pre [] [] rest
  | blank (pre : List Char) (c : Char) (cs : List Char) (ts rest) (hc : Blank E c)
      (h : LexTo E (pre ++ [c]) cs ts rest) : LexTo E pre (c :: cs) ts rest
  | comment (pre body cs : List Char) (ts rest) (hb : '\n' ∉ body)
      (h : LexTo E (pre ++ '#' :: body ++ ['\n']) cs ts rest) :
      LexTo E pre ('#' :: body ++ '\n' :: cs) ts rest
  | tok (pre l cs : List Char) (v : TokenType F) (ts rest) (hl : Lexeme E l v (cs ++ rest))
      (h : LexTo E (pre ++ l) cs ts rest) : LexTo E pre (l ++ cs) (⟨posOf pre, v⟩ :: ts) rest

/-- `body` (what follows an opening quote) does not contain the closing quote of the literal. -/
def UnclosedStr (body : List Char) : Prop :=
  ¬ ∃ a b s, body = a ++ '"' :: b ∧ Unesc a s

/-- A string between quotes: backslash before quote and backslash, `\\n` for a line feed. -/
def quote (s : List Char) : List Char :=
  '"' :: (s.flatMap fun c =>
    if c = '"' ∨ c = '\\' then ['\\', c] else if c = '\n' then ['\\', 'n'] else [c]) ++ ['"']

/-- The lexemes `ls` one after the other with a non-empty separator between any two. -/
inductive Layout (E : Env F) : List (List Char) → List Char → Prop
  | nil : Layout E [] []
  | one (l : List Char) : Layout E [l] l
  | cons (l sep text : List Char) (ls : List (List Char)) (hs : Sep E sep) (hne : sep ≠ [])
      (h : Layout E ls text) : Layout E (l :: ls) (l ++ sep ++ text)

/-! ### Errors -/

/-- An error text that starts with a position inside (or just after) `cs`, which follows `pre`. -/
def PosErr (pre cs : List Char) (m : String) : Prop :=
  ∃ a b txt, cs = a ++ b ∧ m = (posOf (pre ++ a)).fmt ++ txt

/-- A number conversion error. -/
def ConvErr (E : Env F) (m : String) : Prop :=
  ∃ xs, m = E.parseIntError xs ∨ E.parseFloat xs = .error m

/-- An integer literal `m e k` with a non-negative integer exponent for which `10^k` or `m*10^k`
    does not fit in a machine word. -/
def OverflowLit (E : Env F) (l : List Char) : Prop :=
  ∃ (s : Sign) (ds x : List Char) (k : Int),
    l = s.text ++ ds ++ 'e' :: x ∧ ds ≠ [] ∧ (∀ c ∈ ds, IsDigit c) ∧
    NumLit E x (.Int k) ∧ 0 ≤ k ∧
    (¬ Fits (10 ^ k.toNat) ∨ ¬ Fits (s.apply (decVal ds) * 10 ^ k.toNat))

end Pbrt.Spec
