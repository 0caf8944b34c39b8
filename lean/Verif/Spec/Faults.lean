import Verif.Spec.Lexical

/-!
# Specification of the texts outside the lexical language

What is wrong with a text that is no sequence of lexemes, and how the program reports it. Like
`Verif.Spec.Lexical` this uses no function of the tokenizer model.
-/

namespace Pbrt.Spec

variable {F : Type}

/-- The two ways to fail: with a message, or by an arithmetic overflow in a checked build. -/
inductive Fault where
  | error (message : String)
  | overflow
deriving DecidableEq

/-- Sign and digits denote a machine integer. -/
def WholeOk (s : Sign) (ds : List Char) : Prop :=
  ds ≠ [] ∧ (∀ c ∈ ds, IsDigit c) ∧ Fits (s.apply (decVal ds))

/-- `NumFault E pre text f`: what is wrong with the number at the start of `text`, which stands
    after `pre`. -/
inductive NumFault (E : Env F) : List Char → List Char → Fault → Prop
  /-- nothing, or only a plus sign, before the end, an `e` or a foreign character -/
  | noNumber (pre : List Char) (s : Sign) (rest : List Char) (hk : s.kept = [])
      (hs : s = .none → ∀ c, rest.head? = some c → c ≠ '+' ∧ c ≠ '-')
      (hrest : ∀ c, rest.head? = some c → E.isNumeric c = false ∧ c ≠ '.') :
      NumFault E pre (s.text ++ rest)
        (.error ((posOf (pre ++ s.text)).fmt ++ " tokenize_num(): no number"))
  /-- a second point -/
  | secondPoint (pre : List Char) (s : Sign) (ds rest : List Char) (hds : FracBody E ds) :
      NumFault E pre (s.text ++ ds ++ '.' :: rest)
        (.error ((posOf (pre ++ s.text ++ ds)).fmt ++ " tokenize_num(): unexpected char '.'"))
  /-- a number without point and exponent that is no machine integer -/
  | whole (pre : List Char) (s : Sign) (ds rest : List Char) (hne : s.kept ++ ds ≠ [])
      (hds : IntBody E ds) (hbad : ¬ WholeOk s ds) (hrest : NumFollow E rest) :
      NumFault E pre (s.text ++ ds ++ rest) (.error (E.parseIntError (s.kept ++ ds)))
  /-- a number with a point that the float conversion rejects -/
  | point (pre : List Char) (s : Sign) (ds rest : List Char) (m : String) (hds : FracBody E ds)
      (hm : E.parseFloat (s.kept ++ ds) = .error m) (hrest : NumFollow E rest) :
      NumFault E pre (s.text ++ ds ++ rest) (.error m)
  /-- something is wrong with the exponent: this is reported, whatever stands before the `e` -/
  | exponent (pre : List Char) (s : Sign) (ds x : List Char) (f : Fault) (hne : s.kept ++ ds ≠ [])
      (hds : IntBody E ds ∨ FracBody E ds)
      (h : NumFault E (pre ++ s.text ++ ds ++ ['e']) x f) :
      NumFault E pre (s.text ++ ds ++ 'e' :: x) f
  /-- an integer exponent of at least zero after something that is no machine integer -/
  | wholeMantissa (pre : List Char) (s : Sign) (ds x rest : List Char) (k : Int)
      (hne : s.kept ++ ds ≠ []) (hds : IntBody E ds) (hbad : ¬ WholeOk s ds)
      (hx : NumLit E x (.Int k)) (hk : 0 ≤ k) (hrest : NumFollow E rest) :
      NumFault E pre (s.text ++ ds ++ 'e' :: x ++ rest) (.error (E.parseIntError (s.kept ++ ds)))
  /-- any other exponent, or a point, with a mantissa that the float conversion rejects -/
  | floatMantissa (pre : List Char) (s : Sign) (ds x rest : List Char) (v : TokenType F)
      (m : String) (hne : s.kept ++ ds ≠ []) (hds : IntBody E ds ∨ FracBody E ds)
      (hx : NumLit E x v) (hv : (∃ f, v = .Float f) ∨ (∃ k, v = .Int k ∧ k < 0) ∨ FracBody E ds)
      (hm : E.parseFloat (s.kept ++ ds) = .error m) (hrest : NumFollow E rest) :
      NumFault E pre (s.text ++ ds ++ 'e' :: x ++ rest) (.error m)
  /-- ten to the exponent, or its product with the mantissa, is no machine integer -/
  | overflow (pre : List Char) (s : Sign) (ds x rest : List Char) (k : Int)
      (hc : E.overflowChecks = true) (hok : WholeOk s ds) (hx : NumLit E x (.Int k)) (hk : 0 ≤ k)
      (hv : ¬ Fits (10 ^ (k.toNat % 2 ^ 32)) ∨
        ¬ Fits (s.apply (decVal ds) * 10 ^ (k.toNat % 2 ^ 32)))
      (hrest : NumFollow E rest) :
      NumFault E pre (s.text ++ ds ++ 'e' :: x ++ rest) .overflow

/-- `Bad E pre text f`: no lexeme and no separator stands at the start of `text`, which stands
    after `pre`, and this is reported by `f`. -/
inductive Bad (E : Env F) : List Char → List Char → Fault → Prop
  /-- a character that starts nothing -/
  | char (pre : List Char) (c : Char) (rest : List Char)
      (hc : E.isNumeric c = false ∧ E.isAlphabetic c = false ∧ E.isWhitespace c = false ∧
        c ∉ ['#', '"', '[', ']', '-', '+', '.']) :
      Bad E pre (c :: rest)
        (.error ((posOf pre).fmt ++ " tokenize_one(): unexpected char '" ++ String.singleton c ++ "'"))
  | number (pre text : List Char) (f : Fault) (hs : ∃ c, text.head? = some c ∧ NumStart E c)
      (h : NumFault E pre text f) : Bad E pre text f
  /-- the closing quote is missing: the end of the text is reported -/
  | string (pre body s : List Char) (h : Unesc body s) :
      Bad E pre ('"' :: body) (.error ((posOf (pre ++ '"' :: body)).fmt ++
        " tokenize_str(): EOF while processing string"))
  /-- the text ends in a backslash inside a string: the backslash is reported -/
  | escape (pre body s : List Char) (h : Unesc body s) :
      Bad E pre ('"' :: body ++ ['\\']) (.error ((posOf (pre ++ '"' :: body)).fmt ++
        " tokenize_str(): EOF while processing escape seq"))

/-- The text consists of lexemes and separators up to a place where there is none. -/
def TextFault (E : Env F) (text : List Char) (f : Fault) : Prop :=
  ∃ a toks b, text = a ++ b ∧ LexTo E [] a toks b ∧ Bad E a b f

end Pbrt.Spec
