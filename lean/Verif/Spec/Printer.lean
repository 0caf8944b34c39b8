import Verif.Spec.Literals
import Verif.Spec.Writer

/-!
# Texts for floats, tokens and scenes

A text for every finite float: its exact decimal expansion, with a point.  A text for every token,
and for every scene (the tokens with a space between any two).  Nothing here refers to the
tokenizer or the parser.
-/

namespace Pbrt.Spec

open Float.Model (UnpackedFloat)

/-! ### Numbers -/

/-- The digits of `n / 10^k` before and after the point -/
def pointDigits (k n : ℕ) : List Char × List Char :=
  let ds := List.replicate (k + 1 - (Nat.toDigits 10 n).length) '0' ++ Nat.toDigits 10 n
  (ds.take (ds.length - k), ds.drop (ds.length - k))

/-- The fraction `m / 2^k` in lowest terms (the new `k` first) -/
def lowest : ℕ → ℕ → ℕ × ℕ
  | 0, m => (0, m)
  | k + 1, m => if m % 2 = 0 then lowest k (m / 2) else (k + 1, m)

/-- The digits of `n / 2^k` before and after the point; a single zero after the point if `k = 0` -/
def fractionDigits (k n : ℕ) : List Char × List Char :=
  if k = 0 then (Nat.toDigits 10 n, ['0']) else pointDigits k (n * 5 ^ k)

/-- The digits of `m * 2^e` before and after the point -/
def binaryDigits (m : ℕ) (e : ℤ) : List Char × List Char :=
  if 0 ≤ e then fractionDigits 0 (m * 2 ^ e.toNat)
  else fractionDigits (lowest (-e).toNat m).1 (lowest (-e).toNat m).2

/-- The sign of a float, as written -/
def floatSign : UnpackedFloat.Sign → Sign
  | .positive => .none
  | .negative => .minus

/-- The sign and the digits before and after the point of a finite float -/
def floatParts : UnpackedFloat → Option (Sign × List Char × List Char)
  | .finite s m e _ => some (floatSign s, binaryDigits m e)
  | .zero s => some (floatSign s, ['0'], ['0'])
  | _ => none

section
variable {T : Type} [Elem T] [As T T] [FloatFns T] [IEEE T]

/-- The exact decimal expansion of a finite float, with a point and digits on both sides of it
    (nothing for an infinity or NaN) -/
def floatText (f : T) : List Char :=
  match floatParts (up f) with
  | some (s, a, b) => s.text ++ (a ++ '.' :: b)
  | none => []

/-- The library reads zeros as zero, with the sign that is written. -/
def SignedZeros (E : Env T) : Prop :=
  ∀ (s : Sign) (a b : List Char), (∀ c ∈ a ++ b, c = '0') → a ++ b ≠ [] →
    ∃ f, E.parseFloat (s.kept ++ (a ++ '.' :: b)) = .ok f ∧
      up f = .zero (match s with | .minus => .negative | _ => .positive)

end

/-- The decimal text of an integer -/
def intDigits (i : Int) : List Char := (if i < 0 then ['-'] else []) ++ Nat.toDigits 10 i.natAbs

/-! ### Tokens and scenes -/

variable {F : Type}

/-- A text for a token, given texts for floats -/
def tokenText (ft : F → List Char) : TokenType F → List Char
  | .LBracket => ['[']
  | .RBracket => [']']
  | .Str s => quote s.toList
  | .Int i => intDigits i
  | .Float f => ft f
  | .Identifier s => s.toList

/-- The texts with a space between any two -/
def spaced : List (List Char) → List Char
  | [] => []
  | [l] => l
  | l :: ls => l ++ ' ' :: spaced ls

/-- A text for a scene -/
def WScene.text (ft : F → List Char) (s : WScene F) : List Char := spaced (s.toks.map (tokenText ft))

/-- An identifier -/
def IsIdent (E : Env F) (s : String) : Prop :=
  ∃ c cs, s.toList = c :: cs ∧ IdStart E c ∧ ∀ d ∈ cs, IdChar E d

/-- Every float of the scene has the property `P`, every integer fits in a machine word, and the
    names after `ActiveTransform` are identifiers. -/
def WScene.Writable (E : Env F) (P : F → Prop) (s : WScene F) : Prop :=
  (∀ f, TokenType.Float f ∈ s.toks → P f) ∧ (∀ i, TokenType.Int i ∈ s.toks → Fits i) ∧
  ∀ n, WPre.activeTransform n ∈ s.pre → IsIdent E n

end Pbrt.Spec
