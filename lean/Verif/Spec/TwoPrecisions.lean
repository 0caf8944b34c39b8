import Verif.Spec.FloatType
import Verif.Spec.Literals

/-!
# How a float of a scene came about

The floats that the parser computes are texts given to the library, integers converted by it, and
products and powers of ten of these. A formula says which, without saying what a float is; parsing
with `formulas` puts the formulas in place of the floats.
-/

namespace Pbrt.Spec

/-- How a float is computed from a text -/
inductive Formula where
  | literal (cs : List Char)
  | int (i : Int)
  | times (a b : Formula)
  | power (a : Formula)
  deriving DecidableEq

/-- A float that is not a product or a power: the library was given a text or an integer. -/
def Formula.Plain : Formula → Prop
  | .literal _ => True
  | .int _ => True
  | .times _ _ => False
  | .power _ => False

variable {F : Type}

/-- `f` is the float that the library `E` gives for a formula. -/
inductive Formula.Value (E : Env F) : Formula → F → Prop
  | literal (cs x) (h : E.parseFloat cs = .ok x) : Value E (.literal cs) x
  | int (i) : Value E (.int i) (E.ofIsize i)
  | times (a b x y) (ha : Value E a x) (hb : Value E b y) : Value E (.times a b) (E.fmul x y)
  | power (a x) (ha : Value E a x) : Value E (.power a) (E.powf10 x)

/-- The library `E` with formulas instead of floats -/
def formulas (E : Env F) : Env Formula where
  isNumeric := E.isNumeric
  isAlphabetic := E.isAlphabetic
  isWhitespace := E.isWhitespace
  parseFloat cs := match E.parseFloat cs with
    | .ok _ => .ok (.literal cs)
    | .error m => .error m
  parseIntError := E.parseIntError
  fmul := .times
  powf10 := .power
  ofIsize := .int
  dbgFloat _ := "float"
  dbgStr := E.dbgStr
  overflowChecks := E.overflowChecks

end Pbrt.Spec
