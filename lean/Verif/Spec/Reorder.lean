import Verif.Spec.Scene

/-!
# The order of parameters
-/

namespace Pbrt.Spec

variable {F : Type}

/-- The types a scene tells apart: `rgb`, `xyz`, `spectrum` and `blackbody` are all spectra. -/
inductive Kind where
  | ints | floats | point2s | vector2s | bools | strings | spectra | textures
deriving DecidableEq

/-- The type of a value -/
def PVal.kind : PVal F → Kind
  | .ints _ => .ints
  | .floats _ => .floats
  | .point2s _ => .point2s
  | .vector2s _ => .vector2s
  | .bools _ => .bools
  | .strings _ => .strings
  | .spectrum _ => .spectra
  | .texture _ => .textures

/-- For every type, the parameters of that type are the same, in the same order. -/
def SameByType (ps qs : List (SParam F)) : Prop :=
  ∀ k, ps.filter (fun p => p.val.kind = k) = qs.filter (fun p => p.val.kind = k)

/-- `Swap E n a b`: both lists start with the same `n` strings, go on with parameters that are the
    same for every type, and end alike. -/
def Swap (E : Env F) (n : Nat) (a b : List (Token F)) : Prop :=
  ∃ strs ts us rest ps qs, a = strs ++ ts ++ rest ∧ b = strs ++ us ++ rest ∧ strs.length = n ∧
    (∀ t ∈ strs, ∃ s, t.ty = .Str s) ∧ Many (ParamText E) ts ps ∧ Many (ParamText E) us qs ∧ SameByType ps qs

end Pbrt.Spec
