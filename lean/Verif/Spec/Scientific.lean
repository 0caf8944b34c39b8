import Verif.Spec.Literals

/-!
# Powers of ten

What the theorems on literals with an exponent assume of `powf`.
-/

namespace Pbrt.Spec

variable {T : Type} [Elem T] [As T T] [FloatFns T] [IEEE T]

/-- `powf` is exact for the powers of ten that the format has exactly: those with
    `5 ^ k ≤ 2 ^ p` (up to `1e10` for `f32`, up to `1e22` for `f64`). -/
def PowExact (E : Env T) : Prop :=
  ∀ k : ℕ, 5 ^ k ≤ 2 ^ (IEEE.fmt T).mantissaBits →
    IsFinite (E.powf10 (E.ofIsize k)) ∧ val (E.powf10 (E.ofIsize k)) = 10 ^ k

/-- Powers of ten are not negative. -/
def PowNonneg (E : Env T) : Prop := ∀ x : T, IsFinite (E.powf10 x) → 0 ≤ val (E.powf10 x)

end Pbrt.Spec
