import Verif.Proof.Order
import Mathlib.Algebra.Order.Field.Basic

/-!
# Points and boxes that differ a little
-/

namespace Pbrt.Spec

variable {K : Type} [Field K] [LinearOrder K]

/-- Two points that differ by at most `e` on every axis -/
def Near (e : K) (p q : Point3 K) : Prop := ∀ i, |p.get i - q.get i| ≤ e

/-- Two boxes whose corners differ by at most `e` on every axis -/
def NearBox (e : K) (a b : Bounds3 K) : Prop := Near e a.pMin b.pMin ∧ Near e a.pMax b.pMax

end Pbrt.Spec
