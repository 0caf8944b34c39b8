import Verif.Spec.Messages
import Verif.Spec.Lexical

/-!
# Reading error messages
-/

namespace Pbrt.Spec

/-- The messages of the standard library for numbers do not look like messages with a position. -/
def Plain {F : Type} (E : Env F) : Prop := ∀ m p, ConvErr E m → ¬ Names m p

end Pbrt.Spec
