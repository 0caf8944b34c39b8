import Verif.Model.DebugTree
import Verif.Model.Floats

/-!
# The program

`/repo/src/bin/pbrt.rs`: it inverts one matrix of integers and prints the result. The lines that would
read a file are comments.
-/

namespace Pbrt

/-- bin/pbrt.rs:18 `mat` (the type of the entries is `i64`, the only integer type that is an `ElemType`) -/
def mainMatrix (checks : Bool) : Matrix4 (I64 checks) :=
  ⟨Mat44.ofRows
    (.ofInt 7) (.ofInt 1) (.ofInt 9) (.ofInt 5)
    (.ofInt 4) (.ofInt 5) (.ofInt 2) (.ofInt 4)
    (.ofInt 3) (.ofInt 7) (.ofInt 8) (.ofInt 8)
    (.ofInt 1) (.ofInt 9) (.ofInt 8) (.ofInt 9)⟩

/-- bin/pbrt.rs:10-20 `main`: what is written to the standard output. `args` are the arguments of the
    program (the lines that look at them are comments). -/
def mainOutput {F : Type} [Elem F] [FloatFns F] (checks : Bool) [As (I64 checks) F] (L : DebugLeaves F)
    (trailing : Bool) (_args : List String) : Outcome (List Char) := do
  let m : Matrix4 F ← (mainMatrix checks).inverse
  pure ((m.tree L).pretty trailing ++ ['\n'])

end Pbrt
