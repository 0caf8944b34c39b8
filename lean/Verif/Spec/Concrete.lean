import Verif.Spec.Lexical

/-!
# A concrete instance of the standard library parameter

Used only in the examples that show that the hypotheses of the theorems can be met: ASCII
character classes and rational numbers for floats.
-/

namespace Pbrt.Spec

/-- Decimal digits with at most one point, after an optional minus sign. -/
def exParse (cs : List Char) : Except String Rat :=
  let neg := cs.head? = some '-'
  let body := if neg then cs.tail else cs
  let a := body.takeWhile (· != '.')
  let b := (body.dropWhile (· != '.')).tail
  if (a ++ b).all (fun c => '0' ≤ c ∧ c ≤ '9') ∧ a ++ b ≠ [] then
    let v : Rat := (decVal (a ++ b) : Rat) / (10 ^ b.length : Nat)
    .ok (if neg then -v else v)
  else .error "invalid float literal"

/-- ASCII classes, rational numbers. -/
def exEnv (checks : Bool) : Env Rat where
  isNumeric c := '0' ≤ c ∧ c ≤ '9'
  isAlphabetic c := ('a' ≤ c ∧ c ≤ 'z') ∨ ('A' ≤ c ∧ c ≤ 'Z')
  isWhitespace c := c ∈ [' ', '\n', '\t', '\r']
  parseFloat := exParse
  parseIntError _ := "invalid integer literal"
  fmul := (· * ·)
  powf10 f := if 0 ≤ f.num then (10 : Rat) ^ f.num.toNat else 1 / (10 : Rat) ^ (-f.num).toNat
  ofIsize i := i
  dbgFloat _ := "float"
  dbgStr s := s
  overflowChecks := checks

theorem exEnv_sane (b : Bool) : Sane (exEnv b) where
  digit c h1 h2 := by simp [exEnv, h1, h2]
  letter c h := by
    refine ⟨by simpa [exEnv] using h, ?_, ?_⟩
    · simp only [exEnv, decide_eq_false_iff_not, not_and]
      intro h1 h2
      rcases h with ⟨h3, h4⟩ | ⟨h3, h4⟩ <;>
      · rw [Char.le_def, UInt32.le_iff_toNat_le] at *
        simp at *
        omega
    · simp only [exEnv, decide_eq_false_iff_not]
      intro hc
      simp only [List.mem_cons, List.not_mem_nil, or_false] at hc
      rcases hc with rfl | rfl | rfl | rfl <;> revert h <;> cases b <;> decide
  space c h := by simpa [exEnv] using h
  punct c h := by
    simp only [List.mem_cons, List.not_mem_nil, or_false] at h
    rcases h with rfl | rfl | rfl | rfl | rfl | rfl | rfl | rfl <;> cases b <;> decide
  white c h := by
    simp only [exEnv, decide_eq_true_eq, List.mem_cons, List.not_mem_nil, or_false] at h
    rcases h with rfl | rfl | rfl | rfl <;> cases b <;> decide

end Pbrt.Spec
