import Verif.Model.Main
import Verif.Props.DebugText
import Verif.Props.UnitTests

/-!
# C124: what the program prints
-/

namespace Pbrt

open Spec UnitTests

section
variable {F : Type} [Elem F] [FloatFns F] {checks : Bool} [As (I64 checks) F] {L : DebugLeaves F}

theorem main_text (hL : Legible L) (trailing : Bool) (args : List String) {m : Matrix4 F}
    (hm : (mainMatrix checks).inverse = .ok m) : mainOutput checks L trailing args =
    .ok (['\n'].intercalate (matrixLines trailing fun i j => (L.float (m.mat i j)).toList) ++ ['\n']) := by
  unfold mainOutput
  rw [hm]
  show Except.ok _ = _
  rw [(C121_matrix hL trailing m).1]
end

theorem main_f32 (checks : Bool) : ∃ m : Matrix4 Float32.Model, (mainMatrix checks).inverse = .ok m ∧
    ∀ i j, IsFinite (m.mat i j) ∧ |val (m.mat i j) - demoInverse i j| < (13 / 10 ^ 7 : ℚ) :=
  close_spec (by cases checks <;> decide +kernel)

theorem main_f64 (checks : Bool) : ∃ m : Matrix4 Float.Model, (mainMatrix checks).inverse = .ok m ∧
    ∀ i j, IsFinite (m.mat i j) ∧ |val (m.mat i j) - demoInverse i j| < (1 / 10 ^ 13 : ℚ) :=
  close_spec (by cases checks <;> decide +kernel)

/-- **C124**: whatever its arguments, the program does not panic; it prints 28 lines, with a 4 by 4
    matrix of finite floats that differ from the inverse of `demo` by less than `0.0000013`. -/
theorem C124_single {L : DebugLeaves Float32.Model} (hL : Legible L) (checks trailing : Bool) :
    ∃ m : Fin 4 → Fin 4 → Float32.Model,
      (∀ args, mainOutput checks L trailing args =
        .ok (['\n'].intercalate (matrixLines trailing fun i j => (L.float (m i j)).toList) ++ ['\n'])) ∧
      (∀ i j, ∑ k, (demo i k : ℚ) * demoInverse k j = if i = j then 1 else 0) ∧
      ∀ i j, IsFinite (m i j) ∧ |val (m i j) - demoInverse i j| < (13 / 10 ^ 7 : ℚ) := by
  obtain ⟨m, h1, h2⟩ := main_f32 checks
  exact ⟨m.mat, fun args => main_text hL trailing args h1, demo_inverse, h2⟩

/-- **C124**: with the feature `float_as_f64` they differ by less than `10 ^ -13`. -/
theorem C124_double {L : DebugLeaves Float.Model} (hL : Legible L) (checks trailing : Bool) :
    ∃ m : Fin 4 → Fin 4 → Float.Model,
      (∀ args, mainOutput checks L trailing args =
        .ok (['\n'].intercalate (matrixLines trailing fun i j => (L.float (m i j)).toList) ++ ['\n'])) ∧
      (∀ i j, ∑ k, (demo i k : ℚ) * demoInverse k j = if i = j then 1 else 0) ∧
      ∀ i j, IsFinite (m i j) ∧ |val (m i j) - demoInverse i j| < (1 / 10 ^ 13 : ℚ) := by
  obtain ⟨m, h1, h2⟩ := main_f64 checks
  exact ⟨m.mat, fun args => main_text hL trailing args h1, demo_inverse, h2⟩

/-- The last entry of a result -/
def lastEntry {T : Type} [Elem T] [As T T] [FloatFns T] [IEEE T] : Outcome (Matrix4 T) → ℚ
  | .ok m => ratVal (up (m.mat 3 3))
  | .error _ => 0

theorem lastEntry_val {T : Type} [Elem T] [As T T] [FloatFns T] [IEEE T] {r : Outcome (Matrix4 T)}
    {m : Matrix4 T} (h : r = .ok m) (hn : lastEntry r ≠ -7) : val (m.mat 3 3) ≠ -7 := by
  subst h
  rw [val_eq]
  exact fun h => hn (by exact_mod_cast h)

/-- **C124** (an expectation that fails): the last entry of the inverse is the whole number -7, but
    neither build prints it as such. -/
theorem C124_exact_refuted (checks : Bool) : demoInverse 3 3 = -7 ∧
    (∃ m : Matrix4 Float32.Model, (mainMatrix checks).inverse = .ok m ∧ val (m.mat 3 3) ≠ -7) ∧
    ∃ m : Matrix4 Float.Model, (mainMatrix checks).inverse = .ok m ∧ val (m.mat 3 3) ≠ -7 := by
  obtain ⟨m, h1, -⟩ := main_f32 checks
  obtain ⟨m', h2, -⟩ := main_f64 checks
  exact ⟨by decide +kernel, ⟨m, h1, lastEntry_val h1 (by cases checks <;> decide +kernel)⟩,
    ⟨m', h2, lastEntry_val h2 (by cases checks <;> decide +kernel)⟩⟩

-- the first lines, with floats shown as in `digitsFloat`
example : (mainOutput true exLeaves true []).toOption.map
    (fun t => t.take 31) = some "Matrix4 {\n    mat: [\n        [\n".toList := by
  decide +kernel

end Pbrt
