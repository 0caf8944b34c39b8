import Verif.Model.DebugTree
import Verif.Spec.Shown

/-!
# Texts from which a value can be read off

What the standard library must grant about floats, strings and paths so that a value can be read off the text
that `Debug` prints.
-/

namespace Pbrt.Spec

variable {F : Type}

/-- The characters with which the builders separate -/
def marks : List Char := " ,(){}[]:\"\n".toList

/-- A text without such characters -/
def Unmarked (s : List Char) : Prop := ∀ c ∈ s, c ∉ marks

/-- What may stand between quotes: characters other than quotes and line breaks, and anything behind a
    backslash -/
inductive Escaped : List Char → Prop
  | nil : Escaped []
  | plain (c : Char) (s : List Char) (hc : c ≠ '"' ∧ c ≠ '\\' ∧ c ≠ '\n') (hs : Escaped s) : Escaped (c :: s)
  | slash (c : Char) (s : List Char) (hc : c ≠ '\n') (hs : Escaped s) : Escaped ('\\' :: c :: s)

/-- A text between quotes -/
def Quoted (s : List Char) : Prop := ∃ b, Escaped b ∧ s = '"' :: (b ++ ['"'])

/-- Different floats, strings and paths are shown differently; strings and paths stand between quotes, and floats have
    none of the characters that separate. -/
structure Legible (L : DebugLeaves F) : Prop where
  float : ∀ f, L.float f ≠ "" ∧ Unmarked (L.float f).toList
  floats : ∀ f g, L.float f = L.float g → f = g
  str : ∀ s, Quoted (L.str s).toList
  strs : ∀ s t, L.str s = L.str t → s = t
  path : ∀ s, Quoted (L.path s).toList
  paths : ∀ s t, L.path s = L.path t → s = t

/-- Both forms of `Debug` tell the values apart: `{:?}` and `{:#?}`, with and without a comma at the end. -/
def TellsApart {A : Type} (tree : A → DTree) : Prop :=
  ∀ a b : A, ((tree a).flat = (tree b).flat → a = b) ∧ ∀ trailing, (tree a).pretty trailing = (tree b).pretty trailing → a = b

/-! ### The lines of a matrix -/

/-- A comma, if one is written -/
def comma (b : Bool) : List Char := if b then [','] else []

/-- The lines of a row: four numbers between brackets -/
def rowLines (trailing behind : Bool) (row : Fin 4 → List Char) : List (List Char) :=
  ["        [".toList,
   "            ".toList ++ row 0 ++ [','],
   "            ".toList ++ row 1 ++ [','],
   "            ".toList ++ row 2 ++ [','],
   "            ".toList ++ row 3 ++ comma trailing,
   "        ]".toList ++ comma behind]

/-- The lines of a 4 by 4 matrix -/
def matrixLines (trailing : Bool) (m : Fin 4 → Fin 4 → List Char) : List (List Char) :=
  ["Matrix4 {".toList, "    mat: [".toList] ++ rowLines trailing true (m 0) ++ rowLines trailing true (m 1) ++
    rowLines trailing true (m 2) ++ rowLines trailing trailing (m 3) ++ ["    ]".toList ++ comma trailing, "}".toList]

/-- Floats with all their digits, strings and paths as the library shows them -/
def shownLeaves (T : Type) [Elem T] [As T T] [FloatFns T] [IEEE T] (D D' : DebugTable) : DebugLeaves T :=
  ⟨digitsFloat, D.str, D'.str⟩

end Pbrt.Spec
