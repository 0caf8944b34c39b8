import Verif.Spec.Contents

/-!
# How large a scene is

A string counts its characters and two more, a number or a truth value counts one, a directive
counts the characters of its keyword, and a parameter its name (as a string) and its values.
-/

namespace Pbrt.Spec

variable {F : Type}

/-- The size of a string. -/
def strSize (s : String) : Nat := s.toList.length + 2

/-- The size of a spectrum. -/
def spectrumSize : Spectrum F → Nat
  | .Rgb .. => 3
  | .Xyz .. => 3
  | .Spectrum l => 2 * l.length
  | .File s => strSize s
  | .Blackbody .. => 2

/-- The size of the parameters of one type, given the size of a value. -/
def paramsSize {T : Type} (size : T → Nat) (ps : List (Param T)) : Nat :=
  (ps.map fun p => strSize p.name + (p.values.map size).sum).sum

/-- The size of a parameter set. -/
def setSize (s : ParamSet F) : Nat :=
  paramsSize (fun _ => 1) s.bools + paramsSize (fun _ => 1) s.ints +
  paramsSize (fun _ => 1) s.floats + paramsSize (fun _ => 2) s.point2fs +
  paramsSize (fun _ => 2) s.vector2fs + paramsSize (fun _ => 3) s.point3fs +
  paramsSize (fun _ => 3) s.vector3fs + paramsSize (fun _ => 3) s.normal3fs +
  paramsSize spectrumSize s.spectra + paramsSize strSize s.strings +
  paramsSize strSize s.textures

/-- The size of keywords, strings, numbers and parameter sets. -/
def partsSize (keys : List (Pos × String)) (strs : List String) (nums : Nat)
    (sets : List (ParamSet F)) : Nat :=
  (keys.map fun k => k.2.toList.length).sum + (strs.map strSize).sum + nums +
    (sets.map setSize).sum

/-- The word a pre-world directive takes without quotes. -/
def preWord : PreDirective F → Nat
  | .ActiveTransform _ s => s.toList.length
  | _ => 0

/-- The size of a pre-world directive. -/
def preSize (d : PreDirective F) : Nat :=
  partsSize [preKey d] (preStrs d) (preNums d).length (preSets d) + preWord d

/-- The size of a directive and everything inside it. -/
def dirSize (d : Directive F) : Nat := partsSize (dirKey d) (dirStrs d) 0 (dirSets d)

/-- The size of a scene. -/
def sceneSize (pre : List (PreDirective F)) (w : Directive F) : Nat :=
  (pre.map preSize).sum + dirSize w

/-- The size of a token. -/
def tokSize : TokenType F → Nat
  | .Identifier s => s.toList.length
  | .Str s => strSize s
  | _ => 1

/-- The size of a token list. -/
def toksSize (ts : List (Token F)) : Nat := (ts.map fun t => tokSize t.ty).sum

end Pbrt.Spec
