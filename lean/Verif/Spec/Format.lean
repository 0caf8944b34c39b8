import Verif.Spec.Printer
import Verif.Spec.Contents
import Verif.Spec.Erase
import Verif.Spec.SceneEquality

/-!
# Printing a parse result

A text for a parse result (`printed`) and what is true of every result (`Regular`).  Nothing here refers to the parser.
-/

namespace Pbrt.Spec

variable {F : Type}

/-! ### How a result is written -/

/-- A parameter declared with its type and name -/
def declared (n : String) (v : WVal F) : WParam F := ⟨v.ty ++ (" " ++ n), n, v⟩

def spectrumVal : Spectrum F → WVal F
  | .Rgb r g b => .rgb (.flt r) (.flt g) (.flt b)
  | .Xyz x y z => .xyz (.flt x) (.flt y) (.flt z)
  | .Spectrum l => .samples (l.map fun p => (.flt p.1, .flt p.2))
  | .File s => .file s
  | .Blackbody t s => .blackbody (.flt t) (.flt s)

/-- The parameters, type by type, with brackets around all values -/
def paramsOf (s : ParamSet F) : List (WParam F) :=
  s.bools.map (fun p => declared p.name (.bools p.values)) ++
  s.ints.map (fun p => declared p.name (.ints p.values)) ++
  s.floats.map (fun p => declared p.name (.floats (p.values.map .flt))) ++
  s.point2fs.map (fun p => declared p.name (.point2s (p.values.map fun v => (.flt v.x, .flt v.y)))) ++
  s.vector2fs.map (fun p => declared p.name (.vector2s (p.values.map fun v => (.flt v.x, .flt v.y)))) ++
  s.spectra.flatMap (fun p => p.values.map fun v => declared p.name (spectrumVal v)) ++
  s.strings.map (fun p => declared p.name (.strings p.values)) ++
  s.textures.flatMap (fun p => p.values.map fun v => declared p.name (.texture v))

mutual
def dirOf : Directive F → WDir F
  | .Material d => .typed .Material d.ty (paramsOf d.paramSet)
  | .Shape d => .typed .Shape d.ty (paramsOf d.paramSet)
  | .LightSource d => .typed .LightSource d.ty (paramsOf d.paramSet)
  | .AreaLightSource d => .typed .AreaLightSource d.ty (paramsOf d.paramSet)
  | .Attribute _ ds => .block .Attribute (dirsOf ds)
  | .Transform _ ds => .block .Transform (dirsOf ds)
  | .World _ ds => .block .World (dirsOf ds)
  | .Include _ s => .incl s
  | .Texture t => .texture t.name t.ty t.cls (paramsOf t.paramSet)
def dirsOf : List (Directive F) → List (WDir F)
  | [] => []
  | d :: ds => dirOf d :: dirsOf ds
end

/-- Nine numbers -/
def matOf (m : Matrix3f F) : Mat F :=
  ⟨.flt m.m00, .flt m.m01, .flt m.m02, .flt m.m10, .flt m.m11, .flt m.m12, .flt m.m20, .flt m.m21, .flt m.m22⟩

def preOf : PreDirective F → WPre F
  | .Identity _ => .identity
  | .Translate _ v => .translate (.flt v.x) (.flt v.y) (.flt v.z)
  | .Scale _ v => .scale (.flt v.x) (.flt v.y) (.flt v.z)
  | .Rotate _ t v => .rotate (.flt t) (.flt v.x) (.flt v.y) (.flt v.z)
  | .LookAt _ m => .lookAt (matOf m)
  | .CoordinateSystem _ s => .coordinateSystem s
  | .CoordSysTransform _ s => .coordSysTransform s
  | .Transform _ m => .transform (matOf m)
  | .ConcatTransform _ m => .concatTransform (matOf m)
  | .ActiveTransform _ s => .activeTransform s
  | .TransformTimes _ a b => .transformTimes (.flt a) (.flt b)
  | .Camera d => .typed .Camera d.ty (paramsOf d.paramSet)
  | .Sampler d => .typed .Sampler d.ty (paramsOf d.paramSet)
  | .Film d => .typed .Film d.ty (paramsOf d.paramSet)
  | .Filter d => .typed .Filter d.ty (paramsOf d.paramSet)
  | .Integrator d => .typed .Integrator d.ty (paramsOf d.paramSet)
  | .Accelerator d => .typed .Accelerator d.ty (paramsOf d.paramSet)
  | .Include _ s => .incl s

/-- What is inside the world block -/
def worldOf : Directive F → List (WDir F)
  | .World _ ds => dirsOf ds
  | _ => []

/-- The scene as it would be written -/
def sceneOf (r : List (PreDirective F) × Directive F) : WScene F := ⟨r.1.map preOf, worldOf r.2⟩

/-- A text for a parse result, given texts for floats -/
def printed (ft : F → List Char) (r : List (PreDirective F) × Directive F) : List Char := (sceneOf r).text ft

/-! ### Parse results -/

/-- A string of at least one character and no white space -/
def IsWord (E : Env F) (s : String) : Prop := s.toList ≠ [] ∧ ∀ c ∈ s.toList, E.isWhitespace c = false

/-- The names of all parameters of a set -/
def setNames (s : ParamSet F) : List String :=
  s.bools.map Param.name ++ s.ints.map Param.name ++ s.floats.map Param.name ++ s.point2fs.map Param.name ++
  s.vector2fs.map Param.name ++ s.spectra.map Param.name ++ s.strings.map Param.name ++ s.textures.map Param.name

/-- Every parameter has values; spectra and textures have one, and a sampled spectrum has samples; the
    parts that no parameter type fills are empty. -/
structure FilledSet (s : ParamSet F) : Prop where
  bools : ∀ p ∈ s.bools, p.values ≠ []
  ints : ∀ p ∈ s.ints, p.values ≠ []
  floats : ∀ p ∈ s.floats, p.values ≠ []
  point2fs : ∀ p ∈ s.point2fs, p.values ≠ []
  vector2fs : ∀ p ∈ s.vector2fs, p.values ≠ []
  spectra : ∀ p ∈ s.spectra, ∃ x, p.values = [x] ∧ x ≠ .Spectrum []
  strings : ∀ p ∈ s.strings, p.values ≠ []
  textures : ∀ p ∈ s.textures, ∃ x, p.values = [x]
  others : s.point3fs = [] ∧ s.vector3fs = [] ∧ s.normal3fs = []

/-- Also, names are words and integers fit in a machine word. -/
structure RegularSet (E : Env F) (s : ParamSet F) : Prop where
  filled : FilledSet s
  names : ∀ n ∈ setNames s, IsWord E n
  fits : ∀ p ∈ s.ints, ∀ i ∈ p.values, Fits i

mutual
/-- In every block, a nested block is the last child. -/
def LastBlocks : Directive F → Prop
  | .Attribute _ ds => LastBlocksAll ds
  | .Transform _ ds => LastBlocksAll ds
  | .World _ ds => LastBlocksAll ds
  | _ => True
def LastBlocksAll : List (Directive F) → Prop
  | [] => True
  | d :: ds => (IsBlock d → ds = []) ∧ LastBlocks d ∧ LastBlocksAll ds
end

/-- What is true of every parse result -/
structure Regular (E : Env F) (r : List (PreDirective F) × Directive F) : Prop where
  sets : ∀ s ∈ r.1.flatMap preSets ++ dirSets r.2, RegularSet E s
  active : ∀ p n, PreDirective.ActiveTransform p n ∈ r.1 → IsIdent E n
  world : ∃ p ds, r.2 = .World p ds
  blocks : LastBlocks r.2

end Pbrt.Spec
