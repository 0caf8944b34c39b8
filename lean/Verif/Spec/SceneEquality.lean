import Verif.Model.Parser
import Verif.Spec.Laws

/-!
# What `==` on parse results should mean

A scene has a shape, which is what remains if every float and every path is forgotten, a list of
floats and a list of paths.
-/

namespace Pbrt.Spec

/-- One spelling of a path and a shorter one of the same path -/
inductive Respelled : List Char → List Char → Prop
  | slashes (a b : List Char) : Respelled (a ++ '/' :: '/' :: b) (a ++ '/' :: b)
  | dot (a b : List Char) : Respelled (a ++ '/' :: '.' :: '/' :: b) (a ++ '/' :: b)
  | lastSlash (a : List Char) (h : a ≠ []) : Respelled (a ++ ['/']) a
  | lastDot (a : List Char) : Respelled (a ++ ['/', '.']) (a ++ ['/'])

/-- Two spellings of a path: the smallest equivalence that contains `Respelled`. -/
inductive SamePath : List Char → List Char → Prop
  | step {a b : List Char} (h : Respelled a b) : SamePath a b
  | refl (a : List Char) : SamePath a a
  | symm {a b : List Char} (h : SamePath a b) : SamePath b a
  | trans {a b c : List Char} (h : SamePath a b) (h' : SamePath b c) : SamePath a c

section
variable {F : Type}

/-! ### The shape -/

/-- The path of all shapes -/
def somewhere : String := ""

def shapeSpectrum : Spectrum F → Spectrum Unit
  | .Rgb _ _ _ => .Rgb () () ()
  | .Xyz _ _ _ => .Xyz () () ()
  | .Spectrum l => .Spectrum (l.map fun _ => ((), ()))
  | .File _ => .File somewhere
  | .Blackbody _ _ => .Blackbody () ()

/-- A parameter whose values are replaced -/
def shapeParam {S U : Type} (f : S → U) (p : Param S) : Param U := ⟨p.name, p.pos, p.values.map f⟩

def shapeSet (s : ParamSet F) : ParamSet Unit where
  bools := s.bools
  ints := s.ints
  floats := s.floats.map (shapeParam fun _ => ())
  point2fs := s.point2fs.map (shapeParam fun _ => ⟨(), ()⟩)
  vector2fs := s.vector2fs.map (shapeParam fun _ => ⟨(), ()⟩)
  point3fs := s.point3fs.map (shapeParam fun _ => ⟨(), (), ()⟩)
  vector3fs := s.vector3fs.map (shapeParam fun _ => ⟨(), (), ()⟩)
  normal3fs := s.normal3fs.map (shapeParam fun _ => ⟨(), (), ()⟩)
  spectra := s.spectra.map (shapeParam shapeSpectrum)
  strings := s.strings
  textures := s.textures

def shapeStruct (d : DirectiveStruct F) : DirectiveStruct Unit := ⟨d.ty, d.pos, shapeSet d.paramSet⟩

mutual
def shapeDir : Directive F → Directive Unit
  | .Material d => .Material (shapeStruct d)
  | .Shape d => .Shape (shapeStruct d)
  | .LightSource d => .LightSource (shapeStruct d)
  | .AreaLightSource d => .AreaLightSource (shapeStruct d)
  | .Attribute p ds => .Attribute p (shapeDirs ds)
  | .Transform p ds => .Transform p (shapeDirs ds)
  | .World p ds => .World p (shapeDirs ds)
  | .Include p _ => .Include p somewhere
  | .Texture t => .Texture ⟨t.name, t.ty, t.cls, t.pos, shapeSet t.paramSet⟩
def shapeDirs : List (Directive F) → List (Directive Unit)
  | [] => []
  | d :: ds => shapeDir d :: shapeDirs ds
end

/-- Three and nine of nothing -/
def three : Vector3f Unit := ⟨(), (), ()⟩
def nine : Matrix3f Unit := ⟨(), (), (), (), (), (), (), (), ()⟩

def shapePre : PreDirective F → PreDirective Unit
  | .Identity p => .Identity p
  | .Translate p _ => .Translate p three
  | .Scale p _ => .Scale p three
  | .Rotate p _ _ => .Rotate p () three
  | .LookAt p _ => .LookAt p nine
  | .CoordinateSystem p s => .CoordinateSystem p s
  | .CoordSysTransform p s => .CoordSysTransform p s
  | .Transform p _ => .Transform p nine
  | .ConcatTransform p _ => .ConcatTransform p nine
  | .ActiveTransform p s => .ActiveTransform p s
  | .TransformTimes p _ _ => .TransformTimes p () ()
  | .Camera d => .Camera (shapeStruct d)
  | .Sampler d => .Sampler (shapeStruct d)
  | .Film d => .Film (shapeStruct d)
  | .Filter d => .Filter (shapeStruct d)
  | .Integrator d => .Integrator (shapeStruct d)
  | .Accelerator d => .Accelerator (shapeStruct d)
  | .Include p _ => .Include p somewhere

/-- The shape of a scene -/
def shapeScene (s : List (PreDirective F) × Directive F) : List (PreDirective Unit) × Directive Unit :=
  (s.1.map shapePre, shapeDir s.2)

/-! ### The floats and the paths, in order -/

def spectrumFloats : Spectrum F → List F
  | .Rgb r g b => [r, g, b]
  | .Xyz x y z => [x, y, z]
  | .Spectrum l => l.flatMap fun s => [s.1, s.2]
  | .File _ => []
  | .Blackbody t s => [t, s]

def spectrumPaths : Spectrum F → List String
  | .File p => [p]
  | _ => []

/-- What the values of parameters contain -/
def paramParts {S A : Type} (f : S → List A) (l : List (Param S)) : List A :=
  l.flatMap fun p => p.values.flatMap f

def setFloats (s : ParamSet F) : List F :=
  paramParts (fun x => [x]) s.floats ++
  paramParts (fun p => [p.x, p.y]) s.point2fs ++
  paramParts (fun v => [v.x, v.y]) s.vector2fs ++
  paramParts (fun p => [p.x, p.y, p.z]) s.point3fs ++
  paramParts (fun v => [v.x, v.y, v.z]) s.vector3fs ++
  paramParts (fun n => [n.x, n.y, n.z]) s.normal3fs ++
  paramParts spectrumFloats s.spectra

def setPaths (s : ParamSet F) : List String := paramParts spectrumPaths s.spectra

mutual
def dirFloats : Directive F → List F
  | .Material d => setFloats d.paramSet
  | .Shape d => setFloats d.paramSet
  | .LightSource d => setFloats d.paramSet
  | .AreaLightSource d => setFloats d.paramSet
  | .Attribute _ ds => dirsFloats ds
  | .Transform _ ds => dirsFloats ds
  | .World _ ds => dirsFloats ds
  | .Include _ _ => []
  | .Texture t => setFloats t.paramSet
def dirsFloats : List (Directive F) → List F
  | [] => []
  | d :: ds => dirFloats d ++ dirsFloats ds
end

mutual
def dirPaths : Directive F → List String
  | .Material d => setPaths d.paramSet
  | .Shape d => setPaths d.paramSet
  | .LightSource d => setPaths d.paramSet
  | .AreaLightSource d => setPaths d.paramSet
  | .Attribute _ ds => dirsPaths ds
  | .Transform _ ds => dirsPaths ds
  | .World _ ds => dirsPaths ds
  | .Include _ s => [s]
  | .Texture t => setPaths t.paramSet
def dirsPaths : List (Directive F) → List String
  | [] => []
  | d :: ds => dirPaths d ++ dirsPaths ds
end

def preFloats : PreDirective F → List F
  | .Translate _ v => [v.x, v.y, v.z]
  | .Scale _ v => [v.x, v.y, v.z]
  | .Rotate _ t v => [t, v.x, v.y, v.z]
  | .LookAt _ m => [m.m00, m.m01, m.m02, m.m10, m.m11, m.m12, m.m20, m.m21, m.m22]
  | .Transform _ m => [m.m00, m.m01, m.m02, m.m10, m.m11, m.m12, m.m20, m.m21, m.m22]
  | .ConcatTransform _ m => [m.m00, m.m01, m.m02, m.m10, m.m11, m.m12, m.m20, m.m21, m.m22]
  | .TransformTimes _ a b => [a, b]
  | .Camera d => setFloats d.paramSet
  | .Sampler d => setFloats d.paramSet
  | .Film d => setFloats d.paramSet
  | .Filter d => setFloats d.paramSet
  | .Integrator d => setFloats d.paramSet
  | .Accelerator d => setFloats d.paramSet
  | _ => []

def prePaths : PreDirective F → List String
  | .Camera d => setPaths d.paramSet
  | .Sampler d => setPaths d.paramSet
  | .Film d => setPaths d.paramSet
  | .Filter d => setPaths d.paramSet
  | .Integrator d => setPaths d.paramSet
  | .Accelerator d => setPaths d.paramSet
  | .Include _ s => [s]
  | _ => []

/-- All floats of a scene -/
def sceneFloats (s : List (PreDirective F) × Directive F) : List F := s.1.flatMap preFloats ++ dirFloats s.2

/-- All paths of a scene -/
def scenePaths (s : List (PreDirective F) × Directive F) : List String := s.1.flatMap prePaths ++ dirPaths s.2

end
end Pbrt.Spec
