import Verif.Model.Parser

/-!
# Parse results without positions
-/

namespace Pbrt.Spec

variable {F : Type}

/-- The position written instead of the real ones. -/
def nowhere : Pos := ⟨0, 0⟩

def eraseParam {T : Type} (p : Param T) : Param T := { p with pos := nowhere }

def eraseSet (s : ParamSet F) : ParamSet F where
  bools := s.bools.map eraseParam
  ints := s.ints.map eraseParam
  floats := s.floats.map eraseParam
  point2fs := s.point2fs.map eraseParam
  vector2fs := s.vector2fs.map eraseParam
  point3fs := s.point3fs.map eraseParam
  vector3fs := s.vector3fs.map eraseParam
  normal3fs := s.normal3fs.map eraseParam
  spectra := s.spectra.map eraseParam
  strings := s.strings.map eraseParam
  textures := s.textures.map eraseParam

def eraseStruct (d : DirectiveStruct F) : DirectiveStruct F :=
  ⟨d.ty, nowhere, eraseSet d.paramSet⟩

/-- A pre-world directive without its positions. -/
def erasePre : PreDirective F → PreDirective F
  | .Identity _ => .Identity nowhere
  | .Translate _ v => .Translate nowhere v
  | .Scale _ v => .Scale nowhere v
  | .Rotate _ a v => .Rotate nowhere a v
  | .LookAt _ m => .LookAt nowhere m
  | .CoordinateSystem _ s => .CoordinateSystem nowhere s
  | .CoordSysTransform _ s => .CoordSysTransform nowhere s
  | .Transform _ m => .Transform nowhere m
  | .ConcatTransform _ m => .ConcatTransform nowhere m
  | .ActiveTransform _ s => .ActiveTransform nowhere s
  | .TransformTimes _ a b => .TransformTimes nowhere a b
  | .Camera d => .Camera (eraseStruct d)
  | .Sampler d => .Sampler (eraseStruct d)
  | .Film d => .Film (eraseStruct d)
  | .Filter d => .Filter (eraseStruct d)
  | .Integrator d => .Integrator (eraseStruct d)
  | .Accelerator d => .Accelerator (eraseStruct d)
  | .Include _ s => .Include nowhere s

mutual
/-- A world directive without its positions. -/
def eraseDir : Directive F → Directive F
  | .Material d => .Material (eraseStruct d)
  | .Shape d => .Shape (eraseStruct d)
  | .LightSource d => .LightSource (eraseStruct d)
  | .AreaLightSource d => .AreaLightSource (eraseStruct d)
  | .Attribute _ ds => .Attribute nowhere (eraseDirs ds)
  | .Transform _ ds => .Transform nowhere (eraseDirs ds)
  | .World _ ds => .World nowhere (eraseDirs ds)
  | .Include _ s => .Include nowhere s
  | .Texture t => .Texture ⟨t.name, t.ty, t.cls, nowhere, eraseSet t.paramSet⟩

def eraseDirs : List (Directive F) → List (Directive F)
  | [] => []
  | d :: ds => eraseDir d :: eraseDirs ds
end

/-- A parse result without positions. -/
def erase (r : List (PreDirective F) × Directive F) : List (PreDirective F) × Directive F :=
  (r.1.map erasePre, eraseDir r.2)

end Pbrt.Spec
