import Verif.Spec.Scene

/-!
# What a parse result is made of

Functions that list the keywords, strings, numbers and parameter sets of a parse result, and what
it means that a parameter set comes from tokens.
-/

namespace Pbrt.Spec

variable {F : Type}

/-- Position and keyword of a pre-world directive. -/
def preKey : PreDirective F → Pos × String
  | .Identity p => (p, "Identity")
  | .Translate p _ => (p, "Translate")
  | .Scale p _ => (p, "Scale")
  | .Rotate p _ _ => (p, "Rotate")
  | .LookAt p _ => (p, "LookAt")
  | .CoordinateSystem p _ => (p, "CoordinateSystem")
  | .CoordSysTransform p _ => (p, "CoordSysTransform")
  | .Transform p _ => (p, "Transform")
  | .ConcatTransform p _ => (p, "ConcatTransform")
  | .ActiveTransform p _ => (p, "ActiveTransform")
  | .TransformTimes p _ _ => (p, "TransformTimes")
  | .Camera d => (d.pos, "Camera")
  | .Sampler d => (d.pos, "Sampler")
  | .Film d => (d.pos, "Film")
  | .Filter d => (d.pos, "Filter")
  | .Integrator d => (d.pos, "Integrator")
  | .Accelerator d => (d.pos, "Accelerator")
  | .Include p _ => (p, "Include")

/-- The strings of a pre-world directive (type, name or path), apart from parameters. -/
def preStrs : PreDirective F → List String
  | .CoordinateSystem _ s => [s]
  | .CoordSysTransform _ s => [s]
  | .Camera d => [d.ty]
  | .Sampler d => [d.ty]
  | .Film d => [d.ty]
  | .Filter d => [d.ty]
  | .Integrator d => [d.ty]
  | .Accelerator d => [d.ty]
  | .Include _ s => [s]
  | _ => []

/-- The numbers of a pre-world directive, in order, apart from parameters. -/
def preNums : PreDirective F → List F
  | .Translate _ v => [v.x, v.y, v.z]
  | .Scale _ v => [v.x, v.y, v.z]
  | .Rotate _ t v => [t, v.x, v.y, v.z]
  | .LookAt _ m => [m.m00, m.m01, m.m02, m.m10, m.m11, m.m12, m.m20, m.m21, m.m22]
  | .Transform _ m => [m.m00, m.m01, m.m02, m.m10, m.m11, m.m12, m.m20, m.m21, m.m22]
  | .ConcatTransform _ m => [m.m00, m.m01, m.m02, m.m10, m.m11, m.m12, m.m20, m.m21, m.m22]
  | .TransformTimes _ a b => [a, b]
  | _ => []

/-- The parameter sets of a pre-world directive. -/
def preSets : PreDirective F → List (ParamSet F)
  | .Camera d => [d.paramSet]
  | .Sampler d => [d.paramSet]
  | .Film d => [d.paramSet]
  | .Filter d => [d.paramSet]
  | .Integrator d => [d.paramSet]
  | .Accelerator d => [d.paramSet]
  | _ => []

mutual
/-- Positions and keywords of a directive and everything inside it, outermost first. -/
def dirKey : Directive F → List (Pos × String)
  | .Material d => [(d.pos, "Material")]
  | .Shape d => [(d.pos, "Shape")]
  | .LightSource d => [(d.pos, "LightSource")]
  | .AreaLightSource d => [(d.pos, "AreaLightSource")]
  | .Attribute p ds => (p, "AttributeBegin") :: dirKeyAll ds
  | .Transform p ds => (p, "TransformBegin") :: dirKeyAll ds
  | .World p ds => (p, "WorldBegin") :: dirKeyAll ds
  | .Include p _ => [(p, "Include")]
  | .Texture t => [(t.pos, "Texture")]
/-- The same for a list of directives. -/
def dirKeyAll : List (Directive F) → List (Pos × String)
  | [] => []
  | d :: ds => dirKey d ++ dirKeyAll ds
end

mutual
/-- The strings of a directive and everything inside it, apart from parameters. -/
def dirStrs : Directive F → List String
  | .Material d => [d.ty]
  | .Shape d => [d.ty]
  | .LightSource d => [d.ty]
  | .AreaLightSource d => [d.ty]
  | .Attribute _ ds => dirStrsAll ds
  | .Transform _ ds => dirStrsAll ds
  | .World _ ds => dirStrsAll ds
  | .Include _ s => [s]
  | .Texture t => [t.name, t.ty, t.cls]
/-- The same for a list of directives. -/
def dirStrsAll : List (Directive F) → List String
  | [] => []
  | d :: ds => dirStrs d ++ dirStrsAll ds
end

mutual
/-- The parameter sets of a directive and everything inside it. -/
def dirSets : Directive F → List (ParamSet F)
  | .Material d => [d.paramSet]
  | .Shape d => [d.paramSet]
  | .LightSource d => [d.paramSet]
  | .AreaLightSource d => [d.paramSet]
  | .Attribute _ ds => dirSetsAll ds
  | .Transform _ ds => dirSetsAll ds
  | .World _ ds => dirSetsAll ds
  | .Include _ _ => []
  | .Texture t => [t.paramSet]
/-- The same for a list of directives. -/
def dirSetsAll : List (Directive F) → List (ParamSet F)
  | [] => []
  | d :: ds => dirSets d ++ dirSetsAll ds
end

/-- Positions and words of the identifiers of a token list. -/
def idents (toks : List (Token F)) : List (Pos × String) :=
  toks.filterMap fun t => match t.ty with | .Identifier s => some (t.pos, s) | _ => none

/-- `x` is a number token, converted if it is an integer. -/
def Number (E : Env F) (toks : List (Token F)) (x : F) : Prop :=
  ∃ q, ⟨q, .Float x⟩ ∈ toks ∨ ∃ i, ⟨q, .Int i⟩ ∈ toks ∧ x = E.ofIsize i

/-- `s` is a string token. -/
def Text (toks : List (Token F)) (s : String) : Prop := ∃ q, ⟨q, .Str s⟩ ∈ toks

/-- At position `p` a parameter of type `ty` and name `name` is declared. -/
def Declared (E : Env F) (toks : List (Token F)) (ty : String) (p : Pos) (name : String) : Prop :=
  ∃ decl, ⟨p, .Str decl⟩ ∈ toks ∧ TwoWords E decl ty name

/-- A spectrum made of tokens, with the type it must be declared with. -/
def SpectrumFrom (E : Env F) (toks : List (Token F)) (ty : String) : Spectrum F → Prop
  | .Rgb r g b => ty = "rgb" ∧ ∀ x ∈ [r, g, b], Number E toks x
  | .Xyz x y z => ty = "xyz" ∧ ∀ v ∈ [x, y, z], Number E toks v
  | .Spectrum l => ty = "spectrum" ∧ ∀ x ∈ l, Number E toks x.1 ∧ Number E toks x.2
  | .File s => ty = "spectrum" ∧ Text toks s
  | .Blackbody t s => ty = "blackbody" ∧ ∀ x ∈ [t, s], Number E toks x

/-- Every parameter of the set was declared with its type and name at its position, and its
    values are tokens. -/
structure FromToks (E : Env F) (toks : List (Token F)) (ps : ParamSet F) : Prop where
  ints : ∀ p ∈ ps.ints, Declared E toks "integer" p.pos p.name ∧
    ∀ v ∈ p.values, ∃ q, ⟨q, .Int v⟩ ∈ toks
  floats : ∀ p ∈ ps.floats, Declared E toks "float" p.pos p.name ∧ ∀ v ∈ p.values, Number E toks v
  point2fs : ∀ p ∈ ps.point2fs, Declared E toks "point2" p.pos p.name ∧
    ∀ v ∈ p.values, Number E toks v.x ∧ Number E toks v.y
  vector2fs : ∀ p ∈ ps.vector2fs, Declared E toks "vector2" p.pos p.name ∧
    ∀ v ∈ p.values, Number E toks v.x ∧ Number E toks v.y
  bools : ∀ p ∈ ps.bools, Declared E toks "bool" p.pos p.name ∧
    ∀ v ∈ p.values, Text toks (if v then "true" else "false")
  strings : ∀ p ∈ ps.strings, Declared E toks "string" p.pos p.name ∧ ∀ v ∈ p.values, Text toks v
  textures : ∀ p ∈ ps.textures, Declared E toks "texture" p.pos p.name ∧
    ∀ v ∈ p.values, Text toks v
  spectra : ∀ p ∈ ps.spectra, ∃ ty, Declared E toks ty p.pos p.name ∧
    ∀ v ∈ p.values, SpectrumFrom E toks ty v
  others : ps.point3fs = [] ∧ ps.vector3fs = [] ∧ ps.normal3fs = []

/-- Text order of positions. -/
def Before (p q : Pos) : Prop := p.r < q.r ∨ (p.r = q.r ∧ p.c < q.c)

end Pbrt.Spec
