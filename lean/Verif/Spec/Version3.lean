import Verif.Spec.Reports

/-!
# The scene format of pbrt, version 3

The keywords and parameter types of the file format that the program sets out to read
(https://www.pbrt.org/fileformat-v3), and what of it is missing.
-/

namespace Pbrt.Spec

namespace Version3

/-- The transformations: allowed before `WorldBegin` and inside the world -/
def transforms : List String :=
  ["Identity", "Translate", "Scale", "Rotate", "LookAt", "CoordinateSystem", "CoordSysTransform", "Transform",
   "ConcatTransform", "ActiveTransform"]

/-- Before `WorldBegin` -/
def header : List String :=
  transforms ++ ["TransformTimes", "Camera", "Sampler", "Film", "PixelFilter", "Integrator", "Accelerator",
    "MakeNamedMedium", "MediumInterface", "Include"]

/-- Inside the world -/
def world : List String :=
  transforms ++ ["AttributeBegin", "TransformBegin", "ObjectBegin", "ObjectInstance", "Shape", "LightSource",
    "AreaLightSource", "Material", "MakeNamedMaterial", "NamedMaterial", "Texture", "MakeNamedMedium",
    "MediumInterface", "ReverseOrientation", "Include"]

/-- Types of parameters -/
def types : List String :=
  ["integer", "float", "point2", "vector2", "point3", "point", "vector3", "vector", "normal3", "normal", "spectrum",
   "rgb", "color", "xyz", "blackbody", "bool", "string", "texture"]

/-- What is missing -/
def noHeader : List String := ["PixelFilter", "MakeNamedMedium", "MediumInterface"]

def noWorld : List String :=
  transforms ++ ["ObjectBegin", "ObjectInstance", "MakeNamedMaterial", "NamedMaterial", "MakeNamedMedium",
    "MediumInterface", "ReverseOrientation"]

def noTypes : List String := ["point3", "point", "vector3", "vector", "normal3", "normal", "color"]

end Version3

end Pbrt.Spec
