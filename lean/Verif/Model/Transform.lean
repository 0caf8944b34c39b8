import Verif.Model.Matrix

/-!
# `/repo/src/core/transform.rs`, `/repo/src/core/ray.rs`, `Vector3::transform`
-/

namespace Pbrt

variable {T F : Type} [Elem T] [Elem F]

/-- transform.rs:3-7 `struct Transform` -/
structure Transform (F : Type) where
  m : Matrix4 F
  mInv : Matrix4 F

/-- vector.rs:137-146 `Vector3::transform`; `t.m[i][j]` is written `t.m.mat i j`. -/
def Vector3.transform [As T F] (v : Vector3 T) (t : Transform F) : Outcome (Vector3 F) := do
  let x : F := As.as_ v.x
  let y : F := As.as_ v.y
  let z : F := As.as_ v.z
  let row (i : Fin 4) : Outcome F := do
    let a ← Elem.mul (t.m.mat i 0) x
    let b ← Elem.mul (t.m.mat i 1) y
    let ab ← Elem.add a b
    let c ← Elem.mul (t.m.mat i 2) z
    Elem.add ab c
  let rx ← row 0
  let ry ← row 1
  let rz ← row 2
  pure ⟨rx, ry, rz⟩

namespace Transform

/-- the float literals `0.` and `1.` -/
local notation "𝟬" => Elem.fromInt (T := F) 0
local notation "𝟭" => Elem.fromInt (T := F) 1

/-- transform.rs:14-16 `new_` -/
def new_ [As F F] (mat : Matrix4 F) : Outcome (Transform F) := do
  let inv ← mat.inverse
  pure ⟨mat, inv⟩

omit [Elem F] in
/-- transform.rs:18-20 `inverse` -/
def inverse (t : Transform F) : Transform F := ⟨t.mInv, t.m⟩

omit [Elem F] in
/-- transform.rs:22-24 `transpose` -/
def transpose (t : Transform F) : Transform F := ⟨t.m.transpose, t.mInv.transpose⟩

/-- transform.rs:26-33 `is_identity` -/
def isIdentity (t : Transform F) : Bool :=
  t.m.eq ⟨Mat44.ofRows
    𝟭 𝟬 𝟬 𝟬
    𝟬 𝟭 𝟬 𝟬
    𝟬 𝟬 𝟭 𝟬
    𝟬 𝟬 𝟬 𝟭⟩

/-- transform.rs:35-50 `translate` -/
def translate (delta : Vector3 F) : Outcome (Transform F) := do
  let nx ← Elem.neg delta.x
  let ny ← Elem.neg delta.y
  let nz ← Elem.neg delta.z
  pure ⟨⟨Mat44.ofRows
      𝟭 𝟬 𝟬 delta.x
      𝟬 𝟭 𝟬 delta.y
      𝟬 𝟬 𝟭 delta.z
      𝟬 𝟬 𝟬 𝟭⟩,
    ⟨Mat44.ofRows
      𝟭 𝟬 𝟬 nx
      𝟬 𝟭 𝟬 ny
      𝟬 𝟬 𝟭 nz
      𝟬 𝟬 𝟬 𝟭⟩⟩

/-- transform.rs:52-67 `scale`.  (The last row of the stored inverse is `[0, 0, z, 1]`.) -/
def scale (x y z : F) : Outcome (Transform F) := do
  let rx ← Elem.div 𝟭 x
  let ry ← Elem.div 𝟭 y
  let rz ← Elem.div 𝟭 z
  pure ⟨⟨Mat44.ofRows
      x 𝟬 𝟬 𝟬
      𝟬 y 𝟬 𝟬
      𝟬 𝟬 z 𝟬
      𝟬 𝟬 𝟬 𝟭⟩,
    ⟨Mat44.ofRows
      rx 𝟬 𝟬 𝟬
      𝟬 ry 𝟬 𝟬
      𝟬 𝟬 rz 𝟬
      𝟬 𝟬 z 𝟭⟩⟩

/-- transform.rs:69-74 `has_scale` -/
def hasScale [As F F] [FloatFns F] (t : Transform F) : Outcome Bool := do
  let va ← (⟨𝟭, 𝟬, 𝟬⟩ : Vector3 F).transform t
  let la2 ← va.lenSq
  let vb ← (⟨𝟬, 𝟭, 𝟬⟩ : Vector3 F).transform t
  let lb2 ← vb.lenSq
  let vc ← (⟨𝟬, 𝟬, 𝟭⟩ : Vector3 F).transform t
  let lc2 ← vc.lenSq
  pure (notOne la2 || notOne lb2 || notOne lc2)

end Transform

/-! ### ray.rs -/

/-- ray.rs:3-9 `struct Ray`; the field `medium : Medium` has no contents (mod.rs:132) and is left
    out. -/
structure Ray (F : Type) where
  o : Point3 F
  d : Vector3 F
  tMax : F
  time : F
deriving DecidableEq

namespace Ray

/-- ray.rs:22-24 `new_infinite`; `INFINITY` is `Float`'s `max_value` (mod.rs:66-68). -/
def newInfinite [Extremes F] (o : Point3 F) (d : Vector3 F) : Ray F :=
  ⟨o, d, Extremes.maxValue, Elem.fromInt 0⟩

/-- ray.rs:26-28 `at` -/
def «at» (r : Ray F) (t : F) : Outcome (Point3 F) := do
  let v ← r.d.mul t
  r.o.add v

end Ray

/-- ray.rs:31-38 `struct RayDifferential` -/
structure RayDifferential (F : Type) where
  ray : Ray F
  hasDifferentials : Bool
  rxOrigin : Point3 F
  ryOrigin : Point3 F
  rxDirection : Vector3 F
  ryDirection : Vector3 F
deriving DecidableEq

namespace RayDifferential

/-- ray.rs:41-50 `new` -/
def new (ray : Ray F) : RayDifferential F :=
  ⟨ray, false, ⟨Elem.fromInt 0, Elem.fromInt 0, Elem.fromInt 0⟩,
    ⟨Elem.fromInt 0, Elem.fromInt 0, Elem.fromInt 0⟩,
    ⟨Elem.fromInt 0, Elem.fromInt 0, Elem.fromInt 0⟩,
    ⟨Elem.fromInt 0, Elem.fromInt 0, Elem.fromInt 0⟩⟩

/-- ray.rs:52-57 `scale_differentials` -/
def scaleDifferentials (r : RayDifferential F) (s : F) : Outcome (RayDifferential F) := do
  let v ← r.rxOrigin.sub r.ray.o
  let v ← v.mul s
  let rxOrigin ← r.ray.o.add v
  let v ← r.ryOrigin.sub r.ray.o
  let v ← v.mul s
  let ryOrigin ← r.ray.o.add v
  let v ← r.rxDirection.sub r.ray.d
  let v ← v.mul s
  let rxDirection ← r.ray.d.add v
  let v ← r.ryDirection.sub r.ray.d
  let v ← v.mul s
  let ryDirection ← r.ray.d.add v
  pure { r with rxOrigin, ryOrigin, rxDirection, ryDirection }

end RayDifferential

end Pbrt
