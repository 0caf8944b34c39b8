import Verif.Model.Vector

/-!
# `/repo/src/core/boundingbox.rs`
-/

namespace Pbrt

variable {T F : Type} [Elem T] [Elem F]

/-- boundingbox.rs:8-11 `struct Bounds2<T>` -/
structure Bounds2 (T : Type) where
  pMin : Point2 T
  pMax : Point2 T
deriving DecidableEq

/-- boundingbox.rs:13-16 `struct Bounds3<T>` -/
structure Bounds3 (T : Type) where
  pMin : Point3 T
  pMax : Point3 T
deriving DecidableEq

namespace Bounds3

/-- boundingbox.rs:21-34 `new` -/
def new (p1 p2 : Point3 T) : Bounds3 T where
  pMin := ⟨pminFrom p1.x [p2.x], pminFrom p1.y [p2.y], pminFrom p1.z [p2.z]⟩
  pMax := ⟨pmaxFrom p1.x [p2.x], pmaxFrom p1.y [p2.y], pmaxFrom p1.z [p2.z]⟩

/-- boundingbox.rs:36-41 `new_inf` -/
def newInf [Extremes T] : Bounds3 T :=
  new ⟨Extremes.maxValue, Extremes.maxValue, Extremes.maxValue⟩
    ⟨Extremes.minValue, Extremes.minValue, Extremes.minValue⟩

/-- boundingbox.rs:43-45 `new_pt` -/
def newPt (p : Point3 T) : Bounds3 T := new p p

omit [Elem T] in
/-- boundingbox.rs:47-64 `corner` -/
def corner (b : Bounds3 T) (corner : Nat) : Point3 T :=
  let x := (if corner &&& 1 > 0 then b.pMin else b.pMax).x
  let y := (if corner &&& 2 > 0 then b.pMin else b.pMax).y
  let z := (if corner &&& 4 > 0 then b.pMin else b.pMax).z
  ⟨x, y, z⟩

/-- boundingbox.rs:66-79 `union_pt` -/
def unionPt (b : Bounds3 T) (p : Point3 T) : Bounds3 T :=
  new ⟨pminFrom b.pMin.x [p.x], pminFrom b.pMin.y [p.y], pminFrom b.pMin.z [p.z]⟩
    ⟨pmaxFrom b.pMax.x [p.x], pmaxFrom b.pMax.y [p.y], pmaxFrom b.pMax.z [p.z]⟩

/-- boundingbox.rs:81-94 `union` -/
def union (a b : Bounds3 T) : Bounds3 T :=
  new ⟨pminFrom a.pMin.x [b.pMin.x], pminFrom a.pMin.y [b.pMin.y], pminFrom a.pMin.z [b.pMin.z]⟩
    ⟨pmaxFrom a.pMax.x [b.pMax.x], pmaxFrom a.pMax.y [b.pMax.y], pmaxFrom a.pMax.z [b.pMax.z]⟩

/-- boundingbox.rs:96-109 `intersect` -/
def intersect (a b : Bounds3 T) : Bounds3 T :=
  new ⟨pmaxFrom a.pMin.x [b.pMin.x], pmaxFrom a.pMin.y [b.pMin.y], pmaxFrom a.pMin.z [b.pMin.z]⟩
    ⟨pminFrom a.pMax.x [b.pMax.x], pminFrom a.pMax.y [b.pMax.y], pminFrom a.pMax.z [b.pMax.z]⟩

/-- boundingbox.rs:111-116 `overlaps` -/
def overlaps (a b : Bounds3 T) : Bool :=
  let x := Elem.ge a.pMax.x b.pMin.x && Elem.le a.pMin.x b.pMax.x
  let y := Elem.ge a.pMax.y b.pMin.y && Elem.le a.pMin.y b.pMax.y
  let z := Elem.ge a.pMax.z b.pMin.z && Elem.le a.pMin.z b.pMax.z
  x && y && z

/-- boundingbox.rs:118-125 `inside` -/
def inside (b : Bounds3 T) (p : Point3 T) : Bool :=
  Elem.ge p.x b.pMin.x && Elem.le p.x b.pMax.x &&
  Elem.ge p.y b.pMin.y && Elem.le p.y b.pMax.y &&
  Elem.ge p.z b.pMin.z && Elem.le p.z b.pMax.z

/-- boundingbox.rs:127-134 `inside_exclusive` -/
def insideExclusive (b : Bounds3 T) (p : Point3 T) : Bool :=
  Elem.ge p.x b.pMin.x && Elem.lt p.x b.pMax.x &&
  Elem.ge p.y b.pMin.y && Elem.lt p.y b.pMax.y &&
  Elem.ge p.z b.pMin.z && Elem.lt p.z b.pMax.z

/-- boundingbox.rs:136-141 `expand` -/
def expand (b : Bounds3 T) (delta : T) : Outcome (Bounds3 T) := do
  let p ← b.pMin.subVec ⟨delta, delta, delta⟩
  let q ← b.pMax.add ⟨delta, delta, delta⟩
  pure (new p q)

/-- boundingbox.rs:143-145 `diagonal` -/
def diagonal (b : Bounds3 T) : Outcome (Vector3 T) := b.pMax.sub b.pMin

/-- boundingbox.rs:147-150 `surface_area` -/
def surfaceArea (b : Bounds3 T) : Outcome T := do
  let d ← b.diagonal
  let xy ← Elem.mul d.x d.y
  let xz ← Elem.mul d.x d.z
  let s ← Elem.add xy xz
  let yz ← Elem.mul d.y d.z
  let s ← Elem.add s yz
  Elem.mul (Elem.fromInt 2) s

/-- boundingbox.rs:152-155 `volume` -/
def volume (b : Bounds3 T) : Outcome T := do
  let d ← b.diagonal
  let xy ← Elem.mul d.x d.y
  Elem.mul xy d.z

/-- boundingbox.rs:157-166 `maximum_extent` -/
def maximumExtent (b : Bounds3 T) : Outcome Nat := do
  let d ← b.diagonal
  pure (if Elem.gt d.x d.y && Elem.gt d.x d.z then 0
    else if Elem.gt d.y d.z then 1
    else 2)

/-- boundingbox.rs:168-180 `offset` -/
def offset (b : Bounds3 T) (p : Point3 T) : Outcome (Vector3 T) := do
  let o ← p.sub b.pMin
  let ox ←
    if Elem.gt b.pMax.x b.pMin.x then do
      let d ← Elem.sub b.pMax.x b.pMin.x
      Elem.div o.x d
    else pure o.x
  let oy ←
    if Elem.gt b.pMax.y b.pMin.y then do
      let d ← Elem.sub b.pMax.y b.pMin.y
      Elem.div o.y d
    else pure o.y
  let oz ←
    if Elem.gt b.pMax.z b.pMin.z then do
      let d ← Elem.sub b.pMax.z b.pMin.z
      Elem.div o.z d
    else pure o.z
  pure ⟨ox, oy, oz⟩

/-- boundingbox.rs:220-230 `bounding_sphere` -/
def boundingSphere [As F F] [FloatFns F] (b : Bounds3 F) : Outcome (Point3 F × F) := do
  let sum ← b.pMin.add (Vector3.ofPoint b.pMax)
  let center ← sum.div (Elem.fromInt 2)
  let radius ←
    if b.inside center then do
      let d ← center.sub b.pMax
      d.len
    else pure (Elem.fromInt 0)
  pure (center, radius)

/-- boundingbox.rs:232-238 `lerp` -/
def lerp (b : Bounds3 F) (t : Point3 F) : Outcome (Point3 F) := do
  let x ← Pbrt.lerp t.x b.pMin.x b.pMax.x
  let y ← Pbrt.lerp t.y b.pMin.y b.pMax.y
  let z ← Pbrt.lerp t.z b.pMin.z b.pMax.z
  pure ⟨x, y, z⟩

end Bounds3

/-- boundingbox.rs:196-200 `struct Bounds2Iter<T>` -/
structure Bounds2Iter (T : Type) where
  pMax : Point2 T
  x : T
  y : T
deriving DecidableEq

omit [Elem T] in
/-- boundingbox.rs:187-193 `into_iter` -/
def Bounds2.intoIter (b : Bounds2 T) : Bounds2Iter T := ⟨b.pMax, b.pMin.x, b.pMin.y⟩

/-- boundingbox.rs:205-217 `next`: the item, and the iterator afterwards -/
def Bounds2Iter.next (it : Bounds2Iter T) : Outcome (Option (Point2 T) × Bounds2Iter T) :=
  if Elem.ge it.x it.pMax.x && Elem.ge it.y it.pMax.y then
    .ok (none, it)
  else if Elem.ge it.x it.pMax.x then do
    let y ← Elem.add it.y (Elem.fromInt 1)
    let it := { it with x := Elem.fromInt 0, y := y }
    pure (some ⟨it.x, it.y⟩, it)
  else do
    let x ← Elem.add it.x (Elem.fromInt 1)
    let it := { it with x := x }
    pure (some ⟨it.x, it.y⟩, it)

end Pbrt
