import Verif.Model.Elem

/-!
# `/repo/src/core/vector.rs`, `/repo/src/core/point.rs`, `/repo/src/core/normal.rs`

`&self` and `self` versions of an operator are the same function, so they are modelled once.
`Vector3::transform` is in `Model/Transform.lean`.
-/

namespace Pbrt

/-- vector.rs:5-9 `struct Vector2<T>` -/
structure Vector2 (T : Type) where
  x : T
  y : T
deriving DecidableEq

/-- vector.rs:40-45 `struct Vector3<T>` -/
structure Vector3 (T : Type) where
  x : T
  y : T
  z : T
deriving DecidableEq

/-- point.rs:5-9 `struct Point2<T>` -/
structure Point2 (T : Type) where
  x : T
  y : T
deriving DecidableEq

/-- point.rs:21-26 `struct Point3<T>` -/
structure Point3 (T : Type) where
  x : T
  y : T
  z : T
deriving DecidableEq

/-- normal.rs:4-9 `struct Normal3<T>` -/
structure Normal3 (T : Type) where
  x : T
  y : T
  z : T
deriving DecidableEq

variable {T F : Type} [Elem T] [Elem F]

/-! ### vector.rs -/

namespace Vector2

omit [Elem T] in
/-- vector.rs:11-22 `Index::index` for `Vector2`: `assert!(i < 2)`, then the component -/
def index (v : Vector2 T) (i : Nat) : Outcome T :=
  if i < 2 then
    match i with
    | 0 => .ok v.x
    | 1 => .ok v.y
    | _ => .error .assertion
  else .error .assertion

/-- vector.rs:30-38 `Div<T>` for `Vector2<T>`.  (`recip` is `rhs`, not `1 / rhs`.) -/
def div (v : Vector2 T) (rhs : T) : Outcome (Vector2 T) :=
  if Elem.eq rhs (Elem.fromInt 0) then .error .assertion
  else do
    let recip := rhs
    let x ← Elem.mul v.x recip
    let y ← Elem.mul v.y recip
    pure ⟨x, y⟩

end Vector2

namespace Vector3

omit [Elem T] in
/-- vector.rs:47-59 `Index::index` for `Vector3` -/
def index (v : Vector3 T) (i : Nat) : Outcome T :=
  if i < 3 then
    match i with
    | 0 => .ok v.x
    | 1 => .ok v.y
    | 2 => .ok v.z
    | _ => .error .assertion
  else .error .assertion

/-- vector.rs:66-68 `len_sq` -/
def lenSq (v : Vector3 T) : Outcome T := do
  let a ← Elem.mul v.x v.x
  let b ← Elem.mul v.y v.y
  let ab ← Elem.add a b
  let c ← Elem.mul v.z v.z
  Elem.add ab c

/-- vector.rs:70-73 `len` -/
def len [As T F] [FloatFns F] (v : Vector3 T) : Outcome F := do
  let f ← v.lenSq
  FloatFns.sqrt (As.as_ f)

/-- vector.rs:75-77 `dot` -/
def dot (u v : Vector3 T) : Outcome T := do
  let a ← Elem.mul u.x v.x
  let b ← Elem.mul u.y v.y
  let ab ← Elem.add a b
  let c ← Elem.mul u.z v.z
  Elem.add ab c

/-- vector.rs:79-85 `cross` -/
def cross (u v : Vector3 T) : Outcome (Vector3 T) := do
  let yz ← Elem.mul u.y v.z
  let zy ← Elem.mul u.z v.y
  let x ← Elem.sub yz zy
  let zx ← Elem.mul u.z v.x
  let xz ← Elem.mul u.x v.z
  let y ← Elem.sub zx xz
  let xy ← Elem.mul u.x v.y
  let yx ← Elem.mul u.y v.x
  let z ← Elem.sub xy yx
  pure ⟨x, y, z⟩

omit [Elem T] in
/-- vector.rs:87-89 `permute` -/
def permute (v : Vector3 T) (x y z : Nat) : Outcome (Vector3 T) := do
  let a ← v.index x
  let b ← v.index y
  let c ← v.index z
  pure ⟨a, b, c⟩

/-- vector.rs:149-164 `Neg` -/
def neg (v : Vector3 T) : Outcome (Vector3 T) := do
  let x ← Elem.neg v.x
  let y ← Elem.neg v.y
  let z ← Elem.neg v.z
  pure ⟨x, y, z⟩

/-- vector.rs:91-97 `face_forward` -/
def faceForward (v v2 : Vector3 T) : Outcome (Vector3 T) := do
  let d ← v.dot v2
  if Elem.lt d (Elem.fromInt 0) then v.neg else pure v

/-- vector.rs:99-105 `min` -/
def min (u v : Vector3 T) : Vector3 T :=
  ⟨pminFrom u.x [v.x], pminFrom u.y [v.y], pminFrom u.z [v.z]⟩

/-- vector.rs:107-113 `max` -/
def max (u v : Vector3 T) : Vector3 T :=
  ⟨pmaxFrom u.x [v.x], pmaxFrom u.y [v.y], pmaxFrom u.z [v.z]⟩

/-- vector.rs:115-117 `min_component` -/
def minComponent (v : Vector3 T) : T := pminFrom v.x [v.y, v.z]

/-- vector.rs:119-121 `max_component` -/
def maxComponent (v : Vector3 T) : T := pmaxFrom v.x [v.y, v.z]

/-- vector.rs:123-135 `max_dimension` -/
def maxDimension (v : Vector3 T) : Nat :=
  if Elem.gt v.x v.y then
    if Elem.gt v.x v.z then 0 else 2
  else if Elem.gt v.y v.z then 1
  else 2

/-- vector.rs:165-171 `Add` -/
def add (u v : Vector3 T) : Outcome (Vector3 T) := do
  let x ← Elem.add u.x v.x
  let y ← Elem.add u.y v.y
  let z ← Elem.add u.z v.z
  pure ⟨x, y, z⟩

/-- vector.rs:173-179 `Sub` -/
def sub (u v : Vector3 T) : Outcome (Vector3 T) := do
  let x ← Elem.sub u.x v.x
  let y ← Elem.sub u.y v.y
  let z ← Elem.sub u.z v.z
  pure ⟨x, y, z⟩

/-- vector.rs:181-195 `Mul<T>` -/
def mul (v : Vector3 T) (s : T) : Outcome (Vector3 T) := do
  let x ← Elem.mul s v.x
  let y ← Elem.mul s v.y
  let z ← Elem.mul s v.z
  pure ⟨x, y, z⟩

/-- vector.rs:197-203 `Div<T>` -/
def div (v : Vector3 T) (s : T) : Outcome (Vector3 T) := do
  let x ← Elem.div v.x s
  let y ← Elem.div v.y s
  let z ← Elem.div v.z s
  pure ⟨x, y, z⟩

omit [Elem T] in
/-- vector.rs:205-209 `From<Point3<T>>` -/
def ofPoint (p : Point3 T) : Vector3 T := ⟨p.x, p.y, p.z⟩

/-- vector.rs:211-219 `coordinate_system` -/
def coordinateSystem [FloatFns F] (v1 : Vector3 F) : Outcome (Vector3 F × Vector3 F) := do
  let ax ← Elem.abs v1.x
  let ay ← Elem.abs v1.y
  let v2 ←
    if Elem.gt ax ay then do
      let nz ← Elem.neg v1.z
      let xx ← Elem.mul v1.x v1.x
      let zz ← Elem.mul v1.z v1.z
      let s ← Elem.add xx zz
      let l ← FloatFns.sqrt s
      Vector3.div ⟨nz, Elem.fromInt 0, v1.x⟩ l
    else do
      let ny ← Elem.neg v1.y
      let yy ← Elem.mul v1.y v1.y
      let zz ← Elem.mul v1.z v1.z
      let s ← Elem.add yy zz
      let l ← FloatFns.sqrt s
      Vector3.div ⟨Elem.fromInt 0, v1.z, ny⟩ l
  let v3 ← v1.cross v2
  pure (v2, v3)

end Vector3

/-! ### point.rs -/

namespace Point2

/-- point.rs:16-18 `abs` -/
def abs (p : Point2 T) : Outcome (Point2 T) := do
  let x ← Elem.abs p.x
  let y ← Elem.abs p.y
  pure ⟨x, y⟩

end Point2

namespace Point3

/-- point.rs:33-35 `abs` -/
def abs (p : Point3 T) : Outcome (Point3 T) := do
  let x ← Elem.abs p.x
  let y ← Elem.abs p.y
  let z ← Elem.abs p.z
  pure ⟨x, y, z⟩

/-- point.rs:37-43 `min` -/
def min (p q : Point3 T) : Point3 T :=
  ⟨pminFrom p.x [q.x], pminFrom p.y [q.y], pminFrom p.z [q.z]⟩

/-- point.rs:45-51 `max` -/
def max (p q : Point3 T) : Point3 T :=
  ⟨pmaxFrom p.x [q.x], pmaxFrom p.y [q.y], pmaxFrom p.z [q.z]⟩

omit [Elem T] in
/-- point.rs:54-58 `From<Vector3<T>>` -/
def ofVector (v : Vector3 T) : Point3 T := ⟨v.x, v.y, v.z⟩

/-- mod.rs:117-121 `HasNan` for `Point3<T>` -/
def hasNan (p : Point3 T) : Bool := Elem.isNan p.x || Elem.isNan p.y || Elem.isNan p.z

/-- point.rs:60-65 `From<Point3<T>>` for `Point2<T>` -/
def toPoint2 (p : Point3 T) : Outcome (Point2 T) :=
  if p.hasNan then .error .assertion else .ok ⟨p.x, p.y⟩

/-- point.rs:67-73 `Add<Vector3<T>>` -/
def add (p : Point3 T) (v : Vector3 T) : Outcome (Point3 T) := do
  let x ← Elem.add p.x v.x
  let y ← Elem.add p.y v.y
  let z ← Elem.add p.z v.z
  pure ⟨x, y, z⟩

/-- point.rs:75-81 `Sub<Vector3<T>>` -/
def subVec (p : Point3 T) (v : Vector3 T) : Outcome (Point3 T) := do
  let x ← Elem.sub p.x v.x
  let y ← Elem.sub p.y v.y
  let z ← Elem.sub p.z v.z
  pure ⟨x, y, z⟩

/-- point.rs:83-97 `Sub<Point3<T>>` -/
def sub (p q : Point3 T) : Outcome (Vector3 T) := do
  let x ← Elem.sub p.x q.x
  let y ← Elem.sub p.y q.y
  let z ← Elem.sub p.z q.z
  pure ⟨x, y, z⟩

/-- point.rs:99-113 `Mul<T>` -/
def mul (p : Point3 T) (s : T) : Outcome (Point3 T) := do
  let x ← Elem.mul s p.x
  let y ← Elem.mul s p.y
  let z ← Elem.mul s p.z
  pure ⟨x, y, z⟩

/-- point.rs:115-121 `Div<T>` -/
def div (p : Point3 T) (s : T) : Outcome (Point3 T) := do
  let x ← Elem.div p.x s
  let y ← Elem.div p.y s
  let z ← Elem.div p.z s
  pure ⟨x, y, z⟩

/-- point.rs:123-125 `lerp` -/
def lerp (t : F) (p0 p1 : Point3 F) : Outcome (Point3 F) := do
  let s ← Elem.sub (Elem.fromInt 1) t
  let a ← p0.mul s
  let b ← p1.mul t
  a.add (Vector3.ofPoint b)

omit [Elem F] in
/-- point.rs:127-129 `floor` -/
def floor [FloatFns F] (p : Point3 F) : Point3 F :=
  ⟨FloatFns.floor p.x, FloatFns.floor p.y, FloatFns.floor p.z⟩

omit [Elem F] in
/-- point.rs:131-133 `ceil` -/
def ceil [FloatFns F] (p : Point3 F) : Point3 F :=
  ⟨FloatFns.ceil p.x, FloatFns.ceil p.y, FloatFns.ceil p.z⟩

end Point3

/-! ### normal.rs -/

namespace Normal3

omit [Elem T] in
/-- normal.rs:11-23 `Index::index` -/
def index (v : Normal3 T) (i : Nat) : Outcome T :=
  if i < 3 then
    match i with
    | 0 => .ok v.x
    | 1 => .ok v.y
    | 2 => .ok v.z
    | _ => .error .assertion
  else .error .assertion

/-- normal.rs:30-32 `len_sq` -/
def lenSq (v : Normal3 T) : Outcome T := do
  let a ← Elem.mul v.x v.x
  let b ← Elem.mul v.y v.y
  let ab ← Elem.add a b
  let c ← Elem.mul v.z v.z
  Elem.add ab c

/-- normal.rs:34-37 `len` -/
def len [As T F] [FloatFns F] (v : Normal3 T) : Outcome F := do
  let f ← v.lenSq
  FloatFns.sqrt (As.as_ f)

/-- normal.rs:39-41 `dot` -/
def dot (u v : Normal3 T) : Outcome T := do
  let a ← Elem.mul u.x v.x
  let b ← Elem.mul u.y v.y
  let ab ← Elem.add a b
  let c ← Elem.mul u.z v.z
  Elem.add ab c

/-- normal.rs:43-49 `cross` -/
def cross (u v : Normal3 T) : Outcome (Normal3 T) := do
  let yz ← Elem.mul u.y v.z
  let zy ← Elem.mul u.z v.y
  let x ← Elem.sub yz zy
  let zx ← Elem.mul u.z v.x
  let xz ← Elem.mul u.x v.z
  let y ← Elem.sub zx xz
  let xy ← Elem.mul u.x v.y
  let yx ← Elem.mul u.y v.x
  let z ← Elem.sub xy yx
  pure ⟨x, y, z⟩

omit [Elem T] in
/-- normal.rs:51-53 `permute` -/
def permute (v : Normal3 T) (x y z : Nat) : Outcome (Normal3 T) := do
  let a ← v.index x
  let b ← v.index y
  let c ← v.index z
  pure ⟨a, b, c⟩

/-- normal.rs:102-116 `Neg` -/
def neg (v : Normal3 T) : Outcome (Normal3 T) := do
  let x ← Elem.neg v.x
  let y ← Elem.neg v.y
  let z ← Elem.neg v.z
  pure ⟨x, y, z⟩

/-- normal.rs:55-61 `face_forward` -/
def faceForward (v v2 : Normal3 T) : Outcome (Normal3 T) := do
  let d ← v.dot v2
  if Elem.lt d (Elem.fromInt 0) then v.neg else pure v

/-- normal.rs:63-69 `min` -/
def min (u v : Normal3 T) : Normal3 T :=
  ⟨pminFrom u.x [v.x], pminFrom u.y [v.y], pminFrom u.z [v.z]⟩

/-- normal.rs:71-77 `max` -/
def max (u v : Normal3 T) : Normal3 T :=
  ⟨pmaxFrom u.x [v.x], pmaxFrom u.y [v.y], pmaxFrom u.z [v.z]⟩

/-- normal.rs:79-81 `min_component` -/
def minComponent (v : Normal3 T) : T := pminFrom v.x [v.y, v.z]

/-- normal.rs:83-85 `max_component` -/
def maxComponent (v : Normal3 T) : T := pmaxFrom v.x [v.y, v.z]

/-- normal.rs:87-99 `max_dimension` -/
def maxDimension (v : Normal3 T) : Nat :=
  if Elem.gt v.x v.y then
    if Elem.gt v.x v.z then 0 else 2
  else if Elem.gt v.y v.z then 1
  else 2

/-- normal.rs:118-124 `Add` -/
def add (u v : Normal3 T) : Outcome (Normal3 T) := do
  let x ← Elem.add u.x v.x
  let y ← Elem.add u.y v.y
  let z ← Elem.add u.z v.z
  pure ⟨x, y, z⟩

/-- normal.rs:126-132 `Sub` -/
def sub (u v : Normal3 T) : Outcome (Normal3 T) := do
  let x ← Elem.sub u.x v.x
  let y ← Elem.sub u.y v.y
  let z ← Elem.sub u.z v.z
  pure ⟨x, y, z⟩

/-- normal.rs:134-148 `Mul<T>` -/
def mul (v : Normal3 T) (s : T) : Outcome (Normal3 T) := do
  let x ← Elem.mul s v.x
  let y ← Elem.mul s v.y
  let z ← Elem.mul s v.z
  pure ⟨x, y, z⟩

/-- normal.rs:150-156 `Div<T>` -/
def div (v : Normal3 T) (s : T) : Outcome (Normal3 T) := do
  let x ← Elem.div v.x s
  let y ← Elem.div v.y s
  let z ← Elem.div v.z s
  pure ⟨x, y, z⟩

omit [Elem T] in
/-- normal.rs:158-162 `From<Vector3<T>>` -/
def ofVector (v : Vector3 T) : Normal3 T := ⟨v.x, v.y, v.z⟩

end Normal3

end Pbrt
