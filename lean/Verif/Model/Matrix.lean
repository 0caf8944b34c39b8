import Verif.Model.Vector

/-!
# `/repo/src/core/matrix.rs`

An array `[[T; 4]; 4]` is modelled as a function of two indices in `Fin 4`; an assignment
`mat[r][c] = v` gives a new function.  All the loops run over `0..4`, so their indices never are
out of bounds.
-/

namespace Pbrt

variable {T F : Type} [Elem T] [Elem F]

/-- matrix.rs:4-7 `struct Matrix3<T>`: `mat[i][j]` is `mij`. -/
structure Matrix3 (T : Type) where
  m00 : T
  m01 : T
  m02 : T
  m10 : T
  m11 : T
  m12 : T
  m20 : T
  m21 : T
  m22 : T
deriving DecidableEq

/-- `[[T; 4]; 4]` -/
abbrev Mat44 (T : Type) : Type := Fin 4 → Fin 4 → T

omit [Elem T] in
/-- `mat[r][c] = v` -/
def Mat44.set (mat : Mat44 T) (r c : Fin 4) (v : T) : Mat44 T :=
  fun i j => if i = r ∧ j = c then v else mat i j

/-- matrix.rs:9-12 `struct Matrix4<T>` -/
structure Matrix4 (T : Type) where
  mat : Mat44 T

omit [Elem T] in
/-- The array literal `[[a, b, c, d], ...]`, given by its rows. -/
def Mat44.ofRows (a b c d e f g h i j k l m n o p : T) : Mat44 T := fun r s =>
  match r, s with
  | 0, 0 => a | 0, 1 => b | 0, 2 => c | 0, 3 => d
  | 1, 0 => e | 1, 1 => f | 1, 2 => g | 1, 3 => h
  | 2, 0 => i | 2, 1 => j | 2, 2 => k | 2, 3 => l
  | 3, 0 => m | 3, 1 => n | 3, 2 => o | 3, 3 => p

/-- `for i in 0..4 { s = f(i, s) }` -/
def for4 {S : Type} (s : S) (f : Fin 4 → S → Outcome S) : Outcome S :=
  [0, 1, 2, 3].foldlM (fun s i => f i s) s

/-- `for i in (0..4).rev() { s = f(i, s) }` -/
def for4rev {S : Type} (s : S) (f : Fin 4 → S → Outcome S) : Outcome S :=
  [3, 2, 1, 0].foldlM (fun s i => f i s) s

omit [Elem T] in
/-- matrix.rs:103-111 `mat4swap` -/
def mat4swap (mat : Mat44 T) (r0 c0 r1 c1 : Fin 4) : Mat44 T :=
  let tmp := mat r0 c0
  let mat := mat.set r0 c0 (mat r1 c1)
  mat.set r1 c1 tmp

namespace Matrix4

omit [Elem T] in
/-- matrix.rs:25-33 `transpose` -/
def transpose (a : Matrix4 T) : Matrix4 T :=
  let m := a.mat
  ⟨Mat44.ofRows
    (m 0 0) (m 1 0) (m 2 0) (m 3 0)
    (m 0 1) (m 1 1) (m 2 1) (m 3 1)
    (m 0 2) (m 1 2) (m 2 2) (m 3 2)
    (m 0 3) (m 1 3) (m 2 3) (m 3 3)⟩

omit [Elem T] in
/-- matrix.rs:153-160 `Index::index` -/
def index (a : Matrix4 T) (i : Nat) : Outcome (Fin 4 → T) :=
  if h : i < 4 then .ok (a.mat ⟨i, h⟩) else .error .assertion

/-- matrix.rs:123-135 `Add` -/
def add (a b : Matrix4 T) : Outcome (Matrix4 T) := do
  let mat ← for4 (S := Mat44 T) (fun _ _ => Elem.fromInt 0) fun r mat =>
    for4 mat fun c mat => do
      let v ← Elem.add (a.mat r c) (b.mat r c)
      pure (mat.set r c v)
  pure ⟨mat⟩

/-- matrix.rs:137-151 `Mul`: `fold` starts with zero and adds the products in order. -/
def mul (a b : Matrix4 T) : Outcome (Matrix4 T) := do
  let mat ← for4 (S := Mat44 T) (fun _ _ => Elem.fromInt 0) fun r mat =>
    for4 mat fun c mat => do
      let v ← for4 (Elem.fromInt 0) fun i acc => do
        let p ← Elem.mul (a.mat r i) (b.mat i c)
        Elem.add acc p
      pure (mat.set r c v)
  pure ⟨mat⟩

/-- `==` on `Matrix4` (derived `PartialEq`, matrix.rs:9): all entries are equal. -/
def eq (a b : Matrix4 T) : Bool :=
  [0, 1, 2, 3].all fun r => [0, 1, 2, 3].all fun c => Elem.eq (a.mat r c) (b.mat r c)

end Matrix4

omit [Elem T] [Elem F] in
/-- matrix.rs:113-121 `to_mat4f` -/
def toMat4f [As T F] (a : Matrix4 T) : Matrix4 F := ⟨fun r c => As.as_ (a.mat r c)⟩

/-! ### Inverse -/

/-- The variables that live across the iterations of the main loop (matrix.rs:36-39). -/
structure InvState (F : Type) where
  indxc : Fin 4 → Fin 4
  indxr : Fin 4 → Fin 4
  ipiv : Fin 4 → Nat
  minv : Mat44 F

/-- The variables of the pivot search (matrix.rs:41-43). -/
structure PivotState (F : Type) where
  irow : Fin 4
  icol : Fin 4
  big : F

/-- matrix.rs:41-59: choose the pivot. -/
def choosePivot (ipiv : Fin 4 → Nat) (minv : Mat44 F) : Outcome (PivotState F) :=
  for4 (S := PivotState F) ⟨0, 0, Elem.fromInt 0⟩ fun j s =>
    if ipiv j ≠ 1 then
      for4 s fun k s =>
        if ipiv k = 0 then do
          let a ← Elem.abs (minv j k)
          if Elem.ge a s.big then pure ⟨j, k, a⟩ else pure s
        else if ipiv k > 1 then .error .singularPivotTwice
        else pure s
    else pure s

/-- matrix.rs:73-89: scale the pivot row and subtract it from the others. -/
def eliminate (minv : Mat44 F) (icol : Fin 4) : Outcome (Mat44 F) := do
  let pivinv ← Elem.div (Elem.fromInt 1) (minv icol icol)
  let minv := minv.set icol icol (Elem.fromInt 1)
  let minv ← for4 minv fun j minv => do
    let v ← Elem.mul (minv icol j) pivinv
    pure (minv.set icol j v)
  for4 minv fun j minv =>
    if j ≠ icol then do
      let save := minv j icol
      let minv := minv.set j icol (Elem.fromInt 0)
      for4 minv fun k minv => do
        let p ← Elem.mul (minv icol k) save
        let v ← Elem.sub (minv j k) p
        pure (minv.set j k v)
    else pure minv

/-- matrix.rs:40-90: one iteration of the main loop. -/
def invStep (i : Fin 4) (s : InvState F) : Outcome (InvState F) := do
  let p ← choosePivot s.ipiv s.minv
  let irow := p.irow
  let icol := p.icol
  let ipiv := fun k => if k = icol then s.ipiv k + 1 else s.ipiv k
  let minv ←
    if irow ≠ icol then
      for4 s.minv fun k minv => pure (mat4swap minv irow k icol k)
    else pure s.minv
  let indxr := fun k => if k = i then irow else s.indxr k
  let indxc := fun k => if k = i then icol else s.indxc k
  if Elem.eq (minv icol icol) (Elem.fromInt 0) then .error .singularZeroPivot
  else do
    let minv ← eliminate minv icol
    pure ⟨indxc, indxr, ipiv, minv⟩

/-- matrix.rs:35-100 `inverse`.  Simplification: `ipiv` counts in `Nat` instead of `i32` (it is
    at most 4). -/
def Matrix4.inverse [As T F] (a : Matrix4 T) : Outcome (Matrix4 F) := do
  let start : InvState F := ⟨fun _ => 0, fun _ => 0, fun _ => 0, (toMat4f a : Matrix4 F).mat⟩
  let s ← for4 start invStep
  let minv ← for4rev s.minv fun j minv =>
    if s.indxr j ≠ s.indxc j then
      for4 minv fun k minv => pure (mat4swap minv k (s.indxr j) k (s.indxc j))
    else pure minv
  pure ⟨minv⟩

end Pbrt
