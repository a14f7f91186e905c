import Verif.Model.State
/-! # Model of `sim/src/utils/tables/mod.rs` and `sim/src/utils/tables/linear_interpolation.rs`

`Box<[T]>` is modelled as `List T`; indexing is checked (`idx`), an index outside the slice being
the panic `indexOutOfBounds`. -/

namespace Post
variable {F : Type} [Flt F]

/-- Slice indexing `l[i]`: panics outside the bounds. -/
def idx {α : Type} (l : List α) (i : Nat) : Except Panic α :=
  match l[i]? with
  | some v => .ok v
  | none => .error .indexOutOfBounds

/-- The loop of `<[T]>::binary_search_by` of the standard library (Rust 1.78) with a comparator
that never answers `Equal`, as used by `partition_point`:
`while left < right { mid = left + size/2; if pred(mid) {left = mid+1} else {right = mid};
size = right - left }`.  (Elements are read with `get_unchecked`; `mid` is always in bounds, and
the model reads a missing element as "predicate false".) -/
def binSearch {α : Type} (pred : α → Bool) (l : List α) (left right : Nat) : Nat :=
  if h : left < right then
    let mid := left + (right - left) / 2
    if (l[mid]?.map pred).getD false then binSearch pred l (mid + 1) right
    else binSearch pred l left mid
  else left
termination_by right - left

/-- `<[T]>::partition_point` -/
def partitionPoint {α : Type} (pred : α → Bool) (l : List α) : Nat :=
  binSearch pred l 0 l.length

/-- linear_interpolation.rs:14-29 `get_idx`.  Both subtractions of 1 are checked `usize`
subtractions. -/
def getIdx (valArr : List F) (val : F) : Except Panic (Nat × Nat) := do
  let p := partitionPoint (fun i => Flt.lt i val) valArr
  let idx1 ←
    if p = valArr.length then
      if p = 0 then .error .underflow else .ok (p - 1)
    else if p = 0 then .ok 1
    else .ok p
  if idx1 = 0 then .error .underflow else .ok (idx1 - 1, idx1)

/-- linear_interpolation.rs:119-141 `linear_interpolate` -/
def linearInterpolate (xArr : List F) (x : F) (data : List F) : Except Panic F :=
  if data.isEmpty then .ok Flt.nan
  else if data.length = 1 then idx data 0
  else do
    let (idx0, idx1) ← getIdx xArr x
    let x0 ← idx xArr idx0
    let x1 ← idx xArr idx1
    let y0 ← idx data idx0
    let y1 ← idx data idx1
    .ok (y0 + (x - x0) * (y1 - y0) / (x1 - x0))

/-- linear_interpolation.rs:83-111 `bilinear_interpolate` -/
def bilinearInterpolate (xArr : List F) (x : F) (yArr : List F) (y : F) (data : List (List F)) :
    Except Panic F :=
  if data.isEmpty then .ok Flt.nan
  else if data.length = 1 then do linearInterpolate yArr y (← idx data 0)
  else do
    let (idx0, idx1) ← getIdx xArr x
    let x0 ← idx xArr idx0
    let x1 ← idx xArr idx1
    let y0 ← linearInterpolate yArr y (← idx data idx0)
    let y1 ← linearInterpolate yArr y (← idx data idx1)
    .ok (y0 + (x - x0) * (y1 - y0) / (x1 - x0))

/-- linear_interpolation.rs:41-71 `trilinear_interpolate` -/
def trilinearInterpolate (xArr : List F) (x : F) (yArr : List F) (y : F) (zArr : List F) (z : F)
    (data : List (List (List F))) : Except Panic F :=
  if data.isEmpty then .ok Flt.nan
  else if data.length = 1 then do bilinearInterpolate yArr y zArr z (← idx data 0)
  else do
    let (idx0, idx1) ← getIdx xArr x
    let x0 ← idx xArr idx0
    let x1 ← idx xArr idx1
    let y0 ← bilinearInterpolate yArr y zArr z (← idx data idx0)
    let y1 ← bilinearInterpolate yArr y zArr z (← idx data idx1)
    .ok (y0 + (x - x0) * (y1 - y0) / (x1 - x0))

/-- tables/mod.rs:118-122 enum `Interpolator` -/
inductive Interpolator
  | linear
deriving DecidableEq, Repr

/-- tables/mod.rs:57-64 struct `Table1D` -/
structure Table1D (F : Type) where
  x : StateVariable × List F
  data : List F
  interpolator : Interpolator

/-- tables/mod.rs:74-85 struct `Table2D` -/
structure Table2D (F : Type) where
  x : StateVariable × List F
  y : StateVariable × List F
  data : List (List F)
  interpolator : Interpolator

/-- tables/mod.rs:95-110 struct `Table3D` -/
structure Table3D (F : Type) where
  x : StateVariable × List F
  y : StateVariable × List F
  z : StateVariable × List F
  data : List (List (List F))
  interpolator : Interpolator

/-- tables/mod.rs:22-29 enum `Table` -/
inductive Table (F : Type)
  | d1 (t : Table1D F)
  | d2 (t : Table2D F)
  | d3 (t : Table3D F)

/-- tables/mod.rs:31-36 `Table::default`: the empty 1D table. -/
def Table.default {F : Type} : Table F := .d1 ⟨(.time, []), [], .linear⟩

/-- tables/mod.rs:136-143 `Table1D::at_state` -/
def Table1D.atState (t : Table1D F) (s : State F) : Except Panic F :=
  match t.interpolator with
  | .linear => linearInterpolate t.x.2 (t.x.1.getValue s) t.data

/-- tables/mod.rs:151-161 `Table2D::at_state` -/
def Table2D.atState (t : Table2D F) (s : State F) : Except Panic F :=
  match t.interpolator with
  | .linear =>
    bilinearInterpolate t.x.2 (t.x.1.getValue s) t.y.2 (t.y.1.getValue s) t.data

/-- tables/mod.rs:169-180 `Table3D::at_state` -/
def Table3D.atState (t : Table3D F) (s : State F) : Except Panic F :=
  match t.interpolator with
  | .linear =>
    trilinearInterpolate t.x.2 (t.x.1.getValue s) t.y.2 (t.y.1.getValue s)
      t.z.2 (t.z.1.getValue s) t.data

/-- tables/mod.rs:41-47 `Table::at_state` -/
def Table.atState (t : Table F) (s : State F) : Except Panic F :=
  match t with
  | .d1 t => t.atState s
  | .d2 t => t.atState s
  | .d3 t => t.atState s

/-- tables/mod.rs:195-202 enum `TableInitError` -/
inductive TableInitError
  | notSorted
  | invalidLength
deriving DecidableEq, Repr

/-- `idx_arr.windows(2).all(|w| w[0] < w[1])` (tables/mod.rs:223) -/
def windowsAscending : List F → Bool
  | [] => true
  | [_] => true
  | a :: b :: rest => Flt.lt a b && windowsAscending (b :: rest)

/-- tables/mod.rs:222-230 `validate` -/
def validate {T : Type} (idxArr : List F) (dataArr : List T) : Except TableInitError Unit :=
  if !(windowsAscending idxArr) then .error .notSorted
  else if idxArr.length ≠ dataArr.length then .error .invalidLength
  else .ok ()

/-- tables/mod.rs:236-248 `Table1D::try_new` -/
def Table1D.tryNew (x : StateVariable × List F) (data : List F) (i : Interpolator) :
    Except TableInitError (Table1D F) := do
  validate x.2 data
  .ok ⟨x, data, i⟩

/-- tables/mod.rs:255-273 `Table2D::try_new` -/
def Table2D.tryNew (x y : StateVariable × List F) (data : List (List F)) (i : Interpolator) :
    Except TableInitError (Table2D F) := do
  validate x.2 data
  for yData in data do
    validate y.2 yData
  .ok ⟨x, y, data, i⟩

/-- tables/mod.rs:280-304 `Table3D::try_new` -/
def Table3D.tryNew (x y z : StateVariable × List F) (data : List (List (List F)))
    (i : Interpolator) : Except TableInitError (Table3D F) := do
  validate x.2 data
  for yData in data do
    validate y.2 yData
    for zData in yData do
      validate z.2 zData
  .ok ⟨x, y, z, data, i⟩

end Post
