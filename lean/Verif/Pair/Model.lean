import Verif.Nulls.RasterModel

/-!
# Model of the operands of element-wise operations (`raster.py:160-473`)

How two rasters, or a raster and an array, are brought together before `_apply_ufunc` (`Verif.Nulls.applyUfunc`) works cell by cell.  xarray
aligns rasters by their coordinates with an inner join, in the order of the first; the masks are joined with `|=`, for which xarray
requires equal coordinates (a `MergeError`, which is a `ValueError`, otherwise).  An array is paired by NumPy's broadcasting, and xarray requires
the result to have the sizes of the coordinates.  Not modelled: the checks of types, methods and `out` of `__array_ufunc__`, CRS.
-/

namespace Verif.Pair

open Verif Verif.Nulls DType

/-- A raster with its band numbers and coordinates. -/
structure Placed where
  raster : Raster
  bands : List Rat
  ys : List Rat
  xs : List Rat

/-- xarray's inner join of two indexes without duplicates: the labels of the first that the second has too. -/
def inner (l r : List Rat) : List Rat := if l = r then l else l.filter fun v => r.contains v

/-- `reindex` to labels the raster has. -/
def Placed.reindex (p : Placed) (bands ys xs : List Rat) : Placed :=
  let at' := fun (c : Cell) => (p.bands.idxOf (bands.getD c.1 0), p.ys.idxOf (ys.getD c.2.1 0), p.xs.idxOf (xs.getD c.2.2 0))
  { raster :=
      { p.raster with
        nb := bands.length
        ny := ys.length
        nx := xs.length
        data := fun c => p.raster.data (at' c)
        mask := fun c => p.raster.mask (at' c) }
    bands := bands
    ys := ys
    xs := xs }

/-- `raster.py:220-235`. -/
def badTypes (u : Ufunc) (types : List DType) : Bool := (u.bitwise || u.shift) && types.any isFloat

/-- `raster.py:187-269` for two rasters. -/
def binary (u : Ufunc) (l r : Placed) : Except Err (List Placed) :=
  let bands := inner l.bands r.bands
  let ys := inner l.ys r.ys
  let xs := inner l.xs r.xs
  let l' := l.reindex bands ys xs
  let r' := r.reindex bands ys xs
  if badTypes u [l.raster.dtype, r.raster.dtype] then .error .type
  else if (l.raster.masked || r.raster.masked) && !(decide (l.bands = r.bands) && decide (l.ys = r.ys) && decide (l.xs = r.xs)) then
    .error .value
  else match applyUfunc u l'.raster [.raster l'.raster, .raster r'.raster] with
    | .error e => .error e
    | .ok outs => .ok (outs.map fun o => ⟨o, bands, ys, xs⟩)

/-! ### Arrays -/

/-- An array: its dtype, its shape, and its values by indices. -/
structure Array where
  dtype : DType
  shape : List Nat
  at' : List Nat → Num

/-- One dimension of `np.broadcast_shapes`. -/
def broadcastDim (m n : Nat) : Option Nat := if m = n then some m else if m = 1 then some n else if n = 1 then some m else none

/-- `np.broadcast_shapes` for shapes given from the last dimension. -/
def broadcastRev : List Nat → List Nat → Option (List Nat)
  | [], t => some t
  | s, [] => some s
  | m :: s, n :: t => match broadcastDim m n, broadcastRev s t with
    | some d, some ds => some (d :: ds)
    | _, _ => none

def broadcastShapes (s t : List Nat) : Option (List Nat) :=
  match broadcastRev s.reverse t.reverse with
  | some d => some d.reverse
  | none => none

/-- `utils.py:49-54` `can_broadcast`. -/
def canBroadcast (s t : List Nat) : Bool :=
  match broadcastShapes s t with
  | some d => decide (3 ≤ d.length) && decide (d.length ≤ 3)
  | none => false

/-- The indices of an array (from the last dimension) that NumPy pairs with indices of the result. -/
def bcastRev : List Nat → List Nat → List Nat
  | n :: s, i :: is => (if n = 1 then 0 else i) :: bcastRev s is
  | _, _ => []

/-- The element of the array for a cell. -/
def Array.cell (a : Array) (c : Cell) : Num := a.at' (bcastRev a.shape.reverse [c.2.2, c.2.1, c.1]).reverse

def shapeOf (r : Raster) : List Nat := [r.nb, r.ny, r.nx]

/-- The operands in their order. -/
def operands (arrayFirst : Bool) (r a : Operand) : List Operand := if arrayFirst then [a, r] else [r, a]

/-- `raster.py:160-184` `_normalize_ufunc_other` and the rest of a binary operation with an array.  `np.atleast_1d` has been applied. -/
def withArray (u : Ufunc) (this : Raster) (a : Array) (arrayFirst : Bool) : Except Err (List Raster) :=
  if !canBroadcast (shapeOf this) a.shape then .error .value
  else if badTypes u [this.dtype, a.dtype] then .error .type
  else if broadcastShapes (shapeOf this) a.shape ≠ some (shapeOf this) then .error .value
  else applyUfunc u this (operands arrayFirst (.raster this) (.numbers a.dtype a.cell))

/-! ### Bandwise -/

/-- `other.ravel()` of an array with one element. -/
def Array.ravelOne (a : Array) : Array := ⟨a.dtype, [1], fun _ => a.at' (a.shape.map fun _ => 0)⟩

/-- `other.reshape((-1, 1, 1))` of a one-dimensional array. -/
def Array.column (a : Array) : Array := ⟨a.dtype, [a.shape.prod, 1, 1], fun i => a.at' (i.take 1)⟩

/-- `raster.py:375-393` `_normalize_bandwise_other`. -/
def normalizeBandwise (a : Array) (shape : List Nat) : Except Err Array :=
  if a.shape.prod = 1 then .ok a.ravelOne
  else if canBroadcast a.shape shape then .error .value
  else if a.shape.length = 1 ∧ a.shape.prod = shape.headD 0 then .ok a.column
  else .error .value

/-- `raster.py:413-473` the operation of `raster.bandwise` with an array. -/
def bandwise (u : Ufunc) (this : Raster) (a : Array) (arrayFirst : Bool) : Except Err (List Raster) :=
  match normalizeBandwise a (shapeOf this) with
  | .error e => .error e
  | .ok a => withArray u this a arrayFirst

end Verif.Pair
