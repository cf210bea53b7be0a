import Verif.Build.Model

/-!
# Model of the construction of rasters from arrays (`raster.py:508-548`, `raster.py:699-1052`)

Arrays are in memory or lazy, which makes no difference here; chunks and CRS are left out.  Affines are axis-aligned, as
`build_coords` demands: scale and offset of the columns, scale and offset of the rows.  Coordinates are exact numbers.  The
dtype of `da.where(mask, nv, data)` is taken to be that of the data (the null value fits into it).  Masks are boolean, as
documented, with `True` written as a number other than 0.
-/

namespace Verif.FromData

open Verif Verif.Nulls DType Verif.Build

/-- An argument where an array is expected. -/
inductive Arr where
  /-- an array of two dimensions -/
  | flat (ny nx : Nat) (get : Nat → Nat → Num)
  /-- an array of three dimensions -/
  | cube (nb ny nx : Nat) (get : Nat → Nat → Nat → Num)
  /-- an array of any other number of dimensions -/
  | odd
  /-- no array -/
  | other

/-- An array of three dimensions. -/
structure Cube where
  nb : Nat
  ny : Nat
  nx : Nat
  get : Nat → Nat → Nat → Num

def Cube.shape (c : Cube) : Nat × Nat × Nat := (c.nb, c.ny, c.nx)

/-- `raster.py:508-548` `normalize_data`. -/
def normalizeData : Arr → Except Err Cube
  | .flat ny nx get => .ok ⟨1, ny, nx, fun _ i j => get i j⟩
  | .cube nb ny nx get => .ok ⟨nb, ny, nx, get⟩
  | .odd => .error .value
  | .other => .error .type

/-- The arguments `x` and `y`: absent, a NumPy array (its elements in order), or anything else, such as a list. -/
inductive Coord where
  | absent
  | array (l : List Rat)
  | other

/-- An axis-aligned affine: `x = a * col + c`, `y = e * row + f`. -/
structure Affine where
  a : Rat
  c : Rat
  e : Rat
  f : Rat

/-- `_grids.py:8-25` the coordinates of the centers of cells. -/
def centers (scale off : Rat) (n : Nat) : List Rat := (List.range n).map fun (i : Nat) => scale * ((i : Rat) + 1 / 2) + off

/-- `raster.py:742-743` the default coordinates of columns. -/
def defaultX (nx : Nat) : List Rat := (List.range nx).map fun (i : Nat) => (i : Rat) + 1 / 2

/-- `raster.py:744` the default coordinates of rows. -/
def defaultY (ny : Nat) : List Rat := (List.range ny).reverse.map fun (i : Nat) => (i : Rat) + 1 / 2

/-- `raster.py:745-752` given coordinates: only `x` is checked to be an array, `y.ravel()` raises an AttributeError otherwise
(`Err.runtime` here). -/
def givenCoords (x y : Coord) (ny nx : Nat) : Except Err (List Rat × List Rat) :=
  match x with
  | .array xs =>
    match y with
    | .array ys => if ys.length = ny ∧ xs.length = nx then .ok (ys, xs) else .error .value
    | .other => .error .runtime
    | .absent => .error .value
  | .other =>
    match y with
    | .absent => .error .value
    | _ => .error .type
  | .absent => .error .value

/-- `raster.py:739-760` the coordinates of rows and columns. -/
def coords (x y : Coord) (affine : Option Affine) (ny nx : Nat) : Except Err (List Rat × List Rat) :=
  match affine with
  | some t => .ok (centers t.e t.f ny, centers t.a t.c nx)
  | none =>
    match x, y with
    | .absent, .absent => .ok (defaultY ny, defaultX nx)
    | x, y => givenCoords x y ny nx

/-- A raster with its coordinates. -/
structure Placed where
  ys : List Rat
  xs : List Rat
  raster : Raster

/-- `raster.py:884-886` data and mask on their coordinates, oriented as by `normalize_xarray_data`; the values of the mask are
0 and 1 here. -/
def place (dt : DType) (d : Cube) (mask : Nat → Nat → Nat → Bool) (nv : Option Scalar) (ys xs : List Rat) : Placed :=
  let n := orient d.nb ys xs d.get
  let m := orient d.nb ys xs fun k i j => if mask k i j then .fin 1 else .fin 0
  ⟨n.ys, n.xs, ⟨dt, n.nb, n.ys.length, n.xs.length, n.data, fun c => decide (m.data c = .fin 1), nv⟩⟩

/-- `raster.py:874-883` the mask, the null value and the data with nulls burned in. -/
def masked (dt : DType) (d : Cube) (mask : Option Cube) (nv : Option Scalar) (burn : Bool) :
    Except Err (Cube × (Nat → Nat → Nat → Bool) × Option Scalar) :=
  match mask with
  | none => .ok (d, fun k i j => maskOf (nv.map (·.val)) (d.get k i j), nv)
  | some m =>
    if m.shape ≠ d.shape then .error .value
    else
      let s := nv.getD (defaultNull dt)
      let on := fun k i j => decide (m.get k i j ≠ .fin 0)
      .ok (if burn then { d with get := fun k i j => if on k i j then s.val else d.get k i j } else d, on, some s)

/-- The argument `mask`. -/
def normalizeMask : Option Arr → Except Err (Option Cube)
  | none => .ok none
  | some a =>
    match normalizeData a with
    | .error e => .error e
    | .ok c => .ok (some c)

/-- `raster.py:825-886`, `raster.py:948-1006` `data_to_raster`. -/
def dataToRaster (dt : DType) (data : Arr) (mask : Option Arr) (x y : Coord) (affine : Option Affine) (nv : Option Scalar)
    (burn : Bool) : Except Err Placed :=
  match normalizeData data with
  | .error e => .error e
  | .ok d => match normalizeMask mask with
    | .error e => .error e
    | .ok m => match masked dt d m nv burn with
      | .error e => .error e
      | .ok r => match coords x y affine d.ny d.nx with
        | .error e => .error e
        | .ok c => .ok (place dt r.1 r.2.1 r.2.2 c.1 c.2)

/-- `raster.py:889-945`, `raster.py:1009-1052` `data_to_raster_like`: the coordinates are those of the template. -/
def dataToRasterLike (dt : DType) (data : Arr) (ys xs : List Rat) (mask : Option Arr) (nv : Option Scalar) (burn : Bool) :
    Except Err Placed :=
  match normalizeData data with
  | .error e => .error e
  | .ok d =>
    if (d.ny, d.nx) ≠ (ys.length, xs.length) then .error .value
    else dataToRaster dt data mask (.array xs) (.array ys) none nv burn

end Verif.FromData
