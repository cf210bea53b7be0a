import Verif.Nulls.RasterModel

/-!
# Model of the construction of rasters from xarray objects (`raster.py:550-1291`)

An xarray object is a list of named dimensions, each with a size and perhaps coordinates, and its values as a function of the
index along each named dimension; transposing only reorders the list.  Chunks, CRS and attributes without influence on the
values are left out.  `find` stands for `find_spatial_dims` (`raster.py:550-581`: rioxarray's and odc-geo's guesses).  Coordinates are exact numbers.
-/

namespace Verif.Build

open Verif Verif.Nulls DType

/-- A dimension of a `DataArray`. -/
structure Axis where
  name : String
  size : Nat
  coord : Option (List Rat)

/-- A `DataArray`. -/
structure XArray where
  axes : List Axis
  get : (String → Nat) → Num

def XArray.dims (a : XArray) : List String := a.axes.map (·.name)

/-- `expand_dims({"band": [1]})` for objects with two dimensions, `raster.py:606-608`; xarray raises a ValueError if there is a
dimension of this name. -/
def expand (a : XArray) : Except Err XArray :=
  if a.axes.length = 2 then
    if "band" ∈ a.dims then .error .value
    else .ok { a with axes := ⟨"band", 1, some [1]⟩ :: a.axes }
  else .ok a

/-- `rename`; xarray raises a ValueError if two dimensions get the same name. -/
def rename (f : String → String) (a : XArray) : Except Err XArray :=
  if (a.dims.map f).Nodup then
    .ok ⟨a.axes.map fun ax => { ax with name := f ax.name }, fun idx => a.get fun d => idx (f d)⟩
  else .error .value

/-- `raster.py:611-618`. -/
def usual (d : String) : String :=
  if d = "time" then "band" else if d = "lon" then "x" else if d = "lat" then "y" else d

/-- `raster.py:634-645`. -/
def spatial (yDim xDim : String) (d : String) : String :=
  if d = yDim then "y" else if d = xDim then "x" else "band"

/-- `raster.py:628-632`: the dimensions in their order. -/
def positional (dims : List String) (d : String) : String :=
  if dims[0]? = some d then "band" else if dims[1]? = some d then "y" else if dims[2]? = some d then "x" else d

/-- `np.diff`. -/
def diffs (l : List Rat) : List Rat := List.zipWith (fun a b => b - a) l l.tail

/-- `utils.py:21-26`. -/
def increasing (l : List Rat) : Bool := decide (0 < (diffs l).length) && (diffs l).all fun d => decide (0 < d)

/-- `utils.py:29-34`. -/
def decreasing (l : List Rat) : Bool := decide (0 < (diffs l).length) && (diffs l).all fun d => decide (d < 0)

/-- A standard raster `DataArray`: dimensions band, y, x, the bands numbered from 1. -/
structure Norm where
  nb : Nat
  ys : List Rat
  xs : List Rat
  value : Nat → Nat → Nat → Num

/-- The dimension of a name. -/
def XArray.axis (a : XArray) (name : String) : Option Axis := a.axes.find? fun ax => ax.name = name

/-- Indices for the standard dimensions. -/
def at3 (k i j : Nat) (d : String) : Nat := if d = "band" then k else if d = "y" then i else j

/-- `isel(y=slice(None, None, -1))` and the same for x, `raster.py:662-665`. -/
def orient (nb : Nat) (ys xs : List Rat) (get : Nat → Nat → Nat → Num) : Norm :=
  let fx := decreasing xs
  let fy := increasing ys
  ⟨nb, if fy then ys.reverse else ys, if fx then xs.reverse else xs, fun k i j =>
    get k (if fy then ys.length - 1 - i else i) (if fx then xs.length - 1 - j else j)⟩

/-- `raster.py:646-673`: transpose, number the bands, check the coordinates, orient; the transform is left out. -/
def standard (a : XArray) : Except Err Norm :=
  match a.axis "band", a.axis "y", a.axis "x" with
  | some b, some y, some x =>
    match y.coord, x.coord with
    | some ys, some xs =>
      .ok (orient b.size ys xs fun k i j => a.get (at3 k i j))
    | _, _ => .error .value
  | _, _, _ => .error .value

/-- `raster.py:619-645`: name the dimensions; without spatial dimensions `dims.remove` of a tuple is an AttributeError
(`Err.runtime` here). -/
def nameDims (find : List String → Option (String × String)) (a : XArray) : Except Err XArray :=
  match find a.dims with
  | none => if "band" ∈ a.dims then .error .runtime else rename (positional a.dims) a
  | some (yDim, xDim) => rename (spatial yDim xDim) a

/-- `raster.py:584-673` `normalize_xarray_data`. -/
def normalize (find : List String → Option (String × String)) (a : XArray) : Except Err Norm :=
  if a.axes.length < 2 ∨ 3 < a.axes.length then .error .value
  else match expand a with
    | .error e => .error e
    | .ok a1 => match rename usual a1 with
      | .error e => .error e
      | .ok a2 => match nameDims find a2 with
        | .error e => .error e
        | .ok a3 => standard a3

/-- Where a null value may be found on an xarray object: `attrs["_FillValue"]` (absent, `None` or a number), `rio.nodata`,
`rio.encoded_nodata`; `lazy` for dask data. -/
structure NullInfo where
  fillAttr : Option (Option Scalar)
  nodata : Option Scalar
  encoded : Option Scalar
  lazy : Bool

/-- `raster.py:1175-1202` `_try_to_get_null_value_xarray`; `hasNan` is `np.isnan(xrs.data).any()`. -/
def findNull (i : NullInfo) (isFloat hasNan : Bool) : Option Scalar :=
  if i.fillAttr = some none ∧ i.nodata = none ∧ i.encoded = none ∧ i.lazy = false then none
  else match i.fillAttr with
    | some (some s) => some s
    | _ => match i.nodata, i.encoded with
      | none, none => if isFloat && (i.lazy || hasNan) then some ⟨f64, .nan⟩ else none
      | some a, _ => some a
      | none, some b => some b

/-- The cells of a standard `DataArray`. -/
def Norm.data (n : Norm) (c : Cell) : Num := n.value c.1 c.2.1 c.2.2

/-- `Raster(dataarray)`, `raster.py:1205-1218`, with its coordinates; `hasNan` of the values (the same before and after
normalisation). -/
def fromDataArray (np : NumPy) (find : List String → Option (String × String)) (dt : DType) (a : XArray)
    (i : NullInfo) : Except Err (Raster × List Rat × List Rat) :=
  match normalize find a with
  | .error e => .error e
  | .ok n =>
    let hasNan := anyCell n.nb n.ys.length n.xs.length fun c => (n.data c).isnan
    .ok (ofDataArray np dt n.nb n.ys.length n.xs.length n.data (findNull i dt.isFloat hasNan), n.ys, n.xs)

/-- A `Dataset` with the variables that are looked at.  `standard`: it passes the checks of `raster.py:1222-1232` (lazy, the
dimensions band, y, x in this order, equal chunks and CRS, boolean mask).  Both variables have the same coordinates. -/
structure DatasetInput where
  onlyRasterAndMask : Bool
  standard : Bool
  maskIsBool : Bool
  dtype : DType
  raster : XArray
  mask : XArray
  info : NullInfo

/-- The standard dimensions of an array that has them, as they are. -/
def asIs (a : XArray) : Except Err Norm :=
  match a.axis "band", a.axis "y", a.axis "x" with
  | some b, some y, some x => .ok ⟨b.size, y.coord.getD [], x.coord.getD [], fun k i j => a.get (at3 k i j)⟩
  | _, _, _ => .error .value

/-- The raster of data and mask. -/
def withMask (dt : DType) (n m : Norm) (burn : Bool) (nv : Option Scalar) : Raster :=
  let mask := fun c => decide (m.data c ≠ .fin 0)
  ⟨dt, n.nb, n.ys.length, n.xs.length, fun c => match nv with
    | some s => if burn && mask c then s.val else n.data c
    | none => n.data c, mask, nv⟩

/-- `raster.py:1256-1260`. -/
def datasetNull (np : NumPy) (i : NullInfo) (dt : DType) : Option Scalar :=
  match findNull ⟨i.fillAttr, i.nodata, i.encoded, true⟩ dt.isFloat true with
  | none => some (defaultNull dt)
  | some s => (reconcile np (some s) dt).1

/-- `raster.py:1221-1263` `_dataset_to_raster_ds`.  After normalisation the data is lazy, so a float raster without a null value
counts as having NaN. -/
def fromDataset (np : NumPy) (find : List String → Option (String × String)) (d : DatasetInput) :
    Except Err (Raster × List Rat × List Rat) :=
  if d.standard then
    match asIs d.raster, asIs d.mask with
    | .ok n, .ok m => .ok (withMask d.dtype n m false d.info.nodata, n.ys, n.xs)
    | _, _ => .error .value
  else if !d.onlyRasterAndMask then .error .value
  else if !d.maskIsBool then .error .type
  else match normalize find d.raster, normalize find d.mask with
    | .error e, _ => .error e
    | .ok _, .error e => .error e
    | .ok n, .ok m =>
      if (m.nb, m.ys.length, m.xs.length) ≠ (n.nb, n.ys.length, n.xs.length) then .error .value
      else
        .ok (withMask d.dtype n m true (datasetNull np d.info d.dtype), n.ys, n.xs)

end Verif.Build
