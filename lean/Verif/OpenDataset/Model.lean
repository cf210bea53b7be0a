import Verif.FromData.Model

/-!
# Model of `open_dataset` (`io.py:476-600`)

A file is what xarray makes of it: variables with named dimensions, the names of the two spatial dimensions (as rioxarray finds
them) and their coordinates, and the transform that may be stored with them.  rioxarray's `transform` is the stored one, else it
is made of the first and the last coordinate (with at least two rows and two columns).  The CRS, the checks for installed
packages and the side effect on `xarray_kwargs` are left out.
-/

namespace Verif.OpenDataset

open Verif Verif.Nulls DType Verif.Build Verif.FromData

/-- A variable; `nodata` is its `_FillValue`, or what rioxarray takes for it (NaN for values decoded by xarray). -/
structure Var where
  name : String
  dtype : DType
  arr : XArray
  nodata : Option Scalar

/-- The transform stored in a file. -/
inductive Stored where
  | absent
  | good (t : Affine)
  /-- text that is not a transform -/
  | bad

structure File where
  ydim : String
  xdim : String
  ys : List Rat
  xs : List Rat
  stored : Stored
  vars : List Var

/-- What is raised. -/
inductive Fail where
  /-- DimensionsError, too many -/
  | tooMany
  /-- DimensionsError, too few -/
  | tooFew
  /-- ValueError, no variable -/
  | noVariable
  /-- AffineEncodingError -/
  | affine
  /-- rioxarray's MissingSpatialDimensionError -/
  | missing
  | other (e : Err)
deriving DecidableEq

/-- xarray's `squeeze`: dimensions of length 1 are dropped. -/
def squeeze (a : XArray) : XArray :=
  ⟨a.axes.filter fun ax => ax.size ≠ 1, fun f =>
    a.get fun n => if n ∈ (a.axes.filter fun ax => ax.size = 1).map (·.name) then 0 else f n⟩

/-- `io.py:476-498` `_get_valid_variables`, the loop. -/
def validVariables (ignore : Bool) : List Var → Except Fail (List Var)
  | [] => .ok []
  | v :: vs =>
    if 3 < (squeeze v.arr).axes.length then
      if ignore then validVariables ignore vs else .error .tooMany
    else if (squeeze v.arr).axes.length < 2 then .error .tooFew
    else match validVariables ignore vs with
      | .error e => .error e
      | .ok l => .ok (v :: l)

/-- rioxarray's resolution of an axis: the mean difference of coordinates. -/
def resolution (l : List Rat) : Rat := (l.getLastD 0 - l.headD 0) / ((l.length : Rat) - 1)

/-- rioxarray's `transform`, made of the coordinates. -/
def fromCoords (ys xs : List Rat) : Affine :=
  ⟨resolution xs, xs.headD 0 - resolution xs / 2, resolution ys, ys.headD 0 - resolution ys / 2⟩

/-- `io.py:518-528` `_get_affine`. -/
def getAffine (f : File) : Except Fail Affine :=
  match f.stored with
  | .bad => .error .affine
  | .good t => .ok t
  | .absent => .ok (fromCoords f.ys f.xs)

/-- The data of a variable with two or three dimensions, in the order in which they are stored. -/
def toArr (a : XArray) : Arr :=
  match a.axes with
  | [p, q] => .flat p.size q.size fun i j => a.get fun n => if n = p.name then i else if n = q.name then j else 0
  | [b, p, q] => .cube b.size p.size q.size fun k i j =>
      a.get fun n => if n = b.name then k else if n = p.name then i else if n = q.name then j else 0
  | _ => .odd

/-- `masking.py:63-66` the default null value as an argument: a float or an int. -/
def defaultArg (dt : DType) : NullArg :=
  if dt.isFloat then .float (defaultNull dt).val
  else match (defaultNull dt).val with
    | .fin q => .int q.num
    | v => .float v

/-- `io.py:513-514` whether the default null value is set. -/
def needsDefault : Option Scalar → Bool
  | none => true
  | some s => s.val.isnan

/-- `io.py:501-515` `_build_raster`. -/
def buildRaster (np : NumPy) (f : File) (t : Affine) (v : Var) : Except Fail Placed :=
  let a := squeeze v.arr
  if f.xdim ∉ a.dims ∨ f.ydim ∉ a.dims then .error .missing
  else match dataToRaster v.dtype (toArr a) none (.array f.xs) (.array f.ys) (some t) v.nodata false with
    | .error e => .error (.other e)
    | .ok p =>
      if needsDefault v.nodata then
        match p.raster.setNullValue np (some (defaultArg v.dtype)) with
        | .error e => .error (.other e)
        | .ok r => .ok { p with raster := r }
      else .ok p

/-- `io.py:597-599` the loop over the variables. -/
def buildAll (np : NumPy) (f : File) (t : Affine) : List Var → Except Fail (List (String × Placed))
  | [] => .ok []
  | v :: vs =>
    match buildRaster np f t v with
    | .error e => .error e
    | .ok p => match buildAll np f t vs with
      | .error e => .error e
      | .ok l => .ok ((v.name, p) :: l)

/-- `io.py:531-600` `open_dataset`. -/
def openDataset (np : NumPy) (f : File) (ignore : Bool) : Except Fail (List (String × Placed)) :=
  match validVariables ignore f.vars with
  | .error e => .error e
  | .ok l =>
    if l.isEmpty then .error .noVariable
    else match getAffine f with
      | .error e => .error e
      | .ok t => buildAll np f t l

end Verif.OpenDataset
