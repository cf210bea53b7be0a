import Verif.Mosaic.Model
import Verif.Warp.Model

/-!
# Model of `mosaic` (`_mosaic.py`) for rasters

The work at one cell is in `Verif.Mosaic.Model`, `reproject` in `Verif.Warp.Model` and `astype` in `Verif.Nulls.RasterModel`.  Here
they are put together: the arguments, the dtype, the null value and the grid of the result, the sources on that grid, and the
cells.  `combine_grids` (C75) and `grids_close` are parameters, and so is the sum of two numbers of a dtype.  A null value that
cannot be written as a value of the dtype raises a ValueError in numpy or rioxarray; whether it can is a parameter as well.
Paths instead of rasters, chunks and attributes are left out.
-/

namespace Verif.MosaicRaster

open Verif Verif.Nulls DType
open Verif.Warp (Frame Placed Engine)
open Verif.Mosaic (Method Ops)

/-- The libraries. -/
structure Tools (K : Type) where
  np : NumPy
  engine : Engine K
  /-- `grids_close` -/
  same : Frame K → Frame K → Bool
  /-- `combine_grids(_, "union", dst_crs=_)` -/
  union : List (Frame K) → Option K → Except Err (Frame K)
  /-- the null value can be written as a value of the dtype -/
  writable : DType → Scalar → Bool
  /-- addition of the dtype -/
  plus : DType → Num → Num → Num

/-- The argument `null_value`. -/
inductive NullArg where
  | absent
  | number (s : Scalar)
  | other

/-- The argument `dst_grid`. -/
inductive GridArg (K : Type) where
  | absent
  | geobox (f : Frame K)
  | raster (p : Placed K)
  | other

/-- The arguments but the rasters; the dtype is a numpy dtype and the CRS is parsed. -/
structure Args (K : Type) where
  method : String
  crs : Option K
  grid : GridArg K
  resampling : Option String
  dtype : Option DType
  null : NullArg

variable {K : Type} [DecidableEq K]

/-- `_mosaic.py:174`, `279` the methods. -/
def methodOf (s : String) : Option Method :=
  if s = "first" then some .first
  else if s = "last" then some .last
  else if s = "min" then some .min
  else if s = "max" then some .max
  else if s = "sum" then some .sum
  else none

/-- `_mosaic.py:282` the default for a missing or empty string. -/
def resamplingOf : Option String → String
  | none => "nearest"
  | some s => if s = "" then "nearest" else s

/-- `_mosaic.py:289-293` `np.result_type` of the sources. -/
def dtypeOf (rs : List (Placed K)) : Option DType → Except Err DType
  | some d => .ok d
  | none => match reducePromote (rs.map (·.raster.dtype)) with
    | some d => .ok d
    | none => .error .type

/-- `_mosaic.py:294-303` the null value. -/
def nullOf (rs : List (Placed K)) (dt : DType) : NullArg → Except Err Scalar
  | .other => .error .type
  | .number s => .ok s
  | .absent => .ok ((rs.filterMap (·.raster.nv)).head?.getD (defaultNull dt))

/-- `_mosaic.py:305-317` the grid of the result. -/
def gridOf (t : Tools K) (rs : List (Placed K)) (crs : Option K) : GridArg K → Except Err (Frame K)
  | .absent => t.union (rs.map (·.frame)) crs
  | .geobox f => .ok f
  | .raster p => .ok p.frame
  | .other => .error .type

/-- `_mosaic.py:321-325` a source on the grid. -/
def moved (t : Tools K) (dst : Frame K) (resampling : String) (p : Placed K) : Except Err (Placed K) :=
  if t.same p.frame dst then .ok p else Warp.reproject t.engine p (.geobox dst) resampling .absent

/-- `_mosaic.py:320-327` a source on the grid with the dtype. -/
def place (t : Tools K) (dst : Frame K) (resampling : String) (dt : DType) (s : Scalar) (p : Placed K) : Except Err Raster :=
  match moved t dst resampling p with
  | .error e => .error e
  | .ok q => q.raster.astype t.np dt (some s)

/-- `_mosaic.py:320-327` all sources; the first error is raised. -/
def placeAll (t : Tools K) (dst : Frame K) (resampling : String) (dt : DType) (s : Scalar) :
    List (Placed K) → Except Err (List Raster)
  | [] => .ok []
  | p :: ps => match place t dst resampling dt s p with
    | .error e => .error e
    | .ok q => match placeAll t dst resampling dt s ps with
      | .error e => .error e
      | .ok qs => .ok (q :: qs)

/-- `_mosaic.py:106-113` what missing cells are filled with for the minimum; `np.iinfo(dtype).max` for integers. -/
def highest (dt : DType) : Num :=
  match dt.limits with
  | some (_, hi) => .fin hi
  | none => .nan

/-- The same for the maximum. -/
def lowest (dt : DType) : Num :=
  match dt.limits with
  | some (lo, _) => .fin lo
  | none => .nan

/-- What `_paint` (`_mosaic.py:79-128`) computes with for a dtype; without NaN `np.min` is `np.nanmin`. -/
def opsOf (t : Tools K) (dt : DType) (nodata : Num) : Ops Num where
  nodata := nodata
  isMissing := maskOf (some nodata)
  fillMin := highest dt
  redMin := Mosaic.nanmin2
  fillMax := lowest dt
  redMax := Mosaic.nanmax2
  zero := .fin 0
  add := t.plus dt

/-- The values of the bands at a pixel. -/
def column (i j : Nat) (r : Raster) : List Num := (List.range r.nb).map fun k => r.data (k, i, j)

/-- `_mosaic.py:155-171` the cells of the result. -/
def cell (t : Tools K) (dt : DType) (nodata : Num) (m : Method) (qs : List Raster) : Nulls.Cell → Num :=
  fun c => (((Mosaic.mosaicBands (opsOf t dt nodata) m (qs.map (column c.2.1 c.2.2)))[c.1]?).getD none).getD nodata

/-- `_grids.py:59-71` the grid of `_build_empty_raster_from_grid`: `data_to_raster` orients rows and columns. -/
def upright (dst : Frame K) : Frame K :=
  let n := Build.orient 1 dst.ys dst.xs fun _ _ _ => .fin 0
  ⟨dst.crs, n.ys, n.xs⟩

/-- `_mosaic.py:105-115` `np.iinfo` raises a ValueError for booleans. -/
def unpaintable (dt : DType) (m : Method) : Bool := dt.isBool && (m == .min || m == .max)

/-- `_mosaic.py:328-339`, `155-171` the result. -/
def finish (t : Tools K) (dst : Frame K) (dt : DType) (s : Scalar) (m : Method) (qs : List Raster) : Except Err (Placed K) :=
  if t.writable dt s = false then .error .value
  else if unpaintable dt m then .error .value
  else
    let g := upright dst
    .ok ⟨g, ofData dt ((qs.map (·.nb)).foldl Nat.max 0) g.ys.length g.xs.length (cell t dt s.val m qs) none (some s) false⟩

/-- `_mosaic.py:320-339` after the arguments are known. -/
def assemble (t : Tools K) (rs : List (Placed K)) (m : Method) (resampling : String) (dt : DType) (s : Scalar)
    (dst : Frame K) : Except Err (Placed K) :=
  match placeAll t dst resampling dt s rs with
  | .error e => .error e
  | .ok qs => finish t dst dt s m qs

/-- `_mosaic.py:289-339` after the names of the methods are checked. -/
def resolve (t : Tools K) (rs : List (Placed K)) (a : Args K) (m : Method) : Except Err (Placed K) :=
  match dtypeOf rs a.dtype with
  | .error e => .error e
  | .ok dt => match nullOf rs dt a.null with
    | .error e => .error e
    | .ok s => match gridOf t rs a.crs a.grid with
      | .error e => .error e
      | .ok dst => assemble t rs m (resamplingOf a.resampling) dt s dst

/-- `_mosaic.py:178-339` `mosaic`. -/
def mosaic (t : Tools K) (rs : List (Placed K)) (a : Args K) : Except Err (Placed K) :=
  if rs.isEmpty then .error .value
  else match methodOf a.method with
    | none => .error .value
    | some m =>
      if resamplingOf a.resampling ∉ t.engine.methods then .error .value
      else resolve t rs a m

end Verif.MosaicRaster
