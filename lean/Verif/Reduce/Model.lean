import Verif.Focal.Model
import Mathlib.Algebra.BigOperators.Group.Finset.Defs
set_option linter.unusedSectionVars false
/-!
# Model of `aggregate`, `local_stats` and `model_predict_raster` (`general.py`)

Rasters, dtypes and conversions are those of `Verif.Nulls`.  The statistics are parameters: a function from the values to
the result before it is stored in the result's dtype.  For the statistics that are plain numpy or xarray calls the dtype of
the result is a parameter too.  Chunks only matter where a function works chunk by chunk.
-/

namespace Verif.Reduce

open Verif Verif.Nulls DType Verif.Focal

/-- `raster.py:3208-3215`: `get_raster(raster, null_to_nan=True)`. -/
def nullToNan (np : NumPy) (r : Raster) : Raster :=
  if r.masked then
    { r with dtype := promoteToFloat r.dtype
             data := fun c => if r.mask c then .nan else convert np r.dtype (promoteToFloat r.dtype) (r.data c) }
  else r

/-- The argument `stype`: not a string, or a name (in lower case) that stands for a statistic or for none. -/
inductive NameArg (S : Type) where
  | notStr
  | name (s : Option S)

/-! ### `aggregate` -/

/-- `general.py:223-238` the statistics. -/
inductive AggStat where
  | max | mean | median | min | prod | std | sum | var | asm | entropy | mode | unique
deriving DecidableEq, Repr

/-- `general.py:233-238` `_COARSEN_STYPE_TO_CUSTOM_FUNC`. -/
def AggStat.custom : AggStat → Bool
  | .asm | .entropy | .mode | .unique => true
  | _ => false

/-- The argument `expand_cells` as a 1D array. -/
inductive ExpandArg where
  | ints (l : List Int)
  | notInts

/-- `general.py:277-285`: the checks of `expand_cells`. -/
def checkExpand : ExpandArg → Except Err (Nat × Nat)
  | .notInts => .error .type
  | .ints [ey, ex] =>
    if ey = 1 ∧ ex = 1 then .error .value
    else if ¬ (ey ≥ 1 ∧ ex ≥ 1) then .error .value
    else .ok (ey.toNat, ex.toNat)
  | .ints _ => .error .value

/-- `a.reshape(nb, ny, ey, nx, ex)[b, j, a, k, c]` for an array of shape `(nb, ny * ey, nx * ex)`: the element with the same
position in the order of memory.  This is what xarray's `coarsen` does with the array after cutting off the remainder. -/
def blocked {V : Type} (data : Cell → V) (ny ey nx ex : Nat) (b j a k c : Nat) : V :=
  let flat := (((b * ny + j) * ey + a) * nx + k) * ex + c
  let h := ny * ey
  let w := nx * ex
  data (flat / (h * w), flat / w % h, flat % w)

/-- The elements of `x[b, j, :, k, :]` in order. -/
def block {V : Type} (data : Cell → V) (ny ey nx ex : Nat) (cell : Cell) : List V :=
  (List.range ey).flatMap fun a => (List.range ex).map fun c => blocked data ny ey nx ex cell.1 cell.2.1 a cell.2.2 c

/-- `general.py:213-220` `_get_coarsen_dtype`. -/
def coarsenDtype (stat : AggStat) (windowSize : Nat) (dt : DType) : DType :=
  if stat = .unique then (minScalarInt windowSize).getD u64
  else if stat = .mode ∨ stat = .min ∨ stat = .max then dt
  else if dt = f32 then f32
  else f64

/-- `general.py:241-248` `_get_unique_dtype`. -/
def uniqueDtype (dt : DType) : DType :=
  if dt = i8 ∨ dt = u8 then i16
  else if dt = u16 then i32
  else if dt = u32 then i64
  else dt

/-- `general.py:179-193` `_coarsen_chunk` for one cell.  dask's `reshape` leaves the two axes of the window in one chunk, so a
cell is computed from its whole window. -/
def coarsenCell (np : NumPy) (func : List Num → Num) (dt : DType) (checkNan : Bool) (x : List Num) : Num :=
  let v := func x
  np.cast dt (if checkNan && v.isnan then .fin 0 else v)

/-- `general.py:294-319` the aggregated data at a cell and its dtype. -/
def aggregateData (np : NumPy) (func : AggStat → List Num → Num) (outTy : AggStat → DType → DType) (origDtype : DType)
    (rn : Raster) (stat : AggStat) (ey ex : Nat) : DType × (Cell → Num) :=
  let ny := rn.ny / ey
  let nx := rn.nx / ex
  if stat.custom then
    let dt := coarsenDtype stat (ey * ex) origDtype
    (dt, fun c => coarsenCell np (func stat) dt (stat = .mode) (block rn.data ny ey nx ex c))
  else
    let dt := outTy stat rn.dtype
    (dt, fun c => np.cast dt (func stat (block rn.data ny ey nx ex c)))

/-- `general.py:320-335`: null cells of the result. -/
def finishAggregate (np : NumPy) (origDtype : DType) (rn : Raster) (stat : AggStat) (ey ex : Nat)
    (d : DType × (Cell → Num)) : Raster :=
  let ny := rn.ny / ey
  let nx := rn.nx / ex
  if rn.masked then
    let mask := fun c => (block rn.mask ny ey nx ex c).all id
    let dt := if stat = .unique then uniqueDtype d.1 else if stat = .mode then origDtype else d.1
    let data := fun c => convert np d.1 dt (d.2 c)
    let nv := defaultNull dt
    ⟨dt, rn.nb, ny, nx, fun c => if mask c then nv.val else data c, mask, some nv⟩
  else ⟨d.1, rn.nb, ny, nx, d.2, fun _ => false, none⟩

/-- `general.py:251-336` `aggregate`.  Windows larger than the raster, which leave no cell, are not modelled. -/
def aggregate (np : NumPy) (func : AggStat → List Num → Num) (outTy : AggStat → DType → DType) (r : Raster)
    (expandCells : ExpandArg) (stype : NameArg AggStat) : Except Err Raster :=
  match checkExpand expandCells with
  | .error e => .error e
  | .ok (ey, ex) => match stype with
    | .notStr => .error .type
    | .name none => .error .value
    | .name (some stat) =>
      let rn := nullToNan np r
      .ok (finishAggregate np r.dtype rn stat ey ex (aggregateData np func outTy r.dtype rn stat ey ex))

/-- The coordinates of the result: xarray's `coarsen` takes the mean of the coordinates of a window. -/
def coarsenCoord {K : Type} [Field K] (x : Nat → K) (e k : Nat) : K := (∑ c ∈ Finset.range e, x (k * e + c)) / e

/-! ### `local_stats` -/

/-- `general.py:618-637` the statistics. -/
inductive LocalStat where
  | mean | std | var | max | min | prod | sum | median | asm | entropy | minband | maxband | mode | unique
deriving DecidableEq, Repr

/-- `general.py:630-637` `_LOCAL_STYPE_TO_CUSTOM_FUNC`. -/
def LocalStat.custom : LocalStat → Bool
  | .asm | .entropy | .minband | .maxband | .mode | .unique => true
  | _ => false

/-- `general.py:647-659`: the dtype of the result of `_local`. -/
def localDtype (stat : LocalStat) (nb : Nat) (dt : DType) : DType :=
  if stat = .unique then (minScalarInt nb).getD u64
  else if stat = .mode then dt
  else if stat = .minband ∨ stat = .maxband then (minScalarInt ((nb : Int) - 1)).getD u64
  else if dt = f32 then f32
  else f64

/-- The values of a cell in all bands. -/
def bandValues {V : Type} (nb : Nat) (data : Cell → V) (c : Cell) : List V := (List.range nb).map fun b => data (b, c.2)

/-- `general.py:598-615`, `709-718`: the single band of the result. -/
def localData (np : NumPy) (func : LocalStat → List Num → Num) (outTy : LocalStat → DType → DType) (rn : Raster)
    (stat : LocalStat) : DType × (Cell → Num) :=
  let dt := if stat.custom then localDtype stat rn.nb rn.dtype else outTy stat rn.dtype
  (dt, fun c => np.cast dt (func stat (bandValues rn.nb rn.data c)))

/-- The dtype that xarray takes when it has to fill in NaN (`xarray.core.dtypes.maybe_promote`; for booleans it would be
`object`, which is not modelled). -/
def xrPromote (dt : DType) : DType :=
  if dt.isFloat then dt
  else if dt = u8 ∨ dt = i8 ∨ dt = u16 ∨ dt = i16 then f32
  else f64

/-- `raster.py:584-663`, `816-822`: the Dataset of a data array and a mask whose bands are numbered from 1.  xarray aligns
the variables by an outer join on the coordinates: bands that the data do not have are filled with NaN. -/
def makeDs (np : NumPy) (dt : DType) (dataBands maskBands ny nx : Nat) (data : Cell → Num) (mask : Cell → Bool) : Raster :=
  if dataBands < maskBands then
    ⟨xrPromote dt, maskBands, ny, nx,
      fun c => if c.1 < dataBands then convert np dt (xrPromote dt) (data c) else .nan, mask, none⟩
  else ⟨dt, dataBands, ny, nx, data, mask, none⟩

/-- `general.py:675-738` `local_stats`. -/
def localStats (np : NumPy) (func : LocalStat → List Num → Num) (outTy : LocalStat → DType → DType) (r : Raster)
    (stype : NameArg LocalStat) : Except Err Raster :=
  match stype with
  | .notStr => .error .type
  | .name none => .error .value
  | .name (some stat) =>
    let rn := nullToNan np r
    let d := localData np func outTy rn stat
    if rn.masked then
      let mask := fun c => (bandValues rn.nb rn.mask c).all id
      let dt := if stat = .unique ∨ stat = .minband ∨ stat = .maxband then uniqueDtype d.1
        else if stat = .mode then r.dtype else d.1
      let nv := defaultNull dt
      .ok { makeDs np dt 1 1 rn.ny rn.nx (fun c => if mask c then nv.val else convert np d.1 dt (d.2 c)) mask with
        nv := some nv }
    else .ok (makeDs np d.1 1 rn.nb rn.ny rn.nx d.2 fun _ => false)

/-! ### `model_predict_raster` -/

/-- `np.nan_to_num`: NaN becomes 0, the infinities the largest numbers of the dtype. -/
def nanToNum (big : Num) (small : Num) : Num → Num
  | .nan => .fin 0
  | .posInf => big
  | .negInf => small
  | v => v

/-- `np.moveaxis(xarr, 0, -1).reshape(y * x, b)[i, k]` for a chunk of shape `(b, y, x)`: the element with the same position
in the order of the array `(y, x, b)`. -/
def samples (chunk : Cell → Num) (w b i k : Nat) : Num :=
  let flat := i * b + k
  chunk (flat % b, flat / b / w, flat / b % w)

/-- `np.moveaxis(pred, -1, 0).reshape(nbands, y, x)[k, r, c]` for an array of shape `(y * x, nbands)`. -/
def unsamples (pred : Nat → Nat → Num) (h w : Nat) (k r c : Nat) : Num :=
  let flat := (k * h + r) * w + c
  pred (flat % (h * w)) (flat / (h * w))

/-- A model: `predict` on samples (rows) of predictor values; each row of the result has the output values. -/
abbrev Model := List (List Num) → List (List Num)

/-- `general.py:411-417` `_pred_raster` on a chunk of `h` rows and `w` columns; the `ValueError` of `reshape` if the model
returns an array of another size. -/
def predChunk (model : Model) (big small : Num) (nbands b h w : Nat) (chunk : Cell → Num) : Except Err (Cell → Num) :=
  let vl := (List.range (h * w)).map fun i => (List.range b).map fun k => nanToNum big small (samples chunk w b i k)
  let pred := model vl
  if pred.length = h * w ∧ pred.all (·.length = nbands) then
    .ok fun c => unsamples (fun i k => (pred.getD i []).getD k .nan) h w c.1 c.2.1 c.2.2
  else .error .value

/-- The part of the data in the chunk at row `r0`, column `c0`. -/
def chunkAt (data : Cell → Num) (r0 c0 : Nat) : Cell → Num := fun c => data (c.1, r0 + c.2.1, c0 + c.2.2)

/-- The prediction at a cell: that of its chunk (`map_blocks` on chunks with all bands). -/
def predValue (model : Model) (big small : Num) (nOutputs : Nat) (rn : Raster) (ychunks xchunks : List Nat) (c : Cell) :
    Except Err Num :=
  match chunkOf ychunks 0 c.2.1, chunkOf xchunks 0 c.2.2 with
  | some (r0, h), some (c0, w) =>
    match predChunk model big small nOutputs rn.nb h w (chunkAt rn.data r0 c0) with
    | .error e => .error e
    | .ok f => .ok (f (c.1, c.2.1 - r0, c.2.2 - c0))
  | _, _ => .error .index

/-- `general.py:454-490` `model_predict_raster` as a function of the cell; the shape is `n_outputs` bands of the raster's
rows and columns, the dtype float64.  The mask and the null value of the result come with it. -/
structure Predicted where
  nb : Nat
  ny : Nat
  nx : Nat
  value : Cell → Except Err Num
  mask : Cell → Bool
  nv : Option Scalar

def modelPredict (np : NumPy) (model : Model) (big small : Num) (r : Raster) (nOutputs : Int) (ychunks xchunks : List Nat) :
    Except Err Predicted :=
  if nOutputs < 1 then .error .value
  else
    let rn := nullToNan np r
    let n := nOutputs.toNat
    let value := predValue model big small n rn ychunks xchunks
    if rn.masked then
      let mask := fun c => (bandValues rn.nb rn.mask c).any id
      let nv := defaultNull f64
      .ok ⟨n, r.ny, r.nx, fun c => if mask c then (value c).map fun _ => nv.val else value c, mask, some nv⟩
    else .ok ⟨n, r.ny, r.nx, value, fun _ => false, none⟩

end Verif.Reduce
