import Verif.Nulls.RasterModel
import Verif.Build.Model

/-!
# Model of saving and opening files (`raster.py:1624-1833`, `io.py:93-473`)

A file is what GDAL gives back: dtype, shape, values and nodata value of the bands (all bands have the same).  Grid and CRS are
left out, so are compression and tiling.  GDAL, rasterio and rioxarray are the
parameters of `Gdal`.
-/

namespace Verif.Files

open Verif Verif.Nulls DType

structure File where
  dtype : DType
  nb : Nat
  ny : Nat
  nx : Nat
  data : Cell → Num
  nodata : Option Num

/-- `int64`: `check_dtype("int64")`; `writes`: the dtypes of a driver (`none`: the driver that GDAL guesses);
`nodata dt v`: what is read as nodata value of a file of dtype `dt` that was written with `v`. -/
structure Gdal where
  int64 : Bool
  writes : Option String → DType → Bool
  nodata : DType → Num → Num

/-- `io.py:60-70`. -/
def notImplemented : List String :=
  [".cdf", ".nc", ".nc4", ".hdf", ".h4", ".hdf4", ".he2", ".h5", ".hdf5", ".he5", ".grib", ".grib2", ".grb", ".grb2", ".gb", ".gb2"]

/-- `io.py:156`. -/
def driverOfExt (ext : String) : Option String := if ext = ".tif" ∨ ext = ".tiff" then some "GTiff" else none

/-- `io.py:163-166`. -/
def resolveDriver (ext : String) (driver : Option String) : Option String :=
  match driver with
  | some d => some d
  | none => driverOfExt ext

/-- `io.py:175-188`. -/
def nativeInt64 (g : Gdal) (driver : Option String) : Bool := (driver = some "GTiff" || driver = some "COG") && g.int64

/-- `io.py:374`. -/
def preservable (nv : Option Num) : Bool :=
  match nv with
  | some (.fin q) => decide (-2 ^ 53 ≤ q) && decide (q ≤ 2 ^ 53)
  | some _ => false
  | none => true

/-- `io.py:366-406`: the dtype that is written. -/
def fileDtype (g : Gdal) (driver : Option String) (dt : DType) (nv : Option Num) : DType :=
  if dt = i64 then
    if !nativeInt64 g driver then f64
    else if !preservable nv then f64
    else i64
  else if dt = .bool then u8
  else dt

/-- `io.py:342-452` `write_raster` without the options; NotImplementedError is a RuntimeError.  The COG driver copies a temporary
file that is written in the same way. -/
def write (np : NumPy) (g : Gdal) (ext : String) (driver : Option String) (r : Raster) : Except Err File :=
  if ext ∈ notImplemented then .error .runtime
  else
    let drv := resolveDriver ext driver
    let nv := r.nv.map (·.val)
    let dt := fileDtype g drv r.dtype nv
    if g.writes drv dt then
      .ok ⟨dt, r.nb, r.ny, r.nx, if dt = r.dtype then r.data else fun c => np.cast dt (r.data c), nv.map (g.nodata dt)⟩
    else .error .value

/-- `raster.py:1703-1714`: the arguments `null_value` and `no_data_value`. -/
def nullArg (nullValue noDataValue : Option NullArg) : Except Err (Option NullArg) :=
  match noDataValue, nullValue with
  | none, n => .ok n
  | some _, some _ => .error .type
  | some v, none => .ok (some v)

/-- `raster.py:1715-1717`. -/
def withNull (np : NumPy) (r : Raster) (v : Option NullArg) : Except Err Raster :=
  match v with
  | none => .ok r
  | some v => r.setNullValue np (some v)

/-- `raster.py:1718-1722`. -/
def boolAsByte (np : NumPy) (r : Raster) : Except Err Raster :=
  if r.masked && r.dtype.isBool then
    match r.astype np u8 none with
    | .error e => .error e
    | .ok b => b.setNullValue np (some (.int 255))
  else .ok r

/-- `raster.py:1624-1734` `save`. -/
def save (np : NumPy) (g : Gdal) (ext : String) (driver : Option String) (nullValue noDataValue : Option NullArg)
    (r : Raster) : Except Err File :=
  match nullArg nullValue noDataValue with
  | .error e => .error e
  | .ok v => match withNull np r v with
    | .error e => .error e
    | .ok r1 => match boolAsByte np r1 with
      | .error e => .error e
      | .ok r2 => write np g ext driver r2

/-- `np.isclose(nv, ESRI_DEFAULT_F32_NV)`, `io.py:90`, `io.py:96`. -/
def esriNull (v : Num) : Bool :=
  match v with
  | .fin q => allclose q (-f32max)
  | _ => false

/-- `io.py:93-103` `normalize_null_value`; turning a float into an int does not change its value. -/
def normalizeNull (np : NumPy) (dt : DType) (v : Num) : Num := if dt = f32 ∧ esriNull v then np.cast f32 v else v

/-- The null value of an opened file, `io.py:147-149`: rioxarray puts the nodata value into `_FillValue`; data is lazy. -/
def openedNull (np : NumPy) (f : File) : Option Num :=
  match f.nodata with
  | some v => some (normalizeNull np f.dtype v)
  | none => if f.dtype.isFloat then some .nan else none

/-- `Raster(path)`, `raster.py:1281-1288`, `io.py:106-151`. -/
def openFile (np : NumPy) (f : File) : Raster :=
  let nv := openedNull np f
  ⟨f.dtype, f.nb, f.ny, f.nx, f.data, fun c => maskOf nv (f.data c), nv.map fun v => ⟨f.dtype, v⟩⟩

/-! ### Names of chunk files -/

/-- `str(n)`. -/
def digits (n : Nat) : List Char := Nat.toDigits 10 n

/-- `f"{n:0{w}d}"`. -/
def padded (w n : Nat) : List Char := List.replicate (w - (digits n).length) '0' ++ digits n

/-- `max(1, len(str(n - 1)))`, `raster.py:1806-1808` for `n` chunks (`str(-1)` has two digits). -/
def width (n : Nat) : Nat := if n = 0 then 2 else max 1 (digits (n - 1)).length

/-- `raster.py:1798-1801`: the extension; `chosen` is `_ext_for_driver`. -/
def extension (ext : Option (List Char)) (chosen : List Char) : List Char :=
  let e := ext.getD chosen
  match e with
  | [] => []
  | '.' :: rest => '.' :: rest
  | e => '.' :: e

/-- `raster.py:1816`. -/
def bandName (pre ext : List Char) (nb ny nx b r c : Nat) : List Char :=
  pre ++ '_' :: 'b' :: padded (width nb) b ++ '_' :: padded (width ny) r ++ '_' :: padded (width nx) c ++ ext

/-- `raster.py:1824`. -/
def tileName (pre ext : List Char) (ny nx r c : Nat) : List Char :=
  pre ++ '_' :: padded (width ny) r ++ '_' :: padded (width nx) c ++ ext

/-- `np.ndindex(nb, ny, nx)`. -/
def indices3 (nb ny nx : Nat) : List (Nat × Nat × Nat) :=
  (List.range nb).flatMap fun b => (List.range ny).flatMap fun r => (List.range nx).map fun c => (b, r, c)

/-- A directory: the last content written under each name. -/
def lookup {α : Type} (dir : List (List Char × α)) (name : List Char) : Option α :=
  (dir.reverse.find? fun p => p.1 = name).map (·.2)

/-- `raster.py:1813-1818` (`per_band`): the files that are written, in order. -/
def writtenBands {α : Type} (pre ext : List Char) (nb ny nx : Nat) (content : Nat → Nat → Nat → α) : List (List Char × α) :=
  (indices3 nb ny nx).map fun i => (bandName pre ext nb ny nx i.1 i.2.1 i.2.2, content i.1 i.2.1 i.2.2)

/-- `raster.py:1822-1832`: one file for all bands. -/
def writtenTiles {α : Type} (pre ext : List Char) (ny nx : Nat) (content : Nat → Nat → α) : List (List Char × α) :=
  (indices3 1 ny nx).map fun i => (tileName pre ext ny nx i.2.1 i.2.2, content i.2.1 i.2.2)

/-! ### Overviews -/

/-- `io.py:333-339` `_auto_overview_factors`; `fuel` bounds the loop. -/
def overviewLoop (side : Nat) : Nat → Nat → List Nat
  | 0, _ => []
  | fuel + 1, f => if side ≥ 256 * f then f :: overviewLoop side fuel (f * 2) else []

def overviewFactors (height width : Nat) : List Nat := overviewLoop (min height width) (min height width + 1) 2

/-- The argument `overviews`. -/
inductive Overviews where
  | none
  | false
  | true
  | list (l : List Nat)

/-- `io.py:454-459`: the factors built after writing. -/
def builtFactors (driver : Option String) (o : Overviews) (height width : Nat) : List Nat :=
  if driver = some "COG" then []
  else match o with
    | .none => []
    | .false => []
    | .true => overviewFactors height width
    | .list l => l

end Verif.Files
