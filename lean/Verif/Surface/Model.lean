import Mathlib.Analysis.SpecialFunctions.Trigonometric.Arctan
import Mathlib.Analysis.SpecialFunctions.Complex.Arg
import Mathlib.Analysis.SpecialFunctions.Sqrt
import Verif.Nulls.RasterModel
import Verif.Focal.Model
set_option linter.unusedSectionVars false
/-!
# Model of `surface.py`

Elevations are real numbers or NaN.  Rounding and infinities are not modelled: `np.sqrt`, `np.arctan`, `np.arctan2`,
`np.sin` and `np.cos` are the functions of real analysis.  Integer rasters hold whole numbers; the NaN of the boundary,
which an integer array cannot hold, only reaches cells that `_finalize` makes null.  The band axis has chunks of one band,
so that `single_band_mappable` (`utils.py:67-126`) only adds and removes this axis.  `map_overlap` of dask is
`Focal.mapOverlap`.
-/

namespace Verif.Surface

open Verif

/-- An element of a float array: a number or NaN. -/
inductive Val where
  | num (x : ℝ)
  | nan

namespace Val

/-- An operation with one operand; NaN stays NaN. -/
noncomputable def map (f : ℝ → ℝ) : Val → Val
  | num x => num (f x)
  | nan => nan

/-- An operation with two operands; NaN if one of them is. -/
noncomputable def map₂ (f : ℝ → ℝ → ℝ) : Val → Val → Val
  | num x, num y => num (f x y)
  | _, _ => nan

noncomputable instance : Add Val := ⟨map₂ (· + ·)⟩
noncomputable instance : Sub Val := ⟨map₂ (· - ·)⟩
noncomputable instance : Mul Val := ⟨map₂ (· * ·)⟩
noncomputable instance : Div Val := ⟨map₂ (· / ·)⟩
noncomputable instance : Neg Val := ⟨map (- ·)⟩
instance (n : Nat) : OfNat Val n := ⟨num n⟩

/-- `x == y` of floats; NaN equals nothing. -/
noncomputable def eq : Val → Val → Bool
  | num x, num y => decide (x = y)
  | _, _ => false

/-- `x < y` of floats. -/
noncomputable def lt : Val → Val → Bool
  | num x, num y => decide (x < y)
  | _, _ => false

/-- `x <= y` of floats. -/
noncomputable def le : Val → Val → Bool
  | num x, num y => decide (x ≤ y)
  | _, _ => false

noncomputable def sqrt : Val → Val := map Real.sqrt
noncomputable def arctan : Val → Val := map Real.arctan
noncomputable def cos : Val → Val := map Real.cos
noncomputable def sin : Val → Val := map Real.sin

/-- `np.arctan2(y, x)`, the angle of the point `(x, y)`. -/
noncomputable def arctan2 : Val → Val → Val := map₂ fun y x => Complex.arg ⟨x, y⟩

end Val

open Val

/-- The neighbourhood of a cell: the value so many rows and columns further. -/
abbrev Around := Int → Int → Val

/-- `surface.py:30`. -/
noncomputable def toDegrees : Val := num (180 / Real.pi)

/-- `surface.py:31`. -/
noncomputable def toRadians : Val := num (Real.pi / 180)

/-- `surface.py:62-65`, `67-68`: the area of the triangle with these sides by Heron's formula. -/
noncomputable def heron (p q r : Val) : Val :=
  let si := (p + q + r) * num 0.5
  sqrt (si * (si - p) * (si - q) * (si - r))

/-- `surface.py:59-61`: half the distance of two neighbours, `dist` is their horizontal distance squared. -/
noncomputable def side (dist p q : Val) : Val := sqrt (dist + (p - q) * (p - q)) * num 0.5

/-- `surface.py:48-99` `_surface_area_3d` for one cell; `res` is the width of a cell. -/
noncomputable def surfaceAreaCell (res : ℝ) (x : Around) : Val :=
  let sd := num res * num res
  let dd := sd * 2
  let ta := 0
  let e := x 0 0
  let a := x 1 (-1)
  let b := x 1 0
  let c := x 1 1
  let d := x 0 (-1)
  let f := x 0 1
  let g := x (-1) (-1)
  let h := x (-1) 0
  let i := x (-1) 1
  let ea := side dd e a
  let eb := side sd e b
  let ab := side sd a b
  let ta := ta + heron ea eb ab
  let ec := side dd e c
  let bc := side sd b c
  let ta := ta + heron ec eb bc
  let ef := side sd e f
  let cf := side sd c f
  let ta := ta + heron ec ef cf
  let ei := side dd e i
  let fi := side sd f i
  let ta := ta + heron ei ef fi
  let eh := side sd e h
  let hi := side sd h i
  let ta := ta + heron ei eh hi
  let eg := side dd e g
  let gh := side sd g h
  let ta := ta + heron eg eh gh
  let ed := side sd e d
  let dg := side sd d g
  let ta := ta + heron eg dg ed
  let ad := side sd a d
  let ta := ta + heron ea ed ad
  ta

/-- `surface.py:150-158`, `425-433`: the differences between the columns and between the rows around a cell. -/
noncomputable def gradient (res : ℝ × ℝ) (x : Around) : Val × Val :=
  let dx := num res.1 * 8
  let dy := num res.2 * 8
  let a := x 1 (-1)
  let b := x 1 0
  let c := x 1 1
  let d := x 0 (-1)
  let f := x 0 1
  let g := x (-1) (-1)
  let h := x (-1) 0
  let i := x (-1) 1
  (((c + 2 * f + i) - (a + 2 * d + g)) / dx, ((g + 2 * h + i) - (a + 2 * b + c)) / dy)

/-- `surface.py:139-165` `_slope` for one cell. -/
noncomputable def slopeCell (res : ℝ × ℝ) (degrees : Bool) (x : Around) : Val :=
  let (dzdx, dzdy) := gradient res x
  let riseRun := sqrt (dzdx * dzdx + dzdy * dzdy)
  if degrees then arctan riseRun * toDegrees else riseRun

/-- `surface.py:209-242` `_aspect` for one cell. -/
noncomputable def aspectCell (x : Around) : Val :=
  let a := x (-1) (-1)
  let b := x (-1) 0
  let c := x (-1) 1
  let d := x 0 (-1)
  let f := x 0 1
  let g := x 1 (-1)
  let h := x 1 0
  let i := x 1 1
  let dzdx := ((c + 2 * f + i) - (a + 2 * d + g)) / 8
  let dzdy := ((g + 2 * h + i) - (a + 2 * b + c)) / 8
  if dzdx.eq 0 && dzdy.eq 0 then num (-1)
  else
    let aspect := arctan2 dzdy (-dzdx) * toDegrees
    if aspect.le 90 then 90 - aspect else 450 - aspect

/-- `surface.py:280-301` `_curv` for one cell. -/
noncomputable def curvCell (res : ℝ × ℝ) (x : Around) : Val :=
  let ca := num res.1 * num res.2
  let z2 := x (-1) 0
  let z4 := x 0 (-1)
  let z5 := x 0 0
  let z6 := x 0 1
  let z8 := x 1 0
  let dl2 := (z4 + z6) / 2 - z5
  let el2 := (z2 + z8) / 2 - z5
  num (-2) * (dl2 + el2) * 100 / ca

/-- `surface.py:435-445`: the direction of the slope in radians. -/
noncomputable def slopeDirection (dzdx dzdy : Val) : Val :=
  let asr := arctan2 dzdy (-dzdx)
  if !(dzdx.eq 0) then
    if asr.lt 0 then 2 * num Real.pi + asr else asr
  else if lt 0 dzdy then num Real.pi / 2
  else if dzdy.lt 0 then 2 * num Real.pi - num Real.pi / 2
  else asr

/-- `surface.py:409-451` `_hillshade` for one cell. -/
noncomputable def hillshadeCell (res : ℝ × ℝ) (azimuth altitude : ℝ) (x : Around) : Val :=
  let aRad := (360 - num azimuth + 90) * toRadians
  let zRad := (90 - num altitude) * toRadians
  let (dzdx, dzdy) := gradient res x
  let slpr := arctan (sqrt (dzdx * dzdx + dzdy * dzdy))
  let asr := slopeDirection dzdx dzdy
  let hs := 255 * (cos zRad * cos slpr + sin zRad * sin slpr * cos (aRad - asr))
  if hs.lt 0 then 0 else hs

/-- `surface.py:54-55`, `148-149`, `219-220`, `292-293`, `424-425`: the loop over the cells that are not at the edge of the
block; the others keep what `np.empty_like` left there (`none`). -/
noncomputable def inner (cell : Around → Val) (rows cols : Nat) (xarr : Int → Int → Val) (ri ci : Int) : Option Val :=
  if 1 ≤ ri ∧ ri < rows - 1 ∧ 1 ≤ ci ∧ ci < cols - 1 then some (cell fun i j => xarr (ri + i) (ci + j)) else none

/-- One band of a raster; `masked` if it has a null value. -/
structure Raster where
  ny : Nat
  nx : Nat
  data : Nat → Nat → Val
  mask : Nat → Nat → Bool
  masked : Bool
  /-- `raster.resolution`, with its sign -/
  res : ℝ × ℝ
  ychunks : List Nat
  xchunks : List Nat

/-- `raster.py:3208-3214`: `get_raster(…, null_to_nan=True)`. -/
def Raster.nullToNan (r : Raster) (row col : Nat) : Val :=
  if r.masked && r.mask row col then nan else r.data row col

/-- The array with a boundary of NaN. -/
def Raster.extended (r : Raster) (row col : Int) : Val :=
  if 0 ≤ row ∧ row < r.ny ∧ 0 ≤ col ∧ col < r.nx then r.nullToNan row.toNat col.toNat else nan

/-- `map_overlap(…, depth={0: 0, 1: 1, 2: 1}, boundary=np.nan)`, `surface.py:128-136`, `196-204`, `265-271`, `325-333`,
`484-493`. -/
noncomputable def mapCells (cell : Around → Val) (r : Raster) (row col : Nat) : Option Val :=
  Focal.mapOverlap (inner cell) r.extended 1 1 r.ychunks r.xchunks row col

/-- A cell of a result: its value and whether it is null. -/
structure Cell where
  value : Val
  null : Bool

/-- The default null value of a dtype (`masking.py`), as a real number. -/
noncomputable def defaultNull (dt : DType) : Val :=
  match (Nulls.defaultNull dt).val with
  | .fin q => num q
  | _ => nan

/-- `surface.py:34-39`: the mask with the edges. -/
def edgeMask (r : Raster) (row col : Nat) : Bool :=
  r.mask row col || row == 0 || row == r.ny - 1 || col == 0 || col == r.nx - 1

/-- `surface.py:34-44` `_finalize` for one cell. -/
noncomputable def finalize (r : Raster) (nv : Val) (row col : Nat) (v : Val) : Cell :=
  if edgeMask r row col then ⟨nv, true⟩ else ⟨v, false⟩

/-- `surface.py:125-137` `surface_area_3d`. -/
noncomputable def surfaceArea3d (r : Raster) (row col : Nat) : Option Cell :=
  (mapCells (surfaceAreaCell r.res.1) r row col).map (finalize r (defaultNull .f64) row col)

/-- `surface.py:191-205` `slope`. -/
noncomputable def slope (degrees : Bool) (r : Raster) (row col : Nat) : Option Cell :=
  (mapCells (slopeCell r.res degrees) r row col).map (finalize r (defaultNull .f64) row col)

/-- `surface.py:262-272` `aspect`. -/
noncomputable def aspect (r : Raster) (row col : Nat) : Option Cell :=
  (mapCells aspectCell r row col).map (finalize r (defaultNull .f64) row col)

/-- `surface.py:322-334` `curvature`. -/
noncomputable def curvature (r : Raster) (row col : Nat) : Option Cell :=
  (mapCells (curvCell (|r.res.1|, |r.res.2|)) r row col).map (finalize r (defaultNull .f64) row col)

/-- `raster.py:2080-2089`: `set_null_value(255)` of a float raster that has a null value.  The dtype stays `float32`
(`nullDtype_255`). -/
noncomputable def setNull255 (c : Cell) : Cell :=
  if c.null || c.value.eq 255 then ⟨255, true⟩ else ⟨c.value, false⟩

/-- A cell of a `uint8` raster; the value is unknown if a NaN was converted. -/
structure ByteCell where
  value : Option Int
  null : Bool

/-- Conversion of floats to `uint8`: digits after the point are dropped.  What NaN turns into is left open. -/
noncomputable def toByte : Val → Option Int
  | num x => some ⌊x⌋
  | nan => none

/-- `raster.py:1868-1940`: `astype(U8)` of a raster with null value 255. -/
noncomputable def astypeU8 (c : Cell) : ByteCell := ⟨if c.null then some 255 else toByte c.value, c.null⟩

/-- `surface.py:479-502` `hillshade`. -/
noncomputable def hillshade (azimuth altitude : ℝ) (r : Raster) (row col : Nat) : Option ByteCell :=
  (mapCells (hillshadeCell r.res azimuth altitude) r row col).map fun v =>
    astypeU8 (setNull255 (setNull255 (finalize r (defaultNull .f32) row col v)))

/-- `surface.py:340-350` `_northing_easting` for one cell of a raster of angles with the null value `nv`, whose null cells
`get_raster` has replaced with NaN. -/
noncomputable def northingEasting (doNorthing : Bool) (nv : Option Val) (c : Cell) : Cell :=
  let t := (if doNorthing then cos else sin) ((if nv.isSome && c.null then nan else c.value) * toRadians)
  match nv with
  | some v => ⟨if c.null then v else t, c.null⟩
  | none => ⟨t, c.null⟩

/-- `surface.py:353-380` `northing` and `surface.py:383-408` `easting` of a raster of elevations. -/
noncomputable def northingOf (doNorthing : Bool) (r : Raster) (row col : Nat) : Option Cell :=
  (aspect r row col).map (northingEasting doNorthing (some (defaultNull .f64)))

end Verif.Surface
