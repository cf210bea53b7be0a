import Verif.PadBox.Props
import Verif.Reduce.Props
set_option linter.unusedSectionVars false
/-!
# Model of the grid of `aggregate` (`general.py`)

`Verif.Reduce.Model` has the cells of `aggregate`; here are the coordinates and the transform that its result has.  rioxarray
keeps the transform as an attribute (`GeoTransform`) of the scalar coordinate `spatial_ref`, which `coarsen` passes on
unchanged; for rasters with null values the result goes through `xr.where`, which drops the attributes of coordinates or
not, depending on the version of xarray (a parameter).  Simplification: exact numbers.
-/

namespace Verif.Coarse

open Verif Verif.Nulls Verif.Reduce Verif.PadBox

/-- The coordinates of the result along one axis: `coarsen` takes the mean of each full window. -/
def coarse (l : List Rat) (e : Nat) : List Rat :=
  (List.range (l.length / e)).map fun k => coarsenCoord (fun i => l.getD i 0) e k

/-- `rio.resolution(True)` of data whose stored scale may be gone; rioxarray's `transform` falls back to the identity. -/
def newScale (xs ys : List Rat) (stored : Option (Rat × Rat)) : Rat × Rat :=
  if xs.length == 1 || ys.length == 1 then stored.getD (1, 1)
  else ((last xs - first xs) / (xs.length - 1), (last ys - first ys) / (ys.length - 1))

/-- `raster.py:1111` with `raster.py:667-673`: the transform is computed anew and written. -/
def normalize (r : Raster) (xs ys : List Rat) (stored : Option (Rat × Rat)) (crs : Option Nat) : Placed :=
  ⟨r, xs, ys, newScale xs ys stored, crs⟩

/-- The scale stored with the data that are normalised: that of the input, unless it went through `xr.where`
(`general.py:320-332`). -/
def storedScale (whereKeeps : Bool) (p : Placed) : Option (Rat × Rat) :=
  if p.raster.masked && !whereKeeps then none else some p.stored

/-- The windows of `aggregate`, if they are valid. -/
def windows (expand : ExpandArg) : Nat × Nat :=
  match checkExpand expand with
  | .ok e => e
  | .error _ => (1, 1)

/-- `general.py:251-336` `aggregate` with the grid of its result. -/
def aggregate (np : NumPy) (func : AggStat → List Num → Num) (outTy : AggStat → DType → DType) (whereKeeps : Bool) (p : Placed)
    (expand : ExpandArg) (stype : NameArg AggStat) : Except Err Placed :=
  match Reduce.aggregate np func outTy p.raster expand stype with
  | .error e => .error e
  | .ok o => .ok (normalize o (coarse p.xs (windows expand).2) (coarse p.ys (windows expand).1) (storedScale whereKeeps p) p.crs)

end Verif.Coarse
