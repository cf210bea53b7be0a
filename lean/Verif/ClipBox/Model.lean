import Verif.Clip.Model
import Verif.PadBox.Model
set_option linter.unusedSectionVars false
/-!
# Model of the window of `clip_box` (`clipping.py`)

`Verif.Clip.Model` has the cells of `clip_box` for a given window; here the window comes from the bounds, by `rio.clip_box` of
rioxarray (`raster_array.py`: `rasterio.windows.from_bounds` with the transform, then `isel_window`), which is modelled too.
Simplifications: exact numbers (rationals); rasters that are north up; what `auto_expand=True` does about a window with fewer than
two rows or columns is a parameter.
-/

namespace Verif.ClipBox

open Verif Verif.Nulls Verif.PadBox

/-- `isel_window`: the first row or column, from its place in pixels. -/
def start (q : Rat) : Nat := ⌊q⌋.toNat

/-- `isel_window`: the row or column to stop before; slices end with the data. -/
def stop (n : Nat) (q : Rat) : Nat := min n ⌈q⌉.toNat

/-- `rasterio.windows.from_bounds` and `isel_window`, for `(minx, miny, maxx, maxy)`. -/
def window (p : Placed) (b : Rat × Rat × Rat × Rat) : Clip.Window :=
  let A := affine p
  let top := start ((b.2.2.2 - A.f) / A.e)
  let left := start ((b.1 - A.c) / A.a)
  ⟨top, left, stop p.raster.ny ((b.2.1 - A.f) / A.e) - top, stop p.raster.nx ((b.2.2.1 - A.c) / A.a) - left⟩

/-- `rio.clip_box(*bounds, auto_expand=True)` (`clipping.py:225`, `231`). -/
def boxWindow (expand : Placed → List Rat → Option Clip.Window) (p : Placed) : List Rat → Option Clip.Window
  | [a, b, c, d] =>
    if (window p (a, b, c, d)).ny < 2 || (window p (a, b, c, d)).nx < 2 then expand p [a, b, c, d]
    else some (window p (a, b, c, d))
  | _ => none

/-- The part of a list that a slice selects. -/
def slice (l : List Rat) (start n : Nat) : List Rat := (l.drop start).take n

/-- The result with its coordinates. -/
def placed (p : Placed) (o : Raster) : Option Clip.Window → Except Err Placed
  | none => .error .noData
  | some w => .ok ⟨o, slice p.xs w.col w.nx, slice p.ys w.row w.ny, p.stored, p.crs⟩

/-- `clipping.py:205-235` `clip_box`. -/
def clipBox {G : Type} (place : Clip.Place G) (expand : Placed → List Rat → Option Clip.Window) (p : Placed) (bounds : List Rat) :
    Except Err Placed :=
  match Clip.clipBox { place with window := boxWindow expand p } p.raster bounds with
  | .error e => .error e
  | .ok o => placed p o (boxWindow expand p bounds)

end Verif.ClipBox
