import Mathlib.Data.Rat.Floor
import Verif.Nulls.RasterModel

/-!
# Model of `_grids.py` and of the choice of the destination grid in `_stack.py` and `_mosaic.py`

Grids are odc-geo's `GeoBox`.  What the library uses of them is modelled explicitly (`extent`, `from_bbox` with `tight=True`, `zoom_to`); the
change of the CRS of a grid is a parameter.  Simplifications: exact numbers, a CRS is a number, shapely's boxes are their bounds.
-/

namespace Verif.Boxes

open Verif Verif.Nulls

/-- odc-geo's `GeoBox`: a CRS, a shape and an affine. -/
structure GeoBox where
  crs : Nat
  ny : Nat
  nx : Nat
  a : Rat
  b : Rat
  c : Rat
  d : Rat
  e : Rat
  f : Rat
deriving DecidableEq, Repr

/-- The six coefficients. -/
def GeoBox.affine (g : GeoBox) : List Rat := [g.a, g.b, g.c, g.d, g.e, g.f]

/-- `_grids.py:32`. -/
def pixelTolerance : Rat := 1 / 1000

/-- `_grids.py:35-47` `grids_close`. -/
def gridsClose (g h : GeoBox) : Bool :=
  if g.crs ≠ h.crs ∨ g.ny ≠ h.ny ∨ g.nx ≠ h.nx then false
  else (g.affine.zip h.affine).all fun p => decide (|p.1 - p.2| ≤ pixelTolerance * max |g.a| |g.e|)

/-- `_grids.py:50-56` `are_all_grids_same`. -/
def allSame : List GeoBox → Bool
  | [] => true
  | g :: gs => gs.all (gridsClose g)

/-- Bounds: left, bottom, right, top. -/
structure Bounds where
  left : Rat
  bottom : Rat
  right : Rat
  top : Rat
deriving DecidableEq, Repr

/-- The least and the greatest of four numbers. -/
def min4 (p q r s : Rat) : Rat := min (min p q) (min r s)

def max4 (p q r s : Rat) : Rat := max (max p q) (max r s)

/-- `grid.extent` (`_grids.py:76-81`): the bounds of the four corners. -/
def GeoBox.bounds (g : GeoBox) : Bounds :=
  { left := min4 g.c (g.c + g.a * g.nx) (g.c + g.b * g.ny) (g.c + g.a * g.nx + g.b * g.ny)
    bottom := min4 g.f (g.f + g.d * g.nx) (g.f + g.e * g.ny) (g.f + g.d * g.nx + g.e * g.ny)
    right := max4 g.c (g.c + g.a * g.nx) (g.c + g.b * g.ny) (g.c + g.a * g.nx + g.b * g.ny)
    top := max4 g.f (g.f + g.d * g.nx) (g.f + g.e * g.ny) (g.f + g.d * g.nx + g.e * g.ny) }

/-- odc-geo's `maybe_int` with a tolerance of 0.01 followed by `ceil`, at least 1: how many pixels a length has. -/
def pixels (q : Rat) : Nat :=
  max 1 (if |q - round q| < 1 / 100 then (round q).toNat else ⌈q⌉.toNat)

/-- `GeoBox.from_bbox(bounds, crs, resolution=res, tight=True)`. -/
def fromBbox (b : Bounds) (crs : Nat) (res : Rat) : GeoBox :=
  ⟨crs, pixels ((b.top - b.bottom) / res), pixels ((b.right - b.left) / res), res, 0, b.left, 0, -res, b.top⟩

/-- `_grids.py:71-73` `reproject_grid`, i.e. `Raster.reproject(crs, resolution=resolution)` (`warp.py:76-91`) of a raster on the grid.
`toCrs` is odc-geo's `to_crs`. -/
def reprojectGrid (toCrs : Nat → GeoBox → GeoBox) (g : GeoBox) (crs : Nat) : Option Rat → Except Err GeoBox
  | none => .ok (toCrs crs g)
  | some res => if res ≤ 0 then .error .value else .ok (fromBbox (toCrs crs g).bounds crs res)

inductive How where
  | union | intersection
deriving DecidableEq, Repr

def Bounds.union (p q : Bounds) : Bounds := ⟨min p.left q.left, min p.bottom q.bottom, max p.right q.right, max p.top q.top⟩

def Bounds.inter (p q : Bounds) : Bounds := ⟨max p.left q.left, max p.bottom q.bottom, min p.right q.right, min p.top q.top⟩

/-- `total_bounds` and `shapely.intersection_all` of boxes. -/
def mergeBounds (how : How) (b : Bounds) (bs : List Bounds) : Bounds :=
  match how with
  | .union => bs.foldl Bounds.union b
  | .intersection => bs.foldl Bounds.inter b

/-- `bbox.is_empty`: boxes that touch have a line or a point in common. -/
def Bounds.isEmpty (b : Bounds) : Bool := decide (b.right < b.left ∨ b.top < b.bottom)

/-- All the results, or the first error. -/
def sequence : List (Except Err GeoBox) → Except Err (List GeoBox)
  | [] => .ok []
  | .error e :: _ => .error e
  | .ok g :: l => match sequence l with
    | .error e => .error e
    | .ok gs => .ok (g :: gs)

/-- `_grids.py:126-146`. -/
def finish (how : How) (crs : Nat) (res : Rat) : List GeoBox → Except Err GeoBox
  | [] => .error .index
  | g :: gs =>
    let b := mergeBounds how g.bounds (gs.map GeoBox.bounds)
    if decide (how = .intersection) && b.isEmpty then .error .value else .ok (fromBbox b crs res)

/-- `_grids.py:84-146` `combine_grids`; `how` is none for an unknown word. -/
def combine (toCrs : Nat → GeoBox → GeoBox) (how : Option How) (dstCrs : Option Nat) (resolution : Option Rat) :
    List GeoBox → Except Err GeoBox
  | [] => if how.isNone then .error .value else .error .index
  | g :: gs => match how with
    | none => .error .value
    | some how =>
      if allSame (g :: gs) then
        if dstCrs.isNone && resolution.isNone then .ok g else reprojectGrid toCrs g (dstCrs.getD g.crs) resolution
      else
        let crs := dstCrs.getD g.crs
        let res := resolution.getD |g.a|
        match sequence ((g :: gs).map fun h => reprojectGrid toCrs h crs (some res)) with
        | .error e => .error e
        | .ok l => finish how crs res l

/-- `np.isclose(a, b)` for numbers. -/
def isclose (a b : Rat) : Bool := decide (|a - b| ≤ 1 / 100000000 + 1 / 100000 * |b|)

/-- `_stack.py:190-212`: the grid `stack_bands` puts the rasters on.  One raster without requests is returned as it is, on its grid. -/
def stackGrid (toCrs : Nat → GeoBox → GeoBox) (dstGrid : Option GeoBox) (dstCrs : Option Nat) (outer : Bool) (resolution : Option Rat)
    (grids : List GeoBox) : Except Err GeoBox :=
  match dstGrid with
  | some d =>
    if dstCrs.any (fun c => decide (c ≠ d.crs)) || resolution.isSome then .error .value
    else if grids.isEmpty then .error .value else .ok d
  | none => match grids with
    | [] => .error .value
    | g :: gs =>
      if allSame (g :: gs) && dstCrs.all (fun c => decide (g.crs = c)) && resolution.all (fun r => isclose |g.a| r) then .ok g
      else combine toCrs (some (if outer then .union else .intersection)) dstCrs resolution (g :: gs)

/-- `_mosaic.py:325-332`: is a raster reprojected onto the grid of the mosaic? -/
def mosaicReprojects (dst g : GeoBox) : Bool := !allSame [g, dst]

/-- `_stack.py:214-231`: is the raster reprojected onto the grid of the stack? -/
def stackReprojects (grids : List GeoBox) (dst g : GeoBox) : Bool :=
  if allSame grids && grids.head?.any (fun first => allSame [first, dst]) then false else !allSame [g, dst]

/-- `_mosaic.py:309-323`: the grid of a mosaic. -/
def mosaicGrid (toCrs : Nat → GeoBox → GeoBox) (dstGrid : Option GeoBox) (dstCrs : Option Nat) (grids : List GeoBox) : Except Err GeoBox :=
  match dstGrid with
  | some d => .ok d
  | none => combine toCrs (some .union) dstCrs none grids

end Verif.Boxes
