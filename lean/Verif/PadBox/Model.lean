import Verif.Bands.Props
import Verif.Grid.Model
set_option linter.unusedSectionVars false
/-!
# Model of the extent of `pad` (`_padding.py`)

`Verif.Bands.Model` has the cells of `pad` for given numbers of rows and columns; here these numbers come from the target, by
`rio.pad_box` of rioxarray (`raster_array.py`), which is modelled too.  Simplifications: exact numbers (rationals), so finite
bounds; coordinates are the lists `x` and `y`; the transform that is stored with the result is not modelled; a CRS is a
number, and equal CRSs have equal numbers.
-/

namespace Verif.PadBox

open Verif Verif.Nulls Verif.Bands

/-- A raster with its coordinates, its CRS, and the scale `(a, e)` of the transform stored with it. -/
structure Placed where
  raster : Raster
  xs : List Rat
  ys : List Rat
  stored : Rat × Rat
  crs : Option Nat

/-- `coord[0]`. -/
def first (l : List Rat) : Rat := l.headD 0

/-- `coord[-1]`. -/
def last (l : List Rat) : Rat := l.getLastD 0

/-- `rio.resolution(recalc)`: the stored one, unless it is to be computed and there are two rows and columns. -/
def resolution (recalc : Bool) (p : Placed) : Rat × Rat :=
  if !recalc || p.xs.length == 1 || p.ys.length == 1 then p.stored
  else ((last p.xs - first p.xs) / (p.xs.length - 1), (last p.ys - first p.ys) / (p.ys.length - 1))

/-- `raster.py:1434-1436` `Raster.affine`, `rio.transform(True)`. -/
def affine (p : Placed) : Grid.Affine Rat :=
  let s := resolution true p
  ⟨s.1, 0, first p.xs - s.1 / 2, 0, s.2, first p.ys - s.2 / 2⟩

/-- `raster.py:1443-1449` `Raster.bounds`: `(minx, miny, maxx, maxy)`. -/
def bounds (p : Placed) : Rat × Rat × Rat × Rat :=
  let ul := Grid.rowcolToXy 0 0 (affine p) .ul
  let lr := Grid.rowcolToXy ((p.raster.ny : Rat) - 1) ((p.raster.nx : Rat) - 1) (affine p) .lr
  (ul.1, lr.2, lr.1, ul.2)

/-- An entry of a sequence of bounds: a number, a bool, or anything else. -/
inductive Item where
  | num (q : Rat)
  | bool (b : Bool)
  | other

/-- The `target` argument: a `GeoBox`, a raster, a path (with what opening it gives), something that can be iterated, or
anything else. -/
inductive Target where
  | geobox (crs : Option Nat) (A : Grid.Affine Rat) (ny nx : Nat)
  | raster (p : Placed)
  | path (opened : Except Err Placed)
  | seq (l : List Item)
  | other

/-- `float(b)`. -/
def Item.float : Item → Option Rat
  | .num q => some q
  | .bool b => some (if b then 1 else 0)
  | .other => none

/-- Both CRSs are known, and differ (`_padding.py:37-41`, `55-59`). -/
def clash : Option Nat → Option Nat → Bool
  | some a, some b => a != b
  | _, _ => false

/-- odc-geo's `GeoBox.boundingbox`, around the corners: `(left, bottom, right, top)`. -/
def boundingbox (A : Grid.Affine Rat) (ny nx : Nat) : Rat × Rat × Rat × Rat :=
  let ul := A.apply (0, 0)
  let ur := A.apply (nx, 0)
  let ll := A.apply (0, ny)
  let lr := A.apply (nx, ny)
  (min (min ul.1 ur.1) (min ll.1 lr.1), min (min ul.2 ur.2) (min ll.2 lr.2),
   max (max ul.1 ur.1) (max ll.1 lr.1), max (max ul.2 ur.2) (max ll.2 lr.2))

/-- `_padding.py:53-63` the bounds of another raster. -/
def rasterBounds (p q : Placed) : Except Err (Rat × Rat × Rat × Rat) :=
  if clash p.crs q.crs then .error .value else .ok (bounds q)

/-- `_padding.py:72-76`. -/
def seqBounds : List (Option Rat) → Except Err (Rat × Rat × Rat × Rat)
  | [some a, some b, some c, some d] => .ok (a, b, c, d)
  | _ => .error .value

/-- `_padding.py:35-76` `_resolve_bounds`. -/
def resolveBounds (p : Placed) : Target → Except Err (Rat × Rat × Rat × Rat)
  | .geobox crs A ny nx => if clash p.crs crs then .error .value else .ok (boundingbox A ny nx)
  | .raster q => rasterBounds p q
  | .path (.ok q) => rasterBounds p q
  | .path (.error e) => .error e
  | .seq l => seqBounds (l.map Item.float)
  | .other => .error .type

/-- `numpy.arange(start, stop, step)`. -/
def arange (start stop step : Rat) : List Rat :=
  (List.range ⌈(stop - start) / step⌉.toNat).map fun i : Nat => start + i * step

/-- `pad_box`, columns before: their number, and the coordinates with them. -/
def westward (xs : List Rat) (res minx : Rat) : Int × List Rat :=
  if first xs - res > minx then
    let new := (arange (last xs) minx (-res)).reverse
    ((new.length : Int) - xs.length, new)
  else (0, xs)

/-- `pad_box`, columns after; `right` is the last of the old coordinates. -/
def eastward (xs : List Rat) (right res maxx : Rat) : Int × List Rat :=
  if right + res < maxx then
    let new := arange (first xs) maxx res
    ((new.length : Int) - xs.length, new)
  else (0, xs)

/-- `pad_box`, rows before; the resolution is negative. -/
def northward (ys : List Rat) (res maxy : Rat) : Int × List Rat :=
  if first ys - res < maxy then
    let new := (arange (last ys) maxy (-res)).reverse
    ((new.length : Int) - ys.length, new)
  else (0, ys)

/-- `pad_box`, rows after. -/
def southward (ys : List Rat) (bottom res miny : Rat) : Int × List Rat :=
  if bottom + res > miny then
    let new := arange (first ys) miny res
    ((new.length : Int) - ys.length, new)
  else (0, ys)

/-- What `pad_box` finds: the numbers of rows and columns to add and the new coordinates. -/
structure Box where
  top : Int
  bottom : Int
  left : Int
  right : Int
  ys : List Rat
  xs : List Rat

/-- `rio.pad_box(minx, miny, maxx, maxy)`. -/
def padBox (p : Placed) (b : Rat × Rat × Rat × Rat) : Box :=
  let res := resolution false p
  let n := northward p.ys res.2 b.2.2.2
  let s := southward n.2 (last p.ys) res.2 b.2.1
  let w := westward p.xs res.1 b.1
  let e := eastward w.2 (last p.xs) res.1 b.2.2.1
  ⟨n.1, s.1, w.1, e.1, s.2, e.2⟩

/-- The result of `pad`. -/
structure Padded where
  raster : Raster
  xs : List Rat
  ys : List Rat
  crs : Option Nat

/-- `DataArray.pad` refuses negative widths. -/
def Box.margins (b : Box) : Except Err Margins :=
  if b.top < 0 || b.bottom < 0 || b.left < 0 || b.right < 0 then .error .value
  else .ok ⟨b.top.toNat, b.bottom.toNat, b.left.toNat, b.right.toNat⟩

/-- `_padding.py:155-203` what `pad` makes of the bounds.  The fill values are checked before the cells are counted. -/
def padTo (np : NumPy) (p : Placed) (fill : Fill) (b : Rat × Rat × Rat × Rat) : Except Err Padded :=
  match validateFill p.raster fill with
  | .error e => .error e
  | .ok _ =>
    match (padBox p b).margins with
    | .error e => .error e
    | .ok m =>
      match Bands.pad np p.raster m fill with
      | .error e => .error e
      | .ok o => .ok ⟨o, (padBox p b).xs, (padBox p b).ys, p.crs⟩

/-- `_padding.py:116-203` `pad`. -/
def pad (np : NumPy) (p : Placed) (target : Target) (fill : Fill) : Except Err Padded :=
  match resolveBounds p target with
  | .error e => .error e
  | .ok b => padTo np p fill b

end Verif.PadBox
