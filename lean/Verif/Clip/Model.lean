import Verif.Rasterize.Model

/-!
# Model of `clipping.py`

Which rows and columns lie in a box is rioxarray's `clip_box`, given from outside as a window (`none` for
`NoDataInBounds`).  The features are burned with the model of `rasterize(mask=True)`.  Simplification: the null value
has the dtype of the data (rioxarray's `write_nodata` makes it so), hence `xr.where` keeps the dtype.
-/

namespace Verif.Clip

open Verif Verif.Nulls Verif.Rasterize DType

variable {G : Type}

/-- Rows and columns cut out by `rio.clip_box`. -/
structure Window where
  row : Nat
  col : Nat
  ny : Nat
  nx : Nat

/-- `clipping.py:223-235`, the raster cut out. -/
def cutOut (r : Raster) (w : Window) : Raster :=
  ⟨r.dtype, r.nb, w.ny, w.nx, fun c => r.data (c.1, w.row + c.2.1, w.col + c.2.2),
    fun c => if r.masked then r.mask (c.1, w.row + c.2.1, w.col + c.2.2) else false, r.nv⟩

/-- What depends on the place of raster and features: the windows of boxes, and the geometry of a window. -/
structure Place (G : Type) where
  window : List Rat → Option Window
  whole : Like G
  like : Window → Like G
  /-- `feat.bounds` -/
  featureBounds : List Rat

/-- `clipping.py:205-235` `clip_box`. -/
def clipBox (p : Place G) (r : Raster) (bounds : List Rat) : Except Err Raster :=
  if bounds.length ≠ 4 then .error .value
  else
    match p.window bounds with
    | none => .error .noData
    | some w => .ok (cutOut r w)

/-- The arguments of `_clip`. -/
structure Args where
  hasCrs : Bool
  bounds : Option (List Rat)
  invert : Bool
  trim : Bool
  envelope : Bool

/-- `clipping.py:55-64` the mask for one cell, from the null mask of the feature raster. -/
def clipMask (features : Raster) (invert envelope : Bool) (c : Cell) : Bool :=
  if !envelope then (if invert then features.mask (0, c.2) else !features.mask (0, c.2))
  else !invert

/-- `clipping.py:53-78`: burn the features and combine the masks. -/
def apply (np : NumPy) (ext : Ext G) (t : Table G) (r : Raster) (like : Like G) (invert envelope : Bool) :
    Except Err Raster :=
  match rasterizeMask np ext { t with spatial := none } like false none false false with
  | .error e => .error e
  | .ok (features, _) =>
    let nv := if r.masked then r.nv.getD (defaultNull r.dtype) else defaultNull r.dtype
    .ok ⟨r.dtype, r.nb, r.ny, r.nx,
      fun c => if clipMask features invert envelope c then r.data c else nv.val,
      fun c => if r.masked then !clipMask features invert envelope c || r.mask c else !clipMask features invert envelope c,
      some nv⟩

/-- `clipping.py:19-78` `_clip`.  `to_crs` drops spatial partitions and gives the features the CRS of the raster. -/
def clipWith (np : NumPy) (ext : Ext G) (p : Place G) (t : Table G) (r : Raster) (a : Args) : Except Err Raster :=
  if !a.hasCrs then .error .value
  else if a.bounds.any (fun b => b.length ≠ 4) then .error .value
  else if a.envelope && a.invert then .error .value
  else if a.trim then
    match p.window (a.bounds.getD p.featureBounds) with
    | none => .error .runtime
    | some w => apply np ext t (cutOut r w) (p.like w) a.invert a.envelope
  else apply np ext t r p.whole a.invert a.envelope

/-- `clipping.py:81-108` `clip`. -/
def clip (np : NumPy) (ext : Ext G) (p : Place G) (t : Table G) (r : Raster) (hasCrs : Bool) (bounds : Option (List Rat)) :
    Except Err Raster := clipWith np ext p t r ⟨hasCrs, bounds, false, true, false⟩

/-- `clipping.py:111-140` `erase`. -/
def erase (np : NumPy) (ext : Ext G) (p : Place G) (t : Table G) (r : Raster) (hasCrs : Bool) (bounds : Option (List Rat)) :
    Except Err Raster := clipWith np ext p t r ⟨hasCrs, bounds, true, true, false⟩

/-- `clipping.py:143-173` `mask`. -/
def mask (np : NumPy) (ext : Ext G) (p : Place G) (t : Table G) (r : Raster) (hasCrs : Bool) (invert : Bool) :
    Except Err Raster := clipWith np ext p t r ⟨hasCrs, none, invert, false, false⟩

/-- `clipping.py:176-202` `envelope`. -/
def envelope (np : NumPy) (ext : Ext G) (p : Place G) (t : Table G) (r : Raster) (hasCrs : Bool) :
    Except Err Raster := clipWith np ext p t r ⟨hasCrs, none, false, true, true⟩

end Verif.Clip
