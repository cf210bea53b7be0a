import Verif.Build.Model

/-!
# Model of `reproject` (`warp.py`)

A grid is its CRS and the coordinates of the centers of its rows and columns; odc-geo's `to_crs` and `zoom_to` are parameters,
and so is the resampling of GDAL: which value a pixel of the destination gets, if any, from the values of the source that are
not nodata.  GDAL does not write the nodata value of the destination for a value: it writes another one, also a parameter
(which may be nodata all the same).  Boolean rasters, chunks and attributes are left out.
-/

namespace Verif.Warp

open Verif Verif.Nulls DType

/-- A geobox. -/
structure Frame (K : Type) where
  crs : K
  ys : List Rat
  xs : List Rat
deriving DecidableEq

/-- The argument `crs_or_geobox`. -/
inductive Target (K : Type) where
  | absent
  | crs (k : K)
  | geobox (f : Frame K)

/-- The argument `resolution`: a number or a tuple. -/
inductive Res where
  | absent
  | number (q : Rat)
  | pair (x y : Rat)

/-- odc-geo and GDAL. -/
structure Engine (K : Type) where
  methods : List String
  toCrs : Frame K → K → Frame K
  zoomTo : Frame K → Rat → Frame K
  /-- method, source grid, destination grid, values of a band that are not nodata, row and column of the destination -/
  resample : String → Frame K → Frame K → (Nat → Nat → Option Num) → Nat → Nat → Option Num
  /-- what is written for a value that is the nodata value -/
  instead : DType → Num → Num

/-- A raster on its grid. -/
structure Placed (K : Type) where
  frame : Frame K
  raster : Raster

variable {K : Type} [DecidableEq K]

/-- `warp.py:84-92` the destination without regard to the resolution. -/
def base (e : Engine K) (src : Frame K) : Target K → Res → Except Err (Frame K)
  | .absent, .absent => .error .value
  | .absent, _ => .ok src
  | .crs k, _ => .ok (e.toCrs src k)
  | .geobox f, _ => .ok f

/-- `warp.py:93-96` the resolution; comparing a tuple with 0 raises a TypeError. -/
def zoom (e : Engine K) (f : Frame K) : Res → Except Err (Frame K)
  | .absent => .ok f
  | .number q => if q ≤ 0 then .error .value else .ok (e.zoomTo f q)
  | .pair _ _ => .error .type

/-- `warp.py:84-96` the destination. -/
def destination (e : Engine K) (src : Frame K) (t : Target K) (res : Res) : Except Err (Frame K) :=
  match base e src t res with
  | .error x => .error x
  | .ok f => zoom e f res

/-- `warp.py:100-104` the nodata value of the destination. -/
def nodata (r : Raster) : Scalar := r.nv.getD (defaultNull r.dtype)

/-- The values of a band that GDAL sees: those that are not the nodata value of the source, if it has one. -/
def seen (r : Raster) (k y x : Nat) : Option Num :=
  if maskOf (r.nv.map (·.val)) (r.data (k, y, x)) then none else some (r.data (k, y, x))

/-- `warp.py:105-107` `odc.reproject` at a pixel. -/
def warped (e : Engine K) (method : String) (src dst : Frame K) (r : Raster) (k i j : Nat) : Num :=
  match e.resample method src dst (seen r k) i j with
  | none => (nodata r).val
  | some v => if maskOf (some (nodata r).val) v then e.instead r.dtype v else v

/-- `warp.py:14-119` `reproject`; `dataarray_to_xr_raster_ds` (`raster.py:1096-1104`) orients the rows and columns and takes
the mask from the data. -/
def reproject (e : Engine K) (p : Placed K) (t : Target K) (method : String) (res : Res) : Except Err (Placed K) :=
  if method ∉ e.methods then .error .value
  else match destination e p.frame t res with
    | .error x => .error x
    | .ok dst =>
      if dst = p.frame then .ok p
      else
        let n := Build.orient p.raster.nb dst.ys dst.xs (warped e method p.frame dst p.raster)
        .ok ⟨⟨dst.crs, n.ys, n.xs⟩,
          ofData p.raster.dtype n.nb n.ys.length n.xs.length n.data none (some (nodata p.raster)) false⟩

end Verif.Warp
