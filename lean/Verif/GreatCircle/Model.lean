import Mathlib.Analysis.SpecialFunctions.Trigonometric.Inverse
import Verif.Proximity.Props
import Verif.Nulls.RasterModel

/-!
# Model of the great circle metric (`distance/proximity.py:62-81`, `508-537`, `568-582`)

The distance between points given by longitude and latitude, the check of the coordinates, the estimate of the resolution in meters, and
the overlap of chunks it leads to.  Simplifications: coordinates and distances are real numbers instead of floats, so `np.radians`, `np.sin`,
`np.cos`, `np.arcsin` and `np.sqrt` are exact.  Coordinates are functions of the index with their number beside them.
-/

namespace Verif.GreatCircle

open Verif Verif.Proximity
open Verif.Nulls (Err)

/-- `np.radians`. -/
noncomputable def radians (x : ℝ) : ℝ := x * (Real.pi / 180)

/-- `proximity.py:79`: mean radius of the Earth in meters. -/
noncomputable def earth : ℝ := 6371009

/-- `proximity.py:73-77`: `h`, with the angles in radians. -/
noncomputable def hav (x1 y1 x2 y2 : ℝ) : ℝ :=
  Real.sin ((y2 - y1) / 2) * Real.sin ((y2 - y1) / 2) +
    Real.cos y1 * Real.cos y2 * Real.sin ((x2 - x1) / 2) * Real.sin ((x2 - x1) / 2)

/-- `proximity.py:69-81` `_haversine_dist_sqr`: longitude and latitude of two points, in degrees. -/
noncomputable def haversineSqr (x1 y1 x2 y2 : ℝ) : ℝ :=
  2 * earth * Real.arcsin (Real.sqrt (hav (radians x1) (radians y1) (radians x2) (radians y2))) *
    (2 * earth * Real.arcsin (Real.sqrt (hav (radians x1) (radians y1) (radians x2) (radians y2))))

/-- `np.any` over coordinates. -/
def anyOf (n : Nat) (c : Nat → ℝ) (p : ℝ → Prop) : Prop := ∃ i < n, p (c i)

open Classical in
/-- `proximity.py:508-523` `_validate_lonlat_coords`. -/
noncomputable def validate (nx ny : Nat) (lon lat : Nat → ℝ) : Except Err Unit :=
  if anyOf ny lat (fun v => v < -90 ∨ 90 < v) then .error .value
  else if anyOf nx lon (fun v => 360 < v) ∨ anyOf nx lon (fun v => v < -180) then .error .value
  else if anyOf nx lon (fun v => 180 < v) ∧ anyOf nx lon (fun v => v < 0) then .error .value
  else .ok ()

/-- `lat.max()` of `n + 1` values. -/
noncomputable def largest (lat : Nat → ℝ) : Nat → ℝ
  | 0 => lat 0
  | n + 1 => max (largest lat n) (lat (n + 1))

/-- A further value beside the two largest ones so far. -/
noncomputable def among (v : ℝ) (p : ℝ × ℝ) : ℝ × ℝ :=
  if p.2 ≤ v then (p.2, v) else if p.1 ≤ v then (v, p.2) else p

/-- `np.partition(lat, -2)[-2:]` of `n + 2` values: the second largest and the largest. -/
noncomputable def twoLargest (lat : Nat → ℝ) : Nat → ℝ × ℝ
  | 0 => (min (lat 0) (lat 1), max (lat 0) (lat 1))
  | n + 1 => among (lat (n + 2)) (twoLargest lat n)

/-- `proximity.py:526-537` `_estimate_min_resolution`: in x and in y.  Without a second column `lon[1]` is an `IndexError`, without a second row
`np.partition` raises a `ValueError`. -/
noncomputable def minResolution (nx ny : Nat) (lon lat : Nat → ℝ) : Except Err (ℝ × ℝ) :=
  if nx < 2 then .error .index
  else if ny < 2 then .error .value
  else .ok
    (Real.sqrt (haversineSqr (lon 0) (largest lat (ny - 1)) (lon 1) (largest lat (ny - 1))),
     Real.sqrt (haversineSqr (lon 0) (twoLargest lat (ny - 2)).1 (lon 0) (twoLargest lat (ny - 2)).2))

/-- `np.ceil(max_distance / np.abs(resolution))`, `proximity.py:582`. -/
noncomputable def depthOf (m res : ℝ) : Nat := ⌈m / |res|⌉.toNat

open Classical in
/-- `proximity.py:566-582`: the overlap in y and x for a finite `max_distance`; none if the raster becomes a single chunk. -/
noncomputable def overlap (nx ny : Nat) (lon lat : Nat → ℝ) (m : ℝ) : Except Err (Option (Nat × Nat)) :=
  match validate nx ny lon lat with
  | .error e => .error e
  | .ok _ =>
    if Real.sqrt (haversineSqr (lon 0) (lat 0) (lon (nx - 1)) (lat (ny - 1))) ≤ m then .ok none
    else match minResolution nx ny lon lat with
      | .error e => .error e
      | .ok res => .ok (some (depthOf m res.2, depthOf m res.1))

/-- The arguments of the sweep for a band with the great circle metric: the values, the target values and what is reported are arbitrary. -/
noncomputable def env {S : Type} (nx ny : Nat) (lon lat : Nat → ℝ) (src : Nat → Nat → FVal ℝ) (targets : List ℝ) (m : ℝ)
    (report : Cell → Cell → S) : Env ℝ S where
  ny := ny
  nx := nx
  src := src
  targets := targets
  xc := lon
  yc := lat
  maxDist := (m : WithTop ℝ)
  distSqr := haversineSqr
  report := report

end Verif.GreatCircle
