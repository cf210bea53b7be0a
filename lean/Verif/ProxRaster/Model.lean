import Verif.Proximity.Props
import Verif.Focal.Model
import Verif.Nulls.RasterModel

/-!
# Model of `_proximity_analysis` (`distance/proximity.py`) on rasters

The sweep over an array and what a chunk sees are the existing models; here are the checks of the arguments, the replacement of null cells,
the choice of the overlap, and the making of the raster.  Simplifications: coordinates and distances are exact numbers, the comparison with
the length of the diagonal is one of squares; the square root, the direction, the great circle distance and the estimate of the resolution
for it are parameters; dask may have changed the chunks, so any chunks are allowed here.
-/

namespace Verif.ProxRaster

open Verif Verif.Nulls Verif.Proximity Verif.Focal DType

/-- `raster.py:3208-3214`: `get_raster` with `null_to_nan`. -/
def nullToNan (np : NumPy) (r : Raster) : Raster :=
  match r.nv with
  | none => r
  | some _ =>
    let dt := promoteToFloat r.dtype
    { r with
      dtype := dt
      data := fun c => if r.mask c then .nan else convert np r.dtype dt (r.data c) }

/-- `proximity.py:598-602`. -/
def prepare (np : NumPy) (r : Raster) : Except Err Raster :=
  let q := nullToNan np r
  if q.dtype = f16 then q.astype np f32 none else .ok q

inductive Mode where
  | proximity | allocation | direction
deriving DecidableEq, Repr

inductive Metric where
  | euclidean | taxi | chebyshev | greatCircle
deriving DecidableEq, Repr

/-- `proximity.py:84-100`: the metric of a name; `none` is python's `None`. -/
def metricOf : Option String → Option Metric
  | none => some .euclidean
  | some "euclidean" => some .euclidean
  | some "taxi" => some .taxi
  | some "taxicab" => some .taxi
  | some "manhatten" => some .taxi
  | some "city_block" => some .taxi
  | some "chebyshev" => some .chebyshev
  | some "chessboard" => some .chebyshev
  | some "haversine" => some .greatCircle
  | some "great_circle" => some .greatCircle
  | some _ => none

/-- Functions that are not modelled: square root, the angle of a vector clockwise from north in [0, 360), great circle distance (squared) and the resolution estimated for it. -/
structure Maths where
  sqrt : Rat → Rat
  angle : Rat → Rat → Rat
  haversine : Rat → Rat → Rat → Rat → Rat
  minResolution : (Nat → Rat) → (Nat → Rat) → Rat × Rat

/-- `proximity.py:109-138` `_direction` from the cell at (x1, y1) to the target at (x2, y2). -/
def direction (M : Maths) (x1 y1 x2 y2 : Rat) : Rat :=
  if x1 = x2 ∧ y1 = y2 then 0
  else if M.angle (x2 - x1) (y2 - y1) = 0 then 360
  else M.angle (x2 - x1) (y2 - y1)

def Metric.sqr (M : Maths) : Metric → Rat → Rat → Rat → Rat → Rat
  | .euclidean => euclideanSqr
  | .taxi => taxiSqr
  | .chebyshev => chebyshevSqr
  | .greatCircle => M.haversine

/-- A raster with its coordinates and resolution. -/
structure Placed where
  raster : Raster
  x : Nat → Rat
  y : Nat → Rat
  resolution : Rat × Rat

/-- `proximity.py:508-523` `_validate_lonlat_coords`. -/
def badLonLat (p : Placed) : Bool :=
  (List.range p.raster.ny).any (fun i => decide (p.y i < -90 ∨ 90 < p.y i)) ||
  (List.range p.raster.nx).any (fun j => decide (360 < p.x j ∨ p.x j < -180)) ||
  ((List.range p.raster.nx).any (fun j => decide (180 < p.x j)) && (List.range p.raster.nx).any (fun j => decide (p.x j < 0)))

/-- `proximity.py:568`: does the distance reach from corner to corner? -/
def reaches (sqr : Rat → Rat → Rat → Rat → Rat) (p : Placed) : WithTop Rat → Bool
  | none => true
  | some m => decide (sqr (p.x 0) (p.y 0) (p.x (p.raster.nx - 1)) (p.y (p.raster.ny - 1)) ≤ m * m)

/-- `np.ceil(max_distance / np.abs(resolution))`. -/
def depthOf (m res : Rat) : Nat := (m / |res|).ceil.toNat

/-- `proximity.py:570-587`: the overlap in y and x; `none` if the raster is one chunk. -/
def depths (M : Maths) (metric : Metric) (p : Placed) (maxDist : WithTop Rat) : Option (Nat × Nat) :=
  if reaches (metric.sqr M) p maxDist then none
  else match maxDist with
    | none => none
    | some m =>
      let res := if metric = .greatCircle then M.minResolution p.x p.y else p.resolution
      some (depthOf m res.2, depthOf m res.1)

/-- The dtype of the result, `proximity.py:592-595`. -/
def outDtype (mode : Mode) (double : Bool) (dt : DType) : DType :=
  if mode = .allocation then dt else if double then f64 else f32

/-- The arguments of `_compute_proximity` for a band. -/
def env (np : NumPy) (M : Maths) (metric : Metric) (mode : Mode) (dt : DType) (p : Placed) (q : Raster) (targets : List Rat)
    (maxDist : WithTop Rat) (b : Nat) : Env Rat Num where
  ny := p.raster.ny
  nx := p.raster.nx
  src := fun i j => q.data (b, i, j)
  targets := targets
  xc := p.x
  yc := p.y
  maxDist := maxDist
  distSqr := metric.sqr M
  report := fun c t =>
    if mode = .allocation then np.cast dt (q.data (b, t)) else np.cast dt (.fin (direction M (p.x c.2) (p.y c.1) (p.x t.2) (p.y t.1)))

/-- A cell of the array computed for a chunk or the raster, from the squared distance and the secondary output. -/
def pick (np : NumPy) (M : Maths) (dt : DType) (prox : Option Rat) (sec : Option Num) : Mode → Num
  | .proximity => match prox with
    | none => (defaultNull dt).val
    | some d => np.cast dt (.fin (M.sqrt d))
  | _ => sec.getD (defaultNull dt).val

def pickCell (np : NumPy) (M : Maths) (mode : Mode) (dt : DType) (st : St Rat Num) (i j : Nat) : Num :=
  pick np M dt (st.prox i j) (st.sec i j) mode

/-- `proximity.py:604-621`: a cell of the result.  Around the raster is NaN, converted to the dtype of the data. -/
def cellValue (np : NumPy) (M : Maths) (mode : Mode) (dt : DType) (E : Env Rat Num) (pad : Num) (ychunks xchunks : List Nat) (i j : Nat) :
    Option (Nat × Nat) → Num
  | none => pickCell np M mode dt (compute E) i j
  | some (dy, dx) => match chunkOf ychunks 0 i, chunkOf xchunks 0 j with
    | some (r0, h), some (c0, w) =>
      pickCell np M mode dt (compute (chunkEnv E r0 c0 h w dy dx pad)) (dy + (i - r0)) (dx + (j - c0))
    | _, _ => (defaultNull dt).val

/-- dask refuses an overlap that is larger than the array. -/
def tooDeep (r : Raster) : Option (Nat × Nat) → Bool
  | none => false
  | some (dy, dx) => decide (r.ny < dy ∨ r.nx < dx)

/-- The finite numbers of a list, if all are finite. -/
def finite : List Num → Option (List Rat)
  | [] => some []
  | .fin q :: l => match finite l with
    | some qs => some (q :: qs)
    | none => none
  | _ :: _ => none

/-- `max_distance <= 0`. -/
def notPositive : WithTop Rat → Bool
  | none => false
  | some m => decide (m ≤ 0)

/-- `proximity.py:588-622`. -/
def run (np : NumPy) (M : Maths) (p : Placed) (mode : Mode) (targets : List Rat) (metric : Metric) (maxDist : WithTop Rat) (double : Bool)
    (ychunks xchunks : List Nat) : Except Err Raster :=
  let r := p.raster
  let depth := depths M metric p maxDist
  let dt := outDtype mode double r.dtype
  match prepare np r with
  | .error e => .error e
  | .ok q =>
    if tooDeep r depth then .error .value
    else .ok (ofData dt r.nb r.ny r.nx (fun c => cellValue np M mode dt (env np M metric mode dt p q targets maxDist c.1)
      (np.cast q.dtype .nan) ychunks xchunks c.2.1 c.2.2 depth) none (some (defaultNull dt)) false)

/-- `proximity.py:540-622` `_proximity_analysis`. -/
def analysis (np : NumPy) (M : Maths) (p : Placed) (mode : Mode) (targets : List Num) (metric : Option String) (maxDist : WithTop Rat)
    (double : Bool) (ychunks xchunks : List Nat) : Except Err Raster :=
  match metricOf metric with
  | none => .error .value
  | some m => match finite targets with
    | none => .error .value
    | some ts =>
      if notPositive maxDist then .error .value
      else if decide (m = .greatCircle) && badLonLat p then .error .value
      else run np M p mode ts m maxDist double ychunks xchunks

end Verif.ProxRaster
