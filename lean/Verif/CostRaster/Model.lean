import Verif.CostDistance.Model
import Verif.Nulls.RasterModel

/-!
# Model of `cost_distance_analysis` (`distance/cost_distance.py`) on rasters

The search itself is the model of `cost_distance_analysis_numpy`; here are the checks of the arguments, the replacement of null cells,
and the making of the three rasters.  Simplifications: costs and distances are exact numbers; an elevation that is NaN or infinite in a
valid cell is taken as 0; the checks that rioxarray makes of a null value are left out.
-/

namespace Verif.CostRaster

open Verif Verif.Nulls DType

/-- What `np.where(mask, missing, data)` puts where the mask is true, for a python integer and data of a dtype.  A float dtype rounds
the integer.  If an integer dtype cannot hold it, an old NumPy takes a larger dtype and a new one raises an `OverflowError`
(some versions between the two let the integer wrap around). -/
def fill (np : NumPy) (dt : DType) (missing : Int) : Option Num :=
  if dt.isFloat then some (np.cast dt (.fin missing))
  else if dt.isBool then some (.fin missing)
  else match dt.limits with
    | some (lo, hi) => if lo ≤ missing ∧ missing ≤ hi ∨ np.valueBased = true then some (.fin missing) else none
    | none => none

/-- `np.where` with the result of `fill`. -/
def replace (np : NumPy) (r : Raster) (missing : Int) (p : Cell → Bool) : Except Err (Cell → Num) :=
  match fill np r.dtype missing with
  | none => .error .runtime
  | some v => .ok fun c => if p c then v else r.data c

/-- `cost_distance.py:446-460` `_normalize_raster_data`, before the band dimension is taken away. -/
def normalize (np : NumPy) (r : Raster) (missing : Int) : Except Err (Cell → Num) :=
  match r.nv with
  | none => .ok r.data
  | some s =>
    if r.dtype.isFloat then
      if s.val.isnan then replace np r missing fun c => (r.data c).isnan
      else replace np r missing r.mask
    else replace np r missing r.mask

/-- The argument `sources`: a raster, or the rows of an array of integers. -/
inductive Sources where
  | raster (r : Raster)
  | indices (l : List (List Int))

/-- The integer that a number is. -/
def toInt : Num → Int
  | .fin q => q.num
  | _ => 0

/-- The number that is not NaN or infinite. -/
def toRat : Num → Rat
  | .fin q => q
  | _ => 0

/-- `cost_distance.py:593-610`: the places of the sources given by their indices; the number of each is its place in the list. -/
def placeOf (l : List (List Int)) (y x : Nat) : Int :=
  match l.findIdx? (· == [(y : Int), (x : Int)]) with
  | some k => k
  | none => -1

/-- `cost_distance.py:595-604`. -/
def outside (ny nx : Nat) : List Int → Bool
  | [y, x] => decide (y < 0 ∨ (ny : Int) ≤ y ∨ x < 0 ∨ (nx : Int) ≤ x)
  | _ => true

/-- The array of sources, their null value as a python or NumPy number and as a number. -/
structure Places where
  at' : Nat → Nat → Int
  null : Int
  nv : Scalar

/-- `cost_distance.py:566-612`. -/
def places (np : NumPy) (costs : Raster) : Sources → Except Err Places
  | .raster r =>
    if (r.nb, r.ny, r.nx) ≠ (costs.nb, costs.ny, costs.nx) then .error .value
    else if r.dtype.isInt = false then .error .type
    else match r.nv with
      | none => .error .value
      | some s => .ok ⟨fun y x => toInt (np.cast i64 (r.data (0, y, x))), toInt s.val, s⟩
  | .indices l =>
    if l = [] ∨ l.any (fun p => p.length ≠ 2) then .error .value
    else if ¬ l.Nodup then .error .value
    else if l.any (outside costs.ny costs.nx) then .error .value
    else .ok ⟨placeOf l, -1, ⟨i64, .fin (-1)⟩⟩

/-- The three results. -/
structure Result where
  distance : Raster
  traceback : Raster
  allocation : Raster

/-- `cost_distance.py:645-649`: the null value of the distances. -/
def distanceNull (costs : Raster) : Scalar :=
  match costs.nv with
  | some s => s
  | none => defaultNull f64

/-- `cost_distance.py:650`: the cell is null. -/
def nullCell (costs : Raster) (o : CostDistance.Output Rat) (c : Cell) : Bool :=
  costs.mask c || decide (o.dist c.2.1 c.2.2 = ⊤)

/-- A finite distance. -/
def number : WithTop Rat → Num
  | some q => .fin q
  | none => .posInf

/-- `cost_distance.py:650-679`: the rasters made of the arrays. -/
def assemble (np : NumPy) (costs : Raster) (p : Places) (o : CostDistance.Output Rat) : Result :=
  let mask := nullCell costs o
  let nv := distanceNull costs
  { distance := ⟨f64, costs.nb, costs.ny, costs.nx, fun c => if mask c then nv.val else number (o.dist c.2.1 c.2.2), mask, some nv⟩
    traceback := ⟨i8, costs.nb, costs.ny, costs.nx,
      fun c => .fin ((if mask c then -2 else o.tb c.2.1 c.2.2) + 1 : Int), mask, some ⟨i8, .fin (-2 + 1)⟩⟩
    allocation := ⟨i64, costs.nb, costs.ny, costs.nx,
      fun c => np.cast i64 (if mask c then p.nv.val else .fin (o.alloc c.2.1 c.2.2 : Int)), mask, some p.nv⟩ }

/-- `cost_distance.py:614-633`: the arguments of `cost_distance_analysis_numpy`; the resolution is that of x and then y. -/
def input (costs : Raster) (data : Cell → Num) (p : Places) (elevation : Option (Cell → Num)) (resolution : Rat × Rat)
    (connectivity : Int) : CostDistance.Input Rat :=
  { rows := costs.ny
    cols := costs.nx
    cost := fun y x => data (0, y, x)
    source := p.at'
    sourcesNull := p.null
    elev := elevation.map fun e y x => toRat (e (0, y, x))
    elevNull := if elevation.isSome then -9999 else 0
    scaleRow := |resolution.2|
    scaleCol := |resolution.1|
    connectivity := connectivity }

/-- `cost_distance.py:614-620`. -/
def heights (np : NumPy) : Option Raster → Except Err (Option (Cell → Num))
  | none => .ok none
  | some e => match normalize np e (-9999) with
    | .error err => .error err
    | .ok d => .ok (some d)

/-- `cost_distance.py:556-564`. -/
def wrongElevation (costs : Raster) : Option Raster → Bool
  | none => false
  | some e => decide (e.nb ≠ 1 ∨ (costs.nb, costs.ny, costs.nx) ≠ (e.nb, e.ny, e.nx))

/-- `cost_distance.py:625-680`. -/
def run (np : NumPy) (sqrt : Rat → Rat) (costs : Raster) (p : Places) (i : CostDistance.Input Rat) : Except Err Result :=
  match CostDistance.costDistance sqrt i with
  | .error _ => .error .value
  | .ok none => .error .index
  | .ok (some o) => .ok (assemble np costs p o)

/-- `cost_distance.py:468-680` `cost_distance_analysis`. -/
def analysis (np : NumPy) (sqrt : Rat → Rat) (costs : Raster) (resolution : Rat × Rat) (sources : Sources)
    (elevation : Option Raster) (connectivity : Int) : Except Err Result :=
  if costs.nb ≠ 1 then .error .value
  else if wrongElevation costs elevation then .error .value
  else match places np costs sources with
    | .error e => .error e
    | .ok p => match normalize np costs (-1) with
      | .error e => .error e
      | .ok data => match heights np elevation with
        | .error e => .error e
        | .ok e => run np sqrt costs p (input costs data p e resolution connectivity)

end Verif.CostRaster
