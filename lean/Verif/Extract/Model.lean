import Verif.Grid.Model
import Verif.Nulls.RasterModel

/-!
# Model of `zonal.py:531-625` `extract_points_eager`

The points are given in the CRS of the raster (`zonal.py:596-599` transforms them otherwise).  Coordinates are elements of an
ordered field, not floats, and not NaN; there is at least one point.  dask's and pandas' parts are modelled by their documented
meaning: assignment by a boolean index, `vindex`, `concat`.  `toF64` is the conversion of an element of the raster to a double.
-/

namespace Verif.Extract

open Verif Verif.Grid Verif.Nulls

variable {K : Type} [Field K] [LinearOrder K] [IsStrictOrderedRing K] [FloorRing K] {V : Type}

/-- `a[mask]`. -/
def select : List Bool → List V → List V
  | true :: ms, x :: xs => x :: select ms xs
  | false :: ms, _ :: xs => select ms xs
  | _, _ => []

/-- `a[mask] = values`: the marked places take the values in order. -/
def assign : List Bool → List V → List V → List V
  | true :: ms, _ :: xs, v :: vs => v :: assign ms xs vs
  | false :: ms, x :: xs, vs => x :: assign ms xs vs
  | _, xs, _ => xs

/-- `zonal.py:603-604`. -/
def inside (r : Grid.Raster K Num) (rc : Int × Int) : Bool :=
  decide (0 ≤ rc.1) && decide (rc.1 < r.ny) && decide (0 ≤ rc.2) && decide (rc.2 < r.nx)

/-- `zonal.py:609-614` for one band, given the row and column of each point. -/
def extractBand (toF64 : Num → Num) (r : Grid.Raster K Num) (rcs : List (Int × Int)) (band : Nat) : List Num :=
  let valid := rcs.map (inside r)
  let at' := select valid rcs
  let extracted := assign valid (List.replicate rcs.length .nan)
    (at'.map fun rc => toF64 (r.data band rc.1.toNat rc.2.toNat))
  let exmask := assign valid (List.replicate rcs.length false)
    (at'.map fun rc => r.mask band rc.1.toNat rc.2.toNat)
  List.zipWith (fun x m => if m then .nan else x) extracted exmask

/-- A row of the result for `axis=0`. -/
structure Row where
  index : Nat
  band : Nat
  value : Num
deriving DecidableEq

/-- The result: rows, or named columns. -/
inductive Table where
  | long (rows : List Row)
  | wide (columns : List (String × List Num))
deriving DecidableEq

/-- A geometry: a point, or something else. -/
inductive Geom (K : Type) where
  | point (x y : K)
  | other

/-- `zonal.py:600-601`: `geometry.x`, which geopandas refuses for other geometries with a ValueError. -/
def coords : List (Geom K) → Except Err (List (K × K))
  | [] => .ok []
  | .other :: _ => .error .value
  | .point x y :: gs => match coords gs with
    | .error e => .error e
    | .ok l => .ok ((x, y) :: l)

def Geom.isPoint : Geom K → Bool
  | .point _ _ => true
  | .other => false

/-- `zonal.py:615-630`. -/
def assemble (toF64 : Num → Num) (r : Grid.Raster K Num) (name : String) (axis : Int) (rcs : List (Int × Int)) : Table :=
  let n := rcs.length
  if axis = 0 then
    .long ((List.range r.nb).flatMap fun i =>
      (extractBand toF64 r rcs i).mapIdx fun p v => ⟨n * i + p, i + 1, v⟩)
  else
    .wide ((List.range r.nb).map fun i => (name ++ "_" ++ toString (i + 1), extractBand toF64 r rcs i))

/-- `zonal.py:586-630`. -/
def extractPoints (toF64 : Num → Num) (r : Grid.Raster K Num) (points : List (Geom K)) (name : String)
    (skipValidation : Bool) (axis : Int) : Except Err Table :=
  if name = "" then .error .value
  else if !skipValidation && !(points.all Geom.isPoint) then .error .type
  else match coords points with
    | .error e => .error e
    | .ok ps => .ok (assemble toF64 r name axis (ps.map fun p => xyToRowcol p.1 p.2 r.affine))

end Verif.Extract
