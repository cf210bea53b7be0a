import Verif.Nulls.RasterModel
import Verif.Stats.Model

/-!
# Model of the counting statistics of `zonal.py`

The cells of a chunk are a partition of a dask dataframe.  `grouped.agg` with `dd.Aggregation` computes `chunk` for the
groups of each partition, combines the results of several partitions with `agg`, possibly in several rounds (a tree of
which the shape is up to dask), and passes the last one to `finalize`.  The statistics that dask implements itself
(count, max, mean, …) are not repeated here.  Values are exact, counts unbounded.
-/

namespace Verif.Zonal

open Verif Verif.Nulls DType

/-- Values with their counts. -/
abbrev Pairs := List (Num × Nat)

/-- Add `n` to the count of `v` in a list ordered by value, NaN last. -/
def insertCount (v : Num) (n : Nat) : Pairs → Pairs
  | [] => [(v, n)]
  | (w, m) :: l =>
    if w.eq v || (w.isnan && v.isnan) then (w, m + n) :: l
    else if Stats.lt v w || w.isnan then (v, n) :: (w, m) :: l
    else (w, m) :: insertCount v n l

/-- `zonal.py:49-50`, `110`, `116` the `chunk` step: `np.unique(s, return_counts=True)`. -/
def uniqueCounts (s : List Num) : Pairs := s.foldl (fun p v => insertCount v 1 p) []

/-- `zonal.py:53-69` `_combine_values_and_counts`: `explode` puts the pairs of all rows below each other (a NaN for an
empty list), `groupby` drops NaN and orders by value. -/
def combineCounts (s : List Pairs) : Pairs :=
  (s.flatten.filter fun e => !e.1.isnan).foldl (fun p e => insertCount e.1 e.2 p) []

/-- Ascending order with NaN at the end, as in `sort_values`. -/
def leNum : Num → Num → Bool
  | _, .nan => true
  | .nan, _ => false
  | .negInf, _ => true
  | _, .posInf => true
  | .fin a, .fin b => decide (a ≤ b)
  | _, _ => false

/-- Counts descending, values ascending, `zonal.py:79-81`. -/
def modeOrder (a b : Num × Nat) : Bool := decide (b.2 < a.2) || (a.2 == b.2 && leNum a.1 b.1)

/-- `zonal.py:72-86` `_mode_fin` for one zone. -/
def modeFin (p : Pairs) : Num :=
  match p.mergeSort modeOrder with
  | [] => .nan
  | e :: _ => e.1

variable {K : Type} [Field K]

/-- `zonal.py:21-32` `_entropy`; `none` is NaN. -/
def entropyFin (log : K → K) (p : Pairs) : Option K :=
  let counts := p.map (·.2)
  if counts.length = 0 then none
  else
    let frac : K := 1 / (counts.sum : Nat)
    some (counts.foldl (fun entropy (cnt : Nat) => entropy - (cnt * frac) * log (cnt * frac)) 0)

/-- `zonal.py:35-46` `_asm`; `none` is NaN. -/
def asmFin (p : Pairs) : Option K :=
  let counts := p.map (·.2)
  if counts.length = 0 then none
  else
    let frac : K := 1 / (counts.sum : Nat)
    some (counts.foldl (fun asm (cnt : Nat) => asm + (cnt * frac) * (cnt * frac)) 0)

/-- `zonal.py:128` the `chunk` step of `nunique`: `list(set(x.dropna()))`. -/
def uniqueList (s : List Num) : List Num :=
  s.foldl (fun acc v => if !v.isnan then Stats.setAdd acc v else acc) []

/-- `zonal.py:129-131` the `agg` step of `nunique`: the sum of lists. -/
def concatLists (s : List (List Num)) : List Num := s.flatten

/-- `zonal.py:132` the `finalize` step of `nunique`: `len(set(final))`. -/
def nuniqueFin (l : List Num) : Nat := (l.foldl Stats.setAdd []).length

/-! ### Grouping and reduction -/

/-- A row of the dataframe for one band. -/
structure Row where
  zone : Num
  value : Num

/-- The values of a group. -/
def groupOf (z : Num) (rows : List Row) : List Num := (rows.filter fun e => e.zone.eq z).map (·.value)

/-- The `chunk` step for zone `z`: no entry if the zone does not occur in the partition. -/
def chunkStep {σ : Type} (chunk : List Num → σ) (z : Num) (rows : List Row) : Option σ :=
  match groupOf z rows with
  | [] => none
  | v :: l => some (chunk (v :: l))

/-- The `agg` step for zone `z`. -/
def aggStep {σ : Type} (agg : List σ → σ) (s : List (Option σ)) : Option σ :=
  match s.filterMap id with
  | [] => none
  | e :: l => some (agg (e :: l))

/-- The reductions that dask may choose: partitions, and combinations of the results of several. -/
inductive Reduces {σ : Type} (chunk : List Num → σ) (agg : List σ → σ) (z : Num) : List Row → Option σ → Prop
  | leaf (rows : List Row) : Reduces chunk agg z rows (chunkStep chunk z rows)
  | node (l : List (List Row × Option σ)) (h : ∀ e ∈ l, Reduces chunk agg z e.1 e.2) :
      Reduces chunk agg z (l.map (·.1)).flatten (aggStep agg (l.map (·.2)))

/-- `grouped.agg` for zone `z`: some reduction whose last step is `agg`, then `finalize`. -/
def Aggregates {σ τ : Type} (chunk : List Num → σ) (agg : List σ → σ) (fin : σ → τ) (z : Num) (rows : List Row)
    (out : Option τ) : Prop :=
  ∃ l : List (List Row × Option σ), (∀ e ∈ l, Reduces chunk agg z e.1 e.2) ∧ rows = (l.map (·.1)).flatten ∧
    out = (aggStep agg (l.map (·.2))).map fin

/-! ### Dataframe -/

/-- `zonal.py:240-252` the value of a cell: null values become NaN, then float64. -/
def bandValue (np : NumPy) (data : Raster) (c : Cell) : Num :=
  let v := match data.nv with
    | none => data.data c
    | some s => if s.val.isnan then data.data c else if (data.data c).eq s.val then .nan else data.data c
  if data.dtype = f64 then v else np.cast f64 v

/-- `zonal.py:259-261`: the cell belongs to a feature. -/
def hasZone (features : Raster) (y x : Nat) : Bool :=
  match features.nv with
  | none => true
  | some s => !(features.data (0, y, x)).eq s.val

/-- The rows of band `b` for the cells of a chunk. -/
def rowsOf (np : NumPy) (features data : Raster) (b : Nat) (cells : List (Nat × Nat)) : List Row :=
  (cells.filter fun p => hasZone features p.1 p.2).map fun p =>
    ⟨features.data (0, p.1, p.2), bandValue np data (b, p.1, p.2)⟩

/-- `zonal.py:408-445`, `459-463`, `486-495`: the checks for a feature raster and the list of statistics
(`none`: neither a string nor a sequence; `crsEqual`: the coordinate systems are the same). -/
def checkArgs (features data : Raster) (crsEqual : Bool) (stats : Option (List String)) (funcs : List String)
    (handleOverlap : Bool) : Except Err Unit :=
  if !features.dtype.isInt then .error .type
  else if features.nb > 1 then .error .value
  else match stats with
  | none => .error .value
  | some l =>
    if l.isEmpty then .error .value
    else if !l.all (funcs.contains ·) then .error .value
    else if handleOverlap then .error .value
    else if !crsEqual then .error .value
    else if (features.ny, features.nx) ≠ (data.ny, data.nx) then .error .value
    else .ok ()

end Verif.Zonal
