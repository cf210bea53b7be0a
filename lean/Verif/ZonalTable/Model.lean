import Verif.Zonal.Model

/-!
# Model of the table of zonal statistics of `zonal.py`

`Verif.Zonal` has the statistics that the library combines itself.  Here a statistic is any function of the values of a
group (a parameter, by its name), and the model is about the table: which rows and columns there are, which cells the
values of a group come from, the long format, and overlapping features.  The table is a list of rows, the partitions of
the dask dataframes are left out where the code does not depend on them.
-/

namespace Verif.ZonalTable

open Verif Verif.Nulls DType Verif.Zonal

/-- A raster with the sizes of its chunks, its coordinate system and the position of its first cell. -/
structure Located where
  raster : Raster
  ychunks : List Nat
  xchunks : List Nat
  crs : Option Nat
  origin : Rat × Rat

/-- A row of the table in wide format: the columns have two labels, band and statistic. -/
structure Line (τ : Type) where
  zone : Num
  entries : List ((List Char × String) × τ)
deriving DecidableEq

/-- A row of the table in long format. -/
structure LongLine (τ : Type) where
  index : Nat
  zone : Num
  band : Nat
  stats : List (String × τ)
deriving DecidableEq

/-- The names of the statistics, `zonal.py:136-157`. -/
def statFuncs : List String :=
  ["count", "max", "mean", "median", "min", "prod", "size", "std", "sum", "var", "asm", "entropy", "mode", "nunique"]

/-- `zonal.py:241` the name of the column of a band. -/
def label (b : Nat) : List Char := "band_".toList ++ Nat.toDigits 10 b

/-- One step of the loop in `_find_problem_stats`. -/
def sortOut (acc : List String × Bool) (s : String) : List String × Bool :=
  if s ≠ "median" then (acc.1 ++ [s], acc.2) else (acc.1, true)

/-- `zonal.py:203-211` `_find_problem_stats`. -/
def findProblemStats (stats : List String) : List String × Bool := stats.foldl sortOut ([], false)

/-- `zonal.py:214-219` `_raster_to_series`: the cells in the order band, x, y. -/
def cells (ny nx : Nat) : List (Nat × Nat) := (List.range nx).flatMap fun x => (List.range ny).map fun y => (y, x)

/-- `zonal.py:239` the column `zone`. -/
def zoneSeries (features : Raster) : List Num :=
  (cells features.ny features.nx).map fun p => features.data (0, p.1, p.2)

/-- `zonal.py:240-253` the column of a band. -/
def bandSeries (np : NumPy) (data : Raster) (b : Nat) : List Num :=
  (cells data.ny data.nx).map fun p => bandValue np data (b, p.1, p.2)

/-- `zonal.py:259-262`: `zone != features_raster.null_value`. -/
def inFeature (nv : Option Scalar) (zone : Num) : Bool :=
  match nv with
  | none => true
  | some s => !zone.eq s.val

/-- `zonal.py:258-262` columns `zone` and one of the bands of the combined table, side by side, without the rows that
are not in a feature. -/
def combined (np : NumPy) (features data : Raster) (b : Nat) : List Row :=
  (List.zipWith Row.mk (zoneSeries features) (bandSeries np data b)).filter fun e => inFeature features.nv e.zone

/-- The keys of `groupby("zone")`: ascending, each once, without NaN. -/
def groupKeys (zones : List Num) : List Num := (combineCounts [zones.map fun z => (z, 1)]).map (·.1)

variable {τ : Type}

/-- The entries of one band of a row. -/
def bandEntries (st : String → List Num → τ) (names : List String) (b : Nat) (group : List Num) :
    List ((List Char × String) × τ) :=
  names.map fun s => ((label (b + 1), s), st s group)

/-- `zonal.py:263`, `274`, `276` `grouped.agg(names)`; `st` computes the statistics of the values of a group. -/
def agg (np : NumPy) (st : String → List Num → τ) (features data : Raster) (names : List String) : List (Line τ) :=
  (groupKeys ((zoneSeries features).filter fun z => inFeature features.nv z)).map fun z =>
    ⟨z, (List.range data.nb).flatMap fun b => bandEntries st names b (groupOf z (combined np features data b))⟩

/-- The entries of a zone in a table. -/
def entriesOf (t : List (Line τ)) (z : Num) : List ((List Char × String) × τ) :=
  match t.find? fun l => l.zone == z with
  | none => []
  | some l => l.entries

/-- `zonal.py:278` `agg_result_df.join(median_df)`: the columns of the second table to the right of those of the first,
zone by zone. -/
def joinTables (t u : List (Line τ)) : List (Line τ) := t.map fun l => ⟨l.zone, l.entries ++ entriesOf u l.zone⟩

/-- `zonal.py:284-288` the columns asked for. -/
def targetColumns (nb : Nat) (stats : List String) : List (List Char × String) :=
  (List.range nb).flatMap fun b => stats.map fun s => (label (b + 1), s)

/-- `zonal.py:290` `agg_result_df[target_columns]` for one row. -/
def selectColumns (cols : List (List Char × String)) (entries : List ((List Char × String) × τ)) :
    List ((List Char × String) × τ) :=
  cols.filterMap fun c => entries.find? fun e => e.1 == c

/-- `zonal.py:289-290` columns are selected only if they differ; selecting the same columns changes nothing. -/
def reorder (nb : Nat) (stats : List String) (t : List (Line τ)) : List (Line τ) :=
  t.map fun l =>
    if l.entries.map (·.1) = targetColumns nb stats then l
    else ⟨l.zone, selectColumns (targetColumns nb stats) l.entries⟩

/-- `zonal.py:222-297` `_zonal_stats` after the chunks were made equal. -/
def zonalTable (np : NumPy) (st : String → List Num → τ) (features data : Raster) (stats : List String) : List (Line τ) :=
  if (findProblemStats stats).2 = false then agg np st features data (findProblemStats stats).1
  else if (findProblemStats stats).1 = [] then reorder data.nb stats (agg np st features data ["median"])
  else reorder data.nb stats
    (joinTables (agg np st features data (findProblemStats stats).1) (agg np st features data ["median"]))

/-- The sizes of the chunks of a dimension of size `n` cut at every `c`. -/
def cut (n c : Nat) : List Nat := List.replicate (n / c) c ++ if n % c = 0 then [] else [n % c]

/-- `raster.py:1542-1561` `Raster.chunk` with the sizes of the chunks: they must add up to the shape. -/
def rechunk (r : Located) (bs ys xs : List Nat) : Except Err Located :=
  if bs.sum ≠ r.raster.nb ∨ ys.sum ≠ r.raster.ny ∨ xs.sum ≠ r.raster.nx then .error .value
  else .ok ⟨r.raster, ys, xs, r.crs, r.origin⟩

/-- `zonal.py:232-234`: the feature raster gets the chunks of the data raster, which has one chunk per band. -/
def matchChunks (features : Located) (nb : Nat) (ys xs : List Nat) : Except Err Located :=
  if features.ychunks ≠ ys ∨ features.xchunks ≠ xs then rechunk features (List.replicate nb 1) ys xs
  else .ok features

/-- `zonal.py:402-509` `zonal_stats` with a feature raster, in wide format.  `auto` is the size of the chunks that dask
chooses for a float64 array of this shape, `zonal.py:486-487`. -/
def onRaster (np : NumPy) (st : String → List Num → τ) (auto : Nat → Nat → Nat × Nat) (features data : Located)
    (stats : Option (List String)) (overlap : Bool) : Except Err (List (Line τ)) :=
  match checkArgs features.raster data.raster (features.crs == data.crs) stats statFuncs overlap with
  | .error e => .error e
  | .ok _ =>
    match matchChunks features data.raster.nb (cut data.raster.ny (auto data.raster.ny data.raster.nx).1)
      (cut data.raster.nx (auto data.raster.ny data.raster.nx).2) with
    | .error e => .error e
    | .ok f => .ok (zonalTable np st f.raster data.raster (stats.getD []))

/-! ### Features of a vector -/

/-- A feature: its zone (the field, or the index plus one), and the cells that it covers. -/
structure Shape where
  zone : Num
  covers : Nat → Nat → Bool

/-- The value of a cell: that of the last feature which covers it, or the null value. -/
def lastZone (fill : Num) (shapes : List Shape) (y x : Nat) : Num :=
  match (shapes.filter fun s => s.covers y x).getLast? with
  | none => fill
  | some s => s.zone

/-- `zonal.py:494-498` `features.to_raster(data_raster, field=…)`, see `C33_rasterize_partial`; the method is "last". -/
def burn (nv : Scalar) (ny nx : Nat) (shapes : List Shape) : Raster where
  dtype := nv.ty
  nb := 1
  ny := ny
  nx := nx
  data := fun c => lastZone nv.val shapes c.2.1 c.2.2
  mask := fun c => maskOf (some nv.val) (lastZone nv.val shapes c.2.1 c.2.2)
  nv := some nv

/-- The checks of the statistics, `zonal.py:438-448`. -/
def checkStats (stats : Option (List String)) : Except Err (List String) :=
  match stats with
  | none => .error .value
  | some l => if l.isEmpty then .error .value else if !l.all (statFuncs.contains ·) then .error .value else .ok l

/-- `zonal.py:490-493`: the name of the field is known, if there is one (`none`: no field). -/
def checkField (field : Option Bool) : Except Err Unit := if field = some false then .error .key else .ok ()

/-- `zonal.py:486-509` `zonal_stats` with a vector, in wide format, for a list of statistics.  The raster made from the
features has the chunks of the data raster. -/
def vectorTable (np : NumPy) (st : String → List Num → τ) (nv : Scalar) (shapes : List Shape) (data : Raster)
    (field : Option Bool) (stats : List String) : Except Err (List (Line τ)) :=
  match checkField field with
  | .error e => .error e
  | .ok _ => .ok (zonalTable np st (burn nv data.ny data.nx shapes) data stats)

/-- `zonal.py:450-468` with `handle_overlap`: one call for each feature, the tables below each other; nothing can not be
concatenated. -/
def onVector (np : NumPy) (st : String → List Num → τ) (nv : Scalar) (shapes : List Shape) (data : Raster)
    (field : Option Bool) (stats : Option (List String)) (overlap : Bool) : Except Err (List (Line τ)) :=
  match checkStats stats with
  | .error e => .error e
  | .ok l =>
    if overlap then
      if shapes = [] then .error .value
      else (shapes.mapM fun s => vectorTable np st nv [s] data field l).map List.flatten
    else vectorTable np st nv shapes data field l

/-! ### Long format -/

/-- The order of texts, character by character. -/
def leText : List Char → List Char → Bool
  | [], _ => true
  | _ :: _, [] => false
  | a :: l, b :: m => if a.toNat < b.toNat then true else if b.toNat < a.toNat then false else leText l m

/-- A row after `stack` and `reset_index`: the band is still a label. -/
structure Stacked (τ : Type) where
  zone : Num
  band : List Char
  stats : List (String × τ)

/-- The statistics of one band of a row. -/
def statsOf (l : Line τ) (band : List Char) : List (String × τ) :=
  l.entries.filterMap fun e => if e.1.1 = band then some (e.1.2, e.2) else none

/-- `zonal.py:188` `part.stack(0, future_stack=True)`; the labels of the bands in the order of the columns. -/
def stack (nb : Nat) (part : List (Line τ)) : List (Stacked τ) :=
  part.flatMap fun l => (List.range nb).map fun b => ⟨l.zone, label (b + 1), statsOf l (label (b + 1))⟩

/-- `zonal.py:192` `sort_values(["band", "zone"])`. -/
def leStacked (a b : Stacked τ × Nat) : Bool :=
  if a.1.band = b.1.band then leNum a.1.zone b.1.zone else leText a.1.band b.1.band

/-- `zonal.py:195` `int(x.split("_")[-1])` of a label. -/
def bandNumber (l : List Char) : Nat := Nat.ofDigitChars 10 (l.reverse.takeWhile (· ≠ '_')).reverse 0

/-- `zonal.py:195` for one row; the row numbers of `reset_index` stay with the rows. -/
def toLong (e : Stacked τ × Nat) : LongLine τ := ⟨e.2, e.1.zone, bandNumber e.1.band, e.1.stats⟩

/-- `zonal.py:175-200` `_melt_part`. -/
def meltPart (nb : Nat) (part : List (Line τ)) : List (LongLine τ) :=
  ((stack nb part).zipIdx.mergeSort leStacked).map toLong

/-- `zonal.py:510-518`: `map_partitions(_melt_part)`. -/
def melt (nb : Nat) (parts : List (List (Line τ))) : List (LongLine τ) := parts.flatMap (meltPart nb)

/-- `zonal_stats` with a vector, in long format: with `handle_overlap` each call gives a table in long format,
`zonal.py:456-468`. -/
def onVectorLong (np : NumPy) (st : String → List Num → τ) (nv : Scalar) (shapes : List Shape) (data : Raster)
    (field : Option Bool) (stats : Option (List String)) (overlap : Bool) : Except Err (List (LongLine τ)) :=
  match checkStats stats with
  | .error e => .error e
  | .ok l =>
    if overlap then
      if shapes = [] then .error .value
      else (shapes.mapM fun s => (vectorTable np st nv [s] data field l).map (meltPart data.nb)).map List.flatten
    else (vectorTable np st nv shapes data field l).map (meltPart data.nb)

end Verif.ZonalTable
