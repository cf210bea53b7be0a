import Verif.Focal.Model
import Verif.Grid.Model
import Verif.Nulls.RasterModel
import Mathlib.Algebra.BigOperators.Group.List.Basic
import Mathlib.Data.List.Dedup

/-!
# Model of `line_stats.py`

Shapely, geopandas and GDAL are a structure of parameters.  Lengths and weights are exact (the code adds in single precision).
The features are given in the CRS of the raster.  Column types are numbers, booleans (whose values are 0 and 1) and others.
-/

namespace Verif.Lines

open Verif Verif.Nulls

variable {K : Type} [Field K] [LinearOrder K] [IsStrictOrderedRing K] [FloorRing K]

/-- What is used of shapely, geopandas and rasterio. -/
structure Geo (G K : Type) where
  isLine : G → Bool
  isEmpty : G → Bool
  isValid : G → Bool
  /-- `gdf.clip(bounds)`: what is left of a geometry in xmin, ymin, xmax, ymax; `none` if the row is dropped -/
  clip : K × K × K × K → G → Option G
  explode : G → List G
  vertices : G → Nat
  /-- `_rio_mask` of the geometries with a buffer, for the cells with the given centres -/
  touched : K → Nat → Nat → (Nat → K) → (Nat → K) → List G → Nat → Nat → Bool
  /-- the length of the part of a line that is within the radius of a point (`overlay`) -/
  inside : K → K × K → G → K

inductive ColKind where
  | number
  | bool
  | other
deriving DecidableEq, Repr

/-- A feature: its geometry and the values of its fields. -/
structure Feature (G K : Type) where
  geometry : G
  value : String → K

/-- A geometry with its weight, 1 if there is no weighting. -/
abbrev Row (G K : Type) := G × K

/-- `line_stats.py:106-107`. -/
def vertsPerGeomCutoff : Nat := 15
/-- `line_stats.py:108-112`. -/
def geomBatchSize : Nat := 700

variable {G : Type} (geo : Geo G K)

/-- `line_stats.py:17-48` `_compute_lengths` for one target. -/
def lengthWithin (rows : List (Row G K)) (radius : K) (p : K × K) : K :=
  (rows.map fun r => geo.inside radius p r.1 * r.2).sum

/-- The cells of a block, row by row. -/
def cells (ny nx : Nat) : List (Nat × Nat) := (List.range ny).flatMap fun i => (List.range nx).map fun j => (i, j)

/-- `line_stats.py:118-138` `_get_indices_and_lengths_core`. -/
def core (rows : List (Row G K)) (ny nx : Nat) (xc yc : Nat → K) (radius : K) : List ((Nat × Nat) × K) :=
  ((cells ny nx).filter fun c => geo.touched radius ny nx xc yc (rows.map (·.1)) c.1 c.2).map fun c =>
    (c, lengthWithin geo rows radius (xc c.2, yc c.1))

/-- `range(0, n, batch_size)` and the slices. -/
def batches {α : Type} (size : Nat) (l : List α) : List (List α) :=
  (List.range ((l.length + size - 1) / size)).map fun k => (l.drop (k * size)).take size

/-- `groupby(["idx0", "idx1"]).sum()`. -/
def groupSum (l : List ((Nat × Nat) × K)) : List ((Nat × Nat) × K) :=
  (l.map (·.1)).dedup.map fun c => (c, ((l.filter fun e => e.1 = c).map (·.2)).sum)

/-- `line_stats.py:156`: every part of a feature has its weight. -/
def exploded (rows : List (Row G K)) : List (Row G K) := rows.flatMap fun r => (geo.explode r.1).map fun g => (g, r.2)

/-- `line_stats.py:160-163`: how many geometries are worked on at a time, if there are too many or too many vertices. -/
def batchSize (n verts : Nat) : Option Nat :=
  if (vertsPerGeomCutoff * n < verts ∧ 1 < n) ∨ geomBatchSize < n then
    some (min geomBatchSize (max 1 (n / max 1 (verts / (vertsPerGeomCutoff * n)))))
  else none

/-- `line_stats.py:141-186` `_get_indices_and_lengths`. -/
def indicesAndLengths (rows : List (Row G K)) (ny nx : Nat) (xc yc : Nat → K) (radius : K) : List ((Nat × Nat) × K) :=
  let parts := exploded geo rows
  match batchSize parts.length ((parts.map fun r => geo.vertices r.1).sum) with
  | some size => groupSum ((batches size parts).flatMap fun b => core geo b ny nx xc yc radius)
  | none => core geo parts ny nx xc yc radius

/-- `output[indices] = lengths` on zeros; later entries win. -/
def scatter (l : List ((Nat × Nat) × K)) (i j : Nat) : K :=
  l.foldl (fun v e => if e.1 = (i, j) then e.2 else v) 0

/-- Does the frame have a column `weights` after `line_stats.py:195-200`?  `rename` is called without `columns=`, so it renames
labels of rows and the column keeps its name. -/
def hasWeights (field : Option String) : Bool :=
  match field with
  | none => true
  | some f => f = "weights"

/-- `line_stats.py:189-208` `_length` at a cell of the block; `none` for an AttributeError (no column `weights`). -/
def lengthAt (rows : List (Row G K)) (field : Option String) (ny nx : Nat) (xc yc : Nat → K) (radius : K) (i j : Nat) : Option K :=
  if rows.isEmpty then some 0
  else if hasWeights field then some (scatter (indicesAndLengths geo rows ny nx xc yc radius) i j)
  else none

/-- `xc.min()`. -/
def minOf (f : Nat → K) (n : Nat) : K := (List.range n).foldl (fun m k => min m (f k)) (f 0)
/-- `xc.max()`. -/
def maxOf (f : Nat → K) (n : Nat) : K := (List.range n).foldl (fun m k => max m (f k)) (f 0)

/-- `line_stats.py:218-227`: the rows of the features near the block. -/
def nearRows (features : List (Feature G K)) (field : Option String) (ny nx : Nat) (xc yc : Nat → K) (radius : K) :
    List (Row G K) :=
  let box := (minOf xc nx - radius, minOf yc ny - radius, maxOf xc nx + radius, maxOf yc ny + radius)
  (features.filter fun f => !geo.isEmpty f.geometry && geo.isValid f.geometry).filterMap fun f =>
    (geo.clip box f.geometry).map fun g => (g, (field.map f.value).getD 1)

/-- `line_stats.py:302`: cells around a chunk. -/
def depth (radius res : K) : Nat := ⌈radius / |res|⌉.toNat

/-- The centres of the columns `start - margin`, ... of the raster, also outside of it (`GeoBlockInfo.x`; that these are the
coordinates of a block with a margin is C49). -/
def blockX (r : Grid.Raster K Num) (start margin : Nat) (k : Nat) : K :=
  r.affine.a * (((start : Int) - margin + k : Int) + 1 / 2) + r.affine.c

/-- The centres of the rows of a block. -/
def blockY (r : Grid.Raster K Num) (start margin : Nat) (k : Nat) : K :=
  r.affine.e * (((start : Int) - margin + k : Int) + 1 / 2) + r.affine.f

/-- `line_stats.py:211-229` `_length_chunk` of the block of a cell, whose margin is cut off (`geo_map_overlap`). -/
def partialAt (r : Grid.Raster K Num) (field : Option String) (radius : K) (part : List (Feature G K)) (i j : Nat) : Option K :=
  match Focal.chunkOf r.ychunks 0 i, Focal.chunkOf r.xchunks 0 j with
  | some (r0, h), some (c0, w) =>
    let dy := depth radius r.affine.e
    let dx := depth radius r.affine.a
    let xc := blockX r c0 dx
    let yc := blockY r r0 dy
    let ny := h + 2 * dy
    let nx := w + 2 * dx
    lengthAt geo (nearRows geo part field ny nx xc yc radius) field ny nx xc yc radius (i - r0 + dy) (j - c0 + dx)
  | _, _ => none

/-- `line_stats.py:320`: the sum over the partitions. -/
def addUp : List (Option K) → Option K
  | [] => some 0
  | none :: _ => none
  | some v :: l => (addUp l).map (v + ·)

inductive RadiusArg (K : Type) where
  | number (r : K)
  | other

inductive FieldArg where
  | none
  | str (s : String)
  | other
deriving DecidableEq, Repr

/-- `line_stats.py:283-298`. -/
def checkField (columns : List (String × ColKind)) : FieldArg → Except Err (Option String)
  | .none => .ok none
  | .other => .error .type
  | .str s =>
    match columns.lookup s with
    | none => .error .value
    | some .other => .error .type
    | some _ => .ok (some s)

/-- `line_stats.py:232-321` `length`.  The values of the result; `none` where computing them raises an AttributeError.  dask
raises a ValueError if a margin is larger than the raster. -/
def length (partitions : List (List (Feature G K))) (columns : List (String × ColKind)) (r : Grid.Raster K Num) (hasCrs : Bool)
    (radius : RadiusArg K) (field : FieldArg) : Except Err (Nat → Nat → Option K) :=
  match radius with
  | .other => .error .type
  | .number radius =>
    if radius ≤ 0 then .error .value
    else if !hasCrs then .error .value
    else if partitions.any (fun p => p.any fun f => !geo.isLine f.geometry) then .error .type
    else match checkField columns field with
      | .error e => .error e
      | .ok f =>
        if r.ny < depth radius r.affine.e ∨ r.nx < depth radius r.affine.a then .error .value
        else if partitions.isEmpty then .error .value
        else .ok fun i j => addUp (partitions.map fun p => partialAt geo r f radius p i j)

end Verif.Lines
