import Verif.Grid.Model
import Verif.Nulls.RasterModel
import Mathlib.Data.List.Dedup

/-!
# Model of `raster.py:2650-2721` `to_polygons`

A geometry is a list of cells, each with the transform it is drawn with; it stands for the region they cover.  `Shapes` is
`rasterio.features.shapes`.  `dissolve(by="value")` groups the rows of one band by value, leaves out NaN (pandas), and joins the
geometries.  The affine of a chunk raster is found by rioxarray from the coordinates (for a single row or column with the stored
resolution).  The order of the rows, the index and the CRS are left out.
-/

namespace Verif.Polygons

open Verif Verif.Grid Verif.Nulls DType

variable {K : Type} [Field K] [LinearOrder K] [IsStrictOrderedRing K] [FloorRing K]

/-- `raster.py:3111-3124` `_get_rio_shapes_dtype`. -/
def workingDtype (dt : DType) : DType :=
  if dt ∈ [i16, i32, u8, u16, f32] then dt
  else if dt.isBool then u8
  else if dt = i8 then i16
  else if dt ∈ [i64, u32, u64] then i32
  else if dt ∈ [f16, f64] then f32
  else dt

/-- `rasterio.features.shapes` of an array (rows, columns, values), the cells to use, and 4 or 8 neighbours: groups of cells with
a value. -/
abbrev Shapes := Nat → Nat → (Nat → Nat → Num) → (Nat → Nat → Bool) → Int → List (List (Nat × Nat) × Num)

/-- A row of the result. -/
structure Poly (K : Type) where
  value : Num
  band : Nat
  geometry : List (Affine K × Nat × Nat)

/-- `raster.py:3140-3146`: null cells hold 0 in the working type. -/
def workingData (np : NumPy) (dt : DType) (p : Part K Num) (i j : Nat) : Num :=
  if workingDtype dt ≠ dt then np.cast (workingDtype dt) (if p.mask 0 i j then .fin 0 else p.data 0 i j)
  else p.data 0 i j

/-- The affine of a chunk raster. -/
def partAffine (r : Grid.Raster K Num) (p : Part K Num) : Affine K :=
  ⟨r.affine.a, 0, p.x 0 - r.affine.a / 2, 0, r.affine.e, p.y 0 - r.affine.e / 2⟩

/-- `raster.py:3127-3163` `_shapes_delayed` for one chunk of one band. -/
def shapesOf (np : NumPy) (shapes : Shapes) (dt : DType) (neighbors : Int) (affine : Affine K) (band : Nat) (p : Part K Num) :
    List (Poly K) :=
  (shapes p.ny p.nx (workingData np dt p) (fun i j => !p.mask 0 i j) neighbors).map fun s =>
    ⟨if workingDtype dt ≠ dt then np.cast dt s.2 else s.2, band, s.1.map fun c => (affine, c)⟩

/-- `self.get_bands(iband + 1)`. -/
def bandOf (r : Grid.Raster K Num) (iband : Nat) : Grid.Raster K Num :=
  { r with
    bchunks := [1]
    data := fun _ => r.data iband
    mask := fun _ => r.mask iband }

/-- `dissolve(by="value").reset_index()`. -/
def dissolve (ps : List (Poly K)) : List (Poly K) :=
  let values := ((ps.map (·.value)).filter fun v => !v.isnan).dedup
  values.map fun v =>
    let group := ps.filter fun p => p.value = v
    ⟨v, (group.head?.map (·.band)).getD 0, group.flatMap (·.geometry)⟩

/-- `raster.py:2701-2716` for one band. -/
def bandPolygons (np : NumPy) (shapes : Shapes) (dt : DType) (r : Grid.Raster K Num) (neighbors : Int) (iband : Nat) :
    List (Poly K) :=
  let r1 := bandOf r iband
  let parts := (getChunkRasters r1).flatten.flatten
  dissolve (parts.flatMap fun p => shapesOf np shapes dt neighbors (partAffine r1 p) (iband + 1) p)

/-- `raster.py:2650-2721` `to_polygons`. -/
def toPolygons (np : NumPy) (shapes : Shapes) (dt : DType) (r : Grid.Raster K Num) (neighbors : Int) :
    Except Err (List (Poly K)) :=
  if neighbors ≠ 4 ∧ neighbors ≠ 8 then .error .value
  else .ok ((List.range r.nb).flatMap (bandPolygons np shapes dt r neighbors))

end Verif.Polygons
