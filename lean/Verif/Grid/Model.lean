import Mathlib.Algebra.Order.Floor.Ring
import Mathlib.Algebra.Order.Field.Basic
import Mathlib.Algebra.BigOperators.Group.List.Basic
set_option linter.unusedSectionVars false
/-!
# Grids, chunks and points: model

Code: `raster_tools/raster.py:2598-2648` (`xy`, `index`), `2974-2999` (`rowcol_to_xy`, `xy_to_rowcol`),
`2807-2849` (`to_quadrants`), `2851-2971` (chunk bounding boxes, chunk rasters), `2758-2805` and
`3039-3108` (`to_points`), `raster_tools/dask_utils.py:52-63` (`chunks_to_array_locations`),
`raster_tools/blocks.py:57-303` (`GeoBlockInfo`, `geo_block_infos`).

Simplifications: coordinates are elements of an ordered field with a floor function instead of floats.
Third-party parts that are modelled by their documented meaning: `affine.Affine` (product, application,
inverse), slicing of an odc-geo `GeoBox` and its pixel centre coordinates, the names of its coordinate axes
(`latitude`/`longitude` for a geographic CRS), `np.ndindex`, `np.ravel_multi_index`, `xarray` slicing.
-/

namespace Verif.Grid

variable {K : Type} [Field K] [LinearOrder K] [IsStrictOrderedRing K] [FloorRing K]

/-! ### Affine transforms -/

/-- `affine.Affine`: `x = a * col + b * row + c`, `y = d * col + e * row + f`. -/
structure Affine (K : Type) where
  a : K
  b : K
  c : K
  d : K
  e : K
  f : K

namespace Affine

/-- `affine * (x, y)`. -/
def apply (A : Affine K) (p : K × K) : K × K :=
  (p.1 * A.a + p.2 * A.b + A.c, p.1 * A.d + p.2 * A.e + A.f)

/-- `affine * affine`. -/
def mul (A B : Affine K) : Affine K :=
  ⟨A.a * B.a + A.b * B.d, A.a * B.b + A.b * B.e, A.a * B.c + A.b * B.f + A.c,
   A.d * B.a + A.e * B.d, A.d * B.b + A.e * B.e, A.d * B.c + A.e * B.f + A.f⟩

/-- `Affine.translation(xoff, yoff)`. -/
def translation (x y : K) : Affine K := ⟨1, 0, x, 0, 1, y⟩

def det (A : Affine K) : K := A.a * A.e - A.b * A.d

/-- `~affine`. -/
def inv (A : Affine K) : Affine K :=
  let idet := 1 / A.det
  let ra := A.e * idet
  let rb := -A.b * idet
  let rd := -A.d * idet
  let re := A.a * idet
  ⟨ra, rb, -A.c * ra - A.f * rb, rd, re, -A.c * rd - A.f * re⟩

end Affine

/-- The offsets of `raster.py:2974-2980`. -/
inductive Offset where
  | center | ul | ur | ll | lr
deriving DecidableEq, Repr

/-- `(roffset, coffset)`. -/
def Offset.rc : Offset → K × K
  | center => (1 / 2, 1 / 2)
  | ul => (0, 0)
  | ur => (0, 1)
  | ll => (1, 0)
  | lr => (1, 1)

/-- `raster.py:2983-2989` `rowcol_to_xy`. -/
def rowcolToXy (row col : K) (A : Affine K) (o : Offset) : K × K :=
  let off := o.rc (K := K)
  (A.mul (Affine.translation off.2 off.1)).apply (col, row)

/-- `raster.py:2992-2999` `xy_to_rowcol`: `(row, col)`. -/
def xyToRowcol (x y : K) (A : Affine K) : Int × Int :=
  let cr := A.inv.apply (x, y)
  (⌊cr.2⌋, ⌊cr.1⌋)

/-! ### Chunks -/

/-- The loop of `dask_utils.py:57-63`. -/
def locationsFrom (start : Nat) : List Nat → List (Nat × Nat)
  | [] => []
  | c :: cs => (start, start + c) :: locationsFrom (start + c) cs

/-- `dask_utils.py:52-63` `chunks_to_array_locations`. -/
def chunksToArrayLocations (dimChunks : List Nat) : List (Nat × Nat) := locationsFrom 0 dimChunks

/-- The cells of an array in the order of `np.ndindex`. -/
def ndindex (a b c : Nat) : List (Nat × Nat × Nat) :=
  (List.range a).flatMap fun i => (List.range b).flatMap fun j => (List.range c).map fun k => (i, j, k)

/-- A raster: shape by its chunks, grid, data and mask. -/
structure Raster (K V : Type) where
  bchunks : List Nat
  ychunks : List Nat
  xchunks : List Nat
  affine : Affine K
  /-- geographic CRS -/
  geographic : Bool
  data : Nat → Nat → Nat → V
  mask : Nat → Nat → Nat → Bool

variable {V : Type}

namespace Raster

def nb (r : Raster K V) : Nat := r.bchunks.sum
def ny (r : Raster K V) : Nat := r.ychunks.sum
def nx (r : Raster K V) : Nat := r.xchunks.sum

/-- Pixel centre coordinates of the axes (axis-aligned grids). -/
def x (r : Raster K V) (j : Nat) : K := r.affine.a * (j + 1 / 2) + r.affine.c
def y (r : Raster K V) (i : Nat) : K := r.affine.e * (i + 1 / 2) + r.affine.f

end Raster

/-- A raster cut out by slices: shape, coordinates of the axes, data and mask. -/
structure Part (K V : Type) where
  nb : Nat
  ny : Nat
  nx : Nat
  x : Nat → K
  y : Nat → K
  data : Nat → Nat → Nat → V
  mask : Nat → Nat → Nat → Bool

/-- `ds.isel(band=slice(b0, b1), y=slice(y0, y1), x=slice(x0, x1))` for slices inside of the array. -/
def Raster.isel (r : Raster K V) (b y x : Nat × Nat) : Part K V :=
  ⟨b.2 - b.1, y.2 - y.1, x.2 - x.1, fun j => r.x (x.1 + j), fun i => r.y (y.1 + i),
   fun b' i j => r.data (b.1 + b') (y.1 + i) (x.1 + j), fun b' i j => r.mask (b.1 + b') (y.1 + i) (x.1 + j)⟩

/-- The inner loop of `get_chunk_rasters`, `raster.py:2954-2967`; `x` is its running offset. -/
def chunkRowFrom (r : Raster K V) (b y : Nat × Nat) (x : Nat) : List Nat → List (Part K V)
  | [] => []
  | xc :: xcs => r.isel b y (x, x + xc) :: chunkRowFrom r b y (x + xc) xcs

/-- The middle loop, `raster.py:2953-2969`. -/
def chunkRowsFrom (r : Raster K V) (b : Nat × Nat) (y : Nat) : List Nat → List (List (Part K V))
  | [] => []
  | yc :: ycs => chunkRowFrom r b (y, y + yc) 0 r.xchunks :: chunkRowsFrom r b (y + yc) ycs

/-- The outer loop, `raster.py:2952-2970`. -/
def chunkBandsFrom (r : Raster K V) (b : Nat) : List Nat → List (List (List (Part K V)))
  | [] => []
  | bc :: bcs => chunkRowsFrom r (b, b + bc) 0 r.ychunks :: chunkBandsFrom r (b + bc) bcs

/-- `raster.py:2931-2971` `get_chunk_rasters`: the array as nested lists. -/
def getChunkRasters (r : Raster K V) : List (List (List (Part K V))) := chunkBandsFrom r 0 r.bchunks

/-- `raster.py:2807-2849` `to_quadrants`: nw, ne, sw, se. -/
def toQuadrants (r : Raster K V) : Part K V × Part K V × Part K V × Part K V :=
  let b := (0, r.nb)
  let top := (0, r.ny / 2)
  let bottom := (r.ny / 2, r.ny)
  let left := (0, r.nx / 2)
  let right := (r.nx / 2, r.nx)
  (r.isel b top left, r.isel b top right, r.isel b bottom left, r.isel b bottom right)

/-! ### Chunk bounding boxes -/

/-- A row of the result of `get_chunk_bounding_boxes`. -/
structure ChunkBox (K : Type) where
  band : Nat
  row : Nat
  col : Nat
  /-- left, bottom, right, top -/
  bounds : K × K × K × K

/-- `rio.bounds()` of an array without stored transform: the resolution comes from the coordinates, which
needs two of them (rioxarray raises `OneDimensionalRaster` otherwise: `none`). -/
def rioBounds (xs ys : Nat → K) (nx ny : Nat) : Option (K × K × K × K) :=
  if nx < 2 ∨ ny < 2 then none
  else
    let rx := (xs (nx - 1) - xs 0) / ((nx : K) - 1)
    let ry := (ys (ny - 1) - ys 0) / ((ny : K) - 1)
    let x0 := xs 0 - rx / 2
    let y0 := ys 0 - ry / 2
    let x1 := xs (nx - 1) + rx / 2
    let y1 := ys (ny - 1) + ry / 2
    some (min x0 x1, min y0 y1, max x0 x1, max y0 y1)

/-- Inner loop `raster.py:2889-2898`; `j` is the running offset, `col` the loop counter. -/
def boxRowFrom (r : Raster K V) (row i yc : Nat) (col j : Nat) : List Nat → Option (List (ChunkBox K))
  | [] => some []
  | xc :: xcs =>
    match rioBounds (fun k => r.x (j + k)) (fun k => r.y (i + k)) xc yc with
    | none => none
    | some b =>
      match boxRowFrom r row i yc (col + 1) (j + xc) xcs with
      | none => none
      | some rest => some (⟨0, row, col, b⟩ :: rest)

/-- Outer loop `raster.py:2888-2900`. -/
def boxRowsFrom (r : Raster K V) (row i : Nat) : List Nat → Option (List (ChunkBox K))
  | [] => some []
  | yc :: ycs =>
    match boxRowFrom r row i yc 0 0 r.xchunks with
    | none => none
    | some l =>
      match boxRowsFrom r (row + 1) (i + yc) ycs with
      | none => none
      | some rest => some (l ++ rest)

/-- `raster.py:2851-2929` `get_chunk_bounding_boxes`; `none` if rioxarray cannot find the resolution. -/
def getChunkBoundingBoxes (r : Raster K V) (includeBand : Bool) : Option (List (ChunkBox K)) :=
  match boxRowsFrom r 0 0 r.ychunks with
  | none => none
  | some boxes =>
    if !includeBand then some boxes
    else some ((List.range r.nb).flatMap fun b => boxes.map fun x => { x with band := b })

/-! ### Block infos -/

/-- An odc-geo `GeoBox`. -/
structure GeoBox (K : Type) where
  ny : Int
  nx : Int
  affine : Affine K

/-- `geobox[rows, cols]`. -/
def GeoBox.slice (g : GeoBox K) (rows cols : Int × Int) : GeoBox K :=
  ⟨rows.2 - rows.1, cols.2 - cols.1, g.affine.mul (Affine.translation (cols.1 : K) (rows.1 : K))⟩

/-- `blocks.py:57-106` `GeoBlockInfo`; slices as (start, stop). -/
structure GeoBlockInfo (K : Type) where
  geobox : GeoBox K
  bandSlice : Int × Int
  rowSlice : Int × Int
  colSlice : Int × Int
  chunkLocation : Nat × Nat × Nat
  parentAffine : Affine K
  parentShape : Nat × Nat × Nat

namespace GeoBlockInfo

/-- `blocks.py:132-133`: `geobox.coordinates["x"]`, axis-aligned grid. -/
def x (g : GeoBlockInfo K) (j : Nat) : K := g.geobox.affine.a * (j + 1 / 2) + g.geobox.affine.c

/-- `blocks.py:136-137`. -/
def y (g : GeoBlockInfo K) (i : Nat) : K := g.geobox.affine.e * (i + 1 / 2) + g.geobox.affine.f

/-- `blocks.py:123-129` `shape`. -/
def shape (g : GeoBlockInfo K) : Int × Int × Int := (g.bandSlice.2 - g.bandSlice.1, g.geobox.ny, g.geobox.nx)

/-- `blocks.py:205-236` `_resize` for integer arguments; `none` is the `ValueError`. -/
def resize (g : GeoBlockInfo K) (dyTop dyBottom dxLeft dxRight : Int) : Option (GeoBlockInfo K) :=
  let newNy := g.geobox.ny + dyTop + dyBottom
  let newNx := g.geobox.nx + dxLeft + dxRight
  if newNy < 0 ∨ newNx < 0 then none
  else
    let newAffine :=
      if dyTop ≠ 0 ∨ dxLeft ≠ 0 then
        g.geobox.affine.mul (Affine.translation (((-dxLeft : Int)) : K) (((-dyTop : Int)) : K))
      else g.geobox.affine
    some { g with
      geobox := ⟨newNy, newNx, newAffine⟩
      rowSlice := (g.rowSlice.1 - dyTop, g.rowSlice.2 + dyBottom)
      colSlice := (g.colSlice.1 - dxLeft, g.colSlice.2 + dxRight) }

/-- `blocks.py:238-240`. -/
def padY (g : GeoBlockInfo K) (top bottom : Int) : Option (GeoBlockInfo K) := g.resize top bottom 0 0

/-- `blocks.py:242-244`. -/
def padX (g : GeoBlockInfo K) (left right : Int) : Option (GeoBlockInfo K) := g.resize 0 0 left right

/-- `blocks.py:246-254`. -/
def pad (g : GeoBlockInfo K) (y : Int) (x : Option Int) : Option (GeoBlockInfo K) :=
  let x := x.getD y
  g.resize y y x x

/-- `blocks.py:256-258`. -/
def shiftY (g : GeoBlockInfo K) (n : Int) : Option (GeoBlockInfo K) := g.resize (-n) n 0 0

/-- `blocks.py:260-262`. -/
def shiftX (g : GeoBlockInfo K) (n : Int) : Option (GeoBlockInfo K) := g.resize 0 0 (-n) n

/-- `blocks.py:264-268`. -/
def shift (g : GeoBlockInfo K) (y : Int) (x : Option Int) : Option (GeoBlockInfo K) :=
  let x := x.getD y
  g.resize (-y) y (-x) x

end GeoBlockInfo

/-- `raster.geobox`. -/
def Raster.geobox (r : Raster K V) : GeoBox K := ⟨r.ny, r.nx, r.affine⟩

/-- A location as a slice. -/
def toSlice (l : Nat × Nat) : Int × Int := (l.1, l.2)

/-- `blocks.py:275-303` `geo_block_infos` for the block `(bi, yi, xi)`; `none` if there is no such block. -/
def geoBlockInfo (r : Raster K V) (loc : Nat × Nat × Nat) : Option (GeoBlockInfo K) :=
  match (chunksToArrayLocations r.bchunks)[loc.1]?, (chunksToArrayLocations r.ychunks)[loc.2.1]?,
    (chunksToArrayLocations r.xchunks)[loc.2.2]? with
  | some bs, some rs, some cs =>
    some ⟨r.geobox.slice (toSlice rs) (toSlice cs), toSlice bs, toSlice rs, toSlice cs, loc, r.affine,
      (r.nb, r.ny, r.nx)⟩
  | _, _, _ => none

/-- The blocks in the order of `np.ndindex(numblocks)`, flattened. -/
def blockIndices (r : Raster K V) : List (Nat × Nat × Nat) :=
  ndindex r.bchunks.length r.ychunks.length r.xchunks.length

/-! ### Points -/

/-- A row of the result of `to_points`. -/
structure Point (K V : Type) where
  index : Nat
  value : V
  band : Int
  row : Int
  col : Int
  px : K
  py : K

/-- `np.ravel_multi_index`; `none` is its `ValueError`. -/
def ravel (b i j : Int) (shape : Nat × Nat × Nat) : Option Nat :=
  if 0 ≤ b ∧ b < shape.1 ∧ 0 ≤ i ∧ i < shape.2.1 ∧ 0 ≤ j ∧ j < shape.2.2 then
    some (((b.toNat * shape.2.1) + i.toNat) * shape.2.2 + j.toNat)
  else none

/-- All or nothing. -/
def sequence {α : Type} : List (Option α) → Option (List α)
  | [] => some []
  | none :: _ => none
  | some a :: as => (sequence as).map (a :: ·)

/-- `raster.py:3038-3108` `_extract` and `_vectorize` for one valid cell of a block; `data` is the block's
data. -/
def vectorizeCell (g : GeoBlockInfo K) (data : Nat → Nat → Nat → V) (idx : Nat × Nat × Nat) :
    Option (Point K V) :=
  let band := g.bandSlice.1 + (idx.1 : Int)
  let py := g.y idx.2.1
  let px := g.x idx.2.2
  let cr := g.parentAffine.inv.apply (px, py)
  let row := ⌊cr.2⌋
  let col := ⌊cr.1⌋
  match ravel band row col g.parentShape with
  | none => none
  | some index => some ⟨index, data idx.1 idx.2.1 idx.2.2, band + 1, row, col, px, py⟩

/-- `_vectorize` of one block. -/
def vectorize (g : GeoBlockInfo K) (p : Part K V) : Option (List (Point K V)) :=
  sequence (((ndindex p.nb p.ny p.nx).filter fun idx => !p.mask idx.1 idx.2.1 idx.2.2).map
    (vectorizeCell g p.data))

/-- The data and mask of a block, as dask stores them. -/
def block (r : Raster K V) (loc : Nat × Nat × Nat) : Option (Part K V) :=
  match (chunksToArrayLocations r.bchunks)[loc.1]?, (chunksToArrayLocations r.ychunks)[loc.2.1]?,
    (chunksToArrayLocations r.xchunks)[loc.2.2]? with
  | some bs, some rs, some cs => some (r.isel bs rs cs)
  | _, _, _ => none

/-- The points of one block. -/
def pointsOfBlock (r : Raster K V) (loc : Nat × Nat × Nat) : Option (List (Point K V)) :=
  match geoBlockInfo r loc, block r loc with
  | some g, some p => vectorize g p
  | _, _ => none

/-- `raster.py:2758-2805` `to_points`.  `none` is an exception: a `KeyError` for a geographic CRS, where
the axes of the geobox are not called `x` and `y` (`blocks.py:132-137`), or an index error. -/
def toPoints (r : Raster K V) : Option (List (Point K V)) :=
  if r.geographic && !(blockIndices r).isEmpty then none
  else
    match sequence ((blockIndices r).map (pointsOfBlock r)) with
    | none => none
    | some parts => some parts.flatten

end Verif.Grid
