import Verif.Nulls.RasterModel
import Verif.Utils.Reshape
import Mathlib.Data.Nat.Log

/-!
# Model of `rasterize.py`

A feature table is a list of partitions, each a list of features.  What shapely, geopandas and GDAL compute is
given from outside: which cells of the raster a geometry touches (`Like.touch`, for the chosen `all_touched`),
bounding boxes, which geometries survive clipping, the convex hulls of the partitions.  Simplification: clipping a
geometry to a chunk does not change the cells of the chunk that it touches.  The order in which `clip` returns
features and the order of equal keys in `sort_values` are left open.
-/

namespace Verif.Rasterize

open Verif Verif.Nulls DType

/-- Row and column. -/
abbrev Pos := Nat × Nat

/-- A two dimensional array. -/
abbrev Img := Pos → Num

/-- `shapely.geometry.box`. -/
structure Box where
  x0 : Rat
  y0 : Rat
  x1 : Rat
  y1 : Rat
deriving DecidableEq

/-- `shapely.intersects` of two boxes (boundaries included). -/
def Box.meets (a b : Box) : Bool :=
  decide (a.x0 ≤ b.x1) && decide (b.x0 ≤ a.x1) && decide (a.y0 ≤ b.y1) && decide (b.y0 ≤ a.y1)

/-- The smallest box around two. -/
def Box.union (a b : Box) : Box := ⟨min a.x0 b.x0, min a.y0 b.y0, max a.x1 b.x1, max a.y1 b.y1⟩

/-- A spatial partition: the boxes it intersects. -/
abbrev Region := Box → Bool

/-- A feature: geometry, whether that is empty or missing, and the value of the field (or of the index). -/
structure Feature (G : Type) where
  geom : G
  empty : Bool
  value : Num

/-- The dask geodataframe: its partitions and `spatial_partitions`. -/
structure Table (G : Type) where
  parts : List (List (Feature G))
  spatial : Option (List Region)

/-- The raster to rasterize onto: chunks, `bounds`, the boxes of the chunks, and the geometry of its grid. -/
structure Like (G : Type) where
  ychunks : List Nat
  xchunks : List Nat
  box : Box
  /-- `get_chunk_bounding_boxes()` -/
  chunkBox : Nat → Nat → Box
  /-- the cells that a geometry is burned into -/
  touch : G → Pos → Bool
  /-- bounding box of a geometry -/
  bounds : G → Box
  /-- clipping to a box leaves something of the geometry -/
  keeps : G → Box → Bool

/-- Computations of geopandas and pandas. -/
structure Ext (G : Type) where
  /-- `gdf.clip(box)` of the features numbered by the column `idx` -/
  clip : Like G → Box → List (Nat × Feature G) → List (Nat × Feature G)
  /-- `sort_values(by=["idx"])` -/
  sortIdx : List (Nat × Feature G) → List (Nat × Feature G)
  /-- `sort_values(by=["values"], na_position="first")` -/
  sortAsc : List (Feature G) → List (Feature G)
  /-- `sort_values(by=["values"], ascending=False, na_position="first")` -/
  sortDesc : List (Feature G) → List (Feature G)
  /-- `calculate_spatial_partitions` for one partition -/
  hull : List (Feature G) → Region

variable {G : Type}

/-- `rasterize.py:30-36` `_get_rio_dtype`; `s64` is `_RIO_64BIT_INTS_SUPPORTED`. -/
def rioDtype (s64 : Bool) (dt : DType) : DType :=
  if dt = i8 then i16 else if (dt = i64 ∨ dt = u64) ∧ s64 = false then f64 else dt

/-- The way of a number through `rasterize.py:39-59`: to rasterio's dtype and back (values have the output dtype). -/
def viaRio (np : NumPy) (s64 : Bool) (dt : DType) (v : Num) : Num :=
  if rioDtype s64 dt = dt then v else np.cast dt (np.cast (rioDtype s64 dt) v)

/-- `rio_rasterize` with `MergeAlg.replace`: later shapes overwrite. -/
def rioRasterize (touch : G → Pos → Bool) (fill : Num) (shapes : List (G × Num)) : Img := fun p =>
  shapes.foldl (fun acc s => if touch s.1 p then s.2 else acc) fill

/-- Overlap resolution methods. -/
inductive Method where
  | first | last | min | max
deriving DecidableEq

/-- The check `rasterize.py:670-674`. -/
def parseMethod : String → Option Method
  | "first" => some .first
  | "last" => some .last
  | "min" => some .min
  | "max" => some .max
  | _ => none

/-- `values += 1`. -/
def addOne : Num → Num
  | .fin a => .fin (a + 1)
  | v => v

/-- `gdf.total_bounds` of a nonempty table. -/
def totalBounds (like : Like G) : List (Feature G) → Option Box
  | [] => none
  | f :: fs => some (fs.foldl (fun b g => b.union (like.bounds g.geom)) (like.bounds f.geom))

/-- `gdf["idx"] = np.arange(len(gdf))`. -/
def numbered (fs : List (Feature G)) : List (Nat × Feature G) := (List.range fs.length).zip fs

/-- The sort `rasterize.py:126-142`. -/
def orderFor (ext : Ext G) : Method → List (Feature G) → List (Feature G)
  | .first, fs => fs.reverse
  | .last, fs => fs
  | .min, fs => ext.sortDesc fs
  | .max, fs => ext.sortAsc fs

/-- The offsets of a chunk. -/
def chunkOffset (like : Like G) (i j : Nat) : Pos := ((like.ychunks.take i).sum, (like.xchunks.take j).sum)

/-- The shape of a chunk. -/
def chunkShape (like : Like G) (i j : Nat) : Pos := (like.ychunks[i]?.getD 0, like.xchunks[j]?.getD 0)

/-- The cells a geometry touches, in the coordinates of the chunk. -/
def localTouch (like : Like G) (i j : Nat) (g : G) (p : Pos) : Bool :=
  like.touch g ((chunkOffset like i j).1 + p.1, (chunkOffset like i j).2 + p.2)

/-- `rasterize.py:73-148` `_rasterize_onto_chunk`. -/
def rasterizeOntoChunk (np : NumPy) (s64 : Bool) (ext : Ext G) (like : Like G) (useIndex : Bool) (out : DType)
    (fill : Num) (method : Method) (part : List (Feature G)) (i j : Nat) : Img :=
  let full : Img := fun _ => np.cast out fill
  let box := like.chunkBox i j
  let gdf := part.filter fun f => !f.empty
  match totalBounds like gdf with
  | none => full
  | some b =>
    if !box.meets b then full
    else
      let clipped := ext.sortIdx (ext.clip like box (numbered gdf))
      if clipped.length = 0 then full
      else
        let ordered := orderFor ext method (clipped.map (·.2))
        let shapes := ordered.map fun f => (f.geom, viaRio np s64 out (if useIndex then addOne f.value else f.value))
        rioRasterize (localTouch like i j) (viaRio np s64 out fill) shapes

/-- `rasterize.py:151-173` `_mask_onto_chunk` with `_rio_mask`. -/
def maskOntoChunk (ext : Ext G) (like : Like G) (invert : Bool) (part : List (Feature G)) (i j : Nat) : Img :=
  let fill : Num := if invert then .fin 1 else .fin 0
  let mark : Num := if invert then .fin 0 else .fin 1
  let box := like.chunkBox i j
  match totalBounds like (part.filter fun f => !f.empty) with
  | none => fun _ => fill
  | some b =>
    if !box.meets b then fun _ => fill
    else
      let clipped := ext.clip like box (numbered part)
      if clipped.length = 0 then fun _ => fill
      else rioRasterize (localTouch like i j) fill (clipped.map fun f => (f.2.geom, mark))

/-! ### Merging partitions -/

/-- IEEE `<`. -/
def lt : Num → Num → Bool
  | .fin a, .fin b => decide (a < b)
  | .negInf, .fin _ => true
  | .negInf, .posInf => true
  | .fin _, .posInf => true
  | _, _ => false

/-- `np.min` of two numbers: NaN wins. -/
def min2 (a b : Num) : Num := if a.isnan then a else if b.isnan then b else if lt b a then b else a

/-- `np.max` of two numbers: NaN wins. -/
def max2 (a b : Num) : Num := if a.isnan then a else if b.isnan then b else if lt a b then b else a

/-- `np.nanmin`, `np.nanmax` of two numbers: NaN loses. -/
def nanmin2 (a b : Num) : Num := if a.isnan then b else if b.isnan then a else if lt b a then b else a
def nanmax2 (a b : Num) : Num := if a.isnan then b else if b.isnan then a else if lt a b then b else a

/-- All the values of two bands. -/
def allValues (shape : Pos) (a b : Img) : List Num :=
  (List.range shape.1).flatMap fun y => (List.range shape.2).flatMap fun x => [a (y, x), b (y, x)]

/-- `rasterize.py:177-240` the resolve functions on a stack of two; `a` is `x[-2]`, `b` is `x[-1]`. -/
def resolve (fill : Num) (shape : Pos) : Method → Img → Img → Img
  | .first, a, b => fun p => if (a p).eq fill then b p else a p
  | .last, a, b => fun p => if (b p).eq fill then a p else b p
  | .min, a, b => fun p =>
    let top := (allValues shape a b).foldl nanmax2 .nan
    let ma := (a p).eq fill
    let mb := (b p).eq fill
    if ma && mb then fill else min2 (if ma then top else a p) (if mb then top else b p)
  | .max, a, b => fun p =>
    let bottom := (allValues shape a b).foldl nanmin2 .nan
    let ma := (a p).eq fill
    let mb := (b p).eq fill
    if ma && mb then fill else max2 (if ma then bottom else a p) (if mb then bottom else b p)

/-- One round of `da.reduction` with `split_every=2`: neighbours in pairs, `rasterize.py:251-264`. -/
def pairRound (f : Img → Img → Img) : List Img → List Img
  | a :: b :: l => f a b :: pairRound f l
  | l => l

/-- Several rounds. -/
def rounds (f : Img → Img → Img) : Nat → List Img → List Img
  | 0, l => l
  | n + 1, l => rounds f n (pairRound f l)

/-- `rasterize.py:271-291`: dask makes `ceil(log2(n))` rounds, at least one, the last of them with `aggregate`. -/
def treeReduce (f : Img → Img → Img) (l : List Img) : Option Img :=
  (rounds f (Nat.max 1 (Nat.clog 2 l.length)) l).head?

/-- `rasterize.py:294-312`: the masks of the partitions merged. -/
def reduceMasks (invert : Bool) : List Img → Option Img
  | [] => none
  | a :: l => some (l.foldl (fun acc b p => if invert then min2 (acc p) (b p) else max2 (acc p) (b p)) a)

/-- `rasterize.py:315-328`, `351-387`: the partitions that are rasterized onto a chunk, in order. -/
def matched (like : Like G) (parts : List (List (Feature G))) (regions : List Region) (i j : Nat) :
    List (List (Feature G)) :=
  ((parts.zip regions).filter fun e => e.2 (like.chunkBox i j)).map (·.1)

/-- Where a dask array holds an index: chunk and position in it. -/
def locate : List Nat → Nat → Nat × Nat
  | [], n => (0, n)
  | c :: cs, n => if n < c then (0, n) else ((locate cs (n - c)).1 + 1, (locate cs (n - c)).2)

/-- `da.block` of a grid of chunks. -/
def block (like : Like G) (grid : List (List Img)) (fill : Num) : Img := fun p =>
  let y := locate like.ychunks p.1
  let x := locate like.xchunks p.2
  match (grid[y.1]?.getD [])[x.1]? with
  | some img => img (y.2, x.2)
  | none => fill

/-- `rasterize.py:390-427` `_raw_rasterized_chunks_to_dask_array` for the chunk images `chunk i j`. -/
def assemble (like : Like G) (chunk : Nat → Nat → Img) (fill : Num) : Except Err Img :=
  let ny := like.ychunks.length
  let nx := like.xchunks.length
  let flat := (List.range (ny * nx)).map fun k => chunk (k / nx) (k % nx)
  match Utils.listReshape2d flat [ny, nx] 0 with
  | .error e => .error e
  | .ok grid => .ok (block like grid fill)

/-- `rasterize.py:430-501` `_rasterize_spatial_aware` for values: the data of the result. -/
def valueData (np : NumPy) (s64 : Bool) (ext : Ext G) (like : Like G) (useIndex : Bool) (out : DType)
    (fill : Num) (method : Method) (parts : List (List (Feature G))) (regions : List Region) : Except Err Img :=
  assemble like (fun i j =>
    (treeReduce (resolve fill (chunkShape like i j) method) ((matched like parts regions i j).map fun part =>
      rasterizeOntoChunk np s64 ext like useIndex out fill method part i j)).getD fun _ => np.cast out fill)
    (np.cast out fill)

/-- The same for masks. -/
def maskData (ext : Ext G) (like : Like G) (invert : Bool) (parts : List (List (Feature G))) (regions : List Region) :
    Except Err Img :=
  let fill : Num := if invert then .fin 1 else .fin 0
  assemble like (fun i j =>
    (reduceMasks invert ((matched like parts regions i j).map fun part =>
      maskOntoChunk ext like invert part i j)).getD fun _ => fill) fill

/-! ### `rasterize` -/

/-- The `field` argument: `None`, the name of a column (`none` if there is no such column, `some none` if its type
is no number type), or something that is no string. -/
inductive Field where
  | none
  | column (dt : Option (Option DType))
  | other

/-- The `null_value` argument: `None`, a number, something else. -/
inductive NullSpec where
  | none
  | num (s : Scalar)
  | other

/-- The arguments; `crsDiffers` is `gdf.crs != like.crs and like.crs is not None`. -/
structure Args where
  field : Field
  method : String
  null : NullSpec
  crsDiffers : Bool
  aware : Bool

/-- `rasterize.py:646-658`: the dtype of the result. -/
def fieldType : Field → Except Err DType
  | .column none => .error .value
  | .column (some none) => .error .value
  | .column (some (some dt)) => if !dt.isInt && !dt.isFloat then .error .value else .ok dt
  | .other => .error .value
  | .none => .ok i64

/-- `rasterize.py:659-668`: the fill value. -/
def fillOf (field : Field) (dt : DType) : NullSpec → Except Err Scalar
  | .num s => .ok s
  | .other => .error .type
  | .none => match field with
    | .none => .ok ⟨i64, .fin 0⟩
    | _ => .ok (defaultNull dt)

def Field.isNone : Field → Bool
  | .none => true
  | _ => false

/-- The spatial partitions used, `rasterize.py:678-690`, `518-523`, and the table of the caller afterwards: without
spatial partitions every partition gets the box of the raster, and this is stored in the table. -/
def regionsFor (ext : Ext G) (like : Like G) (t : Table G) (crsDiffers aware : Bool) : List Region × Table G :=
  match (if crsDiffers then none else t.spatial) with
  | some regions => (regions, t)
  | none =>
    if aware then (t.parts.map ext.hull, t)
    else
      let sparts := t.parts.map fun _ => fun b => like.box.meets b
      (sparts, if crsDiffers then t else { t with spatial := some sparts })

/-- `get_chunk_bounding_boxes()` raises for a chunk with a single row or column (`Grid.C21_single_row_chunk`). -/
def hasBoxes (like : Like G) : Bool := like.ychunks.all (2 ≤ ·) && like.xchunks.all (2 ≤ ·)

/-- `rasterize.py:537-713` `rasterize` with `mask=False`: the raster and the caller's table. -/
def rasterize (np : NumPy) (s64 : Bool) (ext : Ext G) (t : Table G) (like : Like G) (a : Args) :
    Except Err (Raster × Table G) :=
  match fieldType a.field with
  | .error e => .error e
  | .ok dt =>
    match fillOf a.field dt a.null with
    | .error e => .error e
    | .ok fill =>
      match parseMethod a.method with
      | none => .error .value
      | some method =>
        if !hasBoxes like then .error .oneDim else
        let rt := regionsFor ext like t a.crsDiffers a.aware
        match valueData np s64 ext like a.field.isNone dt fill.val method t.parts rt.1 with
        | .error e => .error e
        | .ok img =>
          .ok (ofData dt 1 like.ychunks.sum like.xchunks.sum (fun c => img c.2) none (some fill) false, rt.2)

/-- `rasterize` with `mask=True` (the null value is not checked and set at the end, `rasterize.py:450-460`, `498-500`). -/
def rasterizeMask (np : NumPy) (ext : Ext G) (t : Table G) (like : Like G) (invert : Bool) (null : Option NullArg)
    (crsDiffers aware : Bool) : Except Err (Raster × Table G) :=
  if !hasBoxes like then .error .oneDim else
  let rt := regionsFor ext like t crsDiffers aware
  match maskData ext like invert t.parts rt.1 with
  | .error e => .error e
  | .ok img =>
    let r := ofData u8 1 like.ychunks.sum like.xchunks.sum (fun c => img c.2) none (some ⟨u8, .fin 0⟩) false
    match null with
    | none => .ok (r, rt.2)
    | some v =>
      match r.setNullValue np (some v) with
      | .error e => .error e
      | .ok r' => .ok (r', rt.2)

end Verif.Rasterize
