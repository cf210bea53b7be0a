import Verif.Blocks.Geo
import Verif.Boxes.Props
set_option linter.unusedSectionVars false
/-!
# Model of `geo_map_blocks` and `geo_map_overlap` (`blocks.py`)

The blocks are the ones of `map_blocks` and `map_overlap` (`Verif.Blocks.Model`); they are passed on with the coordinates
that their `GeoBlockInfo` gives them.  Simplifications: exact numbers; the null value that is attached as `nodata` is the one
in `Call.nullValues`; the checks of keyword arguments are left out; what is raised when the blocks are computed is raised
at once; only axis-aligned grids have coordinates (odc-geo).
-/

namespace Verif.GeoBlocks

open Verif Verif.Nulls Verif.Blocks

/-- A raster with its grid. -/
structure Input where
  raster : Raster
  box : Boxes.GeoBox

/-- What the mapped function gets: the blocks, the coordinates along their axes, the CRS, and the `geo_block_info`. -/
structure GeoCall where
  call : Call
  band : Nat → Int
  y : Nat → Rat
  x : Nat → Rat
  crs : Nat
  info : Grid.GeoBlockInfo Rat

/-- `blocks.py:139-190` `to_dataarray`: the arrays have to be of the shape of the block (the masks have the shape of the data).
The coordinates are the ones of `blocks.py:131-141`. -/
def toDataarray (crs : Nat) (info : Grid.GeoBlockInfo Rat) (call : Call) : Except Err GeoCall :=
  if ((call.nb : Int), (call.rows : Int), (call.cols : Int)) ≠ info.shape then .error .value
  else .ok ⟨call, fun k => info.bandSlice.1 + k, info.y, info.x, crs, info⟩

/-- `blocks.py:1566-1590` `_resolve_gbi_no_pad` or `_resolve_gbi_with_overlap_pad`. -/
def resolveInfo (overlap : Bool) (base : Grid.GeoBlockInfo Rat) (call : Call) : Option (Grid.GeoBlockInfo Rat) :=
  if overlap then resolveGbiWithOverlapPad base call.rows call.cols else some base

/-- `blocks.py:1656-1751` the wrapper of `_build_geo_wrapper`. -/
def wrapper (func : GeoCall → Out) (overlap : Bool) (crs : Nat) (base : Grid.GeoBlockInfo Rat) (call : Call) :
    Except Err Out :=
  match resolveInfo overlap base call with
  | none => .error .value
  | some info =>
    match toDataarray crs info call with
    | .error e => .error e
    | .ok gc => .ok (func gc)

/-- dask's `chunk-location` along an axis, of the chunk that holds position `p`. -/
def chunkIndex : List Nat → Nat → Nat → Option Nat
  | [], _, _ => none
  | n :: ns, start, p => if p < start + n then some 0 else (chunkIndex ns (start + n) p).map (· + 1)

/-- The first raster with its chunks, for `geo_block_infos` (`blocks.py:275-303`). -/
def gridOf (box : Boxes.GeoBox) (ch : Chunks) : Grid.Raster Rat Unit :=
  ⟨ch.bands, ch.rows, ch.cols, ⟨box.a, box.b, box.c, box.d, box.e, box.f⟩, false, fun _ _ _ => (), fun _ _ _ => false⟩

/-- `blocks.py:1567` the lookup of the block info by the chunk location. -/
def baseInfo (box : Boxes.GeoBox) (ch : Chunks) (cell : Cell) : Option (Grid.GeoBlockInfo Rat) :=
  match chunkIndex ch.bands 0 cell.1, chunkIndex ch.rows 0 cell.2.1, chunkIndex ch.cols 0 cell.2.2 with
  | some kb, some ky, some kx => Grid.geoBlockInfo (gridOf box ch) (kb, ky, kx)
  | _, _, _ => none

/-- The value and the mask that the wrapper returns for a cell of the raster. -/
def geoCell (np : NumPy) (func : GeoCall → Out) (overlap absent : Bool) (d : Depth) (rs : List Raster)
    (pads : List (Pad Num × Pad Bool)) (outNull : Option Scalar) (ny nx : Nat) (box : Boxes.GeoBox) (ch : Chunks)
    (cell : Cell) : Except Err (Num × Bool) :=
  match Focal.chunkOf ch.bands 0 cell.1, Focal.chunkOf ch.rows 0 cell.2.1, Focal.chunkOf ch.cols 0 cell.2.2,
      baseInfo box ch cell with
  | some b, some r, some c, some base =>
    match wrapper func overlap box.crs base (blockCall np absent d rs pads outNull ny nx b r c) with
    | .error e => .error e
    | .ok out =>
      let i := ((cell.2.1 : Int) - low absent r.1 d.y.before).toNat
      let j := ((cell.2.2 : Int) - low absent c.1 d.x.before).toNat
      .ok (out.data (cell.1 - b.1, i, j), out.mask (cell.1 - b.1, i, j))
  | _, _, _, _ => .error .index

/-- The exception, if there is one. -/
def failure {α : Type} : Except Err α → Option Err
  | .error e => some e
  | .ok _ => none

/-- The value, if there is one. -/
def result {α : Type} : Except Err α → Option α
  | .error _ => none
  | .ok a => some a

/-- The raster made of the cells, unless a block raises. -/
def gather (outDtype : DType) (nb ny nx : Nat) (cells : Cell → Except Err (Num × Bool)) (nv : Option Scalar)
    (returnMask : Bool) : Except Err Raster :=
  match (Grid.ndindex nb ny nx).findSome? fun c => failure (cells c) with
  | some e => .error e
  | none => .ok (assemble outDtype nb ny nx (fun c => result (cells c)) nv returnMask)

/-- The result gets the grid of the first raster (`data_to_raster_like`, `raster.py:1003-1052`). -/
def onGrid (box : Boxes.GeoBox) : Except Err Raster → Except Err Input
  | .error e => .error e
  | .ok r => .ok ⟨r, box⟩

/-- `blocks.py:2408-2489` `geo_map_overlap`; see `Blocks.mapOverlap`. -/
def geoMapOverlap (np : NumPy) (func : GeoCall → Out) (ins : List Input) (depth : DepthArg) (b : Boundary) (nv : Blocks.NullArg)
    (outDtype : DType) (o : Options) (ch : Chunks) : Except Err Input :=
  match ins with
  | [] => .error .value
  | first :: rest =>
    let ref := first.raster
    let rs := ref :: rest.map (·.raster)
    if (rest.map (·.raster)).any (fun r => decide ((r.nb, r.ny, r.nx) ≠ (ref.nb, ref.ny, ref.nx))) then .error .value else
    if !Boxes.allSame (first.box :: rest.map (·.box)) then .error .value else
    match normalizeDepth depth with
    | .error e => .error e
    | .ok d =>
      match checkAsymmetric d b, resolveBoundaries b rs, resolveOutNull nv ref.dtype ref.nv rs.length outDtype,
          checkWrapper nv o with
      | .error e, _, _, _ => .error e
      | _, .error e, _, _ => .error e
      | _, _, .error e, _ => .error e
      | _, _, _, .error e => .error e
      | .ok (), .ok pads, .ok outNull, .ok () =>
        if max d.y.before d.y.after > ref.ny ∨ max d.x.before d.x.after > ref.nx then .error .value
        else onGrid first.box (gather outDtype ref.nb ref.ny ref.nx
          (geoCell np func true b.isAbsent d rs pads outNull ref.ny ref.nx first.box ch) outNull o.returnMask)

/-- The call for a block with all the bands, and the chunks that go with it (`blocks.py:1113-1141`). -/
def wholeBands (ch : Chunks) (nb : Nat) : Chunks := ⟨[nb], ch.rows, ch.cols⟩

/-- A cell of the result with `out_bands`: the function has to return that many bands (`blocks.py:1740-1750`). -/
def geoCellBands (np : NumPy) (func : GeoCall → Out) (rs : List Raster) (outNull : Option Scalar) (nb ny nx n : Nat)
    (box : Boxes.GeoBox) (ch : Chunks) (cell : Cell) : Except Err (Num × Bool) :=
  match Focal.chunkOf ch.rows 0 cell.2.1, Focal.chunkOf ch.cols 0 cell.2.2,
      baseInfo box (wholeBands ch nb) (0, cell.2) with
  | some r, some c, some base =>
    match wrapper func false box.crs base (mapBlocks.allBands np rs outNull nb ny nx r c) with
    | .error e => .error e
    | .ok out =>
      if out.nb ≠ n then .error .value
      else .ok (out.data (cell.1, cell.2.1 - r.1, cell.2.2 - c.1), out.mask (cell.1, cell.2.1 - r.1, cell.2.2 - c.1))
  | _, _, _ => .error .index

/-- `blocks.py:2063-2139` `geo_map_blocks`; see `Blocks.mapBlocks`. -/
def geoMapBlocks (np : NumPy) (func : GeoCall → Out) (ins : List Input) (outBands : BandsArg) (nv : Blocks.NullArg)
    (outDtype : DType) (o : Options) (ch : Chunks) : Except Err Input :=
  match ins with
  | [] => .error .value
  | first :: rest =>
    let ref := first.raster
    let rs := ref :: rest.map (·.raster)
    if (rest.map (·.raster)).any (fun r => decide ((r.nb, r.ny, r.nx) ≠ (ref.nb, ref.ny, ref.nx))) then .error .value else
    if !Boxes.allSame (first.box :: rest.map (·.box)) then .error .value else
    match checkOutBands outBands, resolveOutNull nv ref.dtype ref.nv rs.length outDtype, checkWrapper nv o with
    | .error e, _, _ => .error e
    | _, .error e, _ => .error e
    | _, _, .error e => .error e
    | .ok none, .ok outNull, .ok () =>
      onGrid first.box (gather outDtype ref.nb ref.ny ref.nx
        (geoCell np func false true ⟨.same 0, .same 0, .same 0⟩ rs (rs.map fun _ => (.absent, .absent)) outNull ref.ny ref.nx
          first.box ch) outNull o.returnMask)
    | .ok (some n), .ok outNull, .ok () =>
      onGrid first.box (gather outDtype n ref.ny ref.nx
        (geoCellBands np func rs outNull ref.nb ref.ny ref.nx n first.box ch) outNull o.returnMask)

end Verif.GeoBlocks
