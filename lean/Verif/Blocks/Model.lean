import Verif.Focal.Model

/-!
# Model of `map_blocks` and `map_overlap` (`blocks.py`)

Python arguments are reduced to the distinctions the code makes.  `is_int` (`dtypes.py:59-62`) holds for python ints,
python bools (`True` is 1) and NumPy integers, all of which are `int` here.  The function that is mapped is a parameter;
it gets its blocks and returns a block (with the mask that is used with `return_mask=True`), and is assumed to return
data of the dtype that dask was told or inferred and of the shape of its input (but for the bands with `out_bands`).  A
function that takes no masks is one that ignores them.  `dask` is
modelled by its documented effect: a block is the chunk with a margin, the margin of the result is cut off.  Not
modelled: the check of `dtype` against `meta` and of the names in `**kwargs`, `xarray` wrapping, the automatic choice of
chunk sizes.
-/

namespace Verif.Blocks

open Verif Verif.Nulls DType

/-! ### The depth argument -/

/-- A member of a tuple. -/
inductive Elem where
  | int (n : Int)
  | other
deriving DecidableEq, Repr

/-- The depth given for one axis. -/
inductive AxisArg where
  | int (n : Int)
  | tuple (l : List Elem)
  | other
deriving DecidableEq, Repr

/-- A key of a `dict`; numbers are compared by value. -/
inductive Key where
  | num (q : Rat)
  | other
deriving DecidableEq, Repr

/-- The argument `depth`. -/
inductive DepthArg where
  | int (n : Int)
  | tuple (l : List AxisArg)
  | dict (l : List (Key × AxisArg))
  | other
deriving DecidableEq, Repr

/-- The normalised depth of one axis: an int, or a tuple. -/
inductive AxisDepth where
  | same (n : Int)
  | pair (before after : Int)
deriving DecidableEq, Repr

/-- The `dict` that `_normalize_depth` returns. -/
structure Depth where
  band : AxisDepth
  y : AxisDepth
  x : AxisDepth
deriving DecidableEq, Repr

/-- `blocks.py:1020-1036` `_normalize_depth_axis`. -/
def normalizeAxis : AxisArg → Except Err AxisDepth
  | .int n => if n < 0 then .error .value else .ok (.same n)
  | .tuple [.int a, .int b] => if a < 0 ∨ b < 0 then .error .value else .ok (.pair a b)
  | _ => .error .type

/-- `blocks.py:1047-1049`: `axis in (0, 1, 2)`. -/
def Key.axis : Key → Option Nat
  | .num q => if q = 0 then some 0 else if q = 1 then some 1 else if q = 2 then some 2 else none
  | .other => none

/-- `out[axis] = value`. -/
def Depth.store (out : Depth) (axis : Nat) (d : AxisDepth) : Depth :=
  match axis with
  | 0 => { out with band := d }
  | 1 => { out with y := d }
  | _ => { out with x := d }

/-- `blocks.py:1045-1055` the loop over a `dict` and the check of the band axis. -/
def normalizeDict : List (Key × AxisArg) → Depth → Except Err Depth
  | [], out => if out.band = .same 0 then .ok out else .error .value
  | (key, v) :: l, out =>
    match key.axis with
    | none => .error .value
    | some a =>
      match normalizeAxis v with
      | .error e => .error e
      | .ok d => normalizeDict l (out.store a d)

/-- `blocks.py:1039-1066` `_normalize_depth`. -/
def normalizeDepth : DepthArg → Except Err Depth
  | .dict l => normalizeDict l ⟨.same 0, .same 0, .same 0⟩
  | .int n =>
    match normalizeAxis (.int n) with
    | .error e => .error e
    | .ok d => .ok ⟨.same 0, d, d⟩
  | .tuple [dy, dx] =>
    match normalizeAxis dy, normalizeAxis dx with
    | .error e, _ => .error e
    | _, .error e => .error e
    | .ok y, .ok x => .ok ⟨.same 0, y, x⟩
  | _ => .error .type

/-- Cells added on the low side of a block. -/
def AxisDepth.before : AxisDepth → Int
  | .same n => n
  | .pair a _ => a

/-- Cells added on the high side of a block. -/
def AxisDepth.after : AxisDepth → Int
  | .same n => n
  | .pair _ b => b

/-- `isinstance(d, tuple)`. -/
def AxisDepth.isPair : AxisDepth → Bool
  | .same _ => false
  | .pair _ _ => true

/-! ### The boundary argument -/

/-- The argument `boundary`. -/
inductive Boundary where
  | none
  | str (s : String)
  | num (v : Num)
deriving DecidableEq, Repr

/-- `s.lower()`; letters outside of ASCII do not matter for the comparisons made. -/
def lower (s : String) : List Char := s.toList.map Char.toLower

/-- `blocks.py:1017` `_NULL_BOUNDARIES`. -/
def isNullName (s : String) : Bool :=
  lower s = "null".toList || lower s = "null_value".toList || lower s = "nodata".toList

/-- `blocks.py:992-1011` `_check_asymmetric_depth_compatible_with_boundary`. -/
def checkAsymmetric (d : Depth) (b : Boundary) : Except Err Unit :=
  match b with
  | .none => .ok ()
  | .str s => if lower s = "none".toList then .ok () else
      if d.y.isPair || d.x.isPair then .error .value else .ok ()
  | .num _ => if d.y.isPair || d.x.isPair then .error .value else .ok ()

/-- What dask puts around an array; `absent` is `None` or `"none"`. -/
inductive Pad (α : Type) where
  | absent
  | reflect
  | periodic
  | nearest
  | fill (v : α)
deriving DecidableEq, Repr

/-- `blocks.py:1203-1209` the names in `_NAMED_BOUNDARIES` (`blocks.py:1014`). -/
def namedPad (s : List Char) (α : Type) : Option (Pad α) :=
  if s = "none".toList then some .absent
  else if s = "reflect".toList then some .reflect
  else if s = "periodic".toList then some .periodic
  else if s = "nearest".toList then some .nearest
  else none

/-- `blocks.py:1186-1220` `_resolve_boundary`: the boundary of the data and of the mask. -/
def resolveBoundary (b : Boundary) (r : Raster) : Except Err (Pad Num × Pad Bool) :=
  match b with
  | .none => .ok (.absent, .absent)
  | .str s =>
    if isNullName s then .ok (.fill (r.nv.getD (defaultNull r.dtype)).val, .fill true)
    else match namedPad (lower s) Num, namedPad (lower s) Bool with
      | some p, some q => .ok (p, q)
      | _, _ => .error .value
  | .num v =>
    match r.nv with
    | none => .ok (.fill v, .fill false)
    | some s => if Num.nanEqual v s.val then .ok (.fill v, .fill true) else .ok (.fill v, .fill false)

/-- The boundaries of all the rasters. -/
def resolveBoundaries (b : Boundary) : List Raster → Except Err (List (Pad Num × Pad Bool))
  | [] => .ok []
  | r :: rs =>
    match resolveBoundary b r, resolveBoundaries b rs with
    | .error e, _ => .error e
    | _, .error e => .error e
    | .ok p, .ok ps => .ok (p :: ps)

/-- The index that is read at a position up to one array length beyond the ends (`dask/array/overlap.py` `periodic`,
`reflect`, `nearest`); `none` for a constant or where there is nothing. -/
def Pad.index {α : Type} (p : Pad α) (n : Nat) (i : Int) : Option Int :=
  if 0 ≤ i ∧ i < n then some i
  else match p with
    | .reflect => some (if i < 0 then -1 - i else 2 * n - 1 - i)
    | .nearest => some (if i < 0 then 0 else n - 1)
    | .periodic => some (i % n)
    | _ => none

/-- An array with its margin; the constant is converted to the dtype of the array by `conv`. -/
def Pad.extend {α : Type} (p : Pad α) (conv : α → α) (ny nx : Nat) (data : Nat → Nat → α) (r c : Int) : α :=
  match p.index ny r, p.index nx c, p with
  | some i, some j, _ => data i.toNat j.toNat
  | _, _, .fill v => conv v
  | _, _, _ => data 0 0

/-! ### Null value and bands of the result -/

/-- The argument `null_value`. -/
inductive NullArg where
  | none
  | str
  | scalar (s : Scalar)
deriving DecidableEq, Repr

/-- `blocks.py:961-989` `_resolve_out_null_value`. -/
def resolveOutNull (arg : NullArg) (refDtype : DType) (refNull : Option Scalar) (nrasters : Nat) (outDtype : DType) :
    Except Err (Option Scalar) :=
  match arg with
  | .none => if nrasters = 1 ∧ refDtype = outDtype then .ok refNull else .ok (some (defaultNull outDtype))
  | .str => .error .value
  | .scalar s => .ok (some s)

/-- How the mapped function is called. -/
structure Options where
  /-- the function has a parameter `out_null_value` -/
  wantsOutNull : Bool
  /-- `dtype=` or `meta=` is given -/
  hinted : Bool
  returnMask : Bool
deriving DecidableEq, Repr

/-- `blocks.py:860-887`, `1711-1728`: the null value passed to the function.  With `return_mask=True` and no hint the
dtype in `block_info` is the structured one of `_pack_data_mask`, for which `get_default_null_value`
(`masking.py:63-66`) raises `KeyError`. -/
def checkWrapper (arg : NullArg) (o : Options) : Except Err Unit :=
  if o.wantsOutNull ∧ o.returnMask ∧ ¬o.hinted ∧ arg = .none then .error .key else .ok ()

/-- The argument `out_bands`. -/
inductive BandsArg where
  | none
  | int (n : Int)
  | bool (b : Bool)
  | other
deriving DecidableEq, Repr

/-- `blocks.py:1090-1095` `_check_out_bands`. -/
def checkOutBands : BandsArg → Except Err (Option Nat)
  | .none => .ok none
  | .int n => if n < 1 then .error .value else .ok (some n.toNat)
  | _ => .error .value

/-! ### Blocks -/

/-- What the mapped function gets: the size of its blocks, their data and masks and the null values. -/
structure Call where
  nb : Nat
  rows : Nat
  cols : Nat
  data : List (Cell → Num)
  masks : List (Cell → Bool)
  nullValues : List (Option Scalar)
  outNull : Option Scalar

/-- What the function returns. -/
structure Out where
  nb : Nat
  data : Cell → Num
  mask : Cell → Bool

/-- First position of a block with its margin. -/
def low (absent : Bool) (start : Nat) (before : Int) : Int := if absent then max 0 (start - before) else start - before

/-- End of a block with its margin. -/
def high (absent : Bool) (n start size : Nat) (after : Int) : Int :=
  if absent then min n (start + size + after) else start + size + after

/-- There is nothing around the arrays. -/
def Boundary.isAbsent : Boundary → Bool
  | .none => true
  | .str s => lower s = "none".toList
  | .num _ => false

/-- The call for the block of the chunk that starts at `b0`, `r0`, `c0` with the given size. -/
def blockCall (np : NumPy) (absent : Bool) (d : Depth) (rs : List Raster) (pads : List (Pad Num × Pad Bool))
    (outNull : Option Scalar) (ny nx : Nat) (b r c : Nat × Nat) : Call :=
  { nb := b.2
    rows := (high absent ny r.1 r.2 d.y.after - low absent r.1 d.y.before).toNat
    cols := (high absent nx c.1 c.2 d.x.after - low absent c.1 d.x.before).toNat
    data := (rs.zip pads).map fun e cell =>
      e.2.1.extend (np.cast e.1.dtype) ny nx (fun i j => e.1.data (b.1 + cell.1, i, j))
        (low absent r.1 d.y.before + cell.2.1) (low absent c.1 d.x.before + cell.2.2)
    masks := (rs.zip pads).map fun e cell =>
      e.2.2.extend id ny nx (fun i j => e.1.mask (b.1 + cell.1, i, j))
        (low absent r.1 d.y.before + cell.2.1) (low absent c.1 d.x.before + cell.2.2)
    nullValues := rs.map (·.nv)
    outNull := outNull }

/-- Chunk sizes along the three axes. -/
structure Chunks where
  bands : List Nat
  rows : List Nat
  cols : List Nat

/-- The value and the mask that the function returns for a cell of the raster. -/
def cellOut (np : NumPy) (func : Call → Out) (absent : Bool) (d : Depth) (rs : List Raster)
    (pads : List (Pad Num × Pad Bool)) (outNull : Option Scalar) (ny nx : Nat) (ch : Chunks) (cell : Cell) :
    Option (Num × Bool) :=
  match Focal.chunkOf ch.bands 0 cell.1, Focal.chunkOf ch.rows 0 cell.2.1, Focal.chunkOf ch.cols 0 cell.2.2 with
  | some b, some r, some c =>
    let out := func (blockCall np absent d rs pads outNull ny nx b r c)
    let i := ((cell.2.1 : Int) - low absent r.1 d.y.before).toNat
    let j := ((cell.2.2 : Int) - low absent c.1 d.x.before).toNat
    some (out.data (cell.1 - b.1, i, j), out.mask (cell.1 - b.1, i, j))
  | _, _, _ => none

/-- `data_to_raster_like` (`raster.py:1003-1052`) of the results of the blocks; with `return_mask` the mask is the one
returned and the null value is written where it is set, otherwise the mask is made from the data. -/
def assemble (outDtype : DType) (nb ny nx : Nat) (cells : Cell → Option (Num × Bool)) (nv : Option Scalar)
    (returnMask : Bool) : Raster :=
  ofData outDtype nb ny nx (fun c => ((cells c).map (·.1)).getD (.fin 0))
    (if returnMask then some fun c => ((cells c).map (·.2)).getD false else none) nv returnMask

/-- `blocks.py:1460-1535` `map_overlap`; `outDtype` is the dtype that dask finds for the result.  dask raises if a
margin is larger than the array.  `ch` are the chunks of the first raster, to which the others are rechunked. -/
def mapOverlap (np : NumPy) (func : Call → Out) (rs : List Raster) (depth : DepthArg) (b : Boundary) (nv : NullArg)
    (outDtype : DType) (o : Options) (ch : Chunks) : Except Err Raster :=
  match rs with
  | [] => .error .value
  | ref :: rest =>
    if rest.any (fun r => decide ((r.nb, r.ny, r.nx) ≠ (ref.nb, ref.ny, ref.nx))) then .error .value else
    match normalizeDepth depth with
    | .error e => .error e
    | .ok d =>
      match checkAsymmetric d b, resolveBoundaries b (ref :: rest),
          resolveOutNull nv ref.dtype ref.nv (ref :: rest).length outDtype, checkWrapper nv o with
      | .error e, _, _, _ => .error e
      | _, .error e, _, _ => .error e
      | _, _, .error e, _ => .error e
      | _, _, _, .error e => .error e
      | .ok (), .ok pads, .ok outNull, .ok () =>
        if max d.y.before d.y.after > ref.ny ∨ max d.x.before d.x.after > ref.nx then .error .value
        else .ok (assemble outDtype ref.nb ref.ny ref.nx
          (cellOut np func b.isAbsent d (ref :: rest) pads outNull ref.ny ref.nx ch) outNull o.returnMask)

/-- `blocks.py:713-793` `map_blocks`.  With `out_bands` the blocks hold all the bands (`blocks.py:1113-1141`) and
the function has to return that many (`blocks.py:888-911`, `938-943`); `ch` are the chunks used, of which the ones along
the bands do not matter then. -/
def mapBlocks (np : NumPy) (func : Call → Out) (rs : List Raster) (outBands : BandsArg) (nv : NullArg)
    (outDtype : DType) (o : Options) (ch : Chunks) : Except Err Raster :=
  match rs with
  | [] => .error .value
  | ref :: rest =>
    if rest.any (fun r => decide ((r.nb, r.ny, r.nx) ≠ (ref.nb, ref.ny, ref.nx))) then .error .value else
    match checkOutBands outBands, resolveOutNull nv ref.dtype ref.nv (ref :: rest).length outDtype,
        checkWrapper nv o with
    | .error e, _, _ => .error e
    | _, .error e, _ => .error e
    | _, _, .error e => .error e
    | .ok none, .ok outNull, .ok () =>
      .ok (assemble outDtype ref.nb ref.ny ref.nx
        (cellOut np func true ⟨.same 0, .same 0, .same 0⟩ (ref :: rest)
          ((ref :: rest).map fun _ => (.absent, .absent)) outNull ref.ny ref.nx ch) outNull o.returnMask)
    | .ok (some n), .ok outNull, .ok () =>
      if wrongBands np func (ref :: rest) outNull ref.nb ref.ny ref.nx n ch then .error .value
      else .ok (assemble outDtype n ref.ny ref.nx (cellOutBands np func (ref :: rest) outNull ref.nb ref.ny ref.nx ch)
        outNull o.returnMask)
where
  /-- The call for the block at a row and column chunk, with all the bands. -/
  allBands (np : NumPy) (rs : List Raster) (outNull : Option Scalar) (nb ny nx : Nat) (r c : Nat × Nat) : Call :=
    blockCall np true ⟨.same 0, .same 0, .same 0⟩ rs (rs.map fun _ => (.absent, .absent)) outNull ny nx (0, nb) r c
  /-- A block has the wrong number of bands. -/
  wrongBands (np : NumPy) (func : Call → Out) (rs : List Raster) (outNull : Option Scalar) (nb ny nx n : Nat)
      (ch : Chunks) : Bool :=
    (List.range ny).any fun i => (List.range nx).any fun j =>
      match Focal.chunkOf ch.rows 0 i, Focal.chunkOf ch.cols 0 j with
      | some r, some c => decide ((func (allBands np rs outNull nb ny nx r c)).nb ≠ n)
      | _, _ => false
  /-- A cell of the result. -/
  cellOutBands (np : NumPy) (func : Call → Out) (rs : List Raster) (outNull : Option Scalar) (nb ny nx : Nat)
      (ch : Chunks) (cell : Cell) : Option (Num × Bool) :=
    match Focal.chunkOf ch.rows 0 cell.2.1, Focal.chunkOf ch.cols 0 cell.2.2 with
    | some r, some c =>
      let out := func (allBands np rs outNull nb ny nx r c)
      some (out.data (cell.1, cell.2.1 - r.1, cell.2.2 - c.1), out.mask (cell.1, cell.2.1 - r.1, cell.2.2 - c.1))
    | _, _ => none

end Verif.Blocks
