import Verif.Base.FVal
import Mathlib.Order.Lattice
import Mathlib.Order.Defs.LinearOrder
import Mathlib.Algebra.Group.Defs

/-!
# Model of `raster_tools/_mosaic.py`

Everything in the mosaic after reprojection happens cell by cell, so the model looks at one cell: the
stack of the layers is the list of the values the layers hold at that cell.  Simplification: the null
value is assumed to be representable in the output data type, and additions are those of `V` (exact
numbers, or wrapping integers such as `ZMod 256`).
-/

namespace Verif.Mosaic

open Verif

/-- `_mosaic.py:174` the accepted methods. -/
inductive Method where
  | first | last | min | max | sum
deriving DecidableEq, Repr

/-- What the value type provides: the test against the null value (`raster.py:485-505`,
`_mosaic.py:26-30`, `43`), the reductions used for 'min' and 'max' on masked layers
(`_mosaic.py:106-114`) and the sum (`_mosaic.py:119-123`). -/
structure Ops (V : Type) where
  nodata : V
  isMissing : V → Bool
  /-- `filled` value and reduction of the 'min' method, `_mosaic.py:107-108`, `110-113`. -/
  fillMin : V
  redMin : V → V → V
  fillMax : V
  redMax : V → V → V
  zero : V
  add : V → V → V

variable {V : Type}

/-- The loop of `_nb_push`, `_mosaic.py:23-32`, at one cell: layer `i` takes over layer `i - 1`
(already processed) if it is missing. -/
def pushFrom (O : Ops V) (prev : V) : List V → List V
  | [] => []
  | x :: xs =>
    let y := if O.isMissing x then prev else x
    y :: pushFrom O y xs

/-- `_nb_push`/`_push`, `_mosaic.py:20-39`.  Layer 0 is left as it is. -/
def push (O : Ops V) : List V → List V
  | [] => []
  | x :: xs => x :: pushFrom O x xs

/-- `_push_binop_last`, `_mosaic.py:42-44`. -/
def pushBinop (O : Ops V) (lhs rhs : V) : V := if O.isMissing rhs then lhs else rhs

/-- `_push_take_last`, `_mosaic.py:47-50`: `[-1:]` of the pushed block; `none` for an empty block. -/
def pushTakeLast (O : Ops V) (xs : List V) : Option V := (push O xs).getLast?

/-- `_dask_push_take_last`, `_mosaic.py:75-76`, when the whole stack is one block. -/
def paintPush (O : Ops V) (stack : List V) : Option V := (push O stack).getLast?

/-- A tree of `binop` calls of dask's prefix scan: leaves are the block summaries. -/
inductive Tree (V : Type) where
  | leaf (v : V)
  | node (l r : Tree V)

/-- The leaves from left to right. -/
def Tree.leaves : Tree V → List V
  | .leaf v => [v]
  | .node l r => l.leaves ++ r.leaves

/-- The value `binop` gives. -/
def Tree.eval (f : V → V → V) : Tree V → V
  | .leaf v => v
  | .node l r => f (l.eval f) (r.eval f)

/-- One block of `da.reductions.cumreduction(method="blelloch")`, `_mosaic.py:63-72`: the first block
is `func(x)`, every other one is `binop(prefix, func(x))` where `prefix` is a tree over the summaries
(`preop`) of the blocks before. -/
def scanBlock (O : Ops V) (pre : Option (Tree V)) (block : List V) : List V :=
  match pre with
  | none => push O block
  | some t => (push O block).map (pushBinop O (t.eval (pushBinop O)))

/-- Reduction of a non-empty list with a binary operation, in list order (`da.min`, `da.nanmin`,
`da.sum` of one block). -/
def reduce (f : V → V → V) : List V → Option V
  | [] => none
  | x :: xs => some (xs.foldl f x)

/-- `_paint`, `_mosaic.py:79-128`, at one cell.  `none` stands for the error of an empty stack. -/
def paint (O : Ops V) (m : Method) (stack : List V) : Option V :=
  match m with
  | .first => paintPush O stack
  | .last => paintPush O stack.reverse
  | .min =>
    (reduce O.redMin (stack.map fun v => if O.isMissing v then O.fillMin else v)).map fun reduced =>
      if stack.all O.isMissing then O.nodata else reduced
  | .max =>
    (reduce O.redMax (stack.map fun v => if O.isMissing v then O.fillMax else v)).map fun reduced =>
      if stack.all O.isMissing then O.nodata else reduced
  | .sum =>
    (reduce O.add (stack.map fun v => if O.isMissing v then O.zero else v)).map fun summed =>
      if stack.all O.isMissing then O.nodata else summed

/-- `_paint_recursive`, `_mosaic.py:131-142`, at one cell. -/
def paintRecursive (O : Ops V) (m : Method) (stack : List V) : Option V :=
  if stack.length < 8 then paint O m stack
  else do
    let left ← paintRecursive O m (stack.take (stack.length / 2))
    let right ← paintRecursive O m (stack.drop (stack.length / 2))
    -- the concatenation has two layers, so the recursive call paints it directly
    paint O m [left, right]
termination_by stack.length
decreasing_by
  · simp only [List.length_take]; omega
  · simp only [List.length_drop]; omega

/-- `_mosaic_single_band`, `_mosaic.py:145-152`: the sources reversed, then the empty destination. -/
def singleBand (O : Ops V) (m : Method) (srcs : List V) : Option V :=
  paintRecursive O m (srcs.reverse ++ [O.nodata])

/-- `_mosaic`, `_mosaic.py:155-171`, at one cell.  A raster is the list of its band values; band `b` of
the result is made of the rasters that have a band `b`. -/
def mosaicBands (O : Ops V) (m : Method) (rasters : List (List V)) : List (Option V) :=
  let nbands := (rasters.map List.length).foldl Nat.max 0
  (List.range nbands).map fun b => singleBand O m (rasters.filterMap (·[b]?))

/-- `data_to_raster_like(data, dst, nv=nodata)`, `_mosaic.py:171`: the null mask of the result is
recovered from the data.  `none` is a null cell. -/
def decode (O : Ops V) (v : V) : Option V := if O.isMissing v then none else some v

/-- `mosaic`, `_mosaic.py:320-327`: the data of a reprojected, converted source (null cells hold the
null value). -/
def encode (O : Ops V) : Option V → V
  | none => O.nodata
  | some v => v

/-! ### The two kinds of data types -/

section Float

variable {K : Type} [LinearOrder K]

/-- `np.nanmin` of two values: NaN is ignored. -/
def nanmin2 : FVal K → FVal K → FVal K
  | .nan, b => b
  | a, .nan => a
  | .negInf, _ => .negInf
  | _, .negInf => .negInf
  | .posInf, b => b
  | a, .posInf => a
  | .fin a, .fin b => .fin (if a ≤ b then a else b)

/-- `np.nanmax` of two values: NaN is ignored. -/
def nanmax2 : FVal K → FVal K → FVal K
  | .nan, b => b
  | a, .nan => a
  | .posInf, _ => .posInf
  | _, .posInf => .posInf
  | .negInf, b => b
  | a, .negInf => a
  | .fin a, .fin b => .fin (if a ≤ b then b else a)

/-- Floating point addition without rounding. -/
def fadd [Add K] : FVal K → FVal K → FVal K
  | .nan, _ => .nan
  | _, .nan => .nan
  | .posInf, .negInf => .nan
  | .negInf, .posInf => .nan
  | .posInf, _ => .posInf
  | _, .posInf => .posInf
  | .negInf, _ => .negInf
  | _, .negInf => .negInf
  | .fin a, .fin b => .fin (a + b)

/-- IEEE `==`. -/
def feq : FVal K → FVal K → Bool
  | .fin a, .fin b => decide (a = b)
  | .posInf, .posInf => true
  | .negInf, .negInf => true
  | _, _ => false

/-- `np.isnan`. -/
def isnan : FVal K → Bool
  | .nan => true
  | _ => false

/-- Floating point layers: missing is `np.isnan(x) if np.isnan(nodata) else x == nodata`; missing
cells are filled with NaN for `nanmin`/`nanmax` (`_mosaic.py:107`). -/
def floatOps [Add K] [Zero K] (nodata : FVal K) : Ops (FVal K) where
  nodata := nodata
  isMissing := fun v => if isnan nodata then isnan v else feq v nodata
  fillMin := .nan
  redMin := nanmin2
  fillMax := .nan
  redMax := nanmax2
  zero := .fin 0
  add := fadd

end Float

/-- Integer layers with the limits `lo`, `hi` of the data type: missing cells are filled with the
limits (`_mosaic.py:110-113`).  The sum is the exact one; see `C12_sum_partial` for wrapping sums. -/
def intOps (lo hi nodata : Int) : Ops Int where
  nodata := nodata
  isMissing := fun v => decide (v = nodata)
  fillMin := hi
  redMin := fun a b => if a ≤ b then a else b
  fillMax := lo
  redMax := fun a b => if a ≤ b then b else a
  zero := 0
  add := fun a b => a + b

end Verif.Mosaic
