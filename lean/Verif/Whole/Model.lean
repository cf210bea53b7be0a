import Verif.Nulls.RasterModel
import Verif.Stats.Model

/-!
# Model of the reductions of a raster to one number (`raster.py:70-138`, `dask_utils.py:5-49`)

`data[~mask]` is a one-dimensional dask array of the valid cells, in blocks of any sizes, also empty ones.  dask reduces every
block with a `chunk` function, combines groups of `split_every` neighbouring results as often as needed, and aggregates what is
left (`dask.array.reductions.reduction` and `_tree_reduce`, here for any number of rounds and any group size in each).  A result
is a list: one number, or nothing for the empty array.  Sums and products are exact.
-/

namespace Verif.Whole

open Verif Verif.Nulls

/-- `toolz.partition_all`. -/
def groupsFrom {α : Type} (k : Nat) : Nat → List α → List (List α)
  | 0, _ => []
  | _ + 1, [] => []
  | f + 1, a :: l => (a :: l).take k :: groupsFrom k f ((a :: l).drop k)

def groups {α : Type} (k : Nat) (l : List α) : List (List α) := groupsFrom (max k 1) l.length l

/-- One round of `_tree_reduce`: the groups are concatenated and combined. -/
def combineRound {β : Type} (agg : List β → List β) (parts : List (List β)) (k : Nat) : List (List β) :=
  (groups k parts).map fun g => agg g.flatten

/-- `dask.array.reductions.reduction`. -/
def treeReduce {α β : Type} (chunk : List α → List β) (agg : List β → List β) (ks : List Nat) (blocks : List (List α)) : List β :=
  agg (ks.foldl (combineRound agg) (blocks.map chunk)).flatten

/-- The better of two numbers of which NaN is none. -/
def pick (better : Num → Num → Bool) (a b : Num) : Num :=
  if a.isnan then b else if b.isnan then a else if better b a then b else a

/-- `np.nanmin` and `np.nanmax` of a non-empty array: NaN if there is nothing else. -/
def nanBest (better : Num → Num → Bool) (l : List Num) : Num := l.foldr (pick better) .nan

/-- `dask_utils.py:5-15` `_handle_empty`. -/
def handleEmpty (f : List Num → Num) (l : List Num) : List Num := if 0 < l.length then [f l] else []

/-- `dask_utils.py:26-36` `dask_nanmin`. -/
def daskNanmin (ks : List Nat) (blocks : List (List Num)) : List Num :=
  treeReduce (handleEmpty (nanBest Stats.lt)) (handleEmpty (nanBest Stats.lt)) ks blocks

/-- `dask_utils.py:39-49` `dask_nanmax`. -/
def daskNanmax (ks : List Nat) (blocks : List (List Num)) : List Num :=
  treeReduce (handleEmpty (nanBest fun a b => Stats.lt b a)) (handleEmpty (nanBest fun a b => Stats.lt b a)) ks blocks

/-- Addition of floating point numbers without rounding. -/
def add : Num → Num → Num
  | .fin a, .fin b => .fin (a + b)
  | .nan, _ => .nan
  | _, .nan => .nan
  | .posInf, .negInf => .nan
  | .negInf, .posInf => .nan
  | .posInf, _ => .posInf
  | _, .posInf => .posInf
  | .negInf, _ => .negInf
  | _, .negInf => .negInf

def sum (l : List Num) : Num := l.foldr add (.fin 0)

/-- `np.nansum`. -/
def nansum (l : List Num) : Num := sum (l.map fun v => if v.isnan then .fin 0 else v)

/-- `da.nansum`. -/
def daskNansum (ks : List Nat) (blocks : List (List Num)) : List Num :=
  treeReduce (fun l => [nansum l]) (fun l => [sum l]) ks blocks

/-- `da.nanmean`: the sum and the number of numbers. -/
def meanChunk (l : List Num) : Num × Nat := (nansum l, (l.filter fun v => !v.isnan).length)

def meanCombine (l : List (Num × Nat)) : Num × Nat := (sum (l.map (·.1)), (l.map (·.2)).sum)

/-- Division by a count; `0 / 0` is NaN. -/
def divide : Num → Nat → Num
  | .fin a, n + 1 => .fin (a / (n + 1 : Nat))
  | v, _ + 1 => v
  | .fin 0, 0 => .nan
  | .fin a, 0 => if 0 < a then .posInf else .negInf
  | v, 0 => v

def daskNanmean (ks : List Nat) (blocks : List (List Num)) : List Num :=
  (treeReduce (fun l => [meanChunk l]) (fun l => [meanCombine l]) ks blocks).map fun p => divide p.1 p.2

/-- Truth of a number; NaN is true. -/
def truthy (v : Num) : Bool := !(v.eq (.fin 0))

/-- `da.all` and `da.any`. -/
def daskAll (ks : List Nat) (blocks : List (List Num)) : List Bool :=
  treeReduce (fun l => [l.all truthy]) (fun l => [l.all id]) ks blocks

def daskAny (ks : List Nat) (blocks : List (List Num)) : List Bool :=
  treeReduce (fun l => [l.any truthy]) (fun l => [l.any id]) ks blocks

/-- `raster.py:131-135` `data[~mask]`: the valid values in C order. -/
def validValues (r : Raster) : List Num :=
  (List.range r.nb).flatMap fun b => (List.range r.ny).flatMap fun y =>
    ((List.range r.nx).filter fun x => !r.mask (b, y, x)).map fun x => r.data (b, y, x)

end Verif.Whole
