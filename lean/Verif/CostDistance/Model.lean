import Mathlib.Algebra.Order.Field.Basic
import Mathlib.Algebra.Order.Monoid.WithTop
import Verif.Base.Arr
import Verif.Base.FVal
import Verif.Heap.Model

/-!
# Model of `raster_tools/distance/cost_distance.py`

`_cost_distance_analysis_core` on top of the heap model, and the numpy level wrapper
`cost_distance_analysis_numpy`.

Simplifications: numbers are elements of an ordered field `R` (no rounding, no overflow to `inf`);
the square root is a parameter; elevations are finite numbers (a NaN or infinite elevation that is
not the null value is not modelled); int64 allocation values are unbounded integers.
-/

namespace Verif.CostDistance

open Verif

section
variable {R : Type} [Field R] [LinearOrder R]

/-- Arguments of `cost_distance_analysis_numpy` (`cost_distance.py:292-300`); two dimensional
arrays are functions of row and column. -/
structure Input (R : Type) where
  rows : Nat
  cols : Nat
  cost : Nat → Nat → FVal R
  source : Nat → Nat → Int
  sourcesNull : Int
  elev : Option (Nat → Nat → R)
  elevNull : R
  scaleRow : R
  scaleCol : R
  connectivity : Int

/-- `cost_distance.py:89-109`: `_MOVES`. -/
def moves : List (Int × Int) :=
  [(0, -1), (-1, -1), (-1, 0), (-1, 1), (0, 1), (1, 1), (1, 0), (1, -1)]

/-- `cost_distance.py:47-55`, `_get_strides` for a two dimensional shape: `values = [1, cols]`,
accumulated product `[1, cols]`, reversed `[cols, 1]`. -/
def strides (cols : Nat) : Nat × Nat :=
  let values : Nat × Nat := (1, cols)
  let acc : Nat × Nat := (values.1, values.1 * values.2)
  (acc.2, acc.1)

/-- `cost_distance.py:59-63`: flat offset of a move. -/
def flatMove (cols : Nat) (mv : Int × Int) : Int :=
  (strides cols).1 * mv.1 + (strides cols).2 * mv.2

/-- `ravel()` of a two dimensional array. -/
def ravel {α : Type _} (rows cols : Nat) (f : Nat → Nat → α) : Arr α :=
  ⟨rows * cols, fun i => f (i / cols) (i % cols)⟩

/-- State of the core: the heap, the three output arrays, and (ghost, not in the code) the cells
popped so far, latest first. -/
structure St (R : Type) where
  heap : Heap.State (WithTop R)
  dist : Arr (WithTop R)
  tb : Arr Int
  alloc : Arr Int
  popped : List Nat

/-- Arguments of the core (`cost_distance.py:114-126`).  `elev = none` is `use_elevation = False`
(then `flat_elev` is an empty array that is never read). -/
structure Core (R : Type) where
  rows : Nat
  cols : Nat
  costs : Arr (FVal R)
  sources : Arr Int
  sourcesNull : Int
  moveLen : Nat → R
  elev : Option (Arr R)
  elevNull : R
  useDiag : Bool
  sqrt : R → R

/-- Indices visited by `range(0, 8, step)` (`cost_distance.py:237-238`). -/
def moveIdx (useDiag : Bool) : List Nat := if useDiag then [0, 1, 2, 3, 4, 5, 6, 7] else [0, 2, 4, 6]

/-- `cost_distance.py:176-183`: put the sources on the heap. -/
def pushSources (C : Core R) (st : St R) : Option (St R) :=
  (List.range C.sources.size).foldlM (fun st i => do
    let src ← C.sources.read i
    if src ≠ C.sourcesNull then do
      let tb ← st.tb.write i (-1)
      let alloc ← st.alloc.write i src
      let r ← Heap.push st.heap 0 (i : Int)
      pure { st with heap := r.1, tb := tb, alloc := alloc }
    else pure st) st

/-- `cost_distance.py:262-268`: the length of the step to `ni`; `some none` means the neighbour's
elevation is null and the neighbour is skipped. -/
def stepLength (C : Core R) (index ni : Nat) (ml : R) : Option (Option R) :=
  match C.elev with
  | none => some (some ml)
  | some e => do
    let ev ← e.read index
    let nev ← e.read ni
    if nev = C.elevNull then some none
    else
      let dz := nev - ev
      some (some (C.sqrt (ml + dz * dz)))

/-- `cost_distance.py:249-288`: consider the neighbour with flat index `ni` reached by move `i`. -/
def visit (C : Core R) (cum : WithTop R) (cost : R) (src : Int) (index ni i : Nat) (st : St R) :
    Option (St R) := do
  let d ← st.dist.read ni
  if d ≠ ⊤ then some st
  else do
    let nc ← C.costs.read ni
    match nc with
    | .fin newCost =>
      if newCost < 0 then some st
      else do
        let len ← stepLength C index ni (C.moveLen i)
        match len with
        | none => some st
        | some len =>
          let newCum := cum + ((len * (1 / 2) * (cost + newCost) : R) : WithTop R)
          if newCum ≠ ⊤ then do
            let r ← Heap.pushIfLower st.heap newCum (ni : Int)
            if r.2 > 0 then do
              let tb ← st.tb.write ni (i : Int)
              let alloc ← st.alloc.write ni src
              pure { st with heap := r.1, tb := tb, alloc := alloc }
            else pure { st with heap := r.1 }
          else some st
    | .posInf => some st
    | .negInf => some st
    | .nan => some st

/-- `cost_distance.py:225-232, 239-248`: is the move blocked by the edge of the grid? -/
def badMove (C : Core R) (index : Nat) (mv : Int × Int) : Bool :=
  let r := (index / (strides C.cols).1) % C.rows
  let c := (index / (strides C.cols).2) % C.cols
  let top := decide (r = 0)
  let bottom := decide ((r : Int) = (C.rows : Int) - 1)
  let left := decide (c = 0)
  let right := decide ((c : Int) = (C.cols : Int) - 1)
  let isAtEdge := top || bottom || left || right
  isAtEdge && ((top && decide (mv.1 < 0)) || (bottom && decide (0 < mv.1)) ||
    (left && decide (mv.2 < 0)) || (right && decide (0 < mv.2)))

/-- `cost_distance.py:238-288`: body of the neighbour loop. -/
def tryMove (C : Core R) (cum : WithTop R) (cost : R) (src : Int) (index : Nat) (st : St R)
    (i : Nat) : Option (St R) := do
  let mv ← moves[i]?
  if badMove C index mv then some st
  else do
    let ni ← Heap.toIdx ((index : Int) + flatMove C.cols mv)
    visit C cum cost src index ni i st

/-- `cost_distance.py:218-222`: cost of the popped cell if its neighbours may be expanded. -/
def expandable (C : Core R) (index : Nat) : Option (Option R) := do
  let cost ← C.costs.read index
  match cost with
  | .fin cost =>
    if cost < 0 then some none
    else match C.elev with
      | none => some (some cost)
      | some e => do
        let ev ← e.read index
        if ev = C.elevNull then some none else some (some cost)
  | .posInf => some none
  | .negInf => some none
  | .nan => some none

/-- `cost_distance.py:200-288`: one iteration of the main loop with a non-empty heap. -/
def iterate (C : Core R) (st : St R) : Option (St R) := do
  let r ← Heap.pop st.heap
  let cum := r.2.1
  let index ← Heap.toIdx r.2.2
  let src ← st.alloc.read index
  let dist ← st.dist.write index cum
  let st : St R := { st with heap := r.1, dist := dist, popped := index :: st.popped }
  let cost ← expandable C index
  match cost with
  | none => some st
  | some cost => (moveIdx C.useDiag).foldlM (tryMove C cum cost src index) st

/-- `cost_distance.py:196-288`: `for it in range(maxiter)` with the break on an empty heap. -/
def mainLoop (C : Core R) : Nat → St R → Option (St R)
  | 0, st => some st
  | n + 1, st =>
    if st.heap.count = 0 then some st
    else do
      let st ← iterate C st
      mainLoop C n st

/-- `cost_distance.py:165`. -/
def maxiter (size : Nat) : Nat := size + size / 2

/-- `cost_distance.py:127-183`: arrays, heap and sources before the main loop. -/
def start (C : Core R) : Option (St R) := do
  let size := C.costs.size
  match Heap.initHeapData (K := WithTop R) 128 (max ((size : Int) - 1) 1) with
  | .error _ => none
  | .ok h =>
    pushSources C
      { heap := h
        dist := Arr.full size ⊤
        tb := Arr.full size (-2)
        alloc := Arr.full size C.sourcesNull
        popped := [] }

/-- `cost_distance.py:114-289` with an explicit iteration cap. -/
def coreWith (C : Core R) (cap : Nat) : Option (St R) := do
  let st ← start C
  mainLoop C cap st

/-- `cost_distance.py:114-289`. -/
def core (C : Core R) : Option (St R) := coreWith C (maxiter C.costs.size)

/-- The `ValueError`s of `cost_distance.py:405-409`. -/
inductive Err where
  | scaling
  | connectivity
deriving DecidableEq, Repr

/-- `cost_distance.py:412-421`: arguments passed to the core.  (`getD` is never used as a default:
`sq` is only read at the eight move indices.) -/
def mkCore (sqrt : R → R) (I : Input R) : Core R :=
  let sq : Nat → R := fun i =>
    let mv := moves[i]?.getD (0, 0)
    (I.scaleRow * (mv.1 : R)) * (I.scaleRow * (mv.1 : R)) +
      (I.scaleCol * (mv.2 : R)) * (I.scaleCol * (mv.2 : R))
  { rows := I.rows
    cols := I.cols
    costs := ravel I.rows I.cols I.cost
    sources := ravel I.rows I.cols I.source
    sourcesNull := I.sourcesNull
    moveLen := fun i => match I.elev with
      | none => sqrt (sq i)
      | some _ => sq i
    elev := I.elev.map (ravel I.rows I.cols)
    elevNull := I.elevNull
    useDiag := decide (I.connectivity = 8)
    sqrt := sqrt }

/-- The three arrays returned by `cost_distance_analysis_numpy`, reshaped to two dimensions. -/
structure Output (R : Type) where
  dist : Nat → Nat → WithTop R
  tb : Nat → Nat → Int
  alloc : Nat → Nat → Int

/-- `reshape(shape)`. -/
def reshape {α : Type _} (cols : Nat) (a : Arr α) : Nat → Nat → α := fun r c => a.get (r * cols + c)

/-- `cost_distance.py:405-443` (the shape checks are built into the types; `none` inside `ok` would
be an access outside an array). -/
def costDistance (sqrt : R → R) (I : Input R) : Except Err (Option (Output R)) :=
  if I.scaleRow ≤ 0 ∨ I.scaleCol ≤ 0 then .error .scaling
  else if ¬ (I.connectivity = 4 ∨ I.connectivity = 8) then .error .connectivity
  else .ok ((core (mkCore sqrt I)).map fun st =>
    { dist := reshape I.cols st.dist, tb := reshape I.cols st.tb
      alloc := reshape I.cols st.alloc })

end

end Verif.CostDistance
