import Mathlib.Order.BoundedOrder.Basic
import Mathlib.Order.Lattice
import Verif.Base.Arr

/-!
# Model of `raster_tools/distance/_heap.py`

An indexed min-heap stored as a tournament tree.  Function by function translation; `none`
stands for an access outside an array (undefined behaviour in the compiled code).

Simplifications: `int64`/`int8` fields are unbounded `Nat`s (the largest `levels` that fits in
memory is far below 127); keys are elements of a linear order with a top element `⊤` that
plays `np.inf`; NaN keys are not modelled (the only caller never pushes one, see
`Verif/CostDistance`).
-/

namespace Verif.Heap

open Verif

/-- `_heap.py:11-16` (`HEAP_SPEC`) together with the three arrays that travel with it. -/
structure State (K : Type _) where
  keys : Arr K
  values : Arr Int
  crossrefs : Arr Int
  maxValue : Nat
  levels : Nat
  minLevels : Nat
  count : Nat

/-- The two `ValueError`s of `_heap.py:38-41`. -/
inductive Err where
  | capacity
  | maxValue
deriving DecidableEq, Repr

/-- `_heap.py:50-51`: `while 2 ** levels < capacity: levels += 1`. -/
def growLevels (capacity levels : Nat) : Nat :=
  if h : 2 ^ levels < capacity then growLevels capacity (levels + 1) else levels
termination_by capacity - 2 ^ levels
decreasing_by
  have : 2 ^ levels < 2 ^ (levels + 1) := Nat.pow_lt_pow_right (by decide) (by omega)
  omega

section
variable {K : Type _} [LinearOrder K] [OrderTop K]

/-- `_heap.py:36-59`. -/
def initHeapData (capacity maxValue : Int) : Except Err (State K) :=
  if capacity < 1 then .error .capacity
  else if maxValue < 1 then .error .maxValue
  else
    let levels := growLevels capacity.toNat 1
    let n := 2 ^ levels
    .ok { keys := Arr.full (2 * n) ⊤
          values := Arr.full n (-1)
          crossrefs := Arr.full (maxValue.toNat + 1) (-1)
          maxValue := maxValue.toNat
          levels := levels
          minLevels := levels
          count := 0 }

/-- `i -= i % 2 == 0` (`_heap.py:65`, `_heap.py:71`).  For `i = 0` the Python index would become
`-1`; the model reports that as an invalid access. -/
def pairStart (i : Nat) : Option Nat :=
  if i = 0 then none else some (if i % 2 = 0 then i - 1 else i)

/-- Loop of `_heap.py:67-71`, `n` iterations left. -/
def siftLoop (keys : Arr K) : Nat → Nat → Option (Arr K)
  | 0, _ => some keys
  | n + 1, i => do
    let iplvl := (i - 1) / 2
    let a ← keys.read i
    let b ← keys.read (i + 1)
    let keys ← keys.write iplvl (min a b)
    let i ← pairStart iplvl
    siftLoop keys n i

/-- `_heap.py:63-71`. -/
def sift (keys : Arr K) (levels : Nat) (i : Nat) : Option (Arr K) := do
  let i ← pairStart i
  siftLoop keys (levels - 1) i

/-- `_heap.py:75-81`: `for i in range(ilvl, ilvl + n, 2)`. -/
def siftAll (keys : Arr K) (levels : Nat) : Option (Arr K) :=
  let ilvl := 2 ^ levels - 1
  let n := ilvl + 1
  (List.range ((n + 1) / 2)).foldlM (fun ks k => sift ks levels (ilvl + 2 * k)) keys

/-- `_heap.py:92-101`: the fresh arrays with the old leaves and values copied in. -/
def resizeArrays (h : State K) (newLevels : Nat) : Option (Arr K × Arr Int) :=
  let n := 2 ^ newLevels
  let newKeys : Arr K := Arr.full (2 * n) ⊤
  let newValues : Arr Int := Arr.full n (-1)
  if h.count ≠ 0 then do
    let inew := 2 ^ newLevels - 1
    let iold := 2 ^ h.levels - 1
    let n := min inew iold + 1
    let nk ← newKeys.copySlice inew h.keys iold n
    let nv ← newValues.copySlice 0 h.values 0 n
    pure (nk, nv)
  else pure (newKeys, newValues)

/-- `_heap.py:90-106`; the argument is `new_levels = levels + inc_dec`. -/
def resizeLevels (h : State K) (newLevels : Nat) : Option (State K) := do
  let r ← resizeArrays h newLevels
  let newKeys ← siftAll r.1 newLevels
  pure { h with keys := newKeys, values := r.2, levels := newLevels }

/-- A `crossrefs` index; negative indices would wrap around in numpy, the model rejects them. -/
def toIdx (v : Int) : Option Nat := if 0 ≤ v then some v.toNat else none

/-- `_heap.py:113-142`.  Only called with `count > 0` (`_heap.py:231`). -/
def remove (h : State K) (i : Nat) : Option (State K) := do
  let lvlStart := 2 ^ h.levels - 1
  let ilast := lvlStart + h.count - 1
  let iVal := i - lvlStart
  let iValLast := h.count - 1
  let value ← h.values.read iValLast
  let cr ← h.crossrefs.write (← toIdx value) (iVal : Int)
  let value ← h.values.read iVal
  let cr ← cr.write (← toIdx value) (-1)
  let keys ← h.keys.write i (← h.keys.read ilast)
  let values ← h.values.write iVal (← h.values.read iValLast)
  let keys ← keys.write ilast ⊤
  let count := h.count - 1
  let h := { h with keys := keys, values := values, crossrefs := cr, count := count }
  if h.minLevels < h.levels ∧ count < 2 ^ (h.levels - 2) then
    resizeLevels h (h.levels - 1)
  else do
    let keys ← sift keys h.levels i
    let keys ← sift keys h.levels ilast
    pure { h with keys := keys }

/-- `_heap.py:150-154`: grow by one level when the last level is full. -/
def ensureRoom (h : State K) : Option (State K) :=
  if 2 ^ h.levels ≤ h.count then resizeLevels h (h.levels + 1) else some h

/-- `_heap.py:149-161`; `value` has been checked to lie in `[0, max_value]` by the callers. -/
def simplePush (h : State K) (key : K) (value : Nat) : Option (State K) := do
  let h ← ensureRoom h
  let i := 2 ^ h.levels - 1 + h.count
  let keys ← h.keys.write i key
  let values ← h.values.write h.count (value : Int)
  let crossrefs ← h.crossrefs.write value (h.count : Int)
  let keys ← sift keys h.levels i
  pure { h with keys := keys, values := values, crossrefs := crossrefs, count := h.count + 1 }

/-- `_heap.py:170-186`: new heap and flag. -/
def push (h : State K) (key : K) (value : Int) : Option (State K × Int) :=
  if ¬ (0 ≤ value ∧ value ≤ h.maxValue) then some (h, -1)
  else do
    let v := value.toNat
    let ii ← h.crossrefs.read v
    if ii ≠ -1 then do
      let i := 2 ^ h.levels - 1 + (← toIdx ii)
      let keys ← h.keys.write i key
      let keys ← sift keys h.levels i
      pure ({ h with keys := keys }, 0)
    else do
      let h ← simplePush h key v
      pure (h, 1)

/-- `_heap.py:195-211`: new heap and flag. -/
def pushIfLower (h : State K) (key : K) (value : Int) : Option (State K × Int) :=
  if ¬ (0 ≤ value ∧ value ≤ h.maxValue) then some (h, -1)
  else do
    let v := value.toNat
    let icr ← h.crossrefs.read v
    if icr ≠ -1 then do
      let i := 2 ^ h.levels - 1 + (← toIdx icr)
      if key < (← h.keys.read i) then do
        let keys ← h.keys.write i key
        let keys ← sift keys h.levels i
        pure ({ h with keys := keys }, 1)
      else pure (h, 0)
    else do
      let h ← simplePush h key v
      pure (h, 1)

/-- `_heap.py:222-223`: trace the minimum through the levels, `n` levels left. -/
def trace (keys : Arr K) : Nat → Nat → Option Nat
  | 0, i => some i
  | n + 1, i => do
    let a ← keys.read i
    let b ← keys.read (i + 1)
    trace keys n (if a ≤ b then i * 2 + 1 else (i + 1) * 2 + 1)

/-- `_heap.py:218-233`: new heap, popped key and popped value. -/
def pop (h : State K) : Option (State K × K × Int) := do
  let i ← trace h.keys (h.levels - 1) 1
  let a ← h.keys.read i
  let b ← h.keys.read (i + 1)
  let i := if b < a then i + 1 else i
  let ii := i - (2 ^ h.levels - 1)
  let poppedKey ← h.keys.read i
  let poppedValue ← h.values.read ii
  let h ← if 0 < h.count then remove h i else pure h
  pure (h, poppedKey, poppedValue)

/-! ### Histories -/

/-- One call on the heap. -/
inductive Op (K : Type _) where
  | push (key : K) (value : Int)
  | pushIfLower (key : K) (value : Int)
  | pop

/-- What a call reports to its caller. -/
inductive Out (K : Type _) where
  | flag (f : Int)
  | popped (key : K) (value : Int)
deriving DecidableEq, Repr

/-- One call. -/
def step (h : State K) : Op K → Option (State K × Out K)
  | .push k v => (push h k v).map fun r => (r.1, .flag r.2)
  | .pushIfLower k v => (pushIfLower h k v).map fun r => (r.1, .flag r.2)
  | .pop => (pop h).map fun r => (r.1, .popped r.2.1 r.2.2)

/-- A history of calls. -/
def run (h : State K) : List (Op K) → Option (State K × List (Out K))
  | [] => some (h, [])
  | op :: ops => do
    let (h, o) ← step h op
    let (h, os) ← run h ops
    pure (h, o :: os)

end

end Verif.Heap
