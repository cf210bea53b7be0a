import Verif.Nulls.RasterModel

/-!
# Model of `regions` (`general.py`)

The labelling of one binary image by `dask_image.ndmeasure.label` (scipy) is a parameter.  The result is an
unsigned 64 bit array; overflow of the labels is not modelled.
-/

namespace Verif.Regions

open Verif Verif.Nulls DType

/-- Row and column. -/
abbrev Pos := Nat × Nat

/-- `ndm.label(image, structure)`: the labels and their number. -/
abbrev Labeler := (Pos → Bool) → (Pos → Nat) × Nat

/-- `general.py:94`: drop zeros. -/
def dropZero (us : List Num) : List Num := us.filter fun v => !v.eq (.fin 0)

/-- `general.py:98-104`: one turn of the loop. -/
def labelStep (label : Labeler) (data : Pos → Num) (st : (Pos → Nat) × Nat) (v : Num) : (Pos → Nat) × Nat :=
  let labeled := label fun p => (data p).eq v
  (fun p => st.1 p + (if labeled.1 p > 0 then labeled.1 p + st.2 else 0), st.2 + labeled.2)

/-- Ascending order with NaN at the end, as in `np.unique`. -/
def leNum : Num → Num → Bool
  | _, .nan => true
  | .nan, _ => false
  | .negInf, _ => true
  | _, .posInf => true
  | .fin a, .fin b => decide (a ≤ b)
  | _, _ => false

/-- `da.unique(xarr)`. -/
def unique (ny nx : Nat) (data : Pos → Num) : List Num :=
  (((List.range ny).flatMap fun y => (List.range nx).map fun x => data (y, x)).dedup).mergeSort leNum

/-- `general.py:91-105` `_create_labels`. -/
def createLabels (label : Labeler) (ny nx : Nat) (data : Pos → Num) (uarr : Option (List Num)) : Pos → Nat :=
  let us := dropZero (uarr.getD (unique ny nx data))
  (us.foldl (labelStep label data) (fun _ => 0, 0)).1

/-- `general.py:108-175` `regions`; `neighbors` is 4 or 8 and selects the structure passed to `label`. -/
def regions (np : NumPy) (label : Nat → Labeler) (r : Raster) (neighbors : Int) (uniqueValues : Option (List Num)) :
    Except Err Raster :=
  if neighbors = 4 ∨ neighbors = 8 then
    let data := fun c => if r.masked && r.mask c then .fin 0 else r.data c
    let labels := fun c : Cell =>
      createLabels (label neighbors.toNat) r.ny r.nx (fun p => data (c.1, p)) uniqueValues c.2
    let nv := if r.masked then (reconcile np r.nv u64).1 else none
    let out := fun c : Cell =>
      if r.masked && r.mask c then (nv.getD (defaultNull u64)).val else .fin (labels c : Rat)
    .ok (ofData u64 r.nb r.ny r.nx out (some r.mask) nv false)
  else .error .value

end Verif.Regions
