import Verif.Focal.Model
set_option linter.unusedSectionVars false
/-!
# Model of `dilate` and `erode` (`general.py:741-910`)

One band at a time.  scipy's filters are modelled by their definition: the extreme of a rectangle around the cell, with a
constant beyond the edge of the array.  The null value is a value of the raster's dtype, so that writing it keeps the dtype.
-/

namespace Verif.Morph

open Verif Verif.Nulls DType Verif.Focal

inductive Op where
  | dilation | erosion
deriving DecidableEq, Repr

/-- The argument `size`: an int, an iterable of ints (`none` for anything else), or something else. -/
inductive SizeArg where
  | int (n : Int)
  | seq (l : List (Option Int))
  | other

/-- `general.py:766-769`: the checks of the values. -/
def checkSizes (n m : Int) : Except Err (Nat × Nat) :=
  if ¬ (0 < n ∧ 0 < m) then .error .value
  else if n = 1 ∧ m = 1 then .error .value
  else .ok (n.toNat, m.toNat)

/-- `general.py:755-771` `_get_footprint`: rows and columns of the rectangle. -/
def getFootprint : SizeArg → Except Err (Nat × Nat)
  | .seq [some n, some m] => checkSizes n m
  | .seq [_, _] => .error .type
  | .seq _ => .error .value
  | .int n => checkSizes n n
  | .other => .error .type

/-- `general.py:774-776` `_get_fill`; `big` and `small` are the limits of the floating point dtype.  `np.finfo` raises for
booleans. -/
def getFill (big small : Num) (dt : DType) (op : Op) : Except Err Num :=
  if dt = .bool then .error .value
  else match dt.limits with
    | some (lo, hi) => .ok (if op = .erosion then .fin hi else .fin lo)
    | none => .ok (if op = .erosion then big else small)

/-- scipy moves the centre of the rectangle for the dilation with an even size (`grey_dilation`, `binary_dilation`). -/
def origin (op : Op) (n : Nat) : Int := if op = .dilation ∧ n % 2 = 0 then -1 else 0

/-- An array with a constant beyond its edges (`mode="constant"`). -/
def constantEdge {V : Type} (rows cols : Nat) (x : Int → Int → V) (cval : V) (i j : Int) : V :=
  if 0 ≤ i ∧ i < rows ∧ 0 ≤ j ∧ j < cols then x i j else cval

/-- The values in the rectangle of `n` rows and `m` columns around a cell. -/
def rectangle {V : Type} (op : Op) (n m : Nat) (ext : Int → Int → V) (r c : Int) : List V :=
  (List.range n).flatMap fun a : Nat => (List.range m).map fun b : Nat =>
    ext (r + a - (n / 2 + origin op n)) (c + b - (m / 2 + origin op m))

/-- `a` takes the place of `b`. -/
def better (op : Op) (a b : Num) : Bool := if op = .dilation then Stats.lt b a else Stats.lt a b

/-- The extreme of a list. -/
def extreme (op : Op) : List Num → Num
  | [] => .nan
  | v :: vs => vs.foldl (fun m v => if better op v m then v else m) v

/-- `grey_dilation` and `grey_erosion` of a block, `general.py:744-746`. -/
def greyChunk (op : Op) (n m : Nat) (cval : Num) (rows cols : Nat) (x : Int → Int → Num) (r c : Int) : Option Num :=
  some (extreme op (rectangle op n m (constantEdge rows cols x cval) r c))

/-- `binary_dilation` and `binary_erosion` of a block, `general.py:748-751`; beyond the edge is false. -/
def binaryChunk (op : Op) (n m : Nat) (rows cols : Nat) (x : Int → Int → Bool) (r c : Int) : Option Bool :=
  let l := rectangle op n m (constantEdge rows cols x false) r c
  some (if op = .dilation then l.any id else l.all id)

/-- A band with a constant around it, the boundary of `map_overlap`. -/
def bandEdge {V : Type} (ny nx : Nat) (x : Nat → Nat → V) (cval : V) (i j : Int) : V :=
  if 0 ≤ i ∧ i < ny ∧ 0 ≤ j ∧ j < nx then x i.toNat j.toNat else cval

/-- `general.py:780-801`: the data. -/
def morphData (op : Op) (n m : Nat) (fill : Num) (r : Raster) (ychunks xchunks : List Nat) (c : Cell) : Num :=
  let data := fun i j => if r.masked && r.mask (c.1, i, j) then fill else r.data (c.1, i, j)
  (mapOverlap (greyChunk op n m fill) (bandEdge r.ny r.nx data fill) (n / 2) (m / 2) ychunks xchunks c.2.1 c.2.2).getD .nan

/-- `general.py:802-817`: the mask of a raster with a null value. -/
def morphMask (op : Op) (n m : Nat) (r : Raster) (ychunks xchunks : List Nat) (c : Cell) : Bool :=
  !(mapOverlap (binaryChunk op n m) (bandEdge r.ny r.nx (fun i j => !r.mask (c.1, i, j)) false) (n / 2) (m / 2) ychunks xchunks
    c.2.1 c.2.2).getD false

/-- `general.py:779-824` `_erosion_or_dilation_filter`; dask raises if the margin is larger than the array.  `mask=` is always
passed on, so a raster without a null value gets the default one (`raster.py:825-886`, `data_to_xr_raster_ds_like`). -/
def filter (op : Op) (big small : Num) (r : Raster) (n m : Nat) (ychunks xchunks : List Nat) : Except Err Raster :=
  match getFill big small r.dtype op with
  | .error e => .error e
  | .ok fill =>
    if r.ny < n / 2 ∨ r.nx < m / 2 then .error .value
    else
      let data := morphData op n m fill r ychunks xchunks
      match r.nv with
      | some s =>
        let mask := morphMask op n m r ychunks xchunks
        .ok (ofData r.dtype r.nb r.ny r.nx (fun c => if mask c then s.val else data c) (some mask) r.nv false)
      | none => .ok (ofData r.dtype r.nb r.ny r.nx data (some r.mask) none false)

/-- `general.py:827-867` `dilate` and `870-910` `erode`. -/
def morph (op : Op) (big small : Num) (r : Raster) (size : SizeArg) (ychunks xchunks : List Nat) : Except Err Raster :=
  match getFootprint size with
  | .error e => .error e
  | .ok (n, m) => filter op big small r n m ychunks xchunks

end Verif.Morph
