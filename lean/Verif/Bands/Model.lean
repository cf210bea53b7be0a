import Verif.Nulls.RasterModel

/-!
# Model of band selection, stacking and padding (`raster.py`, `_stack.py`, `_padding.py`, `general.py`)

Rasters are those of `Verif.Nulls`.  `stack_bands` is modelled for inputs on one common grid and without
`dst_crs`, `dst_grid` and `resolution`; reprojection and the construction of a combined grid are not
modelled.  `rioxarray`'s `pad_box` is modelled by the number of rows and columns it adds on each side, which
are arbitrary here.
-/

namespace Verif.Bands

open Verif Verif.Nulls DType

/-! ### Selecting bands -/

/-- `raster.py:1942-1981` `get_bands` for a list of integers (a single integer is a list of length one,
`raster.py:1962-1963`); the copy of a one band raster (1974-1975) is the general case here. -/
def getBands (r : Raster) (bands : List Int) : Except Err Raster :=
  if bands.length = 0 then .error .value
  else if bands.any (fun b => decide (b < 1) || decide (b > (r.nb : Int))) then .error .index
  else
    let src := fun c : Cell => ((bands.getD c.1 1 - 1).toNat, c.2)
    .ok { r with nb := bands.length, data := fun c => r.data (src c), mask := fun c => r.mask (src c) }

/-- Run the elements in order, stop at the first exception. -/
def sequence : List (Except Err Raster) → Except Err (List Raster)
  | [] => .ok []
  | .error e :: _ => .error e
  | .ok r :: rest =>
    match sequence rest with
    | .error e => .error e
    | .ok rs => .ok (r :: rs)

/-- `_stack.py:249-274` `split_bands`. -/
def splitBands (r : Raster) : Except Err (List Raster) :=
  sequence ((List.range r.nb).map fun i : Nat => getBands r [(i : Int) + 1])

/-! ### Stacking -/

/-- `_stack.py:16-19` `_cast_if_needed`. -/
def castIfNeeded (np : NumPy) (r : Raster) (dt : DType) (nodata : Scalar) : Except Err Raster :=
  if r.dtype = dt ∧ nullValuesEqual r.nv (some nodata) = true then .ok r
  else r.astype np dt (some nodata)

/-- The `null_value` argument of `stack_bands`. -/
inductive NullOption where
  | unset
  | default
  | value (s : Scalar)

/-- `_stack.py:172-187`: the null value of the stack. -/
def stackNull (rs : List Raster) (dt : DType) : NullOption → Scalar
  | .value s => s
  | .default => defaultNull dt
  | .unset =>
    match rs.filterMap (·.nv) with
    | s :: _ => s
    | [] => defaultNull dt

/-- `da.concatenate([f(r) for r in rs], axis=0)`. -/
def concat {α : Type} (f : Raster → Cell → α) (dflt : α) : List Raster → Cell → α
  | [], _ => dflt
  | r :: rs, c => if c.1 < r.nb then f r c else concat f dflt rs (c.1 - r.nb, c.2)

/-- The number of bands of a list of rasters. -/
def totalBands (rs : List Raster) : Nat := (rs.map (·.nb)).sum

/-- `_stack.py:22-246` `stack_bands` on a common grid; `resultType` is `np.result_type` (168-171). -/
def stackBands (np : NumPy) (resultType : List DType → DType) (rs : List Raster) (dtype : Option DType)
    (nullValue : NullOption) : Except Err Raster :=
  match rs with
  | [] => .error .value
  | first :: rest =>
    let dt := dtype.getD (resultType (rs.map (·.dtype)))
    let nodata := stackNull rs dt nullValue
    match rest with
    | [] => castIfNeeded np first dt nodata
    | _ :: _ =>
      match sequence (rs.map fun r => castIfNeeded np r dt nodata) with
      | .error e => .error e
      | .ok cs => .ok (ofData dt (totalBands cs) first.ny first.nx (concat (·.data) .nan cs)
          (some (concat (·.mask) false cs)) (some nodata) false)

/-- `general.py:913-954` `band_concat` on a common grid; `resultType` is the type `xr.concat` promotes to. -/
def bandConcat (np : NumPy) (resultType : List DType → DType) (rs : List Raster) : Except Err Raster :=
  match rs with
  | [] => .error .value
  | [r] => .ok r
  | first :: _ =>
    let dt := resultType (rs.map (·.dtype))
    let data := fun c => np.cast dt (concat (·.data) .nan rs c)
    let mask := concat (·.mask) false rs
    if rs.any (·.masked) then
      .ok ⟨dt, totalBands rs, first.ny, first.nx, fun c => if mask c then (defaultNull dt).val else data c, mask,
        some (defaultNull dt)⟩
    else .ok ⟨dt, totalBands rs, first.ny, first.nx, data, mask, none⟩

/-! ### Padding -/

/-- The `fill_values` argument: nothing, a scalar, a list, or something else. -/
inductive Fill where
  | unset
  | scalar (s : Scalar)
  | list (ss : List Scalar)
  | other

/-- `_padding.py:29-32` `_equals_null`. -/
def equalsNull (v : Num) : Option Scalar → Bool
  | none => false
  | some s => v.nanEqual s.val

/-- `_padding.py:79-113` `_validate_fill_values`: fill per band, whether it is marked null, null value. -/
def validateFill (r : Raster) : Fill → Except Err (List Scalar × List Bool × Option Scalar)
  | .unset =>
    let nv := r.nv.getD (defaultNull r.dtype)
    .ok (List.replicate r.nb nv, List.replicate r.nb true, some nv)
  | .scalar s => .ok (List.replicate r.nb s, List.replicate r.nb (equalsNull s.val r.nv), r.nv)
  | .list ss =>
    if ss.length ≠ r.nb then .error .value
    else .ok (ss, ss.map fun s => equalsNull s.val r.nv, r.nv)
  | .other => .error .type

/-- `np.asarray(per_band)`: the values converted to the common type of the list. -/
def asarray (np : NumPy) (ss : List Scalar) : List Num :=
  match reducePromote (ss.map (·.ty)) with
  | none => []
  | some d => ss.map fun s => np.cast d s.val

/-- The rows and columns added before and after. -/
structure Margins where
  top : Nat
  bottom : Nat
  left : Nat
  right : Nat

/-- The cell of the padded grid lies in the original one (`is_new` is its negation, `_padding.py:175-177`). -/
def Margins.old (m : Margins) (r : Raster) (c : Cell) : Bool :=
  decide (m.top ≤ c.2.1) && decide (c.2.1 < m.top + r.ny) && decide (m.left ≤ c.2.2) &&
    decide (c.2.2 < m.left + r.nx)

/-- `rio.pad_box(..., constant_values=k)`. -/
def Margins.pad {α : Type} (m : Margins) (r : Raster) (f : Cell → α) (k : α) (c : Cell) : α :=
  if m.old r c then f (c.1, c.2.1 - m.top, c.2.2 - m.left) else k

/-- `_padding.py:116-203` `pad`. -/
def pad (np : NumPy) (r : Raster) (m : Margins) (fill : Fill) : Except Err Raster :=
  match validateFill r fill with
  | .error e => .error e
  | .ok (perBand, mark, outNv) =>
    let isNew := m.pad r (fun _ => false) true
    let fillArr := (asarray np perBand).map (np.cast r.dtype)
    let data := fun c => if isNew c then fillArr.getD c.1 .nan else m.pad r r.data (.fin 0) c
    let xmask := fun c => if r.masked then m.pad r r.mask false c else false
    let mask := fun c : Cell => xmask c || (isNew c && mark.getD c.1 false)
    .ok ⟨r.dtype, r.nb, m.top + r.ny + m.bottom, m.left + r.nx + m.right, data, mask, outNv⟩

end Verif.Bands
