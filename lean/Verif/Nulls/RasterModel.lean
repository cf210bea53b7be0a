import Verif.Nulls.ScalarModel

/-!
# Model of the null handling of `Raster` (`raster.py`)

A raster is its data, its mask, its dtype and its null value.  Coordinates, CRS and chunks do not matter
here and are left out; operands of one operation are assumed to lie on the same grid (xarray would align
them by coordinate otherwise).  Values are exact numbers with NaN and the infinities (`Num`), booleans are
0 and 1, and the conversion between dtypes is the parameter `NumPy.cast`.  Not modelled: the checks that
`rioxarray`'s `write_nodata` makes on its own, numpy scalars (as opposed to python numbers) as arguments of
`set_null_value`.
-/

namespace Verif.Nulls

open Verif DType

/-- Band, row, column (counted from 0). -/
abbrev Cell := Nat × Nat × Nat

/-- `raster.py:1327-1348`: the Dataset of a `Raster` (variables `raster` and `mask`) and the null value. -/
structure Raster where
  dtype : DType
  nb : Nat
  ny : Nat
  nx : Nat
  data : Cell → Num
  mask : Cell → Bool
  nv : Option Scalar

/-- The cell exists. -/
def Raster.Has (r : Raster) (c : Cell) : Prop := c.1 < r.nb ∧ c.2.1 < r.ny ∧ c.2.2 < r.nx

/-- `raster.py:1347-1348` `_masked`. -/
def Raster.masked (r : Raster) : Bool := r.nv.isSome

/-- Exceptions; `oneDim` is rioxarray's `OneDimensionalRaster`, `noData` is `RasterNoDataError`. -/
inductive Err where
  | type | value | key | index | runtime | oneDim | noData
deriving DecidableEq, Repr

/-- `raster.py:485-505` `get_mask_from_data` for one cell. -/
def maskOf (nv : Option Num) (x : Num) : Bool :=
  match nv with
  | none => false
  | some v => if v.isnan then x.isnan else x.eq v

/-- `raster.py:2145-2163` `burn_mask`. -/
def Raster.burn (r : Raster) : Raster :=
  match r.nv with
  | none => r
  | some s =>
    let nv := if r.dtype.isBool then (defaultNull r.dtype).val else s.val
    { r with data := fun c => if r.mask c then nv else r.data c }

/-! ### Construction -/

/-- `raster.py:825-886` `data_to_xr_raster_ds` for data of the given shape. -/
def ofData (dt : DType) (nb ny nx : Nat) (data : Cell → Num) (mask : Option (Cell → Bool))
    (nv : Option Scalar) (burn : Bool) : Raster :=
  match mask with
  | none => ⟨dt, nb, ny, nx, data, fun c => maskOf (nv.map (·.val)) (data c), nv⟩
  | some m =>
    let s := nv.getD (defaultNull dt)
    ⟨dt, nb, ny, nx, if burn then fun c => if m c then s.val else data c else data, m, some s⟩

/-- All the cells of an array, for `np.isnan(ar).any()`. -/
def anyCell (nb ny nx : Nat) (p : Cell → Bool) : Bool :=
  (List.range nb).any fun b => (List.range ny).any fun y => (List.range nx).any fun x => p (b, y, x)

/-- `raster.py:1157-1174` `_array_input_to_raster_ds`, i.e. `Raster(array)`; `lazy` for a dask array. -/
def ofArray (np : NumPy) (lazy : Bool) (dt : DType) (nb ny nx : Nat) (data : Cell → Num) : Raster :=
  let hasNan := dt.isFloat && (lazy || anyCell nb ny nx fun c => (data c).isnan)
  let nv : Option Scalar := if hasNan then some ⟨f64, .nan⟩ else none
  let ds := ofData dt nb ny nx data none nv false
  match (reconcile np nv dt).1 with
  | none => ds
  | some s => { ds with data := fun c => if ds.mask c then s.val else ds.data c, nv := some s }

/-- `raster.py:1205-1220` `_dataarray_input_to_raster_ds`, i.e. `Raster(dataarray)`, with the null value
`nv` found on the object (`raster.py:1177-1202`). -/
def ofDataArray (np : NumPy) (dt : DType) (nb ny nx : Nat) (data : Cell → Num) (nv : Option Scalar) : Raster :=
  let mask := fun c => maskOf (nv.map (·.val)) (data c)
  let nv' := (reconcile np nv dt).1
  match nv, nv' with
  | some o, some s =>
    if o.val.isnan || !(o.val.eq s.val) then
      ⟨dt, nb, ny, nx, fun c => if mask c then s.val else data c, mask, some s⟩
    else ⟨dt, nb, ny, nx, data, mask, some s⟩
  | _, _ => ⟨dt, nb, ny, nx, data, mask, nv'⟩

/-! ### Element-wise operations -/

/-- An operand: a raster, or numbers (a scalar, or an array already broadcast to the shape). -/
inductive Operand where
  | raster (r : Raster)
  | numbers (dt : DType) (f : Cell → Num)

namespace Operand

def value : Operand → Cell → Num
  | raster r => r.data
  | numbers _ f => f

def ty : Operand → DType
  | raster r => r.dtype
  | numbers dt _ => dt

/-- `getattr(r, "_masked", False)`. -/
def masked : Operand → Bool
  | raster r => r.masked
  | numbers _ _ => false

/-- The masks that take part, `raster.py:240`. -/
def mask? : Operand → Option (Cell → Bool)
  | raster r => some r.mask
  | numbers _ _ => none

end Operand

/-- A NumPy ufunc with one or more outputs.  `outTy` is its type resolution, `fn k` computes output `k`. -/
structure Ufunc where
  bitwise : Bool
  shift : Bool
  nout : Nat
  outTy : List DType → Nat → DType
  fn : Nat → List Num → Num

/-- `utils.py:57-64` `merge_masks`. -/
def mergeMasks : List (Cell → Bool) → Cell → Bool
  | [], _ => false
  | m :: ms, c => ms.foldl (fun acc m => acc || m c) (m c)

/-- `raster.py:187-269` `_apply_ufunc`: the result rasters.  `this` gives the shape. -/
def applyUfunc (u : Ufunc) (this : Raster) (args : List Operand) : Except Err (List Raster) :=
  let types := args.map Operand.ty
  let masked := args.any Operand.masked
  if u.bitwise && types.any isFloat then .error .type
  else if u.shift && types.any isFloat then .error .type
  else
    let out := fun k c => u.fn k (args.map (·.value c))
    if !masked then
      -- `get_mask_from_data` raises a TypeError for a tuple
      if u.nout > 1 then .error .type
      else .ok [⟨u.outTy types 0, this.nb, this.ny, this.nx, out 0, fun _ => false, none⟩]
    else
      let mask := mergeMasks (args.filterMap Operand.mask?)
      .ok ((List.range u.nout).map fun k =>
        let nv := defaultNull (u.outTy types k)
        ⟨u.outTy types k, this.nb, this.ny, this.nx, fun c => if mask c then nv.val else out k c, mask, some nv⟩)

/-! ### Changing the nulls -/

/-- The cell of `m` that numpy broadcasting pairs with the cell `c`. -/
def Raster.bcast (m : Raster) (c : Cell) : Cell := if m.nb = 1 then (0, c.2) else c

/-- `utils.py:41-46` `null_values_equal`. -/
def nullValuesEqual : Option Scalar → Option Scalar → Bool
  | none, r => r.isNone
  | some _, none => false
  | some a, some b => a.val.nanEqual b.val

/-- `raster.py:1868-1940` `astype`.  A python scalar `new_null_value` is a `Scalar` here. -/
def Raster.astype (np : NumPy) (r : Raster) (dt : DType) (newNv : Option Scalar) : Except Err Raster :=
  if dt = r.dtype ∧ (newNv.isNone ∨ nullValuesEqual r.nv newNv) then .ok r
  else
    let casted := fun c => np.cast dt (r.data c)
    match newNv, r.nv with
    | some s, some old =>
      if allcloseNum s.val old.val then .ok { r with dtype := dt, data := casted }
      else
        let (nv, warns) := reconcile np (some s) dt
        if warns then .error .value
        else .ok { r with dtype := dt, nv := nv
                          data := fun c => if r.mask c then (nv.getD s).val else casted c }
    | some _, none => .ok { r with dtype := dt, data := casted }
    | none, some old =>
      let nv := (reconcile np (some old) dt).1
      .ok { r with dtype := dt, nv := nv, data := fun c => if r.mask c then (nv.getD old).val else casted c }
    | none, none => .ok { r with dtype := dt, data := casted }

/-- `raster.py:2125-2127`: an integer mask raster is converted. -/
def Raster.asBool (np : NumPy) (m : Raster) : Except Err Raster :=
  if m.dtype.isBool then .ok m else m.astype np .bool none

/-- `raster.py:2129-2143`: apply a boolean mask raster. -/
def Raster.addMask (r m : Raster) : Raster :=
  let newMask := fun c =>
    let t := !((m.data (m.bcast c)).eq (.fin 0))
    r.mask c || (if m.masked then t && !(m.mask (m.bcast c)) else t)
  let nv := if r.masked then r.nv else some (defaultNull r.dtype)
  { r with mask := newMask, nv := nv }.burn

/-- `raster.py:2091-2143` `set_null`. -/
def Raster.setNull (np : NumPy) (r m : Raster) : Except Err Raster :=
  if m.nb > 1 ∧ m.nb ≠ r.nb then .error .value
  else if (m.ny, m.nx) ≠ (r.ny, r.nx) then .error .value
  else if m.dtype ≠ .bool ∧ m.dtype ≠ i8 ∧ m.dtype ≠ u8 then .error .type
  else match m.asBool np with
    | .error e => .error e
    | .ok m => .ok (r.addMask m)

/-- `raster.py:2165-2182` `to_null_mask`. -/
def Raster.toNullMask (r : Raster) : Raster :=
  ⟨.bool, r.nb, r.ny, r.nx, fun c => if r.mask c then .fin 1 else .fin 0, fun _ => false, none⟩

/-- Argument of `set_null_value`: a python int, float or bool. -/
inductive NullArg where
  | int (n : Int)
  | float (v : Num)
  | bool (b : Bool)
deriving DecidableEq, Repr

def NullArg.val : NullArg → Num
  | .int n => .fin n
  | .float v => v
  | .bool b => if b then .fin 1 else .fin 0

/-- `dtypes.py:85-103` `safe_min_scalar_type` of a float. -/
def safeMinFloat (np : NumPy) (v : Num) : DType :=
  match v with
  | .fin _ =>
    let suggested := minScalarFloat v
    let tries := match suggested with
      | f16 => [f16, f32, f64]
      | f32 => [f32, f64]
      | _ => [f64]
    (tries.find? fun d => v.eq (np.cast d v)).getD f64
  | _ => minScalarFloat v

/-- `dtypes.py:59-62` `is_int` of a python number (a python bool is an `Integral`). -/
def NullArg.isInt : NullArg → Bool
  | .float _ => false
  | _ => true

/-- The item that `get_common_dtype` sees, `dtypes.py:113-123`. -/
def NullArg.item (np : NumPy) : NullArg → Item
  | .int n => .int n
  | .float x => .other (safeMinFloat np x)
  | .bool _ => .other .bool

/-- `dtypes.py:190-198`; `none` is the `KeyError`. -/
def intToFloat : DType → Option DType
  | u8 => some f16
  | u16 => some f32
  | u32 => some f64
  | i8 => some f16
  | i16 => some f32
  | i32 => some f64
  | f64 => some f64
  | _ => none

/-- `raster.py:2049-2076` (decision on the new dtype); `none` inside keeps the dtype. -/
def nullDtype (np : NumPy) (dt : DType) (v : NullArg) : Except Err (Option DType) :=
  if v.val.isnan then
    if dt.isInt then
      match intToFloat dt with
      | some d => .ok (some d)
      | none => .error .key
    else .ok none
  else
    if v.isInt && dt.isFloat then
      .ok (commonDtype [.other (safeMinFloat np (np.cast f64 v.val)), .dtype dt])
    else if v.isInt && dt.isInt then
      match v.val, dt.limits with
      | .fin q, some (lo, hi) => if (lo : Rat) ≤ q ∧ q ≤ (hi : Rat) then .ok none
          else .ok (commonDtype [.int q.num, .dtype dt])
      | _, _ => .ok none
    else .ok (commonDtype [v.item np, .dtype dt])

/-- `raster.py:2015-2089` `set_null_value`. -/
def Raster.setNullValue (np : NumPy) (r : Raster) (v : Option NullArg) : Except Err Raster :=
  match v with
  | none => .ok { r.burn with nv := none, mask := fun _ => false }
  | some v =>
    match nullDtype np r.dtype v with
    | .error e => .error e
    | .ok nd =>
    let dt := nd.getD r.dtype
    let data := match nd with
      | some d => fun c => np.cast d (r.data c)
      | none => r.data
    let value := match nd with
      | some _ => v.val
      | none => np.cast r.dtype v.val
    let mask := fun c =>
      if r.masked then r.mask c || maskOf (some value) (data c) else maskOf (some value) (data c)
    .ok ({ r with dtype := dt, data := data, mask := mask, nv := some ⟨dt, value⟩ }.burn)

/-- `raster.py:2184-2202` `replace_null`. -/
def Raster.replaceNull (np : NumPy) (r : Raster) (v : NullArg) : Except Err Raster :=
  match v with
  | .bool _ => .error .type
  | v => r.setNullValue np (some v)

end Verif.Nulls
