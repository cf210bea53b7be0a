import Verif.Nulls.RasterModel

/-!
# Model of `remap_range`, `reclassify` and `where` (`general.py`)

Rasters are those of `Verif.Nulls`, python numbers are `NullArg`.  Comparisons are exact (numba and numpy
compare integers and floats through float64, which is not modelled).  The chunking by `da.map_blocks` is left
out: the functions work cell by cell.
-/

namespace Verif.Remap

open Verif Verif.Nulls DType

/-! ### Numbers -/

/-- IEEE `<`. -/
def lt : Num → Num → Bool
  | .fin a, .fin b => decide (a < b)
  | .negInf, .fin _ => true
  | .negInf, .posInf => true
  | .fin _, .posInf => true
  | _, _ => false

/-- IEEE `<=`. -/
def le : Num → Num → Bool
  | .fin a, .fin b => decide (a ≤ b)
  | .negInf, .fin _ => true
  | .negInf, .posInf => true
  | .fin _, .posInf => true
  | .negInf, .negInf => true
  | .posInf, .posInf => true
  | _, _ => false

/-- The dtype numpy gives to a python number in an array. -/
def arrayType : NullArg → DType
  | .int n => if n ≤ 2 ^ 63 - 1 then i64 else u64
  | .float _ => f64
  | .bool _ => .bool

/-- The dtype of `np.array` of values of these types. -/
def listType (ds : List DType) : DType := (reducePromote ds).getD f64

/-! ### remap_range -/

/-- What may be passed as part of a mapping: a number, `None`, or anything else. -/
inductive Py where
  | num (v : NullArg)
  | none
  | other
deriving DecidableEq

/-- An item of the `mapping` argument: a sequence (itself a mapping) or a single value. -/
inductive Item where
  | one (p : Py)
  | seq (ps : List Py)

/-- The `mapping` argument: a list or tuple, or something else. -/
inductive MappingArg where
  | list (items : List Item)
  | other

/-- A range and its new value. -/
structure Mapping where
  lo : NullArg
  hi : NullArg
  new : Option NullArg
deriving DecidableEq

/-- `dtypes.py:77-82` `is_scalar`: booleans are not scalars. -/
def isScalar : Py → Bool
  | .num (.bool _) => false
  | .num _ => true
  | _ => false

/-- `list(m)` of every item (`general.py:997-1003`); a single value is not iterable. -/
def asLists : List Item → Except Err (List (List Py))
  | [] => .ok []
  | .one _ :: _ => .error .type
  | .seq ps :: rest =>
    match asLists rest with
    | .error e => .error e
    | .ok pss => .ok (ps :: pss)

/-- The items of a single mapping given without a surrounding list; a sequence in it is no scalar. -/
def Item.py : Item → Py
  | .one p => p
  | .seq _ => .other

/-- `general.py:988-1003`: the sequences to check. -/
def asSequences : MappingArg → Except Err (List (List Py))
  | .other => .error .type
  | .list [] => .error .value
  | .list (.one p :: rest) => if isScalar p then .ok [p :: rest.map Item.py] else asLists (.one p :: rest)
  | .list (.seq ps :: rest) => asLists (.seq ps :: rest)

/-- `general.py:1008-1027` for one sequence. -/
def checkMapping : List Py → Except Err Mapping
  | [a, b, c] =>
    if !(isScalar a && isScalar b) then .error .type
    else
      match a, b with
      | .num lo, .num hi =>
        if lo.val.isnan || hi.val.isnan then .error .value
        else if le hi.val lo.val then .error .value
        else
          match c with
          | .num (.bool _) => .error .value
          | .num v => .ok ⟨lo, hi, some v⟩
          | .none => .ok ⟨lo, hi, none⟩
          | .other => .error .value
      | _, _ => .error .type
  | _ => .error .value

/-- The loop `general.py:1007-1030`. -/
def checkMappings : List (List Py) → Except Err (List Mapping)
  | [] => .ok []
  | ps :: rest =>
    match checkMapping ps with
    | .error e => .error e
    | .ok m =>
      match checkMappings rest with
      | .error e => .error e
      | .ok ms => .ok (m :: ms)

/-- `general.py:988-1031` `_normalize_mappings`. -/
def normalizeMappings (arg : MappingArg) : Except Err (List Mapping) :=
  match asSequences arg with
  | .error e => .error e
  | .ok pss => checkMappings pss

/-- `general.py:973-980` the test of one range. -/
def inRange (inclusivity : Nat) (left right vl : Num) : Bool :=
  if inclusivity = 0 then le left vl && lt vl right
  else if inclusivity = 1 then lt left vl && le vl right
  else if inclusivity = 2 then le left vl && le vl right
  else if inclusivity = 3 then lt left vl && lt vl right
  else false

/-- `general.py:958-985` `_remap_values` for one cell that is not masked: the loop over the ranges. -/
def remapLoop (inclusivity : Nat) (vl : Num) : List ((Num × Num) × Num) → Num
  | [] => vl
  | ((left, right), new) :: rest => if inRange inclusivity left right vl then new else remapLoop inclusivity vl rest

/-- `general.py:1072-1080`: the code of an `inclusivity` string. -/
def inclusivityCode : String → Option Nat
  | "left" => some 0
  | "right" => some 1
  | "both" => some 2
  | "none" => some 3
  | _ => none

/-- `general.py:1081-1087`: the dtype of the result. -/
def remapDtype (np : NumPy) (r : Raster) (ms : List Mapping) : Option DType :=
  match ms.filterMap (·.new) with
  | [] => r.dtype.promote r.dtype
  | vs => (commonDtype (vs.map (·.item np))).bind fun d => r.dtype.promote d

/-- `general.py:1090-1095`: the null value of the result. -/
def remapNull (r : Raster) (ms : List Mapping) (out : DType) : Option Scalar :=
  match r.nv with
  | some s => some s
  | none => if ms.any (·.new.isNone) then some (defaultNull out) else none

/-- The dtype of the array of bounds. -/
def boundsType (ms : List Mapping) : DType := listType (ms.flatMap fun m => [arrayType m.lo, arrayType m.hi])

/-- `general.py:1096-1098`: the bounds as an array. -/
def boundsArray (np : NumPy) (ms : List Mapping) : List (Num × Num) :=
  ms.map fun m => (np.cast (boundsType ms) m.lo.val, np.cast (boundsType ms) m.hi.val)

/-- The new value of a mapping as a NumPy scalar, `None` replaced by the null value. -/
def newScalar (nv : Option Scalar) (m : Mapping) : Scalar :=
  match m.new with
  | some v => ⟨arrayType v, v.val⟩
  | none => nv.getD ⟨f64, .fin 0⟩

/-- The dtype of the array of new values. -/
def newType (ms : List Mapping) (nv : Option Scalar) : DType := listType (ms.map fun m => (newScalar nv m).ty)

/-- `general.py:1099`: the new values as an array. -/
def newArray (np : NumPy) (ms : List Mapping) (nv : Option Scalar) : List Num :=
  ms.map fun m => np.cast (newType ms nv) (newScalar nv m).val

/-- `general.py:1034-1124` `remap_range`. -/
def remapRange (np : NumPy) (r : Raster) (arg : MappingArg) (inclusivity : String) : Except Err Raster :=
  match normalizeMappings arg with
  | .error e => .error e
  | .ok ms =>
    match inclusivityCode inclusivity with
    | none => .error .value
    | some inc =>
      match remapDtype np r ms with
      | none => .error .type
      | some out =>
        let nv := remapNull r ms out
        let work := if out = f16 then f32 else out
        let table := (boundsArray np ms).zip ((newArray np ms nv).map (np.cast work))
        let null := np.cast work (nv.getD ⟨i64, .fin 0⟩).val
        let x := fun c => if work = r.dtype then r.data c else np.cast work (r.data c)
        let outx := fun c => if r.mask c then null else remapLoop inc (x c) table
        let data := fun c => if out = f16 then np.cast f16 (outx c) else outx c
        .ok (ofData out r.nb r.ny r.nx data none nv false)

/-! ### reclassify -/

/-- The dict passed by the caller: keys in insertion order, each with a number or `None`. -/
abbrev Remapping := List (NullArg × Option Scalar)

/-- The numba dict built from the two arrays (`general.py:1264`): a later equal key overwrites. -/
def dictGet (v : Num) : List (Num × Num) → Option Num
  | [] => none
  | (k, t) :: rest =>
    match dictGet v rest with
    | some t' => some t'
    | none => if k.eq v then some t else none

/-- `general.py:1366-1371`: the dtype of the result. -/
def reclassifyDtype (r : Raster) : Option DType → Option DType
  | none => some r.dtype
  | some d => d.promote r.dtype

/-- The dtype of the array of keys, `general.py:1382`. -/
def keyType (m : Remapping) : DType := listType (m.map fun kt => arrayType kt.1)

/-- The dtype of `np.array(list(remapping.values()))`, `general.py:1383`, before the conversion to the dtype of the
result. -/
def valueType (nv : Scalar) (m : Remapping) : DType := listType (m.map fun kt => (kt.2.getD nv).ty)

/-- `general.py:1338-1400` `reclassify` with a dict; `newType` is the dtype `get_common_dtype` gives for the new
values that are not `None`, if there are any (arbitrary here).  numba converts the value looked up to the type
of the keys.  Returns the result and the caller's dict as it is afterwards (1377-1380). -/
def reclassify (np : NumPy) (r : Raster) (remapping : Remapping) (newType : Option DType) (unmappedToNull : Bool) :
    Except Err (Raster × Remapping) :=
  match reclassifyDtype r newType with
  | none => .error .type
  | some out =>
    let nv := r.nv.getD (defaultNull out)
    let masked := r.masked || unmappedToNull || remapping.any (·.2.isNone)
    let remapping' := remapping.map fun kt => (kt.1, some (kt.2.getD nv))
    let table := remapping'.map fun kt =>
      (np.cast (keyType remapping') kt.1.val, np.cast out (np.cast (valueType nv remapping') (kt.2.getD nv).val))
    let data := fun c =>
      if r.mask c then np.cast out nv.val
      else (dictGet (np.cast (keyType remapping') (r.data c)) table).getD
        (if unmappedToNull then np.cast out nv.val else np.cast out (r.data c))
    .ok (ofData out r.nb r.ny r.nx data none (if masked then some nv else none) false, remapping')

/-! ### where -/

/-- `true_rast` or `false_rast`: a raster, a number or `None`. -/
inductive Arg where
  | raster (r : Raster)
  | num (v : NullArg)
  | null

namespace Arg

def isNull : Arg → Bool
  | null => true
  | _ => false

def masked : Arg → Bool
  | raster r => r.masked
  | _ => false

/-- The number or `None` as an item of `get_common_dtype`. -/
def item? (np : NumPy) : Arg → Option Nulls.Item
  | num v => some (v.item np)
  | _ => none

end Arg

/-- `general.py:1127-1142` `_get_where_nv`. -/
def whereNv (np : NumPy) : Arg → Arg → Option Scalar
  | .raster x, .raster y => (x.dtype.promote y.dtype).map defaultNull
  | .raster x, _ => some (x.nv.getD (defaultNull x.dtype))
  | _, .raster y => some (y.nv.getD (defaultNull y.dtype))
  | x, y => (commonDtype ([x, y].filterMap (·.item? np))).map defaultNull

/-- The value of an operand at a cell, `None` replaced by the null value (`general.py:1222-1225`). -/
def Arg.value (nv : Num) : Arg → Cell → Num
  | .raster r, c => r.data c
  | .num v, _ => v.val
  | .null, _ => nv

/-- `getattr(x, "xmask", False)`. -/
def Arg.mask : Arg → Cell → Bool
  | .raster r, c => r.mask c
  | _, _ => false

/-- `general.py:1213-1219`: the condition as a boolean. -/
def condTrue (cond : Raster) (c : Cell) : Bool :=
  if cond.dtype.isInt then lt (.fin 0) (cond.data c) else !(cond.data c).eq (.fin 0)

/-- `general.py:1145-1256` `where` on rasters of one shape; `out` is the dtype that `xr.where` gives to the
result (a dtype all the values are converted to). -/
def whereRaster (np : NumPy) (cond : Raster) (x y : Arg) (out : DType) : Except Err Raster :=
  if !(cond.dtype.isBool || cond.dtype.isInt) then .error .type
  else if x.isNull && y.isNull then .error .value
  else
    let masked := cond.masked || x.masked || y.masked || x.isNull || y.isNull
    if masked then
      match whereNv np x y with
      | none => .error .type
      | some nv =>
        let cd := fun c => if cond.mask c then false else condTrue cond c
        let sel := fun c => np.cast out (if cd c then x.value nv.val c else y.value nv.val c)
        let mask := fun c => if cond.mask c then true else if cd c then x.mask c else y.mask c
        let data := fun c => if mask c then np.cast out nv.val else sel c
        .ok ⟨out, cond.nb, cond.ny, cond.nx, data, fun c => maskOf (some nv.val) (data c), some nv⟩
    else
      let data := fun c => np.cast out (if condTrue cond c then x.value .nan c else y.value .nan c)
      .ok ⟨out, cond.nb, cond.ny, cond.nx, data, fun _ => false, none⟩

end Verif.Remap
