import Verif.Base.DType

/-!
# Model of `dtypes.py` and `masking.py`: null values and data types
-/

namespace Verif.Nulls

open Verif DType

/-- A NumPy scalar: its dtype and its value.  A python int is turned into one by
`np.result_type(n).type(n)` (`masking.py:82`), see `pyInt`; a python float is an `f64` scalar, a python
bool a `bool` one. -/
structure Scalar where
  ty : DType
  val : Num
deriving DecidableEq, Repr

/-- `np.result_type(n).type(n)` of a python int; `none` beyond 64 bits (an object, not modelled). -/
def pyInt (n : Int) : Option Scalar :=
  if -2 ^ 63 ≤ n ∧ n ≤ 2 ^ 63 - 1 then some ⟨i64, .fin n⟩
  else if 0 ≤ n ∧ n ≤ 2 ^ 64 - 1 then some ⟨u64, .fin n⟩
  else none

/-- `masking.py:38-60` `DTYPE_TO_DEFAULT_NULL`. -/
def defaultNull : DType → Scalar
  | .bool => ⟨.bool, .fin 1⟩
  | u8 => ⟨u8, .fin 255⟩
  | u16 => ⟨u16, .fin 65535⟩
  | u32 => ⟨u32, .fin 4294967295⟩
  | u64 => ⟨u64, .fin 18446744073709549568⟩
  | i8 => ⟨i8, .fin (-128)⟩
  | i16 => ⟨i16, .fin (-32768)⟩
  | i32 => ⟨i32, .fin (-2147483648)⟩
  | i64 => ⟨i64, .fin (-9223372036854775808)⟩
  | f16 => ⟨f16, .fin (-65504)⟩
  | f32 => ⟨f32, .fin (-999999)⟩
  | f64 => ⟨f64, .fin (-999999)⟩
  | f128 => ⟨f128, .fin (-999999)⟩

/-- `np.min_scalar_type` of an integer; `none` is the object dtype. -/
def minScalarInt (n : Int) : Option DType :=
  if 0 ≤ n then
    if n ≤ 2 ^ 8 - 1 then some u8 else if n ≤ 2 ^ 16 - 1 then some u16
    else if n ≤ 2 ^ 32 - 1 then some u32 else if n ≤ 2 ^ 64 - 1 then some u64 else none
  else
    if -2 ^ 7 ≤ n then some i8 else if -2 ^ 15 ≤ n then some i16
    else if -2 ^ 31 ≤ n then some i32 else if -2 ^ 63 ≤ n then some i64 else none

/-- `np.min_scalar_type` of a floating point number: by range only. -/
def minScalarFloat : Num → DType
  | .fin q => if -65000 < q ∧ q < 65000 then f16
    else if -34 * 10 ^ 37 < q ∧ q < 34 * 10 ^ 37 then f32 else f64
  | _ => f16

/-- The NumPy in use: before version 2 `np.can_cast` looks at the value of a scalar. -/
structure NumPy where
  valueBased : Bool
  /-- Conversion of a value to a dtype, `dtype.type(value)`. -/
  cast : DType → Num → Num

/-- `np.can_cast(scalar, dtype)`. -/
def NumPy.canCastScalar (np : NumPy) (s : Scalar) (dt : DType) : Bool :=
  if np.valueBased then
    match s.ty.isInt, s.val with
    | true, .fin q =>
      match dt, dt.limits with
      | .bool, _ => false
      | _, some (lo, hi) => decide ((lo : Rat) ≤ q) && decide (q ≤ (hi : Rat))
      | _, none => match minScalarInt q.num with
        | some m => m.canCast dt
        | none => false
    | _, _ => if s.ty.isFloat then (minScalarFloat s.val).canCast dt else s.ty.canCast dt
  else s.ty.canCast dt

/-- `np.allclose(a, v)` for finite numbers: `|a - v| <= 1e-8 + 1e-5 * |v|`. -/
def allclose (a v : Rat) : Bool := decide (|a - v| ≤ 1 / 10 ^ 8 + 1 / 10 ^ 5 * |v|)

/-- `np.allclose(a, v, equal_nan=True)`. -/
def allcloseNum : Num → Num → Bool
  | .fin a, .fin v => allclose a v
  | .nan, .nan => true
  | .posInf, .posInf => true
  | .negInf, .negInf => true
  | _, _ => false

/-- `np.finfo(F32).max` and `np.finfo(F64).max`. -/
def f32max : Rat := (2 ^ 24 - 1) * 2 ^ 104
def f64max : Rat := (2 ^ 53 - 1) * 2 ^ 971

/-- `masking.py:90-104`: the scalar that is tried second. -/
def secondTry (np : NumPy) (s : Scalar) : Scalar :=
  match s.val with
  | .fin q =>
    if s.ty.isFloat then
      if q.den = 1 then
        if allclose q (-f32max) || allclose q f32max || allclose q (-f64max) || allclose q f64max then s
        else match minScalarInt q.num with
          | some m => ⟨m, .fin q⟩
          | none => s
      else ⟨minScalarFloat s.val, np.cast (minScalarFloat s.val) s.val⟩
    else if s.ty.isInt then
      match minScalarInt q.num with
      | some m => ⟨m, .fin q⟩
      | none => s
    else s
  | _ => ⟨minScalarFloat s.val, s.val⟩

/-- `masking.py:69-112` `reconcile_nullvalue_with_dtype`; the flag tells whether a warning is issued
(when asked for). -/
def reconcile (np : NumPy) (nv : Option Scalar) (dt : DType) : Option Scalar × Bool :=
  match nv with
  | none => (none, false)
  | some s =>
    if s.val.isnan then (some (defaultNull dt), false)
    else if np.canCastScalar s dt then (some s, false)
    else
      let nv := secondTry np s
      if np.canCastScalar nv dt || (dt.isBool && (nv.val.eq (.fin 0) || nv.val.eq (.fin 1)))
      then (some ⟨dt, np.cast dt nv.val⟩, false)
      else (some (defaultNull dt), true)

/-! ### Common dtype -/

/-- An item of `get_common_dtype`: a dtype, an integer literal, or another scalar of which
`safe_min_scalar_type` (`dtypes.py:85-103`) gives the dtype. -/
inductive Item where
  | dtype (d : DType)
  | int (n : Int)
  | other (d : DType)
deriving DecidableEq, Repr

/-- `dtypes.py:113-123` the dtypes to promote. -/
def itemDtypes (items : List Item) : List DType :=
  items.filterMap fun
    | .dtype d => some d
    | .other d => some d
    | .int _ => none

/-- `dtypes.py:113-123` the integer literals. -/
def itemInts (items : List Item) : List Int :=
  items.filterMap fun
    | .int n => some n
    | _ => none

/-- `dtypes.py:132` the candidates in order. -/
def intTypes : List DType := [u8, i8, u16, i16, u32, i32, u64, i64]

/-- `dtypes.py:133-141` for one candidate. -/
def fitsRange (minVal maxVal : Int) (dt : DType) : Bool :=
  if minVal < 0 && dt.isUnsigned then false
  else match dt.limits with
    | some (lo, hi) => decide (lo ≤ minVal) && decide (maxVal ≤ hi)
    | none => false

/-- Python's `min`/`max` of a non-empty list. -/
def listMin : List Int → Option Int
  | [] => none
  | x :: xs => some (xs.foldl min x)
def listMax : List Int → Option Int
  | [] => none
  | x :: xs => some (xs.foldl max x)

/-- `dtypes.py:127-141` the dtype found for the literals, if any. -/
def literalDtype (ints : List Int) : Option DType :=
  match listMin ints, listMax ints with
  | some lo, some hi => intTypes.find? (fitsRange lo hi)
  | _, _ => none

/-- `functools.reduce(np.promote_types, ds)`; `none` is the `TypeError` of an empty sequence. -/
def reducePromote : List DType → Option DType
  | [] => none
  | d :: ds => ds.foldl (fun acc e => acc.bind (·.promote e)) (some d)

/-- `dtypes.py:106-143` `get_common_dtype`; `none` is a `TypeError`. -/
def commonDtype (items : List Item) : Option DType :=
  reducePromote (itemDtypes items ++ (literalDtype (itemInts items)).toList)

end Verif.Nulls
