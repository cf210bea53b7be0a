import Verif.Focal.Model

/-!
# Model of `surface.tpi`

The windows, the focal mean and the null handling are those of the other models; the mean of a list is a parameter.  Differences and
sums are exact.
-/

namespace Verif.Tpi

open Verif Verif.Nulls Verif.Focal DType

/-- The negative of a number. -/
def neg : Num → Num
  | .fin q => .fin (-q)
  | .posInf => .negInf
  | .negInf => .posInf
  | .nan => .nan

/-- `np.result_type` of two dtypes. -/
def result : List DType → Nat → DType
  | [a, b], _ => (a.promote b).getD f64
  | _, _ => f64

/-- `np.subtract`. -/
def subtract : Ufunc := ⟨false, false, 1, result, fun _ vs => match vs with
  | [a, b] => add a (neg b)
  | _ => .nan⟩

/-- `np.add`. -/
def plus : Ufunc := ⟨false, false, 1, result, fun _ vs => match vs with
  | [a, b] => add a b
  | _ => .nan⟩

/-- The only result. -/
def one : Except Err (List Raster) → Except Err Raster
  | .error e => .error e
  | .ok (o :: _) => .ok o
  | .ok [] => .error .runtime

/-- `surface.py:545-558`: the window. -/
def window : Size → Size → Except Err (Kernel Bool)
  | .int n, .int m =>
    if n < 0 then .error .value
    else if m < 1 then .error .value
    else if n ≥ m then .error .value
    else getFocalWindow (if n = 0 then .one (.int m) else .seq [.int n, .int m]) none
  | _, _ => .error .type

/-- `surface.py:562`: `(dem - mean) + 0.5`.  A python float takes the dtype of the array. -/
def relief (dem mean : Raster) : Except Err Raster :=
  match one (applyUfunc subtract dem [.raster dem, .raster mean]) with
  | .error e => .error e
  | .ok d => one (applyUfunc plus d [.raster d, .numbers f16 fun _ => .fin (1 / 2)])

/-- `surface.py:562-565`: the conversion. -/
def finish (np : NumPy) (dem : Raster) (o : Raster) : Except Err Raster :=
  match o.astype np i32 none with
  | .error e => .error e
  | .ok t => if dem.masked then t.setNullValue np (some (.int (-2147483648))) else .ok t

/-- `surface.py:506-565` `tpi`. -/
def tpi (np : NumPy) (func : Stat → List Num → Num) (dem : Raster) (inner outer : Size) (ychunks xchunks : List Nat) :
    Except Err Raster :=
  match window inner outer with
  | .error e => .error e
  | .ok w => match focal np func dem .mean w false ychunks xchunks with
    | .error e => .error e
    | .ok mean => match relief dem mean with
      | .error e => .error e
      | .ok o => finish np dem o

end Verif.Tpi
