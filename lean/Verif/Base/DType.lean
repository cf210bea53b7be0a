import Verif.Base.FVal
import Mathlib.Data.Rat.Floor
import Mathlib.Algebra.Order.Ring.Rat

/-!
# NumPy data types and scalars as the model sees them
-/

namespace Verif

/-- `dtypes.py:13-27`: the supported data types. -/
inductive DType where
  | bool | u8 | i8 | u16 | i16 | u32 | i32 | u64 | i64 | f16 | f32 | f64 | f128
deriving DecidableEq, Repr

namespace DType

/-- All of them, narrow types first. -/
def all : List DType := [bool, u8, i8, u16, i16, u32, i32, u64, i64, f16, f32, f64, f128]

theorem mem_all (d : DType) : d ∈ all := by cases d <;> decide

/-- `dtypes.py:59-62` on a dtype: `kind in ("u", "i")`. -/
def isInt : DType → Bool
  | u8 | i8 | u16 | i16 | u32 | i32 | u64 | i64 => true
  | _ => false

/-- `dtypes.py:65-68` on a dtype: `kind == "f"`. -/
def isFloat : DType → Bool
  | f16 | f32 | f64 | f128 => true
  | _ => false

/-- `dtypes.py:71-74` on a dtype. -/
def isBool : DType → Bool
  | bool => true
  | _ => false

/-- `np.issubdtype(dt, np.unsignedinteger)`. -/
def isUnsigned : DType → Bool
  | u8 | u16 | u32 | u64 => true
  | _ => false

/-- `np.iinfo(dt).min`, `np.iinfo(dt).max` (and 0, 1 for booleans); `none` for floats. -/
def limits : DType → Option (Int × Int)
  | bool => some (0, 1)
  | u8 => some (0, 2 ^ 8 - 1)
  | u16 => some (0, 2 ^ 16 - 1)
  | u32 => some (0, 2 ^ 32 - 1)
  | u64 => some (0, 2 ^ 64 - 1)
  | i8 => some (-2 ^ 7, 2 ^ 7 - 1)
  | i16 => some (-2 ^ 15, 2 ^ 15 - 1)
  | i32 => some (-2 ^ 31, 2 ^ 31 - 1)
  | i64 => some (-2 ^ 63, 2 ^ 63 - 1)
  | _ => none

/-- The integer `n` is a value of the integer or boolean type `d`. -/
def Holds (d : DType) (n : Int) : Prop := ∃ lo hi, d.limits = some (lo, hi) ∧ lo ≤ n ∧ n ≤ hi

/-- `np.can_cast(a, b)` (safe casting) between dtypes. -/
def canCast : DType → DType → Bool
  | bool, _ => true
  | u8, d => d ∈ [u8, u16, i16, u32, i32, u64, i64, f16, f32, f64, f128]
  | i8, d => d ∈ [i8, i16, i32, i64, f16, f32, f64, f128]
  | u16, d => d ∈ [u16, u32, i32, u64, i64, f32, f64, f128]
  | i16, d => d ∈ [i16, i32, i64, f32, f64, f128]
  | u32, d => d ∈ [u32, u64, i64, f64, f128]
  | i32, d => d ∈ [i32, i64, f64, f128]
  | u64, d => d ∈ [u64, f64, f128]
  | i64, d => d ∈ [i64, f64, f128]
  | f16, d => d ∈ [f16, f32, f64, f128]
  | f32, d => d ∈ [f32, f64, f128]
  | f64, d => d ∈ [f64, f128]
  | f128, d => d ∈ [f128]

/-- `np.promote_types(a, b)`: the first type, in the order of `all`, both can be cast to. -/
def promote (a b : DType) : Option DType := all.find? (fun d => a.canCast d && b.canCast d)

end DType

/-- A number held by a cell or used as a null value.  Booleans are 0 and 1. -/
abbrev Num := FVal Rat

namespace Num

/-- IEEE `==`. -/
def eq : Num → Num → Bool
  | .fin a, .fin b => decide (a = b)
  | .posInf, .posInf => true
  | .negInf, .negInf => true
  | _, _ => false

/-- `np.isnan`. -/
def isnan : Num → Bool
  | .nan => true
  | _ => false

/-- `utils.py:35-38` `nan_equal`. -/
def nanEqual (l r : Num) : Bool := if isnan l then isnan r else eq l r

theorem nanEqual_iff (l r : Num) : nanEqual l r = true ↔ l = r := by
  cases l <;> cases r <;> simp [nanEqual, isnan, eq]

end Num

end Verif
