import Verif.Nulls.RasterModel
import Mathlib.Algebra.Order.Floor.Defs
import Mathlib.Data.Rat.Floor

/-!
# Model of `Raster.round` (`raster.py`)

NumPy's `round` multiplies by a power of ten, rounds to the nearest integer with ties to even, and divides; integers are left alone for
`decimals >= 0` and computed as doubles and cast back otherwise.  Arithmetic is exact; the rounding of a result to its dtype is
`NumPy.cast`.  The null value has the dtype of the data, so `xr.where` does not promote.  Booleans, whose dtype numpy changes,
coordinates and chunks are left out.
-/

namespace Verif.Round

open Verif Verif.Nulls DType

/-- `np.rint`: the nearest integer, ties to even. -/
def rint (q : Rat) : Int :=
  if q - ⌊q⌋ < 1 / 2 then ⌊q⌋
  else if 1 / 2 < q - ⌊q⌋ then ⌊q⌋ + 1
  else if ⌊q⌋ % 2 = 0 then ⌊q⌋
  else ⌊q⌋ + 1

/-- `np.round` of a number. -/
def roundRat (d : Int) (q : Rat) : Rat := rint (q * 10 ^ d) / 10 ^ d

/-- `np.round` of a number of a dtype. -/
def npRound (np : NumPy) (dt : DType) (d : Int) : Num → Num
  | .fin q => if dt.isInt = true ∧ 0 ≤ d then .fin q else np.cast dt (.fin (roundRat d q))
  | v => v

/-- `raster.py:2469-2495` `Raster.round`. -/
def round (np : NumPy) (r : Raster) (d : Int) : Raster :=
  match r.nv with
  | some s => { r with data := fun c => if r.mask c then s.val else npRound np r.dtype d (r.data c) }
  | none => { r with data := fun c => npRound np r.dtype d (r.data c) }

end Verif.Round
