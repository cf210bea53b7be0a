/-!
# Floating point values as the model sees them

A finite number of the field `R`, an infinity, or NaN.  Rounding is not modelled.
-/

namespace Verif

/-- A float: finite, infinite or NaN. -/
inductive FVal (R : Type _) where
  | fin (r : R)
  | posInf
  | negInf
  | nan
deriving DecidableEq, Repr

end Verif
