import Verif.Batch.Model

/-!
# Model of `version_to_tuple` and the checks of versions

Text is a list of characters, of which only the blank characters and digits of ASCII are looked at.
-/

namespace Verif.Versions

open Verif Verif.Nulls
open Verif.Batch (Text splitOn strip)

/-- The sign of a number, and the rest. -/
def splitSign : Text → Bool × Text
  | '-' :: s => (true, s)
  | '+' :: s => (false, s)
  | s => (false, s)

/-- The digits are written with single underscores between them. -/
def wellFormed (groups : List Text) : Bool := groups.all fun g => !g.isEmpty && g.all Char.isDigit

/-- Python's `int(s)`. -/
def pyInt (s : Text) : Except Err Int :=
  let t := splitSign (strip s)
  let groups := splitOn '_' t.2
  if wellFormed groups then
    .ok ((if t.1 then -1 else 1) * (Nat.ofDigitChars 10 groups.flatten 0 : Int))
  else .error .value

/-- `tuple(map(int, parts))`. -/
def pyInts : List Text → Except Err (List Int)
  | [] => .ok []
  | p :: ps => match pyInt p with
    | .error e => .error e
    | .ok n => match pyInts ps with
      | .error e => .error e
      | .ok ns => .ok (n :: ns)

/-- `utils.py:164-165` `version_to_tuple`. -/
def versionToTuple (s : Text) : Except Err (List Int) := pyInts (splitOn '.' (strip s))

/-- `<` of tuples. -/
def tupleLt : List Int → List Int → Bool
  | [], [] => false
  | [], _ :: _ => true
  | _ :: _, [] => false
  | a :: as, b :: bs => if a = b then tupleLt as bs else decide (a < b)

/-- `version_to_tuple(version) >= bound`. -/
def atLeast (version : Text) (bound : List Int) : Except Err Bool :=
  match versionToTuple version with
  | .error e => .error e
  | .ok t => .ok (!tupleLt t bound)

/-- `_compat.py:21-23`: `NUMPY_GE_2` and `NUMPY_GE_2_2`, which are computed when the package is imported. -/
def compat (numpy : Text) : Except Err (Bool × Bool) :=
  match atLeast numpy [2, 0, 0] with
  | .error e => .error e
  | .ok a => match atLeast numpy [2, 2, 0] with
    | .error e => .error e
    | .ok b => .ok (a, b)

/-- `zonal.py:270-273`: `version_to_tuple(dask.__version__) < (2024, 1, 1)` is the negation of `>=`, tuples of integers being ordered totally. The keyword of the shuffle for medians. -/
def shuffleKeyword (dask : Text) : Except Err String :=
  match atLeast dask [2024, 1, 1] with
  | .error e => .error e
  | .ok new => .ok (if new then "shuffle_method" else "shuffle")

end Verif.Versions
