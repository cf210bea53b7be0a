import Verif.Nulls.RasterModel

/-!
# Model of `model_predict_vector` (`general.py`)

A vector is a table in partitions: a partition is a list of rows, a row has an index label and a value for each column.
Columns are numeric or not (texts, geometries); the values of the others are left abstract.  Vectors that are series of
geometries without a table are left out, as is the conversion of predictions to float64.  What is raised when the lazy result is
computed is part of the result.
-/

namespace Verif.PredictVector

open Verif Verif.Nulls

/-- A value of a column: a number, or anything else. -/
inductive Val where
  | num (v : Num)
  | other (i : Nat)
deriving DecidableEq

/-- A row. -/
structure Row where
  index : Int
  value : String → Val

/-- The number in a numeric column. -/
def Val.toNum : Val → Num
  | .num v => v
  | .other _ => .nan

/-- What `predict` returns: an array of one dimension, or of two with a number of columns. -/
inductive Y where
  | one (ys : List Num)
  | two (cols : Nat) (rows : List (List Num))

/-- `general.py:498-499` `np.expand_dims(y, 1)`: number of columns, rows. -/
def Y.expand : Y → Nat × List (List Num)
  | .one ys => (1, ys.map fun v => [v])
  | .two cols rows => (cols, rows)

/-- A model with a `predict` method. -/
abbrev Model := List (List Num) → Except Err Y

/-- `general.py:494` the predictors of a row. -/
def predictors (fields : List String) (r : Row) : List Num := fields.map fun f => (r.value f).toNum

/-- `general.py:495` whether a row has no NaN. -/
def isValid (x : List Num) : Bool := !x.any Num.isnan

/-- The position of an axis of length 1 that is stretched, of any other axis as it is. -/
def stretch (len i : Nat) : Nat := if len = 1 then 0 else i

/-- `general.py:500-502` the rows of `pred`: the next row of `y` for each valid row (`j` of them have been used), NaN for others. -/
def scatter (n cols : Nat) (y : List (List Num)) : Nat → List Bool → List (List Num)
  | _, [] => []
  | j, true :: vs =>
    ((List.range n).map fun i => (y.getD (stretch y.length j) []).getD (stretch cols i) .nan) :: scatter n cols y (j + 1) vs
  | j, false :: vs => List.replicate n .nan :: scatter n cols y j vs

/-- `general.py:501` whether `y` can be assigned to `n` columns of the valid rows. -/
def fits (n valid cols len : Nat) : Bool := (cols == n || cols == 1) && (len == valid || len == 1)

/-- `general.py:494-502` the predictions for the rows of a partition. -/
def predictions (model : Model) (fields : List String) (n : Nat) (rows : List Row) : Except Err (List (List Num)) :=
  let xs := rows.map (predictors fields)
  match model (xs.filter isValid) with
  | .error e => .error e
  | .ok y =>
    if fits n (xs.filter isValid).length y.expand.1 y.expand.2.length then .ok (scatter n y.expand.1 y.expand.2 0 (xs.map isValid))
    else .error .value

/-- The names of the new columns. -/
def newNames (pre : String) (n : Nat) : List String := (List.range n).map fun i => pre ++ toString (i + 1)

/-- `general.py:504-511` a row with its predictions appended. -/
def addColumns (pre : String) (r : Row) (p : List Num) : Row :=
  { r with value := fun c =>
      match (newNames pre p.length).findIdx? (· == c) with
      | some i => .num (p.getD i .nan)
      | none => r.value c }

/-- `general.py:493-511` `_pred_df`: `np.isnan` raises a TypeError if a column is not numeric. -/
def predPart (model : Model) (numeric : String → Bool) (fields : List String) (n : Nat) (pre : String) (rows : List Row) :
    Except Err (List Row) :=
  if fields.all numeric then
    match predictions model fields n rows with
    | .error e => .error e
    | .ok ps => .ok (List.zipWith (addColumns pre) rows ps)
  else .error .type

/-- Every partition. -/
def predParts (f : List Row → Except Err (List Row)) : List (List Row) → Except Err (List (List Row))
  | [] => .ok []
  | p :: ps =>
    match f p with
    | .error e => .error e
    | .ok q =>
      match predParts f ps with
      | .error e => .error e
      | .ok qs => .ok (q :: qs)

/-- A table: the names of the columns, which of them are numeric, and the partitions. -/
structure Table where
  names : List String
  numeric : String → Bool
  parts : List (List Row)

/-- `general.py:558-595` `model_predict_vector`; `pre = none` is an `out_prefix` that is no string. -/
def predictVector (model : Model) (fields : List String) (nOutputs : Int) (pre : Option String) (t : Table) :
    Except Err Table :=
  if !fields.all (t.names.contains ·) then .error .key
  else if nOutputs < 1 then .error .value
  else match pre with
    | none => .error .type
    | some p =>
      if (newNames p nOutputs.toNat).any (t.names.contains ·) then .error .key
      else match predParts (predPart model t.numeric fields nOutputs.toNat p) t.parts with
        | .error e => .error e
        | .ok parts =>
          .ok { names := t.names ++ newNames p nOutputs.toNat
                numeric := fun c => t.numeric c || (newNames p nOutputs.toNat).contains c
                parts := parts }

end Verif.PredictVector
