import Mathlib.Data.List.Basic
set_option linter.unusedSectionVars false
/-!
# Model of `vector.py`: reading in batches, sizes, feature access and object ids

A dask dataframe is the list of its partitions, each a list of rows with their index value, with its divisions.  A row is
its feature (geometry and attributes), of any type.  Names of columns are strings.  Integers are unbounded.  The layer of a
file is the list of its features; `gpd.read_file(path, rows=slice(l, r))` returns rows `l` to `r - 1` of it.  Reading
through `dgpd.read_file` (with `pyogrio`) is dask_geopandas' own code and not modelled.
-/

namespace Verif.Vector

/-- Exceptions; `unbound` is `UnboundLocalError`. -/
inductive Err where
  | type | value | key | index | unbound | notImplemented
deriving DecidableEq, Repr

/-- A dask_geopandas GeoDataFrame. -/
structure Frame (F : Type) where
  parts : List (List (Int × F))
  divisions : List Int

variable {F : Type}

/-- All the rows. -/
def Frame.rows (fr : Frame F) : List (Int × F) := fr.parts.flatten

/-! ### Reading -/

/-- `vector.py:102-113`: the batches from `row_offset` on, with the value of `right` after the loop.  `fuel` bounds the
number of passes. -/
def batches (total batch : Nat) : Nat → Nat → Option Nat → List (Nat × Nat) × Option Nat
  | 0, _, right => ([], right)
  | fuel + 1, rowOffset, right =>
    if rowOffset < total then
      let left := rowOffset
      let right := min (rowOffset + batch) total
      let rest := batches total batch fuel (rowOffset + batch) (some right)
      ((left, right) :: rest.1, rest.2)
    else ([], right)

/-- `vector.py:104-107`: the rows from `left` to `right` with their numbers as index. -/
def readBatch (layer : List F) (b : Nat × Nat) : List (Int × F) :=
  ((layer.drop b.1).take (b.2 - b.1)).zipIdx.map fun e => (((b.1 + e.2 : Nat) : Int), e.1)

/-- `vector.py:95-116` `_read_file_delayed` for a layer, with the size it returns. -/
def readFileDelayed (layer : List F) (npartitions : Nat) : Except Err (Frame F × Nat) :=
  let total := layer.length
  let batch := total / npartitions + 1
  match batches total batch (total + 1) 0 none with
  | (_, none) => .error .unbound
  | (bs, some right) => .ok (⟨bs.map (readBatch layer), bs.map (fun b => (b.1 : Int)) ++ [(right : Int) - 1]⟩, total)

/-- `vector.py:136`. -/
def targetChunkSize : Nat := 50000

/-- `vector.py:192-193`: the layer with the number of partitions that `open_vectors` asks for. -/
def openLayer (layer : List F) : Except Err (Frame F × Nat) :=
  readFileDelayed layer (max (layer.length / targetChunkSize) 1)

/-! ### Sizes -/

/-- `vector.py:313-318` `_get_len_from_divisions`: the loop over the pairs of neighbours. -/
def getLenFromDivisions : List Int → Int
  | left :: right :: ds => right - left + getLenFromDivisions (right :: ds)
  | _ => 0

/-- `vector.py:330-340` `_get_best_effort_geo_len` for dask collections with known divisions. -/
def getBestEffortGeoLen (fr : Frame F) : Int :=
  if fr.parts.length = 1 then fr.rows.length
  else getLenFromDivisions fr.divisions.dropLast + (fr.parts.getLast?.getD []).length

/-- A `Vector`. -/
structure Vec (F : Type) where
  geo : Frame F
  size : Int

/-- The argument `size` of `Vector`. -/
inductive SizeArg where
  | none
  | int (n : Int)
  | other
deriving DecidableEq, Repr

/-- `vector.py:367-404` `Vector.__init__` for dask collections. -/
def init (geo : Frame F) (size : SizeArg) : Except Err (Vec F) :=
  match size with
  | .none => .ok ⟨geo, getBestEffortGeoLen geo⟩
  | .other => .error .type
  | .int size =>
    let guess := getLenFromDivisions geo.divisions
    if size = guess ∨ size = guess + 1 then .ok ⟨geo, size⟩ else .error .value

/-! ### Access to a feature -/

/-- The argument of `vec[…]`. -/
inductive Index where
  | slice
  | int (i : Int)
  | other
deriving DecidableEq, Repr

/-- `loc[[idx]]` of a dask dataframe, computed: the rows with this index value; a `KeyError` if there is none. -/
def Frame.loc (fr : Frame F) (idx : Int) : Except Err (List F) :=
  match (fr.rows.filter fun e => e.1 = idx).map (·.2) with
  | [] => .error .key
  | fs => .ok fs

/-- `vector.py:723-731`: the row in a frame of its own. -/
def single (fs : List F) : Except Err (Vec F) := init ⟨[fs.map fun f => (0, f)], [0, 1]⟩ (.int 1)

/-- `vector.py:720-731`: the feature with the index value. -/
def Vec.at (v : Vec F) (idx : Int) : Except Err (Vec F) :=
  match v.geo.loc idx with
  | .error e => .error e
  | .ok fs => single fs

/-- `vector.py:707-734` `__getitem__`. -/
def Vec.getItem (v : Vec F) (idx : Index) : Except Err (Vec F) :=
  match idx with
  | .slice => .error .notImplemented
  | .other => .error .type
  | .int idx =>
    if idx ≥ v.size then .error .index
    else if idx < 0 then
      if v.size + idx < 0 then .error .index else v.at (v.size + idx)
    else v.at idx

/-- A `for` loop over a `Vector`, which has no `__iter__`: `vec[0]`, `vec[1]`, … until an `IndexError`. -/
def Vec.iterate (v : Vec F) : Nat → Nat → Except Err (List (Vec F))
  | 0, _ => .ok []
  | fuel + 1, i =>
    match v.getItem (.int i) with
    | .error .index => .ok []
    | .error e => .error e
    | .ok w => match v.iterate fuel (i + 1) with
      | .error e => .error e
      | .ok ws => .ok (w :: ws)

/-! ### Object ids -/

/-- `vector.py:243`. -/
def objectidBase : Nat := 10 ^ 9

/-- `vector.py:235-240` `_add_objid`: the ids of a partition. -/
def addObjid (feats : List (Int × F)) (base number : Nat) : List (Int × F × Nat) :=
  feats.zipIdx.map fun e => (e.1.1, e.1.2, e.2 + 1 + number * base)

/-- A frame with the column of ids. -/
structure WithIds (F : Type) where
  name : String
  parts : List (List (Int × F × Nat))

/-- `vector.py:270-274`: `OBJECTID_{n}` with the first `n` that is free. -/
def numbered (columns : List String) : Nat → Nat → String
  | 0, n => s!"OBJECTID_{n}"
  | fuel + 1, n => if s!"OBJECTID_{n}" ∈ columns then numbered columns fuel (n + 1) else s!"OBJECTID_{n}"

/-- `vector.py:262-274`: the name of the column. -/
def objectidName (columns : List String) (name : Option String) : Except Err String :=
  match name with
  | some name => if name ∈ columns then .error .value else .ok name
  | none => .ok (if "OBJECTID" ∈ columns then numbered columns columns.length 1 else "OBJECTID")

/-- `vector.py:246-288` `add_objectid_column`. -/
def addObjectidColumn (fr : Frame F) (columns : List String) (name : Option String) (base : Nat) : Except Err (WithIds F) :=
  match objectidName columns name with
  | .error e => .error e
  | .ok name => .ok ⟨name, fr.parts.mapIdx fun number feats => addObjid feats base number⟩

end Verif.Vector
