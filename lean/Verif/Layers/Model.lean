import Verif.Vector.Model
set_option linter.unusedSectionVars false
/-!
# Model of `vector.py`: layers of a source, and vectors made from vectors

A vector source is the list of its layers, each with its name and its features; asking OGR for a layer by name gives the
first one with that name, by number the one at that place.  `dgpd.read_file` (dask_geopandas) is a parameter.  Python's
`True` and `False` are the integers 1 and 0 for `is_int` (`dtypes.py:59-62`).
-/

namespace Verif.Layers

open Verif.Vector (Frame Vec SizeArg)

variable {F : Type}

/-- Exceptions; `io` is `IOError`, `reader` one that comes out of `_read_file_delayed` or `dgpd.read_file`. -/
inductive Err where
  | io | type | value | index
  | reader (e : Vector.Err)
deriving DecidableEq, Repr

/-! ### The layers -/

/-- A layer as it is named by the caller. -/
inductive Layer where
  | int (i : Int)
  | str (s : String)
  | other
deriving DecidableEq, Repr

/-- `is_int`. -/
def Layer.isInt : Layer → Bool
  | .int _ => true
  | _ => false

/-- `is_str`. -/
def Layer.isStr : Layer → Bool
  | .str _ => true
  | _ => false

/-- The argument `layers`: `None`, a list or tuple, or anything else. -/
inductive LayersArg where
  | none
  | list (ls : List Layer)
  | one (l : Layer)
deriving DecidableEq, Repr

/-- What is in a file. -/
abbrev Source (F : Type) := List (String × List F)

/-- `vector.py:48-56` `list_layers`. -/
def listLayers (src : Source F) : List String := src.map (·.1)

/-- `vector.py:123-129`: all names or all integers, as the first one is. -/
def uniform (first : Layer) (ls : List Layer) : Bool :=
  if first.isStr then ls.all Layer.isStr else ls.all Layer.isInt

/-- `vector.py:119-133` `_normalize_layers_arg` for arguments other than `None`. -/
def normalizeList : List Layer → Except Err (List Layer)
  | [] => .error .value
  | first :: rest => if uniform first (first :: rest) then .ok (first :: rest) else .error .type

/-- `vector.py:130-133`: a layer alone. -/
def normalizeOne (l : Layer) : Except Err (List Layer) := if l.isInt || l.isStr then .ok [l] else .error .type

/-- `vector.py:169-172`: a name that the source does not have. -/
def badName (src : Source F) : Layer → Bool
  | .str s => !(listLayers src).contains s
  | _ => false

/-- `vector.py:173-175`: a number out of range. -/
def badIndex (src : Source F) : Layer → Bool
  | .int i => decide (i ≥ (src.length : Int)) || decide (i < 0)
  | _ => false

/-- `vector.py:168-179`: the checks of the layers that are asked for, which are all names or all integers. -/
def checkLayers (src : Source F) (ls : List Layer) : Except Err (List Layer) :=
  if ls.any (badName src) then .error .value
  else if ls.any (badIndex src) then .error .value
  else .ok ls

/-- `vector.py:165-181`: the layers to read. -/
def resolveLayers (src : Source F) (arg : LayersArg) : Except Err (List Layer) :=
  match arg with
  | .none => .ok ((listLayers src).map .str)
  | .list ls => match normalizeList ls with
    | .error e => .error e
    | .ok ls => checkLayers src ls
  | .one l => match normalizeOne l with
    | .error e => .error e
    | .ok ls => checkLayers src ls

/-- OGR: the features of a layer, by name or by number. -/
def lookup (src : Source F) : Layer → Option (List F)
  | .str s => (src.find? fun l => l.1 == s).map (·.2)
  | .int i => if i < 0 then none else (src[i.toNat]?).map (·.2)
  | .other => none

/-- `vector.py:59-87` `count_layer_features` for a source that exists; a layer that OGR does not find is an error of the
reader. -/
def countLayerFeatures (src : Source F) (l : Layer) : Except Err Nat :=
  match l with
  | .other => .error .type
  | .str s => match lookup src (.str s) with
    | some fs => .ok fs.length
    | none => .error (.reader .value)
  | .int i =>
    if i < 0 then .error .value
    else match lookup src (.int i) with
      | some fs => .ok fs.length
      | none => .error (.reader .value)

/-- How the features of a layer become a frame, with the number of features that goes with it. -/
abbrev Reader (F : Type) := List F → Except Vector.Err (Frame F × Nat)

/-- `vector.py:186-190`: with `pyogrio`, the frame of `dgpd.read_file` and the count. -/
def pyogrioReader (readFile : List F → Except Vector.Err (Frame F)) : Reader F := fun fs =>
  match readFile fs with
  | .error e => .error e
  | .ok fr => .ok (fr, fs.length)

/-- `vector.py:191-193`: without it. -/
def fionaReader : Reader F := Vector.openLayer

/-- `vector.py:184-194`: one pass of the loop. -/
def readLayer (read : Reader F) (src : Source F) (l : Layer) : Except Err (Frame F × Nat) :=
  match countLayerFeatures src l with
  | .error e => .error e
  | .ok _ => match lookup src l with
    | none => .error (.reader .value)
    | some fs => match read fs with
      | .error e => .error (.reader e)
      | .ok p => .ok p

/-- All of them, or the first error. -/
def collect {α β : Type} (f : α → Except Err β) : List α → Except Err (List β)
  | [] => .ok []
  | a :: as => match f a with
    | .error e => .error e
    | .ok b => match collect f as with
      | .error e => .error e
      | .ok bs => .ok (b :: bs)

/-- `Vector(layer_vec, n)`. -/
def makeVec (p : Frame F × Nat) : Except Err (Vec F) :=
  match Vector.init p.1 (.int p.2) with
  | .error .type => .error .type
  | .error .value => .error .value
  | .error e => .error (.reader e)
  | .ok v => .ok v

/-- What `open_vectors` returns. -/
inductive Opened (F : Type) where
  | one (v : Vec F)
  | many (vs : List (Vec F))

/-- `vector.py:196-198`. -/
def finish (pairs : List (Frame F × Nat)) : Except Err (Opened F) :=
  match pairs with
  | [] => .error .index
  | [p] => match makeVec p with
    | .error e => .error e
    | .ok v => .ok (.one v)
  | p :: q :: ps => match collect makeVec (p :: q :: ps) with
    | .error e => .error e
    | .ok vs => .ok (.many vs)

/-- `vector.py:139-198` `open_vectors`; `src` is `none` if there is no such file. -/
def openVectors (read : Reader F) (src : Option (Source F)) (arg : LayersArg) : Except Err (Opened F) :=
  match src with
  | none => .error .io
  | some src => match resolveLayers src arg with
    | .error e => .error e
    | .ok ls => match collect (readLayer read src) ls with
      | .error e => .error e
      | .ok pairs => finish pairs

/-- The argument of `get_vector`: a `Vector`, a path with what is there, a dask frame (or series, as a frame), or something
else. -/
inductive VectorArg (F : Type) where
  | vector (v : Vec F)
  | path (src : Option (Source F))
  | frame (fr : Frame F)
  | other

/-- `vector.py:206-209`: more than one layer is an error. -/
def onlyOne : Opened F → Except Err (Vec F)
  | .one v => .ok v
  | .many _ => .error .value

/-- `vector.py:201-213` `get_vector`. -/
def getVector (read : Reader F) (arg : VectorArg F) : Except Err (Vec F) :=
  match arg with
  | .vector v => .ok v
  | .path src => match openVectors read src .none with
    | .error e => .error e
    | .ok o => onlyOne o
  | .frame fr => match Vector.init fr .none with
    | .error e => .error (.reader e)
    | .ok v => .ok v
  | .other => .error .type

/-- `GeoDataFrame.to_file(path, layer=name)` for a format with several layers: the layer replaces the one with that name or
comes after the others, which stay. -/
def toFile (src : Source F) (name : String) (fs : List F) : Source F := src.filter (fun l => l.1 != name) ++ [(name, fs)]

/-- `vector.py:772-793` `Vector.save` with `layer=name`. -/
def Vec.save (read : Reader F) (v : Vec F) (src : Source F) (name : String) : Except Err (Opened F) :=
  openVectors read (some (toFile src name (v.geo.rows.map (·.2)))) .none

/-! ### Vectors made from vectors -/

/-- A row: the geometry and the attributes. -/
structure Row (G V : Type) where
  geom : G
  attrs : List (String × V)
deriving DecidableEq, Repr

variable {G V : Type}

/-- A `Vector` with the names of its fields. -/
structure Vect (G V : Type) where
  geo : Frame (Row G V)
  fields : List String
  size : Int

/-- `Vector(geo, size)` for dask collections. -/
def make (geo : Frame (Row G V)) (fields : List String) (size : SizeArg) : Except Vector.Err (Vect G V) :=
  match Vector.init geo size with
  | .error e => .error e
  | .ok v => .ok ⟨v.geo, fields, v.size⟩

/-- dask's `map_partitions` of a function on rows, which keeps index and divisions. -/
def mapRows (f : Row G V → Row G V) (fr : Frame (Row G V)) : Frame (Row G V) :=
  ⟨fr.parts.map fun part => part.map fun e => (e.1, f e.2), fr.divisions⟩

/-- `vector.py:481-483` `copy`; also `vector.py:876-896` `calculate_spatial_partitions`, up to the bounds of the
partitions. -/
def Vect.copy (v : Vect G V) : Except Vector.Err (Vect G V) := make v.geo v.fields .none

/-- The geometry changes. -/
def Row.onGeom (f : G → G) (r : Row G V) : Row G V := ⟨f r.geom, r.attrs⟩

/-- `vector.py:665-681` `to_crs`. -/
def Vect.toCrs (f : G → G) (v : Vect G V) : Except Vector.Err (Vect G V) :=
  make (mapRows (Row.onGeom f) v.geo) v.fields (.int v.size)

/-- One attribute changes. -/
def Row.onAttr (name : String) (f : V → V) (r : Row G V) : Row G V :=
  ⟨r.geom, r.attrs.map fun a => if a.1 = name then (a.1, f a.2) else a⟩

/-- `vector.py:683-705` `cast_field` for attributes; `name` is `none` if it is no string.  (The name of the geometry is a
column as well and is left out here.) -/
def Vect.castField (name : Option String) (f : V → V) (v : Vect G V) : Except Vector.Err (Vect G V) :=
  match name with
  | none => .error .type
  | some name => if name ∈ v.fields then make (mapRows (Row.onAttr name f) v.geo) v.fields .none else .error .value

/-- A `GeoSeries` of new geometries as a frame (`vector.py:348-349`). -/
def Row.only (f : G → G) (r : Row G V) : Row G V := ⟨f r.geom, []⟩

/-- `vector.py:736-752` `buffer` and `vector.py:754-769` `simplify`: `self._geo.buffer(…)` is a series. -/
def Vect.buffer (f : G → G) (v : Vect G V) : Except Vector.Err (Vect G V) :=
  make (mapRows (Row.only f) v.geo) [] .none

/-- Are the index values in order? -/
def inOrder : List (Int × F) → Bool
  | a :: b :: rest => decide (a.1 ≤ b.1) && inOrder (b :: rest)
  | _ => true

/-- `dgpd.from_geopandas(geo, npartitions=1)` of a frame with rows: `dask.dataframe.from_pandas` sorts the rows by their
index if they are not in order; the divisions are the first and the last value. -/
def fromGeopandas (sort : List (Int × F) → List (Int × F)) (rows : List (Int × F)) : Frame F :=
  let rows := if inOrder rows then rows else sort rows
  ⟨[rows], [(rows.head?.map (·.1)).getD 0, (rows.getLast?.map (·.1)).getD 0]⟩

/-- `vector.py:382-385` `Vector(geo)` for a frame in memory. -/
def ofMemory (sort : List (Int × Row G V) → List (Int × Row G V)) (rows : List (Int × Row G V)) (fields : List String) :
    Vect G V :=
  ⟨fromGeopandas sort rows, fields, rows.length⟩

/-- `vector.py:501-505` `load`. -/
def Vect.load (sort : List (Int × Row G V) → List (Int × Row G V)) (v : Vect G V) : Vect G V :=
  ofMemory sort v.geo.rows v.fields

/-- `vector.py:858-874` `spatial_shuffle`, with dask_geopandas' method as a parameter. -/
def Vect.spatialShuffle (shuffle : Frame (Row G V) → Frame (Row G V)) (v : Vect G V) : Except Vector.Err (Vect G V) :=
  make (shuffle v.geo) v.fields .none

end Verif.Layers
