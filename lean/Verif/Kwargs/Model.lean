import Verif.Nulls.RasterModel

/-!
# Keyword arguments of the block functions

`map_blocks`, `map_overlap`, `geo_map_blocks` and `geo_map_overlap` of `raster_tools/blocks.py`: which keyword arguments are let through to dask, and
what the function that is mapped is called with.

Simplifications:
* A `dict` is a list of pairs with different keys; setting an item replaces the value of the key or appends a pair.
* The parameters of the function (`dask.utils.has_keyword`, which asks `inspect.signature`) are a list of names.
* dask hands the keyword arguments that it does not use itself to the wrapper as they are; those it uses are in `_DASK_RESERVED_KWARGS`.
* The values that are injected are given by a function of the name; what they are is the subject of C48, C49 and C84.
-/

namespace Verif.Kwargs

open Verif Verif.Nulls

variable {V : Type}

/-- The four functions. -/
inductive Fn where
  | mapBlocks
  | mapOverlap
  | geoMapBlocks
  | geoMapOverlap
  deriving DecidableEq

/-- `blocks.py:318-326` `_MAP_BLOCKS_RESERVED_KWARGS`. -/
def mapBlocksReserved : List String := ["input_masks", "input_null_values", "block_info", "block_id", "out_null_value"]

/-- `blocks.py:1538-1540` `_GEO_MAP_BLOCKS_RESERVED_KWARGS`. -/
def geoMapBlocksReserved : List String := mapBlocksReserved ++ ["geo_block_info"]

/-- `blocks.py:338-351` `_DASK_RESERVED_KWARGS`. -/
def daskReserved : List String :=
  ["chunks", "name", "token", "drop_axis", "new_axis", "enforce_ndim", "concatenate", "align_arrays", "trim", "allow_rechunk"]

/-- The keys of a `dict`. -/
def keys (d : List (String × V)) : List String := d.map (·.1)

/-- `blocks.py:383-390` `_check_no_dask_kwargs`. -/
def checkNoDaskKwargs (kwargs : List (String × V)) : Except Err Unit :=
  if daskReserved.filter (· ∈ keys kwargs) ≠ [] then .error .value else .ok ()

/-- `blocks.py:393-406` `_check_reserved_kwargs`. -/
def checkReservedKwargs (kwargs : List (String × V)) (reserved : List String) : Except Err Unit :=
  if reserved.filter (· ∈ keys kwargs) ≠ [] then .error .value else .ok ()

/-- `blocks.py:427-442` `_check_dtype_meta_agree`. -/
def checkDtypeMetaAgree (dtype like : Option DType) : Except Err Unit :=
  match dtype, like with
  | some d, some m => if d ≠ m then .error .value else .ok ()
  | _, _ => .ok ()

/-- `blocks.py:1098-1111` `_check_no_out_bands`. -/
def checkNoOutBands (kwargs : List (String × V)) : Except Err Unit :=
  if "out_bands" ∈ keys kwargs then .error .value else .ok ()

/-- `blocks.py:367-380` `_out_dtype_hint`. -/
def outDtypeHint (dtype like : Option DType) : Option DType :=
  match like with
  | some m => some m
  | none => dtype

/-- The set of reserved names that a function uses: `blocks.py:707`, `1467`, `2066-2068`, `2412-2414`. -/
def Fn.reserved : Fn → List String
  | .mapBlocks => mapBlocksReserved
  | .mapOverlap => mapBlocksReserved
  | .geoMapBlocks => geoMapBlocksReserved
  | .geoMapOverlap => geoMapBlocksReserved

/-- Whether `_check_no_out_bands` is called: `blocks.py:1466`, `2411`. -/
def Fn.overlaps : Fn → Bool
  | .mapBlocks => false
  | .mapOverlap => true
  | .geoMapBlocks => false
  | .geoMapOverlap => true

/-- The checks of the arguments at the top of the functions: `blocks.py:703-707`, `1462-1467`, `2062-2068`, `2407-2414`. -/
def checkCall (fn : Fn) (rasters : Nat) (dtype like : Option DType) (kwargs : List (String × V)) : Except Err Unit :=
  if rasters = 0 then .error .value
  else match checkDtypeMetaAgree dtype like with
    | .error e => .error e
    | .ok _ => match checkNoDaskKwargs kwargs with
      | .error e => .error e
      | .ok _ => match (if fn.overlaps then checkNoOutBands kwargs else .ok ()) with
        | .error e => .error e
        | .ok _ => checkReservedKwargs kwargs fn.reserved

/-- `d[k] = v`. -/
def setItem : List (String × V) → String → V → List (String × V)
  | [], k, v => [(k, v)]
  | e :: d, k, v => if e.1 = k then (k, v) :: d else e :: setItem d k v

/-- `if pass_k: inner_kwargs[k] = v`. -/
def injectIf (params : List String) (injected : String → V) (d : List (String × V)) (k : String) : List (String × V) :=
  if k ∈ params then setItem d k (injected k) else d

/-- The order in which the wrappers set the items: `blocks.py:848-887`, `1689-1728`. -/
def Fn.order : Fn → List String
  | .mapBlocks => ["input_masks", "block_info", "block_id", "input_null_values", "out_null_value"]
  | .mapOverlap => ["input_masks", "block_info", "block_id", "input_null_values", "out_null_value"]
  | .geoMapBlocks => ["input_masks", "input_null_values", "block_info", "block_id", "geo_block_info", "out_null_value"]
  | .geoMapOverlap => ["input_masks", "input_null_values", "block_info", "block_id", "geo_block_info", "out_null_value"]

/-- The keyword arguments of the call `func(*input_data, **inner_kwargs)`: `blocks.py:848-888`, `1689-1730`. -/
def innerKwargs (fn : Fn) (params : List String) (injected : String → V) (kwargs : List (String × V)) : List (String × V) :=
  fn.order.foldl (injectIf params injected) kwargs

/-! ### `return_mask=True` -/

/-- An array: its shape and its elements. -/
structure Arr (V : Type) where
  shape : List Nat
  at' : List Nat → V

/-- What the function returns: a tuple or a list of arrays, or something else. -/
inductive Ret (V : Type) where
  | seq (items : List (Arr V))
  | other

/-- `blocks.py:914-960` `_pack_data_mask`: the fields of the structured array.  `real` tells that `block_info` is not `None`; `cast` is the conversion of
the elements to the dtype of the field, `truth` that to bool.  An array without dimensions has no `shape[0]`. -/
def packDataMask (cast : V → V) (truth : V → Bool) (result : Ret V) (real : Bool) (outBands : Option Nat) : Except Err (Arr V × Arr Bool) :=
  match result with
  | .seq [data, mask] =>
    if real then
      match outBands, data.shape with
      | some _, [] => .error .index
      | some n, s :: _ =>
        if s ≠ n then .error .value
        else if mask.shape ≠ data.shape then .error .value
        else .ok (⟨data.shape, fun i => cast (data.at' i)⟩, ⟨data.shape, fun i => truth (mask.at' i)⟩)
      | none, _ =>
        if mask.shape ≠ data.shape then .error .value
        else .ok (⟨data.shape, fun i => cast (data.at' i)⟩, ⟨data.shape, fun i => truth (mask.at' i)⟩)
    else .ok (⟨data.shape, fun i => cast (data.at' i)⟩, ⟨data.shape, fun i => truth (mask.at' i)⟩)
  | _ => .error .value

end Verif.Kwargs
