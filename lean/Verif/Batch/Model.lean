import Mathlib.Data.List.Basic
import Verif.Nulls.RasterModel

/-!
# Model of `batch.py`

Text is a list of characters, of which only the blank characters of ASCII are stripped.  Rasters are of any type; the operations
on them, the file system and Python's `float` and `int` are parameters.
-/

namespace Verif.Batch

open Verif Verif.Nulls

abbrev Text := List Char

/-- Exceptions: BatchScriptParseError, ValueError, AttributeError, TypeError, IndexError, KeyError, FileNotFoundError, and those of
operations on rasters. -/
inductive Fault where
  | parse
  | value
  | attribute
  | type
  | index
  | key
  | missing
  | raster
deriving DecidableEq, Repr

/-- What the scripts work with. -/
structure Ops (R : Type) where
  isFile : Text → Bool
  openRaster : Text → Option R
  stack : List R → Option R
  replaceNull : R → Num → Option R
  /-- `raster.save(path, null_value=, blocksize=)` -/
  save : R → Text → Num → List Int → Option R
  float : Text → Option Num
  int : Text → Option Int

def isSpace (c : Char) : Bool := c ∈ [' ', '\t', '\n', '\r', '\x0b', '\x0c']

/-- `s.split(d)`. -/
def splitOn (d : Char) : Text → List Text
  | [] => [[]]
  | c :: s =>
    if c = d then [] :: splitOn d s
    else match splitOn d s with
      | [] => [[c]]
      | h :: t => (c :: h) :: t

/-- `s.strip()`. -/
def strip (s : Text) : Text := ((s.dropWhile isSpace).reverse.dropWhile isSpace).reverse

/-- `batch.py:12-13` `_split_strip`. -/
def splitStrip (s : Text) (d : Char) : List Text := (splitOn d s).map strip

/-- `batch.py:29-31`. -/
def ext (ftype : Text) : Option Text := if ftype = "TIFF".toList then some "tif".toList else none

/-- `batch.py:34-47`. -/
def knownOps : List Text :=
  ["esriRasterPlus".toList, "+".toList, "esriRasterMinus".toList, "-".toList, "esriRasterMultiply".toList, "*".toList,
   "esriRasterDivide".toList, "/".toList, "esriRasterMode".toList, "%".toList, "esriRasterPower".toList, "**".toList]

/-- Letters of the pattern. -/
def isLetter (c : Char) : Bool := ('A' ≤ c && c ≤ 'Z') || ('a' ≤ c && c ≤ 'z')

/-- What is inside of brackets at the end. -/
def brackets : Text → Option Text
  | '(' :: s =>
    match s.reverse with
    | ')' :: a => if a.isEmpty || a.any (fun c => c = '(' || c = ')') then none else some a.reverse
    | _ => none
  | _ => none

/-- `batch.py:48` `_FUNC_PATTERN`. -/
def matchFunc (s : Text) : Option (Text × Text) :=
  if (s.takeWhile isLetter).isEmpty then none
  else (brackets (s.dropWhile isLetter)).map fun a => (s.takeWhile isLetter, a)

/-- `os.path.join`. -/
def join (dir name : Text) : Text :=
  if name.head? = some '/' then name
  else if dir.isEmpty || dir.getLast? = some '/' then dir ++ name
  else dir ++ '/' :: name

section
variable {R : Type} (ops : Ops R) (loc : Text)

/-- An operation on rasters. -/
def raise (o : Option R) : Except Fault R :=
  match o with
  | none => .error .raster
  | some r => .ok r

/-- The file of a name. -/
def openFile (path : Text) : Except Fault R := if ops.isFile path then raise (ops.openRaster path) else .error .missing

/-- `batch.py:60-68` `get_raster`. -/
def getRaster (env : Text → Option R) (name : Text) : Except Fault R :=
  match env name with
  | some r => .ok r
  | none => openFile ops (join loc name)

/-- `[state.get_raster(path) for path in ...]`. -/
def getRasters (env : Text → Option R) : List Text → Except Fault (List R)
  | [] => .ok []
  | n :: l =>
    match getRaster ops loc env n with
    | .error e => .error e
    | .ok r => match getRasters env l with
      | .error e => .error e
      | .ok rs => .ok (r :: rs)

/-- A number or a raster. -/
def operand (env : Text → Option R) (s : Text) : Except Fault Unit :=
  match ops.float s with
  | some _ => .ok ()
  | none => match getRaster ops loc env s with
    | .ok _ => .ok ()
    | .error e => .error e

/-- `batch.py:71-85`.  There is no `_binary_arithmetic`. -/
def parseArithmetic (env : Text → Option R) (args : Text) : Except Fault R :=
  match splitStrip args ';' with
  | [left, right, op] =>
    if op ∉ knownOps then .error .key
    else match operand ops loc env left with
      | .error e => .error e
      | .ok () => match operand ops loc env right with
        | .error e => .error e
        | .ok () => .error .attribute
  | _ => .error .value

/-- `batch.py:104-109`. -/
def parseNullToValue (env : Text → Option R) (args : Text) : Except Fault R :=
  match splitStrip args ';' with
  | [left, right] =>
    match ops.float right with
    | none => .error .value
    | some v => match getRaster ops loc env left with
      | .error e => .error e
      | .ok r => raise (ops.replaceNull r v)
  | [_] => .error .index
  | _ => .error .parse

/-- `right <= left` for doubles. -/
def leq : Num → Num → Bool
  | .nan, _ => false
  | _, .nan => false
  | .negInf, _ => true
  | _, .posInf => true
  | .fin a, .fin b => a ≤ b
  | _, _ => false

/-- One group of `REMAP`. -/
def remapGroup (g : Text) : Bool :=
  match (splitStrip g ':').map ops.float with
  | [some left, some right, some _] => !(leq right left)
  | _ => false

/-- `batch.py:112-139`.  `remap_range` takes one mapping, not three or more numbers. -/
def parseRemap (env : Text → Option R) (args : Text) : Except Fault R :=
  match splitStrip args ';' with
  | [name, groups] =>
    if !((splitStrip groups ',').all (remapGroup ops)) then .error .parse
    else match getRaster ops loc env name with
      | .error e => .error e
      | .ok _ => .error .type
  | [_] => .error .index
  | _ => .error .parse

/-- `batch.py:142-149`. -/
def parseComposite (env : Text → Option R) (args : Text) : Except Fault R :=
  match getRasters ops loc env (splitStrip args ';') with
  | .error e => .error e
  | .ok rs => if rs.length < 2 then .error .parse else raise (ops.stack rs)

/-- `batch.py:152-156`. -/
def parseOpen (env : Text → Option R) (args : Text) : Except Fault R :=
  match getRaster ops loc env args with
  | .error _ => .error .parse
  | .ok r => .ok r

/-- `batch.py:168-180`: null value and block size. -/
def saveExtra : List Text → Except Fault (Num × List Int)
  | [] => .ok (.fin 0, [])
  | n :: l =>
    match ops.float n with
    | none => .error .value
    | some v => match l with
      | [] => .ok (v, [])
      | w :: l => match ops.int w with
        | none => .error .value
        | some w => match l with
          | [] => .ok (v, [w])
          | [h] => match ops.int h with
            | none => .error .value
            | some h => .ok (v, [h, w])
          | _ => .error .parse

/-- `batch.py:159-192`. -/
def parseSave (env : Text → Option R) (args : Text) : Except Fault R :=
  match splitStrip args ';' with
  | name :: out :: dir :: ftype :: extra =>
    match saveExtra ops extra with
    | .error e => .error e
    | .ok (nodata, block) =>
      match ext ftype with
      | none => .error .parse
      | some e => match getRaster ops loc env name with
        | .error e => .error e
        | .ok r => raise (ops.save r (join dir out ++ '.' :: e) nodata block)
  | _ => .error .parse

/-- `func.upper()`. -/
def upper (s : Text) : Text := s.map Char.toUpper

/-- `batch.py:213-222`, `247-256` the function of a name.  `args_str.pop(0)` of `EXTRACTBAND` and `SETNULL` is called on a text
(`batch.py:89`, `196`). -/
def call (env : Text → Option R) (func args : Text) : Except Fault R :=
  if upper func = "ARITHMETIC".toList then parseArithmetic ops loc env args
  else if upper func = "COMPOSITE".toList then parseComposite ops loc env args
  else if upper func = "EXTRACTBAND".toList then .error .attribute
  else if upper func = "NULLTOVALUE".toList then parseNullToValue ops loc env args
  else if upper func = "OPENRASTER".toList then parseOpen ops loc env args
  else if upper func = "REMAP".toList then parseRemap ops loc env args
  else if upper func = "SAVEFUNCTIONRASTER".toList then parseSave ops loc env args
  else if upper func = "SETNULL".toList then .error .attribute
  else .error .parse

/-- `batch.py:245-256` `_parse_raster`. -/
def parseRaster (env : Text → Option R) (expr : Text) : Except Fault R :=
  match matchFunc expr with
  | none => .error .parse
  | some (func, args) => call ops loc env func args

/-- `state.rasters[name] = r`. -/
def set (env : Text → Option R) (name : Text) (r : R) : Text → Option R := fun n => if n = name then some r else env n

/-- `batch.py:230-240`: the loop over the lines. -/
def loop : List Text → (Text → Option R) → Option Text → Except Fault ((Text → Option R) × Option Text)
  | [], env, last => .ok (env, last)
  | line :: lines, env, last =>
    let code := (splitStrip line '#').headD []
    if code.isEmpty then loop lines env last
    else match splitStrip code '=' with
      | [lh, rh] =>
        match parseRaster ops loc env rh with
        | .error e => .error e
        | .ok r => loop lines (set env lh r) (some lh)
      | _ => .error .value

/-- `batch.py:225-242` `parse_batch_script`, from the lines of the file to the raster. -/
def parseScript (lines : List Text) : Except Fault R :=
  match loop ops loc lines (fun _ => none) none with
  | .error e => .error e
  | .ok (env, last) =>
    match last.bind env with
    | none => .error .key
    | some r => .ok r

end

end Verif.Batch
