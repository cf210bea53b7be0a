import Verif.Nulls.RasterModel
import Verif.Stats.Model

/-!
# Model of `focal.py`

Arithmetic is exact; the rounding of a result to its dtype is `NumPy.cast`.  Chunks are given by the lists of chunk
sizes along y and x.  `dask`'s `map_overlap` and scipy's filters (through `dask_image`) are modelled by their
documented effect on the whole array.
-/

namespace Verif.Focal

open Verif Verif.Nulls DType

/-! ### Arithmetic -/

/-- IEEE addition without rounding. -/
def add : Num → Num → Num
  | .fin a, .fin b => .fin (a + b)
  | .nan, _ => .nan
  | _, .nan => .nan
  | .posInf, .negInf => .nan
  | .negInf, .posInf => .nan
  | .posInf, _ => .posInf
  | _, .posInf => .posInf
  | .negInf, _ => .negInf
  | _, .negInf => .negInf

/-- The infinity with the sign of `q`. -/
def infOf (q : Rat) : Num := if q = 0 then .nan else if 0 < q then .posInf else .negInf

/-- IEEE multiplication without rounding. -/
def mul : Num → Num → Num
  | .fin a, .fin b => .fin (a * b)
  | .nan, _ => .nan
  | _, .nan => .nan
  | .fin a, .posInf => infOf a
  | .fin a, .negInf => infOf (-a)
  | .posInf, .fin b => infOf b
  | .negInf, .fin b => infOf (-b)
  | .posInf, .posInf => .posInf
  | .posInf, .negInf => .negInf
  | .negInf, .posInf => .negInf
  | .negInf, .negInf => .posInf

/-! ### Windows -/

/-- A 2D array: number of rows and columns and the content. -/
structure Kernel (α : Type) where
  rows : Nat
  cols : Nat
  at' : Nat → Nat → α

/-- `kernel.ravel()[i]`. -/
def Kernel.flat {α : Type} (k : Kernel α) (i : Nat) : α := k.at' (i / k.cols) (i % k.cols)

/-- `focal.py:120-130` `_get_offsets` for one axis. -/
def before (n : Nat) : Int := ((n : Int) - 1) / 2
def after (n : Nat) : Int := (n : Int) / 2

/-- `max(kr_top, kr_bot)`. -/
def overlap (n : Nat) : Int := max (before n) (after n)

/-- The cells `(kr, kc)` in the order of the two inner loops, `focal.py:72-73`, `105-106`. -/
def loopCells (krows kcols : Nat) (r c : Int) : List (Int × Int) :=
  (List.range (before krows + after krows + 1).toNat).flatMap fun a : Nat =>
    (List.range (before kcols + after kcols + 1).toNat).map fun b : Nat =>
      (r - before krows + a, c - before kcols + b)

/-- A read of a chunk; `none` outside of it. -/
def read {V : Type} (rows cols : Nat) (chunk : Int → Int → V) (r c : Int) : Option V :=
  if 0 ≤ r ∧ r < rows ∧ 0 ≤ c ∧ c < cols then some (chunk r c) else none

/-- All the values, or `none` if one is missing. -/
def sequence {α : Type} : List (Option α) → Option (List α)
  | [] => some []
  | none :: _ => none
  | some a :: l => (sequence l).map (a :: ·)

/-- The loops visit this cell of a chunk, `focal.py:64-66`, `96-98`. -/
def Visited (rows cols krows kcols : Nat) (r c : Int) : Prop :=
  overlap krows ≤ r ∧ r < rows - overlap krows ∧ overlap kcols ≤ c ∧ c < cols - overlap kcols

instance (rows cols krows kcols : Nat) (r c : Int) : Decidable (Visited rows cols krows kcols r c) := by
  unfold Visited; infer_instance

/-- One entry of `kernel_values`, `focal.py:67`, `74-75`. -/
def kernelValue (rows cols : Nat) (chunk : Int → Int → Num) (kernel : Kernel Bool) (e : (Int × Int) × Nat) :
    Option Num :=
  if kernel.flat e.2 then read rows cols chunk e.1.1 e.1.2 else some .nan

/-- `focal.py:49-79` `_focal_chunk` at one cell; `none` where `out` is not written or a read is out of bounds. -/
def focalChunk (kernel : Kernel Bool) (func : List Num → Num) (rows cols : Nat) (chunk : Int → Int → Num)
    (r c : Int) : Option Num :=
  if Visited rows cols kernel.rows kernel.cols r c then
    (sequence ((loopCells kernel.rows kernel.cols r c).zipIdx.map (kernelValue rows cols chunk kernel))).map func
  else none

/-- `focal.py:107-110`. -/
def accumulate (rows cols : Nat) (chunk : Int → Int → Num) (kernel : Kernel Num) (v : Option Num)
    (e : (Int × Int) × Nat) : Option Num :=
  match v, read rows cols chunk e.1.1 e.1.2 with
  | some v, some val => some (if !val.isnan then add v (mul (kernel.flat e.2) val) else v)
  | _, _ => none

/-- `focal.py:82-112` `_correlate2d_chunk` at one cell. -/
def correlateChunk (kernel : Kernel Num) (rows cols : Nat) (chunk : Int → Int → Num) (r c : Int) : Option Num :=
  if Visited rows cols kernel.rows kernel.cols r c then
    (loopCells kernel.rows kernel.cols r c).zipIdx.foldl (accumulate rows cols chunk kernel) (some (.fin 0))
  else none

/-! ### Arrays with a boundary -/

/-- Boundary modes, `focal.py:164-170`. -/
inductive Mode where
  | reflect | nearest | wrap | constant
deriving DecidableEq, Repr

/-- The index read at a position up to one array length beyond the ends; `none` for the constant. -/
def Mode.index (m : Mode) (n : Nat) (i : Int) : Option Int :=
  if 0 ≤ i ∧ i < n then some i
  else match m with
    | .reflect => some (if i < 0 then -1 - i else 2 * n - 1 - i)
    | .nearest => some (if i < 0 then 0 else n - 1)
    | .wrap => some (i % n)
    | .constant => none

/-- An array continued beyond its edges. -/
def extend (m : Mode) (cval : Num) (ny nx : Nat) (data : Nat → Nat → Num) (r c : Int) : Num :=
  match m.index ny r, m.index nx c with
  | some i, some j => data i.toNat j.toNat
  | _, _ => cval

/-- Start and size of the chunk that holds position `p`. -/
def chunkOf : List Nat → Nat → Nat → Option (Nat × Nat)
  | [], _, _ => none
  | n :: ns, start, p => if p < start + n then some (start, n) else chunkOf ns (start + n) p

/-- `dask.array.map_overlap` at a cell: the function gets its chunk with `rpad` rows and `cpad` columns more on either
side, and the margin of the result is cut off. -/
def mapOverlap {V : Type} (func : Nat → Nat → (Int → Int → V) → Int → Int → Option V) (ext : Int → Int → V)
    (rpad cpad : Nat) (ychunks xchunks : List Nat) (r c : Nat) : Option V :=
  match chunkOf ychunks 0 r, chunkOf xchunks 0 c with
  | some (r0, h), some (c0, w) =>
    func (h + 2 * rpad) (w + 2 * cpad) (fun i j => ext (r0 + i - rpad) (c0 + j - cpad))
      ((r : Int) - r0 + rpad) ((c : Int) - c0 + cpad)
  | _, _ => none

/-- The cells of a kernel in order with their position for a filter of scipy, whose centre is `size // 2 + origin`. -/
def scipyCells {α : Type} (kernel : Kernel α) (origin : Nat → Int) (r c : Int) : List (α × Int × Int) :=
  (List.range kernel.rows).flatMap fun a : Nat => (List.range kernel.cols).map fun b : Nat =>
    (kernel.at' a b, r + a - (kernel.rows / 2 + origin kernel.rows), c + b - (kernel.cols / 2 + origin kernel.cols))

/-- `scipy.ndimage.correlate`.  Simplification: scipy leaves out weights of at most 2.2e-16 (so 0 times infinity is not NaN there); here they count. -/
def scipyCorrelate (kernel : Kernel Num) (origin : Nat → Int) (ext : Int → Int → Num) (r c : Int) : Num :=
  (scipyCells kernel origin r c).foldl (fun v e => add v (mul e.1 (ext e.2.1 e.2.2))) (.fin 0)

/-- `scipy.ndimage.minimum_filter` and `maximum_filter` with a footprint; `better` is `<` or `>`. -/
def scipyExtreme (better : Num → Num → Bool) (kernel : Kernel Bool) (ext : Int → Int → Num) (r c : Int) : Num :=
  match ((scipyCells kernel (fun _ => 0) r c).filter (·.1)).map (fun e => ext e.2.1 e.2.2) with
  | [] => .nan
  | v :: vs => vs.foldl (fun m v => if better v m then v else m) v

/-- `focal.py:216-217`: origin for kernels of even size. -/
def evenOrigin (n : Nat) : Int := if n % 2 = 0 then -1 else 0

/-! ### `focal` -/

/-- `focal.py:243-257` the statistics. -/
inductive Stat where
  | asm | entropy | max | mean | median | mode | min | std | sum | var | unique
deriving DecidableEq, Repr

/-- `dtypes.py:146-153` `promote_dtype_to_float`. -/
def promoteToFloat (dt : DType) : DType :=
  if dt.isFloat then dt
  else if dt.canCast f16 then f16
  else if dt.canCast f32 then f32
  else f64

/-- `data.astype(dt)` where the dtypes differ. -/
def convert (np : NumPy) (src dst : DType) (v : Num) : Num := if dst = src then v else np.cast dst v

/-- The band `b` of a raster's data. -/
def band (data : Cell → Num) (b : Nat) : Nat → Nat → Num := fun i j => data (b, i, j)

/-- The weights 1 and 0 of a footprint. -/
def boolWeights (k : Kernel Bool) : Kernel Num := ⟨k.rows, k.cols, fun a b => if k.at' a b then .fin 1 else .fin 0⟩

/-- `focal.py:284-301`: the filters of scipy for `min`, `max` and `sum`. -/
def fastStat (np : NumPy) (dt : DType) (kernel : Kernel Bool) (ny nx : Nat) (data : Nat → Nat → Num) (stat : Stat)
    (r c : Nat) : Option Num :=
  match stat with
  | .min => some (np.cast dt (scipyExtreme Stats.lt kernel (extend .nearest (.fin 0) ny nx data) r c))
  | .max => some (np.cast dt (scipyExtreme (fun a b => Stats.lt b a) kernel (extend .nearest (.fin 0) ny nx data) r c))
  | .sum => some (np.cast dt
      (scipyCorrelate (boolWeights kernel) (fun _ => 0) (extend .constant (.fin 0) ny nx data) r c))
  | _ => none

/-- `focal.py:303-322`: `_focal_chunk` through `map_overlap` with NaN around the array. -/
def slowStat (np : NumPy) (dt : DType) (kernel : Kernel Bool) (func : List Num → Num) (ny nx : Nat)
    (data : Nat → Nat → Num) (ychunks xchunks : List Nat) (r c : Nat) : Option Num :=
  (mapOverlap (focalChunk kernel func) (extend .constant .nan ny nx data) (overlap kernel.rows).toNat
    (overlap kernel.cols).toNat ychunks xchunks r c).map (np.cast dt)

/-- `focal.py:405-411` the smallest type for the counts; `none` inside is no dtype found. -/
def uniqueDtype (size : Nat) : Option DType :=
  [u8, u16, u32, u64].find? fun dt => match dt.limits with
    | some (_, hi) => decide ((size : Int) ≤ hi)
    | none => false

/-- The data of the result of `focal` (`focal.py:383-411`) at a cell; NaN stands for a value that is never read. -/
def focalValue (np : NumPy) (func : Stat → List Num → Num) (r : Raster) (stat : Stat) (window : Kernel Bool)
    (ychunks xchunks : List Nat) (cell : Cell) : Num :=
  let fdt := promoteToFloat r.dtype
  if r.masked then
    let data := fun c => if r.mask c then .nan else convert np r.dtype fdt (r.data c)
    let v := (slowStat np fdt window (func stat) r.ny r.nx (band data cell.1) ychunks xchunks cell.2.1 cell.2.2).getD .nan
    if stat = .unique ∧ v.eq (.fin 0) then .nan else v
  else match fastStat np r.dtype window r.ny r.nx (band r.data cell.1) stat cell.2.1 cell.2.2 with
    | some v => v
    | none =>
      let data := fun c => convert np r.dtype fdt (r.data c)
      let v := (slowStat np fdt window (func stat) r.ny r.nx (band data cell.1) ychunks xchunks cell.2.1 cell.2.2).getD .nan
      if stat = .mode ∧ r.dtype.isInt then np.cast r.dtype v
      else if stat = .unique then np.cast ((uniqueDtype (window.rows * window.cols)).getD f64) v
      else v

/-- The dtype of the result, `focal.py:383-411`. -/
def focalDtype (r : Raster) (stat : Stat) (window : Kernel Bool) : DType :=
  if r.masked then promoteToFloat r.dtype
  else match stat with
    | .min => r.dtype
    | .max => r.dtype
    | .sum => r.dtype
    | .mode => if r.dtype.isInt then r.dtype else promoteToFloat r.dtype
    | .unique => (uniqueDtype (window.rows * window.cols)).getD f64
    | _ => promoteToFloat r.dtype

/-- `focal.py:326-429` `focal`, for a window already built.  `map_overlap` raises if the margin is larger than the
array (dask's `ensure_minimum_chunksize`). -/
def focal (np : NumPy) (func : Stat → List Num → Num) (r : Raster) (stat : Stat) (window : Kernel Bool)
    (ignoreNull : Bool) (ychunks xchunks : List Nat) : Except Err Raster :=
  if (r.masked ∨ ¬ (stat = .min ∨ stat = .max ∨ stat = .sum)) ∧
      (overlap window.rows > r.ny ∨ overlap window.cols > r.nx) then .error .value
  else
    let data := focalValue np func r stat window ychunks xchunks
    let dt := focalDtype r stat window
    if r.masked then
      let mask := fun c => if ignoreNull then r.mask c else r.mask c || (data c).isnan
      .ok (ofData dt r.nb r.ny r.nx data (some mask) (some ⟨f64, .nan⟩) true)
    else .ok (ofData dt r.nb r.ny r.nx data none none false)

/-! ### `get_focal_window` -/

/-- A number given as radius, width or height: an integer, or another number. -/
inductive Size where
  | int (n : Int)
  | float (q : Rat)
deriving DecidableEq, Repr

def Size.val : Size → Rat
  | .int n => n
  | .float q => q

/-- `width_or_radius`. -/
inductive SizeArg where
  | one (s : Size)
  | seq (l : List Size)

/-- `focal.py:470-478`. -/
def checkSize : Size → Except Err Int
  | .float _ => .error .type
  | .int n => if n ≤ 0 then .error .value else .ok n

/-- The sizes of a list, or the first error. -/
def checkSizes : List Size → Except Err (List Int)
  | [] => .ok []
  | s :: l => match checkSize s with
    | .error e => .error e
    | .ok n => match checkSizes l with
      | .error e => .error e
      | .ok ns => .ok (n :: ns)

/-- `focal.py:458-468`. -/
def sizeList : SizeArg → Except Err (List Size)
  | .one s => .ok [s]
  | .seq [a, b] => if a.val ≥ b.val then .error .value else .ok [a, b]
  | .seq _ => .error .value

/-- `focal.py:494-503` the circle of one radius; `sqrt(d) <= r` is compared by squares. -/
def circle (rvalue : Int) : Kernel Bool :=
  let width := (rvalue - 1) * 2 + 1
  let r := (width - 1) / 2
  ⟨width.toNat, width.toNat, fun x y => decide (((x : Int) - r) ^ 2 + ((y : Int) - r) ^ 2 ≤ r ^ 2)⟩

/-- `focal.py:508-512` the outer circle without the inner one, which is padded to the same size. -/
def annulus (w1 w2 : Kernel Bool) : Kernel Bool :=
  let p := (w2.rows - w1.rows) / 2
  ⟨w2.rows, w2.cols, fun x y =>
    if p ≤ x ∧ x < p + w1.rows ∧ p ≤ y ∧ y < p + w1.cols ∧ w1.at' (x - p) (y - p) = true then false else w2.at' x y⟩

/-- `focal.py:432-517` `get_focal_window`. -/
def getFocalWindow (widthOrRadius : SizeArg) (height : Option Size) : Except Err (Kernel Bool) :=
  match sizeList widthOrRadius with
  | .error e => .error e
  | .ok l => match checkSizes l with
    | .error e => .error e
    | .ok ns => match height with
      | none => match ns with
        | [r1, r2] => .ok (annulus (circle r1) (circle r2))
        | r1 :: _ => .ok (circle r1)
        | [] => .error .value
      | some h =>
        if ns.length = 2 then .error .value
        else match checkSize h with
          | .error e => .error e
          | .ok h => .ok ⟨(ns.headD 0).toNat, h.toNat, fun _ _ => true⟩

/-! ### `correlate` and `convolve` -/

/-- `focal.py:204-205`: the weights as they are used for data of the given dtype. -/
def weights (np : NumPy) (ddt kdt : DType) (k : Kernel Num) : Kernel Num :=
  if ddt.isFloat ∧ kdt.isInt then ⟨k.rows, k.cols, fun a b => np.cast ddt (k.at' a b)⟩ else k

/-- `focal.py:133-154` `check_kernel` for a 2D array. -/
def hasNan (k : Kernel Num) : Bool :=
  (List.range k.rows).any fun a => (List.range k.cols).any fun b => (k.at' a b).isnan

/-- The data of the result of `correlate`, `focal.py:560-577`, at a cell. -/
def correlateValue (np : NumPy) (r : Raster) (kdt : DType) (kernel : Kernel Num) (mode : Mode) (cval : Num)
    (ychunks xchunks : List Nat) (cell : Cell) : Num :=
  let fdt := promoteToFloat r.dtype
  if r.masked then
    let data := fun c => if r.mask c then .nan else convert np r.dtype fdt (r.data c)
    let v := (mapOverlap (correlateChunk (weights np fdt kdt kernel)) (extend mode cval r.ny r.nx (band data cell.1))
      (overlap kernel.rows).toNat (overlap kernel.cols).toNat ychunks xchunks cell.2.1 cell.2.2).getD .nan
    convert np fdt r.dtype (np.cast fdt v)
  else np.cast r.dtype
    (scipyCorrelate (weights np r.dtype kdt kernel) evenOrigin (extend mode cval r.ny r.nx (band r.data cell.1))
      cell.2.1 cell.2.2)

/-- `focal.py:520-590` `correlate`; `mode` is `none` for a name that does not exist. -/
def correlate (np : NumPy) (r : Raster) (kdt : DType) (kernel : Kernel Num) (mode : Option Mode) (cval : Num)
    (ychunks xchunks : List Nat) : Except Err Raster :=
  if hasNan kernel then .error .value
  else match mode with
  | none => .error .value
  | some mode =>
    match (if kdt.isFloat && r.dtype.isInt then r.astype np f64 none else .ok r) with
    | .error e => .error e
    | .ok r =>
      if r.masked ∧ (overlap kernel.rows > r.ny ∨ overlap kernel.cols > r.nx) then .error .value
      else
        let data := correlateValue np r kdt kernel mode cval ychunks xchunks
        if r.masked then .ok (ofData r.dtype r.nb r.ny r.nx data (some r.mask) r.nv true)
        else .ok (ofData r.dtype r.nb r.ny r.nx data none none false)

/-- `kernel[::-1, ::-1]`. -/
def flip {α : Type} (k : Kernel α) : Kernel α :=
  ⟨k.rows, k.cols, fun a b => k.at' (k.rows - 1 - a) (k.cols - 1 - b)⟩

/-- `focal.py:593-632` `convolve`. -/
def convolve (np : NumPy) (r : Raster) (kdt : DType) (kernel : Kernel Num) (mode : Option Mode) (cval : Num)
    (ychunks xchunks : List Nat) : Except Err Raster :=
  if hasNan kernel then .error .value
  else correlate np r kdt (flip kernel) mode cval ychunks xchunks

end Verif.Focal
