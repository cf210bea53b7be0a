import Verif.Nulls.RasterModel

/-!
# Model of `creation.py`

Grids and chunks are left out: a result has the rows, columns and coordinates of the template.  Random and uninitialised data
are any function.
-/

namespace Verif.Create

open Verif Verif.Nulls DType

/-- `creation.py:60-79`: a raster (or a path to one), or a GeoBox with its rows and columns. -/
inductive Template where
  | raster (r : Raster)
  | geobox (ny nx : Nat)

def Template.shape : Template → Nat × Nat
  | .raster r => (r.ny, r.nx)
  | .geobox ny nx => (ny, nx)

/-- `creation.py:43-57` the arguments `template` and `raster_template`. -/
def coalesce (template rasterTemplate : Option Template) : Except Err Template :=
  match rasterTemplate, template with
  | some _, some _ => .error .type
  | some t, none => .ok t
  | none, some t => .ok t
  | none, none => .error .type

/-- `creation.py:82-84`. -/
def checkCopyMask (t : Template) (copyMask : Bool) : Except Err Unit :=
  match t with
  | .geobox _ _ => if copyMask then .error .value else .ok ()
  | .raster _ => .ok ()

/-- `creation.py:87-97`; `none` if `int(bands)` raises. -/
def getBands (bands : Option Int) : Except Err Nat :=
  match bands with
  | none => .error .type
  | some n => if n < 1 then .error .value else .ok n.toNat

/-- The `dtype` argument: absent, not understood, or a dtype. -/
inductive DtypeArg where
  | absent
  | unknown
  | dtype (d : DType)

/-- `creation.py:100-108`. -/
def getDtype : DtypeArg → Except Err (Option DType)
  | .absent => .ok none
  | .unknown => .error .value
  | .dtype d => .ok (some d)

/-- `creation.py:121-126` `_copy_mask`. -/
def copiedMask (r : Raster) (bands : Nat) (c : Cell) : Bool :=
  if bands = r.nb then r.mask c else r.mask (0, c.2.1, c.2.2)

/-- The dtype of `da.where(mask, nv, data)`. -/
def whereDtype (s : Scalar) (dt : DType) : DType := (s.ty.promote dt).getD f64

/-- `creation.py:134-142` with `raster.py:889-945`, `825-886`: data with a mask that is burned in. -/
def masked (np : NumPy) (dt : DType) (bands ny nx : Nat) (data : Cell → Num) (mask : Cell → Bool) (s : Scalar) : Raster :=
  let out := whereDtype s dt
  ⟨out, bands, ny, nx, fun c => if mask c then np.cast out s.val else if out = dt then data c else np.cast out (data c),
    mask, some s⟩

/-- `creation.py:136`: the null value of a template, which has one. -/
def copiedNull (r : Raster) (copyNv : Bool) (dt : DType) : Scalar :=
  if copyNv then r.nv.getD (defaultNull dt) else defaultNull dt

/-- `creation.py:129-142` `_build_result`. -/
def buildResult (np : NumPy) (t : Template) (dt : DType) (bands : Nat) (data : Cell → Num) (copyMask copyNv : Bool) : Raster :=
  match t with
  | .geobox ny nx => ⟨dt, bands, ny, nx, data, fun _ => false, none⟩
  | .raster r =>
    if r.masked && copyMask then masked np dt bands r.ny r.nx data (copiedMask r bands) (copiedNull r copyNv dt)
    else ⟨dt, bands, r.ny, r.nx, data, fun _ => false, none⟩

/-- `creation.py:293-295`, `356-358`. -/
def copyNull (t : Template) (dt : Option DType) : Bool :=
  match t, dt with
  | .raster _, none => true
  | .raster r, some d => decide (d = r.dtype)
  | .geobox _ _, _ => false

/-- The `value` argument: absent, not a number, or a scalar (also what `float(value)` gives for other objects). -/
inductive ValueArg where
  | absent
  | notNumber
  | scalar (s : Scalar)

/-- `creation.py:336`. -/
def ValueArg.isAbsent : ValueArg → Bool
  | .absent => true
  | _ => false

/-- `creation.py:341-347`. -/
def getValue : ValueArg → Except Err Scalar
  | .absent => .error .type
  | .notNumber => .error .type
  | .scalar s => .ok s

/-- What the functions do once their arguments are checked (`creation.py:350-361`): `da.full` gives the dtype of the value if
none is given. -/
def filled (np : NumPy) (t : Template) (s : Scalar) (bands : Nat) (dt : Option DType) (copyMask : Bool) : Raster :=
  buildResult np t (dt.getD s.ty) bands (fun _ => np.cast (dt.getD s.ty) s.val) copyMask (copyNull t dt)

/-- `creation.py:301-361` `full_like` (the value is missing before anything else is looked at, but after the template). -/
def fullLike (np : NumPy) (template rasterTemplate : Option Template) (value : ValueArg) (bands : Option Int)
    (dtype : DtypeArg) (copyMask : Bool) : Except Err Raster :=
  match coalesce template rasterTemplate with
  | .error e => .error e
  | .ok t =>
    if value.isAbsent then .error .type
    else match checkCopyMask t copyMask with
      | .error e => .error e
      | .ok _ => match getBands bands with
        | .error e => .error e
        | .ok n => match getValue value with
          | .error e => .error e
          | .ok s => match getDtype dtype with
            | .error e => .error e
            | .ok dt => .ok (filled np t s n dt copyMask)

/-- `creation.py:410-448` and `451-489`. -/
def zerosLike (np : NumPy) (template rasterTemplate : Option Template) (bands : Option Int) (dtype : DtypeArg)
    (copyMask : Bool) : Except Err Raster :=
  fullLike np template rasterTemplate (.scalar ⟨i64, .fin 0⟩) bands dtype copyMask

def onesLike (np : NumPy) (template rasterTemplate : Option Template) (bands : Option Int) (dtype : DtypeArg)
    (copyMask : Bool) : Except Err Raster :=
  fullLike np template rasterTemplate (.scalar ⟨i64, .fin 1⟩) bands dtype copyMask

/-- `creation.py:25-38`, `217-247`: the distributions with the number of parameters they need. -/
def neededParams : List (String × Nat) :=
  [("b", 2), ("binomial", 2), ("n", 2), ("normal", 2), ("p", 1), ("poisson", 1), ("u", 0), ("uniform", 0), ("w", 1), ("weibull", 1)]

/-- `creation.py:217-247`; dask's dtypes: integers for counts, else floats. -/
def randomDtype (dist : String) (params : Nat) : Except Err DType :=
  match neededParams.lookup dist with
  | none => .error .value
  | some k =>
    if params < k then .error .value
    else .ok (if dist = "b" ∨ dist = "binomial" ∨ dist = "p" ∨ dist = "poisson" then i64 else f64)

/-- `creation.py:145-251` `random_raster`; `dist` is the name in lower case, `params` the number of parameters (`none` if it is
not a sequence), `sample` what was drawn. -/
def randomRaster (np : NumPy) (template rasterTemplate : Option Template) (dist : String) (bands : Option Int)
    (params : Option Nat) (copyMask : Bool) (sample : Cell → Num) : Except Err Raster :=
  match coalesce template rasterTemplate with
  | .error e => .error e
  | .ok t => match checkCopyMask t copyMask with
    | .error e => .error e
    | .ok _ => match getBands bands with
      | .error e => .error e
      | .ok n => match params with
        | none => .error .type
        | some k => match randomDtype dist k with
          | .error e => .error e
          | .ok dt => .ok (buildResult np t dt n sample copyMask false)

end Verif.Create
