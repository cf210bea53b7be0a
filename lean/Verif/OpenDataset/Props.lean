import Verif.OpenDataset.Model
import Verif.FromData.Props
import Verif.Nulls.RasterProps
import Mathlib.Tactic.FieldSimp
import Mathlib.Tactic.Linarith

set_option linter.unusedSectionVars false

/-!
# Properties of `open_dataset`
-/

namespace Verif.OpenDataset

open Verif Verif.Nulls DType Verif.Build Verif.FromData

namespace Spec

/-- The dimensions of a variable that are not of length 1. -/
def long (a : XArray) : List Axis := a.axes.filter fun ax => !(ax.size == 1)

/-- A variable that can be a raster: two or three dimensions that are not of length 1. -/
def Fits (v : Var) : Prop := 2 ≤ (long v.arr).length ∧ (long v.arr).length ≤ 3

instance (v : Var) : Decidable (Fits v) := by unfold Fits; infer_instance

/-- Apart from dimensions of length 1, the variable has rows, then columns, perhaps after one other dimension, whose name and
size are given. -/
inductive Ordered (f : File) (a : XArray) : Option String → Nat → Prop
  | flat (p q : Axis) (h : long a = [p, q]) (hy : p.name = f.ydim) (hx : q.name = f.xdim) (sy : p.size = f.ys.length)
      (sx : q.size = f.xs.length) : Ordered f a none 1
  | cube (b p q : Axis) (h : long a = [b, p, q]) (hy : p.name = f.ydim) (hx : q.name = f.xdim) (sy : p.size = f.ys.length)
      (sx : q.size = f.xs.length) : Ordered f a (some b.name) b.size

/-- Equally spaced coordinates. -/
def Regular (l : List Rat) : Prop := ∃ d, ∀ i, (hi : i < l.length) → l[i] = l.headD 0 + i * d

/-- A well formed array: names of dimensions are distinct, and elements are found by the indices of the dimensions. -/
def WellFormed (a : XArray) : Prop :=
  (a.axes.map (·.name)).Nodup ∧ ∀ g g' : String → Nat, (∀ n ∈ a.axes.map (·.name), g n = g' n) → a.get g = a.get g'

/-- The index of an element of band `k`, row `i`, column `j`. -/
def Index (f : File) (a : XArray) (band : Option String) (k i j : Nat) (g : String → Nat) : Prop :=
  g f.ydim = i ∧ g f.xdim = j ∧ (∀ b, band = some b → g b = k) ∧ ∀ ax ∈ a.axes, ax.size = 1 → g ax.name = 0

/-- The null value of the variable. -/
def Missing (v : Var) (x : Num) : Prop := ∃ s, v.nodata = some s ∧ x = s.val

/-- A variable that states no null value, or NaN. -/
def Silent (v : Var) : Prop := v.nodata = none ∨ ∃ s, v.nodata = some s ∧ s.val = .nan

end Spec

open Spec

theorem squeeze_axes (a : XArray) : (squeeze a).axes = long a := by
  simp only [squeeze, long]
  congr 1
  funext ax
  by_cases h : ax.size = 1 <;> simp [h]

/-! ### Variables -/

theorem validVariables_ok {ignore : Bool} {vs l : List Var} (h : validVariables ignore vs = .ok l) :
    l = vs.filter (fun v => decide (Fits v)) ∧ (∀ v ∈ vs, 2 ≤ (long v.arr).length) ∧
      (ignore = false → ∀ v ∈ vs, (long v.arr).length ≤ 3) := by
  induction vs generalizing l with
  | nil =>
    simp only [validVariables, Except.ok.injEq] at h
    subst h
    simp
  | cons v vs ih =>
    simp only [validVariables, squeeze_axes] at h
    by_cases h3 : 3 < (long v.arr).length
    · rw [if_pos h3] at h
      cases ignore with
      | false => cases h
      | true =>
        obtain ⟨e, h1, -⟩ := ih h
        have : ¬ Fits v := fun hf => by
          have := hf.2
          omega
        refine ⟨by rw [List.filter_cons_of_neg (by simpa using this)]; exact e, ?_, by simp⟩
        intro w hw
        rcases List.mem_cons.mp hw with rfl | hw
        · omega
        · exact h1 w hw
    · rw [if_neg h3] at h
      by_cases h2 : (long v.arr).length < 2
      · rw [if_pos h2] at h
        cases h
      · rw [if_neg h2] at h
        cases hr : validVariables ignore vs with
        | error e =>
          rw [hr] at h
          cases h
        | ok l' =>
          rw [hr, Except.ok.injEq] at h
          obtain ⟨e, h1, hi⟩ := ih hr
          have : Fits v := ⟨by omega, by omega⟩
          refine ⟨by rw [List.filter_cons_of_pos (by simpa using this), ← h, e], ?_, ?_⟩
          · intro w hw
            rcases List.mem_cons.mp hw with rfl | hw
            · omega
            · exact h1 w hw
          · intro hg w hw
            rcases List.mem_cons.mp hw with rfl | hw
            · omega
            · exact hi hg w hw

theorem validVariables_accepts {ignore : Bool} {vs : List Var} (h2 : ∀ v ∈ vs, 2 ≤ (long v.arr).length)
    (h3 : ignore = false → ∀ v ∈ vs, (long v.arr).length ≤ 3) : ∃ l, validVariables ignore vs = .ok l := by
  induction vs with
  | nil => exact ⟨[], rfl⟩
  | cons v vs ih =>
    obtain ⟨l, hl⟩ := ih (fun w hw => h2 w (List.mem_cons_of_mem _ hw)) (fun hg w hw => h3 hg w (List.mem_cons_of_mem _ hw))
    simp only [validVariables, squeeze_axes]
    by_cases hv : 3 < (long v.arr).length
    · rw [if_pos hv]
      cases ignore with
      | false =>
        have := h3 rfl v List.mem_cons_self
        omega
      | true => exact ⟨l, hl⟩
    · rw [if_neg hv, if_neg (by have := h2 v List.mem_cons_self; omega), hl]
      exact ⟨_, rfl⟩

theorem validVariables_few {ignore : Bool} {vs : List Var} {v : Var} (hv : v ∈ vs) (h : (long v.arr).length < 2)
    (hi : ignore = true ∨ ∀ w ∈ vs, (long w.arr).length ≤ 3) : validVariables ignore vs = .error .tooFew := by
  induction vs with
  | nil => cases hv
  | cons w vs ih =>
    simp only [validVariables, squeeze_axes]
    rcases List.mem_cons.mp hv with rfl | hv
    · rw [if_neg (by omega), if_pos h]
    · have hr := ih hv (by
        rcases hi with hi | hi
        · exact Or.inl hi
        · exact Or.inr fun u hu => hi u (List.mem_cons_of_mem _ hu))
      rw [hr]
      by_cases hw : 3 < (long w.arr).length
      · rw [if_pos hw]
        rcases hi with rfl | hi
        · rfl
        · have := hi w List.mem_cons_self
          omega
      · rw [if_neg hw]
        by_cases h2 : (long w.arr).length < 2
        · rw [if_pos h2]
        · rw [if_neg h2]

theorem validVariables_many {vs : List Var} {v : Var} (hv : v ∈ vs) (h : 3 < (long v.arr).length)
    (hi : ∀ w ∈ vs, 2 ≤ (long w.arr).length) : validVariables false vs = .error .tooMany := by
  induction vs with
  | nil => cases hv
  | cons w vs ih =>
    simp only [validVariables, squeeze_axes]
    rcases List.mem_cons.mp hv with rfl | hv
    · rw [if_pos h]
      rfl
    · rw [ih hv (fun u hu => hi u (List.mem_cons_of_mem _ hu))]
      by_cases hw : 3 < (long w.arr).length
      · rw [if_pos hw]
        rfl
      · rw [if_neg hw, if_neg (by have := hi w List.mem_cons_self; omega)]

/-- **C81.** What is raised for variables: a DimensionsError for one with more than three dimensions, unless such variables are
ignored, and a ValueError if none is left. -/
theorem C81_rejected (np : NumPy) (f : File) :
    (∀ v ∈ f.vars, 3 < (long v.arr).length → (∀ w ∈ f.vars, 2 ≤ (long w.arr).length) →
      openDataset np f false = .error .tooMany) ∧
    ((∀ v ∈ f.vars, 3 < (long v.arr).length) → openDataset np f true = .error .noVariable) ∧
    (∀ ignore, (∃ v ∈ f.vars, Fits v) → (∀ w ∈ f.vars, 2 ≤ (long w.arr).length) →
      (ignore = false → ∀ w ∈ f.vars, (long w.arr).length ≤ 3) → f.stored = .bad →
      openDataset np f ignore = .error .affine) := by
  refine ⟨?_, ?_, ?_⟩
  · intro v hv h h2
    simp only [openDataset]
    rw [validVariables_many hv h h2]
  · intro h
    obtain ⟨l, hl⟩ := validVariables_accepts (ignore := true) (vs := f.vars)
      (fun v hv => by have := h v hv; omega) (by simp)
    obtain ⟨e, -, -⟩ := validVariables_ok hl
    have : l = [] := by
      rw [e, List.filter_eq_nil_iff]
      intro v hv hf
      have h1 := h v hv
      have h2 := (of_decide_eq_true hf).2
      omega
    simp only [openDataset]
    rw [hl, this]
    rfl
  · rintro ignore ⟨v, hv, hf⟩ h2 h3 hb
    obtain ⟨l, hl⟩ := validVariables_accepts h2 h3
    obtain ⟨e, -, -⟩ := validVariables_ok hl
    have hm : v ∈ l := by
      rw [e]
      exact List.mem_filter.mpr ⟨hv, decide_eq_true hf⟩
    simp only [openDataset]
    rw [hl]
    cases l with
    | nil => cases hm
    | cons a l => simp [getAffine, hb]

/-- **C81 is false of the code** where it says, as documented, that variables which cannot be rasters are ignored if that is
asked for: one with fewer than two dimensions is an error all the same. -/
theorem C81_too_few (np : NumPy) (f : File) {v : Var} (hv : v ∈ f.vars) (h : (long v.arr).length < 2) :
    openDataset np f true = .error .tooFew := by
  simp only [openDataset]
  rw [validVariables_few hv h (Or.inl rfl)]

/-! ### Rasters -/

theorem buildAll_ok {np : NumPy} {f : File} {t : Affine} {vs : List Var} {l : List (String × Placed)}
    (h : buildAll np f t vs = .ok l) :
    l.map (·.1) = vs.map (·.name) ∧ ∀ v ∈ vs, ∃ p, buildRaster np f t v = .ok p ∧ (v.name, p) ∈ l := by
  induction vs generalizing l with
  | nil =>
    simp only [buildAll, Except.ok.injEq] at h
    subst h
    simp
  | cons v vs ih =>
    simp only [buildAll] at h
    cases hb : buildRaster np f t v with
    | error e =>
      rw [hb] at h
      cases h
    | ok p =>
      rw [hb] at h
      simp only at h
      cases hr : buildAll np f t vs with
      | error e =>
        rw [hr] at h
        cases h
      | ok l' =>
        rw [hr, Except.ok.injEq] at h
        subst h
        obtain ⟨h1, h2⟩ := ih hr
        refine ⟨by simp [h1], ?_⟩
        intro w hw
        rcases List.mem_cons.mp hw with rfl | hw
        · exact ⟨p, hb, List.mem_cons_self⟩
        · obtain ⟨q, hq, hm⟩ := h2 w hw
          exact ⟨q, hq, List.mem_cons_of_mem _ hm⟩

theorem buildAll_accepts {np : NumPy} {f : File} {t : Affine} {vs : List Var}
    (h : ∀ v ∈ vs, ∃ p, buildRaster np f t v = .ok p) : ∃ l, buildAll np f t vs = .ok l := by
  induction vs with
  | nil => exact ⟨[], rfl⟩
  | cons v vs ih =>
    obtain ⟨p, hp⟩ := h v List.mem_cons_self
    obtain ⟨l, hl⟩ := ih fun w hw => h w (List.mem_cons_of_mem _ hw)
    exact ⟨(v.name, p) :: l, by simp only [buildAll, hp, hl]⟩

theorem openDataset_ok {np : NumPy} {f : File} {ignore : Bool} {l : List (String × Placed)}
    (h : openDataset np f ignore = .ok l) :
    ∃ t, getAffine f = .ok t ∧ buildAll np f t (f.vars.filter fun v => decide (Fits v)) = .ok l := by
  simp only [openDataset] at h
  cases hv : validVariables ignore f.vars with
  | error e =>
    rw [hv] at h
    cases h
  | ok vs =>
    rw [hv] at h
    simp only at h
    rw [← (validVariables_ok hv).1]
    by_cases he : vs.isEmpty = true
    · rw [if_pos he] at h
      cases h
    · rw [if_neg he] at h
      cases ha : getAffine f with
      | error e =>
        rw [ha] at h
        cases h
      | ok t =>
        rw [ha] at h
        exact ⟨t, rfl, h⟩

/-- **C81.** The names of the rasters are those of the variables with two or three dimensions, not counting those of length 1,
in their order. -/
theorem C81_names {np : NumPy} {f : File} {ignore : Bool} {l : List (String × Placed)}
    (h : openDataset np f ignore = .ok l) : l.map (·.1) = (f.vars.filter fun v => decide (Fits v)).map (·.name) := by
  obtain ⟨t, -, hb⟩ := openDataset_ok h
  exact (buildAll_ok hb).1

/-! ### Coordinates -/

theorem resolution_regular {l : List Rat} (hl : 2 ≤ l.length) {d : Rat}
    (h : ∀ i, (hi : i < l.length) → l[i] = l.headD 0 + i * d) : resolution l = d := by
  have hlast : l.getLastD 0 = l.headD 0 + ((l.length : Rat) - 1) * d := by
    have h1 : l.getLastD 0 = l[l.length - 1]'(by omega) := by
      rw [List.getLastD_eq_getLast?, List.getLast?_eq_getElem?, List.getElem?_eq_getElem (by omega)]
      rfl
    rw [h1, h (l.length - 1) (by omega), Nat.cast_sub (by omega)]
    simp
  have hpos : ((l.length : Rat) - 1) ≠ 0 := by
    have : (2 : Rat) ≤ l.length := by exact_mod_cast hl
    intro h0
    linarith
  simp only [resolution, hlast]
  field_simp
  ring

theorem centers_regular {l : List Rat} (hl : 2 ≤ l.length) (h : Regular l) :
    centers (resolution l) (l.headD 0 - resolution l / 2) l.length = l := by
  obtain ⟨d, h⟩ := h
  refine List.ext_getElem (by simp [centers]) ?_
  intro i h1 h2
  rw [centers_get, resolution_regular hl h, h i h2]
  ring

/-! ### Values -/

/-- What `data_to_raster` makes of an array with an affine and without a mask. -/
theorem dataToRaster_affine (dt : DType) {data : Arr} (x y : Coord) (t : Affine) (nv : Option Scalar) {d : Cube}
    (hd : normalizeData data = .ok d) :
    dataToRaster dt data none x y (some t) nv false =
      .ok (place dt d (fun k i j => maskOf (nv.map (·.val)) (d.get k i j)) nv (centers t.e t.f d.ny) (centers t.a t.c d.nx)) := by
  simp only [dataToRaster, hd, normalizeMask, masked, coords]

theorem flag (b : Bool) : decide ((if b = true then (.fin 1 : Num) else .fin 0) = .fin 1) = b := by
  cases b <;> decide +kernel

theorem place_data (dt : DType) (d : Cube) (mask : Nat → Nat → Nat → Bool) (nv : Option Scalar) (ys xs : List Rat) (c : Cell) :
    ∃ k i j, (place dt d mask nv ys xs).raster.data c = d.get k i j ∧
      (place dt d mask nv ys xs).raster.mask c = mask k i j := by
  refine ⟨c.1, if increasing ys then ys.length - 1 - c.2.1 else c.2.1, if decreasing xs then xs.length - 1 - c.2.2 else c.2.2,
    rfl, ?_⟩
  simp only [place, Norm.data, orient]
  exact flag _

theorem defaultArg_val (dt : DType) (hb : dt.isBool = false) : (defaultArg dt).val = (defaultNull dt).val := by
  cases dt <;> simp [isBool] at hb <;> rfl

theorem defaultArg_not_nan (dt : DType) (hb : dt.isBool = false) : (defaultArg dt).val ≠ .nan := by
  cases dt <;> simp [isBool] at hb <;> simp [defaultArg, defaultNull, isFloat, NullArg.val]

theorem defaultArg_dtype (np : NumPy) (dt : DType) (hi : dt.isInt = true) : nullDtype np dt (defaultArg dt) = .ok none := by
  cases dt <;> simp [isInt] at hi <;>
    norm_num [nullDtype, defaultArg, defaultNull, isFloat, isInt, NullArg.val, NullArg.isInt, Num.isnan, limits]

/-- The raster of a variable whose data is a cube. -/
theorem buildRaster_ok {np : NumPy} (hnp : ExactCast np) (hnan : NanCast np) (hll : Lossless np) {f : File} {t : Affine} {v : Var}
    {d : Cube} (hdim : f.xdim ∈ (squeeze v.arr).dims ∧ f.ydim ∈ (squeeze v.arr).dims)
    (hd : normalizeData (toArr (squeeze v.arr)) = .ok d) (hb : v.dtype.isBool = false)
    (hval : ∀ k i j, ValueOf v.dtype (d.get k i j)) :
    ∃ p, buildRaster np f t v = .ok p ∧
      p.ys = (place v.dtype d (fun _ _ _ => false) none (centers t.e t.f d.ny) (centers t.a t.c d.nx)).ys ∧
      p.xs = (place v.dtype d (fun _ _ _ => false) none (centers t.e t.f d.ny) (centers t.a t.c d.nx)).xs ∧
      v.dtype.canCast p.raster.dtype = true ∧ (p.raster.nb, p.raster.ny, p.raster.nx) = (d.nb, d.ny, d.nx) ∧
      (∃ s, p.raster.nv = some s ∧ (Silent v → s.val = (defaultNull v.dtype).val) ∧ (¬ Silent v → v.nodata = some s)) ∧
      ∀ c, (p.raster.mask c = true ↔
          Missing v ((place v.dtype d (fun _ _ _ => false) none (centers t.e t.f d.ny) (centers t.a t.c d.nx)).raster.data c) ∨
            (Silent v ∧ (place v.dtype d (fun _ _ _ => false) none (centers t.e t.f d.ny)
              (centers t.a t.c d.nx)).raster.data c = (defaultNull v.dtype).val)) ∧
        (p.raster.mask c = false → p.raster.data c =
          (place v.dtype d (fun _ _ _ => false) none (centers t.e t.f d.ny) (centers t.a t.c d.nx)).raster.data c) := by
  simp only [buildRaster]
  rw [if_neg (by simp [hdim.1, hdim.2]), dataToRaster_affine _ _ _ _ _ hd]
  simp only
  generalize hys : centers t.e t.f d.ny = ys
  generalize hxs : centers t.a t.c d.nx = xs
  have hy : ys.length = d.ny := by rw [← hys]; simp [centers]
  have hx : xs.length = d.nx := by rw [← hxs]; simp [centers]
  let m := fun k i j => maskOf (v.nodata.map (·.val)) (d.get k i j)
  obtain ⟨n1, n2, n3, -⟩ := place_spec v.dtype d m v.nodata (ys := ys) (xs := xs)
  have hmiss : ∀ c, (place v.dtype d m v.nodata ys xs).raster.mask c = true ↔
      Missing v ((place v.dtype d m v.nodata ys xs).raster.data c) := by
    intro c
    obtain ⟨k, i, j, e1, e2⟩ := place_data v.dtype d m v.nodata ys xs c
    rw [e1, e2]
    simp only [m, Missing]
    cases hv : v.nodata with
    | none => simp [maskOf]
    | some s =>
      simp only [Option.map_some, maskOf_iff, Option.some.injEq]
      constructor
      · intro h
        exact ⟨s, rfl, h⟩
      · rintro ⟨s', rfl, h⟩
        exact h
  have hneeds : needsDefault v.nodata = true ↔ Silent v := by
    simp only [needsDefault, Silent]
    cases hv : v.nodata with
    | none => simp
    | some s =>
      simp only [reduceCtorEq, Option.some.injEq, false_or]
      constructor
      · intro h
        refine ⟨s, rfl, ?_⟩
        cases hs : s.val <;> rw [hs] at h <;> simp [Num.isnan] at h
      · rintro ⟨s', rfl, h⟩
        rw [h]
        rfl
  by_cases hs : Silent v
  · rw [if_pos (hneeds.mpr hs)]
    cases hset : (place v.dtype d m v.nodata ys xs).raster.setNullValue np (some (defaultArg v.dtype)) with
    | error e =>
      exfalso
      have := (C16_rejected np _ _).mp ⟨e, hset⟩
      exact defaultArg_not_nan v.dtype hb this.1
    | ok r =>
      have hmn : MaskNeedsNull (place v.dtype d m v.nodata ys xs).raster := by
        intro c hc h0
        obtain ⟨s, hs, -⟩ := (hmiss c).mp hc
        have : (place v.dtype d m v.nodata ys xs).raster.nv = v.nodata := rfl
        rw [this, hs] at h0
        cases h0
      obtain ⟨c1, ⟨s, c2, c3⟩, c4, c5⟩ := C16_set_null_value hnp hnan hll hset hb hmn (by
        intro c _
        obtain ⟨k, i, j, e1, -⟩ := place_data v.dtype d m v.nodata ys xs c
        rw [e1]
        exact hval k i j)
      have hlossy : ¬ Lossy v.dtype r.dtype := by
        rintro ⟨h64, hf⟩
        have hi : v.dtype.isInt = true := by rcases h64 with h | h <;> rw [h] <;> rfl
        have := defaultArg_dtype np v.dtype hi
        simp only [Raster.setNullValue] at hset
        have hdt : (place v.dtype d m v.nodata ys xs).raster.dtype = v.dtype := rfl
        rw [hdt, this] at hset
        simp only [Except.ok.injEq] at hset
        rw [← hset, burn_dtype] at hf
        simp only [Option.getD_none] at hf
        rcases h64 with h | h <;> rw [h] at hf <;> cases hf
      refine ⟨_, rfl, rfl, rfl, c1, ?_, ⟨s, c2, ?_, ?_⟩, ?_⟩
      · simp only
        rw [c4, n1, n2, n3, hy, hx]
      · intro _
        rw [c3, defaultArg_val v.dtype hb]
      · intro h
        exact absurd hs h
      · intro c
        obtain ⟨-, -, h3⟩ := c5 c
        obtain ⟨h4, h5⟩ := h3 hlossy
        simp only
        rw [h4, hmiss c, defaultArg_val v.dtype hb]
        refine ⟨?_, h5⟩
        constructor
        · rintro (h | h)
          · exact Or.inl h
          · exact Or.inr ⟨hs, h⟩
        · rintro (h | ⟨-, h⟩)
          · exact Or.inl h
          · exact Or.inr h
  · rw [if_neg (fun h => hs (hneeds.mp h))]
    refine ⟨_, rfl, rfl, rfl, canCast_refl _, ?_, ?_, ?_⟩
    · rw [n1, n2, n3, hy, hx]
    · cases hv : v.nodata with
      | none => exact absurd (Or.inl hv) hs
      | some s => exact ⟨s, rfl, fun h => absurd h hs, fun _ => rfl⟩
    · intro c
      refine ⟨?_, fun _ => rfl⟩
      rw [hmiss c]
      constructor
      · intro h
        exact Or.inl h
      · rintro (h | ⟨h, -⟩)
        · exact h
        · exact absurd h hs

theorem mem_long {a : XArray} {ax : Axis} (h : ax ∈ long a) : ax ∈ a.axes ∧ ax.size ≠ 1 := by
  simpa [long] using h

/-- The cube of an ordered variable. -/
theorem ordered_cube {f : File} {a : XArray} {band : Option String} {nb : Nat} (hw : WellFormed a) (ho : Ordered f a band nb) :
    ∃ d : Cube, normalizeData (toArr (squeeze a)) = .ok d ∧ d.nb = nb ∧ d.ny = f.ys.length ∧ d.nx = f.xs.length ∧
      (f.xdim ∈ (squeeze a).dims ∧ f.ydim ∈ (squeeze a).dims) ∧ (∀ k i j, ∃ g, d.get k i j = a.get g) ∧
      ∀ k < nb, ∀ i j g, Index f a band k i j g → d.get k i j = a.get g := by
  have hone : ∀ n ∈ a.axes.map (·.name), n ∉ (long a).map (·.name) →
      n ∈ (a.axes.filter fun ax => ax.size = 1).map (·.name) := by
    intro n hn hl
    obtain ⟨ax, hax, rfl⟩ := List.mem_map.mp hn
    refine List.mem_map.mpr ⟨ax, List.mem_filter.mpr ⟨hax, ?_⟩, rfl⟩
    by_contra hc
    refine hl (List.mem_map.mpr ⟨ax, ?_, rfl⟩)
    simp only [long, List.mem_filter]
    refine ⟨hax, ?_⟩
    simpa using hc
  have hnot : ∀ n ∈ (long a).map (·.name), n ∉ (a.axes.filter fun ax => ax.size = 1).map (·.name) := by
    intro n hn hm
    obtain ⟨ax, hax, rfl⟩ := List.mem_map.mp hn
    obtain ⟨bx, hbx, he⟩ := List.mem_map.mp hm
    obtain ⟨h1, h2⟩ := mem_long hax
    obtain ⟨h3, h4⟩ := List.mem_filter.mp hbx
    have : bx = ax := List.inj_on_of_nodup_map hw.1 h3 h1 he
    subst this
    exact h2 (of_decide_eq_true h4)
  have hzero : ∀ {band k i j g}, Index f a band k i j g → ∀ n ∈ (a.axes.filter fun ax => ax.size = 1).map (·.name), g n = 0 := by
    intro band k i j g hg n hn
    obtain ⟨bx, hbx, rfl⟩ := List.mem_map.mp hn
    obtain ⟨h3, h4⟩ := List.mem_filter.mp hbx
    exact hg.2.2.2 bx h3 (of_decide_eq_true h4)
  have hnd : ((long a).map (·.name)).Nodup := hw.1.sublist (List.Sublist.map _ List.filter_sublist)
  cases ho with
  | flat p q hl hy hx sy sx =>
    have hs : (squeeze a).axes = [p, q] := by rw [squeeze_axes, hl]
    rw [hl] at hnd hone hnot
    simp only [List.map_cons, List.map_nil, List.nodup_cons, List.mem_singleton, List.not_mem_nil, not_false_eq_true,
      List.nodup_nil, and_self, and_true] at hnd
    refine ⟨⟨1, p.size, q.size, fun _ i j => (squeeze a).get fun n => if n = p.name then i else if n = q.name then j else 0⟩,
      by simp only [toArr, hs, normalizeData], rfl, sy, sx, ?_, ?_, ?_⟩
    · simp only [XArray.dims, hs, List.map_cons, List.map_nil, hy, hx]
      simp
    · intro k i j
      exact ⟨_, rfl⟩
    · intro k _ i j g hg
      simp only [squeeze]
      apply hw.2
      intro n hn
      by_cases hm : n ∈ (a.axes.filter fun ax => ax.size = 1).map (·.name)
      · rw [if_pos hm, hzero hg n hm]
      · rw [if_neg hm]
        have hin : n ∈ [p, q].map (·.name) := by
          by_contra hc
          exact hm (hone n hn hc)
        simp only [List.map_cons, List.map_nil, List.mem_cons, List.not_mem_nil, or_false] at hin
        rcases hin with rfl | rfl
        · rw [if_pos rfl, hy, hg.1]
        · rw [if_neg (fun h => hnd h.symm), if_pos rfl, hx, hg.2.1]
  | cube b p q hl hy hx sy sx =>
    have hs : (squeeze a).axes = [b, p, q] := by rw [squeeze_axes, hl]
    rw [hl] at hnd hone hnot
    simp only [List.map_cons, List.map_nil, List.nodup_cons, List.mem_cons, List.not_mem_nil, not_false_eq_true,
      List.nodup_nil, and_self, and_true, or_false, not_or] at hnd
    refine ⟨⟨b.size, p.size, q.size, fun k i j =>
      (squeeze a).get fun n => if n = b.name then k else if n = p.name then i else if n = q.name then j else 0⟩,
      by simp only [toArr, hs, normalizeData], rfl, sy, sx, ?_, ?_, ?_⟩
    · simp only [XArray.dims, hs, List.map_cons, List.map_nil, hy, hx]
      simp
    · intro k i j
      exact ⟨_, rfl⟩
    · intro k _ i j g hg
      simp only [squeeze]
      apply hw.2
      intro n hn
      by_cases hm : n ∈ (a.axes.filter fun ax => ax.size = 1).map (·.name)
      · rw [if_pos hm, hzero hg n hm]
      · rw [if_neg hm]
        have hin : n ∈ [b, p, q].map (·.name) := by
          by_contra hc
          exact hm (hone n hn hc)
        simp only [List.map_cons, List.map_nil, List.mem_cons, List.not_mem_nil, or_false] at hin
        rcases hin with rfl | rfl | rfl
        · rw [if_pos rfl, hg.2.2.1 b.name rfl]
        · rw [if_neg (fun h => hnd.1.1 h.symm), if_pos rfl, hy, hg.1]
        · rw [if_neg (fun h => hnd.1.2 h.symm), if_neg (fun h => hnd.2 h.symm), if_pos rfl, hx, hg.2.1]

theorem ordered_fits {f : File} {v : Var} {band : Option String} {nb : Nat} (ho : Ordered f v.arr band nb) : Fits v := by
  cases ho with
  | flat p q h => simp [Fits, h]
  | cube b p q h => simp [Fits, h]

/-- **C81 (partial: the dimensions are in order, the coordinates are equally spaced and agree with the transform, and if no null
value is stated no element is the default one).** Every element of the variable is in its raster, at its coordinates and in its
band; it is null exactly if it is the null value of the variable. -/
theorem C81_values_partial {np : NumPy} (hnp : ExactCast np) (hnan : NanCast np) (hll : Lossless np) {f : File} {ignore : Bool}
    {l : List (String × Placed)} (h : openDataset np f ignore = .ok l) {v : Var} (hv : v ∈ f.vars) (hw : WellFormed v.arr)
    {band : Option String} {nb : Nat} (ho : Ordered f v.arr band nb) (hb : v.dtype.isBool = false)
    (hval : ∀ g, ValueOf v.dtype (v.arr.get g)) (hst : f.stored = .absent) (hy : 2 ≤ f.ys.length) (hx : 2 ≤ f.xs.length)
    (ry : Regular f.ys) (rx : Regular f.xs) (hdef : Silent v → ∀ g, v.arr.get g ≠ (defaultNull v.dtype).val) :
    ∃ p, (v.name, p) ∈ l ∧ v.dtype.canCast p.raster.dtype = true ∧
      (p.raster.nb, p.raster.ny, p.raster.nx) = (nb, f.ys.length, f.xs.length) ∧
      (∃ s, p.raster.nv = some s ∧ (Silent v → s.val = (defaultNull v.dtype).val) ∧ (¬ Silent v → v.nodata = some s)) ∧
      ∀ i < f.ys.length, ∀ j < f.xs.length, ∃ i' < f.ys.length, ∃ j' < f.xs.length,
        p.ys[i']? = f.ys[i]? ∧ p.xs[j']? = f.xs[j]? ∧
        ∀ k < nb, ∀ g, Index f v.arr band k i j g →
          (p.raster.mask (k, i', j') = true ↔ Missing v (v.arr.get g)) ∧
          (p.raster.mask (k, i', j') = false → p.raster.data (k, i', j') = v.arr.get g) := by
  obtain ⟨t, ht, hall⟩ := openDataset_ok h
  obtain ⟨p, hp, hmem⟩ := (buildAll_ok hall).2 v (List.mem_filter.mpr ⟨hv, decide_eq_true (ordered_fits ho)⟩)
  obtain ⟨d, d1, d2, d3, d4, d5, d6, d7⟩ := ordered_cube hw ho
  obtain ⟨p', hp', q1, q2, q3, q4, q5, q6⟩ := buildRaster_ok hnp hnan hll (t := t) d5 d1 hb (by
    intro k i j
    obtain ⟨g, hg⟩ := d6 k i j
    rw [hg]
    exact hval g)
  rw [hp, Except.ok.injEq] at hp'
  subst hp'
  have hte : centers t.e t.f d.ny = f.ys ∧ centers t.a t.c d.nx = f.xs := by
    simp only [getAffine, hst, Except.ok.injEq] at ht
    subst ht
    rw [d3, d4]
    exact ⟨centers_regular hy ry, centers_regular hx rx⟩
  rw [hte.1, hte.2] at q1 q2 q6
  refine ⟨p, hmem, q3, by rw [q4, d2, d3, d4], q5, ?_⟩
  intro i hi j hj
  obtain ⟨-, -, -, -, -, hsp⟩ := place_spec v.dtype d (fun _ _ _ => false) none (ys := f.ys) (xs := f.xs)
  obtain ⟨i', hi', j', hj', e1, e2, e3⟩ := hsp i hi j hj
  refine ⟨i', hi', j', hj', by rw [q1]; exact e1, by rw [q2]; exact e2, ?_⟩
  intro k hk g hg
  obtain ⟨q7, q8⟩ := q6 (k, i', j')
  rw [(e3 k).1, d7 k hk i j g hg] at q7 q8
  refine ⟨?_, q8⟩
  rw [q7]
  constructor
  · rintro (h | ⟨hs, h⟩)
    · exact h
    · exact absurd h (hdef hs g)
  · intro h
    exact Or.inl h

/-- **C81.** Files are accepted if some variable fits, every variable that fits has its dimensions in order, none has fewer than
two dimensions, those with more than three are ignored, and a stored transform can be read. -/
theorem C81_accepted {np : NumPy} (hnp : ExactCast np) (hnan : NanCast np) (hll : Lossless np) {f : File} {ignore : Bool}
    (h1 : ∃ v ∈ f.vars, Fits v) (h2 : ∀ v ∈ f.vars, 2 ≤ (long v.arr).length)
    (h3 : ignore = false → ∀ v ∈ f.vars, (long v.arr).length ≤ 3) (hst : f.stored ≠ .bad)
    (hv : ∀ v ∈ f.vars, Fits v → WellFormed v.arr ∧ (∃ band nb, Ordered f v.arr band nb) ∧ v.dtype.isBool = false ∧
      ∀ g, ValueOf v.dtype (v.arr.get g)) : ∃ l, openDataset np f ignore = .ok l := by
  obtain ⟨vs, hvs⟩ := validVariables_accepts h2 h3
  have he := (validVariables_ok hvs).1
  have ha : ∃ t, getAffine f = .ok t := by
    simp only [getAffine]
    cases hs : f.stored with
    | absent => exact ⟨_, rfl⟩
    | good t => exact ⟨t, rfl⟩
    | bad => exact absurd hs hst
  obtain ⟨t, ht⟩ := ha
  obtain ⟨l, hl⟩ := buildAll_accepts (np := np) (f := f) (t := t) (vs := vs) (by
    intro v hm
    rw [he] at hm
    obtain ⟨hm, hf⟩ := List.mem_filter.mp hm
    obtain ⟨hw, ⟨band, nb, ho⟩, hb, hval⟩ := hv v hm (of_decide_eq_true hf)
    obtain ⟨d, d1, -, -, -, d5, d6, -⟩ := ordered_cube hw ho
    obtain ⟨p, hp, -⟩ := buildRaster_ok hnp hnan hll (t := t) d5 d1 hb (by
      intro k i j
      obtain ⟨g, hg⟩ := d6 k i j
      rw [hg]
      exact hval g)
    exact ⟨p, hp⟩)
  refine ⟨l, ?_⟩
  simp only [openDataset]
  rw [hvs]
  obtain ⟨v, hm, hf⟩ := h1
  have hin : v ∈ vs := by
    rw [he]
    exact List.mem_filter.mpr ⟨hm, decide_eq_true hf⟩
  cases vs with
  | nil => cases hin
  | cons a vs =>
    simp only [List.isEmpty_cons, Bool.false_eq_true, if_false, ht]
    exact hl

/-! ### Where the statement fails -/

/-- **C81 is false of the code** for variables whose columns come before the rows: they are not transposed, so the raster has as
many rows as the variable has columns. -/
theorem C81_transposed {np : NumPy} (hnp : ExactCast np) (hnan : NanCast np) (hll : Lossless np) {f : File} {t : Affine} {v : Var}
    {p q : Axis} (hl : long v.arr = [p, q]) (hx : p.name = f.xdim) (hy : q.name = f.ydim) (sx : p.size = f.xs.length)
    (sy : q.size = f.ys.length) (hb : v.dtype.isBool = false) (hval : ∀ g, ValueOf v.dtype (v.arr.get g)) :
    ∃ out, buildRaster np f t v = .ok out ∧ out.raster.ny = f.xs.length ∧ out.raster.nx = f.ys.length := by
  have hs : (squeeze v.arr).axes = [p, q] := by rw [squeeze_axes, hl]
  obtain ⟨out, h1, -, -, -, h2, -⟩ := buildRaster_ok hnp hnan hll (t := t) (f := f) (v := v)
    (d := ⟨1, p.size, q.size, fun _ i j => (squeeze v.arr).get fun n => if n = p.name then i else if n = q.name then j else 0⟩)
    (by
      simp only [XArray.dims, hs, List.map_cons, List.map_nil, hy, hx]
      simp) (by simp only [toArr, hs, normalizeData]) hb (fun k i j => hval _)
  simp only [Prod.mk.injEq] at h2
  exact ⟨out, h1, h2.2.1.trans sx, h2.2.2.trans sy⟩

/-- **C81 is false of the code** for a variable with one row: the dimension is dropped, and then missed. -/
theorem C81_one_row {np : NumPy} {f : File} {t : Affine} {v : Var} (hw : WellFormed v.arr) {ax : Axis} (hm : ax ∈ v.arr.axes)
    (hn : ax.name = f.ydim) (hs : ax.size = 1) : buildRaster np f t v = .error .missing := by
  simp only [buildRaster]
  rw [if_pos]
  right
  simp only [XArray.dims, squeeze_axes]
  intro hc
  obtain ⟨bx, hbx, he⟩ := List.mem_map.mp hc
  obtain ⟨h1, h2⟩ := mem_long hbx
  have : bx = ax := List.inj_on_of_nodup_map hw.1 h1 hm (he.trans hn.symm)
  rw [this] at h2
  exact h2 hs

/-- A variable with three rows that are not equally spaced, and without a null value. -/
def uneven : File :=
  ⟨"y", "x", [10, 9, 0], [0, 1], .absent,
    [⟨"t", u8, ⟨[⟨"y", 3, some [10, 9, 0]⟩, ⟨"x", 2, some [0, 1]⟩], fun g => .fin (g "y" + 254 * g "x")⟩, none⟩]⟩

/-- **C81 is false of the code** for coordinates that are not equally spaced: they are replaced by equally spaced ones. -/
theorem C81_irregular : (match openDataset (idNumPy true) uneven false with
    | .ok l => l.map fun e => (e.1, e.2.ys, e.2.xs)
    | .error _ => []) = [("t", [10, 5, 0], [0, 1])] := by decide +kernel

/-- **C81 is false of the code** without a stated null value: elements that are the default null value are null. -/
theorem C81_default_lost : (match openDataset (idNumPy true) uneven false with
    | .ok l => l.map fun e => (e.2.raster.data (0, 0, 1), e.2.raster.mask (0, 0, 1), e.2.raster.data (0, 1, 1),
        e.2.raster.mask (0, 1, 1))
    | .error _ => []) = [(.fin 254, false, .fin 255, true)] := by decide +kernel

/-! ### Examples -/

/-- Two times with three rows from south to north, and a dimension of length 1. -/
def seasons : File :=
  ⟨"lat", "lon", [1, 2, 3], [10, 20], .absent,
    [⟨"t", f32, ⟨[⟨"time", 2, none⟩, ⟨"height", 1, none⟩, ⟨"lat", 3, some [1, 2, 3]⟩, ⟨"lon", 2, some [10, 20]⟩],
      fun g => if g "time" = 1 ∧ g "lat" = 0 then .nan else .fin (100 * g "time" + 10 * g "lat" + g "lon")⟩, some ⟨f64, .nan⟩⟩]⟩

example : Ordered seasons (seasons.vars[0]).arr (some "time") 2 :=
  .cube ⟨"time", 2, none⟩ ⟨"lat", 3, some [1, 2, 3]⟩ ⟨"lon", 2, some [10, 20]⟩ rfl rfl rfl rfl rfl

example : Regular seasons.ys ∧ Regular seasons.xs := by
  refine ⟨⟨1, ?_⟩, ⟨10, ?_⟩⟩
  · intro i hi
    match i, hi with
    | 0, _ => norm_num [seasons]
    | 1, _ => norm_num [seasons]
    | 2, _ => norm_num [seasons]
  · intro i hi
    match i, hi with
    | 0, _ => norm_num [seasons]
    | 1, _ => norm_num [seasons]

example : (match openDataset (idNumPy true) seasons false with
    | .ok l => l.map fun e => (e.1, e.2.ys, e.2.xs)
    | .error _ => []) = [("t", [3, 2, 1], [10, 20])] := by decide +kernel

example : (match openDataset (idNumPy true) seasons false with
    | .ok l => l.flatMap fun e => [(0, 0, 1), (1, 0, 0), (1, 2, 0)].map fun c => (e.2.raster.data c, e.2.raster.mask c)
    | .error _ => []) = [(.fin 21, false), (.fin 120, false), (.fin (-999999), true)] := by decide +kernel

end Verif.OpenDataset
