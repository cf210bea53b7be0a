import Verif.Warp.Model
import Verif.Build.Props

set_option linter.unusedSectionVars false

/-!
# Properties of `reproject`
-/

namespace Verif.Warp

open Verif Verif.Nulls DType

variable {K : Type} [DecidableEq K]

namespace Spec

/-- The destination that the arguments ask for. -/
def Wanted (e : Engine K) (src : Frame K) (t : Target K) (res : Option Rat) : Option (Frame K) :=
  let f := match t with
    | .absent => if res = none then none else some src
    | .crs k => some (e.toCrs src k)
    | .geobox f => some f
  match res with
  | none => f
  | some q => f.map fun f => e.zoomTo f q

/-- The value of a valid cell. -/
def valid (r : Raster) (k y x : Nat) : Option Num := if r.mask (k, y, x) then none else some (r.data (k, y, x))

/-- Null cells hold the null value, valid cells do not hold it. -/
def Separated (r : Raster) : Prop :=
  match r.nv with
  | none => ∀ c, r.mask c = false
  | some s => ∀ c, r.mask c = true ↔ r.data c = s.val

/-- The null value of the result: that of the raster, or the default of its dtype. -/
def NullOf (r : Raster) (s : Scalar) : Prop := r.nv = some s ∨ (r.nv = none ∧ s = defaultNull r.dtype)

/-- The grid with rows from north to south and columns from west to east. -/
def Upright (f g : Frame K) : Prop :=
  g.crs = f.crs ∧ g.ys.Perm f.ys ∧ g.xs.Perm f.xs ∧ g.ys.Pairwise (· > ·) ∧ g.xs.Pairwise (· < ·)

/-- Coordinates go up or down. -/
def Monotone (l : List Rat) : Prop := l.Pairwise (· < ·) ∨ l.Pairwise (· > ·)

end Spec

open Spec

/-! ### Arguments -/

/-- The argument `resolution` without tuples. -/
def numeric : Option Rat → Res
  | none => .absent
  | some q => .number q

theorem destination_eq (e : Engine K) (src : Frame K) (t : Target K) (res : Option Rat) (hr : ∀ q, res = some q → 0 < q) :
    destination e src t (numeric res) =
      match Wanted e src t res with
      | none => .error .value
      | some f => .ok f := by
  cases res with
  | none => cases t <;> rfl
  | some q =>
    have hq : ¬ q ≤ 0 := not_le.mpr (hr q rfl)
    cases t <;> simp [destination, base, zoom, numeric, Wanted, hq]

/-- **C79.** What is raised: a ValueError for an unknown method, without a destination, and for a resolution that is not
positive. -/
theorem C79_rejected (e : Engine K) (p : Placed K) (t : Target K) (method : String) (res : Option Rat) :
    (method ∉ e.methods → reproject e p t method (numeric res) = .error .value) ∧
    (Wanted e p.frame t res = none → reproject e p t method (numeric res) = .error .value) ∧
    (∀ q, res = some q → q ≤ 0 → reproject e p t method (numeric res) = .error .value) := by
  refine ⟨?_, ?_, ?_⟩
  · intro h
    simp only [reproject]
    rw [if_pos h]
  · intro h
    simp only [reproject]
    by_cases hm : method ∉ e.methods
    · rw [if_pos hm]
    · rw [if_neg hm]
      have : destination e p.frame t (numeric res) = .error .value := by
        cases res with
        | none =>
          cases t with
          | absent => rfl
          | crs k => cases h
          | geobox f => cases h
        | some q => cases t <;> simp [Wanted] at h
      rw [this]
  · rintro q rfl hq
    simp only [reproject]
    by_cases hm : method ∉ e.methods
    · rw [if_pos hm]
    · rw [if_neg hm]
      have : destination e p.frame t (numeric (some q)) = .error .value := by
        cases t <;> simp [destination, base, zoom, numeric, hq]
      rw [this]

theorem reproject_ok (e : Engine K) (p : Placed K) (t : Target K) {method : String} {res : Option Rat} {dst : Frame K}
    (hm : method ∈ e.methods) (hr : ∀ q, res = some q → 0 < q) (hd : Wanted e p.frame t res = some dst) :
    reproject e p t method (numeric res) =
      if dst = p.frame then .ok p
      else .ok ⟨⟨dst.crs, (Build.orient p.raster.nb dst.ys dst.xs (warped e method p.frame dst p.raster)).ys,
          (Build.orient p.raster.nb dst.ys dst.xs (warped e method p.frame dst p.raster)).xs⟩,
        ofData p.raster.dtype (Build.orient p.raster.nb dst.ys dst.xs (warped e method p.frame dst p.raster)).nb
          (Build.orient p.raster.nb dst.ys dst.xs (warped e method p.frame dst p.raster)).ys.length
          (Build.orient p.raster.nb dst.ys dst.xs (warped e method p.frame dst p.raster)).xs.length
          (Build.orient p.raster.nb dst.ys dst.xs (warped e method p.frame dst p.raster)).data none
          (some (nodata p.raster)) false⟩ := by
  simp only [reproject]
  rw [if_neg (not_not.mpr hm), destination_eq e p.frame t res hr, hd]

/-- **C79.** If the destination is the grid of the raster, the raster is returned as it is. -/
theorem C79_same (e : Engine K) (p : Placed K) (t : Target K) {method : String} {res : Option Rat}
    (hm : method ∈ e.methods) (hr : ∀ q, res = some q → 0 < q) (hd : Wanted e p.frame t res = some p.frame) :
    reproject e p t method (numeric res) = .ok p := by
  rw [reproject_ok e p t hm hr hd, if_pos rfl]

/-- **C79 is false of the code** for a resolution given as a tuple, which is documented: it raises a TypeError. -/
theorem C79_tuple (e : Engine K) (p : Placed K) (t : Target K) {method : String} (x y : Rat) (hm : method ∈ e.methods) :
    reproject e p t method (.pair x y) = .error .type := by
  simp only [reproject]
  rw [if_neg (not_not.mpr hm)]
  cases t <;> rfl

/-! ### Cells -/

theorem nullOf_iff (r : Raster) (s : Scalar) : NullOf r s ↔ s = nodata r := by
  cases h : r.nv with
  | none => simp [NullOf, nodata, h]
  | some t =>
    simp only [NullOf, nodata, h, Option.getD_some, Option.some.injEq]
    constructor
    · rintro (h | ⟨h, -⟩)
      · exact h.symm
      · cases h
    · intro h
      exact Or.inl h.symm

theorem seen_eq {r : Raster} (h : Separated r) (k : Nat) : seen r k = valid r k := by
  funext y x
  simp only [seen, valid]
  cases hn : r.nv with
  | none =>
    simp only [Separated, hn] at h
    rw [h]
    rfl
  | some s =>
    simp only [Separated, hn] at h
    have hm : maskOf (some s.val) (r.data (k, y, x)) = r.mask (k, y, x) := by
      rw [Bool.eq_iff_iff, maskOf_iff, h]
    simp only [Option.map_some, hm]

/-- **C79.** The result has the destination's CRS, rows and columns, with rows from north to south and columns from west to east,
the bands and dtype of the raster and its null value (the default one if it has none). -/
theorem C79_grid (e : Engine K) (p : Placed K) (t : Target K) {method : String} {res : Option Rat} {dst : Frame K}
    (hm : method ∈ e.methods) (hr : ∀ q, res = some q → 0 < q) (hd : Wanted e p.frame t res = some dst)
    (hne : dst ≠ p.frame) (hy : Monotone dst.ys) (hx : Monotone dst.xs) :
    ∃ out, reproject e p t method (numeric res) = .ok out ∧ Upright dst out.frame ∧
      out.raster.dtype = p.raster.dtype ∧ out.raster.nb = p.raster.nb ∧ out.raster.ny = dst.ys.length ∧
      out.raster.nx = dst.xs.length ∧ ∃ s, out.raster.nv = some s ∧ NullOf p.raster s := by
  rw [reproject_ok e p t hm hr hd, if_neg hne]
  obtain ⟨h1, h2, h3⟩ := Build.orient_sizes p.raster.nb dst.ys dst.xs (warped e method p.frame dst p.raster)
  refine ⟨_, rfl, ⟨rfl, ?_, ?_, ?_, ?_⟩, rfl, h1, h2, h3, nodata p.raster, rfl, (nullOf_iff _ _).mpr rfl⟩
  · simp only [Build.orient]
    by_cases h : Build.increasing dst.ys = true
    · rw [if_pos h]
      exact List.reverse_perm _
    · rw [if_neg h]
  · simp only [Build.orient]
    by_cases h : Build.decreasing dst.xs = true
    · rw [if_pos h]
      exact List.reverse_perm _
    · rw [if_neg h]
  · simp only [Build.orient]
    by_cases h : Build.increasing dst.ys = true
    · rw [if_pos h]
      exact List.pairwise_reverse.mpr ((Build.increasing_iff _).mp h).2
    · rw [if_neg h]
      rcases hy with hy | hy
      · have hl : dst.ys.length < 2 := by
          by_contra hl
          exact h ((Build.increasing_iff _).mpr ⟨by omega, hy⟩)
        match hc : dst.ys with
        | [] => exact List.Pairwise.nil
        | [a] => exact List.pairwise_singleton _ _
        | a :: b :: l =>
          rw [hc] at hl
          simp only [List.length_cons] at hl
          omega
      · exact hy
  · simp only [Build.orient]
    by_cases h : Build.decreasing dst.xs = true
    · rw [if_pos h]
      exact List.pairwise_reverse.mpr ((Build.decreasing_iff _).mp h).2
    · rw [if_neg h]
      rcases hx with hx | hx
      · exact hx
      · have hl : dst.xs.length < 2 := by
          by_contra hl
          exact h ((Build.decreasing_iff _).mpr ⟨by omega, hx⟩)
        match hc : dst.xs with
        | [] => exact List.Pairwise.nil
        | [a] => exact List.pairwise_singleton _ _
        | a :: b :: l =>
          rw [hc] at hl
          simp only [List.length_cons] at hl
          omega

/-- **C79 (partial: no resampled value is the null value).** For every method the cell of the result at the coordinates of a
pixel of the destination has the value which the method makes of the valid cells of the band, and is null if it makes none:
null cells are ignored. -/
theorem C79_cells_partial (e : Engine K) (p : Placed K) (t : Target K) {method : String} {res : Option Rat} {dst : Frame K}
    (hm : method ∈ e.methods) (hr : ∀ q, res = some q → 0 < q) (hd : Wanted e p.frame t res = some dst)
    (hne : dst ≠ p.frame) (hs : Separated p.raster) {s : Scalar} (hn : NullOf p.raster s)
    (hv : ∀ k < p.raster.nb, ∀ i < dst.ys.length, ∀ j < dst.xs.length,
      e.resample method p.frame dst (valid p.raster k) i j ≠ some s.val) :
    ∃ out, reproject e p t method (numeric res) = .ok out ∧
      ∀ i < dst.ys.length, ∀ j < dst.xs.length, ∃ i' < out.raster.ny, ∃ j' < out.raster.nx,
        out.frame.ys[i']? = dst.ys[i]? ∧ out.frame.xs[j']? = dst.xs[j]? ∧
        ∀ k < p.raster.nb, valid out.raster k i' j' = e.resample method p.frame dst (valid p.raster k) i j := by
  have hsn := (nullOf_iff _ _).mp hn
  subst hsn
  rw [reproject_ok e p t hm hr hd, if_neg hne]
  obtain ⟨h1, h2, h3⟩ := Build.orient_sizes p.raster.nb dst.ys dst.xs (warped e method p.frame dst p.raster)
  refine ⟨_, rfl, ?_⟩
  intro i hi j hj
  obtain ⟨i', hi', j', hj', e1, e2, e3⟩ :=
    Build.orient_values p.raster.nb dst.ys dst.xs (warped e method p.frame dst p.raster) hi hj
  refine ⟨i', by simpa [ofData, h2] using hi', j', by simpa [ofData, h3] using hj', e1, e2, ?_⟩
  intro k hk
  have hvk := hv k hk i hi j hj
  simp only [valid, ofData, Build.Norm.data, e3, Option.map_some]
  have hw : warped e method p.frame dst p.raster k i j =
      (e.resample method p.frame dst (valid p.raster k) i j).getD (nodata p.raster).val := by
    simp only [warped, seen_eq hs]
    cases hc : e.resample method p.frame dst (valid p.raster k) i j with
    | none => rfl
    | some v =>
      simp only [Option.getD_some]
      rw [if_neg]
      rw [maskOf_iff]
      rintro rfl
      exact hvk hc
  rw [hw]
  change (if maskOf _ _ = true then none else some _) = e.resample method p.frame dst (valid p.raster k) i j
  cases hc : e.resample method p.frame dst (valid p.raster k) i j with
  | none =>
    simp only [Option.getD_none]
    rw [if_pos ((maskOf_iff _ _).mpr rfl)]
  | some v =>
    simp only [Option.getD_some]
    rw [if_neg]
    rw [maskOf_iff]
    rintro rfl
    exact hvk hc

/-- Nearest neighbour resampling: each pixel of the destination takes the value of one pixel of the source, or of none. -/
def Spec.Nearest (e : Engine K) (method : String) (source : Frame K → Frame K → Nat → Nat → Option (Nat × Nat)) : Prop :=
  ∀ s d f i j, e.resample method s d f i j = (source s d i j).bind fun q => f q.1 q.2

/-- **C79 (partial: no valid cell has the null value of the result).** With the nearest neighbour every cell of the result has
the value of the cell of the raster that it is taken from, and is null if that is null or outside. -/
theorem C79_nearest_partial (e : Engine K) (p : Placed K) (t : Target K) {method : String} {res : Option Rat} {dst : Frame K}
    {source : Frame K → Frame K → Nat → Nat → Option (Nat × Nat)} (he : Nearest e method source)
    (hm : method ∈ e.methods) (hr : ∀ q, res = some q → 0 < q) (hd : Wanted e p.frame t res = some dst)
    (hne : dst ≠ p.frame) (hs : Separated p.raster) {s : Scalar} (hn : NullOf p.raster s)
    (hv : ∀ c, p.raster.mask c = false → p.raster.data c ≠ s.val) :
    ∃ out, reproject e p t method (numeric res) = .ok out ∧
      ∀ i < dst.ys.length, ∀ j < dst.xs.length, ∃ i' < out.raster.ny, ∃ j' < out.raster.nx,
        out.frame.ys[i']? = dst.ys[i]? ∧ out.frame.xs[j']? = dst.xs[j]? ∧
        ∀ k < p.raster.nb, valid out.raster k i' j' = (source p.frame dst i j).bind fun q => valid p.raster k q.1 q.2 := by
  obtain ⟨out, h1, h2⟩ := C79_cells_partial e p t hm hr hd hne hs hn (by
    intro k _ i _ j _ hc
    rw [he] at hc
    cases hsrc : source p.frame dst i j with
    | none =>
      rw [hsrc] at hc
      cases hc
    | some q =>
      rw [hsrc] at hc
      simp only [Option.bind_some, valid] at hc
      cases hmk : p.raster.mask (k, q.1, q.2) with
      | true =>
        rw [hmk] at hc
        cases hc
      | false =>
        rw [hmk] at hc
        simp only [Bool.false_eq_true, if_false, Option.some.injEq] at hc
        exact hv _ hmk hc)
  refine ⟨out, h1, ?_⟩
  intro i hi j hj
  obtain ⟨i', hi', j', hj', e1, e2, e3⟩ := h2 i hi j hj
  refine ⟨i', hi', j', hj', e1, e2, ?_⟩
  intro k hk
  rw [e3 k hk, he]

/-- **C79 is false of the code** for valid cells that hold the default null value, in rasters without a null value: whatever is
written instead, the cell of the result has that value, or is null if that is the null value again; so it never has the value.
Thus for every resampled value that is the null value. -/
theorem C79_value_lost (e : Engine K) (p : Placed K) (t : Target K) {method : String} {res : Option Rat} {dst : Frame K}
    (hm : method ∈ e.methods) (hr : ∀ q, res = some q → 0 < q) (hd : Wanted e p.frame t res = some dst)
    (hne : dst ≠ p.frame) (hs : Separated p.raster) {s : Scalar} (hn : NullOf p.raster s) {k i j : Nat}
    (hi : i < dst.ys.length) (hj : j < dst.xs.length)
    (hv : e.resample method p.frame dst (valid p.raster k) i j = some s.val) :
    ∃ out i' j', reproject e p t method (numeric res) = .ok out ∧
      out.frame.ys[i']? = dst.ys[i]? ∧ out.frame.xs[j']? = dst.xs[j]? ∧ valid out.raster k i' j' ≠ some s.val ∧
      (e.instead p.raster.dtype s.val = s.val → valid out.raster k i' j' = none) ∧
      (e.instead p.raster.dtype s.val ≠ s.val → valid out.raster k i' j' = some (e.instead p.raster.dtype s.val)) := by
  have hsn := (nullOf_iff _ _).mp hn
  subst hsn
  rw [reproject_ok e p t hm hr hd, if_neg hne]
  obtain ⟨i', hi', j', hj', e1, e2, e3⟩ :=
    Build.orient_values p.raster.nb dst.ys dst.xs (warped e method p.frame dst p.raster) hi hj
  refine ⟨_, i', j', rfl, e1, e2, ?_⟩
  have hw : warped e method p.frame dst p.raster k i j = e.instead p.raster.dtype (nodata p.raster).val := by
    simp only [warped, seen_eq hs, hv]
    rw [if_pos ((maskOf_iff _ _).mpr rfl)]
  simp only [valid, ofData, Build.Norm.data, e3, Option.map_some, hw]
  have hc : ∀ v : Num, (if maskOf (some (nodata p.raster).val) v = true then none else some v) =
      if v = (nodata p.raster).val then none else some v := by
    intro v
    by_cases h : v = (nodata p.raster).val
    · rw [if_pos h, if_pos ((maskOf_iff _ _).mpr h)]
    · rw [if_neg h, if_neg fun hm => h ((maskOf_iff _ _).mp hm)]
  refine ⟨?_, fun h => ?_, fun h => ?_⟩
  · change (if maskOf _ _ = true then none else some _) ≠ _
    rw [hc]
    by_cases h : e.instead p.raster.dtype (nodata p.raster).val = (nodata p.raster).val
    · rw [if_pos h]
      simp
    · rw [if_neg h]
      simpa using h
  · change (if maskOf _ _ = true then none else some _) = _
    rw [hc, if_pos h]
  · change (if maskOf _ _ = true then none else some _) = _
    rw [hc, if_neg h]

/-- **C79.** A geobox with rows from south to north is turned, so it is not the grid of the result. -/
theorem C79_turned (e : Engine K) (p : Placed K) {dst : Frame K} {method : String} (hm : method ∈ e.methods)
    (hne : dst ≠ p.frame) (hy : dst.ys.Pairwise (· < ·)) (hl : 2 ≤ dst.ys.length) (hx : Monotone dst.xs) :
    ∃ out, reproject e p (.geobox dst) method .absent = .ok out ∧ out.frame ≠ dst ∧ out.frame.ys = dst.ys.reverse := by
  obtain ⟨out, h1, h2, -⟩ := C79_grid e p (.geobox dst) (res := none) hm (fun q h => by cases h) rfl hne (Or.inl hy) hx
  have h1' := h1
  rw [reproject_ok e p (.geobox dst) (res := none) hm (fun q h => by cases h) rfl, if_neg hne] at h1'
  refine ⟨out, h1, ?_, ?_⟩
  · intro h
    have := h2.2.2.2.1
    rw [h] at this
    exact Build.not_both hl hy this
  · rw [← Except.ok.inj h1']
    simp only [Build.orient]
    rw [if_pos ((Build.increasing_iff _).mpr ⟨hl, hy⟩)]

/-! ### Examples -/

/-- Nearest neighbours for grids of the same pixels: the pixel at the same coordinates. -/
def sampleEngine : Engine Nat where
  methods := ["nearest"]
  toCrs := fun f k => { f with crs := k }
  zoomTo := fun f _ => f
  resample := fun _ s d f i j =>
    match (d.ys[i]?).bind (fun y => s.ys.findIdx? (· == y)), (d.xs[j]?).bind (fun x => s.xs.findIdx? (· == x)) with
    | some a, some b => f a b
    | _, _ => none
  instead := fun _ v => match v with
    | .fin q => .fin (q - 1)
    | v => v

/-- The values 255 and 7 in a raster of bytes without a null value. -/
def sampleRaster : Placed Nat :=
  ⟨⟨1, [1, 0], [0]⟩, ⟨u8, 1, 2, 1, fun c => if c.2.1 = 0 then .fin 255 else .fin 7, fun _ => false, none⟩⟩

/-- A destination with rows from south to north, and one more than the raster has. -/
def sampleFrame : Frame Nat := ⟨1, [-1, 0, 1], [0]⟩

/-- The value 7 is kept, 255 becomes 254, and the row outside is null. -/
example : ∃ out, reproject sampleEngine sampleRaster (.geobox sampleFrame) "nearest" .absent = .ok out ∧
    out.frame = ⟨1, [1, 0, -1], [0]⟩ ∧ valid out.raster 0 0 0 = some (.fin 254) ∧ valid out.raster 0 1 0 = some (.fin 7) ∧
    valid out.raster 0 2 0 = none := by
  refine ⟨_, rfl, ?_, ?_, ?_, ?_⟩ <;> decide +kernel

/-- The hypotheses hold for a raster with the value 7 only and for this destination. -/
example : Separated { sampleRaster.raster with data := fun _ => .fin 7 } ∧ sampleFrame ≠ sampleRaster.frame ∧
    Wanted sampleEngine sampleRaster.frame (.geobox sampleFrame) none = some sampleFrame ∧
    Monotone sampleFrame.ys ∧ NullOf { sampleRaster.raster with data := fun _ => .fin 7 } (defaultNull u8) := by
  refine ⟨?_, by decide, rfl, Or.inl (by decide +kernel), Or.inr ⟨rfl, rfl⟩⟩
  intro c
  rfl

/-- `sampleEngine` takes nearest neighbours. -/
example : Nearest sampleEngine "nearest" fun s d i j =>
    match (d.ys[i]?).bind (fun y => s.ys.findIdx? (· == y)), (d.xs[j]?).bind (fun x => s.xs.findIdx? (· == x)) with
    | some a, some b => some (a, b)
    | _, _ => none := by
  intro s d f i j
  simp only [sampleEngine]
  split <;> simp_all

end Verif.Warp
