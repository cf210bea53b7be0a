import Verif.Polygons.Model
import Verif.Grid.Props
import Verif.Nulls.RasterProps
import Mathlib.Tactic.IntervalCases

/-! # C67: polygons of a raster -/

set_option linter.unusedSectionVars false

namespace Verif.Polygons

open Verif Verif.Grid Verif.Nulls DType

variable {K : Type} [Field K] [LinearOrder K] [IsStrictOrderedRing K] [FloorRing K]

namespace Spec

/-- What is assumed of `rasterio.features.shapes`: the groups are not empty and consist of cells to be used with the value of
the group, and every such cell that is not NaN is in a group. -/
structure Law (shapes : Shapes) : Prop where
  sound : ∀ ny nx f use nbh, ∀ s ∈ shapes ny nx f use nbh, s.1 ≠ [] ∧
    ∀ c ∈ s.1, c.1 < ny ∧ c.2 < nx ∧ use c.1 c.2 = true ∧ f c.1 c.2 = s.2
  complete : ∀ ny nx f use nbh, nbh = 4 ∨ nbh = 8 → ∀ i < ny, ∀ j < nx, use i j = true → f i j ≠ .nan →
    ∃ s ∈ shapes ny nx f use nbh, (i, j) ∈ s.1

/-- The value can be worked with: rasterio knows 32 bit integers and single precision at most. -/
def Exact (dt : DType) (v : Num) : Prop :=
  dt ≠ f128 ∧ Nulls.Spec.ValueOf dt v ∧ (dt ∈ [i64, u32, u64] → Nulls.Spec.ValueOf i32 v) ∧
    (dt = f64 → Nulls.Spec.ValueOf f32 v)

/-- The point lies in the polygons of the row. -/
def Covers (p : Poly K) (x y : K) : Prop := ∃ g ∈ p.geometry, Grid.Spec.InCell g.1 (x, y) g.2.1 g.2.2

/-- The point lies in a cell of the band that is not null and has the value. -/
def HasValueAt (r : Grid.Raster K Num) (band : Nat) (v : Num) (x y : K) : Prop :=
  ∃ i j : Nat, i < r.ny ∧ j < r.nx ∧ Grid.Spec.InCell r.affine (x, y) i j ∧ r.mask band i j = false ∧ r.data band i j = v

end Spec

theorem mem_parts (r : Grid.Raster K Num) (p : Part K Num) :
    p ∈ (getChunkRasters r).flatten.flatten ↔ ∃ kb ky kx, chunkRasterAt r kb ky kx = some p := by
  unfold chunkRasterAt
  simp only [List.mem_flatten, Option.bind_eq_some_iff]
  constructor
  · rintro ⟨l, ⟨l', h1, h2⟩, h3⟩
    obtain ⟨kb, hb⟩ := List.mem_iff_getElem?.1 h1
    obtain ⟨ky, hy⟩ := List.mem_iff_getElem?.1 h2
    obtain ⟨kx, hx⟩ := List.mem_iff_getElem?.1 h3
    exact ⟨kb, ky, kx, l', hb, l, hy, hx⟩
  · rintro ⟨kb, ky, kx, l', hb, l, hy, hx⟩
    exact ⟨l, ⟨l', List.mem_iff_getElem?.2 ⟨kb, hb⟩, List.mem_iff_getElem?.2 ⟨ky, hy⟩⟩, List.mem_iff_getElem?.2 ⟨kx, hx⟩⟩

/-- A cell of a chunk is drawn where the cell of the raster is. -/
theorem partAffine_cell (r : Grid.Raster K Num) (hb : r.affine.b = 0) (hd : r.affine.d = 0) (sb sy sx : Nat × Nat)
    (x y : K) (i j : Nat) :
    Grid.Spec.InCell (partAffine r (r.isel sb sy sx)) (x, y) i j ↔
      Grid.Spec.InCell r.affine (x, y) (sy.1 + i : Nat) (sx.1 + j : Nat) := by
  unfold Grid.Spec.InCell partAffine Raster.isel Raster.x Raster.y
  simp only [hb, hd]
  have e1 : ∀ u : K, r.affine.a * (((j : Int) : K) + u) + 0 * (((i : Int) : K) + u) +
      (r.affine.a * (((sx.1 + 0 : Nat) : K) + 1 / 2) + r.affine.c - r.affine.a / 2) =
      r.affine.a * ((((sx.1 + j : Nat) : Int) : K) + u) + r.affine.c := by
    intro u; push_cast; ring
  have e2 : ∀ v : K, r.affine.e * (((i : Int) : K) + v) +
      (r.affine.e * (((sy.1 + 0 : Nat) : K) + 1 / 2) + r.affine.f - r.affine.e / 2) =
      r.affine.e * ((((sy.1 + i : Nat) : Int) : K) + v) + r.affine.f := by
    intro v; push_cast; ring
  constructor
  · rintro ⟨u, v, h1, h2, h3, h4, h5, h6⟩
    refine ⟨u, v, h1, h2, h3, h4, ?_, ?_⟩
    · have := e1 u
      simp only [zero_mul, add_zero] at this h5 ⊢
      rw [h5, this]
    · have := e2 v
      simp only [zero_mul, add_zero, zero_add] at this h6 ⊢
      rw [h6, this]
  · rintro ⟨u, v, h1, h2, h3, h4, h5, h6⟩
    refine ⟨u, v, h1, h2, h3, h4, ?_, ?_⟩
    · have := e1 u
      simp only [zero_mul, add_zero] at this h5 ⊢
      rw [h5, this]
    · have := e2 v
      simp only [zero_mul, add_zero, zero_add] at this h6 ⊢
      rw [h6, this]

/-- Conversion to the working type and back keeps exact values. -/
theorem working_exact {np : NumPy} (hnp : Nulls.Spec.Lossless np) {dt : DType} {v : Num} (h : Spec.Exact dt v) :
    workingDtype dt ≠ dt → np.cast (workingDtype dt) v = v ∧ np.cast dt v = v := by
  intro hne
  obtain ⟨h0, h1, h2, h3⟩ := h
  have self : ∀ d : DType, Nulls.Spec.ValueOf d v → np.cast d v = v := by
    intro d hv
    by_cases hl : Nulls.Spec.Lossy d d
    · exfalso
      obtain ⟨h | h, hf⟩ := hl <;> rw [h] at hf <;> cases hf
    · exact hnp d d v (by cases d <;> rfl) hl hv
  have low : ∀ d d' : DType, d.canCast d' = true → ¬ Nulls.Spec.Lossy d d' → Nulls.Spec.ValueOf d v → np.cast d' v = v :=
    fun d d' hc hl hv => hnp d d' v hc hl hv
  refine ⟨?_, self dt h1⟩
  cases dt with
  | bool => exact low .bool u8 rfl (by simp [Nulls.Spec.Lossy]) h1
  | i8 => exact low i8 i16 rfl (by simp [Nulls.Spec.Lossy]) h1
  | f16 => exact low f16 f32 rfl (by simp [Nulls.Spec.Lossy]) h1
  | i64 => exact self i32 (h2 (by decide))
  | u32 => exact self i32 (h2 (by decide))
  | u64 => exact self i32 (h2 (by decide))
  | f64 => exact self f32 (h3 rfl)
  | f128 => exact absurd rfl h0
  | _ => exact absurd rfl hne

section band

variable {np : NumPy} {shapes : Shapes} {dt : DType} {r : Grid.Raster K Num}

/-- The polygons of the chunks before they are joined. -/
def raw (np : NumPy) (shapes : Shapes) (dt : DType) (r : Grid.Raster K Num) (nbh : Int) (iband : Nat) : List (Poly K) :=
  ((getChunkRasters (bandOf r iband)).flatten.flatten).flatMap fun p =>
    shapesOf np shapes dt nbh (partAffine (bandOf r iband) p) (iband + 1) p

theorem part_of {r : Grid.Raster K Num} {iband : Nat} {p : Part K Num}
    (h : p ∈ (getChunkRasters (bandOf r iband)).flatten.flatten) :
    ∃ (sb sy sx : Nat × Nat) (ky kx : Nat), (chunksToArrayLocations r.ychunks)[ky]? = some sy ∧
      (chunksToArrayLocations r.xchunks)[kx]? = some sx ∧ p = (bandOf r iband).isel sb sy sx := by
  rw [mem_parts] at h
  obtain ⟨kb, ky, kx, h⟩ := h
  rw [chunkRasterAt_eq] at h
  simp only [Option.bind_eq_some_iff, Option.map_eq_some_iff] at h
  obtain ⟨sb, -, sy, hy, sx, hx, rfl⟩ := h
  exact ⟨sb, sy, sx, ky, kx, hy, hx, rfl⟩

theorem raw_sound (hnp : Nulls.Spec.Lossless np) (hs : Spec.Law shapes) (hb : r.affine.b = 0) (hd : r.affine.d = 0)
    {iband : Nat} (hex : ∀ i < r.ny, ∀ j < r.nx, r.mask iband i j = false → Spec.Exact dt (r.data iband i j)) {nbh : Int}
    {q : Poly K} (hq : q ∈ raw np shapes dt r nbh iband) :
    q.band = iband + 1 ∧ q.geometry ≠ [] ∧ ∀ g ∈ q.geometry, ∃ i j : Nat, i < r.ny ∧ j < r.nx ∧ r.mask iband i j = false ∧
      r.data iband i j = q.value ∧
      ∀ x y, Grid.Spec.InCell g.1 (x, y) g.2.1 g.2.2 ↔ Grid.Spec.InCell r.affine (x, y) i j := by
  unfold raw at hq
  obtain ⟨p, hp, hq⟩ := List.mem_flatMap.1 hq
  obtain ⟨sb, sy, sx, ky, kx, hy, hx, rfl⟩ := part_of hp
  unfold shapesOf at hq
  obtain ⟨s, hs', rfl⟩ := List.mem_map.1 hq
  obtain ⟨hne, hc⟩ := hs.sound _ _ _ _ _ s hs'
  refine ⟨rfl, by simpa using hne, fun g hg => ?_⟩
  obtain ⟨c, hcm, rfl⟩ := List.mem_map.1 hg
  obtain ⟨c1, c2, c3, c4⟩ := hc c hcm
  simp only [Raster.isel] at c1 c2
  have hmask : r.mask iband (sy.1 + c.1) (sx.1 + c.2) = false := by
    simpa [Raster.isel, bandOf] using c3
  have ly : sy.1 + c.1 < r.ny := (C21_axis_partition r.ychunks (sy.1 + c.1)).2.1 ky sy hy (by omega) (by omega)
  have lx : sx.1 + c.2 < r.nx := (C21_axis_partition r.xchunks (sx.1 + c.2)).2.1 kx sx hx (by omega) (by omega)
  refine ⟨sy.1 + c.1, sx.1 + c.2, ly, lx, hmask, ?_, fun x y => ?_⟩
  · have he := working_exact hnp (hex _ ly _ lx hmask)
    have hm0 : ((bandOf r iband).isel sb sy sx).mask 0 c.1 c.2 = false := by
      simpa [Raster.isel, bandOf] using c3
    have hd0 : ((bandOf r iband).isel sb sy sx).data 0 c.1 c.2 = r.data iband (sy.1 + c.1) (sx.1 + c.2) := rfl
    simp only [← c4, workingData, hm0, hd0]
    by_cases hw : workingDtype dt ≠ dt
    · obtain ⟨e1, e2⟩ := he hw
      rw [if_pos hw, if_pos hw, if_neg (by simp), e1, e2]
    · rw [if_neg hw, if_neg hw]
  · exact partAffine_cell (bandOf r iband) hb hd sb sy sx x y c.1 c.2

theorem raw_complete (hnp : Nulls.Spec.Lossless np) (hs : Spec.Law shapes) (hb : r.affine.b = 0) (hd : r.affine.d = 0)
    {iband : Nat} (hex : ∀ i < r.ny, ∀ j < r.nx, r.mask iband i j = false → Spec.Exact dt (r.data iband i j)) {nbh : Int}
    (hnbh : nbh = 4 ∨ nbh = 8) {i j : Nat} (hi : i < r.ny) (hj : j < r.nx) (hm : r.mask iband i j = false)
    (hn : r.data iband i j ≠ .nan) :
    ∃ q ∈ raw np shapes dt r nbh iband, q.value = r.data iband i j ∧ ∃ g ∈ q.geometry,
      ∀ x y, Grid.Spec.InCell g.1 (x, y) g.2.1 g.2.2 ↔ Grid.Spec.InCell r.affine (x, y) i j := by
  obtain ⟨ky, sy, hy, y1, y2⟩ := (C21_axis_partition r.ychunks i).1 hi
  obtain ⟨kx, sx, hx, x1, x2⟩ := (C21_axis_partition r.xchunks j).1 hj
  have hp : (bandOf r iband).isel (0, 1) sy sx ∈ (getChunkRasters (bandOf r iband)).flatten.flatten := by
    rw [mem_parts]
    refine ⟨0, ky, kx, ?_⟩
    rw [chunkRasterAt_eq]
    have : (chunksToArrayLocations (bandOf r iband).bchunks)[0]? = some (0, 1) := rfl
    rw [this]
    have hy' : (chunksToArrayLocations (bandOf r iband).ychunks)[ky]? = some sy := hy
    have hx' : (chunksToArrayLocations (bandOf r iband).xchunks)[kx]? = some sx := hx
    simp only [Option.bind_some, hy', hx', Option.map_some]
  set p := (bandOf r iband).isel (0, 1) sy sx with hpdef
  have ei : sy.1 + (i - sy.1) = i := by omega
  have ej : sx.1 + (j - sx.1) = j := by omega
  have hm0 : p.mask 0 (i - sy.1) (j - sx.1) = false := by
    show r.mask iband (sy.1 + (i - sy.1)) (sx.1 + (j - sx.1)) = false
    rw [ei, ej]; exact hm
  have hd0 : p.data 0 (i - sy.1) (j - sx.1) = r.data iband i j := by
    show r.data iband (sy.1 + (i - sy.1)) (sx.1 + (j - sx.1)) = _
    rw [ei, ej]
  have he := working_exact hnp (hex i hi j hj hm)
  have hw : workingData np dt p (i - sy.1) (j - sx.1) = r.data iband i j := by
    unfold workingData
    simp only [hm0, hd0]
    by_cases hw : workingDtype dt ≠ dt
    · rw [if_pos hw, if_neg (by simp), (he hw).1]
    · rw [if_neg hw]
  obtain ⟨s, hs', hc⟩ := hs.complete p.ny p.nx (workingData np dt p) (fun i j => !p.mask 0 i j) nbh hnbh
    (i - sy.1) (by show i - sy.1 < sy.2 - sy.1; omega) (j - sx.1) (by show j - sx.1 < sx.2 - sx.1; omega)
    (by simp only [hm0]; rfl) (by rw [hw]; exact hn)
  have hval := ((hs.sound _ _ _ _ _ s hs').2 _ hc).2.2.2
  simp only at hval
  rw [hw] at hval
  refine ⟨_, List.mem_flatMap.2 ⟨p, hp, List.mem_map.2 ⟨s, hs', rfl⟩⟩, ?_, _, List.mem_map.2 ⟨_, hc, rfl⟩, fun x y => ?_⟩
  · simp only [← hval]
    by_cases hw : workingDtype dt ≠ dt
    · rw [if_pos hw, (he hw).2]
    · rw [if_neg hw]
  · have := partAffine_cell (bandOf r iband) hb hd (0, 1) sy sx x y (i - sy.1) (j - sx.1)
    rw [ei, ej] at this
    exact this

theorem mem_dissolve (ps : List (Poly K)) (row : Poly K) (h : row ∈ dissolve ps) :
    row.value ≠ .nan ∧ (∃ q ∈ ps, q.value = row.value ∧ q.band = row.band) ∧
      ∀ g, g ∈ row.geometry ↔ ∃ q ∈ ps, q.value = row.value ∧ g ∈ q.geometry := by
  unfold dissolve at h
  obtain ⟨v, hv, rfl⟩ := List.mem_map.1 h
  rw [List.mem_dedup, List.mem_filter, List.mem_map] at hv
  obtain ⟨⟨q, hq, rfl⟩, hn⟩ := hv
  refine ⟨?_, ?_, fun g => ?_⟩
  · simp only
    intro e
    rw [e] at hn
    cases hn
  · simp only
    have hne : q ∈ ps.filter fun p => p.value = q.value := List.mem_filter.2 ⟨hq, by simp⟩
    cases hf : ps.filter fun p => p.value = q.value with
    | nil => rw [hf] at hne; cases hne
    | cons q' l =>
      have hq' : q' ∈ ps.filter fun p => p.value = q.value := by rw [hf]; exact List.mem_cons_self
      obtain ⟨m1, m2⟩ := List.mem_filter.1 hq'
      exact ⟨q', m1, by simpa using m2, rfl⟩
  · simp only [List.mem_flatMap, List.mem_filter, decide_eq_true_eq, and_assoc]

theorem dissolve_values (ps : List (Poly K)) : ((dissolve ps).map (·.value)).Nodup := by
  unfold dissolve
  rw [List.map_map]
  have : ((fun p : Poly K => p.value) ∘ fun v =>
      (⟨v, ((ps.filter fun p => p.value = v).head?.map (·.band)).getD 0, (ps.filter fun p => p.value = v).flatMap (·.geometry)⟩ : Poly K)) =
      id := rfl
  rw [this, List.map_id]
  exact List.nodup_dedup _

theorem dissolve_complete (ps : List (Poly K)) {q : Poly K} (hq : q ∈ ps) (hn : q.value ≠ .nan) :
    ∃ row ∈ dissolve ps, row.value = q.value := by
  unfold dissolve
  refine ⟨_, List.mem_map.2 ⟨q.value, ?_, rfl⟩, rfl⟩
  rw [List.mem_dedup, List.mem_filter]
  refine ⟨List.mem_map_of_mem hq, ?_⟩
  revert hn
  cases q.value <;> simp [Num.isnan]

end band

/-- **C67 in part.** If rasterio can work with the values, there is exactly one row for every band and every value other than NaN
of a cell that is not null, and its polygons cover exactly the cells of that band that are not null and have the value, whatever
the chunks and the neighbours.  Missing: values that do not fit, see below. -/
theorem C67_polygons_partial {np : NumPy} (hnp : Nulls.Spec.Lossless np) {shapes : Shapes} (hs : Spec.Law shapes) {dt : DType}
    {r : Grid.Raster K Num} (hb : r.affine.b = 0) (hd : r.affine.d = 0)
    (hex : ∀ b < r.nb, ∀ i < r.ny, ∀ j < r.nx, r.mask b i j = false → Spec.Exact dt (r.data b i j)) {nbh : Int}
    {rows : List (Poly K)} (h : toPolygons np shapes dt r nbh = .ok rows) :
    (rows.map fun p => (p.band, p.value)).Nodup ∧
    (∀ p ∈ rows, ∃ b < r.nb, p.band = b + 1 ∧ p.value ≠ .nan ∧
      (∃ i < r.ny, ∃ j < r.nx, r.mask b i j = false ∧ r.data b i j = p.value) ∧
      ∀ x y, Spec.Covers p x y ↔ Spec.HasValueAt r b p.value x y) ∧
    ∀ b < r.nb, ∀ i < r.ny, ∀ j < r.nx, r.mask b i j = false → r.data b i j ≠ .nan →
      ∃ p ∈ rows, p.band = b + 1 ∧ p.value = r.data b i j := by
  unfold toPolygons at h
  split at h
  · cases h
  next hn =>
  have hnbh : nbh = 4 ∨ nbh = 8 := by
    by_contra hc
    exact hn ⟨fun e => hc (.inl e), fun e => hc (.inr e)⟩
  cases h
  have hband : ∀ b < r.nb, ∀ p ∈ bandPolygons np shapes dt r nbh b, p.band = b + 1 := by
    intro b hbn p hp
    obtain ⟨-, ⟨q, hq, -, e⟩, -⟩ := mem_dissolve _ _ hp
    rw [← e]
    exact (raw_sound hnp hs hb hd (hex b hbn) hq).1
  refine ⟨?_, ?_, ?_⟩
  · rw [List.map_flatMap, List.nodup_flatMap]
    constructor
    · intro b hb'
      have := dissolve_values (raw np shapes dt r nbh b)
      refine List.Nodup.of_map (·.2) ?_
      rw [List.map_map]
      exact this
    · refine (List.nodup_range (n := r.nb)).imp_of_mem ?_
      intro b b' h1 h2 hne
      show List.Disjoint _ _
      intro z hz hz'
      obtain ⟨p, hp, rfl⟩ := List.mem_map.1 hz
      obtain ⟨p', hp', e⟩ := List.mem_map.1 hz'
      have e1 := hband b (List.mem_range.1 h1) p hp
      have e2 := hband b' (List.mem_range.1 h2) p' hp'
      simp only [Prod.mk.injEq] at e
      omega
  · intro p hp
    obtain ⟨b, hbn, hp⟩ := List.mem_flatMap.1 hp
    rw [List.mem_range] at hbn
    obtain ⟨v1, ⟨q, hq, v2, -⟩, v3⟩ := mem_dissolve _ _ hp
    refine ⟨b, hbn, hband b hbn p hp, v1, ?_, fun x y => ⟨?_, ?_⟩⟩
    · obtain ⟨-, hne, hg⟩ := raw_sound hnp hs hb hd (hex b hbn) hq
      obtain ⟨g, hgm⟩ := List.exists_mem_of_ne_nil _ hne
      obtain ⟨i, j, hi, hj, hm, hv, -⟩ := hg g hgm
      exact ⟨i, hi, j, hj, hm, hv.trans v2⟩
    · rintro ⟨g, hg, hc⟩
      obtain ⟨q, hq, e, hg⟩ := (v3 g).1 hg
      obtain ⟨i, j, hi, hj, hm, hv, hiff⟩ := (raw_sound hnp hs hb hd (hex b hbn) hq).2.2 g hg
      exact ⟨i, j, hi, hj, (hiff x y).1 hc, hm, hv.trans e⟩
    · rintro ⟨i, j, hi, hj, hc, hm, hv⟩
      obtain ⟨q, hq, e, g, hg, hiff⟩ := raw_complete hnp hs hb hd (hex b hbn) hnbh hi hj hm (by rw [hv]; exact v1)
      exact ⟨g, (v3 g).2 ⟨q, hq, e.trans hv, hg⟩, (hiff x y).2 hc⟩
  · intro b hbn i hi j hj hm hnn
    obtain ⟨q, hq, e, -⟩ := raw_complete hnp hs hb hd (hex b hbn) hnbh hi hj hm hnn
    obtain ⟨row, hrow, e'⟩ := dissolve_complete _ hq (by rw [e]; exact hnn)
    exact ⟨row, List.mem_flatMap.2 ⟨b, List.mem_range.2 hbn, hrow⟩, hband b hbn row hrow, e'.trans e⟩

/-- **C67 (the neighbours and the chunks do not matter).** Two results for the same cells, with any neighbours and chunks, have the
same rows, up to their order, and the same region in each row. -/
theorem C67_independent {np : NumPy} (hnp : Nulls.Spec.Lossless np) {shapes : Shapes} (hs : Spec.Law shapes) {dt : DType}
    {r r' : Grid.Raster K Num} (hb : r.affine.b = 0) (hd : r.affine.d = 0)
    (hex : ∀ b < r.nb, ∀ i < r.ny, ∀ j < r.nx, r.mask b i j = false → Spec.Exact dt (r.data b i j))
    (hsize : (r'.nb, r'.ny, r'.nx) = (r.nb, r.ny, r.nx)) (haff : r'.affine = r.affine)
    (hdata : r'.data = r.data) (hmask : r'.mask = r.mask) {nbh nbh' : Int} {rows rows' : List (Poly K)}
    (h : toPolygons np shapes dt r nbh = .ok rows) (h' : toPolygons np shapes dt r' nbh' = .ok rows') {p : Poly K}
    (hp : p ∈ rows) : ∃ p' ∈ rows', p'.band = p.band ∧ p'.value = p.value ∧ ∀ x y, Spec.Covers p' x y ↔ Spec.Covers p x y := by
  simp only [Prod.mk.injEq] at hsize
  obtain ⟨s1, s2, s3⟩ := hsize
  obtain ⟨-, q2, q3⟩ := C67_polygons_partial hnp hs (r := r) hb hd hex h
  obtain ⟨-, t2, t3⟩ := C67_polygons_partial hnp hs (r := r') (by rw [haff]; exact hb) (by rw [haff]; exact hd)
    (by rw [s1, s2, s3, hdata, hmask]; exact hex) h'
  rw [s1, s2, s3, hdata, hmask] at t3
  obtain ⟨b, hbn, e1, e2, ⟨i, hi, j, hj, hm, hv⟩, hc⟩ := q2 p hp
  obtain ⟨p', hp', f1, f2⟩ := t3 b hbn i hi j hj hm (by rw [hv]; exact e2)
  refine ⟨p', hp', f1.trans e1.symm, f2.trans hv, fun x y => ?_⟩
  obtain ⟨b', -, g1, -, -, hc'⟩ := t2 p' hp'
  have : b' = b := by omega
  subst this
  rw [hc, hc', f2, hv]
  unfold Spec.HasValueAt
  rw [s2, s3, hdata, hmask, haff]

/-- **C67 (arguments).** 4 and 8 neighbours are accepted and nothing else. -/
theorem C67_accepted (np : NumPy) (shapes : Shapes) (dt : DType) (r : Grid.Raster K Num) (nbh : Int) :
    (∃ rows, toPolygons np shapes dt r nbh = .ok rows) ↔ nbh = 4 ∨ nbh = 8 := by
  unfold toPolygons
  split
  · next h => simp [h.1, h.2]
  · next h =>
    simp only [Except.ok.injEq, exists_eq', true_iff]
    by_contra hc
    exact h ⟨fun e => hc (.inl e), fun e => hc (.inr e)⟩

/-- **C67**, the error: any other number of neighbours is a value error. -/
theorem C67_errors (np : NumPy) (shapes : Shapes) (dt : DType) (r : Grid.Raster K Num) (nbh : Int)
    (h : nbh ≠ 4 ∧ nbh ≠ 8) : toPolygons np shapes dt r nbh = .error .value := by
  unfold toPolygons
  rw [if_pos h]

example : (6 : Int) ≠ 4 ∧ (6 : Int) ≠ 8 := by decide

/-! ### Examples and counterexamples -/

/-- Every cell its own group, as `shapes` could do. -/
def single : Shapes := fun ny nx f use _ =>
  ((List.range ny).flatMap fun i => (List.range nx).map fun j => (i, j)).filterMap fun c =>
    if use c.1 c.2 then some ([c], f c.1 c.2) else none

theorem single_law : Spec.Law single := by
  constructor
  · intro ny nx f use nbh s hs
    unfold single at hs
    obtain ⟨c, hc, e⟩ := List.mem_filterMap.1 hs
    split at e
    · next hu =>
      cases e
      simp only [List.mem_flatMap, List.mem_map, List.mem_range] at hc
      obtain ⟨i, hi, j, hj, rfl⟩ := hc
      refine ⟨by simp, fun c hc => ?_⟩
      simp only [List.mem_singleton] at hc
      subst hc
      exact ⟨hi, hj, hu, rfl⟩
    · cases e
  · intro ny nx f use nbh _ i hi j hj hu _
    refine ⟨([(i, j)], f i j), List.mem_filterMap.2 ⟨(i, j), ?_, by simp [hu]⟩, by simp⟩
    simp only [List.mem_flatMap, List.mem_map, List.mem_range]
    exact ⟨i, hi, j, hj, rfl⟩

/-- One band, one row in two chunks, the third cell null. -/
def sample (dt : List Num) : Grid.Raster ℚ Num :=
  ⟨[1], [1], [2, 2], ⟨1, 0, 0, 0, -1, 1⟩, false, fun _ _ x => (dt[x]?).getD (.fin 0), fun _ _ x => decide (x = 2)⟩

/-- Values and numbers of cells of the result. -/
def summary (e : Except Err (List (Poly ℚ))) : List (Num × Nat × List (Nat × Nat)) :=
  match e with
  | .ok l => l.map fun p => (p.value, p.band, p.geometry.map (·.2))
  | .error _ => []

example : summary (toPolygons (idNumPy false) single u8 (sample [.fin 1, .fin 2, .fin 9, .fin 1]) 4) =
    [(.fin 2, 1, [(0, 1)]), (.fin 1, 1, [(0, 0), (0, 1)])] := by decide +kernel

example : Spec.Exact u8 (.fin 7) :=
  ⟨by decide, .inl ⟨7, rfl, 0, 255, by decide, by decide, by decide⟩, fun h => by simp at h, fun h => by cases h⟩

theorem exact_u8 (n : Nat) (h : n ≤ 255) : Spec.Exact u8 (.fin n) :=
  ⟨by decide, .inl ⟨n, by simp, 0, 255, by decide, by omega, by omega⟩, fun h => by simp at h, fun h => by cases h⟩

/-- The hypotheses of the theorems hold for the first example. -/
example : ∀ b < (sample [.fin 1, .fin 2, .fin 9, .fin 1]).nb, ∀ i < (sample [.fin 1, .fin 2, .fin 9, .fin 1]).ny,
    ∀ j < (sample [.fin 1, .fin 2, .fin 9, .fin 1]).nx, (sample [.fin 1, .fin 2, .fin 9, .fin 1]).mask b i j = false →
    Spec.Exact u8 ((sample [.fin 1, .fin 2, .fin 9, .fin 1]).data b i j) := by
  intro b _ i _ j hj _
  have hj : j < 4 := hj
  interval_cases j
  · exact exact_u8 1 (by omega)
  · exact exact_u8 2 (by omega)
  · exact exact_u8 9 (by omega)
  · exact exact_u8 1 (by omega)

example : Nulls.Spec.Lossless (idNumPy false) := fun _ _ _ _ _ _ => rfl

/-- NumPy's conversion of integers to int32: modulo 2^32. -/
def wrapNumPy : NumPy := ⟨false, fun dt v => match dt, v with
  | .i32, .fin q => .fin (((q.num + 2 ^ 31) % 2 ^ 32 - 2 ^ 31 : Int))
  | _, v => v⟩

/-- **C67 is false for large integers**: values that do not fit into int32 are reported as others; here 0 and 2^32 become one row. -/
theorem C67_large_integers : summary (toPolygons wrapNumPy single i64 (sample [.fin 0, .fin (2 ^ 32), .fin 9, .fin (2 ^ 32 + 5)]) 4) =
    [(.fin 0, 1, [(0, 0), (0, 1)]), (.fin 5, 1, [(0, 1)])] := by decide +kernel

/-- NumPy's conversion to single precision, for one number that needs rounding. -/
def roundNumPy : NumPy := ⟨false, fun dt v => if dt = f32 ∧ v = .fin (2 ^ 24 + 1) then .fin (2 ^ 24) else v⟩

/-- **C67 is false for doubles**: they are rounded to single precision, so that different values become one row. -/
theorem C67_doubles : summary (toPolygons roundNumPy single f64 (sample [.fin (2 ^ 24), .fin (2 ^ 24 + 1), .fin 9, .fin 3]) 4) =
    [(.fin (2 ^ 24), 1, [(0, 0), (0, 1)]), (.fin 3, 1, [(0, 1)])] := by decide +kernel

/-- **NaN that is not null is left out.** -/
theorem C67_nan : summary (toPolygons (idNumPy false) single f32 (sample [.nan, .fin 1, .fin 9, .nan]) 8) =
    [(.fin 1, 1, [(0, 1)])] := by decide +kernel

end Verif.Polygons
