import Verif.Blocks.Props
import Verif.Grid.BlockProps
set_option linter.unusedSectionVars false
/-!
# The block info of `geo_map_overlap` (C49)

The blocks that `geo_map_overlap` passes on have a margin; `_resolve_gbi_with_overlap_pad` makes the block info fit to
their size.
-/

namespace Verif.Blocks

open Verif Verif.Grid

variable {K : Type} [Field K] [LinearOrder K] [IsStrictOrderedRing K] [FloorRing K] {V : Type}

/-- `blocks.py:1585-1587`: `pad_y`, if there is anything to add. -/
def growRows (g : GeoBlockInfo K) (top bottom : Int) : Option (GeoBlockInfo K) :=
  if top ≠ 0 ∨ bottom ≠ 0 then g.padY top bottom else some g

/-- `blocks.py:1588-1589`: `pad_x`, if there is anything to add. -/
def growCols (g : GeoBlockInfo K) (left right : Int) : Option (GeoBlockInfo K) :=
  if left ≠ 0 ∨ right ≠ 0 then g.padX left right else some g

/-- `blocks.py:1571-1590` `_resolve_gbi_with_overlap_pad` for a block of `rows` by `cols` cells. -/
def resolveGbiWithOverlapPad (base : GeoBlockInfo K) (rows cols : Int) : Option (GeoBlockInfo K) :=
  let totDy := rows - base.shape.2.1
  let totDx := cols - base.shape.2.2
  match growRows base (totDy / 2) (totDy - totDy / 2) with
  | none => none
  | some g => growCols g (totDx / 2) (totDx - totDx / 2)

/-- The block info that the function gets for the block at `loc`: the chunks of `r` are the ones after
`_ensure_chunks_for_overlap` (`blocks.py:1144-1183`), the size of the block is what dask makes of it. -/
def overlapInfo (r : Grid.Raster K V) (absent : Bool) (d : Depth) (loc : Nat × Nat × Nat) : Option (GeoBlockInfo K) :=
  match geoBlockInfo r loc with
  | none => none
  | some base => resolveGbiWithOverlapPad base
      (high absent r.ny base.rowSlice.1.toNat base.geobox.ny.toNat d.y.after - low absent base.rowSlice.1.toNat d.y.before)
      (high absent r.nx base.colSlice.1.toNat base.geobox.nx.toNat d.x.after - low absent base.colSlice.1.toNat d.x.before)

namespace Spec

/-- Along one axis, a block with `before` and `after` more cells around the chunk from `start` to `stop`, of an array with
`n` cells; without a boundary there is nothing outside of the array. -/
def span (absent : Bool) (n : Nat) (start stop before after : Int) : Int × Int :=
  if absent then (max 0 (start - before), min n (stop + after)) else (start - before, stop + after)

end Spec

open Spec

theorem location_bounds {cs : List Nat} {k : Nat} {s : Nat × Nat} (h : (chunksToArrayLocations cs)[k]? = some s) :
    s.1 ≤ s.2 ∧ s.2 ≤ cs.sum := by
  rw [C21_locations] at h
  split at h
  · cases h
    exact ⟨sum_take_mono cs (by omega), sum_take_le cs _⟩
  · exact nomatch h

theorem growRows_some {g h : GeoBlockInfo K} {top bottom : Int} (hh : growRows g top bottom = some h) (hg : Aligned g) :
    h.rowSlice = (g.rowSlice.1 - top, g.rowSlice.2 + bottom) ∧ h.colSlice = g.colSlice ∧ Aligned h ∧ Same g h := by
  unfold growRows at hh
  split at hh
  · obtain ⟨h1, h2, h3, h4, _⟩ := (C35_resize g hg top bottom 0 0).2 h hh
    exact ⟨h1, by rw [h2]; simp, h3, h4⟩
  · next hz =>
    simp only [ne_eq, not_or, not_not] at hz
    cases hh
    refine ⟨by rw [hz.1, hz.2]; simp, rfl, hg, ⟨rfl, rfl, rfl, rfl⟩⟩

theorem growCols_some {g h : GeoBlockInfo K} {left right : Int} (hh : growCols g left right = some h) (hg : Aligned g) :
    h.colSlice = (g.colSlice.1 - left, g.colSlice.2 + right) ∧ h.rowSlice = g.rowSlice ∧ Aligned h ∧ Same g h := by
  unfold growCols at hh
  split at hh
  · obtain ⟨h1, h2, h3, h4, _⟩ := (C35_resize g hg 0 0 left right).2 h hh
    exact ⟨h2, by rw [h1]; simp, h3, h4⟩
  · next hz =>
    simp only [ne_eq, not_or, not_not] at hz
    cases hh
    refine ⟨by rw [hz.1, hz.2]; simp, rfl, hg, ⟨rfl, rfl, rfl, rfl⟩⟩

theorem grow_defined {g : GeoBlockInfo K} (hy : 0 ≤ g.geobox.ny) (hx : 0 ≤ g.geobox.nx) {a b : Int} (h : 0 ≤ a + b) :
    (∃ h, growRows g a b = some h ∧ h.geobox.nx = g.geobox.nx ∧ 0 ≤ h.geobox.ny) ∧ ∃ h, growCols g a b = some h := by
  constructor
  · unfold growRows
    split
    · unfold GeoBlockInfo.padY
      rw [resize_eq, if_neg (by omega)]
      exact ⟨_, rfl, by simp, by simp only; omega⟩
    · exact ⟨_, rfl, rfl, hy⟩
  · unfold growCols
    split
    · unfold GeoBlockInfo.padX
      rw [resize_eq, if_neg (by omega)]
      exact ⟨_, rfl⟩
    · exact ⟨_, rfl⟩

/-- The block info before it is checked against the margin. -/
theorem overlapInfo_spec (r : Grid.Raster K V) (absent : Bool) (d : Depth) (loc : Nat × Nat × Nat)
    {base : GeoBlockInfo K} (hb : geoBlockInfo r loc = some base) (hy : 0 ≤ d.y.before ∧ 0 ≤ d.y.after)
    (hx : 0 ≤ d.x.before ∧ 0 ≤ d.x.after) :
    ∃ g, overlapInfo r absent d loc = some g ∧ Aligned g ∧ Same base g ∧
      (let rows := span absent r.ny base.rowSlice.1 base.rowSlice.2 d.y.before d.y.after
       let more := (rows.2 - rows.1) - (base.rowSlice.2 - base.rowSlice.1)
       g.rowSlice = (base.rowSlice.1 - more / 2, base.rowSlice.2 + (more - more / 2))) ∧
      (let cols := span absent r.nx base.colSlice.1 base.colSlice.2 d.x.before d.x.after
       let more := (cols.2 - cols.1) - (base.colSlice.2 - base.colSlice.1)
       g.colSlice = (base.colSlice.1 - more / 2, base.colSlice.2 + (more - more / 2))) := by
  obtain ⟨kb, ky, kx⟩ := loc
  have hal := aligned_of_raster r kb ky kx hb
  have hpos : 0 ≤ base.rowSlice.1 ∧ base.rowSlice.1 ≤ base.rowSlice.2 ∧ base.rowSlice.2 ≤ r.ny ∧ 0 ≤ base.colSlice.1 ∧
      base.colSlice.1 ≤ base.colSlice.2 ∧ base.colSlice.2 ≤ r.nx := by
    unfold geoBlockInfo at hb
    simp only at hb
    split at hb
    · next sb sy sx e1 e2 e3 =>
      cases hb
      simp only [toSlice]
      have := location_bounds e2
      have := location_bounds e3
      unfold Raster.ny Raster.nx
      omega
    · exact nomatch hb
  obtain ⟨p1, p2, p3, p4, p5, p6⟩ := hpos
  have hny := hal.rows
  have hnx := hal.cols
  unfold overlapInfo
  rw [hb]
  simp only [resolveGbiWithOverlapPad, GeoBlockInfo.shape]
  have erows : high absent r.ny base.rowSlice.1.toNat base.geobox.ny.toNat d.y.after -
      low absent base.rowSlice.1.toNat d.y.before =
      (span absent r.ny base.rowSlice.1 base.rowSlice.2 d.y.before d.y.after).2 -
      (span absent r.ny base.rowSlice.1 base.rowSlice.2 d.y.before d.y.after).1 := by
    unfold high low span
    cases absent <;> simp only [if_true, if_false, Bool.false_eq_true] <;> omega
  have ecols : high absent r.nx base.colSlice.1.toNat base.geobox.nx.toNat d.x.after -
      low absent base.colSlice.1.toNat d.x.before =
      (span absent r.nx base.colSlice.1 base.colSlice.2 d.x.before d.x.after).2 -
      (span absent r.nx base.colSlice.1 base.colSlice.2 d.x.before d.x.after).1 := by
    unfold high low span
    cases absent <;> simp only [if_true, if_false, Bool.false_eq_true] <;> omega
  rw [erows, ecols, hny, hnx]
  have mr : 0 ≤ (span absent r.ny base.rowSlice.1 base.rowSlice.2 d.y.before d.y.after).2 -
      (span absent r.ny base.rowSlice.1 base.rowSlice.2 d.y.before d.y.after).1 - (base.rowSlice.2 - base.rowSlice.1) := by
    unfold span
    cases absent <;> simp only [if_true, if_false, Bool.false_eq_true] <;> omega
  have mc : 0 ≤ (span absent r.nx base.colSlice.1 base.colSlice.2 d.x.before d.x.after).2 -
      (span absent r.nx base.colSlice.1 base.colSlice.2 d.x.before d.x.after).1 - (base.colSlice.2 - base.colSlice.1) := by
    unfold span
    cases absent <;> simp only [if_true, if_false, Bool.false_eq_true] <;> omega
  generalize (span absent r.ny base.rowSlice.1 base.rowSlice.2 d.y.before d.y.after).2 -
      (span absent r.ny base.rowSlice.1 base.rowSlice.2 d.y.before d.y.after).1 - (base.rowSlice.2 - base.rowSlice.1) = m at *
  generalize (span absent r.nx base.colSlice.1 base.colSlice.2 d.x.before d.x.after).2 -
      (span absent r.nx base.colSlice.1 base.colSlice.2 d.x.before d.x.after).1 - (base.colSlice.2 - base.colSlice.1) = n at *
  obtain ⟨⟨g1, hg1, g1x, g1y⟩, _⟩ := grow_defined (g := base) (a := m / 2) (b := m - m / 2) (by omega) (by omega) (by omega)
  obtain ⟨r1, r2, r3, r4⟩ := growRows_some hg1 hal
  obtain ⟨_, ⟨g2, hg2⟩⟩ := grow_defined (g := g1) (a := n / 2) (b := n - n / 2) g1y (by omega) (by omega)
  obtain ⟨c1, c2, c3, c4⟩ := growCols_some hg2 r3
  rw [hg1]
  simp only
  refine ⟨g2, hg2, c3, ?_, by rw [c2, r1], by rw [c1, r2]⟩
  obtain ⟨s1, s2, s3, s4⟩ := r4
  obtain ⟨t1, t2, t3, t4⟩ := c4
  exact ⟨t1.trans s1, t2.trans s2, t3.trans s3, t4.trans s4⟩

/-- **C49**, in part: with the same depth on both sides of an axis, the block info of a block with a margin is the window
of exactly the cells of the block (and so gives each of them its coordinates), for every block if a boundary is put around
the raster and for the blocks away from the edges otherwise. -/
theorem C49_block_info_partial (r : Grid.Raster K V) (absent : Bool) (m n : Int) (hm : 0 ≤ m) (hn : 0 ≤ n)
    (loc : Nat × Nat × Nat) {base : GeoBlockInfo K} (hb : geoBlockInfo r loc = some base)
    (hin : absent = true → m ≤ base.rowSlice.1 ∧ base.rowSlice.2 + m ≤ r.ny ∧ n ≤ base.colSlice.1 ∧
      base.colSlice.2 + n ≤ r.nx) :
    ∃ g, overlapInfo r absent ⟨.same 0, .same m, .same n⟩ loc = some g ∧ Aligned g ∧ Same base g ∧
      g.rowSlice = span absent r.ny base.rowSlice.1 base.rowSlice.2 m m ∧
      g.colSlice = span absent r.nx base.colSlice.1 base.colSlice.2 n n := by
  obtain ⟨g, h1, h2, h3, h4, h5⟩ := overlapInfo_spec r absent ⟨.same 0, .same m, .same n⟩ loc hb ⟨hm, hm⟩ ⟨hn, hn⟩
  refine ⟨g, h1, h2, h3, ?_, ?_⟩
  · rw [h4]
    simp only [AxisDepth.before, AxisDepth.after]
    unfold span
    cases absent <;> simp only [if_true, if_false, Bool.false_eq_true] <;> rw [Prod.mk.injEq]
    · omega
    · have := hin rfl; omega
  · rw [h5]
    simp only [AxisDepth.before, AxisDepth.after]
    unfold span
    cases absent <;> simp only [if_true, if_false, Bool.false_eq_true] <;> rw [Prod.mk.injEq]
    · omega
    · have := hin rfl; omega

/-- **C49** (coordinates): the info is that of the block exactly if the cells added before the chunk are half of all the
cells added, rounded down. -/
theorem C49_exact_iff (r : Grid.Raster K V) (absent : Bool) (d : Depth) (loc : Nat × Nat × Nat) {base g : GeoBlockInfo K}
    (hb : geoBlockInfo r loc = some base) (hy : 0 ≤ d.y.before ∧ 0 ≤ d.y.after) (hx : 0 ≤ d.x.before ∧ 0 ≤ d.x.after)
    (hg : overlapInfo r absent d loc = some g) :
    (let rows := span absent r.ny base.rowSlice.1 base.rowSlice.2 d.y.before d.y.after
     g.rowSlice = rows ↔ base.rowSlice.1 - rows.1 = ((base.rowSlice.1 - rows.1) + (rows.2 - base.rowSlice.2)) / 2) ∧
    (let cols := span absent r.nx base.colSlice.1 base.colSlice.2 d.x.before d.x.after
     g.colSlice = cols ↔ base.colSlice.1 - cols.1 = ((base.colSlice.1 - cols.1) + (cols.2 - base.colSlice.2)) / 2) := by
  obtain ⟨g', h1, _, _, h4, h5⟩ := overlapInfo_spec r absent d loc hb hy hx
  rw [hg] at h1
  cases h1
  simp only at h4 h5 ⊢
  constructor
  · rw [h4]
    generalize span absent r.ny base.rowSlice.1 base.rowSlice.2 d.y.before d.y.after = s
    obtain ⟨a, b⟩ := s
    rw [Prod.mk.injEq]
    constructor <;> intro h <;> omega
  · rw [h5]
    generalize span absent r.nx base.colSlice.1 base.colSlice.2 d.x.before d.x.after = s
    obtain ⟨a, b⟩ := s
    rw [Prod.mk.injEq]
    constructor <;> intro h <;> omega

/-- Twelve rows in three chunks. -/
def rows12 : Grid.Raster ℚ Nat :=
  ⟨[1], [4, 4, 4], [3], ⟨1, 0, 0, 0, -1, 12⟩, false, fun _ _ _ => 0, fun _ _ _ => false⟩

/-- The hypotheses of C49 are met by the middle chunk without a boundary. -/
example : ∃ base, geoBlockInfo rows12 (0, 1, 0) = some base ∧ base.rowSlice = (4, 8) ∧ base.colSlice = (0, 3) ∧
    (∃ g, overlapInfo rows12 true ⟨.same 0, .same 2, .same 0⟩ (0, 1, 0) = some g ∧ g.rowSlice = (2, 10)) := by
  refine ⟨_, rfl, by decide +kernel, by decide +kernel, _, rfl, by decide +kernel⟩

/-- With two cells above the chunk and none below, the middle block of twelve rows holds the rows from 2 to 7, but its
info says 3 to 8 - though it is documented to be exact for blocks away from the edges (`blocks.py:1575-1578`). -/
theorem C49_asymmetric : ∃ g, overlapInfo rows12 true ⟨.same 0, .pair 2 0, .same 0⟩ (0, 1, 0) = some g ∧
    span true 12 4 8 2 0 = (2, 8) ∧ g.rowSlice = (3, 9) := by
  refine ⟨_, rfl, by decide +kernel, by decide +kernel⟩

/-- Without a boundary the first block, which has nothing above it, is also taken for one row further up. -/
theorem C49_first_block : ∃ g, overlapInfo rows12 true ⟨.same 0, .same 2, .same 0⟩ (0, 0, 0) = some g ∧
    span true 12 0 4 2 2 = (0, 6) ∧ g.rowSlice = (-1, 5) := by
  refine ⟨_, rfl, by decide +kernel, by decide +kernel⟩

end Verif.Blocks
