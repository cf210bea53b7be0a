import Verif.GeoBlocks.Model
set_option linter.unusedSectionVars false
/-!
# `geo_map_blocks` and `geo_map_overlap`: property theorems (C84)
-/

namespace Verif.GeoBlocks

open Verif Verif.Nulls Verif.Blocks Verif.Blocks.Spec

namespace Spec

/-- Where a cell is said to be: CRS, label along the bands, coordinates. -/
structure Place where
  crs : Nat
  band : Int
  x : Rat
  y : Rat
deriving DecidableEq

/-- The function computes a cell from the coordinates of the cell and from what is around it (in the same band), within
the depth. -/
def LocalAt (func : GeoCall → Out) (y x : Int × Int)
    (g : List (Option Scalar) → Option Scalar → Place → View → Num × Bool) : Prop :=
  ∀ (gc : GeoCall) (cell : Cell), cell.1 < gc.call.nb → cell.2.1 < gc.call.rows → cell.2.2 < gc.call.cols →
    ((func gc).data cell, (func gc).mask cell) =
      g gc.call.nullValues gc.call.outNull ⟨gc.crs, gc.band cell.1, gc.x cell.2.2, gc.y cell.2.1⟩ (blockView gc.call y x cell)

/-- The function computes a cell of any band from the coordinates and the cells of all the bands at its row and column. -/
def ColumnAt (func : GeoCall → Out)
    (g : List (Option Scalar) → Option Scalar → Nat → Nat × Rat × Rat → (Nat → Nat → Option (Num × Bool)) → Num × Bool) : Prop :=
  ∀ (gc : GeoCall) (cell : Cell), cell.1 < (func gc).nb → cell.2.1 < gc.call.rows → cell.2.2 < gc.call.cols →
    ((func gc).data cell, (func gc).mask cell) =
      g gc.call.nullValues gc.call.outNull cell.1 (gc.crs, gc.x cell.2.2, gc.y cell.2.1)
        (blockColumn gc.call cell.2.1 cell.2.2)

/-- The grid is not rotated. -/
def Straight (g : Boxes.GeoBox) : Prop := g.b = 0 ∧ g.d = 0

/-- The place of the centre of a cell; bands are labelled by their position, from 0. -/
def placeOf (g : Boxes.GeoBox) (c : Cell) : Place :=
  ⟨g.crs, c.1, (Boxes.Spec.centre g c.2.1 c.2.2).1, (Boxes.Spec.centre g c.2.1 c.2.2).2⟩

/-- The place that is some rows and columns further. -/
def placeFrom (g : Boxes.GeoBox) (c : Cell) (rows cols : Int) : Place :=
  ⟨g.crs, c.1, (Boxes.Spec.place g (c.2.2 + cols + 1 / 2) (c.2.1 + rows + 1 / 2)).1,
    (Boxes.Spec.place g (c.2.2 + cols + 1 / 2) (c.2.1 + rows + 1 / 2)).2⟩

/-- The chunk that holds a position, as first position and end. -/
def ChunkAt (cs : List Nat) (p : Nat) (s : Nat × Nat) : Prop :=
  (∃ k, k < cs.length ∧ s = ((cs.take k).sum, (cs.take (k + 1)).sum)) ∧ s.1 ≤ p ∧ p < s.2

/-- The number of cells that are there before a chunk, up to `m`. -/
def cellsBefore (absent : Bool) (start m : Int) : Int := if absent then min start m else m

/-- The number of cells that are there after a chunk, up to `m`. -/
def cellsAfter (absent : Bool) (n stop m : Int) : Int := if absent then min (n - stop) m else m

/-- How many cells the coordinates of a block are off. -/
def displaced (absent : Bool) (n : Nat) (s : Nat × Nat) (m : Int × Int) : Int :=
  cellsBefore absent s.1 m.1 - (cellsBefore absent s.1 m.1 + cellsAfter absent n s.2 m.2) / 2

/-- Depths for which it is known that the coordinates are right in every block: none at all, one cell after it, or the same
on both sides with something put around the raster. -/
def Even (b : Boundary) (m : Int × Int) : Prop := m = (0, 0) ∨ m = (0, 1) ∨ (m.1 = m.2 ∧ ¬NoBoundary b)

/-- The rasters are of one shape. -/
def OneShape (ins : List Input) : Prop :=
  ∀ a ∈ ins, ∀ b ∈ ins, (a.raster.nb, a.raster.ny, a.raster.nx) = (b.raster.nb, b.raster.ny, b.raster.nx)

end Spec

open Spec

/-! ### Chunks -/

theorem chunkIndex_of {p s n : Nat} : ∀ {cs : List Nat} {start : Nat}, Focal.chunkOf cs start p = some (s, n) →
    ∃ k, chunkIndex cs start p = some k ∧ (Grid.locationsFrom start cs)[k]? = some (s, s + n)
  | [], _, h => nomatch h
  | m :: cs, start, h => by
    unfold Focal.chunkOf at h
    unfold chunkIndex Grid.locationsFrom
    split at h
    · next hp =>
      cases h
      rw [if_pos hp]
      exact ⟨0, rfl, rfl⟩
    · next hp =>
      obtain ⟨k, h1, h2⟩ := chunkIndex_of h
      rw [if_neg hp, h1]
      exact ⟨k + 1, rfl, by simpa using h2⟩

theorem chunkAt_of {p s n : Nat} {cs : List Nat} (h : Focal.chunkOf cs 0 p = some (s, n)) (h1 : s ≤ p) (h2 : p < s + n) :
    ChunkAt cs p (s, s + n) := by
  obtain ⟨k, _, hk⟩ := chunkIndex_of h
  have := Grid.C21_locations cs k
  unfold Grid.chunksToArrayLocations at this
  rw [hk] at this
  split at this
  · next hlt => exact ⟨⟨k, hlt, Option.some.inj this⟩, h1, h2⟩
  · exact nomatch this

/-- The block info that is looked up is the one of the chunk of the cell. -/
theorem baseInfo_of (box : Boxes.GeoBox) {ch : Chunks} {cell : Cell} {b r c : Nat × Nat}
    (hb : Focal.chunkOf ch.bands 0 cell.1 = some b) (hr : Focal.chunkOf ch.rows 0 cell.2.1 = some r)
    (hc : Focal.chunkOf ch.cols 0 cell.2.2 = some c) :
    ∃ base loc, baseInfo box ch cell = some base ∧ Grid.geoBlockInfo (gridOf box ch) loc = some base ∧
      base.bandSlice = ((b.1 : Int), (b.1 : Int) + b.2) ∧ base.rowSlice = ((r.1 : Int), (r.1 : Int) + r.2) ∧
      base.colSlice = ((c.1 : Int), (c.1 : Int) + c.2) := by
  obtain ⟨kb, b1, b2⟩ := chunkIndex_of hb
  obtain ⟨ky, r1, r2⟩ := chunkIndex_of hr
  obtain ⟨kx, c1, c2⟩ := chunkIndex_of hc
  have e : ∃ base, Grid.geoBlockInfo (gridOf box ch) (kb, ky, kx) = some base ∧
      base.bandSlice = ((b.1 : Int), (b.1 : Int) + b.2) ∧ base.rowSlice = ((r.1 : Int), (r.1 : Int) + r.2) ∧
      base.colSlice = ((c.1 : Int), (c.1 : Int) + c.2) := by
    unfold Grid.geoBlockInfo Grid.chunksToArrayLocations
    simp only [gridOf, b2, r2, c2]
    exact ⟨_, rfl, by simp [Grid.toSlice], by simp [Grid.toSlice], by simp [Grid.toSlice]⟩
  obtain ⟨base, h1, h2⟩ := e
  refine ⟨base, _, ?_, h1, h2⟩
  unfold baseInfo
  rw [b1, r1, c1]
  exact h1

/-! ### Coordinates -/

/-- What a consistent window of a straight grid gives as coordinates. -/
theorem coords_of {g : Grid.GeoBlockInfo Rat} (hg : Grid.Spec.Aligned g) {box : Boxes.GeoBox} (hs : Straight box)
    (hp : g.parentAffine = ⟨box.a, box.b, box.c, box.d, box.e, box.f⟩) (i j : Nat) :
    g.x j = box.a * (j + g.colSlice.1 + 1 / 2) + box.c ∧ g.y i = box.e * (i + g.rowSlice.1 + 1 / 2) + box.f := by
  obtain ⟨hb, hd⟩ := hs
  have h := hg.coords
  rw [hp] at h
  simp only [Grid.Affine.apply, hb, hd, Prod.mk.injEq] at h
  have h00 := h 0 0
  have h10 := h 1 0
  have h01 := h 0 1
  have hij := h (j + 1 / 2) (i + 1 / 2)
  unfold Grid.GeoBlockInfo.x Grid.GeoBlockInfo.y
  constructor
  · have e : g.geobox.affine.b = 0 := by linarith [h00.1, h01.1]
    have := hij.1
    rw [e] at this
    linarith
  · have e : g.geobox.affine.d = 0 := by linarith [h00.2, h10.2]
    have := hij.2
    rw [e] at this
    linarith

/-- What is there along an axis, and the size of the window that the info gives. -/
theorem window (absent : Bool) (n start size : Nat) (hn : start + size ≤ n) {before after : Int} (h1 : 0 ≤ before) (h2 : 0 ≤ after) :
    low absent start before = start - cellsBefore absent start before ∧
    high absent n start size after = start + size + cellsAfter absent n (start + size) after ∧
    0 ≤ cellsBefore absent start before ∧ 0 ≤ cellsAfter absent n (start + size) after ∧
    Blocks.Spec.span absent n start (start + size) before after =
      (start - cellsBefore absent start before, start + size + cellsAfter absent n (start + size) after) := by
  unfold low high cellsBefore cellsAfter Blocks.Spec.span
  cases absent
  · simp only [if_false, Bool.false_eq_true]
    exact ⟨trivial, trivial, h1, h2, trivial⟩
  · simp only [if_true, Prod.mk.injEq]
    refine ⟨?_, ?_, ?_, ?_, ?_, ?_⟩ <;> omega

/-- The wrapper passes the block on with the coordinates of its cells, moved by as many cells as `displaced` says. -/
theorem wrapper_of (np : NumPy) (func : GeoCall → Out) (overlap absent : Bool) (d : Depth) (rs : List Raster)
    (pads : List (Pad Num × Pad Bool)) (outNull : Option Scalar) {box : Boxes.GeoBox} (hs : Straight box) {ch : Chunks}
    {cell : Cell} {b r c : Nat × Nat} (hy : 0 ≤ d.y.before ∧ 0 ≤ d.y.after) (hx : 0 ≤ d.x.before ∧ 0 ≤ d.x.after)
    (hno : overlap = false → d = ⟨.same 0, .same 0, .same 0⟩) {base : Grid.GeoBlockInfo Rat} {loc : Nat × Nat × Nat}
    (hl : Grid.geoBlockInfo (gridOf box ch) loc = some base)
    (sb : base.bandSlice = ((b.1 : Int), (b.1 : Int) + b.2)) (sr : base.rowSlice = ((r.1 : Int), (r.1 : Int) + r.2))
    (sc : base.colSlice = ((c.1 : Int), (c.1 : Int) + c.2)) (lr : r.1 + r.2 ≤ ch.rows.sum) (lc : c.1 + c.2 ≤ ch.cols.sum)
    (hb : b.1 ≤ cell.1) (hr : r.1 ≤ cell.2.1) (hc : c.1 ≤ cell.2.2) :
    ∃ gc, wrapper func overlap box.crs base (blockCall np absent d rs pads outNull ch.rows.sum ch.cols.sum b r c) = .ok (func gc) ∧
      gc.call = blockCall np absent d rs pads outNull ch.rows.sum ch.cols.sum b r c ∧
      (⟨gc.crs, gc.band (cell.1 - b.1), gc.x ((cell.2.2 : Int) - low absent c.1 d.x.before).toNat,
        gc.y ((cell.2.1 : Int) - low absent r.1 d.y.before).toNat⟩ : Place) =
        placeFrom box cell (displaced absent ch.rows.sum (r.1, r.1 + r.2) d.sides.1)
          (displaced absent ch.cols.sum (c.1, c.1 + c.2) d.sides.2) := by
  obtain ⟨wl, wh, wb, wa, ws⟩ := window absent ch.rows.sum r.1 r.2 lr hy.1 hy.2
  obtain ⟨vl, vh, vb, va, vs⟩ := window absent ch.cols.sum c.1 c.2 lc hx.1 hx.2
  have key : ∃ g, resolveInfo overlap base (blockCall np absent d rs pads outNull ch.rows.sum ch.cols.sum b r c) = some g ∧
      Grid.Spec.Aligned g ∧ Grid.Spec.Same base g ∧
      g.rowSlice.1 = r.1 - (cellsBefore absent r.1 d.y.before + cellsAfter absent ch.rows.sum (r.1 + r.2) d.y.after) / 2 ∧
      g.rowSlice.2 - g.rowSlice.1 =
        r.2 + (cellsBefore absent r.1 d.y.before + cellsAfter absent ch.rows.sum (r.1 + r.2) d.y.after) ∧
      g.colSlice.1 = c.1 - (cellsBefore absent c.1 d.x.before + cellsAfter absent ch.cols.sum (c.1 + c.2) d.x.after) / 2 ∧
      g.colSlice.2 - g.colSlice.1 =
        c.2 + (cellsBefore absent c.1 d.x.before + cellsAfter absent ch.cols.sum (c.1 + c.2) d.x.after) := by
    have hal : Grid.Spec.Aligned base := Grid.aligned_of_raster (gridOf box ch) loc.1 loc.2.1 loc.2.2 hl
    cases overlap with
    | false =>
      have hd := hno rfl
      refine ⟨base, rfl, hal, ⟨rfl, rfl, rfl, rfl⟩, ?_, ?_, ?_, ?_⟩ <;> rw [hd] <;>
        simp only [sr, sc, AxisDepth.before, AxisDepth.after] <;> unfold cellsBefore cellsAfter <;>
        cases absent <;> simp only [if_true, if_false, Bool.false_eq_true] <;> omega
    | true =>
      obtain ⟨g, h1, h2, h3, h4, h5⟩ := overlapInfo_spec (gridOf box ch) absent d loc hl hy hx
      have e : resolveInfo true base (blockCall np absent d rs pads outNull ch.rows.sum ch.cols.sum b r c) =
          overlapInfo (gridOf box ch) absent d loc := by
        unfold overlapInfo
        rw [hl]
        have n1 := hal.rows
        have n2 := hal.cols
        rw [sr] at n1
        rw [sc] at n2
        simp only at n1 n2
        have t1 : base.geobox.ny.toNat = r.2 := by omega
        have t2 : base.geobox.nx.toNat = c.2 := by omega
        simp only [resolveInfo, if_true, sr, sc, t1, t2, Int.toNat_natCast]
        congr 1
        · simp only [blockCall]
          show _ = high absent ch.rows.sum r.1 r.2 d.y.after - low absent r.1 d.y.before
          omega
        · simp only [blockCall]
          show _ = high absent ch.cols.sum c.1 c.2 d.x.after - low absent c.1 d.x.before
          omega
      rw [e]
      refine ⟨g, h1, h2, h3, ?_⟩
      have f1 : (gridOf box ch).ny = ch.rows.sum := rfl
      have f2 : (gridOf box ch).nx = ch.cols.sum := rfl
      rw [sr, f1] at h4
      rw [sc, f2] at h5
      simp only [ws] at h4
      simp only [vs] at h5
      rw [h4, h5]
      generalize cellsBefore absent r.1 d.y.before = k1 at *
      generalize cellsAfter absent ch.rows.sum (r.1 + r.2) d.y.after = k2 at *
      generalize cellsBefore absent c.1 d.x.before = k3 at *
      generalize cellsAfter absent ch.cols.sum (c.1 + c.2) d.x.after = k4 at *
      simp only
      refine ⟨?_, ?_, ?_, ?_⟩ <;> omega
  obtain ⟨g, hg, ha, hsame, g1, g2, g3, g4⟩ := key
  obtain ⟨s1, s2, s3, s4⟩ := hsame
  have hshape : (((blockCall np absent d rs pads outNull ch.rows.sum ch.cols.sum b r c).nb : Int),
      ((blockCall np absent d rs pads outNull ch.rows.sum ch.cols.sum b r c).rows : Int),
      ((blockCall np absent d rs pads outNull ch.rows.sum ch.cols.sum b r c).cols : Int)) = g.shape := by
    unfold Grid.GeoBlockInfo.shape
    rw [ha.rows, ha.cols, s1, sb, g2, g4]
    simp only [blockCall, wl, wh, vl, vh, Prod.mk.injEq]
    refine ⟨?_, ?_, ?_⟩ <;> omega
  have hpar : g.parentAffine = ⟨box.a, box.b, box.c, box.d, box.e, box.f⟩ := by
    rw [s3]
    obtain ⟨_, _, _, _, _, _, _, _, _, h⟩ := Grid.C21_block_info (gridOf box ch) loc.1 loc.2.1 loc.2.2 base hl
    exact h
  refine ⟨⟨blockCall np absent d rs pads outNull ch.rows.sum ch.cols.sum b r c, fun k => g.bandSlice.1 + k, g.y, g.x, box.crs,
    g⟩, ?_, rfl, ?_⟩
  · unfold wrapper
    rw [hg]
    simp only [toDataarray]
    rw [if_neg (not_not.mpr hshape)]
  · obtain ⟨cx, cy⟩ := coords_of ha hs hpar ((cell.2.1 : Int) - low absent r.1 d.y.before).toNat
      ((cell.2.2 : Int) - low absent c.1 d.x.before).toNat
    obtain ⟨h0, h0'⟩ := hs
    simp only [placeFrom, Place.mk.injEq, Boxes.Spec.place, h0, h0']
    refine ⟨trivial, ?_, ?_, ?_⟩
    · rw [s1, sb]; simp only; omega
    · rw [cx]
      have : ((((cell.2.2 : Int) - low absent c.1 d.x.before).toNat : Nat) : Int) + g.colSlice.1 =
          cell.2.2 + displaced absent ch.cols.sum (c.1, c.1 + c.2) d.sides.2 := by
        unfold displaced Depth.sides
        push_cast
        omega
      have q : (((((cell.2.2 : Int) - low absent c.1 d.x.before).toNat : Nat) : Rat)) + (g.colSlice.1 : Rat) =
          (cell.2.2 : Rat) + (displaced absent ch.cols.sum (c.1, c.1 + c.2) d.sides.2 : Rat) := by exact_mod_cast this
      rw [q]
      ring
    · rw [cy]
      have : ((((cell.2.1 : Int) - low absent r.1 d.y.before).toNat : Nat) : Int) + g.rowSlice.1 =
          cell.2.1 + displaced absent ch.rows.sum (r.1, r.1 + r.2) d.sides.1 := by
        unfold displaced Depth.sides
        push_cast
        omega
      have q : (((((cell.2.1 : Int) - low absent r.1 d.y.before).toNat : Nat) : Rat)) + (g.rowSlice.1 : Rat) =
          (cell.2.1 : Rat) + (displaced absent ch.rows.sum (r.1, r.1 + r.2) d.sides.1 : Rat) := by exact_mod_cast this
      rw [q]
      ring

theorem chunkOf_mem {p s n : Nat} : ∀ {cs : List Nat} {start : Nat}, start ≤ p → Focal.chunkOf cs start p = some (s, n) →
    s ≤ p ∧ p < s + n
  | [], _, _, h => nomatch h
  | m :: cs, start, hp, h => by
    unfold Focal.chunkOf at h
    split at h
    · next hlt => cases h; exact ⟨hp, hlt⟩
    · next hge => exact chunkOf_mem (by omega) h

/-- A cell of the result is what the function returns for its block. -/
theorem geoCell_of (np : NumPy) (func : GeoCall → Out) (overlap absent : Bool) (d : Depth) (rs : List Raster)
    (pads : List (Pad Num × Pad Bool)) (outNull : Option Scalar) {box : Boxes.GeoBox} (hs : Straight box) {ch : Chunks}
    {cell : Cell} {b r c : Nat × Nat} (hy : 0 ≤ d.y.before ∧ 0 ≤ d.y.after) (hx : 0 ≤ d.x.before ∧ 0 ≤ d.x.after)
    (hno : overlap = false → d = ⟨.same 0, .same 0, .same 0⟩) (e1 : Focal.chunkOf ch.bands 0 cell.1 = some b)
    (e2 : Focal.chunkOf ch.rows 0 cell.2.1 = some r) (e3 : Focal.chunkOf ch.cols 0 cell.2.2 = some c) :
    ∃ gc, geoCell np func overlap absent d rs pads outNull ch.rows.sum ch.cols.sum box ch cell =
        .ok ((func gc).data (cell.1 - b.1, ((cell.2.1 : Int) - low absent r.1 d.y.before).toNat,
            ((cell.2.2 : Int) - low absent c.1 d.x.before).toNat),
          (func gc).mask (cell.1 - b.1, ((cell.2.1 : Int) - low absent r.1 d.y.before).toNat,
            ((cell.2.2 : Int) - low absent c.1 d.x.before).toNat)) ∧
      gc.call = blockCall np absent d rs pads outNull ch.rows.sum ch.cols.sum b r c ∧
      (⟨gc.crs, gc.band (cell.1 - b.1), gc.x ((cell.2.2 : Int) - low absent c.1 d.x.before).toNat,
        gc.y ((cell.2.1 : Int) - low absent r.1 d.y.before).toNat⟩ : Place) =
        placeFrom box cell (displaced absent ch.rows.sum (r.1, r.1 + r.2) d.sides.1)
          (displaced absent ch.cols.sum (c.1, c.1 + c.2) d.sides.2) := by
  obtain ⟨base, loc, h1, h2, h3, h4, h5⟩ := baseInfo_of box e1 e2 e3
  have l2 := chunkOf_le e2
  have l3 := chunkOf_le e3
  have m1 := chunkOf_mem (Nat.zero_le _) e1
  have m2 := chunkOf_mem (Nat.zero_le _) e2
  have m3 := chunkOf_mem (Nat.zero_le _) e3
  obtain ⟨gc, g1, g2, g3⟩ := wrapper_of np func overlap absent d rs pads outNull hs (cell := cell) hy hx hno h2 h3 h4 h5
    (by omega) (by omega) m1.1 m2.1 m3.1
  refine ⟨gc, ?_, g2, g3⟩
  unfold geoCell
  rw [e1, e2, e3, h1]
  simp only
  rw [g1]

/-- A function that does not use the coordinates returns for a cell what it does in `map_overlap` or `map_blocks`. -/
theorem result_geoCell (np : NumPy) (func : Call → Out) (overlap absent : Bool) (d : Depth) (rs : List Raster)
    (pads : List (Pad Num × Pad Bool)) (outNull : Option Scalar) {box : Boxes.GeoBox} (hs : Straight box) {ch : Chunks}
    (cell : Cell) (hy : 0 ≤ d.y.before ∧ 0 ≤ d.y.after) (hx : 0 ≤ d.x.before ∧ 0 ≤ d.x.after)
    (hno : overlap = false → d = ⟨.same 0, .same 0, .same 0⟩) :
    result (geoCell np (fun gc => func gc.call) overlap absent d rs pads outNull ch.rows.sum ch.cols.sum box ch cell) =
      cellOut np func absent d rs pads outNull ch.rows.sum ch.cols.sum ch cell := by
  cases e1 : Focal.chunkOf ch.bands 0 cell.1 with
  | none => unfold geoCell cellOut; rw [e1]; rfl
  | some b =>
    cases e2 : Focal.chunkOf ch.rows 0 cell.2.1 with
    | none => unfold geoCell cellOut; rw [e1, e2]; rfl
    | some r =>
      cases e3 : Focal.chunkOf ch.cols 0 cell.2.2 with
      | none => unfold geoCell cellOut; rw [e1, e2, e3]; rfl
      | some c =>
        obtain ⟨gc, g1, g2, _⟩ := geoCell_of np (fun gc => func gc.call) overlap absent d rs pads outNull hs hy hx hno e1 e2 e3
        rw [g1, g2]
        unfold cellOut
        rw [e1, e2, e3]
        rfl

theorem mem_ndindex {nb ny nx : Nat} {c : Cell} : c ∈ Grid.ndindex nb ny nx ↔ c.1 < nb ∧ c.2.1 < ny ∧ c.2.2 < nx := by
  obtain ⟨a, b, c⟩ := c
  unfold Grid.ndindex
  simp only [List.mem_flatMap, List.mem_map, List.mem_range, Prod.mk.injEq]
  constructor
  · rintro ⟨i, hi, j, hj, k, hk, rfl, rfl, rfl⟩
    exact ⟨hi, hj, hk⟩
  · rintro ⟨h1, h2, h3⟩
    exact ⟨a, h1, b, h2, c, h3, rfl, rfl, rfl⟩

/-- Nothing is raised. -/
theorem gather_ok {outDtype : DType} {nb ny nx : Nat} {cells : Cell → Except Err (Num × Bool)} {nv : Option Scalar}
    {returnMask : Bool} (h : ∀ c : Cell, c.1 < nb → c.2.1 < ny → c.2.2 < nx → ∃ v, cells c = .ok v) :
    gather outDtype nb ny nx cells nv returnMask =
      .ok (assemble outDtype nb ny nx (fun c => result (cells c)) nv returnMask) := by
  unfold gather
  have : ((Grid.ndindex nb ny nx).findSome? fun c => failure (cells c)) = none := by
    rw [List.findSome?_eq_none_iff]
    intro c hc
    obtain ⟨h1, h2, h3⟩ := mem_ndindex.mp hc
    obtain ⟨v, hv⟩ := h c h1 h2 h3
    rw [hv]
    rfl
  rw [this]

/-- What a cell is in a result. -/
theorem gather_cells {outDtype : DType} {nb ny nx : Nat} {cells : Cell → Except Err (Num × Bool)} {nv : Option Scalar}
    {returnMask : Bool} {out : Raster} (h : gather outDtype nb ny nx cells nv returnMask = .ok out) :
    out = assemble outDtype nb ny nx (fun c => result (cells c)) nv returnMask ∧
    ∀ c : Cell, c.1 < nb → c.2.1 < ny → c.2.2 < nx → ∃ v, cells c = .ok v := by
  unfold gather at h
  split at h
  · exact nomatch h
  · next hn =>
    cases h
    refine ⟨rfl, fun c h1 h2 h3 => ?_⟩
    rw [List.findSome?_eq_none_iff] at hn
    have := hn c (mem_ndindex.mpr ⟨h1, h2, h3⟩)
    cases hv : cells c with
    | ok v => exact ⟨v, rfl⟩
    | error e => rw [hv] at this; exact nomatch this

/-- In a covered raster nothing is raised for a block. -/
theorem geoCell_ok (np : NumPy) (func : GeoCall → Out) (overlap absent : Bool) (d : Depth) (rs : List Raster)
    (pads : List (Pad Num × Pad Bool)) (outNull : Option Scalar) {box : Boxes.GeoBox} (hs : Straight box) {ch : Chunks}
    (hy : 0 ≤ d.y.before ∧ 0 ≤ d.y.after) (hx : 0 ≤ d.x.before ∧ 0 ≤ d.x.after)
    (hno : overlap = false → d = ⟨.same 0, .same 0, .same 0⟩) (cell : Cell) (h1 : cell.1 < ch.bands.sum)
    (h2 : cell.2.1 < ch.rows.sum) (h3 : cell.2.2 < ch.cols.sum) :
    ∃ v, geoCell np func overlap absent d rs pads outNull ch.rows.sum ch.cols.sum box ch cell = .ok v := by
  obtain ⟨b0, nbc, e1, _, _⟩ := Focal.chunkOf_spec ch.bands 0 cell.1 (by omega) (by omega)
  obtain ⟨r0, h, e2, _, _⟩ := Focal.chunkOf_spec ch.rows 0 cell.2.1 (by omega) (by omega)
  obtain ⟨c0, w, e3, _, _⟩ := Focal.chunkOf_spec ch.cols 0 cell.2.2 (by omega) (by omega)
  obtain ⟨gc, g1, _⟩ := geoCell_of np func overlap absent d rs pads outNull hs hy hx hno e1 e2 e3
  exact ⟨_, g1⟩

/-- The cell for a function of the place and the surroundings. -/
theorem geoCell_eq (np : NumPy) {func : GeoCall → Out} (overlap : Bool) {b : Boundary} {d : Depth} {rs : List Raster}
    {pads : List (Pad Num × Pad Bool)} (outNull : Option Scalar) {box : Boxes.GeoBox} (hs : Straight box) {ch : Chunks}
    (hsz : ∀ r ∈ rs, r.ny = ch.rows.sum ∧ r.nx = ch.cols.sum) (hf : ∀ r ∈ rs, NullFits np r)
    (hp : resolveBoundaries b rs = .ok pads) (hy : 0 ≤ d.y.before ∧ 0 ≤ d.y.after) (hx : 0 ≤ d.x.before ∧ 0 ≤ d.x.after)
    (hno : overlap = false → d = ⟨.same 0, .same 0, .same 0⟩)
    {g : List (Option Scalar) → Option Scalar → Place → View → Num × Bool} (hg : LocalAt func d.sides.1 d.sides.2 g)
    {cell : Cell} (h1 : cell.1 < ch.bands.sum) (h2 : cell.2.1 < ch.rows.sum) (h3 : cell.2.2 < ch.cols.sum) :
    ∃ sr sc, ChunkAt ch.rows cell.2.1 sr ∧ ChunkAt ch.cols cell.2.2 sc ∧
      geoCell np func overlap b.isAbsent d rs pads outNull ch.rows.sum ch.cols.sum box ch cell =
        .ok (g (rs.map (·.nv)) outNull (placeFrom box cell (displaced b.isAbsent ch.rows.sum sr d.sides.1)
          (displaced b.isAbsent ch.cols.sum sc d.sides.2)) (rasterView np b rs d.sides.1 d.sides.2 cell)) := by
  obtain ⟨b0, nbc, e1, hb1, hb2⟩ := Focal.chunkOf_spec ch.bands 0 cell.1 (by omega) (by omega)
  obtain ⟨r0, h, e2, hr1, hr2⟩ := Focal.chunkOf_spec ch.rows 0 cell.2.1 (by omega) (by omega)
  obtain ⟨c0, w, e3, hc1, hc2⟩ := Focal.chunkOf_spec ch.cols 0 cell.2.2 (by omega) (by omega)
  have l2 := chunkOf_le e2
  have l3 := chunkOf_le e3
  refine ⟨(r0, r0 + h), (c0, c0 + w), chunkAt_of e2 hr1 hr2, chunkAt_of e3 hc1 hc2, ?_⟩
  obtain ⟨gc, g1, g2, g3⟩ := geoCell_of np func overlap b.isAbsent d rs pads outNull hs hy hx hno e1 e2 e3
  rw [g1]
  congr 1
  have hrow : ((cell.2.1 : Int) - low b.isAbsent r0 d.y.before).toNat <
      (high b.isAbsent ch.rows.sum r0 h d.y.after - low b.isAbsent r0 d.y.before).toNat := by
    have := (in_block (absent := b.isAbsent) (d := 0) (n := ch.rows.sum) hr1 hr2 (by omega) hy.1 hy.2
      ⟨by omega, by omega⟩).mpr fun _ => by omega
    omega
  have hcol : ((cell.2.2 : Int) - low b.isAbsent c0 d.x.before).toNat <
      (high b.isAbsent ch.cols.sum c0 w d.x.after - low b.isAbsent c0 d.x.before).toNat := by
    have := (in_block (absent := b.isAbsent) (d := 0) (n := ch.cols.sum) hc1 hc2 (by omega) hx.1 hx.2
      ⟨by omega, by omega⟩).mpr fun _ => by omega
    omega
  rw [hg gc _ (by rw [g2]; simp only [blockCall]; omega) (by rw [g2]; exact hrow) (by rw [g2]; exact hcol)]
  simp only at g3 ⊢
  rw [g3, g2, blockView_eq np outNull hsz hf hp hy hx hb1 ⟨hr1, hr2, by omega⟩ ⟨hc1, hc2, by omega⟩]
  rfl

/-! ### `geo_map_overlap` -/

theorem describes_of {depth : DepthArg} (hk : GoodDict depth) {d : Depth} (hd : normalizeDepth depth = .ok d) :
    DescribesDepth depth d.sides.1 d.sides.2 := by
  have hband : d.band = .same 0 := by
    cases depth with
    | other => exact nomatch hd
    | int n =>
      simp only [normalizeDepth] at hd
      split at hd
      · exact nomatch hd
      · cases hd; rfl
    | tuple l =>
      match l with
      | [a, b] =>
        simp only [normalizeDepth] at hd
        split at hd
        · exact nomatch hd
        · exact nomatch hd
        · cases hd; rfl
      | [] => exact nomatch hd
      | [_] => exact nomatch hd
      | _ :: _ :: _ :: _ => exact nomatch hd
    | dict l => exact (normalizeDict_sound l _ d hk hd).2.2
  exact ((C36_depth_partial depth hk d.sides.1 d.sides.2).mp ⟨d, hd, hband, rfl⟩).1

/-- **C84** (no use of the coordinates).  For a function that does not look at the coordinates, `geo_map_overlap` is
`map_overlap` on the grid of the first raster, if the grids are the same - so everything in C48 holds for it - and a `ValueError` otherwise.
In particular the blocks always have the shape of their info. -/
theorem C84_plain (np : NumPy) (func : Call → Out) (first : Input) (rest : List Input) (depth : DepthArg) (b : Boundary)
    (nv : Blocks.NullArg) (outDtype : DType) (o : Options) (ch : Chunks) (hk : GoodDict depth) (hch : Covers ch first.raster)
    (hs : Straight first.box) :
    geoMapOverlap np (fun gc => func gc.call) (first :: rest) depth b nv outDtype o ch =
      if Boxes.allSame (first.box :: rest.map (·.box)) = true then
        onGrid first.box (mapOverlap np func (first.raster :: rest.map (·.raster)) depth b nv outDtype o ch)
      else .error .value := by
  unfold geoMapOverlap mapOverlap
  simp only
  obtain ⟨c1, c2, c3⟩ := hch
  by_cases hsh : ((rest.map (·.raster)).any (fun r => decide ((r.nb, r.ny, r.nx) ≠ (first.raster.nb, first.raster.ny, first.raster.nx)))) = true
  · rw [if_pos hsh, if_pos hsh]
    split <;> rfl
  · rw [if_neg hsh, if_neg hsh]
    by_cases hg : Boxes.allSame (first.box :: rest.map (·.box)) = true
    · rw [if_pos hg, if_neg (by rw [hg]; decide)]
      cases hd : normalizeDepth depth with
      | error e => rfl
      | ok d =>
        obtain ⟨ny, nx⟩ := describesDepth_nonneg (describes_of hk hd)
        simp only
        cases checkAsymmetric d b with
        | error e => rfl
        | ok _ =>
          cases resolveBoundaries b (first.raster :: rest.map (·.raster)) with
          | error e => rfl
          | ok pads =>
            cases resolveOutNull nv first.raster.dtype first.raster.nv (first.raster :: rest.map (·.raster)).length outDtype with
            | error e => rfl
            | ok outNull =>
              cases checkWrapper nv o with
              | error e => rfl
              | ok _ =>
                simp only
                split
                · rfl
                · rw [← c2, ← c3, gather_ok]
                  · congr 1
                    congr 1
                    congr 1
                    funext c
                    exact result_geoCell np func true b.isAbsent d _ pads outNull hs c ny nx (fun h => nomatch h)
                  · intro c h1 h2 h3
                    exact geoCell_ok np _ true b.isAbsent d _ pads outNull hs ny nx (fun h => nomatch h) c (by omega) h2 h3
    · rw [if_neg hg, if_pos (by simpa using hg)]

theorem onGrid_ok {box : Boxes.GeoBox} {e : Except Err Raster} {out : Input} :
    onGrid box e = .ok out ↔ e = .ok out.raster ∧ out.box = box := by
  obtain ⟨r, b⟩ := out
  cases e with
  | error e => simp [onGrid]
  | ok r' =>
    simp only [onGrid, Except.ok.injEq, Input.mk.injEq]
    exact and_congr Iff.rfl eq_comm

/-- What has been checked when there is a result. -/
theorem geoMapOverlap_ok {np : NumPy} {func : GeoCall → Out} {first : Input} {rest : List Input} {depth : DepthArg}
    {b : Boundary} {nv : Blocks.NullArg} {outDtype : DType} {o : Options} {ch : Chunks} {out : Input} :
    geoMapOverlap np func (first :: rest) depth b nv outDtype o ch = .ok out ↔
      (∀ r ∈ first.raster :: rest.map (·.raster), (r.nb, r.ny, r.nx) = (first.raster.nb, first.raster.ny, first.raster.nx)) ∧
      Boxes.allSame (first.box :: rest.map (·.box)) = true ∧
      ∃ d pads outNull, normalizeDepth depth = .ok d ∧ checkAsymmetric d b = .ok () ∧
        resolveBoundaries b (first.raster :: rest.map (·.raster)) = .ok pads ∧
        resolveOutNull nv first.raster.dtype first.raster.nv (first.raster :: rest.map (·.raster)).length outDtype = .ok outNull ∧
        checkWrapper nv o = .ok () ∧
        ¬(max d.y.before d.y.after > first.raster.ny ∨ max d.x.before d.x.after > first.raster.nx) ∧
        gather outDtype first.raster.nb first.raster.ny first.raster.nx
          (geoCell np func true b.isAbsent d (first.raster :: rest.map (·.raster)) pads outNull first.raster.ny first.raster.nx
            first.box ch) outNull o.returnMask = .ok out.raster ∧ out.box = first.box := by
  unfold geoMapOverlap
  simp only
  constructor
  · intro h
    split at h
    · exact nomatch h
    · next hsh =>
      split at h
      · exact nomatch h
      · next hg =>
        split at h
        · exact nomatch h
        · next d hd =>
          split at h
          · exact nomatch h
          · exact nomatch h
          · exact nomatch h
          · exact nomatch h
          · next pads outNull h1 h2 h3 h4 =>
            split at h
            · exact nomatch h
            · next hbig =>
              obtain ⟨h5, h6⟩ := onGrid_ok.mp h
              exact ⟨all_shapes hsh, by simpa using hg, d, pads, outNull, hd, h1, h2, h3, h4, hbig, h5, h6⟩
  · rintro ⟨hsh, hg, d, pads, outNull, hd, h1, h2, h3, h4, h5, h6, h7⟩
    have hsh' : ¬((rest.map (·.raster)).any
        (fun r => decide ((r.nb, r.ny, r.nx) ≠ (first.raster.nb, first.raster.ny, first.raster.nx))) = true) := by
      intro hany
      obtain ⟨r, hr, hne⟩ := List.any_eq_true.mp hany
      exact (decide_eq_true_eq.mp hne) (hsh r (List.mem_cons_of_mem _ hr))
    rw [if_neg hsh', if_neg (by rw [hg]; decide), hd]
    simp only
    rw [h1, h2, h3, h4]
    simp only
    rw [if_neg h5]
    exact onGrid_ok.mpr ⟨h6, h7⟩

/-- The blocks of a covered raster make a result. -/
theorem geoGather_ok (np : NumPy) (func : GeoCall → Out) (outDtype : DType) (first : Input) (rest : List Input) {b : Boundary}
    {d : Depth} (pads : List (Pad Num × Pad Bool)) (outNull : Option Scalar) (o : Options) {ch : Chunks} (hs : Straight first.box)
    (hch : Covers ch first.raster) (hy : 0 ≤ d.y.before ∧ 0 ≤ d.y.after) (hx : 0 ≤ d.x.before ∧ 0 ≤ d.x.after) :
    ∃ q, gather outDtype first.raster.nb first.raster.ny first.raster.nx
      (geoCell np func true b.isAbsent d (first.raster :: rest.map (·.raster)) pads outNull first.raster.ny first.raster.nx
        first.box ch) outNull o.returnMask = .ok q := by
  obtain ⟨c1, c2, c3⟩ := hch
  rw [← c1, ← c2, ← c3]
  exact ⟨_, gather_ok fun c q1 q2 q3 =>
    geoCell_ok np func true b.isAbsent d _ pads outNull hs hy hx (fun h => nomatch h) c q1 q2 q3⟩

/-- **C84** (what is accepted).  `geo_map_overlap` gives a result exactly if `map_overlap` does for the rasters and the grids are the
same; no function and no chunks make the wrapping of a block fail. -/
theorem C84_accepted (np : NumPy) (func : GeoCall → Out) (func' : Call → Out) (first : Input) (rest : List Input)
    (depth : DepthArg) (b : Boundary) (nv : Blocks.NullArg) (outDtype : DType) (o : Options) (ch : Chunks) (hk : GoodDict depth)
    (hch : Covers ch first.raster) (hs : Straight first.box) :
    (∃ out, geoMapOverlap np func (first :: rest) depth b nv outDtype o ch = .ok out) ↔
      Boxes.allSame (first.box :: rest.map (·.box)) = true ∧
      ∃ out, mapOverlap np func' (first.raster :: rest.map (·.raster)) depth b nv outDtype o ch = .ok out := by
  have hp := C84_plain np func' first rest depth b nv outDtype o ch hk hch hs
  have hc := hch
  obtain ⟨c1, c2, c3⟩ := hc
  constructor
  · rintro ⟨out, h⟩
    obtain ⟨hsh, hg, d, pads, outNull, hd, h1, h2, h3, h4, h5, h6, h7⟩ := geoMapOverlap_ok.mp h
    refine ⟨hg, ?_⟩
    obtain ⟨ny, nx⟩ := describesDepth_nonneg (describes_of hk hd)
    rw [if_pos hg] at hp
    have : ∃ out', geoMapOverlap np (fun gc => func' gc.call) (first :: rest) depth b nv outDtype o ch = .ok out' := by
      obtain ⟨q, hq⟩ := geoGather_ok np (fun gc => func' gc.call) outDtype first rest (b := b) pads outNull o hs ⟨c1, c2, c3⟩ ny nx
      exact ⟨⟨q, first.box⟩, geoMapOverlap_ok.mpr ⟨hsh, hg, d, pads, outNull, hd, h1, h2, h3, h4, h5, hq, rfl⟩⟩
    obtain ⟨out', h'⟩ := this
    rw [hp, onGrid_ok] at h'
    exact ⟨_, h'.1⟩
  · rintro ⟨hg, out, h⟩
    rw [if_pos hg, h] at hp
    obtain ⟨hsh, _, d, pads, outNull, hd, h1, h2, h3, h4, h5, h6, h7⟩ := geoMapOverlap_ok.mp hp
    obtain ⟨ny, nx⟩ := describesDepth_nonneg (describes_of hk hd)
    obtain ⟨q, hq⟩ := geoGather_ok np func outDtype first rest (b := b) pads outNull o hs ⟨c1, c2, c3⟩ ny nx
    exact ⟨⟨q, first.box⟩, geoMapOverlap_ok.mpr ⟨hsh, hg, d, pads, outNull, hd, h1, h2, h3, h4, h5, hq, rfl⟩⟩

/-- The cells of a result. -/
theorem geoMapOverlap_cells (np : NumPy) (func : GeoCall → Out) (first : Input) (rest : List Input) (depth : DepthArg) (b : Boundary)
    (nv : Blocks.NullArg) (outDtype : DType) (o : Options) (ch : Chunks) (out : Input)
    (h : geoMapOverlap np func (first :: rest) depth b nv outDtype o ch = .ok out) (hk : GoodDict depth)
    (hch : Covers ch first.raster) (hs : Straight first.box)
    (hf : ∀ r ∈ first.raster :: rest.map (·.raster), NullFits np r) :
    ∃ d outNull, normalizeDepth depth = .ok d ∧ DescribesDepth depth d.sides.1 d.sides.2 ∧
      resolveOutNull nv first.raster.dtype first.raster.nv (first.raster :: rest.map (·.raster)).length outDtype = .ok outNull ∧
      (∀ q, out.raster.nv = q ↔ q = if o.returnMask then some (outNull.getD (defaultNull outDtype)) else outNull) ∧
      ∀ g, LocalAt func d.sides.1 d.sides.2 g → ∀ c, first.raster.Has c →
        ∃ sr sc, ChunkAt ch.rows c.2.1 sr ∧ ChunkAt ch.cols c.2.2 sc ∧
          Made out.raster outDtype outNull o.returnMask c
            (g ((first.raster :: rest.map (·.raster)).map (·.nv)) outNull
              (placeFrom first.box c (displaced (decide (NoBoundary b)) first.raster.ny sr d.sides.1)
                (displaced (decide (NoBoundary b)) first.raster.nx sc d.sides.2))
              (rasterView np b (first.raster :: rest.map (·.raster)) d.sides.1 d.sides.2 c)) := by
  obtain ⟨hsh, hg, d, pads, outNull, hd, h1, h2, h3, h4, h5, h6, h7⟩ := geoMapOverlap_ok.mp h
  have hdesc := describes_of hk hd
  obtain ⟨ny, nx⟩ := describesDepth_nonneg hdesc
  obtain ⟨c1, c2, c3⟩ := hch
  obtain ⟨e, _⟩ := gather_cells h6
  have habs : b.isAbsent = decide (NoBoundary b) := by
    rw [Bool.eq_iff_iff, decide_eq_true_eq]
    exact isAbsent_iff b
  refine ⟨d, outNull, hd, hdesc, h3, ?_, ?_⟩
  · intro q
    rw [e]
    unfold assemble ofData
    cases o.returnMask <;> exact eq_comm
  · intro g hl c hc
    obtain ⟨sr, sc, k1, k2, k3⟩ := geoCell_eq np true (b := b) (d := d) (rs := first.raster :: rest.map (·.raster)) (pads := pads)
      outNull hs (ch := ch) (by
        intro r hr
        have := hsh r hr
        simp only [Prod.mk.injEq] at this
        rw [c2, c3]
        exact this.2) hf h2 ny nx (fun h => nomatch h) hl (cell := c) (by rw [c1]; exact hc.1) (by rw [c2]; exact hc.2.1)
      (by rw [c3]; exact hc.2.2)
    refine ⟨sr, sc, k1, k2, ?_⟩
    rw [e, ← habs, ← c2, ← c3]
    apply made_assemble
    rw [k3]
    rfl

/-- **C84** (what the function is told).  The result is on the grid of the first raster, and for a function that computes a cell from its
coordinates and what is around it within the depth, every cell is that function of what is around it in the rasters continued
by the boundary - and of coordinates that are off by the number of cells that `displaced` gives for the chunk of the cell. -/
theorem C84_displaced (np : NumPy) (func : GeoCall → Out) (first : Input) (rest : List Input) (depth : DepthArg) (b : Boundary)
    (nv : Blocks.NullArg) (outDtype : DType) (o : Options) (ch : Chunks) (out : Input)
    (h : geoMapOverlap np func (first :: rest) depth b nv outDtype o ch = .ok out) (hk : GoodDict depth)
    (hch : Covers ch first.raster) (hs : Straight first.box)
    (hf : ∀ r ∈ first.raster :: rest.map (·.raster), NullFits np r) :
    out.box = first.box ∧ out.raster.dtype = outDtype ∧
    (out.raster.nb, out.raster.ny, out.raster.nx) = (first.raster.nb, first.raster.ny, first.raster.nx) ∧
    ∃ y x outNull, DescribesDepth depth y x ∧ OutNull nv (first.raster :: rest.map (·.raster)) outDtype outNull ∧
      ∀ g, LocalAt func y x g → ∀ c, first.raster.Has c →
        ∃ sr sc, ChunkAt ch.rows c.2.1 sr ∧ ChunkAt ch.cols c.2.2 sc ∧
          Made out.raster outDtype outNull o.returnMask c
            (g ((first.raster :: rest.map (·.raster)).map (·.nv)) outNull
              (placeFrom first.box c (displaced (decide (NoBoundary b)) first.raster.ny sr y)
                (displaced (decide (NoBoundary b)) first.raster.nx sc x))
              (rasterView np b (first.raster :: rest.map (·.raster)) y x c)) := by
  obtain ⟨_, _, _, _, _, _, _, _, _, _, _, h6, h7⟩ := geoMapOverlap_ok.mp h
  obtain ⟨e, _⟩ := gather_cells h6
  obtain ⟨d, outNull, hd, hdesc, h3, _, hm⟩ := geoMapOverlap_cells np func first rest depth b nv outDtype o ch out h hk hch hs hf
  refine ⟨h7, ?_, ?_, d.sides.1, d.sides.2, outNull, hdesc, resolveOutNull_ok.mp h3, hm⟩
  · rw [e]; unfold assemble ofData; cases o.returnMask <;> rfl
  · rw [e]; unfold assemble ofData; cases o.returnMask <;> rfl

theorem chunkAt_le {cs : List Nat} {p : Nat} {s : Nat × Nat} (h : ChunkAt cs p s) : s.2 ≤ cs.sum := by
  obtain ⟨⟨k, _, rfl⟩, _⟩ := h
  exact Grid.sum_take_le cs _

theorem displaced_zero {b : Boundary} {m : Int × Int} (h : Even b m) {cs : List Nat} {p : Nat} {s : Nat × Nat}
    (hc : ChunkAt cs p s) {n : Nat} (hn : cs.sum = n) : displaced (decide (NoBoundary b)) n s m = 0 := by
  have := chunkAt_le hc
  unfold displaced cellsBefore cellsAfter
  rcases h with rfl | rfl | ⟨h1, h2⟩
  · by_cases hb : NoBoundary b <;> simp only [hb, decide_true, decide_false, if_true, if_false, Bool.false_eq_true] <;> omega
  · by_cases hb : NoBoundary b <;> simp only [hb, decide_true, decide_false, if_true, if_false, Bool.false_eq_true] <;> omega
  · simp only [h2, decide_false, if_false, Bool.false_eq_true]
    omega

theorem placeFrom_zero (g : Boxes.GeoBox) (c : Cell) : placeFrom g c 0 0 = placeOf g c := by
  unfold placeFrom placeOf Boxes.Spec.centre
  simp

/-- **C84**, in part: with no depth along an axis, or the same depth on both sides and something put around the raster, the function is
told the place of the centre of every cell in the grid of the first raster (with the bands counted from 0). -/
theorem C84_geo_map_overlap_partial (np : NumPy) (func : GeoCall → Out) (first : Input) (rest : List Input) (depth : DepthArg)
    (b : Boundary) (nv : Blocks.NullArg) (outDtype : DType) (o : Options) (ch : Chunks) (out : Input)
    (h : geoMapOverlap np func (first :: rest) depth b nv outDtype o ch = .ok out) (hk : GoodDict depth)
    (hch : Covers ch first.raster) (hs : Straight first.box)
    (hf : ∀ r ∈ first.raster :: rest.map (·.raster), NullFits np r) :
    ∃ y x outNull, DescribesDepth depth y x ∧ OutNull nv (first.raster :: rest.map (·.raster)) outDtype outNull ∧
      (Even b y → Even b x → ∀ g, LocalAt func y x g → ∀ c, first.raster.Has c →
          Made out.raster outDtype outNull o.returnMask c
            (g ((first.raster :: rest.map (·.raster)).map (·.nv)) outNull (placeOf first.box c)
              (rasterView np b (first.raster :: rest.map (·.raster)) y x c))) := by
  obtain ⟨_, _, _, y, x, outNull, hd, hn, hm⟩ := C84_displaced np func first rest depth b nv outDtype o ch out h hk hch hs hf
  refine ⟨y, x, outNull, hd, hn, fun ey ex g hg c hc => ?_⟩
  obtain ⟨sr, sc, k1, k2, k3⟩ := hm g hg c hc
  rw [displaced_zero ey k1 hch.2.1, displaced_zero ex k2 hch.2.2, placeFrom_zero] at k3
  exact k3

theorem made_eq {out out' : Raster} {dt : DType} {nv : Option Scalar} {rm : Bool} {c : Cell} {v : Num × Bool}
    (h : Made out dt nv rm c v) (h' : Made out' dt nv rm c v) : out.data c = out'.data c ∧ out.mask c = out'.mask c := by
  cases hr : rm with
  | false =>
    obtain ⟨_, a1, a2⟩ := h.plain hr
    obtain ⟨_, b1, b2⟩ := h'.plain hr
    refine ⟨by rw [a1, b1], ?_⟩
    rw [Bool.eq_iff_iff, a2, b2]
  | true =>
    obtain ⟨_, a1, a2⟩ := h.explicit hr
    obtain ⟨_, b1, b2⟩ := h'.explicit hr
    exact ⟨by rw [a2, b2], by rw [a1, b1]⟩

/-- **C84** (chunks): with such depths two ways to chunk the rasters give the same result, coordinates used or not. -/
theorem C84_chunks (np : NumPy) (func : GeoCall → Out) (first : Input) (rest : List Input) (depth : DepthArg) (b : Boundary)
    (nv : Blocks.NullArg) (outDtype : DType) (o : Options) (ch ch' : Chunks) (out out' : Input)
    (h : geoMapOverlap np func (first :: rest) depth b nv outDtype o ch = .ok out)
    (h' : geoMapOverlap np func (first :: rest) depth b nv outDtype o ch' = .ok out') (hk : GoodDict depth)
    (hch : Covers ch first.raster) (hch' : Covers ch' first.raster) (hs : Straight first.box)
    (hf : ∀ r ∈ first.raster :: rest.map (·.raster), NullFits np r)
    (hg : ∀ y x, DescribesDepth depth y x → Even b y ∧ Even b x ∧ ∃ g, LocalAt func y x g) :
    out.raster.nv = out'.raster.nv ∧
    ∀ c, first.raster.Has c → out.raster.data c = out'.raster.data c ∧ out.raster.mask c = out'.raster.mask c := by
  obtain ⟨d, n, d1, d2, d3, d4, d5⟩ := geoMapOverlap_cells np func first rest depth b nv outDtype o ch out h hk hch hs hf
  obtain ⟨d', n', d1', d2', d3', d4', d5'⟩ := geoMapOverlap_cells np func first rest depth b nv outDtype o ch' out' h' hk hch' hs hf
  rw [d1] at d1'
  cases d1'
  rw [d3] at d3'
  cases d3'
  obtain ⟨ey, ex, g, hl⟩ := hg _ _ d2
  refine ⟨by rw [(d4 _).mpr rfl, (d4' _).mpr rfl], fun c hc => ?_⟩
  obtain ⟨sr, sc, k1, k2, k3⟩ := d5 g hl c hc
  obtain ⟨sr', sc', k1', k2', k3'⟩ := d5' g hl c hc
  rw [displaced_zero ey k1 hch.2.1, displaced_zero ex k2 hch.2.2] at k3
  rw [displaced_zero ey k1' hch'.2.1, displaced_zero ex k2' hch'.2.2] at k3'
  exact made_eq k3 k3'

/-- **C84** (other grids): rasters on another grid are rejected, and the grids that are accepted have the CRS and the shape of the
first and cells near its cells, so that the coordinates passed on are also nearly the ones of the other rasters. -/
theorem C84_grids (np : NumPy) (func : GeoCall → Out) (first : Input) (rest : List Input) (depth : DepthArg) (b : Boundary)
    (bands : BandsArg) (nv : Blocks.NullArg) (outDtype : DType) (o : Options) (ch : Chunks) :
    (Boxes.allSame (first.box :: rest.map (·.box)) ≠ true →
      geoMapOverlap np func (first :: rest) depth b nv outDtype o ch = .error .value ∧
      geoMapBlocks np func (first :: rest) bands nv outDtype o ch = .error .value) ∧
    ∀ out, (geoMapOverlap np func (first :: rest) depth b nv outDtype o ch = .ok out ∨
        geoMapBlocks np func (first :: rest) bands nv outDtype o ch = .ok out) →
      out.box = first.box ∧ ∀ k ∈ rest, k.box.crs = first.box.crs ∧ k.box.ny = first.box.ny ∧ k.box.nx = first.box.nx ∧
        ∀ i j, i < first.box.ny → j < first.box.nx →
          |(Boxes.Spec.centre first.box i j).1 - (Boxes.Spec.centre k.box i j).1| ≤
            (first.box.nx + first.box.ny) * (Boxes.Spec.side first.box / 1000) ∧
          |(Boxes.Spec.centre first.box i j).2 - (Boxes.Spec.centre k.box i j).2| ≤
            (first.box.nx + first.box.ny) * (Boxes.Spec.side first.box / 1000) := by
  have rej : Boxes.allSame (first.box :: rest.map (·.box)) ≠ true →
      geoMapOverlap np func (first :: rest) depth b nv outDtype o ch = .error .value ∧
      geoMapBlocks np func (first :: rest) bands nv outDtype o ch = .error .value := by
    intro hne
    have hn : (!Boxes.allSame (first.box :: rest.map (·.box))) = true := by simpa using hne
    unfold geoMapOverlap geoMapBlocks
    simp only
    constructor
    · split
      · rfl
      · rfl
    · split
      · rfl
      · rfl
  refine ⟨rej, fun out h => ?_⟩
  have hg : Boxes.allSame (first.box :: rest.map (·.box)) = true := by
    by_contra hne
    obtain ⟨r1, r2⟩ := rej hne
    rcases h with h | h
    · rw [r1] at h; exact nomatch h
    · rw [r2] at h; exact nomatch h
  refine ⟨?_, fun k hk => ?_⟩
  · rcases h with h | h
    · obtain ⟨_, _, _, _, _, _, _, _, _, _, _, _, h7⟩ := geoMapOverlap_ok.mp h
      exact h7
    · unfold geoMapBlocks at h
      simp only at h
      split at h
      · exact nomatch h
      · split at h
        · exact nomatch h
        · split at h
          · exact nomatch h
          · exact nomatch h
          · exact nomatch h
          · exact (onGrid_ok.mp h).2
          · exact (onGrid_ok.mp h).2
  · obtain ⟨h1, h2, h3, h4⟩ := Boxes.C75_same_partial hg (List.mem_map_of_mem hk)
    exact ⟨h1.symm, h2.symm, h3.symm, h4⟩

/-! ### `geo_map_blocks` -/

/-- **C84** (`geo_map_blocks`).  For a function that computes a cell from its coordinates and the cells at the same place in the
inputs, every cell of the result is that function of the place of the centre of the cell in the grid of the first raster
(with the bands counted from 0) and of the cells there, whatever the chunks. -/
theorem C84_geo_map_blocks (np : NumPy) (func : GeoCall → Out) (first : Input) (rest : List Input) (nv : Blocks.NullArg)
    (outDtype : DType) (o : Options) (ch : Chunks) (out : Input)
    (h : geoMapBlocks np func (first :: rest) .none nv outDtype o ch = .ok out) (hch : Covers ch first.raster)
    (hs : Straight first.box) (hf : ∀ r ∈ first.raster :: rest.map (·.raster), NullFits np r) :
    out.raster.dtype = outDtype ∧
    (out.raster.nb, out.raster.ny, out.raster.nx) = (first.raster.nb, first.raster.ny, first.raster.nx) ∧
    ∃ outNull, OutNull nv (first.raster :: rest.map (·.raster)) outDtype outNull ∧
      ∀ g, LocalAt func (0, 0) (0, 0) g → ∀ c, first.raster.Has c →
        Made out.raster outDtype outNull o.returnMask c
          (g ((first.raster :: rest.map (·.raster)).map (·.nv)) outNull (placeOf first.box c)
            (rasterView np .none (first.raster :: rest.map (·.raster)) (0, 0) (0, 0) c)) := by
  obtain ⟨c1, c2, c3⟩ := hch
  unfold geoMapBlocks at h
  simp only [checkOutBands] at h
  split at h
  · exact nomatch h
  · next hsh =>
    have shapes := all_shapes hsh
    split at h
    · exact nomatch h
    · split at h
      · next hh => exact nomatch hh
      · exact nomatch h
      · exact nomatch h
      · next outNull _ hnull _ =>
        obtain ⟨h6, h7⟩ := onGrid_ok.mp h
        obtain ⟨e, _⟩ := gather_cells h6
        refine ⟨?_, ?_, outNull, resolveOutNull_ok.mp hnull, ?_⟩
        · rw [e]; unfold assemble ofData; cases o.returnMask <;> rfl
        · rw [e]; unfold assemble ofData; cases o.returnMask <;> rfl
        · intro g hl c hc
          obtain ⟨sr, sc, k1, k2, k3⟩ := geoCell_eq np false (b := .none) (d := ⟨.same 0, .same 0, .same 0⟩)
            (rs := first.raster :: rest.map (·.raster)) (pads := (first.raster :: rest.map (·.raster)).map fun _ => (.absent, .absent))
            outNull hs (ch := ch) (by
              intro r hr
              have := shapes r hr
              simp only [Prod.mk.injEq] at this
              rw [c2, c3]
              exact this.2) hf (resolveBoundaries_none _) (by simp [AxisDepth.before, AxisDepth.after])
            (by simp [AxisDepth.before, AxisDepth.after]) (fun _ => rfl) hl (cell := c) (by rw [c1]; exact hc.1)
            (by rw [c2]; exact hc.2.1) (by rw [c3]; exact hc.2.2)
          rw [e]
          apply made_assemble
          rw [← c2, ← c3]
          have z1 := displaced_zero (b := .none) (m := (0, 0)) (Or.inl rfl) k1 rfl
          have z2 := displaced_zero (b := .none) (m := (0, 0)) (Or.inl rfl) k2 rfl
          have hd : (decide (NoBoundary .none)) = Boundary.isAbsent .none := by decide
          rw [hd] at z1 z2
          have s1 : (⟨.same 0, .same 0, .same 0⟩ : Depth).sides = ((0, 0), (0, 0)) := rfl
          rw [s1] at k3
          simp only at k3
          rw [z1, z2, placeFrom_zero] at k3
          exact congrArg result k3
      · next hh _ _ => exact nomatch hh

theorem geoCellBands_of (np : NumPy) (func : GeoCall → Out) (rs : List Raster) (outNull : Option Scalar) {nb : Nat} (n : Nat)
    (hnb : 0 < nb) {box : Boxes.GeoBox} (hs : Straight box) {ch : Chunks} {cell : Cell} {r c : Nat × Nat}
    (e2 : Focal.chunkOf ch.rows 0 cell.2.1 = some r) (e3 : Focal.chunkOf ch.cols 0 cell.2.2 = some c) :
    ∃ gc, geoCellBands np func rs outNull nb ch.rows.sum ch.cols.sum n box ch cell =
        (if (func gc).nb ≠ n then .error .value else
          .ok ((func gc).data (cell.1, cell.2.1 - r.1, cell.2.2 - c.1), (func gc).mask (cell.1, cell.2.1 - r.1, cell.2.2 - c.1))) ∧
      gc.call = mapBlocks.allBands np rs outNull nb ch.rows.sum ch.cols.sum r c ∧
      (gc.crs, gc.x (cell.2.2 - c.1), gc.y (cell.2.1 - r.1)) = (box.crs, Boxes.Spec.centre box cell.2.1 cell.2.2) := by
  have e1 : Focal.chunkOf (wholeBands ch nb).bands 0 ((0, cell.2) : Cell).1 = some (0, nb) := by
    unfold wholeBands
    simp only [Focal.chunkOf]
    rw [if_pos (by omega)]
  obtain ⟨base, loc, h1, h2, h3, h4, h5⟩ := baseInfo_of box (ch := wholeBands ch nb) (cell := (0, cell.2)) e1 e2 e3
  have l2 := chunkOf_le e2
  have l3 := chunkOf_le e3
  have m2 := chunkOf_mem (Nat.zero_le _) e2
  have m3 := chunkOf_mem (Nat.zero_le _) e3
  obtain ⟨gc, g1, g2, g3⟩ := wrapper_of np func false true ⟨.same 0, .same 0, .same 0⟩ rs (rs.map fun _ => (.absent, .absent)) outNull hs
    (ch := wholeBands ch nb) (cell := (0, cell.2)) (b := (0, nb)) (r := r) (c := c) (by simp [AxisDepth.before, AxisDepth.after])
    (by simp [AxisDepth.before, AxisDepth.after]) (fun _ => rfl) h2 h3 h4 h5 (by simp only [wholeBands]; omega) (by simp only [wholeBands]; omega)
    (by simp) m2.1 m3.1
  have g1' : wrapper func false box.crs base (mapBlocks.allBands np rs outNull nb ch.rows.sum ch.cols.sum r c) = .ok (func gc) := g1
  have z1 := displaced_zero (b := .none) (m := (0, 0)) (Or.inl rfl) (chunkAt_of e2 m2.1 m2.2) (n := ch.rows.sum) rfl
  have z2 := displaced_zero (b := .none) (m := (0, 0)) (Or.inl rfl) (chunkAt_of e3 m3.1 m3.2) (n := ch.cols.sum) rfl
  have hd : (decide (NoBoundary .none)) = true := by decide
  rw [hd] at z1 z2
  refine ⟨gc, ?_, g2, ?_⟩
  · unfold geoCellBands
    rw [e2, e3, h1]
    simp only
    rw [g1']
  · have s1 : (⟨.same 0, .same 0, .same 0⟩ : Depth).sides = ((0, 0), (0, 0)) := rfl
    rw [s1] at g3
    simp only [wholeBands] at g3
    rw [z1, z2, placeFrom_zero] at g3
    simp only [placeOf, Place.mk.injEq] at g3
    obtain ⟨q1, _, q2, q3⟩ := g3
    have i1 : ((cell.2.1 : Int) - low true r.1 (AxisDepth.same 0).before).toNat = cell.2.1 - r.1 := by
      unfold low; simp only [if_true, AxisDepth.before]; omega
    have i2 : ((cell.2.2 : Int) - low true c.1 (AxisDepth.same 0).before).toNat = cell.2.2 - c.1 := by
      unfold low; simp only [if_true, AxisDepth.before]; omega
    rw [i2] at q2
    rw [i1] at q3
    rw [q1, q2, q3]

/-- **C84** (`out_bands`).  With `out_bands=n` the result has `n` bands, and for a function that computes a cell from its
coordinates and the cells of all bands at its place it is that function of the coordinates of the centre of the cell and of
all the bands of the inputs, whatever the chunks. -/
theorem C84_out_bands (np : NumPy) (func : GeoCall → Out) (first : Input) (rest : List Input) (n : Int) (nv : Blocks.NullArg)
    (outDtype : DType) (o : Options) (ch : Chunks) (out : Input)
    (h : geoMapBlocks np func (first :: rest) (.int n) nv outDtype o ch = .ok out) (hch : Covers ch first.raster)
    (hs : Straight first.box) (hnb : 0 < first.raster.nb) :
    1 ≤ n ∧ out.raster.dtype = outDtype ∧
    ((out.raster.nb : Int), out.raster.ny, out.raster.nx) = (n, first.raster.ny, first.raster.nx) ∧
    ∃ outNull, OutNull nv (first.raster :: rest.map (·.raster)) outDtype outNull ∧
      ∀ g, ColumnAt func g → ∀ c, out.raster.Has c →
        Made out.raster outDtype outNull o.returnMask c
          (g ((first.raster :: rest.map (·.raster)).map (·.nv)) outNull c.1
            (first.box.crs, Boxes.Spec.centre first.box c.2.1 c.2.2)
            (rasterColumn (first.raster :: rest.map (·.raster)) c.2.1 c.2.2)) := by
  obtain ⟨c1, c2, c3⟩ := hch
  unfold geoMapBlocks at h
  simp only [checkOutBands] at h
  split at h
  · exact nomatch h
  · next hsh =>
    have shapes := all_shapes hsh
    split at h
    · exact nomatch h
    · split at h
      · exact nomatch h
      · exact nomatch h
      · exact nomatch h
      · next hh _ _ => split at hh <;> exact nomatch hh
      · next n' outNull hn hnull _ =>
        split at hn
        · exact nomatch hn
        · next hpos =>
          cases hn
          obtain ⟨h6, h7⟩ := onGrid_ok.mp h
          obtain ⟨e, hall⟩ := gather_cells h6
          refine ⟨by omega, ?_, ?_, outNull, resolveOutNull_ok.mp hnull, ?_⟩
          · rw [e]; unfold assemble ofData; cases o.returnMask <;> rfl
          · rw [e]; unfold assemble ofData; cases o.returnMask <;> simp <;> omega
          · intro g hg c hc
            have hc' : c.1 < n.toNat ∧ c.2.1 < first.raster.ny ∧ c.2.2 < first.raster.nx := by
              rw [e] at hc
              unfold assemble ofData Raster.Has at hc
              revert hc
              cases o.returnMask <;> exact fun h => h
            obtain ⟨r0, hh, e2, hr1, hr2⟩ := Focal.chunkOf_spec ch.rows 0 c.2.1 (by omega) (by omega)
            obtain ⟨c0, w, e3, hc1, hc2⟩ := Focal.chunkOf_spec ch.cols 0 c.2.2 (by omega) (by omega)
            have l2 := chunkOf_le e2
            have l3 := chunkOf_le e3
            obtain ⟨v, hv⟩ := hall c hc'.1 hc'.2.1 hc'.2.2
            rw [e]
            apply made_assemble
            rw [hv]
            rw [← c2, ← c3] at hv
            obtain ⟨gc, g1, g2, g3⟩ := geoCellBands_of np func (first.raster :: rest.map (·.raster)) outNull n.toNat hnb hs
              (ch := ch) e2 e3
            rw [g1] at hv
            split at hv
            · exact nomatch hv
            · next hbands =>
              cases hv
              simp only [result]
              congr 1
              rw [hg gc (c.1, c.2.1 - r0, c.2.2 - c0) (by rw [not_not.mp hbands]; exact hc'.1)]
              · have q1 : gc.crs = first.box.crs := congrArg Prod.fst g3
                have q2 : (gc.x (c.2.2 - c0), gc.y (c.2.1 - r0)) = Boxes.Spec.centre first.box c.2.1 c.2.2 := congrArg Prod.snd g3
                simp only
                rw [q2, q1, g2, blockColumn_eq np outNull (r := (r0, hh)) (c := (c0, w)) ?_ ⟨hr1, by omega⟩ ⟨hc1, by omega⟩]
                · rfl
                · intro r hr
                  have := shapes r hr
                  simp only [Prod.mk.injEq] at this
                  rw [c2, c3]
                  exact this
              · rw [g2]
                unfold mapBlocks.allBands blockCall low high
                simp only [if_true, AxisDepth.before, AxisDepth.after]
                omega
              · rw [g2]
                unfold mapBlocks.allBands blockCall low high
                simp only [if_true, AxisDepth.before, AxisDepth.after]
                omega

theorem gather_fails {outDtype : DType} {nb ny nx : Nat} {cells : Cell → Except Err (Num × Bool)} {nv : Option Scalar}
    {returnMask : Bool} {e : Err} {c : Cell} (h1 : c.1 < nb) (h2 : c.2.1 < ny) (h3 : c.2.2 < nx) (hc : cells c = .error e)
    (h : ∀ c : Cell, c.1 < nb → c.2.1 < ny → c.2.2 < nx → ∀ e', cells c = .error e' → e' = e) :
    gather outDtype nb ny nx cells nv returnMask = .error e := by
  unfold gather
  cases hf : (Grid.ndindex nb ny nx).findSome? fun c => failure (cells c) with
  | none =>
    rw [List.findSome?_eq_none_iff] at hf
    have := hf c (mem_ndindex.mpr ⟨h1, h2, h3⟩)
    rw [hc] at this
    exact nomatch this
  | some e' =>
    obtain ⟨c', m, hc'⟩ := List.exists_of_findSome?_eq_some hf
    obtain ⟨q1, q2, q3⟩ := mem_ndindex.mp m
    cases hv : cells c' with
    | ok v => rw [hv] at hc'; exact nomatch hc'
    | error e'' =>
      rw [hv] at hc'
      cases hc'
      simp only
      rw [h c' q1 q2 q3 _ hv]

/-- **C84** (no use of the coordinates, `geo_map_blocks`): for a function that does not look at the coordinates it is `map_blocks` on
the grid of the first raster, if the grids are the same, and a `ValueError` otherwise. -/
theorem C84_plain_blocks (np : NumPy) (func : Call → Out) (first : Input) (rest : List Input) (bands : BandsArg)
    (nv : Blocks.NullArg) (outDtype : DType) (o : Options) (ch : Chunks) (hch : Covers ch first.raster)
    (hs : Straight first.box) (hnb : 0 < first.raster.nb) :
    geoMapBlocks np (fun gc => func gc.call) (first :: rest) bands nv outDtype o ch =
      if Boxes.allSame (first.box :: rest.map (·.box)) = true then
        onGrid first.box (mapBlocks np func (first.raster :: rest.map (·.raster)) bands nv outDtype o ch)
      else .error .value := by
  unfold geoMapBlocks mapBlocks
  simp only
  obtain ⟨c1, c2, c3⟩ := hch
  by_cases hsh : ((rest.map (·.raster)).any (fun r => decide ((r.nb, r.ny, r.nx) ≠ (first.raster.nb, first.raster.ny, first.raster.nx)))) = true
  · rw [if_pos hsh, if_pos hsh]
    split <;> rfl
  · rw [if_neg hsh, if_neg hsh]
    by_cases hg : Boxes.allSame (first.box :: rest.map (·.box)) = true
    · rw [if_pos hg, if_neg (by rw [hg]; decide)]
      cases hcb : checkOutBands bands with
      | error e => rfl
      | ok bands' =>
        cases resolveOutNull nv first.raster.dtype first.raster.nv (first.raster :: rest.map (·.raster)).length outDtype with
        | error e => rfl
        | ok outNull =>
          cases checkWrapper nv o with
          | error e => cases bands' <;> rfl
          | ok _ =>
            cases bands' with
            | none =>
              simp only
              rw [← c2, ← c3, gather_ok]
              · congr 1
                congr 1
                congr 1
                funext c
                exact result_geoCell np func false true ⟨.same 0, .same 0, .same 0⟩ _ _ outNull hs c
                  (by simp [AxisDepth.before, AxisDepth.after]) (by simp [AxisDepth.before, AxisDepth.after]) (fun _ => rfl)
              · intro c h1 h2 h3
                exact geoCell_ok np _ false true ⟨.same 0, .same 0, .same 0⟩ _ _ outNull hs
                  (by simp [AxisDepth.before, AxisDepth.after]) (by simp [AxisDepth.before, AxisDepth.after]) (fun _ => rfl) c
                  (by omega) h2 h3
            | some n =>
              simp only
              have cellv : ∀ (c : Cell) (r cc : Nat × Nat), Focal.chunkOf ch.rows 0 c.2.1 = some r →
                  Focal.chunkOf ch.cols 0 c.2.2 = some cc →
                  geoCellBands np (fun gc => func gc.call) (first.raster :: rest.map (·.raster)) outNull first.raster.nb first.raster.ny
                    first.raster.nx n first.box ch c =
                  (if (func (mapBlocks.allBands np (first.raster :: rest.map (·.raster)) outNull first.raster.nb first.raster.ny
                      first.raster.nx r cc)).nb ≠ n then .error .value else
                    .ok ((func (mapBlocks.allBands np (first.raster :: rest.map (·.raster)) outNull first.raster.nb first.raster.ny
                        first.raster.nx r cc)).data (c.1, c.2.1 - r.1, c.2.2 - cc.1),
                      (func (mapBlocks.allBands np (first.raster :: rest.map (·.raster)) outNull first.raster.nb first.raster.ny
                        first.raster.nx r cc)).mask (c.1, c.2.1 - r.1, c.2.2 - cc.1))) := by
                intro c r cc e2 e3
                obtain ⟨gc, g1, g2, _⟩ := geoCellBands_of np (fun gc => func gc.call) (first.raster :: rest.map (·.raster)) outNull n hnb
                  hs e2 e3
                rw [c2, c3] at g1 g2
                rw [g1, g2]
              have chunks : ∀ c : Cell, c.2.1 < first.raster.ny → c.2.2 < first.raster.nx →
                  (∃ r, Focal.chunkOf ch.rows 0 c.2.1 = some r) ∧ ∃ cc, Focal.chunkOf ch.cols 0 c.2.2 = some cc := by
                intro c h2 h3
                obtain ⟨r0, hh, e2, _, _⟩ := Focal.chunkOf_spec ch.rows 0 c.2.1 (by omega) (by omega)
                obtain ⟨c0, w, e3, _, _⟩ := Focal.chunkOf_spec ch.cols 0 c.2.2 (by omega) (by omega)
                exact ⟨⟨_, e2⟩, ⟨_, e3⟩⟩
              have hn : n ≠ 0 := by
                rintro rfl
                cases bands with
                | int m =>
                  simp only [checkOutBands] at hcb
                  split at hcb
                  · exact nomatch hcb
                  · simp only [Except.ok.injEq, Option.some.injEq] at hcb
                    omega
                | none => exact nomatch hcb
                | bool t => exact nomatch hcb
                | other => exact nomatch hcb
              · by_cases hw : mapBlocks.wrongBands np func (first.raster :: rest.map (·.raster)) outNull first.raster.nb first.raster.ny
                  first.raster.nx n ch = true
                · rw [if_pos hw]
                  unfold mapBlocks.wrongBands at hw
                  rw [List.any_eq_true] at hw
                  obtain ⟨i, hi, hw⟩ := hw
                  rw [List.any_eq_true] at hw
                  obtain ⟨j, hj, hw⟩ := hw
                  have hi' := List.mem_range.mp hi
                  have hj' := List.mem_range.mp hj
                  obtain ⟨⟨r, e2⟩, ⟨cc, e3⟩⟩ := chunks (0, i, j) hi' hj'
                  simp only at e2 e3
                  rw [e2, e3] at hw
                  have hv := cellv (0, i, j) r cc e2 e3
                  rw [if_pos (by simpa using hw)] at hv
                  rw [gather_fails (by simp only; omega) hi' hj' hv]
                  intro c q1 q2 q3 e' he
                  obtain ⟨⟨r', e2'⟩, ⟨cc', e3'⟩⟩ := chunks c q2 q3
                  rw [cellv c r' cc' e2' e3'] at he
                  split at he
                  · cases he; rfl
                  · exact nomatch he
                · rw [if_neg hw]
                  have good : ∀ (c : Cell) (r cc : Nat × Nat), Focal.chunkOf ch.rows 0 c.2.1 = some r →
                      Focal.chunkOf ch.cols 0 c.2.2 = some cc →
                      (func (mapBlocks.allBands np (first.raster :: rest.map (·.raster)) outNull first.raster.nb first.raster.ny
                        first.raster.nx r cc)).nb = n := by
                    intro c r cc e2 e3
                    by_contra hne
                    apply hw
                    unfold mapBlocks.wrongBands
                    have l2 := chunkOf_le e2
                    have l3 := chunkOf_le e3
                    have m2 := chunkOf_mem (Nat.zero_le _) e2
                    have m3 := chunkOf_mem (Nat.zero_le _) e3
                    rw [List.any_eq_true]
                    refine ⟨c.2.1, List.mem_range.mpr (by omega), ?_⟩
                    rw [List.any_eq_true]
                    refine ⟨c.2.2, List.mem_range.mpr (by omega), ?_⟩
                    rw [e2, e3]
                    simpa using hne
                  rw [gather_ok]
                  · congr 1
                    congr 1
                    congr 1
                    funext c
                    unfold mapBlocks.cellOutBands
                    cases e2 : Focal.chunkOf ch.rows 0 c.2.1 with
                    | none => unfold geoCellBands; rw [e2]; rfl
                    | some r =>
                      cases e3 : Focal.chunkOf ch.cols 0 c.2.2 with
                      | none => unfold geoCellBands; rw [e2, e3]; rfl
                      | some cc =>
                        rw [cellv c r cc e2 e3, if_neg (not_not.mpr (good c r cc e2 e3))]
                        rfl
                  · intro c _ q2 q3
                    obtain ⟨⟨r, e2⟩, ⟨cc, e3⟩⟩ := chunks c q2 q3
                    rw [cellv c r cc e2 e3, if_neg (not_not.mpr (good c r cc e2 e3))]
                    exact ⟨_, rfl⟩
    · rw [if_neg hg, if_pos (by simpa using hg)]

/-! ### Examples and counterexamples -/

/-- The result has these values. -/
def shows (e : Except Err Input) (l : List (Cell × Num)) : Bool :=
  match e with
  | .error _ => false
  | .ok out => l.all fun p => decide (out.raster.data p.1 = p.2)

theorem of_shows {e : Except Err Input} {l : List (Cell × Num)} (h : shows e l = true) :
    ∃ out, e = .ok out ∧ ∀ p ∈ l, out.raster.data p.1 = p.2 := by
  cases e with
  | error _ => exact nomatch h
  | ok out =>
    refine ⟨out, rfl, fun p hp => ?_⟩
    simp only [shows, List.all_eq_true, decide_eq_true_eq] at h
    exact h p hp

/-- Four rows, two bands, with the values 10, 11, 12, 13 in the first band and 20, 21, 22, 23 in the second. -/
def tower : Input :=
  ⟨⟨.u8, 2, 4, 1, fun c => .fin (10 * (c.1 + 1) + c.2.1), fun _ => false, some ⟨.u8, .fin 9⟩⟩, ⟨1, 4, 1, 2, 0, 100, 0, -2, 58⟩⟩

/-- The same raster, moved to the right. -/
def moved (by' : Rat) : Input := ⟨tower.raster, ⟨1, 4, 1, 2, 0, 100 + by', 0, -2, 58⟩⟩

/-- The function that writes the y coordinate of every cell. -/
def writeY (gc : GeoCall) : Out := ⟨gc.call.nb, fun c => .fin (gc.y c.2.1), fun _ => false⟩

/-- The function that writes the y coordinate, in one band. -/
def oneBand (gc : GeoCall) : Out := ⟨1, fun c => .fin (gc.y c.2.1), fun _ => false⟩

/-- The function that writes the label of the band. -/
def writeBand (gc : GeoCall) : Out := ⟨gc.call.nb, fun c => .fin (gc.band c.1), fun _ => false⟩

theorem writeY_local (y x : Int × Int) : LocalAt writeY y x fun _ _ place _ => (.fin place.y, false) := fun _ _ _ _ _ => rfl

theorem oneBand_column : ColumnAt oneBand fun _ _ _ place _ => (.fin place.2.2, false) := fun _ _ _ _ _ => rfl

/-- The hypotheses of C84 are met with a boundary and with one cell on either side, in three chunks. -/
example : Covers ⟨[1, 1], [2, 1, 1], [1]⟩ tower.raster ∧ Straight tower.box ∧ NullFits (idNumPy true) tower.raster ∧
    DescribesDepth (.int 1) (1, 1) (1, 1) ∧ Even (.str "null") (1, 1) ∧ Boxes.Spec.centre tower.box 3 0 = (101, 51) :=
  ⟨⟨rfl, rfl, rfl⟩, ⟨rfl, rfl⟩, rfl, ⟨by simp [Describes], by simp [Describes]⟩, Or.inr (Or.inr ⟨rfl, by decide +kernel⟩),
    by decide +kernel⟩

example : ∃ out, geoMapOverlap (idNumPy true) writeY [tower] (.int 1) (.str "null") .none .u8 ⟨false, true, false⟩
      ⟨[1, 1], [2, 1, 1], [1]⟩ = .ok out ∧
    ∀ p ∈ [((0, 0, 0), FVal.fin 57), ((1, 1, 0), .fin 55), ((1, 2, 0), .fin 53), ((0, 3, 0), .fin 51)], out.raster.data p.1 = p.2 :=
  of_shows (by decide +kernel)

/-- The hypotheses of C84 (`geo_map_blocks`) are met, also with `out_bands`. -/
example : ∃ out, geoMapBlocks (idNumPy true) writeY [tower] .none .none .u8 ⟨false, true, false⟩ ⟨[2], [3, 1], [1]⟩ = .ok out ∧
    ∀ p ∈ [((1, 3, 0), FVal.fin 51)], out.raster.data p.1 = p.2 :=
  of_shows (by decide +kernel)

example : ∃ out, geoMapBlocks (idNumPy true) oneBand [tower] (.int 1) .none .u8 ⟨false, true, false⟩ ⟨[1, 1], [3, 1], [1]⟩ = .ok out ∧
    ∀ p ∈ [((0, 3, 0), FVal.fin 51)], out.raster.data p.1 = p.2 :=
  of_shows (by decide +kernel)

/-- The grids of two rasters may differ by a thousandth of a cell, but not by a hundredth. -/
example : ∃ out, geoMapBlocks (idNumPy true) writeY [tower, moved (1 / 1000)] .none .none .u8 ⟨false, true, false⟩
      ⟨[2], [4], [1]⟩ = .ok out ∧ ∀ p ∈ [((1, 3, 0), FVal.fin 51)], out.raster.data p.1 = p.2 :=
  of_shows (by decide +kernel)

example : geoMapBlocks (idNumPy true) writeY [tower, moved (1 / 50)] .none .none .u8 ⟨false, true, false⟩ ⟨[2], [4], [1]⟩ =
    .error .value :=
  ((C84_grids (idNumPy true) writeY tower [moved (1 / 50)] (.int 0) .none .none .none .u8
    ⟨false, true, false⟩ ⟨[2], [4], [1]⟩).1 (by decide +kernel)).2

/-- Without a boundary the result depends on the chunks: with a depth of one cell the rows of the last of two chunks are told the
coordinates of the row below, while a single chunk is told the right ones. -/
theorem C84_chunks_matter :
    (∃ out, geoMapOverlap (idNumPy true) writeY [tower] (.int 1) .none .none .u8 ⟨false, true, false⟩ ⟨[2], [4], [1]⟩ = .ok out ∧
      ∀ p ∈ [((0, 2, 0), FVal.fin 53)], out.raster.data p.1 = p.2) ∧
    ∃ out, geoMapOverlap (idNumPy true) writeY [tower] (.int 1) .none .none .u8 ⟨false, true, false⟩ ⟨[2], [2, 2], [1]⟩ = .ok out ∧
      ∀ p ∈ [((0, 2, 0), FVal.fin 51)], out.raster.data p.1 = p.2 :=
  ⟨of_shows (by decide +kernel), of_shows (by decide +kernel)⟩

/-- An asymmetric depth is also off: with two cells above and none below, the third row is told the coordinates of the fourth. -/
theorem C84_asymmetric :
    (∃ out, geoMapOverlap (idNumPy true) writeY [tower] (.dict [(.num 1, .tuple [.int 2, .int 0])]) .none .none .u8
        ⟨false, true, false⟩ ⟨[2], [2, 2], [1]⟩ = .ok out ∧ ∀ p ∈ [((0, 2, 0), FVal.fin 51)], out.raster.data p.1 = p.2) ∧
      (Boxes.Spec.centre tower.box 2 0).2 = 53 :=
  ⟨of_shows (by decide +kernel), by decide +kernel⟩

/-- The bands of the blocks are labelled from 0, though the bands of a raster are numbered from 1 (`raster.py:649`, `757`). -/
theorem C84_band_labels :
    ∃ out, geoMapBlocks (idNumPy true) writeBand [tower] .none .none .u8 ⟨false, true, false⟩ ⟨[1, 1], [4], [1]⟩ = .ok out ∧
      ∀ p ∈ [((0, 0, 0), FVal.fin 0), ((1, 0, 0), .fin 1)], out.raster.data p.1 = p.2 :=
  of_shows (by decide +kernel)

end Verif.GeoBlocks
