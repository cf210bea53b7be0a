import Verif.Trips.Forecasts
import Verif.Trips.Pieces
import Verif.Bands.Props

set_option linter.unusedSectionVars false

/-!
# C124: values read at points

`extract_points_eager` (`zonal.py:531-630`, C66) for other lists of points, the other axis, selected bands (C46), stacked rasters (C47), quadrants and
chunk rasters (C45, C21, C108).
-/

namespace Verif.Trips.Readings

open Verif Verif.Nulls DType
open Verif.Extract (extractPoints Geom)
open Verif.Extract.Spec (Reads)
open Verif.Grid.Spec (InCell)
open Verif.Trips.Forecasts.Spec (On)
open Verif.Trips.Pieces (piece Window quadrants chunks)
open Verif.Warp (Placed)
open Verif.Bands (getBands bandConcat)
open Verif.Nulls.Spec (MaskNeedsNull)

variable {K : Type} [Field K] [LinearOrder K] [IsStrictOrderedRing K] [FloorRing K]

namespace Spec

/-- The number in the column of a band and the row of a point. -/
def entry (cols : List (String × List Num)) (b p : Nat) : Option Num := cols[b]?.bind fun col => col.2[p]?

/-- The point is in a cell of the raster. -/
def Inside (g : Grid.Raster K Num) (x y : K) : Prop := ∃ i j : Nat, i < g.ny ∧ j < g.nx ∧ InCell g.affine (x, y) i j

/-- The coordinates of the raster are the centres of the cells of the grid. -/
structure Lies {C : Type} (p : Placed C) (g : Grid.Raster ℚ Num) : Prop where
  on : On p.raster g
  b : g.affine.b = 0
  d : g.affine.d = 0
  ny : p.raster.ny = p.frame.ys.length
  nx : p.raster.nx = p.frame.xs.length
  ys : ∀ (i : Nat) (y : Rat), p.frame.ys[i]? = some y → y = g.affine.e * (i + 1 / 2) + g.affine.f
  xs : ∀ (j : Nat) (x : Rat), p.frame.xs[j]? = some x → x = g.affine.a * (j + 1 / 2) + g.affine.c

end Spec

open Spec

theorem entry_reads {toF64 : Num → Num} {g : Grid.Raster K Num} (hdet : g.affine.det ≠ 0) {points : List (Geom K)} {name : String} {skip : Bool}
    {axis : Int} (ha : axis ≠ 0) {cols : List (String × List Num)} (h : extractPoints toF64 g points name skip axis = .ok (.wide cols))
    {b : Nat} (hb : b < g.nb) {p : Nat} {x y : K} (hp : points[p]? = some (.point x y)) :
    ∃ v, entry cols b p = some v ∧ Reads toF64 g b x y v := by
  obtain ⟨cols', e, -, hc⟩ := Extract.C66_columns hdet ha h
  cases e
  obtain ⟨vs, h1, -, h3⟩ := hc b hb
  obtain ⟨v, h4, h5⟩ := h3 p x y hp
  exact ⟨v, by unfold entry; rw [h1]; exact h4, h5⟩

theorem point_of {toF64 : Num → Num} {g : Grid.Raster K Num} {points : List (Geom K)} {name : String} {skip : Bool}
    {axis : Int} {t : Extract.Table} (h : extractPoints toF64 g points name skip axis = .ok t) {p : Nat} (hp : p < points.length) :
    ∃ x y, points[p]? = some (.point x y) := by
  obtain ⟨x, y, e⟩ := ((Extract.C66_accepted toF64 g points name skip axis).1 ⟨_, h⟩).2 _ (List.getElem_mem hp)
  exact ⟨x, y, by rw [List.getElem?_eq_getElem hp, e]⟩

/-- **C124 (points).** What is read at a point does not depend on the other points, their number and order, nor on the name. -/
theorem C124_points {toF64 : Num → Num} {g : Grid.Raster K Num} (hdet : g.affine.det ≠ 0) {points points' : List (Geom K)} {name name' : String}
    {skip skip' : Bool} {axis axis' : Int} (ha : axis ≠ 0) (ha' : axis' ≠ 0) {cols cols' : List (String × List Num)}
    (h : extractPoints toF64 g points name skip axis = .ok (.wide cols))
    (h' : extractPoints toF64 g points' name' skip' axis' = .ok (.wide cols')) {b : Nat} (hb : b < g.nb) {p p' : Nat} (hp : p < points.length)
    (hpp : points[p]? = points'[p']?) : entry cols b p = entry cols' b p' := by
  obtain ⟨x, y, e⟩ := point_of h hp
  obtain ⟨v, h1, h2⟩ := entry_reads hdet ha h hb e
  obtain ⟨w, h3, h4⟩ := entry_reads hdet ha' h' hb (hpp ▸ e)
  rw [h1, h3, Extract.C66_unique hdet h2 h4]

/-- **C124 (axes).** Both axes give the same numbers: the rows of a band are its column. -/
theorem C124_axes {toF64 : Num → Num} {g : Grid.Raster K Num} (hdet : g.affine.det ≠ 0) {points : List (Geom K)} {name name' : String}
    {skip skip' : Bool} {axis : Int} (ha : axis ≠ 0) {cols : List (String × List Num)} {rows : List Extract.Row}
    (h : extractPoints toF64 g points name skip axis = .ok (.wide cols)) (h' : extractPoints toF64 g points name' skip' 0 = .ok (.long rows))
    {b : Nat} (hb : b < g.nb) {p : Nat} (hp : p < points.length) :
    ∃ v, entry cols b p = some v ∧ rows[points.length * b + p]? = some ⟨points.length * b + p, b + 1, v⟩ := by
  obtain ⟨x, y, e⟩ := point_of h hp
  obtain ⟨v, h1, h2⟩ := entry_reads hdet ha h hb e
  obtain ⟨rows', e', -, hr⟩ := Extract.C66_rows hdet h'
  cases e'
  obtain ⟨w, h3, h4⟩ := hr b hb p x y e
  rw [Extract.C66_unique hdet h4 h2] at h3
  exact ⟨v, h1, h3⟩

/-- Bands with the same null cells whose valid values become the same doubles are read alike. -/
theorem reads_same {toF64 : Num → Num} {g g' : Grid.Raster K Num} (ha : g'.affine = g.affine) (hy : g'.ny = g.ny) (hx : g'.nx = g.nx) {b b' : Nat}
    (hm : ∀ i j, g'.mask b' i j = g.mask b i j)
    (hd : ∀ i j, g.mask b i j = false → toF64 (g'.data b' i j) = toF64 (g.data b i j)) {x y : K} {v : Num} (h : Reads toF64 g b x y v) :
    Reads toF64 g' b' x y v := by
  unfold Reads
  rw [ha, hy, hx]
  rcases h with ⟨i, j, hi, hj, hc, h0, rfl⟩ | ⟨h0, rfl⟩
  · exact .inl ⟨i, j, hi, hj, hc, by rw [hm, h0], (hd i j h0).symm⟩
  · exact .inr ⟨fun i j hi hj hc => by rw [hm]; exact h0 i j hi hj hc, rfl⟩

/-- **C124 (bands).** The columns of selected bands are the selected columns. -/
theorem C124_bands {toF64 : Num → Num} {r o : Raster} {bands : List Int} (ho : getBands r bands = .ok o) {g og : Grid.Raster K Num}
    (hdet : g.affine.det ≠ 0) (hg : On r g) (hog : On o og) (haff : og.affine = g.affine) {points : List (Geom K)} {name name' : String}
    {skip skip' : Bool} {axis axis' : Int} (ha : axis ≠ 0) (ha' : axis' ≠ 0) {cols cols' : List (String × List Num)}
    (h : extractPoints toF64 g points name skip axis = .ok (.wide cols))
    (h' : extractPoints toF64 og points name' skip' axis' = .ok (.wide cols')) {k b : Nat} (hk : bands[k]? = some ((b : Int) + 1))
    {p : Nat} (hp : p < points.length) : entry cols' k p = entry cols b p ∧ (entry cols b p).isSome := by
  have hacc : bands ≠ [] ∧ ∀ b ∈ bands, 1 ≤ b ∧ b ≤ (r.nb : Int) := by
    by_contra hno
    by_cases h0 : bands = []
    · rw [(Bands.C46_get_bands r bands).2.1 h0] at ho; cases ho
    · have : ∃ b ∈ bands, b < 1 ∨ (r.nb : Int) < b := by
        by_contra hb
        push Not at hb
        exact hno ⟨h0, hb⟩
      rw [(Bands.C46_get_bands r bands).2.2 h0 this] at ho; cases ho
  obtain ⟨o', ho', hnb, -, -, hy, hx, hcell⟩ := (Bands.C46_get_bands r bands).1 hacc
  rw [ho] at ho'
  cases ho'
  have hkl : k < bands.length := (List.getElem?_eq_some_iff.1 hk).1
  have hb : b < g.nb := by
    have := (hacc.2 _ (List.mem_of_getElem? hk)).2
    rw [hg.nb]
    omega
  obtain ⟨x, y, e⟩ := point_of h hp
  obtain ⟨v, h1, h2⟩ := entry_reads hdet ha h hb e
  have hdet' : og.affine.det ≠ 0 := by rw [haff]; exact hdet
  obtain ⟨w, h3, h4⟩ := entry_reads hdet' ha' h' (by rw [hog.nb, hnb]; exact hkl) e
  have := reads_same haff (by rw [hog.ny, hg.ny, hy]) (by rw [hog.nx, hg.nx, hx]) (b := b) (b' := k)
    (fun i j => by rw [hog.mask, hg.mask, (hcell k b hk i j).1]) (fun i j _ => by rw [hog.data, hg.data, (hcell k b hk i j).2]) h2
  rw [h1, h3, Extract.C66_unique hdet' h4 this]
  exact ⟨rfl, rfl⟩

/-- **C124 (stacks).** The columns of stacked rasters are the columns of the rasters, one raster after the other. -/
theorem C124_stacks {np : NumPy} {resultType : List DType → DType} {toF64 : Num → Num} {r1 r2 o : Raster} {rs : List Raster}
    (hmask : ∀ r ∈ r1 :: r2 :: rs, MaskNeedsNull r) (ho : bandConcat np resultType (r1 :: r2 :: rs) = .ok o)
    {pre post : List Raster} {r : Raster} (hr : r1 :: r2 :: rs = pre ++ r :: post) (hry : r.ny = r1.ny) (hrx : r.nx = r1.nx)
    (hkeep : ∀ c, r.mask c = false → toF64 (np.cast o.dtype (r.data c)) = toF64 (r.data c))
    {g og : Grid.Raster K Num} (hdet : g.affine.det ≠ 0) (hg : On r g) (hog : On o og) (haff : og.affine = g.affine)
    {points : List (Geom K)} {name name' : String} {skip skip' : Bool} {axis axis' : Int} (ha : axis ≠ 0) (ha' : axis' ≠ 0)
    {cols cols' : List (String × List Num)} (h : extractPoints toF64 g points name skip axis = .ok (.wide cols))
    (h' : extractPoints toF64 og points name' skip' axis' = .ok (.wide cols')) {b : Nat} (hb : b < r.nb) {p : Nat} (hp : p < points.length) :
    entry cols' ((pre.map (·.nb)).sum + b) p = entry cols b p ∧ (entry cols b p).isSome := by
  obtain ⟨o', ho', hnb, hy, hx, -, hsame, -⟩ := Bands.C47_band_concat (np := np) (resultType := resultType) hmask
  rw [ho] at ho'
  cases ho'
  have hs := hsame pre r post hr b hb
  obtain ⟨x, y, e⟩ := point_of h hp
  obtain ⟨v, h1, h2⟩ := entry_reads hdet ha h (by rw [hg.nb]; exact hb) e
  have hdet' : og.affine.det ≠ 0 := by rw [haff]; exact hdet
  have hlt : (pre.map (·.nb)).sum + b < og.nb := by
    rw [hog.nb, hnb, hr, List.map_append, List.map_cons, List.sum_append, List.sum_cons]
    omega
  obtain ⟨w, h3, h4⟩ := entry_reads hdet' ha' h' hlt e
  have := reads_same haff (by rw [hog.ny, hg.ny, hy, hry]) (by rw [hog.nx, hg.nx, hx, hrx]) (b := b) (b' := (pre.map (·.nb)).sum + b)
    (fun i j => by rw [hog.mask, hg.mask, (hs i j).1])
    (fun i j hm => by rw [hg.mask] at hm; rw [hog.data, hg.data, (hs i j).2 hm, hkeep _ hm]) h2
  rw [h1, h3, Extract.C66_unique hdet' h4 this]
  exact ⟨rfl, rfl⟩

theorem inCell_centre {A B : Grid.Affine ℚ} (hAb : A.b = 0) (hAd : A.d = 0) (hBb : B.b = 0) (hBd : B.d = 0) (ha : B.a = A.a) (he : B.e = A.e)
    {i j i' j' : Nat} (hx : B.a * (j + 1 / 2) + B.c = A.a * (j' + 1 / 2) + A.c) (hy : B.e * (i + 1 / 2) + B.f = A.e * (i' + 1 / 2) + A.f)
    {x y : ℚ} : InCell B (x, y) i j ↔ InCell A (x, y) i' j' := by
  unfold InCell
  simp only [hAb, hAd, hBb, hBd, ha, he, zero_mul, add_zero, zero_add] at hx hy ⊢
  push_cast
  constructor <;> rintro ⟨u, v, h1, h2, h3, h4, h5, h6⟩ <;> refine ⟨u, v, h1, h2, h3, h4, ?_, ?_⟩ <;> linarith

/-- **C124 (pieces).** At a point inside of a quadrant or chunk raster the same is read as from the whole raster, elsewhere NaN. -/
theorem C124_pieces {C : Type} [DecidableEq C] {toF64 : Num → Num} {q : Placed C} {ychunks xchunks : List Nat} {w : Window}
    (hys : ychunks.sum = q.raster.ny) (hxs : xchunks.sum = q.raster.nx)
    (hw : w ∈ quadrants q.raster.ny q.raster.nx ∨ w ∈ chunks ychunks xchunks) {g pg : Grid.Raster ℚ Num} (hg : Lies q g) (hpg : Lies (piece q w) pg)
    (hdet : g.affine.det ≠ 0) (hae : pg.affine.a = g.affine.a ∧ pg.affine.e = g.affine.e) {points : List (Geom ℚ)} {name name' : String}
    {skip skip' : Bool} {axis axis' : Int} (ha : axis ≠ 0) (ha' : axis' ≠ 0) {cols cols' : List (String × List Num)}
    (h : extractPoints toF64 g points name skip axis = .ok (.wide cols))
    (h' : extractPoints toF64 pg points name' skip' axis' = .ok (.wide cols')) {b : Nat} (hb : b < q.raster.nb) {p : Nat} {x y : ℚ}
    (hp : points[p]? = some (.point x y)) :
    (Inside pg x y → Inside g x y ∧ entry cols' b p = entry cols b p) ∧ (¬ Inside pg x y → entry cols' b p = some .nan) := by
  obtain ⟨-, -, -, -, hply, hplx, hcell⟩ := Pieces.C108_cells q hg.ny hg.nx hys hxs hw
  have hdet' : pg.affine.det ≠ 0 := by
    have e : pg.affine.det = g.affine.det := by
      unfold Grid.Affine.det
      rw [hg.b, hg.d, hpg.b, hpg.d, hae.1, hae.2]
    rw [e]; exact hdet
  have hsame : ∀ i j : Nat, i < pg.ny → j < pg.nx → ∃ i' j' : Nat, i' < g.ny ∧ j' < g.nx ∧
      (InCell pg.affine (x, y) i j ↔ InCell g.affine (x, y) i' j') ∧
      Warp.Spec.valid (piece q w).raster b i j = Warp.Spec.valid q.raster b i' j' := by
    intro i j hi hj
    rw [hpg.on.ny] at hi
    rw [hpg.on.nx] at hj
    obtain ⟨i', hi', j', hj', e1, e2, e3⟩ := hcell b i hi j hj
    have y1 : (piece q w).frame.ys[i]? = some ((piece q w).frame.ys[i]'(hply ▸ hi)) := List.getElem?_eq_getElem _
    have x1 : (piece q w).frame.xs[j]? = some ((piece q w).frame.xs[j]'(hplx ▸ hj)) := List.getElem?_eq_getElem _
    refine ⟨i', j', by rw [hg.on.ny]; exact hi', by rw [hg.on.nx]; exact hj', ?_, e3⟩
    exact inCell_centre hg.b hg.d hpg.b hpg.d hae.1 hae.2 ((hpg.xs j _ x1).symm.trans (hg.xs j' _ (e2 ▸ x1)))
      ((hpg.ys i _ y1).symm.trans (hg.ys i' _ (e1 ▸ y1)))
  obtain ⟨v, h1, h2⟩ := entry_reads hdet ha h (by rw [hg.on.nb]; exact hb) hp
  obtain ⟨u, h3, h4⟩ := entry_reads hdet' ha' h' (by rw [hpg.on.nb]; exact hb) hp
  constructor
  · rintro ⟨i, j, hi, hj, hc⟩
    obtain ⟨i', j', hi', hj', hiff, hval⟩ := hsame i j hi hj
    refine ⟨⟨i', j', hi', hj', hiff.1 hc⟩, ?_⟩
    rw [h1, h3]
    congr 1
    have uniq : ∀ {r c : Nat}, InCell g.affine (x, y) r c → r = i' ∧ c = j' := by
      intro r c hrc
      have e := ((Grid.C20_unique_cell g.affine hdet x y r c).2 hrc).symm.trans ((Grid.C20_unique_cell g.affine hdet x y i' j').2 (hiff.1 hc))
      simpa using e
    have uniq' : ∀ {r c : Nat}, InCell pg.affine (x, y) r c → r = i ∧ c = j := by
      intro r c hrc
      have e := ((Grid.C20_unique_cell pg.affine hdet' x y r c).2 hrc).symm.trans ((Grid.C20_unique_cell pg.affine hdet' x y i j).2 hc)
      simpa using e
    unfold Warp.Spec.valid at hval
    cases hm : q.raster.mask (b, i', j') with
    | true =>
      have hm' : (piece q w).raster.mask (b, i, j) = true := by
        by_contra hne
        simp [hm, hne] at hval
      refine (Extract.C66_unique hdet' h4 (.inr ⟨fun r c _ _ hrc => ?_, rfl⟩)).trans
        (Extract.C66_unique hdet h2 (.inr ⟨fun r c _ _ hrc => ?_, rfl⟩)).symm
      · obtain ⟨rfl, rfl⟩ := uniq' hrc
        rw [hpg.on.mask]; exact hm'
      · obtain ⟨rfl, rfl⟩ := uniq hrc
        rw [hg.on.mask]; exact hm
    | false =>
      have hm' : (piece q w).raster.mask (b, i, j) = false := by
        by_contra hne
        simp [hm, hne] at hval
      have hd : (piece q w).raster.data (b, i, j) = q.raster.data (b, i', j') := by simpa [hm, hm'] using hval
      refine (Extract.C66_unique hdet' h4 (.inl ⟨i, j, hi, hj, hc, by rw [hpg.on.mask]; exact hm', rfl⟩)).trans ?_
      rw [hpg.on.data, hd, ← hg.on.data]
      exact (Extract.C66_unique hdet h2 (.inl ⟨i', j', hi', hj', hiff.1 hc, by rw [hg.on.mask]; exact hm, rfl⟩)).symm
  · intro hno
    rw [h3]
    congr 1
    exact Extract.C66_unique hdet' h4 (.inr ⟨fun r c hr hc hrc => absurd ⟨r, c, hr, hc, hrc⟩ hno, rfl⟩)

/-- **C124 (nothing is lost).** A point inside of the raster is inside of a quadrant, and inside of a chunk raster. -/
theorem C124_somewhere {C : Type} [DecidableEq C] {q : Placed C} {ychunks xchunks : List Nat} (hys : ychunks.sum = q.raster.ny)
    (hxs : xchunks.sum = q.raster.nx) {g : Grid.Raster ℚ Num} (hg : Lies q g) {x y : ℚ} (hin : Inside g x y) {ws : List Window}
    (hws : ws = quadrants q.raster.ny q.raster.nx ∨ ws = chunks ychunks xchunks) :
    ∃ w ∈ ws, ∀ pg, Lies (piece q w) pg → pg.affine.a = g.affine.a → pg.affine.e = g.affine.e → Inside pg x y := by
  obtain ⟨i, j, hi, hj, hc⟩ := hin
  rw [hg.on.ny] at hi
  rw [hg.on.nx] at hj
  have hcov : Pieces.Spec.Cover q.raster.ny q.raster.nx ws := by
    rcases hws with rfl | rfl
    · exact Pieces.quadrants_cover _ _
    · exact hys ▸ hxs ▸ Pieces.chunks_cover _ _
  obtain ⟨w, hw, h1, h2, h3, h4⟩ := hcov i hi j hj
  refine ⟨w, hw, fun pg hpg ea ee => ⟨i - w.y0, j - w.x0, ?_, ?_, ?_⟩⟩
  · rw [hpg.on.ny]; show _ < w.y1 - w.y0; omega
  · rw [hpg.on.nx]; show _ < w.x1 - w.x0; omega
  · have y0 : q.frame.ys[i]? = some (q.frame.ys[i]'(hg.ny ▸ hi)) := List.getElem?_eq_getElem _
    have x0 : q.frame.xs[j]? = some (q.frame.xs[j]'(hg.nx ▸ hj)) := List.getElem?_eq_getElem _
    have y1 : (piece q w).frame.ys[i - w.y0]? = q.frame.ys[i]? := by
      show ((q.frame.ys.take w.y1).drop w.y0)[i - w.y0]? = _
      rw [Pieces.slice_get, if_pos (by omega)]
      congr 1; omega
    have x1 : (piece q w).frame.xs[j - w.x0]? = q.frame.xs[j]? := by
      show ((q.frame.xs.take w.x1).drop w.x0)[j - w.x0]? = _
      rw [Pieces.slice_get, if_pos (by omega)]
      congr 1; omega
    exact (inCell_centre hg.b hg.d hpg.b hpg.d ea ee ((hpg.xs _ _ (x1.trans x0)).symm.trans (hg.xs j _ x0))
      ((hpg.ys _ _ (y1.trans y0)).symm.trans (hg.ys i _ y0))).2 hc

/-! ## Concrete cases -/

open Verif.Trips.Forecasts (twoBands place)

/-- Two bands of three cells at their coordinates. -/
def twoPlaced : Placed Nat := ⟨⟨0, [1 / 2], [1 / 2, 3 / 2, 5 / 2]⟩, twoBands⟩

/-- The last quadrant, columns 1 and 2, on the same grid. -/
def rightPiece : Grid.Raster ℚ Num :=
  ⟨[2], [1], [2], ⟨1, 0, 1, 0, -1, 1⟩, false, fun b y x => twoBands.data (b, 0 + y, 1 + x), fun b y x => twoBands.mask (b, 0 + y, 1 + x)⟩

theorem twoPlaced_lies : Lies twoPlaced (place twoBands) := by
  refine ⟨⟨rfl, rfl, rfl, fun _ _ _ => rfl, fun _ _ _ => rfl⟩, rfl, rfl, rfl, rfl, ?_, ?_⟩
  · intro i y h
    have hi : i < 1 := (List.getElem?_eq_some_iff.1 h).1
    interval_cases i
    cases h
    norm_num [place]
  · intro j x h
    have hj : j < 3 := (List.getElem?_eq_some_iff.1 h).1
    interval_cases j <;> cases h <;> norm_num [place]

theorem rightPiece_lies : Lies (piece twoPlaced ⟨0, 1, 1, 3⟩) rightPiece := by
  refine ⟨⟨rfl, rfl, rfl, fun _ _ _ => rfl, fun _ _ _ => rfl⟩, rfl, rfl, rfl, rfl, ?_, ?_⟩
  · intro i y h
    have hi : i < 1 := (List.getElem?_eq_some_iff.1 h).1
    interval_cases i
    cases h
    norm_num [rightPiece]
  · intro j x h
    have hj : j < 2 := (List.getElem?_eq_some_iff.1 h).1
    interval_cases j <;> cases h <;> norm_num [rightPiece]

/-- The hypotheses of `C124_pieces`, `C124_somewhere`, `C124_points` and `C124_axes`. -/
example : (⟨0, 1, 1, 3⟩ : Window) ∈ quadrants twoPlaced.raster.ny twoPlaced.raster.nx ∧ (⟨0, 1, 1, 3⟩ : Window) ∈ chunks [1] [1, 2] ∧
    (place twoBands).affine.det ≠ 0 ∧ rightPiece.affine.a = (place twoBands).affine.a ∧ rightPiece.affine.e = (place twoBands).affine.e ∧
    extractPoints id rightPiece [.point (1 / 2) (1 / 2), .point 2 1] "w" true 1 =
      .ok (.wide [("w_1", [.nan, .fin 2]), ("w_2", [.nan, .fin 12])]) ∧
    extractPoints id (place twoBands) [.point (1 / 2) (1 / 2), .point 2 1] "v" true 1 =
      .ok (.wide [("v_1", [.fin 0, .fin 2]), ("v_2", [.nan, .fin 12])]) ∧
    extractPoints id (place twoBands) [.point 2 1, .point 9 9, .point (1 / 2) (1 / 2)] "u" true 1 =
      .ok (.wide [("u_1", [.fin 2, .nan, .fin 0]), ("u_2", [.fin 12, .nan, .nan])]) ∧
    extractPoints id (place twoBands) [.point (1 / 2) (1 / 2), .point 2 1] "v" true 0 =
      .ok (.long [⟨0, 1, .fin 0⟩, ⟨1, 1, .fin 2⟩, ⟨2, 2, .nan⟩, ⟨3, 2, .fin 12⟩]) := by decide +kernel

/-- The hypotheses of `C124_bands` and `C124_stacks`. -/
example : (∃ o, getBands twoBands [2, 1, 2] = .ok o ∧ On o (place o) ∧ (place o).affine = (place twoBands).affine ∧
      extractPoints id (place o) [.point 2 1] "v" true 1 = .ok (.wide [("v_1", [.fin 12]), ("v_2", [.fin 2]), ("v_3", [.fin 12])])) ∧
    (∃ o, bandConcat (idNumPy true) (fun _ => f64) [twoBands, twoBands] = .ok o ∧ On o (place o) ∧
      (∀ c, twoBands.mask c = false → id ((idNumPy true).cast o.dtype (twoBands.data c)) = id (twoBands.data c)) ∧
      extractPoints id (place o) [.point (1 / 2) (1 / 2), .point 2 1] "v" true 1 =
        .ok (.wide [("v_1", [.fin 0, .fin 2]), ("v_2", [.nan, .fin 12]), ("v_3", [.fin 0, .fin 2]), ("v_4", [.nan, .fin 12])])) := by
  refine ⟨⟨_, rfl, ⟨?_, ?_, ?_, fun _ _ _ => rfl, fun _ _ _ => rfl⟩, rfl, by decide +kernel⟩,
    ⟨_, rfl, ⟨?_, ?_, ?_, fun _ _ _ => rfl, fun _ _ _ => rfl⟩, fun _ _ => rfl, by decide +kernel⟩⟩ <;>
    simp [place, Grid.Raster.nb, Grid.Raster.ny, Grid.Raster.nx]

end Verif.Trips.Readings
