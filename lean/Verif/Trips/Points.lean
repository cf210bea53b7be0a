import Verif.Trips.Polygons
import Verif.Grid.Props

set_option linter.unusedSectionVars false

/-!
# C102: from a raster to points and back

`to_points` (`raster.py:2758-2805`, C22) and `rasterize` (`rasterize.py:537-713`, C33) after each other, for the models of both.
-/

namespace Verif.Trips.Points

open Verif Verif.Nulls DType
open Verif.Grid (Point toPoints)
open Verif.Rasterize (Like Ext Table Feature Args rasterize Method)

variable {K : Type} [Field K] [LinearOrder K] [IsStrictOrderedRing K] [FloorRing K]

namespace Spec

/-- The features of a band: `gdf[gdf.band == band]`. -/
def features (rows : List (Point K Num)) (band : Nat) : List (Feature (Point K Num)) :=
  (rows.filter fun p : Point K Num => decide (p.band = (band : Int))).map fun p => ⟨p, false, p.value⟩

/-- The raster to rasterize onto has the grid of `r`, and a point is burned into the cell that it is in. -/
structure OnGrid (r : Grid.Raster K Num) (like : Like (Point K Num)) : Prop where
  ny : like.ychunks.sum = r.ny
  nx : like.xchunks.sum = r.nx
  cell : ∀ p i j, i < r.ny → j < r.nx → (like.touch p (i, j) = true ↔ Grid.Spec.InCell r.affine (p.px, p.py) i j)

end Spec

open Spec

/-- What the points of a band touch. -/
theorem touching_cell {r : Grid.Raster K Num} (hb : r.affine.b = 0) (hd : r.affine.d = 0) (ha : r.affine.a ≠ 0) (he : r.affine.e ≠ 0)
    (hg : r.geographic = false) {rows : List (Point K Num)} (h : toPoints r = some rows) {like : Like (Point K Num)} (hlike : OnGrid r like)
    {b i j : Nat} (hbn : b < r.nb) (hi : i < r.ny) (hj : j < r.nx) :
    Rasterize.Spec.touching like false (features rows (b + 1)) (i, j) = if r.mask b i j = false then [r.data b i j] else [] := by
  obtain ⟨l, h', hnd, hl⟩ := Grid.C22_points hb hd ha he hg
  rw [h] at h'
  cases h'
  have hform : Rasterize.Spec.touching like false (features rows (b + 1)) (i, j) =
      ((rows.filter fun p : Point K Num => decide (p.band = ((b + 1 : Nat) : Int))).filter fun p => like.touch p (i, j)).map (·.value) := by
    unfold Rasterize.Spec.touching features
    rw [List.filter_map, List.map_map]
    rfl
  have hmem : ∀ p, p ∈ ((rows.filter fun p : Point K Num => decide (p.band = ((b + 1 : Nat) : Int))).filter fun p => like.touch p (i, j)) ↔
      r.mask b i j = false ∧ p = Grid.Spec.pointOf r (b, i, j) := by
    intro p
    simp only [List.mem_filter, decide_eq_true_eq]
    constructor
    · rintro ⟨⟨hp, hpb⟩, ht⟩
      obtain ⟨c, ⟨c1, c2, c3, c4⟩, rfl⟩ := (hl p).1 hp
      have e1 : c.1 = b := by
        simp only [Grid.Spec.pointOf] at hpb
        omega
      have hin := (hlike.cell _ i j hi hj).1 ht
      obtain ⟨e2, e3⟩ := (centre_in hb hd ha he c.2.1 c.2.2 i j).1 hin
      obtain ⟨x, y, z⟩ := c
      simp only at e1 e2 e3
      subst e1 e2 e3
      exact ⟨c4, rfl⟩
    · rintro ⟨hm, rfl⟩
      refine ⟨⟨(hl _).2 ⟨(b, i, j), ⟨hbn, hi, hj, hm⟩, rfl⟩, by simp [Grid.Spec.pointOf]⟩, ?_⟩
      exact (hlike.cell _ i j hi hj).2 ((centre_in hb hd ha he i j i j).2 ⟨rfl, rfl⟩)
  have hnd' : ((rows.filter fun p : Point K Num => decide (p.band = ((b + 1 : Nat) : Int))).filter fun p => like.touch p (i, j)).Nodup :=
    (List.Nodup.of_map _ hnd).sublist (List.filter_sublist.trans List.filter_sublist)
  rw [hform]
  generalize ((rows.filter fun p : Point K Num => decide (p.band = ((b + 1 : Nat) : Int))).filter fun p => like.touch p (i, j)) = l at hmem hnd'
  split
  · next hv =>
    match l with
    | [] => exact absurd ((hmem _).2 ⟨hv, rfl⟩) (by simp)
    | [p] =>
      rw [((hmem p).1 (by simp)).2]
      rfl
    | p :: q :: l =>
      have e1 := ((hmem p).1 (by simp)).2
      have e2 := ((hmem q).1 (by simp)).2
      rw [e1, e2] at hnd'
      simp at hnd'
  · next hv =>
    rw [List.map_eq_nil_iff, List.eq_nil_iff_forall_not_mem]
    intro p hp
    exact hv ((hmem p).1 hp).1

/-- **C102 (partial: projected CRS, and no cell has the null value asked for).** The points of a band, rasterized by their values onto the
grid of the raster, give the band back: the dtype, the null cells and the values of the others, whatever the method, the chunks and the
partitions.  Valid NaN cells come back too, unless the method is 'min' or 'max'. -/
theorem C102_points_partial {np : NumPy} {dt : DType} {r : Grid.Raster K Num} (hb : r.affine.b = 0) (hd : r.affine.d = 0)
    (ha : r.affine.a ≠ 0) (he : r.affine.e ≠ 0) (hg : r.geographic = false) {rows : List (Point K Num)} (h : toPoints r = some rows)
    {like : Like (Point K Num)} (hlike : OnGrid r like)
    {b : Nat} (hbn : b < r.nb) {s64 : Bool} {ext : Ext (Point K Num)} {t : Table (Point K Num)} (ht : t.parts.flatten = features rows (b + 1))
    {a : Args} (hf : a.field = .column (some (some dt))) (hdt : dt ≠ .bool) {fill : Scalar} {method : Method}
    (hext : Rasterize.Spec.Lawful ext like) (hgeo : Rasterize.Spec.Geometric like) (hboxes : Rasterize.Spec.TwoByTwo like)
    (hsp : a.crsDiffers = false → ∀ regions, t.spatial = some regions → Rasterize.Spec.Covers like t.parts regions)
    (hhull : Rasterize.Spec.Covers like t.parts (t.parts.map ext.hull))
    (hfill : Rasterize.fillOf a.field dt a.null = .ok fill) (hm : Rasterize.parseMethod a.method = some method)
    (hfn : fill.val ≠ .nan) (hfc : np.cast dt fill.val = fill.val) (hfr : Rasterize.viaRio np s64 dt fill.val = fill.val)
    (hvr : ∀ i < r.ny, ∀ j < r.nx, r.mask b i j = false → Rasterize.viaRio np s64 dt (r.data b i j) = r.data b i j)
    (hnf : ∀ i < r.ny, ∀ j < r.nx, r.mask b i j = false → r.data b i j ≠ fill.val)
    (hnan : method = .min ∨ method = .max → ∀ i < r.ny, ∀ j < r.nx, r.mask b i j = false → r.data b i j ≠ .nan) :
    ∃ out t', rasterize np s64 ext t like a = .ok (out, t') ∧ out.dtype = dt ∧ out.nv = some fill ∧
      (out.nb, out.ny, out.nx) = (1, r.ny, r.nx) ∧
      ∀ i j, i < r.ny → j < r.nx →
        out.mask (0, i, j) = r.mask b i j ∧ out.data (0, i, j) = if r.mask b i j = true then fill.val else r.data b i j := by
  have hft : Rasterize.fieldType a.field = .ok dt := by
    rw [hf]
    exact ((Rasterize.C33_defaults).1 dt hdt).1
  have hni : a.field.isNone = false := by rw [hf]; rfl
  have hvals : ∀ f ∈ features rows (b + 1), ∃ i < r.ny, ∃ j < r.nx, r.mask b i j = false ∧ r.data b i j = f.value := by
    intro f hf
    unfold features at hf
    obtain ⟨p, hp, rfl⟩ := List.mem_map.1 hf
    have hp' := List.mem_filter.1 hp
    have hpb : p.band = ((b + 1 : Nat) : Int) := by simpa using hp'.2
    obtain ⟨l, h', -, hl⟩ := Grid.C22_points hb hd ha he hg
    rw [h] at h'
    cases h'
    obtain ⟨c, ⟨c1, c2, c3, c4⟩, rfl⟩ := (hl p).1 hp'.1
    have e1 : c.1 = b := by
      simp only [Grid.Spec.pointOf] at hpb
      omega
    subst e1
    exact ⟨c.2.1, c2, c.2.2, c3, c4, rfl⟩
  have hv : Rasterize.Values np s64 dt fill.val method a.field.isNone t.parts.flatten := by
    rw [hni, ht]
    refine ⟨hfn, hfc, hfr, ?_, ?_, ?_⟩
    · intro f hf
      obtain ⟨i, hi, j, hj, e3, e4⟩ := hvals f hf
      simp only [Rasterize.Spec.burnValue, Bool.false_eq_true, if_false]
      rw [← e4]
      exact hvr i hi j hj e3
    · intro f hf
      obtain ⟨i, hi, j, hj, e3, e4⟩ := hvals f hf
      simp only [Rasterize.Spec.burnValue, Bool.false_eq_true, if_false]
      rw [← e4]
      exact hnf i hi j hj e3
    · intro hmm f hf
      obtain ⟨i, hi, j, hj, e3, e4⟩ := hvals f hf
      rw [← e4]
      exact hnan hmm i hi j hj e3
  obtain ⟨out, t', e, d1, d2, d3, d4, d5, _, d6⟩ := Rasterize.C33_rasterize_partial hext hgeo hboxes hsp hhull hft hfill hm hv
  rw [hlike.ny] at d4
  rw [hlike.nx] at d5
  refine ⟨out, t', e, d1, d2, by rw [d3, d4, d5], ?_⟩
  intro i j hi hj
  obtain ⟨c1, c2, c3⟩ := d6 i j (by rw [d4]; exact hi) (by rw [d5]; exact hj)
  rw [hni, ht, touching_cell hb hd ha he hg h hlike hbn hi hj] at c1 c3
  cases hc : r.mask b i j with
  | true =>
    rw [if_neg (by rw [hc]; simp)] at c1
    have := c1.2 rfl
    exact ⟨this, by rw [if_pos rfl, c2 this]⟩
  | false =>
    rw [if_pos hc] at c1 c3
    have hmask : out.mask (0, i, j) = false := by
      rw [← Bool.not_eq_true]
      intro k
      exact absurd (c1.1 k) (by simp)
    refine ⟨hmask, ?_⟩
    rw [if_neg (by simp)]
    have hp := c3 hmask
    cases method
    · simpa [Rasterize.Spec.Picks, eq_comm] using hp
    · simpa [Rasterize.Spec.Picks, eq_comm] using hp
    · simpa using hp.1
    · simpa using hp.1

/-! ### Concrete cases -/

/-- The grid of two by two cells. -/
def squareLike : Like (Point ℚ Num) where
  ychunks := [2]
  xchunks := [2]
  box := ⟨0, 0, 1, 1⟩
  chunkBox _ _ := ⟨0, 0, 1, 1⟩
  touch p q := decide (p.row = q.1) && decide (p.col = q.2)
  bounds _ := ⟨0, 0, 1, 1⟩
  keeps _ _ := true

/-- Geopandas. -/
def squareExt : Ext (Point ℚ Num) where
  clip _ _ l := l
  sortIdx l := l
  sortAsc l := l
  sortDesc l := l
  hull _ := fun _ => true

/-- The points of the first band, rasterized. -/
def back (v : Num) (null : Rasterize.NullSpec) : List (Num × Bool) :=
  match toPoints (square v) with
  | none => []
  | some rows =>
    match rasterize (idNumPy true) true squareExt ⟨[features rows 1], none⟩ squareLike
      ⟨.column (some (some u8)), "last", null, false, false⟩ with
    | .error _ => []
    | .ok out => [(0, 0), (0, 1), (1, 0), (1, 1)].map fun c => (out.1.data (0, c), out.1.mask (0, c))

/-- Back with the default null value. -/
example : back (.fin 5) .none = [(.fin 5, false), (.fin 3, false), (.fin 3, false), (.fin 255, true)] := by decide +kernel

/-- **C102 is false of the code** for cells that hold the default null value of the dtype, if no other is asked for, as for polygons (C90). -/
theorem C102_default_lost : back (.fin 255) .none = [(.fin 255, true), (.fin 3, false), (.fin 3, false), (.fin 255, true)] ∧
    back (.fin 255) (.num ⟨u8, .fin 7⟩) = [(.fin 255, false), (.fin 3, false), (.fin 3, false), (.fin 7, true)] := by decide +kernel

section
open Classical

/-- The grid of any raster, for the hypotheses. -/
noncomputable def gridLike (r : Grid.Raster ℚ Num) : Like (Point ℚ Num) where
  ychunks := r.ychunks
  xchunks := r.xchunks
  box := ⟨0, 0, 1, 1⟩
  chunkBox _ _ := ⟨0, 0, 1, 1⟩
  touch p q := decide (Grid.Spec.InCell r.affine (p.px, p.py) q.1 q.2)
  bounds _ := ⟨0, 0, 1, 1⟩
  keeps _ _ := true

example (r : Grid.Raster ℚ Num) : OnGrid r (gridLike r) := ⟨rfl, rfl, fun _ _ _ _ _ => decide_eq_true_iff⟩

end

end Verif.Trips.Points
