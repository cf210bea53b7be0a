import Verif.Polygons.Props
import Verif.Rasterize.Props

set_option linter.unusedSectionVars false

/-!
# C90: from a raster to polygons and back

`to_polygons` (`raster.py:2650-2721`, C67) and `rasterize` (`rasterize.py:537-713`, C33) after each other, for the models of both.
-/

namespace Verif.Trips

open Verif Verif.Nulls DType
open Verif.Polygons (Poly Shapes toPolygons)
open Verif.Rasterize (Like Ext Table Feature Args rasterize rasterizeMask Method)

variable {K : Type} [Field K] [LinearOrder K] [IsStrictOrderedRing K] [FloorRing K]

namespace Spec

/-- The features of a band: `gdf[gdf.band == band]`. -/
def features (rows : List (Poly K)) (band : Nat) : List (Feature (Poly K)) :=
  (rows.filter fun p => p.band = band).map fun p => ⟨p, false, p.value⟩

/-- The raster to rasterize onto has the grid of `r`, and a geometry is burned into the cells whose centre it covers. -/
structure OnGrid (r : Grid.Raster K Num) (like : Like (Poly K)) : Prop where
  ny : like.ychunks.sum = r.ny
  nx : like.xchunks.sum = r.nx
  centre : ∀ p i j, i < r.ny → j < r.nx → (like.touch p (i, j) = true ↔ Polygons.Spec.Covers p (r.x j) (r.y i))

end Spec

open Spec

/-- The centre of a cell lies in that cell only. -/
theorem centre_in {r : Grid.Raster K Num} (hb : r.affine.b = 0) (hd : r.affine.d = 0) (ha : r.affine.a ≠ 0) (he : r.affine.e ≠ 0)
    (i j i' j' : Nat) : Grid.Spec.InCell r.affine (r.x j, r.y i) i' j' ↔ i' = i ∧ j' = j := by
  have key : ∀ (m n : Nat) (u : K), 0 ≤ u → u < 1 → ((m : K) + 1 / 2 = n + u) → n = m := by
    intro m n u h0 h1 h
    have l1 : (n : K) < m + 1 := by linarith
    have l2 : (m : K) < n + 1 := by linarith
    have l1' : n < m + 1 := by exact_mod_cast l1
    have l2' : m < n + 1 := by exact_mod_cast l2
    omega
  unfold Grid.Spec.InCell Grid.Raster.x Grid.Raster.y
  simp only [hb, hd]
  constructor
  · rintro ⟨u, v, h1, h2, h3, h4, h5, h6⟩
    constructor
    · apply key i i' v h3 h4
      apply mul_left_cancel₀ he
      push_cast at h6
      linarith
    · apply key j j' u h1 h2
      apply mul_left_cancel₀ ha
      push_cast at h5
      linarith
  · rintro ⟨rfl, rfl⟩
    refine ⟨1 / 2, 1 / 2, by norm_num, by norm_num, by norm_num, by norm_num, ?_, ?_⟩ <;> push_cast <;> ring

/-- What the polygons of a band touch. -/
theorem touching_cell {np : NumPy} (hnp : Nulls.Spec.Lossless np) {shapes : Shapes} (hs : Polygons.Spec.Law shapes) {dt : DType}
    {r : Grid.Raster K Num} (hb : r.affine.b = 0) (hd : r.affine.d = 0) (ha : r.affine.a ≠ 0) (he : r.affine.e ≠ 0)
    (hex : ∀ b < r.nb, ∀ i < r.ny, ∀ j < r.nx, r.mask b i j = false → Polygons.Spec.Exact dt (r.data b i j)) {nbh : Int}
    {rows : List (Poly K)} (h : toPolygons np shapes dt r nbh = .ok rows) {like : Like (Poly K)} (hlike : OnGrid r like)
    {b i j : Nat} (hbn : b < r.nb) (hi : i < r.ny) (hj : j < r.nx) :
    Rasterize.Spec.touching like false (features rows (b + 1)) (i, j) =
      if r.mask b i j = false ∧ r.data b i j ≠ .nan then [r.data b i j] else [] := by
  obtain ⟨q1, q2, q3⟩ := Polygons.C67_polygons_partial hnp hs hb hd hex h
  have hsel : ∀ p ∈ rows, p.band = b + 1 →
      (like.touch p (i, j) = true ↔ r.mask b i j = false ∧ r.data b i j = p.value) := by
    intro p hp hpb
    obtain ⟨b', hb', e1, e2, -, e4⟩ := q2 p hp
    have hbb : b' = b := by omega
    subst hbb
    rw [hlike.centre p i j hi hj, e4]
    unfold Polygons.Spec.HasValueAt
    constructor
    · rintro ⟨i', j', _, _, hin, hm, hv⟩
      obtain ⟨rfl, rfl⟩ := (centre_in hb hd ha he i j i' j').1 hin
      exact ⟨hm, hv⟩
    · rintro ⟨hm, hv⟩
      exact ⟨i, j, hi, hj, (centre_in hb hd ha he i j i j).2 ⟨rfl, rfl⟩, hm, hv⟩
  have hform : Rasterize.Spec.touching like false (features rows (b + 1)) (i, j) =
      ((rows.filter fun p => p.band = b + 1).filter fun p => like.touch p (i, j)).map (·.value) := by
    unfold Rasterize.Spec.touching features
    rw [List.filter_map, List.map_map]
    rfl
  rw [hform]
  have hnd : ((rows.filter fun p => p.band = b + 1).map (·.value)).Nodup := by
    rw [List.Nodup, List.pairwise_map]
    have q1' := (List.pairwise_map.1 q1).filter (fun p : Poly K => decide (p.band = b + 1))
    refine q1'.imp_of_mem ?_
    intro p q hp hq hne hv
    have hp' : p.band = b + 1 := by simpa using (List.mem_filter.1 hp).2
    have hq' : q.band = b + 1 := by simpa using (List.mem_filter.1 hq).2
    exact hne (by rw [hp', hq', hv])
  split
  · next hv =>
    obtain ⟨p, hp, hpb, hpv⟩ := q3 b hbn i hi j hj hv.1 hv.2
    have hmem : ∀ v, v ∈ ((rows.filter fun p => p.band = b + 1).filter fun p => like.touch p (i, j)).map (·.value) ↔ v = r.data b i j := by
      intro v
      simp only [List.mem_map, List.mem_filter, decide_eq_true_eq]
      constructor
      · rintro ⟨q, ⟨⟨hq, hqb⟩, ht⟩, rfl⟩
        exact ((hsel q hq hqb).1 ht).2.symm
      · rintro rfl
        exact ⟨p, ⟨⟨hp, hpb⟩, (hsel p hp hpb).2 ⟨hv.1, hpv.symm⟩⟩, hpv⟩
    have hnd' : (((rows.filter fun p => p.band = b + 1).filter fun p => like.touch p (i, j)).map (·.value)).Nodup :=
      hnd.sublist (List.filter_sublist.map _)
    generalize (((rows.filter fun p => p.band = b + 1).filter fun p => like.touch p (i, j)).map (·.value)) = l at hmem hnd'
    match l with
    | [] => exact absurd ((hmem _).2 rfl) (by simp)
    | [v] => rw [(hmem v).1 (by simp)]
    | v :: w :: l =>
      have e1 := (hmem v).1 (by simp)
      have e2 := (hmem w).1 (by simp)
      rw [e1, e2] at hnd'
      simp at hnd'
  · next hv =>
    rw [List.map_eq_nil_iff, List.filter_eq_nil_iff]
    intro p hp ht
    have hp' := List.mem_filter.1 hp
    have hpb : p.band = b + 1 := by simpa using hp'.2
    obtain ⟨h1, h2⟩ := (hsel p hp'.1 hpb).1 ht
    obtain ⟨_, _, _, e2, _⟩ := q2 p hp'.1
    exact hv ⟨h1, by rw [h2]; exact e2⟩

/-- **C90.** The polygons of a band, rasterized by their values onto the grid of the raster, give the band back: the dtype, the null
cells and the values of the others, whatever the method, the neighbourhood, the chunks and the partitions, if no cell has the null value
asked for. -/
theorem C90_polygons_partial {np : NumPy} (hnp : Nulls.Spec.Lossless np) {shapes : Shapes} (hs : Polygons.Spec.Law shapes) {dt : DType}
    {r : Grid.Raster K Num} (hb : r.affine.b = 0) (hd : r.affine.d = 0) (ha : r.affine.a ≠ 0) (he : r.affine.e ≠ 0)
    (hex : ∀ b < r.nb, ∀ i < r.ny, ∀ j < r.nx, r.mask b i j = false → Polygons.Spec.Exact dt (r.data b i j)) {nbh : Int}
    {rows : List (Poly K)} (h : toPolygons np shapes dt r nbh = .ok rows) {like : Like (Poly K)} (hlike : OnGrid r like)
    {b : Nat} (hbn : b < r.nb) {s64 : Bool} {ext : Ext (Poly K)} {t : Table (Poly K)} (ht : t.parts.flatten = features rows (b + 1))
    {a : Args} (hf : a.field = .column (some (some dt))) (hdt : dt ≠ .bool) {fill : Scalar} {method : Method}
    (hext : Rasterize.Spec.Lawful ext like) (hgeo : Rasterize.Spec.Geometric like) (hboxes : Rasterize.Spec.TwoByTwo like)
    (hsp : a.crsDiffers = false → ∀ regions, t.spatial = some regions → Rasterize.Spec.Covers like t.parts regions)
    (hhull : Rasterize.Spec.Covers like t.parts (t.parts.map ext.hull))
    (hfill : Rasterize.fillOf a.field dt a.null = .ok fill) (hm : Rasterize.parseMethod a.method = some method)
    (hfn : fill.val ≠ .nan) (hfc : np.cast dt fill.val = fill.val) (hfr : Rasterize.viaRio np s64 dt fill.val = fill.val)
    (hvr : ∀ i < r.ny, ∀ j < r.nx, r.mask b i j = false → Rasterize.viaRio np s64 dt (r.data b i j) = r.data b i j)
    (hnf : ∀ i < r.ny, ∀ j < r.nx, r.mask b i j = false → r.data b i j ≠ fill.val) :
    ∃ out t', rasterize np s64 ext t like a = .ok (out, t') ∧ out.dtype = dt ∧ out.nv = some fill ∧
      (out.nb, out.ny, out.nx) = (1, r.ny, r.nx) ∧
      ∀ i j, i < r.ny → j < r.nx →
        (out.mask (0, i, j) = true ↔ r.mask b i j = true ∨ r.data b i j = .nan) ∧
        (out.mask (0, i, j) = false → out.data (0, i, j) = r.data b i j) ∧
        (out.mask (0, i, j) = true → out.data (0, i, j) = fill.val) := by
  have hft : Rasterize.fieldType a.field = .ok dt := by
    rw [hf]
    exact ((Rasterize.C33_defaults).1 dt hdt).1
  have hni : a.field.isNone = false := by rw [hf]; rfl
  have hvals : ∀ f ∈ features rows (b + 1), ∃ i < r.ny, ∃ j < r.nx, r.mask b i j = false ∧ r.data b i j = f.value ∧ f.value ≠ .nan := by
    intro f hf
    unfold features at hf
    obtain ⟨p, hp, rfl⟩ := List.mem_map.1 hf
    have hp' := List.mem_filter.1 hp
    have hpb : p.band = b + 1 := by simpa using hp'.2
    obtain ⟨_, q2, _⟩ := Polygons.C67_polygons_partial hnp hs hb hd hex h
    obtain ⟨b', _, e1, e2, ⟨i, hi, j, hj, e3, e4⟩, _⟩ := q2 p hp'.1
    have : b' = b := by omega
    subst this
    exact ⟨i, hi, j, hj, e3, e4, e2⟩
  have hv : Rasterize.Values np s64 dt fill.val method a.field.isNone t.parts.flatten := by
    rw [hni, ht]
    refine ⟨hfn, hfc, hfr, ?_, ?_, ?_⟩
    · intro f hf
      obtain ⟨i, hi, j, hj, e3, e4, _⟩ := hvals f hf
      simp only [Rasterize.Spec.burnValue, Bool.false_eq_true, if_false]
      rw [← e4]
      exact hvr i hi j hj e3
    · intro f hf
      obtain ⟨i, hi, j, hj, e3, e4, _⟩ := hvals f hf
      simp only [Rasterize.Spec.burnValue, Bool.false_eq_true, if_false]
      rw [← e4]
      exact hnf i hi j hj e3
    · intro _ f hf
      obtain ⟨_, _, _, _, _, _, e⟩ := hvals f hf
      exact e
  obtain ⟨out, t', e, d1, d2, d3, d4, d5, _, d6⟩ := Rasterize.C33_rasterize_partial hext hgeo hboxes hsp hhull hft hfill hm hv
  rw [hlike.ny] at d4
  rw [hlike.nx] at d5
  refine ⟨out, t', e, d1, d2, by rw [d3, d4, d5], ?_⟩
  intro i j hi hj
  obtain ⟨c1, c2, c3⟩ := d6 i j (by rw [d4]; exact hi) (by rw [d5]; exact hj)
  rw [hni, ht, touching_cell hnp hs hb hd ha he hex h hlike hbn hi hj] at c1 c3
  refine ⟨?_, ?_, c2⟩
  · rw [c1]
    by_cases hc : r.mask b i j = false ∧ r.data b i j ≠ .nan
    · rw [if_pos hc]
      constructor
      · intro h'; cases h'
      · rintro (h' | h')
        · rw [hc.1] at h'; cases h'
        · exact absurd h' hc.2
    · rw [if_neg hc]
      simp only [true_iff]
      by_contra hn
      rw [not_or, Bool.not_eq_true] at hn
      exact hc hn
  · intro hmask
    have hne := mt c1.2 (by rw [hmask]; exact Bool.false_ne_true)
    have hp := c3 hmask
    by_cases hc : r.mask b i j = false ∧ r.data b i j ≠ .nan
    · rw [if_pos hc] at hp
      cases method
      · simpa [Rasterize.Spec.Picks, eq_comm] using hp
      · simpa [Rasterize.Spec.Picks, eq_comm] using hp
      · simpa using hp.1
      · simpa using hp.1
    · rw [if_neg hc] at hne
      exact absurd rfl hne

/-- **C90.** With `mask=True` the polygons of a band are 1 exactly at its cells that are not null. -/
theorem C90_mask {np : NumPy} (hnp : Nulls.Spec.Lossless np) {shapes : Shapes} (hs : Polygons.Spec.Law shapes) {dt : DType}
    {r : Grid.Raster K Num} (hb : r.affine.b = 0) (hd : r.affine.d = 0) (ha : r.affine.a ≠ 0) (he : r.affine.e ≠ 0)
    (hex : ∀ b < r.nb, ∀ i < r.ny, ∀ j < r.nx, r.mask b i j = false → Polygons.Spec.Exact dt (r.data b i j)) {nbh : Int}
    {rows : List (Poly K)} (h : toPolygons np shapes dt r nbh = .ok rows) {like : Like (Poly K)} (hlike : OnGrid r like)
    {b : Nat} (hbn : b < r.nb) {ext : Ext (Poly K)} {t : Table (Poly K)} (ht : t.parts.flatten = features rows (b + 1))
    {invert crsDiffers aware : Bool}
    (hext : Rasterize.Spec.Lawful ext like) (hgeo : Rasterize.Spec.Geometric like) (hboxes : Rasterize.Spec.TwoByTwo like)
    (hsp : crsDiffers = false → ∀ regions, t.spatial = some regions → Rasterize.Spec.Covers like t.parts regions)
    (hhull : Rasterize.Spec.Covers like t.parts (t.parts.map ext.hull)) :
    ∃ out t', rasterizeMask np ext t like invert none crsDiffers aware = .ok (out, t') ∧ out.dtype = u8 ∧
      (out.nb, out.ny, out.nx) = (1, r.ny, r.nx) ∧
      ∀ i j, i < r.ny → j < r.nx → out.data (0, i, j) =
        (if (r.mask b i j = false ∧ r.data b i j ≠ .nan) ↔ invert = false then .fin 1 else .fin 0) ∧
        (out.mask (0, i, j) = true ↔ out.data (0, i, j) = .fin 0) := by
  have hempty : ∀ f ∈ t.parts.flatten, f.empty = true → ∀ p, like.touch f.geom p = false := by
    intro f hf hfe
    rw [ht] at hf
    obtain ⟨p, _, rfl⟩ := List.mem_map.1 hf
    cases hfe
  obtain ⟨out, t', e, d1, _, d3, d4, d5, d6⟩ := Rasterize.C33_mask (np := np) (invert := invert) (aware := aware) hext hgeo hboxes hsp hhull hempty
  rw [hlike.ny] at d4
  rw [hlike.nx] at d5
  refine ⟨out, t', e, d1, by rw [d3, d4, d5], ?_⟩
  intro i j hi hj
  obtain ⟨c1, c2, c3⟩ := d6 i j (by rw [d4]; exact hi) (by rw [d5]; exact hj)
  refine ⟨?_, c3⟩
  have htt : Rasterize.Spec.Touched like t.parts.flatten (i, j) ↔ (r.mask b i j = false ∧ r.data b i j ≠ .nan) := by
    have hc := touching_cell hnp hs hb hd ha he hex h hlike hbn hi hj
    rw [← ht] at hc
    have : Rasterize.Spec.Touched like t.parts.flatten (i, j) ↔ Rasterize.Spec.touching like false t.parts.flatten (i, j) ≠ [] := by
      unfold Rasterize.Spec.Touched Rasterize.Spec.touching
      rw [Ne, List.map_eq_nil_iff, List.filter_eq_nil_iff]
      simp only [not_forall, not_not]
      constructor
      · rintro ⟨f, hf, h1⟩
        refine ⟨f, hf, ?_⟩
        cases hfe : f.empty with
        | true => rw [hempty f hf hfe] at h1; cases h1
        | false => simp [h1]
      · rintro ⟨f, hf, h1⟩
        rw [Bool.and_eq_true] at h1
        exact ⟨f, hf, h1.2⟩
    rw [this, hc]
    by_cases hv : r.mask b i j = false ∧ r.data b i j ≠ .nan
    · rw [if_pos hv]
      exact ⟨fun _ => hv, fun _ => List.cons_ne_nil _ _⟩
    · rw [if_neg hv]
      exact ⟨fun h' => absurd rfl h', fun h' => absurd h' hv⟩
  rw [htt] at c2
  split
  · next hv => exact c2.2 hv
  · next hv => exact c1.resolve_right (mt c2.1 hv)

/-! ### Concrete cases -/

/-- Two rows and two columns, one null cell. -/
def square (v : Num) : Grid.Raster ℚ Num :=
  ⟨[1], [2], [2], ⟨1, 0, 0, 0, -1, 2⟩, false, fun _ y x => if y = 0 ∧ x = 0 then v else if y = 1 ∧ x = 1 then .fin 7 else .fin 3,
    fun _ y x => y == 1 && x == 1⟩

/-- Its grid, with the cells that the polygons of one chunk are made of. -/
def squareLike : Like (Poly ℚ) where
  ychunks := [2]
  xchunks := [2]
  box := ⟨0, 0, 1, 1⟩
  chunkBox _ _ := ⟨0, 0, 1, 1⟩
  touch p q := p.geometry.any fun g => g.2 == q
  bounds _ := ⟨0, 0, 1, 1⟩
  keeps _ _ := true

/-- Geopandas. -/
def squareExt : Ext (Poly ℚ) where
  clip _ _ l := l
  sortIdx l := l
  sortAsc l := l
  sortDesc l := l
  hull _ := fun _ => true

/-- The polygons of the first band, rasterized. -/
def back (v : Num) (null : Rasterize.NullSpec) : List (Num × Bool) :=
  match toPolygons (idNumPy true) Polygons.single u8 (square v) 4 with
  | .error _ => []
  | .ok rows =>
    match rasterize (idNumPy true) true squareExt ⟨[features rows 1], none⟩ squareLike
      ⟨.column (some (some u8)), "last", null, false, false⟩ with
    | .error _ => []
    | .ok out => [(0, 0), (0, 1), (1, 0), (1, 1)].map fun c => (out.1.data (0, c), out.1.mask (0, c))

/-- Back with the default null value. -/
example : back (.fin 5) .none = [(.fin 5, false), (.fin 3, false), (.fin 3, false), (.fin 255, true)] := by decide +kernel

/-- **C90 is false of the code** for cells that hold the default null value of the dtype, if no other is asked for: a raster with the null
value 7 and the value 255 in uint8 comes back with a null cell more. -/
theorem C90_default_lost : back (.fin 255) .none = [(.fin 255, true), (.fin 3, false), (.fin 3, false), (.fin 255, true)] ∧
    back (.fin 255) (.num ⟨u8, .fin 7⟩) = [(.fin 255, false), (.fin 3, false), (.fin 3, false), (.fin 7, true)] := by decide +kernel

section
open Classical

/-- The grid of any raster, for the hypotheses. -/
noncomputable def gridLike (r : Grid.Raster ℚ Num) : Like (Poly ℚ) where
  ychunks := r.ychunks
  xchunks := r.xchunks
  box := ⟨0, 0, 1, 1⟩
  chunkBox _ _ := ⟨0, 0, 1, 1⟩
  touch p q := decide (Polygons.Spec.Covers p (r.x q.2) (r.y q.1))
  bounds _ := ⟨0, 0, 1, 1⟩
  keeps _ _ := true

/-- Sorted by the numbers of a comparison that is total. -/
noncomputable def gridExt : Ext (Poly ℚ) where
  clip _ _ l := l
  sortIdx := Rasterize.Toy.sortBy fun a b => decide (a.1 ≤ b.1)
  sortAsc := Rasterize.Toy.sortBy fun a b => decide (a.value = .nan ∨ Stats.Spec.Le a.value b.value)
  sortDesc := Rasterize.Toy.sortBy fun a b => decide (a.value = .nan ∨ Stats.Spec.Le b.value a.value)
  hull _ := fun _ => true

example (r : Grid.Raster ℚ Num) (parts : List (List (Feature (Poly ℚ)))) : OnGrid r (gridLike r) ∧ Rasterize.Spec.Lawful gridExt (gridLike r) ∧
    Rasterize.Spec.Geometric (gridLike r) ∧ Rasterize.Spec.Covers (gridLike r) parts (parts.map gridExt.hull) := by
  refine ⟨⟨rfl, rfl, fun p i j _ _ => decide_eq_true_iff⟩, ⟨?_, ?_, ?_, ?_⟩, ⟨?_, ?_⟩, ?_, ?_⟩
  · intro box l
    simp [gridExt, gridLike]
  · intro l
    exact ⟨Rasterize.Toy.sortBy_perm _ _, (Rasterize.Toy.sortBy_sorted (fun a b : Nat × Feature (Poly ℚ) => decide (a.1 ≤ b.1))
      (fun a b => by simp only [decide_eq_true_eq]; exact Nat.le_total _ _)
      (fun a b c => by simp only [decide_eq_true_eq]; exact Nat.le_trans) l).imp fun h => of_decide_eq_true h⟩
  · intro l
    refine ⟨Rasterize.Toy.sortBy_perm _ _, (Rasterize.Toy.sortBy_sorted _ ?_ ?_ l).imp fun h => of_decide_eq_true h⟩
    · intro a b
      simp only [decide_eq_true_eq]
      by_cases ha : a.value = .nan
      · exact Or.inl (Or.inl ha)
      · by_cases hb : b.value = .nan
        · exact Or.inr (Or.inl hb)
        · exact (Stats.le_total' ha hb).imp Or.inr Or.inr
    · intro a b c
      simp only [decide_eq_true_eq]
      rintro (h | h) h'
      · exact Or.inl h
      · exact Or.inr (Stats.le_trans' h (h'.resolve_left (Stats.le_not_nan h).2))
  · intro l
    refine ⟨Rasterize.Toy.sortBy_perm _ _, (Rasterize.Toy.sortBy_sorted _ ?_ ?_ l).imp fun h => of_decide_eq_true h⟩
    · intro a b
      simp only [decide_eq_true_eq]
      by_cases ha : a.value = .nan
      · exact Or.inl (Or.inl ha)
      · by_cases hb : b.value = .nan
        · exact Or.inr (Or.inl hb)
        · exact (Stats.le_total' hb ha).imp Or.inr Or.inr
    · intro a b c
      simp only [decide_eq_true_eq]
      rintro (h | h) h'
      · exact Or.inl h
      · exact Or.inr (Stats.le_trans' (h'.resolve_left (Stats.le_not_nan h).1) h)
  · intro g i j q _ _
    exact ⟨rfl, by simp [gridLike, Rasterize.Box.meets]⟩
  · intro i j _ _
    simp [gridLike, Rasterize.Box.meets]
  · simp
  · intro e he f _ _ i j q _ _
    obtain ⟨n, hn, rfl⟩ := List.mem_iff_getElem.mp he
    simp [gridExt]

end

end Verif.Trips
