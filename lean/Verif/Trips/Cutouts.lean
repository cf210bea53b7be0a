import Verif.Trips.Clips
import Verif.Trips.Zones
import Verif.Bands.Props

set_option linter.unusedSectionVars false

/-!
# C116: statistics of clipped rasters

`mask`, `clip` and `erase` (`clipping.py:19-202`, C34) followed by the reductions of a raster to one number (`raster.py:70-138`, C62), next to
`zonal_stats` for each feature (`zonal.py:450-468`, C76).
-/

namespace Verif.Trips.Cutouts

open Verif Verif.Nulls DType
open Verif.Rasterize (Like Ext Table Feature)
open Verif.Rasterize.Spec (Touched)
open Verif.Clip (Place Window mask clip erase)
open Verif.Clip.Spec (Good Seen Keeps Null)
open Verif.Trips.Clips (mask_keeps)
open Verif.Trips.Clips.Spec (Kept full)
open Verif.Whole (validValues daskNansum daskNanmax daskNanmin daskNanmean)
open Verif.Whole.Spec (BlocksOf Valid total)
open Verif.Nulls.Spec (MaskNeedsNull)
open Verif.Stats.Spec (Le)

variable {G : Type}

/-! ### The values of both parts -/

theorem count_sum (v : Num) (l : List Num) : l.count v = (l.map fun w => if w = v then 1 else 0).sum := by
  induction l with
  | nil => rfl
  | cons a l ih =>
    rw [List.count_cons, ih, List.map_cons, List.sum_cons, Nat.add_comm]
    simp only [beq_iff_eq]

theorem count_values (r : Raster) (v : Num) : (validValues r).count v =
    ∑ b ∈ Finset.range r.nb, ∑ y ∈ Finset.range r.ny, ∑ x ∈ Finset.range r.nx, if r.mask (b, y, x) = false ∧ r.data (b, y, x) = v then 1 else 0 := by
  rw [count_sum, Whole.list_total]
  unfold total
  refine Finset.sum_congr rfl fun b _ => Finset.sum_congr rfl fun y _ => Finset.sum_congr rfl fun x _ => ?_
  by_cases h : r.mask (b, y, x) = false
  · simp only [h, if_true, true_and]
  · beta_reduce
    rw [if_neg h, if_neg fun k => h k.1]

theorem keeps_valid {r o : Raster} {w : Window} {k : Nat → Nat → Prop} (hm : MaskNeedsNull r) (h : Keeps r w k o) {b y x : Nat} (hb : b < r.nb)
    (hy : y < w.ny) (hx : x < w.nx) (v : Num) : (o.mask (b, y, x) = false ∧ o.data (b, y, x) = v) ↔
      k (w.row + y) (w.col + x) ∧ r.mask (b, w.row + y, w.col + x) = false ∧ r.data (b, w.row + y, w.col + x) = v := by
  obtain ⟨-, -, -, -, -, h6⟩ := h
  obtain ⟨c1, c2, -⟩ := h6 b y x hb hy hx
  have hn : ¬ Null r (b, w.row + y, w.col + x) ↔ r.mask (b, w.row + y, w.col + x) = false := by
    unfold Null
    constructor
    · intro h
      by_contra e
      rw [Bool.not_eq_false] at e
      refine h ⟨?_, e⟩
      unfold Raster.masked
      cases hv : r.nv with
      | none => exact absurd hv (hm _ e)
      | some _ => rfl
    · intro h g
      rw [h] at g
      cases g.2
  rw [c1, hn, and_assoc]
  constructor
  · rintro ⟨h1, h2, h3⟩
    exact ⟨h1, h2, (c2 h1).symm.trans h3⟩
  · rintro ⟨h1, h2, h3⟩
    exact ⟨h1, h2, (c2 h1).trans h3⟩

/-- The values of the cells that are kept and of the others are all values. -/
theorem split_values {r i o : Raster} {k : Nat → Nat → Prop} (hm : MaskNeedsNull r) (hi : Keeps r (full r) k i) (ho : Keeps r (full r) (fun y x => ¬ k y x) o) :
    (validValues r).Perm (validValues i ++ validValues o) := by
  rw [List.perm_iff_count]
  intro v
  rw [List.count_append, count_values, count_values, count_values]
  have hi' := hi
  have ho' := ho
  obtain ⟨-, i2, i3, i4, -, -⟩ := hi'
  obtain ⟨-, o2, o3, o4, -, -⟩ := ho'
  rw [i2, i3, i4, o2, o3, o4, ← Finset.sum_add_distrib]
  refine Finset.sum_congr rfl fun b hb => ?_
  rw [show (full r).ny = r.ny from rfl, show (full r).nx = r.nx from rfl, ← Finset.sum_add_distrib]
  refine Finset.sum_congr rfl fun y hy => ?_
  rw [← Finset.sum_add_distrib]
  refine Finset.sum_congr rfl fun x hx => ?_
  have e1 := keeps_valid hm hi (Finset.mem_range.1 hb) (Finset.mem_range.1 hy) (Finset.mem_range.1 hx) v
  have e2 := keeps_valid hm ho (Finset.mem_range.1 hb) (Finset.mem_range.1 hy) (Finset.mem_range.1 hx) v
  simp only [full, Nat.zero_add] at e1 e2
  by_cases hk : k y x
  · by_cases hv : r.mask (b, y, x) = false ∧ r.data (b, y, x) = v
    · rw [if_pos hv, if_pos (e1.2 ⟨hk, hv⟩), if_neg fun g => (e2.1 g).1 hk]
    · rw [if_neg hv, if_neg fun g => hv (e1.1 g).2, if_neg fun g => (e2.1 g).1 hk]
  · by_cases hv : r.mask (b, y, x) = false ∧ r.data (b, y, x) = v
    · rw [if_pos hv, if_neg fun g => hk (e1.1 g).1, if_pos (e2.2 ⟨hk, hv⟩)]
    · rw [if_neg hv, if_neg fun g => hk (e1.1 g).1, if_neg fun g => hv (e2.1 g).2]

theorem window_sum {n row m : Nat} (h : row + m ≤ n) (f : Nat → Nat) (hf : ∀ y < n, f y ≠ 0 → row ≤ y ∧ y < row + m) :
    ∑ y ∈ Finset.range n, f y = ∑ y ∈ Finset.range m, f (row + y) := by
  rw [← Finset.sum_subset (s₁ := (Finset.range m).map ⟨fun y => row + y, fun a b e => by simpa using e⟩)]
  · rw [Finset.sum_map]
    rfl
  · intro y hy
    rw [Finset.mem_map] at hy
    obtain ⟨a, ha, rfl⟩ := hy
    rw [Finset.mem_range] at ha ⊢
    show row + a < n
    omega
  · intro y hy hny
    by_contra hne
    obtain ⟨h1, h2⟩ := hf y (Finset.mem_range.1 hy) hne
    refine hny (Finset.mem_map.2 ⟨y - row, Finset.mem_range.2 (by omega), ?_⟩)
    show row + (y - row) = y
    omega

/-- Trimming away cells that are not kept leaves the values. -/
theorem trim_values {r o o' : Raster} {w : Window} {k : Nat → Nat → Prop} (hm : MaskNeedsNull r) (ho : Keeps r (full r) k o) (ho' : Keeps r w k o')
    (hy : w.row + w.ny ≤ r.ny) (hx : w.col + w.nx ≤ r.nx)
    (hin : ∀ y x, y < r.ny → x < r.nx → k y x → (w.row ≤ y ∧ y < w.row + w.ny) ∧ w.col ≤ x ∧ x < w.col + w.nx) :
    (validValues o).Perm (validValues o') := by
  rw [List.perm_iff_count]
  intro v
  rw [count_values, count_values]
  have hi' := ho
  have ho'' := ho'
  obtain ⟨-, i2, i3, i4, -, -⟩ := hi'
  obtain ⟨-, o2, o3, o4, -, -⟩ := ho''
  rw [i2, i3, i4, o2, o3, o4]
  refine Finset.sum_congr rfl fun b hb => ?_
  have key : ∀ y < r.ny, ∀ x < r.nx, (o.mask (b, y, x) = false ∧ o.data (b, y, x) = v) ↔ k y x ∧ r.mask (b, y, x) = false ∧ r.data (b, y, x) = v := by
    intro y hy x hx
    have := keeps_valid hm ho (Finset.mem_range.1 hb) (show y < (full r).ny from hy) (show x < (full r).nx from hx) v
    simpa only [full, Nat.zero_add] using this
  rw [show (full r).ny = r.ny from rfl, show (full r).nx = r.nx from rfl, window_sum hy]
  · refine Finset.sum_congr rfl fun y hy' => ?_
    rw [Finset.mem_range] at hy'
    rw [window_sum hx]
    · refine Finset.sum_congr rfl fun x hx' => ?_
      rw [Finset.mem_range] at hx'
      have e1 := key (w.row + y) (by omega) (w.col + x) (by omega)
      have e2 := keeps_valid hm ho' (Finset.mem_range.1 hb) hy' hx' v
      have e := e1.trans e2.symm
      by_cases g : o'.mask (b, y, x) = false ∧ o'.data (b, y, x) = v
      · rw [if_pos g, if_pos (e.2 g)]
      · rw [if_neg g, if_neg fun h => g (e.1 h)]
    · intro x hx' hne
      have : o.mask (b, w.row + y, x) = false ∧ o.data (b, w.row + y, x) = v := by
        by_contra g
        exact hne (if_neg g)
      exact (hin _ x (by omega) hx' ((key _ (by omega) x hx').1 this).1).2
  · intro y hy' hne
    obtain ⟨x, hx', hne'⟩ := Finset.exists_ne_zero_of_sum_ne_zero hne
    rw [Finset.mem_range] at hx'
    have : o.mask (b, y, x) = false ∧ o.data (b, y, x) = v := by
      by_contra g
      exact hne' (if_neg g)
    exact (hin y x hy' hx' ((key y hy' x hx').1 this).1).1

/-! ### Reductions -/

section

variable {np : NumPy} {ext : Ext G} {p : Place G} {t : Table G} {r : Raster}

/-- `mask` and the inverted `mask` keep complementary cells. -/
theorem both_parts (h : Good ext t p.whole r.ny r.nx) : ∃ i o, mask np ext p t r true false = .ok i ∧ mask np ext p t r true true = .ok o ∧
    Keeps r (full r) (fun y x => Touched p.whole t.parts.flatten (y, x)) i ∧ Keeps r (full r) (fun y x => ¬ Touched p.whole t.parts.flatten (y, x)) o := by
  obtain ⟨i, hi, ki⟩ := mask_keeps (np := np) (r := r) false h
  obtain ⟨o, ho, ko⟩ := mask_keeps (np := np) (r := r) true h
  refine ⟨i, o, hi, ho, ?_, ?_⟩
  · have : Kept p t false = fun y x => Touched p.whole t.parts.flatten (y, x) := by
      funext y x
      exact propext (by simp [Kept])
    exact this ▸ ki
  · have : Kept p t true = fun y x => ¬ Touched p.whole t.parts.flatten (y, x) := by
      funext y x
      exact propext (by simp [Kept])
    exact this ▸ ko

/-- The blocks of both parts are blocks of the raster. -/
theorem both_blocks (hm : MaskNeedsNull r) (h : Good ext t p.whole r.ny r.nx) {i o : Raster} (hi : mask np ext p t r true false = .ok i)
    (ho : mask np ext p t r true true = .ok o) {bi bo : List (List Num)} (hbi : BlocksOf i bi) (hbo : BlocksOf o bo) : BlocksOf r (bi ++ bo) := by
  obtain ⟨i', o', e1, e2, k1, k2⟩ := both_parts (np := np) h
  rw [hi] at e1
  rw [ho] at e2
  cases e1
  cases e2
  unfold BlocksOf
  rw [List.flatten_append]
  exact (List.Perm.append hbi hbo).trans (split_values hm k1 k2).symm

/-- **C116 (sums).**  The sum of a raster is the sum of the part inside the features and of the part outside. -/
theorem C116_sums (hm : MaskNeedsNull r) (h : Good ext t p.whole r.ny r.nx) {i o : Raster} (hi : mask np ext p t r true false = .ok i)
    (ho : mask np ext p t r true true = .ok o) {blocks bi bo : List (List Num)} (hb : BlocksOf r blocks) (hbi : BlocksOf i bi) (hbo : BlocksOf o bo)
    (ks ki ko : List Nat) : ∃ a b, daskNansum ki bi = [a] ∧ daskNansum ko bo = [b] ∧ daskNansum ks blocks = [Whole.add a b] := by
  refine ⟨_, _, Whole.daskNansum_eq ki bi, Whole.daskNansum_eq ko bo, ?_⟩
  have := both_blocks hm h hi ho hbi hbo
  rw [Whole.daskNansum_eq, Whole.nansum_perm (hb.trans this.symm), List.flatten_append, Whole.nansum_eq, List.map_append, Whole.sum_append]
  rfl

/-- **C116 (extremes).**  The minimum of a raster is the lesser of the minima of both parts, the maximum the greater of their maxima; parts without
numbers do not count. -/
theorem C116_extremes (hm : MaskNeedsNull r) (h : Good ext t p.whole r.ny r.nx) {i o : Raster} (hi : mask np ext p t r true false = .ok i)
    (ho : mask np ext p t r true true = .ok o) {blocks bi bo : List (List Num)} (hb : BlocksOf r blocks) (hbi : BlocksOf i bi) (hbo : BlocksOf o bo)
    (ks ki ko : List Nat) (hsome : ∃ v, Valid r v ∧ v ≠ .nan) :
    (∃ m, daskNanmin ks blocks = [m] ∧ (daskNanmin ki bi = [m] ∨ daskNanmin ko bo = [m]) ∧
      ∀ a, a ≠ .nan → (daskNanmin ki bi = [a] ∨ daskNanmin ko bo = [a]) → Le m a) ∧
    (∃ m, daskNanmax ks blocks = [m] ∧ (daskNanmax ki bi = [m] ∨ daskNanmax ko bo = [m]) ∧
      ∀ a, a ≠ .nan → (daskNanmax ki bi = [a] ∨ daskNanmax ko bo = [a]) → Le a m) := by
  have hboth := both_blocks hm h hi ho hbi hbo
  have hval : ∀ v, Valid r v ↔ Valid i v ∨ Valid o v := by
    intro v
    rw [← Whole.mem_validValues, ← Whole.mem_validValues, ← Whole.mem_validValues, ← hboth.mem_iff, List.flatten_append, List.mem_append, hbi.mem_iff,
      hbo.mem_iff]
  have one : ∀ {a b : Num} {l : List Num}, l = [a] → l = [b] → a = b := by
    intro a b l h1 h2
    rw [h1] at h2
    exact List.singleton_inj.1 h2
  -- what a part has to say
  have hmin : ∀ (s : Raster) (bs : List (List Num)) (js : List Nat), BlocksOf s bs → ∀ a, a ≠ .nan → daskNanmin js bs = [a] → Valid s a := by
    intro s bs js hbs a ha e
    obtain ⟨c1, c2, c3⟩ := Whole.C62_min hbs js
    by_cases g : ∃ v, Valid s v ∧ v ≠ .nan
    · obtain ⟨m, e', hv, -, -⟩ := c3 g
      rw [one e e']
      exact hv
    · by_cases g' : ∃ v, Valid s v
      · have := c2 g' fun v hv => by
          by_contra hn
          exact g ⟨v, hv, hn⟩
        exact absurd (one e this) ha
      · rw [c1 g'] at e
        cases e
  have hmax : ∀ (s : Raster) (bs : List (List Num)) (js : List Nat), BlocksOf s bs → ∀ a, a ≠ .nan → daskNanmax js bs = [a] → Valid s a := by
    intro s bs js hbs a ha e
    obtain ⟨c1, c2, c3⟩ := Whole.C62_max hbs js
    by_cases g : ∃ v, Valid s v ∧ v ≠ .nan
    · obtain ⟨m, e', hv, -, -⟩ := c3 g
      rw [one e e']
      exact hv
    · by_cases g' : ∃ v, Valid s v
      · have := c2 g' fun v hv => by
          by_contra hn
          exact g ⟨v, hv, hn⟩
        exact absurd (one e this) ha
      · rw [c1 g'] at e
        cases e
  refine ⟨?_, ?_⟩
  · obtain ⟨m, e, hv, hn, hle⟩ := (Whole.C62_min hb ks).2.2 hsome
    refine ⟨m, e, ?_, ?_⟩
    · rcases (hval m).1 hv with g | g
      · obtain ⟨m', e', hv', hn', hle'⟩ := (Whole.C62_min hbi ki).2.2 ⟨m, g, hn⟩
        rw [Stats.le_antisymm' (hle m' ((hval m').2 (.inl hv')) hn') (hle' m g hn)]
        exact .inl e'
      · obtain ⟨m', e', hv', hn', hle'⟩ := (Whole.C62_min hbo ko).2.2 ⟨m, g, hn⟩
        rw [Stats.le_antisymm' (hle m' ((hval m').2 (.inr hv')) hn') (hle' m g hn)]
        exact .inr e'
    · rintro a ha (g | g)
      · exact hle a ((hval a).2 (.inl (hmin i bi ki hbi a ha g))) ha
      · exact hle a ((hval a).2 (.inr (hmin o bo ko hbo a ha g))) ha
  · obtain ⟨m, e, hv, hn, hle⟩ := (Whole.C62_max hb ks).2.2 hsome
    refine ⟨m, e, ?_, ?_⟩
    · rcases (hval m).1 hv with g | g
      · obtain ⟨m', e', hv', hn', hle'⟩ := (Whole.C62_max hbi ki).2.2 ⟨m, g, hn⟩
        rw [Stats.le_antisymm' (hle' m g hn) (hle m' ((hval m').2 (.inl hv')) hn')]
        exact .inl e'
      · obtain ⟨m', e', hv', hn', hle'⟩ := (Whole.C62_max hbo ko).2.2 ⟨m, g, hn⟩
        rw [Stats.le_antisymm' (hle' m g hn) (hle m' ((hval m').2 (.inr hv')) hn')]
        exact .inr e'
    · rintro a ha (g | g)
      · exact hle a ((hval a).2 (.inl (hmax i bi ki hbi a ha g))) ha
      · exact hle a ((hval a).2 (.inr (hmax o bo ko hbo a ha g))) ha

/-- **C116 (trimming).**  `clip`, which trims the raster to the box of the features, has the same valid values as `mask`, which does not, and so the
same sum, if the box contains the cells that the features touch. -/
theorem C116_trim (hm : MaskNeedsNull r) (h : Good ext t p.whole r.ny r.nx) {w : Window} (hw : p.window p.featureBounds = some w)
    (h' : Good ext t (p.like w) w.ny w.nx) (hs : Seen p w) (hy : w.row + w.ny ≤ r.ny) (hx : w.col + w.nx ≤ r.nx)
    (hin : ∀ y x, y < r.ny → x < r.nx → Touched p.whole t.parts.flatten (y, x) → (w.row ≤ y ∧ y < w.row + w.ny) ∧ w.col ≤ x ∧ x < w.col + w.nx) :
    ∃ i c, mask np ext p t r true false = .ok i ∧ clip np ext p t r true none = .ok c ∧ (∀ blocks, BlocksOf i blocks ↔ BlocksOf c blocks) ∧
      ∀ bi bc, BlocksOf i bi → BlocksOf c bc → ∀ ki kc, daskNansum ki bi = daskNansum kc bc := by
  obtain ⟨i, o, e1, -, k1, -⟩ := both_parts (np := np) h
  obtain ⟨c, e2, k2⟩ := Clip.C34_clip_partial (np := np) (r := r) (bounds := none) (fun _ g => nomatch g) hw h' hs
  have hp := trim_values hm k1 k2 hy hx hin
  refine ⟨i, c, e1, e2, fun blocks => ⟨fun g => g.trans hp, fun g => g.trans hp.symm⟩, fun bi bc hi hc ki kc => ?_⟩
  rw [Whole.daskNansum_eq, Whole.daskNansum_eq, Whole.nansum_perm (hi.trans (hp.trans hc.symm))]

end

/-! ### Zones -/

namespace Spec

/-- The statistics leave NaN out. -/
def IgnoresNan {τ : Type} (st : String → List Num → τ) : Prop := ∀ s l, st s l = st s (l.filter fun v => !v.isnan)

/-- The values of a raster as float64. -/
def asFloat (np : NumPy) (r : Raster) : List Num := (validValues r).map fun v => if r.dtype = f64 then v else np.cast f64 v

end Spec

open Spec
open Verif.ZonalTable (Shape onVector statFuncs)
open Verif.ZonalTable.Spec (Unordered wanted coveredColumn Counts)
open Verif.Zonal.Spec (Consistent)

theorem filter_nan_flatMap (f : Nat → List Num) (l : List Nat) :
    (l.flatMap f).filter (fun v => !v.isnan) = l.flatMap fun y => (f y).filter fun v => !v.isnan := by
  induction l with
  | nil => rfl
  | cons a l ih => rw [List.flatMap_cons, List.flatMap_cons, List.filter_append, ih]

/-- The column of a feature is the band of the raster that is masked with it. -/
theorem column_eq {np : NumPy} {data o band : Raster} {covers : Nat → Nat → Bool} (hm : MaskNeedsNull data)
    (hk : Keeps data (full data) (fun y x => covers y x = true) o) {b : Nat} (hb : b < data.nb)
    (hband : Bands.getBands o [(b : Int) + 1] = .ok band) :
    (coveredColumn np covers data b).filter (fun v => !v.isnan) = (asFloat np band).filter fun v => !v.isnan := by
  have hk' := hk
  obtain ⟨k1, k2, k3, k4, -, -⟩ := hk'
  obtain ⟨band', e, b1, b2, -, b4, b5, b6⟩ := Bands.getBand_ok o (i := b) (by rw [k2]; exact hb)
  rw [hband] at e
  cases e
  unfold asFloat validValues coveredColumn
  rw [b1, b2, b4, b5, k1, k3, k4]
  show _ = List.filter _ (List.map _ ((List.range 1).flatMap _))
  rw [show List.range 1 = [0] from rfl, List.flatMap_cons, List.flatMap_nil, List.append_nil, List.map_flatMap, filter_nan_flatMap, filter_nan_flatMap]
  refine List.flatMap_congr fun y hy => ?_
  rw [List.mem_range] at hy
  rw [show (full data).nx = data.nx from rfl]
  have hcell : ∀ x ∈ List.range data.nx, (band.mask (0, y, x) = false ↔ covers y x = true ∧ data.mask (b, y, x) = false) ∧
      (band.mask (0, y, x) = false → band.data (0, y, x) = data.data (b, y, x)) := by
    intro x hx
    have e1 := fun v => keeps_valid hm hk hb (show y < (full data).ny from hy) (show x < (full data).nx from List.mem_range.1 hx) v
    simp only [full, Nat.zero_add] at e1
    obtain ⟨m1, m2⟩ := b6 y x
    rw [m1, m2]
    have e2 : o.mask (b, y, x) = false → o.data (b, y, x) = data.data (b, y, x) := fun g => ((e1 _).1 ⟨g, rfl⟩).2.2.symm
    exact ⟨⟨fun g => ⟨((e1 _).1 ⟨g, rfl⟩).1, ((e1 _).1 ⟨g, rfl⟩).2.1⟩, fun g => ((e1 (data.data (b, y, x))).2 ⟨g.1, g.2, rfl⟩).1⟩, e2⟩
  revert hcell
  generalize List.range data.nx = l
  induction l with
  | nil => intro _; rfl
  | cons x l ih =>
    intro hcell
    obtain ⟨c1, c2⟩ := hcell x (by simp)
    have ih' := ih fun x hx => hcell x (List.mem_cons_of_mem _ hx)
    by_cases hc : covers y x = true
    · rw [List.filterMap_cons]
      simp only [if_pos hc]
      by_cases hn : data.mask (b, y, x) = true
      · rw [if_pos hn, List.filter_cons_of_neg (by decide), ih', List.filter_cons_of_neg (by
          rw [Bool.not_eq_true', ← Bool.not_eq_true]
          intro g
          rw [Bool.not_eq_true, c1] at g
          rw [hn] at g
          cases g.2)]
      · have hn' : data.mask (b, y, x) = false := by simpa using hn
        have hb' := c1.2 ⟨hc, hn'⟩
        rw [if_neg hn, List.filter_cons_of_pos (p := fun x => !band.mask (0, y, x)) (by rw [hb']; rfl), List.map_cons, List.map_cons, c2 hb']
        generalize (if data.dtype = f64 then data.data (b, y, x) else np.cast f64 (data.data (b, y, x))) = v
        rw [List.filter_cons, List.filter_cons, ih']
    · rw [List.filterMap_cons]
      simp only [if_neg hc]
      rw [ih', List.filter_cons_of_neg (by
        rw [Bool.not_eq_true', ← Bool.not_eq_true]
        intro g
        rw [Bool.not_eq_true, c1] at g
        exact hc g.1)]

/-- **C116 (zones).**  The row that `zonal_stats` with `handle_overlap` makes for a feature holds, for each band, the statistics of the valid values of
that band of the raster masked with the feature. -/
theorem C116_zones {τ : Type} {np : NumPy} {ext : Ext G} {p : Place G} {st : String → List Num → τ} {nv : Scalar} {shapes : List Shape} {data : Raster}
    {field : Option Bool} {stats : List String} {tableOf : Shape → Table G} (hd : Consistent data) (hm : MaskNeedsNull data)
    (hcast : np.cast f64 .nan = .nan) (hst : Unordered st) (hig : IgnoresNan st) (hfield : field ≠ some false) (hs : stats ≠ [])
    (hk : ∀ s ∈ stats, s ∈ statFuncs) (hne : shapes ≠ []) (hgood : ∀ s ∈ shapes, Good ext (tableOf s) p.whole data.ny data.nx)
    (hcov : ∀ s ∈ shapes, ∀ y x, s.covers y x = true ↔ Touched p.whole (tableOf s).parts.flatten (y, x)) :
    ∃ lines, onVector np st nv shapes data field (some stats) true = .ok lines ∧
      ∀ l ∈ lines, ∃ s ∈ shapes, ∃ o, l.zone = s.zone ∧ mask np ext p (tableOf s) data true false = .ok o ∧
        ∃ bands : Nat → Raster, (∀ b < data.nb, Bands.getBands o [(b : Int) + 1] = .ok (bands b)) ∧
          l.entries = wanted st data.nb stats fun b => asFloat np (bands b) := by
  refine ⟨_, ZonalTable.C76_overlap hd hcast hst hfield hs hk hne, ?_⟩
  intro l hl
  obtain ⟨s, hs', rfl⟩ := List.mem_map.1 hl
  have hs'' := (List.mem_filter.1 hs').1
  obtain ⟨i, o, e1, -, k1, -⟩ := both_parts (np := np) (hgood s hs'')
  have k1' : Keeps data (full data) (fun y x => s.covers y x = true) i := by
    have : (fun y x => Touched p.whole (tableOf s).parts.flatten (y, x)) = fun y x => s.covers y x = true := by
      funext y x
      exact propext (hcov s hs'' y x).symm
    exact this ▸ k1
  have hnb : i.nb = data.nb := k1.2.1
  have hex : ∀ b : Nat, ∃ q : Raster, b < data.nb → Bands.getBands i [(b : Int) + 1] = .ok q := by
    intro b
    by_cases hb : b < data.nb
    · obtain ⟨q, hq, -⟩ := Bands.getBand_ok i (i := b) (by rw [hnb]; exact hb)
      exact ⟨q, fun _ => hq⟩
    · exact ⟨i, fun g => absurd g hb⟩
  choose bands hbands using hex
  refine ⟨s, hs'', i, rfl, e1, bands, hbands, ?_⟩
  unfold wanted
  refine List.flatMap_congr fun b hb => ?_
  rw [List.mem_range] at hb
  refine List.map_congr_left fun name _ => ?_
  rw [hig name (coveredColumn np s.covers data b), column_eq hm k1' hb (hbands b hb), ← hig]

/-- **C116 (zones, one number).**  With finite values that float64 holds, the sum of the row is `sum()` of the band of the masked raster, and the minimum
and maximum are its `min()` and `max()`, if a cell is valid. -/
theorem C116_zone_numbers {np : NumPy} {st : String → List Num → Num} (hst : Zones.Spec.Statistics st) {band : Raster} {q : Cell → Rat}
    (hq : Zones.Spec.Numbers np band q) {blocks : List (List Num)} (hb : BlocksOf band blocks) (ks : List Nat) :
    daskNansum ks blocks = [st "sum" (asFloat np band)] ∧
    ((∃ v, Valid band v) → daskNanmin ks blocks = [st "min" (asFloat np band)] ∧ daskNanmax ks blocks = [st "max" (asFloat np band)]) := by
  have hval : ∀ v ∈ validValues band, ∃ a : Rat, v = .fin a ∧ (band.dtype ≠ f64 → np.cast f64 (.fin a) = .fin a) := by
    intro v hv
    obtain ⟨c, hc, hm, rfl⟩ := (Whole.mem_validValues band v).1 hv
    exact ⟨q c, (hq c hc hm).1, (hq c hc hm).2⟩
  have hfl : asFloat np band = validValues band := by
    unfold asFloat
    conv_rhs => rw [← List.map_id (validValues band)]
    refine List.map_congr_left fun v hv => ?_
    obtain ⟨a, rfl, ha⟩ := hval v hv
    by_cases hd : band.dtype = f64
    · rw [if_pos hd]; rfl
    · rw [if_neg hd, ha hd]; rfl
  have hnum : validValues band = ((validValues band).map Whole.part).map .fin := by
    rw [List.map_map]
    conv_lhs => rw [← List.map_id (validValues band)]
    refine List.map_congr_left fun v hv => ?_
    obtain ⟨a, rfl, -⟩ := hval v hv
    rfl
  rw [hfl]
  refine ⟨?_, ?_⟩
  · rw [Whole.daskNansum_eq, Whole.nansum_perm hb, Whole.nansum_fin fun v hv => .inr (let ⟨a, e, _⟩ := hval v hv; ⟨a, e⟩)]
    conv_rhs => rw [hnum]
    rw [hst.sum]
  · rintro ⟨v, hv⟩
    have hv' := (Whole.mem_validValues band v).2 hv
    have hnn : ∀ v, Valid band v → v ≠ .nan := by
      intro v hv
      obtain ⟨a, rfl, -⟩ := hval v ((Whole.mem_validValues band v).2 hv)
      simp
    have hne : (validValues band).map Whole.part ≠ [] := by
      intro e
      rw [List.map_eq_nil_iff] at e
      rw [e] at hv'
      cases hv'
    have hmem : ∀ a, a ∈ (validValues band).map Whole.part ↔ Valid band (.fin a) := by
      intro a
      rw [← Whole.mem_validValues]
      conv_rhs => rw [hnum]
      constructor
      · exact fun h => List.mem_map_of_mem h
      · intro h
        obtain ⟨w, hw, e⟩ := List.mem_map.1 h
        cases e
        exact hw
    refine ⟨?_, ?_⟩
    · obtain ⟨m, e, h1, h2, h3⟩ := (Whole.C62_min hb ks).2.2 ⟨v, hv, hnn v hv⟩
      obtain ⟨m', i1, i2, i3⟩ := hst.min _ hne
      conv_rhs => rw [hnum]
      rw [e, i2]
      obtain ⟨a, rfl, -⟩ := hval m ((Whole.mem_validValues band m).2 h1)
      have g1 : a ≤ m' := h3 (.fin m') ((hmem m').1 i1) (by simp)
      rw [le_antisymm g1 (i3 a ((hmem a).2 h1))]
    · obtain ⟨m, e, h1, h2, h3⟩ := (Whole.C62_max hb ks).2.2 ⟨v, hv, hnn v hv⟩
      obtain ⟨m', i1, i2, i3⟩ := hst.max _ hne
      conv_rhs => rw [hnum]
      rw [e, i2]
      obtain ⟨a, rfl, -⟩ := hval m ((Whole.mem_validValues band m).2 h1)
      have g1 : m' ≤ a := h3 (.fin m') ((hmem m').1 i1) (by simp)
      rw [le_antisymm g1 (i3 a ((hmem a).2 h1))]

/-! ### Concrete cases -/

open Verif.Clip (place vector sample)

def valuesOf : Except Err Raster → List Num
  | .ok r => validValues r
  | .error _ => []

theorem good_whole : Good Rasterize.Toy.ext vector place.whole sample.ny sample.nx := by
  refine ⟨Rasterize.Toy.lawful _, Rasterize.Toy.geometric _ _, by simp [place, Rasterize.Spec.TwoByTwo, Rasterize.Toy.like], Rasterize.Toy.hulls _ _ _, ?_, rfl, rfl⟩
  intro f hf
  simp only [vector, List.flatten_cons, List.flatten_nil, List.append_nil, List.mem_singleton] at hf
  subst hf
  simp [Rasterize.Toy.left]

/-- Concrete cases for `C116_sums` and `C116_extremes`: the values inside and outside of a rectangle. -/
example : MaskNeedsNull sample ∧ Good Rasterize.Toy.ext vector place.whole sample.ny sample.nx ∧
    valuesOf (mask (idNumPy true) Rasterize.Toy.ext place vector sample true false) = [.fin 0, .fin 1, .fin 10, .fin 20, .fin 21] ∧
    valuesOf (mask (idNumPy true) Rasterize.Toy.ext place vector sample true true) =
      [.fin 2, .fin 3, .fin 12, .fin 13, .fin 22, .fin 23, .fin 30, .fin 31, .fin 32, .fin 33] ∧
    (validValues sample).length = 15 := by
  refine ⟨?_, good_whole, by decide +kernel, by decide +kernel, by decide +kernel⟩
  intro _ _ h
  cases h

/-- The window that holds the rectangle. -/
def tight : Place Rasterize.Toy.Rect := { place with window := fun _ => some ⟨0, 0, 3, 2⟩ }

/-- Concrete case for `C116_trim`. -/
example : tight.window tight.featureBounds = some ⟨0, 0, 3, 2⟩ ∧ Good Rasterize.Toy.ext vector tight.whole sample.ny sample.nx ∧
    Good Rasterize.Toy.ext vector (tight.like ⟨0, 0, 3, 2⟩) 3 2 ∧ Seen tight ⟨0, 0, 3, 2⟩ ∧
    (∀ y x, y < sample.ny → x < sample.nx → Touched tight.whole vector.parts.flatten (y, x) → (0 ≤ y ∧ y < 0 + 3) ∧ 0 ≤ x ∧ x < 0 + 2) ∧
    valuesOf (clip (idNumPy true) Rasterize.Toy.ext tight vector sample true none) = [.fin 0, .fin 1, .fin 10, .fin 20, .fin 21] := by
  have hempty : ∀ (l : Like Rasterize.Toy.Rect), ∀ f ∈ vector.parts.flatten, f.empty = true → ∀ p, l.touch f.geom p = false := by
    intro l f hf
    simp only [vector, List.flatten_cons, List.flatten_nil, List.append_nil, List.mem_singleton] at hf
    subst hf
    simp [Rasterize.Toy.left]
  refine ⟨rfl, good_whole, ⟨Rasterize.Toy.lawful _, ⟨?_, ?_⟩, ?_, ⟨by simp, ?_⟩, hempty _, rfl, rfl⟩, fun g y x => ?_, ?_, by decide +kernel⟩
  · intro g i j q hq ht
    exact ⟨Clip.place_meets _ g i j q hq ht, Clip.place_meets _ g i j q hq ht⟩
  · intro i j _ _
    simp only [tight, place]
    decide +kernel
  · simp [tight, place, Rasterize.Spec.TwoByTwo]
  · intro e he f hf hem i j q hq ht
    have : e.2 = Rasterize.Toy.ext.hull e.1 := by
      obtain ⟨n, hn, rfl⟩ := List.mem_iff_getElem.mp he
      simp
    rw [this]
    exact List.any_eq_true.mpr ⟨f, hf, by rw [hem]; exact Clip.place_meets _ _ _ _ _ hq ht⟩
  · rfl
  · have : ∀ y < 4, ∀ x < 4, place.whole.touch (Rasterize.Toy.left (.fin 7)).geom (y, x) = true → (0 ≤ y ∧ y < 0 + 3) ∧ 0 ≤ x ∧ x < 0 + 2 := by
      decide +kernel
    intro y x hy hx ht
    refine this y hy x hx ?_
    unfold Touched at ht
    simpa [vector, tight] using ht

/-- The shape of the rectangle and its row; the values are those of the masked raster above. -/
def exShape : Shape := ⟨.fin 7, fun y x => place.whole.touch (Rasterize.Toy.left (.fin 7)).geom (y, x)⟩

/-- Concrete cases for `C116_zones` and `C116_zone_numbers`. -/
example : (∀ y x, exShape.covers y x = true ↔ Touched place.whole vector.parts.flatten (y, x)) ∧ IgnoresNan Zones.pandas ∧
    (coveredColumn (idNumPy true) exShape.covers sample 0).filter (fun v => !v.isnan) = [.fin 0, .fin 1, .fin 10, .fin 20, .fin 21] ∧
    Zones.pandas "sum" [.fin 0, .fin 1, .fin 10, .fin 20, .fin 21] = .fin 52 := by
  refine ⟨?_, ?_, by decide +kernel, by decide +kernel⟩
  · intro y x
    unfold Touched
    simp [vector, exShape]
  · intro s l
    unfold Zones.pandas
    rw [List.filter_filter]
    simp only [Bool.and_self]

end Verif.Trips.Cutouts
