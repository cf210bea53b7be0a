import Verif.ZonalTable.Props
import Verif.Whole.Props
import Mathlib.Algebra.BigOperators.Group.Finset.Sigma
import Mathlib.Algebra.BigOperators.Ring.Finset

set_option linter.unusedSectionVars false

/-!
# C97: zones add up to the raster

The table of `zonal_stats` (`zonal.py:222-297`, C76) next to the reductions of a raster to one number (`raster.py:70-138`, C62): the
sum of the sums of the zones, the number of their cells, the least of their minima and the greatest of their maxima.
-/

namespace Verif.Trips

open Verif Verif.Nulls DType
open Verif.ZonalTable (zonalTable Ready)
open Verif.ZonalTable.Spec (zoneColumn Unordered wanted)
open Verif.Whole (daskNansum daskNanmax daskNanmin daskNanmean)
open Verif.Whole.Spec (BlocksOf)

namespace Zones

namespace Spec

/-- What pandas computes for the values of a group: NaN is left out. -/
structure Statistics (st : String → List Num → Num) : Prop where
  unordered : Unordered st
  ignores : ∀ s ∈ ["sum", "count", "min", "max"], ∀ l : List Num, st s l = st s (l.filter fun v => !v.isnan)
  sum : ∀ l : List Rat, st "sum" (l.map .fin) = .fin l.sum
  count : ∀ l : List Rat, st "count" (l.map .fin) = .fin l.length
  min : ∀ l : List Rat, l ≠ [] → ∃ m ∈ l, st "min" (l.map .fin) = .fin m ∧ ∀ v ∈ l, m ≤ v
  max : ∀ l : List Rat, l ≠ [] → ∃ m ∈ l, st "max" (l.map .fin) = .fin m ∧ ∀ v ∈ l, v ≤ m
  minNone : st "min" [] = .nan
  maxNone : st "max" [] = .nan

/-- The cells that are not null hold the numbers `q`, also as float64. -/
def Numbers (np : NumPy) (r : Raster) (q : Cell → Rat) : Prop :=
  ∀ c, r.Has c → r.mask c = false → r.data c = .fin (q c) ∧ (r.dtype ≠ f64 → np.cast f64 (.fin (q c)) = .fin (q c))

/-- The cell lies in a zone. -/
def InZone (features : Raster) (y x : Nat) : Prop := features.mask (0, y, x) = false ∧ features.data (0, y, x) ≠ .nan

instance (features : Raster) (y x : Nat) : Decidable (InZone features y x) := inferInstanceAs (Decidable (_ ∧ _))

/-- Every cell that is not null lies in a zone. -/
def Covered (features data : Raster) : Prop := ∀ b y x, data.Has (b, y, x) → data.mask (b, y, x) = false → InZone features y x

end Spec

open Spec

/-! ### Sums over zones -/

variable {M : Type} [AddCommMonoid M]

theorem filterMap_total {α : Type} (P : Nat → Prop) [DecidablePred P] (v : Nat → α) (g : α → M) (n : Nat) :
    (((List.range n).filterMap fun x => if P x then some (v x) else none).map g).sum =
      ∑ x ∈ Finset.range n, if P x then g (v x) else 0 := by
  induction n with
  | zero => simp
  | succ n ih =>
    rw [List.range_succ, List.filterMap_append, List.map_append, List.sum_append, ih, Finset.sum_range_succ]
    congr 1
    by_cases h : P n <;> simp [h]

theorem flatMap_total {α : Type} (f : Nat → List α) (g : α → M) (n : Nat) :
    (((List.range n).flatMap f).map g).sum = ∑ y ∈ Finset.range n, ((f y).map g).sum := by
  induction n with
  | zero => simp
  | succ n ih =>
    rw [List.range_succ, List.flatMap_append, List.map_append, List.sum_append, ih, Finset.sum_range_succ]
    simp

/-- The value of a cell in the table. -/
def value (np : NumPy) (data : Raster) (c : Cell) : Num :=
  if data.mask c = true then .nan else if data.dtype = f64 then data.data c else np.cast f64 (data.data c)

theorem zoneColumn_total (np : NumPy) (features data : Raster) (b : Nat) (z : Num) (g : Num → M) :
    ((zoneColumn np features data b z).map g).sum = ∑ y ∈ Finset.range data.ny, ∑ x ∈ Finset.range data.nx,
      if features.mask (0, y, x) = false ∧ features.data (0, y, x) = z then g (value np data (b, y, x)) else 0 := by
  unfold zoneColumn
  rw [flatMap_total]
  refine Finset.sum_congr rfl fun y _ => ?_
  exact filterMap_total _ (fun x => value np data (b, y, x)) g _

/-- The zones of the table. -/
theorem zones_total {np : NumPy} {st : String → List Num → Num} {features data : Raster} {stats : List String}
    (h : Ready np features data) (hst : Unordered st) (b : Nat) (g : Num → M) :
    ((zonalTable np st features data stats).map fun l => ((zoneColumn np features data b l.zone).map g).sum).sum =
      ∑ y ∈ Finset.range data.ny, ∑ x ∈ Finset.range data.nx, if InZone features y x then g (value np data (b, y, x)) else 0 := by
  obtain ⟨h1, h2, -⟩ := ZonalTable.C76_wide (stats := stats) h hst
  have hnd : ((zonalTable np st features data stats).map (·.zone)).Nodup := h1.imp fun e => e.2
  have e : ((zonalTable np st features data stats).map fun l => ((zoneColumn np features data b l.zone).map g).sum) =
      ((zonalTable np st features data stats).map (·.zone)).map fun z => ((zoneColumn np features data b z).map g).sum := by
    rw [List.map_map]; rfl
  rw [e, ← List.sum_toFinset _ hnd]
  simp only [zoneColumn_total]
  rw [Finset.sum_comm]
  refine Finset.sum_congr rfl fun y hy => ?_
  rw [Finset.sum_comm]
  refine Finset.sum_congr rfl fun x hx => ?_
  by_cases hz : InZone features y x
  · rw [if_pos hz, Finset.sum_eq_single (features.data (0, y, x))]
    · rw [if_pos ⟨hz.1, rfl⟩]
    · intro z _ hne
      exact if_neg fun k => hne k.2.symm
    · intro hno
      exact absurd (List.mem_toFinset.2 ((h2 _).2 ⟨hz.2, y, x, Finset.mem_range.1 hy, Finset.mem_range.1 hx, hz.1, rfl⟩)) hno
  · rw [if_neg hz]
    refine Finset.sum_eq_zero fun z hzm => if_neg fun k => hz ⟨k.1, ?_⟩
    rw [k.2]
    exact ((h2 z).1 (List.mem_toFinset.1 hzm)).1

/-! ### The values of a zone -/

theorem value_valid {np : NumPy} {data : Raster} {q : Cell → Rat} (hq : Numbers np data q) {c : Cell} (hc : data.Has c)
    (hm : data.mask c = false) : value np data c = .fin (q c) := by
  obtain ⟨h1, h2⟩ := hq c hc hm
  unfold value
  rw [if_neg (by rw [hm]; decide)]
  by_cases hd : data.dtype = f64
  · rw [if_pos hd, h1]
  · rw [if_neg hd, h1, h2 hd]

theorem value_null {np : NumPy} {data : Raster} {c : Cell} (hm : data.mask c = true) : value np data c = .nan := if_pos hm

theorem mem_zoneColumn {np : NumPy} {features data : Raster} {b : Nat} {z v : Num} :
    v ∈ zoneColumn np features data b z ↔ ∃ y x, y < data.ny ∧ x < data.nx ∧ features.mask (0, y, x) = false ∧
      features.data (0, y, x) = z ∧ v = value np data (b, y, x) := by
  unfold zoneColumn
  simp only [List.mem_flatMap, List.mem_filterMap, List.mem_range]
  constructor
  · rintro ⟨y, hy, x, hx, h⟩
    by_cases hc : features.mask (0, y, x) = false ∧ features.data (0, y, x) = z
    · rw [if_pos hc] at h
      exact ⟨y, x, hy, hx, hc.1, hc.2, (Option.some.inj h).symm⟩
    · rw [if_neg hc] at h
      exact absurd h (by simp)
  · rintro ⟨y, x, hy, hx, h1, h2, rfl⟩
    exact ⟨y, hy, x, hx, if_pos ⟨h1, h2⟩⟩

/-- The numbers of a zone. -/
def numbers (np : NumPy) (features data : Raster) (b : Nat) (z : Num) : List Rat :=
  ((zoneColumn np features data b z).filter fun v => !v.isnan).map Whole.part

theorem numbers_fin {np : NumPy} {features data : Raster} {q : Cell → Rat} (hq : Numbers np data q) {b : Nat} (hb : b < data.nb) (z : Num) :
    (zoneColumn np features data b z).filter (fun v => !v.isnan) = (numbers np features data b z).map .fin := by
  unfold numbers
  rw [List.map_map]
  symm
  conv_rhs => rw [← List.map_id ((zoneColumn np features data b z).filter fun v => !v.isnan)]
  refine List.map_congr_left fun v hv => ?_
  obtain ⟨hv, hn⟩ := List.mem_filter.1 hv
  obtain ⟨y, x, hy, hx, -, -, rfl⟩ := mem_zoneColumn.1 hv
  by_cases hm : data.mask (b, y, x) = false
  · rw [value_valid hq ⟨hb, hy, hx⟩ hm]; rfl
  · rw [value_null (Bool.not_eq_false _ ▸ hm)] at hn
    exact absurd hn (by decide)

theorem mem_numbers {np : NumPy} {features data : Raster} {q : Cell → Rat} (hq : Numbers np data q) {b : Nat} (hb : b < data.nb)
    {z : Num} {v : Rat} : v ∈ numbers np features data b z ↔ ∃ y x, y < data.ny ∧ x < data.nx ∧ features.mask (0, y, x) = false ∧
      features.data (0, y, x) = z ∧ data.mask (b, y, x) = false ∧ v = q (b, y, x) := by
  have e : v ∈ numbers np features data b z ↔ (.fin v : Num) ∈ (zoneColumn np features data b z).filter fun v => !v.isnan := by
    rw [numbers_fin hq hb]
    constructor
    · exact fun h => List.mem_map.2 ⟨v, h, rfl⟩
    · intro h
      obtain ⟨w, hw, e⟩ := List.mem_map.1 h
      cases e
      exact hw
  rw [e, List.mem_filter, mem_zoneColumn]
  constructor
  · rintro ⟨⟨y, x, hy, hx, h1, h2, h3⟩, -⟩
    by_cases hm : data.mask (b, y, x) = false
    · rw [value_valid hq ⟨hb, hy, hx⟩ hm] at h3
      cases h3
      exact ⟨y, x, hy, hx, h1, h2, hm, rfl⟩
    · rw [value_null (Bool.not_eq_false _ ▸ hm)] at h3
      exact absurd h3 (by simp)
  · rintro ⟨y, x, hy, hx, h1, h2, hm, rfl⟩
    exact ⟨⟨y, x, hy, hx, h1, h2, (value_valid hq ⟨hb, hy, hx⟩ hm).symm⟩, rfl⟩

theorem filter_sum (l : List Num) (g : Num → M) (h : g .nan = 0) :
    ((l.filter fun v => !v.isnan).map g).sum = (l.map g).sum := by
  induction l with
  | nil => rfl
  | cons a l ih =>
    cases a with
    | nan =>
      rw [List.filter_cons_of_neg (by decide), ih, List.map_cons, List.sum_cons, h, zero_add]
    | _ => rw [List.filter_cons_of_pos rfl, List.map_cons, List.map_cons, List.sum_cons, List.sum_cons, ih]

/-- The entries of a line of the table with one statistic. -/
theorem line_entries {np : NumPy} {st : String → List Num → Num} {features data : Raster} {s : String}
    (h : Ready np features data) (hst : Unordered st) {l : ZonalTable.Line Num} (hl : l ∈ zonalTable np st features data [s]) :
    l.entries.map (·.2) = (List.range data.nb).map fun b => st s (zoneColumn np features data b l.zone) := by
  rw [(ZonalTable.C76_wide (stats := [s]) h hst).2.2 l hl]
  unfold wanted
  rw [List.map_flatMap]
  simp only [List.map_cons, List.map_nil]
  induction List.range data.nb with
  | nil => rfl
  | cons a m ih => rw [List.flatMap_cons, ih]; rfl

/-- **C97 (sums).**  In each band the sums of the zones add up to the sum of the cells that are not null and lie in a zone. -/
theorem C97_sums {np : NumPy} {st : String → List Num → Num} {features data : Raster} {q : Cell → Rat}
    (h : Ready np features data) (hst : Statistics st) (hq : Numbers np data q) :
    ∃ s : Num → Nat → Rat,
      (∀ l ∈ zonalTable np st features data ["sum"], l.entries.map (·.2) = (List.range data.nb).map fun b => .fin (s l.zone b)) ∧
      ∀ b < data.nb, ((zonalTable np st features data ["sum"]).map fun l => s l.zone b).sum =
        ∑ y ∈ Finset.range data.ny, ∑ x ∈ Finset.range data.nx,
          if InZone features y x ∧ data.mask (b, y, x) = false then q (b, y, x) else 0 := by
  refine ⟨fun z b => (numbers np features data b z).sum, fun l hl => ?_, fun b hb => ?_⟩
  · rw [line_entries h hst.unordered hl]
    refine List.map_congr_left fun b hb => ?_
    rw [hst.ignores "sum" (by simp), numbers_fin hq (List.mem_range.1 hb), hst.sum]
  · have e : ∀ z, (numbers np features data b z).sum = ((zoneColumn np features data b z).map Whole.part).sum :=
      fun z => filter_sum _ _ rfl
    simp only [e]
    rw [zones_total h hst.unordered]
    refine Finset.sum_congr rfl fun y hy => Finset.sum_congr rfl fun x hx => ?_
    have hc : data.Has (b, y, x) := ⟨hb, Finset.mem_range.1 hy, Finset.mem_range.1 hx⟩
    by_cases hz : InZone features y x
    · rw [if_pos hz]
      by_cases hm : data.mask (b, y, x) = false
      · rw [if_pos ⟨hz, hm⟩, value_valid hq hc hm]; rfl
      · rw [if_neg fun k => hm k.2, value_null (Bool.not_eq_false _ ▸ hm)]; rfl
    · rw [if_neg hz, if_neg fun k => hz k.1]

/-- **C97 (counts).**  In each band the counts of the zones add up to the number of cells that are not null and lie in a zone. -/
theorem C97_counts {np : NumPy} {st : String → List Num → Num} {features data : Raster} {q : Cell → Rat}
    (h : Ready np features data) (hst : Statistics st) (hq : Numbers np data q) :
    ∃ n : Num → Nat → Nat,
      (∀ l ∈ zonalTable np st features data ["count"], l.entries.map (·.2) = (List.range data.nb).map fun b => .fin (n l.zone b)) ∧
      ∀ b < data.nb, ((zonalTable np st features data ["count"]).map fun l => n l.zone b).sum =
        ∑ y ∈ Finset.range data.ny, ∑ x ∈ Finset.range data.nx,
          if InZone features y x ∧ data.mask (b, y, x) = false then 1 else 0 := by
  refine ⟨fun z b => (numbers np features data b z).length, fun l hl => ?_, fun b hb => ?_⟩
  · rw [line_entries h hst.unordered hl]
    refine List.map_congr_left fun b hb => ?_
    rw [hst.ignores "count" (by simp), numbers_fin hq (List.mem_range.1 hb), hst.count]
  · have e : ∀ z, (numbers np features data b z).length =
        ((zoneColumn np features data b z).map fun v => if v.isnan = true then 0 else 1).sum := by
      intro z
      unfold numbers
      rw [List.length_map, ← filter_sum _ _ (by rfl)]
      induction zoneColumn np features data b z with
      | nil => rfl
      | cons a m ih =>
        cases a with
        | nan => rw [List.filter_cons_of_neg (by decide)]; exact ih
        | _ => rw [List.filter_cons_of_pos rfl, List.length_cons, ih, List.map_cons, List.sum_cons, Nat.add_comm]; rfl
    simp only [e]
    rw [zones_total h hst.unordered]
    refine Finset.sum_congr rfl fun y hy => Finset.sum_congr rfl fun x hx => ?_
    have hc : data.Has (b, y, x) := ⟨hb, Finset.mem_range.1 hy, Finset.mem_range.1 hx⟩
    by_cases hz : InZone features y x
    · rw [if_pos hz]
      by_cases hm : data.mask (b, y, x) = false
      · rw [value_valid hq hc hm, if_pos (show InZone features y x ∧ data.mask (b, y, x) = false from ⟨hz, hm⟩)]; rfl
      · rw [value_null (Bool.not_eq_false _ ▸ hm), if_neg (show ¬(InZone features y x ∧ data.mask (b, y, x) = false) from fun k => hm k.2)]; rfl
    · rw [if_neg hz, if_neg fun k => hz k.1]

/-- **C97 (total).**  If every cell that is not null lies in a zone, `raster.sum()` is the sum of the sums of all zones and bands, and
`raster.mean()` this sum divided by the sum of their counts. -/
theorem C97_total {np : NumPy} {st : String → List Num → Num} {features data : Raster} {q : Cell → Rat}
    (h : Ready np features data) (hst : Statistics st) (hq : Numbers np data q) (hcov : Covered features data)
    {blocks : List (List Num)} (hb : BlocksOf data blocks) (ks : List Nat) :
    ∃ (s : Num → Nat → Rat) (n : Num → Nat → Nat),
      (∀ l ∈ zonalTable np st features data ["sum"], l.entries.map (·.2) = (List.range data.nb).map fun b => .fin (s l.zone b)) ∧
      (∀ l ∈ zonalTable np st features data ["count"], l.entries.map (·.2) = (List.range data.nb).map fun b => .fin (n l.zone b)) ∧
      daskNansum ks blocks =
        [.fin (∑ b ∈ Finset.range data.nb, ((zonalTable np st features data ["sum"]).map fun l => s l.zone b).sum)] ∧
      daskNanmean ks blocks =
        [if (∑ b ∈ Finset.range data.nb, ((zonalTable np st features data ["count"]).map fun l => n l.zone b).sum) = 0 then .nan
          else .fin ((∑ b ∈ Finset.range data.nb, ((zonalTable np st features data ["sum"]).map fun l => s l.zone b).sum) /
            (∑ b ∈ Finset.range data.nb, ((zonalTable np st features data ["count"]).map fun l => n l.zone b).sum : Nat))] := by
  obtain ⟨s, hs1, hs2⟩ := C97_sums h hst hq
  obtain ⟨n, hn1, hn2⟩ := C97_counts h hst hq
  have hfin : ∀ c, data.Has c → data.mask c = false → data.data c = .fin (q c) ∨ (data.data c = .nan ∧ q c = 0) :=
    fun c hc hm => .inl (hq c hc hm).1
  have e1 : (∑ b ∈ Finset.range data.nb, ((zonalTable np st features data ["sum"]).map fun l => s l.zone b).sum) =
      Whole.Spec.total data fun c => if data.mask c = false then q c else 0 := by
    unfold Whole.Spec.total
    refine Finset.sum_congr rfl fun b hb => ?_
    rw [hs2 b (Finset.mem_range.1 hb)]
    refine Finset.sum_congr rfl fun y hy => Finset.sum_congr rfl fun x hx => ?_
    have hc : data.Has (b, y, x) := ⟨Finset.mem_range.1 hb, Finset.mem_range.1 hy, Finset.mem_range.1 hx⟩
    beta_reduce
    by_cases hm : data.mask (b, y, x) = false
    · rw [if_pos ⟨hcov b y x hc hm, hm⟩, if_pos hm]
    · rw [if_neg fun k => hm k.2, if_neg hm]
  have e2 : (∑ b ∈ Finset.range data.nb, ((zonalTable np st features data ["count"]).map fun l => n l.zone b).sum) =
      Whole.Spec.count data := by
    unfold Whole.Spec.count Whole.Spec.total
    refine Finset.sum_congr rfl fun b hb => ?_
    rw [hn2 b (Finset.mem_range.1 hb)]
    refine Finset.sum_congr rfl fun y hy => Finset.sum_congr rfl fun x hx => ?_
    have hc : data.Has (b, y, x) := ⟨Finset.mem_range.1 hb, Finset.mem_range.1 hy, Finset.mem_range.1 hx⟩
    beta_reduce
    by_cases hm : data.mask (b, y, x) = false
    · rw [if_pos ⟨hcov b y x hc hm, hm⟩, if_pos ⟨hm, by rw [(hq _ hc hm).1]; exact nofun⟩]
    · rw [if_neg fun k => hm k.2, if_neg fun k => hm k.1]
  refine ⟨s, n, hs1, hn1, ?_, ?_⟩
  · rw [e1]; exact Whole.C62_sum hb ks hfin
  · rw [e1, e2]; exact Whole.C62_mean hb ks hfin

/-- **C97 (extremes).**  If every cell that is not null lies in a zone and there is one, `raster.min()` is the least of the minima of the zones
and `raster.max()` the greatest of their maxima; zones without numbers have NaN. -/
theorem C97_extremes {np : NumPy} {st : String → List Num → Num} {features data : Raster} {q : Cell → Rat}
    (h : Ready np features data) (hst : Statistics st) (hq : Numbers np data q) (hcov : Covered features data)
    {blocks : List (List Num)} (hb : BlocksOf data blocks) (ks : List Nat) (hsome : ∃ c, data.Has c ∧ data.mask c = false) :
    (∃ m : Rat, daskNanmin ks blocks = [.fin m] ∧
      (∃ l ∈ zonalTable np st features data ["min"], .fin m ∈ l.entries.map (·.2)) ∧
      ∀ l ∈ zonalTable np st features data ["min"], ∀ v ∈ l.entries.map (·.2), v = .nan ∨ ∃ a, v = .fin a ∧ m ≤ a) ∧
    (∃ m : Rat, daskNanmax ks blocks = [.fin m] ∧
      (∃ l ∈ zonalTable np st features data ["max"], .fin m ∈ l.entries.map (·.2)) ∧
      ∀ l ∈ zonalTable np st features data ["max"], ∀ v ∈ l.entries.map (·.2), v = .nan ∨ ∃ a, v = .fin a ∧ a ≤ m) := by
  have hex : ∃ v, Whole.Spec.Valid data v ∧ v ≠ .nan := by
    obtain ⟨c, hc, hm⟩ := hsome
    exact ⟨_, ⟨c, hc, hm, rfl⟩, by rw [(hq c hc hm).1]; exact nofun⟩
  have hline : ∀ s : String, ∀ c, data.Has c → data.mask c = false →
      ∃ l ∈ zonalTable np st features data [s], q c ∈ numbers np features data c.1 l.zone := by
    rintro s ⟨b, y, x⟩ hc hm
    have hz := hcov b y x hc hm
    have hmem := ((ZonalTable.C76_wide (stats := [s]) h hst.unordered).2.1 (features.data (0, y, x))).2
      ⟨hz.2, y, x, hc.2.1, hc.2.2, hz.1, rfl⟩
    obtain ⟨l, hl, e⟩ := List.mem_map.1 hmem
    exact ⟨l, hl, (mem_numbers hq hc.1).2 ⟨y, x, hc.2.1, hc.2.2, hz.1, e.symm, hm, rfl⟩⟩
  have hval : ∀ s ∈ ["sum", "count", "min", "max"], ∀ l ∈ zonalTable np st features data [s], ∀ v,
      v ∈ l.entries.map (·.2) ↔ ∃ b < data.nb, v = st s ((numbers np features data b l.zone).map .fin) := by
    intro s hs l hl v
    rw [line_entries h hst.unordered hl, List.mem_map]
    constructor
    · rintro ⟨b, hb, rfl⟩
      exact ⟨b, List.mem_range.1 hb, by rw [hst.ignores s hs, numbers_fin hq (List.mem_range.1 hb)]⟩
    · rintro ⟨b, hb, rfl⟩
      exact ⟨b, List.mem_range.2 hb, by rw [hst.ignores s hs, numbers_fin hq hb]⟩
  have hnum : ∀ b < data.nb, ∀ z a, a ∈ numbers np features data b z → Whole.Spec.Valid data (.fin a) := by
    intro b hb z a ha
    obtain ⟨y, x, hy, hx, -, -, hm, rfl⟩ := (mem_numbers hq hb).1 ha
    exact ⟨(b, y, x), ⟨hb, hy, hx⟩, hm, (hq _ ⟨hb, hy, hx⟩ hm).1⟩
  refine ⟨?_, ?_⟩
  · obtain ⟨m, h1, ⟨c, hc, hm, e⟩, -, h4⟩ := (Whole.C62_min hb ks).2.2 hex
    rw [(hq c hc hm).1] at e
    subst e
    refine ⟨q c, h1, ?_, ?_⟩
    · obtain ⟨l, hl, hn⟩ := hline "min" c hc hm
      refine ⟨l, hl, (hval "min" (by simp) l hl _).2 ⟨c.1, hc.1, ?_⟩⟩
      obtain ⟨a, ha, e, hle⟩ := hst.min _ (List.ne_nil_of_mem hn)
      rw [e]
      have k1 : q c ≤ a := h4 _ (hnum _ hc.1 _ _ ha) nofun
      rw [le_antisymm k1 (hle _ hn)]
    · intro l hl v hv
      obtain ⟨b, hb', rfl⟩ := (hval "min" (by simp) l hl _).1 hv
      by_cases hne : numbers np features data b l.zone = []
      · rw [hne]; exact .inl hst.minNone
      · obtain ⟨a, ha, e, -⟩ := hst.min _ hne
        exact .inr ⟨a, e, h4 _ (hnum _ hb' _ _ ha) nofun⟩
  · obtain ⟨m, h1, ⟨c, hc, hm, e⟩, -, h4⟩ := (Whole.C62_max hb ks).2.2 hex
    rw [(hq c hc hm).1] at e
    subst e
    refine ⟨q c, h1, ?_, ?_⟩
    · obtain ⟨l, hl, hn⟩ := hline "max" c hc hm
      refine ⟨l, hl, (hval "max" (by simp) l hl _).2 ⟨c.1, hc.1, ?_⟩⟩
      obtain ⟨a, ha, e, hle⟩ := hst.max _ (List.ne_nil_of_mem hn)
      rw [e]
      have k1 : a ≤ q c := h4 _ (hnum _ hc.1 _ _ ha) nofun
      rw [le_antisymm k1 (hle _ hn)]
    · intro l hl v hv
      obtain ⟨b, hb', rfl⟩ := (hval "max" (by simp) l hl _).1 hv
      by_cases hne : numbers np features data b l.zone = []
      · rw [hne]; exact .inl hst.maxNone
      · obtain ⟨a, ha, e, -⟩ := hst.max _ hne
        exact .inr ⟨a, e, h4 _ (hnum _ hb' _ _ ha) nofun⟩

/-! ### Cases that meet the hypotheses -/

/-- The statistics of the numbers of a group. -/
def pandas (s : String) (l : List Num) : Num :=
  let r := (l.filter fun v => !v.isnan).map Whole.part
  if s = "sum" then .fin r.sum else if s = "count" then .fin r.length
  else if s = "min" then (match r.min? with | none => .nan | some m => .fin m)
  else (match r.max? with | none => .nan | some m => .fin m)

theorem pandas_numbers (l : List Rat) : ((l.map (.fin : Rat → Num)).filter fun v : Num => !Num.isnan v).map Whole.part = l := by
  induction l with
  | nil => rfl
  | cons a l ih => rw [List.map_cons, List.filter_cons_of_pos rfl, List.map_cons, ih]; rfl

example : Statistics pandas := by
  refine ⟨?_, ?_, ?_, ?_, ?_, ?_, rfl, rfl⟩
  · intro s g h hp
    have hr := (hp.filter fun v => !v.isnan).map Whole.part
    unfold pandas
    simp only [hr.sum_eq, hr.length_eq]
    have e1 : (((g.filter fun v => !v.isnan).map Whole.part).min?) = (((h.filter fun v => !v.isnan).map Whole.part).min?) := by
      generalize (g.filter fun v => !v.isnan).map Whole.part = a at hr
      generalize (h.filter fun v => !v.isnan).map Whole.part = b at hr
      ext m
      simp only [List.min?_eq_some_iff, hr.mem_iff]
    have e2 : (((g.filter fun v => !v.isnan).map Whole.part).max?) = (((h.filter fun v => !v.isnan).map Whole.part).max?) := by
      generalize (g.filter fun v => !v.isnan).map Whole.part = a at hr
      generalize (h.filter fun v => !v.isnan).map Whole.part = b at hr
      ext m
      simp only [List.max?_eq_some_iff, hr.mem_iff]
    rw [e1, e2]
  · intro s _ l
    unfold pandas
    rw [List.filter_filter]
    simp only [Bool.and_self]
  · intro l; simp only [pandas, pandas_numbers]; rfl
  · intro l; simp only [pandas, pandas_numbers]; rfl
  · intro l hl
    obtain ⟨m, hm⟩ : ∃ m, l.min? = some m := Option.isSome_iff_exists.1 (by cases l <;> simp_all)
    obtain ⟨h1, h2⟩ := List.min?_eq_some_iff.1 hm
    refine ⟨m, h1, ?_, h2⟩
    simp only [pandas, pandas_numbers, hm]; rfl
  · intro l hl
    obtain ⟨m, hm⟩ : ∃ m, l.max? = some m := Option.isSome_iff_exists.1 (by cases l <;> simp_all)
    obtain ⟨h1, h2⟩ := List.max?_eq_some_iff.1 hm
    refine ⟨m, h1, ?_, h2⟩
    simp only [pandas, pandas_numbers, hm]; rfl

/-- The zones 4 and 5. -/
def zoneRaster : Raster where
  dtype := i32
  nb := 1
  ny := 1
  nx := 3
  data := fun c => if c.2.2 = 2 then .fin 5 else .fin 4
  mask := fun _ => false
  nv := none

/-- 2, null and 7. -/
def dataRaster : Raster where
  dtype := f64
  nb := 1
  ny := 1
  nx := 3
  data := fun c => if c.2.2 = 0 then .fin 2 else if c.2.2 = 1 then .fin (-1) else .fin 7
  mask := fun c => maskOf (some (.fin (-1))) (if c.2.2 = 0 then .fin 2 else if c.2.2 = 1 then .fin (-1) else .fin 7)
  nv := some ⟨f64, .fin (-1)⟩

example : Ready (idNumPy false) zoneRaster dataRaster :=
  ⟨rfl, rfl, rfl, fun _ _ => rfl, fun _ _ => rfl, rfl⟩

example : Numbers (idNumPy false) dataRaster (fun c => if c.2.2 = 0 then 2 else 7) := by
  intro c _ hm
  refine ⟨?_, fun h => absurd rfl h⟩
  unfold dataRaster at hm ⊢
  simp only at hm ⊢
  split_ifs at hm ⊢
  · rfl
  · revert hm; decide +kernel
  · rfl

example : Covered zoneRaster dataRaster := by
  intro b y x _ _
  refine ⟨rfl, ?_⟩
  unfold zoneRaster
  simp only
  split_ifs <;> exact nofun

example : BlocksOf dataRaster [[.fin 7], [.fin 2]] ∧ (∃ c, dataRaster.Has c ∧ dataRaster.mask c = false) := by
  refine ⟨by unfold BlocksOf; decide +kernel, (0, 0, 0), ⟨by decide, by decide, by decide⟩, by decide +kernel⟩

example : (zonalTable (idNumPy false) pandas zoneRaster dataRaster ["sum"]).map (fun l => (l.zone, l.entries.map (·.2))) =
    [(.fin 4, [.fin 2]), (.fin 5, [.fin 7])] ∧ daskNansum [2] [[.fin 7], [.fin 2]] = [.fin 9] := by decide +kernel

end Zones

end Verif.Trips
