import Verif.Bands.Props
import Verif.Reduce.Local
import Verif.Stats.Props
import Verif.Trips.Choices

set_option linter.unusedSectionVars false

/-!
# C121: the statistics of bands in another order and in groups

`local_stats` (`general.py:675-738`, C55) after `get_bands` (`raster.py`, C46) and before and after `band_concat` (`general.py`, C47).
-/

namespace Verif.Trips.Bandwise

open Verif Verif.Nulls DType
open Verif.Bands (bandConcat getBands)
open Verif.Reduce (localStats LocalStat NameArg nullToNan localData makeDs bandValues)
open Verif.Reduce.Spec (bandCells present maskedDtype computedDtype)
open Verif.Focal (promoteToFloat convert)
open Verif.Focal.Spec (IgnoresNan)
open Verif.Trips.Choices.Spec (cell)

namespace Spec

/-- The numbers of the bands, from 1 on. -/
def numbers (nb : Nat) : List Int := (List.range nb).map fun b : Nat => (b : Int) + 1

/-- The statistic does not depend on the order of the values. -/
def Unordered (f : List Num → Num) : Prop := ∀ x y, List.Perm x y → f x = f y

/-- The statistic depends only on which values occur. -/
def Setlike (f : List Num → Num) : Prop := ∀ x y, (∀ v, v ∈ x ↔ v ∈ y) → f x = f y

/-- The statistic of the numbers `vals` is the statistic of the statistics of two parts; the numbers and the statistics of
the parts are among the numbers `W`. -/
structure Groups (f : List Num → Num) (W : Num → Prop) (vals : List Num) : Prop where
  values : ∀ v ∈ vals, W v
  kept : ∀ x, x ≠ [] → x.Subperm vals → W (f x)
  one : ∀ v, W v → f [v] = v
  order : ∀ x, x.Perm vals → f x = f vals
  parts : ∀ x y, x ≠ [] → y ≠ [] → (x ++ y).Perm vals → f vals = f [f x, f y]

/-- The numbers of a cell in the bands where it is not null. -/
def numbersAt (r : Raster) (y x : Nat) : List Num := (List.range r.nb).filterMap fun b => cell r (b, y, x)

end Spec

open Spec

/-! ### The bands that were asked for -/

theorem bands_values {V : Type} {r o : Raster} {bs : List Int} (h : getBands r bs = .ok o) (f : Raster → Cell → V)
    (hf : ∀ c, f o c = f r ((bs.getD c.1 1 - 1).toNat, c.2)) (c : Cell) :
    bandValues o.nb (f o) c = bs.map fun b => f r ((b - 1).toNat, c.2) := by
  have hnb : o.nb = bs.length := by
    unfold getBands at h
    split at h
    · cases h
    · split at h
      · cases h
      · cases h
        rfl
  unfold bandValues
  rw [hnb]
  apply List.ext_getElem
  · simp
  · intro i h1 h2
    simp only [List.length_map, List.length_range] at h1
    simp only [List.getElem_map, List.getElem_range]
    rw [hf]
    simp only [List.getD_eq_getElem?_getD, List.getElem?_eq_getElem h1, Option.getD_some]

theorem own_values {V : Type} (nb : Nat) (f : Cell → V) (c : Cell) :
    bandValues nb f c = (numbers nb).map fun b => f ((b - 1).toNat, c.2) := by
  unfold bandValues numbers
  rw [List.map_map]
  refine List.map_congr_left fun b _ => ?_
  simp [Function.comp]

theorem getBands_ok {r o : Raster} {bs : List Int} (h : getBands r bs = .ok o) :
    o = { r with nb := bs.length, data := fun c => r.data ((bs.getD c.1 1 - 1).toNat, c.2),
                 mask := fun c => r.mask ((bs.getD c.1 1 - 1).toNat, c.2) } ∧ bs ≠ [] ∧ ∀ b ∈ bs, 1 ≤ b ∧ b ≤ (r.nb : Int) := by
  unfold getBands at h
  split at h
  · cases h
  · rename_i h0
    split at h
    · cases h
    · rename_i h1
      cases h
      refine ⟨rfl, fun e => h0 (by rw [e]; rfl), fun b hb => ?_⟩
      have := h1
      simp only [List.any_eq_true, not_exists, not_and, Bool.or_eq_true, decide_eq_true_eq] at this
      have := this b hb
      omega

/-- The values that `local_stats` gets, with NaN for null cells. -/
theorem nan_values {np : NumPy} {r o : Raster} {bs : List Int} (h : getBands r bs = .ok o) (c : Cell) :
    bandValues (nullToNan np o).nb (nullToNan np o).data c = bs.map fun b => (nullToNan np r).data ((b - 1).toNat, c.2) := by
  have hn : (nullToNan np o).nb = o.nb := by unfold nullToNan; split <;> rfl
  rw [hn]
  refine bands_values h (fun q => (nullToNan np q).data) (fun c => ?_) c
  obtain ⟨rfl, -, -⟩ := getBands_ok h
  unfold nullToNan Raster.masked
  simp only
  split <;> rfl

theorem mask_values {np : NumPy} {r o : Raster} {bs : List Int} (h : getBands r bs = .ok o) (c : Cell) :
    bandValues (nullToNan np o).nb (nullToNan np o).mask c = bs.map fun b => (nullToNan np r).mask ((b - 1).toNat, c.2) := by
  have hn : (nullToNan np o).nb = o.nb := by unfold nullToNan; split <;> rfl
  rw [hn]
  refine bands_values h (fun q => (nullToNan np q).mask) (fun c => ?_) c
  obtain ⟨rfl, -, -⟩ := getBands_ok h
  unfold nullToNan Raster.masked
  simp only
  split <;> rfl

theorem all_same {l m : List Bool} (h : ∀ v, v ∈ l ↔ v ∈ m) : l.all id = m.all id := by
  rw [Bool.eq_iff_iff, List.all_eq_true, List.all_eq_true]
  exact ⟨fun k v hv => k v ((h v).2 hv), fun k v hv => k v ((h v).1 hv)⟩

/-- **C121**, order: the statistics of a raster with its bands in another order are, as rasters, the statistics of the
raster itself, for every statistic that does not depend on the order of its values. -/
theorem C121_order {np : NumPy} {func : LocalStat → List Num → Num} {outTy : LocalStat → DType → DType} {r o : Raster}
    {bs : List Int} {stat : LocalStat} (h : getBands r bs = .ok o) (hp : bs.Perm (numbers r.nb)) (hf : Unordered (func stat)) :
    localStats np func outTy o (.name (some stat)) = localStats np func outTy r (.name (some stat)) := by
  have hnb : o.nb = r.nb := by
    rw [(getBands_ok h).1]
    simpa [numbers] using hp.length_eq
  have hfun : ∀ c, func stat (bandValues (nullToNan np o).nb (nullToNan np o).data c) =
      func stat (bandValues (nullToNan np r).nb (nullToNan np r).data c) := by
    intro c
    rw [nan_values h, own_values]
    have e : (nullToNan np r).nb = r.nb := by unfold nullToNan; split <;> rfl
    rw [e]
    exact hf _ _ (hp.map _)
  have hmask : ∀ c, (bandValues (nullToNan np o).nb (nullToNan np o).mask c).all id =
      (bandValues (nullToNan np r).nb (nullToNan np r).mask c).all id := by
    intro c
    rw [mask_values h, own_values]
    have e : (nullToNan np r).nb = r.nb := by unfold nullToNan; split <;> rfl
    rw [e]
    exact all_same fun v => (hp.map _).mem_iff
  have hrest : (nullToNan np o).nb = (nullToNan np r).nb ∧ (nullToNan np o).dtype = (nullToNan np r).dtype ∧
      (nullToNan np o).ny = (nullToNan np r).ny ∧ (nullToNan np o).nx = (nullToNan np r).nx ∧
      (nullToNan np o).masked = (nullToNan np r).masked ∧ o.dtype = r.dtype := by
    obtain ⟨e, -, -⟩ := getBands_ok h
    have hm : o.masked = r.masked := by rw [e]; rfl
    have h1 : o.dtype = r.dtype := by rw [e]
    have h2 : o.ny = r.ny := by rw [e]
    have h3 : o.nx = r.nx := by rw [e]
    have h4 : o.nv = r.nv := by rw [e]
    refine ⟨?_, ?_, ?_, ?_, ?_, h1⟩ <;> unfold nullToNan <;> rw [hm] <;> split <;> simp_all [Raster.masked]
  obtain ⟨e1, e2, e3, e4, e5, e6⟩ := hrest
  unfold localStats
  simp only [e5, e6]
  unfold localData
  simp only [hfun, hmask, e2, e3, e4]
  simp only [e1]

/-- **C121**, order, for the functions that raster_tools itself brings (`stat_common.py`, C38): the number of unique values, the mode,
the angular second moment and the entropy. -/
theorem C121_own_statistics {np : NumPy} {func : LocalStat → List Num → Num} {outTy : LocalStat → DType → DType} {r o : Raster}
    {bs : List Int} {stat : LocalStat} {log round : Rat → Rat} (h : getBands r bs = .ok o) (hp : bs.Perm (numbers r.nb))
    (hu : ∀ l, func .unique l = .fin (Stats.nanUniqueCount l : Int)) (hmo : ∀ l, func .mode l = (Stats.nanmode l).1)
    (ha : ∀ l, func .asm l = .fin (round (Stats.nanasm l))) (he : ∀ l, func .entropy l = .fin (round (Stats.nanentropy log l)))
    (hs : stat ∈ [LocalStat.unique, .mode, .asm, .entropy]) :
    localStats np func outTy o (.name (some stat)) = localStats np func outTy r (.name (some stat)) := by
  refine C121_order h hp fun x y hxy => ?_
  have hv : (Stats.Spec.valid x).Perm (Stats.Spec.valid y) := hxy.filter _
  obtain ⟨i1, i2, i3, i4⟩ := Stats.C38_invariance hv
  simp only [List.mem_cons, List.not_mem_nil, or_false] at hs
  rcases hs with rfl | rfl | rfl | rfl
  · rw [hu, hu, i1]
  · rw [hmo, hmo, i2]
  · rw [ha, ha, i3]
  · rw [he, he, (i4 log).2]

/-- **C121**, bands more than once: for rasters with a null value, 'max', 'min' and every statistic that depends only on
which values occur do not change if bands are repeated, as long as every band is still there. -/
theorem C121_repeated {np : NumPy} {func : LocalStat → List Num → Num} {outTy : LocalStat → DType → DType} {r o : Raster}
    {bs : List Int} {stat : LocalStat} (hm : r.masked = true) (h : getBands r bs = .ok o) (hall : ∀ b ∈ numbers r.nb, b ∈ bs)
    (hs : stat ∉ [LocalStat.unique, .minband, .maxband]) (hf : Setlike (func stat)) :
    localStats np func outTy o (.name (some stat)) = localStats np func outTy r (.name (some stat)) := by
  have hin : ∀ b, b ∈ bs ↔ b ∈ numbers r.nb := by
    refine fun b => ⟨fun hb => ?_, hall b⟩
    have := (getBands_ok h).2.2 b hb
    exact List.mem_map.2 ⟨(b - 1).toNat, List.mem_range.2 (by omega), by omega⟩
  have hmap : ∀ {V : Type} (f : Int → V) v, v ∈ bs.map f ↔ v ∈ (numbers r.nb).map f := by
    intro V f v
    simp only [List.mem_map, hin]
  have e0 : (nullToNan np r).nb = r.nb := by unfold nullToNan; split <;> rfl
  have hfun : ∀ c, func stat (bandValues (nullToNan np o).nb (nullToNan np o).data c) =
      func stat (bandValues (nullToNan np r).nb (nullToNan np r).data c) := by
    intro c
    rw [nan_values h, own_values, e0]
    exact hf _ _ (hmap _)
  have hmask : ∀ c, (bandValues (nullToNan np o).nb (nullToNan np o).mask c).all id =
      (bandValues (nullToNan np r).nb (nullToNan np r).mask c).all id := by
    intro c
    rw [mask_values h, own_values, e0]
    exact all_same (hmap _)
  have hrest : (nullToNan np o).dtype = (nullToNan np r).dtype ∧
      (nullToNan np o).ny = (nullToNan np r).ny ∧ (nullToNan np o).nx = (nullToNan np r).nx ∧
      (nullToNan np o).masked = true ∧ (nullToNan np r).masked = true ∧ o.dtype = r.dtype := by
    obtain ⟨e, -, -⟩ := getBands_ok h
    have hm' : o.masked = r.masked := by rw [e]; rfl
    have h1 : o.dtype = r.dtype := by rw [e]
    have h2 : o.ny = r.ny := by rw [e]
    have h3 : o.nx = r.nx := by rw [e]
    have h4 : o.nv = r.nv := by rw [e]
    refine ⟨?_, ?_, ?_, ?_, ?_, h1⟩ <;> unfold nullToNan <;> simp only [hm', hm, if_true, h1, h2, h3] <;>
      simp_all [Raster.masked]
  obtain ⟨e2, e3, e4, e5, e5', e6⟩ := hrest
  have hdt : ∀ dt, Reduce.localDtype stat (nullToNan np o).nb dt = Reduce.localDtype stat (nullToNan np r).nb dt := by
    intro dt
    simp only [List.mem_cons, List.not_mem_nil, or_false, not_or] at hs
    simp only [Reduce.localDtype, hs.1, hs.2.1, hs.2.2, or_self, if_false]
  unfold localStats
  simp only [e5, e5', e6, if_true]
  unfold localData
  simp only [hfun, e2, e3, e4, hmask, hdt]

/-! ### Groups of bands -/

/-- The values of a cell in the bands that are not null there. -/
theorem present_bands (r : Raster) (c : Cell) :
    present r.mask r.data (bandCells r.nb c) = (bandValues r.nb (cell r) c).filterMap id := by
  unfold present bandCells bandValues
  generalize List.range r.nb = l
  induction l with
  | nil => rfl
  | cons a l ih =>
    simp only [List.map_cons, List.filterMap_cons, List.filter_cons, cell] at ih ⊢
    cases e : r.mask (a, c.2) <;> simp [e] at ih ⊢ <;> simpa using ih

theorem all_of {r : Raster} {W : Num → Prop} {c : Cell} (hr : ∀ b < r.nb, ∀ v, cell r (b, c.2) = some v → W v) :
    ∀ v ∈ (bandValues r.nb (cell r) c).filterMap id, W v := by
  intro v hv
  obtain ⟨a, ha, rfl⟩ := List.mem_filterMap.1 hv
  obtain ⟨b, hb, e⟩ := List.mem_map.1 ha
  exact hr b (List.mem_range.1 hb) v e

/-- The result of `local_stats` in the numbers of a cell, if the conversions keep the numbers. -/
theorem summary {np : NumPy} {func : LocalStat → List Num → Num} {outTy : LocalStat → DType → DType} {r o : Raster}
    {stat : LocalStat} {W : Num → Prop} {ds : List DType} (hm : r.masked = true) (hst : stat ∈ [LocalStat.max, .min, .sum, .prod])
    (hf : IgnoresNan (func stat)) (hW : ∀ d ∈ ds, ∀ v, W v → np.cast d v = v) 
    (h : localStats np func outTy r (.name (some stat)) = .ok o)
    (hd : promoteToFloat r.dtype ∈ ds ∧ o.dtype ∈ ds) (c : Cell) (hr : ∀ b < r.nb, ∀ v, cell r (b, c.2) = some v → W v)
    (hc : (bandValues r.nb (cell r) c).filterMap id ≠ [] → W (func stat ((bandValues r.nb (cell r) c).filterMap id))) :
    o.nb = 1 ∧ o.nv ≠ none ∧ cell o c =
      if (bandValues r.nb (cell r) c).filterMap id = [] then none else some (func stat ((bandValues r.nb (cell r) c).filterMap id)) := by
  obtain ⟨h1, -, -, h4, h5, h6⟩ := Reduce.C55_masked hm hf h
  refine ⟨h1, by rw [h5]; simp, ?_⟩
  have hcd : computedDtype outTy (promoteToFloat r.dtype) stat r.nb = o.dtype := by
    rw [h4]
    simp only [List.mem_cons, List.not_mem_nil, or_false] at hst
    rcases hst with rfl | rfl | rfl | rfl <;> rfl
  obtain ⟨k1, -, k3⟩ := h6 c
  have hpres : present r.mask (fun p => convert np r.dtype (promoteToFloat r.dtype) (r.data p)) (bandCells r.nb c) =
      (bandValues r.nb (cell r) c).filterMap id := by
    rw [← present_bands]
    unfold present
    refine List.map_congr_left fun p hp => ?_
    obtain ⟨hin, hp⟩ := List.mem_filter.1 hp
    obtain ⟨b, hb, rfl⟩ := List.mem_map.1 hin
    simp only [Bool.not_eq_true'] at hp
    unfold convert
    split
    · rfl
    · exact hW _ hd.1 _ (hr b (List.mem_range.1 hb) _ (by unfold cell; rw [if_neg (by rw [hp]; simp)]))
  have hempty : (bandValues r.nb (cell r) c).filterMap id = [] ↔ o.mask c = true := by
    rw [k1, ← present_bands]
    unfold present
    simp [List.filter_eq_nil_iff]
  by_cases e : (bandValues r.nb (cell r) c).filterMap id = []
  · rw [if_pos e]
    unfold cell
    rw [if_pos (hempty.1 e)]
  · rw [if_neg e]
    have hmc : o.mask c = false := by
      rw [← Bool.not_eq_true]
      exact fun k => e (hempty.2 k)
    have hw := hc e
    have hv := k3 hmc
    rw [hpres, hcd, hW _ hd.2 _ hw, convert, if_pos rfl] at hv
    rw [cell, if_neg (by rw [hmc]; simp), hv]

/-- Two single bands put together. -/
theorem pair_values {np : NumPy} {resultType : List DType → DType} {a b cat : Raster} {W : Num → Prop} {ds : List DType} {y x : Nat}
    (ha : a.nb = 1) (hb : b.nb = 1) (hma : a.nv ≠ none) (hmb : b.nv ≠ none) (hW : ∀ d ∈ ds, ∀ v, W v → np.cast d v = v)
    (hwa : ∀ v, cell a (0, y, x) = some v → W v) (hwb : ∀ v, cell b (0, y, x) = some v → W v)
    (h : bandConcat np resultType [a, b] = .ok cat) (hd : cat.dtype ∈ ds) :
    cat.masked = true ∧ cat.nb = 2 ∧ cell cat (0, y, x) = cell a (0, y, x) ∧ cell cat (1, y, x) = cell b (0, y, x) := by
  obtain ⟨o, ho, o1, -, -, -, o5, -, o7⟩ := Bands.C47_band_concat (np := np) (resultType := resultType) (r1 := a) (r2 := b) (rs := [])
    (by
      intro r hr c _
      rcases List.mem_cons.1 hr with rfl | hr
      · exact hma
      · rcases List.mem_cons.1 hr with rfl | hr
        · exact hmb
        · simp at hr)
  rw [h] at ho
  cases ho
  have hone : ∀ (q : Raster) (k : Nat), (∀ v, cell q (0, y, x) = some v → W v) → cat.mask (k, y, x) = q.mask (0, y, x) →
      (q.mask (0, y, x) = false → cat.data (k, y, x) = np.cast cat.dtype (q.data (0, y, x))) →
      cell cat (k, y, x) = cell q (0, y, x) := by
    intro q k hq h1 h2
    unfold cell at hq ⊢
    rw [h1]
    cases hm : q.mask (0, y, x) with
    | true => rfl
    | false =>
      rw [hm] at hq
      rw [h2 hm, hW _ hd _ (hq _ rfl)]
  refine ⟨?_, by rw [o1]; simp [ha, hb], ?_, ?_⟩
  · unfold Raster.masked
    rw [Option.isSome_iff_ne_none]
    exact fun k => hma (o7.1 k a (by simp))
  · have := o5 [] a [b] rfl 0 (by omega) y x
    exact hone a 0 hwa this.1 this.2
  · have := o5 [a] b [] rfl 0 (by omega) y x
    simp only [List.map_cons, List.map_nil, List.sum_cons, List.sum_nil, ha] at this
    exact hone b 1 hwb this.1 this.2

theorem numbersAt_own (r : Raster) (y x : Nat) :
    ((numbers r.nb).map fun b => cell r ((b - 1).toNat, y, x)).filterMap id = numbersAt r y x := by
  unfold numbers numbersAt
  rw [List.map_map, List.filterMap_map]
  refine List.filterMap_congr fun b _ => ?_
  simp

/-- **C121**, groups: for 'max', 'min', 'sum' and 'prod' of a raster with a null value, the statistic over all bands is the
statistic over the statistics of two groups of bands, null cells included, wherever the conversions keep the numbers `W`. -/
theorem C121_groups {np : NumPy} {func : LocalStat → List Num → Num} {outTy : LocalStat → DType → DType}
    {resultType : List DType → DType} {r ra rb la lb cat l whole : Raster} {as bs : List Int} {stat : LocalStat}
    {W : Num → Prop} {ds : List DType} (hm : r.masked = true) (hst : stat ∈ [LocalStat.max, .min, .sum, .prod])
    (hig : IgnoresNan (func stat)) (hW : ∀ d ∈ ds, ∀ v, W v → np.cast d v = v)
    (ha : getBands r as = .ok ra) (hb : getBands r bs = .ok rb) (hp : (as ++ bs).Perm (numbers r.nb))
    (hla : localStats np func outTy ra (.name (some stat)) = .ok la) (hlb : localStats np func outTy rb (.name (some stat)) = .ok lb)
    (hcat : bandConcat np resultType [la, lb] = .ok cat) (hl : localStats np func outTy cat (.name (some stat)) = .ok l)
    (hwh : localStats np func outTy r (.name (some stat)) = .ok whole)
    (hd : ∀ d ∈ [promoteToFloat r.dtype, la.dtype, lb.dtype, whole.dtype, cat.dtype, promoteToFloat cat.dtype, l.dtype], d ∈ ds)
    (y x : Nat) (hg : Groups (func stat) W (numbersAt r y x)) : cell l (0, y, x) = cell whole (0, y, x) := by
  have hr : ∀ b < r.nb, ∀ v, cell r (b, y, x) = some v → W v := fun b hb v k =>
    hg.values v (List.mem_filterMap.2 ⟨b, List.mem_range.2 hb, k⟩)
  have hperm := ((hp.map fun b => cell r ((b - 1).toNat, y, x)).filterMap id)
  rw [List.map_append, List.filterMap_append, numbersAt_own] at hperm
  have part : ∀ {cs : List Int} {q lq : Raster}, getBands r cs = .ok q →
      localStats np func outTy q (.name (some stat)) = .ok lq → lq.dtype ∈ ds →
      ((cs.map fun b => cell r ((b - 1).toNat, y, x)).filterMap id).Subperm (numbersAt r y x) →
      lq.nb = 1 ∧ lq.nv ≠ none ∧ (∀ v, cell lq (0, y, x) = some v → W v) ∧
      cell lq (0, y, x) = (if (cs.map fun b => cell r ((b - 1).toNat, y, x)).filterMap id = [] then none
        else some (func stat ((cs.map fun b => cell r ((b - 1).toNat, y, x)).filterMap id))) := by
    intro cs q lq hq hlq hdq hsub
    obtain ⟨e, -, hin⟩ := getBands_ok hq
    have hcell : ∀ c, cell q c = cell r ((cs.getD c.1 1 - 1).toNat, c.2) := fun c => by rw [e]; rfl
    have hdt : q.dtype = r.dtype := by rw [e]
    have hnb : q.nb = cs.length := by rw [e]
    have hqW : ∀ b < q.nb, ∀ v, cell q (b, y, x) = some v → W v := by
      intro b hb v k
      rw [hcell] at k
      rw [hnb] at hb
      refine hr _ ?_ v k
      have := hin (cs.getD b 1) (by
        rw [List.getD_eq_getElem?_getD, List.getElem?_eq_getElem hb]
        exact List.getElem_mem hb)
      simp only
      omega
    have hv := bands_values hq cell hcell (0, y, x)
    obtain ⟨p1, p2, p3⟩ := summary (by rw [e]; exact hm) hst hig hW hlq ⟨by rw [hdt]; exact hd _ (by simp), hdq⟩ (0, y, x) hqW
      (by rw [hv]; exact fun k => hg.kept _ k hsub)
    rw [hv] at p3
    refine ⟨p1, p2, fun v k => ?_, p3⟩
    rw [p3] at k
    split at k
    · cases k
    · rename_i hne
      cases k
      exact hg.kept _ hne hsub
  have hsa := ((List.sublist_append_left ((as.map fun b => cell r ((b - 1).toNat, y, x)).filterMap id)
    ((bs.map fun b => cell r ((b - 1).toNat, y, x)).filterMap id)).subperm).trans hperm.subperm
  have hsb := ((List.sublist_append_right ((as.map fun b => cell r ((b - 1).toNat, y, x)).filterMap id)
    ((bs.map fun b => cell r ((b - 1).toNat, y, x)).filterMap id)).subperm).trans hperm.subperm
  obtain ⟨a1, a2, a3, a4⟩ := part ha hla (hd _ (by simp)) hsa
  obtain ⟨b1, b2, b3, b4⟩ := part hb hlb (hd _ (by simp)) hsb
  obtain ⟨-, -, w3⟩ := summary hm hst hig hW hwh ⟨hd _ (by simp), hd _ (by simp)⟩ (0, y, x) hr
    (by
      rw [own_values]
      simp only
      rw [numbersAt_own]
      exact fun k => hg.kept _ k (List.Subperm.refl _))
  obtain ⟨c1, c2, c3, c4⟩ := pair_values a1 b1 a2 b2 hW a3 b3 hcat (hd _ (by simp))
  have hcatW : ∀ b < cat.nb, ∀ v, cell cat (b, y, x) = some v → W v := by
    intro b hb v k
    rw [c2] at hb
    have : b = 0 ∨ b = 1 := by omega
    rcases this with rfl | rfl
    · exact a3 v (c3.symm.trans k)
    · exact b3 v (c4.symm.trans k)
  have hcatv : bandValues cat.nb (cell cat) (0, y, x) = [cell la (0, y, x), cell lb (0, y, x)] := by
    unfold bandValues
    rw [c2, ← c3, ← c4]
    rfl
  rw [own_values] at w3
  simp only at w3
  rw [numbersAt_own] at w3
  have hl3 := summary c1 hst hig hW hl ⟨hd _ (by simp), hd _ (by simp)⟩ (0, y, x) hcatW
  rw [hcatv, a4, b4] at hl3
  rw [w3]
  generalize (as.map fun b => cell r ((b - 1).toNat, y, x)).filterMap id = A at hperm hsa hl3
  generalize (bs.map fun b => cell r ((b - 1).toNat, y, x)).filterMap id = B at hperm hsb hl3
  have hN : numbersAt r y x = [] ↔ A = [] ∧ B = [] := by
    rw [← List.append_eq_nil_iff]
    exact ⟨fun k => List.eq_nil_of_length_eq_zero (by rw [hperm.length_eq, k]; rfl),
      fun k => List.eq_nil_of_length_eq_zero (by rw [← hperm.length_eq, k]; rfl)⟩
  by_cases hA : A = [] <;> by_cases hB : B = []
  · subst hA hB
    rw [(hl3 (by simp)).2.2, if_pos (hN.2 ⟨rfl, rfl⟩)]
    simp
  · subst hA
    have hk := hg.kept B hB hsb
    have e := hg.order B (by simpa using hperm)
    have := (hl3 (by simp [hB, hg.one _ hk, hk])).2.2
    rw [this, if_neg fun k => hB (hN.1 k).2]
    simp only [if_true, if_neg hB, List.filterMap_cons, List.filterMap_nil, id, List.cons_ne_nil, if_false]
    rw [hg.one _ hk, e]
  · subst hB
    have hk := hg.kept A hA hsa
    have e := hg.order A (by simpa using hperm)
    have := (hl3 (by simp [hA, hg.one _ hk, hk])).2.2
    rw [this, if_neg fun k => hA (hN.1 k).1]
    simp only [if_true, if_neg hA, List.filterMap_cons, List.filterMap_nil, id, List.cons_ne_nil, if_false]
    rw [hg.one _ hk, e]
  · have e := hg.parts A B hA hB hperm
    have hk := hg.kept _ (fun k => hA (hN.1 k).1) (List.Subperm.refl _)
    rw [e] at hk
    have := (hl3 (by simp [hA, hB, hk])).2.2
    rw [this, if_neg fun k => hA (hN.1 k).1]
    simp [hA, hB, e]

/-- **C121**, the band of the minimum: where 'minband' points to in a raster with chosen bands, the chosen band holds the least
of the values of the chosen bands. -/
theorem C121_minband {np : NumPy} (hnp : Nulls.Spec.ExactCast np) {func : LocalStat → List Num → Num}
    {outTy : LocalStat → DType → DType} {r o l : Raster} {bs : List Int} (hm : r.masked = true) (h : getBands r bs = .ok o)
    (hu : ∀ l, func .minband l = .fin (Stats.nanargmin l : Int)) (hs : bs.length ≤ 2 ^ 32)
    (hl : localStats np func outTy o (.name (some .minband)) = .ok l) {y x : Nat} {W : Num → Prop}
    (hW : ∀ v, W v → convert np r.dtype (promoteToFloat r.dtype) v = v ∧ v ≠ .nan ∧ v ≠ .posInf)
    (hr : ∀ b ∈ bs, ∀ v, cell r ((b - 1).toNat, y, x) = some v → W v)
    (hv : ∃ b ∈ bs, cell r ((b - 1).toNat, y, x) ≠ none) :
    ∃ (k : Nat) (b : Int) (v : Num), cell l (0, y, x) = some (.fin k) ∧ bs[k]? = some b ∧ cell r ((b - 1).toNat, y, x) = some v ∧
      ∀ b' ∈ bs, ∀ w, cell r ((b' - 1).toNat, y, x) = some w → Stats.Spec.Le v w := by
  obtain ⟨e, -, hin⟩ := getBands_ok h
  have hnb : o.nb = bs.length := by rw [e]
  have hdt : o.dtype = r.dtype := by rw [e]
  have hget : ∀ k (hk : k < bs.length), bs.getD k 1 = bs[k] := by
    intro k hk
    rw [List.getD_eq_getElem?_getD, List.getElem?_eq_getElem hk]
    rfl
  have hmask : ∀ k (hk : k < bs.length), o.mask (k, y, x) = r.mask ((bs[k] - 1).toNat, y, x) := by
    intro k hk
    rw [e]
    simp only
    rw [hget k hk]
  have hdata : ∀ k (hk : k < bs.length), o.data (k, y, x) = r.data ((bs[k] - 1).toNat, y, x) := by
    intro k hk
    rw [e]
    simp only
    rw [hget k hk]
  have hsome : ∀ c, r.mask c = false → cell r c = some (r.data c) := by
    intro c hc
    unfold cell
    rw [if_neg (by rw [hc]; simp)]
  have hconv : ∀ k (hk : k < bs.length), o.mask (k, y, x) = false →
      convert np o.dtype (promoteToFloat o.dtype) (o.data (k, y, x)) = o.data (k, y, x) ∧ o.data (k, y, x) ≠ .nan ∧
      o.data (k, y, x) ≠ .posInf := by
    intro k hk hmk
    rw [hmask k hk] at hmk
    rw [hdt, hdata k hk]
    exact hW _ (hr _ (List.getElem_mem hk) _ (hsome _ hmk))
  obtain ⟨b0, hb0, hne⟩ := hv
  obtain ⟨k0, hk0, rfl⟩ := List.getElem_of_mem hb0
  have hm0 : o.mask (k0, y, x) = false := by
    rw [hmask k0 hk0, ← Bool.not_eq_true]
    intro k
    apply hne
    unfold cell
    rw [if_pos k]
  have hc0 := hconv k0 hk0 hm0
  obtain ⟨p1, k, hk, p2, p3, p4⟩ := Reduce.C55_minband_partial hnp (by rw [e]; exact hm) hu (by rw [hnb]; exact hs) hl
    (c := (0, y, x)) ⟨k0, by rw [hnb]; exact hk0, hm0, by rw [hc0.1]; exact hc0.2.1, by rw [hc0.1]; exact hc0.2.2⟩
  simp only at p3 p4
  rw [hnb] at hk
  have hck := hconv k hk p3
  refine ⟨k, bs[k], r.data ((bs[k] - 1).toNat, y, x), ?_, List.getElem?_eq_getElem hk, ?_, ?_⟩
  · rw [cell, if_neg (by rw [p1]; simp), p2]
  · rw [hmask k hk] at p3
    exact hsome _ p3
  · intro b' hb' w hw
    obtain ⟨j, hj, rfl⟩ := List.getElem_of_mem hb'
    have hmj : r.mask ((bs[j] - 1).toNat, y, x) = false := by
      rw [← Bool.not_eq_true]
      intro k
      unfold cell at hw
      rw [if_pos k] at hw
      cases hw
    have hwj := hsome _ hmj
    rw [hw] at hwj
    cases hwj
    have hmj' : o.mask (j, y, x) = false := by rw [hmask j hj]; exact hmj
    have hcj := hconv j hj hmj'
    have := (p4 j (by rw [hnb]; exact hj) hmj' (by rw [hcj.1]; exact hcj.2.1)).1
    rw [hck.1, hcj.1, hdata k hk, hdata j hj] at this
    exact this

/-! ### Examples -/

/-- Three bands of one row with a null cell in the second. -/
def sample : Raster :=
  ⟨f64, 3, 1, 2, fun c => if c.1 = 1 ∧ c.2.2 = 0 then .fin (-1) else .fin (c.1 * 10 + c.2.2 : Nat),
    fun c => decide (c.1 = 1 ∧ c.2.2 = 0), some ⟨f64, .fin (-1)⟩⟩

/-- The sum of the finite values. -/
def total (l : List Num) : Num := .fin ((l.map fun v => match v with | .fin a => a | _ => 0).sum)

/-- Statistics for the examples. -/
def statistics : LocalStat → List Num → Num
  | .sum, l => total l
  | .minband, l => .fin (Stats.nanargmin l : Int)
  | .unique, l => .fin (Stats.nanUniqueCount l : Int)
  | _, _ => .nan

theorem total_ignores : IgnoresNan total := by
  intro l
  unfold total Stats.Spec.valid
  congr 1
  induction l with
  | nil => rfl
  | cons a l ih =>
    rw [List.map_cons, List.sum_cons, ih, List.filter_cons]
    by_cases ha : a = .nan
    · subst ha
      simp
    · rw [if_pos (by simpa using ha), List.map_cons, List.sum_cons]

theorem total_unordered : Unordered total := fun x y h => by
  unfold total
  rw [(h.map _).sum_eq]

theorem total_groups {vals : List Num} (h : ∀ v ∈ vals, ∃ a, v = .fin a) : Groups total (fun v => ∃ a, v = .fin a) vals where
  values := h
  kept := fun _ _ _ => ⟨_, rfl⟩
  one := by
    rintro v ⟨a, rfl⟩
    simp [total]
  order := fun x hx => total_unordered x vals hx
  parts := fun x y _ _ hp => by
    rw [← total_unordered _ _ hp]
    simp [total]

/-- The hypotheses of `C121_groups` hold: bands 3 and 1 in one group, band 2 in the other; the sums are 20 (the cell of band 2 is
null) and 33. -/
example : sample.masked = true ∧ IgnoresNan (statistics .sum) ∧ ([3, 1] ++ [2] : List Int).Perm (numbers sample.nb) ∧
    (∀ x < 2, Groups (statistics .sum) (fun v => ∃ a, v = .fin a) (numbersAt sample 0 x)) ∧
    ∃ ra rb la lb cat l whole, getBands sample [3, 1] = .ok ra ∧ getBands sample [2] = .ok rb ∧
      localStats (idNumPy true) statistics (fun _ dt => dt) ra (.name (some .sum)) = .ok la ∧
      localStats (idNumPy true) statistics (fun _ dt => dt) rb (.name (some .sum)) = .ok lb ∧
      bandConcat (idNumPy true) (fun _ => f64) [la, lb] = .ok cat ∧
      localStats (idNumPy true) statistics (fun _ dt => dt) cat (.name (some .sum)) = .ok l ∧
      localStats (idNumPy true) statistics (fun _ dt => dt) sample (.name (some .sum)) = .ok whole ∧
      lb.mask (0, 0, 0) = true ∧ cell whole (0, 0, 0) = some (.fin 20) ∧ cell l (0, 0, 0) = some (.fin 20) ∧
      cell l (0, 0, 1) = some (.fin 33) := by
  refine ⟨rfl, total_ignores, by decide, fun x hx => total_groups ?_, _, _, _, _, _, _, _, rfl, rfl, rfl, rfl, rfl, rfl, rfl,
    by decide +kernel⟩
  have : x = 0 ∨ x = 1 := by omega
  intro v hv
  obtain ⟨b, -, hb⟩ := List.mem_filterMap.1 hv
  unfold cell sample at hb
  simp only at hb
  split at hb
  · cases hb
  · split at hb
    · exact ⟨_, (Option.some.inj hb).symm⟩
    · exact ⟨_, (Option.some.inj hb).symm⟩

/-- The hypotheses of `C121_order` and `C121_own_statistics` hold for the bands in the order 3, 1, 2. -/
example : ∃ o, getBands sample [3, 1, 2] = .ok o ∧ ([3, 1, 2] : List Int).Perm (numbers sample.nb) ∧ Unordered (statistics .sum) ∧
    o.data (0, 0, 1) = .fin 21 ∧ sample.data (0, 0, 1) = .fin 1 :=
  ⟨_, rfl, by decide, total_unordered, by decide +kernel⟩

/-- The hypotheses of `C121_repeated` hold for a statistic that tells whether a value is there. -/
example : ∃ o, getBands sample [3, 1, 3, 2, 2] = .ok o ∧ (∀ b ∈ numbers sample.nb, b ∈ [(3 : Int), 1, 3, 2, 2]) ∧
    Setlike (fun l => if (.fin 20 : Num) ∈ l then .fin 1 else .fin 0) :=
  ⟨_, rfl, by decide, fun x y h => by simp only [h]⟩

/-- Not for sums: they count a repeated band twice. -/
example : ∃ o l l', getBands sample [1, 2, 3, 3] = .ok o ∧
    localStats (idNumPy true) statistics (fun _ dt => dt) o (.name (some .sum)) = .ok l ∧
    localStats (idNumPy true) statistics (fun _ dt => dt) sample (.name (some .sum)) = .ok l' ∧
    cell l (0, 0, 0) = some (.fin 40) ∧ cell l' (0, 0, 0) = some (.fin 20) :=
  ⟨_, _, _, rfl, rfl, rfl, by decide +kernel⟩

/-- The hypotheses of `C121_minband` hold in the first column for the bands 3, 2, 1: band 2 is null there, and position 2, which
is band 1, comes out. -/
example : ∃ o l, getBands sample [3, 2, 1] = .ok o ∧
    localStats (idNumPy true) statistics (fun _ dt => dt) o (.name (some .minband)) = .ok l ∧
    (∀ b ∈ [(3 : Int), 2, 1], ∀ v, cell sample ((b - 1).toNat, 0, 0) = some v →
      v = .fin 20 ∨ v = .fin 0) ∧ (∃ b ∈ [(3 : Int), 2, 1], cell sample ((b - 1).toNat, 0, 0) ≠ none) ∧
    (∀ v : Num, v = .fin 20 ∨ v = .fin 0 → convert (idNumPy true) sample.dtype (promoteToFloat sample.dtype) v = v ∧ v ≠ .nan ∧ v ≠ .posInf) ∧
    cell l (0, 0, 0) = some (.fin 2) := by
  refine ⟨_, _, rfl, rfl, ?_, ⟨3, by simp, by decide +kernel⟩, ?_, by decide +kernel⟩
  · intro b hb v hv
    simp only [List.mem_cons, List.not_mem_nil, or_false] at hb
    rcases hb with rfl | rfl | rfl
    · exact .inl (Option.some.inj (hv.symm.trans (by decide +kernel)))
    · exact absurd (hv.symm.trans (by decide +kernel : _ = none)) (by simp)
    · exact .inr (Option.some.inj (hv.symm.trans (by decide +kernel)))
  · rintro v (rfl | rfl) <;> decide +kernel

end Verif.Trips.Bandwise
