import Verif.MosaicRaster.Props
import Verif.Bands.Props
import Verif.Reduce.Local
import Verif.Trips.Windows

set_option linter.unusedSectionVars false

/-!
# C99: mosaics of rasters on one grid

`mosaic` with 'min' or 'max' (`_mosaic.py`, C88) next to `band_concat` (C47) and `local_stats` with the same statistic (C55): the rasters, brought to the grid,
are stacked as bands.
-/

namespace Verif.Trips.Stacks

open Verif Verif.Nulls DType
open Verif.Warp (Frame Placed)
open Verif.Warp.Spec (valid Monotone)
open Verif.Nulls.Spec (NullsHold)
open Verif.Mosaic (Method)
open Verif.Mosaic.Spec (ExtremeValid fle fge counted)
open Verif.MosaicRaster (mosaic Tools Args resamplingOf)
open Verif.MosaicRaster.Spec (OutType OutNull OutGrid On Apart Typed Chosen layers entries converted name)
open Verif.Bands (bandConcat)
open Verif.Reduce (localStats LocalStat)
open Verif.Reduce.Spec (bandCells present maskedDtype computedDtype)
open Verif.Focal (promoteToFloat convert)
open Verif.Focal.Spec (IgnoresNan)

variable {K : Type} [DecidableEq K]

namespace Spec

/-- The statistics of `local_stats`. -/
structure Statistics (func : LocalStat → List Num → Num) : Prop where
  ignores : ∀ s ∈ [LocalStat.max, .min], IgnoresNan (func s)
  max : ∀ l : List Rat, l ≠ [] → ∃ m ∈ l, func .max (l.map .fin) = .fin m ∧ ∀ v ∈ l, v ≤ m
  min : ∀ l : List Rat, l ≠ [] → ∃ m ∈ l, func .min (l.map .fin) = .fin m ∧ ∀ v ∈ l, m ≤ v

/-- The numbers of the valid cells are finite and are numbers of the dtypes. -/
def Exact (np : NumPy) (ds : List DType) (r : Raster) : Prop :=
  ∀ y x v, valid r 0 y x = some v → ∃ a : Rat, v = .fin a ∧ ∀ d ∈ ds, np.cast d (.fin a) = .fin a

/-- The statistic of the same name. -/
def statOf : Method → LocalStat
  | .min => .min
  | _ => .max

end Spec

open Spec

/-! ### Single bands -/

theorem layers_single {np : NumPy} {dt : DType} {qs : List (Placed K)} (h : ∀ q ∈ qs, q.raster.nb = 1) (i j : Nat) :
    layers np dt qs 0 i j = qs.map fun q => (valid q.raster 0 i j).map (converted np dt q.raster) := by
  unfold layers
  rw [← List.filterMap_eq_map]
  refine List.filterMap_congr fun q hq => ?_
  unfold entries
  rw [h q hq]
  rfl

theorem sum_single {l : List Raster} (h : ∀ r ∈ l, r.nb = 1) : (l.map (·.nb)).sum = l.length := by
  induction l with
  | nil => rfl
  | cons a l ih =>
    rw [List.map_cons, List.sum_cons, ih fun r hr => h r (List.mem_cons_of_mem _ hr), h a (by simp), List.length_cons, Nat.add_comm]

/-- A cell of the mosaic is null if no raster is valid there, else the extreme of the valid values. -/
theorem chosen_extreme {np : NumPy} {dt : DType} {ds : List DType} {qs : List (Placed K)} {m : Method} {s : Num} {out : Option Num} {i j : Nat}
    (hm : m = .min ∨ m = .max) (hnb : ∀ q ∈ qs, q.raster.nb = 1) (hdt : dt ∈ ds) (hv : ∀ q ∈ qs, Exact np ds q.raster)
    (hs : ∀ q ∈ qs, ∀ y x, valid q.raster 0 y x ≠ some s)
    (h : Chosen m ((layers np dt qs 0 i j).map (counted s)) out) :
    (out = none ∧ ∀ q ∈ qs, valid q.raster 0 i j = none) ∨
      ∃ a : Rat, out = some (.fin a) ∧ (∃ q ∈ qs, valid q.raster 0 i j = some (.fin a)) ∧
        ∀ b : Rat, (∃ q ∈ qs, valid q.raster 0 i j = some (.fin b)) → if m = .min then a ≤ b else b ≤ a := by
  have hL : (layers np dt qs 0 i j).map (counted s) = qs.map fun q => valid q.raster 0 i j := by
    rw [layers_single hnb, List.map_map]
    refine List.map_congr_left fun q hq => ?_
    cases e : valid q.raster 0 i j with
    | none => simp [Function.comp, e, counted]
    | some v =>
      obtain ⟨a, rfl, ha⟩ := hv q hq i j v e
      have hc : converted np dt q.raster (.fin a) = .fin a := by
        unfold converted
        split
        · rfl
        · exact ha dt hdt
      simp only [Function.comp, e, Option.map_some, hc, counted]
      rw [if_neg fun k => hs q hq i j (e.trans k)]
  rw [hL] at h
  have hmem : ∀ v, some v ∈ (qs.map fun q => valid q.raster 0 i j) ↔ ∃ q ∈ qs, valid q.raster 0 i j = some v := by
    intro v; exact List.mem_map
  have hnone : (∀ x ∈ (qs.map fun q => valid q.raster 0 i j), x = none) → ∀ q ∈ qs, valid q.raster 0 i j = none :=
    fun k q hq => k _ (List.mem_map.2 ⟨q, hq, rfl⟩)
  rcases hm with rfl | rfl
  · rcases h with ⟨h1, h2⟩ | ⟨v, h1, h2, h3⟩
    · exact .inl ⟨h1, hnone h2⟩
    · obtain ⟨q, hq, e⟩ := (hmem v).1 h2
      obtain ⟨a, rfl, -⟩ := hv q hq i j v e
      refine .inr ⟨a, h1, ⟨q, hq, e⟩, fun b hb => ?_⟩
      rw [if_pos rfl]
      exact h3 _ ((hmem _).2 hb)
  · rcases h with ⟨h1, h2⟩ | ⟨v, h1, h2, h3⟩
    · exact .inl ⟨h1, hnone h2⟩
    · obtain ⟨q, hq, e⟩ := (hmem v).1 h2
      obtain ⟨a, rfl, -⟩ := hv q hq i j v e
      refine .inr ⟨a, h1, ⟨q, hq, e⟩, fun b hb => ?_⟩
      rw [if_neg (by simp)]
      exact h3 _ ((hmem _).2 hb)

/-- The statistic of stacked rasters: null if no raster is valid, else the extreme of the valid values. -/
theorem local_extreme {np : NumPy} {func : LocalStat → List Num → Num} {outTy : LocalStat → DType → DType} {resultType : List DType → DType}
    {r1 r2 : Raster} {rs : List Raster} {cat l : Raster} {m : Method} {ds : List DType}
    (hst : Statistics func) (hm : m = .min ∨ m = .max) (hnb : ∀ r ∈ r1 :: r2 :: rs, r.nb = 1)
    (hmn : ∀ r ∈ r1 :: r2 :: rs, MaskNeedsNull r) (hmk : ∃ r ∈ r1 :: r2 :: rs, r.nv ≠ none)
    (hc : bandConcat np resultType (r1 :: r2 :: rs) = .ok cat) (hl : localStats np func outTy cat (.name (some (statOf m))) = .ok l)
    (hd : ∀ d ∈ [cat.dtype, promoteToFloat cat.dtype, l.dtype], d ∈ ds) (hv : ∀ r ∈ r1 :: r2 :: rs, Exact np ds r) (i j : Nat) :
    (l.mask (0, i, j) = true ∧ ∀ r ∈ r1 :: r2 :: rs, valid r 0 i j = none) ∨
      ∃ a : Rat, l.mask (0, i, j) = false ∧ l.data (0, i, j) = .fin a ∧ (∃ r ∈ r1 :: r2 :: rs, valid r 0 i j = some (.fin a)) ∧
        ∀ b : Rat, (∃ r ∈ r1 :: r2 :: rs, valid r 0 i j = some (.fin b)) → if m = .min then a ≤ b else b ≤ a := by
  obtain ⟨cat', hc', c1, -, -, c4, c5, -, c7⟩ := Bands.C47_band_concat (resultType := resultType) hmn
  rw [hc] at hc'
  cases hc'
  have hmasked : cat.masked = true := by
    unfold Raster.masked
    rw [Option.isSome_iff_ne_none]
    intro k
    obtain ⟨r, hr, hne⟩ := hmk
    exact hne (c7.1 k r hr)
  have hin : statOf m ∈ [LocalStat.max, .min] := by rcases hm with rfl | rfl <;> simp [statOf]
  obtain ⟨-, -, -, l4, -, l6⟩ := Reduce.C55_masked hmasked (hst.ignores _ hin) hl
  obtain ⟨k1, -, k3⟩ := l6 (0, i, j)
  have hcd : computedDtype outTy (promoteToFloat cat.dtype) (statOf m) cat.nb = l.dtype := by
    rw [l4]
    rcases hm with rfl | rfl <;> rfl
  rw [hcd] at k3
  -- the bands
  have hband : ∀ r ∈ r1 :: r2 :: rs, ∃ b < cat.nb, cat.mask (b, i, j) = r.mask (0, i, j) ∧
      (r.mask (0, i, j) = false → cat.data (b, i, j) = np.cast cat.dtype (r.data (0, i, j))) := by
    intro r hr
    obtain ⟨pre, post, e⟩ := List.append_of_mem hr
    have hb := c5 pre r post e 0 (by rw [hnb r hr]; exact Nat.one_pos) i j
    refine ⟨_, ?_, hb⟩
    rw [c1, e, List.map_append, List.sum_append, List.map_cons, List.sum_cons, hnb r hr]
    omega
  have hback : ∀ b < cat.nb, ∃ r ∈ r1 :: r2 :: rs, cat.mask (b, i, j) = r.mask (0, i, j) ∧
      (r.mask (0, i, j) = false → cat.data (b, i, j) = np.cast cat.dtype (r.data (0, i, j))) := by
    intro b hb
    rw [c1, sum_single hnb] at hb
    have e := (List.take_append_drop b (r1 :: r2 :: rs)).symm
    rw [List.drop_eq_getElem_cons hb] at e
    have hr : (r1 :: r2 :: rs)[b] ∈ r1 :: r2 :: rs := List.getElem_mem hb
    have hpre : ((List.take b (r1 :: r2 :: rs)).map (·.nb)).sum = b := by
      rw [sum_single fun r hr => hnb r (List.mem_of_mem_take hr), List.length_take]
      omega
    have := c5 _ _ _ e 0 (by rw [hnb _ hr]; exact Nat.one_pos) i j
    rw [hpre, Nat.add_zero] at this
    exact ⟨_, hr, this⟩
  have hvm : ∀ r : Raster, r.mask (0, i, j) = false → valid r 0 i j = some (r.data (0, i, j)) := by
    intro r h
    unfold valid
    rw [if_neg (by rw [h]; simp)]
  have hvn : ∀ r : Raster, r.mask (0, i, j) = true ↔ valid r 0 i j = none := by
    intro r
    unfold valid
    split <;> simp_all
  have hpres : ∀ v, v ∈ present cat.mask (fun p => convert np cat.dtype (promoteToFloat cat.dtype) (cat.data p)) (bandCells cat.nb (0, i, j)) ↔
      ∃ a : Rat, v = .fin a ∧ ∃ r ∈ r1 :: r2 :: rs, valid r 0 i j = some (.fin a) := by
    intro v
    unfold present bandCells
    simp only [List.mem_map, List.mem_filter, List.mem_range, Bool.not_eq_true']
    have hval : ∀ b, ∀ r ∈ r1 :: r2 :: rs, r.mask (0, i, j) = false → cat.data (b, i, j) = np.cast cat.dtype (r.data (0, i, j)) →
        ∃ a : Rat, r.data (0, i, j) = .fin a ∧ convert np cat.dtype (promoteToFloat cat.dtype) (cat.data (b, i, j)) = .fin a := by
      intro b r hr hrm e
      obtain ⟨a, ea, ha⟩ := hv r hr i j _ (hvm r hrm)
      refine ⟨a, ea, ?_⟩
      rw [e, ea, ha _ (hd _ (by simp))]
      unfold convert
      split
      · rfl
      · exact ha _ (hd _ (by simp))
    constructor
    · rintro ⟨-, ⟨⟨b, hb, rfl⟩, hbm⟩, rfl⟩
      obtain ⟨r, hr, e1, e2⟩ := hback b hb
      have hrm : r.mask (0, i, j) = false := e1 ▸ hbm
      obtain ⟨a, ea, h⟩ := hval b r hr hrm (e2 hrm)
      exact ⟨a, h, r, hr, by rw [hvm r hrm, ea]⟩
    · rintro ⟨a, rfl, r, hr, e⟩
      obtain ⟨b, hb, e1, e2⟩ := hband r hr
      have hrm : r.mask (0, i, j) = false := by
        rw [← Bool.not_eq_true, hvn, e]
        simp
      obtain ⟨a', ea, h⟩ := hval b r hr hrm (e2 hrm)
      rw [hvm r hrm, ea] at e
      cases e
      exact ⟨(b, i, j), ⟨⟨b, hb, rfl⟩, by rw [e1, hrm]⟩, h⟩
  cases hlm : l.mask (0, i, j) with
  | true =>
    refine .inl ⟨rfl, fun r hr => ?_⟩
    obtain ⟨b, hb, e1, -⟩ := hband r hr
    rw [← hvn, ← e1]
    exact k1.1 hlm (b, i, j) (List.mem_map.2 ⟨b, List.mem_range.2 hb, rfl⟩)
  | false =>
    right
    obtain ⟨xs, hxs⟩ := Windows.numbers_list (l := present cat.mask (fun p => convert np cat.dtype (promoteToFloat cat.dtype) (cat.data p))
      (bandCells cat.nb (0, i, j))) fun v hv => by
        obtain ⟨a, e, -⟩ := (hpres v).1 hv
        exact ⟨a, e⟩
    have hmem : ∀ a : Rat, a ∈ xs ↔ ∃ r ∈ r1 :: r2 :: rs, valid r 0 i j = some (.fin a) := by
      intro a
      have e : a ∈ xs ↔ (.fin a : Num) ∈ xs.map .fin := by
        constructor
        · exact fun k => List.mem_map.2 ⟨a, k, rfl⟩
        · intro k
          obtain ⟨b, hb, e⟩ := List.mem_map.1 k
          cases e
          exact hb
      rw [e, ← hxs, hpres]
      constructor
      · rintro ⟨a', e, h⟩
        cases e
        exact h
      · exact fun h => ⟨a, rfl, h⟩
    have hne : xs ≠ [] := by
      have : ¬ ∀ p ∈ bandCells cat.nb (0, i, j), cat.mask p = true := fun k => by
        rw [k1.2 k] at hlm; cases hlm
      push Not at this
      obtain ⟨p, hp, hpm⟩ := this
      obtain ⟨b, hb, rfl⟩ := List.mem_map.1 hp
      obtain ⟨r, hr, e1, -⟩ := hback b (List.mem_range.1 hb)
      have hrm : r.mask (0, i, j) = false := by rw [← e1]; exact Bool.eq_false_iff.2 hpm
      obtain ⟨a, ea, -⟩ := hv r hr i j _ (hvm r hrm)
      exact List.ne_nil_of_mem ((hmem a).2 ⟨r, hr, by rw [hvm r hrm, ea]⟩)
    have key : ∃ a ∈ xs, func (statOf m) (xs.map .fin) = .fin a ∧ ∀ b ∈ xs, if m = .min then a ≤ b else b ≤ a := by
      rcases hm with rfl | rfl
      · obtain ⟨a, h1, h2, h3⟩ := hst.min xs hne
        exact ⟨a, h1, h2, fun b hb => by rw [if_pos rfl]; exact h3 b hb⟩
      · obtain ⟨a, h1, h2, h3⟩ := hst.max xs hne
        exact ⟨a, h1, h2, fun b hb => by rw [if_neg (by simp)]; exact h3 b hb⟩
    obtain ⟨a, h1, h2, h3⟩ := key
    obtain ⟨r, hr, er⟩ := (hmem a).1 h1
    obtain ⟨a', ea, ha⟩ := hv r hr i j _ er
    cases ea
    refine ⟨a, rfl, ?_, (hmem a).1 h1, fun b hb => h3 b ((hmem b).2 hb)⟩
    rw [k3 hlm, hxs, h2, ha _ (hd _ (by simp))]
    unfold convert
    rw [if_pos rfl]

/-- **C99 (partial: as C88, and for rasters of which one at least has a null value).**  The mosaic of single bands by 'min' or 'max' has the null cells and the
values of `local_stats` for the stack of the rasters, brought to its grid. -/
theorem C99_mosaic_partial (t : Tools K) {func : LocalStat → List Num → Num} {outTy : LocalStat → DType → DType} {resultType : List DType → DType}
    {rs qs : List (Placed K)} {q1 q2 : Placed K} {a : Args K} {m : Method} {dt : DType} {s : Scalar} {dst : Frame K} {cat l : Raster} {ds : List DType}
    (hst : Statistics func) (hm : m = .min ∨ m = .max)
    (hne : rs ≠ []) (hma : a.method = name m) (hr : resamplingOf a.resampling ∈ t.engine.methods)
    (hd : OutType rs a.dtype dt) (hs : OutNull rs dt a.null s) (hg : OutGrid t rs a.crs a.grid dst)
    (hon : List.Forall₂ (On t dst (resamplingOf a.resampling)) rs (q1 :: q2 :: qs)) (hh : ∀ q ∈ q1 :: q2 :: qs, NullsHold q.raster)
    (ht : ∀ q ∈ q1 :: q2 :: qs, Typed t.np q.raster) (hw : t.writable dt s = true) (hc : t.np.cast dt s.val = s.val)
    (ha : ∀ q ∈ q1 :: q2 :: qs, Apart t.np s dt q.raster) (hbool : dt ≠ .bool)
    (hD : dt.isFloat = false → ∀ q ∈ q1 :: q2 :: qs, ∀ b i j v, valid q.raster b i j = some v →
      ∃ n : Int, converted t.np dt q.raster v = .fin n ∧ dt.Holds n)
    (hy : Monotone dst.ys) (hx : Monotone dst.xs)
    (hnb : ∀ q ∈ q1 :: q2 :: qs, q.raster.nb = 1) (hmk : ∃ q ∈ q1 :: q2 :: qs, q.raster.nv ≠ none)
    (hcat : bandConcat t.np resultType ((q1 :: q2 :: qs).map (·.raster)) = .ok cat)
    (hl : localStats t.np func outTy cat (.name (some (statOf m))) = .ok l)
    (hds : ∀ d ∈ [dt, cat.dtype, promoteToFloat cat.dtype, l.dtype], d ∈ ds) (hv : ∀ q ∈ q1 :: q2 :: qs, Exact t.np ds q.raster)
    (hsv : ∀ q ∈ q1 :: q2 :: qs, ∀ y x, valid q.raster 0 y x ≠ some s.val) :
    ∃ out, mosaic t rs a = .ok out ∧ ∀ i j, valid out.raster 0 i j = valid l 0 i j := by
  obtain ⟨out, ho, -, -, -, -, -, hb, hcell⟩ := MosaicRaster.C88_mosaic_partial t hne hma hr hd hs hg hon hh ht hw hc ha
    (by rcases hm with rfl | rfl <;> simp) (fun k => absurd k hbool) hD hy hx
  refine ⟨out, ho, fun i j => ?_⟩
  have h0 : 0 < out.raster.nb := (hb 0).2 ⟨q1, by simp, by rw [hnb q1 (by simp)]; exact Nat.one_pos⟩
  have hmem : ∀ P : Raster → Prop, (∀ q ∈ q1 :: q2 :: qs, P q.raster) → ∀ r ∈ q1.raster :: q2.raster :: qs.map (·.raster), P r := by
    intro P h r hr
    rw [← List.map_cons (f := fun q : Placed K => q.raster), ← List.map_cons (f := fun q : Placed K => q.raster)] at hr
    obtain ⟨q, hq, rfl⟩ := List.mem_map.1 hr
    exact h q hq
  have hexi : ∀ P : Raster → Prop, (∃ r ∈ q1.raster :: q2.raster :: qs.map (·.raster), P r) ↔ ∃ q ∈ q1 :: q2 :: qs, P q.raster := by
    intro P
    simp
  have h1 := chosen_extreme hm hnb (hds dt (by simp)) hv hsv (hcell 0 i j h0)
  have h2 := local_extreme hst hm (hmem _ hnb) (hmem _ fun q hq c hcm => by
      obtain ⟨s', e, -⟩ := hh q hq c hcm
      rw [e]; simp) ((hexi _).2 hmk) hcat hl (fun d hd => hds d (List.mem_cons_of_mem _ hd)) (hmem _ hv) i j
  simp only [hexi] at h2
  rcases h1 with ⟨e1, n1⟩ | ⟨x, e1, ⟨q, hq, eq⟩, n1⟩
  · rcases h2 with ⟨e2, -⟩ | ⟨y, -, -, ⟨q, hq, eq⟩, -⟩
    · rw [e1, valid, if_pos e2]
    · rw [n1 q hq] at eq; cases eq
  · rcases h2 with ⟨-, n2⟩ | ⟨y, e2, e3, hex, n2⟩
    · rw [n2 q.raster (by simpa using List.mem_map.2 ⟨q, hq, rfl⟩)] at eq; cases eq
    · have i1 := n1 y hex
      have i2 := n2 x ⟨q, hq, eq⟩
      have : x = y := by
        rcases hm with rfl | rfl
        · rw [if_pos rfl] at i1 i2; exact le_antisymm i1 i2
        · rw [if_neg (by simp)] at i1 i2; exact le_antisymm i2 i1
      rw [e1, valid, if_neg (by rw [e2]; simp), e3, this]

/-! ### Examples and counterexamples -/

open Verif.MosaicRaster (exTools exFrame exRaster exArgs shown)

/-- A choice of the statistics. -/
def exStat (s : LocalStat) (l : List Num) : Num := Windows.exFunc (if s = .min then .min else .max) l

theorem exStat_statistics : Statistics exStat where
  ignores := fun s _ l => Windows.exFunc_statistics.ignores _ (by split <;> simp) l
  max := Windows.exFunc_statistics.max
  min := Windows.exFunc_statistics.min

/-- Two rasters on one grid: 5, null, 7 and 9, 4, null. -/
def exA : Placed Nat := exRaster exFrame i32 ⟨i32, .fin (-1)⟩ [[.fin 5, .fin (-1), .fin 7]]
def exB : Placed Nat := exRaster exFrame i32 ⟨i32, .fin (-9999)⟩ [[.fin 9, .fin 4, .fin (-9999)]]

/-- The stack of the rasters and its statistic. -/
def exStack (rs : List Raster) (stat : LocalStat) : Option Raster :=
  match bandConcat (idNumPy true) (fun l => l.headD i32) rs with
  | .error _ => none
  | .ok cat => (localStats (idNumPy true) exStat (fun _ d => d) cat (.name (some stat))).toOption

/-- The cells of the first row. -/
def exRow (r : Raster) : List (Option Num) := (List.range r.nx).map fun j => valid r 0 0 j

/-- Both ways give 9, 4, 7. -/
example : Statistics exStat ∧ OutType [exA, exB] (exArgs "max" exFrame).dtype i32 ∧
    OutNull [exA, exB] i32 (exArgs "max" exFrame).null ⟨i32, .fin (-1)⟩ ∧ OutGrid exTools [exA, exB] none (exArgs "max" exFrame).grid exFrame ∧
    List.Forall₂ (On exTools exFrame "nearest") [exA, exB] [exA, exB] ∧ (∀ q ∈ [exA, exB], NullsHold q.raster) ∧
    (∀ q ∈ [exA, exB], Typed exTools.np q.raster) ∧ (∀ q ∈ [exA, exB], Apart exTools.np ⟨i32, .fin (-1)⟩ i32 q.raster) ∧
    shown (mosaic exTools [exA, exB] (exArgs "max" exFrame)) 0 = some [some (.fin 9), some (.fin 4), some (.fin 7)] ∧
    (exStack [exA.raster, exB.raster] .max).map exRow = some [some (.fin 9), some (.fin 4), some (.fin 7)] ∧
    shown (mosaic exTools [exA, exB] (exArgs "min" exFrame)) 0 = some [some (.fin 5), some (.fin 4), some (.fin 7)] ∧
    (exStack [exA.raster, exB.raster] .min).map exRow = some [some (.fin 5), some (.fin 4), some (.fin 7)] := by
  have hh : ∀ q ∈ [exA, exB], NullsHold q.raster := by
    intro q hq
    simp only [List.mem_cons, List.not_mem_nil, or_false] at hq
    rcases hq with rfl | rfl <;> exact fun c hc => ⟨_, rfl, (maskOf_iff _ _).mp hc⟩
  refine ⟨exStat_statistics, Or.inr ⟨rfl, by decide +kernel⟩, Or.inr ⟨rfl, Or.inl ⟨[], exA, [exB], rfl, by simp, rfl⟩⟩, Or.inl rfl,
    .cons (Or.inl ⟨by decide +kernel, rfl⟩) (.cons (Or.inl ⟨by decide +kernel, rfl⟩) .nil), hh, ?_, ?_,
    by decide +kernel, by decide +kernel, by decide +kernel, by decide +kernel⟩
  · intro q hq
    simp only [List.mem_cons, List.not_mem_nil, or_false] at hq
    rcases hq with rfl | rfl <;> exact fun _ => rfl
  · intro q hq old h
    simp only [List.mem_cons, List.not_mem_nil, or_false] at hq
    rcases hq with rfl | rfl
    · cases h; exact Or.inl rfl
    · cases h; exact Or.inr ⟨by decide +kernel, by decide +kernel, by decide +kernel⟩

/-- **A valid cell may hold the null value of the mosaic**: the second raster holds -1, the null value of the first, in a valid cell; the mosaic is null there,
the statistic of the stack is -1. -/
theorem C99_null_value_held : ∃ p q : Placed Nat, valid q.raster 0 0 1 = some (.fin (-1)) ∧
    shown (mosaic exTools [p, q] (exArgs "max" exFrame)) 0 = some [some (.fin 9), none, some (.fin 7)] ∧
    (exStack [p.raster, q.raster] .max).map exRow = some [some (.fin 9), some (.fin (-1)), some (.fin 7)] :=
  ⟨exA, exRaster exFrame i32 ⟨i32, .fin (-9999)⟩ [[.fin 9, .fin (-1), .fin (-9999)]], by decide +kernel⟩

/-- **Without null values** the mosaic has one band and the statistic of the stack two. -/
theorem C99_without_null_value : ∃ r : Raster, r.nb = 1 ∧ r.nv = none ∧
    (∃ out, mosaic exTools [⟨exFrame, r⟩, ⟨exFrame, r⟩] (exArgs "max" exFrame) = .ok out ∧ out.raster.nb = 1) ∧
    (exStack [r, r] .max).map (·.nb) = some 2 :=
  ⟨⟨i32, 1, 1, 3, fun c => .fin c.2.2, fun _ => false, none⟩, rfl, rfl, ⟨_, rfl, by decide +kernel⟩, by decide +kernel⟩

end Verif.Trips.Stacks
