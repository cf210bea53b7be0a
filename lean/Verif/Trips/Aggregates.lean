import Verif.Reduce.Props
import Verif.Whole.Props

set_option linter.unusedSectionVars false

/-!
# C93: numbers that `aggregate` keeps

`aggregate` (`general.py:251-336`, C56) followed by the reductions of a raster to one number (`raster.py:70-138`, C62): the sum of
the sums, the greatest of the maxima, the least of the minima, and the mean of the means.
-/

namespace Verif.Trips

open Verif Verif.Nulls DType
open Verif.Reduce (AggStat aggregate)
open Verif.Reduce.Spec (blockCells present)
open Verif.Focal.Spec (IgnoresNan)
open Verif.Whole (daskNansum daskNanmax daskNanmin daskNanmean)
open Verif.Whole.Spec (BlocksOf)

namespace Spec

/-- The numbers of the cells in a window that are not null. -/
def blockNumbers (r : Raster) (q : Cell → Rat) (ey ex : Nat) (c : Cell) : List Rat :=
  ((blockCells ey ex c).filter fun p => !r.mask p).map q

/-- The four statistics on a list of numbers. -/
structure Statistics (func : AggStat → List Num → Num) : Prop where
  ignores : ∀ s ∈ [AggStat.sum, .max, .min, .mean], IgnoresNan (func s)
  sum : ∀ l : List Rat, func .sum (l.map .fin) = .fin l.sum
  max : ∀ l : List Rat, l ≠ [] → ∃ m ∈ l, func .max (l.map .fin) = .fin m ∧ ∀ v ∈ l, v ≤ m
  min : ∀ l : List Rat, l ≠ [] → ∃ m ∈ l, func .min (l.map .fin) = .fin m ∧ ∀ v ∈ l, m ≤ v
  mean : ∀ l : List Rat, l ≠ [] → func .mean (l.map .fin) = .fin (l.sum / l.length)

/-- The cells that are not null hold the numbers `q`, also after the conversion to floating point numbers that a null value
brings about. -/
def Numbers (np : NumPy) (r : Raster) (q : Cell → Rat) : Prop :=
  ∀ c, r.Has c → r.mask c = false → r.data c = .fin (q c) ∧
    (r.nv ≠ none → r.dtype.isFloat = false → np.cast (Focal.promoteToFloat r.dtype) (.fin (q c)) = .fin (q c))

end Spec

open Spec

/-! ### Windows -/

theorem blockCells_has {r : Raster} {ey ex : Nat} {c p : Cell} (hy : 0 < ey) (hx : 0 < ex) (hc : c.1 < r.nb ∧ c.2.1 < r.ny / ey ∧ c.2.2 < r.nx / ex)
    (hp : p ∈ blockCells ey ex c) : r.Has p := by
  have e := ((Reduce.C56_partition hy hx p c).1).1 hp
  rw [e] at hc
  refine ⟨hc.1, ?_, ?_⟩
  · by_contra h
    exact absurd (Nat.div_le_div_right (c := ey) (not_lt.1 h)) (not_le.2 hc.2.1)
  · by_contra h
    exact absurd (Nat.div_le_div_right (c := ex) (not_lt.1 h)) (not_le.2 hc.2.2)

theorem promote_float {dt : DType} (h : dt.isFloat = true) : Focal.promoteToFloat dt = dt := by
  cases dt <;> first | rfl | simp [DType.isFloat] at h

/-- The result at a cell. -/
theorem aggregate_cell {np : NumPy} {func : AggStat → List Num → Num} {outTy : AggStat → DType → DType} {r o : Raster}
    {ey ex : Nat} {stat : AggStat} {q : Cell → Rat} (hs : stat.custom = false) (hf : IgnoresNan (func stat))
    (hn : MaskNeedsNull r) (hq : Numbers np r q)
    (h : aggregate np func outTy r (.ints [ey, ex]) (.name (some stat)) = .ok o) :
    0 < ey ∧ 0 < ex ∧ o.nb = r.nb ∧ o.ny = r.ny / ey ∧ o.nx = r.nx / ex ∧
    ∀ c, o.Has c → (o.mask c = false ↔ blockNumbers r q ey ex c ≠ []) ∧
      (o.mask c = false → o.data c = np.cast o.dtype (func stat ((blockNumbers r q ey ex c).map .fin))) := by
  obtain ⟨h1, h2, -⟩ := Reduce.aggregate_ok h
  have hy : 0 < ey := by omega
  have hx : 0 < ex := by omega
  have hst : ∀ m n dt v, Reduce.stored np m stat n dt v = np.cast dt v := by
    intro m n dt v
    cases stat <;> first | rfl | simp [AggStat.custom] at hs
  have hlist : ∀ c : Cell, (∀ p ∈ blockCells ey ex c, r.Has p) → ∀ f : Cell → Num,
      (∀ p, r.Has p → r.mask p = false → f p = .fin (q p)) →
      present r.mask f (blockCells ey ex c) = (blockNumbers r q ey ex c).map .fin := by
    intro c hp f hfq
    unfold present blockNumbers
    rw [List.map_map]
    refine List.map_congr_left fun p hpm => ?_
    have := List.mem_filter.1 hpm
    rw [hfq p (hp p this.1) (by simpa using this.2)]
    rfl
  cases hm : r.masked with
  | true =>
    obtain ⟨e1, e2, e3, -, -, e6⟩ := Reduce.C56_masked hm hf h
    refine ⟨hy, hx, e1, e2, e3, fun c hc => ?_⟩
    have hcell : ∀ p ∈ blockCells ey ex c, r.Has p := fun p hp =>
      blockCells_has hy hx ⟨e1 ▸ hc.1, e2 ▸ hc.2.1, e3 ▸ hc.2.2⟩ hp
    obtain ⟨k1, -, k3⟩ := e6 c hc
    refine ⟨?_, fun hc0 => ?_⟩
    · rw [← not_iff_not, Bool.not_eq_false, k1, not_not]
      unfold blockNumbers
      rw [List.map_eq_nil_iff, List.filter_eq_nil_iff]
      simp
    · rw [k3 hc0, hst, hlist c hcell]
      intro p hp hpm
      obtain ⟨g1, g2⟩ := hq p hp hpm
      rw [g1]
      unfold Focal.convert
      split
      · rfl
      · rename_i hne
        refine g2 (by simpa [Raster.masked, Option.isSome_iff_ne_none] using hm) ?_
        cases hfl : r.dtype.isFloat with
        | false => rfl
        | true => exact absurd (promote_float hfl) hne
  | false =>
    obtain ⟨e1, e2, e3, -, e6⟩ := Reduce.C56_unmasked hm h
    refine ⟨hy, hx, e1, e2, e3, fun c hc => ?_⟩
    have hcell : ∀ p ∈ blockCells ey ex c, r.Has p := fun p hp =>
      blockCells_has hy hx ⟨e1 ▸ hc.1, e2 ▸ hc.2.1, e3 ▸ hc.2.2⟩ hp
    obtain ⟨-, k2, k3⟩ := e6 c hc
    have hmask : ∀ p, r.mask p = false := by
      intro p
      by_contra hp
      have := hn p (by simpa using hp)
      simp [Raster.masked] at hm
      exact this hm
    refine ⟨⟨fun _ => ?_, fun _ => k2⟩, fun _ => ?_⟩
    · unfold blockNumbers
      rw [ne_eq, List.map_eq_nil_iff, List.filter_eq_nil_iff]
      intro hall
      have hin : (c.1, c.2.1 * ey, c.2.2 * ex) ∈ blockCells ey ex c := by
        rw [(Reduce.C56_partition hy hx _ c).1]
        simp [Nat.mul_div_cancel _ hy, Nat.mul_div_cancel _ hx]
      have := hall _ hin
      rw [hmask] at this
      exact this rfl
    · rw [k3, hst, ← hlist c hcell r.data fun p hp hpm => (hq p hp hpm).1]
      unfold present
      rw [List.filter_eq_self.2 (by intro p _; rw [hmask]; rfl)]

/-- Sums over the cells, window by window. -/
theorem sum_blocks {M : Type} [AddCommMonoid M] (n e : Nat) (g : Nat → M) :
    ∑ i ∈ Finset.range (n * e), g i = ∑ i ∈ Finset.range n, ∑ a ∈ Finset.range e, g (i * e + a) := by
  induction n with
  | zero => simp
  | succ n ih => rw [Nat.succ_mul, Finset.sum_range_add, ih, Finset.sum_range_succ]

theorem blockCells_sum {M : Type} [AddCommMonoid M] (ey ex : Nat) (c : Cell) (g : Cell → M) :
    ((blockCells ey ex c).map g).sum =
      ∑ a ∈ Finset.range ey, ∑ b ∈ Finset.range ex, g (c.1, c.2.1 * ey + a, c.2.2 * ex + b) := by
  have hrange : ∀ (n : Nat) (f : Nat → M), ((List.range n).map f).sum = ∑ i ∈ Finset.range n, f i := by
    intro n f
    induction n with
    | zero => rfl
    | succ n ih => rw [List.range_succ, List.map_append, List.sum_append, ih, Finset.sum_range_succ]; simp
  have hflat : ∀ (l : List Nat) (f : Nat → List Cell), ((l.flatMap f).map g).sum = (l.map fun a => ((f a).map g).sum).sum := by
    intro l f
    induction l with
    | nil => rfl
    | cons a l ih => rw [List.flatMap_cons, List.map_append, List.sum_append, ih, List.map_cons, List.sum_cons]
  unfold blockCells
  rw [hflat, hrange]
  refine Finset.sum_congr rfl fun a _ => ?_
  rw [List.map_map, hrange]
  rfl

theorem total_blocks {M : Type} [AddCommMonoid M] {r o : Raster} {ey ex : Nat} (hb : o.nb = r.nb) (hy : o.ny * ey = r.ny)
    (hx : o.nx * ex = r.nx) (g : Cell → M) :
    Whole.Spec.total o (fun c => ((blockCells ey ex c).map g).sum) = Whole.Spec.total r g := by
  unfold Whole.Spec.total
  rw [hb, ← hy, ← hx]
  refine Finset.sum_congr rfl fun b _ => ?_
  rw [sum_blocks]
  refine Finset.sum_congr rfl fun y _ => ?_
  rw [Finset.sum_congr rfl fun a _ => sum_blocks _ _ _, Finset.sum_comm]
  exact Finset.sum_congr rfl fun x _ => blockCells_sum _ _ _ _

theorem filter_sum {A M : Type} [AddCommMonoid M] (l : List A) (p : A → Bool) (f : A → M) :
    ((l.filter p).map f).sum = (l.map fun a => if p a = true then f a else 0).sum := by
  induction l with
  | nil => rfl
  | cons a l ih =>
    by_cases h : p a = true
    · rw [List.filter_cons_of_pos h, List.map_cons, List.sum_cons, ih, List.map_cons, List.sum_cons, if_pos h]
    · rw [List.filter_cons_of_neg h, ih, List.map_cons, List.sum_cons, if_neg h, zero_add]

theorem blockNumbers_sum (r : Raster) (q : Cell → Rat) (ey ex : Nat) (c : Cell) :
    (blockNumbers r q ey ex c).sum = ((blockCells ey ex c).map fun p => if r.mask p = false then q p else 0).sum := by
  unfold blockNumbers
  rw [filter_sum]
  simp

/-! ### C93 -/

/-- **C93 (sum)**: the sum of the aggregated raster is the sum of the raster, if the windows cover it and the dtype of the result
holds the sums of the windows. -/
theorem C93_sum_partial {np : NumPy} {func : AggStat → List Num → Num} {outTy : AggStat → DType → DType} {r o : Raster}
    {ey ex : Nat} {q : Cell → Rat} (hf : Statistics func) (hn : MaskNeedsNull r) (hq : Numbers np r q)
    (hy : ey ∣ r.ny) (hx : ex ∣ r.nx)
    (h : aggregate np func outTy r (.ints [ey, ex]) (.name (some .sum)) = .ok o)
    (hfit : ∀ c, o.Has c → np.cast o.dtype (.fin (blockNumbers r q ey ex c).sum) = .fin (blockNumbers r q ey ex c).sum)
    {br bo : List (List Num)} (hr : BlocksOf r br) (ho : BlocksOf o bo) (ks ks' : List Nat) :
    daskNansum ks bo = daskNansum ks' br := by
  obtain ⟨-, -, e1, e2, e3, e4⟩ := aggregate_cell rfl (hf.ignores _ (by simp)) hn hq h
  rw [Whole.C62_sum ho ks (q := fun c => (blockNumbers r q ey ex c).sum) ?_,
    Whole.C62_sum hr ks' (q := q) fun c hc hm => .inl (hq c hc hm).1]
  · congr 2
    rw [← total_blocks (o := o) (ey := ey) (ex := ex) e1 (by rw [e2, Nat.div_mul_cancel hy]) (by rw [e3, Nat.div_mul_cancel hx])]
    refine Whole.total_congr fun c hc => ?_
    by_cases hm : o.mask c = false
    · rw [if_pos hm, blockNumbers_sum]
    · rw [if_neg hm]
      have := not_not.1 fun hne => hm ((e4 c hc).1.2 hne)
      rw [← blockNumbers_sum, this, List.sum_nil]
  · intro c hc hm
    exact .inl (by rw [(e4 c hc).2 hm, hf.sum, hfit c hc])

/-- The values of the raster and of the aggregated raster. -/
theorem valid_window {np : NumPy} {r o : Raster} {ey ex : Nat} {q : Cell → Rat} (hq : Numbers np r q) (hy : 0 < ey) (hx : 0 < ex)
    (e1 : o.nb = r.nb) (e2 : o.ny * ey = r.ny) (e3 : o.nx * ex = r.nx) {v : Num} :
    Whole.Spec.Valid r v ↔ ∃ c, o.Has c ∧ ∃ a ∈ blockNumbers r q ey ex c, v = .fin a := by
  constructor
  · rintro ⟨p, hp, hm, rfl⟩
    have hin := ((Reduce.C56_partition hy hx p (p.1, p.2.1 / ey, p.2.2 / ex)).1).2 rfl
    refine ⟨(p.1, p.2.1 / ey, p.2.2 / ex), ⟨e1 ▸ hp.1, ?_, ?_⟩, q p, ?_, (hq p hp hm).1⟩
    · exact Nat.div_lt_of_lt_mul (by rw [Nat.mul_comm, e2]; exact hp.2.1)
    · exact Nat.div_lt_of_lt_mul (by rw [Nat.mul_comm, e3]; exact hp.2.2)
    · exact List.mem_map.2 ⟨p, List.mem_filter.2 ⟨hin, by rw [hm]; rfl⟩, rfl⟩
  · rintro ⟨c, hc, a, ha, rfl⟩
    obtain ⟨p, hp, rfl⟩ := List.mem_map.1 ha
    have hpm := List.mem_filter.1 hp
    have hm : r.mask p = false := by simpa using hpm.2
    have hcell := blockCells_has (r := r) hy hx ⟨e1 ▸ hc.1, by rw [← e2, Nat.mul_div_cancel _ hy]; exact hc.2.1,
      by rw [← e3, Nat.mul_div_cancel _ hx]; exact hc.2.2⟩ hpm.1
    exact ⟨p, hcell, hm, (hq p hcell hm).1⟩

theorem le_antisymm_num {a b : Rat} (h1 : Stats.Spec.Le (.fin a) (.fin b)) (h2 : Stats.Spec.Le (.fin b) (.fin a)) : a = b :=
  le_antisymm h1 h2

/-- **C93 (max, min)**: the greatest value of the maxima of the windows is the greatest value of the raster, and the least value of
the minima its least value. -/
theorem C93_max_min {np : NumPy} {func : AggStat → List Num → Num} {outTy : AggStat → DType → DType} {r o o' : Raster}
    {ey ex : Nat} {q : Cell → Rat} (hf : Statistics func) (hn : MaskNeedsNull r) (hq : Numbers np r q)
    (hy : ey ∣ r.ny) (hx : ex ∣ r.nx)
    (h : aggregate np func outTy r (.ints [ey, ex]) (.name (some .max)) = .ok o)
    (h' : aggregate np func outTy r (.ints [ey, ex]) (.name (some .min)) = .ok o')
    (hfit : ∀ c, r.Has c → r.mask c = false → np.cast o.dtype (.fin (q c)) = .fin (q c) ∧ np.cast o'.dtype (.fin (q c)) = .fin (q c))
    {br bo bo' : List (List Num)} (hr : BlocksOf r br) (ho : BlocksOf o bo) (ho' : BlocksOf o' bo') (ks ks' : List Nat) :
    daskNanmax ks bo = daskNanmax ks' br ∧ daskNanmin ks bo' = daskNanmin ks' br := by
  have hcast : ∀ {dt : DType} (c : Cell), (∀ p ∈ blockCells ey ex c, r.Has p) →
      (∀ p, r.Has p → r.mask p = false → np.cast dt (.fin (q p)) = .fin (q p)) →
      ∀ a ∈ blockNumbers r q ey ex c, np.cast dt (.fin a) = .fin a := by
    intro dt c hp hd a ha
    obtain ⟨p, hpm, rfl⟩ := List.mem_map.1 ha
    have := List.mem_filter.1 hpm
    exact hd p (hp p this.1) (by simpa using this.2)
  constructor
  · obtain ⟨hy0, hx0, e1, e2, e3, e4⟩ := aggregate_cell rfl (hf.ignores _ (by simp)) hn hq h
    have d2 : o.ny * ey = r.ny := by rw [e2, Nat.div_mul_cancel hy]
    have d3 : o.nx * ex = r.nx := by rw [e3, Nat.div_mul_cancel hx]
    have hval : ∀ c, o.Has c → o.mask c = false → ∃ m ∈ blockNumbers r q ey ex c, o.data c = .fin m ∧
        ∀ v ∈ blockNumbers r q ey ex c, v ≤ m := by
      intro c hc hm
      obtain ⟨m, k1, k2, k3⟩ := hf.max _ ((e4 c hc).1.1 hm)
      refine ⟨m, k1, ?_, k3⟩
      rw [(e4 c hc).2 hm, k2]
      exact hcast c (fun p hp => blockCells_has hy0 hx0 ⟨e1 ▸ hc.1, e2 ▸ hc.2.1, e3 ▸ hc.2.2⟩ hp) (fun p h1 h2 => (hfit p h1 h2).1) m k1
    obtain ⟨a1, -, a3⟩ := Whole.C62_max hr ks'
    obtain ⟨b1, -, b3⟩ := Whole.C62_max ho ks
    by_cases hv : ∃ v, Whole.Spec.Valid r v
    · obtain ⟨v, hv⟩ := hv
      obtain ⟨c, hc, a, ha, rfl⟩ := (valid_window hq hy0 hx0 e1 d2 d3).1 hv
      have hm := (e4 c hc).1.2 fun h0 => by rw [h0] at ha; cases ha
      obtain ⟨m, g1, g2, g3⟩ := hval c hc hm
      obtain ⟨M, k1, k2, -, k4⟩ := a3 ⟨_, hv, by simp⟩
      obtain ⟨N, l1, l2, -, l4⟩ := b3 ⟨.fin m, ⟨c, hc, hm, g2⟩, by simp⟩
      obtain ⟨cM, hcM, aM, haM, rfl⟩ := (valid_window hq hy0 hx0 e1 d2 d3).1 k2
      obtain ⟨cN, hcN, hmN, rfl⟩ := l2
      obtain ⟨mN, i1, i2, -⟩ := hval cN hcN hmN
      have hmM := (e4 cM hcM).1.2 fun h0 => by rw [h0] at haM; cases haM
      obtain ⟨mM, j1, j2, j3⟩ := hval cM hcM hmM
      have c1 : mN ≤ aM := k4 (.fin mN) ((valid_window hq hy0 hx0 e1 d2 d3).2 ⟨cN, hcN, mN, i1, rfl⟩) (by simp)
      have c2 := l4 (.fin mM) ⟨cM, hcM, hmM, j2⟩ (by simp)
      rw [i2] at c2
      have c2 : mM ≤ mN := c2
      rw [k1, l1, i2, le_antisymm c1 ((j3 aM haM).trans c2)]
    · rw [a1 hv, b1]
      rintro ⟨v, c, hc, hm, -⟩
      obtain ⟨m, k1, -, -⟩ := hval c hc hm
      exact hv ⟨_, (valid_window hq hy0 hx0 e1 d2 d3).2 ⟨c, hc, m, k1, rfl⟩⟩
  · obtain ⟨hy0, hx0, e1, e2, e3, e4⟩ := aggregate_cell rfl (hf.ignores _ (by simp)) hn hq h'
    have d2 : o'.ny * ey = r.ny := by rw [e2, Nat.div_mul_cancel hy]
    have d3 : o'.nx * ex = r.nx := by rw [e3, Nat.div_mul_cancel hx]
    have hval : ∀ c, o'.Has c → o'.mask c = false → ∃ m ∈ blockNumbers r q ey ex c, o'.data c = .fin m ∧
        ∀ v ∈ blockNumbers r q ey ex c, m ≤ v := by
      intro c hc hm
      obtain ⟨m, k1, k2, k3⟩ := hf.min _ ((e4 c hc).1.1 hm)
      refine ⟨m, k1, ?_, k3⟩
      rw [(e4 c hc).2 hm, k2]
      exact hcast c (fun p hp => blockCells_has hy0 hx0 ⟨e1 ▸ hc.1, e2 ▸ hc.2.1, e3 ▸ hc.2.2⟩ hp) (fun p h1 h2 => (hfit p h1 h2).2) m k1
    obtain ⟨a1, -, a3⟩ := Whole.C62_min hr ks'
    obtain ⟨b1, -, b3⟩ := Whole.C62_min ho' ks
    by_cases hv : ∃ v, Whole.Spec.Valid r v
    · obtain ⟨v, hv⟩ := hv
      obtain ⟨c, hc, a, ha, rfl⟩ := (valid_window hq hy0 hx0 e1 d2 d3).1 hv
      have hm := (e4 c hc).1.2 fun h0 => by rw [h0] at ha; cases ha
      obtain ⟨m, g1, g2, g3⟩ := hval c hc hm
      obtain ⟨M, k1, k2, -, k4⟩ := a3 ⟨_, hv, by simp⟩
      obtain ⟨N, l1, l2, -, l4⟩ := b3 ⟨.fin m, ⟨c, hc, hm, g2⟩, by simp⟩
      obtain ⟨cM, hcM, aM, haM, rfl⟩ := (valid_window hq hy0 hx0 e1 d2 d3).1 k2
      obtain ⟨cN, hcN, hmN, rfl⟩ := l2
      obtain ⟨mN, i1, i2, -⟩ := hval cN hcN hmN
      have hmM := (e4 cM hcM).1.2 fun h0 => by rw [h0] at haM; cases haM
      obtain ⟨mM, j1, j2, j3⟩ := hval cM hcM hmM
      have c1 : aM ≤ mN := k4 (.fin mN) ((valid_window hq hy0 hx0 e1 d2 d3).2 ⟨cN, hcN, mN, i1, rfl⟩) (by simp)
      have c2 := l4 (.fin mM) ⟨cM, hcM, hmM, j2⟩ (by simp)
      rw [i2] at c2
      have c2 : mN ≤ mM := c2
      rw [k1, l1, i2, le_antisymm c1 (c2.trans (j3 aM haM))]
    · rw [a1 hv, b1]
      rintro ⟨v, c, hc, hm, -⟩
      obtain ⟨m, k1, -, -⟩ := hval c hc hm
      exact hv ⟨_, (valid_window hq hy0 hx0 e1 d2 d3).2 ⟨c, hc, m, k1, rfl⟩⟩

theorem blockCells_length (ey ex : Nat) (c : Cell) : (blockCells ey ex c).length = ey * ex := Reduce.blockCells_length ey ex c

/-- **C93 (mean)**: without null cells the mean of the means is the mean. -/
theorem C93_mean_partial {np : NumPy} {func : AggStat → List Num → Num} {outTy : AggStat → DType → DType} {r o : Raster}
    {ey ex : Nat} {q : Cell → Rat} (hf : Statistics func) (hn : ∀ c, r.mask c = false) (hq : Numbers np r q)
    (hy : ey ∣ r.ny) (hx : ex ∣ r.nx)
    (h : aggregate np func outTy r (.ints [ey, ex]) (.name (some .mean)) = .ok o)
    (hfit : ∀ c, o.Has c → np.cast o.dtype (.fin ((blockNumbers r q ey ex c).sum / (ey * ex : Nat))) =
      .fin ((blockNumbers r q ey ex c).sum / (ey * ex : Nat)))
    {br bo : List (List Num)} (hr : BlocksOf r br) (ho : BlocksOf o bo) (ks ks' : List Nat) :
    daskNanmean ks bo = daskNanmean ks' br := by
  obtain ⟨hy0, hx0, e1, e2, e3, e4⟩ := aggregate_cell rfl (hf.ignores _ (by simp)) (fun c hc => by rw [hn c] at hc; cases hc) hq h
  have d2 : o.ny * ey = r.ny := by rw [e2, Nat.div_mul_cancel hy]
  have d3 : o.nx * ex = r.nx := by rw [e3, Nat.div_mul_cancel hx]
  have hlen : ∀ c, (blockNumbers r q ey ex c).length = ey * ex := by
    intro c
    unfold blockNumbers
    rw [List.length_map, List.filter_eq_self.2 (by intro p _; rw [hn]; rfl), blockCells_length]
  have hne : ∀ c, blockNumbers r q ey ex c ≠ [] := by
    intro c h0
    have := hlen c
    rw [h0, List.length_nil] at this
    exact absurd this.symm (Nat.mul_pos hy0 hx0).ne'
  have hmo : ∀ c, o.Has c → o.mask c = false := fun c hc => (e4 c hc).1.2 (hne c)
  have hdo : ∀ c, o.Has c → o.data c = .fin ((blockNumbers r q ey ex c).sum / (ey * ex : Nat)) := by
    intro c hc
    rw [(e4 c hc).2 (hmo c hc), hf.mean _ (hne c), hlen, hfit c hc]
  rw [Whole.C62_mean ho ks (q := fun c => (blockNumbers r q ey ex c).sum / (ey * ex : Nat)) fun c hc hm => .inl (hdo c hc),
    Whole.C62_mean hr ks' (q := q) fun c hc hm => .inl (hq c hc hm).1]
  have c1 : Whole.Spec.count r = Whole.Spec.total r fun _ => 1 :=
    Whole.total_congr fun c hc => by rw [if_pos ⟨hn c, by rw [(hq c hc (hn c)).1]; simp⟩]
  have c2 : Whole.Spec.count o = Whole.Spec.total o fun _ => 1 :=
    Whole.total_congr fun c hc => by rw [if_pos ⟨hmo c hc, by rw [hdo c hc]; simp⟩]
  have c3 : Whole.Spec.count r = Whole.Spec.count o * (ey * ex) := by
    rw [c1, c2]
    unfold Whole.Spec.total
    simp only [Finset.sum_const, Finset.card_range, nsmul_eq_mul, Nat.cast_id, mul_one]
    rw [e1, ← d2, ← d3]
    ring
  have c4 : (Whole.Spec.total o fun c => if o.mask c = false then (blockNumbers r q ey ex c).sum / ((ey * ex : Nat) : Rat) else 0) =
      (Whole.Spec.total r fun c => if r.mask c = false then q c else 0) / ((ey * ex : Nat) : Rat) := by
    rw [← total_blocks (o := o) (ey := ey) (ex := ex) e1 d2 d3]
    rw [Whole.total_congr (g := fun c => ((blockCells ey ex c).map fun p => if r.mask p = false then q p else 0).sum *
      ((ey * ex : Nat) : Rat)⁻¹) fun c hc => by rw [if_pos (hmo c hc), blockNumbers_sum, div_eq_mul_inv]]
    unfold Whole.Spec.total
    simp only [Finset.sum_mul, div_eq_mul_inv]
  have hpos : ((ey * ex : Nat) : Rat) ≠ 0 := by exact_mod_cast (Nat.mul_pos hy0 hx0).ne'
  by_cases h0 : Whole.Spec.count o = 0
  · rw [if_pos h0, if_pos (by rw [c3, h0, Nat.zero_mul])]
  · rw [if_neg h0, if_neg (by rw [c3]; exact Nat.mul_ne_zero h0 (Nat.mul_pos hy0 hx0).ne'), c4, c3]
    congr 2
    have h0' : (Whole.Spec.count o : Rat) ≠ 0 := by exact_mod_cast h0
    push_cast at hpos ⊢
    field_simp

/-! ### Half precision -/

/-- A square of `n * n` cells with the value 255, in which 0 means null. -/
def bright (n : Nat) : Raster := ⟨u8, 1, n, n, fun _ => .fin 255, fun _ => false, some ⟨u8, .fin 0⟩⟩

/-- **C93 (half precision)**: with a null value the sums of 8 bit rasters are kept as float16.  Nine cells of 255 sum up to 2295, which
is not a number of that dtype; the aggregated raster has the sum 2296. -/
theorem C93_half_precision {np : NumPy} {func : AggStat → List Num → Num} {outTy : AggStat → DType → DType} (hf : Statistics func)
    (h255 : np.cast f16 (.fin 255) = .fin 255) (h2295 : np.cast f16 (.fin 2295) = .fin 2296) (hout : outTy .sum f16 = f16) :
    ∃ o, aggregate np func outTy (bright 3) (.ints [(3 : Nat), (3 : Nat)]) (.name (some .sum)) = .ok o ∧
      ∀ {br bo : List (List Num)}, BlocksOf (bright 3) br → BlocksOf o bo → ∀ ks ks',
        daskNansum ks br = [.fin 2295] ∧ daskNansum ks' bo = [.fin 2296] := by
  obtain ⟨o, h⟩ := (Reduce.C56_rejected np func outTy (bright 3) (.ints [((3 : Nat) : Int), ((3 : Nat) : Int)]) (.name (some .sum))).2
    ⟨⟨3, 3, rfl, by norm_num, by norm_num, by norm_num⟩, _, rfl⟩
  refine ⟨o, h, fun {br bo} hr ho ks ks' => ?_⟩
  have hq : Numbers np (bright 3) fun _ => 255 := fun c _ _ => ⟨rfl, fun _ _ => h255⟩
  obtain ⟨-, -, e4, e5, e6, e7⟩ := aggregate_cell (q := fun _ => 255) rfl (hf.ignores _ (by simp)) (fun c hc => absurd hc Bool.false_ne_true) hq h
  have hdt : o.dtype = f16 := by
    obtain ⟨-, -, -, e, -⟩ := Reduce.C56_masked (r := bright 3) rfl (hf.ignores _ (by simp)) h
    rw [e]
    exact hout
  have hlist : blockNumbers (bright 3) (fun _ => 255) 3 3 (0, 0, 0) = List.replicate 9 255 := rfl
  have h000 : o.Has (0, 0, 0) := ⟨by rw [e4]; decide, by rw [e5]; decide, by rw [e6]; decide⟩
  obtain ⟨k1, k2⟩ := e7 _ h000
  have hm := k1.2 (by rw [hlist]; simp)
  have hd : o.data (0, 0, 0) = .fin 2296 := by
    rw [k2 hm, hlist, hf.sum, hdt, show (List.replicate 9 (255 : Rat)).sum = 2295 by norm_num [List.replicate, List.sum_cons], h2295]
  constructor
  · rw [Whole.C62_sum hr ks (q := fun _ => 255) fun c _ _ => .inl rfl]
    congr 2
    unfold Whole.Spec.total
    norm_num [bright]
  · have huniq : ∀ c, o.Has c → c = (0, 0, 0) := by
      rintro ⟨b, y, x⟩ ⟨h1, h2, h3⟩
      rw [e4] at h1
      rw [e5] at h2
      rw [e6] at h3
      have h1 : b < 1 := h1
      have h2 : y < 1 := h2
      have h3 : x < 1 := h3
      rw [Nat.lt_one_iff.1 h1, Nat.lt_one_iff.1 h2, Nat.lt_one_iff.1 h3]
    rw [Whole.C62_sum ho ks' (q := fun _ => 2296) fun c hc _ => .inl (by rw [huniq c hc]; exact hd)]
    congr 2
    rw [Whole.total_congr (g := fun _ => (2296 : Rat)) fun c hc => by rw [huniq c hc, if_pos hm]]
    unfold Whole.Spec.total
    rw [e4, e5, e6]
    norm_num [bright]

/-! ### Cases that meet the hypotheses -/

/-- The statistics in exact arithmetic. -/
def exactStats (s : AggStat) (l : List Num) : Num :=
  let v := (Stats.Spec.valid l).map Whole.part
  match s with
  | .sum => .fin v.sum
  | .max => .fin (v.foldr max (v.headD 0))
  | .min => .fin (v.foldr min (v.headD 0))
  | .mean => .fin (v.sum / v.length)
  | _ => .nan

theorem exactStats_ok : Statistics exactStats := by
  have hv : ∀ l : List Rat, (Stats.Spec.valid (l.map .fin)).map Whole.part = l := by
    intro l
    unfold Stats.Spec.valid
    rw [List.filter_eq_self.2 (by intro v hv; obtain ⟨a, -, rfl⟩ := List.mem_map.1 hv; rfl), List.map_map]
    exact List.map_id' l
  have hmax : ∀ (a : Rat) (l : List Rat), (l.foldr max a = a ∨ l.foldr max a ∈ l) ∧ (∀ v ∈ l, v ≤ l.foldr max a) := by
    intro a l
    induction l with
    | nil => simp
    | cons b l ih =>
      rw [List.foldr_cons]
      refine ⟨?_, ?_⟩
      · rcases max_choice b (l.foldr max a) with h | h
        · rw [h]; exact .inr (List.mem_cons_self ..)
        · rw [h]; exact ih.1.imp id (List.mem_cons_of_mem _)
      · intro v hv
        rcases List.mem_cons.1 hv with rfl | hv
        · exact le_max_left _ _
        · exact (ih.2 v hv).trans (le_max_right _ _)
  have hmin : ∀ (a : Rat) (l : List Rat), (l.foldr min a = a ∨ l.foldr min a ∈ l) ∧ (∀ v ∈ l, l.foldr min a ≤ v) := by
    intro a l
    induction l with
    | nil => simp
    | cons b l ih =>
      rw [List.foldr_cons]
      refine ⟨?_, ?_⟩
      · rcases min_choice b (l.foldr min a) with h | h
        · rw [h]; exact .inr (List.mem_cons_self ..)
        · rw [h]; exact ih.1.imp id (List.mem_cons_of_mem _)
      · intro v hv
        rcases List.mem_cons.1 hv with rfl | hv
        · exact min_le_left _ _
        · exact (min_le_right _ _).trans (ih.2 v hv)
  refine ⟨fun s hs l => ?_, fun l => ?_, fun l hl => ?_, fun l hl => ?_, fun l hl => ?_⟩
  · simp only [exactStats, Focal.valid_valid]
  · simp only [exactStats, hv]
  · refine ⟨l.foldr max (l.headD 0), ?_, by simp only [exactStats, hv], (hmax _ l).2⟩
    rcases (hmax (l.headD 0) l).1 with h | h
    · rw [h]
      cases l with
      | nil => exact absurd rfl hl
      | cons a l => exact List.mem_cons_self ..
    · exact h
  · refine ⟨l.foldr min (l.headD 0), ?_, by simp only [exactStats, hv], (hmin _ l).2⟩
    rcases (hmin (l.headD 0) l).1 with h | h
    · rw [h]
      cases l with
      | nil => exact absurd rfl hl
      | cons a l => exact List.mem_cons_self ..
    · exact h
  · simp only [exactStats, hv]

/-- Two rows of four cells, of which the first two columns are null in the first row and one in the second. -/
def ridge : Raster :=
  ⟨i16, 1, 2, 4, fun c => .fin ((c.2.1 * 4 + c.2.2 : Nat) : Int), fun c => decide (c.2.1 = 0 ∧ c.2.2 < 2 ∨ c = (0, 1, 3)), some ⟨i16, .fin (-1)⟩⟩

/-- The hypotheses of `C93_sum_partial` hold for a raster with null cells; both sums are 20. -/
example : MaskNeedsNull ridge ∧ Numbers (idNumPy true) ridge (fun c => ((c.2.1 * 4 + c.2.2 : Nat) : Int)) ∧
    (1 ∣ ridge.ny) ∧ (2 ∣ ridge.nx) ∧
    ∃ o, aggregate (idNumPy true) exactStats (fun _ dt => dt) ridge (.ints [(1 : Nat), (2 : Nat)]) (.name (some .sum)) = .ok o ∧
      o.mask (0, 0, 0) = true ∧ daskNansum [] [Whole.validValues o] = [.fin 20] ∧ daskNansum [] [Whole.validValues ridge] = [.fin 20] :=
  ⟨fun _ _ => by simp [ridge], fun _ _ _ => ⟨rfl, fun _ _ => rfl⟩, by decide, by decide, _, rfl, by decide +kernel⟩

/-- The hypotheses of `C93_half_precision` hold for a conversion that rounds 2295 as IEEE 754 does. -/
example : let np : NumPy := { idNumPy true with cast := fun dt v => if dt = f16 ∧ v = .fin 2295 then .fin 2296 else v }
    np.cast f16 (.fin 255) = .fin 255 ∧ np.cast f16 (.fin 2295) = .fin 2296 := by decide +kernel

end Verif.Trips
