import Verif.Trips.Aggregates

set_option linter.unusedSectionVars false

/-!
# C101: aggregating twice

`aggregate` (`general.py:251-336`, C56) with the windows `(a, b)` and then `(c, d)`, and with the windows `(a * c, b * d)`.
-/

namespace Verif.Trips.Twice

open Verif Verif.Nulls DType
open Verif.Reduce (AggStat aggregate)
open Verif.Reduce.Spec (blockCells)
open Verif.Trips Verif.Trips.Spec

namespace Spec

/-- The rasters have the same shape and the same null cells, and the same values in the others. -/
def SameCells (o w : Raster) : Prop :=
  o.nb = w.nb ∧ o.ny = w.ny ∧ o.nx = w.nx ∧
  ∀ c, w.Has c → o.mask c = w.mask c ∧ (w.mask c = false → o.data c = w.data c)

/-- The dtypes of the results hold the number. -/
def Held (np : NumPy) (m o w : Raster) (v : Rat) : Prop :=
  np.cast m.dtype (.fin v) = .fin v ∧ np.cast (Focal.promoteToFloat m.dtype) (.fin v) = .fin v ∧
  np.cast o.dtype (.fin v) = .fin v ∧ np.cast w.dtype (.fin v) = .fin v

end Spec

open Spec

/-! ### Windows of windows -/

theorem blocks_mem {a b c d : Nat} (ha : 0 < a) (hb : 0 < b) (hc : 0 < c) (hd : 0 < d) {p s : Cell} :
    s ∈ blockCells (a * c) (b * d) p ↔ ∃ t ∈ blockCells c d p, s ∈ blockCells a b t := by
  rw [(Reduce.C56_partition (Nat.mul_pos ha hc) (Nat.mul_pos hb hd) s p).1]
  constructor
  · intro h
    refine ⟨(s.1, s.2.1 / a, s.2.2 / b), ?_, ((Reduce.C56_partition ha hb s _).1).2 rfl⟩
    rw [(Reduce.C56_partition hc hd _ p).1, h]
    simp only [Nat.div_div_eq_div_mul]
  · rintro ⟨t, h1, h2⟩
    rw [(Reduce.C56_partition hc hd t p).1] at h1
    rw [(Reduce.C56_partition ha hb s t).1] at h2
    rw [h1, h2]
    simp only [Nat.div_div_eq_div_mul]

theorem blocks_sum {M : Type} [AddCommMonoid M] (a b c d : Nat) (p : Cell) (g : Cell → M) :
    ((blockCells c d p).map fun t => ((blockCells a b t).map g).sum).sum = ((blockCells (a * c) (b * d) p).map g).sum := by
  rw [blockCells_sum, blockCells_sum]
  simp only [blockCells_sum]
  rw [Nat.mul_comm a c, sum_blocks]
  refine Finset.sum_congr rfl fun i _ => ?_
  rw [Finset.sum_comm]
  refine Finset.sum_congr rfl fun k _ => ?_
  rw [Nat.mul_comm b d, sum_blocks]
  refine Finset.sum_congr rfl fun j _ => Finset.sum_congr rfl fun l _ => ?_
  rw [show (p.2.1 * c + i) * a + k = p.2.1 * (c * a) + (i * a + k) by ring, show (p.2.2 * d + j) * b + l = p.2.2 * (d * b) + (j * b + l) by ring]

theorem aggregate_null {np : NumPy} {func : AggStat → List Num → Num} {outTy : AggStat → DType → DType} {r o : Raster} {e : Reduce.ExpandArg}
    {n : Reduce.NameArg AggStat} (h : aggregate np func outTy r e n = .ok o) : MaskNeedsNull o := by
  unfold aggregate at h
  split at h
  · cases h
  · split at h
    · cases h
    · cases h
    · cases h
      intro c hc
      unfold Reduce.finishAggregate at hc ⊢
      split
      · simp
      · rename_i hm
        rw [if_neg hm] at hc
        cases hc

theorem mem_numbers {r : Raster} {q : Cell → Rat} {a b : Nat} {p : Cell} {v : Rat} :
    v ∈ blockNumbers r q a b p ↔ ∃ s ∈ blockCells a b p, r.mask s = false ∧ q s = v := by
  unfold blockNumbers
  simp only [List.mem_map, List.mem_filter, Bool.not_eq_true']
  constructor
  · rintro ⟨s, ⟨h1, h2⟩, h3⟩; exact ⟨s, h1, h2, h3⟩
  · rintro ⟨s, h1, h2, h3⟩; exact ⟨s, ⟨h1, h2⟩, h3⟩

/-- What the three results are made of. -/
theorem twice_cells {np : NumPy} {func : AggStat → List Num → Num} {outTy : AggStat → DType → DType} {r m o w : Raster} {a b c d : Nat}
    {stat : AggStat} {q q' : Cell → Rat} (hs : stat.custom = false) (hf : Focal.Spec.IgnoresNan (func stat)) (hn : MaskNeedsNull r)
    (hq : Numbers np r q) (hq' : Numbers np m q')
    (h1 : aggregate np func outTy r (.ints [a, b]) (.name (some stat)) = .ok m)
    (h2 : aggregate np func outTy m (.ints [c, d]) (.name (some stat)) = .ok o)
    (h3 : aggregate np func outTy r (.ints [((a * c : Nat) : Int), ((b * d : Nat) : Int)]) (.name (some stat)) = .ok w) :
    o.nb = w.nb ∧ o.ny = w.ny ∧ o.nx = w.nx ∧
    ∀ p, w.Has p → o.mask p = w.mask p ∧ (∀ t ∈ blockCells c d p, m.Has t) ∧
      (w.mask p = false → o.data p = np.cast o.dtype (func stat ((blockNumbers m q' c d p).map .fin)) ∧
        w.data p = np.cast w.dtype (func stat ((blockNumbers r q (a * c) (b * d) p).map .fin)) ∧
        blockNumbers m q' c d p ≠ [] ∧ blockNumbers r q (a * c) (b * d) p ≠ []) := by
  obtain ⟨ha, hb, m1, m2, m3, m4⟩ := aggregate_cell hs hf hn hq h1
  obtain ⟨hc, hd, o1, o2, o3, o4⟩ := aggregate_cell hs hf (aggregate_null h1) hq' h2
  obtain ⟨-, -, w1, w2, w3, w4⟩ := aggregate_cell hs hf hn hq h3
  have e1 : o.nb = w.nb := by rw [o1, m1, w1]
  have e2 : o.ny = w.ny := by rw [o2, m2, w2, Nat.div_div_eq_div_mul]
  have e3 : o.nx = w.nx := by rw [o3, m3, w3, Nat.div_div_eq_div_mul]
  refine ⟨e1, e2, e3, fun p hp => ?_⟩
  have hpo : o.Has p := ⟨e1 ▸ hp.1, e2 ▸ hp.2.1, e3 ▸ hp.2.2⟩
  have hin : ∀ t ∈ blockCells c d p, m.Has t := fun t ht => blockCells_has hc hd ⟨o1 ▸ hpo.1, o2 ▸ hpo.2.1, o3 ▸ hpo.2.2⟩ ht
  have hmask : o.mask p = w.mask p := by
    have hiff : blockNumbers m q' c d p ≠ [] ↔ blockNumbers r q (a * c) (b * d) p ≠ [] := by
      have key : ∀ l : List Rat, l ≠ [] ↔ ∃ v, v ∈ l := fun l => ⟨fun h => List.exists_mem_of_ne_nil l h, fun ⟨v, hv⟩ h => by rw [h] at hv; cases hv⟩
      rw [key, key]
      constructor
      · rintro ⟨v, hv⟩
        obtain ⟨t, k1, k2, -⟩ := mem_numbers.1 hv
        obtain ⟨u, hu⟩ := (key _).1 ((m4 t (hin t k1)).1.1 k2)
        obtain ⟨s, l1, l2, l3⟩ := mem_numbers.1 hu
        exact ⟨u, mem_numbers.2 ⟨s, (blocks_mem ha hb hc hd).2 ⟨t, k1, l1⟩, l2, l3⟩⟩
      · rintro ⟨v, hv⟩
        obtain ⟨s, k1, k2, k3⟩ := mem_numbers.1 hv
        obtain ⟨t, l1, l2⟩ := (blocks_mem ha hb hc hd).1 k1
        exact ⟨_, mem_numbers.2 ⟨t, l1, (m4 t (hin t l1)).1.2 ((key _).2 ⟨v, mem_numbers.2 ⟨s, l2, k2, k3⟩⟩), rfl⟩⟩
    have := (o4 p hpo).1.trans (hiff.trans (w4 p hp).1.symm)
    cases h : w.mask p with
    | false => exact this.2 h
    | true =>
      rw [← Bool.not_eq_false]
      intro k
      rw [this.1 k] at h
      cases h
  refine ⟨hmask, hin, fun hw => ⟨(o4 p hpo).2 (hmask.trans hw), (w4 p hp).2 hw, (o4 p hpo).1.1 (hmask.trans hw), (w4 p hp).1.1 hw⟩⟩

/-! ### C101 -/

/-- **C101 (sum)**: the sums of the sums of windows are the sums of the large windows, if the dtypes of the results hold them. -/
theorem C101_sum_partial {np : NumPy} {func : AggStat → List Num → Num} {outTy : AggStat → DType → DType} {r m o w : Raster} {a b c d : Nat}
    {q : Cell → Rat} (hf : Statistics func) (hn : MaskNeedsNull r) (hq : Numbers np r q)
    (h1 : aggregate np func outTy r (.ints [a, b]) (.name (some .sum)) = .ok m)
    (h2 : aggregate np func outTy m (.ints [c, d]) (.name (some .sum)) = .ok o)
    (h3 : aggregate np func outTy r (.ints [((a * c : Nat) : Int), ((b * d : Nat) : Int)]) (.name (some .sum)) = .ok w)
    (hfit : (∀ p, m.Has p → Held np m o w (blockNumbers r q a b p).sum) ∧
      ∀ p, w.Has p → Held np m o w (blockNumbers r q (a * c) (b * d) p).sum) :
    SameCells o w := by
  obtain ⟨-, -, -, -, -, m4⟩ := aggregate_cell rfl (hf.ignores .sum (by simp)) hn hq h1
  have hq' : Numbers np m fun t => (blockNumbers r q a b t).sum := by
    intro t ht hm
    obtain ⟨f1, f2, -⟩ := hfit.1 t ht
    exact ⟨by rw [(m4 t ht).2 hm, hf.sum, f1], fun _ _ => f2⟩
  obtain ⟨e1, e2, e3, e4⟩ := twice_cells rfl (hf.ignores .sum (by simp)) hn hq hq' h1 h2 h3
  refine ⟨e1, e2, e3, fun p hp => ⟨(e4 p hp).1, fun hw => ?_⟩⟩
  obtain ⟨-, hin, k⟩ := e4 p hp
  obtain ⟨k1, k2, -, -⟩ := k hw
  have hsum : (blockNumbers m (fun t => (blockNumbers r q a b t).sum) c d p).sum = (blockNumbers r q (a * c) (b * d) p).sum := by
    rw [blockNumbers_sum, blockNumbers_sum r, ← blocks_sum]
    congr 1
    refine List.map_congr_left fun t ht => ?_
    rw [← blockNumbers_sum r]
    split
    · rfl
    · rename_i hm
      rw [not_not.1 fun h0 => hm ((m4 t (hin t ht)).1.2 h0), List.sum_nil]
  obtain ⟨-, -, f3, f4⟩ := hfit.2 p hp
  rw [k1, k2, hf.sum, hf.sum, hsum, f3, f4]

/-- **C101 (max, min)**: the same for the maxima of maxima and the minima of minima. -/
theorem C101_max_min_partial {np : NumPy} {func : AggStat → List Num → Num} {outTy : AggStat → DType → DType} {r m o w : Raster} {a b c d : Nat}
    {stat : AggStat} {q : Cell → Rat} (hs : stat = .max ∨ stat = .min) (hf : Statistics func) (hn : MaskNeedsNull r) (hq : Numbers np r q)
    (h1 : aggregate np func outTy r (.ints [a, b]) (.name (some stat)) = .ok m)
    (h2 : aggregate np func outTy m (.ints [c, d]) (.name (some stat)) = .ok o)
    (h3 : aggregate np func outTy r (.ints [((a * c : Nat) : Int), ((b * d : Nat) : Int)]) (.name (some stat)) = .ok w)
    (hfit : ∀ p, r.Has p → r.mask p = false → Held np m o w (q p)) :
    SameCells o w := by
  -- both statistics give an extreme of an order
  obtain ⟨le, hanti, hstat⟩ : ∃ le : Rat → Rat → Prop, ((∀ x y, le x y → le y x → x = y) ∧ ∀ x y z, le x y → le y z → le x z) ∧
      (Focal.Spec.IgnoresNan (func stat) ∧ stat.custom = false ∧
        ∀ l : List Rat, l ≠ [] → ∃ v ∈ l, func stat (l.map .fin) = .fin v ∧ ∀ u ∈ l, le u v) := by
    rcases hs with rfl | rfl
    · exact ⟨fun x y => x ≤ y, ⟨fun x y h h' => le_antisymm h h', fun x y z h h' => h.trans h'⟩, hf.ignores _ (by simp), rfl, hf.max⟩
    · exact ⟨fun x y => y ≤ x, ⟨fun x y h h' => le_antisymm h' h, fun x y z h h' => h'.trans h⟩, hf.ignores _ (by simp), rfl, hf.min⟩
  obtain ⟨hig, hcu, hext⟩ := hstat
  obtain ⟨ha, hb, m1, m2, m3, m4⟩ := aggregate_cell hcu hig hn hq h1
  have hval : ∀ t, m.Has t → m.mask t = false → ∃ v ∈ blockNumbers r q a b t, m.data t = .fin v ∧ ∀ u ∈ blockNumbers r q a b t, le u v := by
    intro t ht hm
    obtain ⟨v, k1, k2, k3⟩ := hext _ ((m4 t ht).1.1 hm)
    obtain ⟨s, l1, l2, rfl⟩ := mem_numbers.1 k1
    have hs := blockCells_has (r := r) ha hb ⟨m1 ▸ ht.1, m2 ▸ ht.2.1, m3 ▸ ht.2.2⟩ l1
    exact ⟨_, k1, by rw [(m4 t ht).2 hm, k2, (hfit s hs l2).1], k3⟩
  have hq' : Numbers np m fun t => Whole.part (m.data t) := by
    intro t ht hm
    obtain ⟨v, k1, k2, -⟩ := hval t ht hm
    obtain ⟨s, l1, l2, rfl⟩ := mem_numbers.1 k1
    have hs := blockCells_has (r := r) ha hb ⟨m1 ▸ ht.1, m2 ▸ ht.2.1, m3 ▸ ht.2.2⟩ l1
    beta_reduce
    rw [k2]
    exact ⟨rfl, fun _ _ => (hfit s hs l2).2.1⟩
  obtain ⟨hc, hd, -⟩ := aggregate_cell hcu hig (aggregate_null h1) hq' h2
  obtain ⟨-, -, w1, w2, w3, -⟩ := aggregate_cell hcu hig hn hq h3
  obtain ⟨e1, e2, e3, e4⟩ := twice_cells hcu hig hn hq hq' h1 h2 h3
  refine ⟨e1, e2, e3, fun p hp => ⟨(e4 p hp).1, fun hw => ?_⟩⟩
  obtain ⟨-, hin, k⟩ := e4 p hp
  obtain ⟨k1, k2, k3, k4⟩ := k hw
  obtain ⟨x, x1, x2, x3⟩ := hext _ k3
  obtain ⟨y, y1, y2, y3⟩ := hext _ k4
  -- the extreme of the extremes is one of the numbers
  obtain ⟨t, t1, t2, t3⟩ := mem_numbers.1 x1
  obtain ⟨v, v1, v2, v3⟩ := hval t (hin t t1) t2
  rw [v2] at t3
  have t3 : v = x := t3
  subst t3
  obtain ⟨s, s1, s2, s3⟩ := mem_numbers.1 v1
  have hxy : le v y := y3 v (mem_numbers.2 ⟨s, (blocks_mem ha hb hc hd).2 ⟨t, t1, s1⟩, s2, s3⟩)
  -- and not less than the others
  obtain ⟨s', g1, g2, g3⟩ := mem_numbers.1 y1
  obtain ⟨t', j1, j2⟩ := (blocks_mem ha hb hc hd).1 g1
  have hyb : y ∈ blockNumbers r q a b t' := mem_numbers.2 ⟨s', j2, g2, g3⟩
  have hm' : m.mask t' = false := (m4 t' (hin t' j1)).1.2 fun h0 => by rw [h0] at hyb; cases hyb
  obtain ⟨v', i1, i2, i3⟩ := hval t' (hin t' j1) hm'
  have hyx : le y v := hanti.2 _ _ _ (i3 y hyb) (x3 v' (mem_numbers.2 ⟨t', j1, hm', by rw [i2]; rfl⟩))
  have he : v = y := hanti.1 _ _ hxy hyx
  subst he
  have hs' : r.Has s' := blockCells_has (Nat.mul_pos ha hc) (Nat.mul_pos hb hd) ⟨w1 ▸ hp.1, w2 ▸ hp.2.1, w3 ▸ hp.2.2⟩ g1
  have hh := hfit s' hs' g2
  rw [g3] at hh
  rw [k1, k2, x2, y2, hh.2.2.1, hh.2.2.2]

/-- **C101 (mean)**: without null cells the means of the means are the means of the large windows. -/
theorem C101_mean_partial {np : NumPy} {func : AggStat → List Num → Num} {outTy : AggStat → DType → DType} {r m o w : Raster} {a b c d : Nat}
    {q : Cell → Rat} (hf : Statistics func) (hn : ∀ p, r.mask p = false) (hq : Numbers np r q)
    (h1 : aggregate np func outTy r (.ints [a, b]) (.name (some .mean)) = .ok m)
    (h2 : aggregate np func outTy m (.ints [c, d]) (.name (some .mean)) = .ok o)
    (h3 : aggregate np func outTy r (.ints [((a * c : Nat) : Int), ((b * d : Nat) : Int)]) (.name (some .mean)) = .ok w)
    (hfit : (∀ p, m.Has p → Held np m o w ((blockNumbers r q a b p).sum / (a * b : Nat))) ∧
      ∀ p, w.Has p → Held np m o w ((blockNumbers r q (a * c) (b * d) p).sum / (a * c * (b * d) : Nat))) :
    SameCells o w := by
  have hn' : MaskNeedsNull r := fun p hp => by rw [hn p] at hp; cases hp
  have hlen : ∀ a b p, (blockNumbers r q a b p).length = a * b := by
    intro a b p
    unfold blockNumbers
    rw [List.length_map, List.filter_eq_self.2 (by intro p _; rw [hn]; rfl), blockCells_length]
  obtain ⟨ha, hb, -, -, -, m4⟩ := aggregate_cell rfl (hf.ignores .mean (by simp)) hn' hq h1
  have hm : ∀ t, m.Has t → m.mask t = false := fun t ht => (m4 t ht).1.2 fun h0 => by
    have := hlen a b t
    rw [h0] at this
    exact absurd this.symm (Nat.mul_pos ha hb).ne'
  have hq' : Numbers np m fun t => (blockNumbers r q a b t).sum / (a * b : Nat) := by
    intro t ht hmt
    obtain ⟨f1, f2, -⟩ := hfit.1 t ht
    exact ⟨by rw [(m4 t ht).2 hmt, hf.mean _ ((m4 t ht).1.1 hmt), hlen, f1], fun _ _ => f2⟩
  obtain ⟨hc, hd, -⟩ := aggregate_cell rfl (hf.ignores .mean (by simp)) (aggregate_null h1) hq' h2
  obtain ⟨e1, e2, e3, e4⟩ := twice_cells rfl (hf.ignores .mean (by simp)) hn' hq hq' h1 h2 h3
  refine ⟨e1, e2, e3, fun p hp => ⟨(e4 p hp).1, fun hw => ?_⟩⟩
  obtain ⟨-, hin, k⟩ := e4 p hp
  obtain ⟨k1, k2, k3, k4⟩ := k hw
  have hlen' : (blockNumbers m (fun t => (blockNumbers r q a b t).sum / (a * b : Nat)) c d p).length = c * d := by
    unfold blockNumbers
    rw [List.length_map, List.filter_eq_self.2 (by intro t ht; rw [hm t (hin t ht)]; rfl), blockCells_length]
  have hsum : (blockNumbers m (fun t => (blockNumbers r q a b t).sum / (a * b : Nat)) c d p).sum =
      (blockNumbers r q (a * c) (b * d) p).sum / (a * b : Nat) := by
    rw [blockNumbers_sum, blockNumbers_sum r, ← blocks_sum]
    rw [List.map_congr_left (g := fun t => ((blockCells a b t).map fun s => if r.mask s = false then q s else 0).sum * ((a * b : Nat) : Rat)⁻¹)
      fun t ht => by rw [if_pos (hm t (hin t ht)), blockNumbers_sum r, div_eq_mul_inv]]
    rw [List.sum_map_mul_right, div_eq_mul_inv]
  obtain ⟨-, -, f3, f4⟩ := hfit.2 p hp
  have hfin : (blockNumbers m (fun t => (blockNumbers r q a b t).sum / (a * b : Nat)) c d p).sum / (c * d : Nat) =
      (blockNumbers r q (a * c) (b * d) p).sum / (a * c * (b * d) : Nat) := by
    rw [hsum, div_div]
    congr 1
    push_cast
    ring
  rw [k1, k2, hf.mean _ k3, hf.mean _ k4, hlen', hlen, hfin, f3, f4]

/-! ### Cases that meet the hypotheses -/

/-- One row of four cells, the last of which is null. -/
def row : Raster := ⟨f64, 1, 1, 4, fun c => if c.2.2 = 2 then .fin 3 else .fin 0, fun c => decide (c = (0, 0, 3)), some ⟨f64, .fin (-1)⟩⟩

/-- **C101 is false of means beside null cells**: the mean of 0, 0 and 3 is 1, the mean of the means 0 and 3 is 3/2. -/
theorem C101_mean_nulls : ∃ m o w,
    aggregate (idNumPy true) exactStats (fun _ dt => dt) row (.ints [1, 2]) (.name (some .mean)) = .ok m ∧
    aggregate (idNumPy true) exactStats (fun _ dt => dt) m (.ints [1, 2]) (.name (some .mean)) = .ok o ∧
    aggregate (idNumPy true) exactStats (fun _ dt => dt) row (.ints [1, 4]) (.name (some .mean)) = .ok w ∧
    o.mask (0, 0, 0) = false ∧ w.mask (0, 0, 0) = false ∧ o.data (0, 0, 0) = .fin (3 / 2) ∧ w.data (0, 0, 0) = .fin 1 :=
  ⟨_, _, _, rfl, rfl, rfl, by decide +kernel, by decide +kernel, by decide +kernel, by decide +kernel⟩

/-- The hypotheses on sums hold for this raster. -/
example : MaskNeedsNull row ∧ Numbers (idNumPy true) row (fun c => if c.2.2 = 2 then 3 else 0) ∧ (∀ m o w v, Held (idNumPy true) m o w v) ∧
    ∃ m o w, aggregate (idNumPy true) exactStats (fun _ dt => dt) row (.ints [1, 2]) (.name (some .sum)) = .ok m ∧
      aggregate (idNumPy true) exactStats (fun _ dt => dt) m (.ints [1, 2]) (.name (some .sum)) = .ok o ∧
      aggregate (idNumPy true) exactStats (fun _ dt => dt) row (.ints [1, 4]) (.name (some .sum)) = .ok w ∧
      o.data (0, 0, 0) = .fin 3 ∧ w.data (0, 0, 0) = .fin 3 := by
  refine ⟨fun _ _ => by simp [row], fun c _ _ => ⟨?_, fun _ _ => rfl⟩, fun _ _ _ _ => ⟨rfl, rfl, rfl, rfl⟩, _, _, _, rfl, rfl, rfl,
    by decide +kernel, by decide +kernel⟩
  simp only [row]
  split <;> rfl

end Verif.Trips.Twice
