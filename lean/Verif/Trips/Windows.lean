import Verif.Morph.Props
import Verif.Focal.Correlate

set_option linter.unusedSectionVars false

/-!
# C98: functions of windows agree with each other

`dilate` and `erode` (`general.py:741-910`, C58) next to `focal` with the maximum and the minimum of a rectangle (`focal.py`, C29 and C30), and the
sum of `focal` next to `correlate` with the window as kernel (C31).
-/

namespace Verif.Trips.Windows

open Verif Verif.Nulls DType
open Verif.Focal (Kernel Stat focal getFocalWindow promoteToFloat correlate resultDtype rounded)
open Verif.Focal.Spec (windowValues IgnoresNan inDtype Solid contribution source)
open Verif.Morph (morph getFootprint Op)
open Verif.Morph.Spec (Bounded InWindow Near IsExtreme Fits)

namespace Spec

/-- The statistics of a list of numbers. -/
structure Statistics (func : Stat → List Num → Num) : Prop where
  ignores : ∀ s ∈ [Stat.max, .min, .sum], IgnoresNan (func s)
  max : ∀ l : List Rat, l ≠ [] → ∃ m ∈ l, func .max (l.map .fin) = .fin m ∧ ∀ v ∈ l, v ≤ m
  min : ∀ l : List Rat, l ≠ [] → ∃ m ∈ l, func .min (l.map .fin) = .fin m ∧ ∀ v ∈ l, m ≤ v
  sum : ∀ l : List Rat, func .sum (l.map .fin) = .fin l.sum

/-- The cells that are not null hold the numbers `q`, also in the floating point dtype of `focal`. -/
def Numbers (np : NumPy) (r : Raster) (q : Cell → Rat) : Prop :=
  ∀ c, r.Has c → r.mask c = false → r.data c = .fin (q c) ∧ np.cast (promoteToFloat r.dtype) (.fin (q c)) = .fin (q c)

/-- The weights of a window. -/
def weights (w : Kernel Bool) : Kernel Num := ⟨w.rows, w.cols, fun a b => if w.at' a b then .fin 1 else .fin 0⟩

end Spec

open Spec

/-! ### The rectangle -/

theorem rectangle_window {n m : Nat} {w : Kernel Bool} (hn : 0 < n) (hm : 0 < m)
    (h : getFocalWindow (.one (.int n)) (some (.int m)) = .ok w) : w.rows = n ∧ w.cols = m ∧ ∀ a b, w.at' a b = true := by
  obtain ⟨w', h', hr, hc, hw⟩ := Focal.C30_rectangle (n := n) (m := m) (by omega) (by omega)
  rw [h] at h'
  cases h'
  exact ⟨by omega, by omega, hw⟩

/-- The values of the rectangle are those of the window of the dilation. -/
theorem mem_rectangle {n m : Nat} {w : Kernel Bool} (hn : 0 < n) (hm : 0 < m)
    (h : w.rows = n ∧ w.cols = m ∧ ∀ a b, w.at' a b = true) {r : Raster} {c : Cell} {null : Cell → Bool} {f : Cell → Num} {v : Num} :
    v ∈ windowValues w r.ny r.nx (fun i j => null (c.1, i, j)) (fun i j => f (c.1, i, j)) c.2.1 c.2.2 ↔
      ∃ p, InWindow .dilation n m r c p ∧ null p = false ∧ f p = v := by
  rw [Focal.mem_windowValues, h.1, h.2.1]
  constructor
  · rintro ⟨a, b, i, j, ha, hb, -, hi, hj, e1, e2, hn', rfl⟩
    exact ⟨(c.1, i, j), ⟨rfl, ⟨by show c.2.1 ≤ i + (n - 1) / 2; omega, by show i ≤ c.2.1 + n / 2; omega⟩, hi,
      ⟨by show c.2.2 ≤ j + (m - 1) / 2; omega, by show j ≤ c.2.2 + m / 2; omega⟩, hj⟩, hn', rfl⟩
  · rintro ⟨⟨p1, i, j⟩, ⟨e, ⟨h1, h2⟩, h3, ⟨h4, h5⟩, h6⟩, hn', rfl⟩
    simp only at e h1 h2 h3 h4 h5 h6
    subst e
    exact ⟨i + (n - 1) / 2 - c.2.1, j + (m - 1) / 2 - c.2.2, i, j, by omega, by omega, h.2.2 _ _, h3, h6, by omega, by omega, hn', rfl⟩

/-- With odd sizes the two windows are the same. -/
theorem window_odd {n m : Nat} (hn : n % 2 = 1) (hm : m % 2 = 1) (r : Raster) (c p : Cell) :
    InWindow .erosion n m r c p ↔ InWindow .dilation n m r c p := by
  simp only [InWindow, Near]
  omega

theorem inDtype_fin {np : NumPy} {src dst : DType} {a : Rat} (h : np.cast dst (.fin a) = .fin a) : inDtype np src dst (.fin a) = .fin a := by
  unfold inDtype
  split
  · rfl
  · exact h

theorem numbers_list {l : List Num} (h : ∀ v ∈ l, ∃ a, v = .fin a) : ∃ xs : List Rat, l = xs.map .fin := by
  induction l with
  | nil => exact ⟨[], rfl⟩
  | cons a l ih =>
    obtain ⟨x, rfl⟩ := h a (by simp)
    obtain ⟨xs, rfl⟩ := ih fun v hv => h v (List.mem_cons_of_mem _ hv)
    exact ⟨x :: xs, rfl⟩

/-! ### Dilation and erosion -/

/-- **C98 (maximum).**  For rasters with a null value, `focal` with the maximum of a rectangle and the dilation with its size give the same number
in every cell that is not null; cells that are null stay null in one and are filled in the other if a valid cell is near. -/
theorem C98_max_dilate {np : NumPy} {func : Stat → List Num → Num} {big small : Num} {r f d : Raster} {size : Morph.SizeArg}
    {ychunks xchunks yc xc : List Nat} {n m : Nat} {w : Kernel Bool} {s : Scalar} {ignoreNull : Bool} {q : Cell → Rat}
    (hst : Statistics func) (hq : Numbers np r q) (hnv : r.nv = some s)
    (hb : ∀ p, r.Has p → r.mask p = false → Bounded big small r.dtype (r.data p))
    (hs : getFootprint size = .ok (n, m)) (hw : getFocalWindow (.one (.int n)) (some (.int m)) = .ok w)
    (hy : ychunks.sum = r.ny) (hx : xchunks.sum = r.nx) (hy' : yc.sum = r.ny) (hx' : xc.sum = r.nx)
    (hf : focal np func r .max w ignoreNull ychunks xchunks = .ok f) (hd : morph .dilation big small r size yc xc = .ok d) :
    ∀ c, r.Has c →
      (r.mask c = false → f.mask c = false ∧ d.mask c = false ∧ f.data c = d.data c) ∧
      (r.mask c = true → f.mask c = true ∧
        (d.mask c = false ↔ ∃ p, InWindow .dilation n m r c p ∧ r.mask p = false)) := by
  intro c hc
  obtain ⟨hn, hm⟩ : 0 < n ∧ 0 < m := by
    have := (Morph.C58_sizes size n m).mp hs
    omega
  have hwin := rectangle_window hn hm hw
  obtain ⟨f1, f2, f3, f4, f5, f6⟩ := Focal.C29_masked (by unfold Raster.masked; rw [hnv]; rfl) (hst.ignores .max (by simp)) hy hx hf
  obtain ⟨d1, d2, d3, d4, d5, d6⟩ := Morph.C58_dilate hs hnv hy' hx' hb hd
  have hself : InWindow .dilation n m r c c := ⟨rfl, ⟨by omega, by omega⟩, hc.2.1, ⟨by omega, by omega⟩, hc.2.2⟩
  have hp : ∀ p, InWindow .dilation n m r c p → r.Has p := fun p k => ⟨k.1 ▸ hc.1, k.2.2.1, k.2.2.2.2⟩
  obtain ⟨k1, k2, k3⟩ := f6 c hc
  obtain ⟨g1, g2, g3⟩ := d6 c hc
  have hmemv := fun v => mem_rectangle (v := v) hn hm hwin (r := r) (c := c) (null := r.mask) (f := fun p => inDtype np r.dtype f.dtype (r.data p))
  have hvals : ∀ v ∈ windowValues w r.ny r.nx (fun i j => r.mask (c.1, i, j))
      (fun i j => inDtype np r.dtype f.dtype (r.data (c.1, i, j))) c.2.1 c.2.2, ∃ a, v = .fin a := by
    intro v hv
    obtain ⟨p, hp1, hp2, rfl⟩ := (hmemv v).1 hv
    obtain ⟨e1, e2⟩ := hq p (hp p hp1) hp2
    refine ⟨q p, ?_⟩
    beta_reduce
    rw [e1, f4, inDtype_fin e2]
  obtain ⟨xs, hxs⟩ := numbers_list hvals
  have hmem : ∀ a : Rat, a ∈ xs ↔ ∃ p, InWindow .dilation n m r c p ∧ r.mask p = false ∧ q p = a := by
    intro a
    have e : a ∈ xs ↔ (.fin a : Num) ∈ xs.map .fin := by
      constructor
      · exact fun k => List.mem_map.2 ⟨a, k, rfl⟩
      · intro k
        obtain ⟨b, hb, e⟩ := List.mem_map.1 k
        cases e
        exact hb
    rw [e, ← hxs, hmemv]
    constructor
    · rintro ⟨p, hp1, hp2, e⟩
      obtain ⟨e1, e2⟩ := hq p (hp p hp1) hp2
      rw [e1, f4, inDtype_fin e2] at e
      cases e
      exact ⟨p, hp1, hp2, rfl⟩
    · rintro ⟨p, hp1, hp2, rfl⟩
      obtain ⟨e1, e2⟩ := hq p (hp p hp1) hp2
      exact ⟨p, hp1, hp2, by rw [e1, f4, inDtype_fin e2]⟩
  refine ⟨fun hmask => ?_, fun hmask => ⟨k1.2 (.inl hmask), ?_⟩⟩
  · have hne : xs ≠ [] := List.ne_nil_of_mem ((hmem (q c)).2 ⟨c, hself, hmask, rfl⟩)
    obtain ⟨a, ha, e, hle⟩ := hst.max xs hne
    obtain ⟨p, hp1, hp2, rfl⟩ := (hmem a).1 ha
    have hval : np.cast f.dtype (func .max (windowValues w r.ny r.nx (fun i j => r.mask (c.1, i, j))
      (fun i j => inDtype np r.dtype f.dtype (r.data (c.1, i, j))) c.2.1 c.2.2)) = .fin (q p) := by
      rw [hxs, e, f4, (hq p (hp p hp1) hp2).2]
    rw [hval] at k1 k3
    have hfm : f.mask c = false := by
      rw [← Bool.not_eq_true, k1]
      rintro (k | ⟨-, k⟩)
      · rw [hmask] at k; cases k
      · unfold Focal.maskedValue at k
        rw [if_neg (by rintro ⟨k, -⟩; cases k)] at k
        cases k
    have hdm : d.mask c = false := by
      rw [← Bool.not_eq_true, g1]
      exact fun k => by rw [k c hself] at hmask; cases hmask
    refine ⟨hfm, hdm, ?_⟩
    rw [k3 hfm]
    obtain ⟨⟨p', hp', e'⟩, hall⟩ := g3 hdm
    have e1 := (hq p' (hp p' hp'.1) hp'.2).1
    rw [e1] at e'
    have l1 : q p' ≤ q p := hle _ ((hmem _).2 ⟨p', hp'.1, hp'.2, rfl⟩)
    have l2 : q p ≤ q p' := by
      have := hall p ⟨hp1, hp2⟩
      rw [(hq p (hp p hp1) hp2).1, ← e'] at this
      exact this
    rw [← e', le_antisymm l1 l2]
    rfl
  · rw [← Bool.not_eq_true, g1, not_forall]
    constructor
    · rintro ⟨p, k⟩
      rw [Classical.not_imp, Bool.not_eq_true] at k
      exact ⟨p, k⟩
    · rintro ⟨p, k1, k2⟩
      exact ⟨p, by rw [Classical.not_imp, Bool.not_eq_true]; exact ⟨k1, k2⟩⟩

/-- **C98 (minimum).**  For rasters with a null value, `focal` with the minimum of a rectangle with odd sides and the erosion with its size give the same
number in every cell that the erosion does not make null. -/
theorem C98_min_erode {np : NumPy} {func : Stat → List Num → Num} {big small : Num} {r f e : Raster} {size : Morph.SizeArg}
    {ychunks xchunks yc xc : List Nat} {n m : Nat} {w : Kernel Bool} {s : Scalar} {ignoreNull : Bool} {q : Cell → Rat}
    (hst : Statistics func) (hq : Numbers np r q) (hnv : r.nv = some s)
    (hb : ∀ p, r.Has p → r.mask p = false → Bounded big small r.dtype (r.data p))
    (hs : getFootprint size = .ok (n, m)) (hodd : n % 2 = 1 ∧ m % 2 = 1)
    (hw : getFocalWindow (.one (.int n)) (some (.int m)) = .ok w)
    (hy : ychunks.sum = r.ny) (hx : xchunks.sum = r.nx) (hy' : yc.sum = r.ny) (hx' : xc.sum = r.nx)
    (hf : focal np func r .min w ignoreNull ychunks xchunks = .ok f) (he : morph .erosion big small r size yc xc = .ok e) :
    ∀ c, r.Has c → e.mask c = false → f.mask c = false ∧ f.data c = e.data c := by
  intro c hc hem
  obtain ⟨hn, hm⟩ : 0 < n ∧ 0 < m := by
    have := (Morph.C58_sizes size n m).mp hs
    omega
  have hwin := rectangle_window hn hm hw
  obtain ⟨f1, f2, f3, f4, f5, f6⟩ := Focal.C29_masked (by unfold Raster.masked; rw [hnv]; rfl) (hst.ignores .min (by simp)) hy hx hf
  obtain ⟨d1, d2, d3, d4, d5, d6⟩ := Morph.C58_erode hs hnv hy' hx' hb he
  have hself : InWindow .dilation n m r c c := ⟨rfl, ⟨by omega, by omega⟩, hc.2.1, ⟨by omega, by omega⟩, hc.2.2⟩
  have hp : ∀ p, InWindow .dilation n m r c p → r.Has p := fun p k => ⟨k.1 ▸ hc.1, k.2.2.1, k.2.2.2.2⟩
  obtain ⟨k1, k2, k3⟩ := f6 c hc
  obtain ⟨g1, g2, g3⟩ := d6 c hc
  have hvalid : ∀ p, InWindow .dilation n m r c p → r.mask p = false := fun p k =>
    (g1.1 hem).2.2 p ((window_odd hodd.1 hodd.2 r c p).2 k)
  have hmemv := fun v => mem_rectangle (v := v) hn hm hwin (r := r) (c := c) (null := r.mask) (f := fun p => inDtype np r.dtype f.dtype (r.data p))
  have hvals : ∀ v ∈ windowValues w r.ny r.nx (fun i j => r.mask (c.1, i, j))
      (fun i j => inDtype np r.dtype f.dtype (r.data (c.1, i, j))) c.2.1 c.2.2, ∃ a, v = .fin a := by
    intro v hv
    obtain ⟨p, hp1, hp2, rfl⟩ := (hmemv v).1 hv
    obtain ⟨e1, e2⟩ := hq p (hp p hp1) hp2
    refine ⟨q p, ?_⟩
    beta_reduce
    rw [e1, f4, inDtype_fin e2]
  obtain ⟨xs, hxs⟩ := numbers_list hvals
  have hmem : ∀ a : Rat, a ∈ xs ↔ ∃ p, InWindow .dilation n m r c p ∧ q p = a := by
    intro a
    have e : a ∈ xs ↔ (.fin a : Num) ∈ xs.map .fin := by
      constructor
      · exact fun k => List.mem_map.2 ⟨a, k, rfl⟩
      · intro k
        obtain ⟨b, hb, e⟩ := List.mem_map.1 k
        cases e
        exact hb
    rw [e, ← hxs, hmemv]
    constructor
    · rintro ⟨p, hp1, hp2, e⟩
      obtain ⟨e1, e2⟩ := hq p (hp p hp1) hp2
      rw [e1, f4, inDtype_fin e2] at e
      cases e
      exact ⟨p, hp1, rfl⟩
    · rintro ⟨p, hp1, rfl⟩
      have hp2 := hvalid p hp1
      obtain ⟨e1, e2⟩ := hq p (hp p hp1) hp2
      exact ⟨p, hp1, hp2, by rw [e1, f4, inDtype_fin e2]⟩
  have hne : xs ≠ [] := List.ne_nil_of_mem ((hmem (q c)).2 ⟨c, hself, rfl⟩)
  obtain ⟨a, ha, ea, hle⟩ := hst.min xs hne
  obtain ⟨p, hp1, rfl⟩ := (hmem a).1 ha
  have hval : np.cast f.dtype (func .min (windowValues w r.ny r.nx (fun i j => r.mask (c.1, i, j))
    (fun i j => inDtype np r.dtype f.dtype (r.data (c.1, i, j))) c.2.1 c.2.2)) = .fin (q p) := by
    rw [hxs, ea, f4, (hq p (hp p hp1) (hvalid p hp1)).2]
  rw [hval] at k1 k3
  have hfm : f.mask c = false := by
    rw [← Bool.not_eq_true, k1]
    rintro (k | ⟨-, k⟩)
    · rw [hvalid c hself] at k; cases k
    · unfold Focal.maskedValue at k
      rw [if_neg (by rintro ⟨k, -⟩; cases k)] at k
      cases k
  refine ⟨hfm, ?_⟩
  rw [k3 hfm]
  obtain ⟨⟨p', hp', e'⟩, hall⟩ := g3 hem
  have hp' := (window_odd hodd.1 hodd.2 r c p').1 hp'
  have e1 := (hq p' (hp p' hp') (hvalid p' hp')).1
  rw [e1] at e'
  have l1 : q p ≤ q p' := hle _ ((hmem _).2 ⟨p', hp', rfl⟩)
  have l2 : q p' ≤ q p := by
    have := hall p ((window_odd hodd.1 hodd.2 r c p).2 hp1)
    rw [(hq p (hp p hp1) (hvalid p hp1)).1, ← e'] at this
    exact this
  rw [← e', le_antisymm l1 l2]
  rfl

/-- **C98 (no null value).**  For rasters without a null value and rectangles with odd sides the maximum is the dilation and the minimum the erosion in
every cell, as they are stored in the dtype of the raster. -/
theorem C98_unmasked {np : NumPy} {func : Stat → List Num → Num} {big small : Num} {r f d : Raster} {size : Morph.SizeArg}
    {ychunks xchunks yc xc : List Nat} {n m : Nat} {w : Kernel Bool} {ignoreNull : Bool} {op : Op}
    (hnv : r.nv = none) (hd : ∀ c, r.Has c → r.data c ≠ .nan)
    (hb : ∀ p, r.Has p → Bounded big small r.dtype (r.data p))
    (hs : getFootprint size = .ok (n, m)) (hodd : n % 2 = 1 ∧ m % 2 = 1)
    (hw : getFocalWindow (.one (.int n)) (some (.int m)) = .ok w) (hy' : yc.sum = r.ny) (hx' : xc.sum = r.nx)
    (hf : focal np func r (if op = .dilation then .max else .min) w ignoreNull ychunks xchunks = .ok f)
    (he : morph op big small r size yc xc = .ok d) :
    ∀ c, r.Has c → f.data c = np.cast r.dtype (d.data c) := by
  intro c hc
  obtain ⟨hn, hm⟩ : 0 < n ∧ 0 < m := by
    have := (Morph.C58_sizes size n m).mp hs
    omega
  have hwin := rectangle_window hn hm hw
  have hsolid : Solid w := Focal.C29_solid_windows hw (.inr ⟨by simp, by rw [hwin.1]; exact hodd.1, by rw [hwin.2.1]; exact hodd.2⟩)
  obtain ⟨d1, d2, d3, d4, d5, d6⟩ := Morph.C58_unmasked hs hnv hy' hx' hb he
  have hself : InWindow .dilation n m r c c := ⟨rfl, ⟨by omega, by omega⟩, hc.2.1, ⟨by omega, by omega⟩, hc.2.2⟩
  have hmemv := fun v => mem_rectangle (v := v) hn hm hwin (r := r) (c := c) (null := fun _ => false) (f := r.data)
  have hne : windowValues w r.ny r.nx (fun _ _ => false) (fun i j => r.data (c.1, i, j)) c.2.1 c.2.2 ≠ [] :=
    List.ne_nil_of_mem ((hmemv (r.data c)).2 ⟨c, hself, rfl, rfl⟩)
  obtain ⟨h1, h2⟩ := Focal.C29_min_max_partial (by unfold Raster.masked; rw [hnv]; rfl) hsolid hd hf c hc hne
  obtain ⟨-, ⟨p, hp, ep⟩, hall⟩ := d6 c hc
  cases op with
  | dilation =>
    obtain ⟨a, ea, ha1, ha2⟩ := h2 rfl
    obtain ⟨p', hp', -, rfl⟩ := (hmemv a).1 ha1
    rw [ea, Stats.le_antisymm' (hall p' hp') (ep ▸ ha2 _ ((hmemv _).2 ⟨p, hp, rfl, rfl⟩))]
  | erosion =>
    obtain ⟨a, ea, ha1, ha2⟩ := h1 rfl
    obtain ⟨p', hp', -, rfl⟩ := (hmemv a).1 ha1
    have hp1 := (window_odd hodd.1 hodd.2 r c p).1 hp
    have hp2 := (window_odd hodd.1 hodd.2 r c p').2 hp'
    rw [ea, Stats.le_antisymm' (ep ▸ ha2 _ ((hmemv _).2 ⟨p, hp1, rfl, rfl⟩)) (hall p' hp2)]

/-! ### Sums -/

/-- The sum of the cells under a window is the correlation with its weights, if the cells beyond the edge are zero. -/
theorem window_sum (w : Kernel Bool) {ny nx : Nat} {null : Nat → Nat → Bool} {data : Nat → Nat → Num} {q : Nat → Nat → Rat}
    (hd : ∀ i j, i < ny → j < nx → null i j = false → data i j = .fin (q i j)) (r c : Nat) :
    ((windowValues w ny nx null data r c).map Focal.amount).sum =
      Focal.Spec.total w.rows w.cols (fun a b => if w.at' a b then 1 else 0) (contribution .constant 0 ny nx null q) r c := by
  unfold windowValues Focal.Spec.total
  rw [List.map_flatMap, Focal.sum_flatMap]
  simp only [Focal.filterMap_sum]
  show ∑ a ∈ Finset.range w.rows, ∑ b ∈ Finset.range w.cols, _ = _
  refine Finset.sum_congr rfl fun a _ => Finset.sum_congr rfl fun b _ => ?_
  by_cases hw : w.at' a b = true
  · rw [if_pos hw, one_mul]
    by_cases h1 : (w.rows - 1) / 2 ≤ r + a ∧ r + a - (w.rows - 1) / 2 < ny
    · have e1 : source .constant ny ((r : Int) + a - ((w.rows - 1) / 2 : Nat)) = some (r + a - (w.rows - 1) / 2) := by
        unfold source
        simp only
        rw [if_pos (by omega), show ((r : Int) + a - ((w.rows - 1) / 2 : Nat)).toNat = r + a - (w.rows - 1) / 2 by omega]
      by_cases h2 : (w.cols - 1) / 2 ≤ c + b ∧ c + b - (w.cols - 1) / 2 < nx
      · have e2 : source .constant nx ((c : Int) + b - ((w.cols - 1) / 2 : Nat)) = some (c + b - (w.cols - 1) / 2) := by
          unfold source
          simp only
          rw [if_pos (by omega), show ((c : Int) + b - ((w.cols - 1) / 2 : Nat)).toNat = c + b - (w.cols - 1) / 2 by omega]
        simp only [contribution, e1, e2]
        cases hn : null (r + a - (w.rows - 1) / 2) (c + b - (w.cols - 1) / 2)
        · rw [if_pos ⟨hw, h1.1, h1.2, h2.1, h2.2, rfl⟩, if_neg (by simp)]
          simp only [hd _ _ h1.2 h2.2 hn, Focal.amount]
        · rw [if_neg (by rintro ⟨-, -, -, -, -, k⟩; cases k), if_pos rfl]
      · have e2 : source .constant nx ((c : Int) + b - ((w.cols - 1) / 2 : Nat)) = none := by
          unfold source
          simp only
          rw [if_neg (by omega)]
        simp only [contribution, e1, e2]
        rw [if_neg (fun k => h2 ⟨k.2.2.2.1, k.2.2.2.2.1⟩)]
    · have e1 : source .constant ny ((r : Int) + a - ((w.rows - 1) / 2 : Nat)) = none := by
        unfold source
        simp only
        rw [if_neg (by omega)]
      simp only [contribution, e1]
      rw [if_neg (fun k => h1 ⟨k.2.1, k.2.2.1⟩)]
  · rw [if_neg hw, if_neg (fun k => hw k.1), zero_mul]

theorem map_amount (xs : List Rat) : (xs.map (FVal.fin : Rat → Num)).map Focal.amount = xs := by
  induction xs with
  | nil => rfl
  | cons a l ih => rw [List.map_cons, List.map_cons, ih]; rfl

/-- **C98 (sum).**  The sum of `focal` over a window and `correlate` with the weights of the window, zero beyond the edge, are the same number in every cell
that is not null, each rounded to its own dtype: for every window if the raster has a null value, for windows with odd sides otherwise. -/
theorem C98_sum {np : NumPy} {func : Stat → List Num → Num} {r f : Raster} {kdt : DType} {w : Kernel Bool} {ychunks xchunks yc xc : List Nat}
    {q : Cell → Rat} {ignoreNull : Bool} (hst : Statistics func)
    (h : Focal.Input np r kdt (weights w) yc xc q (fun a b => if w.at' a b then 1 else 0))
    (hw : r.masked = true ∨ w.rows % 2 = 1 ∧ w.cols % 2 = 1) (hy : ychunks.sum = r.ny) (hx : xchunks.sum = r.nx)
    (hf : focal np func r .sum w ignoreNull ychunks xchunks = .ok f) :
    ∃ o, correlate np r kdt (weights w) (some .constant) (.fin 0) yc xc = .ok o ∧
      ∀ c, r.Has c → r.mask c = false → ∃ T : Rat,
        f.data c = np.cast (if r.masked then promoteToFloat r.dtype else r.dtype) (.fin T) ∧ o.data c = rounded np (resultDtype r kdt) r.masked T := by
  obtain ⟨o, ho, -, -, -, -, -, -, -, hv⟩ := Focal.C31_correlate h .constant 0
  refine ⟨o, ho, fun c hc hmask => ⟨_, ?_, hv c hc hmask⟩⟩
  show f.data c = np.cast _ (.fin (Focal.Spec.total w.rows w.cols _ _ _ _))
  cases hm : r.masked with
  | true =>
    rw [if_pos rfl]
    obtain ⟨f1, f2, f3, f4, f5, f6⟩ := Focal.C29_masked hm (hst.ignores .sum (by simp)) hy hx hf
    obtain ⟨k1, k2, k3⟩ := f6 c hc
    have hin : ∀ i j, i < r.ny → j < r.nx → r.mask (c.1, i, j) = false →
        inDtype np r.dtype f.dtype (r.data (c.1, i, j)) = .fin (q (c.1, i, j)) := by
      intro i j hi hj hn
      rw [h.data (c.1, i, j) ⟨hc.1, hi, hj⟩ hn, f4, inDtype_fin (h.castData _ _ (by simp))]
    obtain ⟨xs, hxs⟩ := numbers_list (l := windowValues w r.ny r.nx (fun i j => r.mask (c.1, i, j))
        (fun i j => inDtype np r.dtype f.dtype (r.data (c.1, i, j))) c.2.1 c.2.2) fun v hv => by
      obtain ⟨a, b, i, j, ha, hb, -, hi, hj, e1, e2, hn, rfl⟩ := Focal.mem_windowValues.1 hv
      exact ⟨_, hin i j hi hj hn⟩
    have hs := window_sum w hin c.2.1 c.2.2
    rw [hxs, map_amount] at hs
    rw [hxs, hst.sum, hs, f4] at k1 k3
    cases hfm : f.mask c with
    | false => exact k3 hfm
    | true =>
      rcases k1.1 hfm with k | ⟨-, k⟩
      · rw [hmask] at k; cases k
      · rw [k2 hfm]
        exact k.symm
  | false =>
    rw [if_neg (by simp)]
    obtain ⟨xs, e, hxs⟩ := Focal.C29_sum_partial hm (hw.resolve_left (by rw [hm]; simp))
      (fun c hc => h.data c hc (h.unmasked hm c)) hf c hc
    have hmk : (fun y x => r.mask (c.1, y, x)) = fun _ _ => false := by
      funext y x; exact h.unmasked hm _
    have hs := window_sum w (ny := r.ny) (nx := r.nx) (null := fun _ _ => false) (data := fun i j => r.data (c.1, i, j))
      (q := fun i j => q (c.1, i, j)) (fun i j hi hj _ => h.data (c.1, i, j) ⟨hc.1, hi, hj⟩ (h.unmasked hm _)) c.2.1 c.2.2
    rw [hxs, map_amount] at hs
    rw [e, hmk, hs]

/-! ### Examples -/

/-- A choice of the statistics. -/
def exFunc (s : Stat) (l : List Num) : Num :=
  match s, (Stats.Spec.valid l).map Focal.amount with
  | .sum, xs => .fin xs.sum
  | .max, x :: xs => .fin (xs.foldl max x)
  | .min, x :: xs => .fin (xs.foldl min x)
  | _, _ => .nan

theorem valid_fin (l : List Rat) : Stats.Spec.valid (l.map (FVal.fin : Rat → Num)) = l.map .fin := by
  unfold Stats.Spec.valid
  rw [List.filter_eq_self]
  intro v hv
  obtain ⟨a, -, rfl⟩ := List.mem_map.1 hv
  rfl

theorem foldl_max (x : Rat) (xs : List Rat) : xs.foldl max x ∈ x :: xs ∧ ∀ v ∈ x :: xs, v ≤ xs.foldl max x := by
  induction xs generalizing x with
  | nil => simp
  | cons y ys ih =>
    rw [List.foldl_cons]
    obtain ⟨h1, h2⟩ := ih (max x y)
    constructor
    · rcases List.mem_cons.1 h1 with h | h
      · rw [h]
        rcases max_choice x y with e | e <;> rw [e] <;> simp
      · simp [h]
    · intro v hv
      rcases List.mem_cons.1 hv with rfl | hv
      · exact le_trans (le_max_left _ _) (h2 _ List.mem_cons_self)
      · rcases List.mem_cons.1 hv with rfl | hv
        · exact le_trans (le_max_right _ _) (h2 _ List.mem_cons_self)
        · exact h2 v (by simp [hv])

theorem foldl_min (x : Rat) (xs : List Rat) : xs.foldl min x ∈ x :: xs ∧ ∀ v ∈ x :: xs, xs.foldl min x ≤ v := by
  induction xs generalizing x with
  | nil => simp
  | cons y ys ih =>
    rw [List.foldl_cons]
    obtain ⟨h1, h2⟩ := ih (min x y)
    constructor
    · rcases List.mem_cons.1 h1 with h | h
      · rw [h]
        rcases min_choice x y with e | e <;> rw [e] <;> simp
      · simp [h]
    · intro v hv
      rcases List.mem_cons.1 hv with rfl | hv
      · exact le_trans (h2 _ List.mem_cons_self) (min_le_left _ _)
      · rcases List.mem_cons.1 hv with rfl | hv
        · exact le_trans (h2 _ List.mem_cons_self) (min_le_right _ _)
        · exact h2 v (by simp [hv])

theorem exFunc_statistics : Statistics exFunc where
  ignores := fun s _ l => by
    unfold exFunc
    have : Stats.Spec.valid (Stats.Spec.valid l) = Stats.Spec.valid l := by
      unfold Stats.Spec.valid
      rw [List.filter_filter]
      simp only [Bool.and_self]
    rw [this]
  max := fun l hl => by
    cases l with
    | nil => exact absurd rfl hl
    | cons x xs =>
      refine ⟨_, (foldl_max x xs).1, ?_, (foldl_max x xs).2⟩
      simp only [exFunc, valid_fin, map_amount]
  min := fun l hl => by
    cases l with
    | nil => exact absurd rfl hl
    | cons x xs =>
      refine ⟨_, (foldl_min x xs).1, ?_, (foldl_min x xs).2⟩
      simp only [exFunc, valid_fin, map_amount]
  sum := fun l => by simp only [exFunc, valid_fin, map_amount]

/-- The sample of C58 (0, 1, null, 9, 16) meets the hypotheses: the cell in column 1 has the maximum 1, the one in column 3 the maximum 16 and the
minimum 9 next to a null cell; the null cell stays null in one and becomes 9 in the other. -/
example : Statistics exFunc ∧ Numbers (idNumPy false) Morph.sampleNull (fun c => (c.2.2 * c.2.2 : Nat)) ∧
    (∀ p, Morph.sampleNull.Has p → Bounded (.fin 0) (.fin 0) Morph.sampleNull.dtype (Morph.sampleNull.data p)) ∧
    getFootprint (.seq [some 1, some 3]) = .ok (1, 3) ∧ getFocalWindow (.one (.int 1)) (some (.int 3)) = .ok ⟨1, 3, fun _ _ => true⟩ ∧
    (∃ f d, focal (idNumPy false) exFunc Morph.sampleNull .max ⟨1, 3, fun _ _ => true⟩ false [1] [2, 3] = .ok f ∧
      morph .dilation (.fin 0) (.fin 0) Morph.sampleNull (.seq [some 1, some 3]) [1] [5] = .ok d ∧
      f.data (0, 0, 1) = .fin 1 ∧ d.data (0, 0, 1) = .fin 1 ∧ f.data (0, 0, 3) = .fin 16 ∧ d.data (0, 0, 3) = .fin 16 ∧
      f.mask (0, 0, 2) = true ∧ d.mask (0, 0, 2) = false ∧ d.data (0, 0, 2) = .fin 9) :=
  ⟨exFunc_statistics, fun c _ _ => ⟨rfl, rfl⟩, Morph.sample_bounded, rfl, rfl, _, _, rfl, rfl, by decide +kernel⟩

/-- The minimum of the sample, in a window of one cell height and three cells width, and the sum next to the correlation. -/
example : (∃ f e, focal (idNumPy false) exFunc Morph.sampleLine .min ⟨1, 3, fun _ _ => true⟩ false [1] [5] = .ok f ∧
      morph .erosion (.fin 0) (.fin 0) Morph.sampleLine (.seq [some 1, some 3]) [1] [5] = .ok e ∧
      f.data (0, 0, 2) = .fin 1 ∧ e.data (0, 0, 2) = .fin 1) ∧
    Focal.Input (idNumPy false) Morph.sampleNull u8 (weights ⟨1, 3, fun _ _ => true⟩) [1] [5] (fun c => (c.2.2 * c.2.2 : Nat))
      (fun _ _ => 1) ∧
    ∃ f o, focal (idNumPy false) exFunc Morph.sampleNull .sum ⟨1, 3, fun _ _ => true⟩ false [1] [2, 3] = .ok f ∧
      correlate (idNumPy false) Morph.sampleNull u8 (weights ⟨1, 3, fun _ _ => true⟩) (some .constant) (.fin 0) [1] [5] = .ok o ∧
      f.data (0, 0, 3) = .fin 25 ∧ o.data (0, 0, 3) = .fin 25 :=
  ⟨⟨_, _, rfl, rfl, by decide +kernel⟩,
    { ysum := rfl, xsum := rfl, yfits := by decide, xfits := by decide, data := fun _ _ _ => rfl, weight := fun _ _ _ _ => rfl,
      castData := fun _ _ _ => rfl, castWeight := fun _ _ _ _ => rfl, unmasked := fun h => nomatch h },
    _, _, rfl, rfl, by decide +kernel⟩

/-- **Even sides differ**: the minimum over two columns is that of the cell and its right neighbour, the erosion that of the cell and its left neighbour. -/
theorem C98_even : ∃ f e : Raster, getFootprint (.seq [some 1, some 2]) = .ok (1, 2) ∧
    getFocalWindow (.one (.int 1)) (some (.int 2)) = .ok ⟨1, 2, fun _ _ => true⟩ ∧
    focal (idNumPy false) exFunc Morph.sampleNull .min ⟨1, 2, fun _ _ => true⟩ false [1] [5] = .ok f ∧
    morph .erosion (.fin 0) (.fin 0) Morph.sampleNull (.seq [some 1, some 2]) [1] [5] = .ok e ∧
    e.mask (0, 0, 4) = false ∧ e.data (0, 0, 4) = .fin 9 ∧ f.mask (0, 0, 4) = false ∧ f.data (0, 0, 4) = .fin 16 :=
  ⟨_, _, rfl, rfl, rfl, rfl, by decide +kernel⟩

end Verif.Trips.Windows
