import Mathlib.Algebra.BigOperators.Ring.Finset
import Verif.Focal.Props

/-!
# C31: correlation and convolution
-/

set_option linter.unusedSectionVars false

namespace Verif.Focal

open Verif Verif.Nulls DType

namespace Spec

/-- The row (or column) of the raster that stands at position `i` for the documented modes:
`reflect` `d c b a | a b c d | d c b a`, `nearest` `a a a a | a b c d | d d d d`, `wrap` `a b c d | a b c d | a b c d`. -/
def source (m : Mode) (n : Nat) (i : Int) : Option Nat :=
  match m with
  | .constant => if 0 ≤ i ∧ i < n then some i.toNat else none
  | .nearest => some (max 0 (min i (n - 1))).toNat
  | .wrap => some (i % n).toNat
  | .reflect => some (min (i % (2 * n)) (2 * n - 1 - i % (2 * n))).toNat

/-- What a position contributes: the value of the cell there, nothing if it is null, the constant outside. -/
def contribution (m : Mode) (cval : Rat) (ny nx : Nat) (null : Nat → Nat → Bool) (q : Nat → Nat → Rat) (i j : Int) : Rat :=
  match source m ny i, source m nx j with
  | some y, some x => if null y x then 0 else q y x
  | _, _ => cval

/-- The sum of weight times value over the kernel placed with its cell `((rows - 1) / 2, (cols - 1) / 2)` on `(i, j)`. -/
def total (rows cols : Nat) (w : Nat → Nat → Rat) (value : Int → Int → Rat) (i j : Nat) : Rat :=
  ∑ a ∈ Finset.range rows, ∑ b ∈ Finset.range cols,
    w a b * value ((i : Int) + a - ((rows - 1) / 2 : Nat)) ((j : Int) + b - ((cols - 1) / 2 : Nat))

end Spec

open Spec

/-! ### The boundary modes -/

theorem index_source (m : Mode) {n : Nat} {i : Int} (h1 : -(n : Int) ≤ i) (h2 : i < 2 * n) :
    (m.index n i).map Int.toNat = source m n i ∧ ∀ y, source m n i = some y → y < n := by
  unfold Mode.index source
  by_cases hin : 0 ≤ i ∧ i < n
  · rw [if_pos hin]
    cases m with
    | constant =>
      rw [if_pos hin]
      exact ⟨rfl, fun y hy => by simp only [Option.some.injEq] at hy; omega⟩
    | nearest =>
      refine ⟨by simp only [Option.map_some]; congr 1; omega, fun y hy => by simp only [Option.some.injEq] at hy; omega⟩
    | wrap =>
      have : i % n = i := Int.emod_eq_of_lt hin.1 hin.2
      refine ⟨by simp only [Option.map_some, this], fun y hy => by simp only [Option.some.injEq] at hy; omega⟩
    | reflect =>
      have : i % (2 * n) = i := Int.emod_eq_of_lt hin.1 (by omega)
      refine ⟨by simp only [Option.map_some, this]; congr 1; omega,
        fun y hy => by simp only [Option.some.injEq] at hy; omega⟩
  · rw [if_neg hin]
    cases m with
    | constant =>
      rw [if_neg hin]
      exact ⟨rfl, fun y hy => nomatch hy⟩
    | nearest =>
      refine ⟨by simp only [Option.map_some]; congr 1; split <;> omega,
        fun y hy => by simp only [Option.some.injEq] at hy; omega⟩
    | wrap =>
      have hn : (0 : Int) < n := by omega
      have := Int.emod_nonneg i (ne_of_gt hn)
      have := Int.emod_lt_of_pos i hn
      exact ⟨rfl, fun y hy => by simp only [Option.some.injEq] at hy; omega⟩
    | reflect =>
      have hn : (0 : Int) < 2 * n := by omega
      by_cases hi : i < 0
      · have e : i % (2 * n) = i + 2 * n := by
          rw [← Int.add_emod_right, Int.emod_eq_of_lt (by omega) (by omega)]
        refine ⟨by simp only [Option.map_some, e, if_pos hi]; congr 1; omega,
          fun y hy => by simp only [e, Option.some.injEq] at hy; omega⟩
      · have e : i % (2 * n) = i := Int.emod_eq_of_lt (by omega) h2
        refine ⟨by simp only [Option.map_some, e, if_neg hi]; congr 1; omega,
          fun y hy => by simp only [e, Option.some.injEq] at hy; omega⟩

/-- The extended array, for data with NaN at the null cells and finite numbers elsewhere. -/
theorem extend_spec {m : Mode} {cval : Rat} {ny nx : Nat} {null : Nat → Nat → Bool} {q : Nat → Nat → Rat}
    {data : Nat → Nat → Num} (hd : ∀ y x, y < ny → x < nx → data y x = if null y x then .nan else .fin (q y x))
    {i j : Int} (hi1 : -(ny : Int) ≤ i) (hi2 : i < 2 * ny) (hj1 : -(nx : Int) ≤ j) (hj2 : j < 2 * nx) :
    ((∃ v, extend m (.fin cval) ny nx data i j = .fin v) ∨ extend m (.fin cval) ny nx data i j = .nan) ∧
    amount (extend m (.fin cval) ny nx data i j) = contribution m cval ny nx null q i j ∧
    ((∀ y x, null y x = false) → ∃ v, extend m (.fin cval) ny nx data i j = .fin v) := by
  obtain ⟨e1, b1⟩ := index_source m hi1 hi2
  obtain ⟨e2, b2⟩ := index_source m hj1 hj2
  unfold extend contribution
  rw [← e1] at b1 ⊢
  rw [← e2] at b2 ⊢
  cases h1 : m.index ny i with
  | none => exact ⟨Or.inl ⟨_, rfl⟩, rfl, fun _ => ⟨_, rfl⟩⟩
  | some y =>
    cases h2 : m.index nx j with
    | none => exact ⟨Or.inl ⟨_, rfl⟩, rfl, fun _ => ⟨_, rfl⟩⟩
    | some x =>
      simp only [Option.map_some]
      rw [hd y.toNat x.toNat (b1 _ (by rw [h1]; rfl)) (b2 _ (by rw [h2]; rfl))]
      by_cases hn : null y.toNat x.toNat = true
      · rw [if_pos hn, if_pos hn]
        exact ⟨Or.inr rfl, rfl, fun h => by rw [h] at hn; cases hn⟩
      · rw [if_neg hn, if_neg hn]
        exact ⟨Or.inl ⟨_, rfl⟩, rfl, fun _ => ⟨_, rfl⟩⟩

/-! ### The two sums -/

theorem position {rows a i ny : Nat} (ha : a < rows) (hr : overlap rows ≤ ny) (hi : i < ny) :
    (i : Int) - before rows + a = (i : Int) + a - ((rows - 1) / 2 : Nat) ∧
    (i : Int) + a - ((rows / 2 : Nat) + evenOrigin rows) = (i : Int) + a - ((rows - 1) / 2 : Nat) ∧
    -(ny : Int) ≤ (i : Int) + a - ((rows - 1) / 2 : Nat) ∧ (i : Int) + a - ((rows - 1) / 2 : Nat) < 2 * ny := by
  have : overlap rows = rows / 2 := by unfold overlap before after; omega
  unfold before evenOrigin
  refine ⟨by omega, ?_, by omega, by omega⟩
  split <;> omega

/-- The extent of a kernel that fits: the margin is not larger than the raster. -/
def Fits (rows ny : Nat) : Prop := overlap rows ≤ ny

theorem correlateSum_spec {m : Mode} {cval : Rat} {ny nx : Nat} {null : Nat → Nat → Bool} {q : Nat → Nat → Rat}
    {data : Nat → Nat → Num} (hd : ∀ y x, y < ny → x < nx → data y x = if null y x then .nan else .fin (q y x))
    {k : Kernel Num} {w : Nat → Nat → Rat} (hw : ∀ a b, a < k.rows → b < k.cols → k.at' a b = .fin (w a b))
    (hr : overlap k.rows ≤ ny) (hc : overlap k.cols ≤ nx) {i j : Nat} (hi : i < ny) (hj : j < nx) :
    correlateSum k (extend m (.fin cval) ny nx data) i j =
      .fin (total k.rows k.cols w (contribution m cval ny nx null q) i j) := by
  unfold correlateSum
  rw [skippingFold]
  · rw [zero_add, List.map_flatMap]
    unfold total
    rw [← sum_loops]
    congr 2
    apply flatMap_congr'
    intro a ha
    rw [List.map_map]
    apply List.map_congr_left
    intro b hb
    have ha := List.mem_range.mp ha
    have hb := List.mem_range.mp hb
    obtain ⟨p1, _, p3, p4⟩ := position ha hr hi
    obtain ⟨q1, _, q3, q4⟩ := position hb hc hj
    simp only [Function.comp, p1, q1, hw a b ha hb]
    rw [(extend_spec hd p3 p4 q3 q4).2.1]
    rfl
  · intro e he
    obtain ⟨a, ha, hm⟩ := List.mem_flatMap.mp he
    obtain ⟨b, hb, rfl⟩ := List.mem_map.mp hm
    have ha := List.mem_range.mp ha
    have hb := List.mem_range.mp hb
    obtain ⟨p1, _, p3, p4⟩ := position ha hr hi
    obtain ⟨q1, _, q3, q4⟩ := position hb hc hj
    refine ⟨⟨_, hw a b ha hb⟩, ?_⟩
    simp only [p1, q1]
    exact (extend_spec hd p3 p4 q3 q4).1

theorem scipyCorrelate_spec {m : Mode} {cval : Rat} {ny nx : Nat} {q : Nat → Nat → Rat}
    {data : Nat → Nat → Num} (hd : ∀ y x, y < ny → x < nx → data y x = .fin (q y x))
    {k : Kernel Num} {w : Nat → Nat → Rat} (hw : ∀ a b, a < k.rows → b < k.cols → k.at' a b = .fin (w a b))
    (hr : overlap k.rows ≤ ny) (hc : overlap k.cols ≤ nx) {i j : Nat} (hi : i < ny) (hj : j < nx) :
    scipyCorrelate k evenOrigin (extend m (.fin cval) ny nx data) i j =
      .fin (total k.rows k.cols w (contribution m cval ny nx (fun _ _ => false) q) i j) := by
  have hd' : ∀ y x, y < ny → x < nx → data y x = if (fun _ _ => false) y x = true then .nan else .fin (q y x) := by
    intro y x hy hx
    rw [hd y x hy hx]
    rfl
  unfold scipyCorrelate
  rw [show (scipyCells k evenOrigin (i : Int) j).foldl (fun v e => add v (mul e.1
        (extend m (.fin cval) ny nx data e.2.1 e.2.2))) (.fin 0) =
        ((scipyCells k evenOrigin (i : Int) j).map fun e => (e.1,
          extend m (.fin cval) ny nx data e.2.1 e.2.2)).foldl (fun v e => add v (mul e.1 e.2)) (.fin 0)
      from by rw [List.foldl_map]]
  rw [weightedFold]
  · rw [zero_add, List.map_map]
    unfold total scipyCells
    rw [← sum_loops, List.map_flatMap]
    congr 2
    apply flatMap_congr'
    intro a ha
    rw [List.map_map]
    apply List.map_congr_left
    intro b hb
    have ha := List.mem_range.mp ha
    have hb := List.mem_range.mp hb
    obtain ⟨_, p1, p3, p4⟩ := position ha hr hi
    obtain ⟨_, q1, q3, q4⟩ := position hb hc hj
    push_cast at p1 q1
    simp only [Function.comp, hw a b ha hb]
    rw [p1, q1]
    push_cast at p3 p4 q3 q4
    rw [(extend_spec hd' p3 p4 q3 q4).2.1]
    push_cast
    rfl
  · intro e he
    obtain ⟨e', he', rfl⟩ := List.mem_map.mp he
    unfold scipyCells at he'
    obtain ⟨a, ha, hm⟩ := List.mem_flatMap.mp he'
    obtain ⟨b, hb, rfl⟩ := List.mem_map.mp hm
    have ha := List.mem_range.mp ha
    have hb := List.mem_range.mp hb
    obtain ⟨_, p1, p3, p4⟩ := position ha hr hi
    obtain ⟨_, q1, q3, q4⟩ := position hb hc hj
    push_cast at p1 q1 p3 p4 q3 q4
    obtain ⟨v, hv⟩ := (extend_spec (m := m) (cval := cval) hd' p3 p4 q3 q4).2.2 (fun _ _ => rfl)
    refine ⟨w a b, v, hw a b ha hb, ?_⟩
    simp only
    rw [p1, q1]
    exact hv

/-! ### `correlate` -/

/-- The dtype of the result: integer rasters become float64 for weights that are not integers. -/
def resultDtype (r : Raster) (kdt : DType) : DType := if kdt.isFloat && r.dtype.isInt then f64 else r.dtype

theorem astype_none (np : NumPy) (r : Raster) (dt : DType) (hdt : dt ≠ r.dtype) :
    ∃ r', r.astype np dt none = .ok r' ∧ r'.nb = r.nb ∧ r'.ny = r.ny ∧ r'.nx = r.nx ∧ r'.dtype = dt ∧
      r'.mask = r.mask ∧ r'.masked = r.masked ∧ (r.masked = false → r'.nv = r.nv) ∧
      (∀ c, r.masked = false ∨ r.mask c = false → r'.data c = np.cast dt (r.data c)) := by
  unfold Raster.astype
  rw [if_neg (fun h => hdt h.1)]
  cases hn : r.nv with
  | none =>
    exact ⟨_, rfl, rfl, rfl, rfl, rfl, rfl, by simp [Raster.masked, hn], fun _ => rfl, fun _ _ => rfl⟩
  | some s =>
    have hm : r.masked = true := by simp [Raster.masked, hn]
    obtain ⟨t, ht⟩ : ∃ t, (reconcile np (some s) dt).1 = some t := by
      unfold reconcile
      simp only
      split
      · exact ⟨_, rfl⟩
      · split
        · exact ⟨_, rfl⟩
        · split <;> exact ⟨_, rfl⟩
    refine ⟨_, rfl, rfl, rfl, rfl, rfl, rfl, ?_, ?_, ?_⟩
    · simp [Raster.masked, hn, ht]
    · rw [hm]; exact fun h => nomatch h
    · intro c hc
      rw [hm] at hc
      rcases hc with h | h
      · cases h
      · simp [h]

theorem promote_isFloat (dt : DType) (h : dt.isFloat = true) : promoteToFloat dt = dt := by
  unfold promoteToFloat
  rw [if_pos h]

theorem promote_float (dt : DType) : (promoteToFloat dt).isFloat = true := by
  cases dt <;> decide +kernel

/-- The result of `correlateValue` for finite data and weights that the conversions leave as they are. -/
theorem correlateValue_spec {np : NumPy} {r : Raster} {kdt : DType} {k : Kernel Num} {mode : Mode} {cval : Rat}
    {ychunks xchunks : List Nat} (hy : ychunks.sum = r.ny) (hx : xchunks.sum = r.nx)
    (hr : overlap k.rows ≤ r.ny) (hc : overlap k.cols ≤ r.nx)
    {q : Cell → Rat} (hq : ∀ c, r.Has c → r.mask c = false → r.data c = .fin (q c) ∧
      np.cast (promoteToFloat r.dtype) (.fin (q c)) = .fin (q c))
    {w : Nat → Nat → Rat} (hw : ∀ a b, a < k.rows → b < k.cols → k.at' a b = .fin (w a b) ∧
      np.cast (promoteToFloat r.dtype) (.fin (w a b)) = .fin (w a b))
    (hu : r.masked = false → ∀ c, r.mask c = false) {c : Cell} (hcell : r.Has c) :
    correlateValue np r kdt k mode (.fin cval) ychunks xchunks c =
      let T : Num := .fin (total k.rows k.cols w (contribution mode cval r.ny r.nx (fun y x => r.mask (c.1, y, x))
        (fun y x => q (c.1, y, x))) c.2.1 c.2.2)
      if r.masked then convert np (promoteToFloat r.dtype) r.dtype (np.cast (promoteToFloat r.dtype) T)
      else np.cast r.dtype T := by
  obtain ⟨b, i, j⟩ := c
  obtain ⟨hb, hi, hj⟩ := hcell
  simp only at hb hi hj
  have hweights : ∀ dt, (dt = promoteToFloat r.dtype ∨ dt = r.dtype) → (weights np dt kdt k).rows = k.rows ∧
      (weights np dt kdt k).cols = k.cols ∧
      ∀ a b, a < k.rows → b < k.cols → (weights np dt kdt k).at' a b = .fin (w a b) := by
    intro dt hdt
    unfold weights
    by_cases h : dt.isFloat = true ∧ kdt.isInt = true
    · rw [if_pos h]
      refine ⟨rfl, rfl, ?_⟩
      intro a b ha hb
      simp only
      rw [(hw a b ha hb).1]
      rcases hdt with rfl | rfl
      · exact (hw a b ha hb).2
      · have := (hw a b ha hb).2
        rwa [promote_isFloat _ h.1] at this
    · rw [if_neg h]
      exact ⟨rfl, rfl, fun a b ha hb => (hw a b ha hb).1⟩
  unfold correlateValue
  simp only
  by_cases hm : r.masked = true
  · rw [if_pos hm, if_pos hm]
    obtain ⟨w1, w2, w3⟩ := hweights (promoteToFloat r.dtype) (Or.inl rfl)
    have := correlateChunk_overlap (weights np (promoteToFloat r.dtype) kdt k)
      (extend mode (.fin cval) r.ny r.nx (band (fun c => if r.mask c then .nan
        else convert np r.dtype (promoteToFloat r.dtype) (r.data c)) b))
      (ychunks := ychunks) (xchunks := xchunks) (r := i) (c := j) (by omega) (by omega)
    rw [w1, w2] at this
    rw [this, Option.getD_some]
    rw [correlateSum_spec (null := fun y x => r.mask (b, y, x)) (q := fun y x => q (b, y, x)) (w := w) ?_ ?_ (by rwa [w1])
      (by rwa [w2]) hi hj, w1, w2]
    · intro y x hy hx
      simp only [band]
      by_cases hn : r.mask (b, y, x) = true
      · rw [if_pos hn, if_pos hn]
      · obtain ⟨h1, h2⟩ := hq (b, y, x) ⟨hb, hy, hx⟩ (by simpa using hn)
        rw [if_neg hn, if_neg hn, h1]
        unfold convert
        split
        · rfl
        · exact h2
    · rw [w1, w2]; exact w3
  · rw [if_neg hm, if_neg hm]
    have hnull := hu (by simpa using hm)
    obtain ⟨w1, w2, w3⟩ := hweights r.dtype (Or.inr rfl)
    rw [scipyCorrelate_spec (q := fun y x => q (b, y, x)) (w := w) ?_ ?_ (by rwa [w1]) (by rwa [w2]) hi hj, w1, w2]
    · have : (fun y x => r.mask (b, y, x)) = fun _ _ => false := by funext y x; exact hnull _
      rw [this]
    · intro y x hy hx
      exact (hq (b, y, x) ⟨hb, hy, hx⟩ (hnull _)).1
    · rw [w1, w2]; exact w3

/-- The rounding of the exact sum to the dtype of the result, for rasters with a null value through a float type. -/
def rounded (np : NumPy) (dt : DType) (masked : Bool) (T : Rat) : Num :=
  if masked then Spec.inDtype np (promoteToFloat dt) dt (np.cast (promoteToFloat dt) (.fin T)) else np.cast dt (.fin T)

/-- What a call of `correlate` needs: data and weights are finite and survive the conversion to the float type in
use, the chunks cover the raster, the kernel's margin fits and a raster without null value has no null cells. -/
structure Input (np : NumPy) (r : Raster) (kdt : DType) (k : Kernel Num) (ychunks xchunks : List Nat) (q : Cell → Rat)
    (w : Nat → Nat → Rat) : Prop where
  ysum : ychunks.sum = r.ny
  xsum : xchunks.sum = r.nx
  yfits : k.rows / 2 ≤ r.ny
  xfits : k.cols / 2 ≤ r.nx
  data : ∀ c, r.Has c → r.mask c = false → r.data c = .fin (q c)
  weight : ∀ a b, a < k.rows → b < k.cols → k.at' a b = .fin (w a b)
  castData : ∀ c, ∀ dt ∈ [f64, promoteToFloat r.dtype], np.cast dt (.fin (q c)) = .fin (q c)
  castWeight : ∀ a b, ∀ dt ∈ [f64, promoteToFloat r.dtype], np.cast dt (.fin (w a b)) = .fin (w a b)
  unmasked : r.masked = false → ∀ c, r.mask c = false

theorem hasNan_false {k : Kernel Num} {w : Nat → Nat → Rat}
    (hw : ∀ a b, a < k.rows → b < k.cols → k.at' a b = .fin (w a b)) : hasNan k = false := by
  unfold hasNan
  rw [List.any_eq_false]
  intro a ha
  rw [Bool.not_eq_true, List.any_eq_false]
  intro b hb
  rw [hw a b (List.mem_range.mp ha) (List.mem_range.mp hb)]
  exact fun h => nomatch h

/-- **C31**: `correlate` succeeds, keeps shape and null cells, and every valid cell is the sum of weight times value
over the cells under the kernel that are not null, rounded to the dtype of the result, whatever the chunks. -/
theorem C31_correlate {np : NumPy} {r : Raster} {kdt : DType} {k : Kernel Num} {ychunks xchunks : List Nat}
    {q : Cell → Rat} {w : Nat → Nat → Rat} (h : Input np r kdt k ychunks xchunks q w) (mode : Mode) (cval : Rat) :
    ∃ o, correlate np r kdt k (some mode) (.fin cval) ychunks xchunks = .ok o ∧
      o.nb = r.nb ∧ o.ny = r.ny ∧ o.nx = r.nx ∧ o.dtype = resultDtype r kdt ∧ o.masked = r.masked ∧
      (∀ c, o.mask c = r.mask c) ∧
      (∀ s, o.nv = some s → ∀ c, o.mask c = true → o.data c = s.val) ∧
      ∀ c, r.Has c → r.mask c = false → o.data c = rounded np (resultDtype r kdt) r.masked
        (total k.rows k.cols w (contribution mode cval r.ny r.nx (fun y x => r.mask (c.1, y, x))
          (fun y x => q (c.1, y, x))) c.2.1 c.2.2) := by
  have ho : ∀ n, overlap n = ((n / 2 : Nat) : Int) := by
    intro n; unfold overlap before after; omega
  -- the raster after the conversion
  obtain ⟨r', hr', e1, e2, e3, e4, e5, e6, e7, e8⟩ : ∃ r', (if kdt.isFloat && r.dtype.isInt then r.astype np f64 none
      else .ok r) = .ok r' ∧ r'.nb = r.nb ∧ r'.ny = r.ny ∧ r'.nx = r.nx ∧ r'.dtype = resultDtype r kdt ∧
      r'.mask = r.mask ∧ r'.masked = r.masked ∧ (r.masked = false → r'.nv = r.nv) ∧
      (∀ c, r.Has c → r.mask c = false → r'.data c = .fin (q c)) := by
    unfold resultDtype
    by_cases hc : (kdt.isFloat && r.dtype.isInt) = true
    · rw [if_pos hc, if_pos hc]
      have hne : f64 ≠ r.dtype := by
        intro hcon
        rw [← hcon] at hc
        simp [DType.isInt] at hc
      obtain ⟨r', h1, h2, h3, h4, h5, h6, h7, h8, h9⟩ := astype_none np r f64 hne
      refine ⟨r', h1, h2, h3, h4, h5, h6, h7, h8, ?_⟩
      intro c hcell hn
      rw [h9 c (Or.inr hn), h.data c hcell hn, h.castData c f64 (by simp)]
    · rw [if_neg hc, if_neg hc]
      exact ⟨r, rfl, rfl, rfl, rfl, rfl, rfl, rfl, fun _ => rfl, h.data⟩
  have hdt : promoteToFloat r'.dtype ∈ [f64, promoteToFloat r.dtype] := by
    rw [e4]
    unfold resultDtype
    split
    · simp [promoteToFloat, DType.isFloat]
    · simp
  have hval : ∀ c, r.Has c → correlateValue np r' kdt k mode (.fin cval) ychunks xchunks c =
      rounded np (resultDtype r kdt) r.masked
        (total k.rows k.cols w (contribution mode cval r.ny r.nx (fun y x => r.mask (c.1, y, x))
          (fun y x => q (c.1, y, x))) c.2.1 c.2.2) := by
    intro c hcell
    rw [correlateValue_spec (q := q) (w := w) (by rw [e2]; exact h.ysum) (by rw [e3]; exact h.xsum)
      (by rw [ho, e2]; exact_mod_cast h.yfits) (by rw [ho, e3]; exact_mod_cast h.xfits)
      ?_ (fun a b ha hb => ⟨h.weight a b ha hb, h.castWeight a b _ hdt⟩)
      (by rw [e6, e5]; exact h.unmasked) (by unfold Raster.Has; rw [e1, e2, e3]; exact hcell)]
    · simp only [e2, e3, e4, e5, e6]
      rfl
    · intro c hcell hn
      rw [e5] at hn
      refine ⟨e8 c (by unfold Raster.Has at hcell ⊢; rwa [e1, e2, e3] at hcell) hn, h.castData c _ hdt⟩
  unfold correlate
  rw [hasNan_false h.weight]
  simp only [Bool.false_eq_true, if_false]
  rw [hr']
  simp only
  rw [if_neg (by
    rw [ho, ho, e2, e3]
    have := h.yfits
    have := h.xfits
    omega)]
  by_cases hm : r.masked = true
  · rw [if_pos (e6.trans hm)]
    refine ⟨_, rfl, e1, e2, e3, e4, by simp [ofData, Raster.masked] at hm ⊢; simp [hm], fun c => by simp [ofData, e5], ?_, ?_⟩
    · intro s hs c hc
      simp only [ofData, Option.some.injEq, if_true] at hs hc ⊢
      rw [if_pos hc, hs]
    · intro c hcell hn
      simp only [ofData, if_true]
      rw [e5, hn, if_neg (by decide)]
      exact hval c hcell
  · have hm' : r.masked = false := by simpa using hm
    rw [if_neg (by rw [e6]; exact hm)]
    refine ⟨_, rfl, e1, e2, e3, e4, by simp [ofData, Raster.masked] at hm' ⊢; simp [hm'],
      fun c => by rw [h.unmasked hm' c]; simp [ofData, maskOf], ?_, ?_⟩
    · intro s hs
      simp [ofData] at hs
    · intro c hcell hn
      simp only [ofData]
      exact hval c hcell

/-! ### Linearity -/

theorem total_congr {rows cols : Nat} {w w' : Nat → Nat → Rat} {v : Int → Int → Rat} {i j : Nat}
    (h : ∀ a b, a < rows → b < cols → w a b = w' a b) : total rows cols w v i j = total rows cols w' v i j := by
  unfold total
  refine Finset.sum_congr rfl fun a ha => Finset.sum_congr rfl fun b hb => ?_
  rw [h a b (Finset.mem_range.mp ha) (Finset.mem_range.mp hb)]

theorem total_weights (rows cols : Nat) (w w' : Nat → Nat → Rat) (v : Int → Int → Rat) (i j : Nat) (s t : Rat) :
    total rows cols (fun a b => s * w a b + t * w' a b) v i j =
      s * total rows cols w v i j + t * total rows cols w' v i j := by
  unfold total
  simp only [Finset.mul_sum, ← Finset.sum_add_distrib]
  refine Finset.sum_congr rfl fun a _ => Finset.sum_congr rfl fun b _ => ?_
  ring

theorem total_values (rows cols : Nat) (w : Nat → Nat → Rat) (v v' : Int → Int → Rat) (i j : Nat) (s t : Rat) :
    total rows cols w (fun y x => s * v y x + t * v' y x) i j =
      s * total rows cols w v i j + t * total rows cols w v' i j := by
  unfold total
  simp only [Finset.mul_sum, ← Finset.sum_add_distrib]
  refine Finset.sum_congr rfl fun a _ => Finset.sum_congr rfl fun b _ => ?_
  ring

theorem contribution_linear (m : Mode) (cval cval' : Rat) (ny nx : Nat) (null : Nat → Nat → Bool) (q q' : Nat → Nat → Rat)
    (s t : Rat) : contribution m (s * cval + t * cval') ny nx null (fun y x => s * q y x + t * q' y x) =
      fun i j => s * contribution m cval ny nx null q i j + t * contribution m cval' ny nx null q' i j := by
  funext i j
  unfold contribution
  cases source m ny i with
  | none => rfl
  | some y =>
    cases source m nx j with
    | none => rfl
    | some x =>
      simp only
      split
      · ring
      · rfl

/-- **C31**, linear in the kernel: the exact sums of `s * k + t * k'` are the combination of those of `k` and `k'`; each
result is the sum rounded once. -/
theorem C31_linear_in_kernel {np : NumPy} {r : Raster} {kdt : DType} {k k' k'' : Kernel Num} {ychunks xchunks : List Nat}
    {q : Cell → Rat} {w w' : Nat → Nat → Rat} {s t : Rat} (h : Input np r kdt k ychunks xchunks q w)
    (h' : Input np r kdt k' ychunks xchunks q w')
    (h'' : Input np r kdt k'' ychunks xchunks q fun a b => s * w a b + t * w' a b)
    (hk : k'.rows = k.rows ∧ k'.cols = k.cols) (hk' : k''.rows = k.rows ∧ k''.cols = k.cols) (mode : Mode) (cval : Rat) :
    ∃ o o' o'', correlate np r kdt k (some mode) (.fin cval) ychunks xchunks = .ok o ∧
      correlate np r kdt k' (some mode) (.fin cval) ychunks xchunks = .ok o' ∧
      correlate np r kdt k'' (some mode) (.fin cval) ychunks xchunks = .ok o'' ∧
      ∀ c, r.Has c → r.mask c = false → ∃ T T' : Rat,
        o.data c = rounded np (resultDtype r kdt) r.masked T ∧ o'.data c = rounded np (resultDtype r kdt) r.masked T' ∧
        o''.data c = rounded np (resultDtype r kdt) r.masked (s * T + t * T') := by
  obtain ⟨o, e, _, _, _, _, _, _, _, d⟩ := C31_correlate h mode cval
  obtain ⟨o', e', _, _, _, _, _, _, _, d'⟩ := C31_correlate h' mode cval
  obtain ⟨o'', e'', _, _, _, _, _, _, _, d''⟩ := C31_correlate h'' mode cval
  refine ⟨o, o', o'', e, e', e'', ?_⟩
  intro c hc hn
  refine ⟨_, _, d c hc hn, d' c hc hn, ?_⟩
  rw [d'' c hc hn, hk.1, hk.2, hk'.1, hk'.2, total_weights]

/-- **C31**, linear in the data (and the constant around it), for rasters with the same null cells. -/
theorem C31_linear_in_data {np : NumPy} {r r' r'' : Raster} {kdt : DType} {k : Kernel Num} {ychunks xchunks : List Nat}
    {q q' : Cell → Rat} {w : Nat → Nat → Rat} {s t : Rat} (h : Input np r kdt k ychunks xchunks q w)
    (h' : Input np r' kdt k ychunks xchunks q' w)
    (h'' : Input np r'' kdt k ychunks xchunks (fun c => s * q c + t * q' c) w)
    (hn : r'.mask = r.mask ∧ r''.mask = r.mask) (hb : r'.nb = r.nb ∧ r''.nb = r.nb) (mode : Mode) (cval cval' : Rat) :
    ∃ o o' o'', correlate np r kdt k (some mode) (.fin cval) ychunks xchunks = .ok o ∧
      correlate np r' kdt k (some mode) (.fin cval') ychunks xchunks = .ok o' ∧
      correlate np r'' kdt k (some mode) (.fin (s * cval + t * cval')) ychunks xchunks = .ok o'' ∧
      ∀ c, r.Has c → r.mask c = false → ∃ T T' : Rat,
        o.data c = rounded np (resultDtype r kdt) r.masked T ∧ o'.data c = rounded np (resultDtype r' kdt) r'.masked T' ∧
        o''.data c = rounded np (resultDtype r'' kdt) r''.masked (s * T + t * T') := by
  obtain ⟨o, e, _, _, _, _, _, _, _, d⟩ := C31_correlate h mode cval
  obtain ⟨o', e', _, _, _, _, _, _, _, d'⟩ := C31_correlate h' mode cval'
  obtain ⟨o'', e'', _, _, _, _, _, _, _, d''⟩ := C31_correlate h'' mode (s * cval + t * cval')
  have y' := h'.ysum.symm.trans h.ysum
  have y'' := h''.ysum.symm.trans h.ysum
  have x' := h'.xsum.symm.trans h.xsum
  have x'' := h''.xsum.symm.trans h.xsum
  refine ⟨o, o', o'', e, e', e'', ?_⟩
  intro c hc hnull
  refine ⟨_, _, d c hc hnull, d' c ?_ (by rw [hn.1]; exact hnull), ?_⟩
  · unfold Raster.Has at hc ⊢
    rwa [hb.1, y', x']
  · rw [d'' c (by unfold Raster.Has at hc ⊢; rwa [hb.2, y'', x'']) (by rw [hn.2]; exact hnull), y'', x'', y', x', hn.1, hn.2,
      contribution_linear, total_values]

/-! ### Convolution -/

theorem flip_hasNan (k : Kernel Num) : hasNan (flip k) = hasNan k := by
  unfold hasNan flip
  rw [Bool.eq_iff_iff]
  simp only [List.any_eq_true, List.mem_range]
  constructor
  · rintro ⟨a, ha, b, hb, h⟩
    exact ⟨k.rows - 1 - a, by omega, k.cols - 1 - b, by omega, h⟩
  · rintro ⟨a, ha, b, hb, h⟩
    refine ⟨k.rows - 1 - a, by omega, k.cols - 1 - b, by omega, ?_⟩
    rwa [show k.rows - 1 - (k.rows - 1 - a) = a by omega, show k.cols - 1 - (k.cols - 1 - b) = b by omega]

/-- `correlate` reads the kernel only at its cells. -/
theorem correlateValue_congr {np : NumPy} {r : Raster} {kdt : DType} {k k' : Kernel Num} {mode : Mode} {cval : Num}
    {ychunks xchunks : List Nat} (hr : k'.rows = k.rows) (hc : k'.cols = k.cols)
    (h : ∀ a b, a < k.rows → b < k.cols → k'.at' a b = k.at' a b) (c : Cell) :
    correlateValue np r kdt k' mode cval ychunks xchunks c = correlateValue np r kdt k mode cval ychunks xchunks c := by
  have hw : ∀ dt, (weights np dt kdt k').rows = (weights np dt kdt k).rows ∧
      (weights np dt kdt k').cols = (weights np dt kdt k).cols ∧ ∀ a b, a < (weights np dt kdt k).rows →
        b < (weights np dt kdt k).cols → (weights np dt kdt k').at' a b = (weights np dt kdt k).at' a b := by
    intro dt
    unfold weights
    split
    · exact ⟨hr, hc, fun a b ha hb => by simp only; rw [h a b ha hb]⟩
    · exact ⟨hr, hc, h⟩
  have hchunk : ∀ {K K' : Kernel Num}, K'.rows = K.rows → K'.cols = K.cols →
      (∀ a b, a < K.rows → b < K.cols → K'.at' a b = K.at' a b) → correlateChunk K' = correlateChunk K := by
    intro K K' e1 e2 e3
    funext rows cols chunk i j
    unfold correlateChunk
    rw [e1, e2]
    split
    · have : ∀ (l : List ((Int × Int) × Nat)), (∀ e ∈ l, K'.flat e.2 = K.flat e.2) → ∀ v,
          l.foldl (accumulate rows cols chunk K') v = l.foldl (accumulate rows cols chunk K) v := by
        intro l
        induction l with
        | nil => exact fun _ _ => rfl
        | cons e l ih =>
          intro hl v
          rw [List.foldl_cons, List.foldl_cons, ih (fun e he => hl e (List.mem_cons_of_mem _ he))]
          congr 1
          unfold accumulate
          rw [hl e (by simp)]
      refine this _ ?_ _
      intro e he
      rw [loopCells_zipIdx] at he
      obtain ⟨a, ha, hm⟩ := List.mem_flatMap.mp he
      obtain ⟨b, hb, rfl⟩ := List.mem_map.mp hm
      have ha := List.mem_range.mp ha
      have hb := List.mem_range.mp hb
      have f := flat_eq K' (a := a) (b := b) (by omega)
      rw [e2] at f
      simp only
      rw [f, flat_eq K hb, e3 a b ha hb]
    · rfl
  unfold correlateValue
  simp only
  split
  · obtain ⟨w1, w2, w3⟩ := hw (promoteToFloat r.dtype)
    rw [hchunk w1 w2 w3, hr, hc]
  · obtain ⟨w1, w2, w3⟩ := hw r.dtype
    congr 1
    unfold scipyCorrelate
    congr 1
    unfold scipyCells
    rw [w1, w2]
    apply flatMap_congr'
    intro a ha
    apply List.map_congr_left
    intro b hb
    rw [w3 a b (List.mem_range.mp ha) (List.mem_range.mp hb)]

theorem correlate_congr {np : NumPy} {r : Raster} {kdt : DType} {k k' : Kernel Num} {mode : Option Mode} {cval : Num}
    {ychunks xchunks : List Nat} (hr : k'.rows = k.rows) (hc : k'.cols = k.cols)
    (h : ∀ a b, a < k.rows → b < k.cols → k'.at' a b = k.at' a b) :
    correlate np r kdt k' mode cval ychunks xchunks = correlate np r kdt k mode cval ychunks xchunks := by
  have hn : hasNan k' = hasNan k := by
    unfold hasNan
    rw [Bool.eq_iff_iff, hr, hc]
    simp only [List.any_eq_true, List.mem_range]
    constructor
    · rintro ⟨a, ha, b, hb, e⟩
      exact ⟨a, ha, b, hb, by rwa [h a b ha hb] at e⟩
    · rintro ⟨a, ha, b, hb, e⟩
      exact ⟨a, ha, b, hb, by rwa [h a b ha hb]⟩
  have hv : ∀ r : Raster, ∀ mode, correlateValue np r kdt k' mode cval ychunks xchunks =
      correlateValue np r kdt k mode cval ychunks xchunks := fun r mode => funext fun c => correlateValue_congr hr hc h c
  unfold correlate
  simp only [hn, hv, hr, hc]

/-- **C31**: `convolve` with a kernel rotated by 180 degrees is `correlate`, and the reverse. -/
theorem C31_convolve_flip (np : NumPy) (r : Raster) (kdt : DType) (k : Kernel Num) (mode : Option Mode) (cval : Num)
    (ychunks xchunks : List Nat) :
    convolve np r kdt (flip k) mode cval ychunks xchunks = correlate np r kdt k mode cval ychunks xchunks ∧
    convolve np r kdt k mode cval ychunks xchunks = correlate np r kdt (flip k) mode cval ychunks xchunks := by
  constructor
  · unfold convolve
    by_cases h : hasNan (flip k) = true
    · rw [if_pos h]
      rw [flip_hasNan] at h
      unfold correlate
      rw [if_pos h]
    · rw [if_neg h]
      refine correlate_congr rfl rfl ?_
      intro a b ha hb
      unfold flip
      simp only
      rw [show k.rows - 1 - (k.rows - 1 - a) = a by omega, show k.cols - 1 - (k.cols - 1 - b) = b by omega]
  · unfold convolve
    by_cases h : hasNan k = true
    · rw [if_pos h]
      unfold correlate
      rw [if_pos (by rwa [flip_hasNan])]
    · rw [if_neg h]

/-- **C31**: the value of `convolve` at a valid cell is the convolution sum, with weight `(a, b)` applied to the cell
`a - rows / 2` rows above and `b - cols / 2` columns to the left. -/
theorem C31_convolve {np : NumPy} {r : Raster} {kdt : DType} {k : Kernel Num} {ychunks xchunks : List Nat}
    {q : Cell → Rat} {w : Nat → Nat → Rat} (h : Input np r kdt k ychunks xchunks q w) (mode : Mode) (cval : Rat) :
    ∃ o, convolve np r kdt k (some mode) (.fin cval) ychunks xchunks = .ok o ∧ (∀ c, o.mask c = r.mask c) ∧
      ∀ c, r.Has c → r.mask c = false → o.data c = rounded np (resultDtype r kdt) r.masked
        (∑ a ∈ Finset.range k.rows, ∑ b ∈ Finset.range k.cols, w a b *
          contribution mode cval r.ny r.nx (fun y x => r.mask (c.1, y, x)) (fun y x => q (c.1, y, x))
            ((c.2.1 : Int) - ((a : Int) - (k.rows / 2 : Nat))) ((c.2.2 : Int) - ((b : Int) - (k.cols / 2 : Nat)))) := by
  rw [(C31_convolve_flip np r kdt k _ _ _ _).2]
  have hflip : Input np r kdt (flip k) ychunks xchunks q fun a b => w (k.rows - 1 - a) (k.cols - 1 - b) :=
    { ysum := h.ysum, xsum := h.xsum, yfits := h.yfits, xfits := h.xfits, data := h.data
      weight := fun a b ha hb => h.weight _ _ (by simp only [flip] at ha; omega) (by simp only [flip] at hb; omega)
      castData := h.castData, castWeight := fun a b => h.castWeight _ _, unmasked := h.unmasked }
  obtain ⟨o, e, _, _, _, _, _, hm, _, d⟩ := C31_correlate hflip mode cval
  refine ⟨o, e, hm, ?_⟩
  intro c hc hn
  rw [d c hc hn]
  congr 1
  unfold total
  simp only [flip]
  rw [← Finset.sum_range_reflect]
  refine Finset.sum_congr rfl fun a ha => ?_
  rw [← Finset.sum_range_reflect]
  refine Finset.sum_congr rfl fun b hb => ?_
  have ha := Finset.mem_range.mp ha
  have hb := Finset.mem_range.mp hb
  rw [show k.rows - 1 - (k.rows - 1 - a) = a by omega, show k.cols - 1 - (k.cols - 1 - b) = b by omega]
  congr 2 <;> omega

/-- **C31**: kernels with NaN and unknown modes are rejected. -/
theorem C31_too_large (np : NumPy) (r : Raster) (kdt : DType) (k : Kernel Num) (mode : Mode) (cval : Num)
    (ychunks xchunks : List Nat) (hm : r.masked = true) (h : r.ny < k.rows / 2 ∨ r.nx < k.cols / 2) :
    correlate np r kdt k (some mode) cval ychunks xchunks = .error .value ∧
    convolve np r kdt k (some mode) cval ychunks xchunks = .error .value := by
  have ho : ∀ n, overlap n = ((n / 2 : Nat) : Int) := by
    intro n; unfold overlap before after; omega
  obtain ⟨r', hr', e2, e3, e6⟩ : ∃ r', (if kdt.isFloat && r.dtype.isInt then r.astype np f64 none
      else .ok r) = .ok r' ∧ r'.ny = r.ny ∧ r'.nx = r.nx ∧ r'.masked = r.masked := by
    by_cases hc : (kdt.isFloat && r.dtype.isInt) = true
    · rw [if_pos hc]
      have hne : f64 ≠ r.dtype := by
        intro hcon
        rw [← hcon] at hc
        simp [DType.isInt] at hc
      obtain ⟨r', h1, _, h3, h4, _, _, h7, _, _⟩ := astype_none np r f64 hne
      exact ⟨r', h1, h3, h4, h7⟩
    · rw [if_neg hc]
      exact ⟨r, rfl, rfl, rfl, rfl⟩
  have hc : ∀ k : Kernel Num, (r.ny < k.rows / 2 ∨ r.nx < k.cols / 2) →
      correlate np r kdt k (some mode) cval ychunks xchunks = .error .value := by
    intro k h
    unfold correlate
    split
    · rfl
    · rw [hr']
      simp only
      rw [if_pos]
      rw [ho, ho, e2, e3, e6]
      exact ⟨hm, by omega⟩
  refine ⟨hc k h, ?_⟩
  rw [(C31_convolve_flip np r kdt k _ _ _ _).2]
  exact hc _ h

example : (⟨f32, 1, 2, 2, fun _ => .fin 0, fun _ => false, some ⟨f64, .nan⟩⟩ : Raster).masked = true ∧ 2 < 7 / 2 := by decide

/-- **C31**: kernels with NaN and unknown modes are rejected. -/
theorem C31_rejected (np : NumPy) (r : Raster) (kdt : DType) (k : Kernel Num) (mode : Option Mode) (cval : Num)
    (ychunks xchunks : List Nat)
    (h : (∃ a b, a < k.rows ∧ b < k.cols ∧ k.at' a b = .nan) ∨ mode = none) :
    correlate np r kdt k mode cval ychunks xchunks = .error .value ∧
    convolve np r kdt k mode cval ychunks xchunks = .error .value := by
  have hc : ∀ k : Kernel Num, ((∃ a b, a < k.rows ∧ b < k.cols ∧ k.at' a b = .nan) ∨ mode = none) →
      correlate np r kdt k mode cval ychunks xchunks = .error .value := by
    rintro k (⟨a, b, ha, hb, e⟩ | rfl)
    · unfold correlate
      rw [if_pos]
      unfold hasNan
      simp only [List.any_eq_true, List.mem_range]
      exact ⟨a, ha, b, hb, by rw [e]; rfl⟩
    · unfold correlate
      split <;> rfl
  refine ⟨hc k h, ?_⟩
  rw [(C31_convolve_flip np r kdt k _ _ _ _).2]
  apply hc
  rcases h with ⟨a, b, ha, hb, e⟩ | h
  · left
    refine ⟨k.rows - 1 - a, k.cols - 1 - b, by simp only [flip]; omega, by simp only [flip]; omega, ?_⟩
    simp only [flip]
    rw [show k.rows - 1 - (k.rows - 1 - a) = a by omega, show k.cols - 1 - (k.cols - 1 - b) = b by omega, e]
  · exact Or.inr h

/-! ### Examples -/

/-- A row of three cells with the middle one null. -/
def sampleRow : Raster :=
  ⟨f64, 1, 1, 3, fun c => if c.2.2 = 1 then .fin (-9) else .fin (c.2.2 + 1 : Nat), fun c => c.2.2 == 1, some ⟨f64, .fin (-9)⟩⟩

/-- The kernel `[[1, 2, 3]]`. -/
def sampleKernel : Kernel Num := ⟨1, 3, fun _ b => .fin (b + 1 : Nat)⟩

example : Input (idNumPy false) sampleRow f64 sampleKernel [1] [1, 2] (fun c => (c.2.2 + 1 : Nat)) (fun _ b => (b + 1 : Nat)) where
  ysum := rfl
  xsum := rfl
  yfits := by decide
  xfits := by decide
  data := fun c _ h => by
    have : ¬ c.2.2 = 1 := by simpa [sampleRow] using h
    simp [sampleRow, this]
  weight := fun _ _ _ _ => rfl
  castData := fun _ _ _ => rfl
  castWeight := fun _ _ _ _ => rfl
  unmasked := fun h => nomatch h

example : ∃ o, correlate (idNumPy false) sampleRow f64 sampleKernel (some .reflect) (.fin 0) [1] [1, 2] = .ok o ∧
    o.data (0, 0, 0) = .fin 3 ∧ o.data (0, 0, 1) = .fin (-9) ∧ o.data (0, 0, 2) = .fin 15 ∧ o.mask (0, 0, 1) = true :=
  ⟨_, rfl, by decide +kernel, by decide +kernel, by decide +kernel, by decide +kernel⟩

example : ∃ o, convolve (idNumPy false) sampleRow f64 sampleKernel (some .reflect) (.fin 0) [1] [1, 2] = .ok o ∧
    o.data (0, 0, 0) = .fin 5 ∧ o.data (0, 0, 2) = .fin 9 :=
  ⟨_, rfl, by decide +kernel, by decide +kernel⟩

end Verif.Focal
