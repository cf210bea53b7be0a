import Verif.Focal.Lemmas

/-!
# Properties of `focal`: C29 and C30
-/

set_option linter.unusedSectionVars false

namespace Verif.Focal

open Verif Verif.Nulls DType

namespace Spec

/-- The values of the cells that the window, placed on the cell `(r, c)`, covers: only cells of the raster, without
the null cells.  The window's own cell is row `(rows - 1) / 2`, column `(cols - 1) / 2`. -/
def windowValues (window : Kernel Bool) (ny nx : Nat) (null : Nat → Nat → Bool) (data : Nat → Nat → Num) (r c : Nat) :
    List Num :=
  (List.range window.rows).flatMap fun a => (List.range window.cols).filterMap fun b =>
    let i := r + a - (window.rows - 1) / 2
    let j := c + b - (window.cols - 1) / 2
    if window.at' a b = true ∧ (window.rows - 1) / 2 ≤ r + a ∧ i < ny ∧ (window.cols - 1) / 2 ≤ c + b ∧ j < nx ∧
      null i j = false then some (data i j) else none

/-- The statistic takes no notice of NaN. -/
def IgnoresNan (f : List Num → Num) : Prop := ∀ l, f l = f (Stats.Spec.valid l)

/-- A window with a middle cell that contains, with every cell, the cells between it and the middle row and between
it and the middle column. -/
def Solid (w : Kernel Bool) : Prop :=
  w.rows % 2 = 1 ∧ w.cols % 2 = 1 ∧ ∀ a b, a < w.rows → b < w.cols → w.at' a b = true →
    (∀ a', (a ≤ a' ∧ a' ≤ w.rows / 2 ∨ w.rows / 2 ≤ a' ∧ a' ≤ a) → w.at' a' b = true) ∧
    (∀ b', (b ≤ b' ∧ b' ≤ w.cols / 2 ∨ w.cols / 2 ≤ b' ∧ b' ≤ b) → w.at' a b' = true)

/-- A value in another dtype. -/
def inDtype (np : NumPy) (src dst : DType) (v : Num) : Num := if dst = src then v else np.cast dst v

/-- The best value of a list in the order `good`. -/
def IsBest (good : Num → Num → Prop) (l : List Num) (m : Num) : Prop := m ∈ l ∧ ∀ v ∈ l, good m v

end Spec

open Spec

/-! ### The statistics of `stat_common.py` ignore NaN -/

theorem valid_valid (l : List Num) : Stats.Spec.valid (Stats.Spec.valid l) = Stats.Spec.valid l := by
  unfold Stats.Spec.valid
  rw [List.filter_filter]
  simp

theorem mode_ignoresNan : IgnoresNan fun l => (Stats.nanmode l).1 := fun l =>
  (Stats.C38_invariance (by rw [valid_valid])).2.1

theorem unique_ignoresNan : IgnoresNan fun l => .fin (Stats.nanUniqueCount l : Rat) := fun l => by
  simp only
  rw [(Stats.C38_invariance (x := l) (y := Stats.Spec.valid l) (by rw [valid_valid])).1]

theorem asm_ignoresNan : IgnoresNan fun l => .fin (Stats.nanasm l : Rat) := fun l => by
  simp only
  rw [(Stats.C38_invariance (x := l) (y := Stats.Spec.valid l) (by rw [valid_valid])).2.2.1]

/-- **C29 (dtypes)**: the float type that holds all numbers of a small dtype; double for the others. -/
theorem C29_float_dtype : [DType.bool, i8, u8].map promoteToFloat = [f16, f16, f16] ∧ [i16, u16].map promoteToFloat = [f32, f32] ∧
    [i32, u32, i64, u64].map promoteToFloat = [f64, f64, f64, f64] ∧ [f16, f32, f64].map promoteToFloat = [f16, f32, f64] := by
  decide

theorem convert_eq : convert = inDtype := rfl

/-! ### The window -/

theorem valid_append (l m : List Num) :
    Stats.Spec.valid (l ++ m) = Stats.Spec.valid l ++ Stats.Spec.valid m := by
  unfold Stats.Spec.valid
  rw [List.filter_append]

theorem valid_flatMap {α : Type} (l : List α) (f g : α → List Num)
    (h : ∀ a ∈ l, Stats.Spec.valid (f a) = Stats.Spec.valid (g a)) :
    Stats.Spec.valid (l.flatMap f) = Stats.Spec.valid (l.flatMap g) := by
  induction l with
  | nil => rfl
  | cons a l ih =>
    rw [List.flatMap_cons, List.flatMap_cons, valid_append, valid_append, h a (by simp),
      ih fun b hb => h b (List.mem_cons_of_mem _ hb)]

theorem valid_map_filterMap {α : Type} (l : List α) (f : α → Num) (g : α → Option Num)
    (h : ∀ a ∈ l, (f a = .nan ∧ g a = none) ∨ g a = some (f a)) :
    Stats.Spec.valid (l.map f) = Stats.Spec.valid (l.filterMap g) := by
  induction l with
  | nil => rfl
  | cons a l ih =>
    have ih := ih fun b hb => h b (List.mem_cons_of_mem _ hb)
    rcases h a (by simp) with ⟨h1, h2⟩ | h1
    · rw [List.filterMap_cons_none h2, List.map_cons, ← ih, h1]
      rfl
    · rw [List.filterMap_cons_some h1, List.map_cons]
      unfold Stats.Spec.valid at *
      rw [List.filter_cons, List.filter_cons, ih]

theorem extend_inside {m : Mode} {cval : Num} {ny nx : Nat} {data : Nat → Nat → Num} {i j : Int} (h1 : 0 ≤ i)
    (h2 : i < ny) (h3 : 0 ≤ j) (h4 : j < nx) : extend m cval ny nx data i j = data i.toNat j.toNat := by
  unfold extend Mode.index
  rw [if_pos ⟨h1, h2⟩, if_pos ⟨h3, h4⟩]

theorem extend_constant_outside {cval : Num} {ny nx : Nat} {data : Nat → Nat → Num} {i j : Int}
    (h : ¬ (0 ≤ i ∧ i < ny ∧ 0 ≤ j ∧ j < nx)) : extend .constant cval ny nx data i j = cval := by
  unfold extend Mode.index
  by_cases h1 : 0 ≤ i ∧ i < ny
  · by_cases h2 : 0 ≤ j ∧ j < nx
    · exact absurd ⟨h1.1, h1.2, h2.1, h2.2⟩ h
    · rw [if_neg h2]
      cases (if 0 ≤ i ∧ i < (ny : Int) then some i else none : Option Int) <;> rfl
  · rw [if_neg h1]

theorem before_nat {n a : Nat} (ha : a < n) : before n = ((n - 1) / 2 : Nat) := by
  unfold before
  omega

/-- The values handed to the statistic are those of the window, up to NaNs. -/
theorem kernelList_valid (kernel : Kernel Bool) (ny nx : Nat) (null : Nat → Nat → Bool) (data : Nat → Nat → Num)
    (r c : Nat) :
    Stats.Spec.valid (kernelList kernel (extend .constant .nan ny nx fun i j => if null i j then .nan else data i j) r c) =
      Stats.Spec.valid (windowValues kernel ny nx null data r c) := by
  unfold kernelList windowValues
  apply valid_flatMap
  intro a ha
  apply valid_map_filterMap
  intro b hb
  have ha := List.mem_range.mp ha
  have hb := List.mem_range.mp hb
  rw [before_nat ha, before_nat hb]
  simp only
  by_cases hk : kernel.at' a b = true
  · rw [if_pos hk]
    by_cases hin : (kernel.rows - 1) / 2 ≤ r + a ∧ r + a - (kernel.rows - 1) / 2 < ny ∧
        (kernel.cols - 1) / 2 ≤ c + b ∧ c + b - (kernel.cols - 1) / 2 < nx
    · have e1 : ((r : Int) - ((kernel.rows - 1) / 2 : Nat) + a) = ((r + a - (kernel.rows - 1) / 2 : Nat) : Int) := by omega
      have e2 : ((c : Int) - ((kernel.cols - 1) / 2 : Nat) + b) = ((c + b - (kernel.cols - 1) / 2 : Nat) : Int) := by omega
      rw [e1, e2, extend_inside (by omega) (by omega) (by omega) (by omega)]
      simp only [Int.toNat_natCast]
      cases hn : null (r + a - (kernel.rows - 1) / 2) (c + b - (kernel.cols - 1) / 2) with
      | true =>
        left
        refine ⟨by simp, ?_⟩
        rw [if_neg]
        simp
      | false =>
        right
        rw [if_pos ⟨hk, hin.1, hin.2.1, hin.2.2.1, hin.2.2.2, rfl⟩]
        simp
    · left
      rw [extend_constant_outside (by omega), if_neg (fun h => hin ⟨h.2.1, h.2.2.1, h.2.2.2.1, h.2.2.2.2.1⟩)]
      exact ⟨rfl, rfl⟩
  · left
    rw [if_neg hk, if_neg (fun h => hk h.1)]
    exact ⟨rfl, rfl⟩

theorem slowStat_spec (np : NumPy) (dt : DType) (kernel : Kernel Bool) {func : List Num → Num} (hf : IgnoresNan func)
    (ny nx : Nat) (null : Nat → Nat → Bool) (data : Nat → Nat → Num) {ychunks xchunks : List Nat}
    (hy : ychunks.sum = ny) (hx : xchunks.sum = nx) {r c : Nat} (hr : r < ny) (hc : c < nx) :
    slowStat np dt kernel func ny nx (fun i j => if null i j then .nan else data i j) ychunks xchunks r c =
      some (np.cast dt (func (windowValues kernel ny nx null data r c))) := by
  unfold slowStat
  rw [focalChunk_overlap kernel func _ (by omega) (by omega), Option.map_some, hf, kernelList_valid, ← hf]

/-! ### C29 -/

/-- The statistic of a window on a masked raster: a unique count of 0 is turned into NaN. -/
def maskedValue (stat : Stat) (v : Num) : Num := if stat = .unique ∧ v.eq (.fin 0) then .nan else v

/-- **C29** for rasters with a null value, every statistic, window and chunking: a cell that is null stays null, a
cell for which the statistic is NaN becomes null (unless `ignore_null`), and every other cell holds the statistic of
the valid values in the window, whatever the chunks. -/
theorem C29_masked {np : NumPy} {func : Stat → List Num → Num} {r o : Raster} {stat : Stat} {window : Kernel Bool}
    {ignoreNull : Bool} {ychunks xchunks : List Nat} (hm : r.masked = true) (hf : IgnoresNan (func stat))
    (hy : ychunks.sum = r.ny) (hx : xchunks.sum = r.nx)
    (h : focal np func r stat window ignoreNull ychunks xchunks = .ok o) :
    o.nb = r.nb ∧ o.ny = r.ny ∧ o.nx = r.nx ∧ o.dtype = promoteToFloat r.dtype ∧ o.nv = some ⟨f64, .nan⟩ ∧
    ∀ c, r.Has c →
      let v := maskedValue stat (np.cast o.dtype (func stat (windowValues window r.ny r.nx (fun i j => r.mask (c.1, i, j))
        (fun i j => inDtype np r.dtype o.dtype (r.data (c.1, i, j))) c.2.1 c.2.2)))
      (o.mask c = true ↔ r.mask c = true ∨ (ignoreNull = false ∧ v = .nan)) ∧
      (o.mask c = true → o.data c = .nan) ∧ (o.mask c = false → o.data c = v) := by
  rw [← convert_eq]
  unfold focal at h
  split at h
  · cases h
  simp only [hm, if_true, Except.ok.injEq] at h
  subst h
  refine ⟨rfl, rfl, rfl, by simp [ofData, focalDtype, hm], rfl, ?_⟩
  rintro ⟨b, i, j⟩ ⟨_, hi, hj⟩
  have hdt : (ofData (focalDtype r stat window) r.nb r.ny r.nx (focalValue np func r stat window ychunks xchunks)
      (some fun c => if ignoreNull then r.mask c else r.mask c || (focalValue np func r stat window ychunks xchunks c).isnan)
      (some ⟨f64, .nan⟩) true).dtype = promoteToFloat r.dtype := by
    simp [ofData, focalDtype, hm]
  have hv : focalValue np func r stat window ychunks xchunks (b, i, j) =
      maskedValue stat (np.cast (promoteToFloat r.dtype) (func stat (windowValues window r.ny r.nx
        (fun i j => r.mask (b, i, j)) (fun i j => convert np r.dtype (promoteToFloat r.dtype) (r.data (b, i, j))) i j))) := by
    unfold focalValue
    rw [if_pos hm]
    simp only [maskedValue]
    have := slowStat_spec np (promoteToFloat r.dtype) window hf r.ny r.nx (fun i j => r.mask (b, i, j))
      (fun i j => convert np r.dtype (promoteToFloat r.dtype) (r.data (b, i, j))) hy hx hi hj
    unfold band
    rw [this]
    rfl
  rw [hdt]
  simp only
  rw [← hv]
  have hnan : ∀ v : Num, v.isnan = true ↔ v = .nan := by intro v; cases v <;> simp [Num.isnan]
  simp only [ofData, if_true]
  refine ⟨?_, ?_, ?_⟩
  · cases ignoreNull
    · simp [hnan]
    · simp
  · intro h
    rw [if_pos h]
    rfl
  · intro h
    rw [if_neg (by rw [h]; exact Bool.false_ne_true)]

/-- **C29** for rasters without a null value and the statistics other than minimum, maximum and sum; the mode of
integers and the unique count are converted to an integer dtype. -/
theorem C29_unmasked {np : NumPy} {func : Stat → List Num → Num} {r o : Raster} {stat : Stat} {window : Kernel Bool}
    {ignoreNull : Bool} {ychunks xchunks : List Nat} (hm : r.masked = false) (hf : IgnoresNan (func stat))
    (hs : stat ≠ .min ∧ stat ≠ .max ∧ stat ≠ .sum)
    (hy : ychunks.sum = r.ny) (hx : xchunks.sum = r.nx)
    (h : focal np func r stat window ignoreNull ychunks xchunks = .ok o) :
    o.nb = r.nb ∧ o.ny = r.ny ∧ o.nx = r.nx ∧ o.nv = none ∧ (∀ c, o.mask c = false) ∧
    ∀ c, r.Has c →
      let v := np.cast (promoteToFloat r.dtype) (func stat (windowValues window r.ny r.nx (fun _ _ => false)
        (fun i j => inDtype np r.dtype (promoteToFloat r.dtype) (r.data (c.1, i, j))) c.2.1 c.2.2))
      o.data c = if (stat = .mode ∧ r.dtype.isInt = true) ∨ stat = .unique then np.cast o.dtype v else v := by
  rw [← convert_eq]
  unfold focal at h
  split at h
  · cases h
  simp only [hm, Bool.false_eq_true, if_false, Except.ok.injEq] at h
  subst h
  refine ⟨rfl, rfl, rfl, rfl, fun _ => rfl, ?_⟩
  rintro ⟨b, i, j⟩ ⟨_, hi, hj⟩
  have hv := slowStat_spec np (promoteToFloat r.dtype) window hf r.ny r.nx (fun _ _ => false)
    (fun i j => convert np r.dtype (promoteToFloat r.dtype) (r.data (b, i, j))) hy hx hi hj
  simp only [Bool.false_eq_true, if_false] at hv
  simp only [ofData]
  unfold focalValue
  simp only [hm, Bool.false_eq_true, if_false]
  unfold band at *
  rw [hv]
  simp only [Option.getD_some]
  generalize np.cast (promoteToFloat r.dtype) (func stat (windowValues window r.ny r.nx (fun _ _ => false)
    (fun i j => convert np r.dtype (promoteToFloat r.dtype) (r.data (b, i, j))) i j)) = v
  cases stat <;> simp_all [fastStat, focalDtype]

/-- **C29, dtypes without a null value**: minimum, maximum and sum keep the dtype, the mode that of integers; counts of different values have the first unsigned
dtype that holds the number of cells of the window; all others are floating point. -/
theorem C29_unmasked_dtypes {np : NumPy} {func : Stat → List Num → Num} {r o : Raster} {stat : Stat} {window : Kernel Bool}
    {ignoreNull : Bool} {ychunks xchunks : List Nat} (hm : r.masked = false)
    (h : focal np func r stat window ignoreNull ychunks xchunks = .ok o) :
    (stat ∈ [Stat.min, .max, .sum] → o.dtype = r.dtype) ∧
    (stat = .mode → o.dtype = if r.dtype.isInt then r.dtype else promoteToFloat r.dtype) ∧
    (stat = .unique → window.rows * window.cols < 2 ^ 64 → o.dtype =
      if window.rows * window.cols < 2 ^ 8 then u8 else if window.rows * window.cols < 2 ^ 16 then u16
      else if window.rows * window.cols < 2 ^ 32 then u32 else u64) ∧
    (stat ∉ [Stat.min, .max, .sum, .mode, .unique] → o.dtype = promoteToFloat r.dtype) := by
  unfold focal at h
  split at h
  · cases h
  simp only [hm, Bool.false_eq_true, if_false, Except.ok.injEq] at h
  subst h
  show (_ → focalDtype r stat window = _) ∧ (_ → focalDtype r stat window = _) ∧ (_ → _ → focalDtype r stat window = _) ∧
    (_ → focalDtype r stat window = _)
  unfold focalDtype
  rw [if_neg (by rw [hm]; simp)]
  refine ⟨?_, ?_, ?_, ?_⟩
  · intro hs
    simp only [List.mem_cons, List.not_mem_nil, or_false] at hs
    rcases hs with rfl | rfl | rfl <;> rfl
  · rintro rfl
    rfl
  · rintro rfl hlt
    simp only
    generalize window.rows * window.cols = n at *
    simp only [uniqueDtype, List.find?, DType.limits]
    by_cases h1 : n < 2 ^ 8
    · rw [if_pos h1, show decide ((n : Int) ≤ 2 ^ 8 - 1) = true from decide_eq_true (by omega)]
      rfl
    · rw [if_neg h1, show decide ((n : Int) ≤ 2 ^ 8 - 1) = false from decide_eq_false (by omega)]
      by_cases h2 : n < 2 ^ 16
      · rw [if_pos h2, show decide ((n : Int) ≤ 2 ^ 16 - 1) = true from decide_eq_true (by omega)]
        rfl
      · rw [if_neg h2, show decide ((n : Int) ≤ 2 ^ 16 - 1) = false from decide_eq_false (by omega)]
        by_cases h3 : n < 2 ^ 32
        · rw [if_pos h3, show decide ((n : Int) ≤ 2 ^ 32 - 1) = true from decide_eq_true (by omega)]
          rfl
        · rw [if_neg h3, show decide ((n : Int) ≤ 2 ^ 32 - 1) = false from decide_eq_false (by omega),
            show decide ((n : Int) ≤ 2 ^ 64 - 1) = true from decide_eq_true (by omega)]
          rfl
  · intro hs
    cases stat <;> simp_all

/-- **C29**: a window whose margin is larger than the raster is rejected, unless scipy does the work; everything else
has a result. -/
theorem C29_rejected (np : NumPy) (func : Stat → List Num → Num) (r : Raster) (stat : Stat) (window : Kernel Bool)
    (ignoreNull : Bool) (ychunks xchunks : List Nat) :
    (((r.masked = true ∨ stat ∉ [Stat.min, Stat.max, Stat.sum]) ∧ (r.ny < window.rows / 2 ∨ r.nx < window.cols / 2)) →
      focal np func r stat window ignoreNull ychunks xchunks = .error .value) ∧
    (¬ ((r.masked = true ∨ stat ∉ [Stat.min, Stat.max, Stat.sum]) ∧ (r.ny < window.rows / 2 ∨ r.nx < window.cols / 2)) →
      ∃ o, focal np func r stat window ignoreNull ychunks xchunks = .ok o) := by
  have ho : ∀ n : Nat, overlap n = ((n / 2 : Nat) : Int) := fun n => by unfold overlap before after; omega
  have e : ((r.masked = true ∨ stat ∉ [Stat.min, Stat.max, Stat.sum]) ∧
      (r.ny < window.rows / 2 ∨ r.nx < window.cols / 2)) ↔
      ((r.masked = true ∨ ¬ (stat = .min ∨ stat = .max ∨ stat = .sum)) ∧
      (overlap window.rows > r.ny ∨ overlap window.cols > r.nx)) := by
    rw [ho, ho, gt_iff_lt, gt_iff_lt, Int.ofNat_lt, Int.ofNat_lt]
    simp only [List.mem_cons, List.not_mem_nil, or_false]
  rw [e]
  unfold focal
  constructor
  · intro h
    rw [if_pos h]
  · intro h
    rw [if_neg h]
    cases r.masked <;> exact ⟨_, rfl⟩

example : ∃ r : Raster, r.masked = true ∧ r.ny < (⟨5, 5, fun _ _ => true⟩ : Kernel Bool).rows / 2 :=
  ⟨⟨f64, 1, 1, 9, fun _ => .fin 0, fun _ => false, some ⟨f64, .nan⟩⟩, rfl, by decide⟩

/-- The dtype chosen for unique counts holds every count that can occur. -/
theorem C29_unique_dtype {size : Nat} (h : size < 2 ^ 64) : ∃ dt, uniqueDtype size = some dt ∧
    ∀ l : List Num, l.length ≤ size → dt.Holds (Stats.nanUniqueCount l) := by
  have hle : ∀ l : List Num, Stats.nanUniqueCount l ≤ l.length := by
    intro l
    rw [Stats.C38_unique]
    exact le_trans (List.toFinset_card_le _) (List.length_filter_le _ _)
  unfold uniqueDtype
  by_cases h1 : (size : Int) ≤ 2 ^ 8 - 1
  · refine ⟨u8, by simp only [List.find?, DType.limits, h1, decide_true], fun l hl => ⟨0, 2 ^ 8 - 1, rfl, by omega, ?_⟩⟩
    have := hle l; omega
  · by_cases h2 : (size : Int) ≤ 2 ^ 16 - 1
    · refine ⟨u16, ?_, fun l hl => ⟨0, 2 ^ 16 - 1, rfl, by omega, ?_⟩⟩
      · simp only [List.find?, DType.limits, h1, h2, decide_false, decide_true]
      · have := hle l; omega
    · by_cases h3 : (size : Int) ≤ 2 ^ 32 - 1
      · refine ⟨u32, ?_, fun l hl => ⟨0, 2 ^ 32 - 1, rfl, by omega, ?_⟩⟩
        · simp only [List.find?, DType.limits, h1, h2, h3, decide_false, decide_true]
        · have := hle l; omega
      · refine ⟨u64, ?_, fun l hl => ⟨0, 2 ^ 64 - 1, rfl, by omega, ?_⟩⟩
        · have h4 : (size : Int) ≤ 2 ^ 64 - 1 := by omega
          simp only [List.find?, DType.limits, h1, h2, h3, h4, decide_false, decide_true]
        · have := hle l; omega

/-! ### Minimum and maximum of rasters without a null value -/

theorem mem_windowValues {window : Kernel Bool} {ny nx : Nat} {null : Nat → Nat → Bool} {data : Nat → Nat → Num}
    {r c : Nat} {v : Num} : v ∈ windowValues window ny nx null data r c ↔
      ∃ a b i j, a < window.rows ∧ b < window.cols ∧ window.at' a b = true ∧ i < ny ∧ j < nx ∧
        i + (window.rows - 1) / 2 = r + a ∧ j + (window.cols - 1) / 2 = c + b ∧ null i j = false ∧ data i j = v := by
  unfold windowValues
  rw [List.mem_flatMap]
  constructor
  · rintro ⟨a, ha, h⟩
    rw [List.mem_filterMap] at h
    obtain ⟨b, hb, h⟩ := h
    simp only at h
    split at h
    · rename_i hc
      simp only [Option.some.injEq] at h
      exact ⟨a, b, _, _, List.mem_range.mp ha, List.mem_range.mp hb, hc.1, hc.2.2.1, hc.2.2.2.2.1, by omega, by omega,
        hc.2.2.2.2.2, h⟩
    · cases h
  · rintro ⟨a, b, i, j, ha, hb, hk, hi, hj, e1, e2, hn, rfl⟩
    refine ⟨a, List.mem_range.mpr ha, ?_⟩
    rw [List.mem_filterMap]
    refine ⟨b, List.mem_range.mpr hb, ?_⟩
    have x1 : r + a - (window.rows - 1) / 2 = i := by omega
    have x2 : c + b - (window.cols - 1) / 2 = j := by omega
    simp only [x1, x2]
    rw [if_pos ⟨hk, by omega, hi, by omega, hj, hn⟩]

theorem nearest_index {n p : Nat} {i : Int} (hp : p < n) : ∃ k : Nat, Mode.nearest.index n i = some (k : Int) ∧ k < n ∧
    ((p ≤ k ∧ (k : Int) ≤ i) ∨ (i ≤ k ∧ k ≤ p)) := by
  unfold Mode.index
  by_cases h : 0 ≤ i ∧ i < n
  · rw [if_pos h]
    refine ⟨i.toNat, by rw [Int.toNat_of_nonneg h.1], by omega, by omega⟩
  · rw [if_neg h]
    simp only
    by_cases h0 : i < 0
    · rw [if_pos h0]
      exact ⟨0, rfl, by omega, by omega⟩
    · rw [if_neg h0]
      exact ⟨n - 1, by congr 1; omega, by omega, by omega⟩

/-- For a solid window the filter with repeated edges sees exactly the values of the window. -/
theorem nearest_values {window : Kernel Bool} (hs : Solid window) {ny nx : Nat} {data : Nat → Nat → Num} {r c : Nat}
    (hr : r < ny) (hc : c < nx) (v : Num) :
    v ∈ ((scipyCells window (fun _ => 0) r c).filter (·.1)).map (fun e => extend .nearest (.fin 0) ny nx data e.2.1 e.2.2) ↔
      v ∈ windowValues window ny nx (fun _ _ => false) data r c := by
  obtain ⟨o1, o2, hsol⟩ := hs
  rw [mem_windowValues]
  have d1 : (window.rows - 1) / 2 = window.rows / 2 := by omega
  have d2 : (window.cols - 1) / 2 = window.cols / 2 := by omega
  rw [d1, d2, List.mem_map]
  constructor
  · rintro ⟨e, he, rfl⟩
    rw [List.mem_filter] at he
    obtain ⟨hm, hk⟩ := he
    unfold scipyCells at hm
    obtain ⟨a, ha, hm⟩ := List.mem_flatMap.mp hm
    obtain ⟨b, hb, rfl⟩ := List.mem_map.mp hm
    have ha := List.mem_range.mp ha
    have hb := List.mem_range.mp hb
    simp only at hk
    simp only [add_zero]
    obtain ⟨i, ei, hi, hi'⟩ := nearest_index (i := (r : Int) + a - (window.rows : Int) / 2) hr
    obtain ⟨j, ej, hj, hj'⟩ := nearest_index (i := (c : Int) + b - (window.cols : Int) / 2) hc
    unfold extend
    rw [ei, ej]
    simp only [Int.toNat_natCast]
    have hk1 := (hsol a b ha hb hk).1 (i + window.rows / 2 - r) (by omega)
    have hk2 := (hsol (i + window.rows / 2 - r) b (by omega) hb hk1).2 (j + window.cols / 2 - c) (by omega)
    exact ⟨_, _, i, j, by omega, by omega, hk2, hi, hj, by omega, by omega, trivial, rfl⟩
  · rintro ⟨a, b, i, j, ha, hb, hk, hi, hj, e1, e2, _, rfl⟩
    refine ⟨(window.at' a b, (r : Int) + a - (window.rows / 2 + 0), (c : Int) + b - (window.cols / 2 + 0)), ?_, ?_⟩
    · rw [List.mem_filter]
      refine ⟨?_, hk⟩
      unfold scipyCells
      exact List.mem_flatMap.mpr ⟨a, List.mem_range.mpr ha, List.mem_map.mpr ⟨b, List.mem_range.mpr hb, rfl⟩⟩
    · simp only
      have x1 : (r : Int) + a - ((window.rows : Int) / 2 + 0) = (i : Int) := by omega
      have x2 : (c : Int) + b - ((window.cols : Int) / 2 + 0) = (j : Int) := by omega
      rw [x1, x2, extend_inside (by omega) (by omega) (by omega) (by omega)]
      rfl

theorem foldl_best {better : Num → Num → Bool} {good : Num → Num → Prop}
    (hgood : ∀ a b, a ≠ .nan → b ≠ .nan → (better a b = true ↔ good a b ∧ a ≠ b))
    (htot : ∀ a b, a ≠ .nan → b ≠ .nan → good a b ∨ good b a)
    (htr : ∀ a b c, good a b → good b c → good a c) :
    ∀ (vs : List Num) (v : Num), v ≠ .nan → (∀ w ∈ vs, w ≠ .nan) →
      IsBest good (v :: vs) (vs.foldl (fun m v => if better v m then v else m) v)
  | [], v, hv, _ => by
    refine ⟨by simp, fun w hw => ?_⟩
    simp only [List.mem_singleton] at hw
    subst hw
    rcases htot w w hv hv with h | h <;> exact h
  | w :: vs, v, hv, hvs => by
    have hw := hvs w (by simp)
    rw [List.foldl_cons]
    by_cases hb : better w v = true
    · rw [if_pos hb]
      obtain ⟨h1, h2⟩ := foldl_best hgood htot htr vs w hw (fun u hu => hvs u (List.mem_cons_of_mem _ hu))
      refine ⟨List.mem_cons_of_mem _ h1, fun u hu => ?_⟩
      rcases List.mem_cons.mp hu with rfl | hu
      · exact htr _ _ _ (h2 w (by simp)) ((hgood w u hw hv).mp hb).1
      · exact h2 u hu
    · rw [if_neg hb]
      obtain ⟨h1, h2⟩ := foldl_best hgood htot htr vs v hv (fun u hu => hvs u (List.mem_cons_of_mem _ hu))
      refine ⟨?_, fun u hu => ?_⟩
      · rcases List.mem_cons.mp h1 with h | h
        · rw [h]; simp
        · exact List.mem_cons_of_mem _ (List.mem_cons_of_mem _ h)
      · rcases List.mem_cons.mp hu with rfl | hu
        · exact h2 u (by simp)
        · rcases List.mem_cons.mp hu with rfl | hu
          · have hvu : good v u := by
              rcases htot v u hv hw with h | h
              · exact h
              · by_cases e : u = v
                · rw [e]; rw [e] at h; exact h
                · exact absurd ((hgood u v hw hv).mpr ⟨h, e⟩) hb
            exact htr _ _ _ (h2 v (by simp)) hvu
          · exact h2 u (List.mem_cons_of_mem _ hu)

theorem scipyExtreme_best {better : Num → Num → Bool} {good : Num → Num → Prop}
    (hgood : ∀ a b, a ≠ .nan → b ≠ .nan → (better a b = true ↔ good a b ∧ a ≠ b))
    (htot : ∀ a b, a ≠ .nan → b ≠ .nan → good a b ∨ good b a)
    (htr : ∀ a b c, good a b → good b c → good a c)
    {window : Kernel Bool} (hs : Solid window) {ny nx : Nat} {data : Nat → Nat → Num} {r c : Nat} (hr : r < ny)
    (hc : c < nx) (hd : ∀ i j, i < ny → j < nx → data i j ≠ .nan)
    (hne : windowValues window ny nx (fun _ _ => false) data r c ≠ []) :
    IsBest good (windowValues window ny nx (fun _ _ => false) data r c)
      (scipyExtreme better window (extend .nearest (.fin 0) ny nx data) r c) := by
  have hv := nearest_values hs (data := data) hr hc
  have hnan : ∀ v ∈ windowValues window ny nx (fun _ _ => false) data r c, v ≠ .nan := by
    intro v hv
    obtain ⟨_, _, i, j, _, _, _, hi, hj, _, _, _, rfl⟩ := mem_windowValues.mp hv
    exact hd i j hi hj
  unfold scipyExtreme
  generalize ((scipyCells window (fun _ => 0) r c).filter (·.1)).map
    (fun e => extend .nearest (.fin 0) ny nx data e.2.1 e.2.2) = l at hv
  cases l with
  | nil =>
    obtain ⟨v, h⟩ := List.exists_mem_of_ne_nil _ hne
    exact absurd ((hv v).mpr h) (by simp)
  | cons v vs =>
    have := foldl_best hgood htot htr vs v (hnan v ((hv v).mp (by simp)))
      (fun w hw => hnan w ((hv w).mp (List.mem_cons_of_mem _ hw)))
    exact ⟨(hv _).mp this.1, fun w hw => this.2 w ((hv w).mpr hw)⟩

/-- **C29** for minimum and maximum of rasters without a null value, on solid windows such as circles and rectangles
with odd sides. -/
theorem C29_min_max_partial {np : NumPy} {func : Stat → List Num → Num} {r o : Raster} {stat : Stat}
    {window : Kernel Bool} {ignoreNull : Bool} {ychunks xchunks : List Nat} (hm : r.masked = false)
    (hs : Solid window) (hd : ∀ c, r.Has c → r.data c ≠ .nan)
    (h : focal np func r stat window ignoreNull ychunks xchunks = .ok o) :
    ∀ c, r.Has c → windowValues window r.ny r.nx (fun _ _ => false) (fun i j => r.data (c.1, i, j)) c.2.1 c.2.2 ≠ [] →
      (stat = .min → ∃ m, o.data c = np.cast r.dtype m ∧ IsBest Stats.Spec.Le
        (windowValues window r.ny r.nx (fun _ _ => false) (fun i j => r.data (c.1, i, j)) c.2.1 c.2.2) m) ∧
      (stat = .max → ∃ m, o.data c = np.cast r.dtype m ∧ IsBest (fun a b => Stats.Spec.Le b a)
        (windowValues window r.ny r.nx (fun _ _ => false) (fun i j => r.data (c.1, i, j)) c.2.1 c.2.2) m) := by
  unfold focal at h
  split at h
  · cases h
  simp only [hm, Bool.false_eq_true, if_false, Except.ok.injEq] at h
  subst h
  rintro ⟨b, i, j⟩ ⟨hb, hi, hj⟩ hne
  have hd' : ∀ i j, i < r.ny → j < r.nx → r.data (b, i, j) ≠ .nan := fun i j hi hj => hd (b, i, j) ⟨hb, hi, hj⟩
  refine ⟨?_, ?_⟩
  · rintro rfl
    refine ⟨_, ?_, scipyExtreme_best (better := Stats.lt) (fun a b => Stats.lt_iff) (fun a b => Stats.le_total')
      (fun a b c => Stats.le_trans') hs hi hj hd' hne⟩
    simp [ofData, focalValue, hm, fastStat]
    rfl
  · rintro rfl
    refine ⟨_, ?_, scipyExtreme_best (better := fun a b => Stats.lt b a) (fun a b ha hb => ?_)
      (fun a b ha hb => Stats.le_total' hb ha) (fun a b c h1 h2 => Stats.le_trans' h2 h1) hs hi hj hd' hne⟩
    · simp [ofData, focalValue, hm, fastStat]
      rfl
    · rw [Stats.lt_iff hb ha]
      exact and_congr_right fun _ => ne_comm

/-! ### Sum of rasters without a null value -/

/-- The finite number, 0 for others. -/
def amount : Num → Rat
  | .fin q => q
  | _ => 0

theorem weightedFold (l : List (Num × Num)) (hl : ∀ e ∈ l, ∃ w q, e.1 = .fin w ∧ e.2 = .fin q) (a : Rat) :
    l.foldl (fun v e => add v (mul e.1 e.2)) (.fin a) = .fin (a + (l.map fun e => amount e.1 * amount e.2).sum) := by
  induction l generalizing a with
  | nil => simp
  | cons e l ih =>
    obtain ⟨w, q, h1, h2⟩ := hl e (by simp)
    rw [List.foldl_cons, h1, h2, show add (.fin a) (mul (.fin w) (.fin q)) = .fin (a + w * q) from rfl,
      ih (fun e he => hl e (List.mem_cons_of_mem _ he)), List.map_cons, List.sum_cons, h1, h2, add_assoc]
    rfl

theorem skippingFold (l : List (Num × Num)) (hl : ∀ e ∈ l, (∃ w, e.1 = .fin w) ∧ ((∃ q, e.2 = .fin q) ∨ e.2 = .nan))
    (a : Rat) : l.foldl (fun v e => if !e.2.isnan then add v (mul e.1 e.2) else v) (.fin a) =
      .fin (a + (l.map fun e => amount e.1 * amount e.2).sum) := by
  induction l generalizing a with
  | nil => simp
  | cons e l ih =>
    have ih := fun a => ih (fun e he => hl e (List.mem_cons_of_mem _ he)) a
    obtain ⟨⟨w, h1⟩, h2⟩ := hl e (by simp)
    rw [List.foldl_cons, List.map_cons, List.sum_cons]
    rcases h2 with ⟨q, h2⟩ | h2
    · rw [h1, h2, show (!Num.isnan (.fin q)) = true from rfl, if_pos rfl, show add (.fin a) (mul (.fin w) (.fin q)) = .fin (a + w * q) from rfl, ih, add_assoc]
      rfl
    · rw [h1, h2, if_neg (by decide), ih]
      simp [amount]

theorem sum_flatMap {α : Type} (l : List α) (f : α → List Rat) :
    (l.flatMap f).sum = (l.map fun a => (f a).sum).sum := by
  induction l with
  | nil => rfl
  | cons a l ih => rw [List.flatMap_cons, List.sum_append, ih, List.map_cons, List.sum_cons]

theorem sum_loops (n m : Nat) (f : Nat → Nat → Rat) :
    ((List.range n).flatMap fun a => (List.range m).map (f a)).sum = ∑ a ∈ Finset.range n, ∑ b ∈ Finset.range m, f a b := by
  rw [sum_flatMap]
  rfl

theorem filterMap_sum {α : Type} (l : List α) (g : α → Option Num) :
    ((l.filterMap g).map amount).sum = (l.map fun a => match g a with
      | some v => amount v
      | none => 0).sum := by
  induction l with
  | nil => rfl
  | cons a l ih =>
    cases h : g a with
    | none => rw [List.filterMap_cons_none h, List.map_cons, List.sum_cons, ih, h, zero_add]
    | some v => rw [List.filterMap_cons_some h, List.map_cons, List.map_cons, List.sum_cons, List.sum_cons, ih, h]

/-- **C29** for the sum of rasters of finite values without a null value, on windows with odd sides. -/
theorem C29_sum_partial {np : NumPy} {func : Stat → List Num → Num} {r o : Raster} {window : Kernel Bool}
    {ignoreNull : Bool} {ychunks xchunks : List Nat} (hm : r.masked = false)
    (ho : window.rows % 2 = 1 ∧ window.cols % 2 = 1) {q : Cell → Rat} (hd : ∀ c, r.Has c → r.data c = .fin (q c))
    (h : focal np func r .sum window ignoreNull ychunks xchunks = .ok o) :
    ∀ c, r.Has c → ∃ xs : List Rat, o.data c = np.cast r.dtype (.fin xs.sum) ∧
      windowValues window r.ny r.nx (fun _ _ => false) (fun i j => r.data (c.1, i, j)) c.2.1 c.2.2 = xs.map .fin := by
  unfold focal at h
  split at h
  · cases h
  simp only [hm, Bool.false_eq_true, if_false, Except.ok.injEq] at h
  subst h
  rintro ⟨b, i, j⟩ ⟨hb, hi, hj⟩
  have hd' : ∀ i j, i < r.ny → j < r.nx → r.data (b, i, j) = .fin (q (b, i, j)) :=
    fun i j hi hj => hd (b, i, j) ⟨hb, hi, hj⟩
  simp only at hi hj
  have hfin : ∀ y x : Int, ∃ q', extend .constant (.fin 0) r.ny r.nx (band r.data b) y x = .fin q' := by
    intro y x
    by_cases hin : 0 ≤ y ∧ y < r.ny ∧ 0 ≤ x ∧ x < r.nx
    · rw [extend_inside hin.1 hin.2.1 hin.2.2.1 hin.2.2.2]
      exact ⟨_, hd' _ _ (by omega) (by omega)⟩
    · rw [extend_constant_outside hin]
      exact ⟨0, rfl⟩
  refine ⟨(windowValues window r.ny r.nx (fun _ _ => false) (fun i j => r.data (b, i, j)) i j).map amount, ?_, ?_⟩
  · simp only [ofData]
    unfold focalValue
    simp only [hm, Bool.false_eq_true, if_false, fastStat]
    congr 1
    unfold scipyCorrelate
    -- as a list of weights and values
    rw [show (scipyCells (boolWeights window) (fun _ => 0) (i : Int) j).foldl (fun v e => add v (mul e.1
        (extend .constant (.fin 0) r.ny r.nx (band r.data b) e.2.1 e.2.2))) (.fin 0) =
        ((scipyCells (boolWeights window) (fun _ => 0) (i : Int) j).map fun e => (e.1,
          extend .constant (.fin 0) r.ny r.nx (band r.data b) e.2.1 e.2.2)).foldl (fun v e => add v (mul e.1 e.2)) (.fin 0)
      from by rw [List.foldl_map]]
    rw [weightedFold]
    · rw [zero_add, List.map_map]
      unfold scipyCells windowValues
      rw [List.map_flatMap, List.map_flatMap, sum_flatMap, sum_flatMap]
      congr 2
      apply List.map_congr_left
      intro a ha
      have ha := List.mem_range.mp ha
      rw [filterMap_sum, List.map_map]
      congr 1
      apply List.map_congr_left
      intro k hk
      have hk := List.mem_range.mp hk
      have ha' : a < window.rows := ha
      have hk' : k < window.cols := hk
      simp only [Function.comp, boolWeights, add_zero]
      by_cases hw : window.at' a k = true
      · by_cases hin : (window.rows - 1) / 2 ≤ i + a ∧ i + a - (window.rows - 1) / 2 < r.ny ∧
            (window.cols - 1) / 2 ≤ j + k ∧ j + k - (window.cols - 1) / 2 < r.nx
        · have e1 : (i : Int) + a - (window.rows : Int) / 2 = ((i + a - (window.rows - 1) / 2 : Nat) : Int) := by omega
          have e2 : (j : Int) + k - (window.cols : Int) / 2 = ((j + k - (window.cols - 1) / 2 : Nat) : Int) := by omega
          rw [e1, e2, extend_inside (by omega) (by omega) (by omega) (by omega), if_pos hw,
            if_pos ⟨hw, hin.1, hin.2.1, hin.2.2.1, hin.2.2.2, trivial⟩]
          simp [hw, amount, band]
        · rw [extend_constant_outside (by omega), if_pos hw, if_neg (fun h => hin ⟨h.2.1, h.2.2.1, h.2.2.2.1, h.2.2.2.2.1⟩)]
          simp [amount]
      · rw [if_neg hw, if_neg (fun h => hw h.1)]
        simp [amount]
    · intro e he
      obtain ⟨e', he', rfl⟩ := List.mem_map.mp he
      unfold scipyCells at he'
      obtain ⟨a, _, hm⟩ := List.mem_flatMap.mp he'
      obtain ⟨k, _, rfl⟩ := List.mem_map.mp hm
      obtain ⟨q', hq⟩ := hfin ((i : Int) + a - ((boolWeights window).rows / 2 + 0))
        ((j : Int) + k - ((boolWeights window).cols / 2 + 0))
      refine ⟨if window.at' a k then 1 else 0, q', ?_, hq⟩
      simp only [boolWeights]
      split <;> rfl
  · rw [List.map_map]
    conv_lhs => rw [← List.map_id (windowValues _ _ _ _ _ _ _)]
    apply List.map_congr_left
    intro v hv
    obtain ⟨_, _, y, x, _, _, _, hy, hx, _, _, _, rfl⟩ := mem_windowValues.mp hv
    simp only [id_eq, Function.comp, hd' y x hy hx, amount]

/-- **C29 is false for windows of even size**: without a null value the sum of a cell and its right neighbour is
the sum of the cell and its left neighbour.  The same raster with a null value gives the documented result. -/
theorem C29_even_window : ∃ (r : Raster) (func : Stat → List Num → Num) (w : Kernel Bool) (o o' : Raster),
    getFocalWindow (.one (.int 1)) (some (.int 2)) = .ok w ∧ (∀ c, r.mask c = false) ∧ r.nv = none ∧
    focal (idNumPy false) func r .sum w false [1] [2] = .ok o ∧
    focal (idNumPy false) func { r with nv := some ⟨f64, .fin (-1)⟩ } .sum w false [1] [2] = .ok o' ∧
    o.data (0, 0, 0) = .fin 1 ∧ o'.data (0, 0, 0) = .fin 6 :=
  ⟨⟨f64, 1, 1, 2, fun c => if c.2.2 = 0 then .fin 1 else .fin 5, fun _ => false, none⟩,
    fun _ l => .fin ((l.map amount).sum), ⟨1, 2, fun _ _ => true⟩, _, _, rfl, fun _ => rfl, rfl, rfl, rfl,
    by decide +kernel, by decide +kernel⟩

/-- **C29 is false for annulus windows at the edge of a raster**: without a null value the minimum over the
neighbours of the left cell is its own value, because the edge is repeated; with a null value it is the neighbour's. -/
theorem C29_annulus_edge : ∃ (r : Raster) (func : Stat → List Num → Num) (w : Kernel Bool) (o o' : Raster),
    getFocalWindow (.seq [.int 1, .int 2]) none = .ok w ∧ (∀ c, r.mask c = false) ∧ r.nv = none ∧
    focal (idNumPy false) func r .min w false [1] [2] = .ok o ∧
    focal (idNumPy false) func { r with nv := some ⟨f64, .fin (-1)⟩ } .min w false [1] [2] = .ok o' ∧
    o.data (0, 0, 0) = .fin 1 ∧ o'.data (0, 0, 0) = .fin 5 :=
  ⟨⟨f64, 1, 1, 2, fun c => if c.2.2 = 0 then .fin 1 else .fin 5, fun _ => false, none⟩,
    fun _ l => match l.filter (fun v => !v.isnan) with
      | [] => .nan
      | v :: vs => vs.foldl (fun m v => if Stats.lt v m then v else m) v,
    annulus (circle 1) (circle 2), _, _, rfl, fun _ => rfl, rfl, rfl, rfl, by decide +kernel, by decide +kernel⟩

/-! ### C30 -/

/-- **C30**, circle: a square with `2 * r - 1` rows that holds the offsets within distance `r - 1`. -/
theorem C30_circle {n : Int} (hn : 0 < n) : ∃ w, getFocalWindow (.one (.int n)) none = .ok w ∧
    (w.rows : Int) = 2 * n - 1 ∧ (w.cols : Int) = 2 * n - 1 ∧
    ∀ dx dy : Int, |dx| ≤ n - 1 → |dy| ≤ n - 1 →
      (w.at' (n - 1 + dx).toNat (n - 1 + dy).toNat = true ↔ dx ^ 2 + dy ^ 2 ≤ (n - 1) ^ 2) := by
  refine ⟨circle n, ?_, ?_, ?_, ?_⟩
  · simp [getFocalWindow, sizeList, checkSizes, checkSize, not_le.mpr hn]
  · simp only [circle]; omega
  · simp only [circle]; omega
  · intro dx dy hx hy
    have h1 := abs_le.mp hx
    have h2 := abs_le.mp hy
    have e : ((n - 1) * 2 + 1 - 1) / 2 = n - 1 := by omega
    simp only [circle, e, decide_eq_true_eq]
    rw [Int.toNat_of_nonneg (by omega), Int.toNat_of_nonneg (by omega)]
    have x1 : n - 1 + dx - (n - 1) = dx := by ring
    have x2 : n - 1 + dy - (n - 1) = dy := by ring
    rw [x1, x2]

/-- **C30**, annulus: the circle of the second radius without the circle of the first. -/
theorem C30_annulus {n m : Int} (hn : 0 < n) (hm : n < m) : ∃ w, getFocalWindow (.seq [.int n, .int m]) none = .ok w ∧
    (w.rows : Int) = 2 * m - 1 ∧ (w.cols : Int) = 2 * m - 1 ∧
    ∀ dx dy : Int, |dx| ≤ m - 1 → |dy| ≤ m - 1 →
      (w.at' (m - 1 + dx).toNat (m - 1 + dy).toNat = true ↔
        dx ^ 2 + dy ^ 2 ≤ (m - 1) ^ 2 ∧ (n - 1) ^ 2 < dx ^ 2 + dy ^ 2) := by
  refine ⟨annulus (circle n) (circle m), ?_, ?_, ?_, ?_⟩
  · have h : ¬ ((m : Rat) ≤ (n : Rat)) := by
      rw [not_le]; exact_mod_cast hm
    simp [getFocalWindow, sizeList, checkSizes, checkSize, Size.val, h, not_le.mpr hn, not_le.mpr (lt_trans hn hm)]
  · simp only [annulus, circle]; omega
  · simp only [annulus, circle]; omega
  · intro dx dy hx hy
    have h1 := abs_le.mp hx
    have h2 := abs_le.mp hy
    have e : ((m - 1) * 2 + 1 - 1) / 2 = m - 1 := by omega
    have e' : ((n - 1) * 2 + 1 - 1) / 2 = n - 1 := by omega
    have hp : (((m - 1) * 2 + 1).toNat - ((n - 1) * 2 + 1).toNat) / 2 = (m - n).toNat := by omega
    simp only [annulus, circle, e, e', hp]
    have y1 : ((m - 1 + dx).toNat : Int) - (m - 1) = dx := by omega
    have y2 : ((m - 1 + dy).toNat : Int) - (m - 1) = dy := by omega
    by_cases hin : (m - n).toNat ≤ (m - 1 + dx).toNat ∧ (m - 1 + dx).toNat < (m - n).toNat + ((n - 1) * 2 + 1).toNat ∧
        (m - n).toNat ≤ (m - 1 + dy).toNat ∧ (m - 1 + dy).toNat < (m - n).toNat + ((n - 1) * 2 + 1).toNat
    · have x1 : (((m - 1 + dx).toNat - (m - n).toNat : Nat) : Int) - (n - 1) = dx := by omega
      have x2 : (((m - 1 + dy).toNat - (m - n).toNat : Nat) : Int) - (n - 1) = dy := by omega
      simp only [x1, x2, y1, y2, hin.1, hin.2.1, hin.2.2.1, hin.2.2.2, true_and, decide_eq_true_eq]
      by_cases hc : dx ^ 2 + dy ^ 2 ≤ (n - 1) ^ 2
      · simp [hc, not_lt.mpr hc]
      · simp [hc, not_le.mp hc]
    · rw [if_neg (fun h => hin ⟨h.1, h.2.1, h.2.2.1, h.2.2.2.1⟩), decide_eq_true_eq, y1, y2]
      constructor
      · intro h
        refine ⟨h, ?_⟩
        have : n ≤ |dx| ∨ n ≤ |dy| := by
          by_contra hcon
          rw [not_or, not_le, not_le] at hcon
          have g1 := abs_lt.mp hcon.1
          have g2 := abs_lt.mp hcon.2
          exact hin ⟨by omega, by omega, by omega, by omega⟩
        rcases this with h | h
        · have := sq_abs dx
          nlinarith [abs_nonneg dx, sq_nonneg dy]
        · have := sq_abs dy
          nlinarith [abs_nonneg dy, sq_nonneg dx]
      · exact fun h => h.1

/-- **C30**, rectangle: full, with `width` rows and `height` columns. -/
theorem C30_rectangle {n m : Int} (hn : 0 < n) (hm : 0 < m) : ∃ w,
    getFocalWindow (.one (.int n)) (some (.int m)) = .ok w ∧ (w.rows : Int) = n ∧ (w.cols : Int) = m ∧
    ∀ a b, w.at' a b = true := by
  refine ⟨⟨n.toNat, m.toNat, fun _ _ => true⟩, ?_, ?_, ?_, fun _ _ => rfl⟩
  · simp [getFocalWindow, sizeList, checkSizes, checkSize, not_le.mpr hn, not_le.mpr hm]
  · simp only; omega
  · simp only; omega

/-- **C30**: floats are errors of type; everything else that is wrong is an error of value. -/
theorem C30_errors (n m : Int) (q q' : ℚ) (l : List Size) (s : Size) (height : Option Size) :
    getFocalWindow (.one (.float q)) height = .error .type ∧
    (n ≤ 0 → getFocalWindow (.one (.int n)) height = .error .value) ∧
    (0 < n → getFocalWindow (.one (.int n)) (some (.float q)) = .error .type) ∧
    (0 < n → m ≤ 0 → getFocalWindow (.one (.int n)) (some (.int m)) = .error .value) ∧
    (l.length ≠ 2 → getFocalWindow (.seq l) height = .error .value) ∧
    (m ≤ n → getFocalWindow (.seq [.int n, .int m]) height = .error .value) ∧
    (n < m → n ≤ 0 → getFocalWindow (.seq [.int n, .int m]) height = .error .value) ∧
    (0 < n → n < m → getFocalWindow (.seq [.int n, .int m]) (some s) = .error .value) ∧
    (q' ≤ q → getFocalWindow (.seq [.float q, .float q']) height = .error .value) ∧
    (q < q' → getFocalWindow (.seq [.float q, .float q']) height = .error .type) ∧
    (q < m → getFocalWindow (.seq [.float q, .int m]) height = .error .type) ∧
    (0 < n → n < q → getFocalWindow (.seq [.int n, .float q]) height = .error .type) := by
  refine ⟨rfl, ?_, ?_, ?_, ?_, ?_, ?_, ?_, ?_, ?_, ?_, ?_⟩
  · intro h; simp [getFocalWindow, sizeList, checkSizes, checkSize, h]
  · intro h; simp [getFocalWindow, sizeList, checkSizes, checkSize, not_le.mpr h]
  · intro h h'; simp [getFocalWindow, sizeList, checkSizes, checkSize, not_le.mpr h, h']
  · intro h
    match l, h with
    | [], _ => rfl
    | [_], _ => rfl
    | [_, _], h => exact absurd rfl h
    | _ :: _ :: _ :: _, _ => rfl
  · intro h; simp [getFocalWindow, sizeList, Size.val, h]
  · intro h h'; simp [getFocalWindow, sizeList, checkSizes, checkSize, Size.val, h', show ¬ m ≤ n by omega]
  · intro h h'; simp [getFocalWindow, sizeList, checkSizes, checkSize, Size.val, show ¬ m ≤ n by omega, not_le.mpr h, not_le.mpr (lt_trans h h')]
  · intro h; simp [getFocalWindow, sizeList, Size.val, h]
  · intro h; simp [getFocalWindow, sizeList, checkSizes, checkSize, Size.val, not_le.mpr h]
  · intro h; simp [getFocalWindow, sizeList, checkSizes, checkSize, Size.val, not_le.mpr h]
  · intro h h'; simp [getFocalWindow, sizeList, checkSizes, checkSize, Size.val, not_le.mpr h, not_le.mpr h']

example : (0 : Int) < 2 ∧ ((2 : Int) : ℚ) < 5 / 2 ∧ [Size.int 1].length ≠ 2 := by norm_num

/-- **C30**: the arguments that are accepted; all others raise. -/
theorem C30_accepted (arg : SizeArg) (height : Option Size) :
    (∃ w, getFocalWindow arg height = .ok w) ↔
      (∃ n : Int, 0 < n ∧ arg = .one (.int n) ∧ (height = none ∨ ∃ m : Int, 0 < m ∧ height = some (.int m))) ∨
      (∃ n m : Int, 0 < n ∧ n < m ∧ arg = .seq [.int n, .int m] ∧ height = none) := by
  constructor
  · rintro ⟨w, h⟩
    unfold getFocalWindow at h
    have hsize : ∀ {s : Size} {n : Int}, checkSize s = .ok n → s = .int n ∧ 0 < n := by
      intro s n hs
      cases s with
      | float q => cases hs
      | int k =>
        simp only [checkSize] at hs
        split at hs
        · cases hs
        · simp only [Except.ok.injEq] at hs
          exact ⟨by rw [hs], by omega⟩
    rcases arg with s | l
    · left
      simp only [sizeList, checkSizes] at h
      cases hs : checkSize s with
      | error e => rw [hs] at h; cases h
      | ok n =>
        obtain ⟨rfl, hn⟩ := hsize hs
        refine ⟨n, hn, rfl, ?_⟩
        cases height with
        | none => exact Or.inl rfl
        | some m =>
          right
          rw [hs] at h
          cases hm : checkSize m with
          | error e => simp [hm] at h
          | ok k =>
            obtain ⟨rfl, hk⟩ := hsize hm
            exact ⟨k, hk, rfl⟩
    · right
      match l, h with
      | [], h => cases h
      | [_], h => cases h
      | _ :: _ :: _ :: _, h => cases h
      | [a, b], h =>
        simp only [sizeList] at h
        by_cases hab : a.val ≥ b.val
        · rw [if_pos hab] at h; cases h
        rw [if_neg hab] at h
        simp only [checkSizes] at h
        cases ha : checkSize a with
        | error e => simp [ha] at h
        | ok n =>
          cases hb : checkSize b with
          | error e => simp [ha, hb] at h
          | ok m =>
            obtain ⟨rfl, hn⟩ := hsize ha
            obtain ⟨rfl, hm⟩ := hsize hb
            refine ⟨n, m, hn, ?_, rfl, ?_⟩
            · simp only [Size.val, ge_iff_le, not_le] at hab
              exact_mod_cast hab
            · cases height with
              | none => rfl
              | some k => simp [ha, hb] at h
  · rintro (⟨n, hn, rfl, rfl | ⟨m, hm, rfl⟩⟩ | ⟨n, m, hn, hm, rfl, rfl⟩)
    · obtain ⟨w, h, _⟩ := C30_circle hn
      exact ⟨w, h⟩
    · obtain ⟨w, h, _⟩ := C30_rectangle hn hm
      exact ⟨w, h⟩
    · obtain ⟨w, h, _⟩ := C30_annulus hn hm
      exact ⟨w, h⟩

/-- **C30**: circles and annuli do not change when they are mirrored or transposed. -/
theorem C30_symmetric {arg : SizeArg} {w : Kernel Bool} (h : getFocalWindow arg none = .ok w) :
    w.rows = w.cols ∧ ∀ a b, a < w.rows → b < w.cols → w.at' a b = w.at' b a ∧
      w.at' a b = w.at' (w.rows - 1 - a) b := by
  have key : ∀ (n : Int) (P : Int → Prop), 0 < n → (w.rows : Int) = 2 * n - 1 → (w.cols : Int) = 2 * n - 1 →
      (∀ dx dy : Int, |dx| ≤ n - 1 → |dy| ≤ n - 1 →
        (w.at' (n - 1 + dx).toNat (n - 1 + dy).toNat = true ↔ P (dx ^ 2 + dy ^ 2))) →
      w.rows = w.cols ∧ ∀ a b, a < w.rows → b < w.cols → w.at' a b = w.at' b a ∧
        w.at' a b = w.at' (w.rows - 1 - a) b := by
    intro n P hn hr hc hw
    have hat : ∀ a b : Nat, a < w.rows → b < w.cols →
        (w.at' a b = true ↔ P (((a : Int) - (n - 1)) ^ 2 + ((b : Int) - (n - 1)) ^ 2)) := by
      intro a b ha hb
      have := hw ((a : Int) - (n - 1)) ((b : Int) - (n - 1)) (abs_le.mpr ⟨by omega, by omega⟩)
        (abs_le.mpr ⟨by omega, by omega⟩)
      rwa [show (n - 1 + ((a : Int) - (n - 1))).toNat = a by omega,
        show (n - 1 + ((b : Int) - (n - 1))).toNat = b by omega] at this
    refine ⟨by omega, ?_⟩
    intro a b ha hb
    refine ⟨?_, ?_⟩
    · rw [Bool.eq_iff_iff, hat a b ha hb, hat b a (by omega) (by omega), add_comm]
    · rw [Bool.eq_iff_iff, hat a b ha hb, hat _ b (by omega) hb,
        show (((w.rows - 1 - a : Nat) : Int) - (n - 1)) = -((a : Int) - (n - 1)) by omega, neg_sq]
  rcases (C30_accepted arg none).mp ⟨w, h⟩ with ⟨n, hn, rfl, _⟩ | ⟨n, m, hn, hm, rfl, _⟩
  · obtain ⟨w', h', hr, hc, hw⟩ := C30_circle hn
    obtain rfl : w' = w := by rw [h'] at h; exact Except.ok.inj h
    exact key n (fun d => d ≤ (n - 1) ^ 2) hn hr hc hw
  · obtain ⟨w', h', hr, hc, hw⟩ := C30_annulus hn hm
    obtain rfl : w' = w := by rw [h'] at h; exact Except.ok.inj h
    exact key m (fun d => d ≤ (m - 1) ^ 2 ∧ (n - 1) ^ 2 < d) (by omega) hr hc hw

/-- Circles and rectangles with odd sides are windows for which `C29_min_max_partial` holds. -/
theorem C29_solid_windows {arg : SizeArg} {height : Option Size} {w : Kernel Bool}
    (h : getFocalWindow arg height = .ok w)
    (ha : (height = none ∧ ∃ s, arg = .one s) ∨ (height ≠ none ∧ w.rows % 2 = 1 ∧ w.cols % 2 = 1)) : Solid w := by
  rcases (C30_accepted arg height).mp ⟨w, h⟩ with ⟨n, hn, rfl, hh⟩ | ⟨n, m, hn, hm, rfl, rfl⟩
  · rcases hh with rfl | ⟨m, hm, rfl⟩
    · obtain ⟨w', h', hr, hc, hw⟩ := C30_circle hn
      obtain rfl : w' = w := by rw [h'] at h; exact Except.ok.inj h
      have hat : ∀ a b : Nat, a < w'.rows → b < w'.cols →
          (w'.at' a b = true ↔ ((a : Int) - (n - 1)) ^ 2 + ((b : Int) - (n - 1)) ^ 2 ≤ (n - 1) ^ 2) := by
        intro a b ha hb
        have := hw ((a : Int) - (n - 1)) ((b : Int) - (n - 1)) (abs_le.mpr ⟨by omega, by omega⟩)
          (abs_le.mpr ⟨by omega, by omega⟩)
        rwa [show (n - 1 + ((a : Int) - (n - 1))).toNat = a by omega,
          show (n - 1 + ((b : Int) - (n - 1))).toNat = b by omega] at this
      refine ⟨by omega, by omega, ?_⟩
      intro a b ha hb hab
      rw [hat a b ha hb] at hab
      constructor
      · intro a' ha'
        rw [hat a' b (by omega) hb]
        have : ((a' : Int) - (n - 1)) ^ 2 ≤ ((a : Int) - (n - 1)) ^ 2 := by
          rw [sq_le_sq]
          rcases ha' with ⟨g1, g2⟩ | ⟨g1, g2⟩
          · rw [abs_of_nonpos (by omega), abs_of_nonpos (by omega)]; omega
          · rw [abs_of_nonneg (by omega), abs_of_nonneg (by omega)]; omega
        omega
      · intro b' hb'
        rw [hat a b' ha (by omega)]
        have : ((b' : Int) - (n - 1)) ^ 2 ≤ ((b : Int) - (n - 1)) ^ 2 := by
          rw [sq_le_sq]
          rcases hb' with ⟨g1, g2⟩ | ⟨g1, g2⟩
          · rw [abs_of_nonpos (by omega), abs_of_nonpos (by omega)]; omega
          · rw [abs_of_nonneg (by omega), abs_of_nonneg (by omega)]; omega
        omega
    · obtain ⟨w', h', hr, hc, hw⟩ := C30_rectangle hn hm
      obtain rfl : w' = w := by rw [h'] at h; exact Except.ok.inj h
      rcases ha with ⟨hcon, _⟩ | ⟨_, h1, h2⟩
      · cases hcon
      · exact ⟨h1, h2, fun a b _ _ _ => ⟨fun a' _ => hw a' b, fun b' _ => hw a b'⟩⟩
  · rcases ha with ⟨_, s, hs⟩ | ⟨hcon, _⟩
    · cases hs
    · exact absurd rfl hcon

/-! ### Examples -/

/-- A row of three cells with the middle one null. -/
def rowWithNull : Raster :=
  ⟨i16, 1, 1, 3, fun c => if c.2.2 = 1 then .fin (-9) else .fin (c.2.2 + 1 : Nat), fun c => c.2.2 == 1, some ⟨i16, .fin (-9)⟩⟩

/-- The number of values that are not NaN. -/
def countValid (l : List Num) : Num := .fin ((l.filter fun v => !v.isnan).length : Nat)

example : IgnoresNan countValid ∧ rowWithNull.masked = true ∧ [1, 2].sum = rowWithNull.nx ∧
    ∃ o, focal (idNumPy false) (fun _ => countValid) rowWithNull .mean ⟨1, 3, fun _ _ => true⟩ false [1] [1, 2] = .ok o ∧
      o.data (0, 0, 0) = .fin 1 ∧ o.mask (0, 0, 1) = true := by
  refine ⟨fun l => ?_, rfl, rfl, _, rfl, by decide +kernel, by decide +kernel⟩
  unfold countValid Stats.Spec.valid
  rw [List.filter_filter]
  have : (fun v : Num => !v.isnan) = fun v => !v.isnan && decide (v ≠ .nan) := by
    funext v; cases v <;> rfl
  rw [← this]

example : ∃ o, focal (idNumPy false) (fun _ => countValid) { rowWithNull with nv := none, mask := fun _ => false } .min
    ⟨1, 3, fun _ _ => true⟩ false [1] [1, 2] = .ok o ∧ o.data (0, 0, 0) = .fin (-9) ∧ Solid ⟨1, 3, fun _ _ => true⟩ :=
  ⟨_, rfl, by decide +kernel, rfl, rfl, fun _ _ _ _ _ => ⟨fun _ _ => rfl, fun _ _ => rfl⟩⟩

example : ∃ o, focal (idNumPy false) (fun _ => countValid) { rowWithNull with nv := none, mask := fun _ => false } .sum
    ⟨1, 3, fun _ _ => true⟩ false [1] [1, 2] = .ok o ∧ o.data (0, 0, 2) = .fin (-6) :=
  ⟨_, rfl, by decide +kernel⟩

example : ∃ w, getFocalWindow (.one (.int 3)) none = .ok w ∧ w.at' 0 0 = false ∧ w.at' 0 2 = true ∧ w.rows = 5 :=
  ⟨_, rfl, by decide +kernel, by decide +kernel, rfl⟩

example : ∃ w, getFocalWindow (.seq [.int 1, .int 2]) none = .ok w ∧ w.at' 1 1 = false ∧ w.at' 0 1 = true :=
  ⟨_, rfl, by decide +kernel, by decide +kernel⟩

end Verif.Focal
