import Verif.Reduce.Props

/-!
# Properties of `local_stats`: C55
-/

set_option linter.unusedSectionVars false

namespace Verif.Reduce

open Verif Verif.Nulls DType Verif.Focal Verif.Focal.Spec Verif.Reduce.Spec

namespace Spec

/-- The dtype in which a statistic over `nb` bands is computed; `fdt` is the dtype of the values. -/
def computedDtype (outTy : LocalStat → DType → DType) (fdt : DType) (stat : LocalStat) (nb : Nat) : DType :=
  match stat with
  | .unique => (minScalarInt nb).getD u64
  | .minband | .maxband => (minScalarInt ((nb : Int) - 1)).getD u64
  | .mode => fdt
  | .asm | .entropy => if fdt = f32 then f32 else f64
  | s => outTy s fdt

/-- The dtype of the result for rasters with a null value: counts and band numbers in a signed dtype, modes in the dtype of the
raster. -/
def maskedDtype (outTy : LocalStat → DType → DType) (dt : DType) (stat : LocalStat) (nb : Nat) : DType :=
  match stat with
  | .unique | .minband | .maxband => uniqueDtype (computedDtype outTy (promoteToFloat dt) stat nb)
  | .mode => dt
  | s => computedDtype outTy (promoteToFloat dt) s nb

end Spec

theorem localData_dtype (np : NumPy) (func : LocalStat → List Num → Num) (outTy : LocalStat → DType → DType) (rn : Raster)
    (stat : LocalStat) : (localData np func outTy rn stat).1 = computedDtype outTy rn.dtype stat rn.nb := by
  unfold localData
  cases stat <;> simp [LocalStat.custom, localDtype, computedDtype]

theorem bandValues_eq {V : Type} (nb : Nat) (data : Cell → V) (c : Cell) :
    bandValues nb data c = (bandCells nb c).map data := by
  unfold bandValues bandCells
  rw [List.map_map]
  rfl

/-- The result for rasters with a null value, for every statistic, in terms of the values with NaN for null cells. -/
theorem localStats_masked {np : NumPy} {func : LocalStat → List Num → Num} {outTy : LocalStat → DType → DType} {r o : Raster}
    {stat : LocalStat} (hm : r.masked = true) (h : localStats np func outTy r (.name (some stat)) = .ok o) :
    o.nb = 1 ∧ o.ny = r.ny ∧ o.nx = r.nx ∧ o.dtype = maskedDtype outTy r.dtype stat r.nb ∧
    o.nv = some (defaultNull o.dtype) ∧
    ∀ c, (o.mask c = true ↔ ∀ p ∈ bandCells r.nb c, r.mask p = true) ∧
      (o.mask c = true → o.data c = (defaultNull o.dtype).val) ∧
      (o.mask c = false → o.data c =
        convert np (computedDtype outTy (promoteToFloat r.dtype) stat r.nb) o.dtype
          (np.cast (computedDtype outTy (promoteToFloat r.dtype) stat r.nb) (func stat ((bandCells r.nb c).map fun p =>
            if r.mask p then .nan else convert np r.dtype (promoteToFloat r.dtype) (r.data p))))) := by
  have hrn : nullToNan np r = { r with
      dtype := promoteToFloat r.dtype
      data := fun c => if r.mask c then .nan else convert np r.dtype (promoteToFloat r.dtype) (r.data c) } := by
    rw [nullToNan, if_pos hm]
  have hmn : (nullToNan np r).masked = true := by rw [masked_nullToNan, hm]
  have hdt := localData_dtype np func outTy (nullToNan np r) stat
  have hdata : ∀ c, (localData np func outTy (nullToNan np r) stat).2 c =
      np.cast (localData np func outTy (nullToNan np r) stat).1
        (func stat ((bandCells r.nb c).map (nullToNan np r).data)) := by
    intro c
    simp only [localData, bandValues_eq]
    rw [show (nullToNan np r).nb = r.nb by rw [hrn]]
  rw [show (nullToNan np r).dtype = promoteToFloat r.dtype by rw [hrn], show (nullToNan np r).nb = r.nb by rw [hrn]] at hdt
  have hout : (if stat = .unique ∨ stat = .minband ∨ stat = .maxband then
      uniqueDtype (localData np func outTy (nullToNan np r) stat).1
      else if stat = .mode then r.dtype else (localData np func outTy (nullToNan np r) stat).1) =
      maskedDtype outTy r.dtype stat r.nb := by
    rw [hdt]
    cases stat <;> simp [maskedDtype]
  unfold localStats at h
  simp only [hmn, if_true, makeDs, Nat.lt_irrefl, if_false, Except.ok.injEq, hout] at h
  subst h
  refine ⟨rfl, by rw [hrn], by rw [hrn], rfl, rfl, fun c => ?_⟩
  refine ⟨?_, fun hc => by simp only at hc ⊢; rw [if_pos hc], fun hc => ?_⟩
  · simp only
    rw [bandValues_eq, hrn]
    simp
  · simp only at hc ⊢
    rw [if_neg (by rw [hc]; exact Bool.false_ne_true), hdata, hdt]
    rw [hrn]

/-- **C55** for rasters with a null value: one band; a cell is null exactly if it is null in all bands, and then holds the null
value; otherwise it holds the statistic of the bands that are not null there. -/
theorem C55_masked {np : NumPy} {func : LocalStat → List Num → Num} {outTy : LocalStat → DType → DType} {r o : Raster}
    {stat : LocalStat} (hm : r.masked = true) (hf : IgnoresNan (func stat))
    (h : localStats np func outTy r (.name (some stat)) = .ok o) :
    o.nb = 1 ∧ o.ny = r.ny ∧ o.nx = r.nx ∧ o.dtype = maskedDtype outTy r.dtype stat r.nb ∧
    o.nv = some (defaultNull o.dtype) ∧
    ∀ c, (o.mask c = true ↔ ∀ p ∈ bandCells r.nb c, r.mask p = true) ∧
      (o.mask c = true → o.data c = (defaultNull o.dtype).val) ∧
      (o.mask c = false → o.data c =
        convert np (computedDtype outTy (promoteToFloat r.dtype) stat r.nb) o.dtype
          (np.cast (computedDtype outTy (promoteToFloat r.dtype) stat r.nb) (func stat (present r.mask
            (fun p => convert np r.dtype (promoteToFloat r.dtype) (r.data p)) (bandCells r.nb c))))) := by
  obtain ⟨h1, h2, h3, h4, h5, h6⟩ := localStats_masked hm h
  refine ⟨h1, h2, h3, h4, h5, fun c => ⟨(h6 c).1, (h6 c).2.1, fun hc => ?_⟩⟩
  rw [(h6 c).2.2 hc, stat_present hf]

/-- **C55** for rasters with one band and no null value. -/
theorem C55_unmasked_partial {np : NumPy} {func : LocalStat → List Num → Num} {outTy : LocalStat → DType → DType}
    {r o : Raster} {stat : LocalStat} (hm : r.masked = false) (hb : r.nb = 1)
    (h : localStats np func outTy r (.name (some stat)) = .ok o) :
    o.nb = 1 ∧ o.ny = r.ny ∧ o.nx = r.nx ∧ o.dtype = computedDtype outTy r.dtype stat r.nb ∧ o.nv = none ∧
    ∀ c, o.mask c = false ∧ o.data c = np.cast o.dtype (func stat ((bandCells r.nb c).map r.data)) := by
  have hrn : nullToNan np r = r := by rw [nullToNan, hm]; rfl
  unfold localStats at h
  simp only [hrn, hm, Bool.false_eq_true, if_false, hb, makeDs, Nat.lt_irrefl, Except.ok.injEq] at h
  subst h
  refine ⟨rfl, rfl, rfl, ?_, rfl, fun c => ⟨rfl, ?_⟩⟩
  · simp only [localData_dtype]
  · simp only [localData, bandValues_eq]

/-- **C55 is false for rasters without a null value and more than one band**: the result has as many bands as the raster.  The
first holds the statistic (in a floating point dtype, single precision only if it represents all integers of the dtype), all
others NaN, none of it null. -/
theorem C55_unmasked_bands {np : NumPy} {func : LocalStat → List Num → Num} {outTy : LocalStat → DType → DType}
    {r o : Raster} {stat : LocalStat} (hm : r.masked = false) (hb : 1 < r.nb)
    (h : localStats np func outTy r (.name (some stat)) = .ok o) :
    o.nb = r.nb ∧ o.ny = r.ny ∧ o.nx = r.nx ∧ o.dtype.isFloat = true ∧
    ((computedDtype outTy r.dtype stat r.nb).isFloat = true → o.dtype = computedDtype outTy r.dtype stat r.nb) ∧
    (∀ n, (computedDtype outTy r.dtype stat r.nb).Holds n → o.dtype = f64 ∨ o.dtype = f32 ∧ n.natAbs ≤ 2 ^ 24) ∧ o.nv = none ∧
    ∀ c, o.mask c = false ∧ (0 < c.1 → o.data c = .nan) ∧ (c.1 = 0 → o.data c =
      convert np (computedDtype outTy r.dtype stat r.nb) o.dtype
        (np.cast (computedDtype outTy r.dtype stat r.nb) (func stat ((bandCells r.nb c).map r.data)))) := by
  have hrn : nullToNan np r = r := by rw [nullToNan, hm]; rfl
  unfold localStats at h
  simp only [hrn, hm, Bool.false_eq_true, if_false, makeDs, hb, if_true, Except.ok.injEq] at h
  subst h
  refine ⟨rfl, rfl, rfl, ?_, ?_, ?_, rfl, fun c => ⟨rfl, ?_, ?_⟩⟩
  · simp only [xrPromote]
    split
    · assumption
    · split <;> rfl
  · intro hf
    simp only [localData_dtype]
    rw [xrPromote, if_pos hf]
  · intro n hn
    simp only [localData_dtype]
    generalize computedDtype outTy r.dtype stat r.nb = dt at hn
    obtain ⟨lo, hi, h1, h2, h3⟩ := hn
    cases dt <;> simp [DType.limits] at h1 <;> obtain ⟨rfl, rfl⟩ := h1 <;>
      first
      | exact .inl rfl
      | exact .inr ⟨rfl, by omega⟩
  · intro hc
    simp only
    rw [if_neg (by omega)]
  · intro hc
    simp only
    rw [if_pos (by omega), localData_dtype]
    simp only [localData, bandValues_eq]
    have := localData_dtype np func outTy r stat
    simp only [localData] at this
    rw [this]

/-- **C55_unmasked_bands, the dtype**: single precision is taken whenever it represents all integers of the dtype of the statistic. -/
theorem C55_unmasked_single {np : NumPy} {func : LocalStat → List Num → Num} {outTy : LocalStat → DType → DType}
    {r o : Raster} {stat : LocalStat} (hm : r.masked = false) (hb : 1 < r.nb)
    (h : localStats np func outTy r (.name (some stat)) = .ok o) (hi : ∃ n, (computedDtype outTy r.dtype stat r.nb).Holds n)
    (hnb : computedDtype outTy r.dtype stat r.nb ≠ .bool)
    (hs : ∀ n, (computedDtype outTy r.dtype stat r.nb).Holds n → n.natAbs ≤ 2 ^ 24) : o.dtype = f32 := by
  have hrn : nullToNan np r = r := by rw [nullToNan, hm]; rfl
  unfold localStats at h
  simp only [hrn, hm, Bool.false_eq_true, if_false, makeDs, hb, if_true, Except.ok.injEq] at h
  subst h
  simp only [localData_dtype]
  generalize computedDtype outTy r.dtype stat r.nb = dt at hi hs hnb
  obtain ⟨n, lo, hi, h1, -⟩ := hi
  cases dt <;> simp [DType.limits] at h1 <;> obtain ⟨rfl, rfl⟩ := h1 <;>
    first
    | rfl
    | exact absurd rfl hnb
    | exact absurd (hs (2 ^ 31 - 1) ⟨_, _, rfl, by norm_num, by norm_num⟩) (by norm_num)

/-- The number of different values of two bands of int16 is counted in uint8, which gives single precision. -/
example : computedDtype (fun _ d => d) i16 .unique 2 = u8 ∧ u8.Holds 3 ∧ (∀ n, u8.Holds n → n.natAbs ≤ 2 ^ 24) ∧
    (∀ n, i16.Holds n → n.natAbs ≤ 2 ^ 24) := by
  refine ⟨by decide +kernel, ⟨_, _, rfl, by norm_num, by norm_num⟩, ?_, ?_⟩ <;>
  · rintro n ⟨lo, hi, h1, h2, h3⟩
    simp [DType.limits] at h1
    obtain ⟨rfl, rfl⟩ := h1
    omega

/-- **C55**: a statistic that is not a string or not known is rejected; otherwise there is a result. -/
theorem C55_rejected (np : NumPy) (func : LocalStat → List Num → Num) (outTy : LocalStat → DType → DType) (r : Raster) :
    localStats np func outTy r .notStr = .error .type ∧ localStats np func outTy r (.name none) = .error .value ∧
    ∀ stat, ∃ o, localStats np func outTy r (.name (some stat)) = .ok o := by
  refine ⟨rfl, rfl, fun stat => ?_⟩
  unfold localStats
  simp only
  split
  · exact ⟨_, rfl⟩
  · exact ⟨_, rfl⟩

/-- **C55**, the number of different values: exact, and never confused with the null value. -/
theorem C55_unique {np : NumPy} (hnp : Nulls.Spec.ExactCast np) {func : LocalStat → List Num → Num}
    {outTy : LocalStat → DType → DType} {r o : Raster} (hm : r.masked = true)
    (hu : ∀ l, func .unique l = .fin (Stats.nanUniqueCount l : Int)) (hs : r.nb < 2 ^ 32)
    (h : localStats np func outTy r (.name (some .unique)) = .ok o) :
    ∀ c, o.mask c = false → o.data c = .fin (Stats.nanUniqueCount (present r.mask
        (fun p => convert np r.dtype (promoteToFloat r.dtype) (r.data p)) (bandCells r.nb c)) : Int) ∧
      o.data c ≠ (defaultNull o.dtype).val := by
  have hf : IgnoresNan (func .unique) := fun l => by
    rw [hu, hu, (Stats.C38_invariance (x := l) (y := Stats.Spec.valid l) (by rw [valid_valid])).1]
  obtain ⟨-, -, -, hdt, -, hcell⟩ := C55_masked hm hf h
  obtain ⟨dt, e1, e2, e3, q, e4, e5⟩ := uniqueDtype_holds hs
  intro c hmc
  have hle : Stats.nanUniqueCount (present r.mask (fun p => convert np r.dtype (promoteToFloat r.dtype) (r.data p))
      (bandCells r.nb c)) ≤ r.nb :=
    le_trans (unique_le _) (le_trans (present_length _ _ _) (le_of_eq (by simp [bandCells])))
  have hval : o.data c = .fin (Stats.nanUniqueCount (present r.mask
      (fun p => convert np r.dtype (promoteToFloat r.dtype) (r.data p)) (bandCells r.nb c)) : Int) := by
    rw [(hcell c).2.2 hmc, hdt]
    simp only [maskedDtype, computedDtype, e1, Option.getD_some, hu]
    rw [hnp dt _ (e2 _ hle)]
    unfold convert
    split
    · rfl
    · exact hnp _ _ (e3 _ hle)
  refine ⟨hval, ?_⟩
  rw [hval, hdt]
  simp only [maskedDtype, computedDtype, e1, Option.getD_some, e4]
  intro hq
  have hq := FVal.fin.inj hq
  rw [← hq] at e5
  have : (0 : Rat) ≤ ((Stats.nanUniqueCount (present r.mask (fun p => convert np r.dtype (promoteToFloat r.dtype) (r.data p))
    (bandCells r.nb c)) : Int) : Rat) := by exact_mod_cast Nat.zero_le _
  linarith

theorem bandCells_getElem (nb : Nat) (c : Cell) (f : Cell → Num) (k : Nat) (w : Num) :
    ((bandCells nb c).map f)[k]? = some w ↔ k < nb ∧ f (k, c.2) = w := by
  unfold bandCells
  rw [List.map_map, List.getElem?_map]
  by_cases hk : k < nb
  · rw [List.getElem?_range hk]
    simp [hk]
  · rw [List.getElem?_eq_none (by simpa using hk)]
    simp [hk]

/-- **C55**, the band of the minimum, where some band holds a number other than infinity: the number of the first band, from 0
on, that holds the least of the values that are not null.  Missing: cells where all values are NaN or infinite, where a null
band can come out (`C55_minband_null`). -/
theorem C55_minband_partial {np : NumPy} (hnp : Nulls.Spec.ExactCast np) {func : LocalStat → List Num → Num}
    {outTy : LocalStat → DType → DType} {r o : Raster} (hm : r.masked = true)
    (hu : ∀ l, func .minband l = .fin (Stats.nanargmin l : Int)) (hs : r.nb ≤ 2 ^ 32)
    (h : localStats np func outTy r (.name (some .minband)) = .ok o) {c : Cell}
    (hv : ∃ b < r.nb, r.mask (b, c.2) = false ∧
      convert np r.dtype (promoteToFloat r.dtype) (r.data (b, c.2)) ≠ .nan ∧
      convert np r.dtype (promoteToFloat r.dtype) (r.data (b, c.2)) ≠ .posInf) :
    o.mask c = false ∧ ∃ b : Nat, b < r.nb ∧ o.data c = .fin b ∧ r.mask (b, c.2) = false ∧
      ∀ k < r.nb, r.mask (k, c.2) = false → convert np r.dtype (promoteToFloat r.dtype) (r.data (k, c.2)) ≠ .nan →
        Stats.Spec.Le (convert np r.dtype (promoteToFloat r.dtype) (r.data (b, c.2)))
          (convert np r.dtype (promoteToFloat r.dtype) (r.data (k, c.2))) ∧
        (k < b → convert np r.dtype (promoteToFloat r.dtype) (r.data (b, c.2)) ≠
          convert np r.dtype (promoteToFloat r.dtype) (r.data (k, c.2))) := by
  obtain ⟨-, -, -, hdt, -, hcell⟩ := localStats_masked hm h
  obtain ⟨b0, hb0, hmb0, hn0, hi0⟩ := hv
  have hmc : o.mask c = false := by
    rw [Bool.eq_false_iff]
    intro hc
    have := (hcell c).1.mp hc (b0, c.2) (by unfold bandCells; exact List.mem_map.mpr ⟨b0, List.mem_range.mpr hb0, rfl⟩)
    rw [hmb0] at this
    exact Bool.false_ne_true this
  refine ⟨hmc, ?_⟩
  obtain ⟨i, hi, v, h1, h2, h3⟩ := (Stats.C38_argmin_partial ((bandCells r.nb c).map fun p =>
      if r.mask p then .nan else convert np r.dtype (promoteToFloat r.dtype) (r.data p))).2.2
    (Or.inl ⟨_, List.mem_of_getElem? ((bandCells_getElem _ c _ b0 _).mpr ⟨hb0, rfl⟩), by simp [hmb0, hn0], by simp [hmb0, hi0]⟩)
  rw [bandCells_getElem] at h1
  obtain ⟨hib, h1⟩ := h1
  have hmi : r.mask (i, c.2) = false := by
    rw [Bool.eq_false_iff]
    intro hc
    rw [if_pos hc] at h1
    exact h2 h1.symm
  rw [if_neg (by rw [hmi]; exact Bool.false_ne_true)] at h1
  refine ⟨i, hib, ?_, hmi, fun k hk hmk hnk => ?_⟩
  · rw [(hcell c).2.2 hmc, hdt]
    obtain ⟨dt, e1, e2, e3, -⟩ := uniqueDtype_holds (n := r.nb - 1) (by omega)
    have e1' : minScalarInt ((r.nb : Int) - 1) = some dt := by rw [← e1]; congr 1; omega
    simp only [maskedDtype, computedDtype, e1', Option.getD_some, hu, hi]
    rw [hnp dt _ (e2 i (by omega))]
    unfold convert
    split
    · rfl
    · exact hnp _ _ (e3 i (by omega))
  · have := h3 k _ ((bandCells_getElem _ c _ k _).mpr ⟨hk, rfl⟩) (by simp [hmk, hnk])
    rw [if_neg (by rw [hmk]; exact Bool.false_ne_true), ← h1] at this
    exact this

/-- **C55**, the band of the maximum, where some band holds a number other than minus infinity. -/
theorem C55_maxband_partial {np : NumPy} (hnp : Nulls.Spec.ExactCast np) {func : LocalStat → List Num → Num}
    {outTy : LocalStat → DType → DType} {r o : Raster} (hm : r.masked = true)
    (hu : ∀ l, func .maxband l = .fin (Stats.nanargmax l : Int)) (hs : r.nb ≤ 2 ^ 32)
    (h : localStats np func outTy r (.name (some .maxband)) = .ok o) {c : Cell}
    (hv : ∃ b < r.nb, r.mask (b, c.2) = false ∧
      convert np r.dtype (promoteToFloat r.dtype) (r.data (b, c.2)) ≠ .nan ∧
      convert np r.dtype (promoteToFloat r.dtype) (r.data (b, c.2)) ≠ .negInf) :
    o.mask c = false ∧ ∃ b : Nat, b < r.nb ∧ o.data c = .fin b ∧ r.mask (b, c.2) = false ∧
      ∀ k < r.nb, r.mask (k, c.2) = false → convert np r.dtype (promoteToFloat r.dtype) (r.data (k, c.2)) ≠ .nan →
        Stats.Spec.Le (convert np r.dtype (promoteToFloat r.dtype) (r.data (k, c.2)))
          (convert np r.dtype (promoteToFloat r.dtype) (r.data (b, c.2))) ∧
        (k < b → convert np r.dtype (promoteToFloat r.dtype) (r.data (b, c.2)) ≠
          convert np r.dtype (promoteToFloat r.dtype) (r.data (k, c.2))) := by
  obtain ⟨-, -, -, hdt, -, hcell⟩ := localStats_masked hm h
  obtain ⟨b0, hb0, hmb0, hn0, hi0⟩ := hv
  have hmc : o.mask c = false := by
    rw [Bool.eq_false_iff]
    intro hc
    have := (hcell c).1.mp hc (b0, c.2) (by unfold bandCells; exact List.mem_map.mpr ⟨b0, List.mem_range.mpr hb0, rfl⟩)
    rw [hmb0] at this
    exact Bool.false_ne_true this
  refine ⟨hmc, ?_⟩
  obtain ⟨i, hi, v, h1, h2, h3⟩ := (Stats.C38_argmax_partial ((bandCells r.nb c).map fun p =>
      if r.mask p then .nan else convert np r.dtype (promoteToFloat r.dtype) (r.data p))).2.2
    (Or.inl ⟨_, List.mem_of_getElem? ((bandCells_getElem _ c _ b0 _).mpr ⟨hb0, rfl⟩), by simp [hmb0, hn0], by simp [hmb0, hi0]⟩)
  rw [bandCells_getElem] at h1
  obtain ⟨hib, h1⟩ := h1
  have hmi : r.mask (i, c.2) = false := by
    rw [Bool.eq_false_iff]
    intro hc
    rw [if_pos hc] at h1
    exact h2 h1.symm
  rw [if_neg (by rw [hmi]; exact Bool.false_ne_true)] at h1
  refine ⟨i, hib, ?_, hmi, fun k hk hmk hnk => ?_⟩
  · rw [(hcell c).2.2 hmc, hdt]
    obtain ⟨dt, e1, e2, e3, -⟩ := uniqueDtype_holds (n := r.nb - 1) (by omega)
    have e1' : minScalarInt ((r.nb : Int) - 1) = some dt := by rw [← e1]; congr 1; omega
    simp only [maskedDtype, computedDtype, e1', Option.getD_some, hu, hi]
    rw [hnp dt _ (e2 i (by omega))]
    unfold convert
    split
    · rfl
    · exact hnp _ _ (e3 i (by omega))
  · have := h3 k _ ((bandCells_getElem _ c _ k _).mpr ⟨hk, rfl⟩) (by simp [hmk, hnk])
    rw [if_neg (by rw [hmk]; exact Bool.false_ne_true), ← h1] at this
    exact this

/-! ### Examples -/

/-- Two bands of one row: the first is null in column 0, both in column 1. -/
def sampleBands : Raster :=
  ⟨f64, 2, 1, 3, fun c => if c.1 = 0 then .fin 3 else .fin 2, fun c => decide (c.2.2 = 1 ∨ c.1 = 0 ∧ c.2.2 = 0), some ⟨f64, .fin (-1)⟩⟩

/-- Statistics for the examples; those that are not computed give NaN. -/
def sampleFunc : LocalStat → List Num → Num
  | .unique, l => .fin (Stats.nanUniqueCount l : Int)
  | .minband, l => .fin (Stats.nanargmin l : Int)
  | .maxband, l => .fin (Stats.nanargmax l : Int)
  | .mode, l => (Stats.nanmode l).1
  | .asm, l => .fin (Stats.nanasm l : Rat)
  | _, _ => .nan

/-- The hypotheses of `C55_masked` and `C55_unique` hold for a raster with null cells. -/
example : sampleBands.masked = true ∧ IgnoresNan (sampleFunc .unique) ∧ IgnoresNan (sampleFunc .mode) ∧
    ∃ o, localStats (idNumPy true) sampleFunc (fun _ dt => dt) sampleBands (.name (some .unique)) = .ok o ∧
      o.mask (0, 0, 1) = true ∧ o.mask (0, 0, 0) = false ∧ o.data (0, 0, 0) = .fin 1 ∧ o.data (0, 0, 2) = .fin 2 ∧
      o.data (0, 0, 1) = .fin (-32768) := by
  refine ⟨rfl, fun l => ?_, mode_ignoresNan, _, rfl, ?_⟩
  · simp only [sampleFunc]
    rw [(Stats.C38_invariance (x := l) (y := Stats.Spec.valid l) (by rw [valid_valid])).1]
  · decide +kernel

/-- The hypothesis of `C55_minband_partial` holds in column 2, and band 1 comes out. -/
example : (∃ b < sampleBands.nb, sampleBands.mask (b, 0, 2) = false ∧
      convert (idNumPy true) sampleBands.dtype (promoteToFloat sampleBands.dtype) (sampleBands.data (b, 0, 2)) ≠ .nan ∧
      convert (idNumPy true) sampleBands.dtype (promoteToFloat sampleBands.dtype) (sampleBands.data (b, 0, 2)) ≠ .posInf) ∧
    ∃ o, localStats (idNumPy true) sampleFunc (fun _ dt => dt) sampleBands (.name (some .minband)) = .ok o ∧
      o.data (0, 0, 2) = .fin 1 :=
  ⟨by decide +kernel, _, rfl, by decide +kernel⟩

/-- `C55_unmasked_bands` applies to two bands without a null value: the second band of the result is NaN. -/
example : ∃ o, localStats (idNumPy true) sampleFunc (fun _ dt => dt) { sampleBands with mask := fun _ => false, nv := none }
      (.name (some .minband)) = .ok o ∧ o.nb = 2 ∧ o.data (1, 0, 0) = .nan ∧ o.mask (1, 0, 0) = false ∧
      o.data (0, 0, 0) = .fin 1 := ⟨_, rfl, by decide +kernel⟩

/-- **The band of the minimum can be a null band**: if the first band is null and the other holds infinity, band 0 comes out,
and the cell is not null. -/
theorem C55_minband_null : ∃ (r o : Raster) (c : Cell), r.masked = true ∧ r.mask (0, c.2) = true ∧ r.mask (1, c.2) = false ∧
    localStats (idNumPy true) sampleFunc (fun _ dt => dt) r (.name (some .minband)) = .ok o ∧ o.mask c = false ∧
    o.data c = .fin 0 :=
  ⟨⟨f64, 2, 1, 1, fun c => if c.1 = 0 then .fin (-1) else .posInf, fun c => decide (c.1 = 0), some ⟨f64, .fin (-1)⟩⟩, _,
    (0, 0, 0), rfl, rfl, rfl, rfl, by decide +kernel⟩

/-- **C55**, the dtype of counts and band numbers for rasters with a null value: the signed integers of 16, 32 or 64 bits, by the largest
number there can be. -/
theorem C55_unique_dtype {np : NumPy} {func : LocalStat → List Num → Num} {outTy : LocalStat → DType → DType} {r o : Raster}
    {stat : LocalStat} (hm : r.masked = true) (hs : stat ∈ [LocalStat.unique, .minband, .maxband]) (hb : 0 < r.nb ∧ r.nb < 2 ^ 32)
    (h : localStats np func outTy r (.name (some stat)) = .ok o) :
    o.dtype = (if (if stat = .unique then r.nb else r.nb - 1) < 2 ^ 8 then i16
      else if (if stat = .unique then r.nb else r.nb - 1) < 2 ^ 16 then i32 else i64) := by
  obtain ⟨-, -, -, e, -⟩ := localStats_masked hm h
  rw [e]
  simp only [List.mem_cons, List.not_mem_nil, or_false] at hs
  have hn : ((r.nb : Int) - 1) = ((r.nb - 1 : Nat) : Int) := by omega
  rcases hs with rfl | rfl | rfl
  · exact (count_dtype hb.2).2
  · simp only [maskedDtype, computedDtype, hn]
    exact (count_dtype (n := r.nb - 1) (by omega)).2
  · simp only [maskedDtype, computedDtype, hn]
    exact (count_dtype (n := r.nb - 1) (by omega)).2

example : ∃ o, localStats (idNumPy true) sampleFunc (fun _ dt => dt)
    ⟨f64, 257, 1, 1, fun _ => .fin 3, fun c => decide (c.1 = 0), some ⟨f64, .fin (-1)⟩⟩ (.name (some .unique)) = .ok o ∧ o.dtype = i32 :=
  ⟨_, rfl, rfl⟩

/-- **Sums of 8-bit rasters with a null value are computed in half precision**: the values of such a raster are converted to
float16, and a sum such as 2049 is not a number of that dtype. -/
theorem C55_half_precision : promoteToFloat u8 = f16 ∧ promoteToFloat i8 = f16 ∧ ¬ Nulls.Spec.Representable f16 (.fin 2049) := by
  refine ⟨by decide, by decide, ?_⟩
  rintro ⟨m, e, h, hm, -, -⟩
  have h : (2049 : Rat) = (m : Rat) * 2 ^ e := FVal.fin.inj h
  have hm2 := abs_lt.mp hm
  rcases Int.lt_or_le e 1 with he | he
  · have e0 : (2 : Rat) ^ e * 2 ^ (-e).toNat = 1 := by
      rw [← zpow_natCast, ← zpow_add₀ (by norm_num)]
      have : e + ((-e).toNat : Int) = 0 := by omega
      rw [this, zpow_zero]
    have : (2049 : Rat) * 2 ^ (-e).toNat = m := by
      rw [h, mul_assoc, e0, mul_one]
    have hz : (2049 : Int) * 2 ^ (-e).toNat = m := by exact_mod_cast this
    have : (1 : Int) ≤ 2 ^ (-e).toNat := one_le_pow₀ (by norm_num)
    omega
  · obtain ⟨n, rfl⟩ : ∃ n : Nat, e = n + 1 := ⟨(e - 1).toNat, by omega⟩
    have : (2049 : Rat) = ((m * 2 ^ n * 2 : Int) : Rat) := by
      rw [h]
      push_cast
      rw [zpow_add₀ (by norm_num), zpow_natCast, zpow_one, mul_assoc]
    have hz : (2049 : Int) = m * 2 ^ n * 2 := by exact_mod_cast this
    omega

end Verif.Reduce
