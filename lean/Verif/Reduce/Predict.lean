import Verif.Reduce.Local

/-!
# Properties of `model_predict_raster`: C57
-/

set_option linter.unusedSectionVars false

namespace Verif.Reduce

open Verif Verif.Nulls DType Verif.Focal Verif.Focal.Spec Verif.Reduce.Spec

namespace Spec

/-- The model predicts each sample by itself: the prediction of the rows is the rows of the predictions. -/
def Rowwise (model : Model) (f : List Num → List Num) : Prop := ∀ rows, model rows = rows.map f

/-- The values of all bands at a place. -/
def predictors (value : Cell → Num) (nb : Nat) (c : Cell) : List Num := (bandCells nb c).map value

end Spec

theorem samples_eq (chunk : Cell → Num) {w b r c k : Nat} (hc : c < w) (hk : k < b) :
    samples chunk w b (r * w + c) k = chunk (k, r, c) := by
  have h1 : ((r * w + c) * b + k) % b = k := by
    rw [Nat.mul_comm, Nat.mul_add_mod, Nat.mod_eq_of_lt hk]
  have h2 : ((r * w + c) * b + k) / b = r * w + c := by
    rw [Nat.mul_comm, Nat.mul_add_div (by omega), Nat.div_eq_of_lt hk, Nat.add_zero]
  have h3 : (r * w + c) / w = r := by
    rw [Nat.mul_comm, Nat.mul_add_div (by omega), Nat.div_eq_of_lt hc, Nat.add_zero]
  have h4 : (r * w + c) % w = c := by
    rw [Nat.mul_comm, Nat.mul_add_mod, Nat.mod_eq_of_lt hc]
  simp only [samples]
  rw [h1, h2, h3, h4]

theorem unsamples_eq (pred : Nat → Nat → Num) {h w k r c : Nat} (hr : r < h) (hc : c < w) :
    unsamples pred h w k r c = pred (r * w + c) k := by
  have h1 : r * w + c < h * w := by
    calc r * w + c < r * w + w := by omega
      _ = (r + 1) * w := by ring
      _ ≤ h * w := Nat.mul_le_mul_right _ hr
  have e : (k * h + r) * w + c = h * w * k + (r * w + c) := by ring
  simp only [unsamples]
  rw [e, Nat.mul_add_mod, Nat.mod_eq_of_lt h1, Nat.mul_add_div (by omega), Nat.div_eq_of_lt h1, Nat.add_zero]

theorem predChunk_spec {model : Model} {f : List Num → List Num} (hf : Rowwise model f) (big small : Num) {nbands b h w : Nat}
    (hl : ∀ row : List Num, row.length = b → (f row).length = nbands) (chunk : Cell → Num) :
    ∃ g, predChunk model big small nbands b h w chunk = .ok g ∧ ∀ k r c, r < h → c < w → k < nbands →
      (f ((List.range b).map fun k => nanToNum big small (chunk (k, r, c))))[k]? = some (g (k, r, c)) := by
  unfold predChunk
  simp only
  rw [hf, if_pos ?_]
  · refine ⟨_, rfl, fun k r c hr hc hk => ?_⟩
    simp only
    rw [unsamples_eq _ hr hc]
    have h1 : r * w + c < h * w := by
      calc r * w + c < r * w + w := by omega
        _ = (r + 1) * w := by ring
        _ ≤ h * w := Nat.mul_le_mul_right _ hr
    rw [List.getD_eq_getElem?_getD (l := List.map f _), List.getElem?_map, List.getElem?_map, List.getElem?_range h1]
    simp only [Option.map_some, Option.getD_some]
    have : (List.range b).map (fun k => nanToNum big small (samples chunk w b (r * w + c) k)) =
        (List.range b).map fun k => nanToNum big small (chunk (k, r, c)) :=
      List.map_congr_left fun k hk => by rw [samples_eq chunk hc (List.mem_range.mp hk)]
    rw [this, List.getD_eq_getElem?_getD]
    have hlen := hl ((List.range b).map fun k => nanToNum big small (chunk (k, r, c))) (by simp)
    rw [List.getElem?_eq_getElem (by omega), Option.getD_some]
  · constructor
    · simp
    · rw [List.all_eq_true]
      intro p hp
      simp only [List.mem_map] at hp
      obtain ⟨row, ⟨i, -, rfl⟩, rfl⟩ := hp
      rw [hl _ (by simp)]
      simp

/-- **C57** for models that predict each sample by itself and give `n` outputs: the result has `n` bands; a cell is null exactly
if it is null in some band of the raster, and then holds the null value; otherwise band `k` holds output `k` of the model for
the values of all bands at that cell.  The chunks do not matter. -/
theorem C57_predict {np : NumPy} {model : Model} {f : List Num → List Num} (hf : Rowwise model f) {big small : Num}
    {r : Raster} {n : Nat} (hn : 0 < n) (hl : ∀ row : List Num, row.length = r.nb → (f row).length = n)
    {ychunks xchunks : List Nat} (hy : ychunks.sum = r.ny) (hx : xchunks.sum = r.nx) :
    ∃ o, modelPredict np model big small r n ychunks xchunks = .ok o ∧ o.nb = n ∧ o.ny = r.ny ∧ o.nx = r.nx ∧
    o.nv = (if r.masked then some (defaultNull f64) else none) ∧
    ∀ c : Cell, c.1 < n → c.2.1 < r.ny → c.2.2 < r.nx →
      (o.mask c = true ↔ r.masked = true ∧ ∃ p ∈ bandCells r.nb c, r.mask p = true) ∧
      (o.mask c = true → o.value c = .ok (.fin (-999999))) ∧
      (o.mask c = false → ∃ v, o.value c = .ok v ∧ (f (predictors (fun p => nanToNum big small
        (if r.masked then convert np r.dtype (promoteToFloat r.dtype) (r.data p) else r.data p)) r.nb c))[c.1]? = some v) := by
  have hval : ∀ c : Cell, c.1 < n → c.2.1 < r.ny → c.2.2 < r.nx →
      ∃ v, predValue model big small n (nullToNan np r) ychunks xchunks c = .ok v ∧
        (f ((bandCells r.nb c).map fun p => nanToNum big small ((nullToNan np r).data p)))[c.1]? = some v := by
    rintro ⟨k, i, j⟩ hk hi hj
    obtain ⟨r0, h, e1, h1, h2⟩ := chunkOf_spec ychunks 0 i (by omega) (by simp only at hi; omega)
    obtain ⟨c0, w, e2, h3, h4⟩ := chunkOf_spec xchunks 0 j (by omega) (by simp only at hj; omega)
    have hnb : (nullToNan np r).nb = r.nb := by unfold nullToNan; split <;> rfl
    obtain ⟨g, e3, h5⟩ := predChunk_spec hf big small (h := h) (w := w) hl (chunkAt (nullToNan np r).data r0 c0)
    unfold predValue
    simp only [e1, e2, hnb, e3]
    refine ⟨_, rfl, ?_⟩
    rw [← h5 k (i - r0) (j - c0) (by omega) (by omega) hk]
    congr 2
    unfold bandCells
    rw [List.map_map]
    refine List.map_congr_left fun b _ => ?_
    simp only [Function.comp_apply, chunkAt]
    rw [show r0 + (i - r0) = i by omega, show c0 + (j - c0) = j by omega]
  unfold modelPredict
  rw [if_neg (by omega)]
  simp only [Int.toNat_natCast, masked_nullToNan]
  cases hm : r.masked
  · have hrn : nullToNan np r = r := by rw [nullToNan, hm]; rfl
    simp only [Bool.false_eq_true, if_false]
    refine ⟨_, rfl, rfl, rfl, rfl, rfl, fun c h1 h2 h3 => ⟨by simp, by simp, fun _ => ?_⟩⟩
    have := hval c h1 h2 h3
    rw [hrn] at this ⊢
    exact this
  · have hrn : nullToNan np r = { r with
        dtype := promoteToFloat r.dtype
        data := fun c => if r.mask c then .nan else convert np r.dtype (promoteToFloat r.dtype) (r.data c) } := by
      rw [nullToNan, if_pos hm]
    simp only [if_true]
    refine ⟨_, rfl, rfl, rfl, rfl, rfl, fun c h1 h2 h3 => ?_⟩
    obtain ⟨v, e, hv⟩ := hval c h1 h2 h3
    have hmask : (bandValues (nullToNan np r).nb (nullToNan np r).mask c).any id = true ↔
        ∃ p ∈ bandCells r.nb c, r.mask p = true := by
      rw [bandValues_eq, hrn]
      simp
    refine ⟨by simpa using hmask, ?_, ?_⟩
    · intro hc
      simp only at hc ⊢
      rw [if_pos hc, e]
      rfl
    · intro hc
      simp only at hc ⊢
      rw [if_neg (by rw [hc]; exact Bool.false_ne_true)]
      refine ⟨v, e, ?_⟩
      rw [← hv, hrn]
      congr 2
      unfold predictors
      refine List.map_congr_left fun p hp => ?_
      have : r.mask p = false := by
        rw [Bool.eq_false_iff]
        intro h
        rw [hmask.mpr ⟨p, hp, h⟩] at hc
        cases hc
      simp only [this, Bool.false_eq_true, if_false]

/-- **C57**, what the model is given: the values themselves, but 0 for a NaN that is not null, as long as there are no
infinities (see `C57_infinities`). -/
theorem C57_given {np : NumPy} {model : Model} {f : List Num → List Num} (hf : Rowwise model f) {big small : Num}
    {r : Raster} {n : Nat} (hn : 0 < n) (hl : ∀ row : List Num, row.length = r.nb → (f row).length = n)
    {ychunks xchunks : List Nat} (hy : ychunks.sum = r.ny) (hx : xchunks.sum = r.nx) (hm : r.nv = none) :
    ∃ o, modelPredict np model big small r n ychunks xchunks = .ok o ∧
    ∀ c : Cell, c.1 < n → c.2.1 < r.ny → c.2.2 < r.nx →
      (∀ p ∈ bandCells r.nb c, r.data p ≠ .posInf ∧ r.data p ≠ .negInf) →
      ∃ v, o.value c = .ok v ∧
        (f (predictors (fun p => if r.data p = .nan then .fin 0 else r.data p) r.nb c))[c.1]? = some v := by
  obtain ⟨o, ho, -, -, -, -, h⟩ := C57_predict (np := np) hf (big := big) (small := small) hn hl hy hx
  have hmask : r.masked = false := by simp [Raster.masked, hm]
  refine ⟨o, ho, fun c h1 h2 h3 hfin => ?_⟩
  obtain ⟨h4, -, h6⟩ := h c h1 h2 h3
  have hc : o.mask c = false := by
    rw [Bool.eq_false_iff]
    intro hc
    have := (h4.mp hc).1
    rw [hmask] at this
    cases this
  obtain ⟨v, hv, h7⟩ := h6 hc
  refine ⟨v, hv, ?_⟩
  rw [← h7]
  congr 2
  unfold predictors
  refine List.map_congr_left fun p hp => ?_
  have := hfin p hp
  simp only [hmask, Bool.false_eq_true, if_false]
  cases hd : r.data p <;> simp_all [nanToNum]

/-- **C57**: fewer than one output is rejected. -/
theorem C57_rejected (np : NumPy) (model : Model) (big small : Num) (r : Raster) (n : Int) (ychunks xchunks : List Nat)
    (h : n < 1) : modelPredict np model big small r n ychunks xchunks = .error .value := by
  unfold modelPredict
  rw [if_pos h]

/-- **C57**: if the model gives a number of outputs other than `n`, computing a cell of the result raises an error. -/
theorem C57_outputs {np : NumPy} {model : Model} {f : List Num → List Num} (hf : Rowwise model f) {big small : Num}
    {r : Raster} {n : Nat} (hl : ∀ row : List Num, row.length = r.nb → (f row).length ≠ n)
    {ychunks xchunks : List Nat} (hy : ychunks.sum = r.ny) (hx : xchunks.sum = r.nx) {o : Predicted}
    (h : modelPredict np model big small r n ychunks xchunks = .ok o) (c : Cell) (hi : c.2.1 < r.ny) (hj : c.2.2 < r.nx) :
    o.value c = .error .value := by
  have hval : predValue model big small n (nullToNan np r) ychunks xchunks c = .error .value := by
    obtain ⟨r0, h, e1, h1, h2⟩ := chunkOf_spec ychunks 0 c.2.1 (by omega) (by omega)
    obtain ⟨c0, w, e2, h3, h4⟩ := chunkOf_spec xchunks 0 c.2.2 (by omega) (by omega)
    have hnb : (nullToNan np r).nb = r.nb := by unfold nullToNan; split <;> rfl
    unfold predValue
    simp only [e1, e2, hnb]
    have : predChunk model big small n r.nb h w (chunkAt (nullToNan np r).data r0 c0) = .error .value := by
      unfold predChunk
      simp only
      rw [hf, if_neg ?_]
      rintro ⟨-, h5⟩
      rw [List.all_eq_true] at h5
      have h6 := h5 _ (List.mem_map_of_mem (List.mem_map_of_mem (List.mem_range.mpr
        (Nat.mul_pos (show 0 < h by omega) (show 0 < w by omega)))))
      exact hl _ (by simp) (of_decide_eq_true h6)
    rw [this]
  unfold modelPredict at h
  split at h
  · cases h
  · simp only [Int.toNat_natCast] at h
    split at h
    · have h := Except.ok.inj h
      subst h
      simp only
      split
      · rw [hval]; rfl
      · exact hval
    · have h := Except.ok.inj h
      subst h
      exact hval

/-! ### Examples -/

/-- A model with two outputs: the first predictor and the last. -/
def sampleModel (row : List Num) : List Num := [row.headD .nan, row.getLastD .nan]

/-- The hypotheses of `C57_predict` hold for a raster of two bands with null cells in two chunks. -/
example : Rowwise (fun rows => rows.map sampleModel) sampleModel ∧
    (∀ row : List Num, row.length = sampleBands.nb → (sampleModel row).length = 2) ∧ [1].sum = sampleBands.ny ∧
    [1, 2].sum = sampleBands.nx ∧
    ∃ o, modelPredict (idNumPy true) (fun rows => rows.map sampleModel) (.fin 1) (.fin (-1)) sampleBands (2 : Nat) [1] [1, 2] =
      .ok o ∧ o.mask (0, 0, 0) = true ∧ (o.mask (1, 0, 2) = false ∧ (o.value (1, 0, 2)).toOption = some (.fin 2) ∧
        (o.value (0, 0, 2)).toOption = some (.fin 3)) :=
  ⟨fun _ => rfl, fun _ _ => rfl, rfl, rfl, _, rfl, by decide +kernel⟩

/-- The hypotheses of `C57_given` hold for a raster with a NaN and no null value; the model is given 0. -/
example : ∃ o, modelPredict (idNumPy true) (fun rows => rows.map sampleModel) (.fin 1) (.fin (-1))
      ⟨f64, 1, 1, 2, fun c => if c.2.2 = 0 then .nan else .fin 4, fun _ => false, none⟩ (2 : Nat) [1] [2] = .ok o ∧
      (o.value (0, 0, 0)).toOption = some (.fin 0) ∧ (o.value (1, 0, 1)).toOption = some (.fin 4) :=
  ⟨_, rfl, by decide +kernel⟩

/-- **Infinite values do not reach the model**: `np.nan_to_num` replaces them with the largest numbers, and NaN with 0. -/
theorem C57_infinities : ∃ (r : Raster) (o : Predicted), r.masked = false ∧ r.data (0, 0, 0) = .posInf ∧
    modelPredict (idNumPy true) (fun rows => rows.map id) (.fin 17) (.fin (-17)) r 1 [1] [1] = .ok o ∧
    (o.value (0, 0, 0)).toOption = some (.fin 17) :=
  ⟨⟨f64, 1, 1, 1, fun _ => .posInf, fun _ => false, none⟩, _, rfl, rfl, rfl, by decide +kernel⟩

end Verif.Reduce
