import Verif.Stats.Props
import Verif.Reduce.Props
import Mathlib.Analysis.SpecialFunctions.Log.Basic
import Mathlib.Algebra.Order.Chebyshev
import Mathlib.Algebra.BigOperators.Field

/-!
# C112: the statistics of variety fit together

The number of unique values, the angular second moment, the entropy and the mode of the same values (`stat_common.py:95-172`, C38).  These are the
functions that `focal`, `aggregate`, `local_stats` and `zonal_stats` apply to the values of a window, a cell or a zone (C29, C55, C56, C76).
The logarithm is the one of the real numbers.
-/

set_option linter.unusedSectionVars false

namespace Verif.Trips.Variety

open Verif Verif.Stats
open Verif.Stats.Spec (valid IsMode)

/-- The share of the values that are equal to `v`. -/
noncomputable def share (x : List Num) (v : Num) : ℝ := ((valid x).count v : ℝ) / ((valid x).length : ℝ)

section

variable {x : List Num} (hx : valid x ≠ [])
include hx

theorem length_pos : (0 : ℝ) < (valid x).length := by
  exact_mod_cast List.length_pos_of_ne_nil hx

theorem share_pos {v : Num} (hv : v ∈ (valid x).toFinset) : 0 < share x v := by
  unfold share
  refine div_pos ?_ (length_pos hx)
  exact_mod_cast List.count_pos_iff.2 (List.mem_toFinset.1 hv)

theorem share_sum : ∑ v ∈ (valid x).toFinset, share x v = 1 := by
  unfold share
  rw [← Finset.sum_div, div_eq_one_iff_eq (ne_of_gt (length_pos hx))]
  exact_mod_cast List.sum_toFinset_count_eq_length (valid x)

theorem share_le_one {v : Num} : share x v ≤ 1 := by
  unfold share
  rw [div_le_one (length_pos hx)]
  exact_mod_cast List.count_le_length

theorem unique_pos : 0 < nanUniqueCount x := by
  rw [C38_unique, Finset.card_pos, List.toFinset_nonempty_iff]
  exact hx

theorem share_one {v : Num} (hv : v ∈ (valid x).toFinset) : share x v = 1 ↔ nanUniqueCount x = 1 := by
  rw [C38_unique, Finset.card_eq_one]
  constructor
  · intro h
    refine ⟨v, ?_⟩
    unfold share at h
    rw [div_eq_one_iff_eq (ne_of_gt (length_pos hx))] at h
    have h' : (valid x).count v = (valid x).length := by exact_mod_cast h
    rw [List.count_eq_length] at h'
    ext w
    rw [Finset.mem_singleton, List.mem_toFinset]
    exact ⟨fun hw => (h' w hw).symm, fun e => e ▸ List.mem_toFinset.1 hv⟩
  · rintro ⟨w, hw⟩
    have := share_sum hx
    rw [hw, Finset.sum_singleton] at this
    rw [hw, Finset.mem_singleton] at hv
    rw [hv, this]

end

theorem asm_share (x : List Num) : (nanasm x : ℝ) = ∑ v ∈ (valid x).toFinset, share x v ^ 2 := C38_asm x

theorem entropy_share (x : List Num) : nanentropy Real.log x = ∑ v ∈ (valid x).toFinset, -(share x v * Real.log (share x v)) := by
  rw [Finset.sum_neg_distrib]
  exact C38_entropy Real.log x

/-- **C112 (unique values).**  There are between one and as many unique values as values; as many exactly if no two are equal. -/
theorem C112_unique {x : List Num} (hx : valid x ≠ []) :
    1 ≤ nanUniqueCount x ∧ nanUniqueCount x ≤ (valid x).length ∧ (nanUniqueCount x = (valid x).length ↔ (valid x).Nodup) := by
  refine ⟨unique_pos hx, ?_, ?_⟩
  · rw [C38_unique]
    exact List.toFinset_card_le _
  · rw [C38_unique]
    exact ⟨fun h => Multiset.toFinset_card_eq_card_iff_nodup.1 h, List.toFinset_card_of_nodup⟩

/-- **C112 (angular second moment).**  It lies between one divided by the number of unique values and one, and is one exactly if all values are equal. -/
theorem C112_asm {x : List Num} (hx : valid x ≠ []) :
    1 / (nanUniqueCount x : ℝ) ≤ nanasm x ∧ (nanasm x : ℝ) ≤ 1 ∧ ((nanasm x : ℝ) = 1 ↔ nanUniqueCount x = 1) := by
  have hU : (0 : ℝ) < nanUniqueCount x := by exact_mod_cast unique_pos hx
  have hle : ∀ v ∈ (valid x).toFinset, share x v ^ 2 ≤ share x v := by
    intro v hv
    have := share_pos hx hv
    have := share_le_one hx (v := v)
    nlinarith
  rw [asm_share]
  refine ⟨?_, ?_, ?_⟩
  · rw [div_le_iff₀ hU]
    have := sq_sum_le_card_mul_sum_sq (s := (valid x).toFinset) (f := share x)
    rw [share_sum hx, ← C38_unique] at this
    linarith
  · rw [← share_sum hx]
    exact Finset.sum_le_sum hle
  · constructor
    · intro h
      rw [← share_sum hx, Finset.sum_eq_sum_iff_of_le hle] at h
      obtain ⟨v, hv⟩ := List.exists_mem_of_ne_nil _ hx
      have hv' := List.mem_toFinset.2 hv
      rw [← share_one hx hv']
      have := h v hv'
      have hp := share_pos hx hv'
      nlinarith
    · intro h
      rw [C38_unique, Finset.card_eq_one] at h
      obtain ⟨w, hw⟩ := h
      have := share_sum hx
      rw [hw, Finset.sum_singleton] at this
      rw [hw, Finset.sum_singleton, this, one_pow]

/-- **C112 (entropy).**  It lies between zero and the logarithm of the number of unique values, is at least minus the logarithm of the angular second
moment, and is zero exactly if all values are equal. -/
theorem C112_entropy {x : List Num} (hx : valid x ≠ []) :
    0 ≤ nanentropy Real.log x ∧ nanentropy Real.log x ≤ Real.log (nanUniqueCount x) ∧ -Real.log (nanasm x) ≤ nanentropy Real.log x ∧
      (nanentropy Real.log x = 0 ↔ nanUniqueCount x = 1) := by
  have hU : (0 : ℝ) < nanUniqueCount x := by exact_mod_cast unique_pos hx
  have hterm : ∀ v ∈ (valid x).toFinset, 0 ≤ -(share x v * Real.log (share x v)) := by
    intro v hv
    have h1 := share_pos hx hv
    have := Real.log_nonpos h1.le (share_le_one hx)
    nlinarith
  -- Gibbs' inequality
  have gibbs : ∀ g : Num → ℝ, (∀ v ∈ (valid x).toFinset, 0 < g v) → ∑ v ∈ (valid x).toFinset, g v ≤ 1 →
      nanentropy Real.log x ≤ ∑ v ∈ (valid x).toFinset, -(share x v * Real.log (g v)) := by
    intro g hg hsum
    rw [entropy_share, ← sub_nonneg, ← Finset.sum_sub_distrib]
    have : ∀ v ∈ (valid x).toFinset, share x v - g v ≤ -(share x v * Real.log (g v)) - -(share x v * Real.log (share x v)) := by
      intro v hv
      have h1 := share_pos hx hv
      have h2 := Real.log_le_sub_one_of_pos (div_pos (hg v hv) h1)
      rw [Real.log_div (ne_of_gt (hg v hv)) (ne_of_gt h1)] at h2
      have h3 : share x v * (Real.log (g v) - Real.log (share x v)) ≤ share x v * (g v / share x v - 1) := mul_le_mul_of_nonneg_left h2 h1.le
      rw [mul_sub, mul_sub, mul_div_cancel₀ _ (ne_of_gt h1)] at h3
      linarith
    refine le_trans ?_ (Finset.sum_le_sum this)
    rw [Finset.sum_sub_distrib, share_sum hx]
    linarith
  refine ⟨?_, ?_, ?_, ?_⟩
  · rw [entropy_share]
    exact Finset.sum_nonneg hterm
  · have := gibbs (fun _ => 1 / (nanUniqueCount x : ℝ)) (fun _ _ => by positivity) (by
      rw [Finset.sum_const, ← C38_unique, nsmul_eq_mul, mul_one_div_cancel (ne_of_gt hU)])
    refine this.trans ?_
    rw [Real.log_div one_ne_zero (ne_of_gt hU), Real.log_one, zero_sub]
    simp only [mul_neg, neg_neg]
    rw [← Finset.sum_mul, share_sum hx, one_mul]
  · have hpos : 0 < (nanasm x : ℝ) := lt_of_lt_of_le (by positivity) (C112_asm hx).1
    have key : ∑ v ∈ (valid x).toFinset, share x v * (Real.log (share x v) - Real.log (nanasm x)) ≤ 0 := by
      have : ∀ v ∈ (valid x).toFinset, share x v * (Real.log (share x v) - Real.log (nanasm x)) ≤ share x v ^ 2 / nanasm x - share x v := by
        intro v hv
        have h1 := share_pos hx hv
        have h2 := Real.log_le_sub_one_of_pos (div_pos h1 hpos)
        rw [Real.log_div (ne_of_gt h1) (ne_of_gt hpos)] at h2
        calc _ ≤ share x v * (share x v / nanasm x - 1) := mul_le_mul_of_nonneg_left h2 h1.le
          _ = _ := by ring
      refine (Finset.sum_le_sum this).trans ?_
      rw [Finset.sum_sub_distrib, share_sum hx, ← Finset.sum_div, ← asm_share, div_self (ne_of_gt hpos), sub_self]
    simp only [mul_sub] at key
    rw [Finset.sum_sub_distrib, ← Finset.sum_mul, share_sum hx, one_mul] at key
    rw [entropy_share, Finset.sum_neg_distrib]
    linarith
  · rw [entropy_share, Finset.sum_eq_zero_iff_of_nonneg hterm]
    constructor
    · intro h
      obtain ⟨v, hv⟩ := List.exists_mem_of_ne_nil _ hx
      have hv' := List.mem_toFinset.2 hv
      rw [← share_one hx hv']
      have hp := share_pos hx hv'
      have h0 := h v hv'
      have hl : Real.log (share x v) = 0 := by
        rcases mul_eq_zero.1 (neg_eq_zero.1 h0) with h | h
        · exact absurd h (ne_of_gt hp)
        · exact h
      exact Real.eq_one_of_pos_of_log_eq_zero hp hl
    · intro h v hv
      rw [(share_one hx hv).2 h]
      simp

/-- **C112 (mode).**  The share of the mode is at least one divided by the number of unique values; the angular second moment lies between its square
and itself. -/
theorem C112_mode {x : List Num} (hx : valid x ≠ []) :
    1 / (nanUniqueCount x : ℝ) ≤ share x (nanmode x).1 ∧ share x (nanmode x).1 ^ 2 ≤ nanasm x ∧ (nanasm x : ℝ) ≤ share x (nanmode x).1 := by
  obtain ⟨hm, hmax⟩ := (C38_mode x).2 hx
  have hU : (0 : ℝ) < nanUniqueCount x := by exact_mod_cast unique_pos hx
  have hle : ∀ v ∈ (valid x).toFinset, share x v ≤ share x (nanmode x).1 := by
    intro v hv
    unfold share
    refine div_le_div_of_nonneg_right ?_ (length_pos hx).le
    exact_mod_cast (hmax v (List.mem_toFinset.1 hv)).1
  have hmem : (nanmode x).1 ∈ (valid x).toFinset := List.mem_toFinset.2 hm
  refine ⟨?_, ?_, ?_⟩
  · rw [div_le_iff₀ hU, ← share_sum hx, C38_unique, mul_comm, ← nsmul_eq_mul]
    exact Finset.sum_le_card_nsmul _ _ _ hle
  · rw [asm_share]
    exact Finset.single_le_sum (f := fun v => share x v ^ 2) (fun v _ => sq_nonneg _) hmem
  · rw [asm_share]
    calc _ ≤ ∑ v ∈ (valid x).toFinset, share x v * share x (nanmode x).1 := by
          refine Finset.sum_le_sum fun v hv => ?_
          rw [sq]
          exact mul_le_mul_of_nonneg_left (hle v hv) (share_pos hx hv).le
      _ = _ := by rw [← Finset.sum_mul, share_sum hx, one_mul]

/-! ### Rasters -/

open Verif.Nulls DType
open Verif.Reduce (AggStat aggregate)
open Verif.Reduce.Spec (blockCells present)
open Verif.Focal.Spec (IgnoresNan)

theorem valid_valid (x : List Num) : valid (valid x) = valid x := by
  unfold valid
  rw [List.filter_filter]
  congr 1
  funext v
  simp

theorem asm_rat (x : List Num) : ((nanasm x : Rat) : ℝ) = nanasm x := by
  rw [C38_asm, C38_asm]
  push_cast
  rfl

theorem present_valid {null : Cell → Bool} {value : Cell → Num} {cells : List Cell} (h : ∀ p, null p = false → value p ≠ .nan) :
    valid (present null value cells) = present null value cells := by
  unfold valid present
  rw [List.filter_eq_self]
  intro v hv
  obtain ⟨p, hp, rfl⟩ := List.mem_map.1 hv
  simpa using h p (by simpa using (List.mem_filter.1 hp).2)

/-- **C112 (aggregated rasters).**  The rasters of unique counts and of angular second moments have the same null cells; elsewhere the count is between
one and the size of the window, and the moment between one divided by the count and one, being one exactly if the count is (rounding aside). -/
theorem C112_aggregate {np : NumPy} {func : AggStat → List Num → Num} {outTy : AggStat → DType → DType} {r u a : Raster} {ey ex : Nat}
    (hm : r.masked = true) (hfu : ∀ x, func .unique x = .fin (nanUniqueCount x)) (hfa : ∀ x, func .asm x = .fin (nanasm x))
    (hnan : ∀ p, r.mask p = false → Focal.convert np r.dtype (Focal.promoteToFloat r.dtype) (r.data p) ≠ .nan)
    (hcount : ∀ n : Nat, n ≤ ey * ex → np.cast ((minScalarInt (ey * ex : Nat)).getD u64) (.fin n) = .fin n ∧ np.cast u.dtype (.fin n) = .fin n)
    (hu : aggregate np func outTy r (.ints [ey, ex]) (.name (some .unique)) = .ok u)
    (ha : aggregate np func outTy r (.ints [ey, ex]) (.name (some .asm)) = .ok a) (c : Cell) (hc : u.Has c) :
    a.Has c ∧ u.mask c = a.mask c ∧ (u.mask c = false → ∃ (k : Nat) (q : Rat), u.data c = .fin k ∧ a.data c = np.cast a.dtype (.fin q) ∧
      1 ≤ k ∧ k ≤ ey * ex ∧ 1 / (k : Rat) ≤ q ∧ q ≤ 1 ∧ (q = 1 ↔ k = 1)) := by
  have hiu : IgnoresNan (func .unique) := by
    intro l
    rw [hfu, hfu, (C38_invariance (by rw [valid_valid]) : _ ∧ _).1]
  have hia : IgnoresNan (func .asm) := by
    intro l
    rw [hfa, hfa, (C38_invariance (x := l) (y := valid l) (by rw [valid_valid])).2.2.1]
  obtain ⟨u1, u2, u3, -, -, u6⟩ := Reduce.C56_masked hm hiu hu
  obtain ⟨a1, a2, a3, -, -, a6⟩ := Reduce.C56_masked hm hia ha
  have hac : a.Has c := by
    unfold Raster.Has at hc ⊢
    rw [a1, a2, a3]
    rw [u1, u2, u3] at hc
    exact hc
  obtain ⟨um, -, ud⟩ := u6 c hc
  obtain ⟨am, -, ad⟩ := a6 c hac
  have hmask : u.mask c = a.mask c := Bool.eq_iff_iff.2 (um.trans am.symm)
  refine ⟨hac, hmask, fun h => ?_⟩
  generalize hl : present r.mask (fun p => Focal.convert np r.dtype (Focal.promoteToFloat r.dtype) (r.data p)) (blockCells ey ex c) = l at ud ad
  have hval : valid l = l := by
    rw [← hl]
    exact present_valid hnan
  have hlen : l.length ≤ ey * ex := by
    rw [← hl, ← Reduce.blockCells_length ey ex c]
    unfold present
    rw [List.length_map]
    exact List.length_filter_le _ _
  have hne : valid l ≠ [] := by
    rw [hval]
    intro e
    rw [e] at hl
    unfold present at hl
    rw [List.map_eq_nil_iff, List.filter_eq_nil_iff] at hl
    have := um.2 fun p hp => by simpa using hl p hp
    rw [h] at this
    cases this
  obtain ⟨c1, c2, -⟩ := C112_unique hne
  obtain ⟨s1, s2, s3⟩ := C112_asm hne
  rw [hval] at c2
  obtain ⟨e1, e2⟩ := hcount _ (c2.trans hlen)
  refine ⟨nanUniqueCount l, nanasm l, ?_, ?_, c1, c2.trans hlen, ?_, ?_, ?_⟩
  · rw [ud h, hfu]
    show Focal.convert np _ u.dtype (np.cast _ _) = _
    rw [e1]
    unfold Focal.convert
    split
    · rfl
    · exact e2
  · rw [ad (hmask ▸ h), hfa]
    rfl
  · rw [← asm_rat] at s1
    have : (((1 / (nanUniqueCount l : Rat) : Rat)) : ℝ) ≤ ((nanasm l : Rat) : ℝ) := by
      push_cast
      exact s1
    exact Rat.cast_le.1 this
  · rw [← asm_rat] at s2
    exact_mod_cast s2
  · rw [← asm_rat] at s3
    rw [← s3]
    exact_mod_cast Iff.rfl

/-- A row of four cells, one of them null. -/
def exRow : Raster :=
  ⟨i32, 1, 1, 4, fun c => if c.2.2 = 3 then .fin (-1) else if c.2.2 = 1 then .fin 5 else .fin 7, fun c => decide (c.2.2 = 3), some ⟨i32, .fin (-1)⟩⟩

def exFunc : AggStat → List Num → Num
  | .unique, x => .fin (nanUniqueCount x)
  | .asm, x => .fin (nanasm x)
  | _, _ => .nan

/-- The hypotheses of `C112_aggregate` are met; the unique counts and moments of the two windows. -/
example : exRow.masked = true ∧ (∀ p, exRow.mask p = false → Focal.convert (idNumPy false) exRow.dtype (Focal.promoteToFloat exRow.dtype) (exRow.data p) ≠ .nan) ∧
    (match aggregate (idNumPy false) exFunc (fun _ d => d) exRow (.ints [1, 2]) (.name (some .unique)),
      aggregate (idNumPy false) exFunc (fun _ d => d) exRow (.ints [1, 2]) (.name (some .asm)) with
      | .ok u, .ok a => [u.data (0, 0, 0), a.data (0, 0, 0), u.data (0, 0, 1), a.data (0, 0, 1)]
      | _, _ => []) = [.fin 2, .fin (1 / 2), .fin 1, .fin 1] := by
  refine ⟨rfl, fun p _ => ?_, by decide +kernel⟩
  show (if p.2.2 = 3 then (.fin (-1) : Num) else if p.2.2 = 1 then .fin 5 else .fin 7) ≠ .nan
  split
  · simp
  · split <;> simp

/-- Four values, two of them equal, and a NaN. -/
example : valid [.fin 3, .nan, .fin 2, .fin 3, .posInf] ≠ [] ∧ nanUniqueCount [.fin 3, .nan, .fin 2, .fin 3, .posInf] = 3 ∧
    (nanasm [.fin 3, .nan, .fin 2, .fin 3, .posInf] : Rat) = 3 / 8 ∧ (valid [.fin 3, .nan, .fin 2, .fin 3, .posInf]).count (.fin 3) = 2 := by
  decide +kernel

end Verif.Trips.Variety
