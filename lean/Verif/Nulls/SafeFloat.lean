import Verif.Nulls.RasterProps

set_option linter.unusedSectionVars false

/-!
# C19: the dtype that stands for a float

`safe_min_scalar_type` (`dtypes.py:85-103`), which gives the floats among the arguments of `get_common_dtype` their dtype.
-/

namespace Verif.Nulls

open DType

namespace Spec

/-- The dtypes that are tried, the smallest first: those that cover the range of the number. -/
inductive Tried (q : Rat) : DType → Prop
  | half : -65000 < q → q < 65000 → Tried q f16
  | single : -34 * 10 ^ 37 < q → q < 34 * 10 ^ 37 → Tried q f32
  | double : Tried q f64

end Spec

open Spec

/-- **C19 (floats).** A finite number gets a float dtype. It is one that keeps the number, if double precision does; it is then the smallest one
among those that keep the number and cover its range. If none of them keeps it, it is double precision. -/
theorem C19_float_type (np : NumPy) (q : Rat) :
    (np.cast f64 (.fin q) = .fin q → np.cast (safeMinFloat np (.fin q)) (.fin q) = .fin q) ∧
    (∀ d, Tried q d → np.cast d (.fin q) = .fin q → (safeMinFloat np (.fin q)).canCast d = true) ∧
    ((∀ d, Tried q d → np.cast d (.fin q) ≠ .fin q) → safeMinFloat np (.fin q) = f64) ∧
    Tried q (safeMinFloat np (.fin q)) := by
  have heq : ∀ d, (Num.eq (.fin q) (np.cast d (.fin q)) = true) ↔ np.cast d (.fin q) = .fin q := by
    intro d
    cases h : np.cast d (.fin q) <;> simp [Num.eq, eq_comm]
  have big : (-34 * 10 ^ 37 : Rat) < -65000 ∧ (65000 : Rat) < 34 * 10 ^ 37 := by norm_num
  by_cases h1 : -65000 < q ∧ q < 65000
  · have hs : -34 * 10 ^ 37 < q ∧ q < 34 * 10 ^ 37 := ⟨big.1.trans h1.1, h1.2.trans big.2⟩
    have e : safeMinFloat np (.fin q) = if np.cast f16 (.fin q) = .fin q then f16 else if np.cast f32 (.fin q) = .fin q then f32 else f64 := by
      simp only [safeMinFloat, minScalarFloat, if_pos h1, List.find?_cons, List.find?_nil]
      by_cases a : np.cast f16 (.fin q) = .fin q
      · rw [(heq _).2 a, if_pos a]; rfl
      · rw [Bool.eq_false_iff.2 fun c => a ((heq _).1 c), if_neg a]
        by_cases b : np.cast f32 (.fin q) = .fin q
        · rw [(heq _).2 b, if_pos b]; rfl
        · rw [Bool.eq_false_iff.2 fun c => b ((heq _).1 c), if_neg b]
          by_cases c : np.cast f64 (.fin q) = .fin q
          · rw [(heq _).2 c]; rfl
          · rw [Bool.eq_false_iff.2 fun k => c ((heq _).1 k)]; rfl
    rw [e]
    refine ⟨?_, ?_, ?_, ?_⟩
    · intro h
      split
      · assumption
      · split
        · assumption
        · exact h
    · intro d hd hk
      cases hd <;> split_ifs <;> first | rfl | contradiction
    · intro h
      rw [if_neg (h _ (.half h1.1 h1.2)), if_neg (h _ (.single hs.1 hs.2))]
    · split_ifs
      · exact .half h1.1 h1.2
      · exact .single hs.1 hs.2
      · exact .double
  · by_cases h2 : -34 * 10 ^ 37 < q ∧ q < 34 * 10 ^ 37
    · have e : safeMinFloat np (.fin q) = if np.cast f32 (.fin q) = .fin q then f32 else f64 := by
        simp only [safeMinFloat, minScalarFloat, if_neg h1, if_pos h2, List.find?_cons, List.find?_nil]
        by_cases b : np.cast f32 (.fin q) = .fin q
        · rw [(heq _).2 b, if_pos b]; rfl
        · rw [Bool.eq_false_iff.2 fun c => b ((heq _).1 c), if_neg b]
          by_cases c : np.cast f64 (.fin q) = .fin q
          · rw [(heq _).2 c]; rfl
          · rw [Bool.eq_false_iff.2 fun k => c ((heq _).1 k)]; rfl
      rw [e]
      refine ⟨?_, ?_, ?_, ?_⟩
      · intro h
        split
        · assumption
        · exact h
      · intro d hd hk
        cases hd with
        | half a b => exact absurd ⟨a, b⟩ h1
        | single _ _ => rw [if_pos hk]; rfl
        | double => split_ifs <;> rfl
      · intro h
        rw [if_neg (h _ (.single h2.1 h2.2))]
      · split_ifs
        · exact .single h2.1 h2.2
        · exact .double
    · have e : safeMinFloat np (.fin q) = f64 := by
        simp only [safeMinFloat, minScalarFloat, if_neg h1, if_neg h2, List.find?_cons, List.find?_nil]
        by_cases c : np.cast f64 (.fin q) = .fin q
        · rw [(heq _).2 c]; rfl
        · rw [Bool.eq_false_iff.2 fun k => c ((heq _).1 k)]; rfl
      rw [e]
      refine ⟨fun h => h, ?_, fun _ => rfl, .double⟩
      intro d hd hk
      cases hd with
      | half a b => exact absurd ⟨a, b⟩ h1
      | single a b => exact absurd ⟨a, b⟩ h2
      | double => rfl

/-- NaN and the infinities fit half precision. -/
theorem C19_special_floats (np : NumPy) : safeMinFloat np .nan = f16 ∧ safeMinFloat np .posInf = f16 ∧ safeMinFloat np .negInf = f16 := ⟨rfl, rfl, rfl⟩

/-- A conversion that keeps integers up to 2048 in half precision, and everything in the others. -/
def wholeHalfNumPy : NumPy := ⟨false, fun d v => match d, v with
  | f16, .fin q => if q.den = 1 ∧ -2048 ≤ q ∧ q ≤ 2048 then v else .fin 0
  | _, _ => v⟩

example : safeMinFloat wholeHalfNumPy (.fin 5) = f16 ∧ safeMinFloat wholeHalfNumPy (.fin 2049) = f32 ∧ safeMinFloat wholeHalfNumPy (.fin 70000) = f32 ∧
    safeMinFloat wholeHalfNumPy (.fin (10 ^ 40)) = f64 ∧ wholeHalfNumPy.cast f64 (.fin 2049) = .fin 2049 := by decide +kernel

end Verif.Nulls
