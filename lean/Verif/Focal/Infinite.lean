import Verif.Focal.Correlate
import Mathlib.Data.EReal.Operations

set_option linter.unusedSectionVars false

/-!
# C31: the arithmetic of `correlate` with infinite cells and weights

The sums of `_correlate2d_chunk` (`focal.py:107-110`) are those of the extended real numbers where these are defined.
-/

namespace Verif.Focal

open Verif Verif.Nulls

namespace Spec

/-- The extended real number. -/
noncomputable def real : Num → EReal
  | .fin q => ((q : ℝ) : EReal)
  | .posInf => ⊤
  | .negInf => ⊥
  | .nan => 0

/-- Infinite. -/
def Endless (v : Num) : Prop := v = .posInf ∨ v = .negInf

end Spec

open Spec

theorem real_fin_pos {q : Rat} (h : 0 < q) : 0 < ((q : ℝ) : EReal) := by
  exact_mod_cast h

theorem real_fin_neg {q : Rat} (h : q < 0) : ((q : ℝ) : EReal) < 0 := by
  exact_mod_cast h

theorem infOf_pos {q : Rat} (h : 0 < q) : infOf q = .posInf := by
  unfold infOf
  rw [if_neg h.ne', if_pos h]

theorem infOf_neg {q : Rat} (h : q < 0) : infOf q = .negInf := by
  unfold infOf
  rw [if_neg h.ne, if_neg (by linarith)]

theorem infOf_zero : infOf 0 = .nan := by simp [infOf]

/-- **C31.** The product of a weight and a value is the product of the extended real numbers; it is NaN exactly if one is NaN or one is 0 and
the other infinite. -/
theorem C31_product (a b : Num) :
    (mul a b = .nan ↔ a = .nan ∨ b = .nan ∨ a = .fin 0 ∧ Endless b ∨ Endless a ∧ b = .fin 0) ∧
    (mul a b ≠ .nan → real (mul a b) = real a * real b) := by
  have key : ∀ q : Rat, (infOf q = .nan ↔ q = 0) ∧ (q ≠ 0 → real (infOf q) = ((q : ℝ) : EReal) * ⊤) ∧
      (q ≠ 0 → real (infOf (-q)) = ((q : ℝ) : EReal) * ⊥) := by
    intro q
    rcases lt_trichotomy q 0 with h | rfl | h
    · refine ⟨?_, fun _ => ?_, fun _ => ?_⟩
      · rw [infOf_neg h]; exact ⟨fun e => (by cases e), fun e => absurd e h.ne⟩
      · rw [infOf_neg h, EReal.mul_top_of_neg (real_fin_neg h)]; rfl
      · rw [infOf_pos (by linarith), EReal.mul_bot_of_neg (real_fin_neg h)]; rfl
    · exact ⟨⟨fun _ => rfl, fun _ => infOf_zero⟩, fun h => absurd rfl h, fun h => absurd rfl h⟩
    · refine ⟨?_, fun _ => ?_, fun _ => ?_⟩
      · rw [infOf_pos h]; exact ⟨fun e => (by cases e), fun e => absurd e h.ne'⟩
      · rw [infOf_pos h, EReal.mul_top_of_pos (real_fin_pos h)]; rfl
      · rw [infOf_neg (by linarith), EReal.mul_bot_of_pos (real_fin_pos h)]; rfl
  have neg0 : ∀ q : Rat, infOf (-q) = .nan ↔ q = 0 := fun q => (key (-q)).1.trans neg_eq_zero
  cases a with
  | nan => exact ⟨⟨fun _ => Or.inl rfl, fun _ => by cases b <;> rfl⟩, fun h => absurd (by cases b <;> rfl) h⟩
  | fin a =>
    cases b with
    | nan => exact ⟨⟨fun _ => Or.inr (Or.inl rfl), fun _ => rfl⟩, fun h => absurd rfl h⟩
    | fin b =>
      refine ⟨⟨fun h => (by cases h), ?_⟩, fun _ => ?_⟩
      · rintro (h | h | ⟨_, h | h⟩ | ⟨h | h, _⟩) <;> cases h
      · show (((a * b : Rat) : ℝ) : EReal) = ((a : ℝ) : EReal) * ((b : ℝ) : EReal)
        push_cast
        rfl
    | posInf =>
      refine ⟨?_, ?_⟩
      · show infOf a = .nan ↔ _
        rw [(key a).1]
        simp [Endless]
      · intro h
        have h0 : a ≠ 0 := fun e => h ((key a).1.mpr e)
        exact (key a).2.1 h0
    | negInf =>
      refine ⟨?_, ?_⟩
      · show infOf (-a) = .nan ↔ _
        rw [neg0]
        simp [Endless]
      · intro h
        have h0 : a ≠ 0 := fun e => h ((neg0 a).mpr e)
        exact (key a).2.2 h0
  | posInf =>
    cases b with
    | nan => exact ⟨⟨fun _ => Or.inr (Or.inl rfl), fun _ => rfl⟩, fun h => absurd rfl h⟩
    | fin b =>
      refine ⟨?_, ?_⟩
      · show infOf b = .nan ↔ _
        rw [(key b).1]
        simp [Endless]
      · intro h
        have h0 : b ≠ 0 := fun e => h ((key b).1.mpr e)
        show real (infOf b) = ⊤ * _
        rw [EReal.mul_comm]
        exact (key b).2.1 h0
    | posInf => exact ⟨by simp [mul, Endless], fun _ => by simp [mul, real]⟩
    | negInf => exact ⟨by simp [mul, Endless], fun _ => by simp [mul, real]⟩
  | negInf =>
    cases b with
    | nan => exact ⟨⟨fun _ => Or.inr (Or.inl rfl), fun _ => rfl⟩, fun h => absurd rfl h⟩
    | fin b =>
      refine ⟨?_, ?_⟩
      · show infOf (-b) = .nan ↔ _
        rw [neg0]
        simp [Endless]
      · intro h
        have h0 : b ≠ 0 := fun e => h ((neg0 b).mpr e)
        show real (infOf (-b)) = ⊥ * _
        rw [EReal.mul_comm]
        exact (key b).2.2 h0
    | posInf => exact ⟨by simp [mul, Endless], fun _ => by simp [mul, real]⟩
    | negInf => exact ⟨by simp [mul, Endless], fun _ => by simp [mul, real]⟩

/-- **C31.** The sum of two values is that of the extended real numbers; it is NaN exactly if one is NaN or they are opposite infinities. -/
theorem C31_sum (a b : Num) :
    (add a b = .nan ↔ a = .nan ∨ b = .nan ∨ a = .posInf ∧ b = .negInf ∨ a = .negInf ∧ b = .posInf) ∧
    (add a b ≠ .nan → real (add a b) = real a + real b) := by
  cases a <;> cases b <;> simp [add, real]

example : mul (.fin (1 / 2)) .posInf = .posInf ∧ mul .negInf (.fin (-3)) = .posInf ∧ mul (.fin 0) .negInf = .nan ∧
    add .posInf (.fin 4) = .posInf ∧ add .posInf .negInf = .nan := by decide +kernel

end Verif.Focal
