import Verif.Round.Model
import Verif.Nulls.RasterProps
import Mathlib.Tactic.Linarith
import Mathlib.Tactic.Positivity
import Mathlib.Tactic.FieldSimp

set_option linter.unusedSectionVars false

/-!
# Properties of `Raster.round`
-/

namespace Verif.Round

open Verif Verif.Nulls DType

namespace Spec

/-- `x` is `q` rounded to `d` decimals: a multiple of the power of ten, none is nearer, and of two that are equally near it is the even
one. -/
def Rounded (d : Int) (q x : Rat) : Prop :=
  ∃ k : Int, x = k * (10 : Rat) ^ (-d) ∧ (∀ j : Int, |q - x| ≤ |q - j * (10 : Rat) ^ (-d)|) ∧
    (∀ j : Int, j ≠ k → |q - x| = |q - j * (10 : Rat) ^ (-d)| → k % 2 = 0)

end Spec

open Spec

theorem rint_near (q : Rat) : |q - rint q| ≤ 1 / 2 ∧ (|q - rint q| = 1 / 2 → rint q % 2 = 0) := by
  have h1 := Int.floor_le q
  have h2 := Int.lt_floor_add_one q
  unfold rint
  split
  · next h =>
    rw [abs_of_nonneg (by linarith)]
    exact ⟨h.le, fun e => absurd e h.ne⟩
  · next h =>
    split
    · next h' =>
      push_cast
      rw [abs_of_nonpos (by linarith)]
      exact ⟨by linarith, fun e => by linarith⟩
    · next h' =>
      have he : q - ⌊q⌋ = 1 / 2 := le_antisymm (not_lt.mp h') (not_lt.mp h)
      split
      · next h0 =>
        rw [he]
        exact ⟨by norm_num, fun _ => h0⟩
      · next h0 =>
        push_cast
        have : q - ((⌊q⌋ : Rat) + 1) = -(1 / 2) := by linarith
        rw [this]
        exact ⟨by norm_num, fun _ => by omega⟩

/-- Integers near a number: the nearest one is at most half away. -/
theorem nearest_of_half {q : Rat} {k : Int} (h : |q - k| ≤ 1 / 2) (j : Int) :
    |q - k| ≤ |q - j| ∧ (j ≠ k → |q - k| = |q - j| → |q - k| = 1 / 2) := by
  by_cases hj : j = k
  · subst hj
    exact ⟨le_refl _, fun h => absurd rfl h⟩
  · have h1 : (1 : Rat) ≤ |(k : Rat) - j| := by
      have : (1 : Int) ≤ |k - j| := Int.one_le_abs (sub_ne_zero.mpr (Ne.symm hj))
      exact_mod_cast this
    have h2 : |(k : Rat) - j| ≤ |q - k| + |q - j| := by
      have : (k : Rat) - j = (q - j) - (q - k) := by ring
      rw [this]
      calc |(q - j) - (q - k)| ≤ |q - j| + |q - k| := abs_sub _ _
        _ = |q - k| + |q - j| := add_comm _ _
    refine ⟨by linarith, fun _ e => ?_⟩
    linarith

theorem roundRat_rounded (d : Int) (q : Rat) : Rounded d q (roundRat d q) := by
  have hpos : (0 : Rat) < 10 ^ d := zpow_pos (by norm_num) _
  have hk : roundRat d q = rint (q * 10 ^ d) * (10 : Rat) ^ (-d) := by
    rw [roundRat, zpow_neg, div_eq_mul_inv]
  have hscale : ∀ j : Int, |q - j * (10 : Rat) ^ (-d)| * 10 ^ d = |q * 10 ^ d - j| := by
    intro j
    rw [← abs_of_pos hpos, ← abs_mul, abs_of_pos hpos, sub_mul, mul_assoc, zpow_neg, inv_mul_cancel₀ hpos.ne', mul_one]
  obtain ⟨h1, h2⟩ := rint_near (q * 10 ^ d)
  refine ⟨rint (q * 10 ^ d), hk, ?_, ?_⟩
  · intro j
    rw [hk]
    have := (nearest_of_half h1 j).1
    rw [← hscale, ← hscale] at this
    exact le_of_mul_le_mul_right this hpos
  · intro j hj he
    rw [hk] at he
    have he' : |q * 10 ^ d - rint (q * 10 ^ d)| = |q * 10 ^ d - j| := by rw [← hscale, ← hscale, he]
    exact h2 ((nearest_of_half h1 j).2 hj he')

/-- The specification determines the number. -/
theorem rounded_unique {d : Int} {q x y : Rat} (hx : Rounded d q x) (hy : Rounded d q y) : x = y := by
  obtain ⟨k, rfl, h1, h2⟩ := hx
  obtain ⟨l, rfl, h3, h4⟩ := hy
  by_contra hne
  have hkl : k ≠ l := fun h => hne (by rw [h])
  have he : |q - k * (10 : Rat) ^ (-d)| = |q - l * (10 : Rat) ^ (-d)| := le_antisymm (h1 l) (h3 k)
  have ek := h2 l (Ne.symm hkl) he
  have el := h4 k hkl he.symm
  have hpos : (0 : Rat) < 10 ^ (-d) := zpow_pos (by norm_num) _
  -- the number is in the middle of two multiples, both even: the one between them is nearer
  rcases abs_eq_abs.mp he with h | h
  · have : (k : Rat) * 10 ^ (-d) = l * 10 ^ (-d) := by linarith
    exact hne this
  · have hmid : q = (((k + l) / 2 : Int) : Rat) * 10 ^ (-d) := by
      have : (((k + l) / 2 : Int) : Rat) = ((k : Rat) + l) / 2 := by
        have : (k + l) = 2 * ((k + l) / 2) := by omega
        have h' : ((k : Rat) + l) = 2 * (((k + l) / 2 : Int) : Rat) := by exact_mod_cast this
        linarith
      rw [this]
      linarith
    have h5 := h1 ((k + l) / 2)
    rw [← hmid, sub_self, abs_zero] at h5
    have h6 : q - k * (10 : Rat) ^ (-d) = 0 := abs_eq_zero.mp (le_antisymm h5 (abs_nonneg _))
    have h7 := h3 ((k + l) / 2)
    rw [← hmid, sub_self, abs_zero] at h7
    have h8 : q - l * (10 : Rat) ^ (-d) = 0 := abs_eq_zero.mp (le_antisymm h7 (abs_nonneg _))
    exact hne (by linarith)

/-- **C89.** Rounding keeps the dtype, the shape, the null value and the null cells, which hold the null value. -/
theorem C89_nulls (np : NumPy) (r : Raster) (d : Int) :
    (round np r d).dtype = r.dtype ∧ ((round np r d).nb, (round np r d).ny, (round np r d).nx) = (r.nb, r.ny, r.nx) ∧
    (round np r d).nv = r.nv ∧ (∀ c, (round np r d).mask c = r.mask c) ∧
    ∀ c s, r.nv = some s → r.mask c = true → (round np r d).data c = s.val := by
  unfold round
  cases h : r.nv with
  | none => exact ⟨rfl, rfl, rfl, fun _ => rfl, fun c s h' => by cases h'⟩
  | some s =>
    refine ⟨rfl, rfl, rfl, fun _ => rfl, ?_⟩
    intro c t h' hm
    cases h'
    simp [hm]

theorem round_valid (np : NumPy) {r : Raster} (d : Int) {c : Cell} (hm : r.mask c = false) :
    (round np r d).data c = npRound np r.dtype d (r.data c) := by
  unfold round
  cases h : r.nv <;> simp [hm]

/-- **C89 (partial: the result is a number of the dtype).** A valid finite cell is rounded to the nearest multiple of the power of ten,
ties to even; NaN and infinities are kept. -/
theorem C89_values_partial (np : NumPy) {r : Raster} {d : Int} {c : Cell} (hm : r.mask c = false) (hint : r.dtype.isInt = false ∨ d < 0)
    (hfit : ∀ q x, r.data c = .fin q → Rounded d q x → np.cast r.dtype (.fin x) = .fin x) :
    (∀ q, r.data c = .fin q → ∃ x, (round np r d).data c = .fin x ∧ Rounded d q x) ∧
    ((∀ q, r.data c ≠ .fin q) → (round np r d).data c = r.data c) := by
  rw [round_valid np d hm]
  refine ⟨?_, ?_⟩
  · intro q hq
    refine ⟨roundRat d q, ?_, roundRat_rounded d q⟩
    rw [hq]
    simp only [npRound]
    rw [if_neg]
    · exact hfit q _ hq (roundRat_rounded d q)
    · rintro ⟨h1, h2⟩
      rcases hint with h | h
      · rw [h] at h1; cases h1
      · omega
  · intro h
    cases hv : r.data c with
    | fin q => exact absurd hv (h q)
    | nan => rfl
    | posInf => rfl
    | negInf => rfl

/-- **C89.** Integers are not changed by rounding to decimals after the point; the value is then rounded already. -/
theorem C89_integers (np : NumPy) {r : Raster} {d : Int} {c : Cell} (hm : r.mask c = false) (hi : r.dtype.isInt = true) (hd : 0 ≤ d)
    {n : Int} (hn : r.data c = .fin n) : (round np r d).data c = .fin n ∧ Rounded d n n := by
  rw [round_valid np d hm, hn]
  refine ⟨by simp [npRound, hi, hd], ?_⟩
  obtain ⟨m, rfl⟩ := Int.eq_ofNat_of_zero_le hd
  have hp : (10 : Rat) ^ ((m : Int)) * 10 ^ (-(m : Int)) = 1 := by
    rw [← zpow_add₀ (by norm_num)]
    simp
  have hpos : (0 : Rat) < 10 ^ (-(m : Int)) := zpow_pos (by norm_num) _
  have hz : (n : Rat) = ((n * 10 ^ m : Int) : Rat) * 10 ^ (-(m : Int)) := by
    push_cast
    have : ((10 : Rat) ^ m) = 10 ^ ((m : Int)) := (zpow_natCast _ _).symm
    rw [this, mul_assoc, hp, mul_one]
  refine ⟨n * 10 ^ m, hz, ?_, ?_⟩
  · intro j
    rw [sub_self, abs_zero]
    exact abs_nonneg _
  · intro j hj he
    exfalso
    rw [sub_self, abs_zero] at he
    have he' := abs_eq_zero.mp he.symm
    rw [hz, ← sub_mul] at he'
    rcases mul_eq_zero.mp he' with h | h
    · apply hj
      have : ((n * 10 ^ m : Int) : Rat) = j := by linarith
      exact_mod_cast this.symm
    · exact absurd h hpos.ne'

theorem rounded_again {d : Int} {q x : Rat} (h : Rounded d q x) : Rounded d x x := by
  obtain ⟨k, hk, _, _⟩ := h
  have hpos : (0 : Rat) < 10 ^ (-d) := zpow_pos (by norm_num) _
  refine ⟨k, hk, fun j => by rw [sub_self, abs_zero]; exact abs_nonneg _, ?_⟩
  intro j hj he
  exfalso
  rw [sub_self, abs_zero] at he
  have he' := abs_eq_zero.mp he.symm
  rw [hk, ← sub_mul] at he'
  rcases mul_eq_zero.mp he' with h | h
  · apply hj
    have : (k : Rat) = j := by linarith
    exact_mod_cast this.symm
  · exact absurd h hpos.ne'

/-- **C89.** Rounding again changes nothing, if rounded numbers are numbers of the dtype. -/
theorem C89_idempotent (np : NumPy) (r : Raster) (d : Int)
    (hfit : ∀ c q x, r.data c = .fin q → Rounded d q x → np.cast r.dtype (.fin x) = .fin x) :
    ∀ c, (round np (round np r d) d).data c = (round np r d).data c := by
  intro c
  obtain ⟨h1, _, h3, h4, h5⟩ := C89_nulls np r d
  cases hm : r.mask c with
  | true =>
    cases hs : r.nv with
    | some s =>
      rw [h5 c s hs hm]
      exact (C89_nulls np (round np r d) d).2.2.2.2 c s (by rw [h3, hs]) (by rw [h4, hm])
    | none =>
      simp only [round, hs]
      cases hv : r.data c with
      | fin q =>
        by_cases hi : r.dtype.isInt = true ∧ 0 ≤ d
        · simp only [npRound, if_pos hi]
        · simp only [npRound, if_neg hi, hfit c q _ hv (roundRat_rounded d q)]
          rw [rounded_unique (roundRat_rounded d _) (rounded_again (roundRat_rounded d q))]
          exact hfit c q _ hv (roundRat_rounded d q)
      | nan => rfl
      | posInf => rfl
      | negInf => rfl
  | false =>
    rw [round_valid np d (r := round np r d) (by rw [h4, hm]), h1, round_valid np d hm]
    cases hv : r.data c with
    | fin q =>
      by_cases hi : r.dtype.isInt = true ∧ 0 ≤ d
      · simp only [npRound, if_pos hi]
      · simp only [npRound, if_neg hi, hfit c q _ hv (roundRat_rounded d q)]
        rw [rounded_unique (roundRat_rounded d _) (rounded_again (roundRat_rounded d q))]
        exact hfit c q _ hv (roundRat_rounded d q)
    | nan => rfl
    | posInf => rfl
    | negInf => rfl

/-- **C89.** Rounding keeps the order. -/
theorem C89_monotone {d : Int} {p q x y : Rat} (hx : Rounded d p x) (hy : Rounded d q y) (h : p ≤ q) : x ≤ y := by
  rcases eq_or_lt_of_le h with rfl | h
  · exact (rounded_unique hx hy).le
  · obtain ⟨k, rfl, h1, _⟩ := hx
    obtain ⟨l, rfl, h2, _⟩ := hy
    by_contra hlt
    have hlt := not_le.mp hlt
    have a1 := h1 l
    have a2 := h2 k
    set u := (k : Rat) * 10 ^ (-d)
    set v := (l : Rat) * 10 ^ (-d)
    rcases abs_cases (p - u) with ⟨e1, _⟩ | ⟨e1, _⟩ <;> rcases abs_cases (p - v) with ⟨e2, _⟩ | ⟨e2, _⟩ <;>
      rcases abs_cases (q - u) with ⟨e3, _⟩ | ⟨e3, _⟩ <;> rcases abs_cases (q - v) with ⟨e4, _⟩ | ⟨e4, _⟩ <;>
      rw [e1, e2] at a1 <;> rw [e3, e4] at a2 <;> linarith

/-- **C89 is false of the code** for integers and negative decimals if the multiple is not a number of the dtype: 255 rounded to tens
is not 260 in uint8, nor any other multiple of ten as near. -/
theorem C89_wraps (np : NumPy) {r : Raster} {c : Cell} (hm : r.mask c = false) (hu : r.dtype = u8) (hv : r.data c = .fin 255)
    (hcast : ∀ v, ∃ n : Int, np.cast u8 v = .fin n ∧ u8.Holds n) :
    ∀ x, (round np r (-1)).data c = .fin x → ¬ Rounded (-1) 255 x := by
  intro x hx hr
  have h260 : Rounded (-1) 255 260 := by
    have : roundRat (-1) 255 = 260 := by
      norm_num [roundRat, rint]
    rw [← this]
    exact roundRat_rounded _ _
  have := rounded_unique hr h260
  subst this
  rw [round_valid np _ hm, hu, hv] at hx
  simp only [npRound] at hx
  rw [if_neg (by omega)] at hx
  obtain ⟨n, h1, lo, hi, h2, h3, h4⟩ := hcast (.fin (roundRat (-1) 255))
  rw [h1] at hx
  have : (n : Rat) = 260 := by simpa using hx
  have hn : n = 260 := by exact_mod_cast this
  cases h2
  omega

/-- **C89.** A valid cell can be rounded to the null value; it is still valid in the mask, but its data says null. -/
theorem C89_becomes_null_value (np : NumPy) {r : Raster} {d : Int} {c : Cell} {s : Scalar} {q x : Rat} (hs : r.nv = some s)
    (hm : r.mask c = false) (hf : r.dtype.isFloat = true) (hq : r.data c = .fin q) (hx : Rounded d q x) (hsx : s.val = .fin x)
    (hfit : np.cast r.dtype (.fin x) = .fin x) :
    (round np r d).mask c = false ∧ maskOf (((round np r d).nv).map (·.val)) ((round np r d).data c) = true := by
  refine ⟨by rw [(C89_nulls np r d).2.2.2.1, hm], ?_⟩
  have hi : r.dtype.isInt = false := by
    cases hd : r.dtype <;> rw [hd] at hf <;> first | rfl | cases hf
  rw [(C89_nulls np r d).2.2.1, hs, round_valid np d hm, hq]
  simp only [npRound, hi, Bool.false_eq_true, false_and, if_false, rounded_unique (roundRat_rounded d q) hx, hfit, Option.map_some]
  exact (maskOf_iff _ _).mpr hsx.symm

/-! ### Concrete cases -/

/-- Floats with the null value 3, one null cell. -/
def exRaster : Raster :=
  ⟨f64, 1, 1, 5, fun c => ([.fin (5 / 2), .fin 3, .fin (26 / 10), .nan, .fin (-125 / 100)] : List Num).getD c.2.2 (.fin 0),
    fun c => c.2.2 == 1, some ⟨f64, .fin 3⟩⟩

theorem ex_rounded : roundRat 0 (5 / 2) = 2 ∧ roundRat 0 (7 / 2) = 4 ∧ roundRat 0 (26 / 10) = 3 ∧ roundRat 1 (-125 / 100) = -12 / 10 ∧
    roundRat (-2) 1250 = 1200 := by
  norm_num [roundRat, rint]

example : (round (idNumPy true) exRaster 0).data (0, 0, 0) = .fin 2 ∧ (round (idNumPy true) exRaster 0).data (0, 0, 1) = .fin 3 ∧
    (round (idNumPy true) exRaster 0).data (0, 0, 2) = .fin 3 ∧ exRaster.mask (0, 0, 2) = false ∧
    (round (idNumPy true) exRaster 0).data (0, 0, 3) = .nan ∧
    (round (idNumPy true) exRaster 1).data (0, 0, 4) = .fin (-12 / 10) := by
  obtain ⟨h1, _, h3, h4, _⟩ := ex_rounded
  refine ⟨?_, by rfl, ?_, by rfl, by rfl, ?_⟩
  · simp [round, exRaster, npRound, isInt, idNumPy, h1]
  · simp [round, exRaster, npRound, isInt, idNumPy, h3]
  · simp [round, exRaster, npRound, isInt, idNumPy, h4]

/-- The hypotheses hold for a cast that keeps the values, and for one to uint8 that wraps. -/
example : (∀ c q x, exRaster.data c = .fin q → Rounded 0 q x → (idNumPy true).cast exRaster.dtype (.fin x) = .fin x) ∧
    (∀ v : Num, ∃ n : Int, (⟨true, fun _ v => match v with
      | .fin q => .fin ((⌊q⌋ % 256 : Int) : Rat)
      | _ => .fin 0⟩ : NumPy).cast u8 v = .fin n ∧ u8.Holds n) := by
  refine ⟨fun _ _ _ _ _ => rfl, ?_⟩
  intro v
  cases v with
  | fin q => exact ⟨⌊q⌋ % 256, rfl, 0, 2 ^ 8 - 1, rfl, by omega, by omega⟩
  | nan => exact ⟨0, by simp, 0, 2 ^ 8 - 1, rfl, by norm_num, by norm_num⟩
  | posInf => exact ⟨0, by simp, 0, 2 ^ 8 - 1, rfl, by norm_num, by norm_num⟩
  | negInf => exact ⟨0, by simp, 0, 2 ^ 8 - 1, rfl, by norm_num, by norm_num⟩

end Verif.Round
