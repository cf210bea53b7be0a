import Verif.Surface.Model
import Verif.Focal.Lemmas
import Mathlib.Tactic.Linarith
import Mathlib.Tactic.FieldSimp
import Mathlib.Tactic.Ring
import Mathlib.Tactic.NormNum
set_option linter.unusedSectionVars false
/-!
# Surface derivatives (C37, C50, C51, C52, C53)
-/

namespace Verif.Surface

open Verif Val

/-! ## What the properties talk about -/

namespace Spec

/-- One cell is the other one or one of its eight neighbours. -/
def Near (row col row' col' : Nat) : Prop := row ≤ row' + 1 ∧ row' ≤ row + 1 ∧ col ≤ col' + 1 ∧ col' ≤ col + 1

/-- The cell is not in the outermost rows and columns. -/
def Interior (r : Raster) (row col : Nat) : Prop := 0 < row ∧ row + 1 < r.ny ∧ 0 < col ∧ col + 1 < r.nx

/-- The cell and its neighbours are not null and have the elevations `z`. -/
def Elevations (r : Raster) (row col : Nat) (z : Nat → Nat → ℝ) : Prop :=
  ∀ row' col', Near row col row' col' → r.mask row' col' = false ∧ r.data row' col' = num (z row' col')

/-- The chunks make up the raster. -/
def Chunked (r : Raster) : Prop := r.ychunks.sum = r.ny ∧ r.xchunks.sum = r.nx

/-- The elevations of a plane: `a` up per unit to the east, `b` up per unit to the north. -/
def plane (res : ℝ × ℝ) (a b k x0 y0 : ℝ) (row col : Nat) : ℝ := a * (x0 + col * res.1) + b * (y0 + row * res.2) + k

/-- The rise over a cell to the east and to the south after Horn: the weighted mean of three differences over two cells. -/
noncomputable def rise (z : Nat → Nat → ℝ) (row col : Nat) : ℝ × ℝ :=
  (((z (row - 1) (col + 1) - z (row - 1) (col - 1)) + 2 * (z row (col + 1) - z row (col - 1)) +
      (z (row + 1) (col + 1) - z (row + 1) (col - 1))) / 8,
   ((z (row + 1) (col - 1) - z (row - 1) (col - 1)) + 2 * (z (row + 1) col - z (row - 1) col) +
      (z (row + 1) (col + 1) - z (row - 1) (col + 1))) / 8)

end Spec

open Spec

/-! ## Arithmetic with NaN -/

@[simp] theorem num_add (x y : ℝ) : num x + num y = num (x + y) := rfl
@[simp] theorem num_sub (x y : ℝ) : num x - num y = num (x - y) := rfl
@[simp] theorem num_mul (x y : ℝ) : num x * num y = num (x * y) := rfl
@[simp] theorem num_div (x y : ℝ) : num x / num y = num (x / y) := rfl
@[simp] theorem num_neg (x : ℝ) : -(num x) = num (-x) := rfl
@[simp] theorem num_ofNat (n : Nat) [n.AtLeastTwo] : (OfNat.ofNat n : Val) = num (OfNat.ofNat n : ℝ) := rfl
@[simp] theorem num_zero : (0 : Val) = num 0 := by show num ((0 : Nat) : ℝ) = _; simp
@[simp] theorem nan_add (x : Val) : nan + x = nan := rfl
@[simp] theorem add_nan (x : Val) : x + nan = nan := by cases x <;> rfl
@[simp] theorem nan_sub (x : Val) : nan - x = nan := rfl
@[simp] theorem sub_nan (x : Val) : x - nan = nan := by cases x <;> rfl
@[simp] theorem nan_mul (x : Val) : nan * x = nan := rfl
@[simp] theorem mul_nan (x : Val) : x * nan = nan := by cases x <;> rfl
@[simp] theorem nan_div (x : Val) : nan / x = nan := rfl
@[simp] theorem div_nan (x : Val) : x / nan = nan := by cases x <;> rfl
@[simp] theorem neg_nan : -nan = nan := rfl
@[simp] theorem sqrt_num (x : ℝ) : Val.sqrt (num x) = num (Real.sqrt x) := rfl
@[simp] theorem arctan_num (x : ℝ) : Val.arctan (num x) = num (Real.arctan x) := rfl
@[simp] theorem cos_num (x : ℝ) : Val.cos (num x) = num (Real.cos x) := rfl
@[simp] theorem sin_num (x : ℝ) : Val.sin (num x) = num (Real.sin x) := rfl
@[simp] theorem arctan2_num (y x : ℝ) : arctan2 (num y) (num x) = num (Complex.arg ⟨x, y⟩) := rfl
@[simp] theorem eq_num (x y : ℝ) : (num x).eq (num y) = decide (x = y) := rfl
@[simp] theorem lt_num (x y : ℝ) : (num x).lt (num y) = decide (x < y) := rfl
@[simp] theorem le_num (x y : ℝ) : (num x).le (num y) = decide (x ≤ y) := rfl

/-! ## Chunks do not matter -/

/-- Every cell of the result is the function of the neighbourhood of the cell in the whole raster. -/
theorem mapCells_eq (cell : Around → Val) (r : Raster) (hc : Chunked r) {row col : Nat} (h1 : row < r.ny) (h2 : col < r.nx) :
    mapCells cell r row col = some (cell fun i j => r.extended (row + i) (col + j)) := by
  obtain ⟨r0, h, c0, w, e1, e2, e3, e4, e⟩ := Focal.mapOverlap_spec (inner cell) r.extended 1 1
    (ychunks := r.ychunks) (xchunks := r.xchunks) (r := row) (c := col) (by rw [hc.1]; exact h1) (by rw [hc.2]; exact h2)
  unfold mapCells
  rw [e]
  unfold inner
  rw [if_pos (by constructor <;> (try constructor) <;> (try constructor) <;> push_cast <;> omega)]
  congr 2
  funext i j
  show r.extended _ _ = r.extended _ _
  congr 1 <;> push_cast <;> ring

/-- **C37**, memory: the loops, which are compiled without bounds checks, only visit cells all of whose neighbours lie in the
block, and they visit all of those. -/
theorem C37_reads_inside (cell : Around → Val) (rows cols : Nat) (xarr : Int → Int → Val) (ri ci : Int) :
    (∃ v, inner cell rows cols xarr ri ci = some v) ↔
      ∀ i j : Int, |i| ≤ 1 → |j| ≤ 1 → 0 ≤ ri + i ∧ ri + i < rows ∧ 0 ≤ ci + j ∧ ci + j < cols := by
  have h : (∃ v, inner cell rows cols xarr ri ci = some v) ↔ 1 ≤ ri ∧ ri < rows - 1 ∧ 1 ≤ ci ∧ ci < cols - 1 := by
    unfold inner
    split
    · exact ⟨fun _ => by assumption, fun _ => ⟨_, rfl⟩⟩
    · constructor
      · rintro ⟨v, hv⟩
        cases hv
      · intro h
        contradiction
  rw [h]
  constructor
  · intro h i j hi hj
    rw [abs_le] at hi hj
    omega
  · intro h
    have h1 := h 1 1 (by decide) (by decide)
    have h2 := h (-1) (-1) (by decide) (by decide)
    omega

/-- Cell (1, 1) of a block of three rows and columns is visited. -/
example : ∃ v, inner (fun x => x 0 0) 3 3 (fun _ _ => nan) 1 1 = some v :=
  (C37_reads_inside _ 3 3 _ 1 1).mpr fun i j hi hj => by
    rw [abs_le] at hi hj
    constructor <;> (try constructor) <;> (try constructor) <;> push_cast <;> omega

/-- The neighbourhood of an inner cell with known elevations. -/
theorem extended_eq {r : Raster} {row col : Nat} {z : Nat → Nat → ℝ} (hi : Interior r row col) (hz : Elevations r row col z)
    {i j : Int} (h1 : -1 ≤ i) (h2 : i ≤ 1) (h3 : -1 ≤ j) (h4 : j ≤ 1) :
    r.extended (row + i) (col + j) = num (z (row + i).toNat (col + j).toNat) := by
  obtain ⟨a1, a2, a3, a4⟩ := hi
  obtain ⟨m, d⟩ := hz (row + i).toNat (col + j).toNat ⟨by omega, by omega, by omega, by omega⟩
  unfold Raster.extended Raster.nullToNan
  rw [if_pos ⟨by omega, by omega, by omega, by omega⟩, m, d]
  simp

/-- The nine values around an inner cell with known elevations. -/
theorem around_eq {r : Raster} {row col : Nat} {z : Nat → Nat → ℝ} (hi : Interior r row col) (hz : Elevations r row col z) :
    let x : Around := fun i j => r.extended (row + i) (col + j)
    x (-1) (-1) = num (z (row - 1) (col - 1)) ∧ x (-1) 0 = num (z (row - 1) col) ∧ x (-1) 1 = num (z (row - 1) (col + 1)) ∧
    x 0 (-1) = num (z row (col - 1)) ∧ x 0 0 = num (z row col) ∧ x 0 1 = num (z row (col + 1)) ∧
    x 1 (-1) = num (z (row + 1) (col - 1)) ∧ x 1 0 = num (z (row + 1) col) ∧ x 1 1 = num (z (row + 1) (col + 1)) := by
  intro x
  obtain ⟨a1, a2, a3, a4⟩ := id hi
  have hm : ∀ n : Nat, 0 < n → ((n : Int) + -1).toNat = n - 1 := by intro n h; omega
  have h0 : ∀ n : Nat, ((n : Int) + 0).toNat = n := by intro n; omega
  have hp : ∀ n : Nat, ((n : Int) + 1).toNat = n + 1 := by intro n; omega
  refine ⟨?_, ?_, ?_, ?_, ?_, ?_, ?_, ?_, ?_⟩ <;>
    (show r.extended _ _ = _
     rw [extended_eq hi hz (by omega) (by omega) (by omega) (by omega)]
     first
     | rw [hm _ a1, hm _ a3]
     | rw [hm _ a1, h0]
     | rw [hm _ a1, hp]
     | rw [h0, hm _ a3]
     | rw [h0, h0]
     | rw [h0, hp]
     | rw [hp, hm _ a3]
     | rw [hp, h0]
     | rw [hp, hp])

/-- A cell that is not null and not at an edge keeps the computed value. -/
theorem finalize_inner {r : Raster} {row col : Nat} {z : Nat → Nat → ℝ} (hi : Interior r row col)
    (hz : Elevations r row col z) (nv v : Val) : finalize r nv row col v = ⟨v, false⟩ := by
  obtain ⟨a1, a2, a3, a4⟩ := hi
  have hm := (hz row col ⟨by omega, by omega, by omega, by omega⟩).1
  unfold finalize edgeMask
  rw [if_neg]
  rw [hm]
  simp
  omega

theorem interior_lt {r : Raster} {row col : Nat} (h : Interior r row col) : row < r.ny ∧ col < r.nx := by
  unfold Interior at h
  omega

/-! ## Slope -/

theorem gradient_eq {r : Raster} {row col : Nat} {z : Nat → Nat → ℝ} (hi : Interior r row col) (hz : Elevations r row col z) :
    gradient r.res (fun i j => r.extended (row + i) (col + j)) =
      (num ((rise z row col).1 / r.res.1), num (-(rise z row col).2 / r.res.2)) := by
  obtain ⟨e1, e2, e3, e4, _, e6, e7, e8, e9⟩ := around_eq hi hz
  unfold gradient
  simp only at e1 e2 e3 e4 e6 e7 e8 e9
  simp only [e1, e2, e3, e4, e6, e7, e8, e9, num_ofNat, num_add, num_sub, num_mul, num_div, rise]
  congr 2
  · rw [div_div, mul_comm r.res.1]; congr 1; ring
  · rw [← neg_div, div_div, mul_comm r.res.2]; congr 1; ring

/-- The rise of a plane over a cell. -/
theorem rise_plane (res : ℝ × ℝ) (a b k x0 y0 : ℝ) {row col : Nat} (h1 : 0 < row) (h2 : 0 < col) :
    rise (plane res a b k x0 y0) row col = (a * res.1, b * res.2) := by
  unfold rise plane
  obtain ⟨row, rfl⟩ : ∃ n, row = n + 1 := ⟨row - 1, by omega⟩
  obtain ⟨col, rfl⟩ : ∃ n, col = n + 1 := ⟨col - 1, by omega⟩
  simp only [Nat.add_sub_cancel]
  push_cast
  congr 1 <;> ring

/-- **C37** (slope).  On a plane the slope is the length of its gradient, or the angle with this tangent in degrees, for
every raster size, chunking, resolution and cell that is not at the edge and has no null neighbours. -/
theorem C37_slope (r : Raster) (hc : Chunked r) {row col : Nat} (hi : Interior r row col) (a b k x0 y0 : ℝ)
    (h1 : r.res.1 ≠ 0) (h2 : r.res.2 ≠ 0) (hz : Elevations r row col (plane r.res a b k x0 y0)) :
    slope false r row col = some ⟨num (Real.sqrt (a ^ 2 + b ^ 2)), false⟩ ∧
    slope true r row col = some ⟨num (Real.arctan (Real.sqrt (a ^ 2 + b ^ 2)) * (180 / Real.pi)), false⟩ := by
  have e : ∀ d, slope d r row col = some ⟨slopeCell r.res d fun i j => r.extended (row + i) (col + j), false⟩ := by
    intro d
    unfold slope
    rw [mapCells_eq _ r hc (interior_lt hi).1 (interior_lt hi).2, Option.map_some, finalize_inner hi hz]
  rw [e, e]
  unfold slopeCell
  rw [gradient_eq hi hz, rise_plane _ _ _ _ _ _ hi.1 hi.2.2.1]
  simp only [num_add, num_mul, sqrt_num, arctan_num, toDegrees, if_true, Bool.false_eq_true, if_false]
  have e1 : a * r.res.1 / r.res.1 = a := mul_div_cancel_right₀ a h1
  have e2 : -(b * r.res.2) / r.res.2 = -b := by rw [neg_div, mul_div_cancel_right₀ b h2]
  rw [e1, e2]
  have e3 : a * a + -b * -b = a ^ 2 + b ^ 2 := by ring
  rw [e3]
  exact ⟨rfl, rfl⟩

/-! ## Curvature -/

/-- The elevations of a surface of second degree. -/
def Spec.quadric (res : ℝ × ℝ) (p q t a b k x0 y0 : ℝ) (row col : Nat) : ℝ :=
  p * (x0 + col * res.1) ^ 2 + q * (x0 + col * res.1) * (y0 + row * res.2) + t * (y0 + row * res.2) ^ 2 +
    a * (x0 + col * res.1) + b * (y0 + row * res.2) + k

theorem curvature_eq (r : Raster) (hc : Chunked r) {row col : Nat} (hi : Interior r row col) {z : Nat → Nat → ℝ}
    (hz : Elevations r row col z) : curvature r row col =
      some ⟨num (-2 * (((z row (col - 1) + z row (col + 1)) / 2 - z row col) +
        ((z (row - 1) col + z (row + 1) col) / 2 - z row col)) * 100 / (|r.res.1| * |r.res.2|)), false⟩ := by
  obtain ⟨_, e2, _, e4, e5, e6, _, e8, _⟩ := around_eq hi hz
  unfold curvature
  rw [mapCells_eq _ r hc (interior_lt hi).1 (interior_lt hi).2, Option.map_some, finalize_inner hi hz]
  unfold curvCell
  simp only at e2 e4 e5 e6 e8
  simp only [e2, e4, e5, e6, e8, num_ofNat, num_add, num_sub, num_mul, num_div]

/-- **C37** (curvature).  On a surface of second degree `p x² + q x y + t y² + …` with square cells the curvature is
`-200 (p + t)`, so that hills are positive; on a plane it is 0, for cells of any size. -/
theorem C37_curvature (r : Raster) (hc : Chunked r) {row col : Nat} (hi : Interior r row col) (p q t a b k x0 y0 : ℝ)
    (h1 : r.res.1 ≠ 0) (h2 : |r.res.1| = |r.res.2| ∨ p = 0 ∧ t = 0)
    (hz : Elevations r row col (quadric r.res p q t a b k x0 y0)) :
    curvature r row col = some ⟨num (-200 * (p + t)), false⟩ := by
  rw [curvature_eq r hc hi hz]
  obtain ⟨a1, _, a3, _⟩ := hi
  obtain ⟨row, rfl⟩ : ∃ n, row = n + 1 := ⟨row - 1, by omega⟩
  obtain ⟨col, rfl⟩ : ∃ n, col = n + 1 := ⟨col - 1, by omega⟩
  simp only [Nat.add_sub_cancel]
  congr 3
  have e : -2 * (((quadric r.res p q t a b k x0 y0 (row + 1) col + quadric r.res p q t a b k x0 y0 (row + 1) (col + 1 + 1)) / 2 -
        quadric r.res p q t a b k x0 y0 (row + 1) (col + 1)) +
      ((quadric r.res p q t a b k x0 y0 row (col + 1) + quadric r.res p q t a b k x0 y0 (row + 1 + 1) (col + 1)) / 2 -
        quadric r.res p q t a b k x0 y0 (row + 1) (col + 1))) * 100 = -200 * (p * r.res.1 ^ 2 + t * r.res.2 ^ 2) := by
    unfold quadric
    push_cast
    ring
  rw [e]
  rcases h2 with h2 | ⟨rfl, rfl⟩
  · have e2 : r.res.2 ^ 2 = r.res.1 ^ 2 := by rw [← sq_abs r.res.2, ← h2, sq_abs]
    rw [← h2, e2, ← abs_mul, abs_mul_self]
    field_simp
  · simp

/-! ## Aspect -/

theorem sqrt_mul_arg (p q : ℝ) : Real.sqrt (p ^ 2 + q ^ 2) * Real.cos (Complex.arg ⟨p, q⟩) = p ∧
    Real.sqrt (p ^ 2 + q ^ 2) * Real.sin (Complex.arg ⟨p, q⟩) = q := by
  have e : Real.sqrt (p ^ 2 + q ^ 2) = ‖(⟨p, q⟩ : ℂ)‖ := by rw [Complex.norm_eq_sqrt_sq_add_sq]
  rw [e]
  by_cases h : (⟨p, q⟩ : ℂ) = 0
  · rw [h]
    have h1 : p = 0 := congrArg Complex.re h
    have h2 : q = 0 := congrArg Complex.im h
    simp [h1, h2]
  · rw [Complex.cos_arg h, Complex.sin_arg]
    have := norm_ne_zero_iff.mpr h
    constructor <;> field_simp

/-- The value that `aspect` gives to a rise of `p` to the east and of `q` to the south. -/
noncomputable def aspectOf (p q : ℝ) : ℝ :=
  if Complex.arg ⟨-p, q⟩ * (180 / Real.pi) ≤ 90 then 90 - Complex.arg ⟨-p, q⟩ * (180 / Real.pi)
  else 450 - Complex.arg ⟨-p, q⟩ * (180 / Real.pi)

theorem aspectOf_spec (p q : ℝ) : 0 ≤ aspectOf p q ∧ aspectOf p q < 360 ∧
    -p = Real.sqrt (p ^ 2 + q ^ 2) * Real.sin (aspectOf p q * (Real.pi / 180)) ∧
    q = Real.sqrt (p ^ 2 + q ^ 2) * Real.cos (aspectOf p q * (Real.pi / 180)) := by
  have hpi := Real.pi_pos
  obtain ⟨l, u⟩ := Complex.arg_mem_Ioc (⟨-p, q⟩ : ℂ)
  obtain ⟨ec, es⟩ := sqrt_mul_arg (-p) q
  unfold aspectOf
  set t := Complex.arg (⟨-p, q⟩ : ℂ)
  have l' : -180 < t * (180 / Real.pi) := by
    have := mul_lt_mul_of_pos_right l (show 0 < 180 / Real.pi by positivity)
    rwa [neg_mul, mul_div_cancel₀ _ hpi.ne'] at this
  have u' : t * (180 / Real.pi) ≤ 180 := by
    have := mul_le_mul_of_nonneg_right u (show 0 ≤ 180 / Real.pi by positivity)
    rwa [mul_div_cancel₀ _ hpi.ne'] at this
  have e1 : (90 - t * (180 / Real.pi)) * (Real.pi / 180) = Real.pi / 2 - t := by field_simp; ring
  have e2 : (450 - t * (180 / Real.pi)) * (Real.pi / 180) = Real.pi / 2 - t + 2 * Real.pi := by field_simp; ring
  rw [neg_sq] at ec es
  split
  · refine ⟨by linarith, by linarith, ?_, ?_⟩
    · rw [e1, Real.sin_pi_div_two_sub]; exact ec.symm
    · rw [e1, Real.cos_pi_div_two_sub]; exact es.symm
  · refine ⟨by linarith, by linarith, ?_, ?_⟩
    · rw [e2, Real.sin_add_two_pi, Real.sin_pi_div_two_sub]; exact ec.symm
    · rw [e2, Real.cos_add_two_pi, Real.cos_pi_div_two_sub]; exact es.symm

theorem aspect_eq (r : Raster) (hc : Chunked r) {row col : Nat} (hi : Interior r row col) {z : Nat → Nat → ℝ}
    (hz : Elevations r row col z) : aspect r row col =
      some ⟨num (if rise z row col = (0, 0) then -1 else aspectOf (rise z row col).1 (rise z row col).2), false⟩ := by
  obtain ⟨e1, e2, e3, e4, _, e6, e7, e8, e9⟩ := around_eq hi hz
  unfold aspect
  rw [mapCells_eq _ r hc (interior_lt hi).1 (interior_lt hi).2, Option.map_some, finalize_inner hi hz]
  unfold aspectCell
  simp only at e1 e2 e3 e4 e6 e7 e8 e9
  simp only [e1, e2, e3, e4, e6, e7, e8, e9, num_ofNat, num_zero, num_add, num_sub, num_mul, num_div, num_neg, eq_num,
    arctan2_num, toDegrees, le_num]
  have a1 : (z (row - 1) (col + 1) + 2 * z row (col + 1) + z (row + 1) (col + 1) -
      (z (row - 1) (col - 1) + 2 * z row (col - 1) + z (row + 1) (col - 1))) / 8 = (rise z row col).1 := by
    unfold rise; ring
  have a2 : (z (row + 1) (col - 1) + 2 * z (row + 1) col + z (row + 1) (col + 1) -
      (z (row - 1) (col - 1) + 2 * z (row - 1) col + z (row - 1) (col + 1))) / 8 = (rise z row col).2 := by
    unfold rise; ring
  rw [a1, a2]
  by_cases h : rise z row col = (0, 0)
  · rw [if_pos h, h]; simp
  · rw [if_neg h, if_neg]
    · unfold aspectOf
      congr 2
      by_cases h' : Complex.arg ⟨-(rise z row col).1, (rise z row col).2⟩ * (180 / Real.pi) ≤ 90
      · rw [if_pos h', if_pos (by simpa using h')]
      · rw [if_neg h', if_neg (by simpa using h')]
    · intro h'
      simp only [Bool.and_eq_true, decide_eq_true_eq] at h'
      exact h (Prod.ext h'.1 h'.2)

/-- **C37** (aspect).  The aspect is -1 exactly if the surface does not rise in any direction, and otherwise at least 0 and
less than 360. -/
theorem C37_aspect (r : Raster) (hc : Chunked r) {row col : Nat} (hi : Interior r row col) {z : Nat → Nat → ℝ}
    (hz : Elevations r row col z) : ∃ v, aspect r row col = some ⟨num v, false⟩ ∧ (v = -1 ↔ rise z row col = (0, 0)) ∧
      (rise z row col ≠ (0, 0) → 0 ≤ v ∧ v < 360) := by
  refine ⟨_, aspect_eq r hc hi hz, ?_, ?_⟩
  · obtain ⟨h0, _⟩ := aspectOf_spec (rise z row col).1 (rise z row col).2
    by_cases h : rise z row col = (0, 0)
    · simp [h]
    · rw [if_neg h]
      refine ⟨fun e => ?_, fun e => absurd e h⟩
      linarith
  · intro h
    rw [if_neg h]
    obtain ⟨h0, h1, _⟩ := aspectOf_spec (rise z row col).1 (rise z row col).2
    exact ⟨h0, h1⟩

/-- **C50**, for square cells with rows from north to south and columns from west to east.  On a plane that is not level
the aspect is the compass direction, in degrees clockwise from north, in which the plane falls most steeply: the plane
falls by `-a` to the east and by `-b` to the north.  Missing: other cells (`C50_south_up`, `C50_rectangular_cells`). -/
theorem C50_downhill_partial (r : Raster) (hc : Chunked r) {row col : Nat} (hi : Interior r row col) (a b k x0 y0 : ℝ)
    (h1 : 0 < r.res.1) (h2 : r.res.2 = -r.res.1) (hab : ¬(a = 0 ∧ b = 0))
    (hz : Elevations r row col (plane r.res a b k x0 y0)) :
    ∃ v, aspect r row col = some ⟨num v, false⟩ ∧ 0 ≤ v ∧ v < 360 ∧
      -a = Real.sqrt (a ^ 2 + b ^ 2) * Real.sin (v * (Real.pi / 180)) ∧
      -b = Real.sqrt (a ^ 2 + b ^ 2) * Real.cos (v * (Real.pi / 180)) := by
  have hr := rise_plane r.res a b k x0 y0 hi.1 hi.2.2.1
  obtain ⟨c0, c1, c2, c3⟩ := aspectOf_spec (a * r.res.1) (b * r.res.2)
  refine ⟨aspectOf (a * r.res.1) (b * r.res.2), ?_, c0, c1, ?_, ?_⟩
  · rw [aspect_eq r hc hi hz, hr, if_neg]
    intro h
    simp only [Prod.mk.injEq, mul_eq_zero] at h
    rw [h2] at h
    have h1' := h1.ne'
    exact hab ⟨h.1.resolve_right h1', h.2.resolve_right (neg_ne_zero.mpr h1')⟩
  · have e : Real.sqrt ((a * r.res.1) ^ 2 + (b * r.res.2) ^ 2) = r.res.1 * Real.sqrt (a ^ 2 + b ^ 2) := by
      rw [h2, show (a * r.res.1) ^ 2 + (b * -r.res.1) ^ 2 = r.res.1 ^ 2 * (a ^ 2 + b ^ 2) by ring,
        Real.sqrt_mul (sq_nonneg _), Real.sqrt_sq h1.le]
    rw [e] at c2
    have : r.res.1 * -a = r.res.1 * (Real.sqrt (a ^ 2 + b ^ 2) *
        Real.sin (aspectOf (a * r.res.1) (b * r.res.2) * (Real.pi / 180))) := by linarith
    exact mul_left_cancel₀ h1.ne' this
  · have e : Real.sqrt ((a * r.res.1) ^ 2 + (b * r.res.2) ^ 2) = r.res.1 * Real.sqrt (a ^ 2 + b ^ 2) := by
      rw [h2, show (a * r.res.1) ^ 2 + (b * -r.res.1) ^ 2 = r.res.1 ^ 2 * (a ^ 2 + b ^ 2) by ring,
        Real.sqrt_mul (sq_nonneg _), Real.sqrt_sq h1.le]
    rw [e] at c3
    have : r.res.1 * -b = r.res.1 * (Real.sqrt (a ^ 2 + b ^ 2) *
        Real.cos (aspectOf (a * r.res.1) (b * r.res.2) * (Real.pi / 180))) := by rw [← mul_assoc, ← c3, h2]; ring
    exact mul_left_cancel₀ h1.ne' this

/-- A raster without null value, in chunks. -/
def Toy.raster (res : ℝ × ℝ) (z : Nat → Nat → ℝ) : Raster :=
  ⟨4, 5, fun i j => num (z i j), fun _ _ => false, false, res, [1, 3], [2, 3]⟩

theorem Toy.chunked (res : ℝ × ℝ) (z : Nat → Nat → ℝ) : Chunked (Toy.raster res z) := ⟨rfl, rfl⟩
theorem Toy.interior (res : ℝ × ℝ) (z : Nat → Nat → ℝ) : Interior (Toy.raster res z) 2 3 := by
  refine ⟨?_, ?_, ?_, ?_⟩ <;> simp [Toy.raster]
theorem Toy.elevations (res : ℝ × ℝ) (z : Nat → Nat → ℝ) (row col : Nat) : Elevations (Toy.raster res z) row col z :=
  fun _ _ _ => ⟨rfl, rfl⟩

/-- A case for `C37_slope`: cells of 10 by 30 units, rows from north to south. -/
example : slope false (Toy.raster (10, -30) (plane (10, -30) 3 4 7 500 900)) 2 3 = some ⟨num 5, false⟩ := by
  have := (C37_slope (Toy.raster (10, -30) (plane (10, -30) 3 4 7 500 900)) (Toy.chunked _ _) (Toy.interior _ _) 3 4 7 500 900
    (by norm_num [Toy.raster]) (by norm_num [Toy.raster]) (Toy.elevations _ _ _ _)).1
  rw [this, show (3 : ℝ) ^ 2 + 4 ^ 2 = 5 ^ 2 by norm_num, Real.sqrt_sq (by norm_num)]

/-- A case for `C37_curvature`: a hill. -/
example : curvature (Toy.raster (2, -2) (quadric (2, -2) (-1) 1 (-3) 4 5 6 7 8)) 2 3 = some ⟨num 800, false⟩ := by
  rw [C37_curvature (Toy.raster (2, -2) (quadric (2, -2) (-1) 1 (-3) 4 5 6 7 8)) (Toy.chunked _ _) (Toy.interior _ _)
    (-1) 1 (-3) 4 5 6 7 8 (by norm_num [Toy.raster]) (Or.inl (by norm_num [Toy.raster])) (Toy.elevations _ _ _ _)]
  norm_num

/-- Cases for `C37_aspect` and `C50_downhill_partial`. -/
example : ∃ v, aspect (Toy.raster (2, -2) (plane (2, -2) 1 0 0 0 0)) 2 3 = some ⟨num v, false⟩ ∧ 0 ≤ v ∧ v < 360 ∧
    -1 = Real.sqrt (1 ^ 2 + 0 ^ 2) * Real.sin (v * (Real.pi / 180)) ∧
    -0 = Real.sqrt (1 ^ 2 + 0 ^ 2) * Real.cos (v * (Real.pi / 180)) :=
  C50_downhill_partial (Toy.raster (2, -2) (plane (2, -2) 1 0 0 0 0)) (Toy.chunked _ _) (Toy.interior _ _) 1 0 0 0 0
    (by norm_num [Toy.raster]) (by norm_num [Toy.raster]) (by norm_num) (Toy.elevations _ _ _ _)

example : aspect (Toy.raster (2, -2) (plane (2, -2) 0 0 9 0 0)) 2 3 = some ⟨num (-1), false⟩ := by
  rw [aspect_eq _ (Toy.chunked _ _) (Toy.interior _ _) (Toy.elevations _ _ _ _), rise_plane _ _ _ _ _ _ (by decide) (by decide)]
  simp

/-- **C50** is false if the rows go from south to north: a plane that falls to the south gets the aspect of one that falls
to the north. -/
theorem C50_south_up : ∃ (r : Raster) (row col : Nat) (a b : ℝ), Chunked r ∧ Interior r row col ∧ 0 < r.res.1 ∧
    r.res.2 = r.res.1 ∧ Elevations r row col (plane r.res a b 0 0 0) ∧
    ∃ v, aspect r row col = some ⟨num v, false⟩ ∧ -b ≠ Real.sqrt (a ^ 2 + b ^ 2) * Real.cos (v * (Real.pi / 180)) := by
  refine ⟨Toy.raster (1, 1) (plane (1, 1) 0 1 0 0 0), 2, 3, 0, 1, Toy.chunked _ _, Toy.interior _ _, by norm_num [Toy.raster],
    rfl, Toy.elevations _ _ _ _, _, aspect_eq _ (Toy.chunked _ _) (Toy.interior _ _) (Toy.elevations _ _ _ _), ?_⟩
  rw [rise_plane _ _ _ _ _ _ (by decide) (by decide), if_neg (by norm_num)]
  obtain ⟨_, _, _, c⟩ := aspectOf_spec (0 * 1) (1 * 1)
  simp only [zero_mul, one_mul] at c ⊢
  intro h
  rw [← c] at h
  norm_num at h

/-- **C50** is false if cells are not square: the aspect is that of the plane with the cells stretched to squares. -/
theorem C50_rectangular_cells : ∃ (r : Raster) (row col : Nat) (a b : ℝ), Chunked r ∧ Interior r row col ∧ 0 < r.res.1 ∧
    r.res.2 < 0 ∧ Elevations r row col (plane r.res a b 0 0 0) ∧
    ∃ v, aspect r row col = some ⟨num v, false⟩ ∧ -a ≠ Real.sqrt (a ^ 2 + b ^ 2) * Real.sin (v * (Real.pi / 180)) := by
  refine ⟨Toy.raster (2, -1) (plane (2, -1) 1 1 0 0 0), 2, 3, 1, 1, Toy.chunked _ _, Toy.interior _ _, by norm_num [Toy.raster],
    by norm_num [Toy.raster], Toy.elevations _ _ _ _, _,
    aspect_eq _ (Toy.chunked _ _) (Toy.interior _ _) (Toy.elevations _ _ _ _), ?_⟩
  rw [rise_plane _ _ _ _ _ _ (by decide) (by decide), if_neg (by norm_num)]
  obtain ⟨_, _, c, _⟩ := aspectOf_spec (1 * 2) (1 * -1)
  simp only at c ⊢
  intro h
  generalize Real.sin _ = s at c h
  have e1 := congrArg (· ^ 2) c
  have e2 := congrArg (· ^ 2) h
  simp only [mul_pow] at e1 e2
  rw [Real.sq_sqrt (by norm_num)] at e1 e2
  norm_num at e1 e2
  linarith

/-! ## Hillshade -/

namespace Spec

/-- How bright a surface is that rises by `a` to the east and `b` to the north, lit from the compass direction `azimuth` at
the angle `altitude` above the horizon (in degrees): 255 times the cosine of the angle between the light and the
perpendicular of the surface, 0 if the light comes from behind. -/
noncomputable def shade (azimuth altitude a b : ℝ) : ℝ :=
  let az := azimuth * (Real.pi / 180)
  let al := altitude * (Real.pi / 180)
  255 * max 0 (((-a) * (Real.sin az * Real.cos al) + (-b) * (Real.cos az * Real.cos al) + 1 * Real.sin al) /
    Real.sqrt (a ^ 2 + b ^ 2 + 1 ^ 2))

end Spec

theorem shade_range (azimuth altitude a b : ℝ) : 0 ≤ shade azimuth altitude a b ∧ shade azimuth altitude a b ≤ 255 := by
  unfold shade
  simp only
  set s := Real.sin (azimuth * (Real.pi / 180))
  set c := Real.cos (azimuth * (Real.pi / 180))
  set t := Real.sin (altitude * (Real.pi / 180))
  set d := Real.cos (altitude * (Real.pi / 180))
  have h1 : s ^ 2 + c ^ 2 = 1 := Real.sin_sq_add_cos_sq _
  have h2 : t ^ 2 + d ^ 2 = 1 := Real.sin_sq_add_cos_sq _
  have hp : 0 < a ^ 2 + b ^ 2 + 1 ^ 2 := by positivity
  have key : (-a * (s * d) + -b * (c * d) + 1 * t) / Real.sqrt (a ^ 2 + b ^ 2 + 1 ^ 2) ≤ 1 := by
    rw [div_le_one (Real.sqrt_pos.mpr hp)]
    apply Real.le_sqrt_of_sq_le
    have e : (s * d) ^ 2 + (c * d) ^ 2 + t ^ 2 = 1 := by
      have : (s * d) ^ 2 + (c * d) ^ 2 + t ^ 2 = (s ^ 2 + c ^ 2) * d ^ 2 + t ^ 2 := by ring
      rw [this, h1]; linarith
    have l : (a ^ 2 + b ^ 2 + 1 ^ 2) * ((s * d) ^ 2 + (c * d) ^ 2 + t ^ 2) - (-a * (s * d) + -b * (c * d) + 1 * t) ^ 2 =
        (a * (c * d) - b * (s * d)) ^ 2 + (a * t + s * d) ^ 2 + (b * t + c * d) ^ 2 := by ring
    rw [e, mul_one] at l
    nlinarith [sq_nonneg (a * (c * d) - b * (s * d)), sq_nonneg (a * t + s * d), sq_nonneg (b * t + c * d)]
  constructor
  · have := le_max_left 0 ((-a * (s * d) + -b * (c * d) + 1 * t) / Real.sqrt (a ^ 2 + b ^ 2 + 1 ^ 2))
    linarith
  · have := max_le zero_le_one key
    linarith

/-- The direction of the slope, up to full turns. -/
theorem slopeDirection_eq (p q : ℝ) : ∃ t, slopeDirection (num p) (num q) = num t ∧
    Real.sqrt (p ^ 2 + q ^ 2) * Real.cos t = -p ∧ Real.sqrt (p ^ 2 + q ^ 2) * Real.sin t = q := by
  obtain ⟨ec, es⟩ := sqrt_mul_arg (-p) q
  rw [neg_sq] at ec es
  unfold slopeDirection
  simp only [num_neg, arctan2_num, num_ofNat, num_zero, eq_num, lt_num, num_mul, num_add, num_sub, num_div, Bool.not_eq_true',
    decide_eq_false_iff_not, decide_eq_true_eq]
  by_cases h : p = 0
  · subst h
    rw [if_neg (by simp)]
    have e : Real.sqrt (0 ^ 2 + q ^ 2) = |q| := by rw [zero_pow two_ne_zero, zero_add, Real.sqrt_sq_eq_abs]
    by_cases h1 : 0 < q
    · rw [if_pos h1]
      refine ⟨_, rfl, ?_, ?_⟩
      · rw [Real.cos_pi_div_two]; simp
      · rw [Real.sin_pi_div_two, e, abs_of_pos h1, mul_one]
    · rw [if_neg h1]
      by_cases h2 : q < 0
      · rw [if_pos h2]
        refine ⟨_, rfl, ?_, ?_⟩
        · rw [Real.cos_two_pi_sub, Real.cos_pi_div_two]; simp
        · rw [Real.sin_two_pi_sub, Real.sin_pi_div_two, e, abs_of_neg h2]; ring
      · rw [if_neg h2]
        exact ⟨_, rfl, ec, es⟩
  · rw [if_pos h]
    by_cases h1 : Complex.arg ⟨-p, q⟩ < 0
    · rw [if_pos h1]
      refine ⟨_, rfl, ?_, ?_⟩
      · rw [add_comm (2 * Real.pi), Real.cos_add_two_pi]; exact ec
      · rw [add_comm (2 * Real.pi), Real.sin_add_two_pi]; exact es
    · rw [if_neg h1]
      exact ⟨_, rfl, ec, es⟩

theorem hillshadeCell_eq (res : ℝ × ℝ) (azimuth altitude : ℝ) (x : Around) {p q : ℝ} (h : gradient res x = (num p, num q)) :
    hillshadeCell res azimuth altitude x = num (shade azimuth altitude p (-q)) := by
  obtain ⟨t, et, ec, es⟩ := slopeDirection_eq p q
  unfold hillshadeCell
  rw [h]
  simp only [et, num_ofNat, num_zero, num_sub, num_add, num_mul, toRadians, sqrt_num, arctan_num, cos_num, sin_num, lt_num,
    decide_eq_true_eq]
  have hpi := Real.pi_ne_zero
  have a1 : (360 - azimuth + 90) * (Real.pi / 180) = Real.pi / 2 - azimuth * (Real.pi / 180) + 2 * Real.pi := by ring
  have a2 : (90 - altitude) * (Real.pi / 180) = Real.pi / 2 - altitude * (Real.pi / 180) := by ring
  have hg : 0 ≤ p ^ 2 + q ^ 2 := by positivity
  have a3 : p * p + q * q = p ^ 2 + q ^ 2 := by ring
  rw [a1, a2, a3, Real.cos_arctan, Real.sin_arctan, Real.sq_sqrt hg, Real.cos_sub (_ + 2 * Real.pi), Real.cos_add_two_pi, Real.sin_add_two_pi,
    Real.cos_pi_div_two_sub, Real.sin_pi_div_two_sub, Real.cos_pi_div_two_sub, Real.sin_pi_div_two_sub]
  have e : 255 * (Real.sin (altitude * (Real.pi / 180)) * (1 / Real.sqrt (1 + (p ^ 2 + q ^ 2))) +
      Real.cos (altitude * (Real.pi / 180)) * (Real.sqrt (p ^ 2 + q ^ 2) / Real.sqrt (1 + (p ^ 2 + q ^ 2))) *
        (Real.sin (azimuth * (Real.pi / 180)) * Real.cos t + Real.cos (azimuth * (Real.pi / 180)) * Real.sin t)) =
      255 * ((-p * (Real.sin (azimuth * (Real.pi / 180)) * Real.cos (altitude * (Real.pi / 180))) +
        - -q * (Real.cos (azimuth * (Real.pi / 180)) * Real.cos (altitude * (Real.pi / 180))) +
        1 * Real.sin (altitude * (Real.pi / 180))) / Real.sqrt (p ^ 2 + (-q) ^ 2 + 1 ^ 2)) := by
    have hs : p ^ 2 + (-q) ^ 2 + 1 ^ 2 = 1 + (p ^ 2 + q ^ 2) := by ring
    rw [hs, neg_neg]
    generalize Real.sqrt (1 + (p ^ 2 + q ^ 2)) = w
    generalize Real.sqrt (p ^ 2 + q ^ 2) = g at ec es ⊢
    rw [← ec, ← es]
    ring
  rw [e]
  unfold shade
  simp only
  generalize (-p * (Real.sin (azimuth * (Real.pi / 180)) * Real.cos (altitude * (Real.pi / 180))) +
        - -q * (Real.cos (azimuth * (Real.pi / 180)) * Real.cos (altitude * (Real.pi / 180))) +
        1 * Real.sin (altitude * (Real.pi / 180))) / Real.sqrt (p ^ 2 + (-q) ^ 2 + 1 ^ 2) = u
  by_cases h : u < 0
  · rw [if_pos (by linarith), max_eq_left h.le, mul_zero]
  · rw [if_neg (by linarith), max_eq_right (by linarith)]

theorem toByte_num (x : ℝ) : toByte (num x) = some ⌊x⌋ := rfl

/-- The cell of the result for a brightness. -/
theorem byte_eq (s : ℝ) : astypeU8 (setNull255 (setNull255 ⟨num s, false⟩)) =
    if s = 255 then ⟨some 255, true⟩ else ⟨some ⌊s⌋, false⟩ := by
  unfold setNull255
  simp only [num_ofNat, eq_num, Bool.false_or, decide_eq_true_eq]
  by_cases h : s = 255
  · simp [h, astypeU8]
  · simp [h, astypeU8, toByte_num]

/-- **C37** (hillshade).  A cell of `hillshade` is the brightness of the surface, without the digits after the point, in the
range from 0 to 255; a cell of brightness 255 is null.  The rise per unit is estimated after Horn. -/
theorem C37_hillshade (r : Raster) (hc : Chunked r) {row col : Nat} (hi : Interior r row col) {z : Nat → Nat → ℝ}
    (hz : Elevations r row col z) (azimuth altitude : ℝ) :
    let s := shade azimuth altitude ((rise z row col).1 / r.res.1) ((rise z row col).2 / r.res.2)
    0 ≤ s ∧ s ≤ 255 ∧ hillshade azimuth altitude r row col = some (if s = 255 then ⟨some 255, true⟩ else ⟨some ⌊s⌋, false⟩) := by
  intro s
  obtain ⟨h0, h1⟩ := shade_range azimuth altitude ((rise z row col).1 / r.res.1) ((rise z row col).2 / r.res.2)
  refine ⟨h0, h1, ?_⟩
  unfold hillshade
  rw [mapCells_eq _ r hc (interior_lt hi).1 (interior_lt hi).2, Option.map_some, finalize_inner hi hz,
    hillshadeCell_eq _ _ _ _ (gradient_eq hi hz), byte_eq, neg_div, neg_neg]

/-- **C37** (hillshade of a plane). -/
theorem C37_hillshade_plane (r : Raster) (hc : Chunked r) {row col : Nat} (hi : Interior r row col) (a b k x0 y0 : ℝ)
    (h1 : r.res.1 ≠ 0) (h2 : r.res.2 ≠ 0) (hz : Elevations r row col (plane r.res a b k x0 y0)) (azimuth altitude : ℝ) :
    hillshade azimuth altitude r row col =
      some (if shade azimuth altitude a b = 255 then ⟨some 255, true⟩ else ⟨some ⌊shade azimuth altitude a b⌋, false⟩) := by
  obtain ⟨_, _, h⟩ := C37_hillshade r hc hi hz azimuth altitude
  rw [h, rise_plane _ _ _ _ _ _ hi.1 hi.2.2.1, mul_div_cancel_right₀ a h1, mul_div_cancel_right₀ b h2]

/-- A case for `C37_hillshade_plane`: level ground in the light of the setting sun is dark. -/
example : hillshade 270 0 (Toy.raster (10, -10) (plane (10, -10) 0 0 7 0 0)) 2 3 = some ⟨some 0, false⟩ := by
  rw [C37_hillshade_plane (Toy.raster (10, -10) (plane (10, -10) 0 0 7 0 0)) (Toy.chunked _ _) (Toy.interior _ _) 0 0 7 0 0
    (by norm_num [Toy.raster]) (by norm_num [Toy.raster]) (Toy.elevations _ _ _ _)]
  have : shade 270 0 0 0 = 0 := by unfold shade; simp
  rw [this]
  norm_num

/-! ## Surface area -/

namespace Spec

/-- The area of the triangle with two of its sides `u` and `v`: half the length of their vector product. -/
noncomputable def triangle (u v : ℝ × ℝ × ℝ) : ℝ :=
  Real.sqrt ((u.2.1 * v.2.2 - u.2.2 * v.2.1) ^ 2 + (u.2.2 * v.1 - u.1 * v.2.2) ^ 2 + (u.1 * v.2.1 - u.2.1 * v.1) ^ 2) / 2

/-- The way from the centre of a cell half the way to the centre of another one, which is `dr` rows below and `dc` columns
to the right and has the elevation `z'`. -/
noncomputable def halfway (res : ℝ × ℝ) (z : ℝ) (dr dc : ℝ) (z' : ℝ) : ℝ × ℝ × ℝ := (dc * res.1 / 2, dr * res.2 / 2, (z' - z) / 2)

/-- The area of the surface within a cell: eight triangles around its centre. -/
noncomputable def area (res : ℝ × ℝ) (z : Nat → Nat → ℝ) (row col : Nat) : ℝ :=
  let go := halfway res (z row col)
  let nw := go (-1) (-1) (z (row - 1) (col - 1))
  let n := go (-1) 0 (z (row - 1) col)
  let ne := go (-1) 1 (z (row - 1) (col + 1))
  let e := go 0 1 (z row (col + 1))
  let se := go 1 1 (z (row + 1) (col + 1))
  let s := go 1 0 (z (row + 1) col)
  let sw := go 1 (-1) (z (row + 1) (col - 1))
  let w := go 0 (-1) (z row (col - 1))
  triangle nw n + triangle n ne + triangle ne e + triangle e se + triangle se s + triangle s sw + triangle sw w + triangle w nw

end Spec

theorem side_num (d p q : ℝ) : side (num d) (num p) (num q) = num (Real.sqrt (d + (p - q) ^ 2) / 2) := by
  unfold side
  simp only [num_sub, num_mul, num_add, sqrt_num]
  congr 1
  rw [← pow_two]
  ring

/-- Heron's formula for sides of half the length of `√P`, `√Q` and `√R`. -/
theorem heron_num {P Q R : ℝ} (hP : 0 ≤ P) (hQ : 0 ≤ Q) (hR : 0 ≤ R) :
    heron (num (Real.sqrt P / 2)) (num (Real.sqrt Q / 2)) (num (Real.sqrt R / 2)) =
      num (Real.sqrt (2 * (P * Q + Q * R + R * P) - P ^ 2 - Q ^ 2 - R ^ 2) / 16) := by
  unfold heron
  simp only [num_sub, num_mul, num_add, sqrt_num]
  congr 1
  have e1 := Real.sq_sqrt hP
  have e2 := Real.sq_sqrt hQ
  have e3 := Real.sq_sqrt hR
  generalize Real.sqrt P = p at e1 ⊢
  generalize Real.sqrt Q = q at e2 ⊢
  generalize Real.sqrt R = r at e3 ⊢
  subst e1 e2 e3
  have : (p / 2 + q / 2 + r / 2) * 0.5 * ((p / 2 + q / 2 + r / 2) * 0.5 - p / 2) * ((p / 2 + q / 2 + r / 2) * 0.5 - q / 2) *
      ((p / 2 + q / 2 + r / 2) * 0.5 - r / 2) =
      (2 * (p ^ 2 * q ^ 2 + q ^ 2 * r ^ 2 + r ^ 2 * p ^ 2) - (p ^ 2) ^ 2 - (q ^ 2) ^ 2 - (r ^ 2) ^ 2) / 16 ^ 2 := by ring
  rw [this, Real.sqrt_div' _ (by positivity), Real.sqrt_sq (by norm_num)]

/-- A triangle of the code is the triangle between two neighbours.  `d1`, `d2` and `d3` are the squared horizontal lengths
of the sides. -/
theorem heron_triangle {d1 d2 d3 z a b : ℝ} (res : ℝ × ℝ) {r1 c1 r2 c2 : ℝ}
    (h1 : d1 = (c1 * res.1) ^ 2 + (r1 * res.2) ^ 2) (h2 : d2 = (c2 * res.1) ^ 2 + (r2 * res.2) ^ 2)
    (h3 : d3 = ((c1 - c2) * res.1) ^ 2 + ((r1 - r2) * res.2) ^ 2) :
    heron (side (num d1) (num z) (num a)) (side (num d2) (num z) (num b)) (side (num d3) (num a) (num b)) =
      num (triangle (halfway res z r1 c1 a) (halfway res z r2 c2 b)) := by
  rw [side_num, side_num, side_num, heron_num (by subst h1; positivity) (by subst h2; positivity) (by subst h3; positivity)]
  congr 1
  unfold triangle halfway
  simp only
  have : 2 * ((d1 + (z - a) ^ 2) * (d2 + (z - b) ^ 2) + (d2 + (z - b) ^ 2) * (d3 + (a - b) ^ 2) +
      (d3 + (a - b) ^ 2) * (d1 + (z - a) ^ 2)) - (d1 + (z - a) ^ 2) ^ 2 - (d2 + (z - b) ^ 2) ^ 2 - (d3 + (a - b) ^ 2) ^ 2 =
      8 ^ 2 * ((r1 * res.2 / 2 * ((b - z) / 2) - (a - z) / 2 * (r2 * res.2 / 2)) ^ 2 +
        ((a - z) / 2 * (c2 * res.1 / 2) - c1 * res.1 / 2 * ((b - z) / 2)) ^ 2 +
        (c1 * res.1 / 2 * (r2 * res.2 / 2) - r1 * res.2 / 2 * (c2 * res.1 / 2)) ^ 2) := by
    rw [h1, h2, h3]; ring
  rw [this, Real.sqrt_mul (by positivity), Real.sqrt_sq (by norm_num)]
  ring

theorem heron_swap (p q r : Val) : heron p q r = heron q p r := by
  cases p <;> cases q <;> cases r <;> simp only [heron, num_add, num_sub, num_mul, add_nan, nan_add, nan_mul, mul_nan,
    sub_nan, nan_sub] <;> (congr 2; ring)

theorem heron_swap' (p q r : Val) : heron p q r = heron p r q := by
  cases p <;> cases q <;> cases r <;> simp only [heron, num_add, num_sub, num_mul, add_nan, nan_add, nan_mul, mul_nan,
    sub_nan, nan_sub] <;> (congr 2; ring)

theorem triangle_swap (u v : ℝ × ℝ × ℝ) : triangle u v = triangle v u := by
  unfold triangle
  congr 2
  ring

theorem side_swap (d p q : Val) : side d p q = side d q p := by
  cases d <;> cases p <;> cases q <;> simp only [side, num_add, num_sub, num_mul, add_nan, nan_add, nan_mul, mul_nan,
    sub_nan, nan_sub]
  congr 3
  ring

/-- **C51**, for square cells.  The surface area of a cell is the area of the eight triangles between its centre and the
points half the way to its neighbours, for all elevations.  Missing: other cells (`C51_rectangular_cells`). -/
theorem C51_area_partial (r : Raster) (hc : Chunked r) {row col : Nat} (hi : Interior r row col) {z : Nat → Nat → ℝ}
    (hz : Elevations r row col z) (hr : |r.res.1| = |r.res.2|) :
    surfaceArea3d r row col = some ⟨num (area r.res z row col), false⟩ := by
  obtain ⟨e1, e2, e3, e4, e5, e6, e7, e8, e9⟩ := around_eq hi hz
  unfold surfaceArea3d
  rw [mapCells_eq _ r hc (interior_lt hi).1 (interior_lt hi).2, Option.map_some, finalize_inner hi hz]
  unfold surfaceAreaCell
  simp only at e1 e2 e3 e4 e5 e6 e7 e8 e9
  have hs : r.res.2 ^ 2 = r.res.1 ^ 2 := by rw [← sq_abs r.res.2, ← hr, sq_abs]
  simp only [e1, e2, e3, e4, e5, e6, e7, e8, e9, num_ofNat, num_zero, num_mul]
  have key : ∀ {d1 d2 d3 : ℝ} (r1 c1 r2 c2 a b : ℝ), d1 = (c1 ^ 2 + r1 ^ 2) * r.res.1 ^ 2 → d2 = (c2 ^ 2 + r2 ^ 2) * r.res.1 ^ 2 →
      d3 = ((c1 - c2) ^ 2 + (r1 - r2) ^ 2) * r.res.1 ^ 2 →
      heron (side (num d1) (num (z row col)) (num a)) (side (num d2) (num (z row col)) (num b)) (side (num d3) (num a) (num b)) =
        num (triangle (halfway r.res (z row col) r1 c1 a) (halfway r.res (z row col) r2 c2 b)) := by
    intro d1 d2 d3 r1 c1 r2 c2 a b h1 h2 h3
    refine heron_triangle r.res ?_ ?_ ?_
    · rw [h1, mul_pow, mul_pow, hs]; ring
    · rw [h2, mul_pow, mul_pow, hs]; ring
    · rw [h3, mul_pow, mul_pow, hs]; ring
  have key' : ∀ {d1 d2 d3 : ℝ} (r1 c1 r2 c2 a b : ℝ), d1 = (c1 ^ 2 + r1 ^ 2) * r.res.1 ^ 2 → d2 = (c2 ^ 2 + r2 ^ 2) * r.res.1 ^ 2 →
      d3 = ((c1 - c2) ^ 2 + (r1 - r2) ^ 2) * r.res.1 ^ 2 →
      heron (side (num d1) (num (z row col)) (num a)) (side (num d2) (num (z row col)) (num b)) (side (num d3) (num b) (num a)) =
        num (triangle (halfway r.res (z row col) r1 c1 a) (halfway r.res (z row col) r2 c2 b)) := by
    intro d1 d2 d3 r1 c1 r2 c2 a b h1 h2 h3
    rw [side_swap _ (num b)]
    exact key r1 c1 r2 c2 a b h1 h2 h3
  -- the triangles in the order of the code
  rw [key 1 (-1) 1 0 _ _ (by ring) (by ring) (by ring), key' 1 1 1 0 _ _ (by ring) (by ring) (by ring),
    key 1 1 0 1 _ _ (by ring) (by ring) (by ring), key' (-1) 1 0 1 _ _ (by ring) (by ring) (by ring),
    key' (-1) 1 (-1) 0 _ _ (by ring) (by ring) (by ring), key (-1) (-1) (-1) 0 _ _ (by ring) (by ring) (by ring),
    heron_swap' _ _ (side _ (num (z row col)) (num (z row (col - 1)))),
    key' (-1) (-1) 0 (-1) _ _ (by ring) (by ring) (by ring), key 1 (-1) 0 (-1) _ _ (by ring) (by ring) (by ring)]
  simp only [num_add]
  congr 3
  unfold area
  simp only
  set sw := halfway r.res (z row col) 1 (-1) (z (row + 1) (col - 1))
  set so := halfway r.res (z row col) 1 0 (z (row + 1) col)
  set se := halfway r.res (z row col) 1 1 (z (row + 1) (col + 1))
  set ea := halfway r.res (z row col) 0 1 (z row (col + 1))
  set ne := halfway r.res (z row col) (-1) 1 (z (row - 1) (col + 1))
  set no := halfway r.res (z row col) (-1) 0 (z (row - 1) col)
  set we := halfway r.res (z row col) 0 (-1) (z row (col - 1))
  set nw := halfway r.res (z row col) (-1) (-1) (z (row - 1) (col - 1))
  rw [triangle_swap sw so, triangle_swap se ea, triangle_swap ne no, triangle_swap nw we]
  ring

/-- **C51** (plane).  The area of a plane within a square cell is the area of the cell times `√(1 + a² + b²)`. -/
theorem C51_plane (r : Raster) (hc : Chunked r) {row col : Nat} (hi : Interior r row col) (a b k x0 y0 : ℝ)
    (hr : |r.res.1| = |r.res.2|) (hz : Elevations r row col (plane r.res a b k x0 y0)) :
    surfaceArea3d r row col = some ⟨num (|r.res.1| * |r.res.2| * Real.sqrt (1 + a ^ 2 + b ^ 2)), false⟩ := by
  rw [C51_area_partial r hc hi hz hr]
  congr 3
  obtain ⟨a1, _, a3, _⟩ := hi
  obtain ⟨row, rfl⟩ : ∃ n, row = n + 1 := ⟨row - 1, by omega⟩
  obtain ⟨col, rfl⟩ : ∃ n, col = n + 1 := ⟨col - 1, by omega⟩
  unfold area
  simp only [Nat.add_sub_cancel]
  have key : ∀ (r1 c1 r2 c2 z1 z2 : ℝ), z1 = a * c1 * r.res.1 + b * r1 * r.res.2 + plane r.res a b k x0 y0 (row + 1) (col + 1) →
      z2 = a * c2 * r.res.1 + b * r2 * r.res.2 + plane r.res a b k x0 y0 (row + 1) (col + 1) → (c1 * r2 - r1 * c2) ^ 2 = 1 →
      triangle (halfway r.res (plane r.res a b k x0 y0 (row + 1) (col + 1)) r1 c1 z1)
        (halfway r.res (plane r.res a b k x0 y0 (row + 1) (col + 1)) r2 c2 z2) =
        |r.res.1| * |r.res.2| * Real.sqrt (1 + a ^ 2 + b ^ 2) / 8 := by
    intro r1 c1 r2 c2 z1 z2 h1 h2 h3
    subst h1 h2
    unfold triangle halfway
    simp only [add_sub_cancel_right]
    rw [← abs_mul]
    have : (r1 * r.res.2 / 2 * ((a * c2 * r.res.1 + b * r2 * r.res.2) / 2) -
          (a * c1 * r.res.1 + b * r1 * r.res.2) / 2 * (r2 * r.res.2 / 2)) ^ 2 +
        ((a * c1 * r.res.1 + b * r1 * r.res.2) / 2 * (c2 * r.res.1 / 2) -
          c1 * r.res.1 / 2 * ((a * c2 * r.res.1 + b * r2 * r.res.2) / 2)) ^ 2 +
        (c1 * r.res.1 / 2 * (r2 * r.res.2 / 2) - r1 * r.res.2 / 2 * (c2 * r.res.1 / 2)) ^ 2 =
        (r.res.1 * r.res.2 / 4) ^ 2 * ((c1 * r2 - r1 * c2) ^ 2 * (1 + a ^ 2 + b ^ 2)) := by ring
    rw [this, h3, one_mul, Real.sqrt_mul (sq_nonneg _), Real.sqrt_sq_eq_abs, abs_div, abs_of_pos (show (0 : ℝ) < 4 by norm_num)]
    ring
  rw [key, key, key, key, key, key, key, key]
  all_goals first
    | ring1
    | (unfold plane; push_cast; ring1)

/-- A case for `C51_plane`. -/
example : surfaceArea3d (Toy.raster (2, -2) (plane (2, -2) 2 2 5 0 0)) 2 3 = some ⟨num 12, false⟩ := by
  rw [C51_plane (Toy.raster (2, -2) (plane (2, -2) 2 2 5 0 0)) (Toy.chunked _ _) (Toy.interior _ _) 2 2 5 0 0
    (by norm_num [Toy.raster]) (Toy.elevations _ _ _ _),
    show (1 : ℝ) + 2 ^ 2 + 2 ^ 2 = 3 ^ 2 by norm_num, Real.sqrt_sq (by norm_num)]
  norm_num [Toy.raster]

/-- **C51** is false for cells that are not square: a level surface with cells of 2 by 1 units gets an area of 4. -/
theorem C51_rectangular_cells : ∃ (r : Raster) (row col : Nat), Chunked r ∧ Interior r row col ∧ r.res = (2, -1) ∧
    Elevations r row col (fun _ _ => 0) ∧ surfaceArea3d r row col = some ⟨num 4, false⟩ ∧ area r.res (fun _ _ => 0) row col = 2 := by
  refine ⟨Toy.raster (2, -1) (fun _ _ => 0), 2, 3, Toy.chunked _ _, Toy.interior _ _, rfl, Toy.elevations _ _ _ _, ?_, ?_⟩
  · -- the code computes the area for cells of 2 by 2 units
    have h := C51_plane (Toy.raster (2, -2) (plane (2, -2) 0 0 0 0 0)) (Toy.chunked _ _) (Toy.interior _ _) 0 0 0 0 0
      (by norm_num [Toy.raster]) (Toy.elevations _ _ _ _)
    have e : plane (2, -2) 0 0 0 0 0 = fun _ _ => 0 := by funext row col; unfold plane; simp
    rw [e] at h
    have h' : surfaceArea3d (Toy.raster (2, -1) fun _ _ => 0) 2 3 = surfaceArea3d (Toy.raster (2, -2) fun _ _ => 0) 2 3 := rfl
    rw [h', h]
    norm_num [Toy.raster]
  · unfold area triangle halfway Toy.raster
    norm_num
    rw [show (4 : ℝ) = 2 ^ 2 by norm_num, Real.sqrt_sq (by norm_num)]
    norm_num

/-! ## Adding a constant -/

theorem side_shift (d p q : Val) (k : ℝ) : side d (p + num k) (q + num k) = side d p q := by
  cases d <;> cases p <;> cases q <;> simp only [side, num_add, num_sub, num_mul, add_nan, nan_add, mul_nan, sub_nan, nan_sub]
  congr 3
  ring

theorem sobel_shift (c f i a d g : Val) (k : ℝ) :
    ((c + num k) + 2 * (f + num k) + (i + num k)) - ((a + num k) + 2 * (d + num k) + (g + num k)) =
      (c + 2 * f + i) - (a + 2 * d + g) := by
  cases c <;> cases f <;> cases i <;> cases a <;> cases d <;> cases g <;>
    simp only [num_ofNat, num_add, num_sub, num_mul, nan_add, add_nan, nan_sub, sub_nan, mul_nan]
  congr 1
  ring

theorem mean_shift (p q m : Val) (k : ℝ) : ((p + num k) + (q + num k)) / 2 - (m + num k) = (p + q) / 2 - m := by
  cases p <;> cases q <;> cases m <;>
    simp only [num_ofNat, num_add, num_sub, num_div, nan_add, add_nan, nan_sub, sub_nan, nan_div]
  congr 1
  ring

theorem extended_shift (r : Raster) (k : ℝ) (row col : Int) :
    ({ r with data := fun i j => r.data i j + num k } : Raster).extended row col = r.extended row col + num k := by
  unfold Raster.extended Raster.nullToNan
  simp only
  split
  · split
    · rw [nan_add]
    · rfl
  · rw [nan_add]

theorem gradient_shift (res : ℝ × ℝ) (x : Around) (k : ℝ) : gradient res (fun i j => x i j + num k) = gradient res x := by
  unfold gradient
  simp only [sobel_shift]

/-- **C37** (constant).  Adding a constant to the elevations changes no derivative of any raster, null cells or not. -/
theorem C37_constant (r : Raster) (hc : Chunked r) (k : ℝ) {row col : Nat} (h1 : row < r.ny) (h2 : col < r.nx) :
    let r' : Raster := { r with data := fun i j => r.data i j + num k }
    (∀ degrees, slope degrees r' row col = slope degrees r row col) ∧ aspect r' row col = aspect r row col ∧
    curvature r' row col = curvature r row col ∧ surfaceArea3d r' row col = surfaceArea3d r row col ∧
    ∀ azimuth altitude, hillshade azimuth altitude r' row col = hillshade azimuth altitude r row col := by
  intro r'
  have hc' : Chunked r' := hc
  have key : ∀ cell : Around → Val, (∀ x, cell (fun i j => x i j + num k) = cell x) →
      mapCells cell r' row col = mapCells cell r row col := by
    intro cell h
    rw [mapCells_eq cell r hc h1 h2, mapCells_eq cell r' hc' h1 h2, ← h fun i j => r.extended (row + i) (col + j)]
    congr 2
    funext i j
    exact extended_shift r k _ _
  refine ⟨fun d => ?_, ?_, ?_, ?_, fun az al => ?_⟩
  · unfold slope
    rw [key]
    · rfl
    · intro x; unfold slopeCell; rw [gradient_shift]
  · unfold aspect
    rw [key]
    · rfl
    · intro x; unfold aspectCell; simp only [sobel_shift]
  · unfold curvature
    rw [key]
    · rfl
    · intro x; unfold curvCell; simp only [mean_shift]
  · unfold surfaceArea3d
    rw [key]
    · rfl
    · intro x; unfold surfaceAreaCell; simp only [side_shift]
  · unfold hillshade
    rw [key]
    · rfl
    · intro x; unfold hillshadeCell; rw [gradient_shift]

/-- `set_null_value(255)` leaves `hillshade`'s `float32` as it is (`raster.py:2049-2076`), if numpy keeps the integer 255. -/
theorem nullDtype_255 (np : Nulls.NumPy) (h1 : np.cast .f64 (.fin 255) = .fin 255) (h2 : np.cast .f16 (.fin 255) = .fin 255) :
    Nulls.nullDtype np .f32 (.int 255) = .ok (some .f32) := by
  have e : Nulls.safeMinFloat np (.fin 255) = .f16 := by
    have m : Nulls.minScalarFloat (.fin 255) = .f16 := by decide +kernel
    simp [Nulls.safeMinFloat, m, h2, List.find?_cons, Num.eq]
  have h1' : np.cast .f64 (Nulls.NullArg.val (.int 255)) = .fin 255 := by simpa [Nulls.NullArg.val] using h1
  unfold Nulls.nullDtype
  rw [h1', e, if_neg (by decide +kernel), if_pos (by decide +kernel)]
  congr 1

/-! ## Null cells -/

theorem finalize_null (r : Raster) (nv : Val) (row col : Nat) (v : Val) (h1 : row < r.ny) (h2 : col < r.nx) :
    ((finalize r nv row col v).null = true ↔
      r.mask row col = true ∨ row = 0 ∨ row + 1 = r.ny ∨ col = 0 ∨ col + 1 = r.nx) ∧
    ((finalize r nv row col v).null = true → (finalize r nv row col v).value = nv) := by
  have e : edgeMask r row col = true ↔ r.mask row col = true ∨ row = 0 ∨ row + 1 = r.ny ∨ col = 0 ∨ col + 1 = r.nx := by
    unfold edgeMask
    simp only [Bool.or_eq_true, beq_iff_eq]
    constructor
    · rintro ((((h | h) | h) | h) | h)
      · exact Or.inl h
      · exact Or.inr (Or.inl h)
      · exact Or.inr (Or.inr (Or.inl (by omega)))
      · exact Or.inr (Or.inr (Or.inr (Or.inl h)))
      · exact Or.inr (Or.inr (Or.inr (Or.inr (by omega))))
    · rintro (h | h | h | h | h)
      · exact Or.inl (Or.inl (Or.inl (Or.inl h)))
      · exact Or.inl (Or.inl (Or.inl (Or.inr h)))
      · exact Or.inl (Or.inl (Or.inr (by omega)))
      · exact Or.inl (Or.inr h)
      · exact Or.inr (by omega)
  rw [← e]
  unfold finalize
  cases edgeMask r row col <;> simp

/-- **C53** (null cells).  A cell of `slope`, `aspect`, `curvature` or `surface_area_3d` is null exactly if the cell of the
raster is, or if it lies in the outermost rows or columns, and then holds the null value. -/
theorem C53_null_cells (r : Raster) (hc : Chunked r) {row col : Nat} (h1 : row < r.ny) (h2 : col < r.nx)
    (f : Raster → Nat → Nat → Option Cell) (hf : f ∈ [slope true, slope false, aspect, curvature, surfaceArea3d]) :
    ∃ c, f r row col = some c ∧
      (c.null = true ↔ r.mask row col = true ∨ row = 0 ∨ row + 1 = r.ny ∨ col = 0 ∨ col + 1 = r.nx) ∧
      (c.null = true → c.value = num (-999999)) := by
  have hd : defaultNull .f64 = num (-999999) := by simp [defaultNull, Nulls.defaultNull]
  have key : ∀ cell : Around → Val, ∃ c, (mapCells cell r row col).map (finalize r (defaultNull .f64) row col) = some c ∧
      (c.null = true ↔ r.mask row col = true ∨ row = 0 ∨ row + 1 = r.ny ∨ col = 0 ∨ col + 1 = r.nx) ∧
      (c.null = true → c.value = num (-999999)) := by
    intro cell
    rw [mapCells_eq cell r hc h1 h2, ← hd]
    exact ⟨_, rfl, finalize_null r _ row col _ h1 h2⟩
  simp only [List.mem_cons, List.not_mem_nil, or_false] at hf
  rcases hf with rfl | rfl | rfl | rfl | rfl
  all_goals exact key _

/-- **C53** (hillshade).  Null cells and the outermost rows and columns are null in `hillshade`. -/
theorem C53_hillshade (r : Raster) (hc : Chunked r) {row col : Nat} (h1 : row < r.ny) (h2 : col < r.nx) (azimuth altitude : ℝ)
    (h : r.mask row col = true ∨ row = 0 ∨ row + 1 = r.ny ∨ col = 0 ∨ col + 1 = r.nx) :
    hillshade azimuth altitude r row col = some ⟨some 255, true⟩ := by
  unfold hillshade
  rw [mapCells_eq _ r hc h1 h2, Option.map_some]
  have hn := (finalize_null r (defaultNull .f32) row col
    (hillshadeCell r.res azimuth altitude fun i j => r.extended (row + i) (col + j)) h1 h2).1.mpr h
  generalize finalize r _ row col _ = c at hn ⊢
  unfold setNull255 astypeU8
  simp [hn]

@[simp] theorem eq_nan (x : Val) : x.eq nan = false := by cases x <;> rfl
@[simp] theorem nan_eq (x : Val) : nan.eq x = false := rfl
@[simp] theorem nan_lt (x : Val) : nan.lt x = false := rfl
@[simp] theorem nan_le (x : Val) : nan.le x = false := rfl
@[simp] theorem sqrt_nan : Val.sqrt nan = nan := rfl
@[simp] theorem arctan_nan : Val.arctan nan = nan := rfl
@[simp] theorem cos_nan : Val.cos nan = nan := rfl
@[simp] theorem sin_nan : Val.sin nan = nan := rfl
@[simp] theorem arctan2_nan (x : Val) : arctan2 nan x = nan := rfl
@[simp] theorem arctan2_nan' (y : Val) : arctan2 y nan = nan := by cases y <;> rfl

/-- The second half of **C53** is false: in a raster with null cells, the cells beside them hold NaN in `slope`, `aspect`
and `surface_area_3d` without being null, and `hillshade` converts this NaN to an integer. -/
theorem C53_next_to_null (r : Raster) (hc : Chunked r) (hm : r.masked = true) {row col : Nat} (hi : Interior r row col)
    (h0 : r.mask row col = false) {row' col' : Nat} (hn : Near row col row' col') (h : r.mask row' col' = true) :
    (∀ degrees, slope degrees r row col = some ⟨nan, false⟩) ∧ aspect r row col = some ⟨nan, false⟩ ∧
    surfaceArea3d r row col = some ⟨nan, false⟩ ∧
    ∀ azimuth altitude, hillshade azimuth altitude r row col = some ⟨toByte nan, false⟩ := by
  obtain ⟨i1, i2, i3, i4⟩ := hi
  obtain ⟨n1, n2, n3, n4⟩ := hn
  have hx : r.extended row' col' = nan := by
    unfold Raster.extended Raster.nullToNan
    rw [if_pos ⟨by omega, by omega, by omega, by omega⟩]
    simp [hm, h]
  have hf : ∀ nv v, finalize r nv row col v = ⟨v, false⟩ := by
    intro nv v
    unfold finalize edgeMask
    rw [if_neg]
    rw [h0]
    simp
    omega
  have hne : ¬(row' = row ∧ col' = col) := by
    rintro ⟨rfl, rfl⟩
    rw [h] at h0
    exact nomatch h0
  -- the null neighbour is one of eight
  have key : ∃ i j : Int, r.extended (row + i) (col + j) = nan ∧
      ((i = -1 ∧ j = -1) ∨ (i = -1 ∧ j = 0) ∨ (i = -1 ∧ j = 1) ∨ (i = 0 ∧ j = -1) ∨ (i = 0 ∧ j = 1) ∨ (i = 1 ∧ j = -1) ∨
        (i = 1 ∧ j = 0) ∨ (i = 1 ∧ j = 1)) := by
    refine ⟨(row' : Int) - row, (col' : Int) - col, ?_, by omega⟩
    rw [show (row : Int) + (row' - row) = row' by omega, show (col : Int) + (col' - col) = col' by omega, hx]
  obtain ⟨i, j, hij, hc8⟩ := key
  have hgrad : ∀ x : Around, x i j = nan → (gradient r.res x).1 = nan ∨ (gradient r.res x).2 = nan := by
    intro x e
    unfold gradient
    rcases hc8 with ⟨rfl, rfl⟩ | ⟨rfl, rfl⟩ | ⟨rfl, rfl⟩ | ⟨rfl, rfl⟩ | ⟨rfl, rfl⟩ | ⟨rfl, rfl⟩ | ⟨rfl, rfl⟩ | ⟨rfl, rfl⟩ <;>
      simp [e]
  have hslope : ∀ p q : Val, p = nan ∨ q = nan → p * p + q * q = nan := by
    rintro p q (rfl | rfl) <;> simp
  set x : Around := fun i j => r.extended (row + i) (col + j) with hxdef
  have hxij : x i j = nan := hij
  have h1 : row < r.ny := by omega
  have h2 : col < r.nx := by omega
  refine ⟨fun d => ?_, ?_, ?_, fun az al => ?_⟩
  · unfold slope
    rw [mapCells_eq _ r hc h1 h2, Option.map_some, hf]
    unfold slopeCell
    simp only
    rw [hslope _ _ (hgrad x hxij)]
    cases d <;> simp
  · unfold aspect
    rw [mapCells_eq _ r hc h1 h2, Option.map_some, hf]
    unfold aspectCell
    rw [← hxdef]
    rcases hc8 with ⟨rfl, rfl⟩ | ⟨rfl, rfl⟩ | ⟨rfl, rfl⟩ | ⟨rfl, rfl⟩ | ⟨rfl, rfl⟩ | ⟨rfl, rfl⟩ | ⟨rfl, rfl⟩ | ⟨rfl, rfl⟩ <;>
      simp [hxij]
  · unfold surfaceArea3d
    rw [mapCells_eq _ r hc h1 h2, Option.map_some, hf]
    unfold surfaceAreaCell
    rw [← hxdef]
    rcases hc8 with ⟨rfl, rfl⟩ | ⟨rfl, rfl⟩ | ⟨rfl, rfl⟩ | ⟨rfl, rfl⟩ | ⟨rfl, rfl⟩ | ⟨rfl, rfl⟩ | ⟨rfl, rfl⟩ | ⟨rfl, rfl⟩ <;>
      simp [hxij, side, heron]
  · unfold hillshade
    rw [mapCells_eq _ r hc h1 h2, Option.map_some, hf]
    unfold hillshadeCell
    simp only
    rw [hslope _ _ (hgrad x hxij)]
    simp [setNull255, astypeU8]

/-- The second half of **C53** is false for `hillshade` of rasters without null cells too: level ground lit from straight
above is null. -/
theorem C53_lit_from_above (r : Raster) (hc : Chunked r) {row col : Nat} (hi : Interior r row col) (k azimuth : ℝ)
    (hz : Elevations r row col fun _ _ => k) : hillshade azimuth 90 r row col = some ⟨some 255, true⟩ := by
  obtain ⟨_, _, h⟩ := C37_hillshade r hc hi hz azimuth 90
  have e : shade azimuth 90 ((rise (fun _ _ => k) row col).1 / r.res.1) ((rise (fun _ _ => k) row col).2 / r.res.2) = 255 := by
    have e90 : (90 : ℝ) * (Real.pi / 180) = Real.pi / 2 := by ring
    unfold rise shade
    simp [e90]
  rw [h, if_pos e]

/-- A case for `C53_next_to_null`. -/
example : slope true { Toy.raster (1, -1) (fun _ _ => 0) with mask := fun i j => i == 1 && j == 2, masked := true } 2 3 =
    some ⟨nan, false⟩ :=
  (C53_next_to_null _ ⟨rfl, rfl⟩ rfl (row := 2) (col := 3) ⟨by decide, by decide, by decide, by decide⟩ (by decide)
    (row' := 1) (col' := 2) ⟨by decide, by decide, by decide, by decide⟩ (by decide)).1 true

/-- Cases for `C37_constant`, `C53_null_cells` and `C53_hillshade`: a raster with a null cell that is not at the edge. -/
example : ∃ r : Raster, Chunked r ∧ r.masked = true ∧ r.mask 1 2 = true ∧ r.mask 2 3 = false ∧
    (∃ c, slope true r 1 2 = some c ∧ c.null = true) ∧ (∃ c, slope true r 2 1 = some c ∧ c.null = false) ∧
    hillshade 315 45 r 0 3 = some ⟨some 255, true⟩ ∧
    slope true { r with data := fun i j => r.data i j + num 100 } 2 3 = slope true r 2 3 := by
  refine ⟨{ Toy.raster (1, -1) (fun i j => i * j) with mask := fun i j => i == 1 && j == 2, masked := true }, ⟨rfl, rfl⟩, rfl,
    by decide, by decide, ?_, ?_, ?_, ?_⟩
  · obtain ⟨c, e, h, _⟩ := C53_null_cells { Toy.raster (1, -1) (fun i j => i * j) with
      mask := fun i j => i == 1 && j == 2, masked := true } ⟨rfl, rfl⟩ (row := 1) (col := 2) (by decide) (by decide) (slope true)
      (by simp)
    exact ⟨c, e, h.mpr (Or.inl (by decide))⟩
  · obtain ⟨c, e, h, _⟩ := C53_null_cells { Toy.raster (1, -1) (fun i j => i * j) with
      mask := fun i j => i == 1 && j == 2, masked := true } ⟨rfl, rfl⟩ (row := 2) (col := 1) (by decide) (by decide) (slope true)
      (by simp)
    refine ⟨c, e, ?_⟩
    rw [Bool.eq_false_iff, ne_eq, h]
    decide
  · exact C53_hillshade _ ⟨rfl, rfl⟩ (by decide) (by decide) 315 45 (Or.inr (Or.inl rfl))
  · exact (C37_constant { Toy.raster (1, -1) (fun i j => i * j) with
      mask := fun i j => i == 1 && j == 2, masked := true } ⟨rfl, rfl⟩ 100 (row := 2) (col := 3) (by decide) (by decide)).1 true

/-- A case for `C53_lit_from_above`. -/
example : hillshade 315 90 (Toy.raster (1, -1) (fun _ _ => 7)) 2 3 = some ⟨some 255, true⟩ :=
  C53_lit_from_above _ (Toy.chunked _ _) (Toy.interior _ _) 7 315 (Toy.elevations _ _ _ _)

/-! ## Northing and easting -/

/-- **C52**, for square cells with rows from north to south and a plane that is not level.  `northing` and `easting` are
the components of the unit vector that points downhill.  Missing: level cells (`C52_level`) and other cells (as in C50). -/
theorem C52_downhill_partial (r : Raster) (hc : Chunked r) {row col : Nat} (hi : Interior r row col) (a b k x0 y0 : ℝ)
    (h1 : 0 < r.res.1) (h2 : r.res.2 = -r.res.1) (hab : ¬(a = 0 ∧ b = 0))
    (hz : Elevations r row col (plane r.res a b k x0 y0)) :
    northingOf true r row col = some ⟨num (-b / Real.sqrt (a ^ 2 + b ^ 2)), false⟩ ∧
    northingOf false r row col = some ⟨num (-a / Real.sqrt (a ^ 2 + b ^ 2)), false⟩ := by
  obtain ⟨v, e, _, _, es, ec⟩ := C50_downhill_partial r hc hi a b k x0 y0 h1 h2 hab hz
  have hp : 0 < a ^ 2 + b ^ 2 := by
    by_contra hn
    apply hab
    constructor <;> nlinarith [sq_nonneg a, sq_nonneg b]
  have hs := (Real.sqrt_pos.mpr hp).ne'
  unfold northingOf
  rw [e]
  simp only [Option.map_some, northingEasting, Option.isSome_some, Bool.and_false, Bool.false_eq_true, if_false, if_true, toRadians,
    num_mul, cos_num, sin_num]
  rw [ec, es, mul_div_cancel_left₀ _ hs, mul_div_cancel_left₀ _ hs]
  exact ⟨rfl, rfl⟩

/-- **C52** (range).  At every cell with known elevations the two lie between -1 and 1 and their squares add up to 1. -/
theorem C52_range (r : Raster) (hc : Chunked r) {row col : Nat} (hi : Interior r row col) {z : Nat → Nat → ℝ}
    (hz : Elevations r row col z) : ∃ n e, northingOf true r row col = some ⟨num n, false⟩ ∧
      northingOf false r row col = some ⟨num e, false⟩ ∧ n ^ 2 + e ^ 2 = 1 ∧ |n| ≤ 1 ∧ |e| ≤ 1 := by
  obtain ⟨v, h, _⟩ := C37_aspect r hc hi hz
  unfold northingOf
  rw [h]
  simp only [Option.map_some, northingEasting, Option.isSome_some, Bool.and_false, Bool.false_eq_true, if_false, if_true, toRadians,
    num_mul, cos_num, sin_num]
  exact ⟨_, _, rfl, rfl, Real.cos_sq_add_sin_sq _, Real.abs_cos_le_one _, Real.abs_sin_le_one _⟩

/-- **C52** is false for level cells: they have no direction but get that of one degree west of north. -/
theorem C52_level (r : Raster) (hc : Chunked r) {row col : Nat} (hi : Interior r row col) {z : Nat → Nat → ℝ}
    (hz : Elevations r row col z) (h : rise z row col = (0, 0)) :
    northingOf true r row col = some ⟨num (Real.cos (Real.pi / 180)), false⟩ ∧
    northingOf false r row col = some ⟨num (-Real.sin (Real.pi / 180)), false⟩ := by
  unfold northingOf
  rw [aspect_eq r hc hi hz, if_pos h]
  simp only [Option.map_some, northingEasting, Option.isSome_some, Bool.and_false, Bool.false_eq_true, if_false, if_true, toRadians,
    num_mul, cos_num, sin_num, neg_mul, one_mul, Real.cos_neg, Real.sin_neg]
  exact ⟨trivial, trivial⟩

/-- **C52** (null cells).  Null cells of the aspect stay null and hold the null value. -/
theorem C52_null (r : Raster) (hc : Chunked r) {row col : Nat} (h1 : row < r.ny) (h2 : col < r.nx) (north : Bool) :
    ∃ c, northingOf north r row col = some c ∧
      (c.null = true ↔ r.mask row col = true ∨ row = 0 ∨ row + 1 = r.ny ∨ col = 0 ∨ col + 1 = r.nx) ∧
      (c.null = true → c.value = num (-999999)) := by
  obtain ⟨c, e, hn, hv⟩ := C53_null_cells r hc h1 h2 aspect (by simp)
  refine ⟨northingEasting north (some (defaultNull .f64)) c, ?_, hn, ?_⟩
  · unfold northingOf
    rw [e]
    rfl
  · intro h
    have h' : c.null = true := h
    simp [northingEasting, h', defaultNull, Nulls.defaultNull]

/-- Cases for `C52_downhill_partial` and `C52_level`. -/
example : northingOf true (Toy.raster (2, -2) (plane (2, -2) 3 4 0 0 0)) 2 3 = some ⟨num (-4 / 5), false⟩ := by
  rw [(C52_downhill_partial (Toy.raster (2, -2) (plane (2, -2) 3 4 0 0 0)) (Toy.chunked _ _) (Toy.interior _ _) 3 4 0 0 0
    (by norm_num [Toy.raster]) (by norm_num [Toy.raster]) (by norm_num) (Toy.elevations _ _ _ _)).1,
    show (3 : ℝ) ^ 2 + 4 ^ 2 = 5 ^ 2 by norm_num, Real.sqrt_sq (by norm_num)]

example : northingOf true (Toy.raster (2, -2) (fun _ _ => 0)) 2 3 = some ⟨num (Real.cos (Real.pi / 180)), false⟩ :=
  (C52_level _ (Toy.chunked _ _) (Toy.interior _ _) (Toy.elevations _ _ _ _) (by simp [rise])).1

end Verif.Surface
