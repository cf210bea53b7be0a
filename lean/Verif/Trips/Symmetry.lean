import Verif.Surface.Props
import Mathlib.Analysis.SpecialFunctions.Trigonometric.Angle

set_option linter.unusedSectionVars false

/-!
# C94: terrain seen from the other side

`slope`, `aspect`, `curvature`, `surface_area_3d` and `hillshade` (`surface.py`, C37 and C50 to C53) of a mirrored, transposed,
stretched or inverted raster of elevations.
-/

namespace Verif.Trips

open Verif Verif.Surface Val
open Verif.Surface.Spec (Chunked shade)

namespace Spec

/-- The columns in reverse order. -/
structure WestEast (r r' : Surface.Raster) : Prop where
  ny : r'.ny = r.ny
  nx : r'.nx = r.nx
  res : r'.res = r.res
  masked : r'.masked = r.masked
  data : ∀ i < r.ny, ∀ j < r.nx, r'.data i (r.nx - 1 - j) = r.data i j
  mask : ∀ i < r.ny, ∀ j < r.nx, r'.mask i (r.nx - 1 - j) = r.mask i j

/-- The rows in reverse order. -/
structure NorthSouth (r r' : Surface.Raster) : Prop where
  ny : r'.ny = r.ny
  nx : r'.nx = r.nx
  res : r'.res = r.res
  masked : r'.masked = r.masked
  data : ∀ i < r.ny, ∀ j < r.nx, r'.data (r.ny - 1 - i) j = r.data i j
  mask : ∀ i < r.ny, ∀ j < r.nx, r'.mask (r.ny - 1 - i) j = r.mask i j

/-- Rows are columns; the sides of a cell are exchanged, with any signs. -/
structure Transposed (r r' : Surface.Raster) : Prop where
  ny : r'.ny = r.nx
  nx : r'.nx = r.ny
  res1 : |r'.res.1| = |r.res.2|
  res2 : |r'.res.2| = |r.res.1|
  masked : r'.masked = r.masked
  data : ∀ i < r.ny, ∀ j < r.nx, r'.data j i = r.data i j
  mask : ∀ i < r.ny, ∀ j < r.nx, r'.mask j i = r.mask i j

/-- Other elevations on the same grid. -/
structure Elevated (f : Val → Val) (r r' : Surface.Raster) : Prop where
  ny : r'.ny = r.ny
  nx : r'.nx = r.nx
  res : r'.res = r.res
  masked : r'.masked = r.masked
  data : ∀ i < r.ny, ∀ j < r.nx, r'.data i j = f (r.data i j)
  mask : ∀ i < r.ny, ∀ j < r.nx, r'.mask i j = r.mask i j

/-- A number that stands for no direction stays what it is. -/
noncomputable def direction (f : ℝ → ℝ) : Val → Val
  | num v => if v = -1 then num (-1) else num (f v)
  | nan => nan

/-- Null cells stay what they are. -/
noncomputable def valid (f : Val → Val) (c : Surface.Cell) : Surface.Cell := if c.null then c else ⟨f c.value, false⟩

/-- The compass direction in the mirror: east and west exchanged, north and south exchanged, west and north exchanged, and the
opposite one. -/
noncomputable def eastWest (v : ℝ) : ℝ := if v = 0 then 0 else 360 - v
noncomputable def northSouth (v : ℝ) : ℝ := if v ≤ 180 then 180 - v else 540 - v
noncomputable def westNorth (v : ℝ) : ℝ := if v ≤ 270 then 270 - v else 630 - v
noncomputable def opposite (v : ℝ) : ℝ := if v < 180 then v + 180 else v - 180

end Spec

open Spec

/-! ### Arithmetic -/

theorem val_add_comm (a b : Val) : a + b = b + a := by
  cases a <;> cases b <;> simp [add_comm]

theorem val_add_assoc (a b c : Val) : a + b + c = a + (b + c) := by
  cases a <;> cases b <;> cases c <;> simp [add_assoc]

theorem val_neg_mul_neg (a : Val) : -a * -a = a * a := by
  cases a <;> simp

theorem val_neg_div (a b : Val) : -a / b = -(a / b) := by
  cases a <;> cases b <;> simp [neg_div]

theorem sobel_neg (c f i a d g : Val) : (a + 2 * d + g) - (c + 2 * f + i) = -((c + 2 * f + i) - (a + 2 * d + g)) := by
  cases c <;> cases f <;> cases i <;> cases a <;> cases d <;> cases g <;>
    simp only [num_ofNat, num_add, num_sub, num_mul, nan_add, add_nan, nan_sub, sub_nan, mul_nan, num_neg, neg_nan]
  congr 1
  ring

theorem ends_swap (c f i : Val) : i + 2 * f + c = c + 2 * f + i := by
  cases c <;> cases f <;> cases i <;> simp
  ring

/-! ### The gradient -/

theorem gradient_we (res : ℝ × ℝ) (x : Around) :
    gradient res (fun i j => x i (-j)) = (-(gradient res x).1, (gradient res x).2) := by
  unfold gradient
  simp only [neg_neg, neg_zero, ← val_neg_div]
  rw [sobel_neg (x 1 1) (x 0 1), ends_swap (x (-1) (-1)) _ (x (-1) 1), ends_swap (x 1 (-1)) _ (x 1 1)]

theorem gradient_ns (res : ℝ × ℝ) (x : Around) :
    gradient res (fun i j => x (-i) j) = ((gradient res x).1, -(gradient res x).2) := by
  unfold gradient
  simp only [neg_neg, neg_zero, ← val_neg_div]
  rw [sobel_neg (x (-1) (-1)) (x (-1) 0), ends_swap (x 1 1) _ (x (-1) 1), ends_swap (x 1 (-1)) _ (x (-1) (-1))]

theorem val_square_div (a : Val) {d e : ℝ} (h : d ^ 2 = e ^ 2) :
    a / (num d * 8) * (a / (num d * 8)) = a / (num e * 8) * (a / (num e * 8)) := by
  cases a
  · simp only [num_ofNat, num_mul, num_div]
    congr 1
    rw [div_mul_div_comm, div_mul_div_comm]
    congr 1
    nlinarith
  · rfl

theorem slope_we (res : ℝ × ℝ) (d : Bool) (x : Around) : slopeCell res d (fun i j => x i (-j)) = slopeCell res d x := by
  unfold slopeCell
  rw [gradient_we]
  simp only [val_neg_mul_neg]

theorem slope_ns (res : ℝ × ℝ) (d : Bool) (x : Around) : slopeCell res d (fun i j => x (-i) j) = slopeCell res d x := by
  unfold slopeCell
  rw [gradient_ns]
  simp only [val_neg_mul_neg]

theorem slope_tr {res res' : ℝ × ℝ} (h1 : res'.1 ^ 2 = res.2 ^ 2) (h2 : res'.2 ^ 2 = res.1 ^ 2) (d : Bool) (x : Around) :
    slopeCell res' d (fun i j => x j i) = slopeCell res d x := by
  unfold slopeCell gradient
  simp only
  rw [ends_swap (x 1 (-1)) (x 1 0) (x 1 1), ends_swap (x (-1) (-1)) (x (-1) 0) (x (-1) 1), sobel_neg (x (-1) (-1)) (x (-1) 0),
    ends_swap (x 1 (-1)) (x 0 (-1)) (x (-1) (-1)), ends_swap (x 1 1) (x 0 1) (x (-1) 1), sobel_neg (x 1 1) (x 0 1) (x (-1) 1),
    val_neg_div, val_neg_div, val_neg_mul_neg, val_neg_mul_neg, val_square_div _ h1, val_square_div _ h2, val_add_comm]

/-! ### Curvature and area -/

theorem curv_we (res : ℝ × ℝ) (x : Around) : curvCell res (fun i j => x i (-j)) = curvCell res x := by
  unfold curvCell
  simp only [neg_neg, neg_zero]
  rw [val_add_comm (x 0 1)]

theorem curv_ns (res : ℝ × ℝ) (x : Around) : curvCell res (fun i j => x (-i) j) = curvCell res x := by
  unfold curvCell
  simp only [neg_neg, neg_zero]
  rw [val_add_comm (x 1 0)]

theorem curv_tr {res res' : ℝ × ℝ} (h1 : res'.1 = res.2) (h2 : res'.2 = res.1) (x : Around) :
    curvCell res' (fun i j => x j i) = curvCell res x := by
  unfold curvCell
  simp only [h1, h2]
  rw [val_add_comm ((x (-1) 0 + x 1 0) / 2 - x 0 0)]
  congr 1
  simp [mul_comm]

/-- The area from the nine elevations. -/
noncomputable def areaOf (sd dd e a b c d f g h i : Val) : Val :=
  0 + heron (side dd e a) (side sd e b) (side sd a b) + heron (side dd e c) (side sd e b) (side sd b c) +
    heron (side dd e c) (side sd e f) (side sd c f) + heron (side dd e i) (side sd e f) (side sd f i) +
    heron (side dd e i) (side sd e h) (side sd h i) + heron (side dd e g) (side sd e h) (side sd g h) +
    heron (side dd e g) (side sd d g) (side sd e d) + heron (side dd e a) (side sd e d) (side sd a d)

theorem area_eq (res : ℝ) (x : Around) : surfaceAreaCell res x = areaOf (num res * num res) (num res * num res * 2) (x 0 0)
    (x 1 (-1)) (x 1 0) (x 1 1) (x 0 (-1)) (x 0 1) (x (-1) (-1)) (x (-1) 0) (x (-1) 1) := rfl

instance : Std.Associative (α := Val) (· + ·) := ⟨val_add_assoc⟩
instance : Std.Commutative (α := Val) (· + ·) := ⟨val_add_comm⟩

theorem areaOf_we (sd dd e a b c d f g h i : Val) : areaOf sd dd e c b a f d i h g = areaOf sd dd e a b c d f g h i := by
  unfold areaOf
  rw [side_swap sd c b, side_swap sd b a, side_swap sd h g, side_swap sd i h, heron_swap' (side dd e i) (side sd f i),
    heron_swap' (side dd e g) (side sd d g)]
  ac_rfl

theorem areaOf_ns (sd dd e a b c d f g h i : Val) : areaOf sd dd e g h i d f a b c = areaOf sd dd e a b c d f g h i := by
  unfold areaOf
  rw [side_swap sd i f, side_swap sd f c, side_swap sd b c, side_swap sd d a, side_swap sd g d, side_swap sd h i,
    heron_swap' (side dd e a) (side sd a d), heron_swap' (side dd e g) (side sd d g)]
  ac_rfl

theorem areaOf_tr (sd dd e a b c d f g h i : Val) : areaOf sd dd e i f c h b g d a = areaOf sd dd e a b c d f g h i := by
  unfold areaOf
  rw [side_swap sd i f, side_swap sd f c, side_swap sd c b, side_swap sd b a, side_swap sd d a, side_swap sd g d, side_swap sd h g, side_swap sd i h,
    heron_swap' (side dd e g) (side sd g h), heron_swap' (side dd e g) (side sd d g)]
  ac_rfl

/-! ### Aspect -/

/-- The aspect from the two differences. -/
noncomputable def aspectVal (p q : Val) : Val :=
  if p.eq 0 && q.eq 0 then num (-1)
  else
    let aspect := arctan2 q (-p) * toDegrees
    if aspect.le 90 then 90 - aspect else 450 - aspect

/-- The difference between the columns and between the rows. -/
noncomputable def across (x : Around) : Val :=
  ((x (-1) 1 + 2 * x 0 1 + x 1 1) - (x (-1) (-1) + 2 * x 0 (-1) + x 1 (-1))) / 8
noncomputable def down (x : Around) : Val :=
  ((x 1 (-1) + 2 * x 1 0 + x 1 1) - (x (-1) (-1) + 2 * x (-1) 0 + x (-1) 1)) / 8

theorem aspectCell_eq (x : Around) : aspectCell x = aspectVal (across x) (down x) := rfl

theorem aspectVal_num (p q : ℝ) : aspectVal (num p) (num q) = num (if p = 0 ∧ q = 0 then -1 else aspectOf p q) := by
  unfold aspectVal
  simp only [num_ofNat, num_zero, num_sub, num_mul, num_neg, eq_num, arctan2_num, toDegrees, le_num, Bool.and_eq_true, decide_eq_true_eq]
  by_cases h : p = 0 ∧ q = 0
  · rw [if_pos h, if_pos h]
  · rw [if_neg h, if_neg h]
    unfold aspectOf
    split <;> rfl

theorem aspectVal_nan (p q : Val) (h : p = nan ∨ q = nan) : aspectVal p q = nan := by
  rcases h with rfl | rfl
  · cases q <;> rfl
  · cases p with
    | nan => rfl
    | num p =>
      unfold aspectVal
      rw [show (nan : Val).eq 0 = false from rfl, Bool.and_false]
      rfl

/-- An angle between 0 and 360 degrees is known by its sine and cosine. -/
theorem degrees_unique {v w : ℝ} (hv : 0 ≤ v ∧ v < 360) (hw : 0 ≤ w ∧ w < 360)
    (hs : Real.sin (v * (Real.pi / 180)) = Real.sin (w * (Real.pi / 180)))
    (hc : Real.cos (v * (Real.pi / 180)) = Real.cos (w * (Real.pi / 180))) : v = w := by
  have hpi := Real.pi_pos
  obtain ⟨k, hk⟩ := Real.Angle.angle_eq_iff_two_pi_dvd_sub.1 (Real.Angle.cos_sin_inj hc hs)
  have e : v - w = 360 * k := by
    have : (v - w) * (Real.pi / 180) = 360 * k * (Real.pi / 180) := by rw [sub_mul, hk]; ring
    exact mul_right_cancel₀ (by positivity) this
  have h1 : (k : ℝ) < 1 := by linarith [hv.2, hw.1]
  have h2 : (-1 : ℝ) < k := by linarith [hv.1, hw.2]
  have h1' : k < 1 := by exact_mod_cast h1
  have h2' : -1 < k := by exact_mod_cast h2
  have : k = 0 := by omega
  rw [this] at e
  norm_num at e
  linarith

theorem aspectOf_unique {p q v : ℝ} (h : ¬(p = 0 ∧ q = 0)) (hv : 0 ≤ v ∧ v < 360)
    (h1 : -p = Real.sqrt (p ^ 2 + q ^ 2) * Real.sin (v * (Real.pi / 180)))
    (h2 : q = Real.sqrt (p ^ 2 + q ^ 2) * Real.cos (v * (Real.pi / 180))) : aspectOf p q = v := by
  obtain ⟨a1, a2, a3, a4⟩ := aspectOf_spec p q
  have hne : Real.sqrt (p ^ 2 + q ^ 2) ≠ 0 := by
    intro h0
    rw [h0, zero_mul] at h1 h2
    exact h ⟨by linarith, h2⟩
  refine degrees_unique ⟨a1, a2⟩ hv ?_ ?_
  · exact mul_left_cancel₀ hne (a3.symm.trans h1)
  · exact mul_left_cancel₀ hne (a4.symm.trans h2)

theorem direction_num {f : ℝ → ℝ} {p q p' q' : ℝ} (h0 : p' = 0 ∧ q' = 0 ↔ p = 0 ∧ q = 0)
    (h : ¬(p = 0 ∧ q = 0) → aspectOf p' q' = f (aspectOf p q)) :
    aspectVal (num p') (num q') = direction f (aspectVal (num p) (num q)) := by
  rw [aspectVal_num, aspectVal_num]
  by_cases h1 : p = 0 ∧ q = 0
  · rw [if_pos h1, if_pos (h0.2 h1)]
    simp [direction]
  · rw [if_neg h1, if_neg fun h => h1 (h0.1 h), h h1]
    have := (aspectOf_spec p q).1
    simp only [direction]
    rw [if_neg (by linarith)]

theorem sqrt_neg_left (p q : ℝ) : Real.sqrt ((-p) ^ 2 + q ^ 2) = Real.sqrt (p ^ 2 + q ^ 2) := by rw [neg_sq]

theorem aspectVal_we (p q : Val) : aspectVal (-p) q = direction eastWest (aspectVal p q) := by
  cases p with
  | nan => rw [aspectVal_nan (-nan) _ (.inl rfl), aspectVal_nan nan _ (.inl rfl)]; rfl
  | num p =>
    cases q with
    | nan => rw [aspectVal_nan _ nan (.inr rfl), aspectVal_nan _ nan (.inr rfl)]; rfl
    | num q =>
      refine direction_num (by simp) fun h => ?_
      obtain ⟨a1, a2, a3, a4⟩ := aspectOf_spec p q
      refine aspectOf_unique (by simpa using h) ?_ ?_ ?_
      · unfold eastWest
        split
        · norm_num
        · rename_i hz
          exact ⟨by linarith, by linarith [lt_of_le_of_ne a1 (Ne.symm hz)]⟩
      · rw [neg_sq]
        unfold eastWest
        split
        · rename_i hz
          rw [hz] at a3
          simp at a3
          simp [a3]
        · rw [show (360 - aspectOf p q) * (Real.pi / 180) = 2 * Real.pi - aspectOf p q * (Real.pi / 180) by ring, Real.sin_two_pi_sub]
          linarith
      · rw [neg_sq]
        unfold eastWest
        split
        · rename_i hz
          rw [hz] at a4
          exact a4
        · rw [show (360 - aspectOf p q) * (Real.pi / 180) = 2 * Real.pi - aspectOf p q * (Real.pi / 180) by ring, Real.cos_two_pi_sub]
          exact a4

theorem aspectVal_ns (p q : Val) : aspectVal p (-q) = direction northSouth (aspectVal p q) := by
  cases p with
  | nan => rw [aspectVal_nan nan _ (.inl rfl), aspectVal_nan nan _ (.inl rfl)]; rfl
  | num p =>
    cases q with
    | nan => rw [aspectVal_nan _ (-nan) (.inr rfl), aspectVal_nan _ nan (.inr rfl)]; rfl
    | num q =>
      refine direction_num (by simp) fun h => ?_
      obtain ⟨a1, a2, a3, a4⟩ := aspectOf_spec p q
      have e1 : (180 - aspectOf p q) * (Real.pi / 180) = Real.pi - aspectOf p q * (Real.pi / 180) := by ring
      have e2 : (540 - aspectOf p q) * (Real.pi / 180) = Real.pi - aspectOf p q * (Real.pi / 180) + 2 * Real.pi := by ring
      refine aspectOf_unique (by simpa using h) ?_ ?_ ?_
      · unfold northSouth
        split
        · exact ⟨by linarith, by linarith⟩
        · exact ⟨by linarith, by linarith⟩
      · rw [neg_sq]
        unfold northSouth
        split
        · rw [e1, Real.sin_pi_sub]; exact a3
        · rw [e2, Real.sin_add_two_pi, Real.sin_pi_sub]; exact a3
      · rw [neg_sq]
        unfold northSouth
        split
        · rw [e1, Real.cos_pi_sub]; linarith
        · rw [e2, Real.cos_add_two_pi, Real.cos_pi_sub]; linarith

theorem aspectVal_tr (p q : Val) : aspectVal q p = direction westNorth (aspectVal p q) := by
  cases p with
  | nan => rw [aspectVal_nan _ _ (.inr rfl), aspectVal_nan _ _ (.inl rfl)]; rfl
  | num p =>
    cases q with
    | nan => rw [aspectVal_nan _ _ (.inl rfl), aspectVal_nan _ _ (.inr rfl)]; rfl
    | num q =>
      refine direction_num (And.comm) fun h => ?_
      obtain ⟨a1, a2, a3, a4⟩ := aspectOf_spec p q
      have e1 : (270 - aspectOf p q) * (Real.pi / 180) = Real.pi / 2 - aspectOf p q * (Real.pi / 180) + Real.pi := by ring
      have e2 : (630 - aspectOf p q) * (Real.pi / 180) = Real.pi / 2 - aspectOf p q * (Real.pi / 180) + Real.pi + 2 * Real.pi := by ring
      refine aspectOf_unique (fun h' => h ⟨h'.2, h'.1⟩) ?_ ?_ ?_
      · unfold westNorth
        split
        · exact ⟨by linarith, by linarith⟩
        · exact ⟨by linarith, by linarith⟩
      · rw [add_comm (q ^ 2)]
        unfold westNorth
        split
        · rw [e1, Real.sin_add_pi, Real.sin_pi_div_two_sub]; linarith
        · rw [e2, Real.sin_add_two_pi, Real.sin_add_pi, Real.sin_pi_div_two_sub]; linarith
      · rw [add_comm (q ^ 2)]
        unfold westNorth
        split
        · rw [e1, Real.cos_add_pi, Real.cos_pi_div_two_sub]; linarith
        · rw [e2, Real.cos_add_two_pi, Real.cos_add_pi, Real.cos_pi_div_two_sub]; linarith

theorem aspectVal_opposite (p q : Val) : aspectVal (-p) (-q) = direction opposite (aspectVal p q) := by
  cases p with
  | nan => rw [aspectVal_nan (-nan) _ (.inl rfl), aspectVal_nan nan _ (.inl rfl)]; rfl
  | num p =>
    cases q with
    | nan => rw [aspectVal_nan _ (-nan) (.inr rfl), aspectVal_nan _ nan (.inr rfl)]; rfl
    | num q =>
      refine direction_num (by simp) fun h => ?_
      obtain ⟨a1, a2, a3, a4⟩ := aspectOf_spec p q
      have e1 : (aspectOf p q + 180) * (Real.pi / 180) = aspectOf p q * (Real.pi / 180) + Real.pi := by ring
      have e2 : (aspectOf p q - 180) * (Real.pi / 180) = aspectOf p q * (Real.pi / 180) - Real.pi := by ring
      refine aspectOf_unique (by simpa using h) ?_ ?_ ?_
      · unfold opposite
        split
        · exact ⟨by linarith, by linarith⟩
        · exact ⟨by linarith, by linarith⟩
      · rw [neg_sq, neg_sq]
        unfold opposite
        split
        · rw [e1, Real.sin_add_pi]; linarith
        · rw [e2, Real.sin_sub_pi]; linarith
      · rw [neg_sq, neg_sq]
        unfold opposite
        split
        · rw [e1, Real.cos_add_pi]; linarith
        · rw [e2, Real.cos_sub_pi]; linarith

theorem aspectVal_scale {k : ℝ} (hk : 0 < k) (p q : Val) : aspectVal (num k * p) (num k * q) = aspectVal p q := by
  cases p with
  | nan => rw [aspectVal_nan _ _ (.inl (mul_nan _)), aspectVal_nan _ _ (.inl rfl)]
  | num p =>
    cases q with
    | nan => rw [aspectVal_nan _ _ (.inr (mul_nan _)), aspectVal_nan _ _ (.inr rfl)]
    | num q =>
      have key := direction_num (f := id) (p := p) (q := q) (p' := k * p) (q' := k * q) (by simp [hk.ne']) fun h => by
        obtain ⟨a1, a2, a3, a4⟩ := aspectOf_spec p q
        have e : Real.sqrt ((k * p) ^ 2 + (k * q) ^ 2) = k * Real.sqrt (p ^ 2 + q ^ 2) := by
          rw [show (k * p) ^ 2 + (k * q) ^ 2 = k ^ 2 * (p ^ 2 + q ^ 2) by ring, Real.sqrt_mul (sq_nonneg _), Real.sqrt_sq hk.le]
        refine aspectOf_unique (by simpa [hk.ne'] using h) ⟨a1, a2⟩ ?_ ?_
        · rw [e, id, mul_assoc, ← a3]; ring
        · rw [e, id, mul_assoc, ← a4]
      rw [num_mul, num_mul, key, aspectVal_num]
      simp only [direction, id]
      split_ifs with h1 h2 h2 <;> simp_all

theorem across_we (x : Around) : across (fun i j => x i (-j)) = -across x ∧ down (fun i j => x i (-j)) = down x := by
  unfold across down
  simp only [neg_neg, neg_zero, ← val_neg_div]
  rw [sobel_neg (x (-1) 1) (x 0 1), ends_swap (x (-1) (-1)) _ (x (-1) 1), ends_swap (x 1 (-1)) _ (x 1 1)]
  exact ⟨rfl, rfl⟩

theorem across_ns (x : Around) : across (fun i j => x (-i) j) = across x ∧ down (fun i j => x (-i) j) = -down x := by
  unfold across down
  simp only [neg_neg, neg_zero, ← val_neg_div]
  rw [sobel_neg (x 1 (-1)) (x 1 0), ends_swap (x (-1) 1) _ (x 1 1), ends_swap (x (-1) (-1)) _ (x 1 (-1))]
  exact ⟨rfl, rfl⟩

theorem across_tr (x : Around) : across (fun i j => x j i) = down x ∧ down (fun i j => x j i) = across x := ⟨rfl, rfl⟩

/-! ### Hillshade -/

theorem hillshade_nan (res : ℝ × ℝ) (azimuth altitude : ℝ) (x : Around) (h : (gradient res x).1 = nan ∨ (gradient res x).2 = nan) :
    hillshadeCell res azimuth altitude x = nan := by
  have e : (gradient res x).1 * (gradient res x).1 + (gradient res x).2 * (gradient res x).2 = nan := by
    rcases h with h | h <;> rw [h] <;> simp
  unfold hillshadeCell
  simp only
  rw [e]
  have e1 : (Val.sqrt nan).arctan = nan := rfl
  have e2 : Val.cos nan = nan := rfl
  simp only [e1, e2, mul_nan, nan_add]
  rfl

theorem hillshade_of {res : ℝ × ℝ} {az az' altitude : ℝ} {x y : Around} {f g : ℝ → ℝ}
    (h1 : (gradient res y).1 = (gradient res x).1.map f) (h2 : (gradient res y).2 = (gradient res x).2.map g)
    (hs : ∀ p q, shade az' altitude (f p) (-g q) = shade az altitude p (-q)) :
    hillshadeCell res az' altitude y = hillshadeCell res az altitude x := by
  cases hp : (gradient res x).1 with
  | nan =>
    rw [hillshade_nan _ _ _ x (.inl hp), hillshade_nan _ _ _ y (.inl (by rw [h1, hp]; rfl))]
  | num p =>
    cases hq : (gradient res x).2 with
    | nan => rw [hillshade_nan _ _ _ x (.inr hq), hillshade_nan _ _ _ y (.inr (by rw [h2, hq]; rfl))]
    | num q =>
      rw [hillshadeCell_eq res az altitude x (Prod.ext hp hq),
        hillshadeCell_eq res az' altitude y (p := f p) (q := g q) (Prod.ext (by rw [h1, hp]; rfl) (by rw [h2, hq]; rfl)), hs]

theorem shade_we (az altitude a b : ℝ) : shade (360 - az) altitude (-a) b = shade az altitude a b := by
  unfold shade
  simp only
  rw [show (360 - az) * (Real.pi / 180) = 2 * Real.pi - az * (Real.pi / 180) by ring, Real.sin_two_pi_sub, Real.cos_two_pi_sub, neg_sq]
  congr 4
  ring

theorem shade_ns (az altitude a b : ℝ) : shade (180 - az) altitude a (-b) = shade az altitude a b := by
  unfold shade
  simp only
  rw [show (180 - az) * (Real.pi / 180) = Real.pi - az * (Real.pi / 180) by ring, Real.sin_pi_sub, Real.cos_pi_sub, neg_sq]
  congr 4
  ring

theorem map_id_val (v : Val) : v.map (fun x => x) = v := by cases v <;> rfl

theorem hillshade_we (res : ℝ × ℝ) (az al : ℝ) (x : Around) :
    hillshadeCell res (360 - az) al (fun i j => x i (-j)) = hillshadeCell res az al x :=
  hillshade_of (f := fun v => -v) (g := fun v => v) (by rw [gradient_we]; rfl) (by rw [gradient_we, map_id_val])
    fun p q => shade_we az al p (-q)

theorem hillshade_ns (res : ℝ × ℝ) (az al : ℝ) (x : Around) :
    hillshadeCell res (180 - az) al (fun i j => x (-i) j) = hillshadeCell res az al x :=
  hillshade_of (f := fun v => v) (g := fun v => -v) (by rw [gradient_ns, map_id_val]) (by rw [gradient_ns]; rfl)
    fun p q => shade_ns az al p (-q)

/-! ### From cells to rasters -/

/-- A cell whose surroundings are those of another cell, rearranged and with other values. -/
theorem moved {r r' : Surface.Raster} (hc : Chunked r) (hc' : Chunked r') {row col row' col' : Nat} (h1 : row < r.ny) (h2 : col < r.nx)
    (h1' : row' < r'.ny) (h2' : col' < r'.nx) (turn : Around → Around)
    (hx : (fun i j => r'.extended (row' + i) (col' + j)) = turn fun i j => r.extended (row + i) (col + j))
    (he : edgeMask r' row' col' = edgeMask r row col) {cell cell' : Around → Val} {post : Val → Val}
    (hcell : ∀ x, cell' (turn x) = post (cell x)) (nv : Val) :
    (mapCells cell' r' row' col').map (finalize r' nv row' col') =
      ((mapCells cell r row col).map (finalize r nv row col)).map (valid post) := by
  rw [mapCells_eq _ r hc h1 h2, mapCells_eq _ r' hc' h1' h2', hx, hcell]
  simp only [Option.map_some]
  unfold finalize valid
  rw [he]
  by_cases h : edgeMask r row col = true <;> simp [h]

theorem valid_id (o : Option Surface.Cell) : o.map (valid fun v => v) = o := by
  cases o with
  | none => rfl
  | some c =>
    unfold valid
    obtain ⟨v, n⟩ := c
    cases n <;> rfl

theorem moved_same {r r' : Surface.Raster} (hc : Chunked r) (hc' : Chunked r') {row col row' col' : Nat} (h1 : row < r.ny)
    (h2 : col < r.nx) (h1' : row' < r'.ny) (h2' : col' < r'.nx) (turn : Around → Around)
    (hx : (fun i j => r'.extended (row' + i) (col' + j)) = turn fun i j => r.extended (row + i) (col + j))
    (he : edgeMask r' row' col' = edgeMask r row col) {cell cell' : Around → Val}
    (hcell : ∀ x, cell' (turn x) = cell x) (nv : Val) :
    (mapCells cell' r' row' col').map (finalize r' nv row' col') = (mapCells cell r row col).map (finalize r nv row col) := by
  rw [moved hc hc' h1 h2 h1' h2' turn hx he (post := fun v => v) hcell, valid_id]

theorem moved_hillshade {r r' : Surface.Raster} (hc : Chunked r) (hc' : Chunked r') {row col row' col' : Nat} (h1 : row < r.ny)
    (h2 : col < r.nx) (h1' : row' < r'.ny) (h2' : col' < r'.nx) (turn : Around → Around)
    (hx : (fun i j => r'.extended (row' + i) (col' + j)) = turn fun i j => r.extended (row + i) (col + j))
    (he : edgeMask r' row' col' = edgeMask r row col) {az az' al : ℝ}
    (hcell : ∀ x, hillshadeCell r'.res az' al (turn x) = hillshadeCell r.res az al x) :
    hillshade az' al r' row' col' = hillshade az al r row col := by
  unfold hillshade
  have := moved_same hc hc' h1 h2 h1' h2' turn hx he hcell (Surface.defaultNull .f32)
  have e := congrArg (Option.map fun c => astypeU8 (setNull255 (setNull255 c))) this
  rw [Option.map_map, Option.map_map] at e
  exact e

theorem extended_we {r r' : Surface.Raster} (h : WestEast r r') (i j : Int) : r'.extended i (r.nx - 1 - j) = r.extended i j := by
  unfold Raster.extended Raster.nullToNan
  rw [h.ny, h.nx, h.masked]
  by_cases hi : 0 ≤ i ∧ i < r.ny ∧ 0 ≤ j ∧ j < r.nx
  · rw [if_pos (by omega), if_pos hi]
    obtain ⟨n, rfl⟩ := Int.eq_ofNat_of_zero_le hi.1
    obtain ⟨m, rfl⟩ := Int.eq_ofNat_of_zero_le hi.2.2.1
    have e : ((r.nx : Int) - 1 - (m : Int)).toNat = r.nx - 1 - m := by omega
    rw [e, Int.toNat_natCast, Int.toNat_natCast, h.data n (by omega) m (by omega), h.mask n (by omega) m (by omega)]
  · rw [if_neg (by omega), if_neg hi]

theorem extended_ns {r r' : Surface.Raster} (h : NorthSouth r r') (i j : Int) : r'.extended (r.ny - 1 - i) j = r.extended i j := by
  unfold Raster.extended Raster.nullToNan
  rw [h.ny, h.nx, h.masked]
  by_cases hi : 0 ≤ i ∧ i < r.ny ∧ 0 ≤ j ∧ j < r.nx
  · rw [if_pos (by omega), if_pos hi]
    obtain ⟨n, rfl⟩ := Int.eq_ofNat_of_zero_le hi.1
    obtain ⟨m, rfl⟩ := Int.eq_ofNat_of_zero_le hi.2.2.1
    have e : ((r.ny : Int) - 1 - (n : Int)).toNat = r.ny - 1 - n := by omega
    rw [e, Int.toNat_natCast, Int.toNat_natCast, h.data n (by omega) m (by omega), h.mask n (by omega) m (by omega)]
  · rw [if_neg (by omega), if_neg hi]

theorem extended_tr {r r' : Surface.Raster} (h : Transposed r r') (i j : Int) : r'.extended j i = r.extended i j := by
  unfold Raster.extended Raster.nullToNan
  rw [h.ny, h.nx, h.masked]
  by_cases hi : 0 ≤ i ∧ i < r.ny ∧ 0 ≤ j ∧ j < r.nx
  · rw [if_pos (by omega), if_pos hi]
    obtain ⟨n, rfl⟩ := Int.eq_ofNat_of_zero_le hi.1
    obtain ⟨m, rfl⟩ := Int.eq_ofNat_of_zero_le hi.2.2.1
    rw [Int.toNat_natCast, Int.toNat_natCast, h.data n (by omega) m (by omega), h.mask n (by omega) m (by omega)]
  · rw [if_neg (by omega), if_neg hi]

/-! ### C94 -/

/-- **C94 (west and east)**: the derivatives of the mirrored raster are mirrored; directions turn, and the light has to turn too. -/
theorem C94_west_east {r r' : Surface.Raster} (hc : Chunked r) (hc' : Chunked r') (h : WestEast r r') {row col : Nat}
    (h1 : row < r.ny) (h2 : col < r.nx) :
    (∀ degrees, slope degrees r' row (r.nx - 1 - col) = slope degrees r row col) ∧
    curvature r' row (r.nx - 1 - col) = curvature r row col ∧
    surfaceArea3d r' row (r.nx - 1 - col) = surfaceArea3d r row col ∧
    aspect r' row (r.nx - 1 - col) = (aspect r row col).map (valid (direction eastWest)) ∧
    ∀ azimuth altitude, hillshade (360 - azimuth) altitude r' row (r.nx - 1 - col) = hillshade azimuth altitude r row col := by
  have h1' : row < r'.ny := by rw [h.ny]; exact h1
  have h2' : r.nx - 1 - col < r'.nx := by rw [h.nx]; omega
  have hx : (fun i j : Int => r'.extended ((row : Int) + i) (((r.nx - 1 - col : Nat) : Int) + j)) =
      (fun (x : Around) i j => x i (-j)) fun i j => r.extended (row + i) (col + j) := by
    funext i j
    show _ = r.extended (row + i) (col + -j)
    rw [← extended_we h]
    congr 1
    omega
  have he : edgeMask r' row (r.nx - 1 - col) = edgeMask r row col := by
    unfold edgeMask
    rw [h.mask row h1 col h2, h.ny, h.nx]
    have a1 : (r.nx - 1 - col == 0) = (col == r.nx - 1) := by
      rw [Bool.eq_iff_iff, beq_iff_eq, beq_iff_eq]; omega
    have a2 : (r.nx - 1 - col == r.nx - 1) = (col == 0) := by
      rw [Bool.eq_iff_iff, beq_iff_eq, beq_iff_eq]; omega
    rw [a1, a2, Bool.or_right_comm]
  refine ⟨fun d => ?_, ?_, ?_, ?_, fun az al => ?_⟩
  · exact moved_same hc hc' h1 h2 h1' h2' (fun x i j => x i (-j)) hx he (fun x => by rw [h.res]; exact slope_we _ _ x) _
  · exact moved_same hc hc' h1 h2 h1' h2' (fun x i j => x i (-j)) hx he (fun x => by rw [h.res]; exact curv_we _ x) _
  · refine moved_same hc hc' h1 h2 h1' h2' (fun x i j => x i (-j)) hx he (fun x => ?_) _
    rw [h.res, area_eq, area_eq]
    simp only [neg_neg, neg_zero]
    exact areaOf_we ..
  · refine moved hc hc' h1 h2 h1' h2' (fun x i j => x i (-j)) hx he (fun x => ?_) _
    rw [aspectCell_eq, aspectCell_eq, (across_we x).1, (across_we x).2, aspectVal_we]
  · exact moved_hillshade hc hc' h1 h2 h1' h2' (fun x i j => x i (-j)) hx he fun x => by rw [h.res]; exact hillshade_we _ _ _ x

/-- **C94 (north and south)**. -/
theorem C94_north_south {r r' : Surface.Raster} (hc : Chunked r) (hc' : Chunked r') (h : NorthSouth r r') {row col : Nat}
    (h1 : row < r.ny) (h2 : col < r.nx) :
    (∀ degrees, slope degrees r' (r.ny - 1 - row) col = slope degrees r row col) ∧
    curvature r' (r.ny - 1 - row) col = curvature r row col ∧
    surfaceArea3d r' (r.ny - 1 - row) col = surfaceArea3d r row col ∧
    aspect r' (r.ny - 1 - row) col = (aspect r row col).map (valid (direction northSouth)) ∧
    ∀ azimuth altitude, hillshade (180 - azimuth) altitude r' (r.ny - 1 - row) col = hillshade azimuth altitude r row col := by
  have h1' : r.ny - 1 - row < r'.ny := by rw [h.ny]; omega
  have h2' : col < r'.nx := by rw [h.nx]; exact h2
  have hx : (fun i j : Int => r'.extended (((r.ny - 1 - row : Nat) : Int) + i) ((col : Int) + j)) =
      (fun (x : Around) i j => x (-i) j) fun i j => r.extended (row + i) (col + j) := by
    funext i j
    show _ = r.extended (row + -i) (col + j)
    rw [← extended_ns h]
    congr 1
    omega
  have he : edgeMask r' (r.ny - 1 - row) col = edgeMask r row col := by
    unfold edgeMask
    rw [h.mask row h1 col h2, h.ny, h.nx]
    have a1 : (r.ny - 1 - row == 0) = (row == r.ny - 1) := by
      rw [Bool.eq_iff_iff, beq_iff_eq, beq_iff_eq]; omega
    have a2 : (r.ny - 1 - row == r.ny - 1) = (row == 0) := by
      rw [Bool.eq_iff_iff, beq_iff_eq, beq_iff_eq]; omega
    rw [a1, a2, Bool.or_right_comm (r.mask row col)]
  refine ⟨fun d => ?_, ?_, ?_, ?_, fun az al => ?_⟩
  · exact moved_same hc hc' h1 h2 h1' h2' (fun x i j => x (-i) j) hx he (fun x => by rw [h.res]; exact slope_ns _ _ x) _
  · exact moved_same hc hc' h1 h2 h1' h2' (fun x i j => x (-i) j) hx he (fun x => by rw [h.res]; exact curv_ns _ x) _
  · refine moved_same hc hc' h1 h2 h1' h2' (fun x i j => x (-i) j) hx he (fun x => ?_) _
    rw [h.res, area_eq, area_eq]
    simp only [neg_neg, neg_zero]
    exact areaOf_ns ..
  · refine moved hc hc' h1 h2 h1' h2' (fun x i j => x (-i) j) hx he (fun x => ?_) _
    rw [aspectCell_eq, aspectCell_eq, (across_ns x).1, (across_ns x).2, aspectVal_ns]
  · exact moved_hillshade hc hc' h1 h2 h1' h2' (fun x i j => x (-i) j) hx he fun x => by rw [h.res]; exact hillshade_ns _ _ _ x

/-- **C94 (transposition)**: slope, curvature and aspect; the area for square cells.  Missing: the area for other cells, which is
another one (`C94_transposed_area`). -/
theorem C94_transposed_partial {r r' : Surface.Raster} (hc : Chunked r) (hc' : Chunked r') (h : Transposed r r') {row col : Nat}
    (h1 : row < r.ny) (h2 : col < r.nx) :
    (∀ degrees, slope degrees r' col row = slope degrees r row col) ∧ curvature r' col row = curvature r row col ∧
    aspect r' col row = (aspect r row col).map (valid (direction westNorth)) ∧
    (|r.res.1| = |r.res.2| → surfaceArea3d r' col row = surfaceArea3d r row col) := by
  have h1' : col < r'.ny := by rw [h.ny]; exact h2
  have h2' : row < r'.nx := by rw [h.nx]; exact h1
  have hx : (fun i j : Int => r'.extended ((col : Int) + i) ((row : Int) + j)) =
      (fun (x : Around) i j => x j i) fun i j => r.extended (row + i) (col + j) := by
    funext i j
    exact extended_tr h _ _
  have he : edgeMask r' col row = edgeMask r row col := by
    unfold edgeMask
    rw [h.mask row h1 col h2, h.ny, h.nx]
    cases r.mask row col <;> cases (row == 0) <;> cases (row == r.ny - 1) <;> cases (col == 0) <;> cases (col == r.nx - 1) <;> rfl
  have s1 : r'.res.1 ^ 2 = r.res.2 ^ 2 := by rw [← sq_abs, h.res1, sq_abs]
  have s2 : r'.res.2 ^ 2 = r.res.1 ^ 2 := by rw [← sq_abs, h.res2, sq_abs]
  refine ⟨fun d => ?_, ?_, ?_, fun hsq => ?_⟩
  · exact moved_same hc hc' h1 h2 h1' h2' (fun x i j => x j i) hx he (fun x => slope_tr s1 s2 _ x) _
  · exact moved_same hc hc' h1 h2 h1' h2' (fun x i j => x j i) hx he (fun x => curv_tr (res := (|r.res.1|, |r.res.2|)) h.res1 h.res2 x) _
  · refine moved hc hc' h1 h2 h1' h2' (fun x i j => x j i) hx he (fun x => ?_) _
    rw [aspectCell_eq, aspectCell_eq, (across_tr x).1, (across_tr x).2, aspectVal_tr]
  · refine moved_same hc hc' h1 h2 h1' h2' (fun x i j => x j i) hx he (fun x => ?_) _
    have e : num r'.res.1 * num r'.res.1 = num r.res.1 * num r.res.1 := by
      rw [num_mul, num_mul, ← pow_two, ← pow_two, s1, ← sq_abs, ← hsq, sq_abs]
    rw [area_eq, area_eq, e]
    exact areaOf_tr ..

/-- The transposed area is another one for cells that are not square: 4 for cells of 2 by 1 units, 1 for cells of 1 by 2 units,
of a level surface. -/
theorem C94_transposed_area : ∃ (r r' : Surface.Raster) (row col : Nat), Chunked r ∧ Chunked r' ∧ Transposed r r' ∧
    row < r.ny ∧ col < r.nx ∧ surfaceArea3d r row col = some ⟨num 4, false⟩ ∧ surfaceArea3d r' col row = some ⟨num 1, false⟩ := by
  have e : ∀ res, Surface.Spec.plane res 0 0 0 0 0 = fun _ _ => 0 := fun res => by
    funext row col; unfold Surface.Spec.plane; simp
  have level : ∀ res : ℝ × ℝ, surfaceArea3d (Toy.raster res fun _ _ => 0) 2 3 = some ⟨num (|res.1| * |res.1|), false⟩ := by
    intro res
    have h := C51_plane (Toy.raster (res.1, res.1) (Surface.Spec.plane (res.1, res.1) 0 0 0 0 0)) (Toy.chunked _ _)
      (Toy.interior _ _) 0 0 0 0 0 rfl (Toy.elevations _ _ _ _)
    rw [e] at h
    have h' : surfaceArea3d (Toy.raster res fun _ _ => 0) 2 3 = surfaceArea3d (Toy.raster (res.1, res.1) fun _ _ => 0) 2 3 := rfl
    rw [h', h]
    simp [Toy.raster]
  have hT : Transposed (Toy.raster (2, -1) fun _ _ => 0)
      ⟨5, 4, fun _ _ => num 0, fun _ _ => false, false, (1, -2), [2, 3], [1, 3]⟩ :=
    ⟨rfl, rfl, by simp [Toy.raster], by simp [Toy.raster], rfl, fun _ _ _ _ => rfl, fun _ _ _ _ => rfl⟩
  have hc' : Chunked ⟨5, 4, fun _ _ => num 0, fun _ _ => false, false, (1, -2), [2, 3], [1, 3]⟩ := ⟨rfl, rfl⟩
  refine ⟨Toy.raster (2, -1) fun _ _ => 0, _, 2, 3, Toy.chunked _ _, hc', hT, by decide, by decide, ?_, ?_⟩
  · rw [level]
    norm_num
  · have hT' : Transposed (Toy.raster (1, -1) fun _ _ => 0)
        ⟨5, 4, fun _ _ => num 0, fun _ _ => false, false, (1, -1), [2, 3], [1, 3]⟩ :=
      ⟨rfl, rfl, by simp [Toy.raster], by simp [Toy.raster], rfl, fun _ _ _ _ => rfl, fun _ _ _ _ => rfl⟩
    have hq := (C94_transposed_partial (Toy.chunked _ _) ⟨rfl, rfl⟩ hT' (row := 2) (col := 3) (by decide) (by decide)).2.2.2
      (by simp [Toy.raster])
    rw [level] at hq
    have h' : surfaceArea3d ⟨5, 4, fun _ _ => num 0, fun _ _ => false, false, (1, -2), [2, 3], [1, 3]⟩ 3 2 =
      surfaceArea3d ⟨5, 4, fun _ _ => num 0, fun _ _ => false, false, (1, -1), [2, 3], [1, 3]⟩ 3 2 := rfl
    rw [h', hq]
    norm_num

theorem extended_f {f : Val → Val} (hf : f nan = nan) {r r' : Surface.Raster} (h : Elevated f r r') (i j : Int) :
    r'.extended i j = f (r.extended i j) := by
  unfold Raster.extended Raster.nullToNan
  rw [h.ny, h.nx, h.masked]
  by_cases hi : 0 ≤ i ∧ i < r.ny ∧ 0 ≤ j ∧ j < r.nx
  · rw [if_pos hi, if_pos hi, h.data _ (by omega) _ (by omega), h.mask _ (by omega) _ (by omega)]
    split
    · exact hf.symm
    · rfl
  · rw [if_neg hi, if_neg hi, hf]

theorem elevated {f : Val → Val} (hf : f nan = nan) {r r' : Surface.Raster} (h : Elevated f r r') {row col : Nat} (h1 : row < r.ny)
    (h2 : col < r.nx) : row < r'.ny ∧ col < r'.nx ∧
    ((fun i j : Int => r'.extended ((row : Int) + i) ((col : Int) + j)) =
      (fun (x : Around) i j => f (x i j)) fun i j => r.extended (row + i) (col + j)) ∧
    edgeMask r' row col = edgeMask r row col := by
  refine ⟨by rw [h.ny]; exact h1, by rw [h.nx]; exact h2, ?_, ?_⟩
  · funext i j
    exact extended_f hf h _ _
  · unfold edgeMask
    rw [h.mask row h1 col h2, h.ny, h.nx]

theorem sobel_scale (k : ℝ) (c f i a d g : Val) : (num k * c + 2 * (num k * f) + num k * i) - (num k * a + 2 * (num k * d) + num k * g) =
    num k * ((c + 2 * f + i) - (a + 2 * d + g)) := by
  cases c <;> cases f <;> cases i <;> cases a <;> cases d <;> cases g <;>
    simp only [num_ofNat, num_add, num_sub, num_mul, nan_add, add_nan, nan_sub, sub_nan, mul_nan]
  congr 1
  ring

theorem val_mul_div (k : ℝ) (a b : Val) : num k * a / b = num k * (a / b) := by
  cases a <;> cases b <;> simp [mul_div_assoc]

theorem gradient_scale (res : ℝ × ℝ) (k : ℝ) (x : Around) :
    gradient res (fun i j => num k * x i j) = (num k * (gradient res x).1, num k * (gradient res x).2) := by
  unfold gradient
  simp only [sobel_scale, val_mul_div]

theorem slope_scale (res : ℝ × ℝ) {k : ℝ} (hk : 0 ≤ k) (x : Around) :
    slopeCell res false (fun i j => num k * x i j) = num k * slopeCell res false x := by
  unfold slopeCell
  rw [gradient_scale]
  generalize gradient res x = g
  obtain ⟨p, q⟩ := g
  simp only [Bool.false_eq_true, if_false]
  cases p with
  | nan => cases q <;> rfl
  | num p =>
    cases q with
    | nan => rfl
    | num q =>
      simp only [num_mul, num_add, sqrt_num]
      rw [show k * p * (k * p) + k * q * (k * q) = k ^ 2 * (p * p + q * q) by ring, Real.sqrt_mul (sq_nonneg k), Real.sqrt_sq hk]

theorem curv_scale (res : ℝ × ℝ) (k : ℝ) (x : Around) :
    curvCell res (fun i j => num k * x i j) = num k * curvCell res x := by
  unfold curvCell
  simp only
  generalize x (-1) 0 = a
  generalize x 0 (-1) = b
  generalize x 0 0 = c
  generalize x 0 1 = d
  generalize x 1 0 = e
  cases a <;> cases b <;> cases c <;> cases d <;> cases e <;>
    simp [num_ofNat]
  ring

theorem across_scale (k : ℝ) (x : Around) : across (fun i j => num k * x i j) = num k * across x ∧
    down (fun i j => num k * x i j) = num k * down x := by
  unfold across down
  simp only [sobel_scale, val_mul_div, and_self]

/-- **C94 (stretching)**: `k` times as high means `k` times as steep and as curved, and the same directions. -/
theorem C94_stretched {r r' : Surface.Raster} (hc : Chunked r) (hc' : Chunked r') {k : ℝ} (hk : 0 < k)
    (h : Elevated (fun v => num k * v) r r') {row col : Nat} (h1 : row < r.ny) (h2 : col < r.nx) :
    slope false r' row col = (slope false r row col).map (valid fun v => num k * v) ∧
    curvature r' row col = (curvature r row col).map (valid fun v => num k * v) ∧
    aspect r' row col = aspect r row col := by
  obtain ⟨h1', h2', hx, he⟩ := elevated (mul_nan _) h h1 h2
  refine ⟨?_, ?_, ?_⟩
  · exact moved hc hc' h1 h2 h1' h2' (fun x i j => num k * x i j) hx he (fun x => by rw [h.res]; exact slope_scale _ hk.le x) _
  · exact moved hc hc' h1 h2 h1' h2' (fun x i j => num k * x i j) hx he (fun x => by rw [h.res]; exact curv_scale _ k x) _
  · refine moved_same hc hc' h1 h2 h1' h2' (fun x i j => num k * x i j) hx he (fun x => ?_) _
    rw [aspectCell_eq, aspectCell_eq, (across_scale k x).1, (across_scale k x).2, aspectVal_scale hk]

theorem neg_eq_scale (v : Val) : -v = num (-1) * v := by
  cases v <;> simp

theorem side_neg (d p q : Val) : side d (-p) (-q) = side d p q := by
  unfold side
  cases p with
  | nan => rfl
  | num p =>
    cases q with
    | nan => rfl
    | num q =>
      simp only [num_neg, num_sub, num_mul]
      rw [show (-p - -q) * (-p - -q) = (p - q) * (p - q) by ring]

/-- **C94 (inversion)**: mountains for valleys.  The same slopes and areas, the opposite curvature, the opposite directions. -/
theorem C94_inverted {r r' : Surface.Raster} (hc : Chunked r) (hc' : Chunked r') (h : Elevated (fun v => -v) r r') {row col : Nat}
    (h1 : row < r.ny) (h2 : col < r.nx) :
    (∀ degrees, slope degrees r' row col = slope degrees r row col) ∧
    surfaceArea3d r' row col = surfaceArea3d r row col ∧
    curvature r' row col = (curvature r row col).map (valid fun v => -v) ∧
    aspect r' row col = (aspect r row col).map (valid (direction opposite)) := by
  obtain ⟨h1', h2', hx, he⟩ := elevated neg_nan h h1 h2
  refine ⟨fun d => ?_, ?_, ?_, ?_⟩
  · refine moved_same hc hc' h1 h2 h1' h2' (fun x i j => -x i j) hx he (fun x => ?_) _
    rw [h.res]
    unfold slopeCell
    simp only [neg_eq_scale (x _ _), gradient_scale]
    simp only [← neg_eq_scale, val_neg_mul_neg]
  · refine moved_same hc hc' h1 h2 h1' h2' (fun x i j => -x i j) hx he (fun x => ?_) _
    rw [h.res, area_eq, area_eq]
    unfold areaOf
    simp only [side_neg]
  · refine moved hc hc' h1 h2 h1' h2' (fun x i j => -x i j) hx he (fun x => ?_) _
    rw [h.res]
    simp only [neg_eq_scale]
    exact curv_scale _ _ x
  · refine moved hc hc' h1 h2 h1' h2' (fun x i j => -x i j) hx he (fun x => ?_) _
    rw [aspectCell_eq, aspectCell_eq]
    simp only [neg_eq_scale (x _ _)]
    rw [(across_scale (-1) x).1, (across_scale (-1) x).2, ← neg_eq_scale, ← neg_eq_scale, aspectVal_opposite]

/-! ### Cases -/

/-- Cases for `C94_west_east` and `C94_north_south`: a slope that faces west, and one that faces south-west, with a null cell. -/
example : WestEast (Toy.raster (2, -2) fun i j => j * j + i) (Toy.raster (2, -2) fun i j => (4 - j : ℕ) * (4 - j : ℕ) + i) :=
  ⟨rfl, rfl, rfl, rfl, fun i _ j hj => by
    have : j < 5 := hj
    show num (((4 - (5 - 1 - j) : ℕ) : ℝ) * ((4 - (5 - 1 - j) : ℕ) : ℝ) + i) = num (j * j + i)
    rw [show 4 - (5 - 1 - j) = j by omega], fun _ _ _ _ => rfl⟩

example : NorthSouth { Toy.raster (2, -3) (fun i j => i * j) with mask := fun i j => i == 0 && j == 2, masked := true }
    { Toy.raster (2, -3) (fun i j => (3 - i : ℕ) * j) with mask := fun i j => 3 - i == 0 && j == 2, masked := true } :=
  ⟨rfl, rfl, rfl, rfl, fun i hi j _ => by
    have : i < 4 := hi
    show num (((3 - (4 - 1 - i) : ℕ) : ℝ) * j) = num (i * j)
    rw [show 3 - (4 - 1 - i) = i by omega], fun i hi j _ => by
    have : i < 4 := hi
    show (3 - (4 - 1 - i) == 0 && j == 2) = (i == 0 && j == 2)
    rw [show 3 - (4 - 1 - i) = i by omega]⟩

/-- The mirrored slope faces east. -/
example : aspect (Toy.raster (2, -2) fun i j => -2 * (j : ℝ)) 2 1 = some ⟨num 90, false⟩ := by
  have hw : WestEast (Toy.raster (2, -2) fun i j => 2 * (j : ℝ) - 8) (Toy.raster (2, -2) fun i j => -2 * (j : ℝ)) :=
    ⟨rfl, rfl, rfl, rfl, fun i _ j hj => by
      have : j < 5 := hj
      show num (-2 * ((5 - 1 - j : ℕ) : ℝ)) = num (2 * (j : ℝ) - 8)
      rw [Nat.cast_sub (by omega)]
      congr 1
      push_cast
      ring, fun _ _ _ _ => rfl⟩
  have := (C94_west_east (Toy.chunked _ _) (Toy.chunked _ _) hw (row := 2) (col := 3) (by decide) (by decide)).2.2.2.1
  refine this.trans ?_
  rw [aspect_eq _ (Toy.chunked _ _) (Toy.interior _ _) (Toy.elevations _ _ _ _)]
  have e : Surface.Spec.rise (fun _ j => 2 * (j : ℝ) - 8) 2 3 = (2, 0) := by
    unfold Surface.Spec.rise
    norm_num
  have a : aspectOf 2 0 = 270 := by
    refine aspectOf_unique (by norm_num) (by norm_num) ?_ ?_
    · rw [show (270 : ℝ) * (Real.pi / 180) = Real.pi / 2 + Real.pi by ring, Real.sin_add_pi, Real.sin_pi_div_two,
        show (2 : ℝ) ^ 2 + 0 ^ 2 = 2 ^ 2 by norm_num, Real.sqrt_sq (by norm_num)]
      norm_num
    · rw [show (270 : ℝ) * (Real.pi / 180) = Real.pi / 2 + Real.pi by ring, Real.cos_add_pi, Real.cos_pi_div_two]
      norm_num
  rw [e, if_neg (by norm_num), a]
  simp only [Option.map_some, valid, direction, eastWest]
  norm_num

/-- Cases for `C94_transposed_partial`, `C94_stretched` and `C94_inverted`. -/
example : Transposed (Toy.raster (2, -3) fun i j => i * i * j)
    ⟨5, 4, fun i j => num ((j : ℝ) * j * i), fun _ _ => false, false, (3, -2), [5], [4]⟩ :=
  ⟨rfl, rfl, by simp [Toy.raster], by simp [Toy.raster], rfl, fun _ _ _ _ => rfl, fun _ _ _ _ => rfl⟩

example : Elevated (fun v => num 3 * v) (Toy.raster (2, -3) fun i j => i * j) (Toy.raster (2, -3) fun i j => 3 * (i * j)) ∧
    Elevated (fun v => -v) (Toy.raster (2, -3) fun i j => i * j) (Toy.raster (2, -3) fun i j => -(i * j)) :=
  ⟨⟨rfl, rfl, rfl, rfl, fun _ _ _ _ => rfl, fun _ _ _ _ => rfl⟩, rfl, rfl, rfl, rfl, fun _ _ _ _ => rfl, fun _ _ _ _ => rfl⟩

end Verif.Trips
