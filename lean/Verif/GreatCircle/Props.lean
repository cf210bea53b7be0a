import Verif.GreatCircle.Model
import Mathlib.Tactic.Linarith
import Mathlib.Tactic.Ring
import Mathlib.Tactic.FieldSimp
import Mathlib.Analysis.Real.Pi.Bounds

/-!
# The great circle metric (C87)
-/

set_option linter.unusedSectionVars false

namespace Verif.GreatCircle

open Verif Verif.Proximity Verif.Proximity.Spec
open Verif.Nulls (Err)

/-! ### Specification -/

namespace Spec

/-- The point of the unit sphere at a longitude and latitude given in degrees. -/
noncomputable def point (lon lat : ℝ) : ℝ × ℝ × ℝ :=
  (Real.cos (lat * Real.pi / 180) * Real.cos (lon * Real.pi / 180), Real.cos (lat * Real.pi / 180) * Real.sin (lon * Real.pi / 180),
    Real.sin (lat * Real.pi / 180))

noncomputable def dot (p q : ℝ × ℝ × ℝ) : ℝ := p.1 * q.1 + p.2.1 * q.2.1 + p.2.2 * q.2.2

/-- Length in meters of the shortest path along a sphere with the Earth's mean radius of 6371009 m: radius times the angle between the points. -/
noncomputable def arc (x1 y1 x2 y2 : ℝ) : ℝ := 6371009 * Real.arccos (dot (point x1 y1) (point x2 y2))

/-- Latitudes fall by `s` degrees from row to row. -/
def Rows (ny : Nat) (lat : Nat → ℝ) (s : ℝ) : Prop := 0 < s ∧ ∀ i < ny, lat i = lat 0 - i * s ∧ -90 ≤ lat i ∧ lat i ≤ 90

/-- Longitudes grow by `s` degrees from column to column. -/
def Columns (nx : Nat) (lon : Nat → ℝ) (s : ℝ) : Prop := ∀ j < nx, lon j = lon 0 + j * s

/-- No row is further from the equator than the first one. -/
def TopHighest (ny : Nat) (lat : Nat → ℝ) : Prop := ∀ i < ny, |lat i| ≤ lat 0

/-- Along the first row `n` columns span more than `n - 1` times the distance of two neighbours. -/
def Straight (nx : Nat) (lon lat : Nat → ℝ) : Prop :=
  ∀ n, 1 ≤ n → n < nx → ((n : ℝ) - 1) * arc (lon 0) (lat 0) (lon 1) (lat 0) < arc (lon 0) (lat 0) (lon n) (lat 0)

end Spec

open Spec

/-! ### The distance -/

theorem rad (x : ℝ) : x * Real.pi / 180 = radians x := by unfold radians; ring

theorem dot_eq (x1 y1 x2 y2 : ℝ) : dot (point x1 y1) (point x2 y2) =
    Real.cos (radians y1) * Real.cos (radians y2) * Real.cos (radians x2 - radians x1) + Real.sin (radians y1) * Real.sin (radians y2) := by
  simp only [dot, point, rad, Real.cos_sub]; ring

theorem dot_eq' (x1 y1 x2 y2 : ℝ) : dot (point x1 y1) (point x2 y2) =
    Real.cos (radians y2 - radians y1) - Real.cos (radians y1) * Real.cos (radians y2) * (1 - Real.cos (radians x2 - radians x1)) := by
  rw [dot_eq, Real.cos_sub (radians y2)]; ring

theorem dot_le (x1 y1 x2 y2 : ℝ) : dot (point x1 y1) (point x2 y2) ≤ 1 := by
  have a := Real.sin_sq_add_cos_sq (radians y1)
  have b := Real.sin_sq_add_cos_sq (radians y2)
  have c := Real.sin_sq_add_cos_sq (radians x1)
  have d := Real.sin_sq_add_cos_sq (radians x2)
  simp only [dot, point, rad]
  have e : (Real.cos (radians y1) * Real.cos (radians x1)) ^ 2 + (Real.cos (radians y1) * Real.sin (radians x1)) ^ 2 = Real.cos (radians y1) ^ 2 := by
    rw [mul_pow, mul_pow, ← mul_add, add_comm (Real.cos _ ^ 2), c, mul_one]
  have f : (Real.cos (radians y2) * Real.cos (radians x2)) ^ 2 + (Real.cos (radians y2) * Real.sin (radians x2)) ^ 2 = Real.cos (radians y2) ^ 2 := by
    rw [mul_pow, mul_pow, ← mul_add, add_comm (Real.cos _ ^ 2), d, mul_one]
  nlinarith [sq_nonneg (Real.cos (radians y1) * Real.cos (radians x1) - Real.cos (radians y2) * Real.cos (radians x2)),
    sq_nonneg (Real.cos (radians y1) * Real.sin (radians x1) - Real.cos (radians y2) * Real.sin (radians x2)),
    sq_nonneg (Real.sin (radians y1) - Real.sin (radians y2))]

theorem le_dot (x1 y1 x2 y2 : ℝ) : -1 ≤ dot (point x1 y1) (point x2 y2) := by
  have a := Real.sin_sq_add_cos_sq (radians y1)
  have b := Real.sin_sq_add_cos_sq (radians y2)
  have c := Real.sin_sq_add_cos_sq (radians x1)
  have d := Real.sin_sq_add_cos_sq (radians x2)
  simp only [dot, point, rad]
  have e : (Real.cos (radians y1) * Real.cos (radians x1)) ^ 2 + (Real.cos (radians y1) * Real.sin (radians x1)) ^ 2 = Real.cos (radians y1) ^ 2 := by
    rw [mul_pow, mul_pow, ← mul_add, add_comm (Real.cos _ ^ 2), c, mul_one]
  have f : (Real.cos (radians y2) * Real.cos (radians x2)) ^ 2 + (Real.cos (radians y2) * Real.sin (radians x2)) ^ 2 = Real.cos (radians y2) ^ 2 := by
    rw [mul_pow, mul_pow, ← mul_add, add_comm (Real.cos _ ^ 2), d, mul_one]
  nlinarith [sq_nonneg (Real.cos (radians y1) * Real.cos (radians x1) + Real.cos (radians y2) * Real.cos (radians x2)),
    sq_nonneg (Real.cos (radians y1) * Real.sin (radians x1) + Real.cos (radians y2) * Real.sin (radians x2)),
    sq_nonneg (Real.sin (radians y1) + Real.sin (radians y2))]

theorem half_sq (a : ℝ) : Real.sin (a / 2) * Real.sin (a / 2) = (1 - Real.cos a) / 2 := by
  have h := Real.cos_two_mul (a / 2)
  rw [mul_div_cancel₀ a (two_ne_zero)] at h
  have := Real.sin_sq_add_cos_sq (a / 2)
  nlinarith

theorem hav_eq (x1 y1 x2 y2 : ℝ) : hav (radians x1) (radians y1) (radians x2) (radians y2) = (1 - dot (point x1 y1) (point x2 y2)) / 2 := by
  unfold hav
  rw [mul_assoc (Real.cos _ * Real.cos _), half_sq, half_sq, dot_eq']
  ring

theorem angle_eq {h : ℝ} (h0 : 0 ≤ h) (h1 : h ≤ 1) : 2 * Real.arcsin (Real.sqrt h) = Real.arccos (1 - 2 * h) := by
  have s0 : 0 ≤ Real.sqrt h := Real.sqrt_nonneg h
  have s1 : Real.sqrt h ≤ 1 := by rw [← Real.sqrt_one]; exact Real.sqrt_le_sqrt h1
  have a0 : 0 ≤ Real.arcsin (Real.sqrt h) := Real.arcsin_nonneg.2 s0
  have a1 : Real.arcsin (Real.sqrt h) ≤ Real.pi / 2 := Real.arcsin_le_pi_div_two _
  have hs : Real.sin (Real.arcsin (Real.sqrt h)) = Real.sqrt h := Real.sin_arcsin (by linarith) s1
  have hc : Real.cos (2 * Real.arcsin (Real.sqrt h)) = 1 - 2 * h := by
    rw [Real.cos_two_mul]
    have := Real.sin_sq_add_cos_sq (Real.arcsin (Real.sqrt h))
    rw [hs, Real.sq_sqrt h0] at this
    linarith
  rw [← hc, Real.arccos_cos (by linarith) (by linarith)]

/-- **C87.**  The squared distance is the square of the length of the shortest path along the sphere, for points anywhere. -/
theorem C87_distance (x1 y1 x2 y2 : ℝ) : haversineSqr x1 y1 x2 y2 = arc x1 y1 x2 y2 * arc x1 y1 x2 y2 := by
  have e : 2 * earth * Real.arcsin (Real.sqrt (hav (radians x1) (radians y1) (radians x2) (radians y2))) = arc x1 y1 x2 y2 := by
    have h1 := dot_le x1 y1 x2 y2
    have h2 := le_dot x1 y1 x2 y2
    rw [hav_eq, mul_comm 2 earth, mul_assoc, angle_eq (by linarith) (by linarith)]
    unfold arc earth
    congr 2
    ring
  unfold haversineSqr
  rw [e]

theorem arc_nonneg (x1 y1 x2 y2 : ℝ) : 0 ≤ arc x1 y1 x2 y2 := mul_nonneg (by norm_num) (Real.arccos_nonneg _)

theorem sqrt_dist (x1 y1 x2 y2 : ℝ) : Real.sqrt (haversineSqr x1 y1 x2 y2) = arc x1 y1 x2 y2 := by
  rw [C87_distance, Real.sqrt_mul_self (arc_nonneg _ _ _ _)]

theorem dist_le {m : ℝ} (hm : 0 ≤ m) (x1 y1 x2 y2 : ℝ) : haversineSqr x1 y1 x2 y2 ≤ m * m ↔ arc x1 y1 x2 y2 ≤ m := by
  rw [C87_distance]
  constructor
  · intro h; exact abs_le_of_sq_le_sq' (by nlinarith) hm |>.2
  · intro h; exact mul_self_le_mul_self (arc_nonneg _ _ _ _) h

/-- **C87.**  It is that of a metric as far as the sweep needs it: 0 from a point to itself, the same in both directions, at most half the
circumference; and longitudes 360 degrees apart are the same. -/
theorem C87_metric (x1 y1 x2 y2 : ℝ) :
    haversineSqr x1 y1 x1 y1 = 0 ∧ haversineSqr x1 y1 x2 y2 = haversineSqr x2 y2 x1 y1 ∧ arc x1 y1 x2 y2 ≤ Real.pi * 6371009 ∧
    haversineSqr (x1 + 360) y1 x2 y2 = haversineSqr x1 y1 x2 y2 := by
  refine ⟨?_, ?_, ?_, ?_⟩
  · rw [C87_distance, arc, dot_eq', sub_self, sub_self, Real.cos_zero]; simp
  · have : dot (point x1 y1) (point x2 y2) = dot (point x2 y2) (point x1 y1) := by unfold dot; ring
    rw [C87_distance, C87_distance, arc, arc, this]
  · unfold arc
    have := Real.arccos_le_pi (dot (point x1 y1) (point x2 y2))
    nlinarith
  · have : point (x1 + 360) y1 = point x1 y1 := by
      have e : (x1 + 360) * Real.pi / 180 = x1 * Real.pi / 180 + 2 * Real.pi := by ring
      simp only [point, e, Real.cos_add_two_pi, Real.sin_add_two_pi]
    rw [C87_distance, C87_distance, arc, arc, this]

/-- **C87.**  Coordinates are accepted if and only if all latitudes are within [-90, 90] and all longitudes within [-180, 180] or all within
[0, 360]. -/
theorem C87_accepted (nx ny : Nat) (lon lat : Nat → ℝ) :
    validate nx ny lon lat = .ok () ↔
      (∀ i < ny, -90 ≤ lat i ∧ lat i ≤ 90) ∧
      ((∀ j < nx, -180 ≤ lon j ∧ lon j ≤ 180) ∨ (∀ j < nx, 0 ≤ lon j ∧ lon j ≤ 360)) := by
  unfold validate anyOf
  split_ifs with h1 h2 h3
  · obtain ⟨i, hi, h⟩ := h1
    refine iff_of_false (by simp) ?_
    rintro ⟨a, _⟩
    have := a i hi
    rcases h with h | h <;> linarith
  · refine iff_of_false (by simp) ?_
    rintro ⟨_, a⟩
    rcases h2 with ⟨j, hj, h⟩ | ⟨j, hj, h⟩ <;> rcases a with a | a <;> linarith [(a j hj).1, (a j hj).2]
  · refine iff_of_false (by simp) ?_
    rintro ⟨_, a⟩
    obtain ⟨⟨j, hj, h⟩, k, hk, h'⟩ := h3
    rcases a with a | a
    · linarith [(a j hj).2]
    · linarith [(a k hk).1]
  · refine iff_of_true rfl ⟨?_, ?_⟩
    · intro i hi
      constructor
      · by_contra c; exact h1 ⟨i, hi, Or.inl (not_le.1 c)⟩
      · by_contra c; exact h1 ⟨i, hi, Or.inr (not_le.1 c)⟩
    · have lo : ∀ j < nx, -180 ≤ lon j := fun j hj => by
        by_contra c; exact h2 (Or.inr ⟨j, hj, not_le.1 c⟩)
      have hi : ∀ j < nx, lon j ≤ 360 := fun j hj => by
        by_contra c; exact h2 (Or.inl ⟨j, hj, not_le.1 c⟩)
      by_cases h : ∃ j < nx, 180 < lon j
      · right
        intro j hj
        refine ⟨?_, hi j hj⟩
        by_contra c
        exact h3 ⟨h, j, hj, not_le.1 c⟩
      · left
        intro j hj
        refine ⟨lo j hj, ?_⟩
        by_contra c
        exact h ⟨j, hj, not_le.1 c⟩

/-! ### The estimate -/

theorem lat_step {ny : Nat} {lat : Nat → ℝ} {s : ℝ} (h : Rows ny lat s) {i j : Nat} (hi : i ≤ j) (hj : j < ny) : lat j ≤ lat i := by
  rw [(h.2 j hj).1, (h.2 i (by omega)).1]
  have : (i : ℝ) ≤ j := by exact_mod_cast hi
  nlinarith [h.1]

theorem largest_rows {ny : Nat} {lat : Nat → ℝ} {s : ℝ} (h : Rows ny lat s) : ∀ n, n < ny → largest lat n = lat 0
  | 0, _ => rfl
  | n + 1, hn => by rw [largest, largest_rows h n (by omega), max_eq_left (lat_step h (by omega) hn)]

theorem twoLargest_rows {ny : Nat} {lat : Nat → ℝ} {s : ℝ} (h : Rows ny lat s) : ∀ n, n + 1 < ny → twoLargest lat n = (lat 1, lat 0)
  | 0, hn => by
    have := lat_step h (i := 0) (j := 1) (by omega) hn
    rw [twoLargest, min_eq_right this, max_eq_left this]
  | n + 1, hn => by
    have lt : ∀ i, 0 < i → i < ny → lat i < lat 0 := by
      intro i hi hl
      rw [(h.2 i hl).1]
      have : (0 : ℝ) < i := by exact_mod_cast hi
      nlinarith [h.1]
    have lt' : lat (n + 2) < lat 1 := by
      rw [(h.2 (n + 2) hn).1, (h.2 1 (by omega)).1]
      have : (0 : ℝ) ≤ n := by positivity
      push_cast
      nlinarith [h.1]
    rw [twoLargest, twoLargest_rows h n (by omega), among, if_neg (not_le.2 (lt _ (by omega) hn)), if_neg (not_le.2 lt')]

/-- **C87 (estimate).**  The two latitudes of the estimate are the largest one and the largest of the others, in any order of rows. -/
theorem C87_two_largest (lat : Nat → ℝ) : ∀ n, ∃ i j, i ≤ n + 1 ∧ j ≤ n + 1 ∧ i ≠ j ∧ twoLargest lat n = (lat i, lat j) ∧
    lat i ≤ lat j ∧ ∀ k ≤ n + 1, k ≠ j → lat k ≤ lat i
  | 0 => by
    rw [twoLargest]
    rcases le_total (lat 0) (lat 1) with h | h
    · refine ⟨0, 1, by omega, by omega, by omega, by rw [min_eq_left h, max_eq_right h], h, fun k hk hne => ?_⟩
      obtain rfl : k = 0 := by omega
      exact le_refl _
    · refine ⟨1, 0, by omega, by omega, by omega, by rw [min_eq_right h, max_eq_left h], h, fun k hk hne => ?_⟩
      obtain rfl : k = 1 := by omega
      exact le_refl _
  | n + 1 => by
    obtain ⟨i, j, hi, hj, hij, e, hle, hall⟩ := C87_two_largest lat n
    rw [twoLargest, e]
    unfold among
    simp only
    by_cases h1 : lat j ≤ lat (n + 2)
    · rw [if_pos h1]
      refine ⟨j, n + 2, by omega, by omega, by omega, rfl, h1, fun k hk hne => ?_⟩
      by_cases hkj : k = j
      · rw [hkj]
      · exact (hall k (by omega) hkj).trans hle
    · rw [if_neg h1]
      by_cases h2 : lat i ≤ lat (n + 2)
      · rw [if_pos h2]
        refine ⟨n + 2, j, by omega, by omega, by omega, rfl, (not_le.1 h1).le, fun k hk hne => ?_⟩
        by_cases hkn : k = n + 2
        · rw [hkn]
        · exact (hall k (by omega) hne).trans h2
      · rw [if_neg h2]
        refine ⟨i, j, by omega, by omega, hij, rfl, hle, fun k hk hne => ?_⟩
        by_cases hkn : k = n + 2
        · rw [hkn]; exact (not_le.1 h2).le
        · exact hall k (by omega) hne

/-- A case where the rows run from south to north: the last two. -/
example : twoLargest (fun i => (i : ℝ)) 3 = (3, 4) := by
  obtain ⟨i, j, hi, hj, hij, e, hle, hall⟩ := C87_two_largest (fun i => (i : ℝ)) 3
  have hj4 : j = 4 := by
    by_contra hne
    have a := hall 4 (by omega) (Ne.symm hne)
    have b : (4 : ℝ) ≤ j := a.trans hle
    have : 4 ≤ j := by exact_mod_cast b
    omega
  have hi3 : i = 3 := by
    have a := hall 3 (by omega) (by omega)
    have : 3 ≤ i := by exact_mod_cast a
    omega
  rw [e, hj4, hi3]
  norm_num

/-- **C87 (errors).**  Coordinates that are no longitudes and latitudes are a ValueError.  Then a raster that is larger than the
distance needs two columns (an IndexError) and two rows (a ValueError). -/
theorem C87_errors (nx ny : Nat) (lon lat : Nat → ℝ) (m : ℝ) (e : Err) :
    (validate nx ny lon lat = .error e → e = .value) ∧
    (overlap nx ny lon lat m = .error e ↔
      (validate nx ny lon lat = .error .value ∧ e = .value) ∨
      (validate nx ny lon lat = .ok () ∧ m < Real.sqrt (haversineSqr (lon 0) (lat 0) (lon (nx - 1)) (lat (ny - 1))) ∧
        ((nx < 2 ∧ e = .index) ∨ (2 ≤ nx ∧ ny < 2 ∧ e = .value)))) := by
  have hv : ∀ e, validate nx ny lon lat = .error e → e = .value := by
    intro e h
    unfold validate at h
    split_ifs at h <;> exact (Except.error.inj h).symm
  refine ⟨hv e, ?_⟩
  unfold overlap
  cases h : validate nx ny lon lat with
  | error e' =>
    have := hv e' h
    subst this
    simp only [Except.error.injEq, reduceCtorEq, false_and, or_false, true_and]
    exact eq_comm
  | ok u =>
    simp only [reduceCtorEq, false_and, false_or, true_and]
    by_cases hm : Real.sqrt (haversineSqr (lon 0) (lat 0) (lon (nx - 1)) (lat (ny - 1))) ≤ m
    · rw [if_pos hm]
      simp [not_lt.2 hm]
    · rw [if_neg hm]
      unfold minResolution
      by_cases h1 : nx < 2
      · rw [if_pos h1]
        simp [not_le.1 hm, h1, eq_comm]
      · rw [if_neg h1]
        by_cases h2 : ny < 2
        · rw [if_pos h2]
          simp [not_le.1 hm, h1, h2, not_lt.1 h1, eq_comm]
        · rw [if_neg h2]
          simp [h1, h2]

/-- A case for `C87_errors`. -/
example : validate 1 1 (fun _ => 400) (fun _ => 0) = .error .value := by
  unfold validate anyOf
  rw [if_neg (by simp), if_pos (.inl ⟨0, by norm_num, by norm_num⟩)]

theorem cos_lat {y : ℝ} (h1 : -90 ≤ y) (h2 : y ≤ 90) : 0 ≤ Real.cos (radians y) := by
  have p := Real.pi_pos
  refine Real.cos_nonneg_of_mem_Icc ⟨?_, ?_⟩ <;> unfold radians <;> nlinarith

/-- Along a meridian. -/
theorem arc_meridian {x y1 y2 : ℝ} (h : |y2 - y1| ≤ 180) : arc x y1 x y2 = 6371009 * radians |y2 - y1| := by
  have p := Real.pi_pos
  unfold arc
  rw [dot_eq', sub_self, Real.cos_zero, sub_self, mul_zero, sub_zero]
  have e : radians y2 - radians y1 = radians (y2 - y1) := by unfold radians; ring
  have e' : Real.cos (radians (y2 - y1)) = Real.cos (radians |y2 - y1|) := by
    rcases abs_choice (y2 - y1) with a | a <;> rw [a]
    rw [show radians (-(y2 - y1)) = -radians (y2 - y1) by unfold radians; ring, Real.cos_neg]
  rw [e, e', Real.arccos_cos]
  · unfold radians; positivity
  · unfold radians; nlinarith

/-- No path between two latitudes is shorter than the one along the meridian. -/
theorem arc_ge_rows {x1 y1 x2 y2 : ℝ} (a1 : -90 ≤ y1) (a2 : y1 ≤ 90) (b1 : -90 ≤ y2) (b2 : y2 ≤ 90) :
    6371009 * radians |y2 - y1| ≤ arc x1 y1 x2 y2 := by
  have hl : |y2 - y1| ≤ 180 := by rw [abs_le]; constructor <;> linarith
  rw [← arc_meridian (x := 0) hl]
  unfold arc
  refine mul_le_mul_of_nonneg_left (Real.arccos_le_arccos ?_) (by norm_num)
  rw [dot_eq', dot_eq', sub_self (radians 0), Real.cos_zero, sub_self, mul_zero, sub_zero]
  have := mul_nonneg (mul_nonneg (cos_lat a1 a2) (cos_lat b1 b2)) (sub_nonneg.2 (Real.cos_le_one (radians x2 - radians x1)))
  linarith

theorem depth_ge {m res n : ℝ} {k : Nat} (hr : 0 < res) (h : (k : ℝ) - n < m / res) (hn : n = 1) : k ≤ depthOf m res := by
  subst hn
  unfold depthOf
  rw [abs_of_pos hr]
  have := Int.le_ceil (m / res)
  have h' : (k : ℝ) - 1 < ⌈m / res⌉ := lt_of_lt_of_le h this
  have h'' : ((k : ℤ) - 1 : ℤ) < ⌈m / res⌉ := by exact_mod_cast h'
  omega

theorem abs_adist (i i' : Nat) : |(i : ℝ) - i'| = (adist i i' : ℝ) := by
  unfold adist
  rcases Nat.le_total i i' with c | c
  · have h : (i : ℝ) ≤ i' := by exact_mod_cast c
    rw [Nat.sub_eq_zero_of_le c, zero_add, Nat.cast_sub c, abs_of_nonpos (by linarith)]
    ring
  · have h : (i' : ℝ) ≤ i := by exact_mod_cast c
    rw [Nat.sub_eq_zero_of_le c, add_zero, Nat.cast_sub c, abs_of_nonneg (by linarith)]

theorem overlap_ok {nx ny : Nat} {lon lat : Nat → ℝ} {s m : ℝ} (h : Rows ny lat s) {d : Nat × Nat} (ho : overlap nx ny lon lat m = .ok (some d)) :
    2 ≤ nx ∧ 2 ≤ ny ∧ d = (depthOf m (arc (lon 0) (lat 1) (lon 0) (lat 0)), depthOf m (arc (lon 0) (lat 0) (lon 1) (lat 0))) := by
  unfold overlap minResolution at ho
  cases hv : validate nx ny lon lat with
  | error e => rw [hv] at ho; simp at ho
  | ok u =>
    rw [hv] at ho
    by_cases c : Real.sqrt (haversineSqr (lon 0) (lat 0) (lon (nx - 1)) (lat (ny - 1))) ≤ m
    · simp [c] at ho
    · by_cases c1 : nx < 2
      · simp [c, c1] at ho
      · by_cases c2 : ny < 2
        · simp [c, c1, c2] at ho
        · simp only [c, c1, c2, if_false, Except.ok.injEq, Option.some.injEq] at ho
          refine ⟨by omega, by omega, ?_⟩
          rw [← ho, largest_rows h _ (by omega), twoLargest_rows h _ (by omega), sqrt_dist, sqrt_dist]

/-- **C87.**  Rows: for evenly spaced rows a cell within `max_distance` is never further away than the overlap, whatever the longitudes. -/
theorem C87_rows {nx ny : Nat} {lon lat : Nat → ℝ} {s m : ℝ} (h : Rows ny lat s) {d : Nat × Nat}
    (ho : overlap nx ny lon lat m = .ok (some d)) {i i' : Nat} (hi : i < ny) (hi' : i' < ny) (x x' : ℝ)
    (hd : arc x (lat i) x' (lat i') ≤ m) : adist i i' ≤ d.1 := by
  obtain ⟨h2, h3, rfl⟩ := overlap_ok h ho
  have p := Real.pi_pos
  obtain ⟨hs, hl⟩ := h
  have e1 : lat 0 - lat 1 = s := by rw [(hl 1 (by omega)).1]; push_cast; ring
  have s180 : |lat 0 - lat 1| ≤ 180 := by
    rw [abs_le]
    constructor <;> linarith [(hl 0 (by omega)).2.1, (hl 0 (by omega)).2.2, (hl 1 (by omega)).2.1, (hl 1 (by omega)).2.2]
  have e2 : arc (lon 0) (lat 1) (lon 0) (lat 0) = 6371009 * radians s := by rw [arc_meridian s180, e1, abs_of_pos hs]
  have hr : 0 < 6371009 * radians s := by unfold radians; positivity
  have key : (adist i i' : ℝ) * (6371009 * radians s) ≤ m := by
    refine le_trans ?_ (le_trans (arc_ge_rows (hl i hi).2.1 (hl i hi).2.2 (hl i' hi').2.1 (hl i' hi').2.2) hd)
    rw [(hl i hi).1, (hl i' hi').1]
    have : |lat 0 - i' * s - (lat 0 - i * s)| = (adist i i' : ℝ) * s := by
      rw [show lat 0 - i' * s - (lat 0 - i * s) = ((i : ℝ) - i') * s by ring, abs_mul, abs_of_pos hs]
      rw [abs_adist]
    rw [this]
    unfold radians
    apply le_of_eq; ring
  show adist i i' ≤ depthOf m _
  rw [e2]
  refine depth_ge hr ?_ rfl
  have : (adist i i' : ℝ) ≤ m / (6371009 * radians s) := by rw [le_div_iff₀ hr]; exact key
  linarith

/-- Parallels nearer to the equator are longer. -/
theorem arc_ge_columns {x1 y1 x2 y2 t : ℝ} (ht : t ≤ 90) (h1 : |y1| ≤ t) (h2 : |y2| ≤ t) : arc x1 t x2 t ≤ arc x1 y1 x2 y2 := by
  have p := Real.pi_pos
  have t0 : 0 ≤ t := le_trans (abs_nonneg _) h1
  have cc : ∀ y : ℝ, |y| ≤ t → Real.cos (radians t) ≤ Real.cos (radians y) := by
    intro y hy
    rw [← Real.cos_abs (radians y)]
    refine Real.cos_le_cos_of_nonneg_of_le_pi (abs_nonneg _) ?_ ?_
    · unfold radians; nlinarith
    · unfold radians; rw [abs_mul, abs_of_pos (show 0 < Real.pi / 180 by positivity)]; nlinarith
  have c0 : 0 ≤ Real.cos (radians t) := cos_lat (by linarith) ht
  unfold arc
  refine mul_le_mul_of_nonneg_left (Real.arccos_le_arccos ?_) (by norm_num)
  rw [dot_eq', dot_eq', sub_self (radians t), Real.cos_zero]
  have u := Real.cos_le_one (radians y2 - radians y1)
  have v : 0 ≤ 1 - Real.cos (radians x2 - radians x1) := sub_nonneg.2 (Real.cos_le_one _)
  have w : Real.cos (radians t) * Real.cos (radians t) ≤ Real.cos (radians y1) * Real.cos (radians y2) :=
    mul_le_mul (cc _ h1) (cc _ h2) c0 (le_trans c0 (cc _ h1))
  nlinarith [mul_le_mul_of_nonneg_right w v]

theorem arc_symm (x1 y1 x2 y2 : ℝ) : arc x1 y1 x2 y2 = arc x2 y2 x1 y1 := by
  have : dot (point x1 y1) (point x2 y2) = dot (point x2 y2) (point x1 y1) := by unfold dot; ring
  rw [arc, arc, this]

theorem arc_shift {x1 x2 x1' x2' : ℝ} (h : x2 - x1 = x2' - x1') (y1 y2 : ℝ) : arc x1 y1 x2 y2 = arc x1' y1 x2' y2 := by
  have e : radians x2 - radians x1 = radians x2' - radians x1' := by
    unfold radians; rw [← sub_mul, ← sub_mul, h]
  rw [arc, arc, dot_eq, dot_eq, e]

theorem columns_le {nx ny : Nat} {lon lat : Nat → ℝ} {s sx m : ℝ} (h : Rows ny lat s) (hc : Columns nx lon sx) (ht : TopHighest ny lat)
    (hst : Straight nx lon lat) {d : Nat × Nat} (ho : overlap nx ny lon lat m = .ok (some d)) {i i' j j' : Nat} (hi : i < ny) (hi' : i' < ny)
    (hjj : j ≤ j') (hj' : j' < nx) (hd : arc (lon j) (lat i) (lon j') (lat i') ≤ m) : j' - j ≤ d.2 := by
  obtain ⟨h2, h3, rfl⟩ := overlap_ok h ho
  show j' - j ≤ depthOf m _
  rcases Nat.eq_zero_or_pos (j' - j) with z | z
  · rw [z]; exact Nat.zero_le _
  · have hr := hst 1 (by omega) (by omega)
    rw [Nat.cast_one, sub_self, zero_mul] at hr
    refine depth_ge hr ?_ rfl
    rw [lt_div_iff₀ hr]
    refine lt_of_lt_of_le (hst (j' - j) z (by omega)) (le_trans ?_ hd)
    have e : lon (j' - j) - lon 0 = lon j' - lon j := by
      rw [hc j' hj', hc j (by omega), hc (j' - j) (by omega), Nat.cast_sub hjj]; ring
    rw [arc_shift e]
    exact arc_ge_columns (h.2 0 (by omega)).2.2 (ht i hi) (ht i' hi')

/-- **C87.**  Evenly spaced rows and columns, no row further from the equator than the first one, and the first row nearly straight: every cell
within `max_distance` is within the overlap.  Missing from the full claim: rasters that reach further south than north, rasters wide enough for
the parallels to bend, and rasters that go around the globe, for which it is false. -/
theorem C87_covered_partial {nx ny : Nat} {lon lat : Nat → ℝ} {s sx m : ℝ} (h : Rows ny lat s) (hc : Columns nx lon sx) (ht : TopHighest ny lat)
    (hst : Straight nx lon lat) (hm : 0 ≤ m) {d : Nat × Nat} (ho : overlap nx ny lon lat m = .ok (some d)) {i i' j j' : Nat} (hi : i < ny)
    (hi' : i' < ny) (hj : j < nx) (hj' : j' < nx) (hd : haversineSqr (lon j) (lat i) (lon j') (lat i') ≤ m * m) :
    adist i i' ≤ d.1 ∧ adist j j' ≤ d.2 := by
  rw [dist_le hm] at hd
  refine ⟨C87_rows h ho hi hi' _ _ hd, ?_⟩
  unfold adist
  rcases Nat.le_total j j' with c | c
  · have := columns_le h hc ht hst ho hi hi' c hj' hd
    omega
  · rw [arc_symm] at hd
    have := columns_le h hc ht hst ho hi' hi c hj hd
    omega

/-! ### What chunks report -/

/-- A chunk that sees no target reports no distance. -/
theorem unseen {S : Type} {E : Env ℝ S} (hself : ∀ x y : ℝ, E.distSqr x y x y = 0) {r0 c0 h w dy dx : Nat} {pad : FVal ℝ}
    (hpad : ¬ IsTarget E.targets pad)
    (hno : ∀ t, TargetCell E t → ¬ (r0 ≤ t.1 + dy ∧ t.1 < r0 + h + dy ∧ c0 ≤ t.2 + dx ∧ t.2 < c0 + w + dx)) {i j : Nat} (hi : i < h) (hj : j < w) :
    (compute (chunkEnv E r0 c0 h w dy dx pad)).prox (dy + i) (dx + j) = none := by
  obtain ⟨_, h2, _⟩ := C09_real_targets (E := chunkEnv E r0 c0 h w dy dx pad) hself (p := (dy + i, dx + j))
    (by show dy + i < h + 2 * dy; omega) (by show dx + j < w + 2 * dx; omega)
  cases e : (compute (chunkEnv E r0 c0 h w dy dx pad)).prox (dy + i) (dx + j) with
  | none => rfl
  | some d =>
    obtain ⟨t, ⟨t1, t2, t3⟩, -, -, -⟩ := h2 d e
    have t1 : t.1 < h + 2 * dy := t1
    have t2 : t.2 < w + 2 * dx := t2
    by_cases c : dy ≤ t.1 + r0 ∧ t.1 + r0 - dy < E.ny ∧ dx ≤ t.2 + c0 ∧ t.2 + c0 - dx < E.nx
    · have t3 : IsTarget E.targets (if dy ≤ t.1 + r0 ∧ t.1 + r0 - dy < E.ny ∧ dx ≤ t.2 + c0 ∧ t.2 + c0 - dx < E.nx
        then E.src (t.1 + r0 - dy) (t.2 + c0 - dx) else pad) := t3
      rw [if_pos c] at t3
      refine absurd ?_ (hno (t.1 + r0 - dy, t.2 + c0 - dx) ⟨c.2.1, c.2.2.2, t3⟩)
      refine ⟨?_, ?_, ?_, ?_⟩ <;> show _ <;> simp only [] <;> omega
    · have t3 : IsTarget E.targets (if dy ≤ t.1 + r0 ∧ t.1 + r0 - dy < E.ny ∧ dx ≤ t.2 + c0 ∧ t.2 + c0 - dx < E.nx
        then E.src (t.1 + r0 - dy) (t.2 + c0 - dx) else pad) := t3
      rw [if_neg c] at t3
      exact absurd t3 hpad

/-! ### The seam -/

section Seam

variable {S : Type} {E : Env ℝ S} {c : Nat}

/-- No target left of column `c` comes near enough to column `c` to be handed on. -/
def Gulf (E : Env ℝ S) (c : Nat) : Prop :=
  ∀ t, IsT E t → t.2 < c → ∀ row < E.ny, ¬ ((E.dsq t (row, c) : ℝ) : WithTop ℝ) < E.maxSqr2

def NearOk (E : Env ℝ S) (c : Nat) (near : Nat → Option Cell) : Prop := ∀ i t, near i = some t → IsT E t ∧ (c ≤ i → c ≤ t.2)

def ProxOk (E : Env ℝ S) (c row : Nat) (prox : Nat → Option ℝ) : Prop :=
  ∀ i d, c ≤ i → prox i = some d → ∃ t, IsT E t ∧ c ≤ t.2 ∧ d = E.dsq t (row, i)

def Good (E : Env ℝ S) (c row i : Nat) (cand : Option Cell × WithTop ℝ) : Prop :=
  cand.2 ≤ E.maxSqr2 ∧ ∀ t, cand.1 = some t → IsT E t ∧ (c ≤ i → c ≤ t.2) ∧ cand.2 = ((E.dsq t (row, i) : ℝ) : WithTop ℝ)

theorem good_own {near : Nat → Option Cell} (hn : NearOk E c near) (row i : Nat) : Good E c row i (ownCand E (row, i) (near i)) := by
  unfold ownCand
  cases e : near i with
  | none => exact ⟨le_refl _, fun t h => by simp at h⟩
  | some t =>
    simp only []
    split_ifs with l
    · refine ⟨le_of_lt l, fun t' h => ?_⟩
      simp only [Option.some.injEq] at h
      subst h
      exact ⟨(hn i t e).1, (hn i t e).2, rfl⟩
    · exact ⟨le_refl _, fun t h => by simp at h⟩

theorem good_take {near : Nat → Option Cell} (hg : Gulf E c) (hn : NearOk E c near) {row i : Nat} (hrow : row < E.ny)
    {cur : Option Cell × WithTop ℝ} (h : Good E c row i cur) {k : Option Nat} (hk : ∀ n, k = some n → i ≤ n + 1) :
    Good E c row i (takeCand E (row, i) cur (k.bind near)) := by
  unfold takeCand
  cases e : k.bind near with
  | none => exact h
  | some t =>
    simp only []
    split_ifs with l
    · refine ⟨le_trans (le_of_lt l) h.1, fun t' ht' => ?_⟩
      simp only [Option.some.injEq] at ht'
      subst ht'
      cases k with
      | none => simp at e
      | some n =>
        have e : near n = some t := e
        refine ⟨(hn n t e).1, ?_, rfl⟩
        intro hci
        by_contra lt
        have h1 : ¬ c ≤ n := fun q => lt ((hn n t e).2 q)
        have h2 := hk n rfl
        have h3 : i = c := by omega
        subst h3
        exact hg t (hn n t e).1 (by omega) row hrow (lt_of_lt_of_le l h.1)
    · exact h

theorem good_new {near : Nat → Option Cell} (hg : Gulf E c) (hn : NearOk E c near) {row : Nat} (hrow : row < E.ny) (f : Bool) (i : Nat) :
    Good E c row i (newCand E f row near i) := by
  unfold newCand
  refine good_take hg hn hrow (good_take hg hn hrow (good_own hn row i) ?_) ?_
  · intro n h
    unfold iprev at h
    split_ifs at h <;> simp only [Option.some.injEq] at h <;> omega
  · intro n h
    unfold inext at h
    split_ifs at h <;> simp only [Option.some.injEq] at h <;> omega

theorem set_near {near : Nat → Option Cell} (hn : NearOk E c near) {i : Nat} {v : Option Cell}
    (h : ∀ t, v = some t → IsT E t ∧ (c ≤ i → c ≤ t.2)) : NearOk E c (set near i v) := by
  intro k t hk
  unfold Proximity.set at hk
  by_cases e : k = i
  · subst e; rw [if_pos rfl] at hk; exact h t hk
  · rw [if_neg e] at hk; exact hn k t hk

theorem set_prox {row : Nat} {prox : Nat → Option ℝ} (hp : ProxOk E c row prox) {i : Nat} {v : Option ℝ}
    (h : ∀ d, c ≤ i → v = some d → ∃ t, IsT E t ∧ c ≤ t.2 ∧ d = E.dsq t (row, i)) : ProxOk E c row (set prox i v) := by
  intro k d hk e
  unfold Proximity.set at e
  by_cases q : k = i
  · subst q; rw [if_pos rfl] at e; exact h d hk e
  · rw [if_neg q] at e; exact hp k d hk e

theorem pixel_ok (hself : ∀ x y : ℝ, E.distSqr x y x y = 0) (hg : Gulf E c) {row i : Nat} (hrow : row < E.ny) (hi : i < E.nx) (f : Bool)
    {L : Line ℝ} (hL : NearOk E c L.near ∧ ProxOk E c row L.prox) :
    NearOk E c (pixel E f row L i).near ∧ ProxOk E c row (pixel E f row L i).prox := by
  obtain ⟨hn, hp⟩ := hL
  unfold pixel
  split_ifs with ht
  · refine ⟨set_near hn ?_, set_prox hp ?_⟩
    · intro t h
      simp only [Option.some.injEq] at h
      subst h
      exact ⟨⟨hrow, hi, ht⟩, fun h => h⟩
    · intro d hc h
      simp only [Option.some.injEq] at h
      subst h
      exact ⟨(row, i), ⟨hrow, hi, ht⟩, hc, (hself _ _).symm⟩
  · have g := good_new hg hn hrow f i
    simp only []
    split_ifs with him
    · refine ⟨set_near hn (fun t h => ⟨(g.2 t h).1, (g.2 t h).2.1⟩), set_prox hp ?_⟩
      intro d hc h
      cases e1 : (newCand E f row L.near i).1 with
      | none => unfold improves at him; rw [e1] at him; simp at him
      | some t =>
        obtain ⟨a, b, e2⟩ := g.2 t e1
        rw [e2] at h
        refine ⟨t, a, b hc, ?_⟩
        have h : some (E.dsq t (row, i)) = some d := h
        exact (Option.some.inj h).symm
    · exact ⟨set_near hn (fun t h => ⟨(g.2 t h).1, (g.2 t h).2.1⟩), hp⟩

theorem line_ok (hself : ∀ x y : ℝ, E.distSqr x y x y = 0) (hg : Gulf E c) {row : Nat} (hrow : row < E.ny) (f : Bool)
    {L : Line ℝ} (hL : NearOk E c L.near ∧ ProxOk E c row L.prox) :
    NearOk E c (processLine E f row L).near ∧ ProxOk E c row (processLine E f row L).prox := by
  have main : ∀ (l : List Nat), (∀ i ∈ l, i < E.nx) → ∀ L : Line ℝ, (NearOk E c L.near ∧ ProxOk E c row L.prox) →
      NearOk E c (l.foldl (pixel E f row) L).near ∧ ProxOk E c row (l.foldl (pixel E f row) L).prox := by
    intro l
    induction l with
    | nil => intro _ L h; exact h
    | cons a l ih =>
      intro hl L h
      exact ih (fun i hi => hl i (List.mem_cons_of_mem _ hi)) _ (pixel_ok hself hg hrow (hl a List.mem_cons_self) f h)
  refine main _ ?_ L hL
  intro i hi
  unfold order at hi
  split_ifs at hi <;> simpa using hi

def StOk (E : Env ℝ S) (c : Nat) (st : St ℝ S) : Prop := NearOk E c st.near ∧ ∀ row, ProxOk E c row (st.prox row)

theorem passes_ok (hself : ∀ x y : ℝ, E.distSqr x y x y = 0) (hg : Gulf E c) {row : Nat} (hrow : row < E.ny) (first : Bool)
    {start : Nat → Option ℝ} (hs : ProxOk E c row start) {st : St ℝ S} (h : StOk E c st) : StOk E c (twoPasses E first start st row) := by
  have h1 := line_ok hself hg hrow first (L := { prox := start, near := st.near, nearest := fun _ => none }) ⟨h.1, hs⟩
  have h2 := line_ok hself hg hrow (!first) (L := { prox := (processLine E first row { prox := start, near := st.near, nearest := fun _ => none }).prox, near := (processLine E first row { prox := start, near := st.near, nearest := fun _ => none }).near, nearest := fun _ => none }) h1
  refine ⟨h2.1, ?_⟩
  intro r i d hi e
  have e : (if r = row ∧ i < E.nx then _ else st.prox r i) = some d := e
  split_ifs at e with q
  · rw [q.1]; exact h2.2 i d hi e
  · exact h.2 r i d hi e

theorem compute_ok (hself : ∀ x y : ℝ, E.distSqr x y x y = 0) (hg : Gulf E c) : StOk E c (compute E) := by
  have down : ∀ (l : List Nat), (∀ r ∈ l, r < E.ny) → ∀ st : St ℝ S, StOk E c st → StOk E c (l.foldl (downLine E) st) := by
    intro l
    induction l with
    | nil => intro _ st h; exact h
    | cons a l ih =>
      intro hl st h
      refine ih (fun i hi => hl i (List.mem_cons_of_mem _ hi)) _ ?_
      exact passes_ok hself hg (hl a List.mem_cons_self) true (fun i d _ e => by simp at e) h
  have up : ∀ (l : List Nat), (∀ r ∈ l, r < E.ny) → ∀ st : St ℝ S, StOk E c st → StOk E c (l.foldl (upLine E) st) := by
    intro l
    induction l with
    | nil => intro _ st h; exact h
    | cons a l ih =>
      intro hl st h
      refine ih (fun i hi => hl i (List.mem_cons_of_mem _ hi)) _ ?_
      exact passes_ok hself hg (hl a List.mem_cons_self) false (h.2 a) h
  refine up _ (by simp) _ ⟨fun i t e => by simp at e, ?_⟩
  exact (down _ (by simp) _ ⟨fun i t e => by simp at e, fun row i d _ e => by simp at e⟩).2

end Seam

/-- **C87.**  The sweep does not go around the globe.  If the targets left of a column are all at least `√2` times `max_distance` away from that
column, the cells right of it report only targets on their own side, however near the others are across the end of the raster; without such
targets they are null.  (So too when the raster is a single chunk.) -/
theorem C87_seam {S : Type} (nx ny : Nat) (lon lat : Nat → ℝ) (src : Nat → Nat → FVal ℝ) (targets : List ℝ) (m : ℝ) (report : Cell → Cell → S)
    (c : Nat)
    (hfar : ∀ t, TargetCell (env nx ny lon lat src targets m report) t → t.2 < c → ∀ row < ny,
      m * m * 2 ≤ haversineSqr (lon t.2) (lat t.1) (lon c) (lat row))
    {p : Cell} (hc : c ≤ p.2) {d : ℝ} (hd : (compute (env nx ny lon lat src targets m report)).prox p.1 p.2 = some d) :
    ∃ t, TargetCell (env nx ny lon lat src targets m report) t ∧ c ≤ t.2 ∧ d = haversineSqr (lon t.2) (lat t.1) (lon p.2) (lat p.1) := by
  have conv : ∀ t, IsT (env nx ny lon lat src targets m report) t → TargetCell (env nx ny lon lat src targets m report) t :=
    fun t h => ⟨h.1, h.2.1, (isTarget_iff _ _).1 h.2.2⟩
  have hg : Gulf (env nx ny lon lat src targets m report) c := by
    intro t ht hlt row hrow l
    have l : ((haversineSqr (lon t.2) (lat t.1) (lon c) (lat row) : ℝ) : WithTop ℝ) < ((m * m * 2 : ℝ) : WithTop ℝ) := l
    rw [WithTop.coe_lt_coe] at l
    linarith [hfar t (conv t ht) hlt row hrow]
  obtain ⟨t, h1, h2, h3⟩ := (compute_ok (E := env nx ny lon lat src targets m report) (fun x y => (C87_metric x y x y).1) hg).2 p.1 p.2 d hc hd
  exact ⟨t, conv t h1, h2, h3⟩

/-! ### Where it fails -/

theorem arc_le_third {x1 y1 x2 y2 : ℝ} (h : 1 / 2 ≤ dot (point x1 y1) (point x2 y2)) : arc x1 y1 x2 y2 ≤ 6371009 * (Real.pi / 3) := by
  have p := Real.pi_pos
  unfold arc
  refine mul_le_mul_of_nonneg_left ?_ (by norm_num)
  have := Real.arccos_le_arccos h
  rwa [← Real.cos_pi_div_three, Real.arccos_cos (by positivity) (by linarith)] at this

theorem third_lt_arc {x1 y1 x2 y2 : ℝ} (h : dot (point x1 y1) (point x2 y2) < 1 / 2) : 6371009 * (Real.pi / 3) < arc x1 y1 x2 y2 := by
  have p := Real.pi_pos
  unfold arc
  refine mul_lt_mul_of_pos_left ?_ (by norm_num)
  have := Real.arccos_lt_arccos (le_dot x1 y1 x2 y2) h (by norm_num)
  rwa [← Real.cos_pi_div_three, Real.arccos_cos (by positivity) (by linarith)] at this

theorem deg (x y : ℝ) (h : x * (Real.pi / 180) = y) : radians x = y := h

theorem cos_315 : Real.cos (radians 315 - radians 0) = Real.sqrt 2 / 2 := by
  rw [show radians 315 - radians 0 = -(Real.pi / 4) + 2 * Real.pi by unfold radians; ring, Real.cos_add_two_pi, Real.cos_neg, Real.cos_pi_div_four]

theorem cos_180 : Real.cos (radians 180 - radians 0) = -1 := by
  rw [show radians 180 - radians 0 = Real.pi by unfold radians; ring, Real.cos_pi]

theorem cos_45 : Real.cos (radians 45 - radians 0) = Real.sqrt 2 / 2 := by
  rw [show radians 45 - radians 0 = Real.pi / 4 by unfold radians; ring, Real.cos_pi_div_four]

theorem rad60 : radians 60 = Real.pi / 3 := by unfold radians; ring

theorem rad30 : radians 30 = Real.pi / 6 := by unfold radians; ring

theorem radneg (x : ℝ) : radians (-x) = -radians x := by unfold radians; ring

theorem sqrt2 : Real.sqrt 2 < 1415 / 1000 := by
  rw [Real.sqrt_lt' (by norm_num)]; norm_num

theorem sqrt3 : 17 / 10 < Real.sqrt 3 := by
  rw [Real.lt_sqrt (by norm_num)]; norm_num

theorem sq3 : Real.sqrt 3 * Real.sqrt 3 = 3 := Real.mul_self_sqrt (by norm_num)

/-- Eight columns 45 degrees apart. -/
noncomputable def exLon (j : Nat) : ℝ := 45 * j

/-- A single source at the given cell. -/
noncomputable def exSrc (r : Nat) (i j : Nat) : FVal ℝ := if i = r ∧ j = 0 then .fin 1 else .fin 0

noncomputable def exEnv (lat : Nat → ℝ) (r : Nat) : Env ℝ Unit :=
  env 8 2 exLon lat (exSrc r) [] (6371009 * (Real.pi / 3)) (fun _ _ => ())

theorem exEnv_target {lat : Nat → ℝ} {r : Nat} {t : Cell} (h : TargetCell (exEnv lat r) t) : t = (r, 0) := by
  obtain ⟨_, _, v, h1, h2⟩ := h
  have h1 : exSrc r t.1 t.2 = .fin v := h1
  unfold exSrc at h1
  split_ifs at h1 with c
  · exact Prod.ext c.1 c.2
  · simp only [FVal.fin.injEq] at h1
    rcases h2 with h2 | ⟨_, h2⟩
    · simp [exEnv, env] at h2
    · exact absurd h1.symm h2

theorem exEnv_missed {lat : Nat → ℝ} {r : Nat} (hr : r < 2) {d : Nat × Nat} (hd : d.2 ≤ 3) :
    TargetCell (exEnv lat r) (r, 0) ∧ (compute (chunkEnv (exEnv lat r) 0 4 2 4 d.1 d.2 .nan)).prox (d.1 + r) (d.2 + 0) = none := by
  constructor
  · refine ⟨hr, by show 0 < 8; omega, 1, ?_, Or.inr ⟨rfl, by norm_num⟩⟩
    show exSrc r r 0 = _
    unfold exSrc
    rw [if_pos ⟨rfl, rfl⟩]
  · refine unseen (fun x y => (C87_metric x y x y).1) ?_ ?_ hr (by omega)
    · rintro ⟨v, h, _⟩; simp at h
    · intro t ht
      rw [exEnv_target ht]
      simp only []
      omega

/-- Rows at 60 degrees north and 30 degrees south. -/
noncomputable def northLat (i : Nat) : ℝ := 60 - 90 * i

/-- Rows on the equator and at 60 degrees south. -/
noncomputable def southLat (i : Nat) : ℝ := -60 * i

theorem lon_ok {lat : Nat → ℝ} (h0 : -90 ≤ lat 0 ∧ lat 0 ≤ 90) (h1 : -90 ≤ lat 1 ∧ lat 1 ≤ 90) : validate 8 2 exLon lat = .ok () := by
  rw [C87_accepted]
  constructor
  · intro i hi
    rcases (by omega : i = 0 ∨ i = 1) with rfl | rfl
    · exact h0
    · exact h1
  · right
    intro j hj
    have : (j : ℝ) ≤ 7 := by exact_mod_cast (by omega : j ≤ 7)
    have : (0 : ℝ) ≤ j := by positivity
    unfold exLon
    constructor <;> linarith

theorem overlap_eq {lat : Nat → ℝ} {s : ℝ} (h : Rows 2 lat s) (h1 : validate 8 2 exLon lat = .ok ())
    (h2 : dot (point 0 (lat 0)) (point 315 (lat 1)) < 1 / 2) :
    overlap 8 2 exLon lat (6371009 * (Real.pi / 3)) =
      .ok (some (depthOf (6371009 * (Real.pi / 3)) (arc 0 (lat 1) 0 (lat 0)), depthOf (6371009 * (Real.pi / 3)) (arc 0 (lat 0) 45 (lat 0)))) := by
  have e0 : exLon 0 = 0 := by unfold exLon; norm_num
  have e1 : exLon 1 = 45 := by unfold exLon; norm_num
  have e7 : exLon (8 - 1) = 315 := by unfold exLon; norm_num
  have c : ¬ Real.sqrt (haversineSqr (exLon 0) (lat 0) (exLon (8 - 1)) (lat (2 - 1))) ≤ 6371009 * (Real.pi / 3) := by
    rw [sqrt_dist, e0, e7, not_le]
    exact third_lt_arc h2
  unfold overlap minResolution
  rw [h1]
  simp only []
  rw [if_neg c, if_neg (by omega), if_neg (by omega)]
  simp only []
  rw [largest_rows h _ (by omega), twoLargest_rows h _ (by omega), sqrt_dist, sqrt_dist, e0, e1]

theorem depth_le {m res : ℝ} {k : Nat} (hr : 0 < res) (h : m ≤ k * res) : depthOf m res ≤ k := by
  unfold depthOf
  rw [abs_of_pos hr]
  have : ⌈m / res⌉ ≤ (k : ℤ) := by rw [Int.ceil_le, div_le_iff₀ hr]; exact_mod_cast h
  omega

theorem within_ex {lat : Nat → ℝ} {r : Nat} (h : 1 / 2 ≤ dot (point 0 (lat r)) (point 180 (lat r))) :
    between (exEnv lat r) (r, 0) (r, 4) ≤ 6371009 * (Real.pi / 3) * (6371009 * (Real.pi / 3)) := by
  show haversineSqr (exLon 0) (lat r) (exLon 4) (lat r) ≤ _
  have p := Real.pi_pos
  rw [dist_le (by positivity), show exLon 0 = 0 by unfold exLon; norm_num, show exLon 4 = 180 by unfold exLon; norm_num]
  exact arc_le_third h

/-- **C87, not so for wide rasters.**  A raster from 60 degrees north on, with columns 45 degrees apart in chunks of four: the source in the first
column is within `max_distance` (a sixth of the circumference) of the cell on the other side of the pole, but the overlap is three columns at most
and the second chunk does not see it; the cell is null. -/
theorem C87_bent :
    ∃ d, overlap 8 2 exLon northLat (6371009 * (Real.pi / 3)) = .ok (some d) ∧ d.2 ≤ 3 ∧
      TargetCell (exEnv northLat 0) (0, 0) ∧
      between (exEnv northLat 0) (0, 0) (0, 4) ≤ 6371009 * (Real.pi / 3) * (6371009 * (Real.pi / 3)) ∧
      (compute (chunkEnv (exEnv northLat 0) 0 4 2 4 d.1 d.2 .nan)).prox (d.1 + 0) (d.2 + 0) = none := by
  have p := Real.pi_pos
  have p' := Real.pi_lt_d2
  have l0 : northLat 0 = 60 := by unfold northLat; norm_num
  have l1 : northLat 1 = -30 := by unfold northLat; norm_num
  have hrows : Rows 2 northLat 90 := by
    refine ⟨by norm_num, ?_⟩
    intro i hi
    rcases (by omega : i = 0 ∨ i = 1) with rfl | rfl
    · rw [l0]; norm_num
    · rw [l0, l1]; norm_num
  have hv := lon_ok (lat := northLat) (by rw [l0]; norm_num) (by rw [l1]; norm_num)
  have hcorner : dot (point 0 (northLat 0)) (point 315 (northLat 1)) < 1 / 2 := by
    rw [dot_eq, l0, l1, cos_315, radneg, Real.cos_neg, Real.sin_neg, rad60, rad30, Real.cos_pi_div_three, Real.cos_pi_div_six,
      Real.sin_pi_div_three, Real.sin_pi_div_six]
    nlinarith [sqrt2, sqrt3, mul_pos (show (0 : ℝ) < Real.sqrt 3 by positivity) (sub_pos.2 sqrt2)]
  have h := overlap_eq hrows hv hcorner
  have hstep : 6371009 * (Real.pi / 9) ≤ arc 0 (northLat 0) 45 (northLat 0) := by
    unfold arc
    refine mul_le_mul_of_nonneg_left ?_ (by norm_num)
    rw [← Real.arccos_cos (x := Real.pi / 9) (by positivity) (by linarith)]
    refine Real.arccos_le_arccos ?_
    rw [dot_eq, l0, cos_45, rad60, Real.cos_pi_div_three, Real.sin_pi_div_three]
    have := Real.one_sub_sq_div_two_le_cos (x := Real.pi / 9)
    nlinarith [sqrt2, sq3]
  have hd : depthOf (6371009 * (Real.pi / 3)) (arc 0 (northLat 0) 45 (northLat 0)) ≤ 3 := by
    refine depth_le (lt_of_lt_of_le (by positivity) hstep) ?_
    push_cast
    linarith
  obtain ⟨m1, m2⟩ := exEnv_missed (lat := northLat) (r := 0) (by omega) (d := (depthOf (6371009 * (Real.pi / 3)) (arc 0 (northLat 1) 0 (northLat 0)), _)) hd
  refine ⟨_, h, hd, m1, within_ex ?_, m2⟩
  rw [dot_eq, l0, cos_180, rad60, Real.cos_pi_div_three, Real.sin_pi_div_three]
  nlinarith [sq3]

/-- **C87, not so in the south.**  A raster from the equator to 60 degrees south: the resolution is taken at the largest latitude, which is the one
nearest to the equator, where cells are widest.  The overlap is two columns, though a cell four columns away is within `max_distance`; the second
chunk does not see the source and the cell is null. -/
theorem C87_south :
    ∃ d, overlap 8 2 exLon southLat (6371009 * (Real.pi / 3)) = .ok (some d) ∧ d.2 = 2 ∧
      TargetCell (exEnv southLat 1) (1, 0) ∧
      between (exEnv southLat 1) (1, 0) (1, 4) ≤ 6371009 * (Real.pi / 3) * (6371009 * (Real.pi / 3)) ∧
      (compute (chunkEnv (exEnv southLat 1) 0 4 2 4 d.1 d.2 .nan)).prox (d.1 + 1) (d.2 + 0) = none := by
  have p := Real.pi_pos
  have l0 : southLat 0 = 0 := by unfold southLat; norm_num
  have l1 : southLat 1 = -60 := by unfold southLat; norm_num
  have r0 : radians 0 = 0 := by unfold radians; ring
  have hrows : Rows 2 southLat 60 := by
    refine ⟨by norm_num, ?_⟩
    intro i hi
    rcases (by omega : i = 0 ∨ i = 1) with rfl | rfl
    · rw [l0]; norm_num
    · rw [l0, l1]; norm_num
  have hv := lon_ok (lat := southLat) (by rw [l0]; norm_num) (by rw [l1]; norm_num)
  have hcorner : dot (point 0 (southLat 0)) (point 315 (southLat 1)) < 1 / 2 := by
    rw [dot_eq, l0, l1, cos_315, radneg, Real.cos_neg, Real.sin_neg, rad60, r0, Real.cos_pi_div_three, Real.sin_zero, Real.cos_zero]
    nlinarith [sqrt2]
  have h := overlap_eq hrows hv hcorner
  have hstep : arc 0 (southLat 0) 45 (southLat 0) = 6371009 * (Real.pi / 4) := by
    unfold arc
    rw [dot_eq, l0, cos_45, r0, Real.sin_zero, Real.cos_zero, ← Real.cos_pi_div_four]
    congr 1
    rw [show (1 : ℝ) * 1 * Real.cos (Real.pi / 4) + 0 * 0 = Real.cos (Real.pi / 4) by ring, Real.arccos_cos (by positivity) (by linarith)]
  have hd : depthOf (6371009 * (Real.pi / 3)) (arc 0 (southLat 0) 45 (southLat 0)) = 2 := by
    rw [hstep]
    refine le_antisymm (depth_le (by positivity) (by push_cast; linarith)) ?_
    refine depth_ge (by positivity) ?_ rfl
    rw [lt_div_iff₀ (by positivity)]
    push_cast
    linarith
  obtain ⟨m1, m2⟩ := exEnv_missed (lat := southLat) (r := 1) (by omega) (d := (depthOf (6371009 * (Real.pi / 3)) (arc 0 (southLat 1) 0 (southLat 0)), _)) (le_trans (le_of_eq hd) (by omega))
  refine ⟨_, h, hd, m1, within_ex ?_, m2⟩
  rw [dot_eq, l1, cos_180, radneg, Real.cos_neg, Real.sin_neg, rad60, Real.cos_pi_div_three, Real.sin_pi_div_three]
  nlinarith [sq3]

/-- Five columns from 165 degrees west to 165 degrees east and rows at 30 degrees north and on the equator. -/
noncomputable def ringLon (j : Nat) : ℝ := -165 + (165 / 2) * j

noncomputable def ringLat (i : Nat) : ℝ := 30 - 30 * i

noncomputable def ringEnv : Env ℝ Unit := env 5 2 ringLon ringLat (exSrc 0) [] (6371009 * (Real.pi / 3)) (fun _ _ => ())

/-- **C87, not so around the globe.**  A raster from 165 degrees west to 165 degrees east: the source in the first column is 30 degrees of longitude
from the last column, within `max_distance`; yet the cell there is null, even when the raster is one chunk. -/
theorem C87_around :
    TargetCell ringEnv (0, 0) ∧ between ringEnv (0, 0) (0, 4) ≤ 6371009 * (Real.pi / 3) * (6371009 * (Real.pi / 3)) ∧
      (compute ringEnv).prox 0 4 = none := by
  have p := Real.pi_pos
  have hunique : ∀ t, TargetCell ringEnv t → t = (0, 0) := by
    rintro t ⟨_, _, v, h1, h2⟩
    have h1 : exSrc 0 t.1 t.2 = .fin v := h1
    unfold exSrc at h1
    split_ifs at h1 with c
    · exact Prod.ext c.1 c.2
    · simp only [FVal.fin.injEq] at h1
      rcases h2 with h2 | ⟨_, h2⟩
      · simp [ringEnv, env] at h2
      · exact absurd h1.symm h2
  have l0 : ringLat 0 = 30 := by unfold ringLat; norm_num
  have l1 : ringLat 1 = 0 := by unfold ringLat; norm_num
  have r0 : radians 0 = 0 := by unfold radians; ring
  refine ⟨⟨by show 0 < 2; omega, by show 0 < 5; omega, 1, ?_, Or.inr ⟨rfl, by norm_num⟩⟩, ?_, ?_⟩
  · show exSrc 0 0 0 = _
    unfold exSrc
    rw [if_pos ⟨rfl, rfl⟩]
  · show haversineSqr (ringLon 0) (ringLat 0) (ringLon 4) (ringLat 0) ≤ _
    rw [dist_le (by positivity)]
    refine arc_le_third ?_
    rw [dot_eq, l0, show radians (ringLon 4) - radians (ringLon 0) = -(Real.pi / 6) + 2 * Real.pi by unfold radians ringLon; push_cast; ring,
      Real.cos_add_two_pi, Real.cos_neg, rad30, Real.cos_pi_div_six, Real.sin_pi_div_six]
    nlinarith [sq3, sqrt3]
  · cases e : (compute ringEnv).prox 0 4 with
    | none => rfl
    | some d =>
      exfalso
      have hfar : ∀ t, TargetCell ringEnv t → t.2 < 2 → ∀ row < 2,
          6371009 * (Real.pi / 3) * (6371009 * (Real.pi / 3)) * 2 ≤ haversineSqr (ringLon t.2) (ringLat t.1) (ringLon 2) (ringLat row) := by
        intro t ht _ row hrow
        rw [hunique t ht]
        have hc : Real.cos (radians (ringLon 2) - radians (ringLon 0)) ≤ -(1 / 2) := by
          rw [show radians (ringLon 2) - radians (ringLon 0) = Real.pi - Real.pi / 12 by unfold radians ringLon; push_cast; ring, Real.cos_pi_sub]
          have := Real.cos_le_cos_of_nonneg_of_le_pi (x := Real.pi / 12) (y := Real.pi / 3) (by positivity) (by linarith) (by linarith)
          rw [Real.cos_pi_div_three] at this
          linarith
        have hdot : dot (point (ringLon 0) (ringLat 0)) (point (ringLon 2) (ringLat row)) ≤ 0 := by
          rw [dot_eq, l0]
          rcases (by omega : row = 0 ∨ row = 1) with rfl | rfl
          · rw [l0, rad30, Real.cos_pi_div_six, Real.sin_pi_div_six]
            nlinarith [sq3]
          · rw [l1, rad30, r0, Real.sin_zero, Real.cos_zero, Real.cos_pi_div_six]
            nlinarith [sqrt3]
        rw [C87_distance]
        have ha : 6371009 * (Real.pi / 2) ≤ arc (ringLon 0) (ringLat 0) (ringLon 2) (ringLat row) := by
          unfold arc
          refine mul_le_mul_of_nonneg_left ?_ (by norm_num)
          rw [← Real.arccos_zero]
          exact Real.arccos_le_arccos hdot
        have := mul_self_le_mul_self (by positivity) ha
        nlinarith [mul_pos p p]
      obtain ⟨t, h1, h2, _⟩ := C87_seam 5 2 ringLon ringLat (exSrc 0) [] (6371009 * (Real.pi / 3)) (fun _ _ => ()) 2 (p := (0, 4)) (d := d) hfar
        (by show 2 ≤ 4; omega) e
      rw [hunique t h1] at h2
      exact absurd h2 (by show ¬ 2 ≤ 0; omega)

/-- **C87, an error.**  With a single row or column and a `max_distance` shorter than the raster there is no estimate of the resolution: an error. -/
theorem C87_single {nx ny : Nat} {lon lat : Nat → ℝ} {m : ℝ} (hv : validate nx ny lon lat = .ok ())
    (hm : m < arc (lon 0) (lat 0) (lon (nx - 1)) (lat (ny - 1))) :
    (nx < 2 → overlap nx ny lon lat m = .error .index) ∧ (2 ≤ nx → ny < 2 → overlap nx ny lon lat m = .error .value) := by
  have c : ¬ Real.sqrt (haversineSqr (lon 0) (lat 0) (lon (nx - 1)) (lat (ny - 1))) ≤ m := by rw [sqrt_dist, not_le]; exact hm
  unfold overlap minResolution
  rw [hv]
  simp only []
  rw [if_neg c]
  constructor
  · intro h; rw [if_pos h]
  · intro h h'; rw [if_neg (by omega), if_pos h']

/-! ### Examples -/

/-- `C87_single`: one row of three cells 45 degrees apart on the equator. -/
example : validate 3 1 exLon (fun _ => 0) = .ok () ∧ 6371009 * (Real.pi / 3) < arc (exLon 0) 0 (exLon (3 - 1)) 0 := by
  constructor
  · rw [C87_accepted]
    refine ⟨fun i _ => by norm_num, Or.inl ?_⟩
    intro j hj
    rcases (by omega : j = 0 ∨ j = 1 ∨ j = 2) with rfl | rfl | rfl <;> norm_num [exLon]
  · refine third_lt_arc ?_
    rw [dot_eq, show radians (exLon (3 - 1)) - radians (exLon 0) = Real.pi / 2 by unfold radians exLon; push_cast; ring, Real.cos_pi_div_two,
      show radians 0 = 0 by unfold radians; ring, Real.sin_zero]
    norm_num


/-- `C87_distance`, `C87_metric`: a quarter of the way around the globe. -/
example : haversineSqr 0 0 90 0 = 6371009 * (Real.pi / 2) * (6371009 * (Real.pi / 2)) := by
  rw [C87_distance, arc, dot_eq, show radians 90 - radians 0 = Real.pi / 2 by unfold radians; ring, Real.cos_pi_div_two,
    show radians 0 = 0 by unfold radians; ring, Real.sin_zero]
  simp

/-- Three rows from 30 degrees north to 30 degrees south and three columns 60 degrees apart. -/
noncomputable def smallLon (j : Nat) : ℝ := 60 * j

noncomputable def smallLat (i : Nat) : ℝ := 30 - 30 * i

/-- `C87_rows`, `C87_covered_partial`, `C87_accepted`. -/
example : Rows 3 smallLat 30 ∧ Columns 3 smallLon 60 ∧ TopHighest 3 smallLat ∧ Straight 3 smallLon smallLat ∧
    validate 3 3 smallLon smallLat = .ok () ∧
    ∃ d, overlap 3 3 smallLon smallLat (6371009 * (Real.pi / 6)) = .ok (some d) := by
  have p := Real.pi_pos
  have hrows : Rows 3 smallLat 30 := by
    refine ⟨by norm_num, ?_⟩
    intro i hi
    rcases (by omega : i = 0 ∨ i = 1 ∨ i = 2) with rfl | rfl | rfl <;> norm_num [smallLat]
  have c1 : Real.cos (radians (smallLon 1) - radians (smallLon 0)) = 1 / 2 := by
    rw [show radians (smallLon 1) - radians (smallLon 0) = Real.pi / 3 by unfold radians smallLon; push_cast; ring, Real.cos_pi_div_three]
  have c2 : Real.cos (radians (smallLon 2) - radians (smallLon 0)) = -(1 / 2) := by
    rw [show radians (smallLon 2) - radians (smallLon 0) = Real.pi - Real.pi / 3 by unfold radians smallLon; push_cast; ring, Real.cos_pi_sub,
      Real.cos_pi_div_three]
  have l0 : smallLat 0 = 30 := by norm_num [smallLat]
  have d1 : dot (point (smallLon 0) (smallLat 0)) (point (smallLon 1) (smallLat 0)) = 5 / 8 := by
    rw [dot_eq, c1, l0, rad30, Real.cos_pi_div_six, Real.sin_pi_div_six]
    nlinarith [sq3]
  have d2 : dot (point (smallLon 0) (smallLat 0)) (point (smallLon 2) (smallLat 0)) = -(1 / 8) := by
    rw [dot_eq, c2, l0, rad30, Real.cos_pi_div_six, Real.sin_pi_div_six]
    nlinarith [sq3]
  have hv : validate 3 3 smallLon smallLat = .ok () := by
    rw [C87_accepted]
    refine ⟨fun i hi => ⟨(hrows.2 i hi).2.1, (hrows.2 i hi).2.2⟩, Or.inl ?_⟩
    intro j hj
    rcases (by omega : j = 0 ∨ j = 1 ∨ j = 2) with rfl | rfl | rfl <;> norm_num [smallLon]
  refine ⟨hrows, ?_, ?_, ?_, hv, ?_⟩
  · intro j hj
    unfold smallLon
    push_cast
    ring
  · intro i hi
    rcases (by omega : i = 0 ∨ i = 1 ∨ i = 2) with rfl | rfl | rfl <;> norm_num [smallLat, abs_le]
  · intro n h1 h2
    rcases (by omega : n = 1 ∨ n = 2) with rfl | rfl
    · norm_num
      unfold arc
      rw [d1]
      have : 0 < Real.arccos (5 / 8) := Real.arccos_pos.2 (by norm_num)
      positivity
    · unfold arc
      rw [d1, d2]
      have := Real.arccos_lt_arccos (x := -(1 / 8)) (y := 5 / 8) (by norm_num) (by norm_num) (by norm_num)
      push_cast
      linarith
  · have c : ¬ Real.sqrt (haversineSqr (smallLon 0) (smallLat 0) (smallLon (3 - 1)) (smallLat (3 - 1))) ≤ 6371009 * (Real.pi / 6) := by
      rw [sqrt_dist, not_le]
      refine lt_trans ?_ (third_lt_arc ?_)
      · linarith
      · rw [dot_eq, show (3 - 1 : Nat) = 2 from rfl, c2, l0, show smallLat 2 = -30 by norm_num [smallLat], radneg, Real.cos_neg, Real.sin_neg, rad30,
          Real.cos_pi_div_six, Real.sin_pi_div_six]
        nlinarith [sq3]
    unfold overlap minResolution
    rw [hv]
    simp only []
    rw [if_neg c, if_neg (by omega), if_neg (by omega)]
    exact ⟨_, rfl⟩

/-- The end of a row of three cells behind a source reports that source, wherever the others are. -/
theorem row_screened {S : Type} {E : Env ℝ S} (hny : E.ny = 1) (hnx : E.nx = 3) (h0 : E.target (0, 0) = true) (h1 : E.target (0, 1) = true)
    (h2 : E.target (0, 2) = false) (hlt : ((E.dsq (0, 1) (0, 2) : ℝ) : WithTop ℝ) < E.maxSqr2)
    (hle : ((E.dsq (0, 1) (0, 2) : ℝ) : WithTop ℝ) ≤ E.maxSqr) : (compute E).prox 0 2 = some (E.dsq (0, 1) (0, 2)) := by
  have r1 : List.range 1 = [0] := rfl
  have r3 : List.range 3 = [0, 1, 2] := rfl
  unfold compute
  rw [hny, r1]
  simp only [List.foldl_cons, List.foldl_nil, List.reverse_cons, List.reverse_nil, List.nil_append]
  unfold upLine downLine twoPasses processLine order
  rw [hnx]
  simp [r3, pixel, h0, h1, h2, Proximity.set, newCand, ownCand, takeCand, iprev, inext, hnx, improves, hlt, hle]

/-- Longitudes -180, 0 and 180. -/
noncomputable def wholeLon (j : Nat) : ℝ := -180 + 180 * j

/-- A row around the globe with sources in the first two cells, and reach enough to be a single chunk. -/
noncomputable def wholeEnv : Env ℝ Unit :=
  env 3 1 wholeLon (fun _ => 0) (fun _ j => if j < 2 then .fin 1 else .fin 0) [] (6371009 * Real.pi) (fun _ _ => ())

/-- **C41** is false for the great circle metric: at the date line the source half around the globe is reported, though the source at
the other end of the row is at the same place. -/
theorem C41_great_circle : validate 3 1 wholeLon (fun _ => 0) = .ok () ∧
    overlap 3 1 wholeLon (fun _ => 0) (6371009 * Real.pi) = .ok none ∧
    TargetCell wholeEnv (0, 0) ∧ between wholeEnv (0, 0) (0, 2) = 0 ∧
    (compute wholeEnv).prox 0 2 = some (6371009 * Real.pi * (6371009 * Real.pi)) := by
  have p := Real.pi_pos
  have half : arc 0 0 180 0 = 6371009 * Real.pi := by
    unfold arc dot point
    have e : (180 : ℝ) * Real.pi / 180 = Real.pi := by ring
    rw [e]
    simp
  have same : arc (-180) 0 180 0 = 0 := by
    unfold arc dot point
    have e : (180 : ℝ) * Real.pi / 180 = Real.pi := by ring
    have e' : (-180 : ℝ) * Real.pi / 180 = -Real.pi := by ring
    rw [e, e']
    simp
  have v : validate 3 1 wholeLon (fun _ => 0) = .ok () := by
    rw [C87_accepted]
    refine ⟨fun i _ => by norm_num, .inl fun j hj => ?_⟩
    unfold wholeLon
    have : (j : ℝ) ≤ 2 := by exact_mod_cast (by omega : j ≤ 2)
    have : (0 : ℝ) ≤ j := by positivity
    constructor <;> linarith
  have l0 : wholeLon 0 = -180 := by unfold wholeLon; norm_num
  have l1 : wholeLon 1 = 0 := by unfold wholeLon; norm_num
  have l2 : wholeLon 2 = 180 := by unfold wholeLon; norm_num
  have ht : ∀ i j : Nat, wholeEnv.target (i, j) = decide (j < 2) := by
    intro i j
    unfold Env.target isTarget wholeEnv env
    by_cases h : j < 2 <;> simp [h]
  have hd : wholeEnv.dsq (0, 1) (0, 2) = 6371009 * Real.pi * (6371009 * Real.pi) := by
    show haversineSqr (wholeLon 1) 0 (wholeLon 2) 0 = _
    rw [l1, l2, C87_distance, half]
  refine ⟨v, ?_, ?_, ?_, ?_⟩
  · unfold overlap
    rw [v]
    simp only
    rw [sqrt_dist, l0, show 3 - 1 = 2 from rfl, l2, same, if_pos (by positivity)]
  · exact ⟨by decide, by decide, 1, rfl, .inr ⟨rfl, one_ne_zero⟩⟩
  · show haversineSqr (wholeLon 0) 0 (wholeLon 2) 0 = 0
    rw [l0, l2, C87_distance, same, mul_zero]
  · rw [row_screened rfl rfl (ht 0 0) (ht 0 1) (ht 0 2) ?_ ?_, hd]
    · rw [hd]
      show _ < ((6371009 * Real.pi * (6371009 * Real.pi) * 2 : ℝ) : WithTop ℝ)
      rw [WithTop.coe_lt_coe]
      have : 0 < 6371009 * Real.pi * (6371009 * Real.pi) := by positivity
      linarith
    · rw [hd]
      exact le_refl _

end Verif.GreatCircle
