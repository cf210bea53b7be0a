import Verif.Boxes.Model

/-! # C75: comparing and combining grids -/

set_option linter.unusedSectionVars false

namespace Verif.Boxes

open Verif Verif.Nulls

namespace Spec

/-- The place of a point given in columns and rows. -/
def place (g : GeoBox) (u v : Rat) : Rat × Rat := (g.a * u + g.b * v + g.c, g.d * u + g.e * v + g.f)

/-- The centre of the cell in row `i` and column `j`. -/
def centre (g : GeoBox) (i j : Nat) : Rat × Rat := place g (j + 1 / 2) (i + 1 / 2)

/-- The point lies in a cell of the grid or on its border. -/
def Inside (g : GeoBox) (x y : Rat) : Prop := ∃ u v : Rat, 0 ≤ u ∧ u ≤ g.nx ∧ 0 ≤ v ∧ v ≤ g.ny ∧ place g u v = (x, y)

/-- The point lies within the bounds of the grid, widened by `m` in the east and the south. -/
def Within (m : Rat) (g : GeoBox) (x y : Rat) : Prop :=
  (∃ x' y', Inside g x' y' ∧ x' ≤ x) ∧ (∃ x' y', Inside g x' y' ∧ x ≤ x' + m) ∧ (∃ x' y', Inside g x' y' ∧ y ≤ y') ∧
  ∃ x' y', Inside g x' y' ∧ y' - m ≤ y

/-- The side of a pixel, the longer one. -/
def side (g : GeoBox) : Rat := max |g.a| |g.e|

/-- Square pixels of this side in rows from north to south, on the lattice through (x0, y0). -/
def Aligned (r x0 y0 : Rat) (crs : Nat) (g : GeoBox) : Prop :=
  g.crs = crs ∧ g.a = r ∧ g.e = -r ∧ g.b = 0 ∧ g.d = 0 ∧ 0 < g.nx ∧ 0 < g.ny ∧ ∃ k l : Int, g.c = x0 + k * r ∧ g.f = y0 - l * r

/-- The grids have a cell with this centre. -/
def HasCell (g : GeoBox) (p : Rat × Rat) : Prop := ∃ i j, i < g.ny ∧ j < g.nx ∧ centre g i j = p

end Spec

open Spec

theorem gridsClose_iff (g h : GeoBox) : gridsClose g h = true ↔ g.crs = h.crs ∧ g.ny = h.ny ∧ g.nx = h.nx ∧
    |g.a - h.a| ≤ side g / 1000 ∧ |g.b - h.b| ≤ side g / 1000 ∧ |g.c - h.c| ≤ side g / 1000 ∧ |g.d - h.d| ≤ side g / 1000 ∧
    |g.e - h.e| ≤ side g / 1000 ∧ |g.f - h.f| ≤ side g / 1000 := by
  have ht : pixelTolerance * max |g.a| |g.e| = side g / 1000 := by
    unfold pixelTolerance side
    ring
  unfold gridsClose
  rw [ht]
  split
  · next hc =>
    simp only [Bool.false_eq_true, false_iff]
    rintro ⟨h1, h2, h3, _⟩
    rcases hc with hc | hc | hc
    · exact hc h1
    · exact hc h2
    · exact hc h3
  · next hc =>
    simp only [not_or, not_not] at hc
    simp [GeoBox.affine, hc]

theorem side_nonneg (g : GeoBox) : 0 ≤ side g := le_max_of_le_left (abs_nonneg _)

/-- **C75, equal grids are the same**. -/
theorem C75_equal (g : GeoBox) (n : Nat) : allSame (List.replicate n g) = true := by
  have hs := side_nonneg g
  have hg : gridsClose g g = true := by
    rw [gridsClose_iff]
    have : |(0 : Rat)| ≤ side g / 1000 := by rw [abs_zero]; positivity
    refine ⟨rfl, rfl, rfl, ?_, ?_, ?_, ?_, ?_, ?_⟩ <;> rw [sub_self] <;> exact this
  cases n with
  | zero => rfl
  | succ n =>
    rw [List.replicate_succ]
    simp only [allSame, List.all_eq_true]
    intro h hh
    rw [List.eq_of_mem_replicate hh]
    exact hg

theorem shift_le {p q u v r s t : Rat} (m n : Nat) (hp : |p| ≤ t) (hq : |q| ≤ t) (hr : |r| ≤ t) (hu : 0 ≤ u) (hv : 0 ≤ v)
    (h1 : u + 1 / 2 ≤ m) (h2 : v + 1 / 2 ≤ n) (h : s = p * u + q * v + r) : |s| ≤ (m + n) * t := by
  have ht : 0 ≤ t := le_trans (abs_nonneg _) hp
  rw [h]
  calc |p * u + q * v + r| ≤ |p * u + q * v| + |r| := abs_add_le _ _
    _ ≤ |p * u| + |q * v| + |r| := by gcongr; exact abs_add_le _ _
    _ = |p| * u + |q| * v + |r| := by rw [abs_mul, abs_mul, abs_of_nonneg hu, abs_of_nonneg hv]
    _ ≤ t * u + t * v + t := by gcongr
    _ = (u + v + 1) * t := by ring
    _ ≤ (m + n) * t := mul_le_mul_of_nonneg_right (by linarith) ht

/-- **C75, grids taken for the same**: the CRS and shapes are equal, and corresponding cells are not further apart than a thousandth of a pixel's
longer side times the number of rows and columns. -/
theorem C75_same_partial {g h : GeoBox} {l : List GeoBox} (hs : allSame (g :: l) = true) (hm : h ∈ l) :
    g.crs = h.crs ∧ g.ny = h.ny ∧ g.nx = h.nx ∧ ∀ i j, i < g.ny → j < g.nx →
      |(centre g i j).1 - (centre h i j).1| ≤ (g.nx + g.ny) * (side g / 1000) ∧
      |(centre g i j).2 - (centre h i j).2| ≤ (g.nx + g.ny) * (side g / 1000) := by
  simp only [allSame, List.all_eq_true] at hs
  obtain ⟨h1, h2, h3, ha, hb, hc, hd, he, hf⟩ := (gridsClose_iff g h).mp (hs h hm)
  refine ⟨h1, h2, h3, fun i j hi hj => ?_⟩
  have hi' : (i : Rat) + 1 / 2 + 1 / 2 ≤ g.ny := by
    have : (i : Rat) + 1 ≤ g.ny := by exact_mod_cast hi
    linarith
  have hj' : (j : Rat) + 1 / 2 + 1 / 2 ≤ g.nx := by
    have : (j : Rat) + 1 ≤ g.nx := by exact_mod_cast hj
    linarith
  have hi0 : (0 : Rat) ≤ i + 1 / 2 := by positivity
  have hj0 : (0 : Rat) ≤ j + 1 / 2 := by positivity
  constructor
  · refine shift_le g.nx g.ny ha hb hc hj0 hi0 hj' hi' ?_
    simp only [centre, place]
    ring
  · refine shift_le g.nx g.ny hd he hf hj0 hi0 hj' hi' ?_
    simp only [centre, place]
    ring

/-! ### Bounds -/

theorem lin_bounds (a b c u v m n : Rat) (hu : 0 ≤ u) (hum : u ≤ m) (hv : 0 ≤ v) (hvn : v ≤ n) :
    min4 c (c + a * m) (c + b * n) (c + a * m + b * n) ≤ a * u + b * v + c ∧
      a * u + b * v + c ≤ max4 c (c + a * m) (c + b * n) (c + a * m + b * n) := by
  unfold min4 max4
  rcases le_total 0 a with ha | ha <;> rcases le_total 0 b with hb | hb
  · have h1 : 0 ≤ a * u := mul_nonneg ha hu
    have h2 : 0 ≤ b * v := mul_nonneg hb hv
    have h3 : a * u ≤ a * m := mul_le_mul_of_nonneg_left hum ha
    have h4 : b * v ≤ b * n := mul_le_mul_of_nonneg_left hvn hb
    exact ⟨(min_le_left _ _).trans ((min_le_left _ _).trans (by linarith)),
      le_trans (by linarith) ((le_max_right (c + b * n) _).trans (le_max_right _ _))⟩
  · have h1 : 0 ≤ a * u := mul_nonneg ha hu
    have h2 : b * v ≤ 0 := mul_nonpos_of_nonpos_of_nonneg hb hv
    have h3 : a * u ≤ a * m := mul_le_mul_of_nonneg_left hum ha
    have h4 : b * n ≤ b * v := mul_le_mul_of_nonpos_left hvn hb
    exact ⟨(min_le_right _ _).trans ((min_le_left _ _).trans (by linarith)),
      le_trans (by linarith) ((le_max_right c _).trans (le_max_left _ _))⟩
  · have h1 : a * u ≤ 0 := mul_nonpos_of_nonpos_of_nonneg ha hu
    have h2 : 0 ≤ b * v := mul_nonneg hb hv
    have h3 : a * m ≤ a * u := mul_le_mul_of_nonpos_left hum ha
    have h4 : b * v ≤ b * n := mul_le_mul_of_nonneg_left hvn hb
    exact ⟨(min_le_left _ _).trans ((min_le_right _ _).trans (by linarith)),
      le_trans (by linarith) ((le_max_left (c + b * n) _).trans (le_max_right _ _))⟩
  · have h1 : a * u ≤ 0 := mul_nonpos_of_nonpos_of_nonneg ha hu
    have h2 : b * v ≤ 0 := mul_nonpos_of_nonpos_of_nonneg hb hv
    have h3 : a * m ≤ a * u := mul_le_mul_of_nonpos_left hum ha
    have h4 : b * n ≤ b * v := mul_le_mul_of_nonpos_left hvn hb
    exact ⟨(min_le_right _ _).trans ((min_le_right _ _).trans (by linarith)),
      le_trans (by linarith) ((le_max_left c _).trans (le_max_left _ _))⟩

theorem inside_bounds {g : GeoBox} {x y : Rat} (h : Inside g x y) :
    g.bounds.left ≤ x ∧ x ≤ g.bounds.right ∧ g.bounds.bottom ≤ y ∧ y ≤ g.bounds.top := by
  obtain ⟨u, v, h1, h2, h3, h4, h5⟩ := h
  rw [place, Prod.mk.injEq] at h5
  rw [← h5.1, ← h5.2]
  have hx := lin_bounds g.a g.b g.c u v g.nx g.ny h1 h2 h3 h4
  have hy := lin_bounds g.d g.e g.f u v g.nx g.ny h1 h2 h3 h4
  exact ⟨hx.1, hx.2, hy.1, hy.2⟩

theorem min4_mem (p q r s : Rat) : min4 p q r s = p ∨ min4 p q r s = q ∨ min4 p q r s = r ∨ min4 p q r s = s := by
  unfold min4
  rcases min_choice (min p q) (min r s) with h | h <;> rw [h]
  · rcases min_choice p q with h | h <;> simp [h]
  · rcases min_choice r s with h | h <;> simp [h]

theorem max4_mem (p q r s : Rat) : max4 p q r s = p ∨ max4 p q r s = q ∨ max4 p q r s = r ∨ max4 p q r s = s := by
  unfold max4
  rcases max_choice (max p q) (max r s) with h | h <;> rw [h]
  · rcases max_choice p q with h | h <;> simp [h]
  · rcases max_choice r s with h | h <;> simp [h]

/-- Corners are inside. -/
theorem corner (g : GeoBox) (s t : Bool) :
    Inside g (g.a * (if s then (g.nx : Rat) else 0) + g.b * (if t then (g.ny : Rat) else 0) + g.c)
      (g.d * (if s then (g.nx : Rat) else 0) + g.e * (if t then (g.ny : Rat) else 0) + g.f) := by
  refine ⟨_, _, ?_, ?_, ?_, ?_, rfl⟩ <;> split <;> simp

/-- Each of the sides is reached by a point of the grid. -/
theorem bounds_reached (g : GeoBox) : (∃ y, Inside g g.bounds.left y) ∧ (∃ y, Inside g g.bounds.right y) ∧
    (∃ x, Inside g x g.bounds.bottom) ∧ ∃ x, Inside g x g.bounds.top := by
  have h1 := corner g false false
  have h2 := corner g true false
  have h3 := corner g false true
  have h4 := corner g true true
  simp only [Bool.false_eq_true, if_false, if_true, mul_zero, zero_add, add_zero] at h1 h2 h3 h4
  rw [show g.a * (g.nx : Rat) + g.c = g.c + g.a * g.nx by ring, show g.d * (g.nx : Rat) + g.f = g.f + g.d * g.nx by ring] at h2
  rw [show g.b * (g.ny : Rat) + g.c = g.c + g.b * g.ny by ring, show g.e * (g.ny : Rat) + g.f = g.f + g.e * g.ny by ring] at h3
  rw [show g.a * (g.nx : Rat) + g.b * g.ny + g.c = g.c + g.a * g.nx + g.b * g.ny by ring,
    show g.d * (g.nx : Rat) + g.e * g.ny + g.f = g.f + g.d * g.nx + g.e * g.ny by ring] at h4
  refine ⟨?_, ?_, ?_, ?_⟩
  · rcases min4_mem g.c (g.c + g.a * g.nx) (g.c + g.b * g.ny) (g.c + g.a * g.nx + g.b * g.ny) with h | h | h | h <;>
      simp only [GeoBox.bounds, h]
    exacts [⟨_, h1⟩, ⟨_, h2⟩, ⟨_, h3⟩, ⟨_, h4⟩]
  · rcases max4_mem g.c (g.c + g.a * g.nx) (g.c + g.b * g.ny) (g.c + g.a * g.nx + g.b * g.ny) with h | h | h | h <;>
      simp only [GeoBox.bounds, h]
    exacts [⟨_, h1⟩, ⟨_, h2⟩, ⟨_, h3⟩, ⟨_, h4⟩]
  · rcases min4_mem g.f (g.f + g.d * g.nx) (g.f + g.e * g.ny) (g.f + g.d * g.nx + g.e * g.ny) with h | h | h | h <;>
      simp only [GeoBox.bounds, h]
    exacts [⟨_, h1⟩, ⟨_, h2⟩, ⟨_, h3⟩, ⟨_, h4⟩]
  · rcases max4_mem g.f (g.f + g.d * g.nx) (g.f + g.e * g.ny) (g.f + g.d * g.nx + g.e * g.ny) with h | h | h | h <;>
      simp only [GeoBox.bounds, h]
    exacts [⟨_, h1⟩, ⟨_, h2⟩, ⟨_, h3⟩, ⟨_, h4⟩]

theorem bounds_order (g : GeoBox) : g.bounds.left ≤ g.bounds.right ∧ g.bounds.bottom ≤ g.bounds.top := by
  obtain ⟨y, hy⟩ := (bounds_reached g).1
  obtain ⟨x, hx⟩ := (bounds_reached g).2.2.1
  exact ⟨(inside_bounds hy).2.1, (inside_bounds hx).2.2.2⟩

theorem within_iff (m : Rat) (g : GeoBox) (x y : Rat) :
    Within m g x y ↔ g.bounds.left ≤ x ∧ x ≤ g.bounds.right + m ∧ g.bounds.bottom - m ≤ y ∧ y ≤ g.bounds.top := by
  obtain ⟨⟨p1, q1⟩, ⟨p2, q2⟩, ⟨p3, q3⟩, p4, q4⟩ := bounds_reached g
  constructor
  · rintro ⟨⟨a1, b1, i1, h1⟩, ⟨a2, b2, i2, h2⟩, ⟨a3, b3, i3, h3⟩, a4, b4, i4, h4⟩
    have j1 := (inside_bounds i1).1
    have j2 := (inside_bounds i2).2.1
    have j3 := (inside_bounds i3).2.2.2
    have j4 := (inside_bounds i4).2.2.1
    exact ⟨by linarith, by linarith, by linarith, by linarith⟩
  · rintro ⟨h1, h2, h3, h4⟩
    exact ⟨⟨_, _, q1, h1⟩, ⟨_, _, q2, h2⟩, ⟨_, _, q4, h4⟩, ⟨_, _, q3, h3⟩⟩

theorem pixels_bounds {q : Rat} (hq : 0 ≤ q) : q - 1 / 100 < pixels q ∧ (pixels q : Rat) ≤ q + 1 ∧ 1 ≤ pixels q := by
  have h1 : 1 ≤ pixels q := le_max_left _ _
  have hz : ∀ z : Int, 0 ≤ z → ((z.toNat : Nat) : Rat) = z := by
    intro z hz
    have : ((z.toNat : Int) : Rat) = (z : Rat) := by rw [Int.toNat_of_nonneg hz]
    exact_mod_cast this
  have h0 : |q - round q| < 1 / 100 → (0 : Int) ≤ round q := by
    intro hr
    rw [abs_lt] at hr
    by_contra hn
    have : (round q : Rat) ≤ -1 := by exact_mod_cast (by omega : round q ≤ -1)
    linarith [hr.2]
  have hc : (0 : Int) ≤ ⌈q⌉ := Int.ceil_nonneg hq
  refine ⟨?_, ?_, h1⟩
  · unfold pixels
    rw [Nat.cast_max]
    refine lt_of_lt_of_le ?_ (le_max_right _ _)
    split
    · next hr =>
      rw [hz _ (h0 hr)]
      linarith [(abs_lt.mp hr).2]
    · rw [hz _ hc]
      linarith [Int.le_ceil q]
  · unfold pixels
    rw [Nat.cast_max]
    refine max_le (by push_cast; linarith) ?_
    split
    · next hr =>
      rw [hz _ (h0 hr)]
      linarith [(abs_lt.mp hr).1]
    · rw [hz _ hc]
      linarith [Int.ceil_lt_add_one q]

theorem pixels_nat (n : Nat) : pixels (n : Rat) = max 1 n := by
  unfold pixels
  rw [if_pos (by simp)]
  simp

theorem fromBbox_bounds (b : Bounds) (crs : Nat) {res : Rat} (hr : 0 < res) :
    (fromBbox b crs res).bounds = ⟨b.left, b.top - res * pixels ((b.top - b.bottom) / res), b.left + res * pixels ((b.right - b.left) / res), b.top⟩ := by
  have h1 : (0 : Rat) ≤ res * pixels ((b.top - b.bottom) / res) := by positivity
  have h2 : (0 : Rat) ≤ res * pixels ((b.right - b.left) / res) := by positivity
  simp only [fromBbox, GeoBox.bounds, min4, max4, zero_mul, add_zero, neg_mul, Bounds.mk.injEq]
  refine ⟨?_, ?_, ?_, ?_⟩
  · rw [min_self, min_eq_left]; simpa using h2
  · rw [min_self, min_self, min_eq_right (by linarith)]; ring
  · rw [max_self, max_eq_right (by linarith)]
  · rw [max_self, max_self, max_eq_left (by linarith)]

/-- The sides of a grid made from bounds. -/
theorem fromBbox_sides {b : Bounds} (crs : Nat) {res : Rat} (hr : 0 < res) (hx : b.left ≤ b.right) (hy : b.bottom ≤ b.top) :
    (fromBbox b crs res).bounds.left = b.left ∧ (fromBbox b crs res).bounds.top = b.top ∧
    b.right - res / 100 < (fromBbox b crs res).bounds.right ∧ (fromBbox b crs res).bounds.right ≤ b.right + res ∧
    (fromBbox b crs res).bounds.bottom < b.bottom + res / 100 ∧ b.bottom - res ≤ (fromBbox b crs res).bounds.bottom := by
  rw [fromBbox_bounds b crs hr]
  have hqx : 0 ≤ (b.right - b.left) / res := div_nonneg (by linarith) hr.le
  have hqy : 0 ≤ (b.top - b.bottom) / res := div_nonneg (by linarith) hr.le
  obtain ⟨x1, x2, _⟩ := pixels_bounds hqx
  obtain ⟨y1, y2, _⟩ := pixels_bounds hqy
  have ex : (b.right - b.left) / res * res = b.right - b.left := div_mul_cancel₀ _ hr.ne'
  have ey : (b.top - b.bottom) / res * res = b.top - b.bottom := div_mul_cancel₀ _ hr.ne'
  have x3 := mul_lt_mul_of_pos_right x1 hr
  have x4 := mul_le_mul_of_nonneg_right x2 hr.le
  have y3 := mul_lt_mul_of_pos_right y1 hr
  have y4 := mul_le_mul_of_nonneg_right y2 hr.le
  rw [sub_mul, ex] at x3
  rw [add_mul, ex] at x4
  rw [sub_mul, ey] at y3
  rw [add_mul, ey] at y4
  refine ⟨rfl, rfl, ?_, ?_, ?_, ?_⟩ <;> simp only <;> linarith

/-- Every point within the bounds of a grid made from bounds is inside. -/
theorem fromBbox_inside {b : Bounds} (crs : Nat) {res : Rat} (hr : 0 < res) {x y : Rat}
    (h : (fromBbox b crs res).bounds.left ≤ x ∧ x ≤ (fromBbox b crs res).bounds.right ∧ (fromBbox b crs res).bounds.bottom ≤ y ∧
      y ≤ (fromBbox b crs res).bounds.top) : Inside (fromBbox b crs res) x y := by
  rw [fromBbox_bounds b crs hr] at h
  obtain ⟨h1, h2, h3, h4⟩ := h
  simp only at h1 h2 h3 h4
  refine ⟨(x - b.left) / res, (b.top - y) / res, div_nonneg (by linarith) hr.le, ?_, div_nonneg (by linarith) hr.le, ?_, ?_⟩
  · rw [div_le_iff₀ hr]
    simp only [fromBbox]
    linarith
  · rw [div_le_iff₀ hr]
    simp only [fromBbox]
    linarith
  · have h5 : res * ((x - b.left) / res) = x - b.left := mul_div_cancel₀ _ hr.ne'
    have h6 : res * ((b.top - y) / res) = b.top - y := mul_div_cancel₀ _ hr.ne'
    simp only [place, fromBbox, Prod.mk.injEq]
    constructor
    · rw [h5]; ring
    · rw [neg_mul, h6]; ring

/-- What merged bounds are made of. -/
structure Merges (le : Rat → Rat → Prop) (l : List Bounds) (u : Bounds) : Prop where
  left : ∃ p ∈ l, u.left = p.left
  bottom : ∃ p ∈ l, u.bottom = p.bottom
  right : ∃ p ∈ l, u.right = p.right
  top : ∃ p ∈ l, u.top = p.top
  left_le : ∀ p ∈ l, le u.left p.left
  bottom_le : ∀ p ∈ l, le u.bottom p.bottom
  right_le : ∀ p ∈ l, le p.right u.right
  top_le : ∀ p ∈ l, le p.top u.top

theorem merges_union (b : Bounds) (bs : List Bounds) : Merges (· ≤ ·) (b :: bs) (bs.foldl Bounds.union b) := by
  induction bs generalizing b with
  | nil => exact ⟨⟨b, by simp⟩, ⟨b, by simp⟩, ⟨b, by simp⟩, ⟨b, by simp⟩, by simp, by simp, by simp, by simp⟩
  | cons c bs ih =>
    obtain ⟨h1, h2, h3, h4, h5, h6, h7, h8⟩ := ih (b.union c)
    rw [List.foldl_cons]
    have hsub : ∀ {P : Bounds → Prop}, (∃ p ∈ b.union c :: bs, P p) → P (b.union c) ∨ ∃ p ∈ bs, P p := by
      intro P h
      simpa using h
    simp only [List.forall_mem_cons] at h5 h6 h7 h8
    refine ⟨?_, ?_, ?_, ?_, ?_, ?_, ?_, ?_⟩
    · rcases hsub h1 with h | ⟨p, hp, h⟩
      · rw [h]
        rcases min_choice b.left c.left with h | h
        · exact ⟨b, by simp, h⟩
        · exact ⟨c, by simp, h⟩
      · exact ⟨p, by simp [hp], h⟩
    · rcases hsub h2 with h | ⟨p, hp, h⟩
      · rw [h]
        rcases min_choice b.bottom c.bottom with h | h
        · exact ⟨b, by simp, h⟩
        · exact ⟨c, by simp, h⟩
      · exact ⟨p, by simp [hp], h⟩
    · rcases hsub h3 with h | ⟨p, hp, h⟩
      · rw [h]
        rcases max_choice b.right c.right with h | h
        · exact ⟨b, by simp, h⟩
        · exact ⟨c, by simp, h⟩
      · exact ⟨p, by simp [hp], h⟩
    · rcases hsub h4 with h | ⟨p, hp, h⟩
      · rw [h]
        rcases max_choice b.top c.top with h | h
        · exact ⟨b, by simp, h⟩
        · exact ⟨c, by simp, h⟩
      · exact ⟨p, by simp [hp], h⟩
    · simp only [List.forall_mem_cons]
      exact ⟨h5.1.trans (min_le_left _ _), h5.1.trans (min_le_right _ _), h5.2⟩
    · simp only [List.forall_mem_cons]
      exact ⟨h6.1.trans (min_le_left _ _), h6.1.trans (min_le_right _ _), h6.2⟩
    · simp only [List.forall_mem_cons]
      exact ⟨(le_max_left _ _).trans h7.1, (le_max_right _ _).trans h7.1, h7.2⟩
    · simp only [List.forall_mem_cons]
      exact ⟨(le_max_left _ _).trans h8.1, (le_max_right _ _).trans h8.1, h8.2⟩

theorem merges_inter (b : Bounds) (bs : List Bounds) : Merges (· ≥ ·) (b :: bs) (bs.foldl Bounds.inter b) := by
  induction bs generalizing b with
  | nil => exact ⟨⟨b, by simp⟩, ⟨b, by simp⟩, ⟨b, by simp⟩, ⟨b, by simp⟩, by simp, by simp, by simp, by simp⟩
  | cons c bs ih =>
    obtain ⟨h1, h2, h3, h4, h5, h6, h7, h8⟩ := ih (b.inter c)
    rw [List.foldl_cons]
    have hsub : ∀ {P : Bounds → Prop}, (∃ p ∈ b.inter c :: bs, P p) → P (b.inter c) ∨ ∃ p ∈ bs, P p := by
      intro P h
      simpa using h
    simp only [List.forall_mem_cons] at h5 h6 h7 h8
    refine ⟨?_, ?_, ?_, ?_, ?_, ?_, ?_, ?_⟩
    · rcases hsub h1 with h | ⟨p, hp, h⟩
      · rw [h]
        rcases max_choice b.left c.left with h | h
        · exact ⟨b, by simp, h⟩
        · exact ⟨c, by simp, h⟩
      · exact ⟨p, by simp [hp], h⟩
    · rcases hsub h2 with h | ⟨p, hp, h⟩
      · rw [h]
        rcases max_choice b.bottom c.bottom with h | h
        · exact ⟨b, by simp, h⟩
        · exact ⟨c, by simp, h⟩
      · exact ⟨p, by simp [hp], h⟩
    · rcases hsub h3 with h | ⟨p, hp, h⟩
      · rw [h]
        rcases min_choice b.right c.right with h | h
        · exact ⟨b, by simp, h⟩
        · exact ⟨c, by simp, h⟩
      · exact ⟨p, by simp [hp], h⟩
    · rcases hsub h4 with h | ⟨p, hp, h⟩
      · rw [h]
        rcases min_choice b.top c.top with h | h
        · exact ⟨b, by simp, h⟩
        · exact ⟨c, by simp, h⟩
      · exact ⟨p, by simp [hp], h⟩
    · simp only [List.forall_mem_cons]
      exact ⟨ge_trans h5.1 (le_max_left _ _), ge_trans h5.1 (le_max_right _ _), h5.2⟩
    · simp only [List.forall_mem_cons]
      exact ⟨ge_trans h6.1 (le_max_left _ _), ge_trans h6.1 (le_max_right _ _), h6.2⟩
    · simp only [List.forall_mem_cons]
      exact ⟨ge_trans (min_le_left _ _) h7.1, ge_trans (min_le_right _ _) h7.1, h7.2⟩
    · simp only [List.forall_mem_cons]
      exact ⟨ge_trans (min_le_left _ _) h8.1, ge_trans (min_le_right _ _) h8.1, h8.2⟩

/-! ### Combining -/

theorem sequence_map (k : GeoBox → GeoBox) (l : List GeoBox) : sequence (l.map fun h => .ok (k h)) = .ok (l.map k) := by
  induction l with
  | nil => rfl
  | cons h l ih => simp only [List.map_cons, sequence, ih]

/-- What `combine_grids` does with grids that are not all the same. -/
theorem combine_distinct {toCrs : Nat → GeoBox → GeoBox} {how : How} {dstCrs : Option Nat} {resolution : Option Rat} {g : GeoBox}
    {gs : List GeoBox} (hs : allSame (g :: gs) = false) (hr : 0 < resolution.getD |g.a|) :
    combine toCrs (some how) dstCrs resolution (g :: gs) = finish how (dstCrs.getD g.crs) (resolution.getD |g.a|)
      ((g :: gs).map fun h => fromBbox (toCrs (dstCrs.getD g.crs) h).bounds (dstCrs.getD g.crs) (resolution.getD |g.a|)) := by
  simp only [combine, hs, Bool.false_eq_true, if_false]
  have hf : (fun h => reprojectGrid toCrs h (dstCrs.getD g.crs) (some (resolution.getD |g.a|))) =
      fun h => .ok (fromBbox (toCrs (dstCrs.getD g.crs) h).bounds (dstCrs.getD g.crs) (resolution.getD |g.a|)) := by
    funext h
    simp only [reprojectGrid]
    rw [if_neg (not_le.mpr hr)]
  rw [hf, sequence_map]

theorem finish_union (crs : Nat) (res : Rat) (g : GeoBox) (gs : List GeoBox) :
    finish .union crs res (g :: gs) = .ok (fromBbox (mergeBounds .union g.bounds (gs.map GeoBox.bounds)) crs res) := by
  simp [finish]

/-- **C75, the union** covers every grid (after the change of the CRS) up to a fiftieth of a pixel, and its sides are those of some grid, but for
less than two pixels in the south and the east.  Its pixels are squares of the given side, or of the first grid's pixels' width. -/
theorem C75_union {toCrs : Nat → GeoBox → GeoBox} {dstCrs : Option Nat} {resolution : Option Rat} {g : GeoBox} {gs : List GeoBox} {r : Rat}
    {crs : Nat} (hs : allSame (g :: gs) = false) (hcrs : dstCrs.getD g.crs = crs) (hres : resolution.getD |g.a| = r) (hr : 0 < r) :
    ∃ out, combine toCrs (some .union) dstCrs resolution (g :: gs) = .ok out ∧ out.crs = crs ∧
      (out.a, out.b, out.d, out.e) = (r, 0, 0, -r) ∧
      (∀ h ∈ g :: gs, ∀ x y, Inside (toCrs crs h) x y → ∃ x' y', Inside out x' y' ∧ |x - x'| ≤ r / 50 ∧ |y - y'| ≤ r / 50) ∧
      ∀ x y, Inside out x y →
        (∃ h ∈ g :: gs, ∃ x' y', Inside (toCrs crs h) x' y' ∧ x' ≤ x) ∧ (∃ h ∈ g :: gs, ∃ x' y', Inside (toCrs crs h) x' y' ∧ x ≤ x' + 2 * r) ∧
        (∃ h ∈ g :: gs, ∃ x' y', Inside (toCrs crs h) x' y' ∧ y ≤ y') ∧ ∃ h ∈ g :: gs, ∃ x' y', Inside (toCrs crs h) x' y' ∧ y' - 2 * r ≤ y := by
  rw [combine_distinct hs (hres ▸ hr), hcrs, hres, List.map_cons, finish_union]
  simp only [mergeBounds]
  set z := fun h => (fromBbox (toCrs crs h).bounds crs r).bounds with hz
  have hmap : (List.map (fun h => fromBbox (toCrs crs h).bounds crs r) gs).map GeoBox.bounds = gs.map z := by rw [List.map_map]; rfl
  rw [hmap]
  have hm := merges_union (z g) (gs.map z)
  rw [← List.map_cons] at hm
  set u := List.foldl Bounds.union (z g) (gs.map z) with hu
  have hsides : ∀ h, _ := fun h => fromBbox_sides (b := (toCrs crs h).bounds) crs hr (bounds_order _).1 (bounds_order _).2
  have hmem : ∀ {P : Bounds → Prop}, (∃ p ∈ (g :: gs).map z, P p) → ∃ h ∈ g :: gs, P (z h) := by
    rintro P ⟨p, hp, h⟩
    obtain ⟨k, hk, rfl⟩ := List.mem_map.mp hp
    exact ⟨k, hk, h⟩
  have hux : u.left ≤ u.right := by
    have h1 := hm.left_le (z g) (by simp)
    have h2 := hm.right_le (z g) (by simp)
    have h3 := (bounds_order (fromBbox (toCrs crs g).bounds crs r)).1
    exact h1.trans (h3.trans h2)
  have huy : u.bottom ≤ u.top := by
    have h1 := hm.bottom_le (z g) (by simp)
    have h2 := hm.top_le (z g) (by simp)
    have h3 := (bounds_order (fromBbox (toCrs crs g).bounds crs r)).2
    exact h1.trans (h3.trans h2)
  obtain ⟨o1, o2, o3, o4, o5, o6⟩ := fromBbox_sides (b := u) crs hr hux huy
  refine ⟨_, rfl, rfl, rfl, ?_, ?_⟩
  · intro h hh x y hin
    obtain ⟨i1, i2, i3, i4⟩ := inside_bounds hin
    obtain ⟨s1, s2, s3, s4, s5, s6⟩ := hsides h
    have hmz : z h ∈ (g :: gs).map z := List.mem_map.mpr ⟨h, hh, rfl⟩
    have m1 := hm.left_le _ hmz
    have m2 := hm.bottom_le _ hmz
    have m3 := hm.right_le _ hmz
    have m4 := hm.top_le _ hmz
    simp only [hz] at m1 m2 m3 m4
    rw [s1] at m1
    rw [s2] at m4
    refine ⟨min x (fromBbox u crs r).bounds.right, max y (fromBbox u crs r).bounds.bottom, fromBbox_inside crs hr ⟨?_, ?_, ?_, ?_⟩, ?_, ?_⟩
    · rw [o1]
      exact le_min (m1.trans i1) (by have := (bounds_order (fromBbox u crs r)).1; rw [o1] at this; exact this)
    · exact min_le_right _ _
    · exact le_max_right _ _
    · exact max_le (by rw [o2]; exact i4.trans m4) (bounds_order _).2
    · rw [abs_of_nonneg (by have := min_le_left x (fromBbox u crs r).bounds.right; linarith)]
      rcases min_choice x (fromBbox u crs r).bounds.right with k | k <;> rw [k]
      · simp only [sub_self]; positivity
      · linarith
    · rw [abs_of_nonpos (by have := le_max_left y (fromBbox u crs r).bounds.bottom; linarith)]
      rcases max_choice y (fromBbox u crs r).bounds.bottom with k | k <;> rw [k]
      · simp only [sub_self, neg_zero]; positivity
      · linarith
  · intro x y hin
    obtain ⟨i1, i2, i3, i4⟩ := inside_bounds hin
    refine ⟨?_, ?_, ?_, ?_⟩
    · obtain ⟨h, hh, e⟩ := hmem hm.left
      obtain ⟨y', hy'⟩ := (bounds_reached (toCrs crs h)).1
      refine ⟨h, hh, _, y', hy', ?_⟩
      have := (hsides h).1
      simp only [hz] at e
      rw [o1, e, this] at i1
      exact i1
    · obtain ⟨h, hh, e⟩ := hmem hm.right
      obtain ⟨y', hy'⟩ := (bounds_reached (toCrs crs h)).2.1
      refine ⟨h, hh, _, y', hy', ?_⟩
      have := (hsides h).2.2.2.1
      simp only [hz] at e
      rw [e] at o4
      linarith
    · obtain ⟨h, hh, e⟩ := hmem hm.top
      obtain ⟨x', hx'⟩ := (bounds_reached (toCrs crs h)).2.2.2
      refine ⟨h, hh, x', _, hx', ?_⟩
      have := (hsides h).2.1
      simp only [hz] at e
      rw [o2, e, this] at i4
      exact i4
    · obtain ⟨h, hh, e⟩ := hmem hm.bottom
      obtain ⟨x', hx'⟩ := (bounds_reached (toCrs crs h)).2.2.1
      refine ⟨h, hh, x', _, hx', ?_⟩
      have := (hsides h).2.2.2.2.2
      simp only [hz] at e
      rw [e] at o6
      linarith

/-- **C75, the intersection** has every point that all the grids have, up to a fiftieth of a pixel, and its points are less than two pixels
beyond each of the grids, in the south and the east only. -/
theorem C75_intersection_partial {toCrs : Nat → GeoBox → GeoBox} {dstCrs : Option Nat} {resolution : Option Rat} {g : GeoBox} {gs : List GeoBox}
    {r : Rat} {crs : Nat} {out : GeoBox} (hs : allSame (g :: gs) = false) (hcrs : dstCrs.getD g.crs = crs) (hres : resolution.getD |g.a| = r)
    (hr : 0 < r) (h : combine toCrs (some .intersection) dstCrs resolution (g :: gs) = .ok out) :
    out.crs = crs ∧ (out.a, out.b, out.d, out.e) = (r, 0, 0, -r) ∧
      (∀ x y, (∀ h ∈ g :: gs, Within 0 (toCrs crs h) x y) → ∃ x' y', Inside out x' y' ∧ |x - x'| ≤ r / 50 ∧ |y - y'| ≤ r / 50) ∧
      ∀ x y, Inside out x y → ∀ h ∈ g :: gs, Within (2 * r) (toCrs crs h) x y := by
  rw [combine_distinct hs (hres ▸ hr), hcrs, hres] at h
  simp only [List.map_cons, finish, mergeBounds] at h
  set z := fun h => (fromBbox (toCrs crs h).bounds crs r).bounds with hz
  have hmap : (List.map (fun h => fromBbox (toCrs crs h).bounds crs r) gs).map GeoBox.bounds = gs.map z := by rw [List.map_map]; rfl
  rw [hmap] at h
  have hm := merges_inter (z g) (gs.map z)
  rw [← List.map_cons] at hm
  set u := List.foldl Bounds.inter (z g) (gs.map z) with hu
  have hsides : ∀ h, _ := fun h => fromBbox_sides (b := (toCrs crs h).bounds) crs hr (bounds_order _).1 (bounds_order _).2
  split at h
  · cases h
  · next hne =>
    cases h
    simp only [decide_true, Bool.true_and, Bounds.isEmpty, decide_eq_true_eq, not_or, not_lt] at hne
    obtain ⟨hux, huy⟩ := hne
    obtain ⟨o1, o2, o3, o4, o5, o6⟩ := fromBbox_sides (b := u) crs hr hux huy
    have hmem : ∀ {P : Bounds → Prop}, (∃ p ∈ (g :: gs).map z, P p) → ∃ h ∈ g :: gs, P (z h) := by
      rintro P ⟨p, hp, h⟩
      obtain ⟨k, hk, rfl⟩ := List.mem_map.mp hp
      exact ⟨k, hk, h⟩
    refine ⟨rfl, rfl, ?_, ?_⟩
    · intro x y hin
      replace hin := fun h hh => (within_iff _ _ _ _).mp (hin h hh)
      simp only [add_zero, sub_zero] at hin
      have m1 : u.left ≤ x := by
        obtain ⟨h, hh, e⟩ := hmem hm.left
        simp only [hz] at e
        rw [e, (hsides h).1]
        exact (hin h hh).1
      have m2 : u.bottom ≤ y + r / 100 := by
        obtain ⟨h, hh, e⟩ := hmem hm.bottom
        simp only [hz] at e
        rw [e]
        linarith [(hsides h).2.2.2.2.1, (hin h hh).2.2.1]
      have m3 : x ≤ u.right + r / 100 := by
        obtain ⟨h, hh, e⟩ := hmem hm.right
        simp only [hz] at e
        rw [e]
        linarith [(hsides h).2.2.1, (hin h hh).2.1]
      have m4 : y ≤ u.top := by
        obtain ⟨h, hh, e⟩ := hmem hm.top
        simp only [hz] at e
        rw [e, (hsides h).2.1]
        exact (hin h hh).2.2.2
      refine ⟨min x (fromBbox u crs r).bounds.right, max y (fromBbox u crs r).bounds.bottom, fromBbox_inside crs hr ⟨?_, ?_, ?_, ?_⟩, ?_, ?_⟩
      · exact le_min (by rw [o1]; exact m1) (bounds_order _).1
      · exact min_le_right _ _
      · exact le_max_right _ _
      · exact max_le (by rw [o2]; exact m4) (bounds_order _).2
      · rw [abs_of_nonneg (by have := min_le_left x (fromBbox u crs r).bounds.right; linarith)]
        rcases min_choice x (fromBbox u crs r).bounds.right with k | k <;> rw [k]
        · simp only [sub_self]; positivity
        · linarith
      · rw [abs_of_nonpos (by have := le_max_left y (fromBbox u crs r).bounds.bottom; linarith)]
        rcases max_choice y (fromBbox u crs r).bounds.bottom with k | k <;> rw [k]
        · simp only [sub_self, neg_zero]; positivity
        · linarith
    · intro x y hin h hh
      obtain ⟨i1, i2, i3, i4⟩ := inside_bounds hin
      obtain ⟨s1, s2, s3, s4, s5, s6⟩ := hsides h
      have hmz : z h ∈ (g :: gs).map z := List.mem_map.mpr ⟨h, hh, rfl⟩
      have m1 := hm.left_le _ hmz
      have m2 := hm.bottom_le _ hmz
      have m3 := hm.right_le _ hmz
      have m4 := hm.top_le _ hmz
      simp only [hz] at m1 m2 m3 m4
      obtain ⟨⟨p1, q1⟩, ⟨p2, q2⟩, ⟨p3, q3⟩, p4, q4⟩ := bounds_reached (toCrs crs h)
      refine ⟨⟨_, _, q1, ?_⟩, ⟨_, _, q2, ?_⟩, ⟨_, _, q4, ?_⟩, ⟨_, _, q3, ?_⟩⟩
      · rw [o1] at i1
        rw [s1] at m1
        exact le_trans m1 i1
      · have : u.right ≤ (fromBbox (toCrs crs h).bounds crs r).bounds.right := m3
        linarith
      · rw [o2] at i4
        rw [s2] at m4
        exact le_trans i4 m4
      · have : (fromBbox (toCrs crs h).bounds crs r).bounds.bottom ≤ u.bottom := m2
        linarith

/-- **C75, which intersections are accepted**: an accepted one has a point that is less than a pixel beyond each grid; for a rejected one
no point is further inside of all grids than a hundredth of a pixel. -/
theorem C75_intersection_accepted {toCrs : Nat → GeoBox → GeoBox} {dstCrs : Option Nat} {resolution : Option Rat} {g : GeoBox}
    {gs : List GeoBox} {r : Rat} {crs : Nat} (hs : allSame (g :: gs) = false) (hcrs : dstCrs.getD g.crs = crs)
    (hres : resolution.getD |g.a| = r) (hr : 0 < r) :
    (∀ out, combine toCrs (some .intersection) dstCrs resolution (g :: gs) = .ok out →
      ∃ x y, ∀ h ∈ g :: gs, Within r (toCrs crs h) x y) ∧
    ∀ e, combine toCrs (some .intersection) dstCrs resolution (g :: gs) = .error e →
      e = .value ∧ ¬ ∃ x y, ∀ h ∈ g :: gs, Within (-(r / 100)) (toCrs crs h) x y := by
  rw [combine_distinct hs (hres ▸ hr), hcrs, hres]
  simp only [List.map_cons, finish, mergeBounds]
  set z := fun h => (fromBbox (toCrs crs h).bounds crs r).bounds with hz
  have hmap : (List.map (fun h => fromBbox (toCrs crs h).bounds crs r) gs).map GeoBox.bounds = gs.map z := by rw [List.map_map]; rfl
  rw [hmap]
  have hm := merges_inter (z g) (gs.map z)
  rw [← List.map_cons] at hm
  set u := List.foldl Bounds.inter (z g) (gs.map z) with hu
  have hsides : ∀ h, _ := fun h => fromBbox_sides (b := (toCrs crs h).bounds) crs hr (bounds_order _).1 (bounds_order _).2
  constructor
  · intro out h
    split at h
    · cases h
    · next hne =>
      simp only [decide_true, Bool.true_and, Bounds.isEmpty, decide_eq_true_eq, not_or, not_lt] at hne
      obtain ⟨hux, huy⟩ := hne
      refine ⟨u.left, u.top, fun h hh => (within_iff _ _ _ _).mpr ?_⟩
      obtain ⟨s1, s2, s3, s4, s5, s6⟩ := hsides h
      have hmz : z h ∈ (g :: gs).map z := List.mem_map.mpr ⟨h, hh, rfl⟩
      have m1 : (fromBbox (toCrs crs h).bounds crs r).bounds.left ≤ u.left := hm.left_le _ hmz
      have m2 : (fromBbox (toCrs crs h).bounds crs r).bounds.bottom ≤ u.bottom := hm.bottom_le _ hmz
      have m3 : u.right ≤ (fromBbox (toCrs crs h).bounds crs r).bounds.right := hm.right_le _ hmz
      have m4 : u.top ≤ (fromBbox (toCrs crs h).bounds crs r).bounds.top := hm.top_le _ hmz
      refine ⟨?_, ?_, ?_, ?_⟩ <;> linarith
  · intro e h
    split at h
    · next hne =>
      cases h
      refine ⟨rfl, ?_⟩
      rintro ⟨x, y, hin⟩
      replace hin := fun h hh => (within_iff _ _ _ _).mp (hin h hh)
      simp only [decide_true, Bool.true_and, Bounds.isEmpty, decide_eq_true_eq] at hne
      have hmem : ∀ {P : Bounds → Prop}, (∃ p ∈ (g :: gs).map z, P p) → ∃ h ∈ g :: gs, P (z h) := by
        rintro P ⟨p, hp, h⟩
        obtain ⟨k, hk, rfl⟩ := List.mem_map.mp hp
        exact ⟨k, hk, h⟩
      obtain ⟨h1, hh1, e1⟩ := hmem hm.left
      obtain ⟨h2, hh2, e2⟩ := hmem hm.bottom
      obtain ⟨h3, hh3, e3⟩ := hmem hm.right
      obtain ⟨h4, hh4, e4⟩ := hmem hm.top
      simp only [hz] at e1 e2 e3 e4
      rw [(hsides h1).1] at e1
      rw [(hsides h4).2.1] at e4
      have i1 := (hin h1 hh1).1
      have i2 := (hin h2 hh2).2.2.1
      have i3 := (hin h3 hh3).2.1
      have i4 := (hin h4 hh4).2.2.2
      have k2 := (hsides h2).2.2.2.2.1
      have k3 := (hsides h3).2.2.1
      rw [← e2] at k2
      rw [← e3] at k3
      rcases hne with hne | hne <;> linarith
    · cases h

/-! ### Aligned grids -/

theorem aligned_bounds {r x0 y0 : Rat} {crs : Nat} {g : GeoBox} (hr : 0 < r) (h : Aligned r x0 y0 crs g) :
    g.bounds = ⟨g.c, g.f - r * g.ny, g.c + r * g.nx, g.f⟩ := by
  obtain ⟨_, ha, he, hb, hd, _⟩ := h
  have h1 : (0 : Rat) ≤ r * g.ny := by positivity
  have h2 : (0 : Rat) ≤ r * g.nx := by positivity
  simp only [GeoBox.bounds, min4, max4, ha, hb, hd, he, zero_mul, add_zero, neg_mul, Bounds.mk.injEq]
  refine ⟨?_, ?_, ?_, ?_⟩
  · rw [min_self, min_eq_left (by linarith)]
  · rw [min_self, min_self, min_eq_right (by linarith)]; ring
  · rw [max_self, max_eq_right (by linarith)]
  · rw [max_self, max_self, max_eq_left (by linarith)]

/-- Bounds on the lattice give an aligned grid with these bounds. -/
theorem fromBbox_lattice {r x0 y0 : Rat} (crs : Nat) {u : Bounds} (hr : 0 < r) {K B R T : Int} (hK : u.left = x0 + K * r)
    (hB : u.bottom = y0 - B * r) (hR : u.right = x0 + R * r) (hT : u.top = y0 - T * r) (h1 : u.left < u.right) (h2 : u.bottom < u.top) :
    Aligned r x0 y0 crs (fromBbox u crs r) ∧ (fromBbox u crs r).bounds = u := by
  have hKR : K < R := by
    rw [hK, hR] at h1
    have : (K : Rat) * r < R * r := by linarith
    have := lt_of_mul_lt_mul_right this hr.le
    exact_mod_cast this
  have hTB : T < B := by
    rw [hB, hT] at h2
    have : (T : Rat) * r < B * r := by linarith
    have := lt_of_mul_lt_mul_right this hr.le
    exact_mod_cast this
  have e1 : (u.right - u.left) / r = (((R - K).toNat : Nat) : Rat) := by
    have : (((R - K).toNat : Nat) : Rat) = ((R - K : Int) : Rat) := by
      have h := Int.toNat_of_nonneg (a := R - K) (by omega)
      rw [← Int.cast_natCast, h]
    rw [this, hK, hR]
    push_cast
    field_simp
    ring
  have e2 : (u.top - u.bottom) / r = (((B - T).toNat : Nat) : Rat) := by
    have : (((B - T).toNat : Nat) : Rat) = ((B - T : Int) : Rat) := by
      have h := Int.toNat_of_nonneg (a := B - T) (by omega)
      rw [← Int.cast_natCast, h]
    rw [this, hB, hT]
    push_cast
    field_simp
    ring
  have p1 : pixels ((u.right - u.left) / r) = (R - K).toNat := by rw [e1, pixels_nat]; omega
  have p2 : pixels ((u.top - u.bottom) / r) = (B - T).toNat := by rw [e2, pixels_nat]; omega
  constructor
  · refine ⟨rfl, rfl, rfl, rfl, rfl, ?_, ?_, K, T, hK, hT⟩
    · simp only [fromBbox, p1]; omega
    · simp only [fromBbox, p2]; omega
  · rw [fromBbox_bounds u crs hr, p1, p2, ← e1, ← e2, mul_div_cancel₀ _ hr.ne', mul_div_cancel₀ _ hr.ne']
    cases u
    simp

theorem aligned_lattice {r x0 y0 : Rat} {crs : Nat} {g : GeoBox} (hr : 0 < r) (h : Aligned r x0 y0 crs g) :
    (∃ K : Int, g.bounds.left = x0 + K * r) ∧ (∃ B : Int, g.bounds.bottom = y0 - B * r) ∧ (∃ R : Int, g.bounds.right = x0 + R * r) ∧
    (∃ T : Int, g.bounds.top = y0 - T * r) ∧ g.bounds.left < g.bounds.right ∧ g.bounds.bottom < g.bounds.top := by
  rw [aligned_bounds hr h]
  obtain ⟨_, ha, he, hb, hd, hnx, hny, k, l, hk, hl⟩ := h
  have h1 : (0 : Rat) < r * g.ny := by positivity
  have h2 : (0 : Rat) < r * g.nx := by positivity
  refine ⟨⟨k, hk⟩, ⟨l + g.ny, ?_⟩, ⟨k + g.nx, ?_⟩, ⟨l, hl⟩, ?_, ?_⟩
  · simp only [hl]; push_cast; ring
  · simp only [hk]; push_cast; ring
  · simp only; linarith
  · simp only; linarith

theorem aligned_fix {r x0 y0 : Rat} {crs : Nat} {g : GeoBox} (hr : 0 < r) (h : Aligned r x0 y0 crs g) : fromBbox g.bounds crs r = g := by
  rw [aligned_bounds hr h]
  obtain ⟨h1, ha, he, hb, hd, hnx, hny, _⟩ := h
  have e1 : (g.c + r * g.nx - g.c) / r = (g.nx : Rat) := by field_simp; ring
  have e2 : (g.f - (g.f - r * g.ny)) / r = (g.ny : Rat) := by field_simp; ring
  simp only [fromBbox, e1, e2, pixels_nat]
  rw [Nat.max_eq_right hnx, Nat.max_eq_right hny]
  cases g
  simp_all

/-- Aligned grids that are taken for the same are equal. -/
theorem aligned_same {r x0 y0 : Rat} {crs : Nat} {g h : GeoBox} (hr : 0 < r) (hg : Aligned r x0 y0 crs g) (hh : Aligned r x0 y0 crs h)
    (hc : gridsClose g h = true) : h = g := by
  obtain ⟨c1, c2, c3, _, _, c6, _, _, c9⟩ := (gridsClose_iff g h).mp hc
  obtain ⟨h1, ha, he, hb, hd, _, _, k, l, hk, hl⟩ := hg
  obtain ⟨h1', ha', he', hb', hd', _, _, k', l', hk', hl'⟩ := hh
  have hside : side g = r := by
    unfold side
    rw [ha, he, abs_neg, max_self, abs_of_pos hr]
  rw [hside] at c6 c9
  have key : ∀ m : Int, |(m : Rat) * r| ≤ r / 1000 → m = 0 := by
    intro m hm
    by_contra h0
    have : (1 : Rat) ≤ |(m : Rat)| := by
      have : (1 : Int) ≤ |m| := Int.one_le_abs h0
      exact_mod_cast this
    rw [abs_mul, abs_of_pos hr] at hm
    have := mul_le_mul_of_nonneg_right this hr.le
    linarith
  have k1 := key (k - k') (by
    rw [hk, hk'] at c6
    push_cast
    rw [show (((k : Rat) - k') * r) = x0 + k * r - (x0 + k' * r) by ring]
    exact c6)
  have l1 := key (l' - l) (by
    rw [hl, hl'] at c9
    push_cast
    rw [show (((l' : Rat) - l) * r) = y0 - l * r - (y0 - l' * r) by ring]
    exact c9)
  have hkk : k' = k := by omega
  have hll : l' = l := by omega
  subst hkk hll
  cases g
  cases h
  simp_all

theorem merge_replicate (how : How) (b : Bounds) (l : List Bounds) (h : ∀ p ∈ l, p = b) : mergeBounds how b l = b := by
  have hb1 : b.union b = b := by simp [Bounds.union]
  have hb2 : b.inter b = b := by simp [Bounds.inter]
  have : ∀ f : Bounds → Bounds → Bounds, f b b = b → l.foldl f b = b := by
    intro f hf
    induction l with
    | nil => rfl
    | cons p l ih =>
      rw [List.foldl_cons, h p (by simp), hf]
      exact ih fun q hq => h q (by simp [hq])
  cases how
  · exact this _ hb1
  · exact this _ hb2

/-- For aligned grids nothing is reprojected. -/
theorem combine_aligned {toCrs : Nat → GeoBox → GeoBox} {how : How} {dstCrs : Option Nat} {resolution : Option Rat} {g : GeoBox}
    {gs : List GeoBox} {r x0 y0 : Rat} {crs : Nat} (hr : 0 < r) (hto : ∀ h : GeoBox, h.crs = crs → toCrs crs h = h)
    (hal : ∀ h ∈ g :: gs, Aligned r x0 y0 crs h) (hcrs : dstCrs.getD g.crs = crs) (hres : resolution.getD |g.a| = r) :
    combine toCrs (some how) dstCrs resolution (g :: gs) = finish how crs r (g :: gs) := by
  have hg := hal g (by simp)
  cases hs : allSame (g :: gs) with
  | false =>
    rw [combine_distinct hs (hres ▸ hr), hcrs, hres]
    congr 1
    rw [List.map_congr_left (g := id), List.map_id]
    intro h hh
    rw [hto h (hal h hh).1, aligned_fix hr (hal h hh)]
    rfl
  | true =>
    have heq : ∀ h ∈ gs, h = g := by
      simp only [allSame, List.all_eq_true] at hs
      exact fun h hh => aligned_same hr hg (hal h (by simp [hh])) (hs h hh)
    have hmb : mergeBounds how g.bounds (gs.map GeoBox.bounds) = g.bounds := by
      refine merge_replicate _ _ _ fun p hp => ?_
      obtain ⟨h, hh, rfl⟩ := List.mem_map.mp hp
      rw [heq h hh]
    have hfin : finish how crs r (g :: gs) = .ok g := by
      have ho := bounds_order g
      have hne : g.bounds.isEmpty = false := by
        simp only [Bounds.isEmpty, decide_eq_false_iff_not, not_or, not_lt]
        exact ho
      simp only [finish, hmb, hne, Bool.and_false, Bool.false_eq_true, if_false, aligned_fix hr hg]
    rw [hfin]
    simp only [combine, hs, if_true]
    split
    · rfl
    · rw [hcrs]
      cases resolution with
      | none => simp only [reprojectGrid, hto g hg.1]
      | some q =>
        have hq : q = r := hres
        subst hq
        simp only [reprojectGrid]
        rw [if_neg (not_le.mpr hr), hto g hg.1, aligned_fix hr hg]

/-- The cells of an aligned grid in terms of its bounds. -/
theorem hasCell_iff {r x0 y0 : Rat} {crs : Nat} {g : GeoBox} (hr : 0 < r) (h : Aligned r x0 y0 crs g) (p : Rat × Rat) :
    HasCell g p ↔ ∃ s t : Int, p = (x0 + (s + 1 / 2) * r, y0 - (t + 1 / 2) * r) ∧ g.bounds.left ≤ x0 + s * r ∧
      x0 + (s + 1) * r ≤ g.bounds.right ∧ g.bounds.bottom ≤ y0 - (t + 1) * r ∧ y0 - t * r ≤ g.bounds.top := by
  rw [aligned_bounds hr h]
  obtain ⟨h1, ha, he, hb, hd, hnx, hny, k, l, hk, hl⟩ := h
  simp only [HasCell, centre, place, ha, hb, hd, he, hk, hl]
  constructor
  · rintro ⟨i, j, hi, hj, hp⟩
    have hi' : (i : Rat) + 1 ≤ g.ny := by exact_mod_cast hi
    have hj' : (j : Rat) + 1 ≤ g.nx := by exact_mod_cast hj
    have hi'' := mul_le_mul_of_nonneg_left hi' hr.le
    have hj'' := mul_le_mul_of_nonneg_left hj' hr.le
    have hi0 : (0 : Rat) ≤ i * r := by positivity
    have hj0 : (0 : Rat) ≤ j * r := by positivity
    refine ⟨k + j, l + i, ?_, ?_, ?_, ?_, ?_⟩
    · rw [← hp]
      push_cast
      congr 1 <;> ring
    · push_cast; linarith
    · push_cast; linarith
    · push_cast; linarith
    · push_cast; linarith
  · rintro ⟨s, t, hp, b1, b2, b3, b4⟩
    have c1 : k ≤ s := by
      have : (k : Rat) * r ≤ s * r := by linarith
      exact_mod_cast le_of_mul_le_mul_right this hr
    have c2 : s + 1 ≤ k + g.nx := by
      have : ((s : Rat) + 1) * r ≤ (k + g.nx) * r := by linarith
      exact_mod_cast le_of_mul_le_mul_right this hr
    have c3 : t + 1 ≤ l + g.ny := by
      have : ((t : Rat) + 1) * r ≤ (l + g.ny) * r := by linarith
      exact_mod_cast le_of_mul_le_mul_right this hr
    have c4 : l ≤ t := by
      have : (l : Rat) * r ≤ t * r := by linarith
      exact_mod_cast le_of_mul_le_mul_right this hr
    have e1 : (((s - k).toNat : Nat) : Rat) = s - k := by
      have h := Int.toNat_of_nonneg (a := s - k) (by omega)
      rw [← Int.cast_natCast, h]
      push_cast
      rfl
    have e2 : (((t - l).toNat : Nat) : Rat) = t - l := by
      have h := Int.toNat_of_nonneg (a := t - l) (by omega)
      rw [← Int.cast_natCast, h]
      push_cast
      rfl
    refine ⟨(t - l).toNat, (s - k).toNat, by omega, by omega, ?_⟩
    rw [hp, e1, e2]
    congr 1 <;> ring

/-- **C75, the union of aligned grids** has all their cells; each of its sides is one of theirs. -/
theorem C75_union_aligned {toCrs : Nat → GeoBox → GeoBox} {dstCrs : Option Nat} {resolution : Option Rat} {g : GeoBox}
    {gs : List GeoBox} {r x0 y0 : Rat} {crs : Nat} (hr : 0 < r) (hto : ∀ h : GeoBox, h.crs = crs → toCrs crs h = h)
    (hal : ∀ h ∈ g :: gs, Aligned r x0 y0 crs h) (hcrs : dstCrs.getD g.crs = crs) (hres : resolution.getD |g.a| = r) :
    ∃ out, combine toCrs (some .union) dstCrs resolution (g :: gs) = .ok out ∧ Aligned r x0 y0 crs out ∧
      (∀ h ∈ g :: gs, ∀ p, HasCell h p → HasCell out p) ∧
      (∃ h ∈ g :: gs, h.c = out.c) ∧ (∃ h ∈ g :: gs, h.c + r * h.nx = out.c + r * out.nx) ∧
      (∃ h ∈ g :: gs, h.f = out.f) ∧ ∃ h ∈ g :: gs, h.f - r * h.ny = out.f - r * out.ny := by
  rw [combine_aligned hr hto hal hcrs hres, finish_union]
  have hm := merges_union g.bounds (gs.map GeoBox.bounds)
  simp only [mergeBounds]
  rw [← List.map_cons] at hm
  set u := List.foldl Bounds.union g.bounds (gs.map GeoBox.bounds)
  have hmem : ∀ {P : Bounds → Prop}, (∃ p ∈ (g :: gs).map GeoBox.bounds, P p) → ∃ h ∈ g :: gs, P h.bounds := by
    rintro P ⟨p, hp, h⟩
    obtain ⟨k, hk, rfl⟩ := List.mem_map.mp hp
    exact ⟨k, hk, h⟩
  obtain ⟨h1, m1, e1⟩ := hmem hm.left
  obtain ⟨h2, m2, e2⟩ := hmem hm.bottom
  obtain ⟨h3, m3, e3⟩ := hmem hm.right
  obtain ⟨h4, m4, e4⟩ := hmem hm.top
  obtain ⟨K, hK⟩ := (aligned_lattice hr (hal h1 m1)).1
  obtain ⟨B, hB⟩ := (aligned_lattice hr (hal h2 m2)).2.1
  obtain ⟨R, hR⟩ := (aligned_lattice hr (hal h3 m3)).2.2.1
  obtain ⟨T, hT⟩ := (aligned_lattice hr (hal h4 m4)).2.2.2.1
  have hgm : g.bounds ∈ (g :: gs).map GeoBox.bounds := List.mem_map.mpr ⟨g, by simp, rfl⟩
  have hlt := (aligned_lattice hr (hal g (by simp))).2.2.2.2
  have l1 := hm.left_le _ hgm
  have l2 := hm.bottom_le _ hgm
  have l3 := hm.right_le _ hgm
  have l4 := hm.top_le _ hgm
  obtain ⟨hout, hob⟩ := fromBbox_lattice crs hr (e1.trans hK) (e2.trans hB) (e3.trans hR) (e4.trans hT) (by linarith [hlt.1])
    (by linarith [hlt.2])
  have hob' := aligned_bounds hr hout
  rw [hob] at hob'
  refine ⟨_, rfl, hout, ?_, ⟨h1, m1, ?_⟩, ⟨h3, m3, ?_⟩, ⟨h4, m4, ?_⟩, ⟨h2, m2, ?_⟩⟩
  · intro h hh p hp
    have hhm : h.bounds ∈ (g :: gs).map GeoBox.bounds := List.mem_map.mpr ⟨h, hh, rfl⟩
    rw [hasCell_iff hr (hal h hh)] at hp
    rw [hasCell_iff hr hout, hob]
    obtain ⟨s, t, hp, b1, b2, b3, b4⟩ := hp
    exact ⟨s, t, hp, le_trans (hm.left_le _ hhm) b1, le_trans b2 (hm.right_le _ hhm), le_trans (hm.bottom_le _ hhm) b3,
      le_trans b4 (hm.top_le _ hhm)⟩
  · have := aligned_bounds hr (hal h1 m1)
    rw [this] at e1
    rw [hob'] at e1
    exact e1.symm
  · have := aligned_bounds hr (hal h3 m3)
    rw [this] at e3
    rw [hob'] at e3
    exact e3.symm
  · have := aligned_bounds hr (hal h4 m4)
    rw [this] at e4
    rw [hob'] at e4
    exact e4.symm
  · have := aligned_bounds hr (hal h2 m2)
    rw [this] at e2
    rw [hob'] at e2
    exact e2.symm

/-- **C75, the intersection of aligned grids** that have a cell in common consists of their common cells. -/
theorem C75_intersection_aligned_partial {toCrs : Nat → GeoBox → GeoBox} {dstCrs : Option Nat} {resolution : Option Rat} {g : GeoBox}
    {gs : List GeoBox} {r x0 y0 : Rat} {crs : Nat} (hr : 0 < r) (hto : ∀ h : GeoBox, h.crs = crs → toCrs crs h = h)
    (hal : ∀ h ∈ g :: gs, Aligned r x0 y0 crs h) (hcrs : dstCrs.getD g.crs = crs) (hres : resolution.getD |g.a| = r)
    (hcom : ∃ p, ∀ h ∈ g :: gs, HasCell h p) :
    ∃ out, combine toCrs (some .intersection) dstCrs resolution (g :: gs) = .ok out ∧ Aligned r x0 y0 crs out ∧
      ∀ p, HasCell out p ↔ ∀ h ∈ g :: gs, HasCell h p := by
  rw [combine_aligned hr hto hal hcrs hres]
  have hm := merges_inter g.bounds (gs.map GeoBox.bounds)
  simp only [finish, mergeBounds]
  rw [← List.map_cons] at hm
  set u := List.foldl Bounds.inter g.bounds (gs.map GeoBox.bounds)
  have hmem : ∀ {P : Bounds → Prop}, (∃ p ∈ (g :: gs).map GeoBox.bounds, P p) → ∃ h ∈ g :: gs, P h.bounds := by
    rintro P ⟨p, hp, h⟩
    obtain ⟨k, hk, rfl⟩ := List.mem_map.mp hp
    exact ⟨k, hk, h⟩
  obtain ⟨h1, m1, e1⟩ := hmem hm.left
  obtain ⟨h2, m2, e2⟩ := hmem hm.bottom
  obtain ⟨h3, m3, e3⟩ := hmem hm.right
  obtain ⟨h4, m4, e4⟩ := hmem hm.top
  obtain ⟨K, hK⟩ := (aligned_lattice hr (hal h1 m1)).1
  obtain ⟨B, hB⟩ := (aligned_lattice hr (hal h2 m2)).2.1
  obtain ⟨R, hR⟩ := (aligned_lattice hr (hal h3 m3)).2.2.1
  obtain ⟨T, hT⟩ := (aligned_lattice hr (hal h4 m4)).2.2.2.1
  -- a cell in all of them lies within the common bounds
  have hall : ∀ p, (∀ h ∈ g :: gs, HasCell h p) → ∃ s t : Int, p = (x0 + (s + 1 / 2) * r, y0 - (t + 1 / 2) * r) ∧ u.left ≤ x0 + s * r ∧
      x0 + (s + 1) * r ≤ u.right ∧ u.bottom ≤ y0 - (t + 1) * r ∧ y0 - t * r ≤ u.top := by
    intro p hp
    have hg := fun h hh => (hasCell_iff hr (hal h hh) p).mp (hp h hh)
    obtain ⟨s, t, hst, _⟩ := hg g (by simp)
    have huniq : ∀ s' t' : Int, p = (x0 + (s' + 1 / 2) * r, y0 - (t' + 1 / 2) * r) → s' = s ∧ t' = t := by
      intro s' t' h'
      rw [hst, Prod.mk.injEq] at h'
      obtain ⟨q1, q2⟩ := h'
      have w1 : ((s' : Rat) - s) * r = 0 := by linarith
      have w2 : ((t' : Rat) - t) * r = 0 := by linarith
      rcases mul_eq_zero.mp w1 with w1 | w1
      · rcases mul_eq_zero.mp w2 with w2 | w2
        · have w1' : (s' : Rat) = s := by linarith
          have w2' : (t' : Rat) = t := by linarith
          exact ⟨by exact_mod_cast w1', by exact_mod_cast w2'⟩
        · exact absurd w2 hr.ne'
      · exact absurd w1 hr.ne'
    have hg' : ∀ h ∈ g :: gs, h.bounds.left ≤ x0 + s * r ∧ x0 + (s + 1) * r ≤ h.bounds.right ∧ h.bounds.bottom ≤ y0 - (t + 1) * r ∧
        y0 - t * r ≤ h.bounds.top := by
      intro h hh
      obtain ⟨s', t', hst', hb⟩ := hg h hh
      obtain ⟨rfl, rfl⟩ := huniq s' t' hst'
      exact hb
    refine ⟨s, t, hst, ?_, ?_, ?_, ?_⟩
    · rw [e1]; exact (hg' h1 m1).1
    · rw [e3]; exact (hg' h3 m3).2.1
    · rw [e2]; exact (hg' h2 m2).2.2.1
    · rw [e4]; exact (hg' h4 m4).2.2.2
  obtain ⟨p, hp⟩ := hcom
  obtain ⟨s, t, _, b1, b2, b3, b4⟩ := hall p hp
  have hux : u.left < u.right := by linarith
  have huy : u.bottom < u.top := by linarith
  obtain ⟨hout, hob⟩ := fromBbox_lattice crs hr (e1.trans hK) (e2.trans hB) (e3.trans hR) (e4.trans hT) hux huy
  have hne : u.isEmpty = false := by
    simp only [Bounds.isEmpty, decide_eq_false_iff_not, not_or, not_lt]
    exact ⟨hux.le, huy.le⟩
  rw [hne]
  simp only [Bool.and_false, Bool.false_eq_true, if_false]
  refine ⟨_, rfl, hout, fun p => ?_⟩
  rw [hasCell_iff hr hout, hob]
  constructor
  · rintro ⟨s, t, hp, b1, b2, b3, b4⟩ h hh
    have hhm : h.bounds ∈ (g :: gs).map GeoBox.bounds := List.mem_map.mpr ⟨h, hh, rfl⟩
    rw [hasCell_iff hr (hal h hh)]
    exact ⟨s, t, hp, le_trans (hm.left_le _ hhm) b1, le_trans b2 (hm.right_le _ hhm), le_trans (hm.bottom_le _ hhm) b3,
      le_trans b4 (hm.top_le _ hhm)⟩
  · exact hall p

/-! ### Stacks and mosaics -/

theorem finish_same {r x0 y0 : Rat} {crs : Nat} {how : How} {g : GeoBox} {gs : List GeoBox} (hr : 0 < r)
    (hal : ∀ h ∈ g :: gs, Aligned r x0 y0 crs h) (hs : allSame (g :: gs) = true) : finish how crs r (g :: gs) = .ok g := by
  have hg := hal g (by simp)
  have heq : ∀ h ∈ gs, h = g := by
    simp only [allSame, List.all_eq_true] at hs
    exact fun h hh => aligned_same hr hg (hal h (by simp [hh])) (hs h hh)
  have hmb : mergeBounds how g.bounds (gs.map GeoBox.bounds) = g.bounds := by
    refine merge_replicate _ _ _ fun p hp => ?_
    obtain ⟨h, hh, rfl⟩ := List.mem_map.mp hp
    rw [heq h hh]
  have hne : g.bounds.isEmpty = false := by
    simp only [Bounds.isEmpty, decide_eq_false_iff_not, not_or, not_lt]
    exact bounds_order g
  simp only [finish, hmb, hne, Bool.and_false, Bool.false_eq_true, if_false, aligned_fix hr hg]

theorem stackGrid_aligned {toCrs : Nat → GeoBox → GeoBox} {dstCrs : Option Nat} {resolution : Option Rat} {outer : Bool} {g : GeoBox}
    {gs : List GeoBox} {r x0 y0 : Rat} {crs : Nat} (hr : 0 < r) (hto : ∀ h : GeoBox, h.crs = crs → toCrs crs h = h)
    (hal : ∀ h ∈ g :: gs, Aligned r x0 y0 crs h) (hcrs : dstCrs.getD g.crs = crs) (hres : resolution.getD |g.a| = r) :
    stackGrid toCrs none dstCrs outer resolution (g :: gs) =
      combine toCrs (some (if outer then .union else .intersection)) dstCrs resolution (g :: gs) := by
  simp only [stackGrid]
  split
  · next h =>
    simp only [Bool.and_eq_true] at h
    rw [combine_aligned hr hto hal hcrs hres, finish_same hr hal h.1.1]
  · rfl

/-- **C75, stacks and mosaics of aligned rasters** are on a grid with exactly the cells common to all (`join="inner"`), or with all cells of all
(`join="outer"`, mosaics), and only rasters on another grid than that are reprojected. -/
theorem C75_stack_partial {toCrs : Nat → GeoBox → GeoBox} {dstCrs : Option Nat} {resolution : Option Rat} {g : GeoBox}
    {gs : List GeoBox} {r x0 y0 : Rat} {crs : Nat} (hr : 0 < r) (hto : ∀ h : GeoBox, h.crs = crs → toCrs crs h = h)
    (hal : ∀ h ∈ g :: gs, Aligned r x0 y0 crs h) (hcrs : dstCrs.getD g.crs = crs) (hres : resolution.getD |g.a| = r) :
    ((∃ p, ∀ h ∈ g :: gs, HasCell h p) → ∃ out, stackGrid toCrs none dstCrs false resolution (g :: gs) = .ok out ∧
      Aligned r x0 y0 crs out ∧ ∀ p, HasCell out p ↔ ∀ h ∈ g :: gs, HasCell h p) ∧
    (∃ out, stackGrid toCrs none dstCrs true resolution (g :: gs) = .ok out ∧ Aligned r x0 y0 crs out ∧
      ∀ h ∈ g :: gs, ∀ p, HasCell h p → HasCell out p) ∧
    (∃ out, mosaicGrid toCrs none dstCrs (g :: gs) = .ok out ∧ Aligned r x0 y0 crs out ∧ ∀ h ∈ g :: gs, ∀ p, HasCell h p → HasCell out p) ∧
    ∀ out, Aligned r x0 y0 crs out → ∀ h ∈ g :: gs,
      (stackReprojects (g :: gs) out h = true ↔ h ≠ out) ∧ (mosaicReprojects out h = true ↔ h ≠ out) := by
  have hg := hal g (by simp)
  refine ⟨fun hcom => ?_, ?_, ?_, ?_⟩
  · rw [stackGrid_aligned hr hto hal hcrs hres]
    exact C75_intersection_aligned_partial hr hto hal hcrs hres hcom
  · rw [stackGrid_aligned hr hto hal hcrs hres]
    obtain ⟨out, h1, h2, h3, _⟩ := C75_union_aligned hr hto hal hcrs hres
    exact ⟨out, h1, h2, h3⟩
  · have hres' : (none : Option Rat).getD |g.a| = r := by
      rw [Option.getD_none, hg.2.1, abs_of_pos hr]
    obtain ⟨out, h1, h2, h3, _⟩ := C75_union_aligned hr hto hal hcrs hres'
    exact ⟨out, h1, h2, h3⟩
  · intro out hout h hh
    have hsame : ∀ k ∈ g :: gs, allSame [k, out] = true ↔ k = out := by
      intro k hk
      constructor
      · intro hs
        simp only [allSame, List.all_cons, List.all_nil, Bool.and_true] at hs
        exact (aligned_same hr (hal k hk) hout hs).symm
      · intro hs
        subst hs
        exact C75_equal k 2
    have hone : (!allSame [h, out]) = true ↔ h ≠ out := by
      rw [Bool.not_eq_true', ← Bool.not_eq_true]
      exact not_congr (hsame h hh)
    refine ⟨?_, hone⟩
    have hdef : stackReprojects (g :: gs) out h = if allSame (g :: gs) && allSame [g, out] then false else !allSame [h, out] := rfl
    rw [hdef]
    by_cases hfast : (allSame (g :: gs) && allSame [g, out]) = true
    · rw [if_pos hfast]
      simp only [Bool.and_eq_true] at hfast
      simp only [Bool.false_eq_true, false_iff, ne_eq, not_not]
      have heq : g = out := (hsame g (by simp)).mp hfast.2
      rcases List.mem_cons.mp hh with rfl | hh'
      · exact heq
      · have hfs := hfast.1
        simp only [allSame, List.all_eq_true] at hfs
        rw [aligned_same hr hg (hal h hh) (hfs h hh'), heq]
    · rw [if_neg hfast]
      exact hone

/-- **C75, rasters on one grid** are stacked on that grid, also if its CRS, or a resolution that is close to its own, is asked for. -/
theorem C75_stack_equal (toCrs : Nat → GeoBox → GeoBox) (g : GeoBox) (n : Nat) (dstCrs : Option Nat) (outer : Bool)
    (resolution : Option Rat) (hcrs : ∀ c, dstCrs = some c → c = g.crs)
    (hres : ∀ r, resolution = some r → |(|g.a|) - r| ≤ 1 / 100000000 + 1 / 100000 * |r|) :
    stackGrid toCrs none dstCrs outer resolution (List.replicate (n + 1) g) = .ok g := by
  have hs := C75_equal g (n + 1)
  rw [List.replicate_succ] at hs ⊢
  have h2 : dstCrs.all (fun c => decide (g.crs = c)) = true := by
    cases dstCrs with
    | none => rfl
    | some c => simpa using (hcrs c rfl).symm
  have h3 : resolution.all (fun r => isclose |g.a| r) = true := by
    cases resolution with
    | none => rfl
    | some r => simpa [isclose] using hres r rfl
  simp only [stackGrid]
  rw [hs, h2, h3]
  rfl

/-- **C75, a given grid** is taken as it is; a CRS that contradicts it and a resolution are refused. -/
theorem C75_given_grid (toCrs : Nat → GeoBox → GeoBox) (d : GeoBox) (dstCrs : Option Nat) (outer : Bool) (resolution : Option Rat)
    (grids : List GeoBox) (out : GeoBox) :
    (stackGrid toCrs (some d) dstCrs outer resolution grids = .ok out ↔
      out = d ∧ grids ≠ [] ∧ resolution = none ∧ ∀ c, dstCrs = some c → c = d.crs) ∧
    (mosaicGrid toCrs (some d) dstCrs grids = .ok out ↔ out = d) := by
  constructor
  · unfold stackGrid
    cases dstCrs <;> cases resolution <;> cases grids <;> simp [@eq_comm _ out d]
    · split <;> simp_all
  · simp [mosaicGrid, @eq_comm _ out d]

/-- **C75, rejected arguments**: unknown words, no grids, resolutions that are not positive. -/
theorem C75_rejected (toCrs : Nat → GeoBox → GeoBox) (how : Option How) (dstCrs : Option Nat) (resolution : Option Rat) (grids : List GeoBox)
    (h : how = none ∨ grids = [] ∨ ∃ r, resolution = some r ∧ r ≤ 0) : ∃ e, combine toCrs how dstCrs resolution grids = .error e := by
  cases grids with
  | nil => simp only [combine]; split <;> exact ⟨_, rfl⟩
  | cons g gs =>
    cases how with
    | none => exact ⟨_, rfl⟩
    | some how =>
      rcases h with h | h | ⟨r, rfl, hr⟩
      · cases h
      · cases h
      · simp only [combine]
        split
        · simp only [Option.isNone_some, Bool.and_false, Bool.false_eq_true, if_false, reprojectGrid, if_pos hr]
          exact ⟨_, rfl⟩
        · simp only [Option.getD_some, List.map_cons, reprojectGrid, if_pos hr, sequence]
          exact ⟨_, rfl⟩

/-- **C75, the errors of `combine_grids`**: an unknown word is looked at before the grids; no grids have no first one; a resolution that is not positive
is rejected with the error of the grid. -/
theorem C75_rejected_errors (toCrs : Nat → GeoBox → GeoBox) (dstCrs : Option Nat) (resolution : Option Rat) (grids : List GeoBox) (how : How) :
    combine toCrs none dstCrs resolution grids = .error .value ∧
      combine toCrs (some how) dstCrs resolution [] = .error .index ∧
      ∀ r g, r ≤ 0 → combine toCrs (some how) dstCrs (some r) (g :: grids) = .error .value := by
  refine ⟨?_, rfl, ?_⟩
  · cases grids <;> rfl
  · intro r g hr
    simp only [combine]
    split
    · simp only [Option.isNone_some, Bool.and_false, Bool.false_eq_true, if_false, reprojectGrid, if_pos hr]
    · simp only [Option.getD_some, List.map_cons, reprojectGrid, if_pos hr, sequence]

/-! ### Examples and counterexamples -/

/-- Square pixels of side `r` from the corner (x, y), rows from north to south. -/
def north (r x y : Rat) (ny nx : Nat) : GeoBox := ⟨5070, ny, nx, r, 0, x, 0, -r, y⟩

/-- Rectangular pixels. -/
def rect (w h x y : Rat) (ny nx : Nat) : GeoBox := ⟨5070, ny, nx, w, 0, x, 0, -h, y⟩

theorem north_aligned {r x y x0 y0 : Rat} {ny nx : Nat} (hnx : 0 < nx) (hny : 0 < ny) (k l : Int) (hx : x = x0 + k * r)
    (hy : y = y0 - l * r) : Aligned r x0 y0 5070 (north r x y ny nx) := ⟨rfl, rfl, rfl, rfl, rfl, hnx, hny, k, l, hx, hy⟩

/-- Two grids of 30 m that overlap by one column. -/
example : (∀ h ∈ [north 30 0 90 3 4, north 30 90 60 2 5], Aligned 30 0 0 5070 h) ∧
    (∀ h ∈ [north 30 0 90 3 4, north 30 90 60 2 5], HasCell h (105, 45)) ∧
    combine (fun _ => id) (some .union) none none [north 30 0 90 3 4, north 30 90 60 2 5] = .ok (north 30 0 90 3 8) ∧
    combine (fun _ => id) (some .intersection) none none [north 30 0 90 3 4, north 30 90 60 2 5] = .ok (north 30 90 60 2 1) := by
  refine ⟨?_, ?_, ?_, ?_⟩
  · intro h hh
    simp only [List.mem_cons, List.not_mem_nil, or_false] at hh
    rcases hh with rfl | rfl
    · exact north_aligned (by decide) (by decide) 0 (-3) (by norm_num) (by norm_num)
    · exact north_aligned (by decide) (by decide) 3 (-2) (by norm_num) (by norm_num)
  · intro h hh
    simp only [List.mem_cons, List.not_mem_nil, or_false] at hh
    rcases hh with rfl | rfl
    · exact ⟨1, 3, by decide, by decide, by simp [centre, place, north]; norm_num⟩
    · exact ⟨0, 0, by decide, by decide, by simp [centre, place, north]; norm_num⟩
  · decide +kernel
  · decide +kernel

/-- The grids of the theorems on grids that are not aligned. -/
example : allSame [north 1 0 3 3 3, north 1 (1 / 2) 3 3 5] = false ∧
    combine (fun _ => id) (some .union) none none [north 1 0 3 3 3, north 1 (1 / 2) 3 3 5] = .ok (north 1 0 3 3 6) := by
  constructor <;> decide +kernel

/-- **Grids taken for the same can be pixels apart**: with 2000 columns and a pixel width of 30.03 in place of 30, the last cells are almost two
pixels apart. -/
theorem C75_drift : allSame [north 30 0 0 1 2000, rect (3003 / 100) 30 0 0 1 2000] = true ∧
    (centre (rect (3003 / 100) 30 0 0 1 2000) 0 1999).1 - (centre (north 30 0 0 1 2000) 0 1999).1 > 59 := by
  constructor <;> decide +kernel

/-- **A shift by a whole column is not seen** if the pixels are a thousand times as high as wide; also for grids of few cells. -/
theorem C75_shift : allSame [rect 1 1000 0 0 2 2, rect 1 1000 1 0 2 2] = true := by decide +kernel

/-- **The order of the grids matters**: the comparison is with the first one and its pixels. -/
theorem C75_order : allSame [north 1000 0 0 2 2, north 1001 0 0 2 2] = true ∧
    allSame [north 30 0 0 2 2, north 30 (3 / 100) 0 2 2, north 30 (-(3 / 100)) 0 2 2] = true ∧
    allSame [north 30 (3 / 100) 0 2 2, north 30 (-(3 / 100)) 0 2 2, north 30 0 0 2 2] = false ∧
    allSame [rect 30 30 0 0 2 2, rect (2997 / 100) (2997 / 100) 0 0 2 2] = true ∧
    allSame [rect (2997 / 100) (2997 / 100) 0 0 2 2, rect 30 30 0 0 2 2] = false := by
  refine ⟨?_, ?_, ?_, ?_, ?_⟩ <;> decide +kernel

/-- **Pixels that are not square become square**: two grids with pixels 1 wide and 2 high are combined to pixels 1 wide and 1 high, so that
all the rasters are resampled. -/
theorem C75_square : combine (fun _ => id) (some .union) none none [rect 1 2 0 8 2 2, rect 1 2 2 8 2 2] = .ok (rect 1 1 0 8 4 4) := by
  decide +kernel

/-- **The resolution is checked in x only**: a stack with a resolution of 1 keeps pixels 1 wide and 2 high. -/
theorem C75_resolution_kept : stackGrid (fun _ => id) none none false (some 1) [rect 1 2 0 8 2 2, rect 1 2 0 8 2 2] = .ok (rect 1 2 0 8 2 2) := by
  decide +kernel

/-- **Grids that touch have an intersection** of one column, which the first grid does not have. -/
theorem C75_touching : combine (fun _ => id) (some .intersection) none none [north 1 0 2 2 2, north 1 2 2 2 2] = .ok (north 1 2 2 2 1) := by
  decide +kernel

/-- **The intersection can lie beyond a grid**: its last column is half outside of the first grid. -/
theorem C75_beyond : combine (fun _ => id) (some .intersection) none none [north 1 0 3 3 3, north 1 (1 / 2) 3 3 5] = .ok (north 1 (1 / 2) 3 3 3) ∧
    ¬ Within 0 (north 1 0 3 3 3) (7 / 2) 3 := by
  constructor
  · decide +kernel
  · rw [within_iff]
    decide +kernel

/-- To degrees, roughly. -/
def degrees (crs : Nat) (g : GeoBox) : GeoBox :=
  ⟨crs, g.ny, g.nx, g.a / 100000, 0, g.c / 100000, 0, g.e / 100000, g.f / 100000⟩

/-- **Metres are used as degrees**: the mosaic of two grids with pixels of 30 m in EPSG:4326 has two
pixels of 30°. -/
theorem C75_units : mosaicGrid degrees none (some 4326) [north 30 0 30000 1000 1000, north 30 30000 30000 1000 1000] =
    .ok ⟨4326, 1, 2, 30, 0, 0, 0, -30, 3 / 10⟩ := by
  decide +kernel

end Verif.Boxes
