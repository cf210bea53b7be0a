import Verif.Trips.Symmetry

/-!
# C120: terrain lifted, added and zoomed

`slope`, `aspect`, `curvature`, `surface_area_3d`, `hillshade`, `northing` and `easting` (`surface.py`, C37 and C50 to C53) of rasters of elevations that
differ by a constant, of sums of two rasters, and of rasters on a larger scale.
-/

set_option linter.unusedSectionVars false

namespace Verif.Trips.Heights

open Verif Verif.Surface Verif.Surface.Val Verif.Surface.Spec Verif.Trips

namespace Spec

/-- The sum of two rasters on one grid: null where one of them is. -/
structure Sum (r s t : Surface.Raster) : Prop where
  ny : s.ny = r.ny ∧ t.ny = r.ny
  nx : s.nx = r.nx ∧ t.nx = r.nx
  res : s.res = r.res ∧ t.res = r.res
  nullsR : ∀ i < r.ny, ∀ j < r.nx, r.mask i j = true → r.masked = true
  nullsS : ∀ i < r.ny, ∀ j < r.nx, s.mask i j = true → s.masked = true
  nullsT : ∀ i < r.ny, ∀ j < r.nx, t.mask i j = true → t.masked = true
  mask : ∀ i < r.ny, ∀ j < r.nx, t.mask i j = (r.mask i j || s.mask i j)
  data : ∀ i < r.ny, ∀ j < r.nx, t.mask i j = false → t.data i j = r.data i j + s.data i j

/-- Everything `k` times as large. -/
structure Zoomed (k : ℝ) (r r' : Surface.Raster) : Prop where
  ny : r'.ny = r.ny
  nx : r'.nx = r.nx
  res : r'.res = (k * r.res.1, k * r.res.2)
  masked : r'.masked = r.masked
  data : ∀ i < r.ny, ∀ j < r.nx, r'.data i j = num k * r.data i j
  mask : ∀ i < r.ny, ∀ j < r.nx, r'.mask i j = r.mask i j

/-- Two cells together. -/
def both (f : Val → Val → Val) (x y : Surface.Cell) : Surface.Cell :=
  if x.null then x else if y.null then y else ⟨f x.value y.value, false⟩

end Spec

open Spec

/-! ### Lifted -/

theorem sobel_lift (a : ℝ) (c f i b d g : Val) : (num a + c + 2 * (num a + f) + (num a + i)) - (num a + b + 2 * (num a + d) + (num a + g)) =
    (c + 2 * f + i) - (b + 2 * d + g) := by
  cases c <;> cases f <;> cases i <;> cases b <;> cases d <;> cases g <;>
    simp only [num_ofNat, num_add, num_sub, num_mul, nan_add, add_nan, nan_sub, sub_nan, mul_nan]
  congr 1
  ring

theorem gradient_lift (res : ℝ × ℝ) (a : ℝ) (x : Around) : gradient res (fun i j => num a + x i j) = gradient res x := by
  unfold gradient
  simp only [sobel_lift]

theorem side_lift (a : ℝ) (d p q : Val) : side d (num a + p) (num a + q) = side d p q := by
  unfold side
  cases p with
  | nan => rfl
  | num p =>
    cases q with
    | nan => rfl
    | num q =>
      simp only [num_add, num_sub]
      rw [show a + p - (a + q) = p - q by ring]

theorem curv_lift (res : ℝ × ℝ) (a : ℝ) (x : Around) : curvCell res (fun i j => num a + x i j) = curvCell res x := by
  unfold curvCell
  simp only
  generalize x (-1) 0 = z2
  generalize x 0 (-1) = z4
  generalize x 0 0 = z5
  generalize x 0 1 = z6
  generalize x 1 0 = z8
  cases z2 <;> cases z4 <;> cases z5 <;> cases z6 <;> cases z8 <;> simp [num_ofNat]
  ring

/-- **C120 (lifted).**  Only differences of elevation matter. -/
theorem C120_lifted {r r' : Surface.Raster} (hc : Chunked r) (hc' : Chunked r') {a : ℝ} (h : Elevated (fun v => num a + v) r r') {row col : Nat}
    (h1 : row < r.ny) (h2 : col < r.nx) :
    (∀ degrees, slope degrees r' row col = slope degrees r row col) ∧
    aspect r' row col = aspect r row col ∧
    curvature r' row col = curvature r row col ∧
    surfaceArea3d r' row col = surfaceArea3d r row col ∧
    (∀ azimuth altitude, hillshade azimuth altitude r' row col = hillshade azimuth altitude r row col) ∧
    ∀ north, northingOf north r' row col = northingOf north r row col := by
  obtain ⟨h1', h2', hx, he⟩ := elevated (add_nan _) h h1 h2
  have hasp : aspect r' row col = aspect r row col := by
    refine moved_same hc hc' h1 h2 h1' h2' (fun x i j => num a + x i j) hx he (fun x => ?_) _
    rw [aspectCell_eq, aspectCell_eq]
    unfold across down
    simp only [sobel_lift]
  refine ⟨fun d => ?_, hasp, ?_, ?_, fun az al => ?_, fun north => ?_⟩
  · refine moved_same hc hc' h1 h2 h1' h2' (fun x i j => num a + x i j) hx he (fun x => ?_) _
    rw [h.res]
    unfold slopeCell
    rw [gradient_lift]
  · refine moved_same hc hc' h1 h2 h1' h2' (fun x i j => num a + x i j) hx he (fun x => ?_) _
    rw [h.res]
    exact curv_lift _ a x
  · refine moved_same hc hc' h1 h2 h1' h2' (fun x i j => num a + x i j) hx he (fun x => ?_) _
    rw [h.res, area_eq, area_eq]
    unfold areaOf
    simp only [side_lift]
  · refine moved_hillshade hc hc' h1 h2 h1' h2' (fun x i j => num a + x i j) hx he fun x => ?_
    rw [h.res]
    unfold hillshadeCell
    rw [gradient_lift]
  · unfold northingOf
    rw [hasp]

/-! ### Degrees -/

/-- **C120 (degrees).**  The slope in degrees is the angle whose tangent is the slope as rise over run. -/
theorem C120_degrees {r : Surface.Raster} (hc : Chunked r) {row col : Nat} (h1 : row < r.ny) (h2 : col < r.nx) :
    slope true r row col = (slope false r row col).map (valid fun v => arctan v * toDegrees) :=
  moved (cell := slopeCell r.res false) (cell' := slopeCell r.res true) (post := fun v => arctan v * toDegrees) hc hc h1 h2 h1 h2 (fun x => x) rfl rfl (fun _ => rfl) _

/-! ### Zoomed -/

theorem extended_zoomed {k : ℝ} {r r' : Surface.Raster} (h : Zoomed k r r') (i j : Int) : r'.extended i j = num k * r.extended i j := by
  unfold Raster.extended Raster.nullToNan
  rw [h.ny, h.nx, h.masked]
  by_cases hi : 0 ≤ i ∧ i < r.ny ∧ 0 ≤ j ∧ j < r.nx
  · rw [if_pos hi, if_pos hi, h.data _ (by omega) _ (by omega), h.mask _ (by omega) _ (by omega)]
    split
    · rfl
    · rfl
  · rw [if_neg hi, if_neg hi]
    rfl

theorem val_div_zoom {k : ℝ} (hk : k ≠ 0) (a : Val) (d : ℝ) : num k * a / (num (k * d) * 8) = a / (num d * 8) := by
  cases a with
  | nan => rfl
  | num a =>
    simp only [num_ofNat, num_mul, num_div]
    congr 1
    rw [mul_assoc k d 8]
    exact mul_div_mul_left _ _ hk

theorem gradient_zoom (res : ℝ × ℝ) {k : ℝ} (hk : k ≠ 0) (x : Around) : gradient (k * res.1, k * res.2) (fun i j => num k * x i j) = gradient res x := by
  unfold gradient
  simp only [sobel_scale, val_div_zoom hk]

theorem side_zoom {k : ℝ} (hk : 0 ≤ k) (d p q : Val) : side (num (k * k) * d) (num k * p) (num k * q) = num k * side d p q := by
  unfold side
  cases p with
  | nan => cases d <;> rfl
  | num p =>
    cases q with
    | nan => cases d <;> rfl
    | num q =>
      cases d with
      | nan => rfl
      | num d =>
        simp only [num_sub, num_mul, num_add, sqrt_num]
        rw [show k * k * d + (k * p - k * q) * (k * p - k * q) = k ^ 2 * (d + (p - q) * (p - q)) by ring, Real.sqrt_mul (sq_nonneg k), Real.sqrt_sq hk,
          mul_assoc]

theorem heron_zoom {k : ℝ} (_hk : 0 ≤ k) (p q s : Val) : heron (num k * p) (num k * q) (num k * s) = num (k * k) * heron p q s := by
  unfold heron
  cases p with
  | nan => cases q <;> cases s <;> rfl
  | num p =>
    cases q with
    | nan => cases s <;> rfl
    | num q =>
      cases s with
      | nan => rfl
      | num s =>
        simp only [num_sub, num_mul, num_add, sqrt_num]
        rw [show (k * p + k * q + k * s) * 0.5 * ((k * p + k * q + k * s) * 0.5 - k * p) * ((k * p + k * q + k * s) * 0.5 - k * q) *
            ((k * p + k * q + k * s) * 0.5 - k * s) = (k * k) ^ 2 * ((p + q + s) * 0.5 * ((p + q + s) * 0.5 - p) * ((p + q + s) * 0.5 - q) * ((p + q + s) * 0.5 - s)) by ring,
          Real.sqrt_mul (sq_nonneg _), Real.sqrt_sq (mul_self_nonneg k)]

theorem val_mul_add (k : ℝ) (a b : Val) : num k * a + num k * b = num k * (a + b) := by
  cases a <;> cases b <;> simp [mul_add]

theorem area_zoom {k : ℝ} (hk : 0 ≤ k) (sd dd e a b c d f g h i : Val) :
    areaOf (num (k * k) * sd) (num (k * k) * dd) (num k * e) (num k * a) (num k * b) (num k * c) (num k * d) (num k * f) (num k * g) (num k * h) (num k * i) =
      num (k * k) * areaOf sd dd e a b c d f g h i := by
  unfold areaOf
  simp only [side_zoom hk, heron_zoom hk]
  have zero : (0 : Val) = num (k * k) * 0 := by
    rw [num_zero, num_mul, mul_zero]
  rw [zero]
  simp only [val_mul_add]
  rw [← zero]

theorem curv_zoom (res : ℝ × ℝ) {k : ℝ} (hk : 0 < k) (x : Around) :
    curvCell (|k * res.1|, |k * res.2|) (fun i j => num k * x i j) = num (1 / k) * curvCell (|res.1|, |res.2|) x := by
  unfold curvCell
  simp only [abs_mul, abs_of_pos hk]
  generalize x (-1) 0 = z2
  generalize x 0 (-1) = z4
  generalize x 0 0 = z5
  generalize x 0 1 = z6
  generalize x 1 0 = z8
  generalize |res.1| = u
  generalize |res.2| = w
  cases z2 <;> cases z4 <;> cases z5 <;> cases z6 <;> cases z8 <;> simp [num_ofNat]
  rename_i z2 z4 z5 z6 z8
  have hk' : k ≠ 0 := hk.ne'
  by_cases huw : u * w = 0
  · rw [show k * u * (k * w) = 0 by rw [show k * u * (k * w) = k * k * (u * w) by ring, huw, mul_zero], huw]
    simp
  · have hu : u ≠ 0 := left_ne_zero_of_mul huw
    have hw : w ≠ 0 := right_ne_zero_of_mul huw
    field_simp

/-- **C120 (zoomed).**  On a `k` times as large scale slopes and directions are the same, areas `k` times `k` times as large, and curvatures `k` times
smaller. -/
theorem C120_zoomed {r r' : Surface.Raster} (hc : Chunked r) (hc' : Chunked r') {k : ℝ} (hk : 0 < k) (h : Zoomed k r r') {row col : Nat}
    (h1 : row < r.ny) (h2 : col < r.nx) :
    (∀ degrees, slope degrees r' row col = slope degrees r row col) ∧
    aspect r' row col = aspect r row col ∧
    (∀ azimuth altitude, hillshade azimuth altitude r' row col = hillshade azimuth altitude r row col) ∧
    surfaceArea3d r' row col = (surfaceArea3d r row col).map (valid fun v => num (k * k) * v) ∧
    curvature r' row col = (curvature r row col).map (valid fun v => num (1 / k) * v) := by
  have h1' : row < r'.ny := by rw [h.ny]; exact h1
  have h2' : col < r'.nx := by rw [h.nx]; exact h2
  have hx : (fun i j : Int => r'.extended ((row : Int) + i) ((col : Int) + j)) =
      (fun (x : Around) i j => num k * x i j) fun i j => r.extended (row + i) (col + j) := by
    funext i j
    exact extended_zoomed h _ _
  have he : edgeMask r' row col = edgeMask r row col := by
    unfold edgeMask
    rw [h.mask row h1 col h2, h.ny, h.nx]
  refine ⟨fun d => ?_, ?_, fun az al => ?_, ?_, ?_⟩
  · refine moved_same hc hc' h1 h2 h1' h2' (fun x i j => num k * x i j) hx he (fun x => ?_) _
    rw [h.res]
    unfold slopeCell
    rw [gradient_zoom _ hk.ne']
  · refine moved_same hc hc' h1 h2 h1' h2' (fun x i j => num k * x i j) hx he (fun x => ?_) _
    rw [aspectCell_eq, aspectCell_eq, (across_scale k x).1, (across_scale k x).2, aspectVal_scale hk]
  · refine moved_hillshade hc hc' h1 h2 h1' h2' (fun x i j => num k * x i j) hx he fun x => ?_
    rw [h.res]
    unfold hillshadeCell
    rw [gradient_zoom _ hk.ne']
  · refine moved hc hc' h1 h2 h1' h2' (fun x i j => num k * x i j) hx he (fun x => ?_) _
    rw [h.res, area_eq, area_eq, ← area_zoom hk.le]
    congr 1
    · simp only [num_mul]
      congr 1
      ring
    · simp only [num_mul, num_ofNat]
      congr 1
      ring
  · refine moved hc hc' h1 h2 h1' h2' (fun x i j => num k * x i j) hx he (fun x => ?_) _
    rw [h.res]
    exact curv_zoom _ hk x

/-! ### Added -/

theorem extended_sum {r s t : Surface.Raster} (h : Sum r s t) (i j : Int) : t.extended i j = r.extended i j + s.extended i j := by
  unfold Raster.extended Raster.nullToNan
  rw [h.ny.1, h.ny.2, h.nx.1, h.nx.2]
  by_cases hi : 0 ≤ i ∧ i < r.ny ∧ 0 ≤ j ∧ j < r.nx
  · rw [if_pos hi, if_pos hi, if_pos hi]
    have hi1 : i.toNat < r.ny := by omega
    have hj1 : j.toNat < r.nx := by omega
    have m := h.mask _ hi1 _ hj1
    have d := h.data _ hi1 _ hj1
    have n1 := h.nullsR _ hi1 _ hj1
    have n2 := h.nullsS _ hi1 _ hj1
    have n3 := h.nullsT _ hi1 _ hj1
    cases e1 : r.mask i.toNat j.toNat <;> cases e2 : s.mask i.toNat j.toNat <;> rw [e1, e2] at m <;> rw [m]
    · simp only [Bool.and_false, Bool.or_false, Bool.false_eq_true, if_false]
      exact d m
    · rw [n2 e2, n3 m]
      simp
    · rw [n1 e1, n3 m]
      simp
    · rw [n1 e1, n3 m]
      simp
  · rw [if_neg hi, if_neg hi, if_neg hi]
    rfl

theorem curv_add (res : ℝ × ℝ) (x y : Around) : curvCell res (fun i j => x i j + y i j) = curvCell res x + curvCell res y := by
  unfold curvCell
  simp only
  generalize x (-1) 0 = a
  generalize x 0 (-1) = b
  generalize x 0 0 = c
  generalize x 0 1 = d
  generalize x 1 0 = e
  generalize y (-1) 0 = a'
  generalize y 0 (-1) = b'
  generalize y 0 0 = c'
  generalize y 0 1 = d'
  generalize y 1 0 = e'
  cases a with
  | nan => simp
  | num a => cases b with
    | nan => simp
    | num b => cases c with
      | nan => simp
      | num c => cases d with
        | nan => simp
        | num d => cases e with
          | nan => simp
          | num e =>
            cases a' <;> cases b' <;> cases c' <;> cases d' <;> cases e' <;> simp [num_ofNat]
            ring

theorem finalize_sum {r s t : Surface.Raster} (h : Sum r s t) {row col : Nat} (h1 : row < r.ny) (h2 : col < r.nx) (nv v w : Val) :
    finalize t nv row col (v + w) = both (· + ·) (finalize r nv row col v) (finalize s nv row col w) := by
  unfold finalize edgeMask both
  rw [h.mask row h1 col h2, h.ny.1, h.ny.2, h.nx.1, h.nx.2]
  cases r.mask row col <;> cases s.mask row col <;> cases (row == 0) <;> cases (row == r.ny - 1) <;> cases (col == 0) <;> cases (col == r.nx - 1) <;> rfl

/-- **C120 (curvature of sums).**  Curvatures add up. -/
theorem C120_curvature_sum {r s t : Surface.Raster} (hr : Chunked r) (hs : Chunked s) (ht : Chunked t) (h : Sum r s t) {row col : Nat}
    (h1 : row < r.ny) (h2 : col < r.nx) : ∃ x y, curvature r row col = some x ∧ curvature s row col = some y ∧
      curvature t row col = some (both (· + ·) x y) := by
  unfold curvature
  rw [mapCells_eq _ r hr h1 h2, mapCells_eq _ s hs (by rw [h.ny.1]; exact h1) (by rw [h.nx.1]; exact h2),
    mapCells_eq _ t ht (by rw [h.ny.2]; exact h1) (by rw [h.nx.2]; exact h2)]
  refine ⟨_, _, rfl, rfl, ?_⟩
  rw [Option.map_some, ← finalize_sum h h1 h2, h.res.1, h.res.2, ← curv_add]
  congr 3
  funext i j
  exact extended_sum h _ _

theorem sobel_add (c f i a d g c' f' i' a' d' g' : ℝ) (dx : ℝ) : ((c + c' + 2 * (f + f') + (i + i')) - (a + a' + 2 * (d + d') + (g + g'))) / dx =
    ((c + 2 * f + i) - (a + 2 * d + g)) / dx + ((c' + 2 * f' + i') - (a' + 2 * d' + g')) / dx := by
  ring

theorem val_sobel_add (c f i a d g c' f' i' a' d' g' dx : Val) : ((c + c' + 2 * (f + f') + (i + i')) - (a + a' + 2 * (d + d') + (g + g'))) / dx =
    ((c + 2 * f + i) - (a + 2 * d + g)) / dx + ((c' + 2 * f' + i') - (a' + 2 * d' + g')) / dx := by
  cases dx with
  | nan => simp
  | num dx =>
    cases c with
    | nan => simp
    | num c => cases f with
      | nan => simp
      | num f => cases i with
        | nan => simp
        | num i => cases a with
          | nan => simp
          | num a => cases d with
            | nan => simp
            | num d => cases g with
              | nan => simp
              | num g =>
                cases c' <;> cases f' <;> cases i' <;> cases a' <;> cases d' <;> cases g' <;>
                  simp only [num_ofNat, num_add, num_sub, num_mul, num_div, nan_add, add_nan, nan_sub, sub_nan, mul_nan, nan_div]
                congr 1
                exact sobel_add ..

theorem gradient_add (res : ℝ × ℝ) (x y : Around) :
    gradient res (fun i j => x i j + y i j) = ((gradient res x).1 + (gradient res y).1, (gradient res x).2 + (gradient res y).2) := by
  unfold gradient
  simp only [val_sobel_add]

theorem norm_triangle (p q p' q' : ℝ) :
    Real.sqrt ((p + p') * (p + p') + (q + q') * (q + q')) ≤ Real.sqrt (p * p + q * q) + Real.sqrt (p' * p' + q' * q') := by
  have ha : 0 ≤ p * p + q * q := add_nonneg (mul_self_nonneg _) (mul_self_nonneg _)
  have hb : 0 ≤ p' * p' + q' * q' := add_nonneg (mul_self_nonneg _) (mul_self_nonneg _)
  refine Real.sqrt_le_iff.2 ⟨add_nonneg (Real.sqrt_nonneg _) (Real.sqrt_nonneg _), ?_⟩
  have h1 := Real.sq_sqrt ha
  have h2 := Real.sq_sqrt hb
  have h3 : p * p' + q * q' ≤ Real.sqrt (p * p + q * q) * Real.sqrt (p' * p' + q' * q') := by
    rw [← Real.sqrt_mul ha]
    refine Real.le_sqrt_of_sq_le ?_
    nlinarith [sq_nonneg (p * q' - q * p')]
  nlinarith

/-- **C120 (slope of sums).**  The sum of two terrains is not steeper than both together. -/
theorem C120_slope_sum {r s t : Surface.Raster} (hr : Chunked r) (hs : Chunked s) (ht : Chunked t) (h : Sum r s t) {row col : Nat}
    (h1 : row < r.ny) (h2 : col < r.nx) {x y z : ℝ} (ex : slope false r row col = some ⟨num x, false⟩) (ey : slope false s row col = some ⟨num y, false⟩)
    (ez : slope false t row col = some ⟨num z, false⟩) : z ≤ x + y := by
  unfold slope at ex ey ez
  rw [mapCells_eq _ r hr h1 h2, Option.map_some, Option.some.injEq] at ex
  rw [mapCells_eq _ s hs (by rw [h.ny.1]; exact h1) (by rw [h.nx.1]; exact h2), Option.map_some, Option.some.injEq] at ey
  rw [mapCells_eq _ t ht (by rw [h.ny.2]; exact h1) (by rw [h.nx.2]; exact h2), Option.map_some, Option.some.injEq] at ez
  have open_ : ∀ {u : Surface.Raster} {nv v : Val} {w : ℝ}, finalize u nv row col v = ⟨num w, false⟩ → v = num w := by
    intro u nv v w e
    unfold finalize at e
    split at e
    · cases e
    · cases e; rfl
  have ex := open_ ex
  have ey := open_ ey
  have ez := open_ ez
  have hsum : (fun i j : Int => t.extended ((row : Int) + i) ((col : Int) + j)) =
      fun i j => (fun i j : Int => r.extended (row + i) (col + j)) i j + (fun i j : Int => s.extended (row + i) (col + j)) i j := by
    funext i j
    exact extended_sum h _ _
  rw [hsum] at ez
  unfold slopeCell at ex ey ez
  rw [gradient_add, h.res.2] at ez
  rw [h.res.1] at ey
  revert ex ey ez
  generalize gradient r.res (fun i j : Int => r.extended (row + i) (col + j)) = g
  generalize gradient r.res (fun i j : Int => s.extended (row + i) (col + j)) = g'
  obtain ⟨p, q⟩ := g
  obtain ⟨p', q'⟩ := g'
  simp only [Bool.false_eq_true, if_false]
  intro ex ey ez
  cases p with
  | nan => cases ex
  | num p => cases q with
    | nan => cases ex
    | num q => cases p' with
      | nan => cases ey
      | num p' => cases q' with
        | nan => cases ey
        | num q' =>
          simp only [num_mul, num_add, sqrt_num, Val.num.injEq] at ex ey ez
          rw [← ex, ← ey, ← ez]
          exact norm_triangle p q p' q'

/-! ### Cases -/

example : Elevated (fun v => num 100 + v) (Toy.raster (2, -3) fun i j => i * j) (Toy.raster (2, -3) fun i j => 100 + i * j) ∧
    Zoomed 3 (Toy.raster (2, -3) fun i j => i * j) (Toy.raster (3 * 2, 3 * -3) fun i j => 3 * (i * j)) ∧
    Sum (Toy.raster (2, -3) fun i j => i * j) (Toy.raster (2, -3) fun i j => i) (Toy.raster (2, -3) fun i j => i * j + i) :=
  ⟨⟨rfl, rfl, rfl, rfl, fun _ _ _ _ => rfl, fun _ _ _ _ => rfl⟩, ⟨rfl, rfl, rfl, rfl, fun _ _ _ _ => rfl, fun _ _ _ _ => rfl⟩,
    ⟨⟨rfl, rfl⟩, ⟨rfl, rfl⟩, ⟨rfl, rfl⟩, (fun _ _ _ _ h => nomatch h), (fun _ _ _ _ h => nomatch h), (fun _ _ _ _ h => nomatch h), fun _ _ _ _ => rfl,
      fun _ _ _ _ _ => rfl⟩⟩

/-- Slopes of 3 to the east and of 4 to the north, for `C120_slope_sum`. -/
example : slope false (Toy.raster (2, -3) (plane (2, -3) 3 0 0 0 0)) 2 3 = some ⟨num 3, false⟩ ∧ slope false (Toy.raster (2, -3) (plane (2, -3) 0 4 0 0 0)) 2 3 = some ⟨num 4, false⟩ ∧
    slope false (Toy.raster (2, -3) (plane (2, -3) 3 4 0 0 0)) 2 3 = some ⟨num 5, false⟩ := by
  have key : ∀ a b : ℝ, slope false (Toy.raster (2, -3) (plane (2, -3) a b 0 0 0)) 2 3 = some ⟨num (Real.sqrt (a ^ 2 + b ^ 2)), false⟩ := fun a b =>
    (C37_slope (Toy.raster (2, -3) (plane (2, -3) a b 0 0 0)) (Toy.chunked _ _) (Toy.interior _ _) a b 0 0 0 (by simp [Toy.raster]) (by simp [Toy.raster]) (Toy.elevations _ _ _ _)).1
  rw [key, key, key]
  refine ⟨?_, ?_, ?_⟩
  · rw [show (3 : ℝ) ^ 2 + 0 ^ 2 = 3 ^ 2 by norm_num, Real.sqrt_sq (by norm_num)]
  · rw [show (0 : ℝ) ^ 2 + 4 ^ 2 = 4 ^ 2 by norm_num, Real.sqrt_sq (by norm_num)]
  · rw [show (3 : ℝ) ^ 2 + 4 ^ 2 = 5 ^ 2 by norm_num, Real.sqrt_sq (by norm_num)]

end Verif.Trips.Heights
