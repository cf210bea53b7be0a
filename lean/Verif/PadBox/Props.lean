import Verif.PadBox.Model
import Mathlib.Tactic.Linarith
import Mathlib.Tactic.Ring
import Mathlib.Tactic.FieldSimp
import Mathlib.Tactic.NormNum
set_option linter.unusedSectionVars false
/-!
# C85: what `pad` covers
-/

namespace Verif.PadBox

open Verif Verif.Nulls Verif.Bands

namespace Spec

/-- The coordinates of `n` cells, the first at `x0`, each `d` after the one before. -/
def line (x0 d : Rat) (n : Nat) : List Rat := (List.range n).map fun i : Nat => x0 + i * d

/-- The raster lies on a north-up grid: first column at `x0`, columns `dx` wide, first row at `y0`, rows `dy` high. -/
structure OnGrid (p : Placed) (x0 dx y0 dy : Rat) : Prop where
  posx : 0 < dx
  posy : 0 < dy
  nx : 0 < p.raster.nx
  ny : 0 < p.raster.ny
  xs : p.xs = line x0 dx p.raster.nx
  ys : p.ys = line y0 (-dy) p.raster.ny
  stored : p.stored = (dx, -dy)

/-- The edge `m` is an edge between two columns (rows) of the grid through `x0` with cells `d` wide. -/
def Aligned (x0 d m : Rat) : Prop := ∃ k : Int, m = x0 - d / 2 + k * d

/-- `l` is the least left edge of the cells at `xs`. -/
def LeftEdge (xs : List Rat) (d l : Rat) : Prop := (∃ x ∈ xs, x - d / 2 = l) ∧ ∀ x ∈ xs, l ≤ x - d / 2

/-- `u` is the greatest right edge of the cells at `xs`. -/
def RightEdge (xs : List Rat) (d u : Rat) : Prop := (∃ x ∈ xs, x + d / 2 = u) ∧ ∀ x ∈ xs, x + d / 2 ≤ u

/-- The target asks for the extent from `(minx, miny)` to `(maxx, maxy)`. -/
inductive Asks (p : Placed) : Target → Rat → Rat → Rat → Rat → Prop
  | numbers (a b c d : Rat) : Asks p (.seq [.num a, .num b, .num c, .num d]) a b c d
  | raster (q : Placed) (x0 dx y0 dy : Rat) (hq : OnGrid q x0 dx y0 dy)
      (hc : ∀ a b, p.crs = some a → q.crs = some b → a = b) :
      Asks p (.raster q) (x0 - dx / 2) (y0 - q.raster.ny * dy + dy / 2) (x0 + q.raster.nx * dx - dx / 2) (y0 + dy / 2)
  | path (q : Placed) (x0 dx y0 dy : Rat) (hq : OnGrid q x0 dx y0 dy)
      (hc : ∀ a b, p.crs = some a → q.crs = some b → a = b) :
      Asks p (.path (.ok q)) (x0 - dx / 2) (y0 - q.raster.ny * dy + dy / 2) (x0 + q.raster.nx * dx - dx / 2) (y0 + dy / 2)
  | geobox (crs : Option Nat) (a c e f : Rat) (ny nx : Nat) (ha : 0 < a) (he : e < 0)
      (hc : ∀ u v, p.crs = some u → crs = some v → u = v) :
      Asks p (.geobox crs ⟨a, 0, c, 0, e, f⟩ ny nx) c (f + ny * e) (c + nx * a) f

/-- The fill values can be used: nothing, a number, or one number for each band. -/
def FillOk (r : Raster) : Fill → Prop
  | .unset => True
  | .scalar _ => True
  | .list ss => ss.length = r.nb
  | .other => False

end Spec

open Spec

/-! ### Lines of coordinates -/

theorem line_length (x0 d : Rat) (n : Nat) : (line x0 d n).length = n := by simp [line]

theorem line_get (x0 d : Rat) (n i : Nat) (h : i < n) : (line x0 d n)[i]? = some (x0 + i * d) := by simp [line, h]

theorem mem_line (x0 d : Rat) (n : Nat) (x : Rat) : x ∈ line x0 d n ↔ ∃ i : Nat, i < n ∧ x = x0 + i * d := by
  simp only [line, List.mem_map, List.mem_range]
  exact ⟨fun ⟨i, h, e⟩ => ⟨i, h, e.symm⟩, fun ⟨i, h, e⟩ => ⟨i, h, e.symm⟩⟩

theorem first_line (x0 d : Rat) (n : Nat) (h : 0 < n) : first (line x0 d n) = x0 := by
  obtain ⟨m, rfl⟩ := Nat.exists_eq_succ_of_ne_zero (Nat.pos_iff_ne_zero.mp h)
  simp [first, line, List.range_succ_eq_map]

theorem last_line (x0 d : Rat) (n : Nat) (h : 0 < n) : last (line x0 d n) = x0 + ((n : Rat) - 1) * d := by
  obtain ⟨m, rfl⟩ := Nat.exists_eq_succ_of_ne_zero (Nat.pos_iff_ne_zero.mp h)
  simp [last, line, List.range_succ]

theorem line_neg (x0 d : Rat) (n : Nat) : (line x0 d n).map (fun x => -x) = line (-x0) (-d) n := by
  simp only [line, List.map_map]
  apply List.map_congr_left
  intro i _
  simp only [Function.comp]
  ring

theorem line_reverse (x0 d : Rat) (n : Nat) : (line x0 d n).reverse = line (x0 + ((n : Rat) - 1) * d) (-d) n := by
  apply List.ext_getElem?
  intro i
  by_cases h : i < n
  · rw [List.getElem?_reverse (by rw [line_length]; exact h), line_length, line_get _ _ _ _ (by omega), line_get _ _ _ _ h]
    congr 1
    rw [Nat.cast_sub (by omega), Nat.cast_sub (by omega)]
    push_cast
    ring
  · rw [List.getElem?_eq_none (by simp [line_length]; omega), List.getElem?_eq_none (by simp [line_length]; omega)]

/-- The columns that are added in the west. -/
theorem west_line {x0 d m : Rat} {n : Nat} (hd : 0 < d) (hn : 0 < n) :
    ∃ k : Nat, westward (line x0 d n) d m = ((k : Int), line (x0 - k * d) d (n + k)) ∧
      (k = 0 ∨ m < x0 - k * d) ∧ x0 - (k + 1) * d ≤ m := by
  unfold westward
  rw [first_line _ _ _ hn, last_line _ _ _ hn]
  by_cases h : x0 - d > m
  · rw [if_pos h]
    set q : Rat := (m - (x0 + ((n : Rat) - 1) * d)) / (-d) with hq
    have hqd : q * d = x0 + ((n : Rat) - 1) * d - m := by
      rw [hq]; field_simp; ring
    have hgt : (n : Rat) < q := by
      by_contra hc
      have : q * d ≤ n * d := mul_le_mul_of_nonneg_right (not_lt.mp hc) hd.le
      rw [hqd] at this
      linarith
    have hc1 := Int.le_ceil q
    have hc2 := Int.ceil_lt_add_one q
    have hN : (n : Int) < ⌈q⌉ := by
      rw [Int.lt_ceil]; exact_mod_cast hgt
    obtain ⟨k, hk⟩ : ∃ k : Nat, ⌈q⌉ = ((n + k : Nat) : Int) := ⟨(⌈q⌉ - n).toNat, by omega⟩
    have hkr : ((⌈q⌉ : Int) : Rat) = (n : Rat) + k := by rw [hk]; push_cast; ring
    rw [hkr] at hc1 hc2
    refine ⟨k, ?_, ?_, ?_⟩
    · have hl : (arange (x0 + ((n : Rat) - 1) * d) m (-d)) = line (x0 + ((n : Rat) - 1) * d) (-d) (n + k) := by
        unfold arange line
        rw [← hq, hk]
        rfl
      simp only [hl, line_reverse, line_length]
      refine Prod.ext ?_ ?_
      · simp only []; push_cast; ring
      · simp only [neg_neg]
        congr 1
        push_cast
        ring
    · right
      have : (((n : Rat) + k) - 1) * d < q * d := mul_lt_mul_of_pos_right (by linarith) hd
      rw [hqd] at this
      nlinarith
    · have : q * d ≤ ((n : Rat) + k) * d := mul_le_mul_of_nonneg_right hc1 hd.le
      rw [hqd] at this
      nlinarith
  · rw [if_neg h]
    refine ⟨0, ?_, Or.inl rfl, ?_⟩
    · simp
    · have := not_lt.mp h
      push_cast
      linarith

/-- The columns that are added in the east. -/
theorem east_line {x0 d m : Rat} {n : Nat} (hd : 0 < d) (hn : 0 < n) :
    ∃ k : Nat, eastward (line x0 d n) (x0 + ((n : Rat) - 1) * d) d m = ((k : Int), line x0 d (n + k)) ∧
      (k = 0 ∨ x0 + ((n : Rat) - 1 + k) * d < m) ∧ m ≤ x0 + ((n : Rat) + k) * d := by
  unfold eastward
  rw [first_line _ _ _ hn]
  by_cases h : x0 + ((n : Rat) - 1) * d + d < m
  · rw [if_pos h]
    set q : Rat := (m - x0) / d with hq
    have hqd : q * d = m - x0 := by
      rw [hq]; field_simp
    have hgt : (n : Rat) < q := by
      by_contra hc
      have : q * d ≤ n * d := mul_le_mul_of_nonneg_right (not_lt.mp hc) hd.le
      rw [hqd] at this
      linarith
    have hc1 := Int.le_ceil q
    have hc2 := Int.ceil_lt_add_one q
    have hN : (n : Int) < ⌈q⌉ := by
      rw [Int.lt_ceil]; exact_mod_cast hgt
    obtain ⟨k, hk⟩ : ∃ k : Nat, ⌈q⌉ = ((n + k : Nat) : Int) := ⟨(⌈q⌉ - n).toNat, by omega⟩
    have hkr : ((⌈q⌉ : Int) : Rat) = (n : Rat) + k := by rw [hk]; push_cast; ring
    rw [hkr] at hc1 hc2
    refine ⟨k, ?_, ?_, ?_⟩
    · have hl : (arange x0 m d) = line x0 d (n + k) := by
        unfold arange line
        rw [← hq, hk]
        rfl
      simp only [hl, line_length]
      refine Prod.ext ?_ rfl
      simp only []; push_cast; ring
    · right
      have : (((n : Rat) + k) - 1) * d < q * d := mul_lt_mul_of_pos_right (by linarith) hd
      rw [hqd] at this
      nlinarith
    · have : q * d ≤ ((n : Rat) + k) * d := mul_le_mul_of_nonneg_right hc1 hd.le
      rw [hqd] at this
      nlinarith
  · rw [if_neg h]
    refine ⟨0, ?_, Or.inl rfl, ?_⟩
    · simp
    · have := not_lt.mp h
      push_cast
      linarith

theorem arange_neg (a b s : Rat) : arange (-a) (-b) (-s) = (arange a b s).map (fun x => -x) := by
  unfold arange
  have : (-b - -a) / -s = (b - a) / s := by
    rw [show -b - -a = -(b - a) by ring, neg_div_neg_eq]
  rw [this, List.map_map]
  apply List.map_congr_left
  intro i _
  simp only [Function.comp]
  ring

theorem first_neg (l : List Rat) : first (l.map fun x => -x) = -first l := by
  cases l <;> simp [first]

theorem last_neg (l : List Rat) : last (l.map fun x => -x) = -last l := by
  rcases List.eq_nil_or_concat l with h | ⟨m, x, h⟩
  · subst h; simp [last]
  · subst h; simp [last]

theorem neg_neg_map (l : List Rat) : (l.map fun x => -x).map (fun x => -x) = l := by
  simp [List.map_map]

theorem north_eq (ys : List Rat) (res m : Rat) :
    northward ys res m =
      ((westward (ys.map fun x => -x) (-res) (-m)).1, (westward (ys.map fun x => -x) (-res) (-m)).2.map fun x => -x) := by
  unfold northward westward
  rw [first_neg, last_neg]
  by_cases h : first ys - res < m
  · rw [if_pos h, if_pos (by linarith)]
    simp only [arange_neg, List.length_reverse, List.length_map, List.map_reverse, neg_neg_map]
  · rw [if_neg h, if_neg (by intro hc; apply h; linarith)]
    simp only [neg_neg_map]

theorem south_eq (ys : List Rat) (bottom res m : Rat) :
    southward ys bottom res m =
      ((eastward (ys.map fun x => -x) (-bottom) (-res) (-m)).1,
        (eastward (ys.map fun x => -x) (-bottom) (-res) (-m)).2.map fun x => -x) := by
  unfold southward eastward
  rw [first_neg]
  by_cases h : bottom + res > m
  · rw [if_pos h, if_pos (by linarith)]
    simp only [arange_neg, List.length_map, neg_neg_map]
  · rw [if_neg h, if_neg (by intro hc; apply h; linarith)]
    simp only [neg_neg_map]

/-! ### The box of a raster on a grid -/

/-- How many cells are added at the start and the end of an axis through `x0`, for a target from `lo` to `hi`. -/
structure Counts (x0 d : Rat) (n : Nat) (lo hi : Rat) (b a : Nat) : Prop where
  before : b = 0 ∨ lo < x0 - b * d
  enough : x0 - (b + 1) * d ≤ lo
  after : a = 0 ∨ x0 + ((n : Rat) - 1 + a) * d < hi
  enough' : hi ≤ x0 + ((n : Rat) + a) * d

theorem axis_line {x0 d lo hi : Rat} {n : Nat} (hd : 0 < d) (hn : 0 < n) :
    ∃ b a : Nat, westward (line x0 d n) d lo = ((b : Int), line (x0 - b * d) d (n + b)) ∧
      eastward (line (x0 - b * d) d (n + b)) (x0 + ((n : Rat) - 1) * d) d hi = ((a : Int), line (x0 - b * d) d (n + b + a)) ∧
      Counts x0 d n lo hi b a := by
  obtain ⟨b, hb1, hb2, hb3⟩ := west_line (x0 := x0) (m := lo) hd hn
  obtain ⟨a, ha1, ha2, ha3⟩ := east_line (x0 := x0 - b * d) (m := hi) (n := n + b) hd (by omega)
  have e1 : x0 - b * d + (((n + b : Nat) : Rat) - 1) * d = x0 + ((n : Rat) - 1) * d := by push_cast; ring
  rw [e1] at ha1
  refine ⟨b, a, hb1, ha1, hb2, hb3, ?_, ?_⟩
  · rcases ha2 with h | h
    · exact Or.inl h
    · right
      have e2 : x0 - b * d + (((n + b : Nat) : Rat) - 1 + a) * d = x0 + ((n : Rat) - 1 + a) * d := by push_cast; ring
      rw [← e2]; exact h
  · have e2 : x0 - b * d + (((n + b : Nat) : Rat) + a) * d = x0 + ((n : Rat) + a) * d := by push_cast; ring
    rw [← e2]; exact ha3

theorem padBox_onGrid {p : Placed} {x0 dx y0 dy : Rat} (h : OnGrid p x0 dx y0 dy) (b : Rat × Rat × Rat × Rat) :
    ∃ l r t s : Nat, padBox p b = ⟨t, s, l, r, line (y0 + t * dy) (-dy) (p.raster.ny + t + s), line (x0 - l * dx) dx (p.raster.nx + l + r)⟩ ∧
      Counts x0 dx p.raster.nx b.1 b.2.2.1 l r ∧ Counts (-y0) dy p.raster.ny (-b.2.2.2) (-b.2.1) t s := by
  obtain ⟨l, r, hw, he, hc⟩ := axis_line (x0 := x0) (lo := b.1) (hi := b.2.2.1) h.posx h.nx
  obtain ⟨t, s, hn, hs, hc'⟩ := axis_line (x0 := -y0) (lo := -b.2.2.2) (hi := -b.2.1) h.posy h.ny
  refine ⟨l, r, t, s, ?_, hc, hc'⟩
  have hres : resolution false p = (dx, -dy) := by simp [resolution, h.stored]
  have hN : northward (line y0 (-dy) p.raster.ny) (-dy) b.2.2.2 = ((t : Int), line (y0 + t * dy) (-dy) (p.raster.ny + t)) := by
    rw [north_eq, line_neg, neg_neg, hn]
    simp only [line_neg]
    refine Prod.ext rfl ?_
    simp only []
    congr 1
    ring
  have hS : southward (line (y0 + t * dy) (-dy) (p.raster.ny + t)) (y0 + ((p.raster.ny : Rat) - 1) * -dy) (-dy) b.2.1 =
      ((s : Int), line (y0 + t * dy) (-dy) (p.raster.ny + t + s)) := by
    have e1 : -(y0 + t * dy) = -y0 - t * dy := by ring
    have e2 : -(y0 + ((p.raster.ny : Rat) - 1) * -dy) = -y0 + ((p.raster.ny : Rat) - 1) * dy := by ring
    have e3 : -(-y0 - t * dy) = y0 + t * dy := by ring
    rw [south_eq, line_neg, neg_neg, e1, e2, hs]
    simp only [line_neg, e3]
  unfold padBox
  rw [hres, h.xs, h.ys, last_line _ _ _ h.nx, last_line _ _ _ h.ny]
  simp only [hN, hS, hw, he]

/-! ### Targets -/

theorem clash_false {a b : Option Nat} (h : ∀ u v, a = some u → b = some v → u = v) : clash a b = false := by
  cases a with
  | none => rfl
  | some u => cases b with
    | none => rfl
    | some v => simp [clash, h u v rfl rfl]

theorem clash_true {a b : Option Nat} : clash a b = true ↔ ∃ u v, a = some u ∧ b = some v ∧ u ≠ v := by
  cases a with
  | none => simp [clash]
  | some u => cases b with
    | none => simp [clash]
    | some v => simp [clash]

theorem resolution_onGrid {q : Placed} {x0 dx y0 dy : Rat} (h : OnGrid q x0 dx y0 dy) : resolution true q = (dx, -dy) := by
  unfold resolution
  split
  · exact h.stored
  · rename_i hn
    simp only [h.xs, h.ys, line_length, Bool.not_true, Bool.false_or, Bool.or_eq_true, beq_iff_eq, not_or] at hn
    have hx : (1 : Rat) < q.raster.nx := by exact_mod_cast (by have := h.nx; omega : 1 < q.raster.nx)
    have hy : (1 : Rat) < q.raster.ny := by exact_mod_cast (by have := h.ny; omega : 1 < q.raster.ny)
    rw [h.xs, h.ys, last_line _ _ _ h.nx, last_line _ _ _ h.ny, first_line _ _ _ h.nx, first_line _ _ _ h.ny, line_length, line_length]
    refine Prod.ext ?_ ?_
    · simp only []
      rw [add_sub_cancel_left, mul_div_cancel_left₀ _ (by linarith)]
    · simp only []
      rw [add_sub_cancel_left, mul_div_cancel_left₀ _ (by linarith)]

theorem bounds_onGrid {q : Placed} {x0 dx y0 dy : Rat} (h : OnGrid q x0 dx y0 dy) :
    bounds q = (x0 - dx / 2, y0 - q.raster.ny * dy + dy / 2, x0 + q.raster.nx * dx - dx / 2, y0 + dy / 2) := by
  have ha : affine q = ⟨dx, 0, x0 - dx / 2, 0, -dy, y0 + dy / 2⟩ := by
    unfold affine
    rw [resolution_onGrid h, h.xs, h.ys, first_line _ _ _ h.nx, first_line _ _ _ h.ny]
    simp only [neg_div, sub_neg_eq_add]
  unfold bounds
  rw [ha]
  simp only [Grid.rowcolToXy, Grid.Affine.mul, Grid.Affine.translation, Grid.Affine.apply, Grid.Offset.rc]
  refine Prod.ext ?_ (Prod.ext ?_ (Prod.ext ?_ ?_)) <;> simp only [] <;> ring

theorem resolve_asks {p : Placed} {t : Target} {a b c d : Rat} (h : Asks p t a b c d) :
    resolveBounds p t = .ok (a, b, c, d) := by
  cases h with
  | numbers => rfl
  | raster q x0 dx y0 dy hq hc => simp [resolveBounds, rasterBounds, clash_false hc, bounds_onGrid hq]
  | path q x0 dx y0 dy hq hc => simp [resolveBounds, rasterBounds, clash_false hc, bounds_onGrid hq]
  | geobox crs a c e f ny nx ha he hc =>
    simp only [resolveBounds, clash_false hc, Bool.false_eq_true, if_false]
    congr 1
    have h1 : (0 : Rat) ≤ nx * a := mul_nonneg (Nat.cast_nonneg _) ha.le
    have h2 : (ny : Rat) * e ≤ 0 := mul_nonpos_of_nonneg_of_nonpos (Nat.cast_nonneg _) he.le
    simp only [boundingbox, Grid.Affine.apply, zero_mul, mul_zero, zero_add, add_zero]
    refine Prod.ext ?_ (Prod.ext ?_ (Prod.ext ?_ ?_)) <;> simp only []
    · rw [min_self, min_eq_left (by linarith)]
    · rw [min_self, min_self, min_eq_right (by linarith)]; ring
    · rw [max_self, max_eq_right (by linarith)]; ring
    · rw [max_self, max_self, max_eq_left (by linarith)]

theorem fill_ok {r : Raster} {fill : Fill} (h : FillOk r fill) : ∃ v, validateFill r fill = .ok v := by
  cases fill with
  | unset => exact ⟨_, rfl⟩
  | scalar s => exact ⟨_, rfl⟩
  | other => exact h.elim
  | list ss =>
    have h : ss.length = r.nb := h
    exact ⟨(ss, ss.map fun s => equalsNull s.val r.nv, r.nv), by simp [validateFill, h]⟩

/-- What `pad` gives for a raster on a grid. -/
theorem pad_onGrid {np : NumPy} {p : Placed} {t : Target} {fill : Fill} {x0 dx y0 dy a b c d : Rat}
    (h : OnGrid p x0 dx y0 dy) (ht : Asks p t a b c d) (hf : FillOk p.raster fill) :
    ∃ o, ∃ l r u s : Nat, pad np p t fill =
        .ok ⟨o, line (x0 - l * dx) dx (p.raster.nx + l + r), line (y0 + u * dy) (-dy) (p.raster.ny + u + s), p.crs⟩ ∧
      Bands.pad np p.raster ⟨u, s, l, r⟩ fill = .ok o ∧ Counts x0 dx p.raster.nx a c l r ∧ Counts (-y0) dy p.raster.ny (-d) (-b) u s := by
  obtain ⟨l, r, u, s, hbox, h1, h2⟩ := padBox_onGrid h (a, b, c, d)
  obtain ⟨v, hv⟩ := fill_ok hf
  obtain ⟨o, ho⟩ : ∃ o, Bands.pad np p.raster ⟨u, s, l, r⟩ fill = .ok o := by
    unfold Bands.pad
    rw [hv]
    exact ⟨_, rfl⟩
  refine ⟨o, l, r, u, s, ?_, ho, h1, h2⟩
  have hm : (padBox p (a, b, c, d)).margins = .ok ⟨u, s, l, r⟩ := by
    rw [hbox]
    have : ∀ k : Nat, ¬ ((k : Int) < 0) := fun k => by omega
    simp [Box.margins]
  unfold pad padTo
  simp only [resolve_asks ht, hv, hm, ho]
  rw [hbox]

/-! ### The theorems -/

theorem counts_mem {x0 d lo hi : Rat} {n b a : Nat} (hd : 0 < d) (hc : Counts x0 d n lo hi b a) (k : Int) :
    (x0 + k * d ∈ line (x0 - b * d) d (n + b + a)) ↔
      (0 ≤ k ∧ k < n) ∨ (k < 0 ∧ lo < x0 + k * d) ∨ ((n : Int) ≤ k ∧ x0 + k * d < hi) := by
  rw [mem_line]
  have key : (∃ i : Nat, i < n + b + a ∧ x0 + k * d = x0 - b * d + i * d) ↔ -(b : Int) ≤ k ∧ k < n + a := by
    constructor
    · rintro ⟨i, hi, e⟩
      have : (k : Rat) = i - b := by
        have : ((k : Rat) - (i - b)) * d = 0 := by linarith [e]
        rcases mul_eq_zero.mp this with h | h
        · linarith
        · exact absurd h hd.ne'
      have : k = i - b := by exact_mod_cast this
      omega
    · rintro ⟨h1, h2⟩
      refine ⟨(k + b).toNat, by omega, ?_⟩
      have : ((k + b).toNat : Rat) = k + b := by
        have : ((k + b).toNat : Int) = k + b := by omega
        exact_mod_cast this
      rw [this]
      ring
  rw [key]
  have pos : ∀ q : Rat, 0 < q * d → 0 < q := fun q h => by
    by_contra hq
    have := mul_nonpos_of_nonpos_of_nonneg (not_lt.mp hq) hd.le
    linarith
  constructor
  · rintro ⟨h1, h2⟩
    rcases lt_or_ge k 0 with hk | hk
    · right; left
      refine ⟨hk, ?_⟩
      rcases hc.before with h | h
      · omega
      · have : (-(b : Rat)) * d ≤ k * d := mul_le_mul_of_nonneg_right (by exact_mod_cast h1) hd.le
        linarith
    · rcases lt_or_ge k n with hk' | hk'
      · exact Or.inl ⟨hk, hk'⟩
      · right; right
        refine ⟨hk', ?_⟩
        rcases hc.after with h | h
        · omega
        · have h3 : k ≤ n - 1 + a := by omega
          have : (k : Rat) * d ≤ ((n : Rat) - 1 + a) * d := mul_le_mul_of_nonneg_right (by exact_mod_cast h3) hd.le
          linarith
  · rintro (⟨h1, h2⟩ | ⟨h1, h2⟩ | ⟨h1, h2⟩)
    · omega
    · refine ⟨?_, by omega⟩
      have h3 := hc.enough
      have : (0 : Rat) < k + (b + 1) := pos _ (by linarith)
      have : (0 : Int) < k + (b + 1) := by exact_mod_cast this
      omega
    · refine ⟨by omega, ?_⟩
      have h3 := hc.enough'
      have : (0 : Rat) < (n : Rat) + a - k := pos _ (by linarith)
      have : (0 : Int) < (n : Int) + a - k := by exact_mod_cast this
      omega

/-- **C85**, the grid: `pad` keeps the rows and columns of the raster and its CRS; it adds the columns west of it whose centre is east of
`minx`, the columns east of it whose centre is west of `maxx`, and rows in the same way; nothing else.  The coordinates are
those of the grid of the raster, in order. -/
theorem C85_grid {np : NumPy} {p : Placed} {t : Target} {fill : Fill} {x0 dx y0 dy minx miny maxx maxy : Rat}
    (h : OnGrid p x0 dx y0 dy) (ht : Asks p t minx miny maxx maxy) (hf : FillOk p.raster fill) :
    ∃ o, pad np p t fill = .ok o ∧ o.crs = p.crs ∧ o.raster.nb = p.raster.nb ∧ o.raster.dtype = p.raster.dtype ∧
      (∃ u, o.xs = line u dx o.raster.nx) ∧ (∃ u, o.ys = line u (-dy) o.raster.ny) ∧
      (∀ x ∈ o.xs, ∃ k : Int, x = x0 + k * dx) ∧ (∀ y ∈ o.ys, ∃ k : Int, y = y0 - k * dy) ∧
      (∀ k : Int, x0 + k * dx ∈ o.xs ↔
        (0 ≤ k ∧ k < p.raster.nx) ∨ (k < 0 ∧ minx < x0 + k * dx) ∨ ((p.raster.nx : Int) ≤ k ∧ x0 + k * dx < maxx)) ∧
      (∀ k : Int, y0 - k * dy ∈ o.ys ↔
        (0 ≤ k ∧ k < p.raster.ny) ∨ (k < 0 ∧ y0 - k * dy < maxy) ∨ ((p.raster.ny : Int) ≤ k ∧ miny < y0 - k * dy)) := by
  obtain ⟨o, l, r, u, s, ho, hb, h1, h2⟩ := pad_onGrid (np := np) h ht hf
  have hshape : o.nb = p.raster.nb ∧ o.dtype = p.raster.dtype ∧ o.nx = p.raster.nx + l + r ∧ o.ny = p.raster.ny + u + s := by
    obtain ⟨v, hv⟩ := fill_ok hf
    unfold Bands.pad at hb
    rw [hv] at hb
    have hb := Except.ok.inj hb
    subst hb
    refine ⟨rfl, rfl, ?_, ?_⟩ <;> simp only [] <;> omega
  refine ⟨_, ho, rfl, hshape.1, hshape.2.1, ⟨_, by rw [hshape.2.2.1]⟩, ⟨_, by rw [hshape.2.2.2]⟩, ?_, ?_, ?_, ?_⟩
  · intro x hx
    obtain ⟨i, _, rfl⟩ := (mem_line _ _ _ _).mp hx
    exact ⟨(i : Int) - l, by push_cast; ring⟩
  · intro x hx
    obtain ⟨i, _, rfl⟩ := (mem_line _ _ _ _).mp hx
    exact ⟨(i : Int) - u, by push_cast; ring⟩
  · exact counts_mem h.posx h1
  · intro k
    have hk := counts_mem h.posy h2 k
    have e : (y0 - k * dy ∈ line (y0 + u * dy) (-dy) (p.raster.ny + u + s)) ↔
        (-y0 + k * dy ∈ line (-y0 - u * dy) dy (p.raster.ny + u + s)) := by
      rw [mem_line, mem_line]
      constructor
      · rintro ⟨i, hi, e⟩; exact ⟨i, hi, by linarith⟩
      · rintro ⟨i, hi, e⟩; exact ⟨i, hi, by linarith⟩
    rw [e, hk]
    constructor
    · rintro (h | ⟨h, h'⟩ | ⟨h, h'⟩)
      · exact Or.inl h
      · exact Or.inr (Or.inl ⟨h, by linarith⟩)
      · exact Or.inr (Or.inr ⟨h, by linarith⟩)
    · rintro (h | ⟨h, h'⟩ | ⟨h, h'⟩)
      · exact Or.inl h
      · exact Or.inr (Or.inl ⟨h, by linarith⟩)
      · exact Or.inr (Or.inr ⟨h, by linarith⟩)

/-- **C85**, the cells: every cell of the raster is found again, at its coordinates, with its value and null state; the cells at
other coordinates hold the fill. -/
theorem C85_cells {np : NumPy} {p : Placed} {t : Target} {fill : Fill} {o : Padded} {x0 dx y0 dy minx miny maxx maxy : Rat}
    (h : OnGrid p x0 dx y0 dy) (hm : MaskNeedsNull p.raster) (ht : Asks p t minx miny maxx maxy)
    (ho : pad np p t fill = .ok o) :
    (∀ i j i' j' : Nat, ∀ x y, p.ys[i]? = some y → p.xs[j]? = some x → o.ys[i']? = some y → o.xs[j']? = some x →
      ∀ b, o.raster.data (b, i', j') = p.raster.data (b, i, j) ∧ o.raster.mask (b, i', j') = p.raster.mask (b, i, j)) ∧
    (∀ y ∈ p.ys, y ∈ o.ys) ∧ (∀ x ∈ p.xs, x ∈ o.xs) ∧
    (∀ i' j' : Nat, ∀ x y, o.ys[i']? = some y → o.xs[j']? = some x → y ∉ p.ys ∨ x ∉ p.xs → ∀ b, b < p.raster.nb →
      (o.raster.mask (b, i', j') = true ↔
        fill = .unset ∨ ∃ f s, Bands.Spec.fillOf fill b = some f ∧ p.raster.nv = some s ∧ f.val = s.val) ∧
      (∀ f, Bands.Spec.fillOf fill b = some f → (∀ g k, Bands.Spec.fillOf fill k = some g → g.ty = f.ty) →
        np.cast f.ty f.val = f.val → np.cast p.raster.dtype f.val = f.val → o.raster.data (b, i', j') = f.val)) := by
  have hf : FillOk p.raster fill := by
    unfold pad at ho
    rw [resolve_asks ht] at ho
    unfold padTo at ho
    cases fill with
    | unset => trivial
    | scalar s => trivial
    | other => simp [validateFill] at ho
    | list ss =>
      by_contra hc
      have hc : ¬ ss.length = p.raster.nb := hc
      simp [validateFill, hc] at ho
  obtain ⟨o', l, r, u, s, ho', hb, h1, h2⟩ := pad_onGrid (np := np) h ht hf
  rw [ho'] at ho
  have ho := Except.ok.inj ho
  subst ho
  obtain ⟨_, _, _, _, _, hold, hnew⟩ := C24_pad hm hb
  have hix : ∀ (z d : Rat) (i j n m : Nat) (q : Rat), d ≠ 0 → (line z d n)[i]? = some q → ∀ l : Nat, (line (z - l * d) d m)[j]? = some q →
      j = l + i ∧ i < n := by
    intro z d i j n m q hd e1 l e2
    have hi : i < n := by
      by_contra hc
      rw [List.getElem?_eq_none (by rw [line_length]; omega)] at e1
      cases e1
    have hj : j < m := by
      by_contra hc
      rw [List.getElem?_eq_none (by rw [line_length]; omega)] at e2
      cases e2
    rw [line_get _ _ _ _ hi] at e1
    rw [line_get _ _ _ _ hj] at e2
    have e1 := Option.some.inj e1
    have e2 := Option.some.inj e2
    refine ⟨?_, hi⟩
    have : ((j : Rat) - (l + i)) * d = 0 := by linarith
    rcases mul_eq_zero.mp this with h' | h'
    · have : (j : Rat) = (l + i : Nat) := by push_cast; linarith
      exact_mod_cast this
    · exact absurd h' hd
  have hin : ∀ (z d : Rat) (n m l : Nat) (q : Rat), n + l ≤ m → q ∈ line z d n → q ∈ line (z - l * d) d m := by
    intro z d n m l q hle hq
    obtain ⟨i, hi, rfl⟩ := (mem_line _ _ _ _).mp hq
    exact (mem_line _ _ _ _).mpr ⟨i + l, by omega, by push_cast; ring⟩
  have hout : ∀ (z d : Rat) (n m l j : Nat) (q : Rat), (line (z - l * d) d m)[j]? = some q → q ∉ line z d n → j < l ∨ l + n ≤ j := by
    intro z d n m l j q e hq
    by_contra hc
    apply hq
    have hj : j < m := by
      by_contra hc'
      rw [List.getElem?_eq_none (by rw [line_length]; omega)] at e
      cases e
    rw [line_get _ _ _ _ hj] at e
    have e := Option.some.inj e
    refine (mem_line _ _ _ _).mpr ⟨j - l, by omega, ?_⟩
    rw [← e, Nat.cast_sub (by omega)]
    ring
  have hy0 : y0 + u * dy = y0 - u * -dy := by ring
  have hdy : -dy ≠ 0 := neg_ne_zero.mpr h.posy.ne'
  refine ⟨?_, ?_, ?_, ?_⟩
  · intro i j i' j' x y e1 e2 e3 e4 b
    rw [h.ys] at e1
    rw [h.xs] at e2
    simp only [hy0] at e3
    obtain ⟨rfl, hi⟩ := hix _ _ _ _ _ _ _ hdy e1 _ e3
    obtain ⟨rfl, hj⟩ := hix _ _ _ _ _ _ _ h.posx.ne' e2 _ e4
    exact hold b i j hi hj
  · intro y hy
    rw [h.ys] at hy
    simp only [hy0]
    exact hin _ _ _ _ _ _ (by omega) hy
  · intro x hx
    rw [h.xs] at hx
    exact hin _ _ _ _ _ _ (by omega) hx
  · intro i' j' x y e1 e2 hxy b hbb
    simp only [hy0] at e1
    have hcell : i' < u ∨ u + p.raster.ny ≤ i' ∨ j' < l ∨ l + p.raster.nx ≤ j' := by
      rcases hxy with hy | hx
      · rw [h.ys] at hy
        rcases hout _ _ _ _ _ _ _ e1 hy with h' | h' <;> tauto
      · rw [h.xs] at hx
        rcases hout _ _ _ _ _ _ _ e2 hx with h' | h' <;> tauto
    exact ⟨(hnew b i' j' hbb hcell).1, fun f hf' hty h3 h4 => C24_exact_fill hm hb hbb hcell hf' hty h3 h4⟩

/-! ### What is covered -/

theorem edge_low {x0 d lo hi : Rat} {n b a : Nat} (hd : 0 < d) (hn : 0 < n) (hc : Counts x0 d n lo hi b a) (ha : Aligned x0 d lo) :
    min lo (x0 - d / 2) = x0 - b * d - d / 2 := by
  obtain ⟨k, hk⟩ := ha
  have pos : ∀ q : Rat, 0 < q * d → 0 < q := fun q h => by
    by_contra hq
    have := mul_nonpos_of_nonpos_of_nonneg (not_lt.mp hq) hd.le
    linarith
  have nn : ∀ q : Rat, 0 ≤ q * d → 0 ≤ q := fun q h => by
    by_contra hq
    have := mul_neg_of_neg_of_pos (not_le.mp hq) hd
    linarith
  have h1 : (0 : Int) ≤ k + b := by
    have := hc.enough
    have h2 : (0 : Rat) ≤ k + b + 1 / 2 := nn _ (by linarith)
    have h3 : (-1 : Rat) < ((k + b : Int) : Rat) := by push_cast; linarith
    have : (-1 : Int) < k + b := by exact_mod_cast h3
    omega
  rcases hc.before with h0 | h0
  · subst h0
    rw [min_eq_right]
    · push_cast; ring
    · have : (0 : Rat) ≤ (k : Rat) * d := mul_nonneg (by exact_mod_cast (by omega : (0 : Int) ≤ k)) hd.le
      rw [hk]; linarith
  · have h2 : (0 : Rat) < -(k : Rat) - b + 1 / 2 := pos _ (by linarith)
    have h3 : (-1 : Rat) < ((-k - b : Int) : Rat) := by push_cast; linarith
    have h4 : (-1 : Int) < -k - b := by exact_mod_cast h3
    have h5 : k = -(b : Int) := by omega
    have h6 : (k : Rat) = -b := by exact_mod_cast h5
    have h7 : (0 : Rat) ≤ (b : Rat) * d := mul_nonneg (Nat.cast_nonneg _) hd.le
    rw [hk, h6, min_eq_left (by linarith)]
    ring

theorem edge_high {x0 d lo hi : Rat} {n b a : Nat} (hd : 0 < d) (hn : 0 < n) (hc : Counts x0 d n lo hi b a) (ha : Aligned x0 d hi) :
    max hi (x0 + n * d - d / 2) = x0 + (n + a) * d - d / 2 := by
  obtain ⟨k, hk⟩ := ha
  have pos : ∀ q : Rat, 0 < q * d → 0 < q := fun q h => by
    by_contra hq
    have := mul_nonpos_of_nonpos_of_nonneg (not_lt.mp hq) hd.le
    linarith
  have nn : ∀ q : Rat, 0 ≤ q * d → 0 ≤ q := fun q h => by
    by_contra hq
    have := mul_neg_of_neg_of_pos (not_le.mp hq) hd
    linarith
  have h1 : k ≤ n + a := by
    have := hc.enough'
    have h2 : (0 : Rat) ≤ n + a + 1 / 2 - k := nn _ (by linarith)
    have h3 : (-1 : Rat) < ((n + a - k : Int) : Rat) := by push_cast; linarith
    have : (-1 : Int) < n + a - k := by exact_mod_cast h3
    omega
  rcases hc.after with h0 | h0
  · subst h0
    rw [max_eq_right]
    · push_cast; ring
    · have : (k : Rat) * d ≤ (n : Rat) * d := mul_le_mul_of_nonneg_right (by exact_mod_cast (by omega : k ≤ n)) hd.le
      rw [hk]; linarith
  · have h2 : (0 : Rat) < (k : Rat) - n - a + 1 / 2 := pos _ (by linarith)
    have h3 : (-1 : Rat) < ((k - n - a : Int) : Rat) := by push_cast; linarith
    have h4 : (-1 : Int) < k - n - a := by exact_mod_cast h3
    have h5 : k = n + a := by omega
    have h6 : (k : Rat) = n + a := by exact_mod_cast h5
    have h7 : (0 : Rat) ≤ (a : Rat) * d := mul_nonneg (Nat.cast_nonneg _) hd.le
    rw [hk, h6, max_eq_left (by linarith)]
    ring

theorem left_line (x0 d : Rat) (n : Nat) (hd : 0 ≤ d) (hn : 0 < n) : LeftEdge (line x0 d n) d (x0 - d / 2) := by
  refine ⟨⟨x0, (mem_line _ _ _ _).mpr ⟨0, hn, by push_cast; ring⟩, rfl⟩, ?_⟩
  intro x hx
  obtain ⟨i, _, rfl⟩ := (mem_line _ _ _ _).mp hx
  have : (0 : Rat) ≤ (i : Rat) * d := mul_nonneg (Nat.cast_nonneg _) hd
  linarith

theorem right_line (x0 d : Rat) (n : Nat) (hd : 0 ≤ d) (hn : 0 < n) : RightEdge (line x0 d n) d (x0 + n * d - d / 2) := by
  refine ⟨⟨x0 + ((n - 1 : Nat) : Rat) * d, (mem_line _ _ _ _).mpr ⟨n - 1, by omega, rfl⟩, ?_⟩, ?_⟩
  · rw [Nat.cast_sub (by omega)]; push_cast; ring
  · intro x hx
    obtain ⟨i, hi, rfl⟩ := (mem_line _ _ _ _).mp hx
    have : ((i : Rat) + 1) * d ≤ n * d := mul_le_mul_of_nonneg_right (by exact_mod_cast hi) hd
    linarith

theorem line_flip (x0 d : Rat) (n : Nat) (x : Rat) : x ∈ line x0 (-d) n ↔ -x ∈ line (-x0) d n := by
  rw [mem_line, mem_line]
  constructor
  · rintro ⟨i, hi, e⟩; exact ⟨i, hi, by linarith⟩
  · rintro ⟨i, hi, e⟩; exact ⟨i, hi, by linarith⟩

theorem left_flip {x0 d l : Rat} {n : Nat} (h : RightEdge (line (-x0) d n) d (-l)) : LeftEdge (line x0 (-d) n) d l := by
  obtain ⟨⟨x, hx, e⟩, h2⟩ := h
  refine ⟨⟨-x, (line_flip _ _ _ _).mpr (by rwa [neg_neg]), by linarith⟩, ?_⟩
  intro y hy
  have := h2 _ ((line_flip _ _ _ _).mp hy)
  linarith

theorem right_flip {x0 d l : Rat} {n : Nat} (h : LeftEdge (line (-x0) d n) d (-l)) : RightEdge (line x0 (-d) n) d l := by
  obtain ⟨⟨x, hx, e⟩, h2⟩ := h
  refine ⟨⟨-x, (line_flip _ _ _ _).mpr (by rwa [neg_neg]), by linarith⟩, ?_⟩
  intro y hy
  have := h2 _ ((line_flip _ _ _ _).mp hy)
  linarith

theorem aligned_neg {x0 d m : Rat} (h : Aligned x0 d m) : Aligned (-x0) d (-m) := by
  obtain ⟨k, hk⟩ := h
  exact ⟨1 - k, by rw [hk]; push_cast; ring⟩

/-- **C85**, the extent, for sides of the target that are edges of cells of the grid of the raster: the result reaches to the
target, or to the old edge if that is further out, and no further. -/
theorem C85_extent_partial {np : NumPy} {p : Placed} {t : Target} {fill : Fill} {o : Padded} {x0 dx y0 dy minx miny maxx maxy : Rat}
    (h : OnGrid p x0 dx y0 dy) (ht : Asks p t minx miny maxx maxy) (hf : FillOk p.raster fill)
    (ho : pad np p t fill = .ok o) :
    (Aligned x0 dx minx → LeftEdge o.xs dx (min minx (x0 - dx / 2))) ∧
    (Aligned x0 dx maxx → RightEdge o.xs dx (max maxx (x0 + p.raster.nx * dx - dx / 2))) ∧
    (Aligned y0 dy miny → LeftEdge o.ys dy (min miny (y0 - p.raster.ny * dy + dy / 2))) ∧
    (Aligned y0 dy maxy → RightEdge o.ys dy (max maxy (y0 + dy / 2))) := by
  obtain ⟨o', l, r, u, s, ho', hb, h1, h2⟩ := pad_onGrid (np := np) h ht hf
  rw [ho'] at ho
  have ho := Except.ok.inj ho
  subst ho
  have hx := h.nx
  have hy := h.ny
  have e0 : -(y0 + u * dy) = -y0 - u * dy := by ring
  refine ⟨?_, ?_, ?_, ?_⟩
  · intro ha
    rw [edge_low h.posx h.nx h1 ha]
    exact left_line _ _ _ h.posx.le (by omega)
  · intro ha
    rw [edge_high h.posx h.nx h1 ha]
    have := right_line (x0 - l * dx) dx (p.raster.nx + l + r) h.posx.le (by omega)
    have e : x0 - l * dx + ((p.raster.nx + l + r : Nat) : Rat) * dx - dx / 2 = x0 + ((p.raster.nx : Rat) + r) * dx - dx / 2 := by
      push_cast; ring
    rw [e] at this
    exact this
  · intro ha
    apply left_flip
    have := edge_high h.posy h.ny h2 (aligned_neg ha)
    have e : -(min miny (y0 - p.raster.ny * dy + dy / 2)) = max (-miny) (-y0 + p.raster.ny * dy - dy / 2) := by
      rw [min_def, max_def]
      split_ifs <;> linarith
    rw [e, this, e0]
    have := right_line (-y0 - u * dy) dy (p.raster.ny + u + s) h.posy.le (by omega)
    have e : -y0 - u * dy + ((p.raster.ny + u + s : Nat) : Rat) * dy - dy / 2 = -y0 + ((p.raster.ny : Rat) + s) * dy - dy / 2 := by
      push_cast; ring
    rw [e] at this
    exact this
  · intro ha
    apply right_flip
    have := edge_low h.posy h.ny h2 (aligned_neg ha)
    have e : -(max maxy (y0 + dy / 2)) = min (-maxy) (-y0 - dy / 2) := by
      rw [min_def, max_def]
      split_ifs <;> linarith
    rw [e, this, e0]
    exact left_line _ _ _ h.posy.le (by omega)

/-- **C85**, any target: at most half a cell of it is missing on each side. -/
theorem C85_half {np : NumPy} {p : Placed} {t : Target} {fill : Fill} {o : Padded} {x0 dx y0 dy minx miny maxx maxy : Rat}
    (h : OnGrid p x0 dx y0 dy) (ht : Asks p t minx miny maxx maxy) (hf : FillOk p.raster fill)
    (ho : pad np p t fill = .ok o) :
    (∃ x ∈ o.xs, x - dx / 2 ≤ minx + dx / 2) ∧ (∃ x ∈ o.xs, maxx - dx / 2 ≤ x + dx / 2) ∧
    (∃ y ∈ o.ys, y - dy / 2 ≤ miny + dy / 2) ∧ (∃ y ∈ o.ys, maxy - dy / 2 ≤ y + dy / 2) := by
  obtain ⟨o', l, r, u, s, ho', hb, h1, h2⟩ := pad_onGrid (np := np) h ht hf
  rw [ho'] at ho
  have ho := Except.ok.inj ho
  subst ho
  have hx := h.nx
  have hy := h.ny
  refine ⟨⟨x0 - l * dx, (mem_line _ _ _ _).mpr ⟨0, by omega, by push_cast; ring⟩, ?_⟩,
    ⟨x0 - l * dx + ((p.raster.nx + l + r - 1 : Nat) : Rat) * dx, (mem_line _ _ _ _).mpr ⟨_, by omega, rfl⟩, ?_⟩,
    ⟨y0 + u * dy + ((p.raster.ny + u + s - 1 : Nat) : Rat) * -dy, (mem_line _ _ _ _).mpr ⟨_, by omega, rfl⟩, ?_⟩,
    ⟨y0 + u * dy, (mem_line _ _ _ _).mpr ⟨0, by omega, by push_cast; ring⟩, ?_⟩⟩
  · have := h1.enough; linarith
  · have := h1.enough'
    rw [Nat.cast_sub (by omega)]; push_cast; linarith
  · have := h2.enough'
    rw [Nat.cast_sub (by omega)]; push_cast; linarith
  · have := h2.enough; linarith

/-- **C85**, nothing to add: a target within the raster leaves it as it is. -/
theorem C85_inside {np : NumPy} {p : Placed} {t : Target} {fill : Fill} {o : Padded} {x0 dx y0 dy minx miny maxx maxy : Rat}
    (h : OnGrid p x0 dx y0 dy) (hm : MaskNeedsNull p.raster) (ht : Asks p t minx miny maxx maxy) (hf : FillOk p.raster fill)
    (h1 : x0 - dx / 2 ≤ minx) (h2 : maxx ≤ x0 + p.raster.nx * dx - dx / 2)
    (h3 : y0 - p.raster.ny * dy + dy / 2 ≤ miny) (h4 : maxy ≤ y0 + dy / 2)
    (ho : pad np p t fill = .ok o) :
    o.xs = p.xs ∧ o.ys = p.ys ∧ o.raster.nx = p.raster.nx ∧ o.raster.ny = p.raster.ny ∧
      ∀ b i j, i < p.raster.ny → j < p.raster.nx →
        o.raster.data (b, i, j) = p.raster.data (b, i, j) ∧ o.raster.mask (b, i, j) = p.raster.mask (b, i, j) := by
  obtain ⟨o', l, r, u, s, ho', hb, c1, c2⟩ := pad_onGrid (np := np) h ht hf
  rw [ho'] at ho
  have ho := Except.ok.inj ho
  subst ho
  have low : ∀ (z d lo hi : Rat) (n b a : Nat), 0 < d → Counts z d n lo hi b a → z - d / 2 ≤ lo → b = 0 := by
    intro z d lo hi n b a hd hc hle
    rcases hc.before with h' | h'
    · exact h'
    · by_contra hne
      have : (1 : Rat) * d ≤ b * d := mul_le_mul_of_nonneg_right (by exact_mod_cast Nat.one_le_iff_ne_zero.mpr hne) hd.le
      linarith
  have high : ∀ (z d lo hi : Rat) (n b a : Nat), 0 < d → Counts z d n lo hi b a → hi ≤ z + n * d - d / 2 → a = 0 := by
    intro z d lo hi n b a hd hc hle
    rcases hc.after with h' | h'
    · exact h'
    · by_contra hne
      have : (1 : Rat) * d ≤ a * d := mul_le_mul_of_nonneg_right (by exact_mod_cast Nat.one_le_iff_ne_zero.mpr hne) hd.le
      linarith
  have hl := low _ _ _ _ _ _ _ h.posx c1 h1
  have hr := high _ _ _ _ _ _ _ h.posx c1 h2
  have hu := low _ _ _ _ _ _ _ h.posy c2 (by linarith)
  have hs := high _ _ _ _ _ _ _ h.posy c2 (by linarith)
  subst hl hr hu hs
  obtain ⟨_, _, hny, hnx, _, hold, _⟩ := C24_pad hm hb
  refine ⟨?_, ?_, ?_, ?_, ?_⟩
  · rw [h.xs]; simp
  · rw [h.ys]; simp
  · rw [hnx]; simp
  · rw [hny]; simp
  · intro b i j hi hj
    have := hold b i j hi hj
    simpa using this

/-- The CRSs are the same, or one of them is unknown. -/
def Spec.Fits (a b : Option Nat) : Prop := a = none ∨ b = none ∨ a = b

theorem fits_clash {a b : Option Nat} : Fits a b ↔ clash a b = false := by
  cases a with
  | none => simp [Fits, clash]
  | some u => cases b with
    | none => simp [Fits, clash]
    | some v => simp [Fits, clash]

theorem padTo_ok (np : NumPy) {p : Placed} {fill : Fill} {x0 dx y0 dy : Rat} (h : OnGrid p x0 dx y0 dy)
    (hf : FillOk p.raster fill) (b : Rat × Rat × Rat × Rat) : ∃ o, padTo np p fill b = .ok o := by
  obtain ⟨a, b, c, d⟩ := b
  obtain ⟨o, l, r, u, s, ho, _⟩ := pad_onGrid (np := np) h (Asks.numbers (p := p) a b c d) hf
  exact ⟨_, ho⟩

/-- **C85**, targets: for a raster on a grid and usable fill values, `pad` accepts sequences of four numbers or bools, and
`GeoBox`es, rasters and paths of rasters whose CRS is the one of the raster or when one of the two is unknown.  Other
sequences and other CRSs raise a `ValueError`, targets of other types a `TypeError`, and a path that cannot be opened what opening it
raises. -/
theorem C85_targets (np : NumPy) {p : Placed} {fill : Fill} {x0 dx y0 dy : Rat} (h : OnGrid p x0 dx y0 dy)
    (hf : FillOk p.raster fill) :
    (∀ l, l.length = 4 → Item.other ∉ l → ∃ o, pad np p (.seq l) fill = .ok o) ∧
    (∀ l, l.length ≠ 4 ∨ Item.other ∈ l → pad np p (.seq l) fill = .error .value) ∧
    (∀ crs A ny nx, (Fits p.crs crs → ∃ o, pad np p (.geobox crs A ny nx) fill = .ok o) ∧
      (¬ Fits p.crs crs → pad np p (.geobox crs A ny nx) fill = .error .value)) ∧
    (∀ q : Placed, (Fits p.crs q.crs → ∃ o, pad np p (.raster q) fill = .ok o ∧ pad np p (.path (.ok q)) fill = .ok o) ∧
      (¬ Fits p.crs q.crs → pad np p (.raster q) fill = .error .value ∧ pad np p (.path (.ok q)) fill = .error .value)) ∧
    (∀ e, pad np p (.path (.error e)) fill = .error e) ∧
    pad np p .other fill = .error .type := by
  have key : ∀ {t : Target} {b}, resolveBounds p t = .ok b → pad np p t fill = padTo np p fill b := by
    intro t b hb; simp only [pad, hb]
  have bad : ∀ {t : Target} {e}, resolveBounds p t = .error e → pad np p t fill = .error e := by
    intro t b hb; simp only [pad, hb]
  refine ⟨?_, ?_, ?_, ?_, ?_, ?_⟩
  · intro l hl ho
    obtain ⟨a, b, c, d, rfl⟩ : ∃ a b c d, l = [a, b, c, d] := by
      match l, hl with
      | [a, b, c, d], _ => exact ⟨a, b, c, d, rfl⟩
    simp only [List.mem_cons, List.not_mem_nil, or_false, not_or] at ho
    have hnum : ∀ i : Item, ¬ Item.other = i → ∃ q, i.float = some q := by
      intro i hi
      cases i with
      | num q => exact ⟨q, rfl⟩
      | bool b => exact ⟨_, rfl⟩
      | other => exact absurd rfl hi
    obtain ⟨a', ha⟩ := hnum a ho.1
    obtain ⟨b', hb⟩ := hnum b ho.2.1
    obtain ⟨c', hc⟩ := hnum c ho.2.2.1
    obtain ⟨d', hd⟩ := hnum d ho.2.2.2
    have : resolveBounds p (.seq [a, b, c, d]) = .ok (a', b', c', d') := by
      simp only [resolveBounds, List.map, ha, hb, hc, hd, seqBounds]
    rw [key this]
    exact padTo_ok np h hf _
  · intro l hl
    apply bad
    have hs : ∀ m : List (Option Rat), m.length ≠ 4 ∨ none ∈ m → seqBounds m = .error .value := by
      intro m hm
      unfold seqBounds
      split
      · simp at hm
      · rfl
    apply hs
    rcases hl with h' | h'
    · left; simpa using h'
    · right; exact List.mem_map.mpr ⟨_, h', rfl⟩
  · intro crs A ny nx
    constructor
    · intro hc
      have : resolveBounds p (.geobox crs A ny nx) = .ok (boundingbox A ny nx) := by
        simp [resolveBounds, fits_clash.mp hc]
      rw [key this]
      exact padTo_ok np h hf _
    · intro hc
      apply bad
      rw [fits_clash, Bool.not_eq_false] at hc
      simp [resolveBounds, hc]
  · intro q
    constructor
    · intro hc
      have h1 : rasterBounds p q = .ok (bounds q) := by simp [rasterBounds, fits_clash.mp hc]
      obtain ⟨o, ho⟩ := padTo_ok np h hf (bounds q)
      exact ⟨o, by rw [key (t := .raster q) h1, ho], by rw [key (t := .path (.ok q)) h1, ho]⟩
    · intro hc
      rw [fits_clash, Bool.not_eq_false] at hc
      have h1 : rasterBounds p q = .error .value := by simp [rasterBounds, hc]
      exact ⟨bad (t := .raster q) h1, bad (t := .path (.ok q)) h1⟩
  · intro e
    exact bad rfl
  · exact bad rfl

/-- **C85**, bools among four numbers count as 0 and 1, and the bounding box of a `GeoBox` that is turned contains its corners. -/
theorem C85_more_targets (np : NumPy) (p : Placed) (fill : Fill) :
    (∀ (f : Item → Rat), (∀ q, f (.num q) = q) → f (.bool true) = 1 → f (.bool false) = 0 → ∀ a b c d : Item, Item.other ∉ [a, b, c, d] →
      pad np p (.seq [a, b, c, d]) fill = pad np p (.seq [.num (f a), .num (f b), .num (f c), .num (f d)]) fill) ∧
    (∀ crs A ny nx, Fits p.crs crs → ∃ a b c d, pad np p (.geobox crs A ny nx) fill = pad np p (.seq [.num a, .num b, .num c, .num d]) fill ∧
      ∀ i j : Rat, (i = 0 ∨ i = nx) → (j = 0 ∨ j = ny) →
        a ≤ (A.apply (i, j)).1 ∧ (A.apply (i, j)).1 ≤ c ∧ b ≤ (A.apply (i, j)).2 ∧ (A.apply (i, j)).2 ≤ d) := by
  constructor
  · intro f hq ht hff a b c d ho
    simp only [List.mem_cons, List.not_mem_nil, or_false, not_or] at ho
    have hnum : ∀ i : Item, ¬ Item.other = i → i.float = some (f i) := by
      intro i hi
      cases i with
      | num q => simp [Item.float, hq]
      | bool b => cases b <;> simp [Item.float, ht, hff]
      | other => exact absurd rfl hi
    simp only [pad, resolveBounds, List.map, hnum a ho.1, hnum b ho.2.1, hnum c ho.2.2.1, hnum d ho.2.2.2]
    rfl
  · intro crs A ny nx hc
    refine ⟨(boundingbox A ny nx).1, (boundingbox A ny nx).2.1, (boundingbox A ny nx).2.2.1, (boundingbox A ny nx).2.2.2, ?_, ?_⟩
    · simp [pad, resolveBounds, fits_clash.mp hc, Item.float, seqBounds]
    · intro i j hi hj
      simp only [boundingbox]
      rcases hi with rfl | rfl <;> rcases hj with rfl | rfl <;>
        refine ⟨?_, ?_, ?_, ?_⟩ <;> simp only [min_le_iff, le_max_iff, le_refl, true_or, or_true]

/-! ### Examples -/

/-- A raster of two rows and three columns, with cells one wide and two high. -/
def small : Placed :=
  ⟨⟨.i16, 1, 2, 3, fun c => .fin (c.2.1 * 3 + c.2.2), fun _ => false, none⟩, [1/2, 3/2, 5/2], [3, 1], (1, -2), some 5070⟩

theorem small_onGrid : OnGrid small (1 / 2) 1 3 2 := by
  refine ⟨by norm_num, by norm_num, by decide, by decide, ?_, ?_, rfl⟩
  · simp [small, line, List.range_succ]; norm_num
  · simp [small, line, List.range_succ]; norm_num

/-- **C85 fails when a target ends before the middle of a cell**: the result does not cover it.  A raster whose columns have the
edges 0 to 3 is not extended to reach 3.4, or -0.5. -/
theorem C85_uncovered : ∃ (p : Placed) (t : Target) (x0 dx y0 dy a b c d : Rat) (o : Padded), OnGrid p x0 dx y0 dy ∧
    Asks p t a b c d ∧ pad (idNumPy false) p t (.scalar ⟨.i64, .fin 0⟩) = .ok o ∧ o.xs = p.xs ∧
      (∀ x ∈ o.xs, x + dx / 2 < c) ∧ (∀ x ∈ o.xs, a < x - dx / 2) := by
  obtain ⟨o, l, r, u, s, ho, hb, h1, h2⟩ :=
    pad_onGrid (np := idNumPy false) (fill := .scalar ⟨.i64, .fin 0⟩) small_onGrid
      (Asks.numbers (p := small) (-1/2) 0 (17/5) 4) trivial
  have hl : l = 0 := by
    rcases h1.before with h | h
    · exact h
    · by_contra hne
      have : (1 : Rat) ≤ l := by exact_mod_cast Nat.one_le_iff_ne_zero.mpr hne
      linarith
  have hr : r = 0 := by
    rcases h1.after with h | h
    · exact h
    · by_contra hne
      have : (1 : Rat) ≤ r := by exact_mod_cast Nat.one_le_iff_ne_zero.mpr hne
      have h3 : (small.raster.nx : Rat) = 3 := rfl
      rw [h3] at h
      linarith
  subst hl hr
  have hxs : line (1 / 2 - ((0 : Nat) : Rat) * 1) 1 (small.raster.nx + 0 + 0) = small.xs := by
    rw [small_onGrid.xs]; simp
  refine ⟨small, _, 1/2, 1, 3, 2, _, _, _, _, _, small_onGrid, Asks.numbers _ _ _ _, ho, hxs, ?_, ?_⟩
  · intro x hx
    simp only [] at hx
    rw [hxs] at hx
    simp only [small, List.mem_cons, List.not_mem_nil, or_false] at hx
    rcases hx with rfl | rfl | rfl <;> norm_num
  · intro x hx
    simp only [] at hx
    rw [hxs] at hx
    simp only [small, List.mem_cons, List.not_mem_nil, or_false] at hx
    rcases hx with rfl | rfl | rfl <;> norm_num

def shows (r : Except Err Padded) (xs ys : List Rat) (vals : List (Cell × Num × Bool)) : Bool :=
  match r with
  | .error _ => false
  | .ok o => o.xs == xs && o.ys == ys && vals.all fun v => o.raster.data v.1 == v.2.1 && o.raster.mask v.1 == v.2.2

/-- The hypotheses of C85 are met, and the result is as it should be: one column in the west, two in the east, one row in the north. -/
example : OnGrid small (1 / 2) 1 3 2 ∧ Aligned (1 / 2) 1 (-1) ∧ Aligned (1 / 2) 1 5 ∧ Aligned 3 2 6 ∧ MaskNeedsNull small.raster ∧
    shows (pad (idNumPy false) small (.seq [.num (-1), .num 0, .num 5, .num 6]) .unset) [-1/2, 1/2, 3/2, 5/2, 7/2, 9/2] [5, 3, 1]
      [((0, 1, 1), .fin 0, false), ((0, 2, 3), .fin 5, false), ((0, 0, 2), .fin (-32768), true)] = true := by
  refine ⟨small_onGrid, ⟨-1, by norm_num⟩, ⟨5, by norm_num⟩, ⟨2, by norm_num⟩, by intro c h; simp [small] at *, by decide +kernel⟩

/-- Rasters and `GeoBox`es as targets. -/
example : Asks small (.raster small) 0 0 3 4 ∧ Asks small (.geobox none ⟨2, 0, 0, 0, -2, 8⟩ 3 4) 0 2 8 8 ∧ ¬ Fits small.crs (some 4326) ∧
    pad (idNumPy false) small (.geobox (some 4326) ⟨2, 0, 0, 0, -2, 8⟩ 3 4) .unset = .error .value := by
  refine ⟨?_, ?_, by simp [Fits, small], rfl⟩
  · have := Asks.raster (p := small) small _ _ _ _ small_onGrid (fun a b h1 h2 => Option.some.inj (h1.symm.trans h2))
    norm_num [small] at this ⊢
    exact this
  · have := Asks.geobox (p := small) none 2 0 (-2) 8 3 4 (by norm_num) (by norm_num) (fun a b _ h2 => nomatch h2)
    norm_num at this ⊢
    exact this

end Verif.PadBox
