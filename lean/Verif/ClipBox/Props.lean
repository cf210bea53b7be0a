import Verif.ClipBox.Model
import Verif.Clip.Props
import Verif.PadBox.Props
set_option linter.unusedSectionVars false
/-!
# C104: clipping to a box.  C105: padding and clipping
-/

namespace Verif.ClipBox

open Verif Verif.Nulls Verif.PadBox
open Verif.PadBox.Spec (line OnGrid Asks FillOk)
open Verif.Bands (Fill)

variable {G : Type}

namespace Spec

/-- The cell of width `d` at `x` and the open interval from `lo` to `hi` have points in common. -/
def Meets (d lo hi x : Rat) : Prop := lo < x + d / 2 ∧ x - d / 2 < hi

instance (d lo hi x : Rat) : Decidable (Meets d lo hi x) := by unfold Meets; infer_instance

/-- The coordinates of the cells that meet the interval, in order. -/
def meeting (d lo hi : Rat) (xs : List Rat) : List Rat := xs.filter fun x => decide (Meets d lo hi x)

end Spec

open Spec

theorem filter_range (s e n : Nat) :
    (List.range n).filter (fun i => decide (s ≤ i ∧ i < e)) = List.range' s (min n e - s) := by
  induction n with
  | zero => simp
  | succ n ih =>
    rw [List.range_succ, List.filter_append, ih]
    by_cases h : s ≤ n ∧ n < e
    · have e1 : min (n + 1) e - s = (min n e - s) + 1 := by omega
      rw [e1, List.range'_concat]
      simp only [List.filter_cons, h, and_self, decide_true, if_true, List.filter_nil, Nat.one_mul]
      congr 2
      omega
    · have e1 : min (n + 1) e - s = min n e - s := by omega
      rw [e1]
      simp [h]

theorem slice_line (x0 d : Rat) (n s m : Nat) (h : s + m ≤ n ∨ m = 0) :
    slice (line x0 d n) s m = line (x0 + s * d) d m := by
  apply List.ext_getElem?
  intro i
  unfold slice
  rw [List.getElem?_take]
  by_cases hi : i < m
  · rw [if_pos hi, List.getElem?_drop, line_get _ _ _ _ (by omega), line_get _ _ _ _ hi]
    congr 1
    push_cast
    ring
  · rw [if_neg hi, List.getElem?_eq_none]
    rw [line_length]
    omega

/-- The slice of a line of coordinates holds the cells that meet the interval. -/
theorem meeting_line {x0 d lo hi : Rat} (hd : 0 < d) (n : Nat) :
    meeting d lo hi (line x0 d n) =
      slice (line x0 d n) (start ((lo - (x0 - d / 2)) / d))
        (stop n ((hi - (x0 - d / 2)) / d) - start ((lo - (x0 - d / 2)) / d)) := by
  set s := start ((lo - (x0 - d / 2)) / d) with hs
  set m := stop n ((hi - (x0 - d / 2)) / d) - s with hm
  have hle : s + m ≤ n ∨ m = 0 := by
    rw [hm]
    unfold stop
    omega
  rw [slice_line _ _ _ _ _ hle]
  have key : ∀ i : Nat, Meets d lo hi (x0 + i * d) ↔ s ≤ i ∧ i < ⌈(hi - (x0 - d / 2)) / d⌉.toNat := by
    intro i
    unfold Meets
    refine and_congr ?_ ?_
    · have e : (lo < x0 + i * d + d / 2) ↔ (lo - (x0 - d / 2)) / d < (i : Rat) + 1 := by
        rw [div_lt_iff₀ hd]
        constructor <;> intro h <;> linarith
      rw [e, hs]
      unfold start
      have e2 : (lo - (x0 - d / 2)) / d < (i : Rat) + 1 ↔ ⌊(lo - (x0 - d / 2)) / d⌋ < (i : Int) + 1 := by
        rw [Int.floor_lt]
        push_cast
        rfl
      rw [e2]
      omega
    · have e : (x0 + i * d - d / 2 < hi) ↔ (i : Rat) < (hi - (x0 - d / 2)) / d := by
        rw [lt_div_iff₀ hd]
        constructor <;> intro h <;> linarith
      rw [e]
      have e2 : (i : Rat) < (hi - (x0 - d / 2)) / d ↔ (i : Int) < ⌈(hi - (x0 - d / 2)) / d⌉ := by
        rw [Int.lt_ceil]
        push_cast
        rfl
      rw [e2]
      omega
  unfold meeting line
  rw [List.filter_map]
  have e : ((fun x => decide (Meets d lo hi x)) ∘ fun i : Nat => x0 + (i : Rat) * d) =
      fun i => decide (s ≤ i ∧ i < ⌈(hi - (x0 - d / 2)) / d⌉.toNat) := by
    funext i
    simp only [Function.comp, key]
  rw [e, filter_range, List.range'_eq_map_range, List.map_map]
  have em : min n ⌈(hi - (x0 - d / 2)) / d⌉.toNat - s = m := by rw [hm]; rfl
  rw [em]
  refine List.map_congr_left fun i _ => ?_
  simp only [Function.comp]
  push_cast
  ring

theorem meeting_neg {x0 d lo hi : Rat} (n : Nat) :
    meeting d lo hi (line x0 (-d) n) = (meeting d (-hi) (-lo) (line (-x0) d n)).map fun x => -x := by
  have e : line x0 (-d) n = (line (-x0) d n).map fun x => -x := by
    rw [line_neg]; simp
  rw [e]
  unfold meeting
  rw [List.filter_map]
  congr 1
  refine List.filter_congr fun x _ => ?_
  simp only [Function.comp, decide_eq_decide]
  unfold Meets
  constructor <;> rintro ⟨h1, h2⟩ <;> constructor <;> linarith

theorem slice_map (l : List Rat) (s m : Nat) (f : Rat → Rat) : slice (l.map f) s m = (slice l s m).map f := by
  simp [slice]

/-- The window holds the rows and columns that meet the box. -/
theorem window_meeting {p : Placed} {x0 dx y0 dy : Rat} (h : OnGrid p x0 dx y0 dy) (minx miny maxx maxy : Rat) :
    slice p.xs (window p (minx, miny, maxx, maxy)).col (window p (minx, miny, maxx, maxy)).nx = meeting dx minx maxx p.xs ∧
    slice p.ys (window p (minx, miny, maxx, maxy)).row (window p (minx, miny, maxx, maxy)).ny = meeting dy miny maxy p.ys := by
  have ha : affine p = ⟨dx, 0, x0 - dx / 2, 0, -dy, y0 + dy / 2⟩ := by
    unfold affine
    rw [resolution_onGrid h, h.xs, h.ys, first_line _ _ _ h.nx, first_line _ _ _ h.ny]
    simp only [Grid.Affine.mk.injEq, true_and]
    ring
  unfold window
  simp only [ha]
  constructor
  · rw [h.xs, meeting_line h.posx]
  · have e : p.ys = (line (-y0) dy p.raster.ny).map fun x => -x := by
      rw [line_neg, h.ys]; simp
    have q : ∀ m : Rat, (m - (y0 + dy / 2)) / -dy = (-m - (-y0 - dy / 2)) / dy := by
      intro m
      rw [div_neg, ← neg_div]
      congr 1
      ring
    rw [q, q]
    conv_rhs => rw [h.ys, meeting_neg, meeting_line h.posy]
    rw [e, slice_map]

theorem line_inj {x0 d : Rat} {n i j : Nat} {x : Rat} (hd : d ≠ 0) (h1 : (line x0 d n)[i]? = some x)
    (h2 : (line x0 d n)[j]? = some x) : i = j := by
  have hi : i < n := by
    by_contra hc
    rw [List.getElem?_eq_none (by rw [line_length]; omega)] at h1
    cases h1
  have hj : j < n := by
    by_contra hc
    rw [List.getElem?_eq_none (by rw [line_length]; omega)] at h2
    cases h2
  rw [line_get _ _ _ _ hi] at h1
  rw [line_get _ _ _ _ hj] at h2
  have h1 := Option.some.inj h1
  have h2 := Option.some.inj h2
  have : (i : Rat) * d = j * d := by linarith
  exact_mod_cast mul_right_cancel₀ hd this

theorem slice_get {l : List Rat} {s m i : Nat} {x : Rat} (h : (slice l s m)[i]? = some x) : l[s + i]? = some x := by
  unfold slice at h
  rw [List.getElem?_take] at h
  split at h
  · rwa [List.getElem?_drop] at h
  · cases h

theorem window_fits (p : Placed) (b : Rat × Rat × Rat × Rat) :
    ((window p b).row + (window p b).ny ≤ p.raster.ny ∨ (window p b).ny = 0) ∧
    ((window p b).col + (window p b).nx ≤ p.raster.nx ∨ (window p b).nx = 0) := by
  unfold window stop
  constructor <;> simp only [] <;> omega

/-- **C104.**  `clip_box` keeps the rows and columns that have points in common with the inside of the box, if there are two of
each at least, with their coordinates, values and null cells; dtype, null value, bands and CRS stay. -/
theorem C104_clip_box (place : Clip.Place G) (expand : Placed → List Rat → Option Clip.Window) {p : Placed}
    {x0 dx y0 dy minx miny maxx maxy : Rat} (h : OnGrid p x0 dx y0 dy) (hm : MaskNeedsNull p.raster)
    (hx : 2 ≤ (meeting dx minx maxx p.xs).length) (hy : 2 ≤ (meeting dy miny maxy p.ys).length) :
    ∃ o, clipBox place expand p [minx, miny, maxx, maxy] = .ok o ∧
      o.xs = meeting dx minx maxx p.xs ∧ o.ys = meeting dy miny maxy p.ys ∧
      o.raster.nx = o.xs.length ∧ o.raster.ny = o.ys.length ∧ o.raster.nb = p.raster.nb ∧
      o.raster.dtype = p.raster.dtype ∧ o.raster.nv = p.raster.nv ∧ o.crs = p.crs ∧
      (∃ u v, OnGrid o u dx v dy) ∧
      ∀ i j i' j' : Nat, ∀ x y, p.ys[i]? = some y → p.xs[j]? = some x → o.ys[i']? = some y → o.xs[j']? = some x →
        ∀ b, o.raster.data (b, i', j') = p.raster.data (b, i, j) ∧ o.raster.mask (b, i', j') = p.raster.mask (b, i, j) := by
  obtain ⟨ex, ey⟩ := window_meeting h minx miny maxx maxy
  obtain ⟨fy, fx⟩ := window_fits p (minx, miny, maxx, maxy)
  set w := window p (minx, miny, maxx, maxy) with hw
  have lx : slice p.xs w.col w.nx = line (x0 + w.col * dx) dx w.nx := by rw [h.xs, slice_line _ _ _ _ _ fx]
  have ly : slice p.ys w.row w.ny = line (y0 + w.row * -dy) (-dy) w.ny := by rw [h.ys, slice_line _ _ _ _ _ fy]
  have nx : (meeting dx minx maxx p.xs).length = w.nx := by rw [← ex, lx, line_length]
  have ny : (meeting dy miny maxy p.ys).length = w.ny := by rw [← ey, ly, line_length]
  rw [nx] at hx
  rw [ny] at hy
  have hb : boxWindow expand p [minx, miny, maxx, maxy] = some w := by
    show (if (decide (w.ny < 2) || decide (w.nx < 2)) = true then _ else some w) = some w
    rw [if_neg]
    simp only [Bool.or_eq_true, decide_eq_true_eq]
    omega
  obtain ⟨o, ho, h1, h2, h3, h4, h5, h6⟩ := Clip.C34_clip_box (p := { place with window := boxWindow expand p }) (r := p.raster)
    (bounds := [minx, miny, maxx, maxy]) rfl hb
  refine ⟨⟨o, slice p.xs w.col w.nx, slice p.ys w.row w.ny, p.stored, p.crs⟩, ?_, ex, ey, ?_, ?_, h2, h1, h5, rfl, ?_, ?_⟩
  · unfold clipBox
    rw [ho, hb]
    rfl
  · rw [h4, lx, line_length]
  · rw [h3, ly, line_length]
  · refine ⟨x0 + w.col * dx, y0 + w.row * -dy, h.posx, h.posy, ?_, ?_, ?_, ?_, h.stored⟩
    · simp only [h4]; omega
    · simp only [h3]; omega
    · simp only [h4]; exact lx
    · simp only [h3]; exact ly
  · intro i j i' j' x y e1 e2 e3 e4 b
    have e3 := slice_get e3
    have e4 := slice_get e4
    rw [h.ys] at e1 e3
    rw [h.xs] at e2 e4
    have ei := line_inj (neg_ne_zero.mpr h.posy.ne') e1 e3
    have ej := line_inj h.posx.ne' e2 e4
    rw [ei, ej]
    obtain ⟨g1, g2⟩ := h6 b i' j'
    refine ⟨g1, ?_⟩
    rw [Bool.eq_iff_iff]
    refine g2.trans ?_
    unfold Clip.Spec.Null
    refine ⟨fun h => h.2, fun hc => ⟨?_, hc⟩⟩
    have := hm _ hc
    unfold Raster.masked
    exact Option.isSome_iff_ne_none.mpr this

/-- **C104**, the box must be four numbers. -/
theorem C104_four (place : Clip.Place G) (expand : Placed → List Rat → Option Clip.Window) (p : Placed) {bounds : List Rat}
    (h : bounds.length ≠ 4) : clipBox place expand p bounds = .error .value := by
  unfold clipBox Clip.clipBox
  rw [if_pos h]

/-! ### C105 -/

/-- The result of `pad` as a raster with coordinates; its transform has the scale of the raster. -/
def Spec.again (p : Placed) (q : Padded) : Placed := ⟨q.raster, q.xs, q.ys, p.stored, q.crs⟩

/-- `raster.bounds`, as the argument of `clip_box`. -/
def Spec.box (p : Placed) : List Rat := [(bounds p).1, (bounds p).2.1, (bounds p).2.2.1, (bounds p).2.2.2]

theorem meeting_old {x0 d : Rat} (hd : 0 < d) (n l r : Nat) :
    meeting d (x0 - d / 2) (x0 + n * d - d / 2) (line (x0 - l * d) d (n + l + r)) = line x0 d n := by
  rw [meeting_line hd]
  have e1 : (x0 - d / 2 - (x0 - l * d - d / 2)) / d = (l : Rat) := by
    rw [div_eq_iff hd.ne']; ring
  have e2 : (x0 + n * d - d / 2 - (x0 - l * d - d / 2)) / d = ((n + l : Nat) : Rat) := by
    rw [div_eq_iff hd.ne']; push_cast; ring
  have s1 : start (l : Rat) = l := by simp [start]
  have s2 : stop (n + l + r) ((n + l : Nat) : Rat) = n + l := by
    unfold stop
    rw [Int.ceil_natCast, Int.toNat_natCast]
    omega
  rw [e1, e2, s1, s2, slice_line _ _ _ _ _ (by omega)]
  congr 1
  · ring
  · omega

theorem mark_false {l : List Bool} (h : ∀ b ∈ l, b = false) (i : Nat) : l.getD i false = false := by
  rw [List.getD_eq_getElem?_getD]
  cases e : l[i]? with
  | none => rfl
  | some b => exact h b (List.mem_of_getElem? e)

/-- `pad` gives null cells a null value, and changes the null value only if there is none and no fill. -/
theorem pad_null {np : NumPy} {r q : Raster} {m : Bands.Margins} {fill : Fill} (h : Bands.pad np r m fill = .ok q) :
    MaskNeedsNull q ∧ (r.nv ≠ none ∨ fill ≠ .unset → q.nv = r.nv) := by
  unfold Bands.pad at h
  cases fill with
  | unset =>
    simp only [Bands.validateFill, Except.ok.injEq] at h
    subst h
    refine ⟨fun c _ hn => (nomatch hn), ?_⟩
    rintro (hn | hn)
    · cases e : r.nv with
      | none => exact absurd e hn
      | some s => rfl
    · exact absurd rfl hn
  | scalar s =>
    simp only [Bands.validateFill, Except.ok.injEq] at h
    subst h
    refine ⟨fun c hc hn => ?_, fun _ => rfl⟩
    simp only [] at hc hn
    have hmask : r.masked = false := by simp [Raster.masked, hn]
    rw [hmask, mark_false] at hc
    · simp at hc
    · intro b hb
      rw [List.eq_of_mem_replicate hb, hn]
      rfl
  | list ss =>
    simp only [Bands.validateFill] at h
    split at h
    · cases h
    · rename_i hs
      split at hs
      · cases hs
      · simp only [Except.ok.injEq, Prod.mk.injEq] at hs
        obtain ⟨-, hs2, hs3⟩ := hs
        injection h with h
        subst h
        subst hs2 hs3
        refine ⟨fun c hc hn => ?_, fun _ => rfl⟩
        simp only [] at hc hn
        have hmask : r.masked = false := by simp [Raster.masked, hn]
        rw [hmask, mark_false] at hc
        · simp at hc
        · intro b hb
          obtain ⟨s, -, rfl⟩ := List.mem_map.mp hb
          rw [hn]
          rfl
  | other => simp [Bands.validateFill] at h

/-- **C105.**  A raster that is padded and then clipped to its old bounds is as before: coordinates, CRS, dtype, bands, values and
null cells.  So is its null value, if it has one or a fill value is given. -/
theorem C105_pad_clip (np : NumPy) (place : Clip.Place G) (expand : Placed → List Rat → Option Clip.Window) {p : Placed} {t : Target}
    {fill : Fill} {x0 dx y0 dy a b c d : Rat} (h : OnGrid p x0 dx y0 dy) (hm : MaskNeedsNull p.raster) (ht : Asks p t a b c d)
    (hf : FillOk p.raster fill) (hx : 2 ≤ p.raster.nx) (hy : 2 ≤ p.raster.ny) :
    ∃ q o, pad np p t fill = .ok q ∧ clipBox place expand (again p q) (box p) = .ok o ∧ o.xs = p.xs ∧ o.ys = p.ys ∧ o.crs = p.crs ∧
      o.raster.dtype = p.raster.dtype ∧ o.raster.nb = p.raster.nb ∧ o.raster.ny = p.raster.ny ∧ o.raster.nx = p.raster.nx ∧
      (p.raster.nv ≠ none ∨ fill ≠ .unset → o.raster.nv = p.raster.nv) ∧
      ∀ k i j, i < p.raster.ny → j < p.raster.nx →
        o.raster.data (k, i, j) = p.raster.data (k, i, j) ∧ o.raster.mask (k, i, j) = p.raster.mask (k, i, j) := by
  obtain ⟨q, l, r, u, s, hq, hb, -, -⟩ := pad_onGrid (np := np) h ht hf
  obtain ⟨q1, q2, q3, q4, q5, q6, q7⟩ := Bands.C24_pad hm hb
  have hg : OnGrid (again p ⟨q, line (x0 - l * dx) dx (p.raster.nx + l + r), line (y0 + u * dy) (-dy) (p.raster.ny + u + s), p.crs⟩)
      (x0 - l * dx) dx (y0 + u * dy) dy := by
    refine ⟨h.posx, h.posy, ?_, ?_, ?_, ?_, h.stored⟩
    · simp only [again, q4]; omega
    · simp only [again, q3]; omega
    · simp only [again, q4]; congr 1; omega
    · simp only [again, q3]; congr 1; omega
  have mx : meeting dx (x0 - dx / 2) (x0 + p.raster.nx * dx - dx / 2) (line (x0 - l * dx) dx (p.raster.nx + l + r)) = p.xs := by
    rw [meeting_old h.posx, h.xs]
  have my : meeting dy (y0 - p.raster.ny * dy + dy / 2) (y0 + dy / 2) (line (y0 + u * dy) (-dy) (p.raster.ny + u + s)) = p.ys := by
    rw [meeting_neg]
    have := meeting_old (x0 := -y0) h.posy p.raster.ny u s
    rw [show -(y0 + dy / 2) = -y0 - dy / 2 by ring, show -(y0 - p.raster.ny * dy + dy / 2) = -y0 + p.raster.ny * dy - dy / 2 by ring,
      show -(y0 + u * dy) = -y0 - u * dy by ring, this, line_neg, h.ys]
    simp
  have hqm : MaskNeedsNull q := (pad_null hb).1
  obtain ⟨o, ho, o1, o2, o3, o4, o5, o6, o7, o8, -, o9⟩ := C104_clip_box place expand (minx := x0 - dx / 2)
    (miny := y0 - p.raster.ny * dy + dy / 2) (maxx := x0 + p.raster.nx * dx - dx / 2) (maxy := y0 + dy / 2) hg hqm
    (by simp only [again]; rw [mx, h.xs, line_length]; exact hx) (by simp only [again]; rw [my, h.ys, line_length]; exact hy)
  simp only [again] at o1 o2 o5 o6 o7 o8 o9
  rw [mx] at o1
  rw [my] at o2
  refine ⟨_, o, hq, ?_, o1, o2, o8, ?_, ?_, ?_, ?_, ?_, ?_⟩
  · rw [show box p = _ by rw [box, bounds_onGrid h]]
    exact ho
  · rw [o6, q1]
  · rw [o5, q2]
  · rw [o4, o2, h.ys, line_length]
  · rw [o3, o1, h.xs, line_length]
  · intro hn
    rw [o7]
    exact (pad_null hb).2 hn
  · intro k i j hi hj
    obtain ⟨g1, g2⟩ := o9 (u + i) (l + j) i j (x0 + j * dx) (y0 + i * -dy)
      (by rw [line_get _ _ _ _ (by omega)]; congr 1; push_cast; ring)
      (by rw [line_get _ _ _ _ (by omega)]; congr 1; push_cast; ring)
      (by rw [o2, h.ys, line_get _ _ _ _ hi])
      (by rw [o1, h.xs, line_get _ _ _ _ hj]) k
    obtain ⟨g3, g4⟩ := q6 k i j hi hj
    exact ⟨by rw [g1, g3], by rw [g2, g4]⟩

/-! ### Examples -/

/-- A place; only its window matters to `clip_box`, and it is replaced. -/
def nowhere (like : Rasterize.Like G) : Clip.Place G := ⟨fun _ => none, like, fun _ => like, []⟩

/-- Three rows and four columns of 2 by 1 with the lower left corner at the origin; the cell in the middle is null. -/
def tile : Placed :=
  ⟨⟨.u8, 1, 3, 4, fun c => .fin ((4 * c.2.1 + c.2.2 : Nat) : Rat), fun c => c == (0, 1, 1), some ⟨.u8, .fin 5⟩⟩,
    [1, 3, 5, 7], [5/2, 3/2, 1/2], (2, -1), some 5070⟩

theorem tile_onGrid : OnGrid tile 1 2 (5 / 2) 1 :=
  ⟨by norm_num, by norm_num, by decide, by decide, by decide +kernel, by decide +kernel, rfl⟩

/-- The hypotheses of C104 are met, and the rows and columns are as expected: a box that touches a column does not meet it. -/
example : OnGrid tile 1 2 (5 / 2) 1 ∧ MaskNeedsNull tile.raster ∧ meeting 2 (5/2) 6 tile.xs = [3, 5] ∧
    meeting 1 (1/4) (3/2) tile.ys = [3/2, 1/2] :=
  ⟨tile_onGrid, fun c _ h => (nomatch h), by decide +kernel, by decide +kernel⟩

example : window tile (5/2, 1/4, 6, 3/2) = ⟨1, 1, 2, 2⟩ := by
  simp only [window, affine, resolution, tile, first, last, start, stop]
  norm_num
  rfl

/-- The hypotheses of C105 are met. -/
example : Asks tile (.seq [.num (-3), .num (-3), .num 20, .num 20]) (-3) (-3) 20 20 ∧ FillOk tile.raster .unset ∧
    2 ≤ tile.raster.nx ∧ 2 ≤ tile.raster.ny := ⟨.numbers _ _ _ _, trivial, by decide, by decide⟩

end Verif.ClipBox
