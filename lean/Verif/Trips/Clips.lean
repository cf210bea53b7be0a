import Verif.ClipBox.Props

set_option linter.unusedSectionVars false

/-!
# C109: masks and boxes one after another

`mask`, `clip` and `clip_box` of `raster_tools/clipping.py` (C34, C104) applied to each other's results.
-/

namespace Verif.Trips.Clips

open Verif Verif.Nulls Verif.Rasterize DType
open Verif.Rasterize.Spec (Touched)
open Verif.Clip (Place Window mask clip)
open Verif.Clip.Spec (Good Seen nullOf Null Keeps)
open Verif.ClipBox (clipBox)
open Verif.ClipBox.Spec (Meets meeting)
open Verif.PadBox (Placed)
open Verif.PadBox.Spec (OnGrid)

variable {G : Type}

namespace Spec

/-- The cells that `mask` keeps: those that a feature touches, or with `invert` the others. -/
def Kept (p : Place G) (t : Table G) (invert : Bool) (y x : Nat) : Prop := Touched p.whole t.parts.flatten (y, x) ↔ invert = false

/-- The window of the whole raster. -/
def full (r : Raster) : Window := ⟨0, 0, r.ny, r.nx⟩

/-- The same shape, dtype, null value, null cells and values in all cells. -/
def SameCells (o o' : Raster) : Prop :=
  o.dtype = o'.dtype ∧ o.nb = o'.nb ∧ o.ny = o'.ny ∧ o.nx = o'.nx ∧ o.nv = o'.nv ∧
    ∀ b y x, b < o.nb → y < o.ny → x < o.nx → o.mask (b, y, x) = o'.mask (b, y, x) ∧ o.data (b, y, x) = o'.data (b, y, x)

end Spec

open Spec

/-- Keeping cells of what was kept. -/
theorem keeps_trans {r m o : Raster} {w : Window} {k1 k2 : Nat → Nat → Prop} (h1 : Keeps r (full r) k1 m) (h2 : Keeps m w k2 o)
    (hy : w.row + w.ny ≤ r.ny) (hx : w.col + w.nx ≤ r.nx) : Keeps r w (fun y x => k1 y x ∧ k2 y x) o := by
  obtain ⟨a1, a2, a3, a4, a5, a6⟩ := h1
  obtain ⟨b1, b2, b3, b4, b5, b6⟩ := h2
  have hn : nullOf m = nullOf r := by
    unfold nullOf
    rw [a5]
    rfl
  have hm : m.masked = true := by
    unfold Raster.masked
    rw [a5]
    rfl
  refine ⟨b1.trans a1, b2.trans a2, b3, b4, b5.trans (by rw [hn]), ?_⟩
  intro b y x hb hy' hx'
  obtain ⟨c1, c2, c3⟩ := a6 b (w.row + y) (w.col + x) hb (by show _ < r.ny; omega) (by show _ < r.nx; omega)
  obtain ⟨d1, d2, d3⟩ := b6 b y x (by rw [a2]; exact hb) hy' hx'
  simp only [full, Nat.zero_add] at c1 c2 c3
  have hnull : ¬ Null m (b, w.row + y, w.col + x) ↔ m.mask (b, w.row + y, w.col + x) = false := by
    unfold Null
    rw [hm]
    simp
  refine ⟨?_, fun h => (d2 h.2).trans (c2 h.1), fun h => ?_⟩
  · rw [d1, hnull, c1]
    tauto
  · by_cases h2 : k2 (w.row + y) (w.col + x)
    · rw [d2 h2]
      exact c3 fun h1 => h ⟨h1, h2⟩
    · rw [d3 h2, hn]

theorem keeps_same {r o o' : Raster} {w : Window} {k k' : Nat → Nat → Prop}
    (h : Keeps r w k o) (h' : Keeps r w k' o') (hk : ∀ y x, k y x ↔ k' y x) : SameCells o o' := by
  obtain ⟨a1, a2, a3, a4, a5, a6⟩ := h
  obtain ⟨b1, b2, b3, b4, b5, b6⟩ := h'
  refine ⟨a1.trans b1.symm, a2.trans b2.symm, a3.trans b3.symm, a4.trans b4.symm, a5.trans b5.symm, ?_⟩
  intro b y x hb hy hx
  rw [a2] at hb
  rw [a3] at hy
  rw [a4] at hx
  obtain ⟨c1, c2, c3⟩ := a6 b y x hb hy hx
  obtain ⟨d1, d2, d3⟩ := b6 b y x hb hy hx
  constructor
  · have : o.mask (b, y, x) = false ↔ o'.mask (b, y, x) = false := by rw [c1, d1, hk]
    cases e : o.mask (b, y, x) <;> cases e' : o'.mask (b, y, x) <;> simp_all
  · by_cases h : k (w.row + y) (w.col + x)
    · rw [c2 h, d2 ((hk _ _).1 h)]
    · rw [c3 h, d3 (fun h' => h ((hk _ _).2 h'))]

theorem mask_keeps {np : NumPy} {ext : Ext G} {p : Place G} {t : Table G} {r : Raster} (invert : Bool)
    (h : Good ext t p.whole r.ny r.nx) : ∃ o, mask np ext p t r true invert = .ok o ∧ Keeps r (full r) (Kept p t invert) o :=
  Clip.C34_mask_partial invert h

/-- **C109 (masks).**  Masking with features and the result with others keeps the cells that both masks keep, with their values; the null value is that of
the raster. -/
theorem C109_masks {np : NumPy} {ext : Ext G} {p : Place G} {t t' : Table G} {r : Raster} (invert invert' : Bool)
    (h : Good ext t p.whole r.ny r.nx) (h' : Good ext t' p.whole r.ny r.nx) :
    ∃ m o, mask np ext p t r true invert = .ok m ∧ mask np ext p t' m true invert' = .ok o ∧
      Keeps r (full r) (fun y x => Kept p t invert y x ∧ Kept p t' invert' y x) o := by
  obtain ⟨m, e1, k1⟩ := mask_keeps (np := np) (r := r) invert h
  have hy : m.ny = r.ny := k1.2.2.1
  have hx : m.nx = r.nx := k1.2.2.2.1
  obtain ⟨o, e2, k2⟩ := mask_keeps (np := np) (r := m) invert' (by rw [hy, hx]; exact h')
  have hf : full m = full r := by unfold full; rw [hy, hx]
  rw [hf] at k2
  exact ⟨m, o, e1, e2, keeps_trans k1 k2 (by simp [full]) (by simp [full])⟩

/-- **C109 (order).**  The order of two masks does not matter, and the same mask twice is the mask. -/
theorem C109_order {np : NumPy} {ext : Ext G} {p : Place G} {t t' : Table G} {r : Raster} (invert invert' : Bool)
    (h : Good ext t p.whole r.ny r.nx) (h' : Good ext t' p.whole r.ny r.nx) :
    ∃ m o m' o' q, mask np ext p t r true invert = .ok m ∧ mask np ext p t' m true invert' = .ok o ∧
      mask np ext p t' r true invert' = .ok m' ∧ mask np ext p t m' true invert = .ok o' ∧ SameCells o o' ∧
      mask np ext p t m true invert = .ok q ∧ SameCells q m := by
  obtain ⟨m, o, e1, e2, k⟩ := C109_masks (np := np) invert invert' h h'
  obtain ⟨m', o', e3, e4, k'⟩ := C109_masks (np := np) invert' invert h' h
  obtain ⟨m₂, q, e5, e6, k₂⟩ := C109_masks (np := np) invert invert h h
  obtain ⟨m₃, e7, k₃⟩ := mask_keeps (np := np) (r := r) invert h
  rw [e1] at e5 e7
  cases e5
  cases e7
  exact ⟨m, o, m', o', q, e1, e2, e3, e4, keeps_same k k' (fun y x => And.comm), e6, keeps_same k₂ k₃ (fun y x => and_self_iff)⟩

/-- **C109 (nothing left).**  Masking with features and then with what they do not touch leaves no valid cell. -/
theorem C109_nothing {np : NumPy} {ext : Ext G} {p : Place G} {t : Table G} {r : Raster} (invert : Bool)
    (h : Good ext t p.whole r.ny r.nx) :
    ∃ m o, mask np ext p t r true invert = .ok m ∧ mask np ext p t m true (!invert) = .ok o ∧
      ∀ b y x, b < r.nb → y < r.ny → x < r.nx → o.mask (b, y, x) = true ∧ o.data (b, y, x) = (nullOf r).val := by
  obtain ⟨m, o, e1, e2, k⟩ := C109_masks (np := np) invert (!invert) h h
  refine ⟨m, o, e1, e2, ?_⟩
  intro b y x hb hy hx
  obtain ⟨c1, -, c3⟩ := k.2.2.2.2.2 b y x hb hy hx
  have hno : ¬ (Kept p t invert (0 + y) (0 + x) ∧ Kept p t (!invert) (0 + y) (0 + x)) := by
    unfold Kept
    cases invert <;> simp
  refine ⟨?_, c3 hno⟩
  cases hm : o.mask (b, y, x) with
  | true => rfl
  | false => exact absurd (c1.1 hm).1 hno

/-- **C109 (mask and clip).**  Clipping a masked raster keeps the cells of the box that the mask keeps and the features touch. -/
theorem C109_mask_clip {np : NumPy} {ext : Ext G} {p : Place G} {t t' : Table G} {r : Raster} {bounds : Option (List Rat)} {w : Window} (invert : Bool)
    (h : Good ext t p.whole r.ny r.nx) (hb : ∀ b, bounds = some b → b.length = 4) (hw : p.window (bounds.getD p.featureBounds) = some w)
    (hin : w.row + w.ny ≤ r.ny ∧ w.col + w.nx ≤ r.nx) (h' : Good ext t' (p.like w) w.ny w.nx) (hs : Seen p w) :
    ∃ m o, mask np ext p t r true invert = .ok m ∧ clip np ext p t' m true bounds = .ok o ∧
      Keeps r w (fun y x => Kept p t invert y x ∧ Touched p.whole t'.parts.flatten (y, x)) o := by
  obtain ⟨m, e1, k1⟩ := mask_keeps (np := np) (r := r) invert h
  obtain ⟨o, e2, k2⟩ := Clip.C34_clip_partial (np := np) (r := m) hb hw h' hs
  exact ⟨m, o, e1, e2, keeps_trans k1 k2 hin.1 hin.2⟩

/-! ### Boxes -/

theorem meeting_meeting (d lo hi lo' hi' : Rat) (xs : List Rat) :
    meeting d lo' hi' (meeting d lo hi xs) = xs.filter fun x => decide (Meets d lo hi x ∧ Meets d lo' hi' x) := by
  unfold meeting
  rw [List.filter_filter]
  refine List.filter_congr fun x _ => ?_
  by_cases h1 : Meets d lo hi x <;> by_cases h2 : Meets d lo' hi' x <;> simp [h1, h2]

theorem meeting_inside {d lo hi lo' hi' : Rat} (hl : lo ≤ lo') (hh : hi' ≤ hi) (xs : List Rat) :
    meeting d lo' hi' (meeting d lo hi xs) = meeting d lo' hi' xs := by
  rw [meeting_meeting]
  unfold meeting
  refine List.filter_congr fun x _ => ?_
  rw [decide_eq_decide]
  unfold Meets
  constructor
  · exact fun h => h.2
  · rintro ⟨h1, h2⟩
    exact ⟨⟨by linarith, by linarith⟩, h1, h2⟩

theorem getElem?_of_filter {l : List Rat} {f : Rat → Bool} {i : Nat} {x : Rat} (h : (l.filter f)[i]? = some x) : ∃ j : Nat, l[j]? = some x :=
  List.mem_iff_getElem?.1 (List.mem_of_mem_filter (List.mem_of_getElem? h))

/-- Without a null value nothing is null after `clip_box`. -/
theorem clip_mask {place : Place G} {expand : Placed → List Rat → Option Window} {p q : Placed} {bounds : List Rat}
    (h : clipBox place expand p bounds = .ok q) : MaskNeedsNull q.raster := by
  unfold clipBox at h
  cases hc : Clip.clipBox { place with window := ClipBox.boxWindow expand p } p.raster bounds with
  | error e =>
    rw [hc] at h
    cases h
  | ok o =>
    rw [hc] at h
    have ho : MaskNeedsNull o := by
      unfold Clip.clipBox at hc
      split at hc
      · cases hc
      · split at hc
        · cases hc
        · cases hc
          intro c hm hn
          have hm' : (if p.raster.masked then _ else false) = true := hm
          have hn' : p.raster.nv = none := hn
          have : p.raster.masked = false := by unfold Raster.masked; rw [hn']; rfl
          rw [this] at hm'
          cases hm'
    cases hb : ClipBox.boxWindow expand p bounds with
    | none =>
      rw [hb] at h
      cases h
    | some w =>
      rw [hb] at h
      cases h
      exact ho

/-- **C109 (boxes).**  Clipping to a box and the result to another one keeps the rows and columns that meet both, if there are two of each at least, with
their values and null cells. -/
theorem C109_boxes (place : Place G) (expand : Placed → List Rat → Option Window) {p : Placed}
    {x0 dx y0 dy l b r t l' b' r' t' : Rat} (h : OnGrid p x0 dx y0 dy) (hm : MaskNeedsNull p.raster)
    (hx : 2 ≤ (p.xs.filter fun x => decide (Meets dx l r x ∧ Meets dx l' r' x)).length)
    (hy : 2 ≤ (p.ys.filter fun y => decide (Meets dy b t y ∧ Meets dy b' t' y)).length) :
    ∃ q o, clipBox place expand p [l, b, r, t] = .ok q ∧ clipBox place expand q [l', b', r', t'] = .ok o ∧
      o.xs = (p.xs.filter fun x => decide (Meets dx l r x ∧ Meets dx l' r' x)) ∧
      o.ys = (p.ys.filter fun y => decide (Meets dy b t y ∧ Meets dy b' t' y)) ∧
      o.raster.nx = o.xs.length ∧ o.raster.ny = o.ys.length ∧ o.raster.nb = p.raster.nb ∧
      o.raster.dtype = p.raster.dtype ∧ o.raster.nv = p.raster.nv ∧ o.crs = p.crs ∧
      ∀ i j i' j' : Nat, ∀ x y, p.ys[i]? = some y → p.xs[j]? = some x → o.ys[i']? = some y → o.xs[j']? = some x →
        ∀ k, o.raster.data (k, i', j') = p.raster.data (k, i, j) ∧ o.raster.mask (k, i', j') = p.raster.mask (k, i, j) := by
  have fewer : ∀ (d lo hi lo' hi' : Rat) (xs : List Rat),
      (xs.filter fun x => decide (Meets d lo hi x ∧ Meets d lo' hi' x)).length ≤ (meeting d lo hi xs).length := by
    intro d lo hi lo' hi' xs
    rw [← meeting_meeting]
    exact List.length_filter_le _ _
  obtain ⟨q, e1, a1, a2, a3, a4, a5, a6, a7, a8, ⟨u, v, ag⟩, a10⟩ := ClipBox.C104_clip_box place expand h hm
    (hx.trans (fewer _ _ _ _ _ _)) (hy.trans (fewer _ _ _ _ _ _))
  rw [← meeting_meeting, ← a1] at hx
  rw [← meeting_meeting, ← a2] at hy
  have hm' : MaskNeedsNull q.raster := clip_mask e1
  obtain ⟨o, e2, c1, c2, c3, c4, c5, c6, c7, c8, -, c10⟩ := ClipBox.C104_clip_box place expand ag hm' hx hy
  refine ⟨q, o, e1, e2, ?_, ?_, c3, c4, c5.trans a5, c6.trans a6, c7.trans a7, c8.trans a8, ?_⟩
  · rw [c1, a1, meeting_meeting]
  · rw [c2, a2, meeting_meeting]
  · intro i j i' j' x y g1 g2 g3 g4 k
    obtain ⟨i₂, f1⟩ := getElem?_of_filter (by rw [c2] at g3; exact g3)
    obtain ⟨j₂, f2⟩ := getElem?_of_filter (by rw [c1] at g4; exact g4)
    obtain ⟨d1, d2⟩ := c10 i₂ j₂ i' j' x y f1 f2 g3 g4 k
    obtain ⟨d3, d4⟩ := a10 i j i₂ j₂ x y g1 g2 f1 f2 k
    exact ⟨d1.trans d3, d2.trans d4⟩

/-- **C109 (nested boxes).**  Clipping to a box before clipping to a box inside it makes no difference. -/
theorem C109_nested (place : Place G) (expand : Placed → List Rat → Option Window) {p : Placed}
    {x0 dx y0 dy l b r t l' b' r' t' : Rat} (h : OnGrid p x0 dx y0 dy) (hm : MaskNeedsNull p.raster)
    (hl : l ≤ l') (hb : b ≤ b') (hr : r' ≤ r) (ht : t' ≤ t)
    (hx : 2 ≤ (meeting dx l' r' p.xs).length) (hy : 2 ≤ (meeting dy b' t' p.ys).length) :
    ∃ q o s, clipBox place expand p [l, b, r, t] = .ok q ∧ clipBox place expand q [l', b', r', t'] = .ok o ∧
      clipBox place expand p [l', b', r', t'] = .ok s ∧ o.xs = s.xs ∧ o.ys = s.ys ∧ o.crs = s.crs ∧ SameCells o.raster s.raster := by
  have e1 := meeting_meeting dx l r l' r' p.xs
  have e2 := meeting_meeting dy b t b' t' p.ys
  rw [meeting_inside hl hr] at e1
  rw [meeting_inside hb ht] at e2
  obtain ⟨q, o, g1, g2, a1, a2, a3, a4, a5, a6, a7, a8, a9⟩ := C109_boxes (l := l) (b := b) (r := r) (t := t) (l' := l') (b' := b') (r' := r')
    (t' := t') place expand h hm (by rw [← e1]; exact hx) (by rw [← e2]; exact hy)
  obtain ⟨s, g3, c1, c2, c3, c4, c5, c6, c7, c8, -, c10⟩ := ClipBox.C104_clip_box place expand h hm hx hy
  have ex : o.xs = s.xs := by rw [a1, c1, e1]
  have ey : o.ys = s.ys := by rw [a2, c2, e2]
  refine ⟨q, o, s, g1, g2, g3, ex, ey, a8.trans c8.symm, a6.trans c6.symm, a5.trans c5.symm, by rw [a4, c4, ey], by rw [a3, c3, ex],
    a7.trans c7.symm, ?_⟩
  intro k y x hk hy' hx'
  rw [a4] at hy'
  rw [a3] at hx'
  obtain ⟨vy, f1⟩ : ∃ v, o.ys[y]? = some v := ⟨_, List.getElem?_eq_getElem hy'⟩
  obtain ⟨vx, f2⟩ : ∃ v, o.xs[x]? = some v := ⟨_, List.getElem?_eq_getElem hx'⟩
  obtain ⟨i, fi⟩ := getElem?_of_filter (by rw [a2] at f1; exact f1)
  obtain ⟨j, fj⟩ := getElem?_of_filter (by rw [a1] at f2; exact f2)
  obtain ⟨d1, d2⟩ := a9 i j y x _ _ fi fj f1 f2 k
  obtain ⟨d3, d4⟩ := c10 i j y x _ _ fi fj (ey ▸ f1) (ex ▸ f2) k
  exact ⟨d2.trans d4.symm, d1.trans d3.symm⟩

/-- The hypotheses on the boxes are met: two columns and two rows meet both. -/
example : (ClipBox.tile.xs.filter fun x => decide (Meets 2 (-1) (5/2) x ∧ Meets 2 (1/2) 4 x)) = [1, 3] ∧
    (ClipBox.tile.ys.filter fun y => decide (Meets 1 (1/2) 3 y ∧ Meets 1 0 2 y)) = [3/2, 1/2] ∧ OnGrid ClipBox.tile 1 2 (5/2) 1 :=
  ⟨by decide +kernel, by decide +kernel, ClipBox.tile_onGrid⟩

/-- Two boxes that have no point in common may both meet a cell, which stays. -/
example : ∀ d : Rat, 0 < d → Meets d (-(d/4)) 0 0 ∧ Meets d 0 (d/4) 0 := by
  intro d hd
  unfold Meets
  constructor <;> constructor <;> linarith

open Verif.Clip (place vector sample) in
/-- The hypotheses on features and raster hold for a raster of 4 x 4 cells. -/
example : Good Rasterize.Toy.ext vector place.whole sample.ny sample.nx := by
  refine ⟨Rasterize.Toy.lawful _, Rasterize.Toy.geometric _ _, by simp [place, Rasterize.Spec.TwoByTwo, Rasterize.Toy.like], Rasterize.Toy.hulls _ _ _, ?_, rfl, rfl⟩
  intro f hf
  simp only [vector, List.flatten_cons, List.flatten_nil, List.append_nil, List.mem_singleton] at hf
  subst hf
  simp [Rasterize.Toy.left]

end Verif.Trips.Clips
