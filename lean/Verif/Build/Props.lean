import Verif.Build.Model
import Verif.Nulls.RasterProps
import Mathlib.Data.List.Nodup
import Mathlib.Data.List.Chain
import Mathlib.Tactic.Linarith
import Mathlib.Tactic.Push

/-! # C60: a raster made from an xarray object -/

set_option linter.unusedSectionVars false

namespace Verif.Build

open Verif Verif.Nulls DType

namespace Spec

/-- Coordinates from low to high. -/
def Increasing (l : List Rat) : Prop := l.Pairwise (· < ·)

/-- Coordinates from high to low. -/
def Decreasing (l : List Rat) : Prop := l.Pairwise (· > ·)

/-- A proper `DataArray`: distinct dimension names, as many coordinates as indices, values that depend on the indices along its
own dimensions only. -/
structure Proper (a : XArray) : Prop where
  names : (a.axes.map (·.name)).Nodup
  coords : ∀ ax ∈ a.axes, ∀ l, ax.coord = some l → l.length = ax.size
  own : ∀ f g : String → Nat, (∀ ax ∈ a.axes, f ax.name = g ax.name) → a.get f = a.get g

/-- What is assumed of rioxarray's and odc-geo's search for spatial dimensions: they are two different dimensions of the object,
those called y and x if there are any, and not a dimension called band that comes first. -/
structure Finds (find : List String → Option (String × String)) : Prop where
  two : ∀ ds y x, find ds = some (y, x) → y ∈ ds ∧ x ∈ ds ∧ y ≠ x
  band : ∀ ds y x, find ds = some (y, x) → ds.head? = some "band" → y ≠ "band" ∧ x ≠ "band"
  usual : ∀ ds, "y" ∈ ds → "x" ∈ ds → find ds = some ("y", "x")

/-- The index `k` along the bands, `i` along y, `j` along x. -/
def index (bd yd : String) (k i j : Nat) (d : String) : Nat := if d = bd then k else if d = yd then i else j

end Spec

/-! ### Order of coordinates -/

theorem diffs_cons (a b : Rat) (l : List Rat) : diffs (a :: b :: l) = (b - a) :: diffs (b :: l) := rfl

theorem all_diffs (p : Rat → Bool) : ∀ l, (diffs l).all p = true ↔ l.IsChain fun a b => p (b - a) = true
  | [] => by simp [diffs]
  | [_] => by simp [diffs]
  | a :: b :: l => by
    rw [diffs_cons, List.all_cons, Bool.and_eq_true, all_diffs p (b :: l), List.isChain_cons_cons]

theorem diffs_length (l : List Rat) : (diffs l).length = l.length - 1 := by
  simp [diffs]

theorem increasing_iff (l : List Rat) : increasing l = true ↔ 2 ≤ l.length ∧ Spec.Increasing l := by
  unfold increasing Spec.Increasing
  rw [Bool.and_eq_true, all_diffs, ← List.isChain_iff_pairwise, diffs_length]
  simp only [decide_eq_true_eq, sub_pos]
  constructor <;> rintro ⟨h, h'⟩ <;> exact ⟨by omega, h'⟩

theorem decreasing_iff (l : List Rat) : decreasing l = true ↔ 2 ≤ l.length ∧ Spec.Decreasing l := by
  unfold decreasing Spec.Decreasing
  rw [Bool.and_eq_true, all_diffs, ← List.isChain_iff_pairwise, diffs_length]
  simp only [decide_eq_true_eq, sub_neg]
  constructor <;> rintro ⟨h, h'⟩ <;> exact ⟨by omega, h'⟩

theorem increasing_reverse (l : List Rat) : Spec.Increasing l.reverse ↔ Spec.Decreasing l := by
  unfold Spec.Increasing Spec.Decreasing
  rw [List.pairwise_reverse]

theorem decreasing_reverse (l : List Rat) : Spec.Decreasing l.reverse ↔ Spec.Increasing l := by
  unfold Spec.Increasing Spec.Decreasing
  rw [List.pairwise_reverse]

theorem not_both {l : List Rat} (h : 2 ≤ l.length) (hi : Spec.Increasing l) (hd : Spec.Decreasing l) : False := by
  match l, h with
  | a :: b :: l, _ =>
    have h1 := (List.pairwise_cons.1 hi).1 b (by simp)
    have h2 := (List.pairwise_cons.1 hd).1 b (by simp)
    exact absurd h1 (not_lt.2 (le_of_lt h2))

/-! ### The steps -/

theorem rename_ok {f : String → String} {a b : XArray} (h : rename f a = .ok b) :
    b.axes = a.axes.map (fun ax => { ax with name := f ax.name }) ∧ (b.get = fun idx => a.get fun d => idx (f d)) ∧
      (a.dims.map f).Nodup := by
  unfold rename at h
  split at h
  · next hn => cases h; exact ⟨rfl, rfl, hn⟩
  · cases h

theorem nameDims_ok {find : List String → Option (String × String)} {a b : XArray} (h : nameDims find a = .ok b) :
    ∃ f, rename f a = .ok b ∧ (find a.dims = none ∧ "band" ∉ a.dims ∧ f = positional a.dims ∨
      ∃ y x, find a.dims = some (y, x) ∧ f = spatial y x) := by
  unfold nameDims at h
  split at h
  · next hf =>
    split at h
    · cases h
    · next hb => exact ⟨_, h, .inl ⟨hf, hb, rfl⟩⟩
  · next y x hf => exact ⟨_, h, .inr ⟨y, x, hf, rfl⟩⟩

theorem normalize_ok {find : List String → Option (String × String)} {a : XArray} {n : Norm}
    (h : normalize find a = .ok n) :
    ∃ a1 a2 a3, (2 ≤ a.axes.length ∧ a.axes.length ≤ 3) ∧ expand a = .ok a1 ∧ rename usual a1 = .ok a2 ∧
      nameDims find a2 = .ok a3 ∧ standard a3 = .ok n := by
  unfold normalize at h
  split at h
  · cases h
  · next hl =>
    split at h
    · cases h
    · next a1 h1 =>
      split at h
      · cases h
      · next a2 h2 =>
        split at h
        · cases h
        · next a3 h3 => exact ⟨a1, a2, a3, by omega, h1, h2, h3, h⟩

theorem axis_some {a : XArray} {s : String} {ax : Axis} (h : a.axis s = some ax) : ax ∈ a.axes ∧ ax.name = s := by
  unfold XArray.axis at h
  exact ⟨List.mem_of_find?_eq_some h, by simpa using List.find?_some h⟩

theorem standard_ok {a : XArray} {n : Norm} (h : standard a = .ok n) :
    ∃ b y x ys xs, a.axis "band" = some b ∧ a.axis "y" = some y ∧ a.axis "x" = some x ∧ y.coord = some ys ∧
      x.coord = some xs ∧ n = orient b.size ys xs fun k i j => a.get (at3 k i j) := by
  unfold standard at h
  split at h
  · next b y x hb hy hx =>
    split at h
    · next ys xs hys hxs =>
      cases h
      exact ⟨b, y, x, ys, xs, hb, hy, hx, hys, hxs, rfl⟩
    · cases h
  · cases h

/-- The object before its dimensions are named: the same values, perhaps with a single band. -/
theorem expand_ok {a a1 : XArray} (h : expand a = .ok a1) :
    a1.get = a.get ∧ (a.axes.length = 2 ∧ "band" ∉ a.dims ∧ a1.axes = ⟨"band", 1, some [1]⟩ :: a.axes ∨
      a.axes.length ≠ 2 ∧ a1 = a) := by
  unfold expand at h
  split at h
  · next hl =>
    split at h
    · cases h
    · next hb => cases h; exact ⟨rfl, .inl ⟨hl, hb, rfl⟩⟩
  · next hl => cases h; exact ⟨rfl, .inr ⟨hl, rfl⟩⟩

/-- All the renaming in one. -/
theorem renamed {a1 a2 a3 : XArray} {f g : String → String} (h2 : rename f a1 = .ok a2) (h3 : rename g a2 = .ok a3) :
    a3.axes = a1.axes.map (fun ax => { ax with name := g (f ax.name) }) ∧
      (a3.get = fun idx => a1.get fun d => idx (g (f d))) ∧
      ((a1.axes.map (·.name)).map fun d => g (f d)).Nodup := by
  obtain ⟨e2, g2, n2⟩ := rename_ok h2
  obtain ⟨e3, g3, n3⟩ := rename_ok h3
  refine ⟨?_, ?_, ?_⟩
  · rw [e3, e2, List.map_map]; rfl
  · rw [g3, g2]
  · unfold XArray.dims at n3
    rw [e2, List.map_map, List.map_map] at n3
    rw [List.map_map]
    exact n3

theorem spatial_eq_y {y x d : String} (h : spatial y x d = "y") : d = y := by
  unfold spatial at h
  split at h
  · assumption
  · split at h <;> simp at h

theorem spatial_eq_x {y x d : String} (h : spatial y x d = "x") : d = x := by
  unfold spatial at h
  split at h
  · simp at h
  · split at h
    · assumption
    · simp at h

/-! ### Where the values come from -/

/-- The source dimensions of a standard array, and how its cells are read from the source. -/
theorem normalize_source {find : List String → Option (String × String)} (hf : Spec.Finds find) {a : XArray}
    (ha : Spec.Proper a) {n : Norm} (h : normalize find a = .ok n) :
    ∃ (bd : String) (ya xa : Axis) (nb : Nat) (ys xs : List Rat),
      ya ∈ a.axes ∧ xa ∈ a.axes ∧ bd ≠ ya.name ∧ bd ≠ xa.name ∧ ya.name ≠ xa.name ∧ ya.coord = some ys ∧ xa.coord = some xs ∧
      (a.axes.length = 2 ∧ bd ∉ a.axes.map (·.name) ∧ nb = 1 ∨
        a.axes.length = 3 ∧ ∃ ba ∈ a.axes, ba.name = bd ∧ nb = ba.size) ∧
      (("y" ∈ a.dims ∨ "lat" ∈ a.dims) → ("x" ∈ a.dims ∨ "lon" ∈ a.dims) →
        (ya.name = "y" ∨ ya.name = "lat") ∧ (xa.name = "x" ∨ xa.name = "lon")) ∧
      n = orient nb ys xs fun k i j => a.get (Spec.index bd ya.name k i j) := by
  obtain ⟨a1, a2, a3, hl, h1, h2, h3, h4⟩ := normalize_ok h
  obtain ⟨g1, e1⟩ := expand_ok h1
  obtain ⟨f, h3', hcase⟩ := nameDims_ok h3
  obtain ⟨e3, g3, n3⟩ := renamed h2 h3'
  obtain ⟨b, y, x, ys, xs, hb, hy, hx, hys, hxs, rfl⟩ := standard_ok h4
  obtain ⟨mb, nb'⟩ := axis_some hb
  obtain ⟨my, ny'⟩ := axis_some hy
  obtain ⟨mx, nx'⟩ := axis_some hx
  rw [e3] at mb my mx
  obtain ⟨b1, hb1, rfl⟩ := List.mem_map.1 mb
  obtain ⟨y1, hy1, rfl⟩ := List.mem_map.1 my
  obtain ⟨x1, hx1, rfl⟩ := List.mem_map.1 mx
  simp only at nb' ny' nx' hys hxs
  have inj : ∀ p ∈ a1.axes, ∀ q ∈ a1.axes, f (usual p.name) = f (usual q.name) → p.name = q.name := by
    intro p hp q hq hpq
    exact List.inj_on_of_nodup_map n3 (List.mem_map_of_mem hp) (List.mem_map_of_mem hq) hpq
  have dby : b1.name ≠ y1.name := fun e => by rw [e, ny'] at nb'; simp at nb'
  have dbx : b1.name ≠ x1.name := fun e => by rw [e, nx'] at nb'; simp at nb'
  have dyx : y1.name ≠ x1.name := fun e => by rw [e, nx'] at ny'; simp at ny'
  have hsub : ∀ ax ∈ a.axes, ax ∈ a1.axes := by
    intro ax hax
    rcases e1 with ⟨-, -, e⟩ | ⟨-, e⟩
    · rw [e]; exact List.mem_cons_of_mem _ hax
    · rw [e]; exact hax
  have a2dims : a2.dims = a1.axes.map fun ax => usual ax.name := by
    obtain ⟨e, -, -⟩ := rename_ok h2
    unfold XArray.dims
    rw [e, List.map_map]; rfl
  -- values
  have hget : (fun k i j => a3.get (at3 k i j)) = fun k i j => a.get (Spec.index b1.name y1.name k i j) := by
    funext k i j
    rw [g3, g1]
    apply ha.own
    intro ax hax
    unfold at3 Spec.index
    by_cases c1 : ax.name = b1.name
    · rw [if_pos c1, c1, if_pos nb']
    · have : f (usual ax.name) ≠ "band" := fun e => c1 (inj _ (hsub _ hax) _ hb1 (e.trans nb'.symm))
      rw [if_neg c1, if_neg this]
      by_cases c2 : ax.name = y1.name
      · rw [if_pos c2, c2, if_pos ny']
      · have : f (usual ax.name) ≠ "y" := fun e => c2 (inj _ (hsub _ hax) _ hy1 (e.trans ny'.symm))
        rw [if_neg c2, if_neg this]
  -- where the dimensions come from
  have mem : y1 ∈ a.axes ∧ x1 ∈ a.axes ∧ (a.axes.length = 2 ∧ b1.name ∉ a.axes.map (·.name) ∧ b1.size = 1 ∨
        a.axes.length = 3 ∧ ∃ ba ∈ a.axes, ba.name = b1.name ∧ b1.size = ba.size) := by
    rcases e1 with ⟨hl2, hnb, e⟩ | ⟨hl3, e⟩
    · have hd : a2.dims.head? = some "band" := by
        rw [a2dims, e]; rfl
      have band_in : "band" ∈ a2.dims := by
        rw [a2dims, e]; exact List.mem_map.2 ⟨_, List.mem_cons_self, rfl⟩
      rcases hcase with ⟨-, hno, -⟩ | ⟨yd, xd, hfind, rfl⟩
      · exact absurd band_in hno
      · obtain ⟨q1, q2⟩ := hf.band _ _ _ hfind hd
        have hbandr : spatial yd xd (usual "band") = "band" := by
          have : usual "band" = "band" := by decide
          rw [this, spatial, if_neg (Ne.symm q1), if_neg (Ne.symm q2)]
        have hbn : b1.name = "band" := by
          have hm : (⟨"band", 1, some [1]⟩ : Axis) ∈ a1.axes := by rw [e]; exact List.mem_cons_self
          exact inj _ hb1 _ hm (nb'.trans hbandr.symm)
        have hother : ∀ z ∈ a1.axes, z.name ≠ "band" → z ∈ a.axes := by
          intro z hz hzn
          rw [e] at hz
          rcases List.mem_cons.1 hz with rfl | hz
          · exact absurd rfl hzn
          · exact hz
        refine ⟨hother _ hy1 (hbn ▸ Ne.symm dby), hother _ hx1 (hbn ▸ Ne.symm dbx), .inl ⟨hl2, ?_, ?_⟩⟩
        · rw [hbn]; exact hnb
        · rw [e] at hb1
          rcases List.mem_cons.1 hb1 with rfl | hb1
          · rfl
          · exact absurd (hbn ▸ List.mem_map_of_mem (f := (·.name)) hb1) hnb
    · subst e
      exact ⟨hy1, hx1, .inr ⟨by omega, b1, hb1, rfl, rfl⟩⟩
  refine ⟨b1.name, y1, x1, b1.size, ys, xs, mem.1, mem.2.1, dby, dbx, dyx, hys, hxs, mem.2.2, ?_, ?_⟩
  · intro hyl hxl
    have iny : "y" ∈ a2.dims := by
      rw [a2dims]
      rcases hyl with hyl | hyl <;> obtain ⟨ax, hax, he⟩ := List.mem_map.1 hyl <;>
        exact List.mem_map.2 ⟨ax, hsub _ hax, by rw [he]; decide⟩
    have inx : "x" ∈ a2.dims := by
      rw [a2dims]
      rcases hxl with hxl | hxl <;> obtain ⟨ax, hax, he⟩ := List.mem_map.1 hxl <;>
        exact List.mem_map.2 ⟨ax, hsub _ hax, by rw [he]; decide⟩
    have hfind := hf.usual _ iny inx
    rcases hcase with ⟨hno, -, -⟩ | ⟨yd, xd, hfind', rfl⟩
    · rw [hfind] at hno; cases hno
    · rw [hfind] at hfind'
      cases hfind'
      have uy := spatial_eq_y ny'
      have ux := spatial_eq_x nx'
      constructor
      · unfold usual at uy
        split at uy
        · simp at uy
        · split at uy
          · simp at uy
          · split at uy
            · exact .inr (by assumption)
            · exact .inl uy
      · unfold usual at ux
        split at ux
        · simp at ux
        · split at ux
          · exact .inr (by assumption)
          · split at ux
            · simp at ux
            · exact .inl ux
  · rw [hget]

theorem orient_sizes (nb : Nat) (ys xs : List Rat) (get : Nat → Nat → Nat → Num) :
    (orient nb ys xs get).nb = nb ∧ (orient nb ys xs get).ys.length = ys.length ∧
      (orient nb ys xs get).xs.length = xs.length := by
  refine ⟨rfl, ?_, ?_⟩
  · simp only [orient]; split <;> simp
  · simp only [orient]; split <;> simp

/-- The place of an index after a perhaps reversal. -/
theorem flip_at (l : List Rat) (c : Bool) {i : Nat} (hi : i < l.length) :
    ∃ i' < l.length, (if c then l.reverse else l)[i']? = l[i]? ∧ (if c then l.length - 1 - i' else i') = i := by
  cases c with
  | false => exact ⟨i, hi, by simp, by simp⟩
  | true =>
    refine ⟨l.length - 1 - i, by omega, ?_, ?_⟩
    · rw [if_pos rfl, List.getElem?_reverse (by omega)]
      congr 1; omega
    · rw [if_pos rfl]; omega

theorem orient_values (nb : Nat) (ys xs : List Rat) (get : Nat → Nat → Nat → Num) {i j : Nat} (hi : i < ys.length)
    (hj : j < xs.length) : ∃ i' < ys.length, ∃ j' < xs.length, (orient nb ys xs get).ys[i']? = ys[i]? ∧
      (orient nb ys xs get).xs[j']? = xs[j]? ∧ ∀ k, (orient nb ys xs get).value k i' j' = get k i j := by
  obtain ⟨i', hi', e1, e2⟩ := flip_at ys (increasing ys) hi
  obtain ⟨j', hj', e3, e4⟩ := flip_at xs (decreasing xs) hj
  refine ⟨i', hi', j', hj', e1, e3, fun k => ?_⟩
  simp only [orient]
  rw [e2, e4]

/-- **C60 (values).** A raster made from a `DataArray` has the values of the object at the same coordinates and bands: every
value of the object is in the raster, at the cell with its coordinates, the numbers of bands, rows and columns are those of the
object, and the dimensions called y or lat, x or lon are the rows and the columns. -/
theorem C60_values {find : List String → Option (String × String)} (hf : Spec.Finds find) {a : XArray}
    (ha : Spec.Proper a) {n : Norm} (h : normalize find a = .ok n) :
    ∃ (bd : String) (ya xa : Axis) (ys xs : List Rat),
      ya ∈ a.axes ∧ xa ∈ a.axes ∧ bd ≠ ya.name ∧ bd ≠ xa.name ∧ ya.name ≠ xa.name ∧ ya.coord = some ys ∧ xa.coord = some xs ∧
      (a.axes.length = 2 ∧ bd ∉ a.axes.map (·.name) ∧ n.nb = 1 ∨
        a.axes.length = 3 ∧ ∃ ba ∈ a.axes, ba.name = bd ∧ n.nb = ba.size) ∧
      (("y" ∈ a.dims ∨ "lat" ∈ a.dims) → ("x" ∈ a.dims ∨ "lon" ∈ a.dims) →
        (ya.name = "y" ∨ ya.name = "lat") ∧ (xa.name = "x" ∨ xa.name = "lon")) ∧
      n.ys.length = ya.size ∧ n.xs.length = xa.size ∧
      ∀ i < ya.size, ∀ j < xa.size, ∃ i' < ya.size, ∃ j' < xa.size, n.ys[i']? = ys[i]? ∧ n.xs[j']? = xs[j]? ∧
        ∀ k, n.value k i' j' = a.get (Spec.index bd ya.name k i j) := by
  obtain ⟨bd, ya, xa, nb, ys, xs, m1, m2, d1, d2, d3, c1, c2, hb, hn, rfl⟩ := normalize_source hf ha h
  obtain ⟨s1, s2, s3⟩ := orient_sizes nb ys xs fun k i j => a.get (Spec.index bd ya.name k i j)
  have ly := ha.coords _ m1 _ c1
  have lx := ha.coords _ m2 _ c2
  refine ⟨bd, ya, xa, ys, xs, m1, m2, d1, d2, d3, c1, c2, hb, hn, s2.trans ly, s3.trans lx, ?_⟩
  intro i hi j hj
  rw [← ly] at hi ⊢
  rw [← lx] at hj ⊢
  exact orient_values nb ys xs _ hi hj

/-- **C60 (orientation).** If the coordinates of the object go up or down strictly, those of the raster go up along x and down
along y. -/
theorem C60_orientation {find : List String → Option (String × String)} {a : XArray} {n : Norm}
    (h : normalize find a = .ok n)
    (hmono : ∀ ax ∈ a.axes, ∀ l, ax.coord = some l → Spec.Increasing l ∨ Spec.Decreasing l) :
    Spec.Increasing n.xs ∧ Spec.Decreasing n.ys := by
  obtain ⟨a1, a2, a3, hl, h1, h2, h3, h4⟩ := normalize_ok h
  obtain ⟨g1, e1⟩ := expand_ok h1
  obtain ⟨f, h3', hcase⟩ := nameDims_ok h3
  obtain ⟨e3, g3, n3⟩ := renamed h2 h3'
  obtain ⟨b, y, x, ys, xs, hb, hy, hx, hys, hxs, rfl⟩ := standard_ok h4
  have mono1 : ∀ ax ∈ a1.axes, ∀ l, ax.coord = some l → Spec.Increasing l ∨ Spec.Decreasing l := by
    rcases e1 with ⟨-, -, e⟩ | ⟨-, e⟩
    · rw [e]
      intro ax hax l hl
      rcases List.mem_cons.1 hax with rfl | hax
      · cases hl; exact .inl (List.pairwise_singleton ..)
      · exact hmono ax hax l hl
    · rw [e]; exact hmono
  have mono3 : ∀ ax ∈ a3.axes, ∀ l, ax.coord = some l → Spec.Increasing l ∨ Spec.Decreasing l := by
    rw [e3]
    intro ax hax l hl
    obtain ⟨p, hp, rfl⟩ := List.mem_map.1 hax
    exact mono1 p hp l hl
  have my := mono3 _ (axis_some hy).1 _ hys
  have mx := mono3 _ (axis_some hx).1 _ hxs
  have short : ∀ l : List Rat, l.length < 2 → Spec.Increasing l ∧ Spec.Decreasing l := by
    intro l hl
    match l, hl with
    | [], _ => exact ⟨List.Pairwise.nil, List.Pairwise.nil⟩
    | [_], _ => exact ⟨List.pairwise_singleton .., List.pairwise_singleton ..⟩
  constructor
  · simp only [orient]
    by_cases c : decreasing xs = true
    · rw [if_pos c, increasing_reverse]; exact ((decreasing_iff _).1 c).2
    · rw [if_neg c]
      rcases mx with m | m
      · exact m
      · by_cases hl : 2 ≤ xs.length
        · exact absurd ((decreasing_iff _).2 ⟨hl, m⟩) c
        · exact (short xs (by omega)).1
  · simp only [orient]
    by_cases c : increasing ys = true
    · rw [if_pos c, decreasing_reverse]; exact ((increasing_iff _).1 c).2
    · rw [if_neg c]
      rcases my with m | m
      · by_cases hl : 2 ≤ ys.length
        · exact absurd ((increasing_iff _).2 ⟨hl, m⟩) c
        · exact (short ys (by omega)).2
      · exact m

/-! ### What is accepted -/

theorem find_of_mem {l : List Axis} (hn : (l.map (·.name)).Nodup) {ax : Axis} (h : ax ∈ l) :
    l.find? (fun z => z.name = ax.name) = some ax := by
  induction l with
  | nil => cases h
  | cons b l ih =>
    rw [List.map_cons, List.nodup_cons] at hn
    rcases List.mem_cons.1 h with rfl | h
    · simp
    · have : b.name ≠ ax.name := fun e => hn.1 (e ▸ List.mem_map_of_mem h)
      rw [List.find?_cons_of_neg (by simpa using this)]
      exact ih hn.2 h

/-- **C60 (accepted).** A `DataArray` with a dimension y or lat, a dimension x or lon, and perhaps a third one called band or time,
in any order, with coordinates along y and x, is accepted. -/
theorem C60_accepted {find : List String → Option (String × String)} (hf : Spec.Finds find) {a : XArray}
    (hd : (a.dims.map usual).Perm ["band", "y", "x"] ∨ (a.dims.map usual).Perm ["y", "x"])
    (hc : ∀ ax ∈ a.axes, (∃ l, ax.coord = some l) ∨ usual ax.name = "band") :
    ∃ n, normalize find a = .ok n := by
  have hlen : a.axes.length = 3 ∨ a.axes.length = 2 := by
    rcases hd with hd | hd <;> have := hd.length_eq <;> simp [XArray.dims] at this <;> omega
  -- after adding a band
  obtain ⟨a1, h1, hd1, hc1⟩ : ∃ a1, expand a = .ok a1 ∧ (a1.dims.map usual).Perm ["band", "y", "x"] ∧
      ∀ ax ∈ a1.axes, (∃ l, ax.coord = some l) ∨ usual ax.name = "band" := by
    rcases hd with hd | hd
    · refine ⟨a, ?_, hd, hc⟩
      have : a.axes.length = 3 := by simpa [XArray.dims] using hd.length_eq
      unfold expand
      rw [if_neg (by omega)]
    · have : a.axes.length = 2 := by simpa [XArray.dims] using hd.length_eq
      have hnb : "band" ∉ a.dims := by
        intro hb
        have : usual "band" ∈ a.dims.map usual := List.mem_map_of_mem hb
        have := hd.mem_iff.1 this
        exact absurd this (by decide)
      refine ⟨_, by unfold expand; rw [if_pos this, if_neg hnb], ?_, ?_⟩
      · have e : ({ a with axes := ⟨"band", 1, some [1]⟩ :: a.axes } : XArray).dims.map usual = "band" :: a.dims.map usual := by
          simp only [XArray.dims, List.map_cons, List.cons.injEq, and_true]
          decide
        rw [e]
        exact hd.cons _
      · intro ax hax
        rcases List.mem_cons.1 hax with rfl | hax
        · exact .inl ⟨[1], rfl⟩
        · exact hc ax hax
  have nd1 : (a1.dims.map usual).Nodup := hd1.nodup_iff.2 (by decide)
  obtain ⟨a2, h2⟩ : ∃ a2, rename usual a1 = .ok a2 := ⟨_, by unfold rename; rw [if_pos nd1]⟩
  obtain ⟨e2, g2, -⟩ := rename_ok h2
  have d2 : a2.dims = a1.dims.map usual := by
    unfold XArray.dims; rw [e2, List.map_map, List.map_map]; rfl
  have p2 : a2.dims.Perm ["band", "y", "x"] := d2 ▸ hd1
  have hfind : find a2.dims = some ("y", "x") :=
    hf.usual _ (p2.mem_iff.2 (by decide)) (p2.mem_iff.2 (by decide))
  have sp : ∀ d ∈ a2.dims, spatial "y" "x" d = d := by
    intro d hd
    have := p2.mem_iff.1 hd
    simp only [List.mem_cons, List.not_mem_nil, or_false] at this
    rcases this with rfl | rfl | rfl <;> decide
  have hmap : a2.dims.map (spatial "y" "x") = a2.dims := by
    conv_rhs => rw [← List.map_id a2.dims]
    exact List.map_congr_left sp
  obtain ⟨a3, h3⟩ : ∃ a3, rename (spatial "y" "x") a2 = .ok a3 := ⟨_, by
    unfold rename
    rw [if_pos (by rw [hmap, d2]; exact nd1)]⟩
  have h3' : nameDims find a2 = .ok a3 := by
    unfold nameDims
    rw [hfind]
    exact h3
  obtain ⟨e3, -, -⟩ := rename_ok h3
  have d3 : a3.dims = a2.dims := by
    rw [← hmap]
    unfold XArray.dims; rw [e3, List.map_map, List.map_map]; rfl
  have p3 : a3.dims.Perm ["band", "y", "x"] := d3 ▸ p2
  have nd3 : (a3.axes.map (·.name)).Nodup := p3.nodup_iff.2 (by decide)
  have get : ∀ s ∈ ["band", "y", "x"], ∃ ax, a3.axis s = some ax ∧ ((∃ l, ax.coord = some l) ∨ s = "band") := by
    intro s hs
    obtain ⟨ax, hax, rfl⟩ := List.mem_map.1 (p3.mem_iff.2 hs)
    refine ⟨ax, find_of_mem nd3 hax, ?_⟩
    have hax' := hax
    rw [e3, e2, List.map_map] at hax
    obtain ⟨p, hp, rfl⟩ := List.mem_map.1 hax
    rcases hc1 p hp with h | h
    · exact .inl h
    · refine .inr ?_
      show spatial "y" "x" (usual p.name) = "band"
      rw [h]; decide
  obtain ⟨b, hb, -⟩ := get "band" (by decide)
  obtain ⟨y, hy, hys⟩ := get "y" (by decide)
  obtain ⟨x, hx, hxs⟩ := get "x" (by decide)
  obtain ⟨ys, hys⟩ := hys.resolve_right (by decide)
  obtain ⟨xs, hxs⟩ := hxs.resolve_right (by decide)
  refine ⟨orient b.size ys xs fun k i j => a3.get (at3 k i j), ?_⟩
  unfold normalize
  rw [if_neg (by omega), h1]
  simp only [h2, h3']
  unfold standard
  rw [hb, hy, hx]
  simp only [hys, hxs]

/-- **C60 (refused).** Objects without coordinates along y or x are refused. -/
theorem C60_no_coordinates {find : List String → Option (String × String)} (hf : Spec.Finds find) {a : XArray}
    (ha : Spec.Proper a) {n : Norm} (h : normalize find a = .ok n) :
    2 ≤ (a.axes.filter fun ax => ax.coord.isSome).length := by
  obtain ⟨bd, ya, xa, nb, ys, xs, m1, m2, -, -, d3, c1, c2, -⟩ := normalize_source hf ha h
  have hsub : [ya, xa] ⊆ a.axes.filter fun ax => ax.coord.isSome := by
    intro z hz
    simp only [List.mem_cons, List.not_mem_nil, or_false] at hz
    rcases hz with rfl | rfl
    · exact List.mem_filter.2 ⟨m1, by rw [c1]; rfl⟩
    · exact List.mem_filter.2 ⟨m2, by rw [c2]; rfl⟩
  have hnd : [ya, xa].Nodup := by
    simp only [List.nodup_cons, List.mem_singleton, List.not_mem_nil, not_false_eq_true, List.nodup_nil, and_true]
    exact fun e => d3 (by rw [e])
  exact (List.subperm_of_subset hnd hsub).length_le

/-- **C60 (refused).** Objects that do not have two or three dimensions are refused. -/
theorem C60_refused (find : List String → Option (String × String)) (a : XArray)
    (h : a.axes.length < 2 ∨ 3 < a.axes.length) : normalize find a = .error .value := by
  unfold normalize; rw [if_pos h]

theorem rename_error {f : String → String} {a : XArray} {e : Err} (h : rename f a = .error e) : e = .value := by
  unfold rename at h
  split at h
  · cases h
  · exact (Except.error.inj h).symm

theorem standard_error {a : XArray} {e : Err} (h : standard a = .error e) : e = .value := by
  unfold standard at h
  split at h
  · split at h
    · cases h
    · exact (Except.error.inj h).symm
  · exact (Except.error.inj h).symm

/-- **C60 (errors).** Whatever is refused is refused with a ValueError, but objects in which the search finds no spatial dimensions
may raise an AttributeError. -/
theorem C60_errors {find : List String → Option (String × String)} {a : XArray} {e : Err} (h : normalize find a = .error e) :
    e = .value ∨ e = .runtime ∧ ∃ dims, find dims = none ∧ "band" ∈ dims := by
  unfold normalize at h
  split at h
  · exact Or.inl (Except.error.inj h).symm
  · cases h1 : expand a with
    | error e1 =>
      rw [h1] at h
      unfold expand at h1
      split at h1
      · split at h1
        · exact Or.inl ((Except.error.inj h).symm.trans (Except.error.inj h1).symm)
        · cases h1
      · cases h1
    | ok a1 =>
      rw [h1] at h
      cases h2 : rename usual a1 with
      | error e2 =>
        simp only [h2] at h
        exact Or.inl ((Except.error.inj h).symm.trans (rename_error h2))
      | ok a2 =>
        simp only [h2] at h
        cases h3 : nameDims find a2 with
        | error e3 =>
          simp only [h3] at h
          have h4 := (Except.error.inj h).symm
          unfold nameDims at h3
          split at h3
          · next hf =>
            split at h3
            · next hb => exact Or.inr ⟨h4.trans (Except.error.inj h3).symm, _, hf, hb⟩
            · exact Or.inl (h4.trans (rename_error h3))
          · exact Or.inl (h4.trans (rename_error h3))
        | ok a3 =>
          simp only [h3] at h
          exact Or.inl (standard_error h)

/-- Two dimensions, one of which is already called band. -/
example : normalize (fun _ => none) ⟨[⟨"band", 1, none⟩, ⟨"y", 1, none⟩], fun _ => .nan⟩ = .error .value := by rfl

/-- Both lon and x. -/
example : normalize (fun _ => none) ⟨[⟨"lon", 1, none⟩, ⟨"x", 1, none⟩], fun _ => .nan⟩ = .error .value := by rfl

/-! ### Twice -/

/-- The `DataArray` of a raster. -/
def Spec.arrayOf (n : Norm) : XArray :=
  ⟨[⟨"band", n.nb, some ((List.range n.nb).map fun k => (k : Rat) + 1)⟩, ⟨"y", n.ys.length, some n.ys⟩,
    ⟨"x", n.xs.length, some n.xs⟩], fun idx => n.value (idx "band") (idx "y") (idx "x")⟩

theorem orient_fixed (nb : Nat) (ys xs : List Rat) (get : Nat → Nat → Nat → Num) :
    decreasing (orient nb ys xs get).xs = false ∧ increasing (orient nb ys xs get).ys = false := by
  constructor
  · simp only [orient]
    rw [Bool.eq_false_iff]
    intro hd
    by_cases c : decreasing xs = true
    · rw [if_pos c] at hd
      obtain ⟨hl, hd⟩ := (decreasing_iff _).1 hd
      rw [decreasing_reverse] at hd
      rw [List.length_reverse] at hl
      exact not_both hl hd ((decreasing_iff _).1 c).2
    · rw [if_neg c] at hd; exact c hd
  · simp only [orient]
    rw [Bool.eq_false_iff]
    intro hd
    by_cases c : increasing ys = true
    · rw [if_pos c] at hd
      obtain ⟨hl, hd⟩ := (increasing_iff _).1 hd
      rw [increasing_reverse] at hd
      rw [List.length_reverse] at hl
      exact not_both hl ((increasing_iff _).1 c).2 hd
    · rw [if_neg c] at hd; exact c hd

/-- **C60 (twice).** Making a raster from the `DataArray` of a raster changes nothing. -/
theorem C60_twice {find find' : List String → Option (String × String)} (hf : Spec.Finds find') {a : XArray}
    {n : Norm} (h : normalize find a = .ok n) : normalize find' (Spec.arrayOf n) = .ok n := by
  obtain ⟨a1, a2, a3, hl, h1, h2, h3, h4⟩ := normalize_ok h
  obtain ⟨b, y, x, ys, xs, hb, hy, hx, hys, hxs, hn⟩ := standard_ok h4
  have fx := (orient_fixed b.size ys xs fun k i j => a3.get (at3 k i j)).1
  have fy := (orient_fixed b.size ys xs fun k i j => a3.get (at3 k i j)).2
  rw [← hn] at fx fy
  have hfind : find' ["band", "y", "x"] = some ("y", "x") := hf.usual _ (by decide) (by decide)
  have e1 : expand (Spec.arrayOf n) = .ok (Spec.arrayOf n) := rfl
  have e2 : rename usual (Spec.arrayOf n) = .ok (Spec.arrayOf n) := rfl
  have e3 : nameDims find' (Spec.arrayOf n) = .ok (Spec.arrayOf n) := by
    unfold nameDims
    have : (Spec.arrayOf n).dims = ["band", "y", "x"] := rfl
    rw [this, hfind]
    rfl
  have e4 : standard (Spec.arrayOf n) =
      .ok (orient n.nb n.ys n.xs fun k i j => (Spec.arrayOf n).get (at3 k i j)) := by
    have ab : (Spec.arrayOf n).axis "band" = some ⟨"band", n.nb, some ((List.range n.nb).map fun k => (k : Rat) + 1)⟩ := rfl
    have ay : (Spec.arrayOf n).axis "y" = some ⟨"y", n.ys.length, some n.ys⟩ := rfl
    have ax : (Spec.arrayOf n).axis "x" = some ⟨"x", n.xs.length, some n.xs⟩ := rfl
    unfold standard
    rw [ab, ay, ax]
  unfold normalize
  rw [if_neg (by simp [Spec.arrayOf]), e1]
  simp only [e2, e3, e4]
  unfold orient
  rw [fx, fy]
  rfl

/-! ### Null cells -/

/-- The null value written on an object: the attribute `_FillValue`, else `nodata`, else the encoded `nodata`. -/
def Spec.declared (i : NullInfo) : Option Scalar := (i.fillAttr.join).or (i.nodata.or i.encoded)

/-- Which values are null: those equal to the declared null value; without one, NaN in floating point data, unless an object in
memory says by `_FillValue = None` that it has no null value. -/
def Spec.IsNull (i : NullInfo) (dt : DType) (x : Num) : Prop :=
  match Spec.declared i with
  | some s => x = s.val
  | none => dt.isFloat = true ∧ x = .nan ∧ ¬(i.fillAttr = some none ∧ i.lazy = false)

theorem findNull_declared {i : NullInfo} {s : Scalar} (h : Spec.declared i = some s) (f n : Bool) :
    findNull i f n = some s := by
  obtain ⟨fa, nd, en, lz⟩ := i
  rcases fa with _ | _ | fa <;> rcases nd with _ | nd <;> rcases en with _ | en <;>
    simp_all [Spec.declared, findNull]

theorem findNull_none {i : NullInfo} (h : Spec.declared i = none) (f n : Bool) :
    findNull i f n = if f = true ∧ (i.lazy = true ∨ n = true) ∧ ¬(i.fillAttr = some none ∧ i.lazy = false)
      then some ⟨f64, .nan⟩ else none := by
  obtain ⟨fa, nd, en, lz⟩ := i
  rcases fa with _ | _ | fa <;> rcases nd with _ | nd <;> rcases en with _ | en <;>
    simp_all [Spec.declared, findNull] <;> cases lz <;> cases f <;> cases n <;> simp

theorem reconcile_some (np : NumPy) (s : Scalar) (dt : DType) : ∃ t, (reconcile np (some s) dt).1 = some t := by
  unfold reconcile
  simp only
  split
  · exact ⟨_, rfl⟩
  · split
    · exact ⟨_, rfl⟩
    · split <;> exact ⟨_, rfl⟩

theorem anyCell_iff (nb ny nx : Nat) (p : Cell → Bool) :
    anyCell nb ny nx p = true ↔ ∃ c : Cell, (c.1 < nb ∧ c.2.1 < ny ∧ c.2.2 < nx) ∧ p c = true := by
  unfold anyCell
  simp only [List.any_eq_true, List.mem_range]
  constructor
  · rintro ⟨b, hb, y, hy, x, hx, h⟩; exact ⟨(b, y, x), ⟨hb, hy, hx⟩, h⟩
  · rintro ⟨⟨b, y, x⟩, ⟨hb, hy, hx⟩, h⟩; exact ⟨b, hb, y, hy, x, hx, h⟩

/-- What `ofDataArray` gives for the null value found. -/
theorem ofDataArray_spec (np : NumPy) (dt : DType) (nb ny nx : Nat) (data : Cell → Num) (nv : Option Scalar) :
    let r := ofDataArray np dt nb ny nx data nv
    (r.dtype, r.nb, r.ny, r.nx) = (dt, nb, ny, nx) ∧ r.nv = (reconcile np nv dt).1 ∧
    ∀ c, (r.mask c = true ↔ ∃ s, nv = some s ∧ data c = s.val) ∧ (r.mask c = false → r.data c = data c) ∧
      (r.mask c = true → ∃ t, r.nv = some t ∧ r.data c = t.val) := by
  intro r
  cases nv with
  | none =>
    refine ⟨rfl, rfl, fun c => ⟨?_, fun _ => rfl, ?_⟩⟩
    · simp [r, ofDataArray, maskOf]
    · intro h; exact absurd h (by simp [r, ofDataArray, maskOf])
  | some s =>
    obtain ⟨t, ht⟩ := reconcile_some np s dt
    have hr : r = if s.val.isnan || !(s.val.eq t.val) then
        ⟨dt, nb, ny, nx, fun c => if maskOf (some s.val) (data c) then t.val else data c, fun c => maskOf (some s.val) (data c), some t⟩
      else ⟨dt, nb, ny, nx, data, fun c => maskOf (some s.val) (data c), some t⟩ := by
      simp only [r, ofDataArray, ht]
      rfl
    have hm : r.mask = fun c => maskOf (some s.val) (data c) := by rw [hr]; split <;> rfl
    have hv : r.nv = some t := by rw [hr]; split <;> rfl
    refine ⟨by rw [hr]; split <;> rfl, hv.trans ht.symm, fun c => ⟨?_, ?_, ?_⟩⟩
    · rw [hm]
      simp only
      rw [maskOf_iff]
      simp
    · intro h
      rw [hm] at h
      simp only at h
      rw [hr]
      split
      · simp only [h]; rfl
      · rfl
    · intro h
      rw [hm] at h
      simp only at h
      refine ⟨t, hv, ?_⟩
      rw [hr]
      split
      · simp only [h, if_true]
      · next hc =>
        simp only [Bool.or_eq_true, not_or, Bool.not_eq_true, Bool.not_eq_false'] at hc
        rw [maskOf_iff] at h
        simp only
        rw [h]
        exact ((Num.eq_iff _ _).1 hc.2).1

/-- **C60 (null cells).** A raster made from a `DataArray` has null cells exactly where the object has its null value; all
others keep their values, and null cells hold the null value of the raster. -/
theorem C60_nulls {np : NumPy} {find : List String → Option (String × String)} {dt : DType} {a : XArray}
    {i : NullInfo} {r : Raster} {ys xs : List Rat} (h : fromDataArray np find dt a i = .ok (r, ys, xs)) :
    ∃ n, normalize find a = .ok n ∧ ys = n.ys ∧ xs = n.xs ∧
      (r.dtype, r.nb, r.ny, r.nx) = (dt, n.nb, ys.length, xs.length) ∧
      ∀ k y x, r.Has (k, y, x) → (r.mask (k, y, x) = true ↔ Spec.IsNull i dt (n.value k y x)) ∧
        (r.mask (k, y, x) = false → r.data (k, y, x) = n.value k y x) ∧
        (r.mask (k, y, x) = true → ∃ t, r.nv = some t ∧ r.data (k, y, x) = t.val) := by
  unfold fromDataArray at h
  split at h
  · cases h
  · next n hn =>
    simp only [Except.ok.injEq, Prod.mk.injEq] at h
    obtain ⟨rfl, rfl, rfl⟩ := h
    obtain ⟨h1, h2, h3⟩ := ofDataArray_spec np dt n.nb n.ys.length n.xs.length n.data
      (findNull i dt.isFloat (anyCell n.nb n.ys.length n.xs.length fun c => (n.data c).isnan))
    refine ⟨n, hn, rfl, rfl, h1, fun k y x hc => ⟨?_, (h3 (k, y, x)).2.1, (h3 (k, y, x)).2.2⟩⟩
    rw [(h3 (k, y, x)).1]
    have hin : k < n.nb ∧ y < n.ys.length ∧ x < n.xs.length := by
      simp only [Prod.mk.injEq] at h1
      obtain ⟨-, b1, b2, b3⟩ := h1
      obtain ⟨c1, c2, c3⟩ := hc
      rw [b1] at c1
      rw [b2] at c2
      rw [b3] at c3
      exact ⟨c1, c2, c3⟩
    show (∃ s : Scalar, _ = some s ∧ n.value k y x = s.val) ↔ _
    unfold Spec.IsNull
    cases hd : Spec.declared i with
    | some s =>
      rw [findNull_declared hd]
      simp
    | none =>
      rw [findNull_none hd]
      constructor
      · rintro ⟨s, hs, hv⟩
        split at hs
        · next hc => cases hs; exact ⟨hc.1, hv, hc.2.2⟩
        · cases hs
      · rintro ⟨hf, hv, hno⟩
        have : anyCell n.nb n.ys.length n.xs.length (fun c => (n.data c).isnan) = true :=
          (anyCell_iff ..).2 ⟨(k, y, x), hin, by show (n.value k y x).isnan = true; rw [hv]; rfl⟩
        rw [if_pos ⟨hf, .inr this, hno⟩]
        exact ⟨_, rfl, hv⟩

/-! ### Datasets -/

/-- **C60 (datasets).** A raster made from a `Dataset` that is not in the standard form has null cells where the mask is set, at
the same coordinates; the other cells have the values of the data, and there is always a null value, which null cells hold. -/
theorem C60_dataset {np : NumPy} {find : List String → Option (String × String)} {d : DatasetInput}
    {r : Raster} {ys xs : List Rat} (hs : d.standard = false) (h : fromDataset np find d = .ok (r, ys, xs)) :
    ∃ n m t, normalize find d.raster = .ok n ∧ normalize find d.mask = .ok m ∧ ys = n.ys ∧ xs = n.xs ∧
      (m.nb, m.ys.length, m.xs.length) = (n.nb, ys.length, xs.length) ∧
      (r.dtype, r.nb, r.ny, r.nx) = (d.dtype, n.nb, ys.length, xs.length) ∧ r.nv = some t ∧
      ∀ k y x, (r.mask (k, y, x) = true ↔ m.value k y x ≠ .fin 0) ∧
        (m.value k y x = .fin 0 → r.data (k, y, x) = n.value k y x) ∧
        (m.value k y x ≠ .fin 0 → r.data (k, y, x) = t.val) := by
  unfold fromDataset at h
  rw [hs] at h
  simp only [Bool.false_eq_true, if_false] at h
  split at h
  · cases h
  · split at h
    · cases h
    · split at h
      · cases h
      · cases h
      · next n m hn hm =>
        split at h
        · cases h
        · next hsz =>
          simp only [Except.ok.injEq, Prod.mk.injEq] at h
          obtain ⟨rfl, rfl, rfl⟩ := h
          obtain ⟨t, ht⟩ : ∃ t, datasetNull np d.info d.dtype = some t := by
            unfold datasetNull
            split
            · exact ⟨_, rfl⟩
            · exact reconcile_some _ _ _
          rw [ht]
          refine ⟨n, m, t, hn, hm, rfl, rfl, not_ne_iff.1 hsz, rfl, rfl, fun k y x => ⟨?_, ?_, ?_⟩⟩
          · simp only [withMask, Norm.data]; exact decide_eq_true_iff
          · intro h0; simp [withMask, Norm.data, h0]
          · intro h0; simp [withMask, Norm.data, h0]

/-- **C60 (datasets).** Other variables or a mask that is not boolean are refused. -/
theorem C60_dataset_refused (np : NumPy) (find : List String → Option (String × String)) (d : DatasetInput)
    (hs : d.standard = false) : (d.onlyRasterAndMask = false → fromDataset np find d = .error .value) ∧
      (d.onlyRasterAndMask = true → d.maskIsBool = false → fromDataset np find d = .error .type) := by
  constructor
  · intro h1; simp [fromDataset, hs, h1]
  · intro h1 h2; simp [fromDataset, hs, h1, h2]

/-! ### Examples and counterexamples -/

/-- A search that takes y and x, else the last two dimensions. -/
def sampleFind (ds : List String) : Option (String × String) :=
  if "y" ∈ ds ∧ "x" ∈ ds then some ("y", "x")
  else match ds with
    | [_, y, x] => if y ≠ x ∧ y ≠ "band" ∧ x ≠ "band" then some (y, x) else none
    | _ => none

theorem sampleFind_finds : Spec.Finds sampleFind where
  two := by
    intro ds y x h
    unfold sampleFind at h
    split at h
    · next hc => cases h; exact ⟨hc.1, hc.2, by decide⟩
    · split at h
      · split at h
        · next hc => cases h; exact ⟨by simp, by simp, hc.1⟩
        · cases h
      · cases h
  band := by
    intro ds y x h _
    unfold sampleFind at h
    split at h
    · cases h; decide
    · split at h
      · split at h
        · next hc => cases h; exact hc.2
        · cases h
      · cases h
  usual := by
    intro ds hy hx
    unfold sampleFind
    rw [if_pos ⟨hy, hx⟩]

/-- Longitudes from east to west and latitudes from south to north, columns first, two times. -/
def sampleArray : XArray :=
  ⟨[⟨"lon", 2, some [5, 3]⟩, ⟨"time", 2, none⟩, ⟨"lat", 3, some [1, 2, 4]⟩],
    fun idx => .fin (100 * idx "time" + 10 * idx "lat" + idx "lon" : Nat)⟩

theorem sampleArray_proper : Spec.Proper sampleArray where
  names := by decide
  coords := by simp [sampleArray]
  own := by
    intro f g h
    have h1 := h ⟨"lon", 2, some [5, 3]⟩ (by simp [sampleArray])
    have h2 := h ⟨"time", 2, none⟩ (by simp [sampleArray])
    have h3 := h ⟨"lat", 3, some [1, 2, 4]⟩ (by simp [sampleArray])
    simp only at h1 h2 h3
    simp only [sampleArray, h1, h2, h3]

example : ∃ n, normalize sampleFind sampleArray = .ok n ∧ n.nb = 2 ∧ n.ys = [4, 2, 1] ∧ n.xs = [3, 5] ∧
    n.value 1 0 0 = .fin 121 ∧ n.value 0 2 1 = .fin 0 :=
  ⟨_, rfl, by decide +kernel⟩

example : (∀ ax ∈ sampleArray.axes, ∀ l, ax.coord = some l → Spec.Increasing l ∨ Spec.Decreasing l) ∧
    (sampleArray.dims.map usual).Perm ["band", "y", "x"] := by
  constructor
  · simp [sampleArray, Spec.Increasing, Spec.Decreasing]; norm_num
  · decide

/-- An array in memory with an integer null value. -/
example : ∃ r ys xs, fromDataArray (idNumPy true) sampleFind f64 sampleArray ⟨none, some ⟨f64, .fin 121⟩, none, false⟩
    = .ok (r, ys, xs) ∧ r.mask (1, 0, 0) = true ∧ r.mask (0, 0, 0) = false :=
  ⟨_, _, _, rfl, by decide +kernel⟩

/-- **C60 is false for two conventions at once**: an object with a `_FillValue` of `None` keeps NaN cells as valid values if it
is in memory and has them null if it is lazy. -/
theorem C60_fill_none : ∃ (a : XArray) (r r' : Raster) (ys xs : List Rat),
    fromDataArray (idNumPy true) sampleFind f64 a ⟨some none, none, none, false⟩ = .ok (r, ys, xs) ∧
    fromDataArray (idNumPy true) sampleFind f64 a ⟨some none, none, none, true⟩ = .ok (r', ys, xs) ∧
    r.mask (0, 0, 0) = false ∧ r.data (0, 0, 0) = .nan ∧ r'.mask (0, 0, 0) = true :=
  ⟨⟨[⟨"y", 2, some [1, 0]⟩, ⟨"x", 2, some [0, 1]⟩], fun _ => .nan⟩, _, _, _, _, rfl, rfl, by decide +kernel⟩

/-- **C60 is false of datasets in the standard form with y going up**: they are taken as they are, so the rows of the raster go
from south to north. -/
theorem C60_dataset_south_up : ∃ (d : DatasetInput) (r : Raster), d.standard = true ∧
    fromDataset (idNumPy true) sampleFind d = .ok (r, [0, 1], [0, 1]) ∧ ¬ Spec.Decreasing [0, 1] := by
  refine ⟨⟨true, true, true, f64, ⟨[⟨"band", 1, some [1]⟩, ⟨"y", 2, some [0, 1]⟩, ⟨"x", 2, some [0, 1]⟩], fun _ => .fin 7⟩,
    ⟨[⟨"band", 1, some [1]⟩, ⟨"y", 2, some [0, 1]⟩, ⟨"x", 2, some [0, 1]⟩], fun _ => .fin 0⟩, ⟨none, none, none, true⟩⟩, _, rfl, rfl, ?_⟩
  simp [Spec.Decreasing]

/-- **C60 (unnamed dimensions).** Without dimensions that look like rows and columns, and none called band, three dimensions are
bands, rows and columns in their order. -/
theorem C60_positional {find : List String → Option (String × String)} {a : XArray} (ha : Spec.Proper a) {p q s : Axis}
    (hax : a.axes = [p, q, s]) (hn : [usual p.name, usual q.name, usual s.name].Nodup)
    (hb : "band" ∉ [usual p.name, usual q.name, usual s.name])
    (hfind : find [usual p.name, usual q.name, usual s.name] = none) {ys xs : List Rat} (hq : q.coord = some ys)
    (hs : s.coord = some xs) :
    ∃ n, normalize find a = .ok n ∧ n.nb = p.size ∧ n.ys.length = q.size ∧ n.xs.length = s.size ∧
      ∀ i < q.size, ∀ j < s.size, ∃ i' < q.size, ∃ j' < s.size, n.ys[i']? = ys[i]? ∧ n.xs[j']? = xs[j]? ∧
        ∀ k, n.value k i' j' = a.get (Spec.index p.name q.name k i j) := by
  have hdims : a.dims = [p.name, q.name, s.name] := by unfold XArray.dims; rw [hax]; rfl
  simp only [List.nodup_cons, List.mem_cons, List.not_mem_nil, or_false, not_or, not_false_eq_true, List.nodup_nil,
    and_true] at hn
  obtain ⟨⟨n1, n2⟩, n3⟩ := hn
  have e1 : expand a = .ok a := by unfold expand; rw [hax]; rfl
  obtain ⟨a2, h2⟩ : ∃ a2, rename usual a = .ok a2 := ⟨_, by
    unfold rename
    rw [if_pos (by rw [hdims]; simp [n1, n2, n3])]⟩
  obtain ⟨x2, g2, -⟩ := rename_ok h2
  have d2 : a2.dims = [usual p.name, usual q.name, usual s.name] := by
    unfold XArray.dims; rw [x2, hax]; rfl
  have pp : positional a2.dims (usual p.name) = "band" := by rw [d2]; simp [positional]
  have pq : positional a2.dims (usual q.name) = "y" := by rw [d2]; simp [positional, n1]
  have ps : positional a2.dims (usual s.name) = "x" := by rw [d2]; simp [positional, n2, n3]
  have hmap : a2.dims.map (positional a2.dims) = ["band", "y", "x"] := by
    conv_lhs => arg 2; rw [d2]
    simp only [List.map_cons, List.map_nil, pp, pq, ps]
  obtain ⟨a3, h3⟩ : ∃ a3, rename (positional a2.dims) a2 = .ok a3 := ⟨_, by
    unfold rename
    rw [if_pos (by rw [hmap]; decide)]⟩
  obtain ⟨x3, g3, -⟩ := rename_ok h3
  have h3' : nameDims find a2 = .ok a3 := by
    unfold nameDims
    rw [d2, hfind]
    simp only
    rw [if_neg hb, ← d2]
    exact h3
  have x3' : a3.axes = [⟨"band", p.size, p.coord⟩, ⟨"y", q.size, q.coord⟩, ⟨"x", s.size, s.coord⟩] := by
    rw [x3, x2, hax]
    simp only [List.map_cons, List.map_nil, pp, pq, ps]
  have hst : standard a3 = .ok (orient p.size ys xs fun k i j => a3.get (at3 k i j)) := by
    unfold standard XArray.axis
    rw [x3']
    simp [hq, hs]
  have hget : (fun k i j => a3.get (at3 k i j)) = fun k i j => a.get (Spec.index p.name q.name k i j) := by
    funext k i j
    rw [g3, g2]
    apply ha.own
    intro ax hm
    rw [hax] at hm
    have m1 : q.name ≠ p.name := fun e => n1 (by rw [e])
    have m2 : s.name ≠ p.name := fun e => n2 (by rw [e])
    have m3 : s.name ≠ q.name := fun e => n3 (by rw [e])
    simp only [List.mem_cons, List.not_mem_nil, or_false] at hm
    rcases hm with rfl | rfl | rfl
    · simp only [pp, at3, Spec.index, if_true]
    · simp only [pq, at3, Spec.index, if_neg m1, if_true]; rfl
    · simp only [ps, at3, Spec.index, if_neg m2, if_neg m3]; rfl
  have ly := ha.coords q (by rw [hax]; simp) ys hq
  have lx := ha.coords s (by rw [hax]; simp) xs hs
  refine ⟨orient p.size ys xs fun k i j => a.get (Spec.index p.name q.name k i j), ?_, rfl,
    (orient_sizes p.size ys xs _).2.1.trans ly, (orient_sizes p.size ys xs _).2.2.trans lx, ?_⟩
  · unfold normalize
    rw [if_neg (by rw [hax]; simp), e1]
    simp only [h2, h3', hst, hget]
  · intro i hi j hj
    rw [← ly] at hi ⊢
    rw [← lx] at hj ⊢
    exact orient_values p.size ys xs _ hi hj

/-- An object with three dimensions without meaning. -/
def sampleUnnamed : XArray :=
  ⟨[⟨"a", 2, none⟩, ⟨"b", 1, some [5]⟩, ⟨"c", 2, some [0, 1]⟩], fun idx => .fin (100 * idx "a" + 10 * idx "b" + idx "c" : Nat)⟩

example : ∃ n, normalize (fun _ => none) sampleUnnamed = .ok n ∧ n.nb = 2 ∧ n.value 1 0 1 = .fin 101 :=
  ⟨_, rfl, rfl, by decide +kernel⟩

/-- **C60 (datasets that are rasters).** A `Dataset` that is in the form of rasters already is taken as it is: the values, the
mask and the null value, even where a null cell holds some other value. -/
theorem C60_standard_dataset {np : NumPy} {find : List String → Option (String × String)} {d : DatasetInput} {r : Raster}
    {ys xs : List Rat} (hs : d.standard = true) (h : fromDataset np find d = .ok (r, ys, xs)) :
    (∃ b ∈ d.raster.axes, ∃ y ∈ d.raster.axes, ∃ x ∈ d.raster.axes, b.name = "band" ∧ y.name = "y" ∧ x.name = "x" ∧
      r.nb = b.size ∧ ys = y.coord.getD [] ∧ xs = x.coord.getD []) ∧ (r.ny, r.nx) = (ys.length, xs.length) ∧
    r.dtype = d.dtype ∧ r.nv = d.info.nodata ∧
    ∀ k i j, r.data (k, i, j) = d.raster.get (Spec.index "band" "y" k i j) ∧
      (r.mask (k, i, j) = true ↔ d.mask.get (Spec.index "band" "y" k i j) ≠ .fin 0) := by
  unfold fromDataset at h
  rw [if_pos hs] at h
  split at h
  · next n m hn hm =>
    simp only [Except.ok.injEq, Prod.mk.injEq] at h
    obtain ⟨rfl, rfl, rfl⟩ := h
    unfold asIs at hn hm
    split at hn
    · next b y x hb hy hx =>
      cases hn
      split at hm
      · cases hm
        obtain ⟨b1, b2⟩ := axis_some hb
        obtain ⟨y1, y2⟩ := axis_some hy
        obtain ⟨x1, x2⟩ := axis_some hx
        refine ⟨⟨b, b1, y, y1, x, x1, b2, y2, x2, rfl, rfl, rfl⟩, rfl, rfl, rfl, fun k i j => ⟨?_, ?_⟩⟩
        · simp only [withMask, Bool.false_and, Bool.false_eq_true, if_false]
          split <;> rfl
        · simp only [withMask, decide_eq_true_eq]
          rfl
      · cases hm
    · cases hn
  · cases h

example : ∃ r, fromDataset (idNumPy false) (fun _ => none) ⟨true, true, true, f32, Spec.arrayOf ⟨1, [0], [0, 1], fun _ _ j => .fin j⟩,
    Spec.arrayOf ⟨1, [0], [0, 1], fun _ _ j => if j = 1 then .fin 1 else .fin 0⟩, ⟨none, some ⟨f32, .fin 9⟩, none, true⟩⟩ = .ok (r, [0], [0, 1]) ∧
    r.mask (0, 0, 1) = true ∧ r.data (0, 0, 1) = .fin 1 :=
  ⟨_, rfl, by decide +kernel, by decide +kernel⟩

end Verif.Build
