import Verif.Grid.Props
set_option linter.unusedSectionVars false
/-!
# Block windows: property theorems (C35)
-/

namespace Verif.Grid

variable {K : Type} [Field K] [LinearOrder K] [IsStrictOrderedRing K] [FloorRing K] {V : Type}

namespace Spec

/-- The window is consistent: the geobox has the size of the slices, and its affine maps the local
(col, row) to where the parent's maps the global ones. -/
structure Aligned (g : GeoBlockInfo K) : Prop where
  rows : g.geobox.ny = g.rowSlice.2 - g.rowSlice.1
  cols : g.geobox.nx = g.colSlice.2 - g.colSlice.1
  coords : ∀ u v : K, g.geobox.affine.apply (u, v) =
    g.parentAffine.apply (u + g.colSlice.1, v + g.rowSlice.1)

/-- Everything but the window. -/
def Same (g h : GeoBlockInfo K) : Prop :=
  h.bandSlice = g.bandSlice ∧ h.chunkLocation = g.chunkLocation ∧ h.parentAffine = g.parentAffine ∧
    h.parentShape = g.parentShape

end Spec

open Spec

theorem translation_zero (A : Affine K) : A.mul (Affine.translation (0 : K) 0) = A := by
  simp [Affine.mul, Affine.translation]

theorem translation_mul (A : Affine K) (a b c d : K) :
    (A.mul (Affine.translation a b)).mul (Affine.translation c d) = A.mul (Affine.translation (a + c) (b + d)) := by
  simp only [Affine.mul, Affine.translation, Affine.mk.injEq]
  refine ⟨?_, ?_, ?_, ?_, ?_, ?_⟩ <;> ring

/-- `resize` without its special case. -/
theorem resize_eq (g : GeoBlockInfo K) (a b c d : Int) :
    g.resize a b c d = if g.geobox.ny + a + b < 0 ∨ g.geobox.nx + c + d < 0 then none
      else some ⟨⟨g.geobox.ny + a + b, g.geobox.nx + c + d,
        g.geobox.affine.mul (Affine.translation ((-c : Int) : K) ((-a : Int) : K))⟩, g.bandSlice,
        (g.rowSlice.1 - a, g.rowSlice.2 + b), (g.colSlice.1 - c, g.colSlice.2 + d), g.chunkLocation,
        g.parentAffine, g.parentShape⟩ := by
  unfold GeoBlockInfo.resize
  simp only
  split
  · rfl
  · congr 2
    split
    · rfl
    · next h =>
      simp only [not_or, not_not] at h
      rw [h.1, h.2]
      simp [translation_zero]

/-- The block infos of a raster are consistent. -/
theorem aligned_of_raster (r : Raster K V) (kb ky kx : Nat) {g : GeoBlockInfo K}
    (h : geoBlockInfo r (kb, ky, kx) = some g) : Aligned g := by
  obtain ⟨_, _, _, h1, h2, _, h3, _, _, h4⟩ := C21_block_info r kb ky kx g h
  exact ⟨h1, h2, by rw [h4]; exact h3⟩

/-- **C35.**  Growing, trimming and moving a block window is rejected exactly if the size would become
negative; otherwise the slices change by the given amounts, the window stays consistent, every global
cell keeps its coordinates, and nothing else changes. -/
theorem C35_resize (g : GeoBlockInfo K) (hg : Aligned g) (top bottom left right : Int) :
    (g.resize top bottom left right = none ↔
      g.geobox.ny + top + bottom < 0 ∨ g.geobox.nx + left + right < 0) ∧
    ∀ h, g.resize top bottom left right = some h →
      h.rowSlice = (g.rowSlice.1 - top, g.rowSlice.2 + bottom) ∧
      h.colSlice = (g.colSlice.1 - left, g.colSlice.2 + right) ∧
      Aligned h ∧ Same g h ∧
      ∀ row col : K, h.geobox.affine.apply (col - h.colSlice.1, row - h.rowSlice.1) =
        g.geobox.affine.apply (col - g.colSlice.1, row - g.rowSlice.1) := by
  rw [resize_eq]
  constructor
  · split
    · next h => exact ⟨fun _ => h, fun _ => rfl⟩
    · next h => exact ⟨fun e => (nomatch e), fun e => absurd e h⟩
  · intro h hh
    split at hh
    · cases hh
    · injection hh with hh
      subst hh
      refine ⟨rfl, rfl, ⟨?_, ?_, ?_⟩, ⟨rfl, rfl, rfl, rfl⟩, ?_⟩
      · simp only; rw [hg.rows]; ring
      · simp only; rw [hg.cols]; ring
      · intro u v
        simp only
        rw [mul_translation_apply, hg.coords]
        congr 2
        · push_cast; ring
        · push_cast; ring
      · intro row col
        simp only
        rw [mul_translation_apply]
        congr 2
        · push_cast; ring
        · push_cast; ring

/-- **C35**, the named operations in terms of the window. -/
theorem C35_named (g : GeoBlockInfo K) (hg : Aligned g) (a b : Int) :
    (∀ h, g.padY a b = some h → h.rowSlice = (g.rowSlice.1 - a, g.rowSlice.2 + b) ∧ h.colSlice = g.colSlice) ∧
    (∀ h, g.padX a b = some h → h.colSlice = (g.colSlice.1 - a, g.colSlice.2 + b) ∧ h.rowSlice = g.rowSlice) ∧
    (∀ h, g.pad a none = some h → h.rowSlice = (g.rowSlice.1 - a, g.rowSlice.2 + a) ∧
      h.colSlice = (g.colSlice.1 - a, g.colSlice.2 + a)) ∧
    (∀ h, g.pad a (some b) = some h → h.rowSlice = (g.rowSlice.1 - a, g.rowSlice.2 + a) ∧
      h.colSlice = (g.colSlice.1 - b, g.colSlice.2 + b)) ∧
    (∀ h, g.shiftY a = some h → h.rowSlice = (g.rowSlice.1 + a, g.rowSlice.2 + a) ∧ h.colSlice = g.colSlice) ∧
    (∀ h, g.shiftX a = some h → h.colSlice = (g.colSlice.1 + a, g.colSlice.2 + a) ∧ h.rowSlice = g.rowSlice) ∧
    (∀ h, g.shift a none = some h → h.rowSlice = (g.rowSlice.1 + a, g.rowSlice.2 + a) ∧
      h.colSlice = (g.colSlice.1 + a, g.colSlice.2 + a)) ∧
    (∀ h, g.shift a (some b) = some h → h.rowSlice = (g.rowSlice.1 + a, g.rowSlice.2 + a) ∧
      h.colSlice = (g.colSlice.1 + b, g.colSlice.2 + b)) := by
  refine ⟨?_, ?_, ?_, ?_, ?_, ?_, ?_, ?_⟩ <;> intro h hh <;>
    obtain ⟨h1, h2, _⟩ := (C35_resize g hg _ _ _ _).2 h hh <;>
    simp_all [Option.getD]

/-- Two resizes in a row are one with the sums, if the first one is possible. -/
theorem resize_resize (g : GeoBlockInfo K) {a b c d a' b' c' d' : Int} {h : GeoBlockInfo K}
    (hh : g.resize a b c d = some h) :
    h.resize a' b' c' d' = g.resize (a + a') (b + b') (c + c') (d + d') := by
  rw [resize_eq] at hh
  split at hh
  · cases hh
  · injection hh with hh
    subst hh
    rw [resize_eq, resize_eq]
    simp only
    rw [show g.geobox.ny + a + b + a' + b' = g.geobox.ny + (a + a') + (b + b') by ring,
      show g.geobox.nx + c + d + c' + d' = g.geobox.nx + (c + c') + (d + d') by ring]
    split
    · rfl
    · congr 2
      · congr 1
        rw [translation_mul]
        congr 2 <;> push_cast <;> ring
      · simp only [Prod.mk.injEq]; constructor <;> ring
      · simp only [Prod.mk.injEq]; constructor <;> ring

theorem resize_zero (g : GeoBlockInfo K) (hy : 0 ≤ g.geobox.ny) (hx : 0 ≤ g.geobox.nx) :
    g.resize 0 0 0 0 = some g := by
  rw [resize_eq, if_neg (by omega)]
  simp [translation_zero]

/-- **C35**, undoing: a resize followed by the opposite one gives the window back (all fields). -/
theorem C35_undo (g : GeoBlockInfo K) (hy : 0 ≤ g.geobox.ny) (hx : 0 ≤ g.geobox.nx) {a b c d : Int}
    {h : GeoBlockInfo K} (hh : g.resize a b c d = some h) : h.resize (-a) (-b) (-c) (-d) = some g := by
  rw [resize_resize g hh, add_neg_cancel, add_neg_cancel, add_neg_cancel, add_neg_cancel, resize_zero g hy hx]

/-- **C35**, padding by `n` and then by `-n`. -/
theorem C35_pad_undo (g : GeoBlockInfo K) (hy : 0 ≤ g.geobox.ny) (hx : 0 ≤ g.geobox.nx) (n m : Int)
    {h : GeoBlockInfo K} (hh : g.pad n (some m) = some h) : h.pad (-n) (some (-m)) = some g :=
  C35_undo g hy hx hh

/-- **C35**, shifts are always possible and add up. -/
theorem C35_shift_add (g : GeoBlockInfo K) (hy : 0 ≤ g.geobox.ny) (hx : 0 ≤ g.geobox.nx) (y x y' x' : Int) :
    ∃ h, g.shift y (some x) = some h ∧ h.shift y' (some x') = g.shift (y + y') (some (x + x')) := by
  have : ∃ h, g.resize (-y) y (-x) x = some h := by
    rw [resize_eq, if_neg (by omega)]
    exact ⟨_, rfl⟩
  obtain ⟨h, hh⟩ := this
  refine ⟨h, hh, ?_⟩
  have := resize_resize (a' := -y') (b' := y') (c' := -x') (d' := x') g hh
  unfold GeoBlockInfo.shift
  simp only [Option.getD_some]
  rw [this]
  congr 1 <;> ring

/-- A sequence of resizes. -/
def resizes (g : GeoBlockInfo K) : List (Int × Int × Int × Int) → Option (GeoBlockInfo K)
  | [] => some g
  | (a, b, c, d) :: l => match g.resize a b c d with
    | none => none
    | some h => resizes h l

/-- **C35**, histories: after any sequence of resizes, shifts and pads the window is consistent with the
parent raster. -/
theorem C35_history (l : List (Int × Int × Int × Int)) (g : GeoBlockInfo K) (hg : Aligned g)
    {h : GeoBlockInfo K} (hh : resizes g l = some h) : Aligned h ∧ Same g h ∧
      h.rowSlice = (g.rowSlice.1 - (l.map (·.1)).sum, g.rowSlice.2 + (l.map (·.2.1)).sum) ∧
      h.colSlice = (g.colSlice.1 - (l.map (·.2.2.1)).sum, g.colSlice.2 + (l.map (·.2.2.2)).sum) := by
  induction l generalizing g with
  | nil =>
    injection hh with hh
    subst hh
    simp [hg, Same]
  | cons x l ih =>
    obtain ⟨a, b, c, d⟩ := x
    simp only [resizes] at hh
    cases hr : g.resize a b c d with
    | none => rw [hr] at hh; cases hh
    | some g' =>
      rw [hr] at hh
      obtain ⟨e1, e2, e3, e4, _⟩ := (C35_resize g hg a b c d).2 g' hr
      obtain ⟨f1, ⟨f21, f22, f23, f24⟩, f3, f4⟩ := ih g' e3 hh
      obtain ⟨k1, k2, k3, k4⟩ := e4
      refine ⟨f1, ⟨f21.trans k1, f22.trans k2, f23.trans k3, f24.trans k4⟩, ?_, ?_⟩
      · rw [f3, e1]
        simp only [List.map_cons, List.sum_cons, Prod.mk.injEq]
        constructor <;> ring
      · rw [f4, e2]
        simp only [List.map_cons, List.sum_cons, Prod.mk.injEq]
        constructor <;> ring

/-- Concrete case: the second of two chunks, grown by 2 rows on top and trimmed by a column on the left. -/
example : ((geoBlockInfo (K := ℚ) (V := Nat) ⟨[1], [3, 2], [4], ⟨30, 0, 100, 0, -30, 50⟩, false,
      fun _ _ _ => 0, fun _ _ _ => false⟩ (0, 1, 0)).bind fun g => (g.resize 2 0 (-1) 0).map fun h =>
        (h.rowSlice, h.colSlice, h.geobox.ny, h.geobox.nx, h.geobox.affine.apply (0, 0))) =
    some ((1, 5), (1, 4), 4, 3, (130, 20)) := by decide +kernel

end Verif.Grid
