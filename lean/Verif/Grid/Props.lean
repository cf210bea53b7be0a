import Verif.Grid.Model
import Mathlib.Tactic.Linarith
import Mathlib.Tactic.Ring
import Mathlib.Tactic.FieldSimp
import Mathlib.Tactic.LinearCombination
import Mathlib.Data.Rat.Floor
import Mathlib.Data.List.Nodup
import Mathlib.Data.List.Pairwise
set_option linter.unusedSectionVars false
/-!
# Grids, chunks and points: property theorems (C20, C21, C22, C45)
-/

namespace Verif.Grid

variable {K : Type} [Field K] [LinearOrder K] [IsStrictOrderedRing K] [FloorRing K] {V : Type}

/-! ### C20 -/

theorem apply_inv (A : Affine K) (h : A.det ≠ 0) (p : K × K) : A.inv.apply (A.apply p) = p := by
  have h' : A.a * A.e - A.b * A.d ≠ 0 := h
  ext
  · simp only [Affine.apply, Affine.inv, Affine.det]
    field_simp
    ring
  · simp only [Affine.apply, Affine.inv, Affine.det]
    field_simp
    ring

theorem apply_inv' (A : Affine K) (h : A.det ≠ 0) (p : K × K) : A.apply (A.inv.apply p) = p := by
  have hw : (A.a * A.e - A.b * A.d) * (1 / A.det) = 1 := mul_one_div_cancel h
  simp only [Affine.apply, Affine.inv]
  generalize 1 / A.det = w at hw
  ext
  · simp only
    linear_combination (p.1 - A.c) * hw
  · simp only
    linear_combination (p.2 - A.f) * hw

/-- The product of two transforms applies the right one first. -/
theorem mul_apply (A B : Affine K) (p : K × K) : (A.mul B).apply p = A.apply (B.apply p) := by
  simp only [Affine.mul, Affine.apply, Prod.mk.injEq]
  constructor <;> ring

theorem mul_translation_apply (A : Affine K) (u v : K) (p : K × K) :
    (A.mul (Affine.translation u v)).apply p = A.apply (p.1 + u, p.2 + v) := by
  ext <;> simp only [Affine.apply, Affine.mul, Affine.translation] <;> ring

namespace Spec

/-- Which row and column offset the corner (or the centre) of a cell has, in cells. -/
def corner : Offset → Int × Int
  | .center => (0, 0)
  | .ul => (0, 0)
  | .ur => (0, 1)
  | .ll => (1, 0)
  | .lr => (1, 1)

/-- The point lies in the half-open cell: its upper and left edges belong to it, the others to the
neighbours. -/
def InCell (A : Affine K) (p : K × K) (row col : Int) : Prop :=
  ∃ u v : K, 0 ≤ u ∧ u < 1 ∧ 0 ≤ v ∧ v < 1 ∧
    p.1 = A.a * (col + u) + A.b * (row + v) + A.c ∧ p.2 = A.d * (col + u) + A.e * (row + v) + A.f

end Spec

open Spec

theorem floor_half (n : Int) : ⌊(n : K) + 1 / 2⌋ = n := by
  rw [Int.floor_eq_iff]
  have h : (0 : K) < 1 / 2 := by norm_num
  have h1 : (1 / 2 : K) < 1 := by norm_num
  constructor <;> linarith

/-- **C20.**  `index(*xy(row, col))` gives the cell back for the centre and the upper left corner; the
other corners belong to the neighbours on the right, below, and below right. -/
theorem C20_index_of_xy (A : Affine K) (h : A.det ≠ 0) (row col : Int) (o : Offset) :
    xyToRowcol (rowcolToXy (row : K) (col : K) A o).1 (rowcolToXy (row : K) (col : K) A o).2 A =
      (row + (corner o).1, col + (corner o).2) := by
  unfold xyToRowcol rowcolToXy
  simp only
  rw [mul_translation_apply]
  have := apply_inv A h ((col : K) + (o.rc (K := K)).2, (row : K) + (o.rc (K := K)).1)
  simp only [Prod.mk.eta]
  rw [this]
  cases o <;> simp only [Offset.rc, corner, Prod.mk.injEq] <;>
    first
      | exact ⟨by rw [floor_half]; simp, by rw [floor_half]; simp⟩
      | (constructor <;> simp)

/-- **C20**, all points: every point of the plane is assigned to the cell it lies in, and lies in no
other. -/
theorem C20_unique_cell (A : Affine K) (h : A.det ≠ 0) (x y : K) (row col : Int) :
    xyToRowcol x y A = (row, col) ↔ InCell A (x, y) row col := by
  constructor
  · intro hi
    simp only [xyToRowcol, Prod.mk.injEq] at hi
    have happ := apply_inv' A h (x, y)
    set q := A.inv.apply (x, y) with hq
    obtain ⟨h1, h2⟩ := hi
    rw [Int.floor_eq_iff] at h1 h2
    refine ⟨q.1 - col, q.2 - row, by linarith, by linarith, by linarith, by linarith, ?_, ?_⟩
    · have := congrArg Prod.fst happ
      simp only [Affine.apply] at this
      rw [← this]; ring
    · have := congrArg Prod.snd happ
      simp only [Affine.apply] at this
      rw [← this]; ring
  · rintro ⟨u, v, hu0, hu1, hv0, hv1, hx, hy⟩
    have hp : (x, y) = A.apply ((col : K) + u, (row : K) + v) := by
      ext
      · simp only [Affine.apply]; simp only at hx; rw [hx]; ring
      · simp only [Affine.apply]; simp only at hy; rw [hy]; ring
    simp only [xyToRowcol]
    rw [hp, apply_inv A h]
    simp only [Prod.mk.injEq]
    constructor <;> rw [Int.floor_eq_iff] <;> constructor <;> linarith

/-- **C20** on a north-up grid (positive cell width, negative cell height): the cell is the rectangle
including its left and top edge. -/
theorem C20_rectangle (A : Affine K) (hb : A.b = 0) (hd : A.d = 0) (ha : 0 < A.a) (he : A.e < 0)
    (x y : K) (row col : Int) :
    xyToRowcol x y A = (row, col) ↔
      A.c + A.a * col ≤ x ∧ x < A.c + A.a * (col + 1) ∧ A.f + A.e * (row + 1) < y ∧ y ≤ A.f + A.e * row := by
  have hdet : A.det ≠ 0 := by
    simp only [Affine.det, hb, hd, mul_zero, sub_zero]
    exact mul_ne_zero ha.ne' he.ne
  rw [C20_unique_cell A hdet]
  unfold InCell
  simp only [hb, hd, zero_mul, add_zero, zero_add]
  constructor
  · rintro ⟨u, v, hu0, hu1, hv0, hv1, rfl, rfl⟩
    refine ⟨?_, ?_, ?_, ?_⟩
    · nlinarith
    · nlinarith
    · nlinarith
    · nlinarith
  · rintro ⟨h1, h2, h3, h4⟩
    refine ⟨(x - A.c) / A.a - col, (y - A.f) / A.e - row, ?_, ?_, ?_, ?_, ?_, ?_⟩
    · rw [sub_nonneg, le_div_iff₀ ha]; linarith
    · rw [sub_lt_iff_lt_add, div_lt_iff₀ ha]; linarith
    · rw [sub_nonneg, le_div_iff_of_neg he]; linarith
    · rw [sub_lt_iff_lt_add, div_lt_iff_of_neg he]; linarith
    · field_simp; ring
    · have := he.ne
      field_simp; ring

/-- Concrete case: 30 metre cells. -/
example : xyToRowcol (K := ℚ) 1045 1940 ⟨30, 0, 1000, 0, -30, 2000⟩ = (2, 1) ∧
    rowcolToXy (K := ℚ) 2 1 ⟨30, 0, 1000, 0, -30, 2000⟩ .center = (1045, 1925) ∧
    (⟨30, 0, 1000, 0, -30, 2000⟩ : Affine ℚ).det ≠ 0 := by
  refine ⟨by decide +kernel, by decide +kernel, by decide +kernel⟩

/-! ### C21 -/

theorem locationsFrom_getElem (start : Nat) (cs : List Nat) (k : Nat) :
    (locationsFrom start cs)[k]? =
      if k < cs.length then some (start + (cs.take k).sum, start + (cs.take (k + 1)).sum) else none := by
  induction cs generalizing start k with
  | nil => simp [locationsFrom]
  | cons c cs ih =>
    cases k with
    | zero => simp [locationsFrom]
    | succ k =>
      simp only [locationsFrom, List.getElem?_cons_succ, ih, List.length_cons, List.take_succ_cons,
        List.sum_cons, Nat.add_lt_add_iff_right]
      split
      · simp only [Option.some.injEq, Prod.mk.injEq]; omega
      · rfl

/-- **C21**, locations: there is one range per chunk, they are consecutive and have the chunk sizes. -/
theorem C21_locations (cs : List Nat) (k : Nat) :
    (chunksToArrayLocations cs)[k]? =
      if k < cs.length then some ((cs.take k).sum, (cs.take (k + 1)).sum) else none := by
  unfold chunksToArrayLocations
  rw [locationsFrom_getElem]
  simp

theorem sum_take_succ (cs : List Nat) (k : Nat) (h : k < cs.length) :
    (cs.take (k + 1)).sum = (cs.take k).sum + cs[k] := by
  rw [List.take_succ_eq_append_getElem h, List.sum_append]; simp

theorem sum_take_mono (cs : List Nat) {k l : Nat} (h : k ≤ l) : (cs.take k).sum ≤ (cs.take l).sum := by
  induction l with
  | zero => have : k = 0 := by omega
            subst this; exact le_refl _
  | succ l ih =>
    by_cases hk : k = l + 1
    · subst hk; exact le_refl _
    · have := ih (by omega)
      by_cases hl : l < cs.length
      · rw [sum_take_succ cs l hl]; omega
      · rw [List.take_of_length_le (by omega : cs.length ≤ l + 1)]
        rw [List.take_of_length_le (by omega : cs.length ≤ l)] at this
        exact this

theorem sum_take_le (cs : List Nat) (k : Nat) : (cs.take k).sum ≤ cs.sum := by
  by_cases h : k ≤ cs.length
  · have := sum_take_mono cs h
    rwa [List.take_length] at this
  · rw [List.take_of_length_le (by omega)]

/-- **C21**, one axis: every index lies in exactly one chunk. -/
theorem C21_axis_partition (cs : List Nat) (n : Nat) :
    (n < cs.sum → ∃ (k : Nat) (s : Nat × Nat), (chunksToArrayLocations cs)[k]? = some s ∧ s.1 ≤ n ∧ n < s.2) ∧
    (∀ (k : Nat) (s : Nat × Nat), (chunksToArrayLocations cs)[k]? = some s → s.1 ≤ n → n < s.2 → n < cs.sum) ∧
    (∀ (k k' : Nat) (s s' : Nat × Nat), (chunksToArrayLocations cs)[k]? = some s → s.1 ≤ n → n < s.2 →
      (chunksToArrayLocations cs)[k']? = some s' → s'.1 ≤ n → n < s'.2 → k = k') := by
  have hspan : ∀ k s, (chunksToArrayLocations cs)[k]? = some s →
      k < cs.length ∧ s = ((cs.take k).sum, (cs.take (k + 1)).sum) := by
    intro k s h
    rw [C21_locations] at h
    split at h
    · next hk => injection h with h; exact ⟨hk, h.symm⟩
    · cases h
  refine ⟨?_, ?_, ?_⟩
  · intro hn
    have main : ∀ m, m ≤ cs.length → n < (cs.take m).sum → ∃ k, k < cs.length ∧ (cs.take k).sum ≤ n ∧
        n < (cs.take (k + 1)).sum := by
      intro m
      induction m with
      | zero => intro _ h; simp at h
      | succ m ih =>
        intro hm h
        by_cases hlt : n < (cs.take m).sum
        · exact ih (by omega) hlt
        · exact ⟨m, by omega, by omega, h⟩
    obtain ⟨k, hk, h1, h2⟩ := main cs.length (le_refl _) (by rwa [List.take_length])
    exact ⟨k, _, by rw [C21_locations, if_pos hk], h1, h2⟩
  · intro k s h h1 h2
    obtain ⟨hk, rfl⟩ := hspan k s h
    exact lt_of_lt_of_le h2 (sum_take_le cs _)
  · intro k k' s s' h h1 h2 h' h1' h2'
    obtain ⟨hk, rfl⟩ := hspan k s h
    obtain ⟨hk', rfl⟩ := hspan k' s' h'
    simp only at h1 h2 h1' h2'
    by_contra hne
    rcases Nat.lt_or_gt_of_ne hne with hlt | hlt
    · have := sum_take_mono cs (show k + 1 ≤ k' by omega)
      omega
    · have := sum_take_mono cs (show k' + 1 ≤ k by omega)
      omega

theorem chunkRowFrom_getElem (r : Raster K V) (b y : Nat × Nat) (x : Nat) (cs : List Nat) (k : Nat) :
    (chunkRowFrom r b y x cs)[k]? = ((locationsFrom x cs)[k]?).map (r.isel b y) := by
  induction cs generalizing x k with
  | nil => simp [chunkRowFrom, locationsFrom]
  | cons c cs ih => cases k <;> simp [chunkRowFrom, locationsFrom, ih]

theorem chunkRowsFrom_getElem (r : Raster K V) (b : Nat × Nat) (y : Nat) (cs : List Nat) (k : Nat) :
    (chunkRowsFrom r b y cs)[k]? = ((locationsFrom y cs)[k]?).map (fun s => chunkRowFrom r b s 0 r.xchunks) := by
  induction cs generalizing y k with
  | nil => simp [chunkRowsFrom, locationsFrom]
  | cons c cs ih => cases k <;> simp [chunkRowsFrom, locationsFrom, ih]

theorem chunkBandsFrom_getElem (r : Raster K V) (b : Nat) (cs : List Nat) (k : Nat) :
    (chunkBandsFrom r b cs)[k]? = ((locationsFrom b cs)[k]?).map (fun s => chunkRowsFrom r s 0 r.ychunks) := by
  induction cs generalizing b k with
  | nil => simp [chunkBandsFrom, locationsFrom]
  | cons c cs ih => cases k <;> simp [chunkBandsFrom, locationsFrom, ih]

namespace Spec

/-- Global index of the first element of chunk `k`. -/
def start (cs : List Nat) (k : Nat) : Nat := (cs.take k).sum

/-- `n` is element `i` of chunk `k`. -/
def At (cs : List Nat) (n k i : Nat) : Prop := ∃ h : k < cs.length, i < cs[k] ∧ n = start cs k + i

end Spec

theorem at_iff {cs : List Nat} {n k i : Nat} : At cs n k i ↔
    ∃ s, (chunksToArrayLocations cs)[k]? = some s ∧ s.1 ≤ n ∧ n < s.2 ∧ i = n - s.1 := by
  constructor
  · rintro ⟨hk, hi, rfl⟩
    refine ⟨_, by rw [C21_locations, if_pos hk], ?_, ?_, ?_⟩
    · simp [start]
    · simp only [start, sum_take_succ cs k hk]; omega
    · simp [start]
  · rintro ⟨s, hs, h1, h2, rfl⟩
    rw [C21_locations] at hs
    split at hs
    · next hk =>
      injection hs with hs
      subst hs
      simp only [sum_take_succ cs k hk] at h1 h2
      refine ⟨hk, by simp only; omega, by simp only [start]; omega⟩
    · cases hs

theorem at_exists {cs : List Nat} {n : Nat} (h : n < cs.sum) : ∃ k i, At cs n k i := by
  obtain ⟨k, s, hs, h1, h2⟩ := (C21_axis_partition cs n).1 h
  exact ⟨k, n - s.1, at_iff.mpr ⟨s, hs, h1, h2, rfl⟩⟩

theorem at_unique {cs : List Nat} {n k i k' i' : Nat} (h : At cs n k i) (h' : At cs n k' i') :
    k = k' ∧ i = i' := by
  obtain ⟨s, hs, h1, h2, rfl⟩ := at_iff.mp h
  obtain ⟨s', hs', h1', h2', rfl⟩ := at_iff.mp h'
  have := (C21_axis_partition cs n).2.2 k k' s s' hs h1 h2 hs' h1' h2'
  subst this
  rw [hs] at hs'
  injection hs' with hs'
  subst hs'
  exact ⟨rfl, rfl⟩

theorem at_lt {cs : List Nat} {n k i : Nat} (h : At cs n k i) : n < cs.sum := by
  obtain ⟨s, hs, h1, h2, rfl⟩ := at_iff.mp h
  exact (C21_axis_partition cs n).2.1 k s hs h1 h2

/-- The chunk raster at a position. -/
def chunkRasterAt (r : Raster K V) (kb ky kx : Nat) : Option (Part K V) :=
  ((getChunkRasters r)[kb]?).bind fun l => (l[ky]?).bind fun l => l[kx]?

theorem chunkRasterAt_eq (r : Raster K V) (kb ky kx : Nat) :
    chunkRasterAt r kb ky kx = ((chunksToArrayLocations r.bchunks)[kb]?).bind fun b =>
      ((chunksToArrayLocations r.ychunks)[ky]?).bind fun y =>
        ((chunksToArrayLocations r.xchunks)[kx]?).map fun x => r.isel b y x := by
  unfold chunkRasterAt getChunkRasters chunksToArrayLocations
  rw [chunkBandsFrom_getElem]
  cases (locationsFrom 0 r.bchunks)[kb]? with
  | none => rfl
  | some b =>
    simp only [Option.map_some, Option.bind_some, chunkRowsFrom_getElem]
    cases (locationsFrom 0 r.ychunks)[ky]? with
    | none => rfl
    | some y =>
      simp only [Option.map_some, Option.bind_some, chunkRowFrom_getElem]

/-- **C21**, chunk rasters: a cell of the raster is in exactly one chunk raster, at exactly one position,
and there has the same value, null state and coordinates; the chunk rasters have no other cells. -/
theorem C21_chunk_rasters (r : Raster K V) :
    (∀ b y x, b < r.nb → y < r.ny → x < r.nx →
      ∃ kb ky kx i j k, At r.bchunks b kb i ∧ At r.ychunks y ky j ∧ At r.xchunks x kx k ∧
        (∀ kb' ky' kx' i' j' k', At r.bchunks b kb' i' → At r.ychunks y ky' j' → At r.xchunks x kx' k' →
          (kb', ky', kx', i', j', k') = (kb, ky, kx, i, j, k)) ∧
        ∃ p, chunkRasterAt r kb ky kx = some p ∧ i < p.nb ∧ j < p.ny ∧ k < p.nx ∧
          p.data i j k = r.data b y x ∧ p.mask i j k = r.mask b y x ∧ p.x k = r.x x ∧ p.y j = r.y y) ∧
    (∀ kb ky kx p, chunkRasterAt r kb ky kx = some p → ∀ i j k, i < p.nb → j < p.ny → k < p.nx →
      ∃ b y x, At r.bchunks b kb i ∧ At r.ychunks y ky j ∧ At r.xchunks x kx k ∧
        p.data i j k = r.data b y x ∧ p.mask i j k = r.mask b y x ∧ p.x k = r.x x ∧ p.y j = r.y y) := by
  constructor
  · intro b y x hb hy hx
    obtain ⟨kb, i, h1⟩ := at_exists hb
    obtain ⟨ky, j, h2⟩ := at_exists hy
    obtain ⟨kx, k, h3⟩ := at_exists hx
    refine ⟨kb, ky, kx, i, j, k, h1, h2, h3, ?_, ?_⟩
    · intro kb' ky' kx' i' j' k' g1 g2 g3
      obtain ⟨rfl, rfl⟩ := at_unique h1 g1
      obtain ⟨rfl, rfl⟩ := at_unique h2 g2
      obtain ⟨rfl, rfl⟩ := at_unique h3 g3
      rfl
    · obtain ⟨sb, e1, l1, u1, rfl⟩ := at_iff.mp h1
      obtain ⟨sy, e2, l2, u2, rfl⟩ := at_iff.mp h2
      obtain ⟨sx, e3, l3, u3, rfl⟩ := at_iff.mp h3
      refine ⟨r.isel sb sy sx, ?_, ?_, ?_, ?_, ?_⟩
      · rw [chunkRasterAt_eq, e1, e2, e3]; rfl
      · simp only [Raster.isel]; omega
      · simp only [Raster.isel]; omega
      · simp only [Raster.isel]; omega
      · simp only [Raster.isel]
        rw [Nat.add_sub_cancel' l1, Nat.add_sub_cancel' l2, Nat.add_sub_cancel' l3]
        exact ⟨rfl, rfl, rfl, rfl⟩
  · intro kb ky kx p hp i j k hi hj hk
    rw [chunkRasterAt_eq] at hp
    cases e1 : (chunksToArrayLocations r.bchunks)[kb]? with
    | none => rw [e1] at hp; cases hp
    | some sb =>
      cases e2 : (chunksToArrayLocations r.ychunks)[ky]? with
      | none => rw [e1, e2] at hp; cases hp
      | some sy =>
        cases e3 : (chunksToArrayLocations r.xchunks)[kx]? with
        | none => rw [e1, e2, e3] at hp; cases hp
        | some sx =>
          rw [e1, e2, e3] at hp
          simp only [Option.bind_some, Option.map_some, Option.some.injEq] at hp
          subst hp
          simp only [Raster.isel] at hi hj hk
          exact ⟨sb.1 + i, sy.1 + j, sx.1 + k, at_iff.mpr ⟨sb, e1, by omega, by omega, by omega⟩,
            at_iff.mpr ⟨sy, e2, by omega, by omega, by omega⟩, at_iff.mpr ⟨sx, e3, by omega, by omega, by omega⟩,
            rfl, rfl, rfl, rfl⟩

/-- **C21**, block infos: the block's slices are its cells, and its affine maps the block's (col, row) to
where the parent's affine maps the global ones. -/
theorem C21_block_info (r : Raster K V) (kb ky kx : Nat) (g : GeoBlockInfo K)
    (h : geoBlockInfo r (kb, ky, kx) = some g) :
    (∀ b i : Nat, At r.bchunks b kb i ↔ g.bandSlice.1 ≤ b ∧ (b : Int) < g.bandSlice.2 ∧ (i : Int) = b - g.bandSlice.1) ∧
    (∀ y j : Nat, At r.ychunks y ky j ↔ g.rowSlice.1 ≤ y ∧ (y : Int) < g.rowSlice.2 ∧ (j : Int) = y - g.rowSlice.1) ∧
    (∀ x k : Nat, At r.xchunks x kx k ↔ g.colSlice.1 ≤ x ∧ (x : Int) < g.colSlice.2 ∧ (k : Int) = x - g.colSlice.1) ∧
    g.geobox.ny = g.rowSlice.2 - g.rowSlice.1 ∧ g.geobox.nx = g.colSlice.2 - g.colSlice.1 ∧
    g.shape = (g.bandSlice.2 - g.bandSlice.1, g.rowSlice.2 - g.rowSlice.1, g.colSlice.2 - g.colSlice.1) ∧
    (∀ u v : K, g.geobox.affine.apply (u, v) = r.affine.apply (u + g.colSlice.1, v + g.rowSlice.1)) ∧
    g.chunkLocation = (kb, ky, kx) ∧ g.parentShape = (r.nb, r.ny, r.nx) ∧ g.parentAffine = r.affine := by
  unfold geoBlockInfo at h
  simp only at h
  split at h
  · next sb sy sx e1 e2 e3 =>
    injection h with h
    subst h
    have aux : ∀ (cs : List Nat) (k : Nat) (s : Nat × Nat), (chunksToArrayLocations cs)[k]? = some s →
        ∀ n i : Nat, At cs n k i ↔ (toSlice s).1 ≤ n ∧ (n : Int) < (toSlice s).2 ∧ (i : Int) = n - (toSlice s).1 := by
      intro cs k s e n i
      rw [at_iff]
      simp only [toSlice]
      constructor
      · rintro ⟨s', e', h1, h2, rfl⟩
        rw [e] at e'
        injection e' with e'
        subst e'
        omega
      · rintro ⟨h1, h2, h3⟩
        exact ⟨s, e, by omega, by omega, by omega⟩
    refine ⟨aux _ _ _ e1, aux _ _ _ e2, aux _ _ _ e3, rfl, rfl, rfl, ?_, rfl, rfl, rfl⟩
    intro u v
    simp only [GeoBox.slice, Raster.geobox]
    rw [mul_translation_apply]
  · cases h

/-- Concrete case: rows 0-2 and 3-4, columns 0-1 and 2-5. -/
example : (chunkRasterAt (K := ℚ) (V := Nat) ⟨[1], [3, 2], [2, 4], ⟨30, 0, 0, 0, -30, 0⟩, false,
      fun _ y x => 10 * y + x, fun _ _ _ => false⟩ 0 1 1).map (fun p => (p.ny, p.nx, p.data 0 1 3, p.x 3, p.y 1)) =
    some (2, 4, 45, 165, -135) ∧ At [2, 4] 5 1 3 := by
  refine ⟨by decide +kernel, ?_⟩
  exact ⟨by decide, by decide, by decide⟩

/-! ### C21: bounding boxes -/

namespace Spec

/-- The edge between the columns (rows) `n - 1` and `n`. -/
def edgeX (r : Raster K V) (n : Nat) : K := r.affine.c + r.affine.a * n
def edgeY (r : Raster K V) (n : Nat) : K := r.affine.f + r.affine.e * n

end Spec

theorem rioBounds_eq (r : Raster K V) (j i nx ny : Nat) (hx : 2 ≤ nx) (hy : 2 ≤ ny) :
    rioBounds (fun k => r.x (j + k)) (fun k => r.y (i + k)) nx ny =
      some (min (edgeX r j) (edgeX r (j + nx)), min (edgeY r i) (edgeY r (i + ny)),
        max (edgeX r j) (edgeX r (j + nx)), max (edgeY r i) (edgeY r (i + ny))) := by
  have res : ∀ (n k : Nat) (s o : K), 2 ≤ n →
      ((s * (((k + (n - 1) : Nat) : K) + 1 / 2) + o) - (s * (((k + 0 : Nat) : K) + 1 / 2) + o)) / ((n : K) - 1) = s := by
    intro n k s o hn
    have h1 : ((n - 1 : Nat) : K) = (n : K) - 1 := by rw [Nat.cast_sub (by omega)]; simp
    have h2 : (n : K) - 1 ≠ 0 := by
      rw [← h1]
      exact_mod_cast (by omega : n - 1 ≠ 0)
    rw [div_eq_iff h2]
    push_cast [h1]
    ring
  unfold rioBounds
  rw [if_neg (by omega)]
  simp only [Raster.x, Raster.y, res _ _ _ _ hx, res _ _ _ _ hy]
  have hx1 : ((nx - 1 : Nat) : K) = (nx : K) - 1 := by rw [Nat.cast_sub (by omega)]; simp
  have hy1 : ((ny - 1 : Nat) : K) = (ny : K) - 1 := by rw [Nat.cast_sub (by omega)]; simp
  have e1 : r.affine.a * (((j + 0 : Nat) : K) + 1 / 2) + r.affine.c - r.affine.a / 2 = edgeX r j := by
    simp only [edgeX]; push_cast; ring
  have e2 : r.affine.a * (((j + (nx - 1) : Nat) : K) + 1 / 2) + r.affine.c + r.affine.a / 2 = edgeX r (j + nx) := by
    simp only [edgeX]; push_cast [hx1]; ring
  have e3 : r.affine.e * (((i + 0 : Nat) : K) + 1 / 2) + r.affine.f - r.affine.e / 2 = edgeY r i := by
    simp only [edgeY]; push_cast; ring
  have e4 : r.affine.e * (((i + (ny - 1) : Nat) : K) + 1 / 2) + r.affine.f + r.affine.e / 2 = edgeY r (i + ny) := by
    simp only [edgeY]; push_cast [hy1]; ring
  rw [e1, e2, e3, e4]

namespace Spec

/-- The rectangle that the cells with rows in `y` and columns in `x` cover: left, bottom, right, top. -/
def rectangle (r : Raster K V) (y x : Nat × Nat) : K × K × K × K :=
  (min (edgeX r x.1) (edgeX r x.2), min (edgeY r y.1) (edgeY r y.2),
    max (edgeX r x.1) (edgeX r x.2), max (edgeY r y.1) (edgeY r y.2))

end Spec

theorem boxRowFrom_eq (r : Raster K V) (row i yc : Nat) (hy : 2 ≤ yc) (cs : List Nat) (hx : ∀ c ∈ cs, 2 ≤ c)
    (col j : Nat) : boxRowFrom r row i yc col j cs =
      some ((locationsFrom j cs).mapIdx fun k s => ⟨0, row, col + k, rectangle r (i, i + yc) s⟩) := by
  induction cs generalizing col j with
  | nil => simp [boxRowFrom, locationsFrom]
  | cons c cs ih =>
    have h := rioBounds_eq r j i c yc (hx c (by simp)) hy
    simp only [boxRowFrom, h, ih (fun c hc => hx c (by simp [hc])), locationsFrom, List.mapIdx_cons]
    simp only [rectangle, Nat.add_zero, Option.some.injEq, List.cons.injEq, true_and]
    congr 1
    funext k s
    rw [show col + 1 + k = col + (k + 1) by omega]

theorem boxRowsFrom_eq (r : Raster K V) (hx : ∀ c ∈ r.xchunks, 2 ≤ c) (cs : List Nat) (hy : ∀ c ∈ cs, 2 ≤ c)
    (row i : Nat) : boxRowsFrom r row i cs =
      some (((locationsFrom i cs).mapIdx fun l t => (locationsFrom 0 r.xchunks).mapIdx fun k s =>
        ⟨0, row + l, k, rectangle r t s⟩).flatten) := by
  induction cs generalizing row i with
  | nil => simp [boxRowsFrom, locationsFrom]
  | cons c cs ih =>
    simp only [boxRowsFrom, boxRowFrom_eq r row i c (hy c (by simp)) r.xchunks hx,
      ih (fun c hc => hy c (by simp [hc])), locationsFrom, List.mapIdx_cons, List.flatten_cons]
    simp only [Nat.zero_add, Nat.add_zero, Option.some.injEq]
    congr 3
    funext l t
    rw [show row + 1 + l = row + (l + 1) by omega]

/-- **C21**, bounding boxes: if every chunk has at least two rows and columns there is one box for every
chunk (for every band and chunk with `include_band`), in row-major order, and it is the rectangle that the
cells of the chunk cover. -/
theorem C21_bounding_boxes (r : Raster K V) (hx : ∀ c ∈ r.xchunks, 2 ≤ c) (hy : ∀ c ∈ r.ychunks, 2 ≤ c)
    (inc : Bool) :
    ∃ l, getChunkBoundingBoxes r inc = some l ∧
      l.length = (if inc then r.nb else 1) * (r.ychunks.length * r.xchunks.length) ∧
      ∀ b ∈ l, ∃ t s, (chunksToArrayLocations r.ychunks)[b.row]? = some t ∧
        (chunksToArrayLocations r.xchunks)[b.col]? = some s ∧ b.bounds = rectangle r t s ∧
        (inc = false → b.band = 0) ∧ (inc = true → b.band < r.nb) := by
  have hlen : ∀ (st : Nat) (cs : List Nat), (locationsFrom st cs).length = cs.length := by
    intro st cs
    induction cs generalizing st with
    | nil => rfl
    | cons c cs ih => simp [locationsFrom, ih]
  set boxes := ((locationsFrom 0 r.ychunks).mapIdx fun l t => (locationsFrom 0 r.xchunks).mapIdx fun k s =>
        (⟨0, 0 + l, k, rectangle r t s⟩ : ChunkBox K)).flatten with hb
  have hrows : boxRowsFrom r 0 0 r.ychunks = some boxes := boxRowsFrom_eq r hx r.ychunks hy 0 0
  have hmem : ∀ b ∈ boxes, b.band = 0 ∧ ∃ t s, (chunksToArrayLocations r.ychunks)[b.row]? = some t ∧
        (chunksToArrayLocations r.xchunks)[b.col]? = some s ∧ b.bounds = rectangle r t s := by
    intro b hbm
    rw [hb, List.mem_flatten] at hbm
    obtain ⟨l, hl, hbl⟩ := hbm
    rw [List.mem_mapIdx] at hl
    obtain ⟨i, hi, rfl⟩ := hl
    rw [List.mem_mapIdx] at hbl
    obtain ⟨j, hj, rfl⟩ := hbl
    exact ⟨rfl, _, _, by simp only [Nat.zero_add]; exact List.getElem?_eq_getElem hi,
      List.getElem?_eq_getElem hj, rfl⟩
  have hcount : boxes.length = r.ychunks.length * r.xchunks.length := by
    have aux : ∀ (l : List (Nat × Nat)) (n : Nat) (f : Nat → Nat × Nat → List (ChunkBox K)),
        (∀ i s, (f i s).length = n) → ((l.mapIdx f).flatten).length = l.length * n := by
      intro l n
      induction l with
      | nil => intro f _; simp
      | cons a l ih =>
        intro f hf
        rw [List.mapIdx_cons, List.flatten_cons, List.length_append, hf,
          ih (fun i => f (i + 1)) (fun i s => hf _ _), List.length_cons]
        ring
    rw [hb, aux _ r.xchunks.length _ (fun i s => by simp [hlen]), hlen]
  unfold getChunkBoundingBoxes
  rw [hrows]
  cases inc with
  | false =>
    refine ⟨boxes, rfl, by simp [hcount], ?_⟩
    intro b hbm
    obtain ⟨h0, t, s, h1, h2, h3⟩ := hmem b hbm
    exact ⟨t, s, h1, h2, h3, fun _ => h0, fun h => by cases h⟩
  | true =>
    refine ⟨_, rfl, by simp [List.length_flatMap, hcount], ?_⟩
    intro b hbm
    simp only [List.mem_flatMap, List.mem_range, List.mem_map] at hbm
    obtain ⟨k, hk, b', hb', rfl⟩ := hbm
    obtain ⟨h0, t, s, h1, h2, h3⟩ := hmem b' hb'
    exact ⟨t, s, h1, h2, h3, fun h => (Bool.noConfusion h), fun _ => hk⟩

/-- **C21 fails for bounding boxes of chunks with a single row or column**: already a raster of 5 x 4 cells
in chunks of 4 rows has no bounding boxes, because rioxarray cannot derive a resolution from one row. -/
theorem C21_single_row_chunk : (getChunkBoundingBoxes (K := ℚ) (V := Nat)
    ⟨[1], [4, 1], [4], ⟨30, 0, 0, 0, -30, 0⟩, false, fun _ _ _ => 0, fun _ _ _ => false⟩ false).isNone = true := by
  decide +kernel

/-! ### C45: quadrants -/

/-- **C45.**  Every cell of the raster is in exactly one quadrant, at the expected place, with the same
value, null state and coordinates: rows before the middle are in the north, columns before the middle in
the west. -/
theorem C45_quadrants (r : Raster K V) (b y x : Nat) (hb : b < r.nb) (hy : y < r.ny) (hx : x < r.nx) :
    let q := toQuadrants r
    let p := if y < r.ny / 2 then (if x < r.nx / 2 then q.1 else q.2.1)
      else (if x < r.nx / 2 then q.2.2.1 else q.2.2.2)
    let y' := if y < r.ny / 2 then y else y - r.ny / 2
    let x' := if x < r.nx / 2 then x else x - r.nx / 2
    b < p.nb ∧ y' < p.ny ∧ x' < p.nx ∧ p.data b y' x' = r.data b y x ∧ p.mask b y' x' = r.mask b y x ∧
      p.x x' = r.x x ∧ p.y y' = r.y y := by
  simp only [toQuadrants, Raster.isel]
  by_cases h1 : y < r.ny / 2 <;> by_cases h2 : x < r.nx / 2 <;> simp only [h1, h2, if_true, if_false] <;>
    refine ⟨by omega, by omega, by omega, ?_, ?_, ?_, ?_⟩ <;> (try rw [Nat.add_sub_cancel' (by omega)]) <;>
    (try rw [Nat.add_sub_cancel' (by omega)]) <;> simp

/-- **C45**, nothing else: the quadrants together have as many cells as the raster. -/
theorem C45_sizes (r : Raster K V) :
    let q := toQuadrants r
    q.1.nb = r.nb ∧ q.2.1.nb = r.nb ∧ q.2.2.1.nb = r.nb ∧ q.2.2.2.nb = r.nb ∧
    q.1.ny * q.1.nx + q.2.1.ny * q.2.1.nx + q.2.2.1.ny * q.2.2.1.nx + q.2.2.2.ny * q.2.2.2.nx = r.ny * r.nx := by
  simp only [toQuadrants, Raster.isel, Nat.sub_zero, true_and]
  have h1 : r.ny = r.ny / 2 + (r.ny - r.ny / 2) := by omega
  have h2 : r.nx = r.nx / 2 + (r.nx - r.nx / 2) := by omega
  generalize r.ny / 2 = a at *
  generalize r.nx / 2 = b at *
  generalize r.ny - a = c at *
  generalize r.nx - b = d at *
  rw [h1, h2]; ring

/-- Concrete case: a 5 x 3 raster; cell (4, 2) is in the south east. -/
example : let q := toQuadrants (K := ℚ) (V := Nat) ⟨[1], [5], [3], ⟨30, 0, 0, 0, -30, 0⟩, false,
      fun _ y x => 10 * y + x, fun _ _ _ => false⟩
    q.2.2.2.data 0 2 1 = 42 ∧ (q.1.ny, q.1.nx) = (2, 1) := by decide +kernel

/-! ### C22: points -/

theorem mem_ndindex {a b c : Nat} {p : Nat × Nat × Nat} : p ∈ ndindex a b c ↔ p.1 < a ∧ p.2.1 < b ∧ p.2.2 < c := by
  obtain ⟨i, j, k⟩ := p
  simp only [ndindex, List.mem_flatMap, List.mem_range, List.mem_map, Prod.mk.injEq]
  constructor
  · rintro ⟨i', hi, j', hj, k', hk, rfl, rfl, rfl⟩; exact ⟨hi, hj, hk⟩
  · rintro ⟨hi, hj, hk⟩; exact ⟨i, hi, j, hj, k, hk, rfl, rfl, rfl⟩

theorem nodup_flatMap_of {α β : Type} {l : List α} {f : α → List β} (hl : l.Nodup) (hf : ∀ a ∈ l, (f a).Nodup)
    (hd : ∀ a ∈ l, ∀ a' ∈ l, ∀ b, b ∈ f a → b ∈ f a' → a = a') : (l.flatMap f).Nodup := by
  rw [List.nodup_flatMap]
  refine ⟨hf, ?_⟩
  have : l.Pairwise (fun a a' => a ∈ l → a' ∈ l → a ≠ a') := hl.imp fun h _ _ => h
  rw [List.pairwise_iff_getElem] at this ⊢
  intro i j hi hj hij
  have hne := this i j hi hj hij (List.getElem_mem hi) (List.getElem_mem hj)
  intro b h1 h2
  exact hne (hd _ (List.getElem_mem hi) _ (List.getElem_mem hj) b h1 h2)

theorem ndindex_nodup (a b c : Nat) : (ndindex a b c).Nodup := by
  refine nodup_flatMap_of List.nodup_range ?_ ?_
  · intro i _
    refine nodup_flatMap_of List.nodup_range ?_ ?_
    · intro j _
      exact List.Nodup.map (fun k k' h => by simpa using h) List.nodup_range
    · intro j _ j' _ p h1 h2
      simp only [List.mem_map] at h1 h2
      obtain ⟨_, _, rfl⟩ := h1
      obtain ⟨_, _, h⟩ := h2
      simp only [Prod.mk.injEq] at h
      exact h.2.1.symm
  · intro i _ i' _ p h1 h2
    simp only [List.mem_flatMap, List.mem_map] at h1 h2
    obtain ⟨_, _, _, _, rfl⟩ := h1
    obtain ⟨_, _, _, _, h⟩ := h2
    simp only [Prod.mk.injEq] at h
    exact h.1.symm

theorem sequence_map {α β : Type} (l : List α) (f : α → Option β) (g : α → β) (h : ∀ a ∈ l, f a = some (g a)) :
    sequence (l.map f) = some (l.map g) := by
  induction l with
  | nil => rfl
  | cons a l ih =>
    simp only [List.map_cons, h a (by simp), sequence, ih fun b hb => h b (by simp [hb]), Option.map_some]

namespace Spec

/-- The row that belongs to a cell: value, 1-based band, row, column, pixel centre, and as index the
position of the cell in the flattened raster. -/
def pointOf (r : Raster K V) (c : Nat × Nat × Nat) : Point K V :=
  ⟨(c.1 * r.ny + c.2.1) * r.nx + c.2.2, r.data c.1 c.2.1 c.2.2, c.1 + 1, c.2.1, c.2.2,
    r.affine.a * (c.2.2 + 1 / 2) + r.affine.c, r.affine.e * (c.2.1 + 1 / 2) + r.affine.f⟩

/-- The cell exists and is not null. -/
def ValidCell (r : Raster K V) (c : Nat × Nat × Nat) : Prop :=
  c.1 < r.nb ∧ c.2.1 < r.ny ∧ c.2.2 < r.nx ∧ r.mask c.1 c.2.1 c.2.2 = false

end Spec

theorem vectorizeCell_eq {r : Raster K V} (hb : r.affine.b = 0) (hd : r.affine.d = 0) (ha : r.affine.a ≠ 0)
    (he : r.affine.e ≠ 0) {kb ky kx : Nat} {sb sy sx : Nat × Nat}
    (e1 : (chunksToArrayLocations r.bchunks)[kb]? = some sb)
    (e2 : (chunksToArrayLocations r.ychunks)[ky]? = some sy)
    (e3 : (chunksToArrayLocations r.xchunks)[kx]? = some sx)
    {i j k : Nat} (hi : i < sb.2 - sb.1) (hj : j < sy.2 - sy.1) (hk : k < sx.2 - sx.1) :
    vectorizeCell ⟨r.geobox.slice (toSlice sy) (toSlice sx), toSlice sb, toSlice sy, toSlice sx, (kb, ky, kx),
        r.affine, (r.nb, r.ny, r.nx)⟩ (r.isel sb sy sx).data (i, j, k) =
      some (pointOf r (sb.1 + i, sy.1 + j, sx.1 + k)) := by
  have hdet : r.affine.det ≠ 0 := by
    simp only [Affine.det, hb, zero_mul, sub_zero]
    exact mul_ne_zero ha he
  have lb : sb.1 + i < r.nb := at_lt (at_iff.mpr ⟨sb, e1, by omega, by omega, rfl⟩ : At r.bchunks (sb.1 + i) kb _)
  have ly : sy.1 + j < r.ny := at_lt (at_iff.mpr ⟨sy, e2, by omega, by omega, rfl⟩ : At r.ychunks (sy.1 + j) ky _)
  have lx : sx.1 + k < r.nx := at_lt (at_iff.mpr ⟨sx, e3, by omega, by omega, rfl⟩ : At r.xchunks (sx.1 + k) kx _)
  unfold vectorizeCell
  simp only [GeoBlockInfo.x, GeoBlockInfo.y, GeoBox.slice, Raster.geobox, Affine.mul, Affine.translation, toSlice,
    hb, hd, Raster.isel]
  have hx : (r.affine.a * 1 + 0 * 0) * ((k : K) + 1 / 2) + (r.affine.a * ((sx.1 : Int) : K) + 0 * ((sy.1 : Int) : K) + r.affine.c)
      = r.affine.a * (((sx.1 + k : Nat) : K) + 1 / 2) + r.affine.c := by push_cast; ring
  have hy : (0 * 0 + r.affine.e * 1) * ((j : K) + 1 / 2) + (0 * ((sx.1 : Int) : K) + r.affine.e * ((sy.1 : Int) : K) + r.affine.f)
      = r.affine.e * (((sy.1 + j : Nat) : K) + 1 / 2) + r.affine.f := by push_cast; ring
  rw [hx, hy]
  have happ : (r.affine.a * (((sx.1 + k : Nat) : K) + 1 / 2) + r.affine.c, r.affine.e * (((sy.1 + j : Nat) : K) + 1 / 2) + r.affine.f)
      = r.affine.apply ((((sx.1 + k : Nat) : Int) : K) + 1 / 2, (((sy.1 + j : Nat) : Int) : K) + 1 / 2) := by
    simp only [Affine.apply, hb, hd, mul_zero, add_zero, zero_add, Int.cast_natCast]
    ext <;> simp only <;> ring
  rw [happ, apply_inv _ hdet]
  simp only [floor_half]
  have hr : ravel (((sb.1 : Nat) : Int) + (i : Int)) ((sy.1 + j : Nat) : Int) ((sx.1 + k : Nat) : Int) (r.nb, r.ny, r.nx) =
      some (((sb.1 + i) * r.ny + (sy.1 + j)) * r.nx + (sx.1 + k)) := by
    unfold ravel
    rw [if_pos (by simp only; omega)]
    simp only [Option.some.injEq]
    have h1 : (((sb.1 : Nat) : Int) + (i : Int)).toNat = sb.1 + i := by omega
    rw [h1, Int.toNat_natCast, Int.toNat_natCast]
  rw [hr]
  simp only [pointOf, Nat.cast_add]

/-- **C22.**  On an axis-aligned grid with a projected CRS, `to_points` has exactly one row for every valid
cell, whatever the chunks: value, 1-based band, row, column, pixel centre; all index values differ. -/
theorem C22_points {r : Raster K V} (hb : r.affine.b = 0) (hd : r.affine.d = 0) (ha : r.affine.a ≠ 0)
    (he : r.affine.e ≠ 0) (hg : r.geographic = false) :
    ∃ l, toPoints r = some l ∧ (l.map (·.index)).Nodup ∧
      ∀ p, p ∈ l ↔ ∃ c, ValidCell r c ∧ p = pointOf r c := by
  -- the global cell of a local one
  let glob : (Nat × Nat × Nat) → (Nat × Nat × Nat) → (Nat × Nat × Nat) := fun loc idx =>
    (start r.bchunks loc.1 + idx.1, start r.ychunks loc.2.1 + idx.2.1, start r.xchunks loc.2.2 + idx.2.2)
  let size : List Nat → Nat → Nat := fun cs k => (cs[k]?).getD 0
  let cells : (Nat × Nat × Nat) → List (Nat × Nat × Nat) := fun loc =>
    ((ndindex (size r.bchunks loc.1) (size r.ychunks loc.2.1) (size r.xchunks loc.2.2)).map (glob loc)).filter
      fun c => !r.mask c.1 c.2.1 c.2.2
  have hloc : ∀ (cs : List Nat) (k : Nat), k < cs.length →
      (chunksToArrayLocations cs)[k]? = some (start cs k, start cs k + size cs k) := by
    intro cs k hk
    rw [C21_locations, if_pos hk, sum_take_succ cs k hk]
    simp [start, size, List.getElem?_eq_getElem hk]
  have hblock : ∀ loc ∈ blockIndices r, pointsOfBlock r loc = some ((cells loc).map (pointOf r)) := by
    intro loc hl
    obtain ⟨kb, ky, kx⟩ := loc
    obtain ⟨h1, h2, h3⟩ := mem_ndindex.mp hl
    simp only at h1 h2 h3
    have e1 := hloc _ _ h1
    have e2 := hloc _ _ h2
    have e3 := hloc _ _ h3
    simp only [pointsOfBlock, geoBlockInfo, block, e1, e2, e3]
    unfold vectorize
    rw [sequence_map _ _ (fun idx => pointOf r (glob (kb, ky, kx) idx))]
    · congr 1
      simp only [cells, List.filter_map, List.map_map]
      simp only [Raster.isel, Nat.add_sub_cancel_left]
      rfl
    · rintro ⟨i, j, k⟩ hm
      rw [List.mem_filter, mem_ndindex] at hm
      obtain ⟨⟨m1, m2, m3⟩, _⟩ := hm
      exact vectorizeCell_eq hb hd ha he e1 e2 e3 m1 m2 m3
  have hpts : toPoints r = some ((blockIndices r).flatMap fun loc => (cells loc).map (pointOf r)) := by
    unfold toPoints
    rw [hg]
    simp only [Bool.false_and, Bool.false_eq_true, if_false]
    rw [sequence_map _ _ _ hblock, List.flatMap_def]
  have hmem : ∀ loc ∈ blockIndices r, ∀ c, c ∈ cells loc ↔ (∃ i j k, At r.bchunks c.1 loc.1 i ∧
      At r.ychunks c.2.1 loc.2.1 j ∧ At r.xchunks c.2.2 loc.2.2 k) ∧ r.mask c.1 c.2.1 c.2.2 = false := by
    rintro ⟨kb, ky, kx⟩ hl ⟨b, y, x⟩
    obtain ⟨h1, h2, h3⟩ := mem_ndindex.mp hl
    simp only at h1 h2 h3
    simp only [cells, List.mem_filter, List.mem_map, mem_ndindex, Prod.exists, glob, Prod.mk.injEq,
      Bool.not_eq_true']
    simp only [size, List.getElem?_eq_getElem h1, List.getElem?_eq_getElem h2, List.getElem?_eq_getElem h3,
      Option.getD_some]
    constructor
    · rintro ⟨⟨i, j, k, ⟨m1, m2, m3⟩, rfl, rfl, rfl⟩, hmask⟩
      exact ⟨⟨i, j, k, ⟨h1, m1, rfl⟩, ⟨h2, m2, rfl⟩, ⟨h3, m3, rfl⟩⟩, hmask⟩
    · rintro ⟨⟨i, j, k, ⟨_, m1, g1⟩, ⟨_, m2, g2⟩, ⟨_, m3, g3⟩⟩, hmask⟩
      exact ⟨⟨i, j, k, ⟨m1, m2, m3⟩, g1.symm, g2.symm, g3.symm⟩, hmask⟩
  have hall : ∀ c, c ∈ (blockIndices r).flatMap cells ↔ ValidCell r c := by
    intro c
    rw [List.mem_flatMap]
    constructor
    · rintro ⟨loc, hl, hc⟩
      obtain ⟨⟨i, j, k, a1, a2, a3⟩, hm⟩ := (hmem loc hl c).mp hc
      exact ⟨at_lt a1, at_lt a2, at_lt a3, hm⟩
    · rintro ⟨h1, h2, h3, hm⟩
      obtain ⟨kb, i, a1⟩ := at_exists h1
      obtain ⟨ky, j, a2⟩ := at_exists h2
      obtain ⟨kx, k, a3⟩ := at_exists h3
      have hl : (kb, ky, kx) ∈ blockIndices r := mem_ndindex.mpr ⟨a1.1, a2.1, a3.1⟩
      exact ⟨(kb, ky, kx), hl, (hmem _ hl c).mpr ⟨⟨i, j, k, a1, a2, a3⟩, hm⟩⟩
  have hnd : ((blockIndices r).flatMap cells).Nodup := by
    refine nodup_flatMap_of (ndindex_nodup _ _ _) ?_ ?_
    · intro loc _
      refine List.Nodup.filter _ (List.Nodup.map ?_ (ndindex_nodup _ _ _))
      rintro ⟨i, j, k⟩ ⟨i', j', k'⟩ h
      simp only [glob, Prod.mk.injEq] at h
      simp only [Prod.mk.injEq]
      omega
    · rintro ⟨kb, ky, kx⟩ hl ⟨kb', ky', kx'⟩ hl' c h h'
      obtain ⟨⟨i, j, k, a1, a2, a3⟩, _⟩ := (hmem _ hl c).mp h
      obtain ⟨⟨i', j', k', b1, b2, b3⟩, _⟩ := (hmem _ hl' c).mp h'
      obtain ⟨rfl, _⟩ := at_unique a1 b1
      obtain ⟨rfl, _⟩ := at_unique a2 b2
      obtain ⟨rfl, _⟩ := at_unique a3 b3
      rfl
  have hflat : ((blockIndices r).flatMap fun loc => (cells loc).map (pointOf r)) =
      ((blockIndices r).flatMap cells).map (pointOf r) := by rw [List.map_flatMap]
  refine ⟨_, hpts, ?_, ?_⟩
  · rw [hflat, List.map_map]
    refine List.Nodup.map_on ?_ hnd
    rintro ⟨b, y, x⟩ hc ⟨b', y', x'⟩ hc' h
    obtain ⟨_, hy, hx, _⟩ := (hall _).mp hc
    obtain ⟨_, hy', hx', _⟩ := (hall _).mp hc'
    simp only [Function.comp, pointOf] at h hy hx hy' hx'
    have e1 : x = x' := by
      have := congrArg (· % r.nx) h
      simpa [Nat.mul_add_mod', Nat.mod_eq_of_lt hx, Nat.mod_eq_of_lt hx'] using this
    subst e1
    have h2 : (b * r.ny + y) * r.nx = (b' * r.ny + y') * r.nx := by omega
    have h3 : b * r.ny + y = b' * r.ny + y' := Nat.eq_of_mul_eq_mul_right (by omega) h2
    have e2 : y = y' := by
      have := congrArg (· % r.ny) h3
      simpa [Nat.mul_add_mod', Nat.mod_eq_of_lt hy, Nat.mod_eq_of_lt hy'] using this
    subst e2
    have h4 : b * r.ny = b' * r.ny := by omega
    have e3 : b = b' := Nat.eq_of_mul_eq_mul_right (by omega) h4
    rw [e3]
  · intro p
    rw [hflat, List.mem_map]
    constructor
    · rintro ⟨c, hc, rfl⟩; exact ⟨c, (hall c).mp hc, rfl⟩
    · rintro ⟨c, hc, rfl⟩; exact ⟨c, (hall c).mpr hc, rfl⟩

/-- **C22 fails with a geographic CRS** (longitude and latitude): `to_points` raises for every non-empty
raster, because the block info looks up the axes `x` and `y`, which are called `longitude` and `latitude`
there. -/
theorem C22_geographic_crs (r : Raster K V) (hg : r.geographic = true) (hb : r.bchunks ≠ []) (hy : r.ychunks ≠ [])
    (hx : r.xchunks ≠ []) : toPoints r = none := by
  have : (0, 0, 0) ∈ blockIndices r :=
    mem_ndindex.mpr ⟨List.length_pos_iff.mpr hb, List.length_pos_iff.mpr hy, List.length_pos_iff.mpr hx⟩
  unfold toPoints
  rw [hg]
  have hne : (blockIndices r).isEmpty = false := by
    cases h : blockIndices r with
    | nil => rw [h] at this; cases this
    | cons a l => rfl
  simp [hne]

/-- Concrete case: two chunks, one null cell. -/
example : ((toPoints (K := ℚ) (V := Nat) ⟨[1], [1], [1, 2], ⟨30, 0, 0, 0, -30, 0⟩, false,
      fun _ y x => 10 * y + x, fun _ _ x => x == 1⟩).map fun l => l.map fun p => (p.index, p.value, p.band, p.px)) =
    some [(0, 0, 1, 15), (2, 2, 1, 75)] := by decide +kernel

end Verif.Grid
