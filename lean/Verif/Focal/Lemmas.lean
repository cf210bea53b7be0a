import Verif.Focal.Model
import Verif.Stats.Props
import Verif.Nulls.RasterProps
import Mathlib.Tactic.Linarith
import Mathlib.Algebra.BigOperators.Intervals

/-!
# Loops, chunks and boundaries of the focal filters
-/

set_option linter.unusedSectionVars false

namespace Verif.Focal

open Verif Verif.Nulls DType

/-! ### Loops -/

theorem before_after (n : Nat) : (before n + after n + 1).toNat = n := by
  unfold before after
  omega

theorem zipIdx_flatMap {α : Type} (g : Nat → Nat → α) (n m : Nat) :
    ((List.range n).flatMap fun a => (List.range m).map (g a)).zipIdx =
      (List.range n).flatMap fun a => (List.range m).map fun b => (g a b, a * m + b) := by
  have hrow : ∀ (f : Nat → α) (m s : Nat), ((List.range m).map f).zipIdx s = (List.range m).map fun b => (f b, s + b) := by
    intro f m s
    induction m with
    | zero => rfl
    | succ m ih =>
      rw [List.range_succ, List.map_append, List.zipIdx_append, ih, List.map_append]
      simp
  induction n with
  | zero => rfl
  | succ n ih =>
    rw [List.range_succ, List.flatMap_append, List.zipIdx_append, ih, List.flatMap_append]
    congr 1
    simp only [List.flatMap_singleton]
    rw [hrow]
    apply List.map_congr_left
    intro b _
    simp only [Prod.mk.injEq, true_and]
    have : ∀ n : Nat, ((List.range n).flatMap fun a => (List.range m).map (g a)).length = n * m := by
      intro n
      rw [List.length_flatMap]
      simp
    rw [this]
    omega

theorem flat_eq {α : Type} (k : Kernel α) {a b : Nat} (hb : b < k.cols) : k.flat (a * k.cols + b) = k.at' a b := by
  unfold Kernel.flat
  have h1 : (a * k.cols + b) / k.cols = a := by
    rw [Nat.mul_comm, Nat.mul_add_div (by omega), Nat.div_eq_of_lt hb]
    omega
  have h2 : (a * k.cols + b) % k.cols = b := by
    rw [Nat.mul_comm, Nat.mul_add_mod, Nat.mod_eq_of_lt hb]
  rw [h1, h2]

theorem flatMap_congr' {α β : Type} {l : List α} {f g : α → List β} (h : ∀ a ∈ l, f a = g a) :
    l.flatMap f = l.flatMap g := by
  induction l with
  | nil => rfl
  | cons a l ih =>
    rw [List.flatMap_cons, List.flatMap_cons, h a (by simp), ih fun b hb => h b (List.mem_cons_of_mem _ hb)]

/-- The loops pass over the kernel row by row. -/
theorem loopCells_zipIdx (krows kcols : Nat) (r c : Int) : (loopCells krows kcols r c).zipIdx =
    (List.range krows).flatMap fun a : Nat => (List.range kcols).map fun b : Nat =>
      ((r - before krows + a, c - before kcols + b), a * kcols + b) := by
  unfold loopCells
  rw [zipIdx_flatMap (fun (a b : Nat) => ((r - before krows + a, c - before kcols + b) : Int × Int)), before_after,
    before_after]

/-! ### Chunks -/

theorem chunkOf_spec : ∀ (ns : List Nat) (start p : Nat), start ≤ p → p < start + ns.sum →
    ∃ s n, chunkOf ns start p = some (s, n) ∧ s ≤ p ∧ p < s + n
  | [], start, p, h1, h2 => by simp at h2; omega
  | n :: ns, start, p, h1, h2 => by
    unfold chunkOf
    by_cases h : p < start + n
    · rw [if_pos h]; exact ⟨start, n, rfl, h1, h⟩
    · rw [if_neg h]
      rw [List.sum_cons] at h2
      exact chunkOf_spec ns (start + n) p (by omega) (by omega)

/-- A cell of the result of `map_overlap` is the function applied at a place with all the margin around it. -/
theorem mapOverlap_spec {V : Type} (func : Nat → Nat → (Int → Int → V) → Int → Int → Option V) (ext : Int → Int → V)
    (rpad cpad : Nat) {ychunks xchunks : List Nat} {r c : Nat} (hr : r < ychunks.sum) (hc : c < xchunks.sum) :
    ∃ r0 h c0 w : Nat, r0 ≤ r ∧ r < r0 + h ∧ c0 ≤ c ∧ c < c0 + w ∧
      mapOverlap func ext rpad cpad ychunks xchunks r c =
        func (h + 2 * rpad) (w + 2 * cpad) (fun i j => ext (r0 + i - rpad) (c0 + j - cpad))
          ((r : Int) - r0 + rpad) ((c : Int) - c0 + cpad) := by
  obtain ⟨r0, h, e1, h1, h2⟩ := chunkOf_spec ychunks 0 r (by omega) (by omega)
  obtain ⟨c0, w, e2, h3, h4⟩ := chunkOf_spec xchunks 0 c (by omega) (by omega)
  refine ⟨r0, h, c0, w, h1, h2, h3, h4, ?_⟩
  unfold mapOverlap
  rw [e1, e2]

theorem overlap_nonneg (n : Nat) : 0 ≤ overlap n := by
  unfold overlap before after
  omega

theorem visited_at {krows kcols h w r r0 c c0 : Nat} (h1 : r0 ≤ r) (h2 : r < r0 + h) (h3 : c0 ≤ c) (h4 : c < c0 + w) :
    Visited (h + 2 * (overlap krows).toNat) (w + 2 * (overlap kcols).toNat) krows kcols
      ((r : Int) - r0 + (overlap krows).toNat) ((c : Int) - c0 + (overlap kcols).toNat) := by
  have := overlap_nonneg krows
  have := overlap_nonneg kcols
  unfold Visited
  omega

theorem read_at {V : Type} {krows kcols h w r r0 c c0 a b : Nat} (h1 : r0 ≤ r) (h2 : r < r0 + h) (h3 : c0 ≤ c)
    (h4 : c < c0 + w) (ha : a < krows) (hb : b < kcols) (ext : Int → Int → V) :
    read (h + 2 * (overlap krows).toNat) (w + 2 * (overlap kcols).toNat)
      (fun i j => ext (r0 + i - (overlap krows).toNat) (c0 + j - (overlap kcols).toNat))
      ((r : Int) - r0 + (overlap krows).toNat - before krows + a)
      ((c : Int) - c0 + (overlap kcols).toNat - before kcols + b) =
    some (ext (r - before krows + a) (c - before kcols + b)) := by
  have e1 := overlap_nonneg krows
  have e2 := overlap_nonneg kcols
  unfold read
  rw [if_pos]
  · have x1 : (r0 : Int) + ((r : Int) - r0 + (overlap krows).toNat - before krows + a) - (overlap krows).toNat =
        r - before krows + a := by omega
    have x2 : (c0 : Int) + ((c : Int) - c0 + (overlap kcols).toNat - before kcols + b) - (overlap kcols).toNat =
        c - before kcols + b := by omega
    simp only [x1, x2]
  · unfold overlap before after at *
    omega

theorem sequence_map_some {α : Type} (l : List α) : sequence (l.map some) = some l := by
  induction l with
  | nil => rfl
  | cons a l ih => simp [sequence, ih]

/-- The values that `_focal_chunk` passes to the statistic: NaN where the kernel is false. -/
def kernelList (kernel : Kernel Bool) (ext : Int → Int → Num) (r c : Nat) : List Num :=
  (List.range kernel.rows).flatMap fun a : Nat => (List.range kernel.cols).map fun b : Nat =>
    if kernel.at' a b then ext (r - before kernel.rows + a) (c - before kernel.cols + b) else .nan

theorem focalChunk_overlap (kernel : Kernel Bool) (func : List Num → Num) (ext : Int → Int → Num)
    {ychunks xchunks : List Nat} {r c : Nat} (hr : r < ychunks.sum) (hc : c < xchunks.sum) :
    mapOverlap (focalChunk kernel func) ext (overlap kernel.rows).toNat (overlap kernel.cols).toNat ychunks xchunks r c =
      some (func (kernelList kernel ext r c)) := by
  obtain ⟨r0, h, c0, w, h1, h2, h3, h4, he⟩ := mapOverlap_spec (focalChunk kernel func) ext (overlap kernel.rows).toNat
    (overlap kernel.cols).toNat hr hc
  rw [he]
  unfold focalChunk
  rw [if_pos (visited_at h1 h2 h3 h4), loopCells_zipIdx]
  have : ((List.range kernel.rows).flatMap fun a : Nat => (List.range kernel.cols).map fun b : Nat =>
      ((((r : Int) - r0 + (overlap kernel.rows).toNat) - before kernel.rows + a,
        ((c : Int) - c0 + (overlap kernel.cols).toNat) - before kernel.cols + b), a * kernel.cols + b)).map
      (kernelValue (h + 2 * (overlap kernel.rows).toNat) (w + 2 * (overlap kernel.cols).toNat)
        (fun i j => ext (r0 + i - (overlap kernel.rows).toNat) (c0 + j - (overlap kernel.cols).toNat)) kernel) =
      (kernelList kernel ext r c).map some := by
    unfold kernelList
    rw [List.map_flatMap, List.map_flatMap]
    apply flatMap_congr'
    intro a ha
    rw [List.map_map, List.map_map]
    apply List.map_congr_left
    intro b hb
    simp only [Function.comp, kernelValue]
    rw [flat_eq kernel (List.mem_range.mp hb), read_at h1 h2 h3 h4 (List.mem_range.mp ha) (List.mem_range.mp hb)]
    split <;> rfl
  rw [this, sequence_map_some]
  rfl

/-- The sum that `_correlate2d_chunk` computes, in order. -/
def correlateSum (kernel : Kernel Num) (ext : Int → Int → Num) (r c : Nat) : Num :=
  ((List.range kernel.rows).flatMap fun a : Nat => (List.range kernel.cols).map fun b : Nat =>
    (kernel.at' a b, ext (r - before kernel.rows + a) (c - before kernel.cols + b))).foldl
    (fun v e => if !e.2.isnan then add v (mul e.1 e.2) else v) (.fin 0)

theorem foldl_congr_map {α β : Type} {f : Option Num → α → Option Num} {g : Num → β → Num} {h : α → β} :
    ∀ {l : List α}, (∀ a ∈ l, ∀ v, f (some v) a = some (g v (h a))) → ∀ v, l.foldl f (some v) = some ((l.map h).foldl g v)
  | [], _, _ => rfl
  | a :: l, hl, v => by
    rw [List.foldl_cons, hl a (by simp), List.map_cons, List.foldl_cons]
    exact foldl_congr_map (fun b hb => hl b (List.mem_cons_of_mem _ hb)) _

theorem correlateChunk_overlap (kernel : Kernel Num) (ext : Int → Int → Num)
    {ychunks xchunks : List Nat} {r c : Nat} (hr : r < ychunks.sum) (hc : c < xchunks.sum) :
    mapOverlap (correlateChunk kernel) ext (overlap kernel.rows).toNat (overlap kernel.cols).toNat ychunks xchunks r c =
      some (correlateSum kernel ext r c) := by
  obtain ⟨r0, h, c0, w, h1, h2, h3, h4, he⟩ := mapOverlap_spec (correlateChunk kernel) ext (overlap kernel.rows).toNat
    (overlap kernel.cols).toNat hr hc
  rw [he]
  unfold correlateChunk correlateSum
  rw [if_pos (visited_at h1 h2 h3 h4), loopCells_zipIdx]
  -- the value that goes with a visited cell
  let H : (Int × Int) × Nat → Num × Num := fun e =>
    (kernel.flat e.2, ext (e.1.1 - ((r : Int) - r0 + (overlap kernel.rows).toNat) + r)
      (e.1.2 - ((c : Int) - c0 + (overlap kernel.cols).toNat) + c))
  rw [foldl_congr_map (g := fun v e => if !e.2.isnan then add v (mul e.1 e.2) else v) (h := H)]
  · congr 2
    rw [List.map_flatMap]
    apply flatMap_congr'
    intro a ha
    rw [List.map_map]
    apply List.map_congr_left
    intro b hb
    simp only [Function.comp, H]
    rw [flat_eq kernel (List.mem_range.mp hb)]
    congr 2 <;> omega
  · intro e he v
    obtain ⟨a, ha, hm⟩ := List.mem_flatMap.mp he
    obtain ⟨b, hb, rfl⟩ := List.mem_map.mp hm
    unfold accumulate
    simp only
    rw [read_at h1 h2 h3 h4 (List.mem_range.mp ha) (List.mem_range.mp hb)]
    have e1 : (r : Int) - r0 + (overlap kernel.rows).toNat - before kernel.rows + a -
        ((r : Int) - r0 + (overlap kernel.rows).toNat) + r = r - before kernel.rows + a := by omega
    have e2 : (c : Int) - c0 + (overlap kernel.cols).toNat - before kernel.cols + b -
        ((c : Int) - c0 + (overlap kernel.cols).toNat) + c = c - before kernel.cols + b := by omega
    simp only [H, e1, e2]

end Verif.Focal
