import Verif.Lines.Model
import Verif.Focal.Lemmas
import Mathlib.Data.List.Nodup
import Mathlib.Algebra.BigOperators.Ring.List
import Mathlib.Tactic.Ring
import Mathlib.Tactic.Linarith

/-! # C68: length of lines near each cell -/

set_option linter.unusedSectionVars false

namespace Verif.Lines

open Verif Verif.Nulls

variable {K : Type} [Field K] [LinearOrder K] [IsStrictOrderedRing K] [FloorRing K]
variable {G : Type} {geo : Geo G K}

namespace Spec

/-- What is assumed of the libraries. -/
structure Laws (geo : Geo G K) : Prop where
  /-- clipping to a box does not change what is near a point, if all that is near the point is in the box -/
  clip : ∀ (x0 y0 x1 y1 radius : K) (p : K × K) (g : G), geo.isEmpty g = false → geo.isValid g = true →
    x0 ≤ p.1 - radius → p.1 + radius ≤ x1 → y0 ≤ p.2 - radius → p.2 + radius ≤ y1 →
    geo.inside radius p g = ((geo.clip (x0, y0, x1, y1) g).map (geo.inside radius p)).getD 0
  /-- a geometry is as long as its parts together -/
  explode : ∀ radius p g, geo.inside radius p g = ((geo.explode g).map (geo.inside radius p)).sum
  /-- cells that are not touched by the buffer have no lines near them -/
  touched : ∀ radius ny nx xc yc gs i j, i < ny → j < nx → geo.touched radius ny nx xc yc gs i j = false →
    ∀ g ∈ gs, geo.inside radius (xc j, yc i) g = 0

/-- The weight of a feature. -/
def weight (field : Option String) (f : Feature G K) : K :=
  match field with
  | none => 1
  | some s => f.value s

/-- The weighted length of the features near a point; empty and invalid geometries do not count. -/
def total (geo : Geo G K) (features : List (Feature G K)) (field : Option String) (radius : K) (p : K × K) : K :=
  ((features.filter fun f => !geo.isEmpty f.geometry && geo.isValid f.geometry).map fun f =>
    geo.inside radius p f.geometry * weight field f).sum

end Spec

theorem batches_flatten {α : Type} {size : Nat} (hs : 0 < size) (l : List α) : (batches size l).flatten = l := by
  have key : ∀ m, ((List.range m).map fun k => (l.drop (k * size)).take size).flatten = l.take (m * size) := by
    intro m
    induction m with
    | zero => simp
    | succ m ih =>
      rw [List.range_succ, List.map_append, List.flatten_append, ih, Nat.succ_mul, List.take_add]
      simp
  unfold batches
  rw [key, List.take_of_length_le]
  have h := Nat.div_add_mod (l.length + size - 1) size
  have h2 := Nat.mod_lt (l.length + size - 1) hs
  rw [Nat.mul_comm]
  omega

theorem scatter_mem : ∀ (l : List ((Nat × Nat) × K)) (i j : Nat) (v acc : K), (l.map (·.1)).Nodup → ((i, j), v) ∈ l →
    l.foldl (fun v e => if e.1 = (i, j) then e.2 else v) acc = v
  | e :: l, i, j, v, acc, hn, hm => by
    rw [List.map_cons, List.nodup_cons] at hn
    rw [List.foldl_cons]
    rcases List.mem_cons.1 hm with rfl | hm
    · rw [if_pos rfl]
      have : ∀ e ∈ l, e.1 ≠ (i, j) := fun e he h => hn.1 (List.mem_map.2 ⟨e, he, h⟩)
      clear hm hn
      induction l with
      | nil => rfl
      | cons e l ih => rw [List.foldl_cons, if_neg (this e List.mem_cons_self), ih fun e he => this e (List.mem_cons_of_mem _ he)]
    · exact scatter_mem l i j v _ hn.2 hm

theorem scatter_not_mem : ∀ (l : List ((Nat × Nat) × K)) (i j : Nat) (acc : K), (∀ e ∈ l, e.1 ≠ (i, j)) →
    l.foldl (fun v e => if e.1 = (i, j) then e.2 else v) acc = acc
  | [], _, _, _, _ => rfl
  | e :: l, i, j, acc, h => by
    rw [List.foldl_cons, if_neg (h e List.mem_cons_self)]
    exact scatter_not_mem l i j acc fun e he => h e (List.mem_cons_of_mem _ he)

theorem scatter_groupSum (l : List ((Nat × Nat) × K)) (i j : Nat) :
    scatter (groupSum l) i j = ((l.filter fun e => e.1 = (i, j)).map (·.2)).sum := by
  unfold scatter
  have hk : (groupSum l).map (·.1) = (l.map (·.1)).dedup := by
    unfold groupSum
    rw [List.map_map]
    exact List.map_id _
  by_cases hm : (i, j) ∈ l.map (·.1)
  · refine scatter_mem _ i j _ 0 (by rw [hk]; exact List.nodup_dedup _) ?_
    unfold groupSum
    exact List.mem_map.2 ⟨(i, j), List.mem_dedup.2 hm, rfl⟩
  · rw [scatter_not_mem]
    · have : (l.filter fun e => e.1 = (i, j)) = [] := by
        rw [List.filter_eq_nil_iff]
        intro e he h
        exact hm (List.mem_map.2 ⟨e, he, by simpa using h⟩)
      rw [this]; rfl
    · intro e he h
      apply hm
      have : e.1 ∈ (groupSum l).map (·.1) := List.mem_map_of_mem he
      rw [hk, List.mem_dedup, h] at this
      exact this

theorem mem_cells {ny nx i j : Nat} : (i, j) ∈ cells ny nx ↔ i < ny ∧ j < nx := by
  unfold cells
  simp only [List.mem_flatMap, List.mem_map, List.mem_range, Prod.mk.injEq]
  constructor
  · rintro ⟨i', hi, j', hj, rfl, rfl⟩; exact ⟨hi, hj⟩
  · rintro ⟨hi, hj⟩; exact ⟨i, hi, j, hj, rfl, rfl⟩

theorem cells_nodup (ny nx : Nat) : (cells ny nx).Nodup := by
  unfold cells
  rw [List.nodup_flatMap]
  constructor
  · intro i _
    exact List.Nodup.map (fun a b h => by cases h; rfl) List.nodup_range
  · refine (List.nodup_range (n := ny)).imp ?_
    intro i i' hne
    show List.Disjoint _ _
    intro z hz hz'
    obtain ⟨j, -, rfl⟩ := List.mem_map.1 hz
    obtain ⟨j', -, e⟩ := List.mem_map.1 hz'
    cases e
    exact hne rfl

theorem lengthWithin_zero {rows : List (Row G K)} {radius : K} {p : K × K}
    (h : ∀ r ∈ rows, geo.inside radius p r.1 = 0) : lengthWithin geo rows radius p = 0 := by
  unfold lengthWithin
  apply List.sum_eq_zero
  intro v hv
  obtain ⟨r, hr, rfl⟩ := List.mem_map.1 hv
  rw [h r hr, zero_mul]

/-- The entries of a cell add up to the length, whether the cell is touched or not. -/
theorem core_sum (hl : Spec.Laws geo) (rows : List (Row G K)) {ny nx : Nat} (xc yc : Nat → K) (radius : K) {i j : Nat}
    (hi : i < ny) (hj : j < nx) :
    (((core geo rows ny nx xc yc radius).filter fun e => e.1 = (i, j)).map (·.2)).sum =
      lengthWithin geo rows radius (xc j, yc i) := by
  unfold core
  rw [List.filter_map, List.map_map]
  have hf : ((fun e : (Nat × Nat) × K => decide (e.1 = (i, j))) ∘ fun c : Nat × Nat =>
      (c, lengthWithin geo rows radius (xc c.2, yc c.1))) = fun c => decide (c = (i, j)) := rfl
  rw [hf, List.filter_filter]
  by_cases ht : geo.touched radius ny nx xc yc (rows.map (·.1)) i j = true
  · have : ((cells ny nx).filter fun c => decide (c = (i, j)) && geo.touched radius ny nx xc yc (rows.map (·.1)) c.1 c.2) =
        [(i, j)] := by
      have e : ((cells ny nx).filter fun c => decide (c = (i, j)) && geo.touched radius ny nx xc yc (rows.map (·.1)) c.1 c.2) =
          (cells ny nx).filter fun c => c == (i, j) := by
        apply List.filter_congr
        intro c _
        by_cases hc : c = (i, j)
        · subst hc; simp [ht]
        · simp [hc]
      rw [e, List.filter_beq, List.count_eq_one_of_mem (cells_nodup ny nx) (mem_cells.2 ⟨hi, hj⟩)]
      rfl
    rw [this]
    simp
  · have : ((cells ny nx).filter fun c => decide (c = (i, j)) && geo.touched radius ny nx xc yc (rows.map (·.1)) c.1 c.2) = [] := by
      rw [List.filter_eq_nil_iff]
      rintro c - hc
      rw [Bool.and_eq_true, decide_eq_true_eq] at hc
      obtain ⟨rfl, hc⟩ := hc
      exact ht hc
    rw [this]
    symm
    apply lengthWithin_zero
    intro r hr
    exact hl.touched radius ny nx xc yc _ i j hi hj (by simpa using ht) r.1 (List.mem_map_of_mem hr)

theorem core_nodup (rows : List (Row G K)) (ny nx : Nat) (xc yc : Nat → K) (radius : K) :
    ((core geo rows ny nx xc yc radius).map (·.1)).Nodup := by
  unfold core
  rw [List.map_map]
  have : ((fun e : (Nat × Nat) × K => e.1) ∘ fun c : Nat × Nat => (c, lengthWithin geo rows radius (xc c.2, yc c.1))) = id := rfl
  rw [this, List.map_id]
  exact (cells_nodup ny nx).filter _

theorem scatter_core (hl : Spec.Laws geo) (rows : List (Row G K)) {ny nx : Nat} (xc yc : Nat → K) (radius : K) {i j : Nat}
    (hi : i < ny) (hj : j < nx) :
    scatter (core geo rows ny nx xc yc radius) i j = lengthWithin geo rows radius (xc j, yc i) := by
  unfold scatter
  by_cases ht : geo.touched radius ny nx xc yc (rows.map (·.1)) i j = true
  · refine scatter_mem _ i j _ 0 (core_nodup ..) ?_
    unfold core
    exact List.mem_map.2 ⟨(i, j), List.mem_filter.2 ⟨mem_cells.2 ⟨hi, hj⟩, ht⟩, rfl⟩
  · rw [scatter_not_mem]
    · symm
      apply lengthWithin_zero
      intro r hr
      exact hl.touched radius ny nx xc yc _ i j hi hj (by simpa using ht) r.1 (List.mem_map_of_mem hr)
    · intro e he h
      unfold core at he
      obtain ⟨c, hc, rfl⟩ := List.mem_map.1 he
      simp only at h
      subst h
      exact ht (List.mem_filter.1 hc).2

theorem lengthWithin_flatten (bs : List (List (Row G K))) (radius : K) (p : K × K) :
    (bs.map fun b => lengthWithin geo b radius p).sum = lengthWithin geo bs.flatten radius p := by
  unfold lengthWithin
  induction bs with
  | nil => rfl
  | cons b bs ih => rw [List.map_cons, List.sum_cons, ih, List.flatten_cons, List.map_append, List.sum_append]

theorem flatMap_filter_sum {α : Type} (bs : List α) (f : α → List ((Nat × Nat) × K)) (c : Nat × Nat) :
    (((bs.flatMap f).filter fun e => e.1 = c).map (·.2)).sum = (bs.map fun b => (((f b).filter fun e => e.1 = c).map (·.2)).sum).sum := by
  induction bs with
  | nil => rfl
  | cons b bs ih =>
    rw [List.flatMap_cons, List.filter_append, List.map_append, List.sum_append, ih, List.map_cons, List.sum_cons]

theorem exploded_length (hl : Spec.Laws geo) (rows : List (Row G K)) (radius : K) (p : K × K) :
    lengthWithin geo (exploded geo rows) radius p = lengthWithin geo rows radius p := by
  unfold lengthWithin exploded
  induction rows with
  | nil => rfl
  | cons r rows ih =>
    rw [List.flatMap_cons, List.map_append, List.sum_append, ih, List.map_cons, List.sum_cons, hl.explode radius p r.1,
      ← List.sum_map_mul_right, List.map_map]
    rfl

theorem batchSize_pos {n verts size : Nat} (h : batchSize n verts = some size) : 0 < size := by
  unfold batchSize at h
  split at h
  · cases h
    have : 0 < geomBatchSize := by decide
    omega
  · cases h

/-- **Batches do not matter.** -/
theorem indices_length (hl : Spec.Laws geo) (rows : List (Row G K)) {ny nx : Nat} (xc yc : Nat → K) (radius : K) {i j : Nat}
    (hi : i < ny) (hj : j < nx) :
    scatter (indicesAndLengths geo rows ny nx xc yc radius) i j = lengthWithin geo rows radius (xc j, yc i) := by
  unfold indicesAndLengths
  simp only
  split
  · next size hs =>
    rw [scatter_groupSum, flatMap_filter_sum]
    have : ((batches size (exploded geo rows)).map fun b =>
        (((core geo b ny nx xc yc radius).filter fun e => e.1 = (i, j)).map (·.2)).sum) =
        (batches size (exploded geo rows)).map fun b => lengthWithin geo b radius (xc j, yc i) := by
      apply List.map_congr_left
      intro b _
      exact core_sum hl b xc yc radius hi hj
    rw [this, lengthWithin_flatten, batches_flatten (batchSize_pos hs), exploded_length hl]
  · rw [scatter_core hl _ xc yc radius hi hj, exploded_length hl]

theorem minOf_le (f : Nat → K) (n : Nat) {k : Nat} (hk : k < n) : minOf f n ≤ f k := by
  unfold minOf
  have key : ∀ (l : List Nat) (acc : K), (l.foldl (fun m k => min m (f k)) acc ≤ acc) ∧
      ∀ k ∈ l, l.foldl (fun m k => min m (f k)) acc ≤ f k := by
    intro l
    induction l with
    | nil => exact fun acc => ⟨le_refl _, fun k hk => absurd hk List.not_mem_nil⟩
    | cons a l ih =>
      intro acc
      rw [List.foldl_cons]
      obtain ⟨h1, h2⟩ := ih (min acc (f a))
      refine ⟨h1.trans (min_le_left _ _), fun k hk => ?_⟩
      rcases List.mem_cons.1 hk with rfl | hk
      · exact h1.trans (min_le_right _ _)
      · exact h2 k hk
  exact (key _ _).2 k (List.mem_range.2 hk)

theorem le_maxOf (f : Nat → K) (n : Nat) {k : Nat} (hk : k < n) : f k ≤ maxOf f n := by
  unfold maxOf
  have key : ∀ (l : List Nat) (acc : K), (acc ≤ l.foldl (fun m k => max m (f k)) acc) ∧
      ∀ k ∈ l, f k ≤ l.foldl (fun m k => max m (f k)) acc := by
    intro l
    induction l with
    | nil => exact fun acc => ⟨le_refl _, fun k hk => absurd hk List.not_mem_nil⟩
    | cons a l ih =>
      intro acc
      rw [List.foldl_cons]
      obtain ⟨h1, h2⟩ := ih (max acc (f a))
      refine ⟨(le_max_left _ _).trans h1, fun k hk => ?_⟩
      rcases List.mem_cons.1 hk with rfl | hk
      · exact (le_max_right _ _).trans h1
      · exact h2 k hk
  exact (key _ _).2 k (List.mem_range.2 hk)

/-- **Clipping does not matter.** -/
theorem near_length (hl : Spec.Laws geo) (features : List (Feature G K)) (field : Option String) {ny nx : Nat} (xc yc : Nat → K)
    (radius : K) {i j : Nat} (hi : i < ny) (hj : j < nx) :
    lengthWithin geo (nearRows geo features field ny nx xc yc radius) radius (xc j, yc i) =
      Spec.total geo features field radius (xc j, yc i) := by
  unfold nearRows Spec.total lengthWithin
  simp only
  have hv : ∀ f ∈ features.filter fun f => !geo.isEmpty f.geometry && geo.isValid f.geometry,
      geo.isEmpty f.geometry = false ∧ geo.isValid f.geometry = true := by
    intro f hf
    have := (List.mem_filter.1 hf).2
    rw [Bool.and_eq_true, Bool.not_eq_true'] at this
    exact this
  revert hv
  generalize (features.filter fun f => !geo.isEmpty f.geometry && geo.isValid f.geometry) = l
  intro hv
  induction l with
  | nil => rfl
  | cons f l ih =>
    have hf := hv f List.mem_cons_self
    have hc := hl.clip (minOf xc nx - radius) (minOf yc ny - radius) (maxOf xc nx + radius) (maxOf yc ny + radius) radius
      (xc j, yc i) f.geometry hf.1 hf.2 (by linarith [minOf_le xc nx hj]) (by linarith [le_maxOf xc nx hj])
      (by linarith [minOf_le yc ny hi]) (by linarith [le_maxOf yc ny hi])
    have ih := ih fun f hf => hv f (List.mem_cons_of_mem _ hf)
    have hw : (field.map f.value).getD 1 = Spec.weight field f := by cases field <;> rfl
    rw [List.map_cons, List.sum_cons, hc, ← ih]
    cases hclip : geo.clip (minOf xc nx - radius, minOf yc ny - radius, maxOf xc nx + radius, maxOf yc ny + radius) f.geometry with
    | none => simp [hclip]
    | some g =>
      rw [List.filterMap_cons, hclip]
      simp only [Option.map_some, Option.getD_some, List.map_cons, List.sum_cons]
      rw [hw]

namespace Spec

/-- The centre of a cell. -/
def centre (A : Grid.Affine K) (i j : Nat) : K × K := (A.a * (j + 1 / 2) + A.c, A.e * (i + 1 / 2) + A.f)

end Spec

theorem partial_block (r : Grid.Raster K Num) (field : Option String) (radius : K) (part : List (Feature G K)) {i j : Nat}
    (hi : i < r.ny) (hj : j < r.nx) : ∃ (ny nx i' j' : Nat) (xc yc : Nat → K), i' < ny ∧ j' < nx ∧
      (xc j', yc i') = Spec.centre r.affine i j ∧
      partialAt geo r field radius part i j =
        lengthAt geo (nearRows geo part field ny nx xc yc radius) field ny nx xc yc radius i' j' := by
  obtain ⟨r0, h, e1, h1, h2⟩ := Focal.chunkOf_spec r.ychunks 0 i (by omega) (by unfold Grid.Raster.ny at hi; omega)
  obtain ⟨c0, w, e2, h3, h4⟩ := Focal.chunkOf_spec r.xchunks 0 j (by omega) (by unfold Grid.Raster.nx at hj; omega)
  refine ⟨h + 2 * depth radius r.affine.e, w + 2 * depth radius r.affine.a, i - r0 + depth radius r.affine.e,
    j - c0 + depth radius r.affine.a, blockX r c0 (depth radius r.affine.a), blockY r r0 (depth radius r.affine.e), by omega, by omega, ?_, ?_⟩
  · unfold blockX blockY Spec.centre
    have ex : (c0 : Int) - (depth radius r.affine.a : Nat) + ((j - c0 + depth radius r.affine.a : Nat) : Int) = j := by omega
    have ey : (r0 : Int) - (depth radius r.affine.e : Nat) + ((i - r0 + depth radius r.affine.e : Nat) : Int) = i := by omega
    rw [ex, ey]
    simp
  · unfold partialAt
    rw [e1, e2]

theorem partial_length (hl : Spec.Laws geo) (r : Grid.Raster K Num) {field : Option String}
    (hf : field = none ∨ field = some "weights") (radius : K) (part : List (Feature G K)) {i j : Nat} (hi : i < r.ny) (hj : j < r.nx) :
    partialAt geo r field radius part i j = some (Spec.total geo part field radius (Spec.centre r.affine i j)) := by
  obtain ⟨ny, nx, i', j', xc, yc, hi', hj', hc, e⟩ := partial_block (geo := geo) r field radius part hi hj
  rw [e, ← hc, ← near_length hl part field xc yc radius hi' hj']
  unfold lengthAt
  have hw : hasWeights field = true := by
    rcases hf with rfl | rfl <;> rfl
  cases hr : nearRows geo part field ny nx xc yc radius with
  | nil => rfl
  | cons a l =>
    rw [if_neg (by simp), if_pos hw, indices_length hl _ xc yc radius hi' hj']

theorem addUp_some {α : Type} (l : List α) (f : α → Option K) (g : α → K) (h : ∀ a ∈ l, f a = some (g a)) :
    addUp (l.map f) = some ((l.map g).sum) := by
  induction l with
  | nil => rfl
  | cons a l ih =>
    rw [List.map_cons, h a List.mem_cons_self, addUp, ih fun a ha => h a (List.mem_cons_of_mem _ ha)]
    rfl

theorem addUp_none {l : List (Option K)} (h : none ∈ l) : addUp l = none := by
  induction l with
  | nil => cases h
  | cons a l ih =>
    cases a with
    | none => rfl
    | some v =>
      rw [addUp, ih (by simpa using h)]
      rfl

theorem total_flatten (ps : List (List (Feature G K))) (field : Option String) (radius : K) (p : K × K) :
    (ps.map fun q => Spec.total geo q field radius p).sum = Spec.total geo ps.flatten field radius p := by
  unfold Spec.total
  induction ps with
  | nil => rfl
  | cons q ps ih => rw [List.map_cons, List.sum_cons, ih, List.flatten_cons, List.filter_append, List.map_append, List.sum_append]

namespace Spec

/-- The arguments are as documented. -/
structure Proper (geo : Geo G K) (features : List (Feature G K)) (columns : List (String × ColKind)) (hasCrs : Bool) (radius : K)
    (field : FieldArg) : Prop where
  radius : 0 < radius
  crs : hasCrs = true
  lines : ∀ f ∈ features, geo.isLine f.geometry = true
  numbers : ∀ s, field = .str s → ∃ k, columns.lookup s = some k ∧ k ≠ .other
  name : field ≠ .other

/-- The weighting field. -/
def fieldOf : FieldArg → Option String
  | .str s => some s
  | _ => none

end Spec

theorem length_ok {ps : List (List (Feature G K))} {columns : List (String × ColKind)} {r : Grid.Raster K Num} {hasCrs : Bool}
    {arg : RadiusArg K} {field : FieldArg} {f : Nat → Nat → Option K} (h : length geo ps columns r hasCrs arg field = .ok f) :
    ∃ radius, arg = .number radius ∧ f = fun i j => addUp (ps.map fun p => partialAt geo r (Spec.fieldOf field) radius p i j) := by
  unfold length at h
  split at h
  · cases h
  next radius =>
  split at h
  · cases h
  split at h
  · cases h
  split at h
  · cases h
  split at h
  · cases h
  next fld hfld =>
  split at h
  · cases h
  split at h
  · cases h
  refine ⟨radius, rfl, ?_⟩
  have : fld = Spec.fieldOf field := by
    cases field with
    | none => cases hfld; rfl
    | other => cases hfld
    | str s =>
      unfold checkField at hfld
      simp only at hfld
      cases hk : columns.lookup s with
      | none => rw [hk] at hfld; cases hfld
      | some k => rw [hk] at hfld; cases k <;> cases hfld <;> rfl
  rw [← this]
  exact (Except.ok.inj h).symm

/-- **C68 (length).** Every cell holds the weighted length of all the features within the radius of its centre, whatever the
chunks of the raster, the partitions of the features and the batches - without a weighting field, or with one called "weights". -/
theorem C68_length_partial (hl : Spec.Laws geo) {ps : List (List (Feature G K))} {columns : List (String × ColKind)}
    {r : Grid.Raster K Num} {hasCrs : Bool} {radius : K} {field : FieldArg} {f : Nat → Nat → Option K}
    (h : length geo ps columns r hasCrs (.number radius) field = .ok f) (hf : field = .none ∨ field = .str "weights") {i j : Nat}
    (hi : i < r.ny) (hj : j < r.nx) :
    f i j = some (Spec.total geo ps.flatten (Spec.fieldOf field) radius (Spec.centre r.affine i j)) := by
  obtain ⟨radius', e, rfl⟩ := length_ok h
  cases e
  simp only
  rw [← total_flatten]
  refine addUp_some ps _ _ fun p _ => partial_length hl r ?_ radius p hi hj
  rcases hf with rfl | rfl
  · exact .inl rfl
  · exact .inr rfl

/-- **C68 is false for other weighting fields**: where a feature is near, computing the cell raises an error. -/
theorem C68_other_fields {ps : List (List (Feature G K))} {columns : List (String × ColKind)} {r : Grid.Raster K Num} {hasCrs : Bool}
    {radius : K} {s : String} {f : Nat → Nat → Option K} (h : length geo ps columns r hasCrs (.number radius) (.str s) = .ok f)
    (hs : s ≠ "weights") (hl : Spec.Laws geo) {i j : Nat} (hi : i < r.ny) (hj : j < r.nx) {x : Feature G K} (hx : x ∈ ps.flatten)
    (hv : geo.isEmpty x.geometry = false ∧ geo.isValid x.geometry = true)
    (hnear : geo.inside radius (Spec.centre r.affine i j) x.geometry ≠ 0) : f i j = none := by
  obtain ⟨radius', e, rfl⟩ := length_ok h
  cases e
  obtain ⟨p, hp, hxp⟩ := List.mem_flatten.1 hx
  apply addUp_none
  refine List.mem_map.2 ⟨p, hp, ?_⟩
  obtain ⟨ny, nx, i', j', xc, yc, hi', hj', hc, e⟩ := partial_block (geo := geo) r (Spec.fieldOf (.str s)) radius p hi hj
  rw [e]
  unfold lengthAt
  have hw : hasWeights (Spec.fieldOf (.str s)) = false := by
    simp [hasWeights, Spec.fieldOf, hs]
  rw [if_neg, if_neg (by simp [hw])]
  intro hemp
  rw [List.isEmpty_iff] at hemp
  have hcl := hl.clip (minOf xc nx - radius) (minOf yc ny - radius) (maxOf xc nx + radius) (maxOf yc ny + radius) radius
      (xc j', yc i') x.geometry hv.1 hv.2 (by linarith [minOf_le xc nx hj']) (by linarith [le_maxOf xc nx hj'])
      (by linarith [minOf_le yc ny hi']) (by linarith [le_maxOf yc ny hi'])
  unfold nearRows at hemp
  simp only [List.filterMap_eq_nil_iff] at hemp
  have := hemp x (List.mem_filter.2 ⟨hxp, by simp [hv.1, hv.2]⟩)
  rw [Option.map_eq_none_iff] at this
  rw [this, hc] at hcl
  exact hnear hcl

/-- **C68 (accepted).** Line features, a positive radius no larger than the raster in either direction, a raster with a CRS and, if
given, a field of numbers or booleans are needed and enough. -/
theorem C68_accepted (ps : List (List (Feature G K))) (hps : ps ≠ []) (columns : List (String × ColKind)) (r : Grid.Raster K Num)
    (ha : r.affine.a ≠ 0) (he : r.affine.e ≠ 0) (hasCrs : Bool) (arg : RadiusArg K) (field : FieldArg) :
    (∃ f, length geo ps columns r hasCrs arg field = .ok f) ↔ ∃ radius, arg = .number radius ∧
      Spec.Proper geo ps.flatten columns hasCrs radius field ∧ radius ≤ r.ny * |r.affine.e| ∧ radius ≤ r.nx * |r.affine.a| := by
  have hdepth : ∀ (radius res : K) (n : Nat), res ≠ 0 → (¬ n < depth radius res ↔ radius ≤ n * |res|) := by
    intro radius res n hres
    unfold depth
    rw [Nat.not_lt, Int.toNat_le, Int.ceil_le, div_le_iff₀ (abs_pos.2 hres)]
    simp
  have hfield : (∃ f, checkField columns field = .ok f) ↔
      (∀ s, field = .str s → ∃ k, columns.lookup s = some k ∧ k ≠ .other) ∧ field ≠ .other := by
    cases field with
    | none => simp [checkField]
    | other => simp [checkField]
    | str s =>
      simp only [checkField, FieldArg.str.injEq, forall_eq']
      cases columns.lookup s with
      | none => simp
      | some k => cases k <;> simp
  have hlines : (ps.any (fun p => p.any fun f => !geo.isLine f.geometry)) = true ↔ ¬ ∀ f ∈ ps.flatten, geo.isLine f.geometry = true := by
    simp only [List.any_eq_true, List.mem_flatten, Bool.not_eq_true']
    constructor
    · rintro ⟨p, hp, f, hf, h⟩ hall
      have := hall f ⟨p, hp, hf⟩
      rw [h] at this
      cases this
    · intro hn
      by_contra hc
      apply hn
      rintro f ⟨p, hp, hf⟩
      by_contra h
      exact hc ⟨p, hp, f, hf, by simpa using h⟩
  cases arg with
  | other => simp [length]
  | number radius =>
    simp only [RadiusArg.number.injEq, exists_eq_left']
    unfold length
    simp only
    rw [← hdepth radius r.affine.e r.ny he, ← hdepth radius r.affine.a r.nx ha]
    constructor
    · rintro ⟨f, h⟩
      split at h
      · cases h
      next h1 =>
      split at h
      · cases h
      next h2 =>
      split at h
      · cases h
      next h3 =>
      split at h
      · cases h
      next fld h4 =>
      split at h
      · cases h
      next h5 =>
      rw [hlines, not_not] at h3
      obtain ⟨f1, f2⟩ := hfield.1 ⟨_, h4⟩
      exact ⟨⟨lt_of_not_ge h1, by simpa using h2, h3, f1, f2⟩, fun hh => h5 (.inl hh), fun hh => h5 (.inr hh)⟩
    · rintro ⟨⟨h1, h2, h3, f1, f2⟩, h4, h5⟩
      obtain ⟨fld, hfld⟩ := hfield.2 ⟨f1, f2⟩
      rw [if_neg (not_le.2 h1), if_neg (by simp [h2]), if_neg (by rw [hlines, not_not]; exact h3), hfld]
      simp only
      rw [if_neg (not_or.2 ⟨h4, h5⟩), if_neg (by simpa using hps)]
      exact ⟨_, rfl⟩

/-- **C68 (errors).** A TypeError for a radius that is no number, geometries that are no lines, a field that is no text and a column
of other than numbers and booleans; a ValueError for a radius that is not positive or too large, a raster without a CRS, a field
that there is not, and a vector without partitions. -/
theorem C68_errors {ps : List (List (Feature G K))} {columns : List (String × ColKind)} {r : Grid.Raster K Num}
    (ha : r.affine.a ≠ 0) (he : r.affine.e ≠ 0) {hasCrs : Bool} {arg : RadiusArg K} {field : FieldArg} {e : Err}
    (h : length geo ps columns r hasCrs arg field = .error e) :
    (e = .type ∧ (arg = .other ∨ (∃ f ∈ ps.flatten, geo.isLine f.geometry = false) ∨ field = .other ∨
      ∃ s, field = .str s ∧ columns.lookup s = some .other)) ∨
    (e = .value ∧ ((∃ radius, arg = .number radius ∧ (radius ≤ 0 ∨ r.ny * |r.affine.e| < radius ∨ r.nx * |r.affine.a| < radius)) ∨
      hasCrs = false ∨ (∃ s, field = .str s ∧ columns.lookup s = none) ∨ ps = [])) := by
  have hdepth : ∀ (radius res : K) (n : Nat), res ≠ 0 → n < depth radius res → n * |res| < radius := by
    intro radius res n hres hd
    by_contra hc
    have : depth radius res ≤ n := by
      unfold depth
      rw [Int.toNat_le, Int.ceil_le, div_le_iff₀ (abs_pos.2 hres)]
      simpa using not_lt.1 hc
    omega
  cases arg with
  | other => exact .inl ⟨(Except.error.inj h).symm, .inl rfl⟩
  | number radius =>
    unfold length at h
    simp only at h
    split at h
    next h1 => exact .inr ⟨(Except.error.inj h).symm, .inl ⟨radius, rfl, .inl h1⟩⟩
    split at h
    next h2 => exact .inr ⟨(Except.error.inj h).symm, .inr (.inl (by simpa using h2))⟩
    split at h
    next h3 =>
      obtain ⟨p, hp, h3⟩ := List.any_eq_true.1 h3
      obtain ⟨f, hf, h3⟩ := List.any_eq_true.1 h3
      exact .inl ⟨(Except.error.inj h).symm, .inr (.inl ⟨f, List.mem_flatten.2 ⟨p, hp, hf⟩, by simpa using h3⟩)⟩
    split at h
    next e' h4 =>
      have e0 := Except.error.inj h
      subst e0
      cases field with
      | none => cases h4
      | other => exact .inl ⟨(Except.error.inj h4).symm, .inr (.inr (.inl rfl))⟩
      | str s =>
        unfold checkField at h4
        simp only at h4
        cases hl : columns.lookup s with
        | none =>
          rw [hl] at h4
          exact .inr ⟨(Except.error.inj h4).symm, .inr (.inr (.inl ⟨s, rfl, hl⟩))⟩
        | some k =>
          rw [hl] at h4
          cases k with
          | other => exact .inl ⟨(Except.error.inj h4).symm, .inr (.inr (.inr ⟨s, rfl, hl⟩))⟩
          | number => cases h4
          | bool => cases h4
    split at h
    next h5 =>
      refine .inr ⟨(Except.error.inj h).symm, .inl ⟨radius, rfl, ?_⟩⟩
      rcases h5 with h5 | h5
      · exact .inr (.inl (hdepth _ _ _ he h5))
      · exact .inr (.inr (hdepth _ _ _ ha h5))
    split at h
    next h6 => exact .inr ⟨(Except.error.inj h).symm, .inr (.inr (.inr (by simpa using h6)))⟩
    cases h

/-- Cases for `C68_errors`: a text as radius, and a column of texts. -/
example (geo : Geo Nat Rat) (r : Grid.Raster Rat Num) : length geo [] [] r true .other .none = .error .type := rfl
example (geo : Geo Nat Rat) (r : Grid.Raster Rat Num) : length geo [[]] [("name", .other)] r true (.number 1) (.str "name") = .error .type := by
  unfold length
  simp only
  rw [if_neg (by norm_num)]
  rfl

/-- **C68 (batches).** Up to 700 geometries with up to 15 vertices each (or a single one) are not batched. No more than 700 geometries are worked on at a time; if there are more than 15 vertices to a geometry, say
about `k` times as many, then at least `k` batches are made, or batches of one. -/
theorem C68_batches {n verts : Nat} :
    (batchSize n verts = none ↔ n ≤ 700 ∧ (n ≤ 1 ∨ verts ≤ 15 * n)) ∧
    ∀ size, batchSize n verts = some size → 1 ≤ size ∧ size ≤ 700 ∧
      ∀ k, k * (15 * n) ≤ verts → 0 < n → size = 1 ∨ k * size ≤ n := by
  have e1 : geomBatchSize = 700 := rfl
  have e2 : vertsPerGeomCutoff = 15 := rfl
  unfold batchSize
  rw [e1, e2]
  constructor
  · split
    · simp only [reduceCtorEq, false_iff]
      omega
    · simp only [true_iff]
      omega
  · intro size h
    split at h
    · cases h
      refine ⟨by omega, by omega, fun k hk hn => ?_⟩
      have hk' : k ≤ max 1 (verts / (15 * n)) := le_max_of_le_right ((Nat.le_div_iff_mul_le (by omega)).2 hk)
      have hd := Nat.div_mul_le_self n (max 1 (verts / (15 * n)))
      by_cases h1 : n / max 1 (verts / (15 * n)) ≤ 1
      · left; omega
      · right
        calc k * min 700 (max 1 (n / max 1 (verts / (15 * n))))
            ≤ max 1 (verts / (15 * n)) * (n / max 1 (verts / (15 * n))) := Nat.mul_le_mul hk' (by omega)
          _ ≤ n := by rw [Nat.mul_comm]; exact hd
    · cases h

example : batchSize 1000 45000 = some 333 ∧ batchSize 700 100 = none := by decide

/-! ### Examples -/

/-- Dust: pieces of lines so short that each is at a point; squares in place of circles. -/
def dust : Geo (List (ℚ × ℚ × ℚ)) ℚ where
  isLine := fun _ => true
  isEmpty := fun g => g.isEmpty
  isValid := fun _ => true
  clip := fun b g =>
    let l := g.filter fun p => b.1 ≤ p.1 ∧ p.1 ≤ b.2.2.1 ∧ b.2.1 ≤ p.2.1 ∧ p.2.1 ≤ b.2.2.2
    if l.isEmpty then none else some l
  explode := fun g => g.map fun p => [p]
  vertices := fun g => 20 * g.length
  touched := fun _ _ _ _ _ _ _ _ => true
  inside := fun r c g => (g.map fun p => if |p.1 - c.1| ≤ r ∧ |p.2.1 - c.2| ≤ r then p.2.2 else 0).sum

theorem dust_laws : Spec.Laws dust := by
  refine ⟨?_, ?_, ?_⟩
  · intro x0 y0 x1 y1 radius p g e1 e2 h1 h2 h3 h4
    clear e1 e2
    have key : ((g.filter fun p => x0 ≤ p.1 ∧ p.1 ≤ x1 ∧ y0 ≤ p.2.1 ∧ p.2.1 ≤ y1).map fun q =>
        if |q.1 - p.1| ≤ radius ∧ |q.2.1 - p.2| ≤ radius then q.2.2 else 0).sum =
        (g.map fun q => if |q.1 - p.1| ≤ radius ∧ |q.2.1 - p.2| ≤ radius then q.2.2 else 0).sum := by
      induction g with
      | nil => rfl
      | cons q g ih =>
        rw [List.filter_cons]
        split
        · rw [List.map_cons, List.sum_cons, ih, List.map_cons, List.sum_cons]
        · next hn =>
          rw [ih, List.map_cons, List.sum_cons, if_neg, zero_add]
          rintro ⟨ha, hb⟩
          rw [abs_le] at ha hb
          apply hn
          simp only [decide_eq_true_eq]
          exact ⟨by linarith, by linarith, by linarith, by linarith⟩
    unfold dust
    simp only
    rw [← key]
    split
    · next he =>
      rw [List.isEmpty_iff] at he
      rw [he]; rfl
    · rfl
  · intro radius p g
    unfold dust
    simp [List.map_map, Function.comp_def]
  · intro radius ny nx xc yc gs i j _ _ h
    cases h

/-- Two by four cells in chunks of one and two columns. -/
def small : Grid.Raster ℚ Num :=
  ⟨[1], [1, 1], [1, 2, 1], ⟨1, 0, 0, 0, -1, 2⟩, false, fun _ _ _ => .fin 0, fun _ _ _ => false⟩

def twoLines : List (List (Feature (List (ℚ × ℚ × ℚ)) ℚ)) :=
  [[⟨[(1/2, 1/2, 5), (5/2, 3/2, 7)], fun _ => 2⟩], [⟨[(3, 1, 1)], fun s => if s = "weights" then 3 else 4⟩]]

/-- A cell of a result. -/
def cellOf (e : Except Err (Nat → Nat → Option ℚ)) (i j : Nat) : Option (Option ℚ) :=
  match e with
  | .ok f => some (f i j)
  | .error _ => none

example : [(1, 0), (0, 2), (0, 3)].map (fun c =>
    cellOf (length dust twoLines [("weights", .number)] small true (.number 1) (.str "weights")) c.1 c.2) =
    [some (some 10), some (some 17), some (some 17)] := by decide +kernel

example : [(1, 0), (0, 2)].map (fun c =>
    cellOf (length dust twoLines [("w", .number)] small true (.number 1) (.str "w")) c.1 c.2) = [some none, some none] := by
  decide +kernel

end Verif.Lines
