import Verif.Morph.Model
import Verif.Focal.Props

/-!
# Properties of `dilate` and `erode`: C58 and C59
-/

set_option linter.unusedSectionVars false

namespace Verif.Morph

open Verif Verif.Nulls DType Verif.Focal Verif.Focal.Spec Verif.Stats.Spec

namespace Spec

/-- Row `i` lies in the window of `n` rows placed on row `r`.  For an even `n` the window of the dilation reaches one row
further down than up, that of the erosion one row further up than down. -/
def Near (op : Op) (n r i : Nat) : Prop :=
  match op with
  | .dilation => r ≤ i + (n - 1) / 2 ∧ i ≤ r + n / 2
  | .erosion => r ≤ i + n / 2 ∧ i ≤ r + (n - 1) / 2

/-- The cells of the raster in the window of `n` rows and `m` columns placed on the cell `c`. -/
def InWindow (op : Op) (n m : Nat) (r : Raster) (c p : Cell) : Prop :=
  p.1 = c.1 ∧ Near op n c.2.1 p.2.1 ∧ p.2.1 < r.ny ∧ Near op m c.2.2 p.2.2 ∧ p.2.2 < r.nx

/-- The window of the erosion with `n` rows on row `r` lies within `ny` rows. -/
def Fits (n ny r : Nat) : Prop := n / 2 ≤ r ∧ r + (n - 1) / 2 < ny

/-- `a` is at least as extreme as `b`. -/
def Beats (op : Op) (a b : Num) : Prop :=
  match op with
  | .dilation => Le b a
  | .erosion => Le a b

/-- The value lies between the limits of its dtype (`big` and `small` for floating point types); this excludes NaN and the
infinities. -/
def Bounded (big small : Num) (dt : DType) (v : Num) : Prop :=
  match dt.limits with
  | some (lo, hi) => Le (.fin lo) v ∧ Le v (.fin hi)
  | none => Le small v ∧ Le v big

/-- `v` is the greatest (dilation) or least (erosion) of the values of the cells `p` with `P p`. -/
def IsExtreme (op : Op) (P : Cell → Prop) (value : Cell → Num) (v : Num) : Prop :=
  (∃ p, P p ∧ value p = v) ∧ ∀ p, P p → Beats op v (value p)

end Spec

open Spec

/-! ### The window -/

/-- The offsets from the cell that the rectangle covers. -/
def NearInt (op : Op) (n : Nat) (r i : Int) : Prop :=
  r - (n / 2 + origin op n) ≤ i ∧ i < r + n - (n / 2 + origin op n)

theorem nearInt_nat {op : Op} {n : Nat} (hn : 0 < n) (r i : Nat) : NearInt op n r i ↔ Near op n r i := by
  unfold NearInt Near origin
  cases op <;> simp only [true_and, reduceCtorEq, false_and, if_false]
  · split <;> omega
  · omega

theorem mem_rectangle {V : Type} {op : Op} {n m : Nat} {ext : Int → Int → V} {r c : Int} {v : V} :
    v ∈ rectangle op n m ext r c ↔ ∃ i j : Int, NearInt op n r i ∧ NearInt op m c j ∧ ext i j = v := by
  unfold rectangle NearInt
  simp only [List.mem_flatMap, List.mem_map, List.mem_range]
  constructor
  · rintro ⟨a, ha, b, hb, rfl⟩
    exact ⟨_, _, by omega, by omega, rfl⟩
  · rintro ⟨i, j, h1, h2, rfl⟩
    refine ⟨(i - (r - (n / 2 + origin op n))).toNat, by omega, (j - (c - (m / 2 + origin op m))).toNat, by omega, ?_⟩
    congr 1 <;> omega

theorem rectangle_congr {V : Type} {op : Op} {n m : Nat} {ext ext' : Int → Int → V} {r r' c c' : Int}
    (h : ∀ a b : Nat, a < n → b < m → ext (r + a - (n / 2 + origin op n)) (c + b - (m / 2 + origin op m)) =
      ext' (r' + a - (n / 2 + origin op n)) (c' + b - (m / 2 + origin op m))) :
    rectangle op n m ext r c = rectangle op n m ext' r' c' := by
  unfold rectangle
  refine flatMap_congr' fun a ha => List.map_congr_left fun b hb => ?_
  exact h a b (List.mem_range.mp ha) (List.mem_range.mp hb)

theorem origin_bounds (op : Op) (n : Nat) : origin op n = 0 ∨ (origin op n = -1 ∧ n % 2 = 0) := by
  unfold origin
  split
  · right; exact ⟨rfl, by simp_all⟩
  · left; rfl

/-- On a block with its margin the rectangle holds the same values as on the whole band. -/
theorem rectangle_block {V : Type} {op : Op} {n m : Nat} {ext : Int → Int → V} {cval : V} {r c r0 c0 h w : Nat}
    (h1 : r0 ≤ r) (h2 : r < r0 + h) (h3 : c0 ≤ c) (h4 : c < c0 + w) :
    rectangle op n m (constantEdge (h + 2 * (n / 2)) (w + 2 * (m / 2))
      (fun i j => ext (r0 + i - (n / 2 : Nat)) (c0 + j - (m / 2 : Nat))) cval) ((r : Int) - r0 + (n / 2 : Nat))
      ((c : Int) - c0 + (m / 2 : Nat)) = rectangle op n m ext r c := by
  refine rectangle_congr fun a b ha hb => ?_
  unfold constantEdge
  have hn := origin_bounds op n
  have hm := origin_bounds op m
  rw [if_pos (by push_cast; omega)]
  simp only
  congr 1 <;> push_cast <;> omega

theorem grey_overlap {op : Op} {n m : Nat} {fill : Num} {ext : Int → Int → Num} {ychunks xchunks : List Nat} {r c : Nat}
    (hr : r < ychunks.sum) (hc : c < xchunks.sum) :
    mapOverlap (greyChunk op n m fill) ext (n / 2) (m / 2) ychunks xchunks r c =
      some (extreme op (rectangle op n m ext r c)) := by
  obtain ⟨r0, h, c0, w, h1, h2, h3, h4, e⟩ := mapOverlap_spec (greyChunk op n m fill) ext (n / 2) (m / 2) hr hc
  rw [e]
  unfold greyChunk
  rw [rectangle_block h1 h2 h3 h4]

theorem binary_overlap {op : Op} {n m : Nat} {ext : Int → Int → Bool} {ychunks xchunks : List Nat} {r c : Nat}
    (hr : r < ychunks.sum) (hc : c < xchunks.sum) :
    mapOverlap (binaryChunk op n m) ext (n / 2) (m / 2) ychunks xchunks r c =
      some (if op = .dilation then (rectangle op n m ext r c).any id else (rectangle op n m ext r c).all id) := by
  obtain ⟨r0, h, c0, w, h1, h2, h3, h4, e⟩ := mapOverlap_spec (binaryChunk op n m) ext (n / 2) (m / 2) hr hc
  rw [e]
  unfold binaryChunk
  simp only [rectangle_block h1 h2 h3 h4]

/-! ### Extremes -/

theorem beats_trans {op : Op} {a b c : Num} (h1 : Beats op a b) (h2 : Beats op b c) : Beats op a c := by
  cases op
  · exact Stats.le_trans' h2 h1
  · exact Stats.le_trans' h1 h2

theorem beats_total {op : Op} {a b : Num} (ha : a ≠ .nan) (hb : b ≠ .nan) : Beats op a b ∨ Beats op b a := by
  cases op
  · exact (Stats.le_total' ha hb).symm
  · exact Stats.le_total' ha hb

theorem beats_antisymm {op : Op} {a b : Num} (h1 : Beats op a b) (h2 : Beats op b a) : a = b := by
  cases op
  · exact Stats.le_antisymm' h2 h1
  · exact Stats.le_antisymm' h1 h2

theorem better_iff {op : Op} {a b : Num} (ha : a ≠ .nan) (hb : b ≠ .nan) :
    better op a b = true ↔ Beats op a b ∧ a ≠ b := by
  cases op
  · simp only [better, if_true, Beats]
    rw [Stats.lt_iff hb ha]
    exact and_congr_right fun _ => ne_comm
  · simp only [better, reduceCtorEq, if_false, Beats]
    exact Stats.lt_iff ha hb

theorem extreme_best {op : Op} {l : List Num} (hne : l ≠ []) (hl : ∀ v ∈ l, v ≠ .nan) : IsBest (Beats op) l (extreme op l) := by
  cases l with
  | nil => exact absurd rfl hne
  | cons v vs =>
    exact foldl_best (fun a b => better_iff) (fun a b => beats_total) (fun a b c => beats_trans) vs v (hl v (by simp))
      fun w hw => hl w (List.mem_cons_of_mem _ hw)

theorem rectangle_ne_nil {V : Type} {op : Op} {n m : Nat} (hn : 0 < n) (hm : 0 < m) (ext : Int → Int → V) (r c : Int) :
    rectangle op n m ext r c ≠ [] := by
  have : ext (r + (0 : Nat) - (n / 2 + origin op n)) (c + (0 : Nat) - (m / 2 + origin op m)) ∈ rectangle op n m ext r c := by
    unfold rectangle
    simp only [List.mem_flatMap, List.mem_map, List.mem_range]
    exact ⟨0, hn, 0, hm, rfl⟩
  exact List.ne_nil_of_mem this

theorem near_self {op : Op} {n r : Nat} : Near op n r r := by
  cases op <;> simp only [Near] <;> omega

/-- The values of the rectangle are those of the cells of the band in the window, and the fill value elsewhere. -/
theorem mem_window {V : Type} {op : Op} {n m : Nat} (hn : 0 < n) (hm : 0 < m) {ny nx : Nat} {x : Nat → Nat → V} {cval : V}
    {r c : Nat} {v : V} (hv : v ∈ rectangle op n m (bandEdge ny nx x cval) r c) :
    v = cval ∨ ∃ i j : Nat, Near op n r i ∧ i < ny ∧ Near op m c j ∧ j < nx ∧ x i j = v := by
  obtain ⟨i, j, h1, h2, rfl⟩ := mem_rectangle.mp hv
  unfold bandEdge
  split
  · rename_i h
    refine Or.inr ⟨i.toNat, j.toNat, ?_, by omega, ?_, by omega, rfl⟩
    · rw [← nearInt_nat hn, Int.toNat_of_nonneg h.1]; exact h1
    · rw [← nearInt_nat hm, Int.toNat_of_nonneg h.2.2.1]; exact h2
  · exact Or.inl rfl

theorem window_mem {V : Type} {op : Op} {n m : Nat} (hn : 0 < n) (hm : 0 < m) {ny nx : Nat} {x : Nat → Nat → V} {cval : V}
    {r c i j : Nat} (h1 : Near op n r i) (h2 : i < ny) (h3 : Near op m c j) (h4 : j < nx) :
    x i j ∈ rectangle op n m (bandEdge ny nx x cval) r c := by
  refine mem_rectangle.mpr ⟨i, j, (nearInt_nat hn r i).mpr h1, (nearInt_nat hm c j).mpr h3, ?_⟩
  unfold bandEdge
  rw [if_pos (by omega)]
  rfl

/-- The fill value lies beyond all bounded values. -/
theorem fill_beaten {op : Op} {big small : Num} {dt : DType} {fill v : Num} (hf : getFill big small dt op = .ok fill)
    (hv : Bounded big small dt v) : Beats op v fill := by
  unfold getFill at hf
  unfold Bounded at hv
  split at hf
  · cases hf
  · cases hl : dt.limits with
    | none =>
      rw [hl] at hf hv
      simp only [Except.ok.injEq] at hf
      subst hf
      cases op
      · exact hv.1
      · exact hv.2
    | some p =>
      rw [hl] at hf hv
      simp only [Except.ok.injEq] at hf
      subst hf
      cases op
      · exact hv.1
      · exact hv.2

theorem bounded_not_nan {big small : Num} {dt : DType} {v : Num} (hv : Bounded big small dt v) : v ≠ .nan := by
  unfold Bounded at hv
  split at hv
  · exact (Stats.le_not_nan hv.1).2
  · exact (Stats.le_not_nan hv.1).2

/-- The extreme of a window in which at least one cell is not replaced by the fill value. -/
theorem extreme_window {op : Op} {n m : Nat} (hn : 0 < n) (hm : 0 < m) {big small : Num} {dt : DType} {fill : Num}
    (hf : getFill big small dt op = .ok fill) {r : Raster} {null : Cell → Bool} {c : Cell}
    (hb : ∀ p, InWindow op n m r c p → null p = false → Bounded big small dt (r.data p))
    (hex : ∃ p, InWindow op n m r c p ∧ null p = false) :
    IsExtreme op (fun p => InWindow op n m r c p ∧ null p = false) r.data
      (extreme op (rectangle op n m (bandEdge r.ny r.nx
        (fun i j => if null (c.1, i, j) then fill else r.data (c.1, i, j)) fill) c.2.1 c.2.2)) := by
  set x := fun i j => if null (c.1, i, j) then fill else r.data (c.1, i, j) with hx
  obtain ⟨p0, hp0, hn0⟩ := hex
  have hfn : fill ≠ .nan := by
    have := fill_beaten hf (hb p0 hp0 hn0)
    cases op
    · exact (Stats.le_not_nan this).1
    · exact (Stats.le_not_nan this).2
  have hval : ∀ v ∈ rectangle op n m (bandEdge r.ny r.nx x fill) c.2.1 c.2.2,
      v = fill ∨ ∃ p, (InWindow op n m r c p ∧ null p = false) ∧ r.data p = v := by
    intro v hv
    rcases mem_window hn hm hv with h | ⟨i, j, h1, h2, h3, h4, rfl⟩
    · exact Or.inl h
    · simp only [hx]
      cases hnull : null (c.1, i, j)
      · exact Or.inr ⟨(c.1, i, j), ⟨⟨rfl, h1, h2, h3, h4⟩, hnull⟩, by simp⟩
      · exact Or.inl (by simp)
  have hmem : ∀ p, InWindow op n m r c p → null p = false →
      r.data p ∈ rectangle op n m (bandEdge r.ny r.nx x fill) c.2.1 c.2.2 := by
    rintro ⟨b, i, j⟩ ⟨h0, h1, h2, h3, h4⟩ hnull
    simp only at h0
    subst h0
    have := window_mem (V := Num) (x := x) (cval := fill) hn hm h1 h2 h3 h4
    simp only [hx, hnull, Bool.false_eq_true, if_false] at this ⊢
    exact this
  have hbest := extreme_best (op := op) (rectangle_ne_nil hn hm (bandEdge r.ny r.nx x fill) c.2.1 c.2.2) (by
    intro v hv
    rcases hval v hv with rfl | ⟨p, ⟨hp, hnp⟩, rfl⟩
    · exact hfn
    · exact bounded_not_nan (hb p hp hnp))
  refine ⟨?_, fun p hp => hbest.2 _ (hmem p hp.1 hp.2)⟩
  rcases hval _ hbest.1 with h | h
  · refine ⟨p0, ⟨hp0, hn0⟩, ?_⟩
    refine beats_antisymm (op := op) ?_ (hbest.2 _ (hmem p0 hp0 hn0))
    rw [h]
    exact fill_beaten hf (hb p0 hp0 hn0)
  · exact h

/-! ### C58 -/

theorem checkSizes_ok {n m : Int} {a b : Nat} (h : checkSizes n m = .ok (a, b)) : (a : Int) = n ∧ (b : Int) = m ∧ 0 < a ∧ 0 < b := by
  unfold checkSizes at h
  split at h
  · cases h
  · rename_i h1
    split at h
    · cases h
    · have := not_not.mp h1
      simp only [Except.ok.injEq, Prod.mk.injEq] at h
      omega

/-- The sizes that are accepted. -/
theorem C58_sizes (s : SizeArg) (n m : Nat) : getFootprint s = .ok (n, m) ↔
    (s = .int n ∧ m = n ∨ s = .seq [some (n : Int), some (m : Int)]) ∧ 1 ≤ n ∧ 1 ≤ m ∧ 1 < n * m := by
  have hc : ∀ a b : Int, checkSizes a b = .ok (n, m) ↔ a = n ∧ b = m ∧ 1 ≤ n ∧ 1 ≤ m ∧ 1 < n * m := by
    intro a b
    unfold checkSizes
    constructor
    · intro h
      split at h
      · cases h
      · rename_i h1
        split at h
        · cases h
        · rename_i h2
          have h1 := not_not.mp h1
          simp only [Except.ok.injEq, Prod.mk.injEq] at h
          refine ⟨by omega, by omega, by omega, by omega, ?_⟩
          rcases Nat.lt_or_ge 1 n with h3 | h3
          · exact lt_of_lt_of_le h3 (Nat.le_mul_of_pos_right _ (by omega))
          · have : n = 1 := by omega
            rw [this, Nat.one_mul]
            omega
    · rintro ⟨rfl, rfl, h1, h2, h3⟩
      rw [if_neg (by omega), if_neg ?_]
      · simp
      · rintro ⟨h4, h5⟩
        have h4 : n = 1 := by omega
        have h5 : m = 1 := by omega
        rw [h4, h5] at h3
        omega
  unfold getFootprint
  split
  · rename_i a b
    rw [hc]
    constructor
    · rintro ⟨rfl, rfl, h⟩
      exact ⟨Or.inr rfl, h⟩
    · rintro ⟨h | h, h'⟩
      · cases h.1
      · simp only [SizeArg.seq.injEq, List.cons.injEq, Option.some.injEq, and_true] at h
        exact ⟨h.1, h.2, h'⟩
  · rename_i a b h
    constructor
    · intro h; cases h
    · rintro ⟨h1 | h1, -⟩
      · cases h1.1
      · simp only [SizeArg.seq.injEq, List.cons.injEq, and_true] at h1
        exact absurd h1.2 (h _ _ h1.1)
  · rename_i l h1 h2
    constructor
    · intro h; cases h
    · rintro ⟨h | h, -⟩
      · cases h.1
      · simp only [SizeArg.seq.injEq] at h
        exact absurd h (h2 _ _)
  · rename_i a
    rw [hc]
    constructor
    · rintro ⟨rfl, h0, h⟩
      exact ⟨Or.inl ⟨rfl, by omega⟩, h⟩
    · rintro ⟨h | h, h'⟩
      · have h1 := h.1
        simp only [SizeArg.int.injEq] at h1
        exact ⟨h1, by omega, h'⟩
      · cases h
  · constructor
    · intro h; cases h
    · rintro ⟨h | h, -⟩
      · cases h.1
      · cases h

/-- The parts of a result. -/
theorem morph_ok {op : Op} {big small : Num} {r o : Raster} {size : SizeArg} {ychunks xchunks : List Nat} {n m : Nat}
    (hs : getFootprint size = .ok (n, m)) (h : morph op big small r size ychunks xchunks = .ok o) :
    ∃ fill, getFill big small r.dtype op = .ok fill ∧
      ((∃ s, r.nv = some s ∧ o = ofData r.dtype r.nb r.ny r.nx
        (fun c => if morphMask op n m r ychunks xchunks c then s.val else morphData op n m fill r ychunks xchunks c)
        (some (morphMask op n m r ychunks xchunks)) r.nv false) ∨
      (r.nv = none ∧ o = ofData r.dtype r.nb r.ny r.nx (morphData op n m fill r ychunks xchunks) (some r.mask) none false)) := by
  unfold morph at h
  rw [hs] at h
  simp only [filter] at h
  split at h
  · cases h
  · rename_i fill hf
    refine ⟨fill, hf, ?_⟩
    split at h
    · cases h
    · split at h
      · rename_i s hnv
        exact Or.inl ⟨s, hnv, (Except.ok.inj h).symm⟩
      · rename_i hnv
        exact Or.inr ⟨hnv, (Except.ok.inj h).symm⟩

/-- **C58**, dilation of rasters with a null value: a cell is null exactly if the window holds no valid cell, and then holds
the null value; otherwise it holds the greatest valid value in the window. -/
theorem C58_dilate {big small : Num} {r o : Raster} {size : SizeArg} {ychunks xchunks : List Nat} {n m : Nat} {s : Scalar}
    (hs : getFootprint size = .ok (n, m)) (hnv : r.nv = some s) (hy : ychunks.sum = r.ny) (hx : xchunks.sum = r.nx)
    (hb : ∀ p, r.Has p → r.mask p = false → Bounded big small r.dtype (r.data p))
    (h : morph .dilation big small r size ychunks xchunks = .ok o) :
    o.dtype = r.dtype ∧ o.nb = r.nb ∧ o.ny = r.ny ∧ o.nx = r.nx ∧ o.nv = r.nv ∧ ∀ c, r.Has c →
      (o.mask c = true ↔ ∀ p, InWindow .dilation n m r c p → r.mask p = true) ∧ (o.mask c = true → o.data c = s.val) ∧
      (o.mask c = false →
        IsExtreme .dilation (fun p => InWindow .dilation n m r c p ∧ r.mask p = false) r.data (o.data c)) := by
  obtain ⟨hn, hm⟩ : 0 < n ∧ 0 < m := by
    have := (C58_sizes size n m).mp hs
    omega
  obtain ⟨fill, hf, ⟨s', hs', rfl⟩ | ⟨h', -⟩⟩ := morph_ok hs h
  · rw [hnv] at hs'
    cases hs'
    simp only [ofData, hnv, Option.getD_some, Bool.false_eq_true, if_false]
    refine ⟨trivial, trivial, trivial, trivial, trivial, ?_⟩
    rintro c ⟨h0, h1, h2⟩
    have hmask : morphMask .dilation n m r ychunks xchunks c = true ↔
        ∀ p, InWindow .dilation n m r c p → r.mask p = true := by
      unfold morphMask
      rw [binary_overlap (by omega) (by omega)]
      simp only [if_true, Option.getD_some, Bool.not_eq_true', List.any_eq_false, id, Bool.not_eq_true]
      constructor
      · rintro hall ⟨b, i, j⟩ ⟨e0, e1, e2, e3, e4⟩
        simp only at e0
        subst e0
        have := hall _ (window_mem (x := fun i j => !r.mask (c.1, i, j)) (cval := false) hn hm e1 e2 e3 e4)
        simpa using this
      · intro hall v hv
        rcases mem_window hn hm hv with rfl | ⟨i, j, e1, e2, e3, e4, rfl⟩
        · rfl
        · rw [hall (c.1, i, j) ⟨rfl, e1, e2, e3, e4⟩]
          rfl
    refine ⟨hmask, fun h => by rw [if_pos h], fun hc => ?_⟩
    rw [if_neg (by rw [hc]; exact Bool.false_ne_true)]
    unfold morphData
    simp only
    rw [grey_overlap (by omega) (by omega), Option.getD_some]
    have hmk : r.masked = true := by unfold Raster.masked; rw [hnv]; rfl
    simp only [hmk, Bool.true_and]
    refine extreme_window hn hm hf (null := r.mask) ?_ ?_
    · rintro p ⟨e0, e1, e2, e3, e4⟩ hp
      exact hb p ⟨by omega, e2, e4⟩ hp
    · by_contra hcon
      have := hmask.mpr fun p hp => by
        cases hm : r.mask p
        · exact absurd ⟨p, hp, hm⟩ hcon
        · rfl
      rw [hc] at this
      exact Bool.false_ne_true this
  · rw [hnv] at h'
    cases h'

/-- **C58**, erosion of rasters with a null value: a cell is valid exactly if the window lies within the raster and holds no null
cell; then it holds the least value in the window, otherwise the null value. -/
theorem C58_erode {big small : Num} {r o : Raster} {size : SizeArg} {ychunks xchunks : List Nat} {n m : Nat} {s : Scalar}
    (hs : getFootprint size = .ok (n, m)) (hnv : r.nv = some s) (hy : ychunks.sum = r.ny) (hx : xchunks.sum = r.nx)
    (hb : ∀ p, r.Has p → r.mask p = false → Bounded big small r.dtype (r.data p))
    (h : morph .erosion big small r size ychunks xchunks = .ok o) :
    o.dtype = r.dtype ∧ o.nb = r.nb ∧ o.ny = r.ny ∧ o.nx = r.nx ∧ o.nv = r.nv ∧ ∀ c, r.Has c →
      (o.mask c = false ↔ Fits n r.ny c.2.1 ∧ Fits m r.nx c.2.2 ∧ ∀ p, InWindow .erosion n m r c p → r.mask p = false) ∧
      (o.mask c = true → o.data c = s.val) ∧
      (o.mask c = false → IsExtreme .erosion (InWindow .erosion n m r c) r.data (o.data c)) := by
  obtain ⟨hn, hm⟩ : 0 < n ∧ 0 < m := by
    have := (C58_sizes size n m).mp hs
    omega
  obtain ⟨fill, hf, ⟨s', hs', rfl⟩ | ⟨h', -⟩⟩ := morph_ok hs h
  · rw [hnv] at hs'
    cases hs'
    simp only [ofData, hnv, Option.getD_some, Bool.false_eq_true, if_false]
    refine ⟨trivial, trivial, trivial, trivial, trivial, ?_⟩
    rintro c ⟨h0, h1, h2⟩
    have hmask : morphMask .erosion n m r ychunks xchunks c = false ↔
        Fits n r.ny c.2.1 ∧ Fits m r.nx c.2.2 ∧ ∀ p, InWindow .erosion n m r c p → r.mask p = false := by
      unfold morphMask
      rw [binary_overlap (by omega) (by omega)]
      simp only [reduceCtorEq, if_false, Option.getD_some, Bool.not_eq_false', List.all_eq_true, id]
      constructor
      · intro hall
        have hin : ∀ i j : Int, NearInt .erosion n c.2.1 i → NearInt .erosion m c.2.2 j →
            0 ≤ i ∧ i < r.ny ∧ 0 ≤ j ∧ j < r.nx := by
          intro i j hi hj
          have := hall _ (mem_rectangle.mpr ⟨i, j, hi, hj, rfl⟩)
          unfold bandEdge at this
          split at this
          · assumption
          · cases this
        refine ⟨?_, ?_, ?_⟩
        · unfold NearInt origin at hin
          simp only [reduceCtorEq, false_and, if_false] at hin
          have a1 := hin ((c.2.1 : Int) - (n / 2 : Nat)) c.2.2 (by push_cast; omega) (by push_cast; omega)
          have a2 := hin ((c.2.1 : Int) + ((n - 1) / 2 : Nat)) c.2.2 (by push_cast; omega) (by push_cast; omega)
          unfold Fits
          omega
        · unfold NearInt origin at hin
          simp only [reduceCtorEq, false_and, if_false] at hin
          have a1 := hin c.2.1 ((c.2.2 : Int) - (m / 2 : Nat)) (by push_cast; omega) (by push_cast; omega)
          have a2 := hin c.2.1 ((c.2.2 : Int) + ((m - 1) / 2 : Nat)) (by push_cast; omega) (by push_cast; omega)
          unfold Fits
          omega
        · rintro ⟨b, i, j⟩ ⟨e0, e1, e2, e3, e4⟩
          simp only at e0
          subst e0
          have := hall _ (window_mem (x := fun i j => !r.mask (c.1, i, j)) (cval := false) hn hm e1 e2 e3 e4)
          simpa using this
      · rintro ⟨⟨f1, f2⟩, ⟨f3, f4⟩, hall⟩ v hv
        obtain ⟨i, j, hi, hj, rfl⟩ := mem_rectangle.mp hv
        have e1 := hi
        have e2 := hj
        unfold NearInt origin at e1 e2
        simp only [reduceCtorEq, false_and, if_false] at e1 e2
        unfold bandEdge
        rw [if_pos (by omega)]
        simp only
        rw [hall (c.1, i.toNat, j.toNat) ⟨rfl, ?_, by show i.toNat < r.ny; omega, ?_, by show j.toNat < r.nx; omega⟩]
        · rfl
        · rw [← nearInt_nat hn]; simp only; rw [Int.toNat_of_nonneg (by omega)]; exact hi
        · rw [← nearInt_nat hm]; simp only; rw [Int.toNat_of_nonneg (by omega)]; exact hj
    refine ⟨hmask, fun h => by rw [if_pos h], fun hc => ?_⟩
    rw [if_neg (by rw [hc]; exact Bool.false_ne_true)]
    obtain ⟨-, -, hall⟩ := hmask.mp hc
    unfold morphData
    simp only
    rw [grey_overlap (by omega) (by omega), Option.getD_some]
    have hmk : r.masked = true := by unfold Raster.masked; rw [hnv]; rfl
    simp only [hmk, Bool.true_and]
    have := extreme_window (c := c) hn hm hf (null := r.mask) (by
      rintro p ⟨e0, e1, e2, e3, e4⟩ hp
      exact hb p ⟨by omega, e2, e4⟩ hp) ⟨c, ⟨rfl, near_self, h1, near_self, h2⟩, hall c ⟨rfl, near_self, h1, near_self, h2⟩⟩
    obtain ⟨⟨p, hp, hv⟩, hall'⟩ := this
    exact ⟨⟨p, hp.1, hv⟩, fun p hp => hall' p ⟨hp, hall p hp⟩⟩
  · rw [hnv] at h'
    cases h'

/-- **C58**, rasters without a null value: no cell is null, and every cell holds the greatest or least value of the cells of the
raster in the window.  The result has the default null value of the dtype. -/
theorem C58_unmasked {op : Op} {big small : Num} {r o : Raster} {size : SizeArg} {ychunks xchunks : List Nat} {n m : Nat}
    (hs : getFootprint size = .ok (n, m)) (hnv : r.nv = none) (hy : ychunks.sum = r.ny) (hx : xchunks.sum = r.nx)
    (hb : ∀ p, r.Has p → Bounded big small r.dtype (r.data p)) (h : morph op big small r size ychunks xchunks = .ok o) :
    o.dtype = r.dtype ∧ o.nb = r.nb ∧ o.ny = r.ny ∧ o.nx = r.nx ∧ o.nv = some (defaultNull r.dtype) ∧ ∀ c, r.Has c →
      o.mask c = r.mask c ∧ IsExtreme op (InWindow op n m r c) r.data (o.data c) := by
  obtain ⟨hn, hm⟩ : 0 < n ∧ 0 < m := by
    have := (C58_sizes size n m).mp hs
    omega
  obtain ⟨fill, hf, ⟨s', hs', -⟩ | ⟨-, rfl⟩⟩ := morph_ok hs h
  · rw [hnv] at hs'
    cases hs'
  · refine ⟨rfl, rfl, rfl, rfl, rfl, ?_⟩
    rintro c ⟨h0, h1, h2⟩
    refine ⟨rfl, ?_⟩
    simp only [ofData, Bool.false_eq_true, if_false]
    unfold morphData
    simp only
    rw [grey_overlap (by omega) (by omega), Option.getD_some]
    have hmk : r.masked = false := by unfold Raster.masked; rw [hnv]; rfl
    simp only [hmk, Bool.false_and]
    have := extreme_window (c := c) (r := r) hn hm hf (null := fun _ => false) (by
      rintro p ⟨e0, e1, e2, e3, e4⟩ -
      exact hb p ⟨by omega, e2, e4⟩) ⟨c, ⟨rfl, near_self, h1, near_self, h2⟩, rfl⟩
    obtain ⟨⟨p, hp, hv⟩, hall'⟩ := this
    exact ⟨⟨p, hp.1, hv⟩, fun p hp => hall' p ⟨hp, rfl⟩⟩

/-- **C58**: which calls give a result. -/
theorem C58_accepted (op : Op) (big small : Num) (r : Raster) (size : SizeArg) (ychunks xchunks : List Nat) :
    (∃ o, morph op big small r size ychunks xchunks = .ok o) ↔
      ∃ n m, getFootprint size = .ok (n, m) ∧ r.dtype ≠ .bool ∧ n / 2 ≤ r.ny ∧ m / 2 ≤ r.nx := by
  have hfill : (∃ f, getFill big small r.dtype op = .ok f) ↔ r.dtype ≠ .bool := by
    unfold getFill
    split
    · rename_i h
      simp [h]
    · rename_i h
      simp only [ne_eq, h, not_false_eq_true, iff_true]
      split <;> exact ⟨_, rfl⟩
  unfold morph
  constructor
  · rintro ⟨o, h⟩
    split at h
    · cases h
    · rename_i n m hs
      refine ⟨n, m, hs, ?_⟩
      simp only [filter] at h
      split at h
      · cases h
      · rename_i fill hf
        refine ⟨hfill.mp ⟨_, hf⟩, ?_⟩
        split at h
        · cases h
        · rename_i hsz
          omega
  · rintro ⟨n, m, hs, hd, h1, h2⟩
    obtain ⟨f, hf⟩ := hfill.mpr hd
    rw [hs]
    simp only [filter, hf]
    rw [if_neg (by omega)]
    split <;> exact ⟨_, rfl⟩

/-- **C58 (errors)**: a TypeError if the size is neither an int nor two of them; otherwise a ValueError if there are not two, if one of
them is not positive or both are 1, if the raster holds booleans, and if half the window is larger than the raster. -/
theorem C58_errors {op : Op} {big small : Num} {r : Raster} {size : SizeArg} {ychunks xchunks : List Nat} {e : Err}
    (h : morph op big small r size ychunks xchunks = .error e) :
    (e = .type ∧ (size = .other ∨ ∃ a b, size = .seq [a, b] ∧ (a = none ∨ b = none))) ∨
    (e = .value ∧ ((∃ l, size = .seq l ∧ l.length ≠ 2) ∨
      ∃ n m : Int, (size = .int n ∧ m = n ∨ size = .seq [some n, some m]) ∧
        (n ≤ 0 ∨ m ≤ 0 ∨ (n = 1 ∧ m = 1) ∨ r.dtype = .bool ∨ (r.ny : Int) < n / 2 ∨ (r.nx : Int) < m / 2))) := by
  have key : ∀ n m : Int, (size = .int n ∧ m = n ∨ size = .seq [some n, some m]) → getFootprint size = checkSizes n m →
      e = .value ∧ (n ≤ 0 ∨ m ≤ 0 ∨ (n = 1 ∧ m = 1) ∨ r.dtype = .bool ∨ (r.ny : Int) < n / 2 ∨ (r.nx : Int) < m / 2) := by
    intro n m _ hf
    unfold morph at h
    rw [hf] at h
    unfold checkSizes at h
    by_cases h1 : ¬ (0 < n ∧ 0 < m)
    · rw [if_pos h1] at h
      exact ⟨(Except.error.inj h).symm, by omega⟩
    · rw [if_neg h1] at h
      by_cases h2 : n = 1 ∧ m = 1
      · rw [if_pos h2] at h
        exact ⟨(Except.error.inj h).symm, by omega⟩
      · rw [if_neg h2] at h
        simp only [filter, getFill] at h
        by_cases h3 : r.dtype = .bool
        · rw [if_pos h3] at h
          exact ⟨(Except.error.inj h).symm, .inr (.inr (.inr (.inl h3)))⟩
        · rw [if_neg h3] at h
          by_cases h4 : r.ny < n.toNat / 2 ∨ r.nx < m.toNat / 2
          · have e0 : e = .value := by
              cases hl : r.dtype.limits with
              | none => rw [hl] at h; simp only [if_pos h4] at h; exact (Except.error.inj h).symm
              | some q => rw [hl] at h; simp only [if_pos h4] at h; exact (Except.error.inj h).symm
            exact ⟨e0, by omega⟩
          · exfalso
            cases hl : r.dtype.limits with
            | none => rw [hl] at h; simp only [if_neg h4] at h; cases hv : r.nv <;> rw [hv] at h <;> cases h
            | some q => rw [hl] at h; simp only [if_neg h4] at h; cases hv : r.nv <;> rw [hv] at h <;> cases h
  cases size with
  | other =>
    exact .inl ⟨(Except.error.inj h).symm, .inl rfl⟩
  | int n =>
    have := key n n (.inl ⟨rfl, rfl⟩) rfl
    exact .inr ⟨this.1, .inr ⟨n, n, .inl ⟨rfl, rfl⟩, this.2⟩⟩
  | seq l =>
    match l, key, h with
    | [], _, h => exact .inr ⟨(Except.error.inj h).symm, .inl ⟨_, rfl, by simp⟩⟩
    | [some _], _, h => exact .inr ⟨(Except.error.inj h).symm, .inl ⟨_, rfl, by simp⟩⟩
    | [none], _, h => exact .inr ⟨(Except.error.inj h).symm, .inl ⟨_, rfl, by simp⟩⟩
    | [some n, some m], key, h =>
      have := key n m (.inr rfl) rfl
      exact .inr ⟨this.1, .inr ⟨n, m, .inr rfl, this.2⟩⟩
    | [none, b], _, h => exact .inl ⟨(Except.error.inj h).symm, .inr ⟨none, b, rfl, .inl rfl⟩⟩
    | [some a, none], _, h => exact .inl ⟨(Except.error.inj h).symm, .inr ⟨some a, none, rfl, .inr rfl⟩⟩
    | a :: b :: _ :: _, _, h =>
      refine .inr ⟨?_, .inl ⟨_, rfl, by simp⟩⟩
      cases a <;> cases b <;> exact (Except.error.inj h).symm

/-- Cases for `C58_errors`. -/
example : morph .erosion (.fin 0) (.fin 0) ⟨.bool, 1, 1, 1, fun _ => .fin 1, fun _ => false, none⟩ (.int 3) [1] [1] = .error .value ∧
    morph .erosion (.fin 0) (.fin 0) ⟨u8, 1, 1, 1, fun _ => .fin 1, fun _ => false, none⟩ (.seq [some 3, none]) [1] [1] = .error .type ∧
    morph .erosion (.fin 0) (.fin 0) ⟨u8, 1, 1, 1, fun _ => .fin 1, fun _ => false, none⟩ (.seq [some 3]) [1] [1] = .error .value ∧
    morph .erosion (.fin 0) (.fin 0) ⟨u8, 1, 1, 1, fun _ => .fin 1, fun _ => false, none⟩ (.int 5) [1] [1] = .error .value :=
  ⟨rfl, rfl, rfl, rfl⟩

/-! ### C59 -/

/-- A window of the dilation on a cell holds another exactly if the window of the erosion on the other holds the first. -/
theorem near_adjoint (n r i : Nat) : Near .dilation n r i ↔ Near .erosion n i r := by
  simp only [Near]
  omega

/-- **C59**: for rasters without a null value, dilation and erosion with the same size are adjoint: the dilation of `a` stays
below `b` exactly if `a` stays below the erosion of `b`. -/
theorem C59_adjoint {big small : Num} {a b da eb : Raster} {size : SizeArg} {yc xc yc' xc' : List Nat}
    (ha : a.nv = none) (hb : b.nv = none) (hshape : b.nb = a.nb ∧ b.ny = a.ny ∧ b.nx = a.nx)
    (hya : yc.sum = a.ny) (hxa : xc.sum = a.nx) (hyb : yc'.sum = b.ny) (hxb : xc'.sum = b.nx)
    (hva : ∀ p, a.Has p → Bounded big small a.dtype (a.data p)) (hvb : ∀ p, b.Has p → Bounded big small b.dtype (b.data p))
    (hda : morph .dilation big small a size yc xc = .ok da) (heb : morph .erosion big small b size yc' xc' = .ok eb) :
    (∀ c, a.Has c → Le (da.data c) (b.data c)) ↔ ∀ c, a.Has c → Le (a.data c) (eb.data c) := by
  obtain ⟨n, m, hs, -⟩ := (C58_accepted .dilation big small a size yc xc).mp ⟨_, hda⟩
  obtain ⟨-, -, -, -, -, hd⟩ := C58_unmasked hs ha hya hxa hva hda
  obtain ⟨-, -, -, -, -, he⟩ := C58_unmasked hs hb hyb hxb hvb heb
  have hhas : ∀ c, b.Has c ↔ a.Has c := by
    intro c
    unfold Raster.Has
    rw [hshape.1, hshape.2.1, hshape.2.2]
  have hsym : ∀ c p, a.Has c → a.Has p → (InWindow .dilation n m a c p ↔ InWindow .erosion n m b p c) := by
    intro c p hc hp
    unfold InWindow
    rw [near_adjoint, near_adjoint, hshape.2.1, hshape.2.2]
    exact ⟨fun h => ⟨h.1.symm, h.2.1, hc.2.1, h.2.2.2.1, hc.2.2⟩, fun h => ⟨h.1.symm, h.2.1, hp.2.1, h.2.2.2.1, hp.2.2⟩⟩
  constructor
  · intro h p hp
    obtain ⟨⟨c, hc, e⟩, -⟩ := (he p ((hhas p).mpr hp)).2
    have hca : a.Has c := by
      obtain ⟨e0, e1, e2, e3, e4⟩ := hc
      exact ⟨by rw [e0]; exact hp.1, by rw [← hshape.2.1]; exact e2, by rw [← hshape.2.2]; exact e4⟩
    have := (hd c hca).2.2 p ((hsym c p hca hp).mpr hc)
    rw [← e]
    exact Stats.le_trans' this (h c hca)
  · intro h c hc
    obtain ⟨⟨p, hp, e⟩, -⟩ := (hd c hc).2
    have hpa : a.Has p := by
      obtain ⟨e0, e1, e2, e3, e4⟩ := hp
      exact ⟨by rw [e0]; exact hc.1, e2, e4⟩
    have := (he p ((hhas p).mpr hpa)).2.2 c ((hsym c p hc hpa).mp hp)
    rw [← e]
    exact Stats.le_trans' (h p hpa) this

/-- **C59**: the dilation lies above the raster, the erosion below it. -/
theorem C59_extensive {op : Op} {big small : Num} {r o : Raster} {size : SizeArg} {ychunks xchunks : List Nat}
    (hnv : r.nv = none) (hy : ychunks.sum = r.ny) (hx : xchunks.sum = r.nx)
    (hb : ∀ p, r.Has p → Bounded big small r.dtype (r.data p)) (h : morph op big small r size ychunks xchunks = .ok o) :
    ∀ c, r.Has c → Beats op (o.data c) (r.data c) := by
  obtain ⟨n, m, hs, -⟩ := (C58_accepted op big small r size ychunks xchunks).mp ⟨_, h⟩
  obtain ⟨-, -, -, -, -, hd⟩ := C58_unmasked hs hnv hy hx hb h
  intro c hc
  exact (hd c hc).2.2 c ⟨rfl, near_self, hc.2.1, near_self, hc.2.2⟩

/-- With and without a null value: a valid cell holds the extreme of the valid cells in its window; if it is the result of an
erosion, the whole window is valid. -/
theorem valid_extreme {op : Op} {big small : Num} {r o : Raster} {size : SizeArg} {ychunks xchunks : List Nat} {n m : Nat}
    (hs : getFootprint size = .ok (n, m)) (hmask : r.nv = none → ∀ c, r.mask c = false) (hy : ychunks.sum = r.ny)
    (hx : xchunks.sum = r.nx) (hb : ∀ p, r.Has p → r.mask p = false → Bounded big small r.dtype (r.data p))
    (h : morph op big small r size ychunks xchunks = .ok o) :
    o.dtype = r.dtype ∧ o.nb = r.nb ∧ o.ny = r.ny ∧ o.nx = r.nx ∧ o.nv.isSome = true ∧ ∀ c, r.Has c → o.mask c = false →
      IsExtreme op (fun p => InWindow op n m r c p ∧ r.mask p = false) r.data (o.data c) ∧
      (op = .erosion → ∀ p, InWindow op n m r c p → r.mask p = false) := by
  cases hnv : r.nv with
  | none =>
    obtain ⟨h1, h2, h3, h4, h5, h6⟩ := C58_unmasked hs hnv hy hx (fun p hp => hb p hp (hmask hnv p)) h
    refine ⟨h1, h2, h3, h4, by rw [h5]; rfl, fun c hc _ => ?_⟩
    obtain ⟨-, ⟨p, hp, e⟩, hall⟩ := h6 c hc
    exact ⟨⟨⟨p, ⟨hp, hmask hnv p⟩, e⟩, fun p hp => hall p hp.1⟩, fun _ p _ => hmask hnv p⟩
  | some s =>
    cases op with
    | dilation =>
      obtain ⟨h1, h2, h3, h4, h5, h6⟩ := C58_dilate hs hnv hy hx hb h
      exact ⟨h1, h2, h3, h4, by rw [h5, hnv]; rfl, fun c hc hv => ⟨(h6 c hc).2.2 hv, fun h => by cases h⟩⟩
    | erosion =>
      obtain ⟨h1, h2, h3, h4, h5, h6⟩ := C58_erode hs hnv hy hx hb h
      refine ⟨h1, h2, h3, h4, by rw [h5, hnv]; rfl, fun c hc hv => ?_⟩
      have hall := ((h6 c hc).1.mp hv).2.2
      obtain ⟨⟨p, hp, e⟩, hle⟩ := (h6 c hc).2.2 hv
      exact ⟨⟨⟨p, ⟨hp, hall p hp⟩, e⟩, fun p hp => hle p hp.1⟩, fun _ => hall⟩

theorem has_of_window {op : Op} {n m : Nat} {r : Raster} {c p : Cell} (hc : r.Has c) (h : InWindow op n m r c p) : r.Has p := by
  obtain ⟨e0, e1, e2, e3, e4⟩ := h
  exact ⟨by rw [e0]; exact hc.1, e2, e4⟩

/-- The window of the other operation, on a raster of the same shape. -/
theorem window_flip {op : Op} {n m : Nat} {r o : Raster} (hny : o.ny = r.ny) (hnx : o.nx = r.nx) {c p : Cell} (hc : r.Has c)
    (h : InWindow op n m o c p) : InWindow (if op = .dilation then .erosion else .dilation) n m r p c := by
  obtain ⟨e0, e1, e2, e3, e4⟩ := h
  cases op
  · exact ⟨e0.symm, (near_adjoint _ _ _).mp e1, hc.2.1, (near_adjoint _ _ _).mp e3, hc.2.2⟩
  · exact ⟨e0.symm, (near_adjoint _ _ _).mpr e1, hc.2.1, (near_adjoint _ _ _).mpr e3, hc.2.2⟩

/-- The values that a result holds at its valid cells are bounded again. -/
theorem result_bounded {op : Op} {big small : Num} {r o : Raster} {size : SizeArg} {ychunks xchunks : List Nat} {n m : Nat}
    (hs : getFootprint size = .ok (n, m)) (hmask : r.nv = none → ∀ c, r.mask c = false) (hy : ychunks.sum = r.ny)
    (hx : xchunks.sum = r.nx) (hb : ∀ p, r.Has p → r.mask p = false → Bounded big small r.dtype (r.data p))
    (h : morph op big small r size ychunks xchunks = .ok o) :
    ∀ p, o.Has p → o.mask p = false → Bounded big small o.dtype (o.data p) := by
  obtain ⟨h1, h2, h3, h4, -, h6⟩ := valid_extreme hs hmask hy hx hb h
  intro p hp hv
  have hp : r.Has p := by
    unfold Raster.Has at hp ⊢
    rw [h2, h3, h4] at hp
    exact hp
  obtain ⟨⟨⟨q, hq, e⟩, -⟩, -⟩ := h6 p hp hv
  rw [h1, ← e]
  exact hb q (has_of_window hp hq.1) hq.2

/-- **C59**, opening, with and without a null value: a valid cell of `dilate(erode(r))` is valid in `r` and not greater there. -/
theorem C59_opening {big small : Num} {r e o : Raster} {size : SizeArg} {yc xc yc' xc' : List Nat}
    (hmask : r.nv = none → ∀ c, r.mask c = false) (hy : yc.sum = r.ny) (hx : xc.sum = r.nx) (hy' : yc'.sum = r.ny)
    (hx' : xc'.sum = r.nx) (hb : ∀ p, r.Has p → r.mask p = false → Bounded big small r.dtype (r.data p))
    (he : morph .erosion big small r size yc xc = .ok e) (ho : morph .dilation big small e size yc' xc' = .ok o) :
    ∀ c, r.Has c → o.mask c = false → r.mask c = false ∧ Le (o.data c) (r.data c) := by
  obtain ⟨n, m, hs, -⟩ := (C58_accepted .erosion big small r size yc xc).mp ⟨_, he⟩
  obtain ⟨h1, h2, h3, h4, h5, h6⟩ := valid_extreme hs hmask hy hx hb he
  have hbe := result_bounded hs hmask hy hx hb he
  obtain ⟨g1, g2, g3, g4, g5, g6⟩ := valid_extreme hs (fun h => by rw [h] at h5; cases h5) (by rw [h3]; exact hy')
    (by rw [h4]; exact hx') hbe ho
  have hhas : ∀ p, e.Has p ↔ r.Has p := by
    intro p
    unfold Raster.Has
    rw [h2, h3, h4]
  intro c hc hv
  obtain ⟨⟨⟨p, ⟨hp, hpv⟩, hval⟩, -⟩, -⟩ := g6 c ((hhas c).mpr hc) hv
  have hpr : r.Has p := (hhas p).mp (has_of_window ((hhas c).mpr hc) hp)
  have hflip : InWindow .erosion n m r p c := window_flip h3 h4 hc hp
  obtain ⟨⟨-, hall⟩, hvalid⟩ := h6 p hpr hpv
  have hcv := hvalid rfl c hflip
  refine ⟨hcv, ?_⟩
  rw [← hval]
  exact hall c ⟨hflip, hcv⟩

/-- **C59**, closing, in part: where `erode(dilate(r))` and `r` are both valid, the closing is not smaller.  Missing: valid cells
of `r` near the edge are null in the closing (`C59_closing_loses_edges`). -/
theorem C59_closing_partial {big small : Num} {r d o : Raster} {size : SizeArg} {yc xc yc' xc' : List Nat}
    (hmask : r.nv = none → ∀ c, r.mask c = false) (hy : yc.sum = r.ny) (hx : xc.sum = r.nx) (hy' : yc'.sum = r.ny)
    (hx' : xc'.sum = r.nx) (hb : ∀ p, r.Has p → r.mask p = false → Bounded big small r.dtype (r.data p))
    (hd : morph .dilation big small r size yc xc = .ok d) (ho : morph .erosion big small d size yc' xc' = .ok o) :
    ∀ c, r.Has c → o.mask c = false → r.mask c = false → Le (r.data c) (o.data c) := by
  obtain ⟨n, m, hs, -⟩ := (C58_accepted .dilation big small r size yc xc).mp ⟨_, hd⟩
  obtain ⟨h1, h2, h3, h4, h5, h6⟩ := valid_extreme hs hmask hy hx hb hd
  have hbe := result_bounded hs hmask hy hx hb hd
  obtain ⟨g1, g2, g3, g4, g5, g6⟩ := valid_extreme hs (fun h => by rw [h] at h5; cases h5) (by rw [h3]; exact hy')
    (by rw [h4]; exact hx') hbe ho
  have hhas : ∀ p, d.Has p ↔ r.Has p := by
    intro p
    unfold Raster.Has
    rw [h2, h3, h4]
  intro c hc hv hcv
  obtain ⟨⟨⟨p, ⟨hp, hpv⟩, hval⟩, -⟩, -⟩ := g6 c ((hhas c).mpr hc) hv
  have hpr : r.Has p := (hhas p).mp (has_of_window ((hhas c).mpr hc) hp)
  have hflip : InWindow .dilation n m r p c := window_flip h3 h4 hc hp
  rw [← hval]
  exact (h6 p hpr hpv).1.2 c ⟨hflip, hcv⟩

/-- **C59**, closing: exactly the cells whose window reaches beyond the raster, or holds a cell whose own window has no valid
cell, are null in the closing of a raster. -/
theorem C59_closing_nulls {big small : Num} {r d o : Raster} {size : SizeArg} {yc xc yc' xc' : List Nat} {n m : Nat} {s : Scalar}
    (hs : getFootprint size = .ok (n, m)) (hnv : r.nv = some s) (hy : yc.sum = r.ny) (hx : xc.sum = r.nx)
    (hy' : yc'.sum = r.ny) (hx' : xc'.sum = r.nx)
    (hb : ∀ p, r.Has p → r.mask p = false → Bounded big small r.dtype (r.data p))
    (hd : morph .dilation big small r size yc xc = .ok d) (ho : morph .erosion big small d size yc' xc' = .ok o) :
    ∀ c, r.Has c → (o.mask c = false ↔ Fits n r.ny c.2.1 ∧ Fits m r.nx c.2.2 ∧
      ∀ p, InWindow .erosion n m r c p → ∃ q, InWindow .dilation n m r p q ∧ r.mask q = false) := by
  obtain ⟨h1, h2, h3, h4, h5, h6⟩ := C58_dilate hs hnv hy hx hb hd
  have hbe := result_bounded hs (fun h => by rw [hnv] at h; cases h) hy hx hb hd
  obtain ⟨g1, g2, g3, g4, g5, g6⟩ := C58_erode hs (h5.trans hnv) (by rw [h3]; exact hy') (by rw [h4]; exact hx') hbe ho
  intro c hc
  have hcd : d.Has c := by
    unfold Raster.Has
    rw [h2, h3, h4]
    exact hc
  rw [(g6 c hcd).1, h3, h4]
  have hw : ∀ p, InWindow .erosion n m d c p ↔ InWindow .erosion n m r c p := by
    intro p
    unfold InWindow
    rw [h3, h4]
  refine and_congr_right fun _ => and_congr_right fun _ => ?_
  refine forall_congr' fun p => ?_
  rw [hw]
  refine imp_congr_right fun hp => ?_
  have := (h6 p (has_of_window hc hp)).1
  constructor
  · intro hpm
    by_contra hcon
    have := this.mpr fun q hq => by
      cases hm : r.mask q
      · exact absurd ⟨q, hq, hm⟩ hcon
      · rfl
    rw [hpm] at this
    cases this
  · rintro ⟨q, hq, hqm⟩
    cases hm : d.mask p
    · rfl
    · rw [this.mp hm q hq] at hqm
      cases hqm

/-! ### Examples and counterexamples -/

/-- One row of five cells without a null value. -/
def sampleLine : Raster :=
  ⟨u8, 1, 1, 5, fun c => .fin ((c.2.2 * c.2.2 : Nat) : Int), fun _ => false, none⟩

/-- The same row; the cell in column 2 is null. -/
def sampleNull : Raster := { sampleLine with mask := fun c => decide (c.2.2 = 2), nv := some ⟨u8, .fin 4⟩ }

theorem sample_bounded (p : Cell) (hp : sampleLine.Has p) : Bounded (.fin 0) (.fin 0) u8 (sampleLine.data p) := by
  have h := hp.2.2
  simp only [sampleLine] at h
  simp only [Bounded, DType.limits, sampleLine, Le]
  constructor
  · exact_mod_cast Nat.zero_le _
  · have : p.2.2 * p.2.2 ≤ 4 * 4 := Nat.mul_le_mul (by omega) (by omega)
    have h2 : ((p.2.2 * p.2.2 : Nat) : Int) ≤ 2 ^ 8 - 1 := by omega
    exact_mod_cast h2

/-- The hypotheses of the theorems hold for the samples, in two chunks. -/
example : getFootprint (.seq [some 1, some 3]) = .ok (1, 3) ∧ [1].sum = sampleNull.ny ∧ [2, 3].sum = sampleNull.nx ∧
    (∀ p, sampleLine.Has p → Bounded (.fin 0) (.fin 0) sampleLine.dtype (sampleLine.data p)) ∧
    (∃ o, morph .dilation (.fin 0) (.fin 0) sampleNull (.seq [some 1, some 3]) [1] [2, 3] = .ok o ∧ o.mask (0, 0, 2) = false ∧
      o.data (0, 0, 2) = .fin 9) ∧
    (∃ o, morph .erosion (.fin 0) (.fin 0) sampleNull (.seq [some 1, some 2]) [1] [2, 3] = .ok o ∧ o.mask (0, 0, 2) = true ∧
      o.mask (0, 0, 1) = false ∧ o.data (0, 0, 1) = .fin 0) ∧
    (∃ o, morph .erosion (.fin 0) (.fin 0) sampleLine (.int 3) [1] [2, 3] = .ok o ∧ o.data (0, 0, 2) = .fin 1) :=
  ⟨rfl, rfl, rfl, sample_bounded, ⟨_, rfl, by decide +kernel⟩, ⟨_, rfl, by decide +kernel⟩, ⟨_, rfl, by decide +kernel⟩⟩

/-- Opening and closing of the sample with a null cell: both have valid cells. -/
example : (∃ e o, morph .erosion (.fin 0) (.fin 0) sampleNull (.seq [some 1, some 2]) [1] [2, 3] = .ok e ∧
      morph .dilation (.fin 0) (.fin 0) e (.seq [some 1, some 2]) [1] [5] = .ok o ∧ o.mask (0, 0, 0) = false ∧
      o.data (0, 0, 0) = .fin 0 ∧ o.mask (0, 0, 2) = true) ∧
    ∃ d o, morph .dilation (.fin 0) (.fin 0) sampleNull (.seq [some 1, some 3]) [1] [2, 3] = .ok d ∧
      morph .erosion (.fin 0) (.fin 0) d (.seq [some 1, some 3]) [1] [5] = .ok o ∧ o.mask (0, 0, 2) = false ∧
      o.mask (0, 0, 1) = false ∧ o.data (0, 0, 1) = .fin 1 ∧ o.mask (0, 0, 0) = true :=
  ⟨⟨_, _, rfl, rfl, by decide +kernel⟩, _, _, rfl, rfl, by decide +kernel⟩

/-- **Closing makes the edges null**: the dilation gives a raster without a null value the default one, so the erosion after it
counts the cells beyond the edge as null. -/
theorem C59_closing_loses_edges : ∃ d e, morph .dilation (.fin 0) (.fin 0) sampleLine (.seq [some 1, some 3]) [1] [5] = .ok d ∧
    morph .erosion (.fin 0) (.fin 0) d (.seq [some 1, some 3]) [1] [5] = .ok e ∧ e.mask (0, 0, 0) = true ∧
    e.mask (0, 0, 4) = true ∧ e.mask (0, 0, 2) = false :=
  ⟨_, _, rfl, rfl, by decide +kernel⟩

/-- **Minus infinity is lost**: next to a null cell (or to the edge) the limit of the dtype is greater than the value. -/
theorem C58_infinity : ∃ r o : Raster, r.data (0, 0, 0) = .negInf ∧ r.mask (0, 0, 0) = false ∧
    (∀ p, InWindow .dilation 1 3 r (0, 0, 0) p → r.mask p = false → r.data p = .negInf) ∧
    morph .dilation (.fin 1000) (.fin (-1000)) r (.seq [some 1, some 3]) [1] [2] = .ok o ∧ o.mask (0, 0, 0) = false ∧
    o.data (0, 0, 0) = .fin (-1000) :=
  ⟨⟨f64, 1, 1, 2, fun _ => .negInf, fun c => decide (c.2.2 = 1), some ⟨f64, .fin 0⟩⟩, _, rfl, rfl, fun _ _ _ => rfl, rfl,
    by decide +kernel⟩

/-- **A valid cell can look like a null cell**: the default null value given to the result may be a value of the raster. -/
theorem C58_default_null_value_in_use : ∃ r o : Raster, r.nv = none ∧ (∀ c, r.mask c = false) ∧
    morph .dilation (.fin 0) (.fin 0) r (.int 3) [1] [1] = .ok o ∧ o.mask (0, 0, 0) = false ∧
    o.nv = some ⟨u8, .fin 255⟩ ∧ o.data (0, 0, 0) = .fin 255 :=
  ⟨⟨u8, 1, 1, 1, fun _ => .fin 255, fun _ => false, none⟩, _, rfl, fun _ => rfl, rfl, by decide +kernel⟩

end Verif.Morph
