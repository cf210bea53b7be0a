import Verif.Trips.Dicts
import Verif.Regions.Props
import Mathlib.Order.Interval.Finset.Nat
import Mathlib.Data.Finset.Card

/-!
# C119: the laws of `regions` (`general.py:84-175`)

`regions` (C28) applied to its own result, with 4 and 8 neighbors, with and without `unique_values`, to rasters with other values and with fewer cells,
and after `reclassify` (C26, C118).
-/

set_option linter.unusedSectionVars false

namespace Verif.Trips.Islands

open Verif Verif.Nulls Verif.Regions Verif.Regions.Spec DType
open Verif.Nulls.Spec (MaskNeedsNull)
open Verif.Trips.Choices.Spec (cell)

namespace Spec

/-- Other values on the same grid: equal values stay equal, different ones different, null, 0 and NaN what they are. -/
structure Recoded (r r' : Raster) : Prop where
  ny : r'.ny = r.ny
  nx : r'.nx = r.nx
  null : ∀ c, cell r' c = none ↔ cell r c = none
  zero : ∀ c, cell r' c = some (.fin 0) ↔ cell r c = some (.fin 0)
  nan : ∀ c, cell r' c = some .nan ↔ cell r c = some .nan
  same : ∀ c c', cell r' c = cell r' c' ↔ cell r c = cell r c'

/-- The order of the values is kept as well. -/
structure Ordered (f : Num → Num) (r r' : Raster) : Prop extends Recoded r r' where
  value : ∀ c v, cell r c = some v → cell r' c = some (f v)
  mono : ∀ c c' v v', cell r c = some v → cell r c' = some v' → (Less (f v) (f v') ↔ Less v v')

/-- Some of the cells, and null or 0 elsewhere. -/
structure Fewer (r r' : Raster) : Prop where
  ny : r'.ny = r.ny
  nx : r'.nx = r.nx
  some : ∀ c, cell r' c = none ∨ cell r' c = some (.fin 0) ∨ cell r' c = cell r c

end Spec

open Spec

/-- What `regions` labels: 0 for null. -/
def seen (r : Raster) (b : Nat) (p : Pos) : Num := (cell r (b, p)).getD (.fin 0)

section

variable {np : NumPy} {label : Nat → Labeler} {r r' o o' : Raster} {n n' : Int} {us us' : Option (List Num)}

theorem seen_eq (hr : MaskNeedsNull r) (b : Nat) :
    (fun p => if r.masked && r.mask (b, p) then (.fin 0 : Num) else r.data (b, p)) = seen r b := by
  funext p
  unfold seen cell
  cases hm : r.mask (b, p) with
  | false => simp
  | true =>
    have : r.masked = true := by
      unfold Raster.masked
      exact Option.isSome_iff_ne_none.2 (hr _ hm)
    rw [this]
    rfl

/-- The cells of the result. -/
theorem cells (hr : MaskNeedsNull r) (h : regions np label r n us = .ok o) : (n = 4 ∨ n = 8) ∧ o.ny = r.ny ∧ o.nx = r.nx ∧ MaskNeedsNull o ∧ ∀ b p, cell o (b, p) =
    (cell r (b, p)).map fun _ => .fin (createLabels (label n.toNat) r.ny r.nx (seen r b) us p : Rat) := by
  have hnv := C28_null_value np label r n us h
  have hsome : o.nv ≠ none := by
    cases hs : r.nv with
    | none =>
      rw [hnv.1 hs]
      exact fun h => nomatch h
    | some s =>
      have := hnv.2 s hs
      rw [this]
      unfold reconcile
      simp only
      repeat' split
      all_goals exact fun h => nomatch h
  unfold regions at h
  split at h
  · next hn =>
    simp only [Except.ok.injEq] at h
    refine ⟨hn, ?_, ?_, fun _ _ => hsome, ?_⟩
    · rw [← h]; rfl
    · rw [← h]; rfl
    · intro b p
      have hm : o.mask (b, p) = r.mask (b, p) := by rw [← h]; rfl
      unfold cell
      rw [hm]
      cases hc : r.mask (b, p) with
      | true => rfl
      | false =>
        have : o.data (b, p) = .fin (createLabels (label n.toNat) r.ny r.nx (seen r b) us p : Rat) := by
          rw [← seen_eq hr b, ← h]
          simp [ofData, hc]
        rw [this]
        rfl
  · cases h

theorem widen {k ny nx : Nat} {S S' : Pos → Prop} {p q : Pos} (h : Connected k ny nx S p q)
    (hS : ∀ s, InGrid ny nx s → Connected k ny nx S p s → S' s) : Connected k ny nx S' p q := by
  induction h with
  | refl => exact .refl
  | tail hab hbc ih =>
    refine ih.tail ⟨hbc.1, hbc.2.1, hbc.2.2.1, hS _ hbc.2.1 hab, hS _ hbc.2.2.1 (hab.tail hbc)⟩

/-- Two numberings without gaps that agree in the order of the regions are equal. -/
theorem same_numbers {G : Pos → Prop} {f g : Pos → Nat} (h0 : ∀ p, G p → (f p = 0 ↔ g p = 0))
    (hlt : ∀ p q, G p → G q → f p ≠ 0 → f p < f q → g p < g q) (heq : ∀ p q, G p → G q → f p ≠ 0 → f p = f q → g p = g q)
    (hf : ∃ N, (∀ p, G p → f p ≤ N) ∧ ∀ k, 1 ≤ k → k ≤ N → ∃ p, G p ∧ f p = k)
    (hg : ∃ N, (∀ p, G p → g p ≤ N) ∧ ∀ k, 1 ≤ k → k ≤ N → ∃ p, G p ∧ g p = k) (p : Pos) (hp : G p) : f p = g p := by
  obtain ⟨N, hN, honto⟩ := hf
  obtain ⟨M, hM, gonto⟩ := hg
  have key : ∀ k, ∀ p, G p → f p = k → g p = k := by
    intro k
    induction k using Nat.strong_induction_on with
    | _ k ih =>
      intro p hp hk
      rcases Nat.eq_zero_or_pos k with rfl | hpos
      · exact (h0 p hp).1 hk
      · have hgp : g p ≠ 0 := fun h => by
          have := (h0 p hp).2 h
          omega
        have hle : k ≤ g p := by
          rcases Nat.lt_or_ge 1 k with h1 | h1
          · obtain ⟨q, hq, hfq⟩ := honto (k - 1) (by omega) (by have := hN p hp; omega)
            have e := ih (k - 1) (by omega) q hq hfq
            have := hlt q p hq hp (by omega) (by omega)
            omega
          · omega
        by_contra hne
        obtain ⟨q, hq, hgq⟩ := gonto k hpos (by have := hM p hp; omega)
        have hfq : f q ≠ 0 := fun h => by
          have := (h0 q hq).1 h
          omega
        rcases Nat.lt_trichotomy (f q) k with h | h | h
        · have := ih _ h q hq rfl
          omega
        · have := heq q p hq hp hfq (h.trans hk.symm)
          omega
        · have := hlt p q hp hq (by omega) (by omega)
          omega
  exact (key _ p hp rfl).symm

theorem seen_some {b : Nat} {p : Pos} {v : Num} (h : cell r (b, p) = some v) : seen r b p = v := by
  unfold seen
  rw [h]
  rfl

/-- The regions of a labelled band are its labels. -/
theorem labels_again {k ny nx : Nat} {lab lab' : Labeler} (hl : IsLabeler k ny nx lab) (hl' : IsLabeler k ny nx lab') (data : Pos → Num) (uarr : Option (List Num))
    (hu : ∀ us, uarr = some us → us.Nodup) {data' : Pos → Num} (hd : ∀ p, InGrid ny nx p → data' p = .fin (createLabels lab ny nx data uarr p : Rat))
    (p : Pos) (hp : InGrid ny nx p) : createLabels lab' ny nx data' none p = createLabels lab ny nx data uarr p := by
  obtain ⟨a1, a2, a3⟩ := C28_labels hl data uarr hu
  obtain ⟨b1, b2, b3⟩ := C28_labels hl' data' none (fun _ h => nomatch h)
  have hpos : ∀ p, InGrid ny nx p → (0 < createLabels lab' ny nx data' none p ↔ 0 < createLabels lab ny nx data uarr p) := by
    intro p hp
    rw [b1 p hp, hd p hp]
    simp only [reduceCtorEq, not_false_eq_true, ne_eq, true_and, implies_true, and_true, FVal.fin.injEq, Nat.cast_eq_zero, false_imp_iff]
    omega
  refine (same_numbers (G := InGrid ny nx) ?_ ?_ ?_ a3 b3 p hp).symm
  · intro p hp
    have := hpos p hp
    omega
  · intro p q hp hq h0 hlt
    have h1 := (hpos p hp).2 (Nat.pos_of_ne_zero h0)
    have h2 := (hpos q hq).2 (by omega)
    refine (C28_order hl' data' p q hp hq).1 h1 h2 ?_
    rw [hd p hp, hd q hq]
    exact Nat.cast_lt.2 hlt
  · intro p q hp hq h0 he
    have hp0 := Nat.pos_of_ne_zero h0
    have hq0 : 0 < createLabels lab ny nx data uarr q := he ▸ hp0
    rw [b2 p q hp hq ((hpos p hp).2 hp0) ((hpos q hq).2 hq0)]
    refine ⟨by rw [hd p hp, hd q hq, he], ?_⟩
    have hc := ((a2 p q hp hq hp0 hq0).1 he).2
    refine widen hc fun s hs hps => ?_
    have hds : data s = data p := by
      rcases Relation.ReflTransGen.cases_tail hps with e | ⟨t, -, ht⟩
      · rw [e]
      · exact ht.2.2.2.2
    have hs0 : 0 < createLabels lab ny nx data uarr s := by
      rw [a1 s hs, hds, ← a1 p hp]
      exact hp0
    rw [hd s hs, hd p hp, (a2 p s hp hs hp0 hs0).2 ⟨hds.symm, hps⟩]

/-- **C119 (again).**  The regions of the regions are the regions, with the same numbers. -/
theorem C119_again (hr : MaskNeedsNull r) (hl : ∀ k, IsLabeler k r.ny r.nx (label k)) (hu : ∀ l, us = some l → l.Nodup)
    (h : regions np label r n us = .ok o) (h' : regions np label o n none = .ok o') (b : Nat) (p : Pos) (hp : InGrid r.ny r.nx p) :
    cell o' (b, p) = cell o (b, p) := by
  obtain ⟨-, hy, hx, ho, hc⟩ := cells hr h
  obtain ⟨-, -, -, -, hc'⟩ := cells ho h'
  rw [hc', hy, hx]
  cases e : cell r (b, p) with
  | none => rw [hc, e]; rfl
  | some v =>
    rw [hc b p, e]
    simp only [Option.map_some, Option.some.injEq, FVal.fin.injEq, Nat.cast_inj]
    refine labels_again (hl n.toNat) (hl n.toNat) (seen r b) us hu (fun q hq => ?_) p hp
    cases e' : cell r (b, q) with
    | some w =>
      refine seen_some ?_
      rw [hc, e']
      rfl
    | none =>
      have : ¬ 0 < createLabels (label n.toNat) r.ny r.nx (seen r b) us q := by
        rw [(C28_labels (hl n.toNat) (seen r b) us hu).1 q hq]
        rintro ⟨h, -⟩
        exact h (by unfold seen; rw [e']; rfl)
      have e0 : createLabels (label n.toNat) r.ny r.nx (seen r b) us q = 0 := by omega
      rw [e0]
      unfold seen
      rw [hc, e']
      rfl

/-- The value of a labelled cell. -/
theorem on_path {k ny nx : Nat} {S : Pos → Prop} {p s : Pos} (hp : S p) (h : Connected k ny nx S p s) : S s := by
  rcases Relation.ReflTransGen.cases_tail h with e | ⟨t, -, ht⟩
  · rw [e]
    exact hp
  · exact ht.2.2.2.2

theorem labels_recoded {k ny nx : Nat} {lab : Labeler} (hl : IsLabeler k ny nx lab) {data data' : Pos → Num}
    (h0 : ∀ p, data' p = .fin 0 ↔ data p = .fin 0) (hn : ∀ p, data' p = .nan ↔ data p = .nan) (hs : ∀ p q, data' p = data' q ↔ data p = data q) :
    (∀ p, InGrid ny nx p → (createLabels lab ny nx data' none p = 0 ↔ createLabels lab ny nx data none p = 0)) ∧
    ∀ p q, InGrid ny nx p → InGrid ny nx q → (createLabels lab ny nx data' none p = createLabels lab ny nx data' none q ↔
      createLabels lab ny nx data none p = createLabels lab ny nx data none q) := by
  obtain ⟨a1, a2, -⟩ := C28_labels hl data none (fun _ h => nomatch h)
  obtain ⟨b1, b2, -⟩ := C28_labels hl data' none (fun _ h => nomatch h)
  have hpos : ∀ p, InGrid ny nx p → (0 < createLabels lab ny nx data' none p ↔ 0 < createLabels lab ny nx data none p) := by
    intro p hp
    rw [a1 p hp, b1 p hp, ne_eq, ne_eq, h0, hn]
    exact ⟨fun h => ⟨h.1, h.2.1, fun _ h => nomatch h⟩, fun h => ⟨h.1, h.2.1, fun _ h => nomatch h⟩⟩
  refine ⟨fun p hp => by have := hpos p hp; omega, fun p q hp hq => ?_⟩
  have h1 := hpos p hp
  have h2 := hpos q hq
  rcases Nat.eq_zero_or_pos (createLabels lab ny nx data none p) with e1 | e1 <;> rcases Nat.eq_zero_or_pos (createLabels lab ny nx data none q) with e2 | e2
  · omega
  · omega
  · omega
  · rw [a2 p q hp hq e1 e2, b2 p q hp hq (h1.2 e1) (h2.2 e2), hs]
    have : (fun s => data' s = data' p) = fun s => data s = data p := funext fun s => propext (hs s p)
    rw [this]

theorem seen_recoded (h : Recoded r r') (b : Nat) : (∀ p, seen r' b p = .fin 0 ↔ seen r b p = .fin 0) ∧ (∀ p, seen r' b p = .nan ↔ seen r b p = .nan) ∧
    ∀ p q, seen r' b p = seen r' b q ↔ seen r b p = seen r b q := by
  have key : ∀ p, (∃ v v', cell r (b, p) = some v ∧ cell r' (b, p) = some v' ∧ seen r b p = v ∧ seen r' b p = v') ∨
      (cell r (b, p) = none ∧ cell r' (b, p) = none ∧ seen r b p = .fin 0 ∧ seen r' b p = .fin 0) := by
    intro p
    unfold seen
    cases e : cell r (b, p) with
    | none =>
      rw [(h.null _).2 e]
      exact .inr ⟨rfl, rfl, rfl, rfl⟩
    | some v =>
      cases e' : cell r' (b, p) with
      | none =>
        rw [(h.null _).1 e'] at e
        cases e
      | some v' => exact .inl ⟨v, v', rfl, rfl, rfl, rfl⟩
  have zero : ∀ p, seen r' b p = .fin 0 ↔ seen r b p = .fin 0 := by
    intro p
    rcases key p with ⟨v, v', e1, e2, e3, e4⟩ | ⟨-, -, e3, e4⟩
    · have := h.zero (b, p)
      rw [e1, e2, Option.some.injEq, Option.some.injEq] at this
      rw [e3, e4]
      exact this
    · rw [e3, e4]
  refine ⟨zero, fun p => ?_, fun p q => ?_⟩
  · rcases key p with ⟨v, v', e1, e2, e3, e4⟩ | ⟨-, -, e3, e4⟩
    · have := h.nan (b, p)
      rw [e1, e2, Option.some.injEq, Option.some.injEq] at this
      rw [e3, e4]
      exact this
    · rw [e3, e4]
  · rcases key p with ⟨v, v', e1, e2, e3, e4⟩ | ⟨-, -, e3, e4⟩ <;> rcases key q with ⟨w, w', f1, f2, f3, f4⟩ | ⟨-, -, f3, f4⟩
    · have := h.same (b, p) (b, q)
      rw [e1, e2, f1, f2, Option.some.injEq, Option.some.injEq] at this
      rw [e3, e4, f3, f4]
      exact this
    · rw [f3, f4]
      exact zero p
    · rw [e3, e4, eq_comm, zero q, eq_comm]
    · rw [e3, e4, f3, f4]

/-- **C119 (other values).**  Only which cells are equal matters for the regions: other values give the same regions, perhaps with other numbers. -/
theorem C119_recoded (hr : MaskNeedsNull r) (hr' : MaskNeedsNull r') (hl : ∀ k, IsLabeler k r.ny r.nx (label k)) (hc : Recoded r r')
    (h : regions np label r n none = .ok o) (h' : regions np label r' n none = .ok o') (b : Nat) :
    (∀ p, cell o' (b, p) = none ↔ cell o (b, p) = none) ∧
    (∀ p, InGrid r.ny r.nx p → (cell o' (b, p) = some (.fin 0) ↔ cell o (b, p) = some (.fin 0))) ∧
    ∀ p q, InGrid r.ny r.nx p → InGrid r.ny r.nx q → (cell o' (b, p) = cell o' (b, q) ↔ cell o (b, p) = cell o (b, q)) := by
  obtain ⟨-, -, -, -, ec⟩ := cells hr h
  obtain ⟨-, -, -, -, ec'⟩ := cells hr' h'
  obtain ⟨s1, s2, s3⟩ := seen_recoded hc b
  obtain ⟨l1, l2⟩ := labels_recoded (hl n.toNat) s1 s2 s3
  rw [hc.ny, hc.nx] at ec'
  have key : ∀ p, (cell o (b, p) = none ∧ cell o' (b, p) = none) ∨
      (cell o (b, p) = some (.fin (createLabels (label n.toNat) r.ny r.nx (seen r b) none p : Rat)) ∧
        cell o' (b, p) = some (.fin (createLabels (label n.toNat) r.ny r.nx (seen r' b) none p : Rat))) := by
    intro p
    rw [ec, ec']
    cases e : cell r (b, p) with
    | none =>
      rw [(hc.null _).2 e]
      exact .inl ⟨rfl, rfl⟩
    | some v =>
      cases e' : cell r' (b, p) with
      | none =>
        rw [(hc.null _).1 e'] at e
        cases e
      | some v' => exact .inr ⟨rfl, rfl⟩
  refine ⟨fun p => ?_, fun p hp => ?_, fun p q hp hq => ?_⟩
  · rcases key p with ⟨e1, e2⟩ | ⟨e1, e2⟩ <;> rw [e1, e2] <;> simp
  · rcases key p with ⟨e1, e2⟩ | ⟨e1, e2⟩ <;> rw [e1, e2]
    · simp only [Option.some.injEq, FVal.fin.injEq, Nat.cast_eq_zero]
      exact l1 p hp
  · rcases key p with ⟨e1, e2⟩ | ⟨e1, e2⟩ <;> rcases key q with ⟨f1, f2⟩ | ⟨f1, f2⟩ <;> rw [e1, e2, f1, f2]
    · simp
    · simp
    · simp only [Option.some.injEq, FVal.fin.injEq, Nat.cast_inj]
      exact l2 p q hp hq

/-! ### The numbers -/

theorem fold_other {k ny nx : Nat} {lab : Labeler} (hl : IsLabeler k ny nx lab) (data : Pos → Num) {p : Pos} (hp : InGrid ny nx p) :
    ∀ (l : List Num) (st : (Pos → Nat) × Nat), data p ∉ l → (l.foldl (labelStep lab data) st).1 p = st.1 p := by
  intro l
  induction l with
  | nil => exact fun _ _ => rfl
  | cons v l ih =>
    intro st hv
    rw [List.mem_cons, not_or] at hv
    rw [List.foldl_cons, ih _ hv.2]
    have : ¬ 0 < (lab fun s => (data s).eq v).1 p := by
      rw [hl.pos _ p hp, Num.eq_iff]
      exact fun h => hv.1 h.1
    show st.1 p + (if _ > 0 then _ else 0) = _
    rw [if_neg this, Nat.add_zero]

theorem fold_same {k ny nx : Nat} {lab : Labeler} (hl : IsLabeler k ny nx lab) (data : Pos → Num) {p q : Pos} (hp : InGrid ny nx p) (hq : InGrid ny nx q)
    (he : data p = data q) (hnan : data p ≠ .nan) : ∀ (l : List Num) (st : (Pos → Nat) × Nat), l.Nodup → data p ∈ l → ∃ a,
      (l.foldl (labelStep lab data) st).1 p = st.1 p + (lab fun s => (data s).eq (data p)).1 p + a ∧
      (l.foldl (labelStep lab data) st).1 q = st.1 q + (lab fun s => (data s).eq (data p)).1 q + a := by
  intro l
  induction l with
  | nil => exact fun _ _ h => nomatch h
  | cons v l ih =>
    intro st hnd hv
    rw [List.nodup_cons] at hnd
    rw [List.foldl_cons]
    by_cases hvp : data p = v
    · subst hvp
      rw [fold_other hl data hp _ _ hnd.1, fold_other hl data hq _ _ (he ▸ hnd.1)]
      have h1 : 0 < (lab fun s => (data s).eq (data p)).1 p := by
        rw [hl.pos _ p hp, Num.eq_iff]
        exact ⟨rfl, hnan⟩
      have h2 : 0 < (lab fun s => (data s).eq (data p)).1 q := by
        rw [hl.pos _ q hq, Num.eq_iff]
        exact ⟨he.symm, he ▸ hnan⟩
      refine ⟨st.2, ?_, ?_⟩
      · show st.1 p + (if _ > 0 then _ else 0) = _
        rw [if_pos h1]
        omega
      · show st.1 q + (if _ > 0 then _ else 0) = _
        rw [if_pos h2]
        omega
    · obtain ⟨a, h1, h2⟩ := ih (labelStep lab data st v) hnd.2 ((List.mem_cons.1 hv).resolve_left hvp)
      refine ⟨a, ?_, ?_⟩
      · rw [h1]
        have : ¬ 0 < (lab fun s => (data s).eq v).1 p := by
          rw [hl.pos _ p hp, Num.eq_iff]
          exact fun h => hvp h.1
        show st.1 p + (if _ > 0 then _ else 0) + _ + _ = _
        rw [if_neg this, Nat.add_zero]
      · rw [h2]
        have : ¬ 0 < (lab fun s => (data s).eq v).1 q := by
          rw [hl.pos _ q hq, Num.eq_iff]
          exact fun h => hvp (he.trans h.1)
        show st.1 q + (if _ > 0 then _ else 0) + _ + _ = _
        rw [if_neg this, Nat.add_zero]

/-- Regions of one value are numbered as `label` numbers the components of the cells with that value. -/
theorem number_same {k ny nx : Nat} {lab : Labeler} (hl : IsLabeler k ny nx lab) (data : Pos → Num) {p q : Pos} (hp : InGrid ny nx p) (hq : InGrid ny nx q)
    (he : data p = data q) (h0 : 0 < createLabels lab ny nx data none p) :
    createLabels lab ny nx data none p < createLabels lab ny nx data none q ↔
      (lab fun s => (data s).eq (data p)).1 p < (lab fun s => (data s).eq (data p)).1 q := by
  have h1 := ((C28_labels hl data none (fun _ h => nomatch h)).1 p hp).1 h0
  have hmem : data p ∈ dropZero (unique ny nx data) := by
    by_contra hno
    have : createLabels lab ny nx data none p = 0 := fold_other hl data hp _ (fun _ => 0, 0) hno
    omega
  have hnd : (dropZero (unique ny nx data)).Nodup := List.Nodup.filter _ (unique_nodup ny nx data)
  obtain ⟨a, e1, e2⟩ := fold_same hl data hp hq he h1.2.1 _ (fun _ => 0, 0) hnd hmem
  have e1 : createLabels lab ny nx data none p = 0 + (lab fun s => (data s).eq (data p)).1 p + a := e1
  have e2 : createLabels lab ny nx data none q = 0 + (lab fun s => (data s).eq (data p)).1 q + a := e2
  rw [e1, e2]
  omega

theorem less_total {a b : Num} (ha : a ≠ .nan) (hb : b ≠ .nan) (h : a ≠ b) : Less a b ∨ Less b a := by
  cases a <;> cases b <;> first | exact absurd rfl ha | exact absurd rfl hb | exact absurd rfl h | exact .inl trivial | exact .inr trivial | skip
  exact lt_or_gt_of_ne fun e => h (by rw [e])

theorem labels_ordered {k ny nx : Nat} {lab : Labeler} (hl : IsLabeler k ny nx lab) {data data' : Pos → Num}
    (h0 : ∀ p, data' p = .fin 0 ↔ data p = .fin 0) (hn : ∀ p, data' p = .nan ↔ data p = .nan) (hs : ∀ p q, data' p = data' q ↔ data p = data q)
    (ho : ∀ p q, data p ≠ .fin 0 → data q ≠ .fin 0 → Less (data p) (data q) → Less (data' p) (data' q)) (p : Pos) (hp : InGrid ny nx p) :
    createLabels lab ny nx data none p = createLabels lab ny nx data' none p := by
  obtain ⟨a1, -, a3⟩ := C28_labels hl data none (fun _ h => nomatch h)
  obtain ⟨b1, -, b3⟩ := C28_labels hl data' none (fun _ h => nomatch h)
  obtain ⟨l1, l2⟩ := labels_recoded hl h0 hn hs
  refine same_numbers (G := InGrid ny nx) (fun p hp => (l1 p hp).symm) ?_ (fun p q hp hq _ h => (l2 p q hp hq).2 h) a3 b3 p hp
  intro p q hp hq hp0 hlt
  have p1 := (a1 p hp).1 (Nat.pos_of_ne_zero hp0)
  have q1 := (a1 q hq).1 (by omega)
  have p0' : 0 < createLabels lab ny nx data' none p := Nat.pos_of_ne_zero fun e => hp0 ((l1 p hp).1 e)
  have q0' : 0 < createLabels lab ny nx data' none q := Nat.pos_of_ne_zero fun e => by
    have := (l1 q hq).1 e
    omega
  by_cases he : data p = data q
  · have h1 := (number_same hl data hp hq he (Nat.pos_of_ne_zero hp0)).1 hlt
    rw [number_same hl data' hp hq ((hs p q).2 he) p0']
    have : (fun s => (data' s).eq (data' p)) = fun s => (data s).eq (data p) := by
      funext s
      rw [Bool.eq_iff_iff, Num.eq_iff, Num.eq_iff, hs, ne_eq, ne_eq, hn]
    rw [this]
    exact h1
  · rcases less_total p1.2.1 q1.2.1 he with h | h
    · exact (C28_order hl data' p q hp hq).1 p0' q0' (ho p q p1.1 q1.1 h)
    · have := (C28_order hl data q p hq hp).1 (by omega) (Nat.pos_of_ne_zero hp0) h
      omega

/-- **C119 (order).**  If the order of the values is kept, the numbers are the same too. -/
theorem C119_ordered {f : Num → Num} (hr : MaskNeedsNull r) (hr' : MaskNeedsNull r') (hl : ∀ k, IsLabeler k r.ny r.nx (label k)) (hc : Ordered f r r')
    (h : regions np label r n none = .ok o) (h' : regions np label r' n none = .ok o') (b : Nat) (p : Pos) (hp : InGrid r.ny r.nx p) :
    cell o' (b, p) = cell o (b, p) := by
  obtain ⟨-, -, -, -, ec⟩ := cells hr h
  obtain ⟨-, -, -, -, ec'⟩ := cells hr' h'
  obtain ⟨s1, s2, s3⟩ := seen_recoded hc.toRecoded b
  rw [ec, ec', hc.ny, hc.nx]
  cases e : cell r (b, p) with
  | none => rw [(hc.null _).2 e]; rfl
  | some v =>
    rw [hc.value _ _ e]
    simp only [Option.map_some, Option.some.injEq, FVal.fin.injEq, Nat.cast_inj]
    refine (labels_ordered (hl n.toNat) s1 s2 s3 (fun p q hp hq hlt => ?_) p hp).symm
    cases e1 : cell r (b, p) with
    | none => exact absurd (by unfold seen; rw [e1]; rfl) hp
    | some v =>
      cases e2 : cell r (b, q) with
      | none => exact absurd (by unfold seen; rw [e2]; rfl) hq
      | some w =>
        rw [seen_some e1, seen_some e2] at hlt
        rw [seen_some (hc.value _ _ e1), seen_some (hc.value _ _ e2)]
        exact (hc.mono _ _ _ _ e1 e2).2 hlt

/-! ### Neighbors, lists of values, fewer cells -/

theorem adjacent_8 {p q : Pos} (h : Adjacent 4 p q) : Adjacent 8 p q := by
  unfold Adjacent at *
  rw [if_pos rfl] at h
  rw [if_neg (by decide)]
  refine ⟨fun e => ?_, by omega, by omega, by omega, by omega⟩
  subst e
  omega

theorem connected_8 {ny nx : Nat} {S : Pos → Prop} {p q : Pos} (h : Connected 4 ny nx S p q) : Connected 8 ny nx S p q := by
  induction h with
  | refl => exact .refl
  | tail _ hbc ih => exact ih.tail ⟨adjacent_8 hbc.1, hbc.2⟩

/-- **C119 (neighbors).**  With 8 neighbors the regions are unions of those with 4, so there are no more of them. -/
theorem C119_neighbors (hr : MaskNeedsNull r) (hl : ∀ k, IsLabeler k r.ny r.nx (label k)) (hu : ∀ l, us = some l → l.Nodup)
    (h : regions np label r 4 us = .ok o) (h' : regions np label r 8 us = .ok o') (b : Nat) :
    (∀ p q, InGrid r.ny r.nx p → InGrid r.ny r.nx q → cell o (b, p) = cell o (b, q) → cell o' (b, p) = cell o' (b, q)) ∧
    ∀ p, InGrid r.ny r.nx p → ∀ k : Nat, 0 < k → cell o' (b, p) = some (.fin (k : Rat)) →
      ∃ q, InGrid r.ny r.nx q ∧ ∃ k' : Nat, cell o (b, q) = some (.fin (k' : Rat)) ∧ k ≤ k' := by
  obtain ⟨-, -, -, -, ec⟩ := cells hr h
  obtain ⟨-, -, -, -, ec'⟩ := cells hr h'
  obtain ⟨a1, a2, -⟩ := C28_labels (hl 4) (seen r b) us hu
  obtain ⟨b1, b2, N, b3, b4⟩ := C28_labels (hl 8) (seen r b) us hu
  have join : ∀ p q, InGrid r.ny r.nx p → InGrid r.ny r.nx q →
      createLabels (label 4) r.ny r.nx (seen r b) us p = createLabels (label 4) r.ny r.nx (seen r b) us q →
      createLabels (label 8) r.ny r.nx (seen r b) us p = createLabels (label 8) r.ny r.nx (seen r b) us q := by
    intro p q hp hq he
    have h1 := (a1 p hp).trans (b1 p hp).symm
    have h2 := (a1 q hq).trans (b1 q hq).symm
    rcases Nat.eq_zero_or_pos (createLabels (label 4) r.ny r.nx (seen r b) us p) with e | e
    · omega
    · have := (a2 p q hp hq e (he ▸ e)).1 he
      exact (b2 p q hp hq (h1.1 e) (h2.1 (he ▸ e))).2 ⟨this.1, connected_8 this.2⟩
  refine ⟨fun p q hp hq he => ?_, fun p hp k hk he => ?_⟩
  · have e1 := ec b p
    have e2 := ec b q
    rw [ec' b p, ec' b q]
    cases e : cell r (b, p) with
    | none =>
      cases e' : cell r (b, q) with
      | none => rfl
      | some w =>
        rw [e1, e2, e, e'] at he
        cases he
    | some v =>
      cases e' : cell r (b, q) with
      | none =>
        rw [e1, e2, e, e'] at he
        cases he
      | some w =>
        rw [e1, e2, e, e'] at he
        simp only [Option.map_some, Option.some.injEq, FVal.fin.injEq, Nat.cast_inj] at he ⊢
        exact join p q hp hq he
  · rw [ec'] at he
    have hlab : createLabels (label 8) r.ny r.nx (seen r b) us p = k := by
      cases e : cell r (b, p) with
      | none => rw [e] at he; cases he
      | some v =>
        rw [e] at he
        simp only [Option.map_some, Option.some.injEq, FVal.fin.injEq, Nat.cast_inj] at he
        exact he
    have hkN : k ≤ N := hlab ▸ b3 p hp
    have hall : ∀ i : Nat, ∃ q, i ∈ Finset.Icc 1 k → InGrid r.ny r.nx q ∧ createLabels (label 8) r.ny r.nx (seen r b) us q = i := by
      intro i
      by_cases hi : i ∈ Finset.Icc 1 k
      · rw [Finset.mem_Icc] at hi
        obtain ⟨q, h1, h2⟩ := b4 i hi.1 (by omega)
        exact ⟨q, fun _ => ⟨h1, h2⟩⟩
      · exact ⟨(0, 0), fun h => absurd h hi⟩
    choose q hq using hall
    have hex : ∃ i ∈ Finset.Icc 1 k, k ≤ createLabels (label 4) r.ny r.nx (seen r b) us (q i) := by
      by_contra hno
      have hno : ∀ i ∈ Finset.Icc 1 k, createLabels (label 4) r.ny r.nx (seen r b) us (q i) < k := fun i hi => by
        by_contra hge
        exact hno ⟨i, hi, by omega⟩
      obtain ⟨i, hi, j, hj, hne, he⟩ := Finset.exists_ne_map_eq_of_card_lt_of_maps_to (s := Finset.Icc 1 k) (t := Finset.Icc 1 (k - 1))
        (f := fun i => createLabels (label 4) r.ny r.nx (seen r b) us (q i)) (by rw [Nat.card_Icc, Nat.card_Icc]; omega) (fun i hi => by
          rw [Finset.mem_coe] at hi
          have h1 := hq i hi
          have h2 := (b1 _ h1.1).1 (by rw [h1.2]; exact (Finset.mem_Icc.1 hi).1)
          have h3 := (a1 _ h1.1).2 h2
          rw [Finset.mem_coe, Finset.mem_Icc]
          exact ⟨h3, Nat.le_sub_one_of_lt (hno i hi)⟩)
      have := join _ _ (hq i hi).1 (hq j hj).1 he
      rw [(hq i hi).2, (hq j hj).2] at this
      exact hne this
    obtain ⟨i, hi, hge⟩ := hex
    refine ⟨q i, (hq i hi).1, _, ?_, hge⟩
    rw [ec]
    cases e : cell r (b, q i) with
    | none =>
      have h1 := hq i hi
      have h2 := (b1 _ h1.1).1 (by rw [h1.2]; exact (Finset.mem_Icc.1 hi).1)
      exact absurd (by unfold seen; rw [e]; rfl) h2.1
    | some v => rfl

/-- **C119 (listed values).**  With `unique_values` the regions of the other values are 0, and the rest are the same regions. -/
theorem C119_listed {l : List Num} (hr : MaskNeedsNull r) (hl : ∀ k, IsLabeler k r.ny r.nx (label k)) (hnd : l.Nodup)
    (h : regions np label r n none = .ok o) (h' : regions np label r n (some l) = .ok o') (b : Nat) (p : Pos) (hp : InGrid r.ny r.nx p) :
    (∀ v, cell r (b, p) = some v → v ∉ l → cell o' (b, p) = some (.fin 0)) ∧
    (∀ v, cell r (b, p) = some v → v ∈ l → (cell o' (b, p) = some (.fin 0) ↔ cell o (b, p) = some (.fin 0)) ∧
      ∀ q w, InGrid r.ny r.nx q → cell r (b, q) = some w → w ∈ l → (cell o' (b, p) = cell o' (b, q) ↔ cell o (b, p) = cell o (b, q))) := by
  obtain ⟨-, -, -, -, ec⟩ := cells hr h
  obtain ⟨-, -, -, -, ec'⟩ := cells hr h'
  obtain ⟨a1, a2, -⟩ := C28_labels (hl n.toNat) (seen r b) none (fun _ h => nomatch h)
  obtain ⟨b1, b2, -⟩ := C28_labels (hl n.toNat) (seen r b) (some l) (fun _ h => by cases h; exact hnd)
  have hpos : ∀ q w, InGrid r.ny r.nx q → cell r (b, q) = some w → w ∈ l →
      (0 < createLabels (label n.toNat) r.ny r.nx (seen r b) (some l) q ↔ 0 < createLabels (label n.toNat) r.ny r.nx (seen r b) none q) := by
    intro q w hq hw hm
    rw [a1 q hq, b1 q hq, seen_some hw]
    refine ⟨fun h => ⟨h.1, h.2.1, fun _ h => nomatch h⟩, fun h => ⟨h.1, h.2.1, fun us hus => ?_⟩⟩
    cases hus
    exact hm
  refine ⟨fun v hv hno => ?_, fun v hv hm => ⟨?_, fun q w hq hw hm' => ?_⟩⟩
  · rw [ec', hv]
    simp only [Option.map_some, Option.some.injEq, FVal.fin.injEq, Nat.cast_eq_zero]
    by_contra h0
    have := ((b1 p hp).1 (Nat.pos_of_ne_zero h0)).2.2 l rfl
    rw [seen_some hv] at this
    exact hno this
  · rw [ec, ec', hv]
    simp only [Option.map_some, Option.some.injEq, FVal.fin.injEq, Nat.cast_eq_zero]
    have := hpos p v hp hv hm
    omega
  · rw [ec, ec, ec', ec', hv, hw]
    simp only [Option.map_some, Option.some.injEq, FVal.fin.injEq, Nat.cast_inj]
    have h1 := hpos p v hp hv hm
    have h2 := hpos q w hq hw hm'
    rcases Nat.eq_zero_or_pos (createLabels (label n.toNat) r.ny r.nx (seen r b) none p) with e1 | e1 <;>
      rcases Nat.eq_zero_or_pos (createLabels (label n.toNat) r.ny r.nx (seen r b) none q) with e2 | e2
    · omega
    · omega
    · omega
    · rw [a2 p q hp hq e1 e2, b2 p q hp hq (h1.2 e1) (h2.2 e2)]

/-- **C119 (fewer cells).**  The regions of some of the cells lie within the regions of all. -/
theorem C119_fewer (hr : MaskNeedsNull r) (hr' : MaskNeedsNull r') (hl : ∀ k, IsLabeler k r.ny r.nx (label k)) (hc : Fewer r r')
    (h : regions np label r n none = .ok o) (h' : regions np label r' n none = .ok o') (b : Nat) (p q : Pos) (hp : InGrid r.ny r.nx p)
    (hq : InGrid r.ny r.nx q) (hp0 : cell o' (b, p) ≠ none) (hp1 : cell o' (b, p) ≠ some (.fin 0)) (he : cell o' (b, p) = cell o' (b, q)) :
    cell o (b, p) = cell o (b, q) := by
  obtain ⟨-, -, -, -, ec⟩ := cells hr h
  obtain ⟨-, -, -, -, ec'⟩ := cells hr' h'
  rw [hc.ny, hc.nx] at ec'
  obtain ⟨a1, a2, -⟩ := C28_labels (hl n.toNat) (seen r b) none (fun _ h => nomatch h)
  obtain ⟨b1, b2, -⟩ := C28_labels (hl n.toNat) (seen r' b) none (fun _ h => nomatch h)
  have hq0 := he ▸ hp0
  have hq1 := he ▸ hp1
  have one : ∀ q, InGrid r.ny r.nx q → cell o' (b, q) ≠ none → cell o' (b, q) ≠ some (.fin 0) →
      0 < createLabels (label n.toNat) r.ny r.nx (seen r' b) none q ∧ seen r b q = seen r' b q ∧
      cell o' (b, q) = some (.fin (createLabels (label n.toNat) r.ny r.nx (seen r' b) none q : Rat)) ∧
      cell o (b, q) = some (.fin (createLabels (label n.toNat) r.ny r.nx (seen r b) none q : Rat)) := by
    intro q hq h0 h1
    rw [ec'] at h0 h1
    cases e : cell r' (b, q) with
    | none => rw [e] at h0; exact absurd rfl h0
    | some v =>
      rw [e] at h1
      have h2 : 0 < createLabels (label n.toNat) r.ny r.nx (seen r' b) none q := by
        refine Nat.pos_of_ne_zero fun h => h1 ?_
        rw [h]
        rfl
      have h3 := ((b1 q hq).1 h2).1
      rw [seen_some e] at h3
      have h4 : cell r (b, q) = some v := by
        rcases hc.some (b, q) with g | g | g
        · rw [e] at g; cases g
        · rw [e, Option.some.injEq] at g; exact absurd g h3
        · rw [← g, e]
      refine ⟨h2, by rw [seen_some e, seen_some h4], by rw [ec', e]; rfl, by rw [ec, h4]; rfl⟩
  obtain ⟨p1, p2, p3, p4⟩ := one p hp hp0 hp1
  obtain ⟨q1, q2, q3, q4⟩ := one q hq hq0 hq1
  have hpos : ∀ q, InGrid r.ny r.nx q → 0 < createLabels (label n.toNat) r.ny r.nx (seen r' b) none q → seen r b q = seen r' b q →
      0 < createLabels (label n.toNat) r.ny r.nx (seen r b) none q := by
    intro q hq h1 h2
    rw [a1 q hq, h2, ← b1 q hq]
    exact h1
  rw [p3, q3] at he
  simp only [Option.some.injEq, FVal.fin.injEq, Nat.cast_inj] at he
  rw [p4, q4]
  simp only [Option.some.injEq, FVal.fin.injEq, Nat.cast_inj]
  obtain ⟨c1, c2⟩ := (b2 p q hp hq p1 q1).1 he
  rw [a2 p q hp hq (hpos p hp p1 p2) (hpos q hq q1 q2), p2, q2]
  refine ⟨c1, widen c2 fun s hs hps => ?_⟩
  have hds := on_path (S := fun s => seen r' b s = seen r' b p) rfl hps
  have hp3 := ((b1 p hp).1 p1).1
  rw [← hds] at hp3 ⊢
  unfold seen at hp3 ⊢
  rcases hc.some (b, s) with g | g | g
  · rw [g] at hp3; exact absurd rfl hp3
  · rw [g] at hp3; exact absurd rfl hp3
  · rw [g]

/-! ### After `reclassify` -/

open Verif.Remap
open Verif.Trips.Dicts.Spec (Hit Exact)

/-- A dict whose values differ from each other, from 0 and NaN and from the other cells, without 0 as a key, gives a raster with other values. -/
theorem recoded {i : Raster} {t after : Remapping} {nt : Option DType} {out : DType} (hex : Exact np r t nt false out) (hi : reclassify np r t nt false = .ok (i, after))
    (hval : ∀ k x, (k, x) ∈ t → k.val ≠ .fin 0 ∧ ∃ s, x = some s ∧ s.val ≠ .fin 0 ∧ s.val ≠ .nan)
    (hinj : ∀ k s k' s', (k, some s) ∈ t → (k', some s') ∈ t → s.val = s'.val → k.val = k'.val)
    (hother : ∀ c v, cell r c = some v → (∀ k x, (k, x) ∈ t → ¬ Hit k v) → ∀ k s, (k, some s) ∈ t → s.val ≠ v) : Recoded r i := by
  have key : ∀ c, (cell r c = none ∧ cell i c = none) ∨ (∃ v k s, cell r c = some v ∧ (k, some s) ∈ t ∧ Hit k v ∧ cell i c = some s.val) ∨
      ∃ v, cell r c = some v ∧ (∀ k x, (k, x) ∈ t → ¬ Hit k v) ∧ cell i c = some v := by
    intro c
    have h := Dicts.C118_cells hex hi c
    cases e : cell r c with
    | none =>
      rw [e] at h
      exact .inl ⟨rfl, h⟩
    | some v =>
      rw [e] at h
      rcases h with ⟨k, x, h1, h2, h3⟩ | ⟨h1, h2⟩
      · obtain ⟨-, s, rfl, -⟩ := hval k x h1
        exact .inr (.inl ⟨v, k, s, rfl, h1, h2, h3⟩)
      · exact .inr (.inr ⟨v, rfl, h1, h2⟩)
  obtain ⟨-, hy, hx⟩ := C26_shape hi
  refine ⟨hy, hx, fun c => ?_, fun c => ?_, fun c => ?_, fun c c' => ?_⟩
  · rcases key c with ⟨h1, h2⟩ | ⟨v, k, s, h1, -, -, h2⟩ | ⟨v, h1, -, h2⟩ <;> rw [h1, h2] <;> simp
  · rcases key c with ⟨h1, h2⟩ | ⟨v, k, s, h1, h3, h4, h2⟩ | ⟨v, h1, -, h2⟩ <;> rw [h1, h2]
    obtain ⟨g1, s', g2, g3, -⟩ := hval _ _ h3
    cases g2
    rw [Option.some.injEq, Option.some.injEq]
    exact ⟨fun h => absurd h g3, fun h => absurd (h4.1.trans h) g1⟩
  · rcases key c with ⟨h1, h2⟩ | ⟨v, k, s, h1, h3, h4, h2⟩ | ⟨v, h1, -, h2⟩ <;> rw [h1, h2]
    obtain ⟨g1, s', g2, -, g3⟩ := hval _ _ h3
    cases g2
    rw [Option.some.injEq, Option.some.injEq]
    exact ⟨fun h => absurd h g3, fun h => absurd h h4.2⟩
  · rcases key c with ⟨h1, h2⟩ | ⟨v, k, s, h1, h3, h4, h2⟩ | ⟨v, h1, h3, h2⟩ <;>
      rcases key c' with ⟨k1, k2⟩ | ⟨v', k', s', k1, k3, k4, k2⟩ | ⟨v', k1, k3, k2⟩ <;> rw [h1, h2, k1, k2] <;>
      first | (rw [Option.some.injEq, Option.some.injEq]) | simp
    · constructor
      · intro h
        rw [← h4.1, ← k4.1]
        exact hinj k s k' s' h3 k3 h
      · intro h
        have := Dicts.same_entry hex.dict h3 k3 (h4.1.trans (h.trans k4.1.symm))
        rw [Option.some.injEq] at this
        rw [this]
    · constructor
      · intro h
        exact absurd h (hother c' v' k1 k3 k s h3)
      · intro h
        exact absurd (h ▸ h4) (k3 k _ h3)
    · constructor
      · intro h
        exact absurd h.symm (hother c v h1 h3 k' s' k3)
      · intro h
        exact absurd (h.symm ▸ k4) (h3 k' _ k3)

/-- **C119 (reclassify).**  Giving the values other names does not change the regions. -/
theorem C119_reclassify {i : Raster} {t after : Remapping} {nt : Option DType} {out : DType} (hr : MaskNeedsNull r) (hl : ∀ k, IsLabeler k r.ny r.nx (label k))
    (hex : Exact np r t nt false out) (hi : reclassify np r t nt false = .ok (i, after))
    (hval : ∀ k x, (k, x) ∈ t → k.val ≠ .fin 0 ∧ ∃ s, x = some s ∧ s.val ≠ .fin 0 ∧ s.val ≠ .nan)
    (hinj : ∀ k s k' s', (k, some s) ∈ t → (k', some s') ∈ t → s.val = s'.val → k.val = k'.val)
    (hother : ∀ c v, cell r c = some v → (∀ k x, (k, x) ∈ t → ¬ Hit k v) → ∀ k s, (k, some s) ∈ t → s.val ≠ v)
    (h : regions np label r n none = .ok o) (h' : regions np label i n none = .ok o') (b : Nat) :
    (∀ p, cell o' (b, p) = none ↔ cell o (b, p) = none) ∧
    (∀ p, InGrid r.ny r.nx p → (cell o' (b, p) = some (.fin 0) ↔ cell o (b, p) = some (.fin 0))) ∧
    ∀ p q, InGrid r.ny r.nx p → InGrid r.ny r.nx q → (cell o' (b, p) = cell o' (b, q) ↔ cell o (b, p) = cell o (b, q)) := by
  have hi' : MaskNeedsNull i := by
    intro c hm
    unfold reclassify at hi
    split at hi
    · cases hi
    · simp only [Except.ok.injEq, Prod.mk.injEq] at hi
      rw [← hi.1] at hm ⊢
      exact (fun e => by
        simp only [ofData] at hm e
        rw [e] at hm
        cases hm)
  exact C119_recoded hr hi' hl (recoded hex hi hval hinj hother) h h' b

end

/-! ### Examples -/

section


/-- 5, 5, null, 0, 5, 8 and 1, 1, null, 0, 1, 3; and 5, null, null, 0, 5, 0. -/
def exA : Raster := ⟨i32, 1, 1, 6, fun c => [.fin 5, .fin 5, .fin (-1), .fin 0, .fin 5, .fin 8].getD c.2.2 (.fin 0), fun c => c.2.2 == 2, some ⟨i32, .fin (-1)⟩⟩
def exB : Raster := ⟨i32, 1, 1, 6, fun c => [.fin 1, .fin 1, .fin (-1), .fin 0, .fin 1, .fin 3].getD c.2.2 (.fin 0), fun c => c.2.2 == 2, some ⟨i32, .fin (-1)⟩⟩
def exC : Raster := ⟨i32, 1, 1, 6, fun c => [.fin 5, .fin (-1), .fin (-1), .fin 0, .fin 5, .fin 0].getD c.2.2 (.fin 0), fun c => c.2.2 == 1 || c.2.2 == 2, some ⟨i32, .fin (-1)⟩⟩

theorem column (c : Cell) : c.2.2 = 0 ∨ c.2.2 = 1 ∨ c.2.2 = 2 ∨ c.2.2 = 3 ∨ c.2.2 = 4 ∨ c.2.2 = 5 ∨ ∃ k, c.2.2 = k + 6 := by
  rcases Nat.lt_or_ge c.2.2 6 with h | h
  · omega
  · exact .inr (.inr (.inr (.inr (.inr (.inr ⟨c.2.2 - 6, by omega⟩)))))

theorem exA_cell (c : Cell) : cell exA c = [some (.fin 5), some (.fin 5), none, some (.fin 0), some (.fin 5), some (.fin 8)].getD c.2.2 (some (.fin 0)) := by
  obtain ⟨b, y, x⟩ := c
  match x with
  | 0 | 1 | 2 | 3 | 4 | 5 => rfl
  | k + 6 => rfl

theorem exB_cell (c : Cell) : cell exB c = [some (.fin 1), some (.fin 1), none, some (.fin 0), some (.fin 1), some (.fin 3)].getD c.2.2 (some (.fin 0)) := by
  obtain ⟨b, y, x⟩ := c
  match x with
  | 0 | 1 | 2 | 3 | 4 | 5 => rfl
  | k + 6 => rfl

theorem exC_cell (c : Cell) : cell exC c = [some (.fin 5), none, none, some (.fin 0), some (.fin 5), some (.fin 0)].getD c.2.2 (some (.fin 0)) := by
  obtain ⟨b, y, x⟩ := c
  match x with
  | 0 | 1 | 2 | 3 | 4 | 5 => rfl
  | k + 6 => rfl

/-- The values of `exB` for those of `exA`. -/
def exF (v : Num) : Num := if v = .fin 5 then .fin 1 else if v = .fin 8 then .fin 3 else v

theorem exB_of_exA (c : Cell) : cell exB c = (cell exA c).map exF := by
  rw [exA_cell, exB_cell]
  rcases column c with h | h | h | h | h | h | ⟨k, h⟩ <;> rw [h] <;> rfl

theorem exA_values (c : Cell) : cell exA c ∈ [none, some (.fin 0), some (.fin 5), some (.fin 8)] := by
  rw [exA_cell]
  rcases column c with h | h | h | h | h | h | ⟨k, h⟩ <;> rw [h]
  · decide +kernel
  · decide +kernel
  · decide +kernel
  · decide +kernel
  · decide +kernel
  · decide +kernel
  · exact .tail _ (.head _)

theorem exOrdered : Ordered exF exA exB := by
  refine ⟨⟨rfl, rfl, fun c => ?_, fun c => ?_, fun c => ?_, fun c c' => ?_⟩, fun c v hv => by rw [exB_of_exA, hv]; rfl, fun c c' v v' hv hv' => ?_⟩
  · rw [exB_of_exA]
    have := exA_values c
    revert this
    generalize cell exA c = v
    revert v
    decide +kernel
  · rw [exB_of_exA]
    have := exA_values c
    revert this
    generalize cell exA c = v
    revert v
    decide +kernel
  · rw [exB_of_exA]
    have := exA_values c
    revert this
    generalize cell exA c = v
    revert v
    decide +kernel
  · rw [exB_of_exA, exB_of_exA]
    have h1 := exA_values c
    have h2 := exA_values c'
    generalize cell exA c = v at h1
    generalize cell exA c' = w at h2
    exact (by decide +kernel : ∀ v ∈ [none, some (.fin 0), some (.fin 5), some (.fin 8)], ∀ w ∈ [none, some (.fin 0), some (.fin 5), some (.fin 8)],
      (Option.map exF v = Option.map exF w ↔ v = w)) v h1 w h2
  · have h1 := exA_values c
    have h2 := exA_values c'
    rw [hv] at h1
    rw [hv'] at h2
    simp only [List.mem_cons, List.not_mem_nil, or_false, Option.some.injEq, reduceCtorEq, false_or] at h1 h2
    rcases h1 with rfl | rfl | rfl <;> rcases h2 with rfl | rfl | rfl <;> norm_num [exF, Less]

example : ∃ label : Nat → Labeler, (∀ k, IsLabeler k exA.ny exA.nx (label k)) ∧ MaskNeedsNull exA ∧ MaskNeedsNull exB ∧ MaskNeedsNull exC ∧ Ordered exF exA exB ∧
    (∃ o, regions (idNumPy false) label exA 4 none = .ok o) ∧ (∃ o, regions (idNumPy false) label exA 8 (some [.fin 8]) = .ok o) := by
  choose label h using fun n => labeler_exists n exA.ny exA.nx
  exact ⟨label, h, (fun _ _ h => nomatch h), (fun _ _ h => nomatch h), (fun _ _ h => nomatch h), exOrdered, ⟨_, rfl⟩, ⟨_, rfl⟩⟩

example : Fewer exA exC := by
  refine ⟨rfl, rfl, fun c => ?_⟩
  rw [exA_cell, exC_cell]
  rcases column c with h | h | h | h | h | h | ⟨k, h⟩ <;> rw [h]
  · decide +kernel
  · decide +kernel
  · decide +kernel
  · decide +kernel
  · decide +kernel
  · decide +kernel
  · exact .inr (.inl rfl)

/-- The dict {5: 1, 8: 3} for `C119_reclassify`. -/
example : (∀ k x, (k, x) ∈ ([(.int 5, some ⟨i64, .fin 1⟩), (.int 8, some ⟨i64, .fin 3⟩)] : Remap.Remapping) → k.val ≠ .fin 0 ∧ ∃ s, x = some s ∧ s.val ≠ .fin 0 ∧ s.val ≠ .nan) ∧
    (match Remap.reclassify (idNumPy false) exA [(.int 5, some ⟨i64, .fin 1⟩), (.int 8, some ⟨i64, .fin 3⟩)] none false with
      | .ok (i, _) => some ((List.range 6).map fun x => cell i (0, 0, x))
      | .error _ => none) = some [some (.fin 1), some (.fin 1), none, some (.fin 0), some (.fin 1), some (.fin 3)] := by
  refine ⟨fun k x h => ?_, by decide +kernel⟩
  simp only [List.mem_cons, Prod.mk.injEq, List.not_mem_nil, or_false] at h
  rcases h with ⟨rfl, rfl⟩ | ⟨rfl, rfl⟩
  · exact ⟨by decide +kernel, _, rfl, by decide +kernel, by decide +kernel⟩
  · exact ⟨by decide +kernel, _, rfl, by decide +kernel, by decide +kernel⟩

end

end Verif.Trips.Islands
