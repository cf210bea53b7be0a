import Verif.CostDistance.Invariant
import Mathlib.Analysis.Real.Sqrt

/-!
# Cost distance: property theorems (C05 - C08)
-/

set_option linter.unusedSectionVars false

namespace Verif.CostDistance

open Verif Spec

variable {R : Type} [Field R] [LinearOrder R] [IsStrictOrderedRing R]

/-- Everything the theorems below need about the final state. -/
theorem final_state {sqrt : R → R} {I : Input R} (hs : ∀ x, 0 ≤ sqrt x)
    (hconn : I.connectivity = 4 ∨ I.connectivity = 8) :
    ∃ st m, (∀ cap, I.rows * I.cols ≤ cap → coreWith (mkCore sqrt I) cap = some st) ∧
      core (mkCore sqrt I) = some st ∧ st.heap.count = 0 ∧ Inv sqrt I st m (fun _ _ => False) := by
  obtain ⟨st0, m0, e0, p0, V0⟩ := inv_start (sqrt := sqrt) (I := I)
  obtain ⟨st, m, e1, c1, V1, hmore⟩ := inv_mainLoop hs hconn (I.rows * I.cols) V0 (by omega)
  have hall : ∀ cap, I.rows * I.cols ≤ cap → coreWith (mkCore sqrt I) cap = some st := by
    intro cap hcap
    simp [coreWith, e0, hmore cap hcap]
  refine ⟨st, m, hall, hall _ ?_, c1, V1⟩
  show I.rows * I.cols ≤ maxiter (I.rows * I.cols)
  unfold maxiter
  omega

theorem costDistance_eq {sqrt : R → R} {I : Input R} (hr : 0 < I.scaleRow) (hc : 0 < I.scaleCol)
    (hconn : I.connectivity = 4 ∨ I.connectivity = 8) {st : St R}
    (h : core (mkCore sqrt I) = some st) :
    costDistance sqrt I = .ok (some { dist := reshape I.cols st.dist, tb := reshape I.cols st.tb
                                      alloc := reshape I.cols st.alloc }) := by
  unfold costDistance
  rw [if_neg (by rw [not_or]; exact ⟨not_le.mpr hr, not_le.mpr hc⟩), if_neg (not_not.mpr hconn), h]
  rfl

/-- **C05.**  The reported cost of every cell is a lower bound of the cost of every path from a source
to the cell and, unless it is infinite, it is the cost of such a path.  Sources report 0. -/
theorem C05_cost_distance_least {sqrt : R → R} {I : Input R} (hs : ∀ x, 0 ≤ sqrt x)
    (hr : 0 < I.scaleRow) (hc : 0 < I.scaleCol)
    (hconn : I.connectivity = 4 ∨ I.connectivity = 8) :
    ∃ out, costDistance sqrt I = .ok (some out) ∧ ∀ p, InGrid I p →
      (∀ w, PathCost sqrt I p w → out.dist p.1 p.2 ≤ (w : WithTop R)) ∧
      (out.dist p.1 p.2 = ⊤ ∨ ∃ w, PathCost sqrt I p w ∧ out.dist p.1 p.2 = (w : WithTop R)) ∧
      (IsSource I p → out.dist p.1 p.2 = ((0 : R) : WithTop R)) := by
  obtain ⟨st, m, _, hcore, h0, V⟩ := final_state hs hconn
  refine ⟨_, costDistance_eq hr hc hconn hcore, ?_⟩
  intro p hp
  obtain ⟨v, hv, rfl⟩ := exists_flat hp
  have hd : reshape I.cols st.dist (cellOf I.cols v).1 (cellOf I.cols v).2 = st.dist.get v := by
    unfold reshape; rw [flat_cellOf]
  simp only [hd]
  refine ⟨?_, ?_, ?_⟩
  · intro w hw
    obtain ⟨u, _, hu, hle⟩ := V.optimal hconn h0 hw
    rw [cellOf_inj hu] at hle
    exact hle
  · by_cases hpv : v ∈ st.popped
    · obtain ⟨s, l, w, ht, hw, _⟩ := V.trail v hpv
      exact Or.inr ⟨w, Trail.pathCost ht, hw⟩
    · exact Or.inl (V.undist v hv hpv)
  · intro hsrc
    rcases V.src v hv hsrc with ⟨_, h⟩ | h
    · exact h
    · rw [V.holds.count_eq_zero.mp h0] at h; cases h

/-- **C05**, argument checks: the only rejections are a non-positive scaling and a connectivity other
than 4 and 8. -/
theorem C05_rejections (sqrt : R → R) (I : Input R) :
    (costDistance sqrt I = .error .scaling ↔ I.scaleRow ≤ 0 ∨ I.scaleCol ≤ 0) ∧
    (costDistance sqrt I = .error .connectivity ↔ 0 < I.scaleRow ∧ 0 < I.scaleCol ∧
      I.connectivity ≠ 4 ∧ I.connectivity ≠ 8) := by
  unfold costDistance
  by_cases h1 : I.scaleRow ≤ 0 ∨ I.scaleCol ≤ 0
  · rw [if_pos h1]
    refine ⟨by simp [h1], ?_⟩
    constructor
    · intro h; cases h
    · rintro ⟨a, b, _⟩
      rcases h1 with h | h
      · exact absurd a (not_lt.mpr h)
      · exact absurd b (not_lt.mpr h)
  · rw [if_neg h1]
    have h1' := h1
    rw [not_or, not_le, not_le] at h1'
    by_cases h2 : I.connectivity = 4 ∨ I.connectivity = 8
    · rw [if_neg (not_not.mpr h2)]
      constructor
      · constructor
        · intro h; cases h
        · intro h; exact absurd h h1
      · constructor
        · intro h; cases h
        · rintro ⟨_, _, a, b⟩
          rcases h2 with h | h
          · exact absurd h a
          · exact absurd h b
    · rw [if_pos h2]
      rw [not_or] at h2
      constructor
      · constructor
        · intro h; cases h
        · intro h; exact absurd h h1
      · simp [h1', h2]

/-- **C06.**  A cell has a finite cost exactly if a path leads to it.  Unreached cells keep an infinite
cost, traceback -2 and the null allocation.  Barrier cells that are not sources are unreached. -/
theorem C06_reached_iff_path {sqrt : R → R} {I : Input R} (hs : ∀ x, 0 ≤ sqrt x)
    (hr : 0 < I.scaleRow) (hc : 0 < I.scaleCol)
    (hconn : I.connectivity = 4 ∨ I.connectivity = 8) :
    ∃ out, costDistance sqrt I = .ok (some out) ∧ ∀ p, InGrid I p →
      (out.dist p.1 p.2 ≠ ⊤ ↔ ∃ w, PathCost sqrt I p w) ∧
      (out.dist p.1 p.2 = ⊤ → out.tb p.1 p.2 = -2 ∧ out.alloc p.1 p.2 = I.sourcesNull) ∧
      (out.dist p.1 p.2 ≠ ⊤ → out.tb p.1 p.2 ≠ -2 ∧ out.alloc p.1 p.2 ≠ I.sourcesNull) ∧
      (¬ IsSource I p → ¬ Open I p → out.dist p.1 p.2 = ⊤) := by
  obtain ⟨st, m, _, hcore, h0, V⟩ := final_state hs hconn
  refine ⟨_, costDistance_eq hr hc hconn hcore, ?_⟩
  intro p hp
  obtain ⟨v, hv, rfl⟩ := exists_flat hp
  have hd : reshape I.cols st.dist (cellOf I.cols v).1 (cellOf I.cols v).2 = st.dist.get v := by
    unfold reshape; rw [flat_cellOf]
  have ht : reshape I.cols st.tb (cellOf I.cols v).1 (cellOf I.cols v).2 = st.tb.get v := by
    unfold reshape; rw [flat_cellOf]
  have ha : reshape I.cols st.alloc (cellOf I.cols v).1 (cellOf I.cols v).2 = st.alloc.get v := by
    unfold reshape; rw [flat_cellOf]
  simp only [hd, ht, ha]
  have hpop : st.dist.get v ≠ ⊤ ↔ v ∈ st.popped := by
    constructor
    · intro h
      by_contra hc
      exact h (V.undist v hv hc)
    · intro h
      obtain ⟨_, w, _, hw⟩ := V.pdist v h
      rw [hw]; exact WithTop.coe_ne_top
  have hiff : st.dist.get v ≠ ⊤ ↔ ∃ w, PathCost sqrt I (cellOf I.cols v) w := by
    rw [hpop]
    constructor
    · intro h
      obtain ⟨s, l, w, ht, _⟩ := V.trail v h
      exact ⟨w, Trail.pathCost ht⟩
    · rintro ⟨w, hw⟩
      obtain ⟨u, hu, huv, _⟩ := V.optimal hconn h0 hw
      rw [cellOf_inj huv] at hu
      exact hu
  refine ⟨hiff, ?_, ?_, ?_⟩
  · intro h
    exact V.unk v hv (fun hp => hpop.mpr hp h) (V.holds.count_eq_zero.mp h0 v)
  · intro h
    obtain ⟨s, l, w, htr, _, _, _, hal⟩ := V.trail v (hpop.mp h)
    constructor
    · rw [← tbc_cellOf (I := I)]
      cases htr with
      | source _ hb => rw [hb]; decide
      | step _ _ hb _ _ _ =>
        intro hcontra
        rw [hcontra] at hb
        simp [backDir] at hb
    · rw [hal]
      have : ∀ {p s : Cell} {l w}, Trail sqrt I (tbc I st) p s l w → IsSource I s := by
        intro p s l w h
        induction h with
        | source h _ => exact h
        | step _ _ _ _ _ _ ih => exact ih
      exact (this htr).2
  · intro hns hno
    by_contra h
    obtain ⟨w, hw⟩ := hiff.mp h
    cases hw with
    | source h => exact hns h
    | step _ h => exact hno h.2.2.1

/-- **C07.**  From every reached cell the traceback codes lead, through pairwise distinct cells of the
grid, to a source; the path walked costs what is reported and the allocation is that source's value.  A source leads to itself. -/
theorem C07_traceback {sqrt : R → R} {I : Input R} (hs : ∀ x, 0 ≤ sqrt x)
    (hr : 0 < I.scaleRow) (hc : 0 < I.scaleCol)
    (hconn : I.connectivity = 4 ∨ I.connectivity = 8) :
    ∃ out, costDistance sqrt I = .ok (some out) ∧ ∀ p, InGrid I p → out.dist p.1 p.2 ≠ ⊤ →
      ∃ s l w, Trail sqrt I (fun c => out.tb c.1 c.2) p s l w ∧ l.Nodup ∧
        (∀ c ∈ l, InGrid I c) ∧ IsSource I s ∧
        out.dist p.1 p.2 = (w : WithTop R) ∧ out.alloc p.1 p.2 = I.source s.1 s.2 ∧ (IsSource I p → s = p) := by
  obtain ⟨st, m, _, hcore, h0, V⟩ := final_state hs hconn
  refine ⟨_, costDistance_eq hr hc hconn hcore, ?_⟩
  intro p hp hne
  obtain ⟨v, hv, rfl⟩ := exists_flat hp
  have hd : reshape I.cols st.dist (cellOf I.cols v).1 (cellOf I.cols v).2 = st.dist.get v := by
    unfold reshape; rw [flat_cellOf]
  have ha : reshape I.cols st.alloc (cellOf I.cols v).1 (cellOf I.cols v).2 = st.alloc.get v := by
    unfold reshape; rw [flat_cellOf]
  simp only [hd, ha] at hne ⊢
  have hpv : v ∈ st.popped := by
    by_contra hc'
    exact hne (V.undist v hv hc')
  obtain ⟨s, l, w, ht, hw, hnd, hin, hal⟩ := V.trail v hpv
  have hsrc : ∀ {p s : Cell} {l w}, Trail sqrt I (tbc I st) p s l w → IsSource I s := by
    intro p s l w h
    induction h with
    | source h _ => exact h
    | step _ _ _ _ _ _ ih => exact ih
  refine ⟨s, l, w, ht, hnd, ?_, hsrc ht, hw, hal, ?_⟩
  · intro c hcl
    obtain ⟨u, hu, rfl⟩ := hin c hcl
    exact inGrid_cellOf (V.pdist u hu).1
  · intro hsp
    have ho := (V.own v hv hsp).1
    cases ht with
    | source _ _ => rfl
    | step _ _ hb _ _ _ =>
      rw [tbc_cellOf, ho] at hb
      simp [backDir] at hb

/-- **C08.**  Any iteration cap of at least the number of cells gives the result of the shipped cap; the
search ends with an empty queue and no cell was finalised twice. -/
theorem C08_iteration_budget {sqrt : R → R} {I : Input R} (hs : ∀ x, 0 ≤ sqrt x)
    (hconn : I.connectivity = 4 ∨ I.connectivity = 8) :
    ∃ st, core (mkCore sqrt I) = some st ∧ st.heap.count = 0 ∧ st.popped.Nodup ∧
      st.popped.length ≤ I.rows * I.cols ∧
      ∀ cap, I.rows * I.cols ≤ cap → coreWith (mkCore sqrt I) cap = core (mkCore sqrt I) := by
  obtain ⟨st, m, hall, hcore, h0, V⟩ := final_state hs hconn
  exact ⟨st, hcore, h0, V.nodup, V.popped_length, fun cap hcap => by rw [hall cap hcap, hcore]⟩

/-! ### Concrete cases -/

/-- Two rows, three columns; the middle of the first row is a barrier, so the corner at the right is
reached around it.  Only the first cell is a source. -/
def exInput : Input ℚ where
  rows := 2
  cols := 3
  cost := fun r c => if r = 0 ∧ c = 1 then .nan else .fin (r + c + 1 : ℕ)
  source := fun r c => if r = 0 ∧ c = 0 then 7 else 0
  sourcesNull := 0
  elev := none
  elevNull := -9999
  scaleRow := 1
  scaleCol := 1
  connectivity := 4

/-- Stand-in for the square root: right on 0 and 1, the only values needed with unit scaling and
connectivity 4. -/
def exSqrt (x : ℚ) : ℚ := |x|

example : (∀ x, 0 ≤ exSqrt x) ∧ 0 < exInput.scaleRow ∧ 0 < exInput.scaleCol ∧
    (exInput.connectivity = 4 ∨ exInput.connectivity = 8) :=
  ⟨fun x => abs_nonneg x, by norm_num [exInput], by norm_num [exInput], Or.inl rfl⟩

/-- The whole computation on the concrete grid: costs, traceback codes and one allocation. -/
example : (match costDistance exSqrt exInput with
    | .ok (some o) => ([o.dist 0 0, o.dist 0 1, o.dist 0 2, o.dist 1 0, o.dist 1 1, o.dist 1 2],
        [o.tb 0 0, o.tb 0 1, o.tb 0 2, o.tb 1 0, o.tb 1 1, o.tb 1 2], o.alloc 0 2)
    | _ => ([], [], 0)) =
    ([((0 : ℚ) : WithTop ℚ), ⊤, ((11 : ℚ) : WithTop ℚ), ((3 / 2 : ℚ) : WithTop ℚ),
      ((4 : ℚ) : WithTop ℚ), ((15 / 2 : ℚ) : WithTop ℚ)], [-1, -2, 2, 6, 4, 4], 7) := by
  decide +kernel

/-- The general theorems apply to real numbers and the real square root. -/
example (I : Input ℝ) (hr : 0 < I.scaleRow) (hc : 0 < I.scaleCol) (h8 : I.connectivity = 8) :
    ∃ out, costDistance Real.sqrt I = .ok (some out) ∧ ∀ p, InGrid I p →
      (out.dist p.1 p.2 ≠ ⊤ ↔ ∃ w, PathCost Real.sqrt I p w) := by
  obtain ⟨out, h1, h2⟩ := C06_reached_iff_path Real.sqrt_nonneg hr hc (Or.inr h8)
  exact ⟨out, h1, fun p hp => (h2 p hp).1⟩

end Verif.CostDistance
