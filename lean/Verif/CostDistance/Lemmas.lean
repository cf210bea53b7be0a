import Mathlib.Tactic.Ring
import Mathlib.Tactic.Linarith
import Mathlib.Tactic.FieldSimp
import Mathlib.Tactic.LinearCombination
import Verif.Heap.Client
import Verif.CostDistance.Spec

/-! Helper lemmas for cost distance: grid geometry and the Dijkstra invariant. -/

set_option linter.unusedSectionVars false

namespace Verif.CostDistance

open Verif Spec

section Geometry

/-- Cell of a flat index. -/
def cellOf (cols v : Nat) : Cell := (v / cols, v % cols)

theorem flat_cellOf (cols v : Nat) : (cellOf cols v).1 * cols + (cellOf cols v).2 = v :=
  Nat.div_add_mod' v cols

theorem cellOf_flat {cols r c : Nat} (hc : c < cols) : cellOf cols (r * cols + c) = (r, c) := by
  unfold cellOf
  have h0 : 0 < cols := by omega
  rw [Nat.add_comm, Nat.add_mul_div_right _ _ h0, Nat.div_eq_of_lt hc, Nat.add_mul_mod_self_right,
    Nat.mod_eq_of_lt hc, Nat.zero_add]

theorem cellOf_inj {cols u v : Nat} (h : cellOf cols u = cellOf cols v) : u = v := by
  rw [← flat_cellOf cols u, ← flat_cellOf cols v, h]

theorem flat_lt {rows cols r c : Nat} (hr : r < rows) (hc : c < cols) :
    r * cols + c < rows * cols := by
  calc r * cols + c < r * cols + cols := by omega
    _ = (r + 1) * cols := by ring
    _ ≤ rows * cols := Nat.mul_le_mul_right _ hr

theorem cellOf_lt {rows cols v : Nat} (h : v < rows * cols) :
    (cellOf cols v).1 < rows ∧ (cellOf cols v).2 < cols := by
  have h0 : 0 < cols := by
    rcases Nat.eq_zero_or_pos cols with h0 | h0
    · subst h0; simp at h
    · exact h0
  exact ⟨(Nat.div_lt_iff_lt_mul h0).mpr h, Nat.mod_lt _ h0⟩

/-- `q` is the neighbour of `p` in direction number `i` of the move table. -/
def Dir (i : Nat) (p q : Cell) : Prop :=
  ∃ mv, moves[i]? = some mv ∧ (q.1 : Int) = p.1 + mv.1 ∧ (q.2 : Int) = p.2 + mv.2

variable {R : Type} [Field R] [LinearOrder R]

theorem inGrid_cellOf {I : Input R} {v : Nat} (h : v < I.rows * I.cols) :
    InGrid I (cellOf I.cols v) := cellOf_lt h

theorem exists_flat {I : Input R} {p : Cell} (h : InGrid I p) :
    ∃ v, v < I.rows * I.cols ∧ cellOf I.cols v = p :=
  ⟨p.1 * I.cols + p.2, flat_lt h.1 h.2, cellOf_flat h.2⟩

theorem mem_moveIdx {b : Bool} {i : Nat} (h : i ∈ moveIdx b) : i < 8 := by
  unfold moveIdx at h
  split at h <;> simp at h <;> omega

/-- The edge test lets exactly the moves through that stay on the grid. -/
theorem badMove_iff (C : Core R) {v : Nat} (hv : v < C.rows * C.cols) {mv : Int × Int}
    (hm : mv ∈ moves) :
    badMove C v mv = false ↔ (0 ≤ (v / C.cols : Int) + mv.1 ∧ (v / C.cols : Int) + mv.1 < C.rows ∧
      0 ≤ (v % C.cols : Int) + mv.2 ∧ (v % C.cols : Int) + mv.2 < C.cols) := by
  have hc := cellOf_lt hv
  simp only [cellOf] at hc
  have h1 : v / C.cols % C.rows = v / C.cols := Nat.mod_eq_of_lt hc.1
  have e1 : ((v / C.cols : Nat) : Int) = (v : Int) / (C.cols : Int) := Int.natCast_ediv v C.cols
  have e2 : ((v % C.cols : Nat) : Int) = (v : Int) % (C.cols : Int) := Int.natCast_emod v C.cols
  rw [← e1, ← e2]
  unfold badMove
  simp only [strides, Nat.one_mul, Nat.div_one, h1]
  generalize hr : v / C.cols = r at *
  generalize hcc : v % C.cols = c at *
  simp only [moves, List.mem_cons, List.not_mem_nil, or_false] at hm
  simp only [Bool.and_eq_false_imp, Bool.or_eq_true, decide_eq_true_eq, Bool.or_eq_false_iff,
    Bool.and_eq_false_imp, decide_eq_false_iff_not]
  constructor
  · intro h
    rcases hm with rfl | rfl | rfl | rfl | rfl | rfl | rfl | rfl <;> simp at h ⊢ <;> omega
  · intro h
    rcases hm with rfl | rfl | rfl | rfl | rfl | rfl | rfl | rfl <;> simp at h ⊢ <;> omega

/-- A move that is let through ends at a cell of the grid. -/
theorem move_ok (C : Core R) {v : Nat} (hv : v < C.rows * C.cols) {i : Nat} {mv : Int × Int}
    (hi : moves[i]? = some mv) (hb : badMove C v mv = false) :
    ∃ u, Heap.toIdx ((v : Int) + flatMove C.cols mv) = some u ∧ u < C.rows * C.cols ∧
      Dir i (cellOf C.cols v) (cellOf C.cols u) := by
  have hm : mv ∈ moves := List.mem_of_getElem? hi
  obtain ⟨a1, a2, a3, a4⟩ := (badMove_iff C hv hm).mp hb
  obtain ⟨r', hr'⟩ := Int.eq_ofNat_of_zero_le a1
  obtain ⟨c', hc'⟩ := Int.eq_ofNat_of_zero_le a3
  have hr2 : r' < C.rows := by omega
  have hc2 : c' < C.cols := by omega
  have hflat : (v : Int) + flatMove C.cols mv = ((r' * C.cols + c' : Nat) : Int) := by
    have h0 := Int.mul_ediv_add_emod (v : Int) (C.cols : Int)
    push_cast
    rw [← hr', ← hc']
    simp only [flatMove, strides, Nat.one_mul]
    push_cast
    linear_combination -h0
  refine ⟨r' * C.cols + c', ?_, flat_lt hr2 hc2, mv, hi, ?_, ?_⟩
  · rw [hflat]; simp [Heap.toIdx]
    omega
  · rw [cellOf_flat hc2]; simp only [cellOf]; push_cast; exact hr'.symm
  · rw [cellOf_flat hc2]; simp only [cellOf]; push_cast; exact hc'.symm

/-- A move that would leave the grid is rejected, the others are not. -/
theorem bad_of_dir (C : Core R) {v u : Nat} (hv : v < C.rows * C.cols) (hu : u < C.rows * C.cols)
    {i : Nat} (hd : Dir i (cellOf C.cols v) (cellOf C.cols u)) :
    ∃ mv, moves[i]? = some mv ∧ badMove C v mv = false ∧
      Heap.toIdx ((v : Int) + flatMove C.cols mv) = some u := by
  obtain ⟨mv, hi, h1, h2⟩ := hd
  have hm : mv ∈ moves := List.mem_of_getElem? hi
  have hb : badMove C v mv = false := by
    rw [badMove_iff C hv hm]
    have := cellOf_lt hu
    simp only [cellOf] at h1 h2 this
    push_cast at h1 h2
    refine ⟨?_, ?_, ?_, ?_⟩
    · rw [← h1]; exact_mod_cast Nat.zero_le _
    · rw [← h1]; exact_mod_cast this.1
    · rw [← h2]; exact_mod_cast Nat.zero_le _
    · rw [← h2]; exact_mod_cast this.2
  obtain ⟨u', e, hu', mv', hi', g1, g2⟩ := move_ok C hv hi hb
  rw [hi] at hi'; injection hi' with hi'; subst hi'
  have : u' = u := by
    apply cellOf_inj (cols := C.cols)
    refine Prod.ext ?_ ?_
    · have := g1.trans h1.symm; exact_mod_cast this
    · have := g2.trans h2.symm; exact_mod_cast this
  subst this
  exact ⟨mv, hi, hb, e⟩

/-- Neighbours are exactly the cells one move of the table away. -/
theorem adj_iff_dir {I : Input R} (hconn : I.connectivity = 4 ∨ I.connectivity = 8) {p q : Cell} :
    Adj I p q ↔ ∃ i ∈ moveIdx (decide (I.connectivity = 8)), Dir i p q := by
  obtain ⟨a, b⟩ := p
  obtain ⟨c, d⟩ := q
  constructor
  · rintro ⟨hne, h1, h2, h4⟩
    simp only [ne_eq, Prod.mk.injEq, not_and] at hne h1 h2 h4
    have hr : (c : Int) = a - 1 ∨ (c : Int) = a ∨ (c : Int) = a + 1 := by omega
    have hc : (d : Int) = b - 1 ∨ (d : Int) = b ∨ (d : Int) = b + 1 := by omega
    have key : ∀ i mv, moves[i]? = some mv → (i % 2 = 0 ∨ I.connectivity = 8) → i < 8 →
        (c : Int) = a + mv.1 → (d : Int) = b + mv.2 →
        ∃ i ∈ moveIdx (decide (I.connectivity = 8)), Dir i (a, b) (c, d) := by
      intro i mv hi hpar hlt e1 e2
      refine ⟨i, ?_, mv, hi, e1, e2⟩
      rcases hconn with h | h
      · simp only [h, moveIdx]
        have : i % 2 = 0 := by omega
        simp; omega
      · simp only [h, moveIdx]; simp; omega
    have h8 : ¬ (a = c ∨ b = d) → I.connectivity = 8 := by
      intro hn; rcases hconn with h | h
      · exact absurd (h4 h) hn
      · exact h
    rcases hr with hr | hr | hr <;> rcases hc with hc | hc | hc
    · exact key 1 (-1, -1) rfl (Or.inr (h8 (by omega))) (by omega) (by simp; omega) (by simp; omega)
    · exact key 2 (-1, 0) rfl (Or.inl rfl) (by omega) (by simp; omega) (by simp; omega)
    · exact key 3 (-1, 1) rfl (Or.inr (h8 (by omega))) (by omega) (by simp; omega) (by simp; omega)
    · exact key 0 (0, -1) rfl (Or.inl rfl) (by omega) (by simp; omega) (by simp; omega)
    · omega
    · exact key 4 (0, 1) rfl (Or.inl rfl) (by omega) (by simp; omega) (by simp; omega)
    · exact key 7 (1, -1) rfl (Or.inr (h8 (by omega))) (by omega) (by simp; omega) (by simp; omega)
    · exact key 6 (1, 0) rfl (Or.inl rfl) (by omega) (by simp; omega) (by simp; omega)
    · exact key 5 (1, 1) rfl (Or.inr (h8 (by omega))) (by omega) (by simp; omega) (by simp; omega)
  · rintro ⟨i, hi, mv, hmv, h1, h2⟩
    simp only at h1 h2
    unfold moveIdx at hi
    unfold Adj
    simp only [ne_eq, Prod.mk.injEq]
    rcases hconn with h | h
    · simp only [h] at hi
      simp at hi
      rcases hi with rfl | rfl | rfl | rfl <;> simp [moves] at hmv <;> subst hmv <;>
        simp only at h1 h2 <;> omega
    · simp only [h] at hi
      simp at hi
      rcases hi with rfl | rfl | rfl | rfl | rfl | rfl | rfl | rfl <;> simp [moves] at hmv <;>
        subst hmv <;> simp only at h1 h2 <;> omega

/-- The traceback code leads back. -/
theorem backDir_of_dir {i : Nat} {p q : Cell} (h : Dir i p q) : ∃ dr dc, backDir i = some (dr, dc) ∧
    (p.1 : Int) = q.1 + dr ∧ (p.2 : Int) = q.2 + dc := by
  obtain ⟨mv, hi, h1, h2⟩ := h
  have : i < 8 := by
    have := (List.getElem?_eq_some_iff.mp hi).1
    simpa [moves] using this
  rcases i with _ | _ | _ | _ | _ | _ | _ | _ | i <;> first
    | omega
    | (simp [moves] at hi
       subst hi
       refine ⟨_, _, rfl, ?_, ?_⟩ <;> simp only at h1 h2 ⊢ <;> omega)

end Geometry

end Verif.CostDistance
