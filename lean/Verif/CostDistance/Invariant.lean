import Verif.CostDistance.Lemmas
import Mathlib.Data.List.Perm.Subperm
import Mathlib.Data.List.Perm.Lattice

/-! The Dijkstra invariant of the main loop. -/

set_option linter.unusedSectionVars false

namespace Verif.CostDistance

open Verif Spec

variable {R : Type} [Field R] [LinearOrder R] [IsStrictOrderedRing R]

section Steps

variable {sqrt : R → R} {I : Input R}

theorem stepCost_exists {p q : Cell} (hp : Open I p) (hg : InGrid I q) (hq : Open I q)
    (ha : Adj I p q) : ∃ e, StepCost sqrt I p q e := by
  obtain ⟨cp, hcp, _⟩ := hp.1
  obtain ⟨cq, hcq, _⟩ := hq.1
  exact ⟨_, hp, hg, hq, ha, cp, cq, hcp, hcq, rfl⟩

theorem travel_nonneg (hs : ∀ x, 0 ≤ sqrt x) (p q : Cell) : 0 ≤ travel sqrt I p q := by
  unfold travel
  simp only
  split <;> exact hs _

theorem stepCost_nonneg (hs : ∀ x, 0 ≤ sqrt x) {p q : Cell} {e : R}
    (h : StepCost sqrt I p q e) : 0 ≤ e := by
  obtain ⟨hp, _, hq, _, cp, cq, hcp, hcq, rfl⟩ := h
  obtain ⟨c, hc, h0⟩ := hp.1
  obtain ⟨c', hc', h0'⟩ := hq.1
  rw [hcp] at hc; injection hc with hc; subst hc
  rw [hcq] at hc'; injection hc' with hc'; subst hc'
  have := travel_nonneg (I := I) hs p q
  have h2 : 0 ≤ (cp + cq) / 2 := by linarith
  exact mul_nonneg this h2

theorem stepCost_unique {p q : Cell} {e e' : R}
    (h : StepCost sqrt I p q e) (h' : StepCost sqrt I p q e') : e = e' := by
  obtain ⟨_, _, _, _, cp, cq, hcp, hcq, rfl⟩ := h
  obtain ⟨_, _, _, _, cp', cq', hcp', hcq', rfl⟩ := h'
  rw [hcp] at hcp'; injection hcp' with hcp'; subst hcp'
  rw [hcq] at hcq'; injection hcq' with hcq'; subst hcq'
  rfl

theorem costs_read {v : Nat} (hv : v < I.rows * I.cols) :
    (mkCore sqrt I).costs.read v = some (I.cost (cellOf I.cols v).1 (cellOf I.cols v).2) :=
  Arr.read_of_lt (a := ravel I.rows I.cols I.cost) hv

theorem stepLength_eq {v u i : Nat} (hv : v < I.rows * I.cols) (hu : u < I.rows * I.cols)
    (hd : Dir i (cellOf I.cols v) (cellOf I.cols u)) :
    ((∀ e, I.elev = some e → e (cellOf I.cols u).1 (cellOf I.cols u).2 ≠ I.elevNull) →
      stepLength (mkCore sqrt I) v u ((mkCore sqrt I).moveLen i) =
        some (some (travel sqrt I (cellOf I.cols v) (cellOf I.cols u)))) ∧
    (¬ (∀ e, I.elev = some e → e (cellOf I.cols u).1 (cellOf I.cols u).2 ≠ I.elevNull) →
      stepLength (mkCore sqrt I) v u ((mkCore sqrt I).moveLen i) = some none) := by
  obtain ⟨mv, hi, h1, h2⟩ := hd
  have e1 : ((cellOf I.cols u).1 : Int) - (cellOf I.cols v).1 = mv.1 := by omega
  have e2 : ((cellOf I.cols u).2 : Int) - (cellOf I.cols v).2 = mv.2 := by omega
  unfold stepLength travel
  simp only [e1, e2]
  rcases hE : I.elev with _ | e
  · constructor
    · intro _
      simp [mkCore, hE, hi]
    · intro hc
      exact absurd (fun e he => by cases he) hc
  · have hr1 : v < (ravel I.rows I.cols e).size := hv
    have hr2 : u < (ravel I.rows I.cols e).size := hu
    have g1 : (ravel I.rows I.cols e).get v = e (cellOf I.cols v).1 (cellOf I.cols v).2 := rfl
    have g2 : (ravel I.rows I.cols e).get u = e (cellOf I.cols u).1 (cellOf I.cols u).2 := rfl
    constructor
    · intro hne
      have hne := hne e rfl
      simp [mkCore, hE, hi, Arr.read_of_lt hr1, Arr.read_of_lt hr2, g1, g2, hne]
    · intro hc
      have hc : e (cellOf I.cols u).1 (cellOf I.cols u).2 = I.elevNull := by
        by_contra hne
        exact hc (fun e' he' => by injection he' with he'; subst he'; exact hne)
      simp [mkCore, hE, Arr.read_of_lt hr1, Arr.read_of_lt hr2, g2, hc]

theorem expandable_eq {v : Nat} (hv : v < I.rows * I.cols) :
    (Open I (cellOf I.cols v) → ∃ c, I.cost (cellOf I.cols v).1 (cellOf I.cols v).2 = .fin c ∧
      expandable (mkCore sqrt I) v = some (some c)) ∧
    (¬ Open I (cellOf I.cols v) → expandable (mkCore sqrt I) v = some none) := by
  unfold expandable
  rw [costs_read hv]
  have helev : ∀ e, I.elev = some e → (mkCore sqrt I).elev = some (ravel I.rows I.cols e) := by
    intro e he; simp [mkCore, he]
  have helev' : I.elev = none → (mkCore sqrt I).elev = none := by
    intro he; simp [mkCore, he]
  constructor
  · rintro ⟨⟨c, hc, h0⟩, he⟩
    refine ⟨c, hc, ?_⟩
    simp only [hc, Option.bind_eq_bind, Option.bind_some, if_neg (not_lt.mpr h0)]
    rcases hE : I.elev with _ | e
    · rw [helev' hE]
    · rw [helev e hE]
      have hr1 : v < (ravel I.rows I.cols e).size := hv
      simp only [Arr.read_of_lt hr1, Option.bind_some]
      rw [if_neg]
      exact he e hE
  · intro hn
    simp only [Option.bind_eq_bind, Option.bind_some]
    split
    · rename_i c hc
      split
      · rfl
      · rename_i h0
        rcases hE : I.elev with _ | e
        · exact absurd ⟨⟨c, hc, not_lt.mp h0⟩, fun e he => by rw [hE] at he; cases he⟩ hn
        · rw [helev e hE]
          have hr1 : v < (ravel I.rows I.cols e).size := hv
          simp only [Arr.read_of_lt hr1, Option.bind_some]
          rw [if_pos]
          by_contra hne
          refine hn ⟨⟨c, hc, not_lt.mp h0⟩, fun e' he' => ?_⟩
          rw [hE] at he'; injection he' with he'; subst he'
          exact hne
    · rfl
    · rfl
    · rfl

/-- What `visit` does after the checks. -/
def relax (st : St R) (newCum : WithTop R) (src : Int) (u i : Nat) : Option (St R) := do
  let r ← Heap.pushIfLower st.heap newCum (u : Int)
  if r.2 > 0 then do
    let tb ← st.tb.write u (i : Int)
    let alloc ← st.alloc.write u src
    pure { st with heap := r.1, tb := tb, alloc := alloc }
  else pure { st with heap := r.1 }

theorem visit_known {st : St R} {cum : WithTop R} {c : R} {src : Int} {v u i : Nat}
    (hsz : st.dist.size = I.rows * I.cols) (hu : u < I.rows * I.cols)
    (hd : st.dist.get u ≠ ⊤) : visit (mkCore sqrt I) cum c src v u i st = some st := by
  unfold visit
  rw [Arr.read_of_lt (by omega)]
  simp [hd]

theorem visit_open {st : St R} {w : R} {c e : R} {src : Int} {v u i : Nat}
    (hsz : st.dist.size = I.rows * I.cols) (hv : v < I.rows * I.cols) (hu : u < I.rows * I.cols)
    (hd : st.dist.get u = ⊤) (hdir : Dir i (cellOf I.cols v) (cellOf I.cols u))
    (hc : I.cost (cellOf I.cols v).1 (cellOf I.cols v).2 = .fin c)
    (he : StepCost sqrt I (cellOf I.cols v) (cellOf I.cols u) e) :
    visit (mkCore sqrt I) (w : WithTop R) c src v u i st =
      relax st ((w + e : R) : WithTop R) src u i := by
  obtain ⟨hp, _, hq, _, cp, cq, hcp, hcq, rfl⟩ := he
  rw [hc] at hcp; injection hcp with hcp; subst hcp
  have h0 : 0 ≤ cq := by
    obtain ⟨c', hc', h0'⟩ := hq.1
    rw [hcq] at hc'; injection hc' with hc'; subst hc'; exact h0'
  unfold visit
  rw [Arr.read_of_lt (by omega), costs_read hu]
  have hlen := (stepLength_eq (sqrt := sqrt) hv hu hdir).1 hq.2
  have heq : (w : WithTop R) + ((travel sqrt I (cellOf I.cols v) (cellOf I.cols u) * (1 / 2) *
      (c + cq) : R) : WithTop R) =
      ((w + travel sqrt I (cellOf I.cols v) (cellOf I.cols u) * ((c + cq) / 2) : R) : WithTop R) := by
    rw [← WithTop.coe_add]
    congr 1
    ring
  simp only [hd, ne_eq, not_true_eq_false, if_false, Option.bind_eq_bind, Option.bind_some, hcq,
    if_neg (not_lt.mpr h0), hlen, heq, WithTop.coe_ne_top, not_false_eq_true, if_true]
  rfl

theorem visit_closed {st : St R} {cum : WithTop R} {c : R} {src : Int} {v u i : Nat}
    (hsz : st.dist.size = I.rows * I.cols) (hv : v < I.rows * I.cols) (hu : u < I.rows * I.cols)
    (hdir : Dir i (cellOf I.cols v) (cellOf I.cols u))
    (hn : ¬ Open I (cellOf I.cols u)) :
    visit (mkCore sqrt I) cum c src v u i st = some st := by
  unfold visit
  rw [Arr.read_of_lt (by omega), costs_read hu]
  simp only [Option.bind_eq_bind, Option.bind_some]
  split
  · rfl
  · rcases hcq : I.cost (cellOf I.cols u).1 (cellOf I.cols u).2 with cq | _ | _ | _
    · simp only
      split
      · rfl
      · rename_i h0
        have hne : ¬ (∀ e, I.elev = some e → e (cellOf I.cols u).1 (cellOf I.cols u).2 ≠ I.elevNull) :=
          fun hall => hn ⟨⟨cq, hcq, not_lt.mp h0⟩, hall⟩
        rw [(stepLength_eq (sqrt := sqrt) hv hu hdir).2 hne]
        rfl
    · rfl
    · rfl
    · rfl

end Steps

/-! ### The invariant -/

variable (sqrt : R → R) (I : Input R)

/-- Traceback array as a function of the cell. -/
def tbc (st : St R) : Cell → Int := fun c => st.tb.get (c.1 * I.cols + c.2)

/-- Why `v` is on the heap with key `w`. -/
def Label (st : St R) (v : Nat) (w : R) : Prop :=
  (IsSource I (cellOf I.cols v) ∧ w = 0 ∧ st.tb.get v = -1 ∧
    st.alloc.get v = I.source (cellOf I.cols v).1 (cellOf I.cols v).2) ∨
  ∃ u ∈ st.popped, ∃ i e wu, st.tb.get v = (i : Nat) ∧ Dir i (cellOf I.cols u) (cellOf I.cols v) ∧
    StepCost sqrt I (cellOf I.cols u) (cellOf I.cols v) e ∧ st.dist.get u = (wu : R) ∧ w = wu + e ∧
    st.alloc.get v = st.alloc.get u

/-- `pend v i`: move `i` of the popped cell `v` has not been looked at yet. -/
structure Inv (st : St R) (m : Heap.Spec.PMap (WithTop R)) (pend : Nat → Nat → Prop) : Prop where
  holds : Heap.Holds st.heap m
  hmax : ∀ v, v < I.rows * I.cols → v ≤ st.heap.maxValue
  dsz : st.dist.size = I.rows * I.cols
  tsz : st.tb.size = I.rows * I.cols
  asz : st.alloc.size = I.rows * I.cols
  pdist : ∀ v ∈ st.popped, v < I.rows * I.cols ∧ ∃ w : R, 0 ≤ w ∧ st.dist.get v = w
  undist : ∀ v, v < I.rows * I.cols → v ∉ st.popped → st.dist.get v = ⊤
  nodup : st.popped.Nodup
  hp : ∀ v k, m v = some k → v < I.rows * I.cols ∧ v ∉ st.popped ∧
    ∃ w : R, 0 ≤ w ∧ k = w ∧ Label sqrt I st v w
  src : ∀ v, v < I.rows * I.cols → IsSource I (cellOf I.cols v) →
    (v ∈ st.popped ∧ st.dist.get v = (0 : R)) ∨ m v = some ((0 : R) : WithTop R)
  own : ∀ v, v < I.rows * I.cols → IsSource I (cellOf I.cols v) →
    st.tb.get v = -1 ∧ st.alloc.get v = I.source (cellOf I.cols v).1 (cellOf I.cols v).2
  bound : ∀ v ∈ st.popped, ∀ u k, m u = some k → st.dist.get v ≤ k
  closure : ∀ v ∈ st.popped, ∀ i ∈ moveIdx (decide (I.connectivity = 8)), ¬ pend v i →
    ∀ u (e : R), u < I.rows * I.cols → Dir i (cellOf I.cols v) (cellOf I.cols u) →
      StepCost sqrt I (cellOf I.cols v) (cellOf I.cols u) e →
      (u ∈ st.popped ∧ st.dist.get u ≤ st.dist.get v + (e : WithTop R)) ∨
      ∃ k, m u = some k ∧ k ≤ st.dist.get v + (e : WithTop R)
  unk : ∀ v, v < I.rows * I.cols → v ∉ st.popped → m v = none →
    st.tb.get v = -2 ∧ st.alloc.get v = I.sourcesNull
  trail : ∀ v ∈ st.popped, ∃ s l w, Trail sqrt I (tbc I st) (cellOf I.cols v) s l w ∧
    st.dist.get v = (w : R) ∧ l.Nodup ∧ (∀ c ∈ l, ∃ u ∈ st.popped, c = cellOf I.cols u) ∧
    st.alloc.get v = I.source s.1 s.2

variable {sqrt I}

theorem Trail.congr {tb tb' : Cell → Int} {p s : Cell} {l : List Cell} {w : R}
    (h : Trail sqrt I tb p s l w) (he : ∀ c ∈ l, tb' c = tb c) : Trail sqrt I tb' p s l w := by
  induction h with
  | source hs ht =>
    exact Trail.source hs (by rw [he _ (by simp)]; exact ht)
  | step ht hg hb h1 h2 hc ih =>
    refine Trail.step (ih (fun c hc => he c (by simp [hc]))) hg ?_ h1 h2 hc
    rw [he _ (by simp)]; exact hb

theorem Trail.head_mem {tb : Cell → Int} {p s : Cell} {l : List Cell} {w : R}
    (h : Trail sqrt I tb p s l w) : p ∈ l := by
  cases h <;> simp

theorem Trail.pathCost {tb : Cell → Int} {p s : Cell} {l : List Cell} {w : R}
    (h : Trail sqrt I tb p s l w) : PathCost sqrt I p w := by
  induction h with
  | source hs _ => exact PathCost.source hs
  | step _ _ _ _ _ hc ih => exact PathCost.step ih hc

theorem tbc_cellOf (st : St R) (v : Nat) : tbc I st (cellOf I.cols v) = st.tb.get v := by
  unfold tbc; rw [flat_cellOf]

/-- Relaxing one edge out of the current cell `v`. -/
theorem inv_relax (hs : ∀ x, 0 ≤ sqrt x) {st : St R} {m : Heap.Spec.PMap (WithTop R)}
    {pend : Nat → Nat → Prop} (V : Inv sqrt I st m pend) {v u i : Nat} {w e : R}
    (hi : i ∈ moveIdx (decide (I.connectivity = 8)))
    (hv : v ∈ st.popped) (hw : st.dist.get v = (w : R)) (hmaxd : ∀ x ∈ st.popped, st.dist.get x ≤ w)
    (hu : u < I.rows * I.cols) (hun : u ∉ st.popped)
    (hdir : Dir i (cellOf I.cols v) (cellOf I.cols u))
    (he : StepCost sqrt I (cellOf I.cols v) (cellOf I.cols u) e) :
    ∃ st' m', relax st ((w + e : R) : WithTop R) (st.alloc.get v) u i = some st' ∧
      st'.popped = st.popped ∧ st'.dist = st.dist ∧ (∀ x ∈ st.popped, st'.alloc.get x = st.alloc.get x) ∧
      Inv sqrt I st' m' (fun a b => pend a b ∧ ¬ (a = v ∧ b = i)) := by
  have he0 := stepCost_nonneg hs he
  have hw0 : 0 ≤ w := by
    obtain ⟨_, w', h0, hw'⟩ := V.pdist v hv
    rw [hw] at hw'
    have : w = w' := by exact_mod_cast hw'
    rwa [this]
  -- only this edge is removed from the pending ones
  have hclose : ∀ {m' : Heap.Spec.PMap (WithTop R)}, (∃ k, m' u = some k ∧ k ≤ ((w + e : R) : WithTop R)) →
      (∀ x k, m x = some k → ∃ k', m' x = some k' ∧ k' ≤ k) →
      ∀ a ∈ st.popped, ∀ b ∈ moveIdx (decide (I.connectivity = 8)), ¬ (pend a b ∧ ¬ (a = v ∧ b = i)) →
      ∀ x (e' : R), x < I.rows * I.cols → Dir b (cellOf I.cols a) (cellOf I.cols x) →
        StepCost sqrt I (cellOf I.cols a) (cellOf I.cols x) e' →
        (x ∈ st.popped ∧ st.dist.get x ≤ st.dist.get a + (e' : WithTop R)) ∨
        ∃ k, m' x = some k ∧ k ≤ st.dist.get a + (e' : WithTop R) := by
    intro m' hk hmono a ha b hb hnp x e' hx hd hc
    by_cases hab : a = v ∧ b = i
    · obtain ⟨rfl, rfl⟩ := hab
      have hxu : x = u := by
        obtain ⟨mv, h1, h2, h3⟩ := hd
        obtain ⟨mv', g1, g2, g3⟩ := hdir
        rw [h1] at g1; injection g1 with g1; subst g1
        apply cellOf_inj (cols := I.cols)
        refine Prod.ext ?_ ?_
        · have := h2.trans g2.symm; exact_mod_cast this
        · have := h3.trans g3.symm; exact_mod_cast this
      subst hxu
      have hee := stepCost_unique he hc
      subst hee
      right
      rw [hw, ← WithTop.coe_add]
      exact hk
    · have hnp' : ¬ pend a b := fun hp => hnp ⟨hp, hab⟩
      rcases V.closure a ha b hb hnp' x e' hx hd hc with h | ⟨k, h1, h2⟩
      · exact Or.inl h
      · obtain ⟨k', g1, g2⟩ := hmono x k h1
        exact Or.inr ⟨k', g1, le_trans g2 h2⟩
  unfold relax
  rcases V.holds.pushIfLower ((w + e : R) : WithTop R) (V.hmax u hu) with
    ⟨h', hpush, hold, hmx, hlow⟩ | ⟨k₀, hpush, hm0, hle⟩
  · -- stored or lowered
    have htw : u < st.tb.size := by rw [V.tsz]; exact hu
    have haw : u < st.alloc.size := by rw [V.asz]; exact hu
    refine ⟨{ st with heap := h', tb := st.tb.upd u (i : Int), alloc := st.alloc.upd u (st.alloc.get v) },
      Function.update m u (some ((w + e : R) : WithTop R)), ?_, rfl, rfl, ?_, ?_⟩
    · rw [hpush]
      simp [Arr.write_of_lt htw, Arr.write_of_lt haw]
    · intro x hx
      exact Arr.upd_get_ne _ _ (by rintro rfl; exact hun hx)
    · have hne : ∀ x ∈ st.popped, x ≠ u := by rintro x hx rfl; exact hun hx
      refine { holds := hold, hmax := fun x hx => by simpa [hmx] using V.hmax x hx, dsz := V.dsz,
               tsz := V.tsz, asz := V.asz, pdist := V.pdist, undist := V.undist, nodup := V.nodup,
               hp := ?_, src := ?_, own := ?_, bound := ?_, closure := ?_, unk := ?_, trail := ?_ }
      · intro x k hk
        by_cases hxu : x = u
        · subst hxu
          rw [Function.update_self] at hk
          injection hk with hk
          refine ⟨hu, hun, w + e, by linarith, hk.symm, Or.inr ⟨v, hv, i, e, w, ?_, hdir, he, hw, rfl, ?_⟩⟩
          · simp
          · simp only [Arr.upd_get_self]
            rw [Arr.upd_get_ne _ _ (hne v hv)]
        · rw [Function.update_of_ne hxu] at hk
          obtain ⟨a, b, w', h0, c, d⟩ := V.hp x k hk
          refine ⟨a, b, w', h0, c, ?_⟩
          rcases d with ⟨d1, d2, d3, d4⟩ | ⟨y, hy, j, e', wu, d1, d2, d3, d4, d5, d6⟩
          · left
            refine ⟨d1, d2, ?_, ?_⟩
            · simp only; rw [Arr.upd_get_ne _ _ hxu]; exact d3
            · simp only; rw [Arr.upd_get_ne _ _ hxu]; exact d4
          · right
            refine ⟨y, hy, j, e', wu, ?_, d2, d3, d4, d5, ?_⟩
            · simp only; rw [Arr.upd_get_ne _ _ hxu]; exact d1
            · simp only; rw [Arr.upd_get_ne _ _ hxu, Arr.upd_get_ne _ _ (hne y hy)]; exact d6
      · intro x hx hsx
        rcases V.src x hx hsx with h | h
        · exact Or.inl h
        · right
          by_cases hxu : x = u
          · subst hxu
            have := hlow _ h
            rw [WithTop.coe_lt_coe] at this
            linarith
          · rw [Function.update_of_ne hxu]; exact h
      · intro x hx hsx
        have hxu : x ≠ u := by
          rintro rfl
          rcases V.src x hx hsx with h | h
          · exact hun h.1
          · have := hlow _ h
            rw [WithTop.coe_lt_coe] at this
            linarith
        simp only
        rw [Arr.upd_get_ne _ _ hxu, Arr.upd_get_ne _ _ hxu]
        exact V.own x hx hsx
      · intro x hx y k hk
        by_cases hyu : y = u
        · subst hyu
          rw [Function.update_self] at hk
          injection hk with hk
          rw [← hk]
          refine le_trans (hmaxd x hx) ?_
          rw [WithTop.coe_le_coe]
          linarith
        · rw [Function.update_of_ne hyu] at hk
          exact V.bound x hx y k hk
      · refine hclose ⟨_, Function.update_self .., le_refl _⟩ ?_
        intro x k hk
        by_cases hxu : x = u
        · subst hxu
          exact ⟨_, Function.update_self .., (hlow _ hk).le⟩
        · exact ⟨k, by rw [Function.update_of_ne hxu]; exact hk, le_refl _⟩
      · intro x hx hxn hxm
        have hxu : x ≠ u := by rintro rfl; rw [Function.update_self] at hxm; cases hxm
        rw [Function.update_of_ne hxu] at hxm
        simp only
        rw [Arr.upd_get_ne _ _ hxu, Arr.upd_get_ne _ _ hxu]
        exact V.unk x hx hxn hxm
      · intro x hx
        obtain ⟨s, l, w', t1, t2, t3, t4, t5⟩ := V.trail x hx
        refine ⟨s, l, w', Trail.congr t1 ?_, t2, t3, t4, ?_⟩
        · intro c hc
          obtain ⟨y, hy, rfl⟩ := t4 c hc
          rw [tbc_cellOf, tbc_cellOf]
          exact Arr.upd_get_ne _ _ (hne y hy)
        · simp only
          rw [Arr.upd_get_ne _ _ (hne x hx)]; exact t5
  · -- kept
    refine ⟨st, m, ?_, rfl, rfl, fun _ _ => rfl, ?_⟩
    · rw [hpush]; simp
    · exact { V with closure := hclose ⟨k₀, hm0, hle⟩ (fun x k hk => ⟨k, hk, le_refl _⟩) }

/-- Looking at one move of the current cell. -/
theorem inv_tryMove (hs : ∀ x, 0 ≤ sqrt x) {st : St R} {m : Heap.Spec.PMap (WithTop R)}
    {pend : Nat → Nat → Prop} (V : Inv sqrt I st m pend) {v i : Nat} {w c : R}
    (hconn : I.connectivity = 4 ∨ I.connectivity = 8)
    (hi : i ∈ moveIdx (decide (I.connectivity = 8)))
    (hv : v ∈ st.popped) (hw : st.dist.get v = (w : R)) (hmaxd : ∀ x ∈ st.popped, st.dist.get x ≤ w)
    (hop : Open I (cellOf I.cols v))
    (hc : I.cost (cellOf I.cols v).1 (cellOf I.cols v).2 = .fin c) :
    ∃ st' m', tryMove (mkCore sqrt I) (w : WithTop R) c (st.alloc.get v) v st i = some st' ∧
      st'.popped = st.popped ∧ st'.dist = st.dist ∧ (∀ x ∈ st.popped, st'.alloc.get x = st.alloc.get x) ∧
      Inv sqrt I st' m' (fun a b => pend a b ∧ ¬ (a = v ∧ b = i)) := by
  have hvN := (V.pdist v hv).1
  obtain ⟨mv, hmv⟩ : ∃ mv, moves[i]? = some mv := by
    have : i < moves.length := mem_moveIdx hi
    exact ⟨moves[i], List.getElem?_eq_getElem this⟩
  unfold tryMove
  rw [hmv]
  simp only [Option.bind_eq_bind, Option.bind_some]
  -- if no legal step uses this move, the state can stay
  have hstay : (∀ u (e : R), u < I.rows * I.cols → Dir i (cellOf I.cols v) (cellOf I.cols u) →
      StepCost sqrt I (cellOf I.cols v) (cellOf I.cols u) e →
      u ∈ st.popped ∧ st.dist.get u ≤ st.dist.get v + (e : WithTop R)) →
      Inv sqrt I st m (fun a b => pend a b ∧ ¬ (a = v ∧ b = i)) := by
    intro hall
    refine { V with closure := ?_ }
    intro a ha b hb hnp x e' hx hd hcst
    by_cases hab : a = v ∧ b = i
    · obtain ⟨rfl, rfl⟩ := hab
      exact Or.inl (hall x e' hx hd hcst)
    · exact V.closure a ha b hb (fun hp => hnp ⟨hp, hab⟩) x e' hx hd hcst
  by_cases hb : badMove (mkCore sqrt I) v mv = true
  · rw [if_pos hb]
    refine ⟨st, m, rfl, rfl, rfl, fun _ _ => rfl, hstay ?_⟩
    intro u e hu hd _
    obtain ⟨mv', h1, h2, _⟩ := bad_of_dir (mkCore sqrt I) (v := v) (u := u) hvN hu hd
    rw [hmv] at h1; injection h1 with h1; subst h1
    rw [hb] at h2; cases h2
  · rw [if_neg hb]
    have hb : badMove (mkCore sqrt I) v mv = false := by simpa using hb
    obtain ⟨u, hidx, hu, hdir⟩ := move_ok (mkCore sqrt I) (v := v) hvN hmv hb
    rw [show (mkCore sqrt I).cols = I.cols from rfl] at hidx
    have hu : u < I.rows * I.cols := hu
    have hdir : Dir i (cellOf I.cols v) (cellOf I.cols u) := hdir
    rw [show flatMove (mkCore sqrt I).cols mv = flatMove I.cols mv from rfl, hidx]
    simp only [Option.bind_some]
    have huniq : ∀ x, Dir i (cellOf I.cols v) (cellOf I.cols x) → x = u := by
      intro x hd
      obtain ⟨mv1, h1, h2, h3⟩ := hd
      obtain ⟨mv', g1, g2, g3⟩ := hdir
      rw [h1] at g1; injection g1 with g1; subst g1
      apply cellOf_inj (cols := I.cols)
      refine Prod.ext ?_ ?_
      · have := h2.trans g2.symm; exact_mod_cast this
      · have := h3.trans g3.symm; exact_mod_cast this
    by_cases hup : u ∈ st.popped
    · obtain ⟨_, wu, _, hwu⟩ := V.pdist u hup
      rw [visit_known V.dsz hu (by rw [hwu]; exact WithTop.coe_ne_top)]
      refine ⟨st, m, rfl, rfl, rfl, fun _ _ => rfl, hstay ?_⟩
      intro x e hx hd hcst
      rw [huniq x hd] at hcst ⊢
      refine ⟨hup, le_trans (hmaxd u hup) ?_⟩
      rw [hw, ← WithTop.coe_add, WithTop.coe_le_coe]
      have := stepCost_nonneg hs hcst
      linarith
    · by_cases huo : Open I (cellOf I.cols u)
      · obtain ⟨e, he⟩ := stepCost_exists (sqrt := sqrt) hop (inGrid_cellOf hu) huo
          ((adj_iff_dir hconn).mpr ⟨i, hi, hdir⟩)
        rw [visit_open V.dsz hvN hu (V.undist u hu hup) hdir hc he]
        exact inv_relax hs V hi hv hw hmaxd hu hup hdir he
      · rw [visit_closed V.dsz hvN hu hdir huo]
        refine ⟨st, m, rfl, rfl, rfl, fun _ _ => rfl, hstay ?_⟩
        intro x e hx hd hcst
        rw [huniq x hd] at hcst
        exact absurd hcst.2.2.1 huo

/-- Looking at all remaining moves of the current cell. -/
theorem inv_moves (hs : ∀ x, 0 ≤ sqrt x) {v : Nat} {w c : R} {src : Int}
    (hconn : I.connectivity = 4 ∨ I.connectivity = 8)
    (hop : Open I (cellOf I.cols v))
    (hc : I.cost (cellOf I.cols v).1 (cellOf I.cols v).2 = .fin c) (is : List Nat) :
    ∀ {st : St R} {m : Heap.Spec.PMap (WithTop R)} {pend : Nat → Nat → Prop},
    (∀ i ∈ is, i ∈ moveIdx (decide (I.connectivity = 8))) → Inv sqrt I st m pend →
    v ∈ st.popped → st.dist.get v = (w : R) → (∀ x ∈ st.popped, st.dist.get x ≤ w) →
    st.alloc.get v = src →
    ∃ st' m', is.foldlM (tryMove (mkCore sqrt I) (w : WithTop R) c src v) st = some st' ∧
      st'.popped = st.popped ∧
      Inv sqrt I st' m' (fun a b => pend a b ∧ ¬ (a = v ∧ b ∈ is)) := by
  induction is with
  | nil =>
    intro st m pend _ V _ _ _ _
    exact ⟨st, m, rfl, rfl, { V with closure := fun a ha b hb hnp => V.closure a ha b hb (fun hp => hnp ⟨hp, by simp⟩) }⟩
  | cons i is ih =>
    intro st m pend hin V hv hw hmaxd hsrc
    subst hsrc
    obtain ⟨st1, m1, e1, p1, d1, a1, V1⟩ := inv_tryMove hs V hconn (hin i (by simp)) hv hw hmaxd hop hc
    obtain ⟨st2, m2, e2, p2, V2⟩ := ih (fun j hj => hin j (by simp [hj])) V1 (by rw [p1]; exact hv)
      (by rw [d1]; exact hw) (by rw [p1, d1]; exact hmaxd) (a1 v hv)
    refine ⟨st2, m2, ?_, by rw [p2, p1], ?_⟩
    · rw [List.foldlM_cons, e1]; exact e2
    · refine { V2 with closure := fun a ha b hb hnp => V2.closure a ha b hb (fun hp => hnp ?_) }
      refine ⟨hp.1.1, ?_⟩
      rintro ⟨rfl, hb'⟩
      rcases List.mem_cons.mp hb' with rfl | hb'
      · exact hp.1.2 ⟨rfl, rfl⟩
      · exact hp.2 ⟨rfl, hb'⟩

/-- One iteration of the main loop. -/
theorem inv_iterate (hs : ∀ x, 0 ≤ sqrt x) (hconn : I.connectivity = 4 ∨ I.connectivity = 8)
    {st : St R} {m : Heap.Spec.PMap (WithTop R)} (V : Inv sqrt I st m (fun _ _ => False))
    (hc : st.heap.count ≠ 0) :
    ∃ st' m' v, iterate (mkCore sqrt I) st = some st' ∧ v ∉ st.popped ∧ st'.popped = v :: st.popped ∧
      Inv sqrt I st' m' (fun _ _ => False) := by
  obtain ⟨h', k, v, hpop, hmv, hmin, hold, hmx⟩ := V.holds.pop hc
  obtain ⟨hvN, hvn, w, hw0, rfl, hlab⟩ := V.hp v k hmv
  have hdw : v < st.dist.size := by rw [V.dsz]; exact hvN
  have har : v < st.alloc.size := by rw [V.asz]; exact hvN
  set st1 : St R := { st with heap := h', dist := st.dist.upd v (w : WithTop R)
                              popped := v :: st.popped } with hst1
  have hne : ∀ x ∈ st.popped, x ≠ v := by rintro x hx rfl; exact hvn hx
  -- invariant right after the pop, all moves of `v` pending
  have V1 : Inv sqrt I st1 (Function.update m v none) (fun a _ => a = v) := by
    refine { holds := hold, hmax := fun x hx => by simpa [hst1, hmx] using V.hmax x hx
             dsz := V.dsz, tsz := V.tsz, asz := V.asz, pdist := ?_, undist := ?_, nodup := ?_,
             hp := ?_, src := ?_, own := V.own, bound := ?_, closure := ?_, unk := ?_, trail := ?_ }
    · intro x hx
      simp only [hst1, List.mem_cons] at hx ⊢
      rcases hx with rfl | hx
      · exact ⟨hvN, w, hw0, by simp⟩
      · rw [Arr.upd_get_ne _ _ (hne x hx)]; exact V.pdist x hx
    · intro x hx hxn
      simp only [hst1, List.mem_cons, not_or] at hxn ⊢
      rw [Arr.upd_get_ne _ _ hxn.1]; exact V.undist x hx hxn.2
    · exact List.nodup_cons.mpr ⟨hvn, V.nodup⟩
    · intro x k hk
      have hxv : x ≠ v := by rintro rfl; rw [Function.update_self] at hk; cases hk
      rw [Function.update_of_ne hxv] at hk
      obtain ⟨a, b, w', h0, e, d⟩ := V.hp x k hk
      refine ⟨a, by simp [hst1, hxv, b], w', h0, e, ?_⟩
      rcases d with d | ⟨y, hy, j, e', wu, d1, d2, d3, d4, d5, d6⟩
      · exact Or.inl d
      · refine Or.inr ⟨y, by simp [hst1, hy], j, e', wu, d1, d2, d3, ?_, d5, d6⟩
        simp only [hst1]; rw [Arr.upd_get_ne _ _ (hne y hy)]; exact d4
    · intro x hx hsx
      by_cases hxv : x = v
      · subst hxv
        left
        refine ⟨by simp [hst1], ?_⟩
        simp only [hst1, Arr.upd_get_self]
        rcases V.src x hx hsx with h | h
        · exact absurd h.1 hvn
        · rw [hmv] at h; injection h
      · rcases V.src x hx hsx with ⟨h1, h2⟩ | h
        · left
          refine ⟨by simp [hst1, h1], ?_⟩
          simp only [hst1]; rw [Arr.upd_get_ne _ _ hxv]; exact h2
        · right; rw [Function.update_of_ne hxv]; exact h
    · intro x hx y k hk
      have hyv : y ≠ v := by rintro rfl; rw [Function.update_self] at hk; cases hk
      rw [Function.update_of_ne hyv] at hk
      simp only [hst1, List.mem_cons] at hx ⊢
      rcases hx with rfl | hx
      · rw [Arr.upd_get_self]; exact hmin y k hk
      · rw [Arr.upd_get_ne _ _ (hne x hx)]; exact V.bound x hx y k hk
    · intro a ha b hb hnp x e hx hd hcst
      simp only [hst1, List.mem_cons] at ha ⊢
      have ha : a ∈ st.popped := ha.resolve_left hnp
      rw [Arr.upd_get_ne _ _ (hne a ha)]
      rcases V.closure a ha b hb id x e hx hd hcst with ⟨h1, h2⟩ | ⟨k, h1, h2⟩
      · left
        refine ⟨Or.inr h1, ?_⟩
        rw [Arr.upd_get_ne _ _ (hne x h1)]; exact h2
      · by_cases hxv : x = v
        · subst hxv
          left
          refine ⟨Or.inl rfl, ?_⟩
          rw [hmv] at h1; injection h1 with h1
          rw [Arr.upd_get_self, h1]; exact h2
        · right
          exact ⟨k, by rw [Function.update_of_ne hxv]; exact h1, h2⟩
    · intro x hx hxn hxm
      simp only [hst1, List.mem_cons, not_or] at hxn
      rw [Function.update_of_ne hxn.1] at hxm
      exact V.unk x hx hxn.2 hxm
    · intro x hx
      simp only [hst1, List.mem_cons] at hx
      have htb : tbc I st1 = tbc I st := rfl
      rw [htb]
      rcases hx with rfl | hx
      · rcases hlab with ⟨l1, l2, l3, l4⟩ | ⟨y, hy, j, e, wu, l1, l2, l3, l4, l5, l6⟩
        · refine ⟨cellOf I.cols x, [cellOf I.cols x], 0, Trail.source l1 (by rw [tbc_cellOf]; exact l3),
            by simp [hst1, l2], List.nodup_singleton _, ?_, l4⟩
          intro c hc
          rw [List.mem_singleton] at hc
          exact ⟨x, by simp [hst1], hc⟩
        · obtain ⟨s, l, wy, t1, t2, t3, t4, t5⟩ := V.trail y hy
          obtain ⟨dr, dc, hb, b1, b2⟩ := backDir_of_dir l2
          have hwy : wy = wu := by
            rw [l4] at t2; exact_mod_cast t2.symm
          subst hwy
          refine ⟨s, cellOf I.cols x :: l, wy + e,
            Trail.step t1 (inGrid_cellOf hvN) (by rw [tbc_cellOf, l1]; exact hb) b1 b2 l3,
            by simp [hst1, l5], ?_, ?_, ?_⟩
          · refine List.nodup_cons.mpr ⟨?_, t3⟩
            intro hmem
            obtain ⟨z, hz, hzc⟩ := t4 _ hmem
            have := cellOf_inj hzc
            subst this
            exact hvn hz
          · intro c hc
            rcases List.mem_cons.mp hc with rfl | hc
            · exact ⟨x, by simp [hst1], rfl⟩
            · obtain ⟨z, hz, hzc⟩ := t4 c hc
              exact ⟨z, by simp [hst1, hz], hzc⟩
          · show st.alloc.get x = _
            rw [l6]; exact t5
      · obtain ⟨s, l, wy, t1, t2, t3, t4, t5⟩ := V.trail x hx
        refine ⟨s, l, wy, t1, ?_, t3, ?_, t5⟩
        · simp only [hst1]; rw [Arr.upd_get_ne _ _ (hne x hx)]; exact t2
        · intro c hc
          obtain ⟨z, hz, hzc⟩ := t4 c hc
          exact ⟨z, by simp [hst1, hz], hzc⟩
  unfold iterate
  rw [hpop]
  have hidx : Heap.toIdx (v : Int) = some v := by simp [Heap.toIdx]
  simp only [Option.bind_eq_bind, Option.bind_some, hidx, Arr.read_of_lt har, Arr.write_of_lt hdw]
  by_cases hop : Open I (cellOf I.cols v)
  · obtain ⟨c, hcst, hex⟩ := (expandable_eq (sqrt := sqrt) hvN).1 hop
    rw [hex]
    simp only [Option.bind_some]
    obtain ⟨st2, m2, e2, p2, V2⟩ := inv_moves hs (w := w) (src := st.alloc.get v) hconn hop hcst
      (moveIdx (decide (I.connectivity = 8))) (fun _ h => h) V1 (by simp [hst1])
      (by simp [hst1]) (by
        intro x hx
        simp only [hst1, List.mem_cons] at hx ⊢
        rcases hx with rfl | hx
        · simp
        · rw [Arr.upd_get_ne _ _ (hne x hx)]; exact V.bound x hx v _ hmv) rfl
    refine ⟨st2, m2, v, e2, hvn, p2, ?_⟩
    refine { V2 with closure := fun a ha b hb _ => V2.closure a ha b hb ?_ }
    rintro ⟨rfl, hb'⟩
    exact hb' ⟨rfl, hb⟩
  · rw [(expandable_eq (sqrt := sqrt) hvN).2 hop]
    simp only [Option.bind_some]
    refine ⟨st1, _, v, rfl, hvn, rfl, { V1 with closure := ?_ }⟩
    intro a ha b hb _ x e hx hd hcst
    by_cases hav : a = v
    · subst hav; exact absurd hcst.1 hop
    · exact V1.closure a ha b hb hav x e hx hd hcst

/-- Popped cells are distinct grid cells, so there are at most `rows * cols` of them. -/
theorem Inv.popped_length {st : St R} {m : Heap.Spec.PMap (WithTop R)} {pend : Nat → Nat → Prop}
    (V : Inv sqrt I st m pend) : st.popped.length ≤ I.rows * I.cols := by
  have hsub : st.popped ⊆ List.range (I.rows * I.cols) := by
    intro v hv
    exact List.mem_range.mpr (V.pdist v hv).1
  have := (List.subperm_of_subset V.nodup hsub).length_le
  simpa using this

/-- The main loop with enough fuel runs until the heap is empty. -/
theorem inv_mainLoop (hs : ∀ x, 0 ≤ sqrt x) (hconn : I.connectivity = 4 ∨ I.connectivity = 8)
    (n : Nat) : ∀ {st : St R} {m : Heap.Spec.PMap (WithTop R)}, Inv sqrt I st m (fun _ _ => False) →
    I.rows * I.cols ≤ st.popped.length + n →
    ∃ st' m', mainLoop (mkCore sqrt I) n st = some st' ∧ st'.heap.count = 0 ∧
      Inv sqrt I st' m' (fun _ _ => False) ∧
      ∀ n', n ≤ n' → mainLoop (mkCore sqrt I) n' st = some st' := by
  have hstop : ∀ n {st : St R}, st.heap.count = 0 → mainLoop (mkCore sqrt I) n st = some st := by
    intro n st h0
    cases n with
    | zero => rfl
    | succ n => simp [mainLoop, h0]
  induction n with
  | zero =>
    intro st m V hle
    have h0 : st.heap.count = 0 := by
      by_contra hc
      obtain ⟨st', m', v, _, _, hp, V'⟩ := inv_iterate hs hconn V hc
      have h1 := V'.popped_length
      rw [hp, List.length_cons] at h1
      omega
    exact ⟨st, m, rfl, h0, V, fun n' _ => hstop n' h0⟩
  | succ n ih =>
    intro st m V hle
    by_cases h0 : st.heap.count = 0
    · exact ⟨st, m, hstop _ h0, h0, V, fun n' _ => hstop n' h0⟩
    · obtain ⟨st1, m1, v, e1, _, hp, V1⟩ := inv_iterate hs hconn V h0
      obtain ⟨st2, m2, e2, c2, V2, hmore⟩ := ih V1 (by rw [hp, List.length_cons]; omega)
      refine ⟨st2, m2, by simp [mainLoop, h0, e1, e2], c2, V2, ?_⟩
      intro n' hn'
      obtain ⟨k, rfl⟩ : ∃ k, n' = k + 1 := ⟨n' - 1, by omega⟩
      simp [mainLoop, h0, e1, hmore k (by omega)]

/-- After pushing the sources the invariant holds with nothing popped. -/
theorem inv_start : ∃ st m, start (mkCore sqrt I) = some st ∧ st.popped = [] ∧
    Inv sqrt I st m (fun _ _ => False) := by
  unfold start
  have hsize : (mkCore sqrt I).costs.size = I.rows * I.cols := rfl
  have hssize : (mkCore sqrt I).sources.size = I.rows * I.cols := rfl
  simp only [hsize]
  obtain ⟨h, hinit, hold, hmx⟩ := Heap.holds_init (K := WithTop R) (capacity := 128)
    (maxValue := max (((I.rows * I.cols : Nat) : Int) - 1) 1) (by omega) (by omega)
  rw [hinit]
  simp only
  set st0 : St R := { heap := h, dist := Arr.full (I.rows * I.cols) ⊤
                      tb := Arr.full (I.rows * I.cols) (-2)
                      alloc := Arr.full (I.rows * I.cols) (mkCore sqrt I).sourcesNull
                      popped := [] } with hst0
  have hNle : ∀ v, v < I.rows * I.cols → v ≤ h.maxValue := by
    intro v hv
    have h1 := le_max_left (((I.rows * I.cols : Nat) : Int) - 1) 1
    rw [← hmx] at h1
    generalize I.rows * I.cols = N at *
    omega
  unfold pushSources
  rw [hssize]
  have main : ∀ n, n ≤ I.rows * I.cols → ∃ st m,
      (List.range n).foldlM (fun (st : St R) i => do
        let src ← (mkCore sqrt I).sources.read i
        if src ≠ (mkCore sqrt I).sourcesNull then do
          let tb ← st.tb.write i (-1)
          let alloc ← st.alloc.write i src
          let r ← Heap.push st.heap 0 (i : Int)
          pure { st with heap := r.1, tb := tb, alloc := alloc }
        else pure st) st0 = some st ∧
      Heap.Holds st.heap m ∧ st.heap.maxValue = h.maxValue ∧ st.dist = st0.dist ∧ st.popped = [] ∧
      st.tb.size = I.rows * I.cols ∧ st.alloc.size = I.rows * I.cols ∧
      (∀ v, v < n → IsSource I (cellOf I.cols v) → m v = some ((0 : R) : WithTop R) ∧
        st.tb.get v = -1 ∧ st.alloc.get v = I.source (cellOf I.cols v).1 (cellOf I.cols v).2) ∧
      (∀ v, ¬ (v < n ∧ IsSource I (cellOf I.cols v)) → m v = none ∧
        st.tb.get v = -2 ∧ st.alloc.get v = I.sourcesNull) := by
    intro n
    induction n with
    | zero =>
      intro _
      refine ⟨st0, fun _ => none, rfl, hold, rfl, rfl, rfl, rfl, rfl, by simp, ?_⟩
      intro v _
      exact ⟨rfl, rfl, rfl⟩
    | succ n ih =>
      intro hn
      obtain ⟨st, m, e, H, hm, hd, hp, hts, has, hsrc, hnon⟩ := ih (by omega)
      have hread : (mkCore sqrt I).sources.read n =
          some (I.source (cellOf I.cols n).1 (cellOf I.cols n).2) :=
        Arr.read_of_lt (a := ravel I.rows I.cols I.source) (by show n < I.rows * I.cols; omega)
      have hnull : (mkCore sqrt I).sourcesNull = I.sourcesNull := rfl
      rw [List.range_succ, List.foldlM_append, e]
      simp only [Option.bind_eq_bind, Option.bind_some, List.foldlM_cons, List.foldlM_nil, hread,
        hnull]
      by_cases hs : I.source (cellOf I.cols n).1 (cellOf I.cols n).2 = I.sourcesNull
      · simp only [hs, ne_eq, not_true_eq_false, if_false, Option.pure_def, Option.bind_some]
        refine ⟨st, m, rfl, H, hm, hd, hp, hts, has, ?_, ?_⟩
        · intro v hv hsv
          rcases Nat.lt_succ_iff_lt_or_eq.mp hv with h' | rfl
          · exact hsrc v h' hsv
          · exact absurd hs hsv.2
        · intro v hv
          exact hnon v (fun hc => hv ⟨by omega, hc.2⟩)
      · have hIs : IsSource I (cellOf I.cols n) := ⟨inGrid_cellOf (by omega), hs⟩
        have hle : n ≤ st.heap.maxValue := by rw [hm]; exact hNle n (by omega)
        obtain ⟨h', f, hpush, hold', hmx'⟩ := H.push (((0 : R) : WithTop R)) hle
        have hpush : Heap.push st.heap 0 (n : Int) = some (h', f) := hpush
        simp only [ne_eq, hs, not_false_eq_true, if_true,
          Arr.write_of_lt (show n < st.tb.size by omega),
          Arr.write_of_lt (show n < st.alloc.size by omega), Option.bind_some, hpush,
          Option.pure_def]
        refine ⟨_, _, rfl, hold', by simp [hmx', hm], hd, hp, by simpa using hts,
          by simpa using has, ?_, ?_⟩
        · intro v hv hsv
          by_cases hvn : v = n
          · subst hvn
            exact ⟨Function.update_self .., by simp, by simp⟩
          · simp only
            rw [Function.update_of_ne hvn, Arr.upd_get_ne _ _ hvn, Arr.upd_get_ne _ _ hvn]
            exact hsrc v (by omega) hsv
        · intro v hv
          have hvn : v ≠ n := by rintro rfl; exact hv ⟨by omega, hIs⟩
          simp only
          rw [Function.update_of_ne hvn, Arr.upd_get_ne _ _ hvn, Arr.upd_get_ne _ _ hvn]
          exact hnon v (fun hc => hv ⟨by omega, hc.2⟩)
  obtain ⟨st, m, e, H, hm, hd, hp, hts, has, hsrc, hnon⟩ := main (I.rows * I.cols) (le_refl _)
  refine ⟨st, m, e, hp, ?_⟩
  refine { holds := H, hmax := fun v hv => by rw [hm]; exact hNle v hv, dsz := by rw [hd]; rfl, tsz := hts, asz := has
           pdist := by rw [hp]; simp, undist := fun v _ _ => by rw [hd]; rfl
           nodup := by rw [hp]; exact List.nodup_nil
           hp := ?_, src := ?_, own := fun v hv hsv => (hsrc v hv hsv).2, bound := by rw [hp]; simp, closure := by rw [hp]; simp
           unk := ?_, trail := by rw [hp]; simp }
  · intro v k hk
    have hv : v < I.rows * I.cols ∧ IsSource I (cellOf I.cols v) := by
      by_contra hc
      rw [(hnon v hc).1] at hk; cases hk
    obtain ⟨a, b, c⟩ := hsrc v hv.1 hv.2
    rw [a] at hk; injection hk with hk
    exact ⟨hv.1, by rw [hp]; simp, 0, le_refl _, hk.symm, Or.inl ⟨hv.2, rfl, b, c⟩⟩
  · intro v hv hsv
    exact Or.inr (hsrc v hv hsv).1
  · intro v hv _ hmv
    have : ¬ (v < I.rows * I.cols ∧ IsSource I (cellOf I.cols v)) := by
      intro hc
      rw [(hsrc v hc.1 hc.2).1] at hmv; cases hmv
    exact (hnon v this).2

/-- When the heap is empty, every path to a cell is at least as long as the stored distance. -/
theorem Inv.optimal (hconn : I.connectivity = 4 ∨ I.connectivity = 8)
    {st : St R} {m : Heap.Spec.PMap (WithTop R)} (V : Inv sqrt I st m (fun _ _ => False))
    (h0 : st.heap.count = 0) {p : Cell} {w : R} (hp : PathCost sqrt I p w) :
    ∃ v ∈ st.popped, cellOf I.cols v = p ∧ st.dist.get v ≤ (w : WithTop R) := by
  have hemp := V.holds.count_eq_zero.mp h0
  induction hp with
  | source hs =>
    obtain ⟨v, hv, rfl⟩ := exists_flat hs.1
    rcases V.src v hv hs with ⟨h1, h2⟩ | h
    · exact ⟨v, h1, rfl, by rw [h2]⟩
    · rw [hemp] at h; cases h
  | step _ hc ih =>
    obtain ⟨v, hv, rfl, hle⟩ := ih
    obtain ⟨u, hu, rfl⟩ := exists_flat hc.2.1
    obtain ⟨i, hi, hd⟩ := (adj_iff_dir hconn).mp hc.2.2.2.1
    rcases V.closure v hv i hi id u _ hu hd hc with ⟨h1, h2⟩ | ⟨k, h1, _⟩
    · refine ⟨u, h1, rfl, le_trans h2 ?_⟩
      rw [WithTop.coe_add]
      exact add_le_add_left hle _
    · rw [hemp] at h1; cases h1

end Verif.CostDistance
