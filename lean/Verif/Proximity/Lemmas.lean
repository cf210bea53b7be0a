import Verif.Proximity.Model

/-! Lemmas on the sweep, independent of the metric. -/

set_option linter.unusedSectionVars false

namespace Verif.Proximity

open Verif

variable {R S : Type} [CommRing R] [LinearOrder R] [IsStrictOrderedRing R]

@[simp] theorem set_self {α : Type} (f : Nat → α) (i : Nat) (a : α) : set f i a i = a := by
  simp [set]

theorem set_ne {α : Type} (f : Nat → α) {i j : Nat} (a : α) (h : j ≠ i) : set f i a j = f j := by
  simp [set, h]

/-- `z` is processed strictly before `i` in direction `b`. -/
def Before (b : Bool) (i z : Nat) : Prop := if b then z < i else i < z

theorem before_true {i z : Nat} : Before true i z ↔ z < i := by simp [Before]
theorem before_false {i z : Nat} : Before false i z ↔ i < z := by simp [Before]

/-- Induction over the pixels of a line in processing order. -/
theorem order_induction {A : Type} (nx : Nat) (b : Bool) (f : A → Nat → A)
    (P : (Nat → Prop) → A → Prop) (a0 : A)
    (h0 : ∀ D : Nat → Prop, (∀ z, z < nx → ¬ D z) → P D a0)
    (hstep : ∀ i, i < nx → ∀ a, (∀ D : Nat → Prop, (∀ z, z < nx → (D z ↔ Before b i z)) → P D a) →
      ∀ D : Nat → Prop, (∀ z, z < nx → (D z ↔ Before b i z ∨ z = i)) → P D (f a i)) :
    ∀ D : Nat → Prop, (∀ z, z < nx → D z) → P D ((order nx b).foldl f a0) := by
  cases b with
  | true =>
    have main : ∀ n, n ≤ nx → ∀ D : Nat → Prop, (∀ z, z < nx → (D z ↔ z < n)) →
        P D ((List.range n).foldl f a0) := by
      intro n
      induction n with
      | zero =>
        intro _ D hD
        exact h0 D (fun z hz h => by have := (hD z hz).mp h; omega)
      | succ n ih =>
        intro hn D hD
        rw [List.range_succ, List.foldl_append, List.foldl_cons, List.foldl_nil]
        refine hstep n (by omega) _ ?_ D ?_
        · intro D' hD'
          exact ih (by omega) D' (fun z hz => by rw [hD' z hz, before_true])
        · intro z hz
          rw [hD z hz, before_true]
          omega
    intro D hD
    simp only [order, if_true]
    exact main nx (le_refl _) D (fun z hz => ⟨fun _ => hz, fun _ => hD z hz⟩)
  | false =>
    have main : ∀ n, n ≤ nx → ∀ D : Nat → Prop, (∀ z, z < nx → (D z ↔ nx ≤ z + n)) →
        P D (((List.range nx).reverse.take n).foldl f a0) := by
      intro n
      induction n with
      | zero =>
        intro _ D hD
        exact h0 D (fun z hz h => by have := (hD z hz).mp h; omega)
      | succ n ih =>
        intro hn D hD
        have hlt : n < (List.range nx).reverse.length := by simp; omega
        rw [List.take_succ_eq_append_getElem hlt, List.foldl_append, List.foldl_cons, List.foldl_nil]
        have hget : (List.range nx).reverse[n] = nx - 1 - n := by simp
        rw [hget]
        refine hstep _ (by omega) _ ?_ D ?_
        · intro D' hD'
          refine ih (by omega) D' (fun z hz => ?_)
          rw [hD' z hz, before_false]
          omega
        · intro z hz
          rw [hD z hz, before_false]
          omega
    intro D hD
    have := main nx (le_refl _) D (fun z hz => ⟨fun _ => by omega, fun _ => hD z hz⟩)
    rw [List.take_of_length_le (by simp)] at this
    simpa [order] using this

theorem iprev_spec {nx : Nat} {b : Bool} {i z : Nat} (hi : i < nx) (h : iprev nx b i = some z) :
    z < nx ∧ Before b i z ∧ (z = i + 1 ∨ i = z + 1) := by
  unfold iprev at h
  cases b <;> simp at h <;> simp [Before] <;> omega

theorem inext_spec {nx : Nat} {b : Bool} {i z : Nat} (hi : i < nx) (h : inext nx b i = some z) :
    z < nx ∧ ¬ Before b i z ∧ z ≠ i ∧ Before (!b) i z ∧ (z = i + 1 ∨ i = z + 1) := by
  unfold inext at h
  cases b <;> simp at h <;> simp [Before] <;> omega

theorem iprev_not (nx : Nat) (b : Bool) (i : Nat) : iprev nx (!b) i = inext nx b i := by
  cases b <;> rfl

theorem inext_not (nx : Nat) (b : Bool) (i : Nat) : inext nx (!b) i = iprev nx b i := by
  cases b <;> rfl

/-! ### Candidates -/

variable {E : Env R S}

/-- The recorded distance is the distance of the recorded candidate. -/
def Consistent (E : Env R S) (p : Cell) (c : Option Cell × WithTop R) : Prop :=
  match c.1 with
  | none => c.2 = E.maxSqr2
  | some x => c.2 = ((E.dsq x p : R) : WithTop R) ∧ c.2 < E.maxSqr2

theorem ownCand_consistent (p : Cell) (own : Option Cell) : Consistent E p (ownCand E p own) := by
  unfold ownCand Consistent
  cases own with
  | none => rfl
  | some c =>
    by_cases h : ((E.dsq c p : R) : WithTop R) < E.maxSqr2
    · simp only [if_pos h]
      exact ⟨trivial, h⟩
    · simp only [if_neg h]

theorem Consistent.le {p : Cell} {c : Option Cell × WithTop R} (h : Consistent E p c) :
    c.2 ≤ E.maxSqr2 := by
  unfold Consistent at h
  split at h
  · exact h.le
  · exact h.2.le

theorem takeCand_consistent {p : Cell} {cur : Option Cell × WithTop R} (h : Consistent E p cur)
    (nb : Option Cell) : Consistent E p (takeCand E p cur nb) := by
  unfold takeCand
  cases nb with
  | none => exact h
  | some c =>
    simp only
    split
    · rename_i hlt; exact ⟨rfl, lt_of_lt_of_le hlt h.le⟩
    · exact h

theorem newCand_consistent (b : Bool) (row : Nat) (near : Nat → Option Cell) (i : Nat) :
    Consistent E (row, i) (newCand E b row near i) :=
  takeCand_consistent (takeCand_consistent (ownCand_consistent _ _) _) _

theorem takeCand_le {p : Cell} (cur : Option Cell × WithTop R) (nb : Option Cell) :
    (takeCand E p cur nb).2 ≤ cur.2 := by
  unfold takeCand
  cases nb with
  | none => exact le_refl _
  | some c =>
    simp only
    split
    · rename_i hlt; exact hlt.le
    · exact le_refl _

theorem takeCand_eq_or_lt {p : Cell} (cur : Option Cell × WithTop R) (nb : Option Cell) :
    takeCand E p cur nb = cur ∨ (takeCand E p cur nb).2 < cur.2 := by
  unfold takeCand
  cases nb with
  | none => exact Or.inl rfl
  | some c =>
    simp only
    split
    · rename_i hlt; exact Or.inr hlt
    · exact Or.inl rfl

theorem takeCand_le_nb {p : Cell} (cur : Option Cell × WithTop R) (c : Cell) :
    (takeCand E p cur (some c)).2 ≤ ((E.dsq c p : R) : WithTop R) := by
  unfold takeCand
  simp only
  split
  · exact le_refl _
  · rename_i h; exact not_lt.mp h

theorem newCand_eq_or_lt (b : Bool) (row : Nat) (near : Nat → Option Cell) (i : Nat) :
    newCand E b row near i = ownCand E (row, i) (near i) ∨
      (newCand E b row near i).2 < (ownCand E (row, i) (near i)).2 := by
  unfold newCand
  simp only
  rcases takeCand_eq_or_lt (E := E) (p := (row, i)) (ownCand E (row, i) (near i))
    ((iprev E.nx b i).bind near) with h1 | h1
  · rw [h1]
    exact takeCand_eq_or_lt _ _
  · right
    exact lt_of_le_of_lt (takeCand_le _ _) h1

/-- The new distance is at most the distance of the previous own candidate. -/
theorem newCand_le_own {b : Bool} {row : Nat} {near : Nat → Option Cell} {i : Nat} {c : Cell}
    (h : near i = some c) (hlt : ((E.dsq c (row, i) : R) : WithTop R) < E.maxSqr2) :
    (newCand E b row near i).2 ≤ ((E.dsq c (row, i) : R) : WithTop R) := by
  unfold newCand
  simp only
  refine le_trans (takeCand_le _ _) (le_trans (takeCand_le _ _) ?_)
  rw [h]
  simp [ownCand, hlt]

theorem newCand_le_prev {b : Bool} {row : Nat} {near : Nat → Option Cell} {i z : Nat} {c : Cell}
    (hz : iprev E.nx b i = some z) (h : near z = some c) :
    (newCand E b row near i).2 ≤ ((E.dsq c (row, i) : R) : WithTop R) := by
  unfold newCand
  simp only [hz, Option.bind_some, h]
  exact le_trans (takeCand_le _ _) (takeCand_le_nb _ _)

theorem newCand_le_next {b : Bool} {row : Nat} {near : Nat → Option Cell} {i z : Nat} {c : Cell}
    (hz : inext E.nx b i = some z) (h : near z = some c) :
    (newCand E b row near i).2 ≤ ((E.dsq c (row, i) : R) : WithTop R) := by
  unfold newCand
  simp only [hz, Option.bind_some, h]
  exact takeCand_le_nb _ _

/-- A small recorded distance means that there is a candidate at that distance. -/
theorem Consistent.exists {p : Cell} {c : Option Cell × WithTop R} (h : Consistent E p c)
    (hlt : c.2 < E.maxSqr2) : ∃ x, c = (some x, ((E.dsq x p : R) : WithTop R)) := by
  rcases c with ⟨_ | x, d⟩
  · rw [show d = E.maxSqr2 from h] at hlt
    exact absurd hlt (lt_irrefl _)
  · exact ⟨x, by rw [show d = _ from h.1]⟩

/-- Candidates only come from the candidates of the pixel and its neighbours. -/
theorem newCand_mem {b : Bool} {row : Nat} {near : Nat → Option Cell} {i : Nat} (hi : i < E.nx)
    {c : Cell} (h : (newCand E b row near i).1 = some c) : ∃ j, j < E.nx ∧ near j = some c := by
  have hown : ∀ c, (ownCand E (row, i) (near i)).1 = some c → near i = some c := by
    intro c hc
    unfold ownCand at hc
    split at hc
    · cases hc
    · rename_i c' hc'
      split at hc
      · rw [hc']; exact hc
      · cases hc
  have htake : ∀ (cur : Option Cell × WithTop R) nb c, (takeCand E (row, i) cur nb).1 = some c →
      cur.1 = some c ∨ nb = some c := by
    intro cur nb c hc
    unfold takeCand at hc
    split at hc
    · exact Or.inl hc
    · split at hc
      · exact Or.inr hc
      · exact Or.inl hc
  unfold newCand at h
  simp only at h
  rcases htake _ _ _ h with h | h
  · rcases htake _ _ _ h with h | h
    · exact ⟨i, hi, hown _ h⟩
    · obtain ⟨j, hj, hn⟩ := Option.bind_eq_some_iff.mp h
      exact ⟨j, (iprev_spec hi hj).1, hn⟩
  · obtain ⟨j, hj, hn⟩ := Option.bind_eq_some_iff.mp h
    exact ⟨j, (inext_spec hi hj).1, hn⟩

/-! ### Soundness: every stored candidate is a target -/

/-- A target cell of the raster. -/
def IsT (E : Env R S) (t : Cell) : Prop := t.1 < E.ny ∧ t.2 < E.nx ∧ E.target t = true

/-- What is known of pixel `x` of line `row` during a pass. -/
def Entry (E : Env R S) (sec : Nat → Nat → Option S) (row : Nat) (L : Line R) (x : Nat) : Prop :=
  match L.prox x with
  | none => L.nearest x = none ∧ sec row x = none
  | some d => ∃ t, IsT E t ∧ E.dsq t (row, x) = d ∧ ((d : R) : WithTop R) ≤ E.maxSqr ∧
      (L.nearest x = some t ∨ (L.nearest x = none ∧ sec row x = some (E.report (row, x) t)))

/-- Hypotheses on the metric needed for soundness. -/
structure Metric (E : Env R S) : Prop where
  self : ∀ p, E.dsq p p = 0
  max0 : ((0 : R) : WithTop R) ≤ E.maxSqr

/-- Invariant of a pass. -/
structure Sound (E : Env R S) (sec : Nat → Nat → Option S) (row : Nat) (L : Line R) : Prop where
  near : ∀ x, x < E.nx → ∀ c, L.near x = some c → IsT E c
  entry : ∀ x, x < E.nx → Entry E sec row L x

theorem sound_pixel (M : Metric E) {sec : Nat → Nat → Option S} {row : Nat} (hrow : row < E.ny)
    {L : Line R} (H : Sound E sec row L) (b : Bool) {i : Nat} (hi : i < E.nx) :
    Sound E sec row (pixel E b row L i) := by
  unfold pixel
  by_cases ht : E.target (row, i) = true
  · rw [if_pos ht]
    have hT : IsT E (row, i) := ⟨hrow, hi, ht⟩
    constructor
    · intro x hx c hc
      by_cases hxi : x = i
      · subst hxi
        simp only [set_self, Option.some.injEq] at hc
        rw [← hc]; exact hT
      · simp only [set_ne _ _ hxi] at hc
        exact H.near x hx c hc
    · intro x hx
      by_cases hxi : x = i
      · subst hxi
        simp only [Entry, set_self]
        exact ⟨(row, x), hT, M.self _, M.max0, Or.inl rfl⟩
      · have := H.entry x hx
        simp only [Entry, set_ne _ _ hxi] at this ⊢
        exact this
  · rw [if_neg ht]
    simp only
    set cand := newCand E b row L.near i with hcand
    have hcT : ∀ c, cand.1 = some c → IsT E c := by
      intro c hc
      obtain ⟨j, hj, hn⟩ := newCand_mem hi hc
      exact H.near j hj c hn
    have hnear : ∀ x, x < E.nx → ∀ c, set L.near i cand.1 x = some c → IsT E c := by
      intro x hx c hc
      by_cases hxi : x = i
      · subst hxi
        rw [set_self] at hc
        exact hcT c hc
      · rw [set_ne _ _ hxi] at hc
        exact H.near x hx c hc
    by_cases himp : improves E cand (L.prox i) = true
    · rw [if_pos himp]
      refine ⟨hnear, ?_⟩
      intro x hx
      by_cases hxi : x = i
      · subst hxi
        have hcons := newCand_consistent (E := E) b row L.near x
        rw [← hcand] at hcons
        rcases hc1 : cand.1 with _ | c
        · simp [improves, hc1] at himp
        · have hd : cand.2 = ((E.dsq c (row, x) : R) : WithTop R) := by
            unfold Consistent at hcons
            rw [hc1] at hcons
            exact hcons.1
          have hle : cand.2 ≤ E.maxSqr := by
            unfold improves at himp
            rw [hc1] at himp
            simp only [Bool.and_eq_true, decide_eq_true_eq] at himp
            exact himp.1
          simp only [Entry, set_self, hd]
          exact ⟨c, hcT c hc1, rfl, by rw [← hd]; exact hle, Or.inl rfl⟩
      · have := H.entry x hx
        simp only [Entry, set_ne _ _ hxi] at this ⊢
        exact this
    · rw [if_neg himp]
      refine ⟨hnear, ?_⟩
      intro x hx
      have := H.entry x hx
      simp only [Entry] at this ⊢
      exact this

theorem order_mem {nx : Nat} {b : Bool} {i : Nat} (h : i ∈ order nx b) : i < nx := by
  unfold order at h
  cases b <;> simpa using h

theorem sound_line (M : Metric E) {sec : Nat → Nat → Option S} {row : Nat} (hrow : row < E.ny)
    {L : Line R} (H : Sound E sec row L) (b : Bool) :
    Sound E sec row (processLine E b row L) := by
  unfold processLine
  have : ∀ is : List Nat, (∀ i ∈ is, i < E.nx) → ∀ L, Sound E sec row L →
      Sound E sec row (is.foldl (pixel E b row) L) := by
    intro is
    induction is with
    | nil => intro _ L H; exact H
    | cons i is ih =>
      intro hin L H
      exact ih (fun j hj => hin j (by simp [hj])) _ (sound_pixel M hrow H b (hin i (by simp)))
  exact this _ (fun i hi => order_mem hi) _ H

/-- After writing the secondary output the pass information is in `sec`. -/
theorem sound_write {sec : Nat → Nat → Option S} {row : Nat} {L : Line R} (H : Sound E sec row L) :
    Sound E (writeSecondary E row L sec) row { prox := L.prox, near := L.near, nearest := fun _ => none } := by
  refine ⟨H.near, ?_⟩
  intro x hx
  have h := H.entry x hx
  unfold Entry at h ⊢
  rcases hp : L.prox x with _ | d
  · rw [hp] at h
    simp only at h ⊢
    refine ⟨trivial, ?_⟩
    simp only [writeSecondary, hx, and_true, if_true, hp, h.1, h.2]
  · rw [hp] at h
    simp only at h ⊢
    obtain ⟨t, h1, h2, h3, h4⟩ := h
    refine ⟨t, h1, h2, h3, Or.inr ⟨trivial, ?_⟩⟩
    rcases h4 with h4 | ⟨h4, h5⟩
    · simp [writeSecondary, hx, hp, h4]
    · simp [writeSecondary, hx, hp, h4, h5]

/-- What the two outputs say about a cell. -/
def Cellwise (E : Env R S) (prox : Nat → Nat → Option R) (sec : Nat → Nat → Option S) (p : Cell) : Prop :=
  match prox p.1 p.2 with
  | none => sec p.1 p.2 = none
  | some d => ∃ t, IsT E t ∧ E.dsq t p = d ∧ ((d : R) : WithTop R) ≤ E.maxSqr ∧
      sec p.1 p.2 = some (E.report p t)

theorem writeSecondary_other {sec : Nat → Nat → Option S} {row r x : Nat} {L : Line R} (h : r ≠ row) :
    writeSecondary E row L sec r x = sec r x := by
  simp [writeSecondary, h]

theorem sound_twoPasses (M : Metric E) {st : St R S} {row : Nat} (hrow : row < E.ny) (b : Bool)
    {start : Nat → Option R}
    (hnear : ∀ x, x < E.nx → ∀ c, st.near x = some c → IsT E c)
    (hstart : ∀ x, x < E.nx → Entry E st.sec row
      { prox := start, near := st.near, nearest := fun _ => none } x)
    (hother : ∀ p : Cell, p.1 < E.ny → p.2 < E.nx → p.1 ≠ row → Cellwise E st.prox st.sec p) :
    (∀ x, x < E.nx → ∀ c, (twoPasses E b start st row).near x = some c → IsT E c) ∧
    (∀ p : Cell, p.1 < E.ny → p.2 < E.nx →
      Cellwise E (twoPasses E b start st row).prox (twoPasses E b start st row).sec p) := by
  have H0 : Sound E st.sec row { prox := start, near := st.near, nearest := fun _ => none } :=
    ⟨hnear, hstart⟩
  have H1 := sound_write (sound_line M hrow H0 b)
  have H2 := sound_write (sound_line M hrow H1 (!b))
  refine ⟨H2.near, ?_⟩
  rintro ⟨r, x⟩ hr hx
  simp only at hr hx
  by_cases hrr : r = row
  · subst hrr
    have h := H2.entry x hx
    unfold Entry at h
    unfold Cellwise
    simp only [twoPasses, true_and, hx, if_true] at h ⊢
    split at h
    · exact h
    · obtain ⟨t, h1, h2, h3, h4⟩ := h
      refine ⟨t, h1, h2, h3, ?_⟩
      rcases h4 with h4 | h4
      · cases h4
      · exact h4
  · have h := hother (r, x) hr hx hrr
    unfold Cellwise at h ⊢
    simp only [twoPasses, hrr, false_and, if_false] at h ⊢
    rw [writeSecondary_other hrr, writeSecondary_other hrr]
    exact h

/-- The whole computation is sound. -/
theorem sound_compute (M : Metric E) : ∀ p : Cell, p.1 < E.ny → p.2 < E.nx →
    Cellwise E (compute E).prox (compute E).sec p := by
  have down : ∀ n, n ≤ E.ny → 
      let st := (List.range n).foldl (downLine E)
        { near := fun _ => none, prox := fun _ _ => none, sec := fun _ _ => none }
      (∀ x, x < E.nx → ∀ c, st.near x = some c → IsT E c) ∧
      (∀ p : Cell, p.1 < E.ny → p.2 < E.nx → Cellwise E st.prox st.sec p) ∧
      (∀ r x, n ≤ r → st.sec r x = none) := by
    intro n
    induction n with
    | zero =>
      intro _
      refine ⟨?_, ?_, ?_⟩
      · intro x _ c hc; cases hc
      · intro p _ _; simp [Cellwise]
      · intro r x _; rfl
    | succ n ih =>
      intro hn
      obtain ⟨h1, h2, h3⟩ := ih (by omega)
      simp only [List.range_succ, List.foldl_append, List.foldl_cons, List.foldl_nil]
      set st := (List.range n).foldl (downLine E)
        { near := fun _ => none, prox := fun _ _ => none, sec := fun _ _ => none } with hst
      obtain ⟨g1, g2⟩ := sound_twoPasses M (st := st) (row := n) (by omega) true
        (start := fun _ => none) h1 (fun x _ => ⟨rfl, h3 n x (le_refl _)⟩)
        (fun p hp1 hp2 _ => h2 p hp1 hp2)
      refine ⟨g1, g2, ?_⟩
      intro r x hr
      show (twoPasses E true (fun _ => none) st n).sec r x = none
      simp only [twoPasses]
      rw [writeSecondary_other (by omega), writeSecondary_other (by omega)]
      exact h3 r x (by omega)
  obtain ⟨_, h2, _⟩ := down E.ny (le_refl _)
  unfold compute
  simp only
  set st1 := (List.range E.ny).foldl (downLine E)
    { near := fun _ => none, prox := fun _ _ => none, sec := fun _ _ => none } with hst1
  have up : ∀ is : List Nat, (∀ i ∈ is, i < E.ny) → ∀ st : St R S,
      (∀ x, x < E.nx → ∀ c, st.near x = some c → IsT E c) →
      (∀ p : Cell, p.1 < E.ny → p.2 < E.nx → Cellwise E st.prox st.sec p) →
      ∀ p : Cell, p.1 < E.ny → p.2 < E.nx →
        Cellwise E (is.foldl (upLine E) st).prox (is.foldl (upLine E) st).sec p := by
    intro is
    induction is with
    | nil => intro _ st _ h; exact h
    | cons i is ih =>
      intro hin st k1 k2
      obtain ⟨g1, g2⟩ := sound_twoPasses M (st := st) (row := i) (hin i (by simp)) false
        (start := st.prox i) k1 (by
          intro x hx
          have h := k2 (i, x) (hin i (by simp)) hx
          unfold Cellwise at h
          unfold Entry
          simp only at h ⊢
          rcases hp : st.prox i x with _ | d
          · rw [hp] at h; exact ⟨trivial, h⟩
          · rw [hp] at h
            obtain ⟨t, a1, a2, a3, a4⟩ := h
            exact ⟨t, a1, a2, a3, Or.inr ⟨trivial, a4⟩⟩)
        (fun p hp1 hp2 _ => k2 p hp1 hp2)
      exact ih (fun j hj => hin j (by simp [hj])) _ g1 g2
  exact up _ (fun i hi => by simpa using hi) _ (fun x _ c hc => by cases hc) h2

end Verif.Proximity
