import Verif.Proximity.Lemmas

/-! When the sweep finds a nearest target: conditions on the metric and the proof. -/

set_option linter.unusedSectionVars false

namespace Verif.Proximity

open Verif

variable {R S : Type} [CommRing R] [LinearOrder R] [IsStrictOrderedRing R]

/-- The candidate `o` of the cell `p` is at least as near as the target `t`. -/
def Good (E : Env R S) (o : Option Cell) (p t : Cell) : Prop :=
  ∃ c, o = some c ∧ E.dsq c p ≤ E.dsq t p

/-- Candidates of the previous row are as good for this row. -/
def CondV (E : Env R S) (row row' : Nat) (Past : Cell → Prop) (Rel : Cell → Cell → Prop)
    (x : Nat) (t : Cell) : Prop :=
  Rel (row', x) t ∧ ∀ c, Past c → E.dsq c (row', x) ≤ E.dsq t (row', x) →
    E.dsq c (row, x) ≤ E.dsq t (row, x)

/-- Candidates of the neighbour `z` in the same row are as good here. -/
def CondH (E : Env R S) (row : Nat) (PN : Cell → Prop) (Rel : Cell → Cell → Prop)
    (z x : Nat) (t : Cell) : Prop :=
  Rel (row, z) t ∧ ∀ c, PN c → E.dsq c (row, z) ≤ E.dsq t (row, z) →
    E.dsq c (row, x) ≤ E.dsq t (row, x)

/-- Candidates of the diagonal neighbour are as good here. -/
def CondD (E : Env R S) (row row' : Nat) (Past : Cell → Prop) (Rel : Cell → Cell → Prop)
    (z x : Nat) (t : Cell) : Prop :=
  Rel (row', z) t ∧ ∀ c, Past c → E.dsq c (row', z) ≤ E.dsq t (row', z) →
    E.dsq c (row, z) ≤ E.dsq t (row, z) ∧ E.dsq c (row, x) ≤ E.dsq t (row, x)

/-- What the metric must satisfy on one line for the two passes to be exact. -/
structure LineHyp (E : Env R S) (b : Bool) (row row' : Nat) (Past PN : Cell → Prop)
    (Rel : Cell → Cell → Prop) : Prop where
  within : ∀ p t, Rel p t → ((E.dsq t p : R) : WithTop R) ≤ E.maxSqr
  lt2 : ∀ p t c, Rel p t → E.dsq c p ≤ E.dsq t p → ((E.dsq c p : R) : WithTop R) < E.maxSqr2
  self : ∀ p, E.dsq p p = 0
  nonneg : ∀ p t, 0 ≤ E.dsq t p
  past : ∀ c, Past c → PN c
  here : ∀ x, x < E.nx → E.target (row, x) = true → PN (row, x)
  nowRow : ∀ t, PN t → ¬ Past t → t.1 = row ∧ E.target t = true
  prevSide : ∀ x t, x < E.nx → Past t → Rel (row, x) t → (t.2 = x ∨ Before b x t.2) →
    CondV E row row' Past Rel x t ∨
    (∃ z, iprev E.nx b x = some z ∧ (t.2 = z ∨ Before b z t.2) ∧ CondH E row PN Rel z x t) ∨
    (∃ z, iprev E.nx b x = some z ∧ CondD E row row' Past Rel z x t ∧ Rel (row, z) t ∧
      0 < E.dsq t (row, z) ∧
      ∀ c, PN c → E.dsq c (row, z) < E.dsq t (row, z) → E.dsq c (row, x) ≤ E.dsq t (row, x))
  nextSide : ∀ x t, x < E.nx → Past t → Rel (row, x) t → Before (!b) x t.2 →
    CondV E row row' Past Rel x t ∨
    (∃ z, inext E.nx b x = some z ∧ CondH E row PN Rel z x t) ∨
    (∃ z, inext E.nx b x = some z ∧ CondD E row row' Past Rel z x t)
  nowPrev : ∀ x t, x < E.nx → PN t → t.1 = row → Rel (row, x) t → Before b x t.2 →
    ∃ z, iprev E.nx b x = some z ∧ (t.2 = z ∨ Before b z t.2) ∧ CondH E row PN Rel z x t
  nowNext : ∀ x t, x < E.nx → PN t → t.1 = row → Rel (row, x) t → Before (!b) x t.2 →
    ∃ z, inext E.nx b x = some z ∧ CondH E row PN Rel z x t

variable {E : Env R S} {b : Bool} {row row' : Nat} {Past PN : Cell → Prop}
  {Rel : Cell → Cell → Prop}

theorem pixel_near_other {L : Line R} {i x : Nat} (h : x ≠ i) :
    (pixel E b row L i).near x = L.near x := by
  unfold pixel
  split
  · exact set_ne _ _ h
  · simp only
    split
    · exact set_ne _ _ h
    · exact set_ne _ _ h

theorem pixel_prox_other {L : Line R} {i x : Nat} (h : x ≠ i) :
    (pixel E b row L i).prox x = L.prox x := by
  unfold pixel
  split
  · exact set_ne _ _ h
  · simp only
    split
    · exact set_ne _ _ h
    · rfl

theorem pixel_near_target {L : Line R} {i : Nat} (h : E.target (row, i) = true) :
    (pixel E b row L i).near i = some (row, i) := by
  unfold pixel
  rw [if_pos h]
  exact set_self _ _ _

theorem pixel_near_self {L : Line R} {i : Nat} (h : ¬ E.target (row, i) = true) :
    (pixel E b row L i).near i = (newCand E b row L.near i).1 := by
  unfold pixel
  rw [if_neg h]
  simp only
  split
  · exact set_self _ _ _
  · exact set_self _ _ _

/-- The candidate chosen is good if its distance is. -/
theorem newCand_good (LH : LineHyp E b row row' Past PN Rel) {b' : Bool} {near : Nat → Option Cell}
    {i : Nat} {t c : Cell} (hrel : Rel (row, i) t)
    (hle : (newCand E b' row near i).2 ≤ ((E.dsq c (row, i) : R) : WithTop R))
    (hc : E.dsq c (row, i) ≤ E.dsq t (row, i)) :
    ∃ e, newCand E b' row near i = (some e, ((E.dsq e (row, i) : R) : WithTop R)) ∧
      E.dsq e (row, i) ≤ E.dsq t (row, i) := by
  have hlt := LH.lt2 _ _ c hrel hc
  obtain ⟨e, he⟩ := (newCand_consistent (E := E) b' row near i).exists (lt_of_le_of_lt hle hlt)
  refine ⟨e, he, ?_⟩
  rw [he] at hle
  exact le_trans (WithTop.coe_le_coe.mp hle) hc

/-- The first pass. -/
theorem first_pass (LH : LineHyp E b row row' Past PN Rel) (L0 : Line R)
    (hpast : ∀ x, x < E.nx → ∀ c, L0.near x = some c → Past c)
    (hgood : ∀ x, x < E.nx → ∀ t, Past t → Rel (row', x) t → Good E (L0.near x) (row', x) t) :
    ∀ x, x < E.nx →
      (∀ c, (processLine E b row L0).near x = some c → PN c) ∧
      (∀ t, PN t → Rel (row, x) t → (t.2 = x ∨ Before b x t.2) →
        Good E ((processLine E b row L0).near x) (row, x) t) ∧
      (∀ t, Past t → Rel (row, x) t → (CondV E row row' Past Rel x t ∨
          ∃ z, inext E.nx b x = some z ∧ CondD E row row' Past Rel z x t) →
        Good E ((processLine E b row L0).near x) (row, x) t) := by
  have key := order_induction E.nx b (pixel E b row)
    (fun D L => ∀ x, x < E.nx →
      (¬ D x → L.near x = L0.near x) ∧
      (D x → (∀ c, L.near x = some c → PN c) ∧
        (∀ t, PN t → Rel (row, x) t → (t.2 = x ∨ Before b x t.2) → Good E (L.near x) (row, x) t) ∧
        (∀ t, Past t → Rel (row, x) t → (CondV E row row' Past Rel x t ∨
            ∃ z, inext E.nx b x = some z ∧ CondD E row row' Past Rel z x t) →
          Good E (L.near x) (row, x) t) ∧
        (¬ E.target (row, x) = true → ∀ c, L0.near x = some c →
          ((E.dsq c (row, x) : R) : WithTop R) < E.maxSqr2 →
          ∃ e, L.near x = some e ∧ (e = c ∨ E.dsq e (row, x) < E.dsq c (row, x))) ∧
        (E.target (row, x) = true → L.near x = some (row, x)))) L0 ?_ ?_
  · intro x hx
    obtain ⟨h1, h2, h3, _, _⟩ := (key (fun _ => True) (fun _ _ => trivial) x hx).2 trivial
    exact ⟨h1, h2, h3⟩
  · intro D hD x hx
    exact ⟨fun _ => rfl, fun h => absurd h (hD x hx)⟩
  · intro i hi L hL D hD x hx
    have hL := hL (fun z => Before b i z) (fun z _ => Iff.rfl)
    rw [hD x hx]
    have hnself : ¬ Before b i i := by cases b <;> simp [Before]
    by_cases hxi : x = i
    · subst hxi
      have hown : L.near x = L0.near x := (hL x hx).1 hnself
      refine ⟨fun h => absurd (Or.inr rfl) h, fun _ => ?_⟩
      by_cases ht : E.target (row, x) = true
      · rw [pixel_near_target ht]
        have hg : ∀ t, Good E (some (row, x)) (row, x) t :=
          fun t => ⟨_, rfl, by rw [LH.self]; exact LH.nonneg _ _⟩
        refine ⟨?_, fun t _ _ _ => hg t, fun t _ _ _ => hg t, fun h => absurd ht h, fun _ => rfl⟩
        intro c hc
        injection hc with hc
        rw [← hc]
        exact LH.here x hx ht
      · rw [pixel_near_self ht]
        -- ways to be good
        have viaV : ∀ t, Past t → Rel (row, x) t → CondV E row row' Past Rel x t →
            Good E (newCand E b row L.near x).1 (row, x) t := by
          intro t htp hrel hV
          obtain ⟨c, hc1, hc2⟩ := hgood x hx t htp hV.1
          have hc3 := hV.2 c (hpast x hx c hc1) hc2
          have hle := newCand_le_own (E := E) (b := b) (row := row) (near := L.near) (i := x)
            (by rw [hown]; exact hc1) (LH.lt2 _ _ _ hrel hc3)
          obtain ⟨e, he, he2⟩ := newCand_good LH hrel hle hc3
          exact ⟨e, by rw [he], he2⟩
        have viaDn : ∀ t, Past t → Rel (row, x) t → (∃ z, inext E.nx b x = some z ∧
            CondD E row row' Past Rel z x t) → Good E (newCand E b row L.near x).1 (row, x) t := by
          rintro t htp hrel ⟨z, hz, hDc⟩
          obtain ⟨hzn, hznb, hzne, _, _⟩ := inext_spec hx hz
          have hzo : L.near z = L0.near z := (hL z hzn).1 hznb
          obtain ⟨c, hc1, hc2⟩ := hgood z hzn t htp hDc.1
          have hc3 := (hDc.2 c (hpast z hzn c hc1) hc2).2
          have hle := newCand_le_next (E := E) (b := b) (row := row) (near := L.near) (i := x) hz
            (by rw [hzo]; exact hc1)
          obtain ⟨e, he, he2⟩ := newCand_good LH hrel hle hc3
          exact ⟨e, by rw [he], he2⟩
        have viaH : ∀ t, PN t → Rel (row, x) t → (∃ z, iprev E.nx b x = some z ∧
            (t.2 = z ∨ Before b z t.2) ∧ CondH E row PN Rel z x t) →
            Good E (newCand E b row L.near x).1 (row, x) t := by
          rintro t htp hrel ⟨z, hz, hside, hH⟩
          obtain ⟨hzn, hzb, _⟩ := iprev_spec hx hz
          obtain ⟨k1, k2, _⟩ := (hL z hzn).2 hzb
          obtain ⟨c, hc1, hc2⟩ := k2 t htp hH.1 hside
          have hc3 := hH.2 c (k1 c hc1) hc2
          have hle := newCand_le_prev (E := E) (b := b) (row := row) (near := L.near) (i := x) hz hc1
          obtain ⟨e, he, he2⟩ := newCand_good LH hrel hle hc3
          exact ⟨e, by rw [he], he2⟩
        have viaDp : ∀ t, Past t → Rel (row, x) t → (∃ z, iprev E.nx b x = some z ∧
            CondD E row row' Past Rel z x t ∧ Rel (row, z) t ∧ 0 < E.dsq t (row, z) ∧
            ∀ c, PN c → E.dsq c (row, z) < E.dsq t (row, z) →
              E.dsq c (row, x) ≤ E.dsq t (row, x)) →
            Good E (newCand E b row L.near x).1 (row, x) t := by
          rintro t htp hrel ⟨z, hz, hDc, hrz, hpos, hlt⟩
          obtain ⟨hzn, hzb, _⟩ := iprev_spec hx hz
          obtain ⟨k1, _, _, k4, k5⟩ := (hL z hzn).2 hzb
          have : ∃ e, L.near z = some e ∧ E.dsq e (row, x) ≤ E.dsq t (row, x) := by
            by_cases htz : E.target (row, z) = true
            · refine ⟨(row, z), k5 htz, ?_⟩
              exact hlt _ (k1 _ (k5 htz)) (by rw [LH.self]; exact hpos)
            · obtain ⟨c, hc1, hc2⟩ := hgood z hzn t htp hDc.1
              obtain ⟨hc3, hc4⟩ := hDc.2 c (hpast z hzn c hc1) hc2
              obtain ⟨e, he1, he2⟩ := k4 htz c hc1 (LH.lt2 _ _ _ hrz hc3)
              refine ⟨e, he1, ?_⟩
              rcases he2 with rfl | he2
              · exact hc4
              · exact hlt e (k1 e he1) (lt_of_lt_of_le he2 hc3)
          obtain ⟨c, hc1, hc3⟩ := this
          have hle := newCand_le_prev (E := E) (b := b) (row := row) (near := L.near) (i := x) hz hc1
          obtain ⟨e, he, he2⟩ := newCand_good LH hrel hle hc3
          exact ⟨e, by rw [he], he2⟩
        refine ⟨?_, ?_, ?_, ?_, fun h => absurd h ht⟩
        · intro c hc
          obtain ⟨j, hj, hn⟩ := newCand_mem hx hc
          by_cases hbj : Before b x j
          · exact ((hL j hj).2 hbj).1 c hn
          · rw [(hL j hj).1 hbj] at hn
            exact LH.past c (hpast j hj c hn)
        · intro t htp hrel hside
          by_cases hpt : Past t
          · rcases LH.prevSide x t hx hpt hrel hside with h | h | h
            · exact viaV t hpt hrel h
            · exact viaH t htp hrel h
            · exact viaDp t hpt hrel h
          · obtain ⟨hr1, hr2⟩ := LH.nowRow t htp hpt
            rcases hside with hs | hs
            · exfalso
              apply ht
              rw [← hr2, ← hr1, ← hs]
            · exact viaH t htp hrel (LH.nowPrev x t hx htp hr1 hrel hs)
        · intro t htp hrel h
          rcases h with h | h
          · exact viaV t htp hrel h
          · exact viaDn t htp hrel h
        · intro _ c hc hlt2
          rcases newCand_eq_or_lt (E := E) b row L.near x with h | h
          · refine ⟨c, ?_, Or.inl rfl⟩
            rw [h, hown, hc]
            simp [ownCand, hlt2]
          · have hown2 : (ownCand E (row, x) (L.near x)).2 = ((E.dsq c (row, x) : R) : WithTop R) := by
              rw [hown, hc]; simp [ownCand, hlt2]
            rw [hown2] at h
            obtain ⟨e, he⟩ := (newCand_consistent (E := E) b row L.near x).exists (lt_trans h hlt2)
            refine ⟨e, by rw [he], Or.inr ?_⟩
            rw [he] at h
            exact WithTop.coe_lt_coe.mp h
    · rw [pixel_near_other hxi]
      constructor
      · intro h
        exact (hL x hx).1 (fun h' => h (Or.inl h'))
      · intro h
        exact (hL x hx).2 (h.resolve_right hxi)

/-- The stored proximity of `x` is at most `e`. -/
def AtMost (L : Line R) (x : Nat) (e : R) : Prop := ∃ d, L.prox x = some d ∧ d ≤ e

/-- Stored proximities never grow. -/
theorem atMost_pixel {L : Line R} {x i : Nat} {e : R} (h0 : 0 ≤ e) (h : AtMost L x e) :
    AtMost (pixel E b row L i) x e := by
  by_cases hxi : x = i
  · subst hxi
    obtain ⟨d, hd, hde⟩ := h
    unfold pixel
    split
    · exact ⟨0, set_self _ _ _, h0⟩
    · simp only
      split
      · rename_i himp
        unfold improves at himp
        rw [hd] at himp
        rcases hc1 : (newCand E b row L.near x).1 with _ | c
        · rw [hc1] at himp; simp at himp
        · rw [hc1] at himp
          simp only [Bool.and_eq_true, decide_eq_true_eq] at himp
          have hcons := newCand_consistent (E := E) b row L.near x
          unfold Consistent at hcons
          rw [hc1] at hcons
          rw [hcons.1] at himp
          refine ⟨E.dsq c (row, x), ?_, ?_⟩
          · simp only [set_self, hcons.1]
          · exact le_trans (WithTop.coe_lt_coe.mp himp.2).le hde
      · exact ⟨d, hd, hde⟩
  · obtain ⟨d, hd, hde⟩ := h
    exact ⟨d, by rw [pixel_prox_other hxi]; exact hd, hde⟩

theorem atMost_line {L : Line R} {x : Nat} {e : R} (h0 : 0 ≤ e) (h : AtMost L x e) :
    AtMost (processLine E b row L) x e := by
  unfold processLine
  have : ∀ is : List Nat, ∀ L, AtMost L x e → AtMost (is.foldl (pixel E b row) L) x e := by
    intro is
    induction is with
    | nil => intro L h; exact h
    | cons i is ih => intro L h; exact ih _ (atMost_pixel h0 h)
  exact this _ _ h

/-- After a pixel is processed with a good candidate, its proximity is at most the distance. -/
theorem pixel_atMost (LH : LineHyp E b row row' Past PN Rel) {b' : Bool} {L : Line R} {i : Nat}
    {t : Cell} (hrel : Rel (row, i) t)
    (hg : ¬ E.target (row, i) = true →
      ∃ e, newCand E b' row L.near i = (some e, ((E.dsq e (row, i) : R) : WithTop R)) ∧
        E.dsq e (row, i) ≤ E.dsq t (row, i)) :
    AtMost (pixel E b' row L i) i (E.dsq t (row, i)) := by
  unfold pixel
  by_cases ht : E.target (row, i) = true
  · rw [if_pos ht]
    exact ⟨0, set_self _ _ _, LH.nonneg _ _⟩
  · rw [if_neg ht]
    obtain ⟨e, he, hle⟩ := hg ht
    simp only
    split
    · refine ⟨E.dsq e (row, i), ?_, hle⟩
      simp only [set_self, he]
    · rename_i himp
      unfold improves at himp
      rw [he] at himp
      have hw : ((E.dsq e (row, i) : R) : WithTop R) ≤ E.maxSqr :=
        le_trans (WithTop.coe_le_coe.mpr hle) (LH.within _ _ hrel)
      simp only [hw, decide_true, Bool.true_and] at himp
      rcases hp : L.prox i with _ | d
      · rw [hp] at himp; simp at himp
      · rw [hp] at himp
        simp only [decide_eq_true_eq, not_lt, WithTop.coe_le_coe] at himp
        exact ⟨d, hp, le_trans himp hle⟩

/-- Both passes over a line: the candidates and the stored proximities are exact with respect to all
targets of the rows seen so far. -/
theorem second_pass (LH : LineHyp E b row row' Past PN Rel) (L1 : Line R)
    (hpn : ∀ x, x < E.nx → ∀ c, L1.near x = some c → PN c)
    (hprev : ∀ x, x < E.nx → ∀ t, PN t → Rel (row, x) t → (t.2 = x ∨ Before b x t.2) →
        Good E (L1.near x) (row, x) t)
    (hdirect : ∀ x, x < E.nx → ∀ t, Past t → Rel (row, x) t → (CondV E row row' Past Rel x t ∨
          ∃ z, inext E.nx b x = some z ∧ CondD E row row' Past Rel z x t) →
        Good E (L1.near x) (row, x) t) :
    ∀ x, x < E.nx →
      (∀ c, (processLine E (!b) row L1).near x = some c → PN c) ∧
      (∀ t, PN t → Rel (row, x) t → Good E ((processLine E (!b) row L1).near x) (row, x) t ∧
        AtMost (processLine E (!b) row L1) x (E.dsq t (row, x))) := by
  have key := order_induction E.nx (!b) (pixel E (!b) row)
    (fun D L => ∀ x, x < E.nx →
      (¬ D x → L.near x = L1.near x) ∧
      (D x → (∀ c, L.near x = some c → PN c) ∧
        (∀ t, PN t → Rel (row, x) t → Good E (L.near x) (row, x) t ∧
          AtMost L x (E.dsq t (row, x))))) L1 ?_ ?_
  · intro x hx
    exact (key (fun _ => True) (fun _ _ => trivial) x hx).2 trivial
  · intro D hD x hx
    exact ⟨fun _ => rfl, fun h => absurd h (hD x hx)⟩
  · intro i hi L hL D hD x hx
    have hL := hL (fun z => Before (!b) i z) (fun z _ => Iff.rfl)
    rw [hD x hx]
    have hnself : ¬ Before (!b) i i := by cases b <;> simp [Before]
    by_cases hxi : x = i
    · subst hxi
      have hown : L.near x = L1.near x := (hL x hx).1 hnself
      refine ⟨fun h => absurd (Or.inr rfl) h, fun _ => ?_⟩
      constructor
      · intro c hc
        by_cases ht : E.target (row, x) = true
        · rw [pixel_near_target ht] at hc
          injection hc with hc
          rw [← hc]
          exact LH.here x hx ht
        · rw [pixel_near_self ht] at hc
          obtain ⟨j, hj, hn⟩ := newCand_mem hx hc
          by_cases hbj : Before (!b) x j
          · exact ((hL j hj).2 hbj).1 c hn
          · rw [(hL j hj).1 hbj] at hn
            exact hpn j hj c hn
      · intro t htp hrel
        have hg : ¬ E.target (row, x) = true →
            ∃ e, newCand E (!b) row L.near x = (some e, ((E.dsq e (row, x) : R) : WithTop R)) ∧
              E.dsq e (row, x) ≤ E.dsq t (row, x) := by
          intro ht
          have viaOwn : Good E (L1.near x) (row, x) t →
              ∃ e, newCand E (!b) row L.near x = (some e, ((E.dsq e (row, x) : R) : WithTop R)) ∧
              E.dsq e (row, x) ≤ E.dsq t (row, x) := by
            rintro ⟨c, hc1, hc3⟩
            exact newCand_good LH hrel (newCand_le_own (by rw [hown]; exact hc1)
              (LH.lt2 _ _ _ hrel hc3)) hc3
          have viaH : (∃ z, inext E.nx b x = some z ∧ CondH E row PN Rel z x t) →
              ∃ e, newCand E (!b) row L.near x = (some e, ((E.dsq e (row, x) : R) : WithTop R)) ∧
              E.dsq e (row, x) ≤ E.dsq t (row, x) := by
            rintro ⟨z, hz, hH⟩
            obtain ⟨hzn, _, _, hzb, _⟩ := inext_spec hx hz
            obtain ⟨k1, k2⟩ := (hL z hzn).2 hzb
            obtain ⟨c, hc1, hc2⟩ := (k2 t htp hH.1).1
            have hc3 := hH.2 c (k1 c hc1) hc2
            exact newCand_good LH hrel (newCand_le_prev (by rw [iprev_not]; exact hz) hc1) hc3
          by_cases hside : t.2 = x ∨ Before b x t.2
          · exact viaOwn (hprev x hx t htp hrel hside)
          · have hn : Before (!b) x t.2 := by
              cases b <;> simp [Before] at hside ⊢ <;> omega
            by_cases hpt : Past t
            · rcases LH.nextSide x t hx hpt hrel hn with h | h | h
              · exact viaOwn (hdirect x hx t hpt hrel (Or.inl h))
              · exact viaH h
              · exact viaOwn (hdirect x hx t hpt hrel (Or.inr h))
            · obtain ⟨hr1, _⟩ := LH.nowRow t htp hpt
              exact viaH (LH.nowNext x t hx htp hr1 hrel hn)
        refine ⟨?_, pixel_atMost LH hrel hg⟩
        by_cases ht : E.target (row, x) = true
        · rw [pixel_near_target ht]
          exact ⟨_, rfl, by rw [LH.self]; exact LH.nonneg _ _⟩
        · obtain ⟨e, he, he2⟩ := hg ht
          exact ⟨e, by rw [pixel_near_self ht, he], he2⟩
    · constructor
      · intro h
        rw [pixel_near_other hxi]
        exact (hL x hx).1 (fun h' => h (Or.inl h'))
      · intro h
        obtain ⟨k1, k2⟩ := (hL x hx).2 (h.resolve_right hxi)
        rw [pixel_near_other hxi]
        refine ⟨k1, fun t htp hrel => ⟨(k2 t htp hrel).1, ?_⟩⟩
        exact atMost_pixel (LH.nonneg _ _) (k2 t htp hrel).2

/-- One line of a sweep. -/
theorem exact_twoPasses (LH : LineHyp E b row row' Past PN Rel) {st : St R S}
    {start : Nat → Option R}
    (hpast : ∀ x, x < E.nx → ∀ c, st.near x = some c → Past c)
    (hgood : ∀ x, x < E.nx → ∀ t, Past t → Rel (row', x) t → Good E (st.near x) (row', x) t) :
    ∀ x, x < E.nx →
      (∀ c, (twoPasses E b start st row).near x = some c → PN c) ∧
      (∀ t, PN t → Rel (row, x) t → Good E ((twoPasses E b start st row).near x) (row, x) t ∧
        ∃ d, (twoPasses E b start st row).prox row x = some d ∧ d ≤ E.dsq t (row, x)) ∧
      (∀ e, 0 ≤ e → (∃ d, start x = some d ∧ d ≤ e) →
        ∃ d, (twoPasses E b start st row).prox row x = some d ∧ d ≤ e) := by
  have h1 := first_pass LH { prox := start, near := st.near, nearest := fun _ => none } hpast hgood
  set L1 := processLine E b row { prox := start, near := st.near, nearest := fun _ => none } with hL1
  have h2 := second_pass LH { prox := L1.prox, near := L1.near, nearest := fun _ => none }
    (fun x hx => (h1 x hx).1) (fun x hx => (h1 x hx).2.1) (fun x hx => (h1 x hx).2.2)
  intro x hx
  obtain ⟨g1, g2⟩ := h2 x hx
  have hprox : (twoPasses E b start st row).prox row x =
      (processLine E (!b) row { prox := L1.prox, near := L1.near, nearest := fun _ => none }).prox x := by
    simp [twoPasses, hx, hL1]
  refine ⟨g1, ?_, ?_⟩
  · intro t ht hrel
    obtain ⟨k1, k2⟩ := g2 t ht hrel
    refine ⟨k1, ?_⟩
    rw [hprox]
    exact k2
  · intro e h0 hst
    rw [hprox]
    refine atMost_line (E := E) h0 ?_
    have := atMost_line (E := E) (b := b) (row := row)
      (L := { prox := start, near := st.near, nearest := fun _ => none }) h0 (x := x) hst
    exact this

/-- Conditions on the metric for both sweeps. -/
structure Exactness (E : Env R S) (Rel : Cell → Cell → Prop) : Prop where
  down : ∀ row, row < E.ny → LineHyp E true row (row - 1) (fun c => IsT E c ∧ c.1 < row)
    (fun c => IsT E c ∧ c.1 ≤ row) Rel
  up : ∀ row, row < E.ny → LineHyp E false row (row + 1) (fun c => IsT E c ∧ row < c.1)
    (fun c => IsT E c ∧ row ≤ c.1) Rel

theorem twoPasses_prox_other {st : St R S} {start : Nat → Option R} {r x : Nat} (h : r ≠ row) :
    (twoPasses E b start st row).prox r x = st.prox r x := by
  simp [twoPasses, h]

/-- Every relevant target bounds the reported proximity. -/
theorem exact_compute (X : Exactness E Rel) {p t : Cell} (hp1 : p.1 < E.ny) (hp2 : p.2 < E.nx)
    (ht : IsT E t) (hrel : Rel p t) :
    ∃ d, (compute E).prox p.1 p.2 = some d ∧ d ≤ E.dsq t p := by
  have down : ∀ n, n ≤ E.ny →
      let st := (List.range n).foldl (downLine E)
        { near := fun _ => none, prox := fun _ _ => none, sec := fun _ _ => none }
      (∀ x, x < E.nx → ∀ c, st.near x = some c → IsT E c ∧ c.1 < n) ∧
      (∀ x, x < E.nx → ∀ t, IsT E t ∧ t.1 < n → Rel (n - 1, x) t → Good E (st.near x) (n - 1, x) t) ∧
      (∀ r x, r < n → x < E.nx → ∀ t, IsT E t → t.1 ≤ r → Rel (r, x) t →
        ∃ d, st.prox r x = some d ∧ d ≤ E.dsq t (r, x)) := by
    intro n
    induction n with
    | zero =>
      intro _
      refine ⟨?_, ?_, ?_⟩
      · intro x _ c hc; cases hc
      · intro x _ t ht; omega
      · intro r x hr; omega
    | succ n ih =>
      intro hn
      obtain ⟨h1, h2, h3⟩ := ih (by omega)
      simp only [List.range_succ, List.foldl_append, List.foldl_cons, List.foldl_nil]
      set st := (List.range n).foldl (downLine E)
        { near := fun _ => none, prox := fun _ _ => none, sec := fun _ _ => none } with hst
      have h := exact_twoPasses (X.down n (by omega)) (st := st) (start := fun _ => none) h1 h2
      refine ⟨?_, ?_, ?_⟩
      · intro x hx c hc
        obtain ⟨a, b⟩ := (h x hx).1 c hc
        exact ⟨a, by omega⟩
      · rintro x hx t ⟨ht, htn⟩ hrel
        exact ((h x hx).2.1 t ⟨ht, by omega⟩ hrel).1
      · intro r x hr hx t ht htr hrel
        by_cases hrn : r = n
        · subst hrn
          exact ((h x hx).2.1 t ⟨ht, htr⟩ hrel).2
        · obtain ⟨d, hd, hle⟩ := h3 r x (by omega) hx t ht htr hrel
          exact ⟨d, by rw [← hd]; exact twoPasses_prox_other hrn, hle⟩
  obtain ⟨_, _, hdown⟩ := down E.ny (le_refl _)
  unfold compute
  simp only
  set st1 := (List.range E.ny).foldl (downLine E)
    { near := fun _ => none, prox := fun _ _ => none, sec := fun _ _ => none } with hst1
  have up : ∀ n, n ≤ E.ny →
      let st := ((List.range E.ny).reverse.take n).foldl (upLine E) { st1 with near := fun _ => none }
      (∀ x, x < E.nx → ∀ c, st.near x = some c → IsT E c ∧ E.ny - n ≤ c.1) ∧
      (∀ x, x < E.nx → ∀ t, IsT E t ∧ E.ny - n ≤ t.1 → Rel (E.ny - n, x) t →
        Good E (st.near x) (E.ny - n, x) t) ∧
      (∀ r x, r < E.ny → x < E.nx → ∀ t, IsT E t → (t.1 ≤ r ∨ E.ny - n ≤ r) → Rel (r, x) t →
        ∃ d, st.prox r x = some d ∧ d ≤ E.dsq t (r, x)) := by
    intro n
    induction n with
    | zero =>
      intro _
      refine ⟨?_, ?_, ?_⟩
      · intro x _ c hc; cases hc
      · rintro x _ t ⟨ht, htn⟩
        have := ht.1
        omega
      · intro r x hr hx t ht htr hrel
        exact hdown r x hr hx t ht (by omega) hrel
    | succ n ih =>
      intro hn
      obtain ⟨h1, h2, h3⟩ := ih (by omega)
      have hlt : n < (List.range E.ny).reverse.length := by simp; omega
      have hget : (List.range E.ny).reverse[n] = E.ny - 1 - n := by simp
      simp only [List.take_succ_eq_append_getElem hlt, List.foldl_append, List.foldl_cons,
        List.foldl_nil, hget]
      set st := ((List.range E.ny).reverse.take n).foldl (upLine E)
        { st1 with near := fun _ => none } with hst
      have hrow : E.ny - (n + 1) = E.ny - 1 - n := by omega
      rw [hrow]
      have hrow1 : E.ny - n = E.ny - 1 - n + 1 := by omega
      set row := E.ny - 1 - n with hrowdef
      rw [hrow1] at h1 h2
      have hrowlt : row < E.ny := by omega
      have h := exact_twoPasses (X.up row hrowlt) (st := st) (start := st.prox row)
        (fun x hx c hc => ⟨(h1 x hx c hc).1, by have := (h1 x hx c hc).2; omega⟩)
        (fun x hx t ht hrel => h2 x hx t ⟨ht.1, by have := ht.2; omega⟩ hrel)
      refine ⟨?_, ?_, ?_⟩
      · intro x hx c hc
        exact (h x hx).1 c hc
      · rintro x hx t ht hrel
        exact ((h x hx).2.1 t ht hrel).1
      · intro r x hr hx t ht htr hrel
        by_cases hrn : r = row
        · subst hrn
          by_cases htl : row ≤ t.1
          · exact ((h x hx).2.1 t ⟨ht, htl⟩ hrel).2
          · refine (h x hx).2.2 _ ((X.up row hrowlt).nonneg _ _) ?_
            exact h3 row x hr hx t ht (Or.inl (by omega)) hrel
        · obtain ⟨d, hd, hle⟩ := h3 r x hr hx t ht (by omega) hrel
          exact ⟨d, by rw [← hd]; exact twoPasses_prox_other hrn, hle⟩
  have hfin := (up E.ny (le_refl _)).2.2 p.1 p.2 hp1 hp2 t ht (Or.inr (by omega)) hrel
  rw [List.take_of_length_le (by simp)] at hfin
  exact hfin

end Verif.Proximity
