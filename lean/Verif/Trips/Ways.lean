import Verif.CostRaster.Props

set_option linter.unusedSectionVars false

/-!
# C113: how cost distances change with the arguments

`cost_distance_analysis` (`distance/cost_distance.py`, C71) called several times: more sources, other costs, other cells, and the way back.
-/

namespace Verif.Trips

open Verif Verif.Nulls Verif.Nulls.Spec DType
open Verif.CostRaster (Sources Result analysis)
open Verif.CostRaster.Spec

namespace Ways

/-- The arguments of a call; `h` are the heights of the elevation raster, 0 without one. -/
structure Call where
  costs : Raster
  resolution : Rat × Rat
  sources : Sources
  elevation : Option Raster
  connectivity : Int
  h : Nat × Nat → Rat

/-- The call. -/
def Call.run (np : NumPy) (sqrt : Rat → Rat) (A : Call) : Except Err Result :=
  analysis np sqrt A.costs A.resolution A.sources A.elevation A.connectivity

/-- The arguments are possible and their nulls can be told (as in C71). -/
structure Call.Good (np : NumPy) (A : Call) : Prop where
  one : A.costs.nb = 1
  nulls : NullsHold A.costs
  fits : A.costs.nv ≠ none → Fits np A.costs.dtype (-1)
  resolution : A.resolution.1 ≠ 0 ∧ A.resolution.2 ≠ 0
  connectivity : A.connectivity = 4 ∨ A.connectivity = 8
  sources : GoodSources A.costs A.sources
  elevation : GoodElevation np A.costs A.h A.elevation

/-- The elevation of the cell is null. -/
def Call.barred (A : Call) (p : Nat × Nat) : Prop := ∃ e, A.elevation = some e ∧ e.mask (0, p) = true

/-- A source. -/
def Call.source (A : Call) (p : Nat × Nat) : Prop := ∃ v, sourceAt A.sources p v

/-- The cost of a cell that is valid there. -/
def Call.cost (A : Call) (p : Nat × Nat) (a : Rat) : Prop := A.costs.mask (0, p) = false ∧ A.costs.data (0, p) = .fin a

/-- The distance shown in a cell; null is farther than anything. -/
def shown (o : Result) (p : Nat × Nat) : WithTop Rat :=
  if o.distance.mask (0, p) then ⊤ else
    match o.distance.data (0, p) with
    | .fin w => (w : WithTop Rat)
    | _ => ⊤

/-- The square of the distance in space between two cells. -/
def Call.square (A : Call) (p q : Nat × Nat) : Rat :=
  (|A.resolution.2| * ((q.1 : Rat) - p.1)) ^ 2 + (|A.resolution.1| * ((q.2 : Rat) - p.2)) ^ 2 + (A.h q - A.h p) ^ 2

/-- The same costs, elevations, cells and neighbours. -/
def Alike (A B : Call) : Prop :=
  A.costs = B.costs ∧ A.resolution = B.resolution ∧ A.elevation = B.elevation ∧ A.connectivity = B.connectivity ∧ A.h = B.h

end Ways

open Ways

/-- The landscape of a call. -/
def wayLand (A : Call) : Land := land A.costs A.resolution A.sources A.elevation A.connectivity A.h

theorem wayLand_cost {A : Call} {p : Nat × Nat} {a : Rat} : (wayLand A).cost p a ↔ A.cost p a ∧ 0 ≤ a ∧ ¬ A.barred p := by
  unfold wayLand land Call.cost Call.barred
  simp only [not_exists, not_and, Bool.not_eq_true]
  constructor
  · rintro ⟨h1, h2, h3, h4⟩
    exact ⟨⟨h1, h2⟩, h3, h4⟩
  · rintro ⟨⟨h1, h2⟩, h3, h4⟩
    exact ⟨h1, h2, h3, h4⟩

/-- What is shown: the least cost of a path. -/
theorem shown_least {np : NumPy} {sqrt : Rat → Rat} (hs : ∀ x, 0 ≤ sqrt x) (he : ExactCast np) {A : Call} (hg : A.Good np) :
    ∃ o, A.run np sqrt = .ok o ∧ ∀ p : Nat × Nat, p.1 < A.costs.ny → p.2 < A.costs.nx →
      (A.costs.mask (0, p) = true → shown o p = ⊤) ∧
      (A.costs.mask (0, p) = false → ∀ w, Path sqrt (wayLand A) p w → shown o p ≤ (w : WithTop Rat)) ∧
      (shown o p = ⊤ ∨ A.costs.mask (0, p) = false ∧ ∃ w, Path sqrt (wayLand A) p w ∧ shown o p = (w : WithTop Rat)) := by
  obtain ⟨o, ho, -, -, -, -, -, -, -, hr⟩ := CostRaster.C71_cost_distance_partial (sqrt := sqrt) hs he hg.one hg.nulls hg.fits hg.resolution
    hg.connectivity hg.sources hg.elevation
  refine ⟨o, ho, ?_⟩
  intro p h1 h2
  obtain ⟨r1, -, -, -, r5⟩ := hr p h1 h2
  change (o.distance.mask (0, p) = true ↔ A.costs.mask (0, p) = true ∨ ¬ ∃ w, Path sqrt (wayLand A) p w) at r1
  cases hm : o.distance.mask (0, p) with
  | true =>
    have hsh : shown o p = ⊤ := by unfold shown; rw [hm]; rfl
    refine ⟨fun _ => hsh, ?_, Or.inl hsh⟩
    intro hc w hw
    rcases r1.mp hm with h | h
    · rw [hc] at h; cases h
    · exact absurd ⟨w, hw⟩ h
  | false =>
    obtain ⟨w, _, _, _, e1, e2, e3, -⟩ := r5 hm
    have hsh : shown o p = (w : WithTop Rat) := by unfold shown; rw [hm, e1]; rfl
    have hc : A.costs.mask (0, p) = false := by
      cases h : A.costs.mask (0, p) with
      | false => rfl
      | true => rw [r1.mpr (Or.inl h)] at hm; cases hm
    refine ⟨fun h => (by rw [hc] at h; cases h), ?_, Or.inr ⟨hc, w, e2, hsh⟩⟩
    intro _ w' hw'
    rw [hsh]
    exact WithTop.coe_le_coe.mpr (e3 w' hw')

/-! ### Changing the landscape -/

theorem path_mono {sqrt : Rat → Rat} (hs : ∀ x, 0 ≤ sqrt x) (hm : ∀ x y, x ≤ y → sqrt x ≤ sqrt y) {A B : Call}
    (hshape : (A.costs.ny, A.costs.nx) = (B.costs.ny, B.costs.nx)) (hsrc : ∀ p, B.source p → A.source p)
    (hcost : ∀ p b, B.cost p b → ¬ B.barred p → 0 ≤ b → ¬ A.barred p ∧ ∃ a, A.cost p a ∧ 0 ≤ a ∧ a ≤ b)
    (hr1 : |A.resolution.1| ≤ |B.resolution.1|) (hr2 : |A.resolution.2| ≤ |B.resolution.2|)
    (hh : ∀ p q, (A.h q - A.h p) ^ 2 ≤ (B.h q - B.h p) ^ 2) (hk : B.connectivity = 8 → A.connectivity = 8)
    {p : Nat × Nat} {w : Rat} (hp : Path sqrt (wayLand B) p w) : ∃ w' ≤ w, Path sqrt (wayLand A) p w' := by
  simp only [Prod.mk.injEq] at hshape
  have hin : ∀ q, Inside (wayLand B) q → Inside (wayLand A) q := by
    intro q hq
    exact ⟨by show q.1 < A.costs.ny; rw [hshape.1]; exact hq.1, by show q.2 < A.costs.nx; rw [hshape.2]; exact hq.2⟩
  have hc : ∀ q b, (wayLand B).cost q b → ∃ a, (wayLand A).cost q a ∧ a ≤ b := by
    intro q b hb
    obtain ⟨h1, h2, h3⟩ := wayLand_cost.mp hb
    obtain ⟨h4, a, h5, h6, h7⟩ := hcost q b h1 h3 h2
    exact ⟨a, wayLand_cost.mpr ⟨h5, h6, h4⟩, h7⟩
  have hl : ∀ q q', length sqrt (wayLand A) q q' ≤ length sqrt (wayLand B) q q' := by
    intro q q'
    refine hm _ _ ?_
    have e1 : (|A.resolution.2| * ((q'.1 : Rat) - q.1)) ^ 2 ≤ (|B.resolution.2| * ((q'.1 : Rat) - q.1)) ^ 2 := by
      rw [mul_pow, mul_pow]
      exact mul_le_mul_of_nonneg_right (pow_le_pow_left₀ (abs_nonneg _) hr2 2) (sq_nonneg _)
    have e2 : (|A.resolution.1| * ((q'.2 : Rat) - q.2)) ^ 2 ≤ (|B.resolution.1| * ((q'.2 : Rat) - q.2)) ^ 2 := by
      rw [mul_pow, mul_pow]
      exact mul_le_mul_of_nonneg_right (pow_le_pow_left₀ (abs_nonneg _) hr1 2) (sq_nonneg _)
    have e3 := hh q q'
    show (|A.resolution.2| * ((q'.1 : Rat) - q.1)) ^ 2 + (|A.resolution.1| * ((q'.2 : Rat) - q.2)) ^ 2 + (A.h q' - A.h q) ^ 2 ≤
      (|B.resolution.2| * ((q'.1 : Rat) - q.1)) ^ 2 + (|B.resolution.1| * ((q'.2 : Rat) - q.2)) ^ 2 + (B.h q' - B.h q) ^ 2
    linarith
  induction hp with
  | source h1 h2 =>
    obtain ⟨v, hv⟩ := hsrc _ ⟨_, h2⟩
    exact ⟨0, le_refl _, .source (hin _ h1) hv⟩
  | @step q q' _ a b h1 h2 h3 h4 h5 ih =>
    obtain ⟨w', hw', hp'⟩ := ih
    obtain ⟨a', ha', ha⟩ := hc _ _ h2
    obtain ⟨b', hb', hb⟩ := hc _ _ h4
    have ha0 := (wayLand_cost.mp ha').2.1
    have hb0 := (wayLand_cost.mp hb').2.1
    refine ⟨_, ?_, .step hp' ha' (hin _ h3) hb' ⟨h5.1, h5.2.1, h5.2.2.1, ?_⟩⟩
    · have := mul_le_mul (hl q q') (by linarith : (a' + b') / 2 ≤ (a + b) / 2) (by linarith) (hs _)
      exact add_le_add hw' this
    · rcases h5.2.2.2 with h | h
      · exact Or.inl (hk h)
      · exact Or.inr h

/-- **C113.** More sources, lower costs, fewer barriers, smaller cells, less steep ground and more neighbours never make a distance larger. -/
theorem C113_monotone {np : NumPy} {sqrt : Rat → Rat} (hs : ∀ x, 0 ≤ sqrt x) (hm : ∀ x y, x ≤ y → sqrt x ≤ sqrt y) (he : ExactCast np)
    {A B : Call} (hA : A.Good np) (hB : B.Good np) (hshape : (A.costs.ny, A.costs.nx) = (B.costs.ny, B.costs.nx))
    (hnull : ∀ p, A.costs.mask (0, p) = true → B.costs.mask (0, p) = true) (hsrc : ∀ p, B.source p → A.source p)
    (hcost : ∀ p b, B.cost p b → ¬ B.barred p → 0 ≤ b → ¬ A.barred p ∧ ∃ a, A.cost p a ∧ 0 ≤ a ∧ a ≤ b)
    (hr1 : |A.resolution.1| ≤ |B.resolution.1|) (hr2 : |A.resolution.2| ≤ |B.resolution.2|)
    (hh : ∀ p q, (A.h q - A.h p) ^ 2 ≤ (B.h q - B.h p) ^ 2) (hk : B.connectivity = 8 → A.connectivity = 8) :
    ∃ a b, A.run np sqrt = .ok a ∧ B.run np sqrt = .ok b ∧
      ∀ p : Nat × Nat, p.1 < A.costs.ny → p.2 < A.costs.nx → shown a p ≤ shown b p := by
  obtain ⟨a, ea, ha⟩ := shown_least (sqrt := sqrt) hs he hA
  obtain ⟨b, eb, hb⟩ := shown_least (sqrt := sqrt) hs he hB
  refine ⟨a, b, ea, eb, ?_⟩
  intro p h1 h2
  have hsh := hshape
  simp only [Prod.mk.injEq] at hsh
  rcases (hb p (hsh.1 ▸ h1) (hsh.2 ▸ h2)).2.2 with h | ⟨hc, w, hw, e⟩
  · rw [h]; exact le_top
  · obtain ⟨w', hle, hp⟩ := path_mono hs hm hshape hsrc hcost hr1 hr2 hh hk hw
    rw [e]
    have hcA : A.costs.mask (0, p) = false := by
      cases h : A.costs.mask (0, p) with
      | false => rfl
      | true => rw [hnull p h] at hc; cases hc
    exact le_trans ((ha p h1 h2).2.1 hcA w' hp) (WithTop.coe_le_coe.mpr hle)

theorem square_scaled {A B : Call} {k : Rat} (hr1 : |B.resolution.1| = k * |A.resolution.1|) (hr2 : |B.resolution.2| = k * |A.resolution.2|)
    (hh : ∀ p, B.h p = k * A.h p) {p q : Nat × Nat} : B.square p q = k ^ 2 * A.square p q := by
  unfold Call.square
  rw [hr1, hr2, hh, hh]
  ring

theorem path_scaled {sqrt : Rat → Rat} {A B : Call} {k m : Rat} (hm0 : 0 ≤ m)
    (hq : ∀ p q, Beside (wayLand A) p q → sqrt (k ^ 2 * A.square p q) = k * sqrt (A.square p q))
    (hshape : (A.costs.ny, A.costs.nx) = (B.costs.ny, B.costs.nx)) (hsrc : ∀ p, A.source p → B.source p)
    (hcost : ∀ p a, A.cost p a → B.cost p (m * a)) (hbar : ∀ p, B.barred p → A.barred p)
    (hr1 : |B.resolution.1| = k * |A.resolution.1|) (hr2 : |B.resolution.2| = k * |A.resolution.2|)
    (hh : ∀ p, B.h p = k * A.h p) (hk : A.connectivity = B.connectivity)
    {p : Nat × Nat} {w : Rat} (hp : Path sqrt (wayLand A) p w) : Path sqrt (wayLand B) p (k * m * w) := by
  simp only [Prod.mk.injEq] at hshape
  have hin : ∀ q, Inside (wayLand A) q → Inside (wayLand B) q := by
    intro q hq
    exact ⟨by show q.1 < B.costs.ny; rw [← hshape.1]; exact hq.1, by show q.2 < B.costs.nx; rw [← hshape.2]; exact hq.2⟩
  have hc : ∀ q a, (wayLand A).cost q a → (wayLand B).cost q (m * a) := by
    intro q a ha
    obtain ⟨h1, h2, h3⟩ := wayLand_cost.mp ha
    exact wayLand_cost.mpr ⟨hcost q a h1, mul_nonneg hm0 h2, fun h => h3 (hbar q h)⟩
  have hl : ∀ q q', Beside (wayLand A) q q' → length sqrt (wayLand B) q q' = k * length sqrt (wayLand A) q q' := by
    intro q q' hqq
    show sqrt (B.square q q') = k * sqrt (A.square q q')
    rw [← hq q q' hqq, square_scaled hr1 hr2 hh]
  induction hp with
  | source h1 h2 =>
    obtain ⟨v, hv⟩ := hsrc _ ⟨_, h2⟩
    rw [mul_zero]
    exact .source (hin _ h1) hv
  | @step q q' w a b h1 h2 h3 h4 h5 ih =>
    have := Path.step ih (hc _ _ h2) (hin _ h3) (hc _ _ h4)
      (show Beside (wayLand B) q q' from ⟨h5.1, h5.2.1, h5.2.2.1, h5.2.2.2.imp (fun h => hk.symm.trans h) id⟩)
    rw [hl _ _ h5] at this
    have e : k * m * (w + length sqrt (wayLand A) q q' * ((a + b) / 2)) =
        k * m * w + k * length sqrt (wayLand A) q q' * ((m * a + m * b) / 2) := by ring
    rw [e]
    exact this

/-- **C113.** With costs `m` times and cells and heights `k` times as large every distance is `k * m` times as large. -/
theorem C113_scaled {np : NumPy} {sqrt : Rat → Rat} (hs : ∀ x, 0 ≤ sqrt x) (he : ExactCast np) {A B : Call} {k m : Rat} (hk0 : 0 < k)
    (hm0 : 0 < m) (hq : ∀ p q, Beside (wayLand A) p q → sqrt (k ^ 2 * A.square p q) = k * sqrt (A.square p q)) (hA : A.Good np) (hB : B.Good np)
    (hshape : (A.costs.ny, A.costs.nx) = (B.costs.ny, B.costs.nx)) (hsrc : ∀ p, A.source p ↔ B.source p)
    (hnull : ∀ p, A.costs.mask (0, p) = B.costs.mask (0, p)) (hcost : ∀ p a, A.cost p a ↔ B.cost p (m * a))
    (hbar : ∀ p, A.barred p ↔ B.barred p) (hr1 : |B.resolution.1| = k * |A.resolution.1|) (hr2 : |B.resolution.2| = k * |A.resolution.2|)
    (hh : ∀ p, B.h p = k * A.h p) (hk : A.connectivity = B.connectivity) :
    ∃ a b, A.run np sqrt = .ok a ∧ B.run np sqrt = .ok b ∧
      ∀ p : Nat × Nat, p.1 < A.costs.ny → p.2 < A.costs.nx → (shown a p = ⊤ ↔ shown b p = ⊤) ∧
        ∀ w : Rat, shown a p = (w : WithTop Rat) ↔ shown b p = ((k * m * w : Rat) : WithTop Rat) := by
  obtain ⟨a, ea, ha⟩ := shown_least (sqrt := sqrt) hs he hA
  obtain ⟨b, eb, hb⟩ := shown_least (sqrt := sqrt) hs he hB
  refine ⟨a, b, ea, eb, ?_⟩
  intro p h1 h2
  have hsh := hshape
  simp only [Prod.mk.injEq] at hsh
  have hkm : 0 < k * m := mul_pos hk0 hm0
  have fwd : ∀ w, Path sqrt (wayLand A) p w → Path sqrt (wayLand B) p (k * m * w) := fun w hw =>
    path_scaled (le_of_lt hm0) hq hshape (fun q => (hsrc q).mp) (fun q c => (hcost q c).mp) (fun q => (hbar q).mpr) hr1 hr2 hh hk hw
  have bwd : ∀ w, Path sqrt (wayLand B) p w → Path sqrt (wayLand A) p (k⁻¹ * m⁻¹ * w) := fun w hw =>
    path_scaled (inv_nonneg.mpr (le_of_lt hm0))
      (fun q q' hqq => by
        have e := square_scaled hr1 hr2 hh (p := q) (q := q')
        have := hq q q' ⟨hqq.1, hqq.2.1, hqq.2.2.1, hqq.2.2.2.imp (fun h => hk.trans h) id⟩
        rw [e, this, show k⁻¹ ^ 2 * (k ^ 2 * A.square q q') = A.square q q' by field_simp]
        field_simp)
      hshape.symm (fun q => (hsrc q).mpr)
      (fun q c hc => (hcost q _).mpr (by rw [← mul_assoc, mul_inv_cancel₀ hm0.ne', one_mul]; exact hc))
      (fun q => (hbar q).mp) (by rw [hr1]; field_simp) (by rw [hr2]; field_simp) (fun q => by rw [hh]; field_simp) hk.symm hw
  obtain ⟨a1, a2, a3⟩ := ha p h1 h2
  obtain ⟨b1, b2, b3⟩ := hb p (hsh.1 ▸ h1) (hsh.2 ▸ h2)
  rcases a3 with ea | ⟨hca, w, hw, ea⟩
  · rcases b3 with eb | ⟨hcb, w', hw', eb⟩
    · refine ⟨by rw [ea, eb], fun w => ?_⟩
      rw [ea, eb]
      exact ⟨fun h => absurd h.symm (WithTop.coe_ne_top), fun h => absurd h.symm (WithTop.coe_ne_top)⟩
    · have := a2 (by rw [hnull]; exact hcb) _ (bwd w' hw')
      rw [ea] at this
      exact absurd (top_le_iff.mp this) WithTop.coe_ne_top
  · rcases b3 with eb | ⟨hcb, w', hw', eb⟩
    · have := b2 (by rw [← hnull]; exact hca) _ (fwd w hw)
      rw [eb] at this
      exact absurd (top_le_iff.mp this) WithTop.coe_ne_top
    · have l1 := b2 (by rw [← hnull]; exact hca) _ (fwd w hw)
      have l2 := a2 (by rw [hnull]; exact hcb) _ (bwd w' hw')
      rw [eb] at l1
      rw [ea] at l2
      have l1 := WithTop.coe_le_coe.mp l1
      have l2 := WithTop.coe_le_coe.mp l2
      have l3 : k * m * w ≤ w' := by
        have := mul_le_mul_of_nonneg_left l2 (le_of_lt hkm)
        rw [show k * m * (k⁻¹ * m⁻¹ * w') = w' by field_simp] at this
        exact this
      have e : w' = k * m * w := le_antisymm l1 l3
      rw [ea, eb, e]
      refine ⟨⟨fun h => absurd h WithTop.coe_ne_top, fun h => absurd h WithTop.coe_ne_top⟩, fun x => ?_⟩
      rw [WithTop.coe_inj, WithTop.coe_inj]
      constructor
      · rintro rfl; rfl
      · intro h; exact mul_left_cancel₀ hkm.ne' h

/-! ### Two sets of sources -/

/-- **C113.** The distance to two sets of sources together is the smaller of the distances to each. -/
theorem C113_union {np : NumPy} {sqrt : Rat → Rat} (hs : ∀ x, 0 ≤ sqrt x) (he : ExactCast np) {A B C : Call} (hA : A.Good np)
    (hB : B.Good np) (hC : C.Good np) (hAC : Alike A C) (hBC : Alike B C) (hsrc : ∀ p, C.source p ↔ A.source p ∨ B.source p) :
    ∃ a b c, A.run np sqrt = .ok a ∧ B.run np sqrt = .ok b ∧ C.run np sqrt = .ok c ∧
      ∀ p : Nat × Nat, p.1 < C.costs.ny → p.2 < C.costs.nx → shown c p = min (shown a p) (shown b p) := by
  obtain ⟨a, ea, ha⟩ := shown_least (sqrt := sqrt) hs he hA
  obtain ⟨b, eb, hb⟩ := shown_least (sqrt := sqrt) hs he hB
  obtain ⟨c, ec, hc⟩ := shown_least (sqrt := sqrt) hs he hC
  refine ⟨a, b, c, ea, eb, ec, ?_⟩
  intro p h1 h2
  have up : ∀ {X : Call}, Alike X C → (∀ p, X.source p → C.source p) → ∀ {q w}, Path sqrt (wayLand X) q w → Path sqrt (wayLand C) q w := by
    intro X hX hsub q w hw
    obtain ⟨e1, e2, e3, e4, e5⟩ := hX
    cases X; cases C
    simp only at e1 e2 e3 e4 e5
    subst e1 e2 e3 e4 e5
    induction hw with
    | source i1 i2 =>
      obtain ⟨v, hv⟩ := hsub _ ⟨_, i2⟩
      exact .source i1 hv
    | step _ i2 i3 i4 i5 ih => exact .step ih i2 i3 i4 i5
  have down : ∀ {q w}, Path sqrt (wayLand C) q w → Path sqrt (wayLand A) q w ∨ Path sqrt (wayLand B) q w := by
    intro q w hw
    obtain ⟨e1, e2, e3, e4, e5⟩ := hAC
    obtain ⟨f1, f2, f3, f4, f5⟩ := hBC
    cases A; cases B; cases C
    simp only at e1 e2 e3 e4 e5 f1 f2 f3 f4 f5
    subst e1 e2 e3 e4 e5 f1 f2 f3 f4 f5
    induction hw with
    | source i1 i2 =>
      rcases (hsrc _).mp ⟨_, i2⟩ with ⟨v, hv⟩ | ⟨v, hv⟩
      · exact Or.inl (.source i1 hv)
      · exact Or.inr (.source i1 hv)
    | step _ i2 i3 i4 i5 ih =>
      rcases ih with ih | ih
      · exact Or.inl (.step ih i2 i3 i4 i5)
      · exact Or.inr (.step ih i2 i3 i4 i5)
  have eAC : A.costs = C.costs := hAC.1
  have eBC : B.costs = C.costs := hBC.1
  obtain ⟨a1, a2, a3⟩ := ha p (eAC ▸ h1) (eAC ▸ h2)
  obtain ⟨b1, b2, b3⟩ := hb p (eBC ▸ h1) (eBC ▸ h2)
  obtain ⟨c1, c2, c3⟩ := hc p h1 h2
  rw [eAC] at a1 a2 a3
  rw [eBC] at b1 b2 b3
  apply le_antisymm
  · refine le_min ?_ ?_
    · rcases a3 with e | ⟨g, w, hw, e⟩
      · rw [e]; exact le_top
      · rw [e]; exact c2 g w (up hAC (fun q hq => (hsrc q).mpr (Or.inl hq)) hw)
    · rcases b3 with e | ⟨g, w, hw, e⟩
      · rw [e]; exact le_top
      · rw [e]; exact c2 g w (up hBC (fun q hq => (hsrc q).mpr (Or.inr hq)) hw)
  · rcases c3 with e | ⟨g, w, hw, e⟩
    · rw [e]; exact le_top
    · rw [e]
      rcases down hw with h | h
      · exact le_trans (min_le_left _ _) (a2 g w h)
      · exact le_trans (min_le_right _ _) (b2 g w h)

/-! ### There and back -/

/-- A walk between two places. -/
inductive Stroll (sqrt : Rat → Rat) (L : Land) (s : Nat × Nat) : Nat × Nat → Rat → Prop
  | here : Inside L s → Stroll sqrt L s s 0
  | step {p q w a b} : Stroll sqrt L s p w → L.cost p a → Inside L q → L.cost q b → Beside L p q →
      Stroll sqrt L s q (w + length sqrt L p q * ((a + b) / 2))

section
variable {sqrt : Rat → Rat} {L : Land} {s p q t : Nat × Nat} {w w' a b : Rat}

theorem Stroll.inside (h : Stroll sqrt L s p w) : Inside L p := by
  cases h with
  | here h => exact h
  | step _ _ h _ _ => exact h

theorem Stroll.append (h1 : Stroll sqrt L s p w) (h2 : Stroll sqrt L p q w') : Stroll sqrt L s q (w + w') := by
  induction h2 with
  | here => rw [add_zero]; exact h1
  | step _ i2 i3 i4 i5 ih =>
    rw [← add_assoc]
    exact .step ih i2 i3 i4 i5

theorem length_symm : length sqrt L p q = length sqrt L q p := by
  unfold length
  congr 1
  ring

theorem beside_symm (h : Beside L p q) : Beside L q p := by
  obtain ⟨h1, h2, h3, h4⟩ := h
  exact ⟨Ne.symm h1, by omega, by omega, h4.imp id (Or.imp Eq.symm Eq.symm)⟩

theorem Stroll.reverse (h : Stroll sqrt L s p w) : Stroll sqrt L p s w := by
  induction h with
  | here h => exact .here h
  | @step p q w a b i1 i2 i3 i4 i5 ih =>
    have h1 : Stroll sqrt L q p (0 + length sqrt L q p * ((b + a) / 2)) := .step (.here i3) i4 i1.inside i2 (beside_symm i5)
    have := h1.append ih
    rw [length_symm, show (0 + length sqrt L p q * ((b + a) / 2)) + w = w + length sqrt L p q * ((a + b) / 2) by ring] at this
    exact this

/-- A walk that leaves its place starts in a cell that can be crossed. -/
theorem Stroll.start (h : Stroll sqrt L s p w) : s = p ∨ (∃ a, L.cost s a) ∧ ∃ b, L.cost p b := by
  induction h with
  | here => exact Or.inl rfl
  | step i1 i2 i3 i4 i5 ih =>
    rcases ih with rfl | ⟨h, -⟩
    · exact Or.inr ⟨⟨_, i2⟩, _, i4⟩
    · exact Or.inr ⟨h, _, i4⟩

end

theorem path_then {sqrt : Rat → Rat} {L : Land} {t p : Nat × Nat} {w w' : Rat} (h : Path sqrt L t w) (h' : Stroll sqrt L t p w') :
    Path sqrt L p (w + w') := by
  induction h' with
  | here => rw [add_zero]; exact h
  | step _ i2 i3 i4 i5 ih =>
    rw [← add_assoc]
    exact .step ih i2 i3 i4 i5

/-- The only source. -/
def Ways.Call.only (A : Call) (s : Nat × Nat) : Prop := A.source s ∧ ∀ p, A.source p → p = s

theorem path_stroll {sqrt : Rat → Rat} {A : Call} {s p : Nat × Nat} {w : Rat} (ho : A.only s) :
    Path sqrt (wayLand A) p w ↔ Stroll sqrt (wayLand A) s p w := by
  constructor
  · intro h
    induction h with
    | source i1 i2 =>
      obtain rfl := ho.2 _ ⟨_, i2⟩
      exact .here i1
    | step _ i2 i3 i4 i5 ih => exact .step ih i2 i3 i4 i5
  · intro h
    induction h with
    | here i1 =>
      obtain ⟨v, hv⟩ := ho.1
      exact .source i1 hv
    | step _ i2 i3 i4 i5 ih => exact .step ih i2 i3 i4 i5

theorem stroll_alike {sqrt : Rat → Rat} {A B : Call} (h : Alike A B) {s p : Nat × Nat} {w : Rat} :
    Stroll sqrt (wayLand A) s p w → Stroll sqrt (wayLand B) s p w := by
  intro hw
  obtain ⟨e1, e2, e3, e4, e5⟩ := h
  cases A; cases B
  simp only at e1 e2 e3 e4 e5
  subst e1 e2 e3 e4 e5
  induction hw with
  | here i1 => exact .here i1
  | step _ i2 i3 i4 i5 ih => exact .step ih i2 i3 i4 i5

theorem Ways.Alike.symm {A B : Call} (h : Alike A B) : Alike B A := by
  obtain ⟨e1, e2, e3, e4, e5⟩ := h
  exact ⟨e1.symm, e2.symm, e3.symm, e4.symm, e5.symm⟩

theorem back_le {np : NumPy} {sqrt : Rat → Rat} {A B : Call} (hAB : Alike A B) {s t : Nat × Nat} (hs' : A.only s) (ht' : B.only t)
    {a b : Result} (ha : shown a t = ⊤ ∨ A.costs.mask (0, t) = false ∧ ∃ w, Path sqrt (wayLand A) t w ∧ shown a t = (w : WithTop Rat))
    (hb : B.costs.mask (0, s) = false → ∀ w, Path sqrt (wayLand B) s w → shown b s ≤ (w : WithTop Rat)) :
    shown b s ≤ shown a t := by
  rcases ha with e | ⟨hc, w, hw, e⟩
  · rw [e]; exact le_top
  · have h1 := (path_stroll hs').mp hw
    rw [e]
    refine hb ?_ w ((path_stroll ht').mpr (stroll_alike hAB h1.reverse))
    rw [← hAB.1]
    rcases h1.start with rfl | ⟨⟨x, hx⟩, -⟩
    · exact hc
    · exact hx.1

/-- **C113.** The way from one place to another costs as much as the way back. -/
theorem C113_symmetric {np : NumPy} {sqrt : Rat → Rat} (hs : ∀ x, 0 ≤ sqrt x) (he : ExactCast np) {A B : Call} (hA : A.Good np)
    (hB : B.Good np) (hAB : Alike A B) {s t : Nat × Nat} (hs' : A.only s) (ht' : B.only t) (hsi : s.1 < A.costs.ny ∧ s.2 < A.costs.nx)
    (hti : t.1 < A.costs.ny ∧ t.2 < A.costs.nx) :
    ∃ a b, A.run np sqrt = .ok a ∧ B.run np sqrt = .ok b ∧ shown a t = shown b s := by
  obtain ⟨a, ea, ha⟩ := shown_least (sqrt := sqrt) hs he hA
  obtain ⟨b, eb, hb⟩ := shown_least (sqrt := sqrt) hs he hB
  refine ⟨a, b, ea, eb, ?_⟩
  obtain ⟨a1, a2, a3⟩ := ha t hti.1 hti.2
  obtain ⟨b1, b2, b3⟩ := hb s (hAB.1 ▸ hsi.1) (hAB.1 ▸ hsi.2)
  exact le_antisymm (back_le (np := np) hAB.symm ht' hs' b3 a2) (back_le (np := np) hAB hs' ht' a3 b2)

/-- **C113.** A detour through another place is not shorter. -/
theorem C113_triangle {np : NumPy} {sqrt : Rat → Rat} (hs : ∀ x, 0 ≤ sqrt x) (he : ExactCast np) {A B : Call} (hA : A.Good np)
    (hB : B.Good np) (hAB : Alike A B) {t : Nat × Nat} (ht' : B.only t) (hti : t.1 < A.costs.ny ∧ t.2 < A.costs.nx) :
    ∃ a b, A.run np sqrt = .ok a ∧ B.run np sqrt = .ok b ∧
      ∀ p : Nat × Nat, p.1 < A.costs.ny → p.2 < A.costs.nx → shown a p ≤ shown a t + shown b p := by
  obtain ⟨a, ea, ha⟩ := shown_least (sqrt := sqrt) hs he hA
  obtain ⟨b, eb, hb⟩ := shown_least (sqrt := sqrt) hs he hB
  refine ⟨a, b, ea, eb, ?_⟩
  intro p h1 h2
  rcases (ha t hti.1 hti.2).2.2 with e | ⟨_, w, hw, e⟩
  · rw [e]; exact le_of_le_of_eq le_top (WithTop.top_add _).symm
  · rcases (hb p (hAB.1 ▸ h1) (hAB.1 ▸ h2)).2.2 with f | ⟨hc, w', hw', f⟩
    · rw [f]; exact le_of_le_of_eq le_top (WithTop.add_top _).symm
    · rw [e, f]
      have h3 := stroll_alike hAB.symm ((path_stroll ht').mp hw')
      have h4 : Path sqrt (wayLand A) p (w + w') := path_then hw h3
      exact (ha p h1 h2).2.1 (by rw [hAB.1]; exact hc) _ h4

/-- **C113.** The distances of neighbours that can be crossed differ at most by the cost of the step between them. -/
theorem C113_neighbours {np : NumPy} {sqrt : Rat → Rat} (hs : ∀ x, 0 ≤ sqrt x) (he : ExactCast np) {A : Call} (hA : A.Good np) :
    ∃ o, A.run np sqrt = .ok o ∧ ∀ p q : Nat × Nat, p.1 < A.costs.ny → p.2 < A.costs.nx → q.1 < A.costs.ny → q.2 < A.costs.nx →
      ∀ a b, A.cost p a → A.cost q b → 0 ≤ a → 0 ≤ b → ¬ A.barred p → ¬ A.barred q → Beside (wayLand A) p q →
        shown o q ≤ shown o p + ((length sqrt (wayLand A) p q * ((a + b) / 2) : Rat) : WithTop Rat) := by
  obtain ⟨o, eo, ho⟩ := shown_least (sqrt := sqrt) hs he hA
  refine ⟨o, eo, ?_⟩
  intro p q h1 h2 h3 h4 a b ha hb ha0 hb0 hpa hqb hbs
  rcases (ho p h1 h2).2.2 with e | ⟨_, w, hw, e⟩
  · rw [e]; exact le_of_le_of_eq le_top (WithTop.top_add _).symm
  · rw [e]
    exact (ho q h3 h4).2.1 hb.1 _ (.step hw (wayLand_cost.mpr ⟨ha, ha0, hpa⟩) ⟨h3, h4⟩ (wayLand_cost.mpr ⟨hb, hb0, hqb⟩) hbs)

/-! ### Concrete cases -/

/-- The whole part of the square root, counted up to 100. -/
def wholeRoot (x : Rat) : Rat := (((List.range 100).countP fun n => decide (((n : Rat) + 1) ^ 2 ≤ x) : Nat) : Rat)

theorem wholeRoot_nonneg (x : Rat) : 0 ≤ wholeRoot x := by
  unfold wholeRoot
  exact_mod_cast Nat.zero_le _

theorem wholeRoot_mono (x y : Rat) (h : x ≤ y) : wholeRoot x ≤ wholeRoot y := by
  unfold wholeRoot
  have : (List.range 100).countP (fun n => decide (((n : Rat) + 1) ^ 2 ≤ x)) ≤
      (List.range 100).countP fun n => decide (((n : Rat) + 1) ^ 2 ≤ y) := by
    apply List.countP_mono_left
    intro n _ hn
    simp only [decide_eq_true_eq] at hn ⊢
    exact le_trans hn h
  exact_mod_cast this

/-- Cells of 3 by 4 with costs of `m (y + x + 1)`, a null in the first row, and sources in the given places. -/
def exCall (m : Int) (k : Rat) (l : List (List Int)) (connectivity : Int) : Call where
  costs := CostRaster.grid i16 (some ⟨i16, .fin (-5)⟩) (fun y x => y == 0 && x == 1) fun y x => m * (y + x + 1)
  resolution := (k * 3, -(k * 4))
  sources := .indices l
  elevation := none
  connectivity := connectivity
  h := fun _ => 0

theorem exCall_good {m : Int} {k : Rat} {l : List (List Int)} {connectivity : Int} (hk : k ≠ 0) (hc : connectivity = 4 ∨ connectivity = 8)
    (h1 : l ≠ []) (h2 : l.Nodup) (h3 : l.length < 2 ^ 63) (h4 : ∀ p ∈ l, ∃ y x : Nat, p = [(y : Int), (x : Int)] ∧ y < 2 ∧ x < 3) :
    (exCall m k l connectivity).Good CostRaster.halfNumPy where
  one := rfl
  nulls := CostRaster.grid_nulls i16 ⟨i16, .fin (-5)⟩ (fun y x => y == 0 && x == 1) fun y x => m * (y + x + 1)
  fits := fun _ => ⟨fun h => (by cases h), fun _ => .inl ⟨_, _, rfl, by norm_num, by norm_num⟩⟩
  resolution := ⟨mul_ne_zero hk (by norm_num), neg_ne_zero.mpr (mul_ne_zero hk (by norm_num))⟩
  connectivity := hc
  sources := ⟨h1, h2, h3, h4⟩
  elevation := fun _ => rfl

theorem exCall_source {m : Int} {k : Rat} {l : List (List Int)} {connectivity : Int} {p : Nat × Nat} :
    (exCall m k l connectivity).source p ↔ [(p.1 : Int), (p.2 : Int)] ∈ l := by
  unfold Call.source exCall sourceAt
  rw [List.mem_iff_getElem?]
  constructor
  · rintro ⟨_, i, _, hi⟩
    exact ⟨i, hi⟩
  · rintro ⟨i, hi⟩
    exact ⟨_, i, rfl, hi⟩

/-- The distances of the six cells, none for null. -/
def sixShown : Except Err Result → Option (List (Option Rat))
  | .ok o => some (CostRaster.six.map fun p => (shown o p : Option Rat))
  | .error _ => none

/-- The arguments meet the conditions of C113. -/
example : (exCall 1 1 [[0, 0]] 4).Good CostRaster.halfNumPy ∧ (exCall 3 2 [[0, 0]] 4).Good CostRaster.halfNumPy ∧
    (exCall 1 1 [[0, 0], [1, 2]] 8).Good CostRaster.halfNumPy := by
  refine ⟨exCall_good (by norm_num) (.inl rfl) (by decide) (by decide) (by decide) ?_,
    exCall_good (by norm_num) (.inl rfl) (by decide) (by decide) (by decide) ?_,
    exCall_good (by norm_num) (.inr rfl) (by decide) (by decide) (by decide) ?_⟩
  · intro p hp
    rw [List.mem_singleton] at hp
    exact ⟨0, 0, by simpa using hp, by decide, by decide⟩
  · intro p hp
    rw [List.mem_singleton] at hp
    exact ⟨0, 0, by simpa using hp, by decide, by decide⟩
  · intro p hp
    simp only [List.mem_cons, List.not_mem_nil, or_false] at hp
    rcases hp with rfl | rfl
    · exact ⟨0, 0, by simp, by decide, by decide⟩
    · exact ⟨1, 2, by simp, by decide, by decide⟩

/-- Only one source; three sets of sources of which the last is made of the first two. -/
example : (exCall 1 1 [[0, 0]] 4).only (0, 0) ∧ (exCall 1 1 [[1, 2]] 4).only (1, 2) ∧
    (∀ p, (exCall 1 1 [[0, 0], [1, 2]] 4).source p ↔ (exCall 1 1 [[0, 0]] 4).source p ∨ (exCall 1 1 [[1, 2]] 4).source p) ∧
    Alike (exCall 1 1 [[0, 0]] 4) (exCall 1 1 [[1, 2]] 4) := by
  refine ⟨⟨exCall_source.mpr (by decide), fun p hp => ?_⟩, ⟨exCall_source.mpr (by decide), fun p hp => ?_⟩, fun p => ?_,
    rfl, rfl, rfl, rfl, rfl⟩
  · have := exCall_source.mp hp
    simp only [List.mem_singleton, List.cons.injEq, and_true] at this
    exact Prod.ext (by have := this.1; simp only; omega) (by have := this.2; simp only; omega)
  · have := exCall_source.mp hp
    simp only [List.mem_singleton, List.cons.injEq, and_true] at this
    exact Prod.ext (by have := this.1; simp only; omega) (by have := this.2; simp only; omega)
  · rw [exCall_source, exCall_source, exCall_source]
    simp

/-- Costs three times and cells twice as large. -/
example : (∀ p a, (exCall 1 1 [[0, 0]] 4).cost p a ↔ (exCall 3 2 [[0, 0]] 4).cost p (3 * a)) ∧
    |(exCall 3 2 [[0, 0]] 4).resolution.2| = 2 * |(exCall 1 1 [[0, 0]] 4).resolution.2| := by
  refine ⟨fun p a => ?_, by decide +kernel⟩
  unfold Call.cost
  cases h : (p.1 == 0 && p.2 == 1) with
  | true => simp [exCall, CostRaster.grid, h]
  | false =>
    simp only [exCall, CostRaster.grid, h, Bool.false_eq_true, if_false, true_and, FVal.fin.injEq]
    push_cast
    constructor
    · intro e; rw [← e]; ring
    · intro e; linarith

example : sixShown ((exCall 1 1 [[0, 0]] 4).run CostRaster.halfNumPy wholeRoot) =
    some [some 0, none, some 38, some 6, some (27 / 2), some 24] ∧
  sixShown ((exCall 3 2 [[0, 0]] 4).run CostRaster.halfNumPy wholeRoot) =
    some [some 0, none, some (6 * 38), some (6 * 6), some (6 * (27 / 2)), some (6 * 24)] := by decide +kernel

/-- The way back, and the distance to both. -/
example : sixShown ((exCall 1 1 [[1, 2]] 4).run CostRaster.halfNumPy wholeRoot) =
    some [some 24, none, some 14, some 18, some (21 / 2), some 0] ∧
  sixShown ((exCall 1 1 [[0, 0], [1, 2]] 4).run CostRaster.halfNumPy wholeRoot) =
    some [some 0, none, some 14, some 6, some (21 / 2), some 0] := by decide +kernel

/-- Diagonal steps make some distances smaller. -/
example : sixShown ((exCall 1 1 [[0, 0]] 8).run CostRaster.halfNumPy wholeRoot) =
    some [some 0, none, some 25, some 6, some 10, some (41 / 2)] := by decide +kernel

end Verif.Trips
