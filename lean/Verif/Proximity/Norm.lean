import Verif.Proximity.Exact
import Mathlib.Tactic.Ring

/-! Metrics on a regular grid for which the sweep is exact. -/

set_option linter.unusedSectionVars false

namespace Verif.Proximity

open Verif

variable {R S : Type} [CommRing R] [LinearOrder R] [IsStrictOrderedRing R]

/-- Distance of two indices. -/
def adist (a b : Nat) : Nat := (a - b) + (b - a)

/-- Squared distance as a function of the row and column offsets. -/
structure Norm (N : Nat → Nat → R) : Prop where
  mono : ∀ {a a' b b'}, a ≤ a' → b ≤ b' → N a b ≤ N a' b'
  tri : ∀ a b,
    (∀ ac bc, N ac bc ≤ N a b → N (ac + 1) bc ≤ N (a + 1) b) ∨
    (∃ b', b = b' + 1 ∧ ∀ ac bc bz, bc ≤ bz + 1 → N ac bz ≤ N (a + 1) b' → N ac bc ≤ N (a + 1) b) ∨
    (∃ b', b = b' + 1 ∧ 0 < N (a + 1) b' ∧
      (∀ ac bc bz, bc ≤ bz + 1 → N ac bz ≤ N a b' →
        N (ac + 1) bz ≤ N (a + 1) b' ∧ N (ac + 1) bc ≤ N (a + 1) b) ∧
      (∀ ac bc bz, bc ≤ bz + 1 → N ac bz < N (a + 1) b' → N ac bc ≤ N (a + 1) b))
  now : ∀ b ac bc bz, bc ≤ bz + 1 → N ac bz ≤ N 0 b → N ac bc ≤ N 0 (b + 1)

/-- A rectangle of cells. -/
structure Rect where
  r0 : Nat
  r1 : Nat
  c0 : Nat
  c1 : Nat

/-- The cell is in the rectangle. -/
def Rect.has (Q : Rect) (p : Cell) : Prop := Q.r0 ≤ p.1 ∧ p.1 < Q.r1 ∧ Q.c0 ≤ p.2 ∧ p.2 < Q.c1

/-- On the rectangle `Q`, which contains all targets, the metric is given by the offsets. -/
structure OnGrid (E : Env R S) (Q : Rect) (N : Nat → Nat → R) : Prop where
  norm : Norm N
  dsq : ∀ c p, Q.has c → Q.has p → E.dsq c p = N (adist c.1 p.1) (adist c.2 p.2)
  targets : ∀ t, IsT E t → Q.has t
  self : ∀ p, E.dsq p p = 0
  nonneg : ∀ p t, 0 ≤ E.dsq t p
  maxPos : (0 : WithTop R) < E.maxDist

variable {E : Env R S} {Q : Rect} {N : Nat → Nat → R}

/-- `t` matters for `p`: `p` is on the grid and `t` is within the maximal distance. -/
def Within (E : Env R S) (Q : Rect) (p t : Cell) : Prop :=
  Q.has p ∧ ((E.dsq t p : R) : WithTop R) ≤ E.maxSqr

theorem lt_maxSqr2 (hpos : (0 : WithTop R) < E.maxDist) {d : R} (h : (d : WithTop R) ≤ E.maxSqr) :
    (d : WithTop R) < E.maxSqr2 := by
  unfold Env.maxSqr at h
  unfold Env.maxSqr2
  cases hm : E.maxDist with
  | top => exact WithTop.coe_lt_top d
  | coe m =>
    rw [hm] at h hpos
    have h : ((d : R) : WithTop R) ≤ ((m * m : R) : WithTop R) := h
    show ((d : R) : WithTop R) < ((m * m * 2 : R) : WithTop R)
    rw [WithTop.coe_le_coe] at h
    rw [WithTop.coe_lt_coe]
    have hm0 : 0 < m := by exact_mod_cast hpos
    have := mul_pos hm0 hm0
    linarith

theorem toward_prev {nx : Nat} {b : Bool} {x k : Nat} (hx : x < nx) (hk : k < nx)
    (h : Before b x k) : ∃ z, iprev nx b x = some z ∧ z < nx ∧ (k = z ∨ Before b z k) ∧
      adist k x = adist k z + 1 ∧ (∀ c, adist c x ≤ adist c z + 1) ∧ min x k ≤ z ∧ z ≤ max x k := by
  cases b with
  | true =>
    rw [before_true] at h
    refine ⟨x - 1, ?_, by omega, ?_, ?_, ?_, ?_, ?_⟩
    · simp [iprev]; omega
    · rw [before_true]; omega
    · simp only [adist]; omega
    · intro c; simp only [adist]; omega
    · omega
    · omega
  | false =>
    rw [before_false] at h
    refine ⟨x + 1, ?_, by omega, ?_, ?_, ?_, ?_, ?_⟩
    · simp [iprev]; omega
    · rw [before_false]; omega
    · simp only [adist]; omega
    · intro c; simp only [adist]; omega
    · omega
    · omega

theorem toward_next {nx : Nat} {b : Bool} {x k : Nat} (hx : x < nx) (hk : k < nx)
    (h : Before (!b) x k) : ∃ z, inext nx b x = some z ∧ z < nx ∧
      adist k x = adist k z + 1 ∧ (∀ c, adist c x ≤ adist c z + 1) ∧ min x k ≤ z ∧ z ≤ max x k := by
  obtain ⟨z, h1, h2, _, h4, h5, h6, h7⟩ := toward_prev (b := !b) hx hk h
  exact ⟨z, by rw [← iprev_not]; exact h1, h2, h4, h5, h6, h7⟩

/-- The conditions on a line hold for a norm on the grid. -/
theorem lineHyp_of_norm (G : OnGrid E Q N) {b : Bool} {row row' : Nat} (hrow : row < E.ny)
    {Past PN : Cell → Prop}
    (hPast : ∀ c, Past c → IsT E c ∧ adist c.1 row = adist c.1 row' + 1 ∧
      min row c.1 ≤ row' ∧ row' ≤ max row c.1)
    (hPN : ∀ c, PN c ↔ Past c ∨ (IsT E c ∧ c.1 = row)) :
    LineHyp E b row row' Past PN (Within E Q) := by
  have hT : ∀ c, PN c → IsT E c := by
    intro c hc
    rcases (hPN c).mp hc with h | h
    · exact (hPast c h).1
    · exact h.1
  have mk : ∀ (p q t : Cell), IsT E t → Within E Q q t → Q.has p →
      adist t.1 p.1 ≤ adist t.1 q.1 → adist t.2 p.2 ≤ adist t.2 q.2 → Within E Q p t := by
    intro p q t ht hq hp h1 h2
    refine ⟨hp, le_trans ?_ hq.2⟩
    rw [WithTop.coe_le_coe, G.dsq t p (G.targets t ht) hp, G.dsq t q (G.targets t ht) hq.1]
    exact G.norm.mono h1 h2
  have condH : ∀ x z t, PN t → Within E Q (row, x) t → Q.has (row, z) →
      adist t.2 x = adist t.2 z + 1 → (∀ c, adist c x ≤ adist c z + 1) →
      (∀ ac bc bz, bc ≤ bz + 1 → N ac bz ≤ N (adist t.1 row) (adist t.2 z) →
        N ac bc ≤ N (adist t.1 row) (adist t.2 x)) →
      CondH E row PN (Within E Q) z x t := by
    intro x z t ht hw hz hd hall hN
    refine ⟨mk _ _ t (hT t ht) hw hz (le_refl _) (by simp only; omega), ?_⟩
    intro c hc
    have hcQ := G.targets c (hT c hc)
    have htQ := G.targets t (hT t ht)
    rw [G.dsq c _ hcQ hz, G.dsq t _ htQ hz, G.dsq c _ hcQ hw.1, G.dsq t _ htQ hw.1]
    exact hN _ _ _ (hall c.2)
  have condV : ∀ x t, Past t → Within E Q (row, x) t →
      (∀ ac bc, N ac bc ≤ N (adist t.1 row') (adist t.2 x) →
        N (ac + 1) bc ≤ N (adist t.1 row' + 1) (adist t.2 x)) →
      CondV E row row' Past (Within E Q) x t := by
    intro x t ht hw hN
    obtain ⟨htT, h1, h2, h3⟩ := hPast t ht
    have htQ := G.targets t htT
    have hp : Q.has (row', x) := by
      obtain ⟨a1, a2, a3, a4⟩ := hw.1
      obtain ⟨b1, b2, b3, b4⟩ := htQ
      refine ⟨?_, ?_, a3, a4⟩ <;> simp only at * <;> omega
    refine ⟨mk _ _ t htT hw hp (by simp only; omega) (le_refl _), ?_⟩
    intro c hc
    obtain ⟨hcT, g1, _⟩ := hPast c hc
    have hcQ := G.targets c hcT
    rw [G.dsq c _ hcQ hp, G.dsq t _ htQ hp, G.dsq c _ hcQ hw.1, G.dsq t _ htQ hw.1]
    simp only [h1, g1]
    exact hN _ _
  have condD : ∀ x z t, Past t → Within E Q (row, x) t → Q.has (row, z) →
      adist t.2 x = adist t.2 z + 1 → (∀ c, adist c x ≤ adist c z + 1) →
      (∀ ac bc bz, bc ≤ bz + 1 → N ac bz ≤ N (adist t.1 row') (adist t.2 z) →
        N (ac + 1) bz ≤ N (adist t.1 row' + 1) (adist t.2 z) ∧
        N (ac + 1) bc ≤ N (adist t.1 row' + 1) (adist t.2 x)) →
      CondD E row row' Past (Within E Q) z x t := by
    intro x z t ht hw hz hd hall hN
    obtain ⟨htT, h1, h2, h3⟩ := hPast t ht
    have htQ := G.targets t htT
    have hp : Q.has (row', z) := by
      obtain ⟨a1, a2, a3, a4⟩ := hz
      obtain ⟨b1, b2, b3, b4⟩ := htQ
      refine ⟨?_, ?_, a3, a4⟩ <;> simp only at * <;> omega
    refine ⟨mk _ _ t htT hw hp (by simp only; omega) (by simp only; omega), ?_⟩
    intro c hc
    obtain ⟨hcT, g1, _⟩ := hPast c hc
    have hcQ := G.targets c hcT
    rw [G.dsq c _ hcQ hp, G.dsq t _ htQ hp, G.dsq c _ hcQ hz, G.dsq t _ htQ hz,
      G.dsq c _ hcQ hw.1, G.dsq t _ htQ hw.1]
    simp only [h1, g1]
    exact hN _ _ _ (hall c.2)
  have hz : ∀ x z t, IsT E t → Q.has (row, x) → min x t.2 ≤ z → z ≤ max x t.2 → Q.has (row, z) := by
    intro x z t ht hx h1 h2
    obtain ⟨a1, a2, a3, a4⟩ := hx
    obtain ⟨b1, b2, b3, b4⟩ := G.targets t ht
    refine ⟨a1, a2, ?_, ?_⟩ <;> simp only at * <;> omega
  refine { within := fun p t h => h.2, lt2 := ?_, self := G.self, nonneg := G.nonneg
           past := fun c hc => (hPN c).mpr (Or.inl hc), here := ?_, nowRow := ?_, prevSide := ?_
           nextSide := ?_, nowPrev := ?_, nowNext := ?_ }
  · intro p t c h hle
    exact lt_maxSqr2 G.maxPos (le_trans (WithTop.coe_le_coe.mpr hle) h.2)
  · intro x hx ht
    exact (hPN _).mpr (Or.inr ⟨⟨hrow, hx, ht⟩, rfl⟩)
  · intro t ht hnp
    rcases (hPN t).mp ht with h | h
    · exact absurd h hnp
    · exact ⟨h.2, h.1.2.2⟩
  · intro x t hx ht hw hside
    obtain ⟨htT, h1, h2, h3⟩ := hPast t ht
    rcases G.norm.tri (adist t.1 row') (adist t.2 x) with h | ⟨b', hb, h⟩ | ⟨b', hb, hpos, hA, hB⟩
    · exact Or.inl (condV x t ht hw h)
    · right; left
      have hne : t.2 ≠ x := by intro h'; rw [h'] at hb; simp [adist] at hb
      obtain ⟨z, e1, e2, e3, e4, e5, e6, e7⟩ := toward_prev hx htT.2.1 (hside.resolve_left hne)
      refine ⟨z, e1, e3, ?_⟩
      have hbz : b' = adist t.2 z := by omega
      subst hbz
      refine condH x z t ((hPN t).mpr (Or.inl ht)) hw (hz x z t htT hw.1 e6 e7) e4 e5 ?_
      rw [h1]; exact h
    · right; right
      have hne : t.2 ≠ x := by intro h'; rw [h'] at hb; simp [adist] at hb
      obtain ⟨z, e1, e2, e3, e4, e5, e6, e7⟩ := toward_prev hx htT.2.1 (hside.resolve_left hne)
      have hbz : b' = adist t.2 z := by omega
      subst hbz
      have hzQ := hz x z t htT hw.1 e6 e7
      have htQ := G.targets t htT
      refine ⟨z, e1, condD x z t ht hw hzQ e4 e5 hA,
        mk _ _ t htT hw hzQ (le_refl _) (by simp only; omega), ?_, ?_⟩
      · rw [G.dsq t _ htQ hzQ]; simp only [h1]; exact hpos
      · intro c hc
        have hcQ := G.targets c (hT c hc)
        rw [G.dsq c _ hcQ hzQ, G.dsq t _ htQ hzQ, G.dsq c _ hcQ hw.1, G.dsq t _ htQ hw.1]
        simp only [h1]
        exact hB _ _ _ (e5 c.2)
  · intro x t hx ht hw hside
    obtain ⟨htT, h1, h2, h3⟩ := hPast t ht
    obtain ⟨z, e1, e2, e4, e5, e6, e7⟩ := toward_next hx htT.2.1 hside
    have hzQ := hz x z t htT hw.1 e6 e7
    rcases G.norm.tri (adist t.1 row') (adist t.2 x) with h | ⟨b', hb, h⟩ | ⟨b', hb, hpos, hA, hB⟩
    · exact Or.inl (condV x t ht hw h)
    · right; left
      have hbz : b' = adist t.2 z := by omega
      subst hbz
      refine ⟨z, e1, condH x z t ((hPN t).mpr (Or.inl ht)) hw hzQ e4 e5 ?_⟩
      rw [h1]; exact h
    · right; right
      have hbz : b' = adist t.2 z := by omega
      subst hbz
      exact ⟨z, e1, condD x z t ht hw hzQ e4 e5 hA⟩
  · intro x t hx ht hr hw hside
    have htT := hT t ht
    obtain ⟨z, e1, e2, e3, e4, e5, e6, e7⟩ := toward_prev hx htT.2.1 hside
    refine ⟨z, e1, e3, condH x z t ht hw (hz x z t htT hw.1 e6 e7) e4 e5 ?_⟩
    have h0 : adist t.1 row = 0 := by rw [hr]; simp [adist]
    rw [h0, e4]
    exact G.norm.now _
  · intro x t hx ht hr hw hside
    have htT := hT t ht
    obtain ⟨z, e1, e2, e4, e5, e6, e7⟩ := toward_next hx htT.2.1 hside
    refine ⟨z, e1, condH x z t ht hw (hz x z t htT hw.1 e6 e7) e4 e5 ?_⟩
    have h0 : adist t.1 row = 0 := by rw [hr]; simp [adist]
    rw [h0, e4]
    exact G.norm.now _

theorem exactness_of_norm (G : OnGrid E Q N) : Exactness E (Within E Q) := by
  constructor
  · intro row hrow
    refine lineHyp_of_norm G hrow ?_ ?_
    · rintro c ⟨h1, h2⟩
      refine ⟨h1, ?_, ?_, ?_⟩
      · simp only [adist]; omega
      · omega
      · omega
    · intro c
      constructor
      · rintro ⟨h1, h2⟩
        by_cases h : c.1 = row
        · exact Or.inr ⟨h1, h⟩
        · exact Or.inl ⟨h1, by omega⟩
      · rintro (⟨h1, h2⟩ | ⟨h1, h2⟩)
        · exact ⟨h1, by omega⟩
        · exact ⟨h1, by omega⟩
  · intro row hrow
    refine lineHyp_of_norm G hrow ?_ ?_
    · rintro c ⟨h1, h2⟩
      refine ⟨h1, ?_, ?_, ?_⟩
      · simp only [adist]; omega
      · omega
      · omega
    · intro c
      constructor
      · rintro ⟨h1, h2⟩
        by_cases h : c.1 = row
        · exact Or.inr ⟨h1, h⟩
        · exact Or.inl ⟨h1, by omega⟩
      · rintro (⟨h1, h2⟩ | ⟨h1, h2⟩)
        · exact ⟨h1, by omega⟩
        · exact ⟨h1, by omega⟩

/-! ### The two norms -/

theorem sq_le {a b : R} (ha : 0 ≤ a) (hb : 0 ≤ b) : a * a ≤ b * b ↔ a ≤ b :=
  (mul_self_le_mul_self_iff ha hb).symm

theorem sq_lt {a b : R} (ha : 0 ≤ a) (hb : 0 ≤ b) : a * a < b * b ↔ a < b :=
  (mul_self_lt_mul_self_iff ha hb).symm

/-- City block. -/
def taxiN (sy sx : R) (a b : Nat) : R := (sy * a + sx * b) * (sy * a + sx * b)

theorem taxi_norm {sy sx : R} (hy : 0 < sy) (hx : 0 < sx) : Norm (taxiN sy sx) := by
  have h0 : ∀ a b : Nat, 0 ≤ sy * (a : R) + sx * (b : R) := fun a b =>
    add_nonneg (mul_nonneg hy.le (Nat.cast_nonneg _)) (mul_nonneg hx.le (Nat.cast_nonneg _))
  have iff : ∀ a b a' b' : Nat, taxiN sy sx a b ≤ taxiN sy sx a' b' ↔
      sy * (a : R) + sx * (b : R) ≤ sy * (a' : R) + sx * (b' : R) := fun a b a' b' =>
    sq_le (h0 a b) (h0 a' b')
  constructor
  · intro a a' b b' h1 h2
    rw [iff]
    have e1 : sy * (a : R) ≤ sy * (a' : R) := mul_le_mul_of_nonneg_left (by exact_mod_cast h1) hy.le
    have e2 : sx * (b : R) ≤ sx * (b' : R) := mul_le_mul_of_nonneg_left (by exact_mod_cast h2) hx.le
    linarith
  · intro a b
    left
    intro ac bc h
    rw [iff] at h ⊢
    push_cast
    linarith
  · intro b ac bc bz hbc h
    rw [iff] at h ⊢
    have e2 : sx * (bc : R) ≤ sx * ((bz + 1 : ℕ) : R) :=
      mul_le_mul_of_nonneg_left (by exact_mod_cast hbc) hx.le
    push_cast at *
    linarith

/-- Chessboard. -/
def chebN (sy sx : R) (a b : Nat) : R :=
  max (sy * (a : R)) (sx * (b : R)) * max (sy * (a : R)) (sx * (b : R))

theorem cheb_norm {sy sx : R} (hy : 0 < sy) (hx : 0 < sx) : Norm (chebN sy sx) := by
  have h0 : ∀ a b : Nat, 0 ≤ max (sy * (a : R)) (sx * (b : R)) := fun a b =>
    le_max_of_le_left (mul_nonneg hy.le (Nat.cast_nonneg _))
  have iff : ∀ a b a' b' : Nat, chebN sy sx a b ≤ chebN sy sx a' b' ↔
      max (sy * (a : R)) (sx * (b : R)) ≤ max (sy * (a' : R)) (sx * (b' : R)) := fun a b a' b' =>
    sq_le (h0 a b) (h0 a' b')
  have iff' : ∀ a b a' b' : Nat, chebN sy sx a b < chebN sy sx a' b' ↔
      max (sy * (a : R)) (sx * (b : R)) < max (sy * (a' : R)) (sx * (b' : R)) := fun a b a' b' =>
    sq_lt (h0 a b) (h0 a' b')
  have my : ∀ {a a' : Nat}, a ≤ a' → sy * (a : R) ≤ sy * (a' : R) := fun h =>
    mul_le_mul_of_nonneg_left (by exact_mod_cast h) hy.le
  have mx : ∀ {a a' : Nat}, a ≤ a' → sx * (a : R) ≤ sx * (a' : R) := fun h =>
    mul_le_mul_of_nonneg_left (by exact_mod_cast h) hx.le
  have ly : ∀ {a a' : Nat}, sy * (a : R) < sy * (a' : R) → a < a' := fun h => by
    exact_mod_cast lt_of_mul_lt_mul_left h hy.le
  have lx : ∀ {a a' : Nat}, sx * (a : R) < sx * (a' : R) → a < a' := fun h => by
    exact_mod_cast lt_of_mul_lt_mul_left h hx.le
  have sy' : ∀ {a a' : Nat}, a < a' → sy * (a : R) < sy * (a' : R) := fun h =>
    mul_lt_mul_of_pos_left (by exact_mod_cast h) hy
  have sx' : ∀ {a a' : Nat}, a < a' → sx * (a : R) < sx * (a' : R) := fun h =>
    mul_lt_mul_of_pos_left (by exact_mod_cast h) hx
  constructor
  · intro a a' b b' h1 h2
    rw [iff]
    exact max_le_max (my h1) (mx h2)
  · intro a b
    rcases lt_trichotomy (sx * (b : R)) (sy * ((a + 1 : ℕ) : R)) with hlt | heq | hgt
    · left
      intro ac bc h
      rw [iff] at h ⊢
      have hlt2 : max (sy * (a : R)) (sx * (b : R)) < sy * ((a + 1 : ℕ) : R) :=
        max_lt (sy' (by omega)) hlt
      have h1 := lt_of_le_of_lt (le_trans (le_max_left _ _) h) hlt2
      have h2 := lt_of_le_of_lt (le_trans (le_max_right _ _) h) hlt2
      have h3 := ly h1
      refine max_le (le_max_of_le_left (my (by omega))) (le_max_of_le_left h2.le)
    · right; right
      obtain ⟨b', rfl⟩ : ∃ b', b = b' + 1 := by
        refine ⟨b - 1, ?_⟩
        have : b ≠ 0 := by
          rintro rfl
          have : 0 < sy * ((a + 1 : ℕ) : R) := mul_pos hy (by exact_mod_cast Nat.succ_pos a)
          simp at heq
          rcases heq with h | h
          · exact hy.ne' h
          · have : ((a + 1 : ℕ) : R) ≠ 0 := by exact_mod_cast Nat.succ_ne_zero a
            push_cast at this
            exact this h
        omega
      have hm : max (sy * ((a + 1 : ℕ) : R)) (sx * ((b' + 1 : ℕ) : R)) = sx * ((b' + 1 : ℕ) : R) :=
        max_eq_right heq.ge
      have hmz : max (sy * ((a + 1 : ℕ) : R)) (sx * (b' : R)) = sy * ((a + 1 : ℕ) : R) :=
        max_eq_left (by rw [← heq]; exact mx (by omega))
      refine ⟨b', rfl, ?_, ?_, ?_⟩
      · unfold chebN
        rw [hmz]
        have : 0 < sy * ((a + 1 : ℕ) : R) := mul_pos hy (by exact_mod_cast Nat.succ_pos a)
        exact mul_pos this this
      · intro ac bc bz hbc h
        rw [iff] at h
        rw [iff, iff, hm, hmz]
        have hlt2 : max (sy * (a : R)) (sx * (b' : R)) < sy * ((a + 1 : ℕ) : R) :=
          max_lt (sy' (by omega)) (by rw [← heq]; exact sx' (by omega))
        have h1 := lt_of_le_of_lt (le_trans (le_max_left _ _) h) hlt2
        have h2 := lt_of_le_of_lt (le_trans (le_max_right _ _) h) hlt2
        have h3 := ly h1
        have h4 : bz < b' + 1 := lx (by rw [heq]; exact h2)
        refine ⟨max_le (my (by omega)) h2.le, max_le ?_ (mx (by omega))⟩
        rw [heq]
        exact my (by omega)
      · intro ac bc bz hbc h
        rw [iff', hmz] at h
        rw [iff, hm]
        have h1 := lt_of_le_of_lt (le_max_left _ _) h
        have h2 := lt_of_le_of_lt (le_max_right _ _) h
        have h4 : bz < b' + 1 := lx (by rw [heq]; exact h2)
        refine max_le (by rw [heq]; exact h1.le) (mx (by omega))
    · right; left
      obtain ⟨b', rfl⟩ : ∃ b', b = b' + 1 := by
        refine ⟨b - 1, ?_⟩
        have : b ≠ 0 := by
          rintro rfl
          have : 0 ≤ sy * ((a + 1 : ℕ) : R) := mul_nonneg hy.le (Nat.cast_nonneg _)
          rw [Nat.cast_zero, mul_zero] at hgt
          exact absurd hgt (not_lt.mpr this)
        omega
      refine ⟨b', rfl, ?_⟩
      intro ac bc bz hbc h
      rw [iff] at h ⊢
      have hlt2 : max (sy * ((a + 1 : ℕ) : R)) (sx * (b' : R)) < sx * ((b' + 1 : ℕ) : R) :=
        max_lt hgt (sx' (by omega))
      have h1 := lt_of_le_of_lt (le_trans (le_max_left _ _) h) hlt2
      have h2 := lx (lt_of_le_of_lt (le_trans (le_max_right _ _) h) hlt2)
      exact max_le (le_max_of_le_right h1.le) (le_max_of_le_right (mx (by omega)))
  · intro b ac bc bz hbc h
    rw [iff] at h ⊢
    have e : max (sy * ((0 : ℕ) : R)) (sx * (b : R)) = sx * (b : R) := by
      rw [max_eq_right]
      simp only [Nat.cast_zero, mul_zero]
      exact mul_nonneg hx.le (Nat.cast_nonneg _)
    rw [e] at h
    have h1 := le_trans (le_max_left _ _) h
    have h2 := le_trans (le_max_right _ _) h
    have h3 : bz ≤ b := by
      by_contra hc
      exact absurd h2 (not_le.mpr (sx' (by omega)))
    exact max_le (le_max_of_le_right (le_trans h1 (mx (by omega)))) (le_max_of_le_right (mx (by omega)))

end Verif.Proximity
