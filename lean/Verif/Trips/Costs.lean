import Verif.CostRaster.Props

set_option linter.unusedSectionVars false

/-!
# C91: cost distance over constant costs

`cost_distance_analysis` (`distance/cost_distance.py`, C71) with the same cost everywhere and no elevation: the distances have a formula.
-/

namespace Verif.Trips

open Verif Verif.Nulls DType
open Verif.CostRaster (Sources Result analysis)
open Verif.CostRaster.Spec

namespace Spec

/-- Rows and columns between two places. -/
def apart (m n : Nat) : Rat := |(m : Rat) - n|

/-- Steps along rows and columns only. -/
def taxi (dy dx : Rat) (p s : Nat × Nat) : Rat := dy * apart p.1 s.1 + dx * apart p.2 s.2

/-- As many diagonal steps of length `d` as possible, then straight ones. -/
def octile (dy dx d : Rat) (p s : Nat × Nat) : Rat :=
  if apart p.1 s.1 ≤ apart p.2 s.2 then d * apart p.1 s.1 + dx * (apart p.2 s.2 - apart p.1 s.1)
  else d * apart p.2 s.2 + dy * (apart p.1 s.1 - apart p.2 s.2)

/-- The distance is the cost times that to the nearest source. -/
def Nearest (sources : Sources) (ny nx : Nat) (c : Rat) (N : Nat × Nat → Nat × Nat → Rat) (o : Result) (p : Nat × Nat) : Prop :=
  (o.distance.mask (0, p) = true ↔ ¬ ∃ s v, s.1 < ny ∧ s.2 < nx ∧ sourceAt sources s v) ∧
  (o.distance.mask (0, p) = false → ∃ w, o.distance.data (0, p) = .fin (c * w) ∧
    (∃ s v, s.1 < ny ∧ s.2 < nx ∧ sourceAt sources s v ∧ w = N p s) ∧
    ∀ s v, s.1 < ny → s.2 < nx → sourceAt sources s v → c * w ≤ c * N p s)

end Spec

open Spec

/-! ### The number of rows between two places -/

theorem apart_self (m : Nat) : apart m m = 0 := by simp [apart]

theorem apart_nonneg (m n : Nat) : 0 ≤ apart m n := abs_nonneg _

theorem apart_triangle (m n k : Nat) : apart m k ≤ apart m n + apart n k := by
  unfold apart
  have : (m : Rat) - k = (m - n) + (n - k) := by ring
  rw [this]
  exact abs_add_le _ _

/-- One step from `t` toward `s`. -/
def nearer (s t : Nat) : Nat := if s < t then t - 1 else if t < s then t + 1 else t

theorem nearer_lt {s t n : Nat} (hs : s < n) (ht : t < n) : nearer s t < n := by
  unfold nearer
  split
  · omega
  · split <;> omega

theorem nearer_apart {s t : Nat} (h : s ≠ t) : apart t s = apart (nearer s t) s + 1 := by
  unfold apart nearer
  rcases Nat.lt_or_gt_of_ne h with h | h
  · rw [if_pos h]
    obtain ⟨k, rfl⟩ : ∃ k, t = k + 1 := ⟨t - 1, by omega⟩
    have : (s : Rat) ≤ k := by exact_mod_cast Nat.lt_succ_iff.1 h
    rw [Nat.add_sub_cancel, abs_of_nonneg (by push_cast; linarith), abs_of_nonneg (by linarith)]
    push_cast
    ring
  · rw [if_neg (by omega), if_pos h]
    have : (t : Rat) + 1 ≤ s := by exact_mod_cast h
    rw [abs_of_nonpos (by linarith), abs_of_nonpos (by push_cast; linarith)]
    push_cast
    ring

theorem nearer_step (s t : Nat) : ((t : Int) - nearer s t).natAbs ≤ 1 := by
  unfold nearer
  split
  · omega
  · split <;> omega

theorem nearer_dist {s t : Nat} (h : s ≠ t) : apart t (nearer s t) = 1 := by
  unfold apart nearer
  rcases Nat.lt_or_gt_of_ne h with h | h
  · rw [if_pos h]
    obtain ⟨k, rfl⟩ : ∃ k, t = k + 1 := ⟨t - 1, by omega⟩
    rw [Nat.add_sub_cancel]
    push_cast
    norm_num
  · rw [if_neg (by omega), if_pos h]
    push_cast
    norm_num

theorem nearer_same (s : Nat) : nearer s s = s := by simp [nearer]

theorem nearer_ne {s t : Nat} (h : s ≠ t) : nearer s t ≠ t := by
  unfold nearer
  split
  · omega
  · split <;> omega

/-- Neighbours are at most one row apart. -/
theorem apart_le_one {m n : Nat} (h : ((n : Int) - m).natAbs ≤ 1) : apart n m = 0 ∧ n = m ∨ apart n m = 1 ∧ n ≠ m := by
  have : n = m ∨ n = m + 1 ∨ m = n + 1 := by omega
  rcases this with rfl | rfl | rfl
  · exact Or.inl ⟨apart_self _, rfl⟩
  · exact Or.inr ⟨by unfold apart; push_cast; norm_num, by omega⟩
  · exact Or.inr ⟨by unfold apart; push_cast; norm_num, by omega⟩

theorem apart_sq (m n : Nat) : ((n : Rat) - m) ^ 2 = apart n m ^ 2 := by
  unfold apart
  rw [sq_abs]

/-! ### Paths over constant costs -/

section
variable {sqrt : Rat → Rat} {L : Land} {c : Rat}

/-- The length of a step without heights. -/
theorem length_flat (h0 : ∀ p, L.height p = 0) (p q : Place) :
    length sqrt L p q = sqrt ((L.dy * apart q.1 p.1) ^ 2 + (L.dx * apart q.2 p.2) ^ 2) := by
  unfold length
  rw [h0, h0, mul_pow, mul_pow, apart_sq, apart_sq, mul_pow, mul_pow]
  congr 1
  ring

theorem path_inside {p : Place} {w : Rat} (h : Path sqrt L p w) : Inside L p := by
  cases h with
  | source hi _ => exact hi
  | step _ _ hi _ _ => exact hi

/-- No path is shorter than a norm that no step undercuts. -/
theorem path_lower (N : Place → Place → Rat) (hc : 0 ≤ c) (hcost : ∀ p a, Inside L p → L.cost p a → a = c) (hself : ∀ p, N p p = 0)
    (hstep : ∀ p q s, Beside L p q → N q s ≤ N p s + length sqrt L p q) {p : Place} {w : Rat} (h : Path sqrt L p w) :
    ∃ s v, Inside L s ∧ L.source s v ∧ c * N p s ≤ w := by
  induction h with
  | source hi hv => exact ⟨_, _, hi, hv, by rw [hself, mul_zero]⟩
  | step hp ha hq hb hbe ih =>
    obtain ⟨s, v, h1, h2, h3⟩ := ih
    refine ⟨s, v, h1, h2, ?_⟩
    rw [hcost _ _ (path_inside hp) ha, hcost _ _ hq hb, add_self_div_two]
    have := mul_le_mul_of_nonneg_left (hstep _ _ s hbe) hc
    rw [mul_add] at this
    linarith

/-- There is a path as long as a norm along which one can always step toward the source. -/
theorem path_upper (N : Place → Place → Rat) (hcost : ∀ p, Inside L p → L.cost p c) (hself : ∀ p, N p p = 0) {s : Place} {v : Int}
    (hs : Inside L s) (hv : L.source s v)
    (hstep : ∀ p, Inside L p → p ≠ s → ∃ q, Inside L q ∧ Beside L q p ∧ N p s = N q s + length sqrt L q p ∧
      ((q.1 : Int) - s.1).natAbs + ((q.2 : Int) - s.2).natAbs < ((p.1 : Int) - s.1).natAbs + ((p.2 : Int) - s.2).natAbs) :
    ∀ (n : Nat) (p : Place), ((p.1 : Int) - s.1).natAbs + ((p.2 : Int) - s.2).natAbs < n → Inside L p → Path sqrt L p (c * N p s) := by
  intro n
  induction n with
  | zero => intro p h; omega
  | succ n ih =>
    intro p hn hp
    by_cases he : p = s
    · subst he
      rw [hself, mul_zero]
      exact Path.source hs hv
    · obtain ⟨q, hq, hbe, hN, hlt⟩ := hstep p hp he
      have := Path.step (ih q (by omega) hq) (hcost q hq) hp (hcost p hp) hbe
      rw [add_self_div_two] at this
      rw [hN, mul_add, mul_comm c (length sqrt L q p)]
      exact this

end

/-! ### The two norms -/

theorem taxi_self (dy dx : Rat) (p : Place) : taxi dy dx p p = 0 := by simp [taxi, apart_self]

theorem octile_self (dy dx d : Rat) (p : Place) : octile dy dx d p p = 0 := by simp [octile, apart_self]

theorem octile_max {dy dx d : Rat} (h3 : d ≤ dy + dx) (p s : Place) : octile dy dx d p s =
    max ((d - dx) * apart p.1 s.1 + dx * apart p.2 s.2) ((d - dy) * apart p.2 s.2 + dy * apart p.1 s.1) := by
  unfold octile
  split
  · next h =>
    rw [max_eq_left]
    · ring
    · have := mul_nonneg (sub_nonneg.2 h3) (sub_nonneg.2 h)
      linarith
  · next h =>
    rw [max_eq_right]
    · ring
    · have := mul_nonneg (sub_nonneg.2 h3) (sub_nonneg.2 (not_le.1 h).le)
      linarith

section
variable {sqrt : Rat → Rat} {L : Land}

theorem taxi_step (h0 : ∀ p, L.height p = 0) (hdy : 0 ≤ L.dy) (hdx : 0 ≤ L.dx) (s1 : sqrt (L.dy ^ 2) = L.dy) (s2 : sqrt (L.dx ^ 2) = L.dx)
    (hn : ¬ L.diagonal) (p q s : Place) (h : Beside L p q) : taxi L.dy L.dx q s ≤ taxi L.dy L.dx p s + length sqrt L p q := by
  rw [length_flat h0]
  obtain ⟨hne, b1, b2, b3⟩ := h
  have t1 := mul_le_mul_of_nonneg_left (apart_triangle q.1 p.1 s.1) hdy
  have t2 := mul_le_mul_of_nonneg_left (apart_triangle q.2 p.2 s.2) hdx
  unfold taxi
  rcases apart_le_one b1 with ⟨e1, f1⟩ | ⟨e1, f1⟩ <;> rcases apart_le_one b2 with ⟨e2, f2⟩ | ⟨e2, f2⟩
  · exact absurd (Prod.ext f1.symm f2.symm) hne
  · rw [e1, e2, mul_zero, mul_one, zero_pow (by norm_num), zero_add, s2]
    rw [e1] at t1
    rw [e2] at t2
    linarith
  · rw [e1, e2, mul_zero, mul_one, zero_pow (by norm_num), add_zero, s1]
    rw [e1] at t1
    rw [e2] at t2
    linarith
  · rcases b3 with h | h | h
    · exact absurd h hn
    · exact absurd h.symm f1
    · exact absurd h.symm f2

theorem octile_step (h0 : ∀ p, L.height p = 0) (hdy : 0 ≤ L.dy) (hdx : 0 ≤ L.dx) (s1 : sqrt (L.dy ^ 2) = L.dy) (s2 : sqrt (L.dx ^ 2) = L.dx)
    {d : Rat} (s3 : sqrt (L.dy ^ 2 + L.dx ^ 2) = d) (d1 : L.dy ≤ d) (d2 : L.dx ≤ d) (d3 : d ≤ L.dy + L.dx) (p q s : Place)
    (h : Beside L p q) : octile L.dy L.dx d q s ≤ octile L.dy L.dx d p s + length sqrt L p q := by
  rw [length_flat h0, octile_max d3, octile_max d3]
  obtain ⟨hne, b1, b2, b3⟩ := h
  have t1 := mul_le_mul_of_nonneg_left (apart_triangle q.1 p.1 s.1) (sub_nonneg.2 d2)
  have t2 := mul_le_mul_of_nonneg_left (apart_triangle q.2 p.2 s.2) hdx
  have t3 := mul_le_mul_of_nonneg_left (apart_triangle q.2 p.2 s.2) (sub_nonneg.2 d1)
  have t4 := mul_le_mul_of_nonneg_left (apart_triangle q.1 p.1 s.1) hdy
  have m1 := le_max_left ((d - L.dx) * apart p.1 s.1 + L.dx * apart p.2 s.2) ((d - L.dy) * apart p.2 s.2 + L.dy * apart p.1 s.1)
  have m2 := le_max_right ((d - L.dx) * apart p.1 s.1 + L.dx * apart p.2 s.2) ((d - L.dy) * apart p.2 s.2 + L.dy * apart p.1 s.1)
  rcases apart_le_one b1 with ⟨e1, f1⟩ | ⟨e1, f1⟩ <;> rcases apart_le_one b2 with ⟨e2, f2⟩ | ⟨e2, f2⟩ <;>
    rw [e1] at t1 t4 <;> rw [e2] at t2 t3
  · exact absurd (Prod.ext f1.symm f2.symm) hne
  · rw [e1, e2, mul_zero, mul_one, zero_pow (by norm_num), zero_add, s2]
    apply max_le <;> linarith
  · rw [e1, e2, mul_zero, mul_one, zero_pow (by norm_num), add_zero, s1]
    apply max_le <;> linarith
  · rw [e1, e2, mul_one, mul_one, s3]
    apply max_le <;> linarith

/-- Which way to go. -/
theorem natAbs_nearer {s t : Nat} (h : s ≠ t) : ((nearer s t : Int) - s).natAbs + 1 = ((t : Int) - s).natAbs := by
  unfold nearer
  split
  · omega
  · split <;> omega

theorem beside_row {s p : Place} (h : s.1 ≠ p.1) : Beside L (nearer s.1 p.1, p.2) p :=
  ⟨fun e => nearer_ne h (congrArg Prod.fst e), nearer_step _ _, by simp, Or.inr (Or.inr rfl)⟩

theorem beside_col {s p : Place} (h : s.2 ≠ p.2) : Beside L (p.1, nearer s.2 p.2) p :=
  ⟨fun e => nearer_ne h (congrArg Prod.snd e), by simp, nearer_step _ _, Or.inr (Or.inl rfl)⟩

theorem taxi_way (h0 : ∀ p, L.height p = 0) (s1 : sqrt (L.dy ^ 2) = L.dy) (s2 : sqrt (L.dx ^ 2) = L.dx) {s p : Place} (hs : Inside L s)
    (hp : Inside L p) (hne : p ≠ s) : ∃ q, Inside L q ∧ Beside L q p ∧ taxi L.dy L.dx p s = taxi L.dy L.dx q s + length sqrt L q p ∧
      ((q.1 : Int) - s.1).natAbs + ((q.2 : Int) - s.2).natAbs < ((p.1 : Int) - s.1).natAbs + ((p.2 : Int) - s.2).natAbs := by
  by_cases h1 : s.1 = p.1
  · have h2 : s.2 ≠ p.2 := fun h2 => hne (Prod.ext h1.symm h2.symm)
    refine ⟨(p.1, nearer s.2 p.2), ⟨hp.1, nearer_lt hs.2 hp.2⟩, beside_col h2, ?_, ?_⟩
    · rw [length_flat h0, apart_self, nearer_dist h2, mul_zero, mul_one, zero_pow (by norm_num), zero_add, s2]
      unfold taxi
      rw [nearer_apart h2]
      ring
    · have := natAbs_nearer h2
      simp only
      omega
  · refine ⟨(nearer s.1 p.1, p.2), ⟨nearer_lt hs.1 hp.1, hp.2⟩, beside_row h1, ?_, ?_⟩
    · rw [length_flat h0, apart_self, nearer_dist h1, mul_zero, mul_one, zero_pow (by norm_num), add_zero, s1]
      unfold taxi
      rw [nearer_apart h1]
      ring
    · have := natAbs_nearer h1
      simp only
      omega

theorem octile_way (h0 : ∀ p, L.height p = 0) (s1 : sqrt (L.dy ^ 2) = L.dy) (s2 : sqrt (L.dx ^ 2) = L.dx)
    {d : Rat} (s3 : sqrt (L.dy ^ 2 + L.dx ^ 2) = d) (d1 : L.dy ≤ d) (d2 : L.dx ≤ d) (d3 : d ≤ L.dy + L.dx) (hd : L.diagonal)
    {s p : Place} (hs : Inside L s) (hp : Inside L p) (hne : p ≠ s) :
    ∃ q, Inside L q ∧ Beside L q p ∧ octile L.dy L.dx d p s = octile L.dy L.dx d q s + length sqrt L q p ∧
      ((q.1 : Int) - s.1).natAbs + ((q.2 : Int) - s.2).natAbs < ((p.1 : Int) - s.1).natAbs + ((p.2 : Int) - s.2).natAbs := by
  by_cases h1 : s.1 = p.1
  · have h2 : s.2 ≠ p.2 := fun h2 => hne (Prod.ext h1.symm h2.symm)
    refine ⟨(p.1, nearer s.2 p.2), ⟨hp.1, nearer_lt hs.2 hp.2⟩, beside_col h2, ?_, ?_⟩
    · rw [length_flat h0, apart_self, nearer_dist h2, mul_zero, mul_one, zero_pow (by norm_num), zero_add, s2]
      unfold octile
      rw [nearer_apart h2, h1]
      simp only [apart_self]
      have := apart_nonneg (nearer s.2 p.2) s.2
      rw [if_pos (by linarith), if_pos this]
      ring
    · have := natAbs_nearer h2
      simp only
      omega
  · by_cases h2 : s.2 = p.2
    · refine ⟨(nearer s.1 p.1, p.2), ⟨nearer_lt hs.1 hp.1, hp.2⟩, beside_row h1, ?_, ?_⟩
      · rw [length_flat h0, apart_self, nearer_dist h1, mul_zero, mul_one, zero_pow (by norm_num), add_zero, s1, octile_max d3, octile_max d3]
        rw [nearer_apart h1, h2]
        simp only [apart_self]
        have := apart_nonneg (nearer s.1 p.1) s.1
        have e1 := mul_nonneg (sub_nonneg.2 d3) this
        rw [max_eq_right (by nlinarith), max_eq_right (by linarith)]
        ring
      · have := natAbs_nearer h1
        simp only
        omega
    · refine ⟨(nearer s.1 p.1, nearer s.2 p.2), ⟨nearer_lt hs.1 hp.1, nearer_lt hs.2 hp.2⟩,
        ⟨fun e => nearer_ne h1 (congrArg Prod.fst e), nearer_step _ _, nearer_step _ _, Or.inl hd⟩, ?_, ?_⟩
      · rw [length_flat h0, nearer_dist h1, nearer_dist h2, mul_one, mul_one, s3]
        unfold octile
        rw [nearer_apart h1, nearer_apart h2]
        simp only [add_le_add_iff_right]
        split <;> ring
      · have e1 := natAbs_nearer h1
        have e2 := natAbs_nearer h2
        simp only
        omega

end

/-! ### Rasters -/

theorem nearest_of {np : NumPy} {sqrt : Rat → Rat} {costs : Raster} {resolution : Rat × Rat} {sources : Sources} {connectivity : Int}
    {c : Rat} (hs : ∀ x, 0 ≤ sqrt x) (he : ExactCast np) (hb : costs.nb = 1) (hn : NullsHold costs)
    (hf : costs.nv ≠ none → Fits np costs.dtype (-1)) (hr : resolution.1 ≠ 0 ∧ resolution.2 ≠ 0) (hk : connectivity = 4 ∨ connectivity = 8)
    (hsrc : GoodSources costs sources) (hc : 0 ≤ c)
    (hcost : ∀ y < costs.ny, ∀ x < costs.nx, costs.mask (0, y, x) = false ∧ costs.data (0, y, x) = .fin c)
    (N : Place → Place → Rat) (hself : ∀ p, N p p = 0)
    (hstep : ∀ p q s, Beside (land costs resolution sources none connectivity fun _ => 0) p q →
      N q s ≤ N p s + length sqrt (land costs resolution sources none connectivity fun _ => 0) p q)
    (hway : ∀ p s, Inside (land costs resolution sources none connectivity fun _ => 0) s →
      Inside (land costs resolution sources none connectivity fun _ => 0) p → p ≠ s →
      ∃ q, Inside (land costs resolution sources none connectivity fun _ => 0) q ∧
        Beside (land costs resolution sources none connectivity fun _ => 0) q p ∧
        N p s = N q s + length sqrt (land costs resolution sources none connectivity fun _ => 0) q p ∧
        ((q.1 : Int) - s.1).natAbs + ((q.2 : Int) - s.2).natAbs < ((p.1 : Int) - s.1).natAbs + ((p.2 : Int) - s.2).natAbs) :
    ∃ o, analysis np sqrt costs resolution sources none connectivity = .ok o ∧
      ∀ p : Place, p.1 < costs.ny → p.2 < costs.nx → Nearest sources costs.ny costs.nx c N o p := by
  obtain ⟨o, ho, _, _, _, _, _, _, _, hright⟩ := CostRaster.C71_cost_distance_partial (elevation := none) (h := fun _ => 0) hs he hb hn hf hr hk hsrc
    (fun _ => rfl)
  refine ⟨o, ho, ?_⟩
  intro p hp1 hp2
  obtain ⟨r1, _, _, _, r5⟩ := hright p hp1 hp2
  set L := land costs resolution sources none connectivity fun _ => 0
  have hin : Inside L p := ⟨hp1, hp2⟩
  have hlow : ∀ w, Path sqrt L p w → ∃ s v, Inside L s ∧ L.source s v ∧ c * N p s ≤ w := by
    intro w hw
    refine path_lower N hc (L := L) ?_ hself hstep hw
    intro q a hq ha
    have e := (hcost q.1 hq.1 q.2 hq.2).2
    exact FVal.fin.inj (ha.2.1.symm.trans e)
  have hup : ∀ s v, Inside L s → L.source s v → Path sqrt L p (c * N p s) := by
    intro s v h1 h2
    refine path_upper (L := L) N ?_ hself h1 h2 (fun q hq hne => hway q s h1 hq hne) _ p (Nat.lt_succ_self _) hin
    intro q hq
    exact ⟨(hcost q.1 hq.1 q.2 hq.2).1, (hcost q.1 hq.1 q.2 hq.2).2, hc, fun e he => by cases he⟩
  refine ⟨?_, ?_⟩
  · rw [r1]
    constructor
    · rintro (h | h)
      · rw [(hcost p.1 hp1 p.2 hp2).1] at h; cases h
      · rintro ⟨s, v, h1, h2, h3⟩
        exact h ⟨_, hup s v ⟨h1, h2⟩ h3⟩
    · intro h
      refine Or.inr ?_
      rintro ⟨w, hw⟩
      obtain ⟨s, v, h1, h2, _⟩ := hlow w hw
      exact h ⟨s, v, h1.1, h1.2, h2⟩
  · intro hm
    obtain ⟨w, _, _, _, e1, e2, e3, _⟩ := r5 hm
    obtain ⟨s, v, h1, h2, h3⟩ := hlow w e2
    have h4 := e3 _ (hup s v h1 h2)
    have hw : w = c * N p s := le_antisymm h4 h3
    refine ⟨N p s, by rw [e1, hw], ⟨s, v, h1.1, h1.2, h2, rfl⟩, ?_⟩
    intro s' v' g1 g2 g3
    rw [← hw]
    exact e3 _ (hup s' v' ⟨g1, g2⟩ g3)

/-- **C91.** With 4 neighbours and the same cost everywhere, the cost distance is the cost times the taxi distance to the nearest source. -/
theorem C91_four {np : NumPy} {sqrt : Rat → Rat} {costs : Raster} {resolution : Rat × Rat} {sources : Sources} {c : Rat}
    (hs : ∀ x, 0 ≤ sqrt x) (he : ExactCast np) (hb : costs.nb = 1) (hn : NullsHold costs)
    (hf : costs.nv ≠ none → Fits np costs.dtype (-1)) (hr : resolution.1 ≠ 0 ∧ resolution.2 ≠ 0) (hsrc : GoodSources costs sources)
    (hc : 0 ≤ c) (hcost : ∀ y < costs.ny, ∀ x < costs.nx, costs.mask (0, y, x) = false ∧ costs.data (0, y, x) = .fin c)
    (s1 : sqrt (|resolution.2| ^ 2) = |resolution.2|) (s2 : sqrt (|resolution.1| ^ 2) = |resolution.1|) :
    ∃ o, analysis np sqrt costs resolution sources none 4 = .ok o ∧
      ∀ p : Place, p.1 < costs.ny → p.2 < costs.nx → Nearest sources costs.ny costs.nx c (taxi |resolution.2| |resolution.1|) o p :=
  nearest_of hs he hb hn hf hr (Or.inl rfl) hsrc hc hcost _ (taxi_self _ _)
    (fun p q s h => taxi_step (L := land costs resolution sources none 4 fun _ => 0) (fun _ => rfl) (abs_nonneg _) (abs_nonneg _) s1 s2
      (by show ¬ (4 : Int) = 8; decide) p q s h)
    (fun _ _ h1 h2 => taxi_way (L := land costs resolution sources none 4 fun _ => 0) (fun _ => rfl) s1 s2 h1 h2)

/-- **C91.** With 8 neighbours it is the cost times the length of the shortest way with diagonal and straight steps to the nearest
source. -/
theorem C91_eight {np : NumPy} {sqrt : Rat → Rat} {costs : Raster} {resolution : Rat × Rat} {sources : Sources} {c d : Rat}
    (hs : ∀ x, 0 ≤ sqrt x) (he : ExactCast np) (hb : costs.nb = 1) (hn : NullsHold costs)
    (hf : costs.nv ≠ none → Fits np costs.dtype (-1)) (hr : resolution.1 ≠ 0 ∧ resolution.2 ≠ 0) (hsrc : GoodSources costs sources)
    (hc : 0 ≤ c) (hcost : ∀ y < costs.ny, ∀ x < costs.nx, costs.mask (0, y, x) = false ∧ costs.data (0, y, x) = .fin c)
    (s1 : sqrt (|resolution.2| ^ 2) = |resolution.2|) (s2 : sqrt (|resolution.1| ^ 2) = |resolution.1|)
    (s3 : sqrt (|resolution.2| ^ 2 + |resolution.1| ^ 2) = d) (d1 : |resolution.2| ≤ d) (d2 : |resolution.1| ≤ d)
    (d3 : d ≤ |resolution.2| + |resolution.1|) :
    ∃ o, analysis np sqrt costs resolution sources none 8 = .ok o ∧
      ∀ p : Place, p.1 < costs.ny → p.2 < costs.nx → Nearest sources costs.ny costs.nx c (octile |resolution.2| |resolution.1| d) o p :=
  nearest_of hs he hb hn hf hr (Or.inr rfl) hsrc hc hcost _ (octile_self _ _ _)
    (fun p q s h => octile_step (L := land costs resolution sources none 8 fun _ => 0) (fun _ => rfl) (abs_nonneg _) (abs_nonneg _) s1 s2
      s3 d1 d2 d3 p q s h)
    (fun _ _ h1 h2 => octile_way (L := land costs resolution sources none 8 fun _ => 0) (fun _ => rfl) s1 s2 s3 d1 d2 d3 rfl h1 h2)

/-! ### Concrete cases -/

/-- The square root on 9, 16 and 25. -/
def exRoot (x : Rat) : Rat := if x = 9 then 3 else if x = 16 then 4 else if x = 25 then 5 else |x|

/-- Costs of 2. -/
def twos : Raster := CostRaster.grid i16 (some ⟨i16, .fin (-5)⟩) (fun _ _ => false) fun _ _ => 2

/-- Cells of 3 by 4. -/
example : (∀ x, 0 ≤ exRoot x) ∧ ExactCast CostRaster.halfNumPy ∧ NullsHold twos ∧ Fits CostRaster.halfNumPy twos.dtype (-1) ∧
    GoodSources twos (.indices [[1, 2], [0, 0]]) ∧ exRoot (|(-4)| ^ 2) = |(-4)| ∧ exRoot (|3| ^ 2) = |3| ∧
    exRoot (|(-4)| ^ 2 + |3| ^ 2) = 5 ∧
    ∀ y < twos.ny, ∀ x < twos.nx, twos.mask (0, y, x) = false ∧ twos.data (0, y, x) = .fin 2 := by
  refine ⟨?_, CostRaster.half_exact, CostRaster.grid_nulls _ _ _ _, ⟨by decide, fun _ => .inl ⟨_, _, rfl, by norm_num, by norm_num⟩⟩,
    ⟨by decide, by decide, by decide, ?_⟩, by decide +kernel, by decide +kernel, by decide +kernel, fun _ _ _ _ => ⟨rfl, by simp [twos, CostRaster.grid]⟩⟩
  · intro x
    unfold exRoot
    split
    · norm_num
    · split
      · norm_num
      · split
        · norm_num
        · exact abs_nonneg x
  · intro p hp
    simp only [List.mem_cons, List.not_mem_nil, or_false] at hp
    rcases hp with rfl | rfl
    · exact ⟨1, 2, by simp, by decide, by decide⟩
    · exact ⟨0, 0, by simp, by decide, by decide⟩

def distances : Except Err Result → Option (List Num)
  | .ok o => some (CostRaster.six.map fun p => o.distance.data (0, p))
  | .error _ => none

/-- To the right and down with four neighbours. -/
example : distances (analysis CostRaster.halfNumPy exRoot twos (3, -4) (.indices [[0, 0]]) none 4) =
    some [.fin 0, .fin 6, .fin 12, .fin 8, .fin 14, .fin 20] := by decide +kernel

/-- One diagonal step, then one to the right. -/
example : distances (analysis CostRaster.halfNumPy exRoot twos (3, -4) (.indices [[0, 0]]) none 8) =
    some [.fin 0, .fin 6, .fin 12, .fin 8, .fin 10, .fin 16] := by decide +kernel

example : [2 * octile 4 3 5 (1, 1) (0, 0), 2 * octile 4 3 5 (1, 2) (0, 0), 2 * taxi 4 3 (1, 2) (0, 0)] = [10, 16, 20] := by
  decide +kernel

end Verif.Trips
