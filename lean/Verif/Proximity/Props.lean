import Verif.Proximity.Norm

/-!
# Proximity analysis: property theorems (C09, C41, C42)
-/

set_option linter.unusedSectionVars false

namespace Verif.Proximity

open Verif

variable {R S : Type} [CommRing R] [LinearOrder R] [IsStrictOrderedRing R]

/-! ### Specification -/

namespace Spec

/-- Documented target rule: the listed values, or every finite non-zero value if none is listed. -/
def IsTarget (targets : List R) (v : FVal R) : Prop :=
  ∃ r, v = .fin r ∧ (r ∈ targets ∨ (targets = [] ∧ r ≠ 0))

/-- `t` is a target cell of the raster. -/
def TargetCell (E : Env R S) (t : Cell) : Prop :=
  t.1 < E.ny ∧ t.2 < E.nx ∧ IsTarget E.targets (E.src t.1 t.2)

/-- Squared distance between the centres of two cells. -/
def between (E : Env R S) (t p : Cell) : R :=
  E.distSqr (E.xc t.2) (E.yc t.1) (E.xc p.2) (E.yc p.1)

/-- The squared distance `d` is allowed by `max_distance`. -/
def InRange (E : Env R S) (d : R) : Prop := ∀ m : R, E.maxDist = (m : WithTop R) → d ≤ m * m

end Spec

open Spec

theorem isTarget_iff (targets : List R) (v : FVal R) :
    isTarget targets v = true ↔ IsTarget targets v := by
  have hfold : ∀ (ts : List R) (acc : Bool) (r : R),
      ts.foldl (fun acc t => acc || (match FVal.fin r with | .fin r => r == t | _ => false)) acc = true ↔
        acc = true ∨ r ∈ ts := by
    intro ts
    induction ts with
    | nil => intro acc r; simp
    | cons t ts ih =>
      intro acc r
      rw [List.foldl_cons, ih]
      simp only [Bool.or_eq_true, beq_iff_eq, List.mem_cons]
      tauto
  have hconst : ∀ ts : List R, ts.foldl (fun (acc : Bool) _ => acc || false) false = false := by
    intro ts
    induction ts with
    | nil => rfl
    | cons t ts ih => exact ih
  unfold isTarget IsTarget
  cases targets with
  | nil =>
    cases v <;> simp
  | cons t ts =>
    simp only [List.length_cons, Nat.zero_lt_succ, if_true, gt_iff_lt]
    cases v with
    | fin r =>
      rw [hfold]
      simp
    | posInf =>
      constructor
      · intro h; rw [hconst] at h; cases h
      · rintro ⟨r, h, _⟩; cases h
    | negInf =>
      constructor
      · intro h; rw [hconst] at h; cases h
      · rintro ⟨r, h, _⟩; cases h
    | nan =>
      constructor
      · intro h; rw [hconst] at h; cases h
      · rintro ⟨r, h, _⟩; cases h

theorem isT_iff {E : Env R S} (t : Cell) : IsT E t ↔ TargetCell E t := by
  unfold IsT TargetCell Env.target
  rw [isTarget_iff]

theorem inRange_iff {E : Env R S} (d : R) : ((d : R) : WithTop R) ≤ E.maxSqr ↔ InRange E d := by
  unfold Env.maxSqr InRange
  cases hm : E.maxDist with
  | top =>
    constructor
    · intro _ m h; exact absurd h (by simp)
    · intro _; exact le_top
  | coe m =>
    show ((d : R) : WithTop R) ≤ ((m * m : R) : WithTop R) ↔ _
    rw [WithTop.coe_le_coe]
    constructor
    · intro h m' hm'
      have : m = m' := by exact_mod_cast hm'
      rw [← this]; exact h
    · intro h; exact h m rfl

/-! ### C09 -/

theorem pixel_nearest_other {E : Env R S} {b : Bool} {row : Nat} {L : Line R} {i x : Nat} (h : x ≠ i) :
    (pixel E b row L i).nearest x = L.nearest x := by
  unfold pixel
  split
  · exact set_ne _ _ h
  · simp only
    split
    · exact set_ne _ _ h
    · rfl

/-- A processed target pixel holds distance zero and itself. -/
theorem target_line {E : Env R S} {b : Bool} {row : Nat} (L0 : Line R) {x : Nat} (hx : x < E.nx)
    (ht : E.target (row, x) = true) :
    (processLine E b row L0).prox x = some 0 ∧
      (processLine E b row L0).nearest x = some (row, x) := by
  have key := order_induction E.nx b (pixel E b row)
    (fun D L => D x → L.prox x = some 0 ∧ L.nearest x = some (row, x)) L0 ?_ ?_
  · exact key (fun _ => True) (fun _ _ => trivial) trivial
  · intro D hD h
    exact absurd h (hD x hx)
  · intro i hi L hL D hD h
    by_cases hxi : x = i
    · subst hxi
      unfold pixel
      rw [if_pos ht]
      exact ⟨set_self _ _ _, set_self _ _ _⟩
    · rw [pixel_prox_other hxi, pixel_nearest_other hxi]
      rw [hD x hx] at h
      exact hL (fun z => Before b i z) (fun z _ => Iff.rfl) (h.resolve_right hxi)

theorem target_compute {E : Env R S} {p : Cell} (hp : IsT E p) :
    (compute E).prox p.1 p.2 = some 0 ∧ (compute E).sec p.1 p.2 = some (E.report p p) := by
  obtain ⟨h1, h2, h3⟩ := hp
  unfold compute
  simp only
  generalize hst : ({ (List.range E.ny).foldl (downLine E)
    { near := fun _ => none, prox := fun _ _ => none, sec := fun _ _ => none } with
      near := fun _ => none } : St R S) = st
  clear hst
  have main : ∀ is : List Nat, ∀ st : St R S,
      (p.1 ∈ is ∨ (st.prox p.1 p.2 = some 0 ∧ st.sec p.1 p.2 = some (E.report p p))) →
      (is.foldl (upLine E) st).prox p.1 p.2 = some 0 ∧
        (is.foldl (upLine E) st).sec p.1 p.2 = some (E.report p p) := by
    intro is
    induction is with
    | nil =>
      intro st h
      exact h.resolve_left (by simp)
    | cons i is ih =>
      intro st h
      rw [List.foldl_cons]
      apply ih
      by_cases hi : i = p.1
      · right
        subst hi
        obtain ⟨k1, k2⟩ := target_line (E := E) (b := true) (row := p.1)
          { prox := (processLine E false p.1
              { prox := st.prox p.1, near := st.near, nearest := fun _ => none }).prox
            near := (processLine E false p.1
              { prox := st.prox p.1, near := st.near, nearest := fun _ => none }).near
            nearest := fun _ => none } h2 h3
        constructor
        · simp only [upLine, twoPasses, h2, and_self, if_true, Bool.not_false]
          exact k1
        · simp only [upLine, twoPasses, writeSecondary, h2, and_self, if_true, Bool.not_false, k1, k2]
      · rcases h with h | h
        · rw [List.mem_cons] at h
          exact Or.inl (h.resolve_left (fun e => hi e.symm))
        · right
          have hne : p.1 ≠ i := fun e => hi e.symm
          constructor
          · rw [← h.1]; exact twoPasses_prox_other hne
          · rw [← h.2]
            simp only [upLine, twoPasses]
            rw [writeSecondary_other hne, writeSecondary_other hne]
  exact main _ _ (Or.inl (by simpa using h1))

/-- **C09.**  For every cell of the raster, whatever the metric: a reported distance is the distance
to a target cell within `max_distance`, and the secondary output (allocation or direction) is that of
the same target; without a reported distance there is no secondary output either; targets report
distance 0 and themselves. -/
theorem C09_real_targets {E : Env R S} (hself : ∀ x y : R, E.distSqr x y x y = 0) {p : Cell}
    (hr : p.1 < E.ny) (hc : p.2 < E.nx) :
    ((compute E).prox p.1 p.2 = none → (compute E).sec p.1 p.2 = none) ∧
    (∀ d, (compute E).prox p.1 p.2 = some d →
      ∃ t, TargetCell E t ∧ d = between E t p ∧ InRange E d ∧
        (compute E).sec p.1 p.2 = some (E.report p t)) ∧
    (TargetCell E p → (compute E).prox p.1 p.2 = some 0 ∧
      (compute E).sec p.1 p.2 = some (E.report p p)) := by
  have M : Metric E := by
    refine ⟨fun q => hself _ _, ?_⟩
    rw [inRange_iff]
    intro m _
    exact mul_self_nonneg m
  have h := sound_compute M p hr hc
  refine ⟨?_, ?_, ?_⟩
  · intro hn
    unfold Cellwise at h
    rw [hn] at h
    exact h
  · intro d hd
    unfold Cellwise at h
    rw [hd] at h
    obtain ⟨t, h1, h2, h3, h4⟩ := h
    exact ⟨t, (isT_iff t).mp h1, h2.symm, (inRange_iff d).mp h3, h4⟩
  · intro ht
    exact target_compute ((isT_iff p).mpr ht)

/-! ### C41 -/

/-- Evenly spaced coordinates (what a raster grid has). -/
def Regular (n : Nat) (c : Nat → R) (step : R) : Prop :=
  ∀ i j, i < n → j < n → c i - c j = step * ((i : R) - (j : R))

/-- The metrics for which the sweep is exact. -/
def CityOrChess (f : R → R → R → R → R) : Prop := f = taxiSqr ∨ f = chebyshevSqr

theorem abs_regular {n : Nat} {c : Nat → R} {step : R} (h : Regular n c step) {i j : Nat}
    (hi : i < n) (hj : j < n) : |c i - c j| = |step| * (adist i j : R) := by
  rw [h i j hi hj, abs_mul]
  congr 1
  rcases le_total i j with hij | hij
  · have : adist i j = j - i := by simp only [adist]; omega
    rw [this, Nat.cast_sub hij, abs_sub_comm, abs_of_nonneg]
    rw [sub_nonneg]; exact_mod_cast hij
  · have : adist i j = i - j := by simp only [adist]; omega
    rw [this, Nat.cast_sub hij, abs_of_nonneg]
    rw [sub_nonneg]; exact_mod_cast hij

theorem cityOrChess_self {f : R → R → R → R → R} (h : CityOrChess f) (x y : R) : f x y x y = 0 := by
  rcases h with rfl | rfl
  · simp [taxiSqr]
  · simp [chebyshevSqr]

theorem cityOrChess_nonneg {f : R → R → R → R → R} (h : CityOrChess f) (x y x' y' : R) :
    0 ≤ f x y x' y' := by
  rcases h with rfl | rfl
  · exact mul_self_nonneg _
  · exact mul_self_nonneg _

/-- The norm that belongs to the metric. -/
theorem cityOrChess_norm {f : R → R → R → R → R} (h : CityOrChess f) {sy sx : R} (hy : 0 < sy)
    (hx : 0 < sx) : ∃ N, Norm N ∧ (∀ a b : Nat, N a b ≤ N (a + 1) b) ∧
      (∀ a b : Nat, (sy * (a : R)) * (sy * (a : R)) ≤ N a b ∧ (sx * (b : R)) * (sx * (b : R)) ≤ N a b) ∧
      ∀ x y x' y' (a b : Nat), |x - x'| = sx * (b : R) → |y - y'| = sy * (a : R) →
        f x y x' y' = N a b := by
  rcases h with rfl | rfl
  · refine ⟨taxiN sy sx, taxi_norm hy hx, fun a b => (taxi_norm hy hx).mono (by omega) (le_refl _),
      ?_, ?_⟩
    · intro a b
      have h1 : 0 ≤ sy * (a : R) := mul_nonneg hy.le (Nat.cast_nonneg _)
      have h2 : 0 ≤ sx * (b : R) := mul_nonneg hx.le (Nat.cast_nonneg _)
      exact ⟨(sq_le h1 (by linarith)).mpr (by linarith), (sq_le h2 (by linarith)).mpr (by linarith)⟩
    · intro x y x' y' a b h1 h2
      simp only [taxiSqr, taxiN, h1, h2]
      ring
  · refine ⟨chebN sy sx, cheb_norm hy hx, fun a b => (cheb_norm hy hx).mono (by omega) (le_refl _),
      ?_, ?_⟩
    · intro a b
      have h1 : 0 ≤ sy * (a : R) := mul_nonneg hy.le (Nat.cast_nonneg _)
      have h2 : 0 ≤ sx * (b : R) := mul_nonneg hx.le (Nat.cast_nonneg _)
      exact ⟨(sq_le h1 (le_max_of_le_left h1)).mpr (le_max_left _ _),
        (sq_le h2 (le_max_of_le_right h2)).mpr (le_max_right _ _)⟩
    · intro x y x' y' a b h1 h2
      simp only [chebyshevSqr, chebN, h1, h2, max_comm]

/-- Characterisation of the reported distance by the targets alone. -/
theorem prox_char {E : Env R S} {Q : Rect} {N : Nat → Nat → R} (G : OnGrid E Q N) {p : Cell}
    (hr : p.1 < E.ny) (hc : p.2 < E.nx) (hQ : Q.has p) (d : R) :
    (compute E).prox p.1 p.2 = some d ↔
      (∃ t, IsT E t ∧ E.dsq t p = d ∧ ((d : R) : WithTop R) ≤ E.maxSqr) ∧
      ∀ t, IsT E t → ((E.dsq t p : R) : WithTop R) ≤ E.maxSqr → d ≤ E.dsq t p := by
  have M : Metric E := by
    refine ⟨G.self, ?_⟩
    rw [inRange_iff]
    intro m _
    exact mul_self_nonneg m
  have hs := sound_compute M p hr hc
  have hX := fun t (ht : IsT E t) (hw : ((E.dsq t p : R) : WithTop R) ≤ E.maxSqr) =>
    exact_compute (exactness_of_norm G) hr hc ht (⟨hQ, hw⟩ : Within E Q p t)
  constructor
  · intro hd
    unfold Cellwise at hs
    rw [hd] at hs
    obtain ⟨t, h1, h2, h3, _⟩ := hs
    refine ⟨⟨t, h1, h2, h3⟩, ?_⟩
    intro t' ht' hw'
    obtain ⟨d', e1, e2⟩ := hX t' ht' hw'
    rw [hd] at e1
    injection e1 with e1
    rw [e1]; exact e2
  · rintro ⟨⟨t, h1, h2, h3⟩, hmin⟩
    obtain ⟨d', e1, e2⟩ := hX t h1 (by rw [h2]; exact h3)
    unfold Cellwise at hs
    rw [e1] at hs
    obtain ⟨t', g1, g2, g3, _⟩ := hs
    have := hmin t' g1 (by rw [g2]; exact g3)
    rw [e1, ← g2]
    rw [h2, ← g2] at e2
    exact congrArg some (le_antisymm e2 this)

theorem onGrid_full {E : Env R S} (hf : CityOrChess E.distSqr) {sx sy : R}
    (hx : Regular E.nx E.xc sx) (hy : Regular E.ny E.yc sy) (hsx : sx ≠ 0) (hsy : sy ≠ 0)
    (hmax : (0 : WithTop R) < E.maxDist) :
    ∃ N, OnGrid E ⟨0, E.ny, 0, E.nx⟩ N := by
  obtain ⟨N, hN, _, _, hval⟩ := cityOrChess_norm hf (abs_pos.mpr hsy) (abs_pos.mpr hsx)
  refine ⟨N, hN, ?_, ?_, ?_, ?_, hmax⟩
  · rintro c p ⟨_, c1, _, c2⟩ ⟨_, p1, _, p2⟩
    exact hval _ _ _ _ _ _ (abs_regular hx c2 p2) (abs_regular hy c1 p1)
  · intro t ht
    exact ⟨Nat.zero_le _, ht.1, Nat.zero_le _, ht.2.1⟩
  · intro p; exact cityOrChess_self hf _ _
  · intro p t; exact cityOrChess_nonneg hf _ _ _ _

/-- **C41** (city block and chessboard metrics).  The reported distance is the distance to a nearest
target cell; nothing is reported exactly if no target is within `max_distance`.  The full claim also
covers the Euclidean (default) and great circle metrics; for the Euclidean one it is false, see
`C41_euclidean_not_nearest`. -/
theorem C41_nearest_partial {E : Env R S} (hf : CityOrChess E.distSqr) {sx sy : R}
    (hx : Regular E.nx E.xc sx) (hy : Regular E.ny E.yc sy) (hsx : sx ≠ 0) (hsy : sy ≠ 0)
    (hmax : (0 : WithTop R) < E.maxDist) {p : Cell} (hr : p.1 < E.ny) (hc : p.2 < E.nx) :
    ((compute E).prox p.1 p.2 = none ↔ ∀ t, TargetCell E t → ¬ InRange E (between E t p)) ∧
    (∀ d, (compute E).prox p.1 p.2 = some d ↔
      (∃ t, TargetCell E t ∧ between E t p = d ∧ InRange E d) ∧
      ∀ t, TargetCell E t → d ≤ between E t p) := by
  obtain ⟨N, G⟩ := onGrid_full hf hx hy hsx hsy hmax
  have hQ : (⟨0, E.ny, 0, E.nx⟩ : Rect).has p := ⟨Nat.zero_le _, hr, Nat.zero_le _, hc⟩
  have hch := prox_char G hr hc hQ
  constructor
  · constructor
    · intro hn t ht hin
      obtain ⟨d, e1, _⟩ := exact_compute (exactness_of_norm G) hr hc ((isT_iff t).mpr ht)
        (⟨hQ, (inRange_iff _).mpr hin⟩ : Within E _ p t)
      rw [hn] at e1; cases e1
    · intro hall
      rcases hp : (compute E).prox p.1 p.2 with _ | d
      · rfl
      · obtain ⟨⟨t, h1, h2, h3⟩, _⟩ := (hch d).mp hp
        refine absurd ?_ (hall t ((isT_iff t).mp h1))
        rw [← inRange_iff]
        show ((E.dsq t p : R) : WithTop R) ≤ _
        rw [h2]; exact h3
  · intro d
    rw [hch d]
    constructor
    · rintro ⟨⟨t, h1, h2, h3⟩, hmin⟩
      refine ⟨⟨t, (isT_iff t).mp h1, h2, (inRange_iff d).mp h3⟩, ?_⟩
      intro t' ht'
      by_cases hw : ((E.dsq t' p : R) : WithTop R) ≤ E.maxSqr
      · exact hmin t' ((isT_iff t').mpr ht') hw
      · have := lt_of_le_of_lt h3 (not_le.mp hw)
        exact (WithTop.coe_lt_coe.mp this).le
    · rintro ⟨⟨t, h1, h2, h3⟩, hmin⟩
      exact ⟨⟨t, (isT_iff t).mpr h1, h2, (inRange_iff d).mpr h3⟩,
        fun t' ht' _ => hmin t' ((isT_iff t').mp ht')⟩

/-- Four by four raster with three targets, Euclidean metric (squared distances, so that integers
suffice), no maximal distance; allocation output. -/
def exEuclid (f : Int → Int → Int → Int → Int) : Env Int (FVal Int) where
  ny := 4
  nx := 4
  src := fun r c => if (r = 1 ∧ c = 1) ∨ (r = 0 ∧ c = 2) ∨ (r = 3 ∧ c = 0) then .fin (10 * r + c) else .fin 0
  targets := []
  xc := fun j => j
  yc := fun i => - (i : Int)
  maxDist := ⊤
  distSqr := f
  report := fun _ t =>
    if (t.1 = 1 ∧ t.2 = 1) ∨ (t.1 = 0 ∧ t.2 = 2) ∨ (t.1 = 3 ∧ t.2 = 0) then .fin (10 * t.1 + t.2) else .fin 0

/-- **C41 fails for the Euclidean metric**: the cell (3, 3) reports the squared distance 9 although the
target (1, 1) is at squared distance 8. -/
theorem C41_euclidean_not_nearest :
    (compute (exEuclid euclideanSqr)).prox 3 3 = some 9 ∧
    TargetCell (exEuclid euclideanSqr) (1, 1) ∧
    between (exEuclid euclideanSqr) (1, 1) (3, 3) = 8 := by
  refine ⟨by decide +kernel, ⟨by decide, by decide, 11, rfl, Or.inr ⟨rfl, by decide⟩⟩, by decide⟩

/-- Concrete case for C09 and C41: the same raster, chessboard metric. -/
example : (∀ x y : Int, (exEuclid chebyshevSqr).distSqr x y x y = 0) ∧
    CityOrChess (exEuclid chebyshevSqr).distSqr ∧
    Regular (exEuclid chebyshevSqr).nx (exEuclid chebyshevSqr).xc 1 ∧
    Regular (exEuclid chebyshevSqr).ny (exEuclid chebyshevSqr).yc (-1) ∧
    (0 : WithTop Int) < (exEuclid chebyshevSqr).maxDist ∧
    (compute (exEuclid chebyshevSqr)).prox 3 3 = some 4 ∧
    (compute (exEuclid chebyshevSqr)).sec 3 3 = some (.fin 11) ∧
    (compute (exEuclid chebyshevSqr)).prox 1 1 = some 0 := by
  refine ⟨fun x y => by simp [exEuclid, chebyshevSqr], Or.inr rfl, ?_, ?_, by decide,
    by decide +kernel, by decide +kernel, by decide +kernel⟩
  · intro i j _ _; simp [exEuclid]
  · intro i j _ _; simp [exEuclid]; ring

/-! ### C42 -/

/-- `proximity.py:446-457` and `604-608`: what one chunk of `da.map_overlap` sees.  The chunk starts
at (`r0`, `c0`) and has `h` by `w` cells, the overlap is (`dy`, `dx`); outside of the raster the data
are filled with `pad` (NaN, cast to the data type by dask) and the coordinates with 0. -/
def chunkEnv (E : Env R S) (r0 c0 h w dy dx : Nat) (pad : FVal R) : Env R S where
  ny := h + 2 * dy
  nx := w + 2 * dx
  src := fun i j => if dy ≤ i + r0 ∧ i + r0 - dy < E.ny ∧ dx ≤ j + c0 ∧ j + c0 - dx < E.nx
    then E.src (i + r0 - dy) (j + c0 - dx) else pad
  targets := E.targets
  xc := fun j => if dx ≤ j + c0 ∧ j + c0 - dx < E.nx then E.xc (j + c0 - dx) else 0
  yc := fun i => if dy ≤ i + r0 ∧ i + r0 - dy < E.ny then E.yc (i + r0 - dy) else 0
  maxDist := E.maxDist
  distSqr := E.distSqr
  report := fun p t => E.report (p.1 + r0 - dy, p.2 + c0 - dx) (t.1 + r0 - dy, t.2 + c0 - dx)

/-- **C42** (city block and chessboard metrics).  The distance a chunk computes with an overlap that
covers `max_distance` is the distance computed on the whole raster, provided the fill value outside of
the raster is not itself a target.  The Euclidean metric is
`C42_euclidean_depends_on_chunks`. -/
theorem C42_chunk_equals_whole_partial {E : Env R S} (hf : CityOrChess E.distSqr) {sx sy : R}
    (hx : Regular E.nx E.xc sx) (hy : Regular E.ny E.yc sy) (hsx : sx ≠ 0) (hsy : sy ≠ 0)
    {m : R} (hmax : E.maxDist = (m : WithTop R)) (hm : 0 < m)
    {r0 c0 h w dy dx : Nat} (hh : r0 + h ≤ E.ny) (hw : c0 + w ≤ E.nx)
    (hdy : m ≤ |sy| * dy) (hdx : m ≤ |sx| * dx)
    {pad : FVal R} (hpad : ¬ IsTarget E.targets pad)
    {i j : Nat} (hi : i < h) (hj : j < w) :
    (compute (chunkEnv E r0 c0 h w dy dx pad)).prox (dy + i) (dx + j) =
      (compute E).prox (r0 + i) (c0 + j) := by
  have hmax0 : (0 : WithTop R) < E.maxDist := by rw [hmax]; exact_mod_cast hm
  obtain ⟨N, hN, _, hlow, hval⟩ := cityOrChess_norm hf (abs_pos.mpr hsy) (abs_pos.mpr hsx)
  have G : OnGrid E ⟨0, E.ny, 0, E.nx⟩ N := by
    refine ⟨hN, ?_, ?_, fun p => cityOrChess_self hf _ _, fun p t => cityOrChess_nonneg hf _ _ _ _, hmax0⟩
    · rintro c p ⟨_, c1, _, c2⟩ ⟨_, p1, _, p2⟩
      exact hval _ _ _ _ _ _ (abs_regular hx c2 p2) (abs_regular hy c1 p1)
    · intro t ht
      exact ⟨Nat.zero_le _, ht.1, Nat.zero_le _, ht.2.1⟩
  set C := chunkEnv E r0 c0 h w dy dx pad with hC
  have hreal : ∀ q : Cell, dy ≤ q.1 + r0 → q.1 + r0 - dy < E.ny → dx ≤ q.2 + c0 → q.2 + c0 - dx < E.nx →
      C.src q.1 q.2 = E.src (q.1 + r0 - dy) (q.2 + c0 - dx) := by
    intro q a1 a2 a3 a4
    simp [hC, chunkEnv, a1, a2, a3, a4]
  -- all targets of the chunk are cells of the raster
  have htar : ∀ t, IsT C t → dy ≤ t.1 + r0 ∧ t.1 + r0 - dy < E.ny ∧ dx ≤ t.2 + c0 ∧ t.2 + c0 - dx < E.nx ∧
      IsT E (t.1 + r0 - dy, t.2 + c0 - dx) := by
    intro t ht
    have ht3 : IsTarget E.targets (C.src t.1 t.2) := (isTarget_iff _ _).mp ht.2.2
    by_cases hin : dy ≤ t.1 + r0 ∧ t.1 + r0 - dy < E.ny ∧ dx ≤ t.2 + c0 ∧ t.2 + c0 - dx < E.nx
    · obtain ⟨a1, a2, a3, a4⟩ := hin
      refine ⟨a1, a2, a3, a4, a2, a4, ?_⟩
      rw [hreal t a1 a2 a3 a4] at ht3
      exact (isTarget_iff _ _).mpr ht3
    · exfalso
      apply hpad
      have : C.src t.1 t.2 = pad := by simp only [hC, chunkEnv, if_neg hin]
      rw [← this]; exact ht3
  -- distances agree
  have hdsq : ∀ c p : Cell, dy ≤ c.1 + r0 → c.1 + r0 - dy < E.ny → dx ≤ c.2 + c0 → c.2 + c0 - dx < E.nx →
      dy ≤ p.1 + r0 → p.1 + r0 - dy < E.ny → dx ≤ p.2 + c0 → p.2 + c0 - dx < E.nx →
      C.dsq c p = E.dsq (c.1 + r0 - dy, c.2 + c0 - dx) (p.1 + r0 - dy, p.2 + c0 - dx) := by
    intro c p a1 a2 a3 a4 b1 b2 b3 b4
    simp [Env.dsq, hC, chunkEnv, a1, a2, a3, a4, b1, b2, b3, b4]
  have GC : OnGrid C ⟨dy - r0, min (h + 2 * dy) (E.ny + dy - r0), dx - c0,
      min (w + 2 * dx) (E.nx + dx - c0)⟩ N := by
    refine ⟨hN, ?_, ?_, fun p => cityOrChess_self hf _ _, fun p t => cityOrChess_nonneg hf _ _ _ _, hmax0⟩
    · rintro c p ⟨c1, c2, c3, c4⟩ ⟨p1, p2, p3, p4⟩
      simp only [lt_min_iff] at c1 c2 c3 c4 p1 p2 p3 p4
      rw [hdsq c p (by omega) (by omega) (by omega) (by omega) (by omega) (by omega) (by omega) (by omega),
        G.dsq]
      · have e1 : adist (c.1 + r0 - dy) (p.1 + r0 - dy) = adist c.1 p.1 := by
          simp only [adist]; omega
        have e2 : adist (c.2 + c0 - dx) (p.2 + c0 - dx) = adist c.2 p.2 := by
          simp only [adist]; omega
        simp only [e1, e2]
      · refine ⟨Nat.zero_le _, ?_, Nat.zero_le _, ?_⟩ <;> simp only <;> omega
      · refine ⟨Nat.zero_le _, ?_, Nat.zero_le _, ?_⟩ <;> simp only <;> omega
    · intro t ht
      obtain ⟨a1, a2, a3, a4, _⟩ := htar t ht
      have b1 : t.1 < h + 2 * dy := ht.1
      have b2 : t.2 < w + 2 * dx := ht.2.1
      refine ⟨?_, ?_, ?_, ?_⟩ <;> simp only [lt_min_iff] <;> omega
  -- every target within range of the cell is inside of the overlap
  have hnear : ∀ t, IsT E t → ((E.dsq t (r0 + i, c0 + j) : R) : WithTop R) ≤ E.maxSqr →
      adist t.1 (r0 + i) ≤ dy ∧ adist t.2 (c0 + j) ≤ dx := by
    intro t ht hle
    have hle := (inRange_iff _).mp hle m hmax
    rw [G.dsq t _ (G.targets t ht) ⟨Nat.zero_le _, by simp only; omega, Nat.zero_le _, by simp only; omega⟩] at hle
    obtain ⟨g1, g2⟩ := hlow (adist t.1 (r0 + i)) (adist t.2 (c0 + j))
    have k1 : |sy| * (adist t.1 (r0 + i) : R) ≤ m :=
      (sq_le (mul_nonneg (abs_nonneg _) (Nat.cast_nonneg _)) hm.le).mp (le_trans g1 hle)
    have k2 : |sx| * (adist t.2 (c0 + j) : R) ≤ m :=
      (sq_le (mul_nonneg (abs_nonneg _) (Nat.cast_nonneg _)) hm.le).mp (le_trans g2 hle)
    constructor
    · exact_mod_cast le_of_mul_le_mul_left (le_trans k1 hdy) (abs_pos.mpr hsy)
    · exact_mod_cast le_of_mul_le_mul_left (le_trans k2 hdx) (abs_pos.mpr hsx)
  have hmaxeq : C.maxSqr = E.maxSqr := rfl
  have hback : ∀ t, IsT E t → ((E.dsq t (r0 + i, c0 + j) : R) : WithTop R) ≤ E.maxSqr →
      IsT C (t.1 + dy - r0, t.2 + dx - c0) ∧
      C.dsq (t.1 + dy - r0, t.2 + dx - c0) (dy + i, dx + j) = E.dsq t (r0 + i, c0 + j) := by
    intro t ht hle
    obtain ⟨n1, n2⟩ := hnear t ht hle
    simp only [adist] at n1 n2
    obtain ⟨t1, t2, t3⟩ := ht
    have e1 : t.1 + dy - r0 + r0 - dy = t.1 := by omega
    have e2 : t.2 + dx - c0 + c0 - dx = t.2 := by omega
    have e3 : dy + i + r0 - dy = r0 + i := by omega
    have e4 : dx + j + c0 - dx = c0 + j := by omega
    refine ⟨⟨?_, ?_, ?_⟩, ?_⟩
    · show t.1 + dy - r0 < h + 2 * dy; omega
    · show t.2 + dx - c0 < w + 2 * dx; omega
    · show isTarget E.targets (C.src (t.1 + dy - r0) (t.2 + dx - c0)) = true
      rw [hreal (t.1 + dy - r0, t.2 + dx - c0) (by simp only; omega) (by simp only; omega)
        (by simp only; omega) (by simp only; omega)]
      simp only [e1, e2]
      exact t3
    · rw [hdsq _ _ (by simp only; omega) (by simp only; omega) (by simp only; omega)
        (by simp only; omega) (by simp only; omega) (by simp only; omega) (by simp only; omega)
        (by simp only; omega)]
      simp only [e1, e2, e3, e4]
  have hforth : ∀ t, IsT C t → IsT E (t.1 + r0 - dy, t.2 + c0 - dx) ∧
      C.dsq t (dy + i, dx + j) = E.dsq (t.1 + r0 - dy, t.2 + c0 - dx) (r0 + i, c0 + j) := by
    intro t ht
    obtain ⟨a1, a2, a3, a4, a5⟩ := htar t ht
    refine ⟨a5, ?_⟩
    have e3 : dy + i + r0 - dy = r0 + i := by omega
    have e4 : dx + j + c0 - dx = c0 + j := by omega
    rw [hdsq _ _ a1 a2 a3 a4 (by simp only; omega) (by simp only; omega) (by simp only; omega)
      (by simp only; omega)]
    simp only [e3, e4]
  have c1 := prox_char GC (p := (dy + i, dx + j)) (by show dy + i < h + 2 * dy; omega)
    (by show dx + j < w + 2 * dx; omega)
    ⟨by simp only; omega, by simp only [lt_min_iff]; omega, by simp only; omega,
     by simp only [lt_min_iff]; omega⟩
  have c2 := prox_char G (p := (r0 + i, c0 + j)) (by simp only; omega) (by simp only; omega)
    ⟨Nat.zero_le _, by simp only; omega, Nat.zero_le _, by simp only; omega⟩
  have hiff : ∀ d, (compute C).prox (dy + i) (dx + j) = some d ↔
      (compute E).prox (r0 + i) (c0 + j) = some d := by
    intro d
    rw [c1 d, c2 d]
    constructor
    · rintro ⟨⟨t, h1, h2, h3⟩, hmin⟩
      obtain ⟨f1, f2⟩ := hforth t h1
      refine ⟨⟨_, f1, by rw [← f2]; exact h2, h3⟩, ?_⟩
      intro t' ht' hle
      obtain ⟨b1, b2⟩ := hback t' ht' hle
      rw [← b2]
      exact hmin _ b1 (by rw [b2]; exact hle)
    · rintro ⟨⟨t, h1, h2, h3⟩, hmin⟩
      obtain ⟨b1, b2⟩ := hback t h1 (by rw [h2]; exact h3)
      refine ⟨⟨_, b1, by rw [b2]; exact h2, h3⟩, ?_⟩
      intro t' ht' hle
      obtain ⟨f1, f2⟩ := hforth t' ht'
      rw [f2]
      exact hmin _ f1 (by rw [← f2]; exact hle)
  exact Option.ext hiff

/-- **C42, all metrics.**  What a chunk reports for one of its cells is a real target of the raster: with the fill value outside of the
raster not itself a target, a distance is that to a target cell of the raster within `max_distance`, the secondary output belongs to the same
target, without a distance there is no secondary output, and targets report themselves. -/
theorem C42_chunk_real_targets {E : Env R S} (hself : ∀ x y : R, E.distSqr x y x y = 0)
    {r0 c0 h w dy dx : Nat} (hh : r0 + h ≤ E.ny) (hw : c0 + w ≤ E.nx) {pad : FVal R} (hpad : ¬ IsTarget E.targets pad)
    {i j : Nat} (hi : i < h) (hj : j < w) :
    ((compute (chunkEnv E r0 c0 h w dy dx pad)).prox (dy + i) (dx + j) = none →
      (compute (chunkEnv E r0 c0 h w dy dx pad)).sec (dy + i) (dx + j) = none) ∧
    (∀ d, (compute (chunkEnv E r0 c0 h w dy dx pad)).prox (dy + i) (dx + j) = some d →
      ∃ t, TargetCell E t ∧ d = between E t (r0 + i, c0 + j) ∧ InRange E d ∧
        (compute (chunkEnv E r0 c0 h w dy dx pad)).sec (dy + i) (dx + j) = some (E.report (r0 + i, c0 + j) t)) ∧
    (TargetCell E (r0 + i, c0 + j) → (compute (chunkEnv E r0 c0 h w dy dx pad)).prox (dy + i) (dx + j) = some 0 ∧
      (compute (chunkEnv E r0 c0 h w dy dx pad)).sec (dy + i) (dx + j) = some (E.report (r0 + i, c0 + j) (r0 + i, c0 + j))) := by
  have e1 : dy + i + r0 - dy = r0 + i := by omega
  have e2 : dx + j + c0 - dx = c0 + j := by omega
  have b1 : dy ≤ dy + i + r0 := by omega
  have b2 : dx ≤ dx + j + c0 := by omega
  have b3 : r0 + i < E.ny := by omega
  have b4 : c0 + j < E.nx := by omega
  obtain ⟨h1, h2, h3⟩ := C09_real_targets (E := chunkEnv E r0 c0 h w dy dx pad) hself (p := (dy + i, dx + j))
    (by show dy + i < h + 2 * dy; omega) (by show dx + j < w + 2 * dx; omega)
  have hrep : ∀ t, (chunkEnv E r0 c0 h w dy dx pad).report (dy + i, dx + j) t =
      E.report (r0 + i, c0 + j) (t.1 + r0 - dy, t.2 + c0 - dx) := by
    intro t
    simp only [chunkEnv, e1, e2]
  refine ⟨h1, ?_, ?_⟩
  · intro d hd
    obtain ⟨t, ⟨_, _, ht⟩, hb, hr, hs⟩ := h2 d hd
    by_cases hin : dy ≤ t.1 + r0 ∧ t.1 + r0 - dy < E.ny ∧ dx ≤ t.2 + c0 ∧ t.2 + c0 - dx < E.nx
    · refine ⟨(t.1 + r0 - dy, t.2 + c0 - dx), ⟨hin.2.1, hin.2.2.2, ?_⟩, ?_, hr, ?_⟩
      · have : (chunkEnv E r0 c0 h w dy dx pad).src t.1 t.2 = E.src (t.1 + r0 - dy) (t.2 + c0 - dx) := by
          simp only [chunkEnv, if_pos hin]
        rw [this] at ht
        exact ht
      · rw [hb]
        obtain ⟨a1, a2, a3, a4⟩ := hin
        simp [between, chunkEnv, a1, a2, a3, a4, e1, e2, b1, b2, b3, b4]
      · rw [hs, hrep]
    · exfalso
      apply hpad
      have : (chunkEnv E r0 c0 h w dy dx pad).src t.1 t.2 = pad := by simp only [chunkEnv, if_neg hin]
      rw [this] at ht
      exact ht
  · rintro ⟨_, _, ht⟩
    obtain ⟨k1, k2⟩ := h3 ⟨by show dy + i < h + 2 * dy; omega, by show dx + j < w + 2 * dx; omega, by
      have : (chunkEnv E r0 c0 h w dy dx pad).src (dy + i) (dx + j) = E.src (r0 + i) (c0 + j) := by
        simp only [chunkEnv, e1, e2, if_pos (show dy ≤ dy + i + r0 ∧ r0 + i < E.ny ∧ dx ≤ dx + j + c0 ∧ c0 + j < E.nx from
          ⟨b1, b3, b2, b4⟩)]
      rw [this]
      exact ht⟩
    refine ⟨k1, k2.trans ?_⟩
    rw [hrep]
    simp only [e1, e2]

/-- Three rows of 35 cells, 1 wide and 8 high, with three targets; Euclidean metric, `max_distance` 17. -/
def exWide : Env Int Unit where
  ny := 3
  nx := 35
  src := fun r c => if (r = 0 ∧ c = 22) ∨ (r = 1 ∧ c = 31) ∨ (r = 2 ∧ c = 34) then .fin 1 else .fin 0
  targets := []
  xc := fun j => j
  yc := fun i => -8 * (i : Int)
  maxDist := ((17 : Int) : WithTop Int)
  distSqr := euclideanSqr
  report := fun _ _ => ()

/-- **C42 fails for the Euclidean metric.**  The grid is regular, the overlap covers `max_distance` and is no larger than the chunk, and the fill
value is no target.  The cell (2, 16) has a target at distance 17.  The chunk of the first 17 columns reports it; on the whole raster the target (2, 34),
out of reach and outside of the overlap, hides it from the sweep, and the cell reports nothing. -/
theorem C42_euclidean_depends_on_chunks :
    (Regular exWide.nx exWide.xc 1 ∧ Regular exWide.ny exWide.yc (-8) ∧ ¬ IsTarget exWide.targets .nan ∧
      exWide.maxDist = ((17 : Int) : WithTop Int) ∧ (17 : Int) ≤ |(-8 : Int)| * ((3 : Nat) : Int) ∧ (17 : Int) ≤ |(1 : Int)| * ((17 : Nat) : Int)) ∧
    (TargetCell exWide (1, 31) ∧ between exWide (1, 31) (2, 16) = 17 * 17) ∧
    (TargetCell exWide (2, 34) ∧ between exWide (2, 34) (2, 16) = 18 * 18) ∧
    (compute (chunkEnv exWide 0 0 3 17 3 17 .nan)).prox (3 + 2) (17 + 16) = some (17 * 17) ∧
    (compute exWide).prox 2 16 = none := by
  refine ⟨⟨?_, ?_, ?_, rfl, by decide, by decide⟩, ⟨⟨by decide, by decide, 1, rfl, Or.inr ⟨rfl, by decide⟩⟩, by decide⟩,
    ⟨⟨by decide, by decide, 1, rfl, Or.inr ⟨rfl, by decide⟩⟩, by decide⟩, by decide +kernel, by decide +kernel⟩
  · intro i j _ _; simp [exWide]
  · intro i j _ _; simp [exWide]; ring
  · rintro ⟨r, h, _⟩
    cases h

/-- One row, three cells, no target value listed; the coordinates start at 1. -/
def exChunk : Env Int Unit where
  ny := 1
  nx := 3
  src := fun _ c => if c = 2 then .fin 5 else .fin 0
  targets := []
  xc := fun j => j + 1
  yc := fun _ => 0
  maxDist := ((1 : Int) : WithTop Int)
  distSqr := taxiSqr
  report := fun _ _ => ()

/-- The hypotheses of C42 are met by a chunk of one cell with an overlap of one. -/
example : (compute (chunkEnv exChunk 0 1 1 1 1 1 .nan)).prox 1 1 = some 1 ∧
    (compute exChunk).prox 0 1 = some 1 ∧ (∀ x y, exChunk.distSqr x y x y = 0) ∧ ¬ IsTarget exChunk.targets .nan := by
  refine ⟨by decide +kernel, by decide +kernel, fun x y => by simp [exChunk, taxiSqr], ?_⟩
  rintro ⟨r, h, _⟩
  cases h

/-- **C42 needs the fill value not to be a target**: the fill value NaN cast to an integer type is a
finite non-zero number.  With it the first chunk reports a target at distance 0 (outside, where there is no
cell), for a cell that has no target within reach. -/
theorem C42_integer_fill_phantom_target :
    (compute (chunkEnv exChunk 0 0 1 1 1 1 (.fin (-9223372036854775808)))).prox 1 1 = some 0 ∧
    (compute exChunk).prox 0 0 = none := by
  refine ⟨by decide +kernel, by decide +kernel⟩

end Verif.Proximity
