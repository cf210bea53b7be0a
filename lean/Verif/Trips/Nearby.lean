import Verif.ProxRaster.Props

set_option linter.unusedSectionVars false

/-!
# C114: proximity, allocation and direction together

`pa_proximity`, `pa_allocation` and `pa_direction` (`distance/proximity.py`, C72) called for the same raster: they are about one source;
a shorter maximal distance only makes cells null; the sources of two lists of values.
-/

namespace Verif.Trips

open Verif Verif.Nulls Verif.Nulls.Spec DType
open Verif.Proximity (Env St compute chunkEnv Regular CityOrChess Line processLine writeSecondary twoPasses downLine upLine)
open Verif.ProxRaster
open Verif.ProxRaster.Spec

namespace Nearby

/-! ### The source itself as the secondary output -/

section
variable {R S : Type} [CommRing R] [LinearOrder R]

/-- The same search, but the secondary output is the source. -/
def tell (E : Env R S) : Env R Place := ⟨E.ny, E.nx, E.src, E.targets, E.xc, E.yc, E.maxDist, E.distSqr, fun _ t => t⟩

/-- The searches are in the same state. -/
def Same (E : Env R S) (st : St R S) (st0 : St R Place) : Prop :=
  st.near = st0.near ∧ st.prox = st0.prox ∧ ∀ i j, st.sec i j = (st0.sec i j).map (E.report (i, j))

theorem processLine_tell (E : Env R S) (b : Bool) (row : Nat) (L : Line R) : processLine E b row L = processLine (tell E) b row L := rfl

theorem writeSecondary_tell (E : Env R S) {row : Nat} {L : Line R} {sec : Nat → Nat → Option S} {sec0 : Nat → Nat → Option Place}
    (h : ∀ i j, sec i j = (sec0 i j).map (E.report (i, j))) (i j : Nat) :
    writeSecondary E row L sec i j = (writeSecondary (tell E) row L sec0 i j).map (E.report (i, j)) := by
  unfold writeSecondary
  have hnx : (tell E).nx = E.nx := rfl
  rw [hnx]
  by_cases hr : i = row ∧ j < E.nx
  · simp only [if_pos hr]
    obtain ⟨rfl, _⟩ := hr
    cases L.nearest j with
    | none => exact h i j
    | some t =>
      cases L.prox j with
      | none => exact h i j
      | some d => rfl
  · simp only [if_neg hr]
    exact h i j

theorem twoPasses_tell {E : Env R S} {first : Bool} {start : Nat → Option R} {st : St R S} {st0 : St R Place} (h : Same E st st0)
    (row : Nat) : Same E (twoPasses E first start st row) (twoPasses (tell E) first start st0 row) := by
  obtain ⟨near, prox, sec⟩ := st
  obtain ⟨near0, prox0, sec0⟩ := st0
  obtain ⟨h1, h2, h3⟩ := h
  have h1 : near = near0 := h1
  have h2 : prox = prox0 := h2
  subst h1 h2
  exact ⟨rfl, rfl, fun i j => writeSecondary_tell E (writeSecondary_tell E h3) i j⟩

theorem down_tell {E : Env R S} : ∀ (l : List Nat) {st : St R S} {st0 : St R Place}, Same E st st0 →
    Same E (l.foldl (downLine E) st) (l.foldl (downLine (tell E)) st0)
  | [], _, _, h => h
  | row :: l, _, _, h => down_tell l (twoPasses_tell h row)

theorem up_tell {E : Env R S} : ∀ (l : List Nat) {st : St R S} {st0 : St R Place}, Same E st st0 →
    Same E (l.foldl (upLine E) st) (l.foldl (upLine (tell E)) st0)
  | [], _, _, h => h
  | row :: l, st, st0, h => by
    refine up_tell l ?_
    have : upLine (tell E) st0 row = twoPasses (tell E) false (st.prox row) st0 row := by
      unfold upLine
      rw [h.2.1]
    rw [this]
    exact twoPasses_tell h row

/-- What is written for a cell is the report of the source. -/
theorem compute_tell (E : Env R S) : (compute E).prox = (compute (tell E)).prox ∧
    ∀ i j, (compute E).sec i j = ((compute (tell E)).sec i j).map (E.report (i, j)) := by
  have h : Same E (compute E) (compute (tell E)) := by
    unfold compute
    apply up_tell
    have h1 := down_tell (E := E) (List.range E.ny) (st := ⟨fun _ => none, fun _ _ => none, fun _ _ => none⟩)
      (st0 := ⟨fun _ => none, fun _ _ => none, fun _ _ => none⟩) ⟨rfl, rfl, fun _ _ => rfl⟩
    exact ⟨rfl, h1.2.1, h1.2.2⟩
  exact h.2

end

/-- The squared distance and the source of a cell. -/
theorem cell_source {E : Env Rat Place} (hrep : ∀ c t, E.report c t = t) {pad : Num} {ychunks xchunks : List Nat}
    {depth : Option (Nat × Nat)} (hself : ∀ x y, E.distSqr x y x y = 0) (hpad : depth ≠ none → ¬ ProxRaster.Spec.IsTarget E.targets pad)
    (hy : ychunks.sum = E.ny) (hx : xchunks.sum = E.nx) {i j : Nat} (hi : i < E.ny) (hj : j < E.nx) :
    ∃ src : Option Place, (∀ t, src = some t → Proximity.Spec.TargetCell E t ∧ Proximity.Spec.InRange E (Proximity.Spec.between E t (i, j))) ∧
      (Proximity.Spec.TargetCell E (i, j) → ∃ t, src = some t) ∧
      ∀ (np : NumPy) (M : Maths) (mode : Mode) (dt : DType) (F : Env Rat Num), tell F = E →
        cellValue np M mode dt F pad ychunks xchunks i j depth =
          pick np M dt (src.map fun t => Proximity.Spec.between E t (i, j)) (src.map (F.report (i, j))) mode := by
  cases depth with
  | none =>
    obtain ⟨h1, h2, h3⟩ := Proximity.C09_real_targets (E := E) hself (p := (i, j)) hi hj
    cases hp : (compute E).prox i j with
    | none =>
      refine ⟨none, fun t h => (by cases h), fun ht => ?_, ?_⟩
      · have := (h3 ht).1
        rw [hp] at this
        cases this
      · rintro np M mode dt F rfl
        show pickCell np M mode dt (compute F) i j = _
        unfold pickCell
        rw [(compute_tell F).1, (compute_tell F).2, hp, h1 hp]
        rfl
    | some d =>
      obtain ⟨t, g1, g2, g3, g4⟩ := h2 d hp
      have g4 : (compute E).sec i j = some (E.report (i, j) t) := g4
      rw [hrep] at g4
      refine ⟨some t, ?_, fun _ => ⟨t, rfl⟩, ?_⟩
      · intro t' ht'
        cases ht'
        exact ⟨g1, by rw [← g2]; exact g3⟩
      · rintro np M mode dt F rfl
        show pickCell np M mode dt (compute F) i j = _
        unfold pickCell
        rw [(compute_tell F).1, (compute_tell F).2, hp, g4, g2]
        rfl
  | some dd =>
    obtain ⟨dy, dx⟩ := dd
    obtain ⟨r0, h, hr, _⟩ := Focal.chunkOf_spec ychunks 0 i (Nat.zero_le _) (by omega)
    obtain ⟨c0, w, hc, _⟩ := Focal.chunkOf_spec xchunks 0 j (Nat.zero_le _) (by omega)
    obtain ⟨a1, a2, a3⟩ := chunkOf_end _ _ _ _ _ (Nat.zero_le _) hr
    obtain ⟨b1, b2, b3⟩ := chunkOf_end _ _ _ _ _ (Nat.zero_le _) hc
    have e1 : r0 + (i - r0) = i := by omega
    have e2 : c0 + (j - c0) = j := by omega
    obtain ⟨h1, h2, h3⟩ := Proximity.C42_chunk_real_targets (E := E) hself (r0 := r0) (c0 := c0) (h := h) (w := w) (dy := dy) (dx := dx)
      (by omega) (by omega) (hpad (by simp)) (i := i - r0) (j := j - c0) (by omega) (by omega)
    rw [e1, e2] at h2 h3
    have hchunk : ∀ F : Env Rat Num, tell F = E → ∀ a b,
        (compute (chunkEnv F r0 c0 h w dy dx pad)).prox a b = (compute (chunkEnv E r0 c0 h w dy dx pad)).prox a b ∧
        (compute (chunkEnv F r0 c0 h w dy dx pad)).sec a b =
          ((compute (chunkEnv E r0 c0 h w dy dx pad)).sec a b).map (F.report (a + r0 - dy, b + c0 - dx)) := by
      rintro F rfl a b
      obtain ⟨k1, k2⟩ := compute_tell (chunkEnv F r0 c0 h w dy dx pad)
      obtain ⟨k3, k4⟩ := compute_tell (chunkEnv (tell F) r0 c0 h w dy dx pad)
      have hsame : tell (chunkEnv F r0 c0 h w dy dx pad) = tell (chunkEnv (tell F) r0 c0 h w dy dx pad) := rfl
      rw [k1, k2, k3, k4, hsame, Option.map_map]
      exact ⟨rfl, rfl⟩
    have f1 : dy + (i - r0) + r0 - dy = i := by omega
    have f2 : dx + (j - c0) + c0 - dx = j := by omega
    cases hp : (compute (chunkEnv E r0 c0 h w dy dx pad)).prox (dy + (i - r0)) (dx + (j - c0)) with
    | none =>
      refine ⟨none, fun t h => (by cases h), fun ht => ?_, ?_⟩
      · have := (h3 ht).1
        rw [hp] at this
        cases this
      · intro np M mode dt F hF
        simp only [cellValue, hr, hc, pickCell]
        rw [(hchunk F hF _ _).1, (hchunk F hF _ _).2, hp, h1 hp]
        rfl
    | some d =>
      obtain ⟨t, g1, g2, g3, g4⟩ := h2 d hp
      rw [hrep] at g4
      refine ⟨some t, ?_, fun _ => ⟨t, rfl⟩, ?_⟩
      · intro t' ht'
        cases ht'
        exact ⟨g1, by rw [← g2]; exact g3⟩
      · intro np M mode dt F hF
        simp only [cellValue, hr, hc, pickCell]
        rw [(hchunk F hF _ _).1, (hchunk F hF _ _).2, hp, g4, g2, f1, f2]
        rfl

end Nearby

open Nearby

/-- **C114.** For every metric the three rasters are about the same source in each cell: all are null, or there is a source in reach to which
the first holds the distance, whose value is in the second, and to which the third holds the direction. -/
theorem C114_one_source {np : NumPy} {M : Maths} {p : Placed} {ts : List Rat} {name : Option String} {maxDist : WithTop Rat} {double : Bool}
    {ychunks xchunks : List Nat} {metric : Metric} (hn : name ∈ names metric) {out : Mode → Raster}
    (h : ∀ mode, analysis np M p mode (ts.map .fin) name maxDist double ychunks xchunks = .ok (out mode))
    (hy : ychunks.sum = p.raster.ny) (hx : xchunks.sum = p.raster.nx) (hself : metric = .greatCircle → ∀ x y, M.haversine x y x y = 0)
    (hE : Exact np p.raster) (hN : MaskNeedsNull p.raster) (hnan : NanCast np) (hnull : NullsIgnored np p.raster ts)
    (hpad : ¬ Covers M metric p maxDist → MarginIgnored np p.raster ts)
    (hdis : ∀ mode, Distinct np M metric mode (dtypeOf double p.raster.dtype mode) p ts) (b : Nat) (c : Place)
    (hc1 : c.1 < p.raster.ny) (hc2 : c.2 < p.raster.nx) :
    (∀ mode, (out mode).mask (b, c) = true) ∨
    ∃ t, Source p.raster ts b t ∧ InReach maxDist (apart M metric p t c) ∧
      ∀ mode, (out mode).mask (b, c) = false ∧ (out mode).data (b, c) = report np M metric (out mode).dtype p b c t mode := by
  have hself' : ∀ x y, distance2 M x y x y metric = 0 := by
    intro x y
    cases metric with
    | greatCircle => exact hself rfl x y
    | euclidean => simp [distance2]
    | taxi => simp [distance2]
    | chebyshev => simp [distance2]
  obtain ⟨q, hq, hv, hm, hty⟩ := prepare_spec hE hN
  have hout : ∀ mode, (out mode).dtype = dtypeOf double p.raster.dtype mode ∧
      (∀ c, (out mode).mask c = true ↔ (out mode).data c = (defaultNull (dtypeOf double p.raster.dtype mode)).val) ∧
      (out mode).data (b, c) = cellValue np M mode (dtypeOf double p.raster.dtype mode)
        (env np M metric mode (dtypeOf double p.raster.dtype mode) p q ts maxDist b) (np.cast q.dtype .nan) ychunks xchunks c.1 c.2
        (depths M metric p maxDist) := by
    intro mode
    obtain ⟨_, q', hq', e⟩ := analysis_ok hn (h mode)
    rw [hq] at hq'
    obtain rfl := Except.ok.inj hq'
    rw [e]
    exact ⟨rfl, fun c => maskOf_iff _ _, rfl⟩
  have hnt : ∀ x : Num, x = .nan → ¬ ProxRaster.Spec.IsTarget ts x := by
    rintro x rfl ⟨v, hv, _⟩
    cases hv
  have hm' : ∀ c, p.raster.mask c = true → ¬ ProxRaster.Spec.IsTarget ts (q.data c) := by
    intro c hc
    rcases hm c hc with h | ⟨h16, s, hs, hd⟩
    · exact hnt _ h
    · rw [hd]
      exact hnull h16 s hs
  have hpadt : depths M metric p maxDist ≠ none → ¬ ProxRaster.Spec.IsTarget ts (np.cast q.dtype .nan) := by
    intro hd
    have hcov : ¬ Covers M metric p maxDist := fun hc => hd (depths_covers hc)
    rcases hty with ⟨g1, g2, g3⟩ | g
    · rw [g3]
      exact hpad hcov g1 g2
    · exact hnt _ (hnan _ g)
  obtain ⟨src, hs1, _, hs3⟩ := cell_source
    (E := tell (env np M metric .proximity (dtypeOf double p.raster.dtype .proximity) p q ts maxDist b)) (fun _ _ => rfl)
    (pad := np.cast q.dtype .nan) (ychunks := ychunks) (xchunks := xchunks) (depth := depths M metric p maxDist)
    (fun x y => (distance2_eq M metric x y x y).trans (hself' x y)) hpadt hy hx (i := c.1) (j := c.2) hc1 hc2
  have hcell : ∀ mode, (out mode).data (b, c) = pick np M (dtypeOf double p.raster.dtype mode) (src.map fun t => apart M metric p t c)
      (src.map ((env np M metric mode (dtypeOf double p.raster.dtype mode) p q ts maxDist b).report c)) mode := by
    intro mode
    rw [(hout mode).2.2, hs3 np M mode _ (env np M metric mode (dtypeOf double p.raster.dtype mode) p q ts maxDist b) rfl]
    have : ∀ t, Proximity.Spec.between (tell (env np M metric .proximity (dtypeOf double p.raster.dtype .proximity) p q ts maxDist b)) t
        (c.1, c.2) = apart M metric p t c := fun t => distance2_eq M metric _ _ _ _
    simp only [this]
  cases src with
  | none =>
    left
    intro mode
    rw [(hout mode).2.1, hcell]
    cases mode <;> rfl
  | some t =>
    right
    obtain ⟨g1, g2⟩ := hs1 t rfl
    have ht : Source p.raster ts b t :=
      (targets_iff (np := np) (M := M) (metric := metric) (mode := .proximity) (maxDist := maxDist)
        (dt := dtypeOf double p.raster.dtype .proximity) hv hm' b t).mp g1
    have hr : InReach maxDist (apart M metric p t c) := by
      have := (inRange_iff (np := np) (M := M) (p := p) (metric := metric) (mode := .proximity) (ts := ts) (maxDist := maxDist) (q := q)
        (dt := dtypeOf double p.raster.dtype .proximity) (b := b) _).mp g2
      rwa [show Proximity.Spec.between (tell (env np M metric .proximity (dtypeOf double p.raster.dtype .proximity) p q ts maxDist b)) t
        (c.1, c.2) = apart M metric p t c from distance2_eq M metric _ _ _ _] at this
    refine ⟨t, ht, hr, ?_⟩
    intro mode
    have hd : (out mode).data (b, c) = report np M metric (dtypeOf double p.raster.dtype mode) p b c t mode := by
      rw [hcell]
      by_cases hmode : mode = .proximity
      · subst hmode
        rfl
      · rw [Option.map_some, Option.map_some, report_eq hv hE ht hmode]
        cases mode with
        | proximity => exact absurd rfl hmode
        | allocation => rfl
        | direction => rfl
    refine ⟨?_, by rw [(hout mode).1]; exact hd⟩
    cases hmask : (out mode).mask (b, c) with
    | false => rfl
    | true =>
      exfalso
      have := ((hout mode).2.1 _).mp hmask
      rw [hd] at this
      exact hdis mode b c t ht this

/-- **C114.** A shorter maximal distance (city block and chessboard metrics) only makes cells null, namely those whose sources are farther. -/
theorem C114_limit {np : NumPy} {M : Maths} {p : Placed} {ts : List Rat} {name : Option String} {near far : WithTop Rat} {double : Bool}
    {ychunks xchunks ychunks' xchunks' : List Nat} {metric : Metric} (hmet : metric = .taxi ∨ metric = .chebyshev) (hn : name ∈ names metric)
    {out out' : Raster} (h : analysis np M p .proximity (ts.map .fin) name near double ychunks xchunks = .ok out)
    (h' : analysis np M p .proximity (ts.map .fin) name far double ychunks' xchunks' = .ok out') (hle : near ≤ far)
    (hy : ychunks.sum = p.raster.ny) (hx : xchunks.sum = p.raster.nx) (hy' : ychunks'.sum = p.raster.ny) (hx' : xchunks'.sum = p.raster.nx)
    (hgx : Regular p.raster.nx p.x p.resolution.1) (hgy : Regular p.raster.ny p.y p.resolution.2)
    (hsx : p.resolution.1 ≠ 0) (hsy : p.resolution.2 ≠ 0)
    (hE : Exact np p.raster) (hN : MaskNeedsNull p.raster) (hnan : NanCast np) (hnull : NullsIgnored np p.raster ts)
    (hpad : MarginIgnored np p.raster ts) (hdis : Distinct np M metric .proximity (dtypeOf double p.raster.dtype .proximity) p ts)
    (b : Nat) (c : Place) (hc1 : c.1 < p.raster.ny) (hc2 : c.2 < p.raster.nx) :
    (out.mask (b, c) = false → out'.mask (b, c) = false ∧ out'.data (b, c) = out.data (b, c)) ∧
    (out.mask (b, c) = true → ∀ t, Source p.raster ts b t → ¬ InReach near (apart M metric p t c)) ∧
    (out'.mask (b, c) = true → out.mask (b, c) = true) := by
  obtain ⟨a1, a2⟩ := C72_nearest_partial hmet hn h hy hx hgx hgy hsx hsy hE hN hnan hnull (fun _ => hpad) hdis b c hc1 hc2
  obtain ⟨b1, b2⟩ := C72_nearest_partial hmet hn h' hy' hx' hgx hgy hsx hsy hE hN hnan hnull (fun _ => hpad) hdis b c hc1 hc2
  have hself : metric = .greatCircle → ∀ x y, M.haversine x y x y = 0 := by
    rintro rfl
    rcases hmet with h | h <;> cases h
  obtain ⟨d1, _⟩ := C72_sources_partial hn h hy hx hself hE hN hnan hnull (fun _ => hpad) hdis
  obtain ⟨d2, _⟩ := C72_sources_partial hn h' hy' hx' hself hE hN hnan hnull (fun _ => hpad) hdis
  have hpos : 0 < near := (analysis_ok hn h).1
  have hreach : ∀ d, InReach near d → InReach far d := by
    intro d hd m hm
    cases near with
    | top =>
      rw [hm] at hle
      exact absurd (top_le_iff.mp hle) WithTop.coe_ne_top
    | coe n =>
      rw [hm] at hle
      have hnm : n ≤ m := WithTop.coe_le_coe.mp hle
      have hn0 : 0 < n := by exact_mod_cast hpos
      exact le_trans (hd n rfl) (pow_le_pow_left₀ hn0.le hnm 2)
  have key : out.mask (b, c) = false → out'.mask (b, c) = false ∧ out'.data (b, c) = out.data (b, c) := by
    intro hm
    obtain ⟨t, g1, g2, g3, g4⟩ := a2 hm
    have hm' : out'.mask (b, c) = false := by
      cases e : out'.mask (b, c) with
      | false => rfl
      | true => exact absurd (hreach _ g2) (b1.mp e t g1)
    obtain ⟨t', k1, k2, k3, k4⟩ := b2 hm'
    refine ⟨hm', ?_⟩
    have e : apart M metric p t' c = apart M metric p t c := le_antisymm (k3 t g1) (g3 t' k1)
    rw [k4, g4, d1, d2]
    simp only [report, e]
  refine ⟨key, a1.mp, ?_⟩
  intro hm'
  cases e : out.mask (b, c) with
  | true => rfl
  | false =>
    rw [(key e).1] at hm'
    cases hm'

/-- The sources of the values of one of two lists. -/
theorem source_union {r : Raster} {ts us vs : List Rat} (hu : us ≠ []) (hv : vs ≠ []) (hts : ∀ v, v ∈ ts ↔ v ∈ us ∨ v ∈ vs) {b : Nat}
    {t : Place} : Source r ts b t ↔ Source r us b t ∨ Source r vs b t := by
  have ht : ts ≠ [] := by
    intro e
    obtain ⟨x, hx⟩ := List.exists_mem_of_ne_nil us hu
    have := (hts x).mpr (Or.inl hx)
    rw [e] at this
    cases this
  unfold Source
  simp only [ht, hu, hv, false_and, or_false, hts]
  constructor
  · rintro ⟨h1, h2, h3, v, h4, h5 | h5⟩
    · exact Or.inl ⟨h1, h2, h3, v, h4, h5⟩
    · exact Or.inr ⟨h1, h2, h3, v, h4, h5⟩
  · rintro (⟨h1, h2, h3, v, h4, h5⟩ | ⟨h1, h2, h3, v, h4, h5⟩)
    · exact ⟨h1, h2, h3, v, h4, Or.inl h5⟩
    · exact ⟨h1, h2, h3, v, h4, Or.inr h5⟩

theorem target_union {ts us : List Rat} (hu : us ≠ []) (hts : ∀ v ∈ us, v ∈ ts) {x : Num} (h : ProxRaster.Spec.IsTarget us x) :
    ProxRaster.Spec.IsTarget ts x := by
  obtain ⟨v, e, h | ⟨h, _⟩⟩ := h
  · exact ⟨v, e, Or.inl (hts v h)⟩
  · exact absurd h hu

/-- **C114.** The distance to the sources of two lists of values (city block and chessboard metrics) is that to those of the list that is
nearer; it is null exactly if both are. -/
theorem C114_values {np : NumPy} {M : Maths} {p : Placed} {ts us vs : List Rat} {name : Option String} {maxDist : WithTop Rat} {double : Bool}
    {ychunks xchunks : List Nat} {metric : Metric} (hmet : metric = .taxi ∨ metric = .chebyshev) (hn : name ∈ names metric)
    (hu0 : us ≠ []) (hv0 : vs ≠ []) (hts : ∀ v, v ∈ ts ↔ v ∈ us ∨ v ∈ vs) {out outu outv : Raster}
    (h : analysis np M p .proximity (ts.map .fin) name maxDist double ychunks xchunks = .ok out)
    (hu : analysis np M p .proximity (us.map .fin) name maxDist double ychunks xchunks = .ok outu)
    (hv : analysis np M p .proximity (vs.map .fin) name maxDist double ychunks xchunks = .ok outv)
    (hy : ychunks.sum = p.raster.ny) (hx : xchunks.sum = p.raster.nx)
    (hgx : Regular p.raster.nx p.x p.resolution.1) (hgy : Regular p.raster.ny p.y p.resolution.2)
    (hsx : p.resolution.1 ≠ 0) (hsy : p.resolution.2 ≠ 0)
    (hE : Exact np p.raster) (hN : MaskNeedsNull p.raster) (hnan : NanCast np) (hnull : NullsIgnored np p.raster ts)
    (hpad : MarginIgnored np p.raster ts) (hdis : Distinct np M metric .proximity (dtypeOf double p.raster.dtype .proximity) p ts)
    (b : Nat) (c : Place) (hc1 : c.1 < p.raster.ny) (hc2 : c.2 < p.raster.nx) :
    (out.mask (b, c) = true ↔ outu.mask (b, c) = true ∧ outv.mask (b, c) = true) ∧
    (out.mask (b, c) = false → outu.mask (b, c) = false ∧ out.data (b, c) = outu.data (b, c) ∨
      outv.mask (b, c) = false ∧ out.data (b, c) = outv.data (b, c)) ∧
    ∀ o, o = outu ∨ o = outv → o.mask (b, c) = false → ∃ d d', d ≤ d' ∧ out.data (b, c) = np.cast out.dtype (.fin (M.sqrt d)) ∧
      o.data (b, c) = np.cast out.dtype (.fin (M.sqrt d')) := by
  have hself : metric = .greatCircle → ∀ x y, M.haversine x y x y = 0 := by
    rintro rfl
    rcases hmet with h | h <;> cases h
  have hsu : ∀ {b t}, Source p.raster ts b t ↔ Source p.raster us b t ∨ Source p.raster vs b t := source_union hu0 hv0 hts
  have part : ∀ (ws : List Rat) (o : Raster), ws ≠ [] → (∀ v ∈ ws, v ∈ ts) → (∀ b t, Source p.raster ws b t → Source p.raster ts b t) →
      analysis np M p .proximity (ws.map .fin) name maxDist double ychunks xchunks = .ok o →
      o.dtype = dtypeOf double p.raster.dtype .proximity ∧ Nearest np M metric .proximity p ws maxDist o b c := by
    intro ws o h0 hsub hsrc ho
    have k1 : NullsIgnored np p.raster ws := fun g s hs ht => hnull g s hs (target_union h0 hsub ht)
    have k2 : MarginIgnored np p.raster ws := fun g1 g2 ht => hpad g1 g2 (target_union h0 hsub ht)
    have k3 : Distinct np M metric .proximity (dtypeOf double p.raster.dtype .proximity) p ws := fun b c t ht => hdis b c t (hsrc b t ht)
    exact ⟨(C72_sources_partial hn ho hy hx hself hE hN hnan k1 (fun _ => k2) k3).1,
      C72_nearest_partial hmet hn ho hy hx hgx hgy hsx hsy hE hN hnan k1 (fun _ => k2) k3 b c hc1 hc2⟩
  have ht0 : ts ≠ [] := by
    intro e
    obtain ⟨x, hx⟩ := List.exists_mem_of_ne_nil us hu0
    have := (hts x).mpr (Or.inl hx)
    rw [e] at this
    cases this
  obtain ⟨dt, n1, n2⟩ := part ts out ht0 (fun _ h => h) (fun _ _ h => h) h
  obtain ⟨dtu, u1, u2⟩ := part us outu hu0 (fun v h => (hts v).mpr (Or.inl h)) (fun _ _ h => hsu.mpr (Or.inl h)) hu
  obtain ⟨dtv, v1, v2⟩ := part vs outv hv0 (fun v h => (hts v).mpr (Or.inr h)) (fun _ _ h => hsu.mpr (Or.inr h)) hv
  have hiff : out.mask (b, c) = true ↔ outu.mask (b, c) = true ∧ outv.mask (b, c) = true := by
    rw [n1, u1, v1]
    constructor
    · intro g
      exact ⟨fun t ht => g t (hsu.mpr (Or.inl ht)), fun t ht => g t (hsu.mpr (Or.inr ht))⟩
    · rintro ⟨g1, g2⟩ t ht
      rcases hsu.mp ht with ht | ht
      · exact g1 t ht
      · exact g2 t ht
  refine ⟨hiff, ?_, ?_⟩
  · intro hm
    obtain ⟨t, g1, g2, g3, g4⟩ := n2 hm
    rcases hsu.mp g1 with ht | ht
    · left
      have hmu : outu.mask (b, c) = false := by
        cases e : outu.mask (b, c) with
        | false => rfl
        | true => exact absurd g2 (u1.mp e t ht)
      obtain ⟨t', k1, k2, k3, k4⟩ := u2 hmu
      have e : apart M metric p t c = apart M metric p t' c := le_antisymm (g3 t' (hsu.mpr (Or.inl k1))) (k3 t ht)
      refine ⟨hmu, ?_⟩
      rw [g4, k4, dt, dtu]
      simp only [report, e]
    · right
      have hmv : outv.mask (b, c) = false := by
        cases e : outv.mask (b, c) with
        | false => rfl
        | true => exact absurd g2 (v1.mp e t ht)
      obtain ⟨t', k1, k2, k3, k4⟩ := v2 hmv
      have e : apart M metric p t c = apart M metric p t' c := le_antisymm (g3 t' (hsu.mpr (Or.inr k1))) (k3 t ht)
      refine ⟨hmv, ?_⟩
      rw [g4, k4, dt, dtv]
      simp only [report, e]
  · intro o ho hm
    have hmo : out.mask (b, c) = false := by
      cases e : out.mask (b, c) with
      | false => rfl
      | true =>
        obtain ⟨e1, e2⟩ := hiff.mp e
        rcases ho with rfl | rfl
        · rw [e1] at hm; cases hm
        · rw [e2] at hm; cases hm
    obtain ⟨t, g1, g2, g3, g4⟩ := n2 hmo
    rcases ho with rfl | rfl
    · obtain ⟨t', k1, k2, k3, k4⟩ := u2 hm
      exact ⟨_, _, g3 t' (hsu.mpr (Or.inl k1)), g4, by rw [k4, dtu, dt]; rfl⟩
    · obtain ⟨t', k1, k2, k3, k4⟩ := v2 hm
      exact ⟨_, _, g3 t' (hsu.mpr (Or.inr k1)), g4, by rw [k4, dtv, dt]; rfl⟩

/-! ### Concrete cases -/

/-- The three rasters of a row with the sources 7 and 5; for the cell as far from both it is the 7 in all. -/
example : [Mode.proximity, .allocation, .direction].map (fun mode =>
      show' (analysis exNumPy exMaths exRow mode [.fin 7, .fin 5] (some "taxi") ⊤ true [1] [2, 3])) =
    [some ([.fin 0, .fin 1, .fin 2, .fin 1, .fin 0], [false, false, false, false, false]),
     some ([.fin 7, .fin 7, .fin 7, .fin 5, .fin 5], [false, false, false, false, false]),
     some ([.fin 0, .fin 270, .fin 270, .fin 90, .fin 0], [false, false, false, false, false])] := by decide +kernel

/-- The condition of `C114_one_source` and `C114_values` that the examples of C72 do not show. -/
example : Distinct exNumPy exMaths .taxi .direction f32 exRow [7, 5] ∧ (∀ v : Rat, v ∈ [7, 5] ↔ v ∈ [(7 : Rat)] ∨ v ∈ [(5 : Rat)]) := by
  refine ⟨?_, by simp⟩
  intro b c t _ he
  have he : (FVal.fin (bearing exMaths exRow c t) : Num) = .fin (-999999) := he
  have he := FVal.fin.inj he
  unfold bearing at he
  simp only [exMaths] at he
  split_ifs at he <;> norm_num at he

/-- A distance of one, and no limit. -/
example : show' (analysis exNumPy exMaths exRow .proximity [.fin 7] (some "taxi") (1 : Rat) false [1] [2, 3]) =
      some ([.fin 0, .fin 1, .fin (-999999), .fin (-999999), .fin (-999999)], [false, false, true, true, true]) ∧
    show' (analysis exNumPy exMaths exRow .proximity [.fin 7] (some "taxi") ⊤ false [1] [5]) =
      some ([.fin 0, .fin 1, .fin 2, .fin 3, .fin 4], [false, false, false, false, false]) := by decide +kernel

end Verif.Trips
