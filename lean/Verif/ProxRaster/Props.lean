import Verif.Focal.Correlate
import Verif.Nulls.RasterProps
import Verif.ProxRaster.Model

/-! # C72: proximity analysis on rasters -/

set_option linter.unusedSectionVars false

namespace Verif.ProxRaster

open Verif Verif.Nulls Verif.Nulls.Spec Verif.Focal DType
open Verif.Proximity (Env St compute chunkEnv Regular CityOrChess euclideanSqr taxiSqr chebyshevSqr)

namespace Spec

/-- Row and column. -/
abbrev Place := Nat × Nat

/-- The documented names of the metrics. -/
def names : Metric → List (Option String)
  | .euclidean => [none, some "euclidean"]
  | .taxi => [some "taxi", some "taxicab", some "manhatten", some "city_block"]
  | .chebyshev => [some "chebyshev", some "chessboard"]
  | .greatCircle => [some "haversine", some "great_circle"]

/-- The documented sources: the cells that are not null and have one of the values, or are finite and not zero if no values are given. -/
def Source (r : Raster) (targets : List Rat) (b : Nat) (t : Place) : Prop :=
  t.1 < r.ny ∧ t.2 < r.nx ∧ r.mask (b, t) = false ∧ ∃ v, r.data (b, t) = .fin v ∧ (v ∈ targets ∨ (targets = [] ∧ v ≠ 0))

/-- The square of the documented distance. -/
def distance2 (M : Maths) (x1 y1 x2 y2 : Rat) : Metric → Rat
  | .euclidean => (x1 - x2) ^ 2 + (y1 - y2) ^ 2
  | .taxi => (|x1 - x2| + |y1 - y2|) ^ 2
  | .chebyshev => (max |x1 - x2| |y1 - y2|) ^ 2
  | .greatCircle => M.haversine x1 y1 x2 y2

/-- The square of the distance between two cells. -/
def apart (M : Maths) (metric : Metric) (p : Placed) (t c : Place) : Rat := distance2 M (p.x t.2) (p.y t.1) (p.x c.2) (p.y c.1) metric

/-- The maximal distance allows this squared distance. -/
def InReach (maxDist : WithTop Rat) (d : Rat) : Prop := ∀ m : Rat, maxDist = (m : WithTop Rat) → d ≤ m ^ 2

/-- The documented direction: 0 for a source cell, otherwise the angle, with 360 for north. -/
def bearing (M : Maths) (p : Placed) (c t : Place) : Rat :=
  let th := M.angle (p.x t.2 - p.x c.2) (p.y t.1 - p.y c.1)
  if p.x t.2 = p.x c.2 ∧ p.y t.1 = p.y c.1 then 0 else if th = 0 then 360 else th

/-- What the cell `c` reports if its source is `t`. -/
def report (np : NumPy) (M : Maths) (metric : Metric) (dt : DType) (p : Placed) (b : Nat) (c t : Place) : Mode → Num
  | .proximity => np.cast dt (.fin (M.sqrt (apart M metric p t c)))
  | .allocation => p.raster.data (b, t)
  | .direction => np.cast dt (.fin (bearing M p c t))

/-- The dtype of the result. -/
def dtypeOf (double : Bool) (dt : DType) : Mode → DType
  | .allocation => dt
  | _ => if double then f64 else f32

/-- The conversions of the data to floats and back do not change the values. -/
def Exact (np : NumPy) (r : Raster) : Prop :=
  ∀ c, r.mask c = false → np.cast r.dtype (r.data c) = r.data c ∧ (r.nv ≠ none → np.cast (promoteToFloat r.dtype) (r.data c) = r.data c) ∧
    (promoteToFloat r.dtype = f16 → np.cast f32 (r.data c) = r.data c)

/-- A value that is taken for a source. -/
def IsTarget (targets : List Rat) (x : Num) : Prop := ∃ v, x = .fin v ∧ (v ∈ targets ∨ (targets = [] ∧ v ≠ 0))

/-- In rasters of the small dtypes the null value must not be taken for a source. -/
def NullsIgnored (np : NumPy) (r : Raster) (targets : List Rat) : Prop :=
  promoteToFloat r.dtype = f16 → ∀ s, (reconcile np r.nv f32).1 = some s → ¬ IsTarget targets s.val

/-- Around a raster of integers without a null value, NaN becomes an integer, which must not be taken for a source. -/
def MarginIgnored (np : NumPy) (r : Raster) (targets : List Rat) : Prop :=
  r.nv = none → r.dtype.isFloat = false → ¬ IsTarget targets (np.cast r.dtype .nan)

/-- The maximal distance is at least that between the first and the last cell. -/
def Covers (M : Maths) (metric : Metric) (p : Placed) (maxDist : WithTop Rat) : Prop :=
  ∀ m : Rat, maxDist = (m : WithTop Rat) → apart M metric p (0, 0) (p.raster.ny - 1, p.raster.nx - 1) ≤ m ^ 2

/-- The coordinates are longitudes and latitudes. -/
def LonLat (p : Placed) : Prop :=
  (∀ i < p.raster.ny, -90 ≤ p.y i ∧ p.y i ≤ 90) ∧
  ((∀ j < p.raster.nx, -180 ≤ p.x j ∧ p.x j ≤ 180) ∨ (∀ j < p.raster.nx, 0 ≤ p.x j ∧ p.x j ≤ 360))

/-- The size of a cell in the units of the distance. -/
def cellSize (M : Maths) (p : Placed) : Metric → Rat × Rat
  | .greatCircle => M.minResolution p.x p.y
  | _ => p.resolution

/-- The reports are not mistaken for the null value of the result. -/
def Distinct (np : NumPy) (M : Maths) (metric : Metric) (mode : Mode) (dt : DType) (p : Placed) (targets : List Rat) : Prop :=
  ∀ b c t, Source p.raster targets b t → report np M metric dt p b c t mode ≠ (defaultNull dt).val

/-- The cell reports one of the sources in reach, or is null; and a source reports itself. -/
def Honest (np : NumPy) (M : Maths) (metric : Metric) (mode : Mode) (p : Placed) (targets : List Rat) (maxDist : WithTop Rat)
    (out : Raster) (b : Nat) (c : Place) : Prop :=
  (out.mask (b, c) = true → ∃ s, out.nv = some s ∧ out.data (b, c) = s.val) ∧
  (out.mask (b, c) = false → ∃ t, Source p.raster targets b t ∧ InReach maxDist (apart M metric p t c) ∧
    out.data (b, c) = report np M metric out.dtype p b c t mode) ∧
  (Source p.raster targets b c → out.mask (b, c) = false ∧ out.data (b, c) = report np M metric out.dtype p b c c mode)

/-- The cell reports a nearest source, or is null if no source is in reach. -/
def Nearest (np : NumPy) (M : Maths) (metric : Metric) (mode : Mode) (p : Placed) (targets : List Rat) (maxDist : WithTop Rat)
    (out : Raster) (b : Nat) (c : Place) : Prop :=
  (out.mask (b, c) = true ↔ ∀ t, Source p.raster targets b t → ¬ InReach maxDist (apart M metric p t c)) ∧
  (out.mask (b, c) = false → ∃ t, Source p.raster targets b t ∧ InReach maxDist (apart M metric p t c) ∧
    (∀ t', Source p.raster targets b t' → apart M metric p t c ≤ apart M metric p t' c) ∧
    out.data (b, c) = report np M metric out.dtype p b c t mode)

end Spec

open Spec

/-! ### Data -/

theorem target_iff (targets : List Rat) (x : Num) : Proximity.Spec.IsTarget targets x ↔ Spec.IsTarget targets x := Iff.rfl

/-- The data after the replacement of the null cells. -/
theorem prepare_spec {np : NumPy} {r : Raster} (hE : Exact np r) (hN : MaskNeedsNull r) :
    ∃ q, prepare np r = .ok q ∧ (∀ c, r.mask c = false → q.data c = r.data c) ∧
      (∀ c, r.mask c = true → q.data c = .nan ∨ (promoteToFloat r.dtype = f16 ∧ ∃ s, (reconcile np r.nv f32).1 = some s ∧ q.data c = s.val)) ∧
      ((r.nv = none ∧ r.dtype.isFloat = false ∧ q.dtype = r.dtype) ∨ q.dtype.isFloat = true) := by
  cases hnv : r.nv with
  | none =>
    have h0 : nullToNan np r = r := by simp only [nullToNan, hnv]
    have hm : ∀ c, r.mask c = false := by
      intro c
      cases h : r.mask c with
      | false => rfl
      | true => exact absurd hnv (hN c h)
    unfold prepare
    simp only [h0]
    by_cases h16 : r.dtype = f16
    · rw [if_pos h16]
      have hp : promoteToFloat r.dtype = f16 := by rw [h16]; rfl
      have ha : r.astype np f32 none = .ok { r with dtype := f32, data := fun c => np.cast f32 (r.data c) } := by
        unfold Raster.astype
        rw [if_neg (by rw [h16]; simp)]
        simp only [hnv]
      refine ⟨_, ha, fun c hc => (hE c hc).2.2 hp, fun c hc => ?_, .inr rfl⟩
      rw [hm c] at hc
      cases hc
    · rw [if_neg h16]
      refine ⟨_, rfl, fun c _ => rfl, fun c hc => ?_, ?_⟩
      · rw [hm c] at hc
        cases hc
      · cases hf : r.dtype.isFloat with
        | true => exact .inr rfl
        | false => exact .inl ⟨trivial, rfl, rfl⟩
  | some s =>
    have hne : r.nv ≠ none := by rw [hnv]; simp
    have hconv : ∀ c, r.mask c = false → convert np r.dtype (promoteToFloat r.dtype) (r.data c) = r.data c := by
      intro c hc
      unfold convert
      split
      · rfl
      · exact (hE c hc).2.1 hne
    unfold prepare
    simp only [nullToNan, hnv]
    by_cases h16 : promoteToFloat r.dtype = f16
    · rw [if_pos h16]
      refine ⟨_, by
        unfold Raster.astype
        rw [if_neg (by simp [h16])], ?_, ?_, .inr rfl⟩
      · intro c hc
        simp only [hc, hconv c hc]
        exact (hE c hc).2.2 h16
      · intro c hc
        obtain ⟨t, ht⟩ : ∃ t, (reconcile np (some s) f32).1 = some t := by
          unfold reconcile
          simp only
          split
          · exact ⟨_, rfl⟩
          · split
            · exact ⟨_, rfl⟩
            · split <;> exact ⟨_, rfl⟩
        refine .inr ⟨h16, t, ht, ?_⟩
        simp only [hc, ht, Option.getD_some, if_true]
    · rw [if_neg h16]
      refine ⟨_, rfl, ?_, ?_, .inr (promote_float _)⟩
      · intro c hc
        simp only [hc, hconv c hc]
        simp
      · intro c hc
        exact .inl (by simp only [hc, if_true])

theorem distance2_eq (M : Maths) (metric : Metric) (x1 y1 x2 y2 : Rat) :
    metric.sqr M x1 y1 x2 y2 = distance2 M x1 y1 x2 y2 metric := by
  cases metric <;> simp only [Metric.sqr, distance2, euclideanSqr, taxiSqr, chebyshevSqr] <;> ring

theorem bearing_eq (M : Maths) (p : Placed) (c t : Place) :
    direction M (p.x c.2) (p.y c.1) (p.x t.2) (p.y t.1) = bearing M p c t := by
  unfold direction bearing
  simp only [eq_comm (a := p.x c.2), eq_comm (a := p.y c.1)]

theorem outDtype_eq (mode : Mode) (double : Bool) (dt : DType) : outDtype mode double dt = dtypeOf double dt mode := by
  cases mode <;> simp [outDtype, dtypeOf]

/-! ### Cells -/

theorem chunkOf_end : ∀ (ns : List Nat) (start i s n : Nat), start ≤ i → chunkOf ns start i = some (s, n) →
    s ≤ i ∧ i < s + n ∧ s + n ≤ start + ns.sum
  | [], start, i, s, n, _, h => by simp [chunkOf] at h
  | m :: ns, start, i, s, n, h0, h => by
    unfold chunkOf at h
    split at h
    · simp only [Option.some.injEq, Prod.mk.injEq] at h
      obtain ⟨rfl, rfl⟩ := h
      rw [List.sum_cons]
      omega
    · have := chunkOf_end ns (start + m) i s n (by omega) h
      rw [List.sum_cons]
      omega

/-- What the analysis may report in a cell. -/
def Sound (E : Env Rat Num) (prox : Option Rat) (sec : Option Num) (c : Place) : Prop :=
  (prox = none → sec = none) ∧
  (∀ d, prox = some d → ∃ t, Proximity.Spec.TargetCell E t ∧ d = Proximity.Spec.between E t c ∧ Proximity.Spec.InRange E d ∧
    sec = some (E.report c t)) ∧
  (Proximity.Spec.TargetCell E c → prox = some 0 ∧ sec = some (E.report c c))

theorem cellValue_sound {np : NumPy} {M : Maths} {mode : Mode} {dt : DType} {E : Env Rat Num} {pad : Num} {ychunks xchunks : List Nat}
    {depth : Option (Nat × Nat)} (hself : ∀ x y, E.distSqr x y x y = 0) (hpad : depth ≠ none → ¬ Spec.IsTarget E.targets pad)
    (hy : ychunks.sum = E.ny) (hx : xchunks.sum = E.nx) {i j : Nat} (hi : i < E.ny) (hj : j < E.nx) :
    ∃ prox sec, cellValue np M mode dt E pad ychunks xchunks i j depth = pick np M dt prox sec mode ∧ Sound E prox sec (i, j) ∧
      (∀ sx sy m : Rat, CityOrChess E.distSqr → Regular E.nx E.xc sx → Regular E.ny E.yc sy → sx ≠ 0 → sy ≠ 0 →
        (depth ≠ none → E.maxDist = (m : WithTop Rat) ∧ 0 < m ∧ ∀ dy dx, depth = some (dy, dx) → m ≤ |sy| * dy ∧ m ≤ |sx| * dx) →
        prox = (compute E).prox i j) := by
  cases depth with
  | none =>
    exact ⟨_, _, rfl, Proximity.C09_real_targets hself (p := (i, j)) hi hj, fun _ _ _ _ _ _ _ _ _ => rfl⟩
  | some dd =>
    obtain ⟨dy, dx⟩ := dd
    obtain ⟨r0, h, hr, _⟩ := chunkOf_spec ychunks 0 i (Nat.zero_le _) (by omega)
    obtain ⟨c0, w, hc, _⟩ := chunkOf_spec xchunks 0 j (Nat.zero_le _) (by omega)
    obtain ⟨a1, a2, a3⟩ := chunkOf_end _ _ _ _ _ (Nat.zero_le _) hr
    obtain ⟨b1, b2, b3⟩ := chunkOf_end _ _ _ _ _ (Nat.zero_le _) hc
    have e1 : r0 + (i - r0) = i := by omega
    have e2 : c0 + (j - c0) = j := by omega
    have hs := Proximity.C42_chunk_real_targets (E := E) hself (r0 := r0) (c0 := c0) (h := h) (w := w) (dy := dy) (dx := dx) (by omega)
      (by omega) (hpad (by simp)) (i := i - r0) (j := j - c0) (by omega) (by omega)
    rw [e1, e2] at hs
    refine ⟨_, _, by simp only [cellValue, hr, hc]; rfl, hs, ?_⟩
    intro sx sy m hf gx gy hsx hsy hd
    obtain ⟨hm, hm0, hd⟩ := hd (by simp)
    obtain ⟨d1, d2⟩ := hd dy dx rfl
    have := Proximity.C42_chunk_equals_whole_partial (E := E) hf gx gy hsx hsy hm hm0 (r0 := r0) (c0 := c0) (h := h) (w := w) (dy := dy)
      (dx := dx) (by omega) (by omega) d1 d2 (hpad (by simp)) (i := i - r0) (j := j - c0) (by omega) (by omega)
    rw [e1, e2] at this
    exact this

/-! ### Arguments -/

theorem metricOf_iff (name : Option String) (metric : Metric) : metricOf name = some metric ↔ name ∈ names metric := by
  constructor
  · intro h
    unfold metricOf at h
    split at h <;> cases h <;> simp [names]
  · intro h
    cases metric <;> simp only [names, List.mem_cons, List.not_mem_nil, or_false] at h
    · rcases h with rfl | rfl <;> rfl
    · rcases h with rfl | rfl | rfl | rfl <;> rfl
    · rcases h with rfl | rfl <;> rfl
    · rcases h with rfl | rfl <;> rfl

theorem finite_iff : ∀ (l : List Num) (ts : List Rat), finite l = some ts ↔ l = ts.map .fin
  | [], ts => by
    cases ts <;> simp [finite]
  | x :: l, ts => by
    cases x with
    | fin q =>
      cases hl : finite l with
      | none =>
        simp only [finite, hl]
        constructor
        · intro h; cases h
        · intro h
          cases ts with
          | nil => cases h
          | cons t ts =>
            simp only [List.map_cons, List.cons.injEq] at h
            have := (finite_iff l ts).mpr h.2
            rw [hl] at this
            cases this
      | some qs =>
        have e := (finite_iff l qs).mp hl
        simp only [finite, hl, Option.some.injEq]
        constructor
        · rintro rfl
          rw [e]
          rfl
        · intro h
          cases ts with
          | nil => cases h
          | cons t ts =>
            simp only [List.map_cons, List.cons.injEq, FVal.fin.injEq] at h
            have := (finite_iff l ts).mpr h.2
            rw [hl, Option.some.injEq] at this
            rw [this, h.1]
    | posInf => simp only [finite]; cases ts <;> simp
    | negInf => simp only [finite]; cases ts <;> simp
    | nan => simp only [finite]; cases ts <;> simp

theorem lonLat_iff (p : Placed) : badLonLat p = false ↔ LonLat p := by
  unfold badLonLat LonLat
  simp only [Bool.or_eq_false_iff, Bool.and_eq_false_iff, List.any_eq_false, List.mem_range, decide_eq_true_eq, not_or, not_lt]
  constructor
  · rintro ⟨⟨h1, h2⟩, h3⟩
    refine ⟨fun i hi => h1 i hi, ?_⟩
    rcases h3 with h3 | h3
    · exact .inl fun j hj => ⟨(h2 j hj).2, h3 j hj⟩
    · exact .inr fun j hj => ⟨h3 j hj, (h2 j hj).1⟩
  · rintro ⟨h1, h2⟩
    refine ⟨⟨fun i hi => h1 i hi, ?_⟩, ?_⟩
    · rcases h2 with h2 | h2
      · exact fun j hj => ⟨le_trans (h2 j hj).2 (by norm_num), (h2 j hj).1⟩
      · exact fun j hj => ⟨(h2 j hj).2, le_trans (by norm_num) (h2 j hj).1⟩
    · rcases h2 with h2 | h2
      · exact .inl fun j hj => (h2 j hj).2
      · exact .inr fun j hj => (h2 j hj).1

theorem reaches_iff (M : Maths) (metric : Metric) (p : Placed) (maxDist : WithTop Rat) :
    reaches (metric.sqr M) p maxDist = true ↔ Covers M metric p maxDist := by
  unfold Covers
  cases maxDist with
  | top =>
    constructor
    · intro _ m h; exact absurd h (by simp)
    · intro _; rfl
  | coe m =>
    show decide _ = true ↔ _
    rw [decide_eq_true_eq, distance2_eq]
    constructor
    · intro h m' hm
      have : m = m' := by exact_mod_cast hm
      rw [← this, pow_two]
      exact h
    · intro h
      have := h m rfl
      rw [pow_two] at this
      exact this

theorem depthOf_covers {m res : Rat} (hres : res ≠ 0) : m ≤ |res| * depthOf m res := by
  have hp : 0 < |res| := abs_pos.mpr hres
  have h1 : m / |res| ≤ ((m / |res|).ceil : Rat) := Rat.le_ceil
  have h2 : ((m / |res|).ceil : Rat) ≤ (depthOf m res : Rat) := by
    unfold depthOf
    have : (m / |res|).ceil ≤ (((m / |res|).ceil.toNat : Nat) : Int) := Int.self_le_toNat _
    exact_mod_cast this
  have h3 := le_trans h1 h2
  rw [div_le_iff₀ hp] at h3
  linarith

theorem depthOf_le_iff {m res : Rat} (hres : res ≠ 0) (n : Nat) : depthOf m res ≤ n ↔ m ≤ n * |res| := by
  have hp : 0 < |res| := abs_pos.mpr hres
  rw [← div_le_iff₀ hp]
  unfold depthOf
  rw [Int.toNat_le]
  rw [show ((n : Rat)) = (((n : Int)) : Rat) from by push_cast; rfl]
  exact Rat.ceil_le_iff

theorem prepare_ok (np : NumPy) (r : Raster) : ∃ q, prepare np r = .ok q := by
  unfold prepare
  simp only
  split
  · unfold Raster.astype
    split
    · exact ⟨_, rfl⟩
    · simp only
      split <;> first | exact ⟨_, rfl⟩ | contradiction
  · exact ⟨_, rfl⟩

theorem notPositive_iff (m : WithTop Rat) : notPositive m = false ↔ 0 < m := by
  cases m with
  | top => exact ⟨fun _ => WithTop.coe_lt_top 0, fun _ => rfl⟩
  | coe m =>
    show decide (m ≤ 0) = false ↔ ((0 : Rat) : WithTop Rat) < (m : WithTop Rat)
    rw [decide_eq_false_iff_not, WithTop.coe_lt_coe, not_le]

theorem depths_covers {M : Maths} {metric : Metric} {p : Placed} {maxDist : WithTop Rat} (h : Covers M metric p maxDist) :
    depths M metric p maxDist = none := by
  unfold depths
  rw [if_pos ((reaches_iff M metric p maxDist).mpr h)]

theorem depths_not {M : Maths} {metric : Metric} {p : Placed} {maxDist : WithTop Rat} (h : ¬ Covers M metric p maxDist) :
    ∃ m : Rat, maxDist = (m : WithTop Rat) ∧
      depths M metric p maxDist = some (depthOf m (cellSize M p metric).2, depthOf m (cellSize M p metric).1) := by
  cases maxDist with
  | top => exact absurd (fun m hm => absurd hm (by simp)) h
  | coe m =>
    refine ⟨m, rfl, ?_⟩
    unfold depths
    rw [if_neg (by rw [reaches_iff]; exact h)]
    cases metric <;> rfl

theorem tooDeep_iff {M : Maths} {metric : Metric} {p : Placed} {maxDist : WithTop Rat}
    (hres : (cellSize M p metric).1 ≠ 0 ∧ (cellSize M p metric).2 ≠ 0) :
    tooDeep p.raster (depths M metric p maxDist) = false ↔ Covers M metric p maxDist ∨ ∃ m : Rat, maxDist = (m : WithTop Rat) ∧
      m ≤ p.raster.ny * |(cellSize M p metric).2| ∧ m ≤ p.raster.nx * |(cellSize M p metric).1| := by
  by_cases h : Covers M metric p maxDist
  · rw [depths_covers h]
    exact ⟨fun _ => .inl h, fun _ => rfl⟩
  · obtain ⟨m, hm, hd⟩ := depths_not h
    rw [hd]
    simp only [tooDeep, decide_eq_false_iff_not, not_or, not_lt, depthOf_le_iff hres.1, depthOf_le_iff hres.2]
    constructor
    · intro hle
      exact .inr ⟨m, hm, hle⟩
    · rintro (h' | ⟨m', hm', hle⟩)
      · exact absurd h' h
      · rw [hm] at hm'
        have : m = m' := by exact_mod_cast hm'
        rw [this]
        exact hle

/-! ### C72 -/

/-- **Which arguments are accepted**: a documented name, finite values, a positive distance, coordinates in degrees for the great circle; and,
which is not documented, the maximal distance must either reach from the first to the last cell or not exceed one of the sides. -/
theorem C72_accepted (np : NumPy) (M : Maths) (p : Placed) (mode : Mode) (targets : List Num) (name : Option String) (maxDist : WithTop Rat)
    (double : Bool) (ychunks xchunks : List Nat) (hres : ∀ metric, (cellSize M p metric).1 ≠ 0 ∧ (cellSize M p metric).2 ≠ 0) :
    ((∃ out, analysis np M p mode targets name maxDist double ychunks xchunks = .ok out) ↔
      ∃ (metric : Metric) (ts : List Rat), name ∈ names metric ∧ targets = ts.map .fin ∧ 0 < maxDist ∧ (metric = .greatCircle → LonLat p) ∧
        (Covers M metric p maxDist ∨ ∃ m : Rat, maxDist = (m : WithTop Rat) ∧ m ≤ p.raster.ny * |(cellSize M p metric).2| ∧
          m ≤ p.raster.nx * |(cellSize M p metric).1|)) ∧
    ((¬ ∃ out, analysis np M p mode targets name maxDist double ychunks xchunks = .ok out) →
      analysis np M p mode targets name maxDist double ychunks xchunks = .error .value) := by
  unfold analysis
  cases hn : metricOf name with
  | none =>
    refine ⟨⟨?_, ?_⟩, fun _ => rfl⟩
    · rintro ⟨_, h⟩; cases h
    · rintro ⟨metric, _, h, _⟩
      rw [← metricOf_iff, hn] at h
      cases h
  | some metric =>
    have hn' := (metricOf_iff _ _).mp hn
    have huniq : ∀ metric', name ∈ names metric' → metric' = metric := by
      intro metric' h
      rw [← metricOf_iff, hn, Option.some.injEq] at h
      exact h.symm
    simp only
    cases ht : finite targets with
    | none =>
      refine ⟨⟨?_, ?_⟩, fun _ => rfl⟩
      · rintro ⟨_, h⟩; cases h
      · rintro ⟨_, ts, _, h, _⟩
        rw [← finite_iff, ht] at h
        cases h
    | some ts =>
      have ht' := (finite_iff _ _).mp ht
      simp only
      cases hm : notPositive maxDist with
      | true =>
        refine ⟨⟨?_, ?_⟩, fun _ => rfl⟩
        · rintro ⟨_, h⟩; cases h
        · rintro ⟨_, _, _, _, h, _⟩
          rw [← notPositive_iff, hm] at h
          cases h
      | false =>
        rw [if_neg (by simp)]
        cases hl : decide (metric = .greatCircle) && badLonLat p with
        | true =>
          simp only [Bool.and_eq_true, decide_eq_true_eq] at hl
          refine ⟨⟨?_, ?_⟩, fun _ => rfl⟩
          · rintro ⟨_, h⟩; cases h
          · rintro ⟨metric', _, h1, _, _, h, _⟩
            rw [huniq _ h1] at h
            have := h hl.1
            rw [← lonLat_iff, hl.2] at this
            cases this
        | false =>
          rw [if_neg (by simp)]
          unfold run
          obtain ⟨q, hq⟩ := prepare_ok np p.raster
          simp only [hq]
          cases hd : tooDeep p.raster (depths M metric p maxDist) with
          | true =>
            refine ⟨⟨?_, ?_⟩, fun _ => rfl⟩
            · rintro ⟨_, h⟩; cases h
            · rintro ⟨metric', _, h1, _, _, _, h⟩
              rw [huniq _ h1, ← tooDeep_iff (hres metric), hd] at h
              cases h
          | false =>
            rw [if_neg (by simp)]
            refine ⟨⟨fun _ => ⟨metric, ts, hn', ht', (notPositive_iff _).mp hm, ?_, (tooDeep_iff (hres metric)).mp hd⟩,
              fun _ => ⟨_, rfl⟩⟩, fun h => absurd ⟨_, rfl⟩ h⟩
            intro hg
            rw [← lonLat_iff]
            simpa [hg] using hl

/-- What an accepted call computes. -/
theorem analysis_ok {np : NumPy} {M : Maths} {p : Placed} {mode : Mode} {ts : List Rat} {name : Option String} {maxDist : WithTop Rat}
    {double : Bool} {ychunks xchunks : List Nat} {metric : Metric} (hn : name ∈ names metric) {out : Raster}
    (h : analysis np M p mode (ts.map .fin) name maxDist double ychunks xchunks = .ok out) :
    0 < maxDist ∧ ∃ q, prepare np p.raster = .ok q ∧
      out = ofData (dtypeOf double p.raster.dtype mode) p.raster.nb p.raster.ny p.raster.nx
        (fun c => cellValue np M mode (dtypeOf double p.raster.dtype mode)
          (env np M metric mode (dtypeOf double p.raster.dtype mode) p q ts maxDist c.1) (np.cast q.dtype .nan) ychunks xchunks c.2.1 c.2.2
          (depths M metric p maxDist)) none (some (defaultNull (dtypeOf double p.raster.dtype mode))) false := by
  unfold analysis at h
  rw [(metricOf_iff _ _).mpr hn] at h
  simp only [(finite_iff _ ts).mpr rfl] at h
  split at h
  · cases h
  · rename_i hm
    split at h
    · cases h
    · refine ⟨(notPositive_iff _).mp (by simpa using hm), ?_⟩
      unfold run at h
      obtain ⟨q, hq⟩ := prepare_ok np p.raster
      simp only [hq] at h
      split at h
      · cases h
      · rw [outDtype_eq] at h
        exact ⟨q, hq, (Except.ok.inj h).symm⟩

section
variable {np : NumPy} {M : Maths} {p : Placed} {mode : Mode} {ts : List Rat} {maxDist : WithTop Rat} {double : Bool} {metric : Metric}
  {q : Raster}

/-- The targets of the data are the sources of the raster. -/
theorem targets_iff {dt : DType} (hv : ∀ c, p.raster.mask c = false → q.data c = p.raster.data c)
    (hm : ∀ c, p.raster.mask c = true → ¬ Spec.IsTarget ts (q.data c)) (b : Nat) (t : Place) :
    Proximity.Spec.TargetCell (env np M metric mode dt p q ts maxDist b) t ↔ Source p.raster ts b t := by
  unfold Proximity.Spec.TargetCell Source
  show t.1 < p.raster.ny ∧ t.2 < p.raster.nx ∧ Spec.IsTarget ts (q.data (b, t)) ↔ _
  cases hc : p.raster.mask (b, t) with
  | true =>
    constructor
    · rintro ⟨_, _, h⟩
      exact absurd h (hm _ hc)
    · rintro ⟨_, _, h, _⟩
      cases h
  | false =>
    rw [hv _ hc]
    simp [Spec.IsTarget]

theorem report_eq (hv : ∀ c, p.raster.mask c = false → q.data c = p.raster.data c) (hE : Exact np p.raster) {b : Nat} {c t : Place}
    (ht : Source p.raster ts b t) (hmode : mode ≠ .proximity) :
    (env np M metric mode (dtypeOf double p.raster.dtype mode) p q ts maxDist b).report c t =
      report np M metric (dtypeOf double p.raster.dtype mode) p b c t mode := by
  cases mode with
  | proximity => exact absurd rfl hmode
  | allocation =>
    simp only [env, report, dtypeOf]
    rw [if_pos trivial, hv _ ht.2.2.1]
    exact (hE _ ht.2.2.1).1
  | direction =>
    simp only [env, report]
    rw [if_neg (by decide), bearing_eq]

theorem inRange_iff {dt : DType} {b : Nat} (d : Rat) :
    Proximity.Spec.InRange (env np M metric mode dt p q ts maxDist b) d ↔ InReach maxDist d := by
  unfold Proximity.Spec.InRange InReach
  simp only [pow_two]
  rfl

theorem between_eq {dt : DType} {b : Nat} (t c : Place) :
    Proximity.Spec.between (env np M metric mode dt p q ts maxDist b) t c = apart M metric p t c :=
  distance2_eq M metric _ _ _ _

/-- What is picked from a sound pair of outputs. -/
theorem pick_spec (hv : ∀ c, p.raster.mask c = false → q.data c = p.raster.data c) (hE : Exact np p.raster)
    (hm : ∀ c, p.raster.mask c = true → ¬ Spec.IsTarget ts (q.data c)) {b : Nat} {c : Place} {prox : Option Rat} {sec : Option Num}
    (h : Sound (env np M metric mode (dtypeOf double p.raster.dtype mode) p q ts maxDist b) prox sec c) :
    (prox = none → pick np M (dtypeOf double p.raster.dtype mode) prox sec mode = (defaultNull (dtypeOf double p.raster.dtype mode)).val) ∧
    (∀ d, prox = some d → ∃ t, Source p.raster ts b t ∧ d = apart M metric p t c ∧ InReach maxDist d ∧
      pick np M (dtypeOf double p.raster.dtype mode) prox sec mode =
        report np M metric (dtypeOf double p.raster.dtype mode) p b c t mode) ∧
    (Source p.raster ts b c → apart M metric p c c = 0 → prox = some 0 ∧
      pick np M (dtypeOf double p.raster.dtype mode) prox sec mode =
        report np M metric (dtypeOf double p.raster.dtype mode) p b c c mode) := by
  obtain ⟨h1, h2, h3⟩ := h
  have hpick : ∀ d t, prox = some d → d = apart M metric p t c → Source p.raster ts b t →
      sec = some ((env np M metric mode (dtypeOf double p.raster.dtype mode) p q ts maxDist b).report c t) →
      pick np M (dtypeOf double p.raster.dtype mode) prox sec mode =
        report np M metric (dtypeOf double p.raster.dtype mode) p b c t mode := by
    intro d t hd he ht hs
    by_cases hmode : mode = .proximity
    · subst hmode
      rw [hd, he]
      rfl
    · rw [report_eq hv hE ht hmode] at hs
      rw [hs]
      cases mode with
      | proximity => exact absurd rfl hmode
      | allocation => rfl
      | direction => rfl
  refine ⟨?_, ?_, ?_⟩
  · intro hp
    rw [h1 hp, hp]
    cases mode <;> rfl
  · intro d hd
    obtain ⟨t, g1, g2, g3, g4⟩ := h2 d hd
    rw [targets_iff hv hm] at g1
    rw [between_eq] at g2
    exact ⟨t, g1, g2, (inRange_iff d).mp g3, hpick d t hd g2 g1 g4⟩
  · intro hs h0
    obtain ⟨g1, g2⟩ := h3 ((targets_iff hv hm b c).mpr hs)
    exact ⟨g1, hpick 0 c g1 h0.symm hs g2⟩

end

/-- The common part of the two theorems: where each cell of the result comes from. -/
theorem cells {np : NumPy} {M : Maths} {p : Placed} {mode : Mode} {ts : List Rat} {name : Option String} {maxDist : WithTop Rat}
    {double : Bool} {ychunks xchunks : List Nat} {metric : Metric} (hn : name ∈ names metric) {out : Raster}
    (h : analysis np M p mode (ts.map .fin) name maxDist double ychunks xchunks = .ok out)
    (hy : ychunks.sum = p.raster.ny) (hx : xchunks.sum = p.raster.nx) (hself : ∀ x y, distance2 M x y x y metric = 0)
    (hE : Exact np p.raster) (hN : MaskNeedsNull p.raster) (hnan : NanCast np) (hnull : NullsIgnored np p.raster ts)
    (hpad : ¬ Covers M metric p maxDist → MarginIgnored np p.raster ts) :
    0 < maxDist ∧ out.dtype = dtypeOf double p.raster.dtype mode ∧ (out.nb, out.ny, out.nx) = (p.raster.nb, p.raster.ny, p.raster.nx) ∧
    out.nv = some (defaultNull out.dtype) ∧ (∀ c, out.mask c = true ↔ out.data c = (defaultNull out.dtype).val) ∧
    ∃ q, (∀ c, p.raster.mask c = false → q.data c = p.raster.data c) ∧ (∀ c, p.raster.mask c = true → ¬ Spec.IsTarget ts (q.data c)) ∧
      ∀ (b : Nat) (c : Place), c.1 < p.raster.ny → c.2 < p.raster.nx → ∃ prox sec,
        out.data (b, c) = pick np M out.dtype prox sec mode ∧ Sound (env np M metric mode out.dtype p q ts maxDist b) prox sec c ∧
        (∀ sx sy : Rat, metric = .taxi ∨ metric = .chebyshev → Regular p.raster.nx p.x sx → Regular p.raster.ny p.y sy → sx ≠ 0 → sy ≠ 0 →
          p.resolution = (sx, sy) →
          prox = (compute (env np M metric mode out.dtype p q ts maxDist b)).prox c.1 c.2) := by
  obtain ⟨hpos, q, hq, rfl⟩ := analysis_ok hn h
  obtain ⟨q', hq', hv, hm, hty⟩ := prepare_spec hE hN
  rw [hq] at hq'
  obtain rfl := Except.ok.inj hq'
  have hnt : ∀ x : Num, x = .nan → ¬ Spec.IsTarget ts x := by
    rintro x rfl ⟨v, hv, _⟩
    cases hv
  refine ⟨hpos, rfl, rfl, rfl, fun c => maskOf_iff _ _, q, hv, ?_, ?_⟩
  · intro c hc
    rcases hm c hc with h | ⟨h16, s, hs, hd⟩
    · exact hnt _ h
    · rw [hd]
      exact hnull h16 s hs
  · intro b c hc1 hc2
    have hpadt : depths M metric p maxDist ≠ none → ¬ Spec.IsTarget ts (np.cast q.dtype .nan) := by
      intro hd
      have hcov : ¬ Covers M metric p maxDist := fun hc => hd (depths_covers hc)
      rcases hty with ⟨g1, g2, g3⟩ | g
      · rw [g3]
        exact hpad hcov g1 g2
      · exact hnt _ (hnan _ g)
    obtain ⟨prox, sec, e1, e2, e3⟩ := cellValue_sound (np := np) (M := M) (mode := mode) (dt := dtypeOf double p.raster.dtype mode)
      (E := env np M metric mode (dtypeOf double p.raster.dtype mode) p q ts maxDist b) (pad := np.cast q.dtype .nan) (ychunks := ychunks)
      (xchunks := xchunks) (depth := depths M metric p maxDist)
      (fun x y => (distance2_eq M metric x y x y).trans (hself x y)) hpadt hy hx (i := c.1) (j := c.2) hc1 hc2
    refine ⟨prox, sec, e1, e2, ?_⟩
    intro sx sy hcc gx gy hsx hsy hres
    have hcity : CityOrChess (metric.sqr M) := by
      rcases hcc with rfl | rfl
      · exact .inl rfl
      · exact .inr rfl
    by_cases hcov : Covers M metric p maxDist
    · exact e3 sx sy 0 hcity gx gy hsx hsy fun hd => absurd (depths_covers hcov) hd
    · obtain ⟨m, hmm, hd⟩ := depths_not hcov
      refine e3 sx sy m hcity gx gy hsx hsy fun _ => ⟨hmm, ?_, ?_⟩
      · rw [hmm] at hpos
        exact_mod_cast hpos
      · intro dy dx he
        have hsize : cellSize M p metric = (sx, sy) := by
          rw [← hres]
          rcases hcc with rfl | rfl <;> rfl
        rw [hd, hsize, Option.some.injEq, Prod.mk.injEq] at he
        rw [← he.1, ← he.2]
        exact ⟨depthOf_covers hsy, depthOf_covers hsx⟩

/-- **C72, every metric.**  Each cell of the result is null or reports a source in reach: the distance to it, its value or its direction; and
source cells report themselves.  Required: the raster's values are not changed by the conversion to floats; if its dtype is bool, int8, uint8 or
float16, its null value is not taken for a source; if it is one of integers without a null value and the maximal distance does not cover the
raster, the integer that NumPy makes of NaN is not taken for a source; no report equals the null value of the result. -/
theorem C72_sources_partial {np : NumPy} {M : Maths} {p : Placed} {mode : Mode} {ts : List Rat} {name : Option String}
    {maxDist : WithTop Rat} {double : Bool} {ychunks xchunks : List Nat} {metric : Metric} (hn : name ∈ names metric) {out : Raster}
    (h : analysis np M p mode (ts.map .fin) name maxDist double ychunks xchunks = .ok out)
    (hy : ychunks.sum = p.raster.ny) (hx : xchunks.sum = p.raster.nx) (hself : metric = .greatCircle → ∀ x y, M.haversine x y x y = 0)
    (hE : Exact np p.raster) (hN : MaskNeedsNull p.raster) (hnan : NanCast np) (hnull : NullsIgnored np p.raster ts)
    (hpad : ¬ Covers M metric p maxDist → MarginIgnored np p.raster ts)
    (hdis : Distinct np M metric mode (dtypeOf double p.raster.dtype mode) p ts) :
    out.dtype = dtypeOf double p.raster.dtype mode ∧ (out.nb, out.ny, out.nx) = (p.raster.nb, p.raster.ny, p.raster.nx) ∧
    out.nv = some (defaultNull out.dtype) ∧
    ∀ (b : Nat) (c : Place), c.1 < p.raster.ny → c.2 < p.raster.nx → Honest np M metric mode p ts maxDist out b c := by
  have hself' : ∀ x y, distance2 M x y x y metric = 0 := by
    intro x y
    cases metric with
    | greatCircle => exact hself rfl x y
    | euclidean => simp [distance2]
    | taxi => simp [distance2]
    | chebyshev => simp [distance2]
  obtain ⟨_, h1, h2, h3, h4, q, hv, hm, hc⟩ := cells hn h hy hx hself' hE hN hnan hnull hpad
  refine ⟨h1, h2, h3, fun b c hc1 hc2 => ?_⟩
  obtain ⟨prox, sec, e1, e2, _⟩ := hc b c hc1 hc2
  rw [h1] at e1 e2
  obtain ⟨p1, p2, p3⟩ := pick_spec hv hE hm e2
  rw [← e1] at p1 p2 p3
  refine ⟨?_, ?_, ?_⟩
  · intro hmask
    exact ⟨_, h3, (h4 _).mp hmask⟩
  · intro hmask
    cases hp : prox with
    | none =>
      exfalso
      have := (h4 (b, c)).mpr (by rw [h1]; exact p1 hp)
      rw [hmask] at this
      cases this
    | some d =>
      obtain ⟨t, g1, g2, g3, g4⟩ := p2 d hp
      refine ⟨t, g1, by rw [← g2]; exact g3, ?_⟩
      rw [h1]
      exact g4
  · intro hs
    obtain ⟨_, g⟩ := p3 hs (hself' _ _)
    refine ⟨?_, by rw [h1]; exact g⟩
    cases hmask : out.mask (b, c) with
    | false => rfl
    | true =>
      exfalso
      have := (h4 _).mp hmask
      rw [g, h1] at this
      exact hdis b c c hs this

/-- **C72, city block and chessboard metrics.**  On a regular grid each cell reports a nearest source, and is null exactly if no source is in
reach.  The requirements are those of `C72_sources_partial`.  Missing: the Euclidean metric, for which it is false
(`C41_euclidean_not_nearest`), and the great circle. -/
theorem C72_nearest_partial {np : NumPy} {M : Maths} {p : Placed} {mode : Mode} {ts : List Rat} {name : Option String}
    {maxDist : WithTop Rat} {double : Bool} {ychunks xchunks : List Nat} {metric : Metric} (hmet : metric = .taxi ∨ metric = .chebyshev)
    (hn : name ∈ names metric) {out : Raster}
    (h : analysis np M p mode (ts.map .fin) name maxDist double ychunks xchunks = .ok out)
    (hy : ychunks.sum = p.raster.ny) (hx : xchunks.sum = p.raster.nx)
    (hgx : Regular p.raster.nx p.x p.resolution.1) (hgy : Regular p.raster.ny p.y p.resolution.2)
    (hsx : p.resolution.1 ≠ 0) (hsy : p.resolution.2 ≠ 0)
    (hE : Exact np p.raster) (hN : MaskNeedsNull p.raster) (hnan : NanCast np) (hnull : NullsIgnored np p.raster ts)
    (hpad : ¬ Covers M metric p maxDist → MarginIgnored np p.raster ts)
    (hdis : Distinct np M metric mode (dtypeOf double p.raster.dtype mode) p ts) (b : Nat) (c : Place)
    (hc1 : c.1 < p.raster.ny) (hc2 : c.2 < p.raster.nx) : Nearest np M metric mode p ts maxDist out b c := by
  have hself : ∀ x y, distance2 M x y x y metric = 0 := by
    intro x y
    rcases hmet with rfl | rfl <;> simp [distance2]
  have hcity : CityOrChess (metric.sqr M) := by
    rcases hmet with rfl | rfl
    · exact .inl rfl
    · exact .inr rfl
  obtain ⟨hpos, h1, h2, h3, h4, q, hv, hm, hc⟩ := cells hn h hy hx hself hE hN hnan hnull hpad
  obtain ⟨prox, sec, e1, e2, e3⟩ := hc b c hc1 hc2
  have e3 := e3 _ _ hmet hgx hgy hsx hsy rfl
  obtain ⟨k1, k2⟩ := Proximity.C41_nearest_partial (E := env np M metric mode out.dtype p q ts maxDist b) hcity hgx hgy hsx hsy hpos
    (p := c) hc1 hc2
  rw [← e3] at k1
  rw [h1] at e1 e2 k1 k2 e3
  rw [← e3] at k2
  obtain ⟨p1, p2, p3⟩ := pick_spec hv hE hm e2
  rw [← e1] at p1 p2 p3
  have hmaskiff : out.mask (b, c) = true ↔ prox = none := by
    rw [h4, h1]
    constructor
    · intro hd
      cases hp : prox with
      | none => rfl
      | some d =>
        obtain ⟨t, g1, _, _, g4⟩ := p2 d hp
        rw [hd] at g4
        exact absurd g4.symm (hdis b c t g1)
    · exact p1
  simp only [targets_iff hv hm, between_eq, inRange_iff] at k1 k2
  refine ⟨hmaskiff.trans k1, ?_⟩
  intro hmask
  cases hp : prox with
  | none =>
    rw [hmaskiff.mpr hp] at hmask
    cases hmask
  | some d =>
    obtain ⟨t, g1, g2, g3, g4⟩ := p2 d hp
    obtain ⟨_, k4⟩ := (k2 d).mp hp
    refine ⟨t, g1, by rw [← g2]; exact g3, ?_, by rw [h1]; exact g4⟩
    rw [← g2]
    exact k4

/-- The result of the proximity does not depend on the chunks. -/
theorem C72_chunks {np : NumPy} {M : Maths} {p : Placed} {ts : List Rat} {name : Option String} {maxDist : WithTop Rat} {double : Bool}
    {ychunks xchunks ychunks' xchunks' : List Nat} {metric : Metric} (hmet : metric = .taxi ∨ metric = .chebyshev) (hn : name ∈ names metric)
    {out out' : Raster} (h : analysis np M p .proximity (ts.map .fin) name maxDist double ychunks xchunks = .ok out)
    (h' : analysis np M p .proximity (ts.map .fin) name maxDist double ychunks' xchunks' = .ok out')
    (hy : ychunks.sum = p.raster.ny) (hx : xchunks.sum = p.raster.nx) (hy' : ychunks'.sum = p.raster.ny) (hx' : xchunks'.sum = p.raster.nx)
    (hgx : Regular p.raster.nx p.x p.resolution.1) (hgy : Regular p.raster.ny p.y p.resolution.2)
    (hsx : p.resolution.1 ≠ 0) (hsy : p.resolution.2 ≠ 0)
    (hE : Exact np p.raster) (hN : MaskNeedsNull p.raster) (hnan : NanCast np) (hnull : NullsIgnored np p.raster ts)
    (hpad : ¬ Covers M metric p maxDist → MarginIgnored np p.raster ts)
    (hdis : Distinct np M metric .proximity (dtypeOf double p.raster.dtype .proximity) p ts) (b : Nat) (c : Place)
    (hc1 : c.1 < p.raster.ny) (hc2 : c.2 < p.raster.nx) : out.data (b, c) = out'.data (b, c) ∧ out.mask (b, c) = out'.mask (b, c) := by
  obtain ⟨a1, a2⟩ := C72_nearest_partial hmet hn h hy hx hgx hgy hsx hsy hE hN hnan hnull hpad hdis b c hc1 hc2
  obtain ⟨b1, b2⟩ := C72_nearest_partial hmet hn h' hy' hx' hgx hgy hsx hsy hE hN hnan hnull hpad hdis b c hc1 hc2
  have hself : metric = .greatCircle → ∀ x y, M.haversine x y x y = 0 := by
    rintro rfl
    rcases hmet with h | h <;> cases h
  obtain ⟨d1, _, n1, s1⟩ := C72_sources_partial hn h hy hx hself hE hN hnan hnull hpad hdis
  obtain ⟨d2, _, n2, s2⟩ := C72_sources_partial hn h' hy' hx' hself hE hN hnan hnull hpad hdis
  have hmask : out.mask (b, c) = out'.mask (b, c) := by
    have := a1.trans b1.symm
    cases h1 : out.mask (b, c) <;> cases h2 : out'.mask (b, c) <;> simp_all
  refine ⟨?_, hmask⟩
  cases h1 : out.mask (b, c) with
  | true =>
    obtain ⟨s, k1, k2⟩ := (s1 b c hc1 hc2).1 h1
    obtain ⟨s', k1', k2'⟩ := (s2 b c hc1 hc2).1 (hmask ▸ h1)
    rw [n1, Option.some.injEq] at k1
    rw [n2, Option.some.injEq] at k1'
    rw [k2, k2', ← k1, ← k1', d1, d2]
  | false =>
    obtain ⟨t, g1, _, g2, g3⟩ := a2 h1
    obtain ⟨t', g1', _, g2', g3'⟩ := b2 (hmask ▸ h1)
    rw [g3, g3', d1, d2]
    have := le_antisymm (g2 t' g1') (g2' t g1)
    simp only [report, this]

/-- Distances are not mistaken for null if roots are not negative and rounding keeps the sign. -/
theorem C72_distances_distinct {np : NumPy} {M : Maths} {p : Placed} {ts : List Rat} {metric : Metric} (double : Bool)
    (hs : ∀ d, 0 ≤ M.sqrt d) (hr : ∀ dt q, 0 ≤ q → np.cast dt (.fin q) = .posInf ∨ ∃ q' : Rat, np.cast dt (.fin q) = .fin q' ∧ 0 ≤ q') :
    Distinct np M metric .proximity (dtypeOf double p.raster.dtype .proximity) p ts := by
  intro b c t _ he
  have he : np.cast (dtypeOf double p.raster.dtype .proximity) (.fin (M.sqrt (apart M metric p t c))) =
    (defaultNull (dtypeOf double p.raster.dtype .proximity)).val := he
  rcases hr (dtypeOf double p.raster.dtype .proximity) _ (hs (apart M metric p t c)) with h | ⟨q', h, h0⟩
  · rw [h] at he
    cases double <;> cases he
  · rw [h] at he
    have hneg : ∃ n : Rat, (defaultNull (dtypeOf double p.raster.dtype .proximity)).val = .fin n ∧ n < 0 := by
      cases double
      · exact ⟨_, rfl, by norm_num⟩
      · exact ⟨_, rfl, by norm_num⟩
    obtain ⟨n, hn, hn0⟩ := hneg
    rw [hn, FVal.fin.injEq] at he
    linarith

/-- On a regular grid the direction 0 is that of the source cells alone. -/
theorem C72_direction_zero {M : Maths} {p : Placed} (hgx : Regular p.raster.nx p.x p.resolution.1)
    (hgy : Regular p.raster.ny p.y p.resolution.2) (hsx : p.resolution.1 ≠ 0) (hsy : p.resolution.2 ≠ 0) {c t : Place}
    (hc : c.1 < p.raster.ny ∧ c.2 < p.raster.nx) (ht : t.1 < p.raster.ny ∧ t.2 < p.raster.nx) :
    direction M (p.x c.2) (p.y c.1) (p.x t.2) (p.y t.1) = 0 ↔ c = t := by
  have hinj : ∀ (n : Nat) (f : Nat → Rat) (s : Rat), Regular n f s → s ≠ 0 → ∀ i j, i < n → j < n → f i = f j → i = j := by
    intro n f s hr hs i j hi hj he
    have := hr i j hi hj
    rw [he, sub_self] at this
    have := (mul_eq_zero.mp this.symm).resolve_left hs
    have : (i : Rat) = j := by linarith
    exact_mod_cast this
  unfold direction
  constructor
  · intro h
    split at h
    · rename_i he
      exact Prod.ext (hinj _ _ _ hgy hsy _ _ hc.1 ht.1 he.2) (hinj _ _ _ hgx hsx _ _ hc.2 ht.2 he.1)
    · split at h
      · norm_num at h
      · contradiction
  · rintro rfl
    simp

/-! ### Examples and what is false -/

/-- NumPy without rounding; int32 gets its lowest value for NaN. -/
def exNumPy : NumPy := ⟨false, fun d v => match d, v with
  | i32, .nan => .fin (-2147483648)
  | _, v => v⟩

/-- The roots of a few squares. -/
def exMaths : Maths where
  sqrt := fun d => if d = 0 then 0 else if d = 1 then 1 else if d = 4 then 2 else if d = 9 then 3 else 4
  angle := fun dx dy => if dx = 0 then (if 0 < dy then 0 else 180) else if 0 < dx then 90 else 270
  haversine := fun _ _ _ _ => 0
  minResolution := fun _ _ => (1, 1)

/-- A row of cells from left to right. -/
def row (dt : DType) (nv : Option Scalar) (values : List Rat) : Placed where
  raster := ⟨dt, 1, 1, values.length, fun c => .fin (values.getD c.2.2 0),
    fun c => maskOf (nv.map (·.val)) (.fin (values.getD c.2.2 0)), nv⟩
  x := fun j => j
  y := fun _ => 0
  resolution := (1, -1)

/-- The values and the mask of the only row. -/
def show' : Except Err Raster → Option (List Num × List Bool)
  | .ok r => some ((List.range r.nx).map (fun j => r.data (0, 0, j)), (List.range r.nx).map (fun j => r.mask (0, 0, j)))
  | .error _ => none

/-- Five cells of an int16 raster, one of them null; two chunks and an overlap of one. -/
def exRow : Placed := row i16 (some ⟨i16, .fin (-1)⟩) [7, 0, 0, -1, 5]

example : show' (analysis exNumPy exMaths exRow .proximity [] (some "taxi") (1 : Rat) false [1] [2, 3]) =
    some ([.fin 0, .fin 1, .fin (-999999), .fin 1, .fin 0], [false, false, true, false, false]) := by
  decide +kernel

example : show' (analysis exNumPy exMaths exRow .allocation [] (some "chessboard") (1 : Rat) false [1] [2, 3]) =
    some ([.fin 7, .fin 7, .fin (-32768), .fin 5, .fin 5], [false, false, true, false, false]) := by
  decide +kernel

example : show' (analysis exNumPy exMaths exRow .direction [.fin 5] none ⊤ true [1] [2, 3]) =
    some ([.fin 90, .fin 90, .fin 90, .fin 90, .fin 0], [false, false, false, false, false]) := by
  decide +kernel

theorem row_regular (dt : DType) (nv : Option Scalar) (l : List Rat) :
    Regular (row dt nv l).raster.nx (row dt nv l).x 1 ∧ Regular (row dt nv l).raster.ny (row dt nv l).y (-1) := by
  constructor
  · intro i j _ _
    show (i : Rat) - j = 1 * (i - j)
    ring
  · intro i j hi hj
    have hi : i < 1 := hi
    have hj : j < 1 := hj
    have : i = j := by omega
    subst this
    simp

/-- The requirements of the theorems are met. -/
example : Exact exNumPy exRow.raster ∧ MaskNeedsNull exRow.raster ∧ NanCast exNumPy ∧ NullsIgnored exNumPy exRow.raster [] ∧
    MarginIgnored exNumPy exRow.raster [] ∧ Distinct exNumPy exMaths .taxi .proximity f32 exRow [] ∧
    Distinct exNumPy exMaths .taxi .allocation i16 exRow [] ∧ some "taxi" ∈ names .taxi ∧ ¬ Covers exMaths .taxi exRow (1 : Rat) := by
  refine ⟨?_, ?_, ?_, ?_, ?_, ?_, ?_, ?_, ?_⟩
  · intro c _
    exact ⟨rfl, fun _ => rfl, fun _ => rfl⟩
  · intro c _ h
    cases h
  · intro d hd
    cases d <;> first | rfl | cases hd
  · intro h
    exact absurd h (by decide)
  · intro h
    cases h
  · refine C72_distances_distinct (p := exRow) false (fun d => ?_) (fun dt q hq => .inr ⟨q, ?_, hq⟩)
    · simp only [exMaths]
      split_ifs <;> norm_num
    · cases dt <;> rfl
  · intro b c t ht he
    obtain ⟨_, h, _⟩ := ht
    have h : t.2 < 5 := h
    have he : ([7, 0, 0, -1, 5] : List Rat).getD t.2 0 = -32768 := by
      have he : (FVal.fin (([7, 0, 0, -1, 5] : List Rat).getD t.2 0) : Num) = .fin (-32768) := he
      exact FVal.fin.inj he
    generalize t.2 = j at h he
    match j, h, he with
    | 0, _, he => norm_num at he
    | 1, _, he => norm_num at he
    | 2, _, he => norm_num at he
    | 3, _, he => norm_num at he
    | 4, _, he => norm_num at he
  · decide
  · intro h
    have := h 1 rfl
    simp [apart, distance2, exRow, row] at this

/-- **Null cells of small dtypes are sources**: in a uint8 raster the null value 255 itself is found as a source at distance 0, because
`astype` writes it back; with a null value in an int16 raster this does not happen. -/
theorem C72_null_is_source :
    show' (analysis exNumPy exMaths (row u8 (some ⟨u8, .fin 255⟩) [255, 0, 0, 9]) .proximity [] none ⊤ false [1] [4]) =
      some ([.fin 0, .fin 1, .fin 1, .fin 0], [false, false, false, false]) ∧
    show' (analysis exNumPy exMaths (row i16 (some ⟨i16, .fin 255⟩) [255, 0, 0, 9]) .proximity [] none ⊤ false [1] [4]) =
      some ([.fin 3, .fin 2, .fin 1, .fin 0], [false, false, false, false]) := by
  constructor <;> decide +kernel

/-- **Allocations that equal the default null value are lost**: 255 in uint8, and every `True` in a raster of booleans. -/
theorem C72_allocation_lost :
    show' (analysis exNumPy exMaths (row u8 none [255, 0, 0, 9]) .allocation [] none ⊤ false [1] [4]) =
      some ([.fin 255, .fin 255, .fin 9, .fin 9], [true, true, false, false]) ∧
    show' (analysis exNumPy exMaths (row .bool none [1, 0, 0, 1]) .allocation [] none ⊤ false [1] [4]) =
      some ([.fin 1, .fin 1, .fin 1, .fin 1], [true, true, true, true]) := by
  constructor <;> decide +kernel

/-- **A maximal distance longer than a side but shorter than the diagonal is refused.** -/
theorem C72_distance_refused :
    show' (analysis exNumPy exMaths (row i16 none [7, 0, 0, 0, 0]) .proximity [] (some "taxi") (2 : Rat) false [1] [5]) = none ∧
    show' (analysis exNumPy exMaths (row i16 none [7, 0, 0, 0, 0]) .proximity [] (some "taxi") (4 : Rat) false [1] [5]) =
      some ([.fin 0, .fin 1, .fin 2, .fin 3, .fin 4], [false, false, false, false, false]) ∧
    show' (analysis exNumPy exMaths (row i16 none [7, 0, 0, 0, 0]) .proximity [] (some "taxi") (1 : Rat) false [1] [5]) =
      some ([.fin 0, .fin 1, .fin (-999999), .fin (-999999), .fin (-999999)], [false, false, true, true, true]) := by
  refine ⟨?_, ?_, ?_⟩ <;> decide +kernel

/-- **The margin of integer rasters is a source**: at the ends of a raster without any source distances are found. -/
theorem C72_margin_is_source :
    (show' (analysis exNumPy exMaths (row i32 none [0, 0, 0]) .proximity [] (some "chessboard") (1 : Rat) false [1] [3])).map (·.2) =
      some [false, false, false] ∧
    (show' (analysis exNumPy exMaths (row f32 none [0, 0, 0]) .proximity [] (some "chessboard") (1 : Rat) false [1] [3])).map (·.2) =
      some [true, true, true] := by
  constructor <;> decide +kernel

end Verif.ProxRaster
