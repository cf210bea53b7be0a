import Verif.Trips.Samples
import Verif.Remap.Props

set_option linter.unusedSectionVars false

/-!
# C126: changed rasters read at points

`extract_points_eager` (`zonal.py:531-630`, C66) after `set_null` (C15), `astype` (C17), `set_null_value` (C16), `where` (C27) and
`reclassify` (C26), next to what is read from the rasters before.
-/

namespace Verif.Trips.Probes

open Verif Verif.Nulls DType
open Verif.Extract (extractPoints Geom)
open Verif.Extract.Spec (Reads)
open Verif.Grid.Spec (InCell)
open Verif.Nulls.Spec
open Verif.Trips.Forecasts.Spec (On)
open Verif.Trips.Readings (entry_reads reads_same)
open Verif.Trips.Readings.Spec (entry)
open Verif.Remap (Arg Remapping whereRaster whereNv reclassify reclassifyDtype keyType valueType)
open Verif.Remap.Spec (NullAt HasValue selected DocumentedNull)

variable {K : Type} [Field K] [LinearOrder K] [IsStrictOrderedRing K] [FloorRing K]

namespace Spec

/-- The columns are what is read from the raster, with the cells of the affine, at the points. -/
def Read (toF64 : Num → Num) (A : Grid.Affine K) (points : List (Geom K)) (r : Raster) (cols : List (String × List Num)) : Prop :=
  ∃ (g : Grid.Raster K Num) (name : String) (skip : Bool) (axis : Int), axis ≠ 0 ∧ g.affine = A ∧ On r g ∧
    extractPoints toF64 g points name skip axis = .ok (.wide cols)

end Spec

open Spec

/-- A point in a cell reads the value of the cell or NaN. -/
theorem inside {toF64 : Num → Num} {A : Grid.Affine K} (hdet : A.det ≠ 0) {points : List (Geom K)} {r : Raster} {cols : List (String × List Num)}
    (h : Read toF64 A points r cols) {b : Nat} (hb : b < r.nb) {n : Nat} {x y : K} (hn : points[n]? = some (.point x y))
    {i j : Nat} (hi : i < r.ny) (hj : j < r.nx) (hc : InCell A (x, y) i j) :
    entry cols b n = some (if r.mask (b, i, j) = true then .nan else toF64 (r.data (b, i, j))) := by
  obtain ⟨g, name, skip, axis, ha, rfl, hon, hex⟩ := h
  obtain ⟨v, hv, hr⟩ := entry_reads hdet ha hex (by rw [hon.nb]; exact hb) hn
  rw [hv]
  congr 1
  refine Extract.C66_unique hdet hr ?_
  by_cases hm : r.mask (b, i, j) = true
  · rw [if_pos hm]
    refine .inr ⟨fun i' j' _ _ hc' => ?_, rfl⟩
    have e := ((Grid.C20_unique_cell g.affine hdet x y i' j').2 hc').symm.trans ((Grid.C20_unique_cell g.affine hdet x y i j).2 hc)
    simp only [Prod.mk.injEq, Nat.cast_inj] at e
    rw [e.1, e.2, hon.mask, hm]
  · rw [if_neg hm]
    exact .inl ⟨i, j, by rw [hon.ny]; exact hi, by rw [hon.nx]; exact hj, hc, by rw [hon.mask]; simpa using hm, by rw [hon.data]⟩

/-- A point beside the cells reads NaN. -/
theorem outside {toF64 : Num → Num} {A : Grid.Affine K} (hdet : A.det ≠ 0) {points : List (Geom K)} {r : Raster} {cols : List (String × List Num)}
    (h : Read toF64 A points r cols) {b : Nat} (hb : b < r.nb) {n : Nat} {x y : K} (hn : points[n]? = some (.point x y))
    (hout : ¬ ∃ i j : Nat, i < r.ny ∧ j < r.nx ∧ InCell A (x, y) i j) : entry cols b n = some .nan := by
  obtain ⟨g, name, skip, axis, ha, rfl, hon, hex⟩ := h
  obtain ⟨v, hv, hr⟩ := entry_reads hdet ha hex (by rw [hon.nb]; exact hb) hn
  rw [hv]
  congr 1
  refine Extract.C66_unique hdet hr (.inr ⟨fun i j hi hj hc => ?_, rfl⟩)
  rw [hon.ny] at hi
  rw [hon.nx] at hj
  exact absurd ⟨i, j, hi, hj, hc⟩ hout

/-- **C126 (set_null).** Where the mask raster reads NaN or 0, the raster reads what it read before; where it reads another number, NaN. -/
theorem C126_set_null {np : NumPy} (hnp : BoolCast np) {toF64 : Num → Num} {A : Grid.Affine K} (hdet : A.det ≠ 0) {points : List (Geom K)}
    {r m o : Raster} (hm : MaskNeedsNull m) (hmb : 0 < m.nb) (hgood : GoodMask r m) (h : r.setNull np m = .ok o)
    (hkeep : ∀ c, m.mask c = false → toF64 (m.data c) = m.data c ∧ m.data c ≠ .nan) {cr cm co : List (String × List Num)}
    (hr : Read toF64 A points r cr) (hmr : Read toF64 A points m cm) (ho : Read toF64 A points o co)
    {b : Nat} (hb : b < r.nb) {n : Nat} {x y : K} (hn : points[n]? = some (.point x y)) :
    (entry cm (if m.nb = 1 then 0 else b) n = some .nan ∨ entry cm (if m.nb = 1 then 0 else b) n = some (.fin 0) →
      entry co b n = entry cr b n) ∧
    (∀ v, entry cm (if m.nb = 1 then 0 else b) n = some v → v ≠ .nan → v ≠ .fin 0 → entry co b n = some .nan) := by
  obtain ⟨o', h', -, hsh, -, hcell⟩ := (C15_set_null hnp r hm hmb).2 hgood
  rw [h] at h'
  cases h'
  simp only [Prod.mk.injEq] at hsh
  obtain ⟨g1, g2, g3, -⟩ := hgood
  have hbo : b < o.nb := by rw [hsh.1]; exact hb
  have hbm : (if m.nb = 1 then 0 else b) < m.nb := by split <;> omega
  by_cases hin : ∃ i j : Nat, i < r.ny ∧ j < r.nx ∧ InCell A (x, y) i j
  · obtain ⟨i, j, hi, hj, hc⟩ := hin
    have er := inside hdet hr hb hn hi hj hc
    have eo := inside hdet ho hbo hn (by rw [hsh.2.1]; exact hi) (by rw [hsh.2.2]; exact hj) hc
    have em := inside hdet hmr hbm hn (by rw [g2]; exact hi) (by rw [g3]; exact hj) hc
    have hmark : Marks m (b, i, j) ↔
        m.data (if m.nb = 1 then 0 else b, i, j) ≠ .fin 0 ∧ m.mask (if m.nb = 1 then 0 else b, i, j) = false := by
      unfold Marks
      split <;> rfl
    obtain ⟨c1, c2⟩ := hcell (b, i, j)
    rw [hmark] at c1
    rw [er, eo, em]
    cases hmm : m.mask (if m.nb = 1 then 0 else b, i, j) with
    | true =>
      have hno : o.mask (b, i, j) = r.mask (b, i, j) := by
        rw [Bool.eq_iff_iff, c1, hmm]
        simp
      refine ⟨fun _ => ?_, fun v hv h1 => ?_⟩
      · rw [hno]
        cases hrm : r.mask (b, i, j) with
        | true => simp
        | false => rw [c2 (by rw [hno, hrm])]
      · simp only [if_true, Option.some.injEq] at hv
        exact absurd hv.symm h1
    | false =>
      obtain ⟨k1, k2⟩ := hkeep _ hmm
      rw [k1]
      simp only [hmm, and_true] at c1
      refine ⟨fun h0 => ?_, fun v hv _ h2 => ?_⟩
      · have hd : m.data (if m.nb = 1 then 0 else b, i, j) = .fin 0 := by
          rcases h0 with h0 | h0
          · simp only [Bool.false_eq_true, if_false, Option.some.injEq] at h0
            exact absurd h0 k2
          · simpa using h0
        have hno : o.mask (b, i, j) = r.mask (b, i, j) := by
          rw [Bool.eq_iff_iff, c1]
          simp [hd]
        rw [hno]
        cases hrm : r.mask (b, i, j) with
        | true => simp
        | false => rw [c2 (by rw [hno, hrm])]
      · simp only [Bool.false_eq_true, if_false, Option.some.injEq] at hv
        rw [if_pos (c1.2 (.inr (by rw [hv]; exact h2)))]
  · have er := outside hdet hr hb hn hin
    have eo := outside hdet ho hbo hn (by rw [hsh.2.1, hsh.2.2]; exact hin)
    have em := outside hdet hmr hbm hn (by rw [g2, g3]; exact hin)
    rw [er, eo, em]
    exact ⟨fun _ => rfl, fun v hv h1 => absurd (Option.some.inj hv).symm h1⟩

/-- **C126 (astype).** A dtype that keeps the valid values (as doubles) changes nothing that is read. -/
theorem C126_astype {np : NumPy} (hnp : ExactCast np) {toF64 : Num → Num} {A : Grid.Affine K} (hdet : A.det ≠ 0) {points : List (Geom K)}
    {r o : Raster} {dt : DType} (hnull : NullsHold r) (h : r.astype np dt none = .ok o)
    (hkeep : ∀ c, r.mask c = false → toF64 (np.cast dt (r.data c)) = toF64 (r.data c)) {cr co : List (String × List Num)}
    (hr : Read toF64 A points r cr) (ho : Read toF64 A points o co)
    {b : Nat} (hb : b < r.nb) {n : Nat} {x y : K} (hn : points[n]? = some (.point x y)) : entry co b n = entry cr b n := by
  obtain ⟨o', h', -, hsh, hmask, hdata, -⟩ := C17_astype hnp r dt hnull
  rw [h] at h'
  cases h'
  simp only [Prod.mk.injEq] at hsh
  have hbo : b < o.nb := by rw [hsh.1]; exact hb
  by_cases hin : ∃ i j : Nat, i < r.ny ∧ j < r.nx ∧ InCell A (x, y) i j
  · obtain ⟨i, j, hi, hj, hc⟩ := hin
    rw [inside hdet hr hb hn hi hj hc, inside hdet ho hbo hn (by rw [hsh.2.1]; exact hi) (by rw [hsh.2.2]; exact hj) hc, hmask]
    cases hrm : r.mask (b, i, j) with
    | true => simp
    | false =>
      rw [hdata _ hrm]
      by_cases hd : dt = r.dtype
      · rw [if_pos hd]
      · rw [if_neg hd, hkeep _ hrm]
  · rw [outside hdet hr hb hn hin, outside hdet ho hbo hn (by rw [hsh.2.1, hsh.2.2]; exact hin)]

/-- **C126 (set_null_value).** A new null value turns what reads as it into NaN and leaves everything else (unless 64 bit integers become floats). -/
theorem C126_null_value {np : NumPy} (hnp : ExactCast np) (hnan : NanCast np) (hll : Lossless np) {toF64 : Num → Num} {A : Grid.Affine K}
    (hdet : A.det ≠ 0) {points : List (Geom K)} {r o : Raster} {v : NullArg} (h : r.setNullValue np (some v) = .ok o)
    (hbool : r.dtype.isBool = false) (hmask : MaskNeedsNull r) (hval : ∀ c, r.mask c = false → ValueOf r.dtype (r.data c))
    (hloss : ¬ Lossy r.dtype o.dtype) (hinj : ∀ c, r.mask c = false → toF64 (r.data c) = toF64 v.val → r.data c = v.val)
    {cr co : List (String × List Num)} (hr : Read toF64 A points r cr) (ho : Read toF64 A points o co)
    {b : Nat} (hb : b < r.nb) {n : Nat} {x y : K} (hn : points[n]? = some (.point x y)) :
    (entry cr b n = some (toF64 v.val) → entry co b n = some .nan) ∧
    (entry cr b n ≠ some (toF64 v.val) → entry co b n = entry cr b n) := by
  obtain ⟨-, -, hsh, hcell⟩ := C16_set_null_value hnp hnan hll h hbool hmask hval
  simp only [Prod.mk.injEq] at hsh
  have hbo : b < o.nb := by rw [hsh.1]; exact hb
  by_cases hin : ∃ i j : Nat, i < r.ny ∧ j < r.nx ∧ InCell A (x, y) i j
  · obtain ⟨i, j, hi, hj, hc⟩ := hin
    obtain ⟨c1, c2⟩ := (hcell (b, i, j)).2.2 hloss
    rw [inside hdet hr hb hn hi hj hc, inside hdet ho hbo hn (by rw [hsh.2.1]; exact hi) (by rw [hsh.2.2]; exact hj) hc]
    cases hrm : r.mask (b, i, j) with
    | true =>
      rw [if_pos (c1.2 (.inl hrm))]
      exact ⟨fun _ => rfl, fun _ => by simp⟩
    | false =>
      simp only [Bool.false_eq_true, if_false, Option.some.injEq]
      refine ⟨fun e => ?_, fun e => ?_⟩
      · rw [if_pos (c1.2 (.inr (hinj _ hrm e)))]
      · have hom : o.mask (b, i, j) = false := by
          rw [← Bool.not_eq_true, c1, hrm]
          rintro (h0 | h0)
          · cases h0
          · exact e (by rw [h0])
        rw [hom, c2 hom]
        simp
  · rw [outside hdet hr hb hn hin, outside hdet ho hbo hn (by rw [hsh.2.1, hsh.2.2]; exact hin)]
    exact ⟨fun _ => rfl, fun _ => rfl⟩

open Classical in
/-- **C126 (where).** Where the condition reads NaN, the result reads NaN; where it reads a number, the result reads what the raster chosen reads, if
the dtype of the result keeps the values and its null value is none of them. -/
theorem C126_where_partial {np : NumPy} {toF64 : Num → Num} {A : Grid.Affine K} (hdet : A.det ≠ 0) {points : List (Geom K)}
    {cond p q o : Raster} {out : DType} (hcond : MaskNeedsNull cond) (hp : MaskNeedsNull p) (hq : MaskNeedsNull q)
    (hints : ∀ c, ∃ k : Int, cond.data c = .fin k) (hnv : ∀ nv, whereNv np (.raster p) (.raster q) = some nv → np.cast out nv.val = nv.val)
    (h : whereRaster np cond (.raster p) (.raster q) out = .ok o)
    (hpsh : (p.nb, p.ny, p.nx) = (cond.nb, cond.ny, cond.nx)) (hqsh : (q.nb, q.ny, q.nx) = (cond.nb, cond.ny, cond.nx))
    (hfree : ∀ s ∈ [p, q], ∀ c, s.mask c = false → ∀ nv, o.nv = some nv → np.cast out (s.data c) ≠ nv.val)
    (hkeep : ∀ s ∈ [p, q], ∀ c, s.mask c = false → toF64 (np.cast out (s.data c)) = toF64 (s.data c))
    (hkc : ∀ c, toF64 (cond.data c) = cond.data c) {cc cp cq co : List (String × List Num)} (hc : Read toF64 A points cond cc)
    (hpr : Read toF64 A points p cp) (hqr : Read toF64 A points q cq) (ho : Read toF64 A points o co)
    {b : Nat} (hb : b < cond.nb) {n : Nat} {x y : K} (hn : points[n]? = some (.point x y)) :
    (entry cc b n = some .nan → entry co b n = some .nan) ∧
    (∀ k : Rat, entry cc b n = some (.fin k) →
      entry co b n = if (if cond.dtype.isInt then 0 < k else k ≠ 0) then entry cp b n else entry cq b n) := by
  simp only [Prod.mk.injEq] at hpsh hqsh
  obtain ⟨-, o1, o2, o3⟩ := Remap.C27_shape h
  have hbo : b < o.nb := by rw [o1]; exact hb
  have hbp : b < p.nb := by rw [hpsh.1]; exact hb
  have hbq : b < q.nb := by rw [hqsh.1]; exact hb
  by_cases hin : ∃ i j : Nat, i < cond.ny ∧ j < cond.nx ∧ InCell A (x, y) i j
  · obtain ⟨i, j, hi, hj, hcell⟩ := hin
    obtain ⟨w1, w2, -⟩ := Remap.C27_where_partial hcond (x := .raster p) (y := .raster q) hp hq hints hnv h (b, i, j)
    rw [inside hdet hc hb hn hi hj hcell, inside hdet ho hbo hn (by rw [o2]; exact hi) (by rw [o3]; exact hj) hcell,
      inside hdet hpr hbp hn (by rw [hpsh.2.1]; exact hi) (by rw [hpsh.2.2]; exact hj) hcell,
      inside hdet hqr hbq hn (by rw [hqsh.2.1]; exact hi) (by rw [hqsh.2.2]; exact hj) hcell, hkc]
    obtain ⟨k', hk'⟩ := hints (b, i, j)
    cases hcm : cond.mask (b, i, j) with
    | true =>
      rw [if_pos (w1.2 (.inl (.inl hcm)))]
      exact ⟨fun _ => rfl, fun k hk => by simp at hk⟩
    | false =>
      rw [hk']
      simp only [Bool.false_eq_true, if_false, Option.some.injEq, reduceCtorEq, false_implies, true_and]
      intro k hk
      have hkk : (k' : Rat) = k := by simpa using hk
      have hH : Remap.Spec.Holds cond (b, i, j) ↔ (if cond.dtype.isInt then 0 < k else k ≠ 0) := by
        unfold Remap.Spec.Holds
        rw [hk']
        split
        · constructor
          · rintro ⟨t, ht, e⟩
            rw [FVal.fin.injEq] at e
            rw [← hkk, e]
            exact ht
          · intro ht
            exact ⟨k, ht, by rw [hkk]⟩
        · rw [hkk]
          simp
      -- the raster chosen
      have key : ∀ s ∈ [p, q], selected cond (.raster p) (.raster q) (b, i, j) = .raster s →
          (if o.mask (b, i, j) = true then FVal.nan else toF64 (o.data (b, i, j))) =
            if s.mask (b, i, j) = true then FVal.nan else toF64 (s.data (b, i, j)) := by
        intro s hs hsel
        have hdoc : DocumentedNull cond (.raster p) (.raster q) (b, i, j) ↔ s.mask (b, i, j) = true := by
          unfold DocumentedNull
          rw [hsel, hcm]
          simp [NullAt]
        rw [hdoc, hsel] at w1 w2
        cases hsm : s.mask (b, i, j) with
        | true => rw [if_pos (w1.2 (.inl hsm))]; rfl
        | false =>
          have hom : o.mask (b, i, j) = false := by
            rw [← Bool.not_eq_true, w1, hsm]
            rintro (h0 | ⟨nv, v, h1, h2, h3⟩)
            · cases h0
            · have h2 : s.data (b, i, j) = v := h2
              exact hfree s hs _ hsm nv h1 (by rw [h2]; exact h3)
          obtain ⟨v, hv, hd⟩ := w2 (by rw [hsm]; simp)
          have hv : s.data (b, i, j) = v := hv
          rw [hom, hd, ← hv, hkeep s hs _ hsm]
      by_cases hh : Remap.Spec.Holds cond (b, i, j)
      · rw [if_pos (hH.1 hh), key p (by simp) (by unfold selected; rw [if_pos hh])]
      · rw [if_neg (fun hx => hh (hH.2 hx)), key q (by simp) (by unfold selected; rw [if_neg hh])]
  · rw [outside hdet hc hb hn hin, outside hdet ho hbo hn (by rw [o2, o3]; exact hin)]
    exact ⟨fun _ => rfl, fun k hk => by simp at hk⟩

/-- **C126 (reclassify).** Where the raster reads a key, the result reads its value, or NaN for `None`; where it reads another number, the same
number, or NaN if unmapped values become null; where it reads NaN, NaN. The null value of the result must not be among these values. -/
theorem C126_reclassify_partial {np : NumPy} {toF64 : Num → Num} {A : Grid.Affine K} (hdet : A.det ≠ 0) {points : List (Geom K)}
    {r o : Raster} {remapping after : Remapping} {newType : Option DType} {flag : Bool} {out : DType} (hmask : MaskNeedsNull r)
    (hout : reclassifyDtype r newType = some out) (hkey : ∀ kt ∈ remapping, np.cast (keyType remapping) kt.1.val = kt.1.val)
    (hnew : ∀ kt ∈ remapping, ∀ s, kt.2 = some s →
      np.cast (valueType (r.nv.getD (defaultNull out)) remapping) s.val = s.val ∧ np.cast out s.val = s.val)
    (hnull : np.cast out (r.nv.getD (defaultNull out)).val = (r.nv.getD (defaultNull out)).val)
    (hnull' : (∃ kt ∈ remapping, kt.2 = none) → np.cast (valueType (r.nv.getD (defaultNull out)) remapping)
      (r.nv.getD (defaultNull out)).val = (r.nv.getD (defaultNull out)).val)
    (hkeys : (remapping.map (·.1.val)).Nodup) (h : reclassify np r remapping newType flag = .ok (o, after))
    (hval : ∀ c, np.cast (keyType remapping) (r.data c) = r.data c ∧ np.cast out (r.data c) = r.data c)
    (hkeep : ∀ c, r.mask c = false → toF64 (r.data c) = r.data c)
    (hfree : ∀ nv, o.nv = some nv → (∀ kt ∈ remapping, ∀ s, kt.2 = some s → nv.val ≠ s.val) ∧ ∀ c, r.mask c = false → nv.val ≠ r.data c)
    {cr co : List (String × List Num)} (hr : Read toF64 A points r cr) (ho : Read toF64 A points o co)
    {b : Nat} (hb : b < r.nb) {n : Nat} {x y : K} (hn : points[n]? = some (.point x y)) :
    (entry cr b n = some .nan → entry co b n = some .nan) ∧
    (∀ v, v ≠ .nan → entry cr b n = some v →
      (∀ k t, (k, t) ∈ remapping → k.val = v →
        (t = none → entry co b n = some .nan) ∧ ∀ s, t = some s → entry co b n = some (toF64 s.val)) ∧
      ((∀ k t, (k, t) ∈ remapping → k.val ≠ v) →
        (flag = true → entry co b n = some .nan) ∧ (flag = false → entry co b n = some v))) := by
  obtain ⟨o1, o2, o3⟩ := Remap.C26_shape h
  have hbo : b < o.nb := by rw [o1]; exact hb
  by_cases hin : ∃ i j : Nat, i < r.ny ∧ j < r.nx ∧ InCell A (x, y) i j
  · obtain ⟨i, j, hi, hj, hcell⟩ := hin
    obtain ⟨-, -, c1, c2⟩ := Remap.C26_reclassify (c := (b, i, j)) hmask hout hkey hnew hnull hnull' hkeys h (hval _).1 (hval _).2
    rw [inside hdet hr hb hn hi hj hcell, inside hdet ho hbo hn (by rw [o2]; exact hi) (by rw [o3]; exact hj) hcell]
    cases hrm : r.mask (b, i, j) with
    | true =>
      rw [if_pos (c1 hrm)]
      exact ⟨fun _ => rfl, fun v hv e => absurd (by simpa using e.symm) hv⟩
    | false =>
      obtain ⟨d1, d2⟩ := c2 hrm
      rw [hkeep _ hrm]
      simp only [Bool.false_eq_true, if_false, Option.some.injEq]
      have hother : (∀ k t, (k, t) ∈ remapping → k.val.eq (r.data (b, i, j)) = false) → flag = false →
          (if o.mask (b, i, j) = true then FVal.nan else toF64 (o.data (b, i, j))) = r.data (b, i, j) := by
        intro hno hf
        obtain ⟨e1, e2⟩ := (d2 hno).2 hf
        have hom : ¬ o.mask (b, i, j) = true := by
          rw [e2]
          rintro ⟨nv, h1, h2⟩
          exact (hfree nv h1).2 _ hrm h2
        rw [if_neg hom, e1, hkeep _ hrm]
      refine ⟨fun e => ?_, fun v hv e => ⟨fun k t hk hkv => ⟨fun ht => ?_, fun s hs => ?_⟩, fun hno => ⟨fun hf => ?_, fun hf => ?_⟩⟩⟩
      · have hno : ∀ k t, (k, t) ∈ remapping → k.val.eq (r.data (b, i, j)) = false := by
          intro k t _
          rw [← Bool.not_eq_true, Num.eq_iff, e]
          rintro ⟨h1, h2⟩
          exact h2 h1
        cases hf : flag with
        | true => rw [if_pos ((d2 hno).1 hf)]
        | false => rw [hother hno hf, e]
      · have he : k.val.eq (r.data (b, i, j)) = true := (Num.eq_iff _ _).2 ⟨by rw [hkv, e], by rw [hkv]; exact hv⟩
        rw [if_pos ((d1 k t hk he).1 ht)]
      · have he : k.val.eq (r.data (b, i, j)) = true := (Num.eq_iff _ _).2 ⟨by rw [hkv, e], by rw [hkv]; exact hv⟩
        obtain ⟨e1, e2⟩ := (d1 k t hk he).2 s hs
        have hom : ¬ o.mask (b, i, j) = true := by
          rw [e2]
          rintro ⟨nv, h1, h2⟩
          exact (hfree nv h1).1 _ hk s hs h2
        rw [if_neg hom, e1]
      · refine if_pos ((d2 fun k t hk => ?_).1 hf)
        rw [← Bool.not_eq_true, Num.eq_iff, e]
        exact fun h0 => hno k t hk h0.1
      · rw [← e]
        refine hother (fun k t hk => ?_) hf
        rw [← Bool.not_eq_true, Num.eq_iff, e]
        exact fun h0 => hno k t hk h0.1
  · rw [outside hdet hr hb hn hin, outside hdet ho hbo hn (by rw [o2, o3]; exact hin)]
    exact ⟨fun _ => rfl, fun v hv e => absurd (Option.some.inj e).symm hv⟩

/-! ## Concrete cases -/

open Verif.Trips.Samples (onCells onCells_on exPoints)

/-- Reading the raster on cells of size 1 at `exPoints`. -/
theorem read_onCells {r : Raster} {cols : List (String × List Num)} (h : extractPoints id (onCells r) exPoints "v" true 1 = .ok (.wide cols)) :
    Read id (⟨1, 0, 1 / 2, 0, -1, 3 / 2⟩ : Grid.Affine ℚ) exPoints r cols :=
  ⟨onCells r, "v", true, 1, by decide, rfl, onCells_on r, h⟩

/-- `set_null` of two cells, the first of them null, with a mask raster that marks the second. -/
example : ∃ o, twoCells.setNull (boolNumPy false) markSecond = .ok o ∧ BoolCast (boolNumPy false) ∧ MaskNeedsNull markSecond ∧
    GoodMask twoCells markSecond ∧ (∀ c, markSecond.mask c = false → markSecond.data c ≠ .nan) ∧
    Read id (⟨1, 0, 1 / 2, 0, -1, 3 / 2⟩ : Grid.Affine ℚ) exPoints twoCells [("v_1", [.nan, .fin 7, .nan])] ∧
    Read id (⟨1, 0, 1 / 2, 0, -1, 3 / 2⟩ : Grid.Affine ℚ) exPoints markSecond [("v_1", [.fin 0, .fin 4, .nan])] ∧
    Read id (⟨1, 0, 1 / 2, 0, -1, 3 / 2⟩ : Grid.Affine ℚ) exPoints o [("v_1", [.nan, .nan, .nan])] := by
  refine ⟨_, rfl, fun x => rfl, fun c h => by simp [markSecond] at h, ⟨.inl rfl, rfl, rfl, .inr (.inr rfl)⟩, fun c _ => ?_,
    read_onCells (by decide +kernel), read_onCells (by decide +kernel), read_onCells (by decide +kernel)⟩
  unfold markSecond
  simp only
  split <;> simp

/-- `astype` float64 and the new null value 7. -/
example : ∃ o o', twoCells.astype (idNumPy false) f64 none = .ok o ∧ twoCells.setNullValue (idNumPy false) (some (.int 7)) = .ok o' ∧
    NullsHold twoCells ∧ MaskNeedsNull twoCells ∧ twoCells.dtype.isBool = false ∧ ¬ Lossy twoCells.dtype o'.dtype ∧
    (∀ c, ValueOf twoCells.dtype (twoCells.data c)) ∧
    Read id (⟨1, 0, 1 / 2, 0, -1, 3 / 2⟩ : Grid.Affine ℚ) exPoints o [("v_1", [.nan, .fin 7, .nan])] ∧
    Read id (⟨1, 0, 1 / 2, 0, -1, 3 / 2⟩ : Grid.Affine ℚ) exPoints o' [("v_1", [.nan, .nan, .nan])] := by
  have hn : NullsHold twoCells := by
    intro c hc
    have : c = (0, 0, 0) := by simpa [twoCells] using hc
    subst this
    exact ⟨_, rfl, rfl⟩
  refine ⟨_, _, rfl, rfl, hn, fun c hc => ?_, rfl, ?_, fun c => .inl ?_, read_onCells (by decide +kernel), read_onCells (by decide +kernel)⟩
  · obtain ⟨s, hs, -⟩ := hn c hc
    rw [hs]
    simp
  · rintro ⟨h | h, -⟩ <;> cases h
  · unfold twoCells
    simp only
    split
    · exact ⟨3, rfl, _, _, rfl, by norm_num, by norm_num⟩
    · exact ⟨7, rfl, _, _, rfl, by norm_num, by norm_num⟩

/-- `where` with a condition that is null in the second cell. -/
example : ∃ o, whereRaster (idNumPy false) Remap.condition (.raster twoCells) (.raster markSecond) i16 = .ok o ∧ MaskNeedsNull Remap.condition ∧
    (∀ c, ∃ k : Int, Remap.condition.data c = .fin k) ∧
    (∀ s ∈ [twoCells, markSecond], ∀ c, s.mask c = false → ∀ nv, o.nv = some nv → s.data c ≠ nv.val) ∧
    Read id (⟨1, 0, 1 / 2, 0, -1, 3 / 2⟩ : Grid.Affine ℚ) exPoints Remap.condition [("v_1", [.fin 1, .nan, .nan])] ∧
    Read id (⟨1, 0, 1 / 2, 0, -1, 3 / 2⟩ : Grid.Affine ℚ) exPoints o [("v_1", [.nan, .nan, .nan])] := by
  refine ⟨_, rfl, fun c _ => by simp [Remap.condition], fun c => ⟨1, rfl⟩, ?_, read_onCells (by decide +kernel), read_onCells (by decide +kernel)⟩
  intro s hs c _ nv hnv
  have hnv : some (⟨i16, .fin (-32768)⟩ : Scalar) = some nv := hnv
  cases hnv
  simp only [List.mem_cons, List.not_mem_nil, or_false] at hs
  rcases hs with rfl | rfl
  · unfold twoCells
    simp only
    split <;> norm_num
  · unfold markSecond
    simp only
    split <;> norm_num

/-- `reclassify` with `{7: 4, 2: None}`. -/
example : ∃ o after, reclassify (idNumPy false) twoCells [(.int 7, some ⟨i64, .fin 4⟩), (.int 2, none)] none false = .ok (o, after) ∧
    reclassifyDtype twoCells none = some i16 ∧ (∀ nv, o.nv = some nv → nv.val ≠ .fin 4 ∧ ∀ c, twoCells.mask c = false → nv.val ≠ twoCells.data c) ∧
    Read id (⟨1, 0, 1 / 2, 0, -1, 3 / 2⟩ : Grid.Affine ℚ) exPoints twoCells [("v_1", [.nan, .fin 7, .nan])] ∧
    Read id (⟨1, 0, 1 / 2, 0, -1, 3 / 2⟩ : Grid.Affine ℚ) exPoints o [("v_1", [.nan, .fin 4, .nan])] := by
  refine ⟨_, _, rfl, rfl, ?_, read_onCells (by decide +kernel), read_onCells (by decide +kernel)⟩
  intro nv hnv
  have hnv : some (⟨i16, .fin 3⟩ : Scalar) = some nv := hnv
  cases hnv
  refine ⟨by norm_num, fun c hc => ?_⟩
  have : c ≠ (0, 0, 0) := by simpa [twoCells] using hc
  simp [twoCells, this]

end Verif.Trips.Probes
