import Verif.MosaicRaster.Model
import Verif.Mosaic.Props
import Verif.Warp.Props
import Verif.Nulls.RasterProps

set_option linter.unusedSectionVars false

/-!
# Properties of `mosaic` for rasters
-/

namespace Verif.MosaicRaster

open Verif Verif.Nulls DType
open Verif.Warp (Frame Placed Engine)
open Verif.Mosaic (Method Ops)
open Verif.Mosaic.Spec (FirstValid LastValid ExtremeValid fle fge counted)
open Verif.Warp.Spec (valid Upright Monotone)
open Verif.Nulls.Spec (NullsHold)

variable {K : Type} [DecidableEq K]

namespace Spec

/-- The dtype of the result: the one asked for, or the common one of the rasters. -/
def OutType (rs : List (Placed K)) (asked : Option DType) (dt : DType) : Prop :=
  asked = some dt ∨ (asked = none ∧ reducePromote (rs.map (·.raster.dtype)) = some dt)

/-- The null value of the result: the one asked for, or that of the first raster with one, or the default of the dtype. -/
def OutNull (rs : List (Placed K)) (dt : DType) (asked : NullArg) (s : Scalar) : Prop :=
  asked = .number s ∨
  (asked = .absent ∧ ((∃ pre p post, rs = pre ++ p :: post ∧ (∀ q ∈ pre, q.raster.nv = none) ∧ p.raster.nv = some s) ∨
    ((∀ q ∈ rs, q.raster.nv = none) ∧ s = defaultNull dt)))

/-- The grid of the result before it is oriented: the one asked for, or the union of the grids. -/
def OutGrid (t : Tools K) (rs : List (Placed K)) (crs : Option K) (asked : GridArg K) (dst : Frame K) : Prop :=
  asked = .geobox dst ∨ (∃ p, asked = .raster p ∧ p.frame = dst) ∨
  (asked = .absent ∧ t.union (rs.map (·.frame)) crs = .ok dst)

/-- The name of a method. -/
def name : Method → String
  | .first => "first"
  | .last => "last"
  | .min => "min"
  | .max => "max"
  | .sum => "sum"

/-- The raster on the grid: itself if it is on it, or reprojected (C79). -/
def On (t : Tools K) (dst : Frame K) (resampling : String) (p q : Placed K) : Prop :=
  (t.same p.frame dst = true ∧ q = p) ∨
  (t.same p.frame dst = false ∧ Warp.reproject t.engine p (.geobox dst) resampling .absent = .ok q)

/-- A value of a raster in the dtype of the result. -/
def converted (np : NumPy) (dt : DType) (r : Raster) (v : Num) : Num := if dt = r.dtype then v else np.cast dt v

/-- The cells of a raster at a pixel, in the dtype of the result; `none` for a null cell. -/
def entries (np : NumPy) (dt : DType) (i j : Nat) (r : Raster) : List (Option Num) :=
  (List.range r.nb).map fun k => (valid r k i j).map (converted np dt r)

/-- The cells that compete for a cell of band `b`: those of the rasters that have the band. -/
def layers (np : NumPy) (dt : DType) (qs : List (Placed K)) (b i j : Nat) : List (Option Num) :=
  qs.filterMap fun q => (entries np dt i j q.raster)[b]?

/-- The choice of the method. -/
def Chosen : Method → List (Option Num) → Option Num → Prop
  | .first, l, r => FirstValid l r
  | .last, l, r => LastValid l r
  | .min, l, r => ExtremeValid fle l r
  | .max, l, r => ExtremeValid fge l r
  | .sum, _, _ => True

/-- The null value can be kept with the dtype, see C43. -/
def Kept (np : NumPy) (s : Scalar) (dt : DType) : Prop :=
  (reconcile np (some s) dt).2 = false ∧ (reconcile np (some s) dt).1.map (·.val) = some s.val

/-- The null value of a raster is the one of the result, or not close to it. -/
def Apart (np : NumPy) (s : Scalar) (dt : DType) (r : Raster) : Prop :=
  ∀ old, r.nv = some old → old.val = s.val ∨ (allcloseNum s.val old.val = false ∧ Kept np s dt)

/-- The values of a raster are values of its dtype. -/
def Typed (np : NumPy) (r : Raster) : Prop := ∀ c, np.cast r.dtype (r.data c) = r.data c

end Spec

open Spec

/-! ### Arguments -/

theorem methodOf_name (m : Method) : methodOf (name m) = some m := by cases m <;> rfl

theorem methodOf_iff (x : String) (m : Method) : methodOf x = some m ↔ x = name m := by
  constructor
  · intro h
    unfold methodOf at h
    repeat' split at h
    all_goals first | (cases h; assumption) | cases h
  · rintro rfl
    exact methodOf_name m

theorem dtypeOf_iff (rs : List (Placed K)) (asked : Option DType) (dt : DType) :
    dtypeOf rs asked = .ok dt ↔ OutType rs asked dt := by
  cases asked with
  | some d => simp [dtypeOf, OutType]
  | none =>
    simp only [dtypeOf, OutType]
    cases h : reducePromote (rs.map (·.raster.dtype)) <;> simp

theorem first_null (rs : List (Placed K)) (d : Scalar) :
    ((∃ pre p post, rs = pre ++ p :: post ∧ (∀ q ∈ pre, q.raster.nv = none) ∧
        p.raster.nv = some ((rs.filterMap (·.raster.nv)).head?.getD d)) ∨
      ((∀ q ∈ rs, q.raster.nv = none) ∧ (rs.filterMap (·.raster.nv)).head?.getD d = d)) := by
  induction rs with
  | nil => exact Or.inr ⟨by simp, rfl⟩
  | cons p ps ih =>
    cases h : p.raster.nv with
    | some s =>
      left
      refine ⟨[], p, ps, rfl, by simp, ?_⟩
      rw [List.filterMap_cons_some (f := fun x : Placed K => x.raster.nv) h]
      exact h
    | none =>
      rw [List.filterMap_cons_none (f := fun x : Placed K => x.raster.nv) h]
      rcases ih with ⟨pre, q, post, e, h1, h2⟩ | ⟨h1, h2⟩
      · left
        refine ⟨p :: pre, q, post, by rw [e]; rfl, ?_, h2⟩
        intro x hx
        rcases List.mem_cons.mp hx with rfl | hx
        · exact h
        · exact h1 x hx
      · right
        refine ⟨?_, h2⟩
        intro x hx
        rcases List.mem_cons.mp hx with rfl | hx
        · exact h
        · exact h1 x hx

theorem nullOf_sound {rs : List (Placed K)} {dt : DType} {asked : NullArg} {s : Scalar}
    (h : nullOf rs dt asked = .ok s) : OutNull rs dt asked s := by
  cases asked with
  | other => cases h
  | number x => left; cases h; rfl
  | absent =>
    right
    simp only [nullOf, Except.ok.injEq] at h
    subst h
    refine ⟨rfl, ?_⟩
    rcases first_null rs (defaultNull dt) with h | ⟨h1, h2⟩
    · exact Or.inl h
    · exact Or.inr ⟨h1, h2⟩

theorem nullOf_complete {rs : List (Placed K)} {dt : DType} {asked : NullArg} {s : Scalar}
    (h : OutNull rs dt asked s) : nullOf rs dt asked = .ok s := by
  rcases h with rfl | ⟨rfl, ⟨pre, p, post, rfl, h1, h2⟩ | ⟨h1, rfl⟩⟩
  · rfl
  · simp only [nullOf, List.filterMap_append, List.filterMap_cons_some (f := fun x : Placed K => x.raster.nv) h2]
    have : pre.filterMap (·.raster.nv) = [] := List.filterMap_eq_nil_iff.mpr h1
    rw [this]
    rfl
  · have : rs.filterMap (·.raster.nv) = [] := List.filterMap_eq_nil_iff.mpr h1
    simp [nullOf, this]

theorem gridOf_iff (t : Tools K) (rs : List (Placed K)) (crs : Option K) (asked : GridArg K) (dst : Frame K) :
    gridOf t rs crs asked = .ok dst ↔ OutGrid t rs crs asked dst := by
  cases asked <;> simp [gridOf, OutGrid]

/-- **C88.** What is raised: a ValueError without rasters, for an unknown method and for an unknown resampling method; a TypeError
for a null value that is not a number, and for a grid that is none. -/
theorem C88_rejected (t : Tools K) (rs : List (Placed K)) (a : Args K) :
    (rs = [] → mosaic t rs a = .error .value) ∧
    ((∀ m, a.method ≠ name m) → mosaic t rs a = .error .value) ∧
    (∀ x, a.resampling = some x → x ≠ "" → x ∉ t.engine.methods → mosaic t rs a = .error .value) ∧
    (∀ m dt, rs ≠ [] → a.method = name m → resamplingOf a.resampling ∈ t.engine.methods → OutType rs a.dtype dt →
      (a.null = .other → mosaic t rs a = .error .type) ∧
      (∀ s, OutNull rs dt a.null s → a.grid = .other → mosaic t rs a = .error .type)) := by
  refine ⟨?_, ?_, ?_, ?_⟩
  · rintro rfl
    rfl
  · intro h
    simp only [mosaic]
    split
    · rfl
    · cases hm : methodOf a.method with
      | none => rfl
      | some m => exact absurd ((methodOf_iff _ _).mp hm) (h m)
  · intro x hx hne hnot
    simp only [mosaic]
    split
    · rfl
    · cases hm : methodOf a.method with
      | none => rfl
      | some m =>
        have : resamplingOf a.resampling = x := by
          rw [hx]
          simp only [resamplingOf]
          rw [if_neg hne]
        simp only [this]
        rw [if_pos hnot]
  · intro m dt hne hm hr hd
    have hne' : rs.isEmpty = false := by
      cases rs with
      | nil => exact absurd rfl hne
      | cons _ _ => rfl
    have hstart : mosaic t rs a = resolve t rs a m := by
      simp only [mosaic, hne', Bool.false_eq_true, if_false, (methodOf_iff _ _).mpr hm]
      rw [if_neg (not_not.mpr hr)]
    refine ⟨?_, ?_⟩
    · intro hn
      rw [hstart]
      simp only [resolve, (dtypeOf_iff _ _ _).mpr hd, hn, nullOf]
    · intro s hs hg
      rw [hstart]
      simp only [resolve, (dtypeOf_iff _ _ _).mpr hd, nullOf_complete hs, hg, gridOf]

/-- **C88, the default**: without a method of resampling, or with an empty name, mosaic does as with 'nearest'. -/
theorem C88_default_resampling (t : Tools K) (rs : List (Placed K)) (a : Args K) :
    mosaic t rs { a with resampling := none } = mosaic t rs { a with resampling := some "nearest" } ∧
    mosaic t rs { a with resampling := some "" } = mosaic t rs { a with resampling := some "nearest" } := by
  have e1 : resamplingOf none = resamplingOf (some "nearest") := rfl
  have e2 : resamplingOf (some "") = resamplingOf (some "nearest") := rfl
  constructor
  · simp only [mosaic, resolve, e1]
  · simp only [mosaic, resolve, e2]

/-- With arguments that are accepted the work begins. -/
theorem mosaic_start (t : Tools K) {rs : List (Placed K)} {a : Args K} {m : Method} {dt : DType} {s : Scalar} {dst : Frame K}
    (hne : rs ≠ []) (hm : a.method = name m) (hr : resamplingOf a.resampling ∈ t.engine.methods)
    (hd : OutType rs a.dtype dt) (hs : OutNull rs dt a.null s) (hg : OutGrid t rs a.crs a.grid dst) :
    mosaic t rs a = assemble t rs m (resamplingOf a.resampling) dt s dst := by
  have hne' : rs.isEmpty = false := by
    cases rs with
    | nil => exact absurd rfl hne
    | cons _ _ => rfl
  simp only [mosaic, hne', Bool.false_eq_true, if_false, (methodOf_iff _ _).mpr hm]
  rw [if_neg (not_not.mpr hr)]
  simp only [resolve, (dtypeOf_iff _ _ _).mpr hd, nullOf_complete hs, (gridOf_iff _ _ _ _ _).mpr hg]

/-! ### Sources -/

theorem moved_eq {t : Tools K} {dst : Frame K} {resampling : String} {p q : Placed K} (h : On t dst resampling p q) :
    moved t dst resampling p = .ok q := by
  rcases h with ⟨h, rfl⟩ | ⟨h, h'⟩
  · simp [moved, h]
  · simp [moved, h, h']

theorem allclose_refl (v : Num) : allcloseNum v v = true := by
  cases v with
  | fin q =>
    simp only [allcloseNum, allclose, sub_self, abs_zero, decide_eq_true_eq]
    have : (0 : Rat) ≤ |q| := abs_nonneg _
    positivity
  | nan => rfl
  | posInf => rfl
  | negInf => rfl

/-- What `_mosaic` gets of a source. -/
theorem place_data {t : Tools K} {dst : Frame K} {resampling : String} {dt : DType} {s : Scalar} {p q : Placed K}
    (hon : On t dst resampling p q) (hh : NullsHold q.raster) (ht : Typed t.np q.raster) (hc : t.np.cast dt s.val = s.val)
    (ha : Apart t.np s dt q.raster) :
    ∃ r, place t dst resampling dt s p = .ok r ∧ r.nb = q.raster.nb ∧
      ∀ k i j, r.data (k, i, j) = ((valid q.raster k i j).map (converted t.np dt q.raster)).getD s.val := by
  simp only [place, moved_eq hon]
  have hcast : ∀ c, t.np.cast dt (q.raster.data c) = converted t.np dt q.raster (q.raster.data c) := by
    intro c
    simp only [converted]
    split
    · next h => rw [h]; exact ht c
    · rfl
  have hnull : ∀ k i j, q.raster.mask (k, i, j) = true → valid q.raster k i j = none := by
    intro k i j h
    simp [valid, h]
  have hval : ∀ k i j, q.raster.mask (k, i, j) = false → valid q.raster k i j = some (q.raster.data (k, i, j)) := by
    intro k i j h
    simp [valid, h]
  unfold Raster.astype
  by_cases h0 : dt = q.raster.dtype ∧ ((some s).isNone = true ∨ nullValuesEqual q.raster.nv (some s) = true)
  · rw [if_pos h0]
    refine ⟨_, rfl, rfl, ?_⟩
    intro k i j
    cases hm : q.raster.mask (k, i, j) with
    | true =>
      obtain ⟨old, h1, h2⟩ := hh _ hm
      have h3 : nullValuesEqual q.raster.nv (some s) = true := by simpa using h0.2
      rw [h1] at h3
      have h4 := (Num.nanEqual_iff _ _).mp h3
      rw [hnull k i j hm, h2, h4]
      rfl
    | false =>
      rw [hval k i j hm]
      simp [converted, h0.1]
  · rw [if_neg h0]
    cases hnv : q.raster.nv with
    | none =>
      refine ⟨_, rfl, rfl, ?_⟩
      intro k i j
      cases hm : q.raster.mask (k, i, j) with
      | true =>
        obtain ⟨old, h1, _⟩ := hh _ hm
        rw [hnv] at h1
        cases h1
      | false =>
        rw [hval k i j hm]
        exact hcast _
    | some old =>
      rcases ha old hnv with he | ⟨hf, hk1, hk2⟩
      · have : allcloseNum s.val old.val = true := by rw [he]; exact allclose_refl _
        simp only [this, if_true]
        refine ⟨_, rfl, rfl, ?_⟩
        intro k i j
        cases hm : q.raster.mask (k, i, j) with
        | true =>
          obtain ⟨old', h1, h2⟩ := hh _ hm
          rw [hnv] at h1
          cases h1
          rw [hnull k i j hm]
          simp only [h2, he, hc]
          rfl
        | false =>
          rw [hval k i j hm]
          exact hcast _
      · simp only [hf, hk1, Bool.false_eq_true, if_false]
        refine ⟨_, rfl, rfl, ?_⟩
        intro k i j
        cases hm : q.raster.mask (k, i, j) with
        | true =>
          rw [hnull k i j hm]
          simp only [hm, if_true]
          cases h : (reconcile t.np (some s) dt).1 with
          | none => rw [h] at hk2; cases hk2
          | some x =>
            rw [h] at hk2
            exact Option.some.inj hk2
        | false =>
          rw [hval k i j hm]
          simp only [hm, Bool.false_eq_true, if_false]
          exact hcast _

theorem column_eq {t : Tools K} {dt : DType} {s : Scalar} {q r : Raster} (hnb : r.nb = q.nb)
    (hd : ∀ k i j, r.data (k, i, j) = ((valid q k i j).map (converted t.np dt q)).getD s.val) (i j : Nat) :
    column i j r = (entries t.np dt i j q).map (Mosaic.encode (opsOf t dt s.val)) := by
  simp only [column, entries, hnb, List.map_map]
  apply List.map_congr_left
  intro k _
  rw [hd, Function.comp_apply]
  cases (valid q k i j).map (converted t.np dt q) <;> rfl

theorem placeAll_data {t : Tools K} {dst : Frame K} {resampling : String} {dt : DType} {s : Scalar} {rs qs : List (Placed K)}
    (hon : List.Forall₂ (On t dst resampling) rs qs) (hh : ∀ q ∈ qs, NullsHold q.raster) (ht : ∀ q ∈ qs, Typed t.np q.raster)
    (hc : t.np.cast dt s.val = s.val) (ha : ∀ q ∈ qs, Apart t.np s dt q.raster) :
    ∃ xs, placeAll t dst resampling dt s rs = .ok xs ∧ xs.map (·.nb) = qs.map (·.raster.nb) ∧
      ∀ i j, xs.map (column i j) = (qs.map fun q => entries t.np dt i j q.raster).map
        (List.map (Mosaic.encode (opsOf t dt s.val))) := by
  induction hon with
  | nil => exact ⟨[], rfl, rfl, fun _ _ => rfl⟩
  | @cons p q ps qs h _ ih =>
    obtain ⟨r, h1, h2, h3⟩ := place_data h (hh q (by simp)) (ht q (by simp)) hc (ha q (by simp))
    obtain ⟨xs, e1, e2, e3⟩ := ih (fun x hx => hh x (by simp [hx])) (fun x hx => ht x (by simp [hx]))
      (fun x hx => ha x (by simp [hx]))
    refine ⟨r :: xs, by simp only [placeAll, h1, e1], by simp [h2, e2], ?_⟩
    intro i j
    simp only [List.map_cons, column_eq h2 h3 i j]
    rw [e3 i j]

/-! ### Cells -/

theorem lawful_ops (t : Tools K) (dt : DType) (v : Num) : Mosaic.Lawful (opsOf t dt v) := by
  intro x
  exact maskOf_iff _ _

theorem limits_isFloat {dt : DType} (h : dt.isFloat = true) : dt.limits = none := by
  cases dt <;> first | rfl | cases h

theorem filler_min {dt : DType} {lo hi : Int} (h : dt.limits = some (lo, hi)) :
    Mosaic.Filler (Mosaic.nanmin2 : Num → Num → Num) (highest dt) (fun v => ∃ n : Int, v = .fin n ∧ dt.Holds n) := by
  have hh : highest dt = .fin hi := by simp [highest, h]
  have hle : ∀ n : Int, dt.Holds n → (n : Rat) ≤ hi := by
    rintro n ⟨lo', hi', e, _, h2⟩
    rw [h] at e
    cases e
    exact_mod_cast h2
  rw [hh]
  refine ⟨Mosaic.nanmin2_assoc, ?_, ?_, ?_, ?_⟩
  · rintro _ _ ⟨a, rfl, ha⟩ ⟨b, rfl, hb⟩
    simp only [Mosaic.nanmin2]
    split
    · exact ⟨a, rfl, ha⟩
    · exact ⟨b, rfl, hb⟩
  · simp [Mosaic.nanmin2]
  · rintro _ ⟨a, rfl, ha⟩
    have := hle a ha
    simp only [Mosaic.nanmin2]
    split
    · congr 1; linarith
    · rfl
  · rintro _ ⟨a, rfl, ha⟩
    simp only [Mosaic.nanmin2]
    rw [if_pos (hle a ha)]

theorem filler_max {dt : DType} {lo hi : Int} (h : dt.limits = some (lo, hi)) :
    Mosaic.Filler (Mosaic.nanmax2 : Num → Num → Num) (lowest dt) (fun v => ∃ n : Int, v = .fin n ∧ dt.Holds n) := by
  have hh : lowest dt = .fin lo := by simp [lowest, h]
  have hle : ∀ n : Int, dt.Holds n → (lo : Rat) ≤ n := by
    rintro n ⟨lo', hi', e, h2, _⟩
    rw [h] at e
    cases e
    exact_mod_cast h2
  rw [hh]
  refine ⟨Mosaic.nanmax2_assoc, ?_, ?_, ?_, ?_⟩
  · rintro _ _ ⟨a, rfl, ha⟩ ⟨b, rfl, hb⟩
    simp only [Mosaic.nanmax2]
    split
    · exact ⟨b, rfl, hb⟩
    · exact ⟨a, rfl, ha⟩
  · simp [Mosaic.nanmax2]
  · rintro _ ⟨a, rfl, ha⟩
    simp only [Mosaic.nanmax2]
    rw [if_pos (hle a ha)]
  · rintro _ ⟨a, rfl, ha⟩
    have := hle a ha
    simp only [Mosaic.nanmax2]
    split
    · congr 1; linarith
    · rfl

theorem fle_refl (a : Num) : fle a a := by cases a <;> simp [fle]
theorem fge_refl (a : Num) : fge a a := by cases a <;> simp [fge]

theorem fle_trans (a b c : Num) (h1 : fle a b) (h2 : fle b c) : fle a c := by
  cases a <;> cases b <;> cases c <;> simp_all only [fle]
  exact le_trans h1 h2

theorem fge_trans (a b c : Num) (h1 : fge a b) (h2 : fge b c) : fge a c := by
  cases a <;> cases b <;> cases c <;> simp_all only [fge]
  exact le_trans h2 h1

theorem min_left (a b : Num) : fle (Mosaic.nanmin2 a b) a := by
  cases a <;> cases b <;> simp [Mosaic.nanmin2, fle]
  split <;> order

theorem min_right (a b : Num) : fle (Mosaic.nanmin2 a b) b := by
  cases a <;> cases b <;> simp [Mosaic.nanmin2, fle]
  split <;> order

theorem max_left (a b : Num) : fge (Mosaic.nanmax2 a b) a := by
  cases a <;> cases b <;> simp [Mosaic.nanmax2, fge]
  split <;> order

theorem max_right (a b : Num) : fge (Mosaic.nanmax2 a b) b := by
  cases a <;> cases b <;> simp [Mosaic.nanmax2, fge]
  split <;> order

/-- The choice at a cell. -/
theorem run_chosen (t : Tools K) {dt : DType} {v : Num} {m : Method} (hm : m ≠ .sum) {rasters : List (List (Option Num))}
    (hD : dt.isFloat = false → ∀ r ∈ rasters, ∀ x, some x ∈ r → ∃ n : Int, x = .fin n ∧ dt.Holds n) {b : Nat}
    (hb : b < (rasters.map List.length).foldl Nat.max 0) :
    ∃ out, (Mosaic.run (opsOf t dt v) m rasters)[b]? = some (some out) ∧
      Chosen m ((rasters.filterMap (·[b]?)).map (counted v)) (if maskOf (some v) out then none else some out) := by
  have L := lawful_ops t dt v
  have hlen := Mosaic.normalized_lengths (opsOf t dt v) rasters
  have hcl := Mosaic.normalized_noClash (opsOf t dt v) rasters
  have hb' : b < ((Mosaic.normalized (opsOf t dt v) rasters).map List.length).foldl Nat.max 0 := by rw [hlen]; exact hb
  cases m with
  | first => exact (Mosaic.C10_first L rasters).2 b hb
  | last => exact (Mosaic.C10_last L rasters).2 b hb
  | sum => exact absurd rfl hm
  | min =>
    rw [← Mosaic.run_normalized]
    have e : (rasters.filterMap (·[b]?)).map (counted v) = Mosaic.Spec.inputs (Mosaic.normalized (opsOf t dt v) rasters) b :=
      (Mosaic.inputs_normalized (opsOf t dt v) rasters b).symm
    rw [e]
    cases hl : dt.limits with
    | none =>
      have hn : highest dt = .nan := by simp [highest, hl]
      refine Mosaic.extreme_main L (f := Mosaic.nanmin2) (e := .nan) (D := fun _ => True) (le := fle) ?_ ?_ fle_refl fle_trans
        Mosaic.nanmin2_sel min_left min_right hcl (fun _ _ _ _ => trivial) hb'
      · exact Mosaic.filler_float_min (K := Rat) v
      · intro xs
        simp only [Mosaic.paint, Mosaic.paintFill, opsOf, hn]
    | some lh =>
      obtain ⟨lo, hi⟩ := lh
      have hf : dt.isFloat = false := by
        cases h : dt.isFloat with
        | false => rfl
        | true => rw [limits_isFloat h] at hl; cases hl
      exact Mosaic.extreme_main L (f := Mosaic.nanmin2) (le := fle) (filler_min hl) (fun _ => rfl) fle_refl fle_trans
        Mosaic.nanmin2_sel min_left min_right hcl (Mosaic.normalized_mem (hD hf)) hb'
  | max =>
    rw [← Mosaic.run_normalized]
    have e : (rasters.filterMap (·[b]?)).map (counted v) = Mosaic.Spec.inputs (Mosaic.normalized (opsOf t dt v) rasters) b :=
      (Mosaic.inputs_normalized (opsOf t dt v) rasters b).symm
    rw [e]
    cases hl : dt.limits with
    | none =>
      have hn : lowest dt = .nan := by simp [lowest, hl]
      refine Mosaic.extreme_main L (f := Mosaic.nanmax2) (e := .nan) (D := fun _ => True) (le := fge) ?_ ?_ fge_refl fge_trans
        Mosaic.nanmax2_sel max_left max_right hcl (fun _ _ _ _ => trivial) hb'
      · exact Mosaic.filler_float_max (K := Rat) v
      · intro xs
        simp only [Mosaic.paint, Mosaic.paintFill, opsOf, hn]
    | some lh =>
      obtain ⟨lo, hi⟩ := lh
      have hf : dt.isFloat = false := by
        cases h : dt.isFloat with
        | false => rfl
        | true => rw [limits_isFloat h] at hl; cases hl
      exact Mosaic.extreme_main L (f := Mosaic.nanmax2) (le := fge) (filler_max hl) (fun _ => rfl) fge_refl fge_trans
        Mosaic.nanmax2_sel max_left max_right hcl (Mosaic.normalized_mem (hD hf)) hb'

theorem entries_length (np : NumPy) (dt : DType) (i j : Nat) (r : Raster) : (entries np dt i j r).length = r.nb := by
  simp [entries]

theorem upright_spec {dst : Frame K} (hy : Monotone dst.ys) (hx : Monotone dst.xs) : Upright dst (upright dst) := by
  refine ⟨rfl, ?_, ?_, ?_, ?_⟩
  · simp only [upright, Build.orient]
    by_cases h : Build.increasing dst.ys = true
    · rw [if_pos h]
      exact List.reverse_perm _
    · rw [if_neg h]
  · simp only [upright, Build.orient]
    by_cases h : Build.decreasing dst.xs = true
    · rw [if_pos h]
      exact List.reverse_perm _
    · rw [if_neg h]
  · simp only [upright, Build.orient]
    by_cases h : Build.increasing dst.ys = true
    · rw [if_pos h]
      exact List.pairwise_reverse.mpr ((Build.increasing_iff _).mp h).2
    · rw [if_neg h]
      rcases hy with hy | hy
      · have hl : dst.ys.length < 2 := by
          by_contra hl
          exact h ((Build.increasing_iff _).mpr ⟨by omega, hy⟩)
        match hc : dst.ys with
        | [] => exact List.Pairwise.nil
        | [a] => exact List.pairwise_singleton _ _
        | a :: b :: l =>
          rw [hc] at hl
          simp only [List.length_cons] at hl
          omega
      · exact hy
  · simp only [upright, Build.orient]
    by_cases h : Build.decreasing dst.xs = true
    · rw [if_pos h]
      exact List.pairwise_reverse.mpr ((Build.decreasing_iff _).mp h).2
    · rw [if_neg h]
      rcases hx with hx | hx
      · exact hx
      · have hl : dst.xs.length < 2 := by
          by_contra hl
          exact h ((Build.decreasing_iff _).mpr ⟨by omega, hx⟩)
        match hc : dst.xs with
        | [] => exact List.Pairwise.nil
        | [a] => exact List.pairwise_singleton _ _
        | a :: b :: l =>
          rw [hc] at hl
          simp only [List.length_cons] at hl
          omega

theorem upright_sizes (dst : Frame K) :
    (upright dst).ys.length = dst.ys.length ∧ (upright dst).xs.length = dst.xs.length := by
  obtain ⟨-, h2, h3⟩ := Build.orient_sizes 1 dst.ys dst.xs fun _ _ _ => .fin 0
  exact ⟨h2, h3⟩

theorem lt_foldl_max (b : Nat) (l : List Nat) (z : Nat) : b < l.foldl Nat.max z ↔ b < z ∨ ∃ n ∈ l, b < n := by
  induction l generalizing z with
  | nil => simp
  | cons x xs ih =>
    rw [List.foldl_cons, ih]
    constructor
    · rintro (h | ⟨n, hn, h⟩)
      · rcases lt_max_iff.mp h with h | h
        · exact Or.inl h
        · exact Or.inr ⟨x, by simp, h⟩
      · exact Or.inr ⟨n, by simp [hn], h⟩
    · rintro (h | ⟨n, hn, h⟩)
      · exact Or.inl (lt_max_iff.mpr (Or.inl h))
      · rcases List.mem_cons.mp hn with rfl | hn
        · exact Or.inl (lt_max_iff.mpr (Or.inr h))
        · exact Or.inr ⟨n, hn, h⟩

theorem lt_most (b : Nat) (l : List Nat) : b < l.foldl Nat.max 0 ↔ ∃ n ∈ l, b < n := by
  rw [lt_foldl_max]
  simp

/-- **C88 (partial: every null value is that of the result or not close to it, and fits the dtype; not for the sum).**  The mosaic
lies on the grid asked for, turned north up, with the dtype and the null value asked for and as many bands as the raster with
most of them; a cell is chosen by the method among the valid cells of the rasters on that grid, in the dtype of the result, that
do not hold the null value. -/
theorem C88_mosaic_partial (t : Tools K) {rs qs : List (Placed K)} {a : Args K} {m : Method} {dt : DType} {s : Scalar}
    {dst : Frame K} (hne : rs ≠ []) (hm : a.method = name m) (hr : resamplingOf a.resampling ∈ t.engine.methods)
    (hd : OutType rs a.dtype dt) (hs : OutNull rs dt a.null s) (hg : OutGrid t rs a.crs a.grid dst)
    (hon : List.Forall₂ (On t dst (resamplingOf a.resampling)) rs qs) (hh : ∀ q ∈ qs, NullsHold q.raster)
    (ht : ∀ q ∈ qs, Typed t.np q.raster) (hw : t.writable dt s = true) (hc : t.np.cast dt s.val = s.val)
    (ha : ∀ q ∈ qs, Apart t.np s dt q.raster) (hsum : m ≠ .sum) (hbool : dt = .bool → m = .first ∨ m = .last)
    (hD : dt.isFloat = false → ∀ q ∈ qs, ∀ b i j v, valid q.raster b i j = some v →
      ∃ n : Int, converted t.np dt q.raster v = .fin n ∧ dt.Holds n)
    (hy : Monotone dst.ys) (hx : Monotone dst.xs) :
    ∃ out, mosaic t rs a = .ok out ∧ Upright dst out.frame ∧ out.raster.dtype = dt ∧ out.raster.nv = some s ∧
      out.raster.ny = dst.ys.length ∧ out.raster.nx = dst.xs.length ∧
      (∀ b, b < out.raster.nb ↔ ∃ q ∈ qs, b < q.raster.nb) ∧
      ∀ b i j, b < out.raster.nb →
        Chosen m ((layers t.np dt qs b i j).map (counted s.val)) (valid out.raster b i j) := by
  rw [mosaic_start t hne hm hr hd hs hg]
  obtain ⟨xs, h1, h2, h3⟩ := placeAll_data hon hh ht hc ha
  have hp : unpaintable dt m = false := by
    cases dt <;> first | rfl | skip
    rcases hbool rfl with rfl | rfl <;> rfl
  simp only [assemble, h1, finish, hw, hp, Bool.false_eq_true, Bool.true_eq_false, if_false]
  refine ⟨_, rfl, upright_spec hy hx, rfl, rfl, (upright_sizes dst).1, (upright_sizes dst).2, ?_, ?_⟩
  · intro b
    simp only [ofData, h2, lt_most, List.mem_map, exists_exists_and_eq_and]
  · intro b i j hb
    simp only [ofData, h2] at hb
    have hlen : ((qs.map fun q => entries t.np dt i j q.raster).map List.length) = qs.map (·.raster.nb) := by
      simp [Function.comp_def, entries_length]
    obtain ⟨v, e1, e2⟩ := run_chosen t (v := s.val) hsum (rasters := qs.map fun q => entries t.np dt i j q.raster)
      (dt := dt) (b := b) (by
        intro hf r hr' x hx'
        obtain ⟨q, hq, rfl⟩ := List.mem_map.mp hr'
        simp only [entries, List.mem_map] at hx'
        obtain ⟨k, _, hk⟩ := hx'
        cases hv : valid q.raster k i j with
        | none => rw [hv] at hk; cases hk
        | some w =>
          rw [hv] at hk
          obtain ⟨n, hn1, hn2⟩ := hD hf q hq k i j w hv
          exact ⟨n, by rw [← hn1]; exact (Option.some.inj hk).symm, hn2⟩) (by rw [hlen]; exact hb)
    have hl : (qs.map fun q => entries t.np dt i j q.raster).filterMap (·[b]?) = layers t.np dt qs b i j := by
      rw [List.filterMap_map]
      rfl
    rw [hl] at e2
    have hdata : cell t dt s.val m xs (b, i, j) = v := by
      simp only [cell, h3 i j]
      rw [Mosaic.run] at e1
      rw [e1]
      rfl
    simpa only [valid, ofData, Option.map_some, hdata] using e2

/-- The sum at a cell, of fewer than seven rasters. -/
theorem run_sum (t : Tools K) {dt : DType} {v : Num} {rasters : List (List (Option Num))} {D : Num → Prop}
    (F : Mosaic.Filler (t.plus dt) (.fin 0) D) (hD : ∀ r ∈ rasters, ∀ x, some x ∈ r → D x) (h7 : rasters.length < 7) {b : Nat}
    (hb : b < (rasters.map List.length).foldl Nat.max 0) :
    ∃ out, (Mosaic.run (opsOf t dt v) .sum rasters)[b]? = some (some out) ∧
      out = (Mosaic.reduce (t.plus dt) (((rasters.filterMap (·[b]?)).map (counted v)).filterMap id).reverse).getD v := by
  have L := lawful_ops t dt v
  rw [Mosaic.run_get _ _ rasters hb]
  have hl : (Mosaic.Spec.inputs rasters b).length < 7 := lt_of_le_of_lt (List.length_filterMap_le _ _) h7
  have hDl : ∀ x, some x ∈ Mosaic.Spec.inputs rasters b → D x := by
    intro x hx
    obtain ⟨r, hr, hrb⟩ := List.mem_filterMap.mp hx
    exact hD r hr x (List.mem_of_getElem? hrb)
  change ∃ out, some (Mosaic.singleBand (opsOf t dt v) .sum ((Mosaic.Spec.inputs rasters b).map (Mosaic.encode (opsOf t dt v)))) =
    some (some out) ∧ out = (Mosaic.reduce (t.plus dt) (((Mosaic.Spec.inputs rasters b).map (counted v)).filterMap id).reverse).getD v
  generalize Mosaic.Spec.inputs rasters b = l at *
  have hmiss : ∀ x : Num, (opsOf t dt v).isMissing x = true ↔ x = v := L
  have hval : ∀ l : List (Option Num), Mosaic.valids (opsOf t dt v) (l.map (Mosaic.encode (opsOf t dt v))) =
      (l.map (counted v)).filterMap id := by
    intro l
    induction l with
    | nil => rfl
    | cons x xs ih =>
      rw [List.map_cons, List.map_cons, Mosaic.valids]
      cases x with
      | none =>
        have : (opsOf t dt v).isMissing (Mosaic.encode (opsOf t dt v) none) = true := (hmiss _).mpr rfl
        rw [List.filter_cons_of_neg (by simp [this])]
        exact ih
      | some w =>
        by_cases hw : w = v
        · have : (opsOf t dt v).isMissing (Mosaic.encode (opsOf t dt v) (some w)) = true := (hmiss _).mpr hw
          rw [List.filter_cons_of_neg (by simp [this])]
          have hc : counted v (some w) = none := by simp [counted, hw]
          rw [hc]
          exact ih
        · have : (opsOf t dt v).isMissing (Mosaic.encode (opsOf t dt v) (some w)) = false := by
            rw [Bool.eq_false_iff]
            exact fun h => hw ((hmiss _).mp h)
          rw [List.filter_cons_of_pos (by simp [this])]
          have hc : counted v (some w) = some w := by simp [counted, hw]
          rw [hc]
          exact congrArg (w :: ·) ih
  have hstack : (l.map (Mosaic.encode (opsOf t dt v))).reverse ++ [(opsOf t dt v).nodata] =
      (none :: l).reverse.map (Mosaic.encode (opsOf t dt v)) := by
    simp [Mosaic.encode]
  have hrec := Mosaic.recursive_fill F (O := opsOf t dt v) (m := .sum) (fun _ => rfl) ((hmiss _).mpr rfl) _
    ((l.map (Mosaic.encode (opsOf t dt v))).reverse ++ [(opsOf t dt v).nodata]) (le_refl _) (by simp) (by
      intro x hx hxm
      rw [hstack] at hx
      obtain ⟨y, hy, rfl⟩ := List.mem_map.mp hx
      cases y with
      | none =>
        have : (opsOf t dt v).isMissing (Mosaic.encode (opsOf t dt v) none) = true := (hmiss _).mpr rfl
        rw [this] at hxm
        cases hxm
      | some w => exact hDl w (by simpa using hy)) (by
      intro h8
      simp at h8
      omega)
  refine ⟨_, congrArg some hrec, ?_⟩
  rw [hstack, hval]
  have hrev : ((none :: l).reverse.map (counted v)).filterMap id = ((l.map (counted v)).filterMap id).reverse := by
    rw [List.map_reverse, List.filterMap_reverse]
    congr 1
  rw [hrev]
  rfl

/-- **C88 (partial, as above and for fewer than seven rasters).**  The sum: a cell is null if no raster has a valid cell there that
does not hold the null value, and holds the sum of the values of those cells otherwise. -/
theorem C88_sum_partial (t : Tools K) {rs qs : List (Placed K)} {a : Args K} {dt : DType} {s : Scalar} {D : Num → Prop}
    {dst : Frame K} (hne : rs ≠ []) (hm : a.method = "sum") (hr : resamplingOf a.resampling ∈ t.engine.methods)
    (hd : OutType rs a.dtype dt) (hs : OutNull rs dt a.null s) (hg : OutGrid t rs a.crs a.grid dst)
    (hon : List.Forall₂ (On t dst (resamplingOf a.resampling)) rs qs) (hh : ∀ q ∈ qs, NullsHold q.raster)
    (ht : ∀ q ∈ qs, Typed t.np q.raster) (hw : t.writable dt s = true) (hc : t.np.cast dt s.val = s.val)
    (ha : ∀ q ∈ qs, Apart t.np s dt q.raster) (h7 : rs.length < 7) (F : Mosaic.Filler (t.plus dt) (.fin 0) D)
    (hD : ∀ q ∈ qs, ∀ b i j v, valid q.raster b i j = some v → D (converted t.np dt q.raster v)) :
    ∃ out, mosaic t rs a = .ok out ∧ ∀ b i j, b < out.raster.nb →
      (((layers t.np dt qs b i j).map (counted s.val)).filterMap id = [] → valid out.raster b i j = none) ∧
      ∀ v vs, (((layers t.np dt qs b i j).map (counted s.val)).filterMap id).reverse = v :: vs →
        out.raster.data (b, i, j) = vs.foldl (t.plus dt) v ∧
        (vs.foldl (t.plus dt) v ≠ s.val → valid out.raster b i j = some (vs.foldl (t.plus dt) v)) := by
  rw [mosaic_start t (m := .sum) hne hm hr hd hs hg]
  obtain ⟨xs, h1, h2, h3⟩ := placeAll_data hon hh ht hc ha
  have hp : unpaintable dt .sum = false := by cases dt <;> rfl
  simp only [assemble, h1, finish, hw, hp, Bool.false_eq_true, Bool.true_eq_false, if_false]
  refine ⟨_, rfl, ?_⟩
  intro b i j hb
  simp only [ofData, h2] at hb
  have hlen : ((qs.map fun q => entries t.np dt i j q.raster).map List.length) = qs.map (·.raster.nb) := by
    simp [Function.comp_def, entries_length]
  obtain ⟨v, e1, e2⟩ := run_sum t (v := s.val) F (rasters := qs.map fun q => entries t.np dt i j q.raster) (b := b) (by
      intro r hr' x hx'
      obtain ⟨q, hq, rfl⟩ := List.mem_map.mp hr'
      simp only [entries, List.mem_map] at hx'
      obtain ⟨k, _, hk⟩ := hx'
      cases hv : valid q.raster k i j with
      | none => rw [hv] at hk; cases hk
      | some w =>
        rw [hv] at hk
        have := hD q hq k i j w hv
        rwa [Option.some.inj hk] at this) (by rw [List.length_map, ← hon.length_eq]; exact h7) (by rw [hlen]; exact hb)
  have hl : (qs.map fun q => entries t.np dt i j q.raster).filterMap (·[b]?) = layers t.np dt qs b i j := by
    rw [List.filterMap_map]
    rfl
  rw [hl] at e2
  have hdata : cell t dt s.val .sum xs (b, i, j) = v := by
    simp only [cell, h3 i j]
    rw [Mosaic.run] at e1
    rw [e1]
    rfl
  refine ⟨?_, ?_⟩
  · intro h
    rw [h] at e2
    simp only [valid, ofData, Option.map_some, hdata, e2, List.reverse_nil, Mosaic.reduce, Option.getD_none]
    rw [if_pos ((maskOf_iff _ _).mpr rfl)]
  · intro w ws h
    rw [h] at e2
    simp only [Mosaic.reduce, Option.getD_some] at e2
    refine ⟨by simp only [ofData, hdata, e2], ?_⟩
    intro hv
    simp only [valid, ofData, Option.map_some, hdata, e2]
    rw [if_neg]
    exact fun h => hv ((maskOf_iff _ _).mp h)

/-- **C88.** A raster that is reprojected has the rows and columns of the result, so cells with the same row and column lie at the
same place. -/
theorem C88_aligned (t : Tools K) {rs : List (Placed K)} {a : Args K} {dst : Frame K} {resampling : String} {p q out : Placed K}
    (hg : OutGrid t rs a.crs a.grid dst) (hon : On t dst resampling p q) (hs : t.same p.frame dst = false) (hne : dst ≠ p.frame)
    (ho : mosaic t rs a = .ok out) : q.frame = out.frame ∧ q.raster.ny = out.raster.ny ∧ q.raster.nx = out.raster.nx := by
  have h1 : out.frame = upright dst ∧ out.raster.ny = (upright dst).ys.length ∧ out.raster.nx = (upright dst).xs.length := by
    simp only [mosaic] at ho
    split at ho
    · cases ho
    · cases hm : methodOf a.method with
      | none => rw [hm] at ho; cases ho
      | some m =>
        simp only [hm] at ho
        split at ho
        · cases ho
        · simp only [resolve] at ho
          cases hd : dtypeOf rs a.dtype with
          | error e => rw [hd] at ho; cases ho
          | ok dt =>
            simp only [hd] at ho
            cases hn : nullOf rs dt a.null with
            | error e => rw [hn] at ho; cases ho
            | ok s =>
              simp only [hn, (gridOf_iff _ _ _ _ _).mpr hg, assemble] at ho
              split at ho
              · cases ho
              · simp only [finish] at ho
                split at ho
                · cases ho
                · split at ho
                  · cases ho
                  · cases ho
                    exact ⟨rfl, rfl, rfl⟩
  have h2 : q.frame = upright dst ∧ q.raster.ny = (upright dst).ys.length ∧ q.raster.nx = (upright dst).xs.length := by
    rcases hon with ⟨h, _⟩ | ⟨_, h⟩
    · rw [hs] at h; cases h
    · simp only [Warp.reproject] at h
      split at h
      · cases h
      · simp only [Warp.destination, Warp.base, Warp.zoom] at h
        rw [if_neg hne] at h
        cases h
        exact ⟨rfl, rfl, rfl⟩
  exact ⟨by rw [h1.1, h2.1], by rw [h1.2.1, h2.2.1], by rw [h1.2.2, h2.2.2]⟩

/-! ### Where it fails -/

theorem column_some (t : Tools K) (dt : DType) (v : Num) (i j : Nat) (r : Raster) :
    ((column i j r).map some).map (Mosaic.encode (opsOf t dt v)) = column i j r := by
  rw [List.map_map]
  exact List.map_id _

/-- The last raster wins where its data is not the null value, whatever its mask says. -/
theorem cell_last (t : Tools K) {dt : DType} {v : Num} (qs : List Raster) {r : Raster} {b i j : Nat} (hb : b < r.nb)
    (hv : r.data (b, i, j) ≠ v) : cell t dt v .last (qs ++ [r]) (b, i, j) = r.data (b, i, j) := by
  have hlen : b < ((((qs ++ [r]).map fun q => (column i j q).map some)).map List.length).foldl Nat.max 0 := by
    rw [lt_most]
    exact ⟨r.nb, by simp [column], hb⟩
  obtain ⟨out, h1, h2⟩ := (Mosaic.C10_last (lawful_ops t dt v) ((qs ++ [r]).map fun q => (column i j q).map some)).2 b hlen
  have hrun : Mosaic.run (opsOf t dt v) .last ((qs ++ [r]).map fun q => (column i j q).map some) =
      Mosaic.mosaicBands (opsOf t dt v) .last ((qs ++ [r]).map (column i j)) := by
    rw [Mosaic.run, List.map_map]
    congr 1
    apply List.map_congr_left
    intro q _
    exact column_some t dt v i j q
  rw [hrun] at h1
  simp only [cell, h1, Option.getD_some]
  have hcol : ((column i j r).map some)[b]? = some (some (r.data (b, i, j))) := by
    simp [column, hb]
  have hin : (Mosaic.Spec.inputs ((qs ++ [r]).map fun q => (column i j q).map some) b).map (counted v) =
      (Mosaic.Spec.inputs (qs.map fun q => (column i j q).map some) b).map (counted v) ++ [some (r.data (b, i, j))] := by
    simp only [Mosaic.Spec.inputs, List.map_append, List.filterMap_append, List.map_cons, List.map_nil]
    congr 1
    rw [List.filterMap_cons_some (f := fun x : List (Option Num) => x[b]?) hcol]
    simp [counted, hv]
  have h2' : LastValid ((Mosaic.Spec.inputs (qs.map fun q => (column i j q).map some) b).map (counted v) ++
      [some (r.data (b, i, j))]) (Mosaic.decode (opsOf t dt v) out) := by
    rw [← hin]; exact h2
  have hdec : Mosaic.decode (opsOf t dt v) out = some (r.data (b, i, j)) := by
    rcases h2' with ⟨_, h⟩ | ⟨pre, w, post, e, hpost, hw⟩
    · have := h (some (r.data (b, i, j))) (by simp)
      cases this
    · rw [hw]
      rcases List.eq_nil_or_concat post with rfl | ⟨post', x, rfl⟩
      · have := List.append_inj_right' e rfl
        cases this
        rfl
      · rw [List.concat_eq_append, ← List.cons_append, ← List.append_assoc] at e
        have := List.append_inj_right' e rfl
        have hx := hpost x (by simp)
        rw [hx] at this
        cases this
  unfold Mosaic.decode at hdec
  split at hdec
  · cases hdec
  · exact Option.some.inj hdec

theorem placeAll_last {t : Tools K} {dst : Frame K} {resampling : String} {dt : DType} {s : Scalar} {ps : List (Placed K)}
    {p : Placed K} {xs : List Raster} (h : placeAll t dst resampling dt s (ps ++ [p]) = .ok xs) :
    ∃ ys r, xs = ys ++ [r] ∧ place t dst resampling dt s p = .ok r := by
  induction ps generalizing xs with
  | nil =>
    simp only [List.nil_append, placeAll] at h
    cases hp : place t dst resampling dt s p with
    | error e => rw [hp] at h; cases h
    | ok r =>
      rw [hp] at h
      cases h
      exact ⟨[], r, rfl, rfl⟩
  | cons x ps ih =>
    simp only [List.cons_append, placeAll] at h
    cases hp : place t dst resampling dt s x with
    | error e => rw [hp] at h; cases h
    | ok r =>
      simp only [hp] at h
      cases ha : placeAll t dst resampling dt s (ps ++ [p]) with
      | error e => rw [ha] at h; cases h
      | ok zs =>
        rw [ha] at h
        cases h
        obtain ⟨ys, r', e, h'⟩ := ih ha
        exact ⟨r :: ys, r', by rw [e]; rfl, h'⟩

/-- A cell of the mosaic where the data of the last raster, after the conversion, is not the null value. -/
theorem mosaic_last (t : Tools K) {ps : List (Placed K)} {p out : Placed K} {a : Args K} {dt : DType} {s : Scalar} {dst : Frame K}
    (hm : a.method = "last") (hd : OutType (ps ++ [p]) a.dtype dt) (hs : OutNull (ps ++ [p]) dt a.null s)
    (hg : OutGrid t (ps ++ [p]) a.crs a.grid dst) (ho : mosaic t (ps ++ [p]) a = .ok out) :
    ∃ r, place t dst (resamplingOf a.resampling) dt s p = .ok r ∧ ∀ b i j, b < r.nb → r.data (b, i, j) ≠ s.val →
      valid out.raster b i j = some (r.data (b, i, j)) := by
  have hr : resamplingOf a.resampling ∈ t.engine.methods := by
    by_contra hr
    simp only [mosaic, hm] at ho
    split at ho
    · cases ho
    · have : methodOf "last" = some .last := rfl
      simp only [this, hr, not_false_eq_true, if_true] at ho
      cases ho
  rw [mosaic_start t (by simp) (m := .last) hm hr hd hs hg] at ho
  simp only [assemble] at ho
  cases hp : placeAll t dst (resamplingOf a.resampling) dt s (ps ++ [p]) with
  | error e => rw [hp] at ho; cases ho
  | ok xs =>
    obtain ⟨ys, r, rfl, h1⟩ := placeAll_last hp
    refine ⟨r, h1, ?_⟩
    intro b i j hb hv
    rw [hp] at ho
    simp only [finish] at ho
    split at ho
    · cases ho
    · split at ho
      · cases ho
      · cases ho
        have := cell_last t (dt := dt) ys hb hv
        simp only [valid, ofData, Option.map_some, this]
        rw [if_neg]
        intro h
        exact hv ((maskOf_iff _ _).mp h)

theorem default_ne_nan (dt : DType) : (defaultNull dt).val ≠ .nan := by
  cases dt <;> simp [defaultNull]

/-- **C88 is false of the code** if the null value of the result is NaN, asked for or that of the first raster, and the last
raster has another one: every null cell of the last raster becomes a valid cell of the mosaic, with the default null value of the
dtype, and hides the valid cells of the other rasters. -/
theorem C88_nan (t : Tools K) {ps : List (Placed K)} {p q out : Placed K} {a : Args K} {dt : DType} {s old : Scalar}
    {dst : Frame K} (hm : a.method = "last") (hd : OutType (ps ++ [p]) a.dtype dt) (hs : OutNull (ps ++ [p]) dt a.null s)
    (hg : OutGrid t (ps ++ [p]) a.crs a.grid dst) (ho : mosaic t (ps ++ [p]) a = .ok out)
    (hon : On t dst (resamplingOf a.resampling) p q) (hsn : s.val = .nan) (hq : q.raster.nv = some old)
    (hold : old.val ≠ .nan) {b i j : Nat} (hb : b < q.raster.nb) (hnull : q.raster.mask (b, i, j) = true) :
    valid out.raster b i j = some (defaultNull dt).val := by
  obtain ⟨r, h1, h2⟩ := mosaic_last t hm hd hs hg ho
  simp only [place, moved_eq hon] at h1
  have hc : allcloseNum s.val old.val = false := by
    rw [hsn]
    cases hv : old.val <;> simp_all [allcloseNum]
  have hrec : reconcile t.np (some s) dt = (some (defaultNull dt), false) := by
    simp [reconcile, hsn, Num.isnan]
  rcases new_null (np := t.np) q.raster dt hq hc with ⟨e, h3, _⟩ | ⟨o, x, h3, h4, _, _, _, _, h5⟩
  · rw [h1] at h3; cases h3
  · rw [h1] at h3
    cases h3
    rw [hrec] at h4
    cases h4
    have hnb : r.nb = q.raster.nb := by
      unfold Raster.astype at h1
      split at h1
      · cases h1; rfl
      · rw [hq] at h1
        simp only [hc, hrec, Bool.false_eq_true, if_false] at h1
        cases h1
        rfl
    have h6 := h5 _ hnull
    rw [h2 b i j (by rw [hnb]; exact hb) (by rw [h6, hsn]; exact default_ne_nan dt), h6]

/-- **C88 is false of the code** if the null value of the last raster is close to that of the result but is another number: every
null cell of the last raster becomes a valid cell of the mosaic, with its old null value. -/
theorem C88_close (t : Tools K) {ps : List (Placed K)} {p q out : Placed K} {a : Args K} {dt : DType} {s old : Scalar}
    {dst : Frame K} (hm : a.method = "last") (hd : OutType (ps ++ [p]) a.dtype dt) (hs : OutNull (ps ++ [p]) dt a.null s)
    (hg : OutGrid t (ps ++ [p]) a.crs a.grid dst) (ho : mosaic t (ps ++ [p]) a = .ok out)
    (hon : On t dst (resamplingOf a.resampling) p q) (hh : NullsHold q.raster) (hq : q.raster.nv = some old)
    (hclose : allcloseNum s.val old.val = true) (hne : old.val ≠ s.val) (hcast : t.np.cast dt old.val = old.val)
    {b i j : Nat} (hb : b < q.raster.nb) (hnull : q.raster.mask (b, i, j) = true) :
    valid out.raster b i j = some old.val := by
  obtain ⟨r, h1, h2⟩ := mosaic_last t hm hd hs hg ho
  simp only [place, moved_eq hon] at h1
  have hneq : nullValuesEqual q.raster.nv (some s) = false := by
    rw [hq]
    cases h : nullValuesEqual (some old) (some s) with
    | false => rfl
    | true => exact absurd ((Num.nanEqual_iff _ _).mp h) hne
  unfold Raster.astype at h1
  rw [if_neg (by simp [hneq]), hq] at h1
  simp only [hclose, if_true] at h1
  cases h1
  obtain ⟨old', e1, e2⟩ := hh _ hnull
  rw [hq] at e1
  cases e1
  have hdata : t.np.cast dt (q.raster.data (b, i, j)) = old.val := by rw [e2, hcast]
  have := h2 b i j hb (by
    change t.np.cast dt (q.raster.data (b, i, j)) ≠ s.val
    rw [hdata]; exact hne)
  rw [this]
  change some (t.np.cast dt (q.raster.data (b, i, j))) = _
  rw [hdata]

/-- **C88 is false of the code** for boolean rasters and the methods 'min' and 'max': an error is raised. -/
theorem C88_boolean (t : Tools K) (rs : List (Placed K)) (a : Args K) (hm : a.method = "min" ∨ a.method = "max")
    (hd : OutType rs a.dtype .bool) : ∃ e, mosaic t rs a = .error e := by
  cases ho : mosaic t rs a with
  | error e => exact ⟨e, rfl⟩
  | ok out =>
    exfalso
    simp only [mosaic] at ho
    split at ho
    · cases ho
    · have : ∃ m, methodOf a.method = some m ∧ unpaintable .bool m = true := by
        rcases hm with hm | hm <;> rw [hm]
        · exact ⟨.min, rfl, rfl⟩
        · exact ⟨.max, rfl, rfl⟩
      obtain ⟨m, h1, h2⟩ := this
      simp only [h1] at ho
      split at ho
      · cases ho
      · simp only [resolve, (dtypeOf_iff _ _ _).mpr hd] at ho
        cases hn : nullOf rs .bool a.null with
        | error e => rw [hn] at ho; cases ho
        | ok s =>
          simp only [hn] at ho
          cases hg : gridOf t rs a.crs a.grid with
          | error e => rw [hg] at ho; cases ho
          | ok dst =>
            simp only [hg, assemble] at ho
            split at ho
            · cases ho
            · simp only [finish, h2, if_true] at ho
              split at ho <;> cases ho

/-- **C88**, the kind of error of boolean rasters and of null values that the dtype cannot store: a value
error, once everything else is in order. -/
theorem C88_value_errors (t : Tools K) {rs qs : List (Placed K)} {a : Args K} {m : Method} {dt : DType} {s : Scalar}
    {dst : Frame K} (hne : rs ≠ []) (hm : a.method = name m) (hr : resamplingOf a.resampling ∈ t.engine.methods)
    (hd : OutType rs a.dtype dt) (hs : OutNull rs dt a.null s) (hg : OutGrid t rs a.crs a.grid dst)
    (hon : List.Forall₂ (On t dst (resamplingOf a.resampling)) rs qs) (hh : ∀ q ∈ qs, NullsHold q.raster)
    (ht : ∀ q ∈ qs, Typed t.np q.raster) (hc : t.np.cast dt s.val = s.val) (ha : ∀ q ∈ qs, Apart t.np s dt q.raster)
    (hbad : t.writable dt s = false ∨ dt = .bool ∧ (m = .min ∨ m = .max)) : mosaic t rs a = .error .value := by
  rw [mosaic_start t hne hm hr hd hs hg]
  obtain ⟨xs, h1, -, -⟩ := placeAll_data hon hh ht hc ha
  simp only [assemble, h1, finish]
  rcases hbad with h | ⟨rfl, h⟩
  · rw [if_pos h]
  · have : unpaintable .bool m = true := by rcases h with rfl | rfl <;> rfl
    rw [this]
    split <;> rfl

/-- **C88 is false of the code** for rasters with the null value NaN and an integer dtype, without a null value: the NaN cannot be
written, although the dtype has a default null value. -/
theorem C88_nan_integer (t : Tools K) {rs : List (Placed K)} {a : Args K} {dt : DType} {s : Scalar} (ha : a.null = .absent)
    (hd : OutType rs a.dtype dt) (hs : OutNull rs dt .absent s) (hsn : s.val = .nan)
    (hw : ∀ x : Scalar, x.val = .nan → t.writable dt x = false) : ∃ e, mosaic t rs a = .error e := by
  cases ho : mosaic t rs a with
  | error e => exact ⟨e, rfl⟩
  | ok out =>
    exfalso
    simp only [mosaic] at ho
    split at ho
    · cases ho
    · cases hm : methodOf a.method with
      | none => rw [hm] at ho; cases ho
      | some m =>
        simp only [hm] at ho
        split at ho
        · cases ho
        · simp only [resolve, (dtypeOf_iff _ _ _).mpr hd, ha, nullOf_complete hs] at ho
          cases hg : gridOf t rs a.crs a.grid with
          | error e => rw [hg] at ho; cases ho
          | ok dst =>
            simp only [hg, assemble] at ho
            split at ho
            · cases ho
            · simp only [finish, hw s hsn, if_true] at ho
              cases ho

/-! ### Concrete cases -/

/-- Nearest neighbour by coordinates on one CRS; sums are exact. -/
def exTools : Tools Nat where
  np := idNumPy true
  engine := ⟨["nearest"], fun f _ => f, fun f _ => f, fun _ src dst f i j =>
    match dst.ys[i]?, dst.xs[j]? with
    | some y, some x => match src.ys.idxOf? y, src.xs.idxOf? x with
      | some r, some c => f r c
      | _, _ => none
    | _, _ => none, fun _ v => v⟩
  same := fun f g => decide (f = g)
  union := fun fs _ => match fs with
    | [] => .error .value
    | f :: _ => .ok f
  writable := fun dt s => dt.isFloat || !s.val.isnan
  plus := fun _ => Mosaic.fadd

/-- A grid with one row and three columns, and one moved by a column. -/
def exFrame : Frame Nat := ⟨1, [0], [0, 1, 2]⟩
def exFrame2 : Frame Nat := ⟨1, [0], [1, 2, 3]⟩

/-- A raster of one row; a cell is null if it holds the null value. -/
def exRaster (f : Frame Nat) (dt : DType) (nv : Scalar) (bands : List (List Num)) : Placed Nat :=
  ⟨f, ofData dt bands.length 1 3 (fun c => (bands.getD c.1 []).getD c.2.2 (.fin 0)) none (some nv) false⟩

/-- The arguments with the defaults, but on the given grid. -/
def exArgs (method : String) (f : Frame Nat) : Args Nat := ⟨method, none, .geobox f, none, none, .absent⟩

/-- The values of a row of the result, `none` for null cells. -/
def shown (x : Except Err (Placed Nat)) (b : Nat) : Option (List (Option Num)) :=
  match x with
  | .error _ => none
  | .ok p => some ((List.range p.raster.nx).map fun j => valid p.raster b 0 j)

def exLeft : Placed Nat := exRaster exFrame i32 ⟨i32, .fin (-1)⟩ [[.fin 5, .fin (-1), .fin 7], [.fin 1, .fin 2, .fin 3]]
def exRight : Placed Nat := exRaster exFrame2 i32 ⟨i32, .fin (-9999)⟩ [[.fin 9, .fin 4, .fin (-9999)]]

/-- The first of two rasters on grids that are shifted; the second has a single band. -/
example : shown (mosaic exTools [exLeft, exRight] (exArgs "first" exFrame)) 0 = some [some (.fin 5), some (.fin 9), some (.fin 7)] ∧
    shown (mosaic exTools [exLeft, exRight] (exArgs "min" exFrame)) 0 = some [some (.fin 5), some (.fin 9), some (.fin 4)] ∧
    shown (mosaic exTools [exLeft, exRight] (exArgs "last" exFrame2)) 0 = some [some (.fin 9), some (.fin 4), none] ∧
    shown (mosaic exTools [exLeft, exRight] (exArgs "max" exFrame)) 1 = some [some (.fin 1), some (.fin 2), some (.fin 3)] := by
  decide +kernel

def exNan : Placed Nat := exRaster exFrame f32 ⟨f64, .nan⟩ [[.fin 5, .nan, .fin 7]]
def exOther : Placed Nat := exRaster exFrame f32 ⟨f32, .fin (-9999)⟩ [[.fin (-9999), .fin (-9999), .fin 8]]

/-- Two rasters of floats, the first with NaN as null value and the second with -9999: where the second one is null the mosaic has
the smallest float, also where the first one is valid. -/
example : shown (mosaic exTools [exNan, exOther] (exArgs "last" exFrame)) 0 =
    some [some (defaultNull f32).val, some (defaultNull f32).val, some (.fin 8)] := by
  decide +kernel

def exMin : Placed Nat := exRaster exFrame i32 ⟨i32, .fin (-2147483648)⟩ [[.fin 5, .fin (-2147483648), .fin 7]]
def exNext : Placed Nat := exRaster exFrame i32 ⟨i32, .fin (-2147483647)⟩ [[.fin (-2147483647), .fin (-2147483647), .fin 8]]

/-- Two rasters of integers with the null values -2147483648 and -2147483647. -/
example : shown (mosaic exTools [exMin, exNext] (exArgs "last" exFrame)) 0 =
    some [some (.fin (-2147483647)), some (.fin (-2147483647)), some (.fin 8)] := by
  decide +kernel

/-- The hypotheses of the theorems hold for these rasters. -/
example : OutType [exNan, exOther] (exArgs "last" exFrame).dtype f32 ∧
    OutNull [exNan, exOther] f32 (exArgs "last" exFrame).null ⟨f64, .nan⟩ ∧
    OutGrid exTools [exNan, exOther] none (exArgs "last" exFrame).grid exFrame ∧
    On exTools exFrame "nearest" exOther exOther ∧ exOther.raster.nv = some ⟨f32, .fin (-9999)⟩ ∧
    exOther.raster.mask (0, 0, 0) = true ∧ allcloseNum (.fin (-2147483648)) (.fin (-2147483647)) = true := by
  refine ⟨Or.inr ⟨rfl, by decide +kernel⟩, Or.inr ⟨rfl, Or.inl ⟨[], exNan, [exOther], rfl, by simp, rfl⟩⟩, Or.inl rfl,
    Or.inl ⟨by decide +kernel, rfl⟩, rfl, by decide +kernel, by decide +kernel⟩

example : ∃ q, On exTools exFrame "nearest" exRight q ∧ q.frame = exFrame ∧ valid q.raster 0 0 1 = some (.fin 9) ∧
    valid q.raster 0 0 0 = none ∧ NullsHold exLeft.raster ∧ Typed exTools.np exLeft.raster ∧
    Kept exTools.np ⟨i32, .fin (-1)⟩ i32 ∧ Apart exTools.np ⟨i32, .fin (-1)⟩ i32 exRight.raster := by
  refine ⟨_, Or.inr ⟨by decide +kernel, rfl⟩, by decide +kernel, by decide +kernel, by decide +kernel, ?_, ?_, ?_, ?_⟩
  · intro c hc
    refine ⟨_, rfl, ?_⟩
    exact (maskOf_iff _ _).mp hc
  · intro c
    rfl
  · exact ⟨by decide +kernel, by decide +kernel⟩
  · intro old h
    cases h
    exact Or.inr ⟨by decide +kernel, by decide +kernel, by decide +kernel⟩

/-- Exact sums, without infinities. -/
example : Mosaic.Filler (exTools.plus i32) (.fin 0) (fun v => ∃ q : Rat, v = .fin q) ∧
    shown (mosaic exTools [exLeft, exRight, exLeft] (exArgs "sum" exFrame)) 0 = some [some (.fin 10), some (.fin 9), some (.fin 18)] := by
  refine ⟨⟨?_, ?_, ?_, ?_, ?_⟩, by decide +kernel⟩
  · intro a b c
    cases a <;> cases b <;> cases c <;> simp [exTools, Mosaic.fadd, add_assoc]
  · rintro _ _ ⟨a, rfl⟩ ⟨b, rfl⟩
    exact ⟨a + b, rfl⟩
  · simp [exTools, Mosaic.fadd]
  · rintro _ ⟨a, rfl⟩
    simp [exTools, Mosaic.fadd]
  · rintro _ ⟨a, rfl⟩
    simp [exTools, Mosaic.fadd]

/-- Booleans with 'min', and NaN with an integer dtype. -/
example : OutType [exRaster exFrame .bool ⟨.bool, .fin 1⟩ [[.fin 0, .fin 1, .fin 0]]] none .bool ∧
    shown (mosaic exTools [exRaster exFrame .bool ⟨.bool, .fin 1⟩ [[.fin 0, .fin 1, .fin 0]]] (exArgs "min" exFrame)) 0 = none ∧
    shown (mosaic exTools [exNan] { exArgs "last" exFrame with dtype := some i32 }) 0 = none ∧
    shown (mosaic exTools [exNan] (exArgs "last" exFrame)) 0 = some [some (.fin 5), none, some (.fin 7)] ∧
    (∀ x : Scalar, x.val = .nan → exTools.writable i32 x = false) := by
  refine ⟨Or.inr ⟨rfl, by decide +kernel⟩, by decide +kernel, by decide +kernel, by decide +kernel, ?_⟩
  intro x hx
  simp [exTools, hx, Num.isnan, isFloat]

end Verif.MosaicRaster
