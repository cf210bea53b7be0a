import Verif.Files.Model
import Verif.Nulls.RasterProps
import Mathlib.Data.Nat.Digits.Defs
import Mathlib.Data.List.Lex

/-! # C63 – C65: saving and opening files -/

set_option linter.unusedSectionVars false

namespace Verif.Files

open Verif Verif.Nulls Verif.Nulls.Spec DType

namespace Spec

/-- What GDAL, rioxarray and numpy do with nodata values: floating point files keep a double, integer files keep integers of
at most 53 bits (the limit that `io.py:368-372` gives). -/
structure Laws (np : NumPy) (g : Gdal) : Prop where
  float : ∀ dt v, dt.isFloat = true → g.nodata dt v = np.cast f64 v
  int : ∀ dt (n : Int), dt.isFloat = false → dt.Holds n → -2 ^ 53 ≤ n → n ≤ 2 ^ 53 → g.nodata dt (.fin n) = .fin n

/-- The null value is a value of the dtype, and a double if that is a floating point type. -/
def NullOfType (np : NumPy) (r : Raster) : Prop :=
  ∀ s, r.nv = some s → (r.dtype.isFloat = true ∧ np.cast r.dtype s.val = s.val ∧ np.cast f64 s.val = s.val) ∨
    (r.dtype.isFloat = false ∧ ∃ n : Int, s.val = .fin n ∧ r.dtype.Holds n)

/-- No valid cell holds the null value. -/
def NullApart (r : Raster) : Prop := ∀ s c, r.nv = some s → r.mask c = false → r.data c ≠ s.val

/-- Booleans are 0 and 1. -/
def Booleans (r : Raster) : Prop := r.dtype = .bool → ∀ c, r.data c = .fin 0 ∨ r.data c = .fin 1

end Spec

/-! ### Saving and opening -/

theorem fileDtype_cases (g : Gdal) (drv : Option String) (dt : DType) (nv : Option Num) :
    (dt = i64 ∧ fileDtype g drv dt nv = f64) ∨ (dt = i64 ∧ fileDtype g drv dt nv = i64 ∧ preservable nv = true) ∨
    (dt = .bool ∧ fileDtype g drv dt nv = u8) ∨ (dt ≠ i64 ∧ dt ≠ .bool ∧ fileDtype g drv dt nv = dt) := by
  unfold fileDtype
  by_cases h : dt = i64
  · simp only [h, if_true]
    by_cases h1 : nativeInt64 g drv = true
    · by_cases h2 : preservable nv = true
      · simp [h1, h2]
      · simp [h1, h2]
    · simp [h1]
  · by_cases hb : dt = .bool
    · subst hb; simp
    · simp [h, hb]

theorem cast_zero {np : NumPy} (hnp : ExactCast np) : np.cast u8 (.fin 0) = .fin 0 := by
  have := hnp u8 0 ⟨_, _, rfl, by decide, by decide⟩
  simpa using this

theorem cast_one {np : NumPy} (hnp : ExactCast np) : np.cast u8 (.fin 1) = .fin 1 := by
  have := hnp u8 1 ⟨_, _, rfl, by decide, by decide⟩
  simpa using this

theorem cast_255 {np : NumPy} (hnp : ExactCast np) : np.cast u8 (.fin 255) = .fin 255 := by
  have := hnp u8 255 ⟨_, _, rfl, by decide, by decide⟩
  simpa using this

/-- A raster that is not boolean, or has no null value, written and opened again. -/
theorem write_open {np : NumPy} {g : Gdal} (hg : Spec.Laws np g) (hnp : ExactCast np) {ext : String} {driver : Option String} {r : Raster}
    {f : File} (h : write np g ext driver r = .ok f) (hn : NullsHold r) (hty : Spec.NullOfType np r)
    (hap : Spec.NullApart r) (hbool : Spec.Booleans r) (hb : r.dtype = .bool → r.nv = none)
    (hnan : r.nv = none → ∀ c, r.data c ≠ .nan)
    (hu : r.dtype = u64 → ∀ s, r.nv = some s → preservable (some s.val) = true)
    (hbig : r.dtype = i64 → f.dtype = f64 → (∀ c, np.cast f64 (r.data c) = r.data c) ∧ ∀ s, r.nv = some s → np.cast f64 s.val = s.val) :
    ((openFile np f).nb = r.nb ∧ (openFile np f).ny = r.ny ∧ (openFile np f).nx = r.nx) ∧
      (∀ c, (openFile np f).mask c = r.mask c ∧ (openFile np f).data c = r.data c) ∧
      ((r.dtype = i64 ∧ ((openFile np f).dtype = i64 ∨ (openFile np f).dtype = f64)) ∨
        (r.dtype = .bool ∧ (openFile np f).dtype = u8) ∨ (r.dtype ≠ i64 ∧ r.dtype ≠ .bool ∧ (openFile np f).dtype = r.dtype)) ∧
      (∀ s, r.nv = some s → (openFile np f).nv = some ⟨(openFile np f).dtype, s.val⟩) ∧
      (r.nv = none → (openFile np f).nv = if (openFile np f).dtype.isFloat then some ⟨(openFile np f).dtype, .nan⟩ else none) := by
  unfold write at h
  split at h
  · cases h
  · simp only at h
    split at h
    · have h := (Except.ok.inj h).symm
      have hdata : ∀ c, f.data c = r.data c := by
        intro c
        rcases fileDtype_cases g (resolveDriver ext driver) r.dtype (r.nv.map (·.val)) with ⟨h1, h2⟩ | ⟨h1, h2, -⟩ | ⟨h1, h2⟩ | ⟨-, -, h2⟩
        · have : f.dtype = f64 := by rw [h]; exact h2
          rw [h]; simp only
          split
          · rfl
          · rw [h2]; exact (hbig h1 this).1 c
        · rw [h]; simp only; rw [if_pos (h2.trans h1.symm)]
        · rw [h]; simp only
          split
          · rfl
          · rw [h2]
            simp only
            rcases hbool h1 c with e | e <;> rw [e]
            · exact cast_zero hnp
            · exact cast_one hnp
        · rw [h]; simp only [h2, if_true]
      have hnod : f.nodata = r.nv.map (·.val) := by
        cases hr : r.nv with
        | none => rw [h]; simp [hr]
        | some s =>
          rw [h]; simp only [hr, Option.map_some]
          congr 1
          rcases fileDtype_cases g (resolveDriver ext driver) r.dtype (some s.val) with ⟨h1, h2⟩ | ⟨h1, h2, h3⟩ | ⟨h1, h2⟩ | ⟨h0, h1, h2⟩
          · have : f.dtype = f64 := by rw [h]; simp only [hr, Option.map_some]; exact h2
            rw [h2, hg.float f64 _ rfl]; exact (hbig h1 this).2 s hr
          · rw [h2]
            rcases hty s hr with ⟨e, -⟩ | ⟨-, n, e1, e2⟩
            · rw [h1] at e; cases e
            · rw [e1] at h3 ⊢
              simp only [preservable, Bool.and_eq_true, decide_eq_true_eq] at h3
              rw [h1] at e2
              exact hg.int _ n rfl e2 (by exact_mod_cast h3.1) (by exact_mod_cast h3.2)
          · rw [hb h1] at hr; cases hr
          · rw [h2]
            rcases hty s hr with ⟨e, -, e'⟩ | ⟨e, n, e1, e2⟩
            · rw [hg.float _ _ e]; exact e'
            · rw [e1]
              have hbd : -2 ^ 53 ≤ n ∧ n ≤ 2 ^ 53 := by
                by_cases hu64 : r.dtype = u64
                · have := hu hu64 s hr
                  rw [e1] at this
                  simp only [preservable, Bool.and_eq_true, decide_eq_true_eq] at this
                  exact ⟨by exact_mod_cast this.1, by exact_mod_cast this.2⟩
                · obtain ⟨lo, hi, l1, l2, l3⟩ := e2
                  generalize r.dtype = dt at *
                  cases dt <;> simp [limits, DType.isFloat] at * <;> omega
              exact hg.int _ n e e2 hbd.1 hbd.2
      have hf32 : f.dtype = f32 → r.dtype = f32 := by
        intro hf
        rcases fileDtype_cases g (resolveDriver ext driver) r.dtype (r.nv.map (·.val)) with ⟨h1, h2⟩ | ⟨h1, h2, h3⟩ | ⟨h1, h2⟩ | ⟨h0, h1, h2⟩
        · rw [h] at hf; simp only [h2] at hf; cases hf
        · rw [h] at hf; simp only [h2] at hf; cases hf
        · rw [h] at hf; simp only [h2] at hf; cases hf
        · rw [h] at hf; simp only [h2] at hf; exact hf
      have hnorm : ∀ s, r.nv = some s → normalizeNull np f.dtype s.val = s.val := by
        intro s hr
        unfold normalizeNull
        split
        · next hc =>
          rcases hty s hr with ⟨-, e, -⟩ | ⟨e, -⟩
          · rw [hf32 hc.1] at e; exact e
          · rw [hf32 hc.1] at e; cases e
        · rfl
      have hsome : ∀ s, r.nv = some s → openedNull np f = some s.val := by
        intro s hr
        unfold openedNull
        rw [hnod, hr]
        simp only [Option.map_some]
        rw [hnorm s hr]
      have hnone : r.nv = none → openedNull np f = if f.dtype.isFloat then some .nan else none := by
        intro hr
        unfold openedNull
        rw [hnod, hr]
        rfl
      refine ⟨⟨by rw [h]; rfl, by rw [h]; rfl, by rw [h]; rfl⟩, fun c => ⟨?_, hdata c⟩, ?_, fun s hr => ?_, fun hr => ?_⟩
      · show maskOf (openedNull np f) (f.data c) = r.mask c
        rw [hdata]
        cases hr : r.nv with
        | none =>
          have hm : r.mask c = false := by
            rw [Bool.eq_false_iff]
            intro hm
            obtain ⟨s, hs, -⟩ := hn c hm
            rw [hr] at hs; cases hs
          rw [hm, hnone hr]
          split
          · rw [Bool.eq_false_iff, Ne, maskOf_iff]; exact hnan hr c
          · rfl
        | some s =>
          rw [hsome s hr, Bool.eq_iff_iff, maskOf_iff]
          constructor
          · intro e
            by_contra hm
            exact hap s c hr (by simpa using hm) e
          · intro hm
            obtain ⟨t, ht, hd⟩ := hn c hm
            rw [hr] at ht; cases ht; exact hd
      · show (r.dtype = i64 ∧ (f.dtype = i64 ∨ f.dtype = f64)) ∨ (r.dtype = .bool ∧ f.dtype = u8) ∨
          (r.dtype ≠ i64 ∧ r.dtype ≠ .bool ∧ f.dtype = r.dtype)
        rcases fileDtype_cases g (resolveDriver ext driver) r.dtype (r.nv.map (·.val)) with ⟨h1, h2⟩ | ⟨h1, h2, h3⟩ | ⟨h1, h2⟩ | ⟨h0, h1, h2⟩
        · exact .inl ⟨h1, .inr (by rw [h]; exact h2)⟩
        · exact .inl ⟨h1, .inl (by rw [h]; exact h2)⟩
        · exact .inr (.inl ⟨h1, by rw [h]; exact h2⟩)
        · exact .inr (.inr ⟨h0, h1, by rw [h]; exact h2⟩)
      · show (openedNull np f).map (fun v => (⟨f.dtype, v⟩ : Scalar)) = _
        rw [hsome s hr]; rfl
      · show (openedNull np f).map (fun v => (⟨f.dtype, v⟩ : Scalar)) = if f.dtype.isFloat then some ⟨f.dtype, .nan⟩ else none
        rw [hnone hr]
        split <;> rfl
    · cases h

/-- Masked boolean rasters become bytes with null value 255. -/
theorem boolAsByte_spec {np : NumPy} (hnp : ExactCast np) {r o : Raster} (h : boolAsByte np r = .ok o) (hn : NullsHold r)
    (hb : Spec.Booleans r) (hd : r.dtype = .bool) (hm : r.masked = true) :
    o.dtype = u8 ∧ (o.nb, o.ny, o.nx) = (r.nb, r.ny, r.nx) ∧ o.nv = some ⟨u8, .fin 255⟩ ∧ (∀ c, o.mask c = r.mask c) ∧
      (∀ c, r.mask c = false → o.data c = r.data c) ∧ (∀ c, r.mask c = true → o.data c = .fin 255) := by
  unfold boolAsByte at h
  rw [if_pos (by rw [hm, hd]; rfl)] at h
  obtain ⟨b, e1, e2, e3, e4, e5, e6, e7, -⟩ := C17_astype hnp r u8 hn
  rw [e1] at h
  simp only at h
  have hnd : nullDtype np b.dtype (.int 255) = .ok none := by
    rw [e2]
    unfold nullDtype
    simp [NullArg.val, Num.isnan, NullArg.isInt, DType.isFloat, DType.isInt, limits]
  unfold Raster.setNullValue at h
  simp only [hnd] at h
  have h := (Except.ok.inj h).symm
  have hval : np.cast b.dtype (NullArg.int 255).val = .fin 255 := by
    rw [e2]; exact cast_255 hnp
  have hmask : ∀ c, o.mask c = r.mask c := by
    intro c
    rw [h, burn_mask]
    simp only [Option.getD_none, hval]
    have hbm : b.masked = true := by
      unfold Raster.masked
      unfold Raster.masked at hm
      rw [Option.isSome_iff_ne_none] at hm ⊢
      exact fun e => hm (e7.1 e)
    rw [if_pos hbm, e4]
    by_cases hc : r.mask c = true
    · rw [hc]; rfl
    · have hc : r.mask c = false := by simpa using hc
      rw [hc, Bool.false_or, Bool.eq_false_iff, Ne, maskOf_iff, e5 c hc, if_neg (by rw [hd]; decide)]
      rcases hb hd c with e | e <;> rw [e]
      · rw [cast_zero hnp]; decide +kernel
      · rw [cast_one hnp]; decide +kernel
  refine ⟨by rw [h, burn_dtype]; exact e2, ?_, ?_, hmask, fun c hc => ?_, fun c hc => ?_⟩
  · rw [h, ← e3]; rfl
  · rw [h, burn_nv]; simp only [Option.getD_none]; rw [hval, e2]
  · have hm' := hmask c
    rw [h, burn_mask] at hm'
    rw [h, burn_valid _ (hm'.trans hc)]
    simp only
    rw [e5 c hc, if_neg (by rw [hd]; decide)]
    rcases hb hd c with e | e <;> rw [e]
    · exact cast_zero hnp
    · exact cast_one hnp
  · have hm' := hmask c
    rw [h, burn_mask] at hm'
    rw [h, burn_null _ rfl (hm'.trans hc)]
    simp only [Option.getD_none, hval]
    rw [e2]; rfl

/-- **C63 (round trip), for null values that can be told apart.**  Opening a saved file gives a raster of the same shape with the same null
cells and the same values in all others, for all dtypes that the driver writes: booleans come back as bytes, 64 bit integers as
such or as doubles, all others with their dtype.  The null value is the same (255 for booleans), a raster without one gets none,
or NaN if it is floating point.  What is needed: null cells hold the null value (C44), valid ones do not; the null value fits the
dtype; a raster without null value has no NaN; a null value of 64 unsigned bits is at most 2^53; the values of an integer raster
that is written as doubles are doubles. -/
theorem C63_round_trip_partial {np : NumPy} {g : Gdal} (hg : Spec.Laws np g) (hnp : ExactCast np) {ext : String}
    {driver : Option String} {r : Raster} {f : File} (h : save np g ext driver none none r = .ok f) (hn : NullsHold r)
    (hty : Spec.NullOfType np r) (hap : r.dtype ≠ .bool → Spec.NullApart r) (hbool : Spec.Booleans r)
    (hnan : r.nv = none → ∀ c, r.data c ≠ .nan)
    (hu : r.dtype = u64 → ∀ s, r.nv = some s → ∃ q, s.val = .fin q ∧ q ≤ 2 ^ 53)
    (hbig : r.dtype = i64 → f.dtype = f64 → (∀ c, np.cast f64 (r.data c) = r.data c) ∧
      ∀ s, r.nv = some s → np.cast f64 s.val = s.val) :
    let o := openFile np f
    (o.nb = r.nb ∧ o.ny = r.ny ∧ o.nx = r.nx) ∧
      (∀ c, o.mask c = r.mask c ∧ (r.mask c = false → o.data c = r.data c)) ∧ NullsHold o ∧
      ((r.dtype = i64 ∧ (o.dtype = i64 ∨ o.dtype = f64)) ∨ (r.dtype = .bool ∧ o.dtype = u8) ∨
        (r.dtype ≠ i64 ∧ r.dtype ≠ .bool ∧ o.dtype = r.dtype)) ∧
      (∀ s, r.nv = some s → o.nv = some ⟨o.dtype, if r.dtype = .bool then .fin 255 else s.val⟩) ∧
      (r.nv = none → o.nv = if o.dtype.isFloat then some ⟨o.dtype, .nan⟩ else none) := by
  intro o
  unfold save at h
  simp only [nullArg, withNull] at h
  have hold : ∀ (r2 : Raster), (∀ c, o.mask c = r2.mask c ∧ o.data c = r2.data c) → NullsHold r2 →
      (∀ s, r2.nv = some s → o.nv = some ⟨o.dtype, s.val⟩) → NullsHold o := by
    intro r2 h1 h2 h3 c hc
    rw [(h1 c).1] at hc
    obtain ⟨s, hs, hd⟩ := h2 c hc
    exact ⟨_, h3 s hs, by rw [(h1 c).2, hd]⟩
  by_cases hb : r.dtype = .bool ∧ r.masked = true
  · obtain ⟨hb, hm⟩ := hb
    split at h
    · cases h
    · next r2 h2 =>
      obtain ⟨b1, b2, b3, b4, b5, b6⟩ := boolAsByte_spec hnp h2 hn hbool hb hm
      have hn2 : NullsHold r2 := fun c hc => ⟨_, b3, b6 c (by rw [← b4]; exact hc)⟩
      obtain ⟨w1, w2, w3, w4, -⟩ := write_open hg hnp h hn2
        (fun s hs => .inr ⟨by rw [b1]; rfl, 255, by rw [b3] at hs; cases hs; rfl, by rw [b1]; exact ⟨_, _, rfl, by decide, by decide⟩⟩)
        (fun s c hs hc => by
          rw [b3] at hs; cases hs
          rw [b5 c (by rw [← b4]; exact hc)]
          rcases hbool hb c with e | e <;> rw [e] <;> decide +kernel)
        (fun e => by rw [b1] at e; cases e) (fun e => by rw [b1] at e; cases e) (fun e => by rw [b3] at e; cases e)
        (fun e => by rw [b1] at e; cases e) (fun e => by rw [b1] at e; cases e)
      have hs := Prod.mk.injEq .. ▸ b2
      rw [Prod.mk.injEq, Prod.mk.injEq] at b2
      refine ⟨⟨w1.1.trans b2.1, w1.2.1.trans b2.2.1, w1.2.2.trans b2.2.2⟩,
        fun c => ⟨(w2 c).1.trans (b4 c), fun hc => (w2 c).2.trans (b5 c hc)⟩, hold r2 w2 hn2 w4, .inr (.inl ⟨hb, ?_⟩), fun s _ => ?_,
        fun e => ?_⟩
      · rcases w3 with ⟨e, -⟩ | ⟨e, -⟩ | ⟨-, -, e⟩
        · rw [b1] at e; cases e
        · rw [b1] at e; cases e
        · exact e.trans b1
      · rw [if_pos hb]; exact w4 _ b3
      · unfold Raster.masked at hm; rw [e] at hm; cases hm
  · have hpass : boolAsByte np r = .ok r := by
      unfold boolAsByte
      rw [if_neg]
      intro hc
      rw [Bool.and_eq_true] at hc
      refine hb ⟨?_, hc.1⟩
      have := hc.2
      generalize r.dtype = dt at this
      cases dt <;> first | rfl | cases this
    rw [hpass] at h
    simp only at h
    have hbn : r.dtype = .bool → r.nv = none := by
      intro e
      by_contra hne
      exact hb ⟨e, by unfold Raster.masked; exact Option.isSome_iff_ne_none.2 hne⟩
    have hap' : Spec.NullApart r := by
      by_cases e : r.dtype = .bool
      · intro s c hs; rw [hbn e] at hs; cases hs
      · exact hap e
    obtain ⟨w1, w2, w3, w4, w5⟩ := write_open hg hnp h hn hty hap' hbool hbn hnan
      (fun e s hs => by
        obtain ⟨q, h1, h2⟩ := hu e s hs
        rw [h1]
        simp only [preservable, Bool.and_eq_true, decide_eq_true_eq]
        refine ⟨?_, h2⟩
        rcases hty s hs with ⟨e', -⟩ | ⟨-, n, e1, lo, hi, l1, l2, -⟩
        · rw [e] at e'; cases e'
        · rw [e] at l1
          simp only [limits, Option.some.injEq, Prod.mk.injEq] at l1
          rw [h1] at e1
          have : q = n := by injection e1
          rw [this]
          have : (0 : Int) ≤ n := by omega
          have : (0 : Rat) ≤ n := by exact_mod_cast this
          linarith)
      hbig
    refine ⟨w1, fun c => ⟨(w2 c).1, fun _ => (w2 c).2⟩, hold r w2 hn w4, w3, fun s hs => ?_, w5⟩
    rw [if_neg fun e => by rw [hbn e] at hs; cases hs]
    exact w4 s hs

/-- **C63 (null value).** `save(path, null_value=v)` writes what `set_null_value(v)` gives; `no_data_value` is the same; both
together raise TypeError. -/
theorem C63_null_value (np : NumPy) (g : Gdal) (ext : String) (driver : Option String) (v w : NullArg) (r : Raster) :
    (∀ f, save np g ext driver (some v) none r = .ok f ↔
      ∃ r1, r.setNullValue np (some v) = .ok r1 ∧ save np g ext driver none none r1 = .ok f) ∧
    save np g ext driver none (some v) r = save np g ext driver (some v) none r ∧
    save np g ext driver (some v) (some w) r = .error .type := by
  refine ⟨fun f => ?_, rfl, rfl⟩
  unfold save
  simp only [nullArg, withNull]
  constructor
  · intro h
    split at h
    · cases h
    · next r1 h1 => exact ⟨r1, h1, h⟩
  · rintro ⟨r1, h1, h⟩
    rw [h1]; exact h

/-- The extensions of files of NetCDF, HDF and GRIB. -/
inductive Spec.Foreign : String → Prop
  | netcdf (ext : String) : ext ∈ [".nc", ".nc4", ".cdf"] → Spec.Foreign ext
  | hdf4 (ext : String) : ext ∈ [".hdf", ".h4", ".hdf4", ".he2"] → Spec.Foreign ext
  | hdf5 (ext : String) : ext ∈ [".h5", ".hdf5", ".he5"] → Spec.Foreign ext
  | grib (ext : String) : ext ∈ [".grib", ".grb", ".gb", ".grib2", ".grb2", ".gb2"] → Spec.Foreign ext

/-- **C63 (formats).** Files with an extension of NetCDF, HDF or GRIB are refused. With any other extension the file is written if GDAL's
driver writes the dtype. -/
theorem C63_refused (np : NumPy) (g : Gdal) {ext : String} (driver : Option String) (r : Raster) :
    (Spec.Foreign ext → write np g ext driver r = .error .runtime ∧ ∀ f, save np g ext driver none none r ≠ .ok f) ∧
    (¬ Spec.Foreign ext → (∀ drv dt, g.writes drv dt = true) → ∃ f, write np g ext driver r = .ok f) := by
  have hmem : ext ∈ notImplemented ↔ Spec.Foreign ext := by
    constructor
    · intro h
      simp only [notImplemented, List.mem_cons, List.not_mem_nil, or_false] at h
      rcases h with h | h | h | h | h | h | h | h | h | h | h | h | h | h | h | h <;> subst h <;>
        first
        | exact .netcdf _ (by decide)
        | exact .hdf4 _ (by decide)
        | exact .hdf5 _ (by decide)
        | exact .grib _ (by decide)
    · intro h
      cases h <;> rename_i h <;> simp only [List.mem_cons, List.not_mem_nil, or_false] at h <;>
        simp only [notImplemented, List.mem_cons, List.not_mem_nil, or_false] <;> tauto
  refine ⟨fun h => ⟨by unfold write; rw [if_pos (hmem.2 h)], fun f => ?_⟩, fun h hw => ?_⟩
  · unfold save
    simp only [nullArg, withNull]
    split
    · exact nofun
    · unfold write; rw [if_pos (hmem.2 h)]; exact nofun
  · unfold write
    rw [if_neg fun c => h (hmem.1 c)]
    simp only [hw, if_true]
    exact ⟨_, rfl⟩

example : Spec.Foreign ".nc" ∧ Spec.Foreign ".grb2" ∧ ¬ Spec.Foreign ".tif" :=
  ⟨.netcdf _ (by decide), .grib _ (by decide), by intro h; cases h <;> rename_i h <;> exact absurd h (by decide)⟩

/-- **C63, nodata of opened files** (`io.py:90-103`): nodata within 0.001 % of the lowest number of 32 bits, as other programs write it, is rounded to a number
of 32 bits if the file holds such numbers; all other nodata values are kept as they are. -/
theorem C63_opened_null_value (np : NumPy) (f : File) :
    (∀ q : Rat, f.nodata = some (.fin q) → f.dtype = f32 →
      |q + (2 ^ 24 - 1) * 2 ^ 104| ≤ 1 / 10 ^ 8 + 1 / 10 ^ 5 * ((2 ^ 24 - 1) * 2 ^ 104) →
      (openFile np f).nv = some ⟨f32, np.cast f32 (.fin q)⟩) ∧
    (∀ v, f.nodata = some v →
      (∀ q : Rat, v = .fin q → f.dtype = f32 → 1 / 10 ^ 8 + 1 / 10 ^ 5 * ((2 ^ 24 - 1) * 2 ^ 104) < |q + (2 ^ 24 - 1) * 2 ^ 104|) →
      (openFile np f).nv = some ⟨f.dtype, v⟩) := by
  have key : ∀ q : Rat, esriNull (.fin q) = true ↔
      |q + (2 ^ 24 - 1) * 2 ^ 104| ≤ 1 / 10 ^ 8 + 1 / 10 ^ 5 * ((2 ^ 24 - 1) * 2 ^ 104) := by
    intro q
    simp only [esriNull, allclose, f32max, decide_eq_true_eq, sub_neg_eq_add, abs_neg]
    rw [abs_of_nonneg (a := (2 ^ 24 - 1) * 2 ^ 104) (by norm_num)]
  constructor
  · intro q hq hd h
    simp only [openFile, openedNull, hq, normalizeNull]
    rw [if_pos ⟨hd, (key q).2 h⟩, hd]
    rfl
  · intro v hv h
    simp only [openFile, openedNull, hv, normalizeNull]
    rw [if_neg]
    · rfl
    · rintro ⟨hd, he⟩
      cases v with
      | fin q => exact absurd ((key q).1 he) (not_le.2 (h q rfl hd))
      | _ => cases he

/-- Nodata as ArcGIS writes it, and 9999. -/
example : |(-340282346600000016151267322115014000640 : Rat) + (2 ^ 24 - 1) * 2 ^ 104| ≤ 1 / 10 ^ 8 + 1 / 10 ^ 5 * ((2 ^ 24 - 1) * 2 ^ 104) ∧
    1 / 10 ^ 8 + 1 / 10 ^ 5 * ((2 ^ 24 - 1) * 2 ^ 104) < |(9999 : Rat) + (2 ^ 24 - 1) * 2 ^ 104| := by
  constructor <;> norm_num [abs_of_pos, abs_of_neg, abs_le]

/-! ### Cases that meet the hypotheses -/

/-- A GDAL that keeps all nodata values. -/
def idGdal (int64 : Bool) : Gdal := ⟨int64, fun _ dt => dt ≠ .bool && dt ≠ f16 && dt ≠ f128, fun _ v => v⟩

theorem idLaws (int64 : Bool) : Spec.Laws (idNumPy true) (idGdal int64) := ⟨fun _ _ _ => rfl, fun _ _ _ _ _ _ => rfl⟩

theorem idExact (b : Bool) : ExactCast (idNumPy b) := fun _ _ _ => rfl

/-- 5, null, 7. -/
def sample (dt : DType) (nv : Num) : Raster :=
  ⟨dt, 1, 1, 3, fun c => if c = (0, 0, 1) then nv else if c = (0, 0, 0) then .fin 5 else .fin 7, fun c => c = (0, 0, 1), some ⟨dt, nv⟩⟩

example : ∃ f, save (idNumPy true) (idGdal true) ".tif" none none none (sample i64 (.fin (-2 ^ 63))) = .ok f ∧ f.dtype = f64 ∧
    f.nodata = some (.fin (-2 ^ 63)) := ⟨_, rfl, by decide +kernel, by decide +kernel⟩

example : ∃ f, save (idNumPy true) (idGdal true) ".tif" none none none (sample i64 (.fin (-9999))) = .ok f ∧ f.dtype = i64 :=
  ⟨_, rfl, by decide +kernel⟩

example : NullsHold (sample i64 (.fin (-2 ^ 63))) ∧ Spec.NullOfType (idNumPy true) (sample i64 (.fin (-2 ^ 63))) ∧
    Spec.NullApart (sample i64 (.fin (-2 ^ 63))) ∧ Spec.Booleans (sample i64 (.fin (-2 ^ 63))) := by
  refine ⟨fun c hc => ⟨_, rfl, ?_⟩, fun s hs => .inr ⟨rfl, -2 ^ 63, ?_, _, _, rfl, by decide, by decide⟩, fun s c hs hc => ?_, nofun⟩
  · simp [sample] at hc ⊢; simp [hc]
  · cases hs; norm_num
  · cases hs
    simp [sample] at hc ⊢
    refine ⟨hc, ?_⟩
    split <;> decide +kernel

/-- **Not the same**: a valid cell that holds the null value is null in the file. -/
theorem C63_valid_null_value : ∃ (r : Raster) (f : File), save (idNumPy true) (idGdal true) ".tif" none none none r = .ok f ∧
    NullsHold r ∧ r.mask (0, 0, 0) = false ∧ (openFile (idNumPy true) f).mask (0, 0, 0) = true :=
  ⟨⟨u8, 1, 1, 1, fun _ => .fin 9, fun _ => false, some ⟨u8, .fin 9⟩⟩, _, rfl, nofun, rfl, by decide +kernel⟩

/-- **Not the same**: NaN in a raster without null value is null in the file. -/
theorem C63_nan_without_null_value : ∃ (r : Raster) (f : File), save (idNumPy true) (idGdal true) ".tif" none none none r = .ok f ∧
    r.nv = none ∧ r.mask (0, 0, 0) = false ∧ (openFile (idNumPy true) f).mask (0, 0, 0) = true :=
  ⟨⟨f32, 1, 1, 1, fun _ => .nan, fun _ => false, none⟩, _, rfl, rfl, rfl, by decide +kernel⟩

/-- Keeps integer nodata values of 53 bits, and loses others. -/
def lossyGdal : Gdal := ⟨true, fun _ _ => true, fun dt v => if dt.isFloat || preservable (some v) then v else .fin 0⟩

theorem lossyLaws : Spec.Laws (idNumPy true) lossyGdal := by
  refine ⟨fun dt v h => ?_, fun dt n _ _ h1 h2 => ?_⟩
  · show (if dt.isFloat || preservable (some v) then v else .fin 0) = v
    rw [h]; rfl
  · show (if dt.isFloat || preservable (some (.fin n)) then (.fin n : Num) else .fin 0) = .fin n
    rw [if_pos]
    simp only [preservable, Bool.or_eq_true, Bool.and_eq_true, decide_eq_true_eq]
    exact .inr ⟨by exact_mod_cast h1, by exact_mod_cast h2⟩

/-- **Perhaps not the same**: the precaution for 64 bit integers is not taken for unsigned ones, whose default null value needs 64
bits.  With a GDAL of which no more is known than what the code says, their null cells are lost. -/
theorem C63_unsigned_null_value : ∃ (r : Raster) (f : File), save (idNumPy true) lossyGdal ".tif" none none none r = .ok f ∧
    NullsHold r ∧ Spec.NullApart r ∧ r.nv = some (defaultNull u64) ∧ r.mask (0, 0, 1) = true ∧
    (openFile (idNumPy true) f).mask (0, 0, 1) = false := by
  refine ⟨sample u64 (defaultNull u64).val, _, rfl, fun c hc => ⟨_, rfl, ?_⟩, fun s c hs hc => ?_, rfl, by decide +kernel, by decide +kernel⟩
  · simp [sample] at hc ⊢; simp [hc]
  · cases hs
    simp [sample] at hc ⊢
    refine ⟨hc, ?_⟩
    split <;> decide +kernel

/-- Doubles with 53 bits, for the witness: only one number is rounded. -/
def roundNumPy : NumPy := ⟨true, fun dt v => if dt = f64 ∧ v = .fin (2 ^ 53 + 1) then .fin (2 ^ 53) else v⟩

/-- **Not the same**: signed 64 bit integers with the default null value are written as doubles, and large values are rounded. -/
theorem C63_large_values_rounded : ∃ (r : Raster) (f : File), save roundNumPy (idGdal true) ".tif" none none none r = .ok f ∧
    r.mask (0, 0, 0) = false ∧ r.data (0, 0, 0) = .fin (2 ^ 53 + 1) ∧ (openFile roundNumPy f).data (0, 0, 0) = .fin (2 ^ 53) :=
  ⟨⟨i64, 1, 1, 1, fun _ => .fin (2 ^ 53 + 1), fun _ => false, some (defaultNull i64)⟩, _, rfl, rfl, rfl, by decide +kernel⟩

/-! ### C64: names of chunk files -/

/-- Digits of a number in `w` places, the first one first. -/
def fixed : Nat → Nat → List Char
  | 0, _ => []
  | w + 1, n => (n / 10 ^ w).digitChar :: fixed w (n % 10 ^ w)

theorem fixed_length (w n : Nat) : (fixed w n).length = w := by
  induction w generalizing n with
  | zero => rfl
  | succ w ih => rw [fixed, List.length_cons, ih]

theorem fixed_snoc (w : Nat) : ∀ n, n < 10 ^ (w + 1) → fixed (w + 1) n = fixed w (n / 10) ++ [(n % 10).digitChar] := by
  induction w with
  | zero =>
    intro n h
    simp only [Nat.zero_add, Nat.pow_one] at h
    simp [fixed, Nat.mod_eq_of_lt h]
  | succ w ih =>
    intro n h
    rw [fixed, ih _ (Nat.mod_lt _ (by positivity)), fixed, List.cons_append]
    have e1 : n / 10 / 10 ^ w = n / 10 ^ (w + 1) := by rw [Nat.div_div_eq_div_mul, Nat.pow_succ']
    have e2 : n % 10 ^ (w + 1) / 10 = n / 10 % 10 ^ w := by rw [Nat.pow_succ', Nat.mod_mul_right_div_self]
    have e3 : n % 10 ^ (w + 1) % 10 = n % 10 := Nat.mod_mod_of_dvd _ ⟨10 ^ w, Nat.pow_succ'⟩
    rw [e1, e2, e3]

theorem fixed_zero (w : Nat) : fixed w 0 = List.replicate w '0' := by
  induction w with
  | zero => rfl
  | succ w ih => rw [fixed, Nat.zero_mod, ih, Nat.zero_div]; rfl

/-- Padding with zeros gives the digits in a fixed number of places. -/
theorem padded_eq : ∀ (w n : Nat), 0 < w → n < 10 ^ w → padded w n = fixed w n
  | 0, _, h, _ => absurd h (lt_irrefl 0)
  | w + 1, n, _, h => by
    rw [fixed_snoc w n h]
    unfold padded digits
    rw [Nat.toDigits_eq_if (by decide)]
    by_cases hn : n < 10
    · rw [if_pos hn, Nat.mod_eq_of_lt hn, Nat.div_eq_of_lt hn, fixed_zero]; rfl
    · rw [if_neg hn]
      have hw : 0 < w := by
        rcases Nat.eq_zero_or_pos w with rfl | h'
        · simp at h; omega
        · exact h'
      have hlt : n / 10 < 10 ^ w := by
        rw [Nat.div_lt_iff_lt_mul (by decide), ← Nat.pow_succ]; exact h
      have := padded_eq w (n / 10) hw hlt
      unfold padded digits at this
      rw [← this, List.length_append, List.append_assoc]
      congr 2
      simp

theorem digit_lt : ∀ a b : Fin 10, (Nat.digitChar a < Nat.digitChar b ↔ a < b) ∧ (Nat.digitChar a = Nat.digitChar b ↔ a = b) := by
  decide +kernel

/-- In a fixed number of places the order of the digits is that of the numbers. -/
theorem fixed_lt (w : Nat) : ∀ n m, n < 10 ^ w → m < 10 ^ w → ((fixed w n < fixed w m ↔ n < m) ∧ (fixed w n = fixed w m ↔ n = m)) := by
  induction w with
  | zero => intro n m hn hm; simp at hn hm; subst hn; subst hm; simp [fixed]
  | succ w ih =>
    intro n m hn hm
    have hp : 0 < 10 ^ w := by positivity
    have hdn : n / 10 ^ w < 10 := by rw [Nat.div_lt_iff_lt_mul hp, ← Nat.pow_succ']; exact hn
    have hdm : m / 10 ^ w < 10 := by rw [Nat.div_lt_iff_lt_mul hp, ← Nat.pow_succ']; exact hm
    have hd := digit_lt ⟨_, hdn⟩ ⟨_, hdm⟩
    simp only [Fin.mk_lt_mk, Fin.mk.injEq] at hd
    have hr := ih (n % 10 ^ w) (m % 10 ^ w) (Nat.mod_lt _ hp) (Nat.mod_lt _ hp)
    have en := Nat.div_add_mod n (10 ^ w)
    have em := Nat.div_add_mod m (10 ^ w)
    have rn := Nat.mod_lt n hp
    have rm := Nat.mod_lt m hp
    rw [fixed, fixed, List.cons_lt_cons_iff, hd.1, hd.2, hr.1, List.cons.injEq, hd.2, hr.2]
    generalize 10 ^ w = p at *
    generalize n / p = a at *
    generalize m / p = b at *
    generalize n % p = x at *
    generalize m % p = y at *
    have hmul : a < b → p * a + p ≤ p * b := fun h => by
      calc p * a + p = p * (a + 1) := by ring
        _ ≤ p * b := Nat.mul_le_mul_left _ h
    have hmul' : b < a → p * b + p ≤ p * a := fun h => by
      calc p * b + p = p * (b + 1) := by ring
        _ ≤ p * a := Nat.mul_le_mul_left _ h
    subst en em
    rcases Nat.lt_trichotomy a b with h | h | h
    · have := hmul h
      constructor
      · constructor
        · intro _; omega
        · intro _; exact .inl h
      · constructor
        · rintro ⟨e, -⟩; omega
        · intro _; omega
    · subst h
      constructor
      · constructor
        · rintro (h | ⟨-, h⟩) <;> omega
        · intro h; exact .inr ⟨rfl, by omega⟩
      · constructor
        · rintro ⟨-, e⟩; omega
        · intro _; exact ⟨rfl, by omega⟩
    · have := hmul' h
      constructor
      · constructor
        · rintro (h | ⟨h, -⟩) <;> omega
        · intro _; omega
      · constructor
        · rintro ⟨e, -⟩; omega
        · intro _; omega

/-- Equal beginnings do not matter for the order; different ones of equal length decide. -/
theorem append_lt : ∀ (a b x y : List Char), a.length = b.length →
    (a ++ x < b ++ y ↔ a < b ∨ (a = b ∧ x < y))
  | [], [], x, y, _ => by simp
  | [], _ :: _, _, _, h => by simp at h
  | _ :: _, [], _, _, h => by simp at h
  | p :: a, q :: b, x, y, h => by
    have ih := append_lt a b x y (by simpa using h)
    rw [List.cons_append, List.cons_append, List.cons_lt_cons_iff, List.cons_lt_cons_iff, ih, List.cons.injEq]
    tauto

theorem text_irrefl (l : List Char) : ¬l < l := by
  induction l with
  | nil => simp
  | cons a l ih =>
    rw [List.cons_lt_cons_iff]
    rintro (h | ⟨-, h⟩)
    · exact Char.lt_irrefl a h
    · exact ih h

theorem width_pos (n : Nat) : 0 < width n := by
  unfold width; split
  · decide
  · omega

theorem lt_width {i n : Nat} (h : i < n) : i < 10 ^ width n := by
  have hw : width n = max 1 (digits (n - 1)).length := by unfold width; rw [if_neg (by omega)]
  have : n - 1 < 10 ^ width n := (Nat.length_toDigits_le_iff (by decide) (width_pos n)).1 (by rw [hw]; exact le_max_right _ _)
  omega

theorem padded_lt {n i j : Nat} (hi : i < n) (hj : j < n) :
    (padded (width n) i < padded (width n) j ↔ i < j) ∧ (padded (width n) i = padded (width n) j ↔ i = j) ∧
      (padded (width n) i).length = (padded (width n) j).length := by
  rw [padded_eq _ _ (width_pos n) (lt_width hi), padded_eq _ _ (width_pos n) (lt_width hj)]
  obtain ⟨h1, h2⟩ := fixed_lt _ _ _ (lt_width hi) (lt_width hj)
  exact ⟨h1, h2, by rw [fixed_length, fixed_length]⟩

theorem append_eq {α : Type} {a b x y : List α} (h : a.length = b.length) : a ++ x = b ++ y ↔ a = b ∧ x = y :=
  ⟨fun e => List.append_inj e h, fun ⟨h1, h2⟩ => by rw [h1, h2]⟩

/-- One more index in front. -/
theorem step {n i j : Nat} (hi : i < n) (hj : j < n) (k : Char) (x y : List Char) :
    (k :: (padded (width n) i ++ x) < k :: (padded (width n) j ++ y) ↔ i < j ∨ (i = j ∧ x < y)) ∧
    (k :: (padded (width n) i ++ x) = k :: (padded (width n) j ++ y) ↔ i = j ∧ x = y) := by
  obtain ⟨h1, h2, h3⟩ := padded_lt hi hj
  rw [List.cons_lt_cons_iff, append_lt _ _ _ _ h3, h1, h2, List.cons.injEq, append_eq h3, h2]
  have := Char.lt_irrefl k
  tauto

theorem pre_lt (pre x y : List Char) : (pre ++ x < pre ++ y ↔ x < y) ∧ (pre ++ x = pre ++ y ↔ x = y) := by
  rw [append_lt _ _ _ _ rfl]
  have := text_irrefl pre
  simp [this]

/-- **C64 (order).** The names of the files of different chunks sort like the chunks: by row, then by column. -/
theorem C64_tile_order (pre ext : List Char) {ny nx r c r' c' : Nat} (hr : r < ny) (hr' : r' < ny) (hc : c < nx) (hc' : c' < nx) :
    (tileName pre ext ny nx r c < tileName pre ext ny nx r' c' ↔ r < r' ∨ (r = r' ∧ c < c')) ∧
    (tileName pre ext ny nx r c = tileName pre ext ny nx r' c' ↔ r = r' ∧ c = c') := by
  unfold tileName
  simp only [List.append_assoc, List.cons_append]
  have hcol := step hc hc' '_' ext ext
  have hrow := step hr hr' '_' ('_' :: (padded (width nx) c ++ ext)) ('_' :: (padded (width nx) c' ++ ext))
  rw [(pre_lt _ _ _).1, (pre_lt _ _ _).2, hrow.1, hrow.2, hcol.1, hcol.2]
  simp only [text_irrefl, and_false, or_false, and_true, iff_self, and_self]

/-- **C64 (order, single bands).** By band, row and column. -/
theorem C64_band_order (pre ext : List Char) {nb ny nx b r c b' r' c' : Nat} (hb : b < nb) (hb' : b' < nb) (hr : r < ny)
    (hr' : r' < ny) (hc : c < nx) (hc' : c' < nx) :
    (bandName pre ext nb ny nx b r c < bandName pre ext nb ny nx b' r' c' ↔
      b < b' ∨ (b = b' ∧ (r < r' ∨ (r = r' ∧ c < c')))) ∧
    (bandName pre ext nb ny nx b r c = bandName pre ext nb ny nx b' r' c' ↔ b = b' ∧ r = r' ∧ c = c') := by
  unfold bandName
  simp only [List.append_assoc, List.cons_append]
  have hcol := step hc hc' '_' ext ext
  have hrow := step hr hr' '_' ('_' :: (padded (width nx) c ++ ext)) ('_' :: (padded (width nx) c' ++ ext))
  have hband := step hb hb' 'b' ('_' :: (padded (width ny) r ++ '_' :: (padded (width nx) c ++ ext)))
    ('_' :: (padded (width ny) r' ++ '_' :: (padded (width nx) c' ++ ext)))
  have hone : ∀ x y : List Char, ('_' :: x < '_' :: y ↔ x < y) ∧ ('_' :: x = '_' :: y ↔ x = y) := by
    intro x y; rw [List.cons_lt_cons_iff]; have := Char.lt_irrefl '_'; simp [this]
  rw [(pre_lt _ _ _).1, (pre_lt _ _ _).2, (hone _ _).1, (hone _ _).2, hband.1, hband.2, hrow.1, hrow.2, hcol.1, hcol.2]
  simp only [text_irrefl, and_false, or_false, and_true, iff_self, and_self]

theorem lookup_of_injective {α ι : Type} (l : List ι) (name : ι → List Char) (content : ι → α) {i : ι} (hi : i ∈ l)
    (hinj : ∀ j ∈ l, name j = name i → j = i) : lookup (l.map fun j => (name j, content j)) (name i) = some (content i) := by
  unfold lookup
  rw [← List.map_reverse]
  have hi : i ∈ l.reverse := List.mem_reverse.2 hi
  have hinj : ∀ j ∈ l.reverse, name j = name i → j = i := fun j hj => hinj j (List.mem_reverse.1 hj)
  generalize l.reverse = l at hi hinj
  induction l with
  | nil => cases hi
  | cons a l ih =>
    rw [List.map_cons, List.find?_cons]
    by_cases h : name a = name i
    · have := hinj a List.mem_cons_self h
      subst this
      simp
    · simp only [h, decide_false]
      refine ih ?_ fun j hj => hinj j (List.mem_cons_of_mem _ hj)
      rcases List.mem_cons.1 hi with rfl | hi
      · exact absurd rfl h
      · exact hi

theorem mem_indices3 {nb ny nx : Nat} (i : Nat × Nat × Nat) : i ∈ indices3 nb ny nx ↔ i.1 < nb ∧ i.2.1 < ny ∧ i.2.2 < nx := by
  obtain ⟨b, r, c⟩ := i
  unfold indices3
  simp only [List.mem_flatMap, List.mem_range, List.mem_map, Prod.mk.injEq]
  constructor
  · rintro ⟨b', hb, r', hr, c', hc, rfl, rfl, rfl⟩; exact ⟨hb, hr, hc⟩
  · rintro ⟨hb, hr, hc⟩; exact ⟨b, hb, r, hr, c, hc, rfl, rfl, rfl⟩

/-- **C64 (contents).** No file is overwritten: the file of each chunk holds this chunk, and there is one file per chunk. -/
theorem C64_tile_contents {α : Type} (pre ext : List Char) {ny nx : Nat} (content : Nat → Nat → α) :
    (∀ r c, r < ny → c < nx → lookup (writtenTiles pre ext ny nx content) (tileName pre ext ny nx r c) = some (content r c)) ∧
    (∀ name, (∃ a, (name, a) ∈ writtenTiles pre ext ny nx content) ↔ ∃ r c, r < ny ∧ c < nx ∧ name = tileName pre ext ny nx r c) := by
  refine ⟨fun r c hr hc => ?_, fun name => ?_⟩
  · refine lookup_of_injective (i := (0, r, c)) (indices3 1 ny nx) (fun i => tileName pre ext ny nx i.2.1 i.2.2)
      (fun i => content i.2.1 i.2.2) ((mem_indices3 _).2 ⟨Nat.one_pos, hr, hc⟩) fun j hj e => ?_
    obtain ⟨h1, h2, h3⟩ := (mem_indices3 _).1 hj
    obtain ⟨e1, e2⟩ := (C64_tile_order pre ext h2 hr h3 hc).2.1 e
    obtain ⟨b', r', c'⟩ := j
    simp only at h1 e1 e2
    rw [Nat.lt_one_iff.1 h1, e1, e2]
  · unfold writtenTiles
    simp only [List.mem_map, mem_indices3, Prod.mk.injEq]
    constructor
    · rintro ⟨a, i, ⟨-, h2, h3⟩, rfl, -⟩; exact ⟨_, _, h2, h3, rfl⟩
    · rintro ⟨r, c, hr, hc, rfl⟩; exact ⟨_, (0, r, c), ⟨Nat.one_pos, hr, hc⟩, rfl, rfl⟩

/-- **C64 (contents, single bands).** -/
theorem C64_band_contents {α : Type} (pre ext : List Char) {nb ny nx : Nat} (content : Nat → Nat → Nat → α) :
    (∀ b r c, b < nb → r < ny → c < nx →
      lookup (writtenBands pre ext nb ny nx content) (bandName pre ext nb ny nx b r c) = some (content b r c)) ∧
    (∀ name, (∃ a, (name, a) ∈ writtenBands pre ext nb ny nx content) ↔
      ∃ b r c, b < nb ∧ r < ny ∧ c < nx ∧ name = bandName pre ext nb ny nx b r c) := by
  refine ⟨fun b r c hb hr hc => ?_, fun name => ?_⟩
  · refine lookup_of_injective (i := (b, r, c)) (indices3 nb ny nx) (fun i => bandName pre ext nb ny nx i.1 i.2.1 i.2.2)
      (fun i => content i.1 i.2.1 i.2.2) ((mem_indices3 _).2 ⟨hb, hr, hc⟩) fun j hj e => ?_
    obtain ⟨h1, h2, h3⟩ := (mem_indices3 _).1 hj
    obtain ⟨e0, e1, e2⟩ := (C64_band_order pre ext h1 hb h2 hr h3 hc).2.1 e
    obtain ⟨b', r', c'⟩ := j
    simp only at e0 e1 e2
    rw [e0, e1, e2]
  · unfold writtenBands
    simp only [List.mem_map, mem_indices3, Prod.mk.injEq]
    constructor
    · rintro ⟨a, i, ⟨h1, h2, h3⟩, rfl, -⟩; exact ⟨_, _, _, h1, h2, h3, rfl⟩
    · rintro ⟨b, r, c, hb, hr, hc, rfl⟩; exact ⟨_, (b, r, c), ⟨hb, hr, hc⟩, rfl, rfl⟩

/-- **C64 (extension).** An extension is added once, with or without its dot; `""` adds nothing. -/
theorem C64_extension (e chosen : List Char) :
    extension (some ('.' :: e)) chosen = '.' :: e ∧ extension (some []) chosen = [] ∧
    (∀ k, k ≠ '.' → extension (some (k :: e)) chosen = '.' :: k :: e) ∧
    extension none chosen = extension (some chosen) chosen := by
  refine ⟨rfl, rfl, fun k hk => ?_, rfl⟩
  unfold extension
  simp only [Option.getD_some]
  split
  · next h => cases h
  · next h => injection h with h; exact absurd h hk
  · rfl

example : tileName "tiles/dem".toList ".tif".toList 12 3 4 2 = "tiles/dem_04_2.tif".toList := by decide +kernel

example : bandName "t".toList [] 1 101 11 0 7 10 = "t_b0_007_10".toList := by decide +kernel

/-! ### C65: overviews -/

theorem mem_overviewLoop (side : Nat) : ∀ (fuel f x : Nat), 0 < f → side < 256 * f * 2 ^ fuel →
    (x ∈ overviewLoop side fuel f ↔ ∃ k, x = f * 2 ^ k ∧ 256 * x ≤ side)
  | 0, f, x, hf, hs => by
    simp only [overviewLoop, List.not_mem_nil, false_iff]
    rintro ⟨k, rfl, h⟩
    have := Nat.mul_le_mul_left (256 * f) (Nat.one_le_two_pow (n := k))
    simp only [Nat.pow_zero, Nat.mul_one] at hs this
    rw [← Nat.mul_assoc] at h
    omega
  | fuel + 1, f, x, hf, hs => by
    have hs' : side < 256 * (f * 2) * 2 ^ fuel := by
      rw [Nat.pow_succ'] at hs
      calc side < 256 * f * (2 * 2 ^ fuel) := hs
        _ = 256 * (f * 2) * 2 ^ fuel := by ring
    rw [overviewLoop]
    by_cases h : side ≥ 256 * f
    · rw [if_pos h, List.mem_cons, mem_overviewLoop side fuel (f * 2) x (by omega) hs']
      constructor
      · rintro (rfl | ⟨k, rfl, h'⟩)
        · exact ⟨0, by simp, h⟩
        · exact ⟨k + 1, by rw [Nat.pow_succ']; ring, h'⟩
      · rintro ⟨k, rfl, h'⟩
        cases k with
        | zero => exact .inl (by simp)
        | succ k => exact .inr ⟨k, by rw [Nat.pow_succ']; ring, h'⟩
    · rw [if_neg h]
      simp only [List.not_mem_nil, false_iff]
      rintro ⟨k, rfl, h'⟩
      have := Nat.mul_le_mul_left (256 * f) (Nat.one_le_two_pow (n := k))
      rw [Nat.mul_one] at this
      rw [← Nat.mul_assoc] at h'
      omega

theorem overviewLoop_sorted (side : Nat) : ∀ (fuel f : Nat), 0 < f →
    (overviewLoop side fuel f).Pairwise (· < ·) ∧ ∀ x ∈ overviewLoop side fuel f, f ≤ x
  | 0, _, _ => by simp [overviewLoop]
  | fuel + 1, f, hf => by
    rw [overviewLoop]
    obtain ⟨h1, h2⟩ := overviewLoop_sorted side fuel (f * 2) (by omega)
    split
    · refine ⟨List.pairwise_cons.2 ⟨fun x hx => ?_, h1⟩, fun x hx => ?_⟩
      · have := h2 x hx; omega
      · rcases List.mem_cons.1 hx with rfl | hx
        · exact le_rfl
        · have := h2 x hx; omega
    · simp

/-- **C65.** `save(overviews=True)` builds overviews for exactly those powers of two, from 2 upwards, that leave at least 256 cells on
the shorter side, each once, in ascending order; a list is taken as it is; without the argument none are built. -/
theorem C65_overviews (driver : Option String) (hd : driver ≠ some "COG") (h w : Nat) :
    (∀ x, x ∈ builtFactors driver .true h w ↔ ∃ k, 1 ≤ k ∧ x = 2 ^ k ∧ 256 * x ≤ h ∧ 256 * x ≤ w) ∧
    (builtFactors driver .true h w).Pairwise (· < ·) ∧ (∀ l, builtFactors driver (.list l) h w = l) ∧
    builtFactors driver .none h w = [] ∧ builtFactors driver .false h w = [] := by
  unfold builtFactors
  simp only [if_neg hd]
  unfold overviewFactors
  refine ⟨fun x => ?_, (overviewLoop_sorted _ _ 2 (by decide)).1, fun _ => trivial, trivial, trivial⟩
  rw [mem_overviewLoop _ _ 2 x (by decide)]
  · constructor
    · rintro ⟨k, rfl, hk⟩
      exact ⟨k + 1, by omega, by rw [Nat.pow_succ'], le_trans hk (min_le_left _ _), le_trans hk (min_le_right _ _)⟩
    · rintro ⟨k, hk, rfl, h1, h2⟩
      obtain ⟨j, rfl⟩ := Nat.exists_eq_add_of_le hk
      exact ⟨j, by rw [Nat.add_comm, Nat.pow_succ'], le_min h1 h2⟩
  · have : min h w < 2 ^ min h w := Nat.lt_two_pow_self
    rw [Nat.pow_succ]
    omega

example : builtFactors (some "GTiff") .true 4096 1500 = [2, 4] ∧ builtFactors none .true 511 9000 = [] := by decide +kernel

/-- **C63 (64 bit integers).** They stay as they are exactly if the driver keeps them and the null value, if any, is a number that
doubles tell apart. -/
theorem C63_int64 {np : NumPy} {g : Gdal} {ext : String} {driver : Option String} {r : Raster} {f : File}
    (h : save np g ext driver none none r = .ok f) (hi : r.dtype = i64) :
    (f.dtype = i64 ∨ f.dtype = f64) ∧ (f.dtype = i64 ↔ g.int64 = true ∧
      (driver = some "GTiff" ∨ driver = some "COG" ∨ driver = none ∧ (ext = ".tif" ∨ ext = ".tiff")) ∧
      ∀ s, r.nv = some s → ∃ q : Rat, s.val = .fin q ∧ |q| ≤ 2 ^ 53) := by
  unfold save at h
  have hb : boolAsByte np r = .ok r := by
    unfold boolAsByte
    rw [hi]
    simp [isBool]
  simp only [nullArg, withNull, hb] at h
  unfold write at h
  split at h
  · cases h
  simp only at h
  split at h
  case isFalse => cases h
  cases h
  simp only
  have hd : nativeInt64 g (resolveDriver ext driver) = true ↔ g.int64 = true ∧
      (driver = some "GTiff" ∨ driver = some "COG" ∨ driver = none ∧ (ext = ".tif" ∨ ext = ".tiff")) := by
    unfold nativeInt64 resolveDriver driverOfExt
    cases driver with
    | some d => simp [and_comm]
    | none =>
      by_cases he : ext = ".tif" ∨ ext = ".tiff"
      · simp [he]
      · simp [he]
  have hp : preservable (r.nv.map (·.val)) = true ↔ ∀ s, r.nv = some s → ∃ q : Rat, s.val = .fin q ∧ |q| ≤ 2 ^ 53 := by
    cases r.nv with
    | none => simp [preservable]
    | some s =>
      simp only [Option.map_some, Option.some.injEq, forall_eq']
      cases s.val with
      | fin q => simp [preservable, abs_le]
      | _ => simp [preservable]
  rw [← and_assoc, ← hd, ← hp, hi]
  unfold fileDtype
  rw [if_pos rfl]
  cases nativeInt64 g (resolveDriver ext driver) <;> cases preservable (r.nv.map (·.val)) <;> simp

end Verif.Files
