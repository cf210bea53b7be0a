import Verif.Create.Model
import Verif.Nulls.ScalarProps

/-! # C61: rasters made like a template -/

set_option linter.unusedSectionVars false

namespace Verif.Create

open Verif Verif.Nulls DType

namespace Spec

/-- The template, given by one of the two arguments. -/
def Given (template rasterTemplate : Option Template) (t : Template) : Prop :=
  template = some t ∧ rasterTemplate = none ∨ template = none ∧ rasterTemplate = some t

/-- The cells to be null in a result with `bands` bands: those of the template, or of its first band in every band. -/
def NullLike (r : Raster) (bands : Nat) (k y x : Nat) : Prop :=
  bands = r.nb ∧ r.mask (k, y, x) = true ∨ bands ≠ r.nb ∧ r.mask (0, y, x) = true

/-- A raster without null value and null cells. -/
def NoNulls (o : Raster) : Prop := o.nv = none ∧ ∀ c, o.mask c = false

/-- The distributions of counts. -/
def counts : List String := ["b", "binomial", "p", "poisson"]

/-- The distribution is known and has its parameters. -/
def Enough (dist : String) (params : Nat) : Prop :=
  (dist ∈ ["n", "normal", "b", "binomial"] ∧ 2 ≤ params) ∨ (dist ∈ ["p", "poisson", "w", "weibull"] ∧ 1 ≤ params) ∨
    dist ∈ ["u", "uniform"]

end Spec

theorem promote_self (d : DType) : d.promote d = some d := by cases d <;> decide

theorem coalesce_ok {a b : Option Template} {t : Template} (h : coalesce a b = .ok t) : Spec.Given a b t := by
  unfold coalesce at h
  split at h <;> cases h
  · exact .inr ⟨rfl, rfl⟩
  · exact .inl ⟨rfl, rfl⟩

theorem fullLike_ok {np : NumPy} {a b : Option Template} {v : ValueArg} {bands : Option Int} {dtype : DtypeArg}
    {copyMask : Bool} {o : Raster} (h : fullLike np a b v bands dtype copyMask = .ok o) :
    ∃ (t : Template) (s : Scalar) (n : Nat) (dt : Option DType), Spec.Given a b t ∧ v = .scalar s ∧ bands = some (n : Int) ∧ 1 ≤ n ∧
      (dtype = .absent ∧ dt = none ∨ ∃ d, dtype = .dtype d ∧ dt = some d) ∧
      ((∃ ny nx, t = .geobox ny nx) → copyMask = false) ∧ o = filled np t s n dt copyMask := by
  unfold fullLike at h
  split at h
  · cases h
  · next t ht =>
    cases v with
    | absent => cases h
    | notNumber =>
      simp only [getValue, ValueArg.isAbsent, Bool.false_eq_true, if_false] at h
      split at h
      · cases h
      · split at h <;> cases h
    | scalar s =>
      simp only [getValue, ValueArg.isAbsent, Bool.false_eq_true, if_false] at h
      split at h
      · cases h
      · next hc =>
        split at h
        · cases h
        · next n hn =>
          split at h
          · cases h
          · next dt hdt =>
            have h := Except.ok.inj h
            refine ⟨t, s, n, dt, coalesce_ok ht, rfl, ?_, ?_, ?_, ?_, h.symm⟩
            · unfold getBands at hn
              split at hn
              · cases hn
              · split at hn
                · cases hn
                · next hlt => cases hn; congr 1; omega
            · unfold getBands at hn
              split at hn
              · cases hn
              · split at hn
                · cases hn
                · next hlt => cases hn; omega
            · unfold getDtype at hdt
              split at hdt <;> cases hdt
              · exact .inl ⟨rfl, rfl⟩
              · exact .inr ⟨_, rfl, rfl⟩
            · rintro ⟨ny, nx, rfl⟩
              unfold checkCopyMask at hc
              simp only at hc
              split at hc
              · cases hc
              · next hf => simpa using hf

/-- **C61 (no mask).** Without `copy_mask`, or for a template without null value: every cell holds the value, in the dtype asked
for or that of the value; there is no null value and no null cell.  The shape is that of the template with the bands asked for. -/
theorem C61_full {np : NumPy} {a b : Option Template} {v : ValueArg} {bands : Option Int} {dtype : DtypeArg}
    {copyMask : Bool} {o : Raster} (h : fullLike np a b v bands dtype copyMask = .ok o) :
    ∃ (t : Template) (s : Scalar) (n : Nat), Spec.Given a b t ∧ v = .scalar s ∧ bands = some (n : Int) ∧ 1 ≤ n ∧ o.nb = n ∧ (o.ny, o.nx) = t.shape ∧
      ((copyMask = false ∨ ∀ r, t = .raster r → r.nv = none) → Spec.NoNulls o ∧ (∀ c, o.data c = np.cast o.dtype s.val) ∧
        (dtype = .absent ∧ o.dtype = s.ty ∨ dtype = .dtype o.dtype)) := by
  obtain ⟨t, s, n, dt, h1, h2, h3, h4, h5, h6, rfl⟩ := fullLike_ok h
  refine ⟨t, s, n, h1, h2, h3, h4, ?_⟩
  have hdt : dtype = .absent ∧ dt.getD s.ty = s.ty ∨ dtype = .dtype (dt.getD s.ty) := by
    rcases h5 with ⟨e1, rfl⟩ | ⟨d, e1, rfl⟩
    · exact .inl ⟨e1, rfl⟩
    · exact .inr e1
  cases t with
  | geobox ny nx => exact ⟨rfl, rfl, fun _ => ⟨⟨rfl, fun _ => rfl⟩, fun _ => rfl, hdt⟩⟩
  | raster r =>
    by_cases hc : (r.masked && copyMask) = true
    · have : filled np (.raster r) s n dt copyMask = masked np (dt.getD s.ty) n r.ny r.nx (fun _ => np.cast (dt.getD s.ty) s.val)
          (copiedMask r n) (copiedNull r (copyNull (.raster r) dt) (dt.getD s.ty)) := by
        simp only [filled, buildResult]
        rw [if_pos hc]
      rw [this]
      refine ⟨rfl, rfl, ?_⟩
      rw [Bool.and_eq_true] at hc
      rintro (hf | hn)
      · rw [hf] at hc; simp at hc
      · have := hn r rfl
        simp [Raster.masked, this] at hc
    · have : filled np (.raster r) s n dt copyMask = ⟨dt.getD s.ty, n, r.ny, r.nx, fun _ => np.cast (dt.getD s.ty) s.val,
          fun _ => false, none⟩ := by
        simp only [filled, buildResult]
        rw [if_neg hc]
      rw [this]
      exact ⟨rfl, rfl, fun _ => ⟨⟨rfl, fun _ => rfl⟩, fun _ => rfl, hdt⟩⟩

/-- A result with a copied mask whose null value is of the dtype of the data. -/
theorem masked_same (np : NumPy) {dt : DType} (bands ny nx : Nat) (data : Cell → Num) (mask : Cell → Bool) {s : Scalar}
    (hs : s.ty = dt) : masked np dt bands ny nx data mask s =
      ⟨dt, bands, ny, nx, fun c => if mask c then np.cast dt s.val else data c, mask, some s⟩ := by
  have : whereDtype s dt = dt := by unfold whereDtype; rw [hs, promote_self]; rfl
  unfold masked
  simp only [this, if_true]

theorem copiedMask_iff (r : Raster) (n k y x : Nat) : copiedMask r n (k, y, x) = true ↔ Spec.NullLike r n k y x := by
  unfold copiedMask Spec.NullLike
  by_cases h : n = r.nb <;> simp [h]

/-- **C61 (copied mask), for a given dtype or a value of the template's dtype.**  With `copy_mask` and a template that has a null
value (of its own dtype), the null cells are those of the template; all others hold the value, in the dtype asked for, or that of
the value.  The null value is that of the template if the dtype is the same, else the default one; null cells hold it. -/
theorem C61_copy_mask_partial {np : NumPy} {a b : Option Template} {s : Scalar} {bands : Option Int} {dtype : DtypeArg}
    {o r : Raster} {nv : Scalar} (h : fullLike np a b (.scalar s) bands dtype true = .ok o) (ht : Spec.Given a b (.raster r))
    (hnv : r.nv = some nv) (hty : nv.ty = r.dtype) (hd : dtype = .absent → s.ty = r.dtype) :
    o.nb = (bands.getD 0).toNat ∧ (dtype = .absent ∧ o.dtype = s.ty ∨ dtype = .dtype o.dtype) ∧
      o.nv = some (if o.dtype = r.dtype then nv else defaultNull o.dtype) ∧
      ∀ k y x, (o.mask (k, y, x) = true ↔ Spec.NullLike r o.nb k y x) ∧
        (o.mask (k, y, x) = false → o.data (k, y, x) = np.cast o.dtype s.val) ∧
        (o.mask (k, y, x) = true → ∃ t, o.nv = some t ∧ o.data (k, y, x) = np.cast o.dtype t.val) := by
  obtain ⟨t, s', n, dt, h1, h2, h3, h4, h5, h6, rfl⟩ := fullLike_ok h
  cases h2
  have htr : t = .raster r := by
    rcases h1 with ⟨e1, e2⟩ | ⟨e1, e2⟩ <;> rcases ht with ⟨e3, e4⟩ | ⟨e3, e4⟩ <;> simp_all
  subst htr
  have hm : (r.masked && true) = true := by simp [Raster.masked, hnv]
  have hsame : (copyNull (.raster r) dt = true ∧ dt.getD s.ty = r.dtype) ∨
      (copyNull (.raster r) dt = false ∧ dt.getD s.ty ≠ r.dtype) := by
    rcases h5 with ⟨e1, rfl⟩ | ⟨d, e1, rfl⟩
    · exact .inl ⟨rfl, hd e1⟩
    · by_cases hdr : d = r.dtype
      · exact .inl ⟨by simp [copyNull, hdr], hdr⟩
      · exact .inr ⟨by simp [copyNull, hdr], hdr⟩
  have hnull : copiedNull r (copyNull (.raster r) dt) (dt.getD s.ty) =
      if dt.getD s.ty = r.dtype then nv else defaultNull (dt.getD s.ty) := by
    rcases hsame with ⟨e1, e2⟩ | ⟨e1, e2⟩
    · rw [e1, if_pos e2, copiedNull, if_pos rfl, hnv]; rfl
    · rw [e1, if_neg e2, copiedNull, if_neg Bool.false_ne_true]
  have hty' : (copiedNull r (copyNull (.raster r) dt) (dt.getD s.ty)).ty = dt.getD s.ty := by
    rw [hnull]
    split
    · next e => rw [hty, e]
    · exact (C18_default_fits _).2
  have ho : filled np (.raster r) s n dt true = ⟨dt.getD s.ty, n, r.ny, r.nx, fun c => if copiedMask r n c then
      np.cast (dt.getD s.ty) (copiedNull r (copyNull (.raster r) dt) (dt.getD s.ty)).val else np.cast (dt.getD s.ty) s.val,
      copiedMask r n, some (copiedNull r (copyNull (.raster r) dt) (dt.getD s.ty))⟩ := by
    simp only [filled, buildResult]
    rw [if_pos hm, masked_same np n r.ny r.nx _ _ hty']
  rw [ho]
  refine ⟨by rw [h3]; simp, ?_, by rw [hnull], fun k y x => ⟨copiedMask_iff r n k y x, ?_, ?_⟩⟩
  · rcases h5 with ⟨e1, rfl⟩ | ⟨d, e1, rfl⟩
    · exact .inl ⟨e1, rfl⟩
    · exact .inr e1
  · intro hc
    simp only at hc ⊢
    rw [hc]; rfl
  · intro hc
    simp only at hc ⊢
    rw [hc]
    exact ⟨_, rfl, rfl⟩

/-- **C61 (arguments).** `full_like` gives a raster exactly if one template, a scalar, at least one band and a known dtype (or none)
are given, and no mask is asked of a GeoBox. -/
theorem C61_accepted (np : NumPy) (a b : Option Template) (v : ValueArg) (bands : Option Int) (dtype : DtypeArg)
    (copyMask : Bool) : (∃ o, fullLike np a b v bands dtype copyMask = .ok o) ↔
      (∃ t, Spec.Given a b t ∧ ((∃ ny nx, t = .geobox ny nx) → copyMask = false)) ∧ (∃ s, v = .scalar s) ∧
      (∃ n : Int, bands = some n ∧ 1 ≤ n) ∧ (dtype = .absent ∨ ∃ d, dtype = .dtype d) := by
  constructor
  · rintro ⟨o, h⟩
    obtain ⟨t, s, n, dt, h1, h2, h3, h4, h5, h6, -⟩ := fullLike_ok h
    refine ⟨⟨t, h1, h6⟩, ⟨s, h2⟩, ⟨n, h3, by omega⟩, ?_⟩
    rcases h5 with ⟨e, -⟩ | ⟨d, e, -⟩
    · exact .inl e
    · exact .inr ⟨d, e⟩
  · rintro ⟨⟨t, ht, hg⟩, ⟨s, rfl⟩, ⟨n, rfl, hn⟩, hd⟩
    have e1 : coalesce a b = .ok t := by
      rcases ht with ⟨rfl, rfl⟩ | ⟨rfl, rfl⟩ <;> rfl
    have e2 : checkCopyMask t copyMask = .ok () := by
      cases t with
      | raster r => rfl
      | geobox ny nx => rw [hg ⟨ny, nx, rfl⟩]; rfl
    have e3 : getBands (some n) = .ok n.toNat := by simp only [getBands]; rw [if_neg (by omega)]
    obtain ⟨dt, e4⟩ : ∃ dt, getDtype dtype = .ok dt := by
      rcases hd with rfl | ⟨d, rfl⟩
      · exact ⟨_, rfl⟩
      · exact ⟨_, rfl⟩
    refine ⟨filled np t s n.toNat dt copyMask, ?_⟩
    unfold fullLike
    simp only [e1, e2, e3, e4, getValue, ValueArg.isAbsent, Bool.false_eq_true, if_false]

theorem randomDtype_ok (dist : String) (k : Nat) (dt : DType) :
    randomDtype dist k = .ok dt ↔ Spec.Enough dist k ∧ (dist ∈ Spec.counts ∧ dt = i64 ∨ dist ∉ Spec.counts ∧ dt = f64) := by
  unfold randomDtype neededParams Spec.Enough Spec.counts
  by_cases h0 : dist = "b"
  · subst h0
    by_cases hk : k < 2 <;> by_cases hk' : k < 1 <;> simp [List.lookup, hk, hk', eq_comm] <;> omega
  by_cases h1 : dist = "binomial"
  · subst h1
    by_cases hk : k < 2 <;> by_cases hk' : k < 1 <;> simp [List.lookup, hk, hk', eq_comm] <;> omega
  by_cases h2 : dist = "n"
  · subst h2
    by_cases hk : k < 2 <;> by_cases hk' : k < 1 <;> simp [List.lookup, hk, hk', eq_comm] <;> omega
  by_cases h3 : dist = "normal"
  · subst h3
    by_cases hk : k < 2 <;> by_cases hk' : k < 1 <;> simp [List.lookup, hk, hk', eq_comm] <;> omega
  by_cases h4 : dist = "p"
  · subst h4
    by_cases hk : k < 2 <;> by_cases hk' : k < 1 <;> simp [List.lookup, hk, hk', eq_comm] <;> omega
  by_cases h5 : dist = "poisson"
  · subst h5
    by_cases hk : k < 2 <;> by_cases hk' : k < 1 <;> simp [List.lookup, hk, hk', eq_comm] <;> omega
  by_cases h6 : dist = "u"
  · subst h6
    by_cases hk : k < 2 <;> by_cases hk' : k < 1 <;> simp [List.lookup, hk, hk', eq_comm] <;> omega
  by_cases h7 : dist = "uniform"
  · subst h7
    by_cases hk : k < 2 <;> by_cases hk' : k < 1 <;> simp [List.lookup, hk, hk', eq_comm] <;> omega
  by_cases h8 : dist = "w"
  · subst h8
    by_cases hk : k < 2 <;> by_cases hk' : k < 1 <;> simp [List.lookup, hk, hk', eq_comm] <;> omega
  by_cases h9 : dist = "weibull"
  · subst h9
    by_cases hk : k < 2 <;> by_cases hk' : k < 1 <;> simp [List.lookup, hk, hk', eq_comm] <;> omega
  have hl : neededParams.lookup dist = none := by
    rw [List.lookup_eq_none_iff]
    intro p hp
    simp only [neededParams, List.mem_cons, List.not_mem_nil, or_false] at hp
    rcases hp with rfl | rfl | rfl | rfl | rfl | rfl | rfl | rfl | rfl | rfl <;> simp_all
  unfold neededParams at hl
  rw [hl]
  simp_all

/-- **C61 (random).** `random_raster` needs a known distribution and its parameters; its cells hold the samples, and with
`copy_mask` those cells are null, with the default null value, that are null in the template. -/
theorem C61_random {np : NumPy} {t : Template} {dist : String} {n k : Nat} {copyMask : Bool}
    {sample : Cell → Num} {o : Raster}
    (h : randomRaster np (some t) none dist (some (n : Int)) (some k) copyMask sample = .ok o) :
    1 ≤ n ∧ Spec.Enough dist k ∧ (dist ∈ Spec.counts ∧ o.dtype = i64 ∨ dist ∉ Spec.counts ∧ o.dtype = f64) ∧ o.nb = n ∧ (o.ny, o.nx) = t.shape ∧
      ∀ b y x, (o.mask (b, y, x) = true ↔ copyMask = true ∧ ∃ r, t = .raster r ∧ r.masked = true ∧ Spec.NullLike r n b y x) ∧
        (o.mask (b, y, x) = false → o.data (b, y, x) = sample (b, y, x)) ∧
        (o.mask (b, y, x) = true → o.nv = some (defaultNull o.dtype) ∧
          o.data (b, y, x) = np.cast o.dtype (defaultNull o.dtype).val) := by
  unfold randomRaster at h
  simp only [coalesce] at h
  split at h
  · cases h
  · next hc =>
    split at h
    · cases h
    · next m hm =>
      have hmn : 1 ≤ n ∧ m = n := by
        unfold getBands at hm
        simp only at hm
        split at hm
        · cases hm
        · next hlt => cases hm; constructor <;> omega
      obtain ⟨hn, rfl⟩ := hmn
      split at h
      · cases h
      · next dt hdt =>
        simp only [Except.ok.injEq] at h
        obtain ⟨hneed, hty⟩ := (randomDtype_ok dist k dt).1 hdt
        refine ⟨hn, hneed, ?_⟩
        subst h
        cases t with
        | geobox ny nx =>
          refine ⟨hty, rfl, rfl, fun b y x => ⟨?_, fun _ => rfl, fun hb => ?_⟩⟩
          · simp [buildResult]
          · simp [buildResult] at hb
        | raster r =>
          by_cases hcm : (r.masked && copyMask) = true
          · have ho : buildResult np (.raster r) dt m sample copyMask false = ⟨dt, m, r.ny, r.nx, fun c =>
                if copiedMask r m c then np.cast dt (defaultNull dt).val else sample c, copiedMask r m,
                some (defaultNull dt)⟩ := by
              simp only [buildResult]
              rw [if_pos hcm]
              exact masked_same np m r.ny r.nx _ _ (C18_default_fits _).2
            rw [ho]
            rw [Bool.and_eq_true] at hcm
            refine ⟨hty, rfl, rfl, fun b y x => ⟨?_, ?_, ?_⟩⟩
            · simp only
              rw [copiedMask_iff]
              constructor
              · intro hl; exact ⟨hcm.2, r, rfl, hcm.1, hl⟩
              · rintro ⟨-, r', e, -, hl⟩; cases e; exact hl
            · intro hb; simp only at hb ⊢; rw [hb]; rfl
            · intro hb; simp only at hb ⊢; rw [hb]; exact ⟨trivial, rfl⟩
          · have ho : buildResult np (.raster r) dt m sample copyMask false = ⟨dt, m, r.ny, r.nx, sample, fun _ => false, none⟩ := by
              simp only [buildResult]
              rw [if_neg hcm]
            rw [ho]
            refine ⟨hty, rfl, rfl, fun b y x => ⟨?_, fun _ => rfl, fun hb => by cases hb⟩⟩
            simp only [Bool.false_eq_true, false_iff, not_and, not_exists]
            rintro hcp r' e hmk -
            cases e
            exact hcm (by rw [hmk, hcp]; rfl)

/-- **C61 (random accepted).** With a template and a number of bands, `random_raster` is refused for too few parameters, unknown
distributions, fewer than one band, and a mask copied from something without one, and for nothing else. -/
theorem C61_random_accepted (np : NumPy) (t : Template) (dist : String) (n : Int) (k : Nat) (copyMask : Bool)
    (sample : Cell → Num) :
    (∃ o, randomRaster np (some t) none dist (some n) (some k) copyMask sample = .ok o) ↔
      1 ≤ n ∧ Spec.Enough dist k ∧ ((∃ r, t = .raster r) ∨ copyMask = false) := by
  have hd : (∃ dt, randomDtype dist k = .ok dt) ↔ Spec.Enough dist k := by
    constructor
    · rintro ⟨dt, h⟩; exact ((randomDtype_ok dist k dt).1 h).1
    · intro h
      by_cases hm : dist ∈ Spec.counts
      · exact ⟨i64, (randomDtype_ok dist k i64).2 ⟨h, .inl ⟨hm, rfl⟩⟩⟩
      · exact ⟨f64, (randomDtype_ok dist k f64).2 ⟨h, .inr ⟨hm, rfl⟩⟩⟩
  rw [← hd]
  unfold randomRaster getBands
  simp only [coalesce]
  cases t <;> cases copyMask <;> by_cases hn : n < 1 <;> cases hr : randomDtype dist k <;>
    simp [checkCopyMask, hn] <;> omega

/-! ### Examples and counterexamples -/

/-- A template with two bands, the upper left cell of the second null. -/
def sampleTemplate : Raster :=
  ⟨f32, 2, 1, 2, fun _ => .fin 5, fun c => decide (c = (1, 0, 0)), some ⟨f32, .fin 1⟩⟩

example : ∃ o, fullLike (idNumPy false) (some (.raster sampleTemplate)) none (.scalar ⟨f64, .fin 7⟩) (some 2) (.dtype f32) true = .ok o ∧
    o.mask (1, 0, 0) = true ∧ o.mask (0, 0, 0) = false ∧ o.data (0, 0, 0) = .fin 7 ∧ o.data (1, 0, 0) = .fin 1 :=
  ⟨_, rfl, by decide +kernel⟩

example : ∃ o, randomRaster (idNumPy false) (some (.raster sampleTemplate)) none "poisson" (some (2 : Nat)) (some 1) true (fun _ => .fin 3)
    = .ok o ∧ o.dtype = i64 ∧ o.mask (1, 0, 0) = true ∧ o.data (0, 0, 0) = .fin 3 :=
  ⟨_, rfl, by decide +kernel⟩

/-- **C61 is false without a dtype**: copying the mask changes the dtype of the result, here from int64 to float64, as the null
value of the template is taken. -/
theorem C61_mask_changes_dtype : ∃ r o o', zerosLike (idNumPy false) (some (.raster r)) none (some 2) .absent false = .ok o ∧
    zerosLike (idNumPy false) (some (.raster r)) none (some 2) .absent true = .ok o' ∧ o.dtype = i64 ∧ o'.dtype = f64 :=
  ⟨sampleTemplate, _, _, rfl, rfl, by decide +kernel⟩

/-- The value may be the null value of the template: cells that are not null then hold the null value, and are null in everything
that looks at values only, such as a saved file. -/
theorem C61_value_is_null_value : ∃ r o nv, onesLike (idNumPy false) (some (.raster r)) none (some 2) (.dtype r.dtype) true = .ok o ∧
    o.nv = some nv ∧ o.mask (0, 0, 0) = false ∧ o.data (0, 0, 0) = nv.val :=
  ⟨sampleTemplate, _, ⟨f32, .fin 1⟩, rfl, by decide +kernel, by decide +kernel⟩

/-- **C61 (zeros and ones).** Without a mask all cells are 0, or 1, in the dtype asked for, or int64. -/
theorem C61_zeros_ones {np : NumPy} {a b : Option Template} {bands : Option Int} {dtype : DtypeArg} {o : Raster} :
    (zerosLike np a b bands dtype false = .ok o → Spec.NoNulls o ∧ (∀ c, o.data c = np.cast o.dtype (.fin 0)) ∧
      (dtype = .absent ∧ o.dtype = i64 ∨ dtype = .dtype o.dtype)) ∧
    (onesLike np a b bands dtype false = .ok o → Spec.NoNulls o ∧ (∀ c, o.data c = np.cast o.dtype (.fin 1)) ∧
      (dtype = .absent ∧ o.dtype = i64 ∨ dtype = .dtype o.dtype)) := by
  constructor <;> intro h
  all_goals
    obtain ⟨t, s, n, -, e, -, -, -, -, h⟩ := C61_full h
    cases e
    exact h (.inl rfl)

example : ∃ o, zerosLike (idNumPy false) (some (.geobox 3 4)) none (some 2) .absent false = .ok o := ⟨_, rfl⟩

/-! ### Errors -/

namespace Spec

/-- Reasons of all functions for a TypeError. -/
def WrongType (a b : Option Template) (bands : Option Int) : Prop := (¬ ∃ t, Given a b t) ∨ bands = none

/-- Reasons of all functions for a ValueError: the mask of something without one, fewer than one band. -/
def WrongValue (a b : Option Template) (bands : Option Int) (copyMask : Bool) : Prop :=
  (∃ ny nx, Given a b (.geobox ny nx) ∧ copyMask = true) ∨ ∃ n, bands = some n ∧ n < 1

end Spec

theorem coalesce_error {a b : Option Template} {e : Err} (h : coalesce a b = .error e) : e = .type ∧ ¬ ∃ t, Spec.Given a b t := by
  unfold coalesce at h
  split at h <;> cases h
  · exact ⟨rfl, by rintro ⟨t, ⟨_, h⟩ | ⟨h, _⟩⟩ <;> cases h⟩
  · exact ⟨rfl, by rintro ⟨t, ⟨h, _⟩ | ⟨_, h⟩⟩ <;> cases h⟩

theorem checkCopyMask_error {t : Template} {m : Bool} {e : Err} (h : checkCopyMask t m = .error e) :
    e = .value ∧ m = true ∧ ∃ ny nx, t = .geobox ny nx := by
  cases t with
  | raster r => simp only [checkCopyMask] at h; cases h
  | geobox ny nx =>
    cases m with
    | false => simp [checkCopyMask] at h
    | true =>
      simp only [checkCopyMask, if_true] at h
      exact ⟨(Except.error.inj h).symm, rfl, ny, nx, rfl⟩

theorem getBands_error {bands : Option Int} {e : Err} (h : getBands bands = .error e) :
    e = .type ∧ bands = none ∨ e = .value ∧ ∃ n, bands = some n ∧ n < 1 := by
  cases bands with
  | none => exact .inl ⟨(Except.error.inj h).symm, rfl⟩
  | some n =>
    simp only [getBands] at h
    split at h
    · next hn => exact .inr ⟨(Except.error.inj h).symm, n, rfl, hn⟩
    · cases h

/-- **C61 (errors).** A TypeError for a missing or doubled template, a value that is missing or no number, or bands that are no integer;
a ValueError for the mask of a GeoBox, fewer than one band, or an unknown dtype. -/
theorem C61_errors {np : NumPy} {a b : Option Template} {v : ValueArg} {bands : Option Int} {dtype : DtypeArg} {copyMask : Bool}
    {e : Err} (h : fullLike np a b v bands dtype copyMask = .error e) :
    e = .type ∧ (Spec.WrongType a b bands ∨ ∀ s, v ≠ .scalar s) ∨
      e = .value ∧ (Spec.WrongValue a b bands copyMask ∨ dtype = .unknown) := by
  unfold fullLike at h
  cases h1 : coalesce a b with
  | error e1 =>
    rw [h1] at h
    cases h
    obtain ⟨g1, g2⟩ := coalesce_error h1
    exact .inl ⟨g1, .inl (.inl g2)⟩
  | ok t =>
    simp only [h1] at h
    split at h
    · next hv =>
      refine .inl ⟨(Except.error.inj h).symm, .inr ?_⟩
      rintro s rfl
      cases hv
    cases h2 : checkCopyMask t copyMask with
    | error e2 =>
      rw [h2] at h
      cases h
      obtain ⟨g1, g2, ny, nx, rfl⟩ := checkCopyMask_error h2
      exact .inr ⟨g1, .inl (.inl ⟨ny, nx, coalesce_ok h1, g2⟩)⟩
    | ok _ =>
      simp only [h2] at h
      cases h3 : getBands bands with
      | error e3 =>
        rw [h3] at h
        cases h
        rcases getBands_error h3 with ⟨g1, g2⟩ | ⟨g1, g2⟩
        · exact .inl ⟨g1, .inl (.inr g2)⟩
        · exact .inr ⟨g1, .inl (.inr g2)⟩
      | ok n =>
        simp only [h3] at h
        cases v with
        | absent => exact .inl ⟨(Except.error.inj h).symm, .inr fun _ hc => by cases hc⟩
        | notNumber => exact .inl ⟨(Except.error.inj h).symm, .inr fun _ hc => by cases hc⟩
        | scalar s =>
          cases dtype with
          | absent => cases h
          | unknown => exact .inr ⟨(Except.error.inj h).symm, .inr rfl⟩
          | dtype d => cases h

/-- **C61 (errors of random_raster).** The same, with a TypeError for parameters that are no sequence, and a ValueError for an unknown
distribution or one with too few parameters. -/
theorem C61_random_errors {np : NumPy} {a b : Option Template} {dist : String} {bands : Option Int} {params : Option Nat} {copyMask : Bool}
    {sample : Cell → Num} {e : Err} (h : randomRaster np a b dist bands params copyMask sample = .error e) :
    e = .type ∧ (Spec.WrongType a b bands ∨ params = none) ∨
      e = .value ∧ (Spec.WrongValue a b bands copyMask ∨ ∃ k, params = some k ∧ ¬ Spec.Enough dist k) := by
  unfold randomRaster at h
  cases h1 : coalesce a b with
  | error e1 =>
    rw [h1] at h
    cases h
    obtain ⟨g1, g2⟩ := coalesce_error h1
    exact .inl ⟨g1, .inl (.inl g2)⟩
  | ok t =>
    simp only [h1] at h
    cases h2 : checkCopyMask t copyMask with
    | error e2 =>
      rw [h2] at h
      cases h
      obtain ⟨g1, g2, ny, nx, rfl⟩ := checkCopyMask_error h2
      exact .inr ⟨g1, .inl (.inl ⟨ny, nx, coalesce_ok h1, g2⟩)⟩
    | ok _ =>
      simp only [h2] at h
      cases h3 : getBands bands with
      | error e3 =>
        rw [h3] at h
        cases h
        rcases getBands_error h3 with ⟨g1, g2⟩ | ⟨g1, g2⟩
        · exact .inl ⟨g1, .inl (.inr g2)⟩
        · exact .inr ⟨g1, .inl (.inr g2)⟩
      | ok n =>
        simp only [h3] at h
        cases params with
        | none => exact .inl ⟨(Except.error.inj h).symm, .inr rfl⟩
        | some k =>
          cases h4 : randomDtype dist k with
          | error e4 =>
            simp only [h4] at h
            have he := Except.error.inj h
            refine .inr ⟨?_, .inr ⟨k, rfl, ?_⟩⟩
            · rw [← he]
              unfold randomDtype at h4
              split at h4
              · exact (Except.error.inj h4).symm
              · split at h4
                · exact (Except.error.inj h4).symm
                · cases h4
            · intro hen
              by_cases hm : dist ∈ Spec.counts
              · rw [(randomDtype_ok dist k i64).2 ⟨hen, .inl ⟨hm, rfl⟩⟩] at h4; cases h4
              · rw [(randomDtype_ok dist k f64).2 ⟨hen, .inr ⟨hm, rfl⟩⟩] at h4; cases h4
          | ok dt => simp only [h4] at h; cases h

/-- A GeoBox has no mask; no bands; an unknown dtype; no template. -/
example : fullLike (idNumPy false) (some (.geobox 3 4)) none (.scalar ⟨i64, .fin 0⟩) (some 1) .absent true = .error .value ∧
    fullLike (idNumPy false) (some (.geobox 3 4)) none (.scalar ⟨i64, .fin 0⟩) (some 0) .absent false = .error .value ∧
    fullLike (idNumPy false) (some (.geobox 3 4)) none (.scalar ⟨i64, .fin 0⟩) (some 1) .unknown false = .error .value ∧
    fullLike (idNumPy false) none none (.scalar ⟨i64, .fin 0⟩) (some 1) .absent false = .error .type ∧
    randomRaster (idNumPy false) (some (.geobox 3 4)) none "normal" (some 1) none false (fun _ => .nan) = .error .type ∧
    randomRaster (idNumPy false) (some (.geobox 3 4)) none "normal" (some 1) (some 1) false (fun _ => .nan) = .error .value :=
  ⟨rfl, rfl, rfl, rfl, rfl, rfl⟩

end Verif.Create
