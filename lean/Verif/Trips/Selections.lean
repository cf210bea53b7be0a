import Verif.Bands.Props
import Verif.Clip.Props
import Verif.Files.Props
import Verif.Morph.Props
import Verif.Reduce.Props
import Mathlib.Logic.Relation
import Mathlib.Data.List.GetD

set_option linter.unusedSectionVars false

/-!
# C96: functions that pass values on

`get_bands` (C46), `set_null` (C15), `pad` (C24), dilation and erosion (C58), `clip`, `erase` and `mask` (C34), in any order,
and then `save` (C63): which values the result has, and whether its null cells can be told from the others in a file.
-/

namespace Verif.Trips

open Verif Verif.Nulls Verif.Nulls.Spec DType

namespace Spec

/-- The dtype and the null value are the same, each valid cell holds the value of a valid cell, null cells hold the null
value. -/
structure PassesOn (r o : Raster) : Prop where
  dtype : o.dtype = r.dtype
  nv : o.nv = r.nv
  valid : ∀ c, o.Has c → o.mask c = false → ∃ p, r.Has p ∧ r.mask p = false ∧ o.data c = r.data p
  null : ∀ c, o.Has c → o.mask c = true → ∃ s, o.nv = some s ∧ o.data c = s.val

/-- No valid cell of the raster holds the null value. -/
def Apart (r : Raster) : Prop := ∀ s c, r.nv = some s → r.Has c → r.mask c = false → r.data c ≠ s.val

/-- `o` is what one of the functions makes of `r`. -/
inductive Selects (np : NumPy) (big small : Num) : Raster → Raster → Prop
  | bands {r o : Raster} (bs : List Int) : Bands.getBands r bs = .ok o → Selects np big small r o
  | setNull {r o : Raster} (m : Raster) : MaskNeedsNull m → 0 < m.nb → r.setNull np m = .ok o → Selects np big small r o
  | pad {r o : Raster} (m : Bands.Margins) : Bands.pad np r m .unset = .ok o → Selects np big small r o
  | morph {r o : Raster} (op : Morph.Op) (size : Morph.SizeArg) (ychunks xchunks : List Nat) : ychunks.sum = r.ny →
      xchunks.sum = r.nx → Morph.morph op big small r size ychunks xchunks = .ok o → Selects np big small r o
  | clip {r o : Raster} {G : Type} {ext : Rasterize.Ext G} {p : Clip.Place G} {t : Rasterize.Table G} {bounds : Option (List Rat)}
      {w : Clip.Window} : (∀ b, bounds = some b → b.length = 4) → p.window (bounds.getD p.featureBounds) = some w →
      Clip.Spec.Good ext t (p.like w) w.ny w.nx → Clip.Spec.Seen p w → w.row + w.ny ≤ r.ny → w.col + w.nx ≤ r.nx →
      Clip.clip np ext p t r true bounds = .ok o ∨ Clip.erase np ext p t r true bounds = .ok o → Selects np big small r o
  | mask {r o : Raster} {G : Type} {ext : Rasterize.Ext G} {p : Clip.Place G} {t : Rasterize.Table G} (invert : Bool) :
      Clip.Spec.Good ext t p.whole r.ny r.nx → Clip.mask np ext p t r true invert = .ok o → Selects np big small r o

/-- What the raster at the beginning has to be: not boolean, with a null value that its dtype represents and null cells
hold, and with valid values between the numbers that the windows of the dilation are filled with. -/
structure Start (np : NumPy) (big small : Num) (r : Raster) (s : Scalar) : Prop where
  dtype : r.dtype ≠ .bool
  nv : r.nv = some s
  own : np.cast s.ty s.val = s.val
  fits : np.cast r.dtype s.val = s.val
  null : ∀ c, r.Has c → r.mask c = true → r.data c = s.val
  bounded : ∀ c, r.Has c → r.mask c = false → Morph.Spec.Bounded big small r.dtype (r.data c)

end Spec

open Spec

theorem passesOn_refl {r : Raster} {s : Scalar} (hs : r.nv = some s)
    (hn : ∀ c, r.Has c → r.mask c = true → r.data c = s.val) : PassesOn r r :=
  ⟨rfl, rfl, fun c hc hm => ⟨c, hc, hm, rfl⟩, fun c hc hm => ⟨s, hs, hn c hc hm⟩⟩

theorem passesOn_trans {a b c : Raster} (h1 : PassesOn a b) (h2 : PassesOn b c) : PassesOn a c := by
  refine ⟨h2.dtype.trans h1.dtype, h2.nv.trans h1.nv, fun x hx hm => ?_, h2.null⟩
  obtain ⟨y, hy, hym, e⟩ := h2.valid x hx hm
  obtain ⟨z, hz, hzm, e'⟩ := h1.valid y hy hym
  exact ⟨z, hz, hzm, e.trans e'⟩

/-- The properties that the start has are passed on as well. -/
theorem start_passesOn {np : NumPy} {big small : Num} {r o : Raster} {s : Scalar} (h : Start np big small r s)
    (hp : PassesOn r o) : Start np big small o s := by
  refine ⟨by rw [hp.dtype]; exact h.dtype, hp.nv.trans h.nv, h.own, by rw [hp.dtype]; exact h.fits, fun c hc hm => ?_,
    fun c hc hm => ?_⟩
  · obtain ⟨t, ht, e⟩ := hp.null c hc hm
    rw [hp.nv, h.nv] at ht
    rw [e, Option.some.inj ht]
  · obtain ⟨p, h1, h2, h3⟩ := hp.valid c hc hm
    rw [hp.dtype, h3]
    exact h.bounded p h1 h2

theorem bands_passesOn {r o : Raster} {s : Scalar} {bs : List Int} (hs : r.nv = some s)
    (hn : ∀ c, r.Has c → r.mask c = true → r.data c = s.val) (h : Bands.getBands r bs = .ok o) : PassesOn r o := by
  unfold Bands.getBands at h
  split at h
  · cases h
  split at h
  · cases h
  rename_i h1 h2
  injection h with h
  subst h
  have hin : ∀ c : Cell, c.1 < bs.length → (bs.getD c.1 1 - 1).toNat < r.nb := by
    intro c hc
    have hmem : bs.getD c.1 1 ∈ bs := by
      rw [List.getD_eq_getElem _ _ hc]
      exact List.getElem_mem hc
    have h3 : ¬ (bs.getD c.1 1 < 1 ∨ bs.getD c.1 1 > (r.nb : Int)) :=
      fun hb => h2 (List.any_eq_true.mpr ⟨_, hmem, by simpa using hb⟩)
    omega
  refine ⟨rfl, rfl, fun c hc hm => ⟨((bs.getD c.1 1 - 1).toNat, c.2), ⟨hin c hc.1, hc.2.1, hc.2.2⟩, hm, rfl⟩, fun c hc hm => ⟨s, hs, ?_⟩⟩
  exact hn _ ⟨hin c hc.1, hc.2.1, hc.2.2⟩ hm

theorem setNull_passesOn {np : NumPy} (hnp : BoolCast np) {r o m : Raster} {s : Scalar} (hb : r.dtype ≠ .bool)
    (hs : r.nv = some s) (hm : MaskNeedsNull m) (hnb : 0 < m.nb) (h : r.setNull np m = .ok o) : PassesOn r o := by
  obtain ⟨hbad, hgood⟩ := C15_set_null hnp r hm hnb
  by_cases hg : GoodMask r m
  · obtain ⟨o', ho', hd, hshape, ⟨t, ht, -, h2, h3⟩, h4⟩ := hgood hg
    rw [ho'] at h
    cases h
    have := h2 s hs
    subst this
    have hb' : r.dtype.isBool = false := by
      cases hdt : r.dtype <;> first | rfl | exact absurd hdt hb
    simp only [Prod.mk.injEq] at hshape
    refine ⟨hd, by rw [ht, hs], fun c hc hmc => ⟨c, ?_, ?_, (h4 c).2 hmc⟩, fun c hc hmc => ⟨t, ht, ?_⟩⟩
    · exact ⟨by rw [← hshape.1]; exact hc.1, by rw [← hshape.2.1]; exact hc.2.1, by rw [← hshape.2.2]; exact hc.2.2⟩
    · rw [Bool.eq_false_iff]
      intro hr
      have := (h4 c).1.mpr (Or.inl hr)
      rw [this] at hmc
      cases hmc
    · rw [h3 c hmc, hb']
      rfl
  · obtain ⟨e, he⟩ := hbad hg
    rw [he] at h
    cases h

theorem pad_passesOn {np : NumPy} {big small : Num} {r o : Raster} {s : Scalar} {m : Bands.Margins}
    (hst : Start np big small r s) (h : Bands.pad np r m .unset = .ok o) : PassesOn r o := by
  have hmn : MaskNeedsNull r := fun c _ hn => by rw [hst.nv] at hn; cases hn
  obtain ⟨h1, h2, h3, h4, h5, h6, h7⟩ := Bands.C24_pad hmn h
  have hasOld : ∀ c, o.Has c → (c.2.1 < m.top ∨ m.top + r.ny ≤ c.2.1 ∨ c.2.2 < m.left ∨ m.left + r.nx ≤ c.2.2) ∨
      ∃ y x, y < r.ny ∧ x < r.nx ∧ c = (c.1, m.top + y, m.left + x) := by
    intro c hc
    by_cases hnew : c.2.1 < m.top ∨ m.top + r.ny ≤ c.2.1 ∨ c.2.2 < m.left ∨ m.left + r.nx ≤ c.2.2
    · exact Or.inl hnew
    · refine Or.inr ⟨c.2.1 - m.top, c.2.2 - m.left, by omega, by omega, ?_⟩
      rw [show m.top + (c.2.1 - m.top) = c.2.1 by omega, show m.left + (c.2.2 - m.left) = c.2.2 by omega]
  refine ⟨h1, by rw [h5 s hst.nv, hst.nv], fun c hc hmc => ?_, fun c hc hmc => ⟨s, h5 s hst.nv, ?_⟩⟩
  · rcases hasOld c hc with hnew | ⟨y, x, hy, hx, e⟩
    · have := (h7 c.1 c.2.1 c.2.2 (by rw [← h2]; exact hc.1) hnew).1.mpr (Or.inl rfl)
      rw [show (c.1, c.2.1, c.2.2) = c from rfl, hmc] at this
      cases this
    · rw [e] at hmc ⊢
      obtain ⟨e1, e2⟩ := h6 c.1 y x hy hx
      exact ⟨(c.1, y, x), ⟨by rw [← h2]; exact hc.1, hy, hx⟩, by rw [← e2]; exact hmc, e1⟩
  · rcases hasOld c hc with hnew | ⟨y, x, hy, hx, e⟩
    · have hc1 : c.1 < r.nb := by rw [← h2]; exact hc.1
      unfold Bands.pad at h
      simp only [Bands.validateFill, hst.nv, Option.getD_some, Except.ok.injEq] at h
      subst h
      have hold : m.old r c = false := by
        rw [Bool.eq_false_iff]
        intro ho
        simp only [Bands.Margins.old, Bool.and_eq_true, decide_eq_true_eq] at ho
        omega
      have hred : ∀ n : Nat, Nulls.reducePromote (List.replicate (n + 1) s.ty) = some s.ty := by
        intro n
        have hp : s.ty.promote s.ty = some s.ty := by cases s.ty <;> decide
        have : ∀ n : Nat, (List.replicate n s.ty).foldl (fun acc e => acc.bind (·.promote e)) (some s.ty) = some s.ty := by
          intro n
          induction n with
          | zero => rfl
          | succ n ih => rw [List.replicate_succ, List.foldl_cons, Option.bind_some, hp, ih]
        simp only [List.replicate_succ, Nulls.reducePromote, this]
      obtain ⟨n, hn⟩ : ∃ n, r.nb = n + 1 := ⟨r.nb - 1, by omega⟩
      simp only [Bands.Margins.pad, hold, Bool.false_eq_true, if_false, if_true, Bands.asarray, List.map_replicate]
      rw [hn, hred]
      simp only
      rw [List.getD_eq_getElem _ _ (by simpa [hn] using hc1)]
      simp [hst.own, hst.fits]
    · rw [e] at hmc ⊢
      obtain ⟨e1, e2⟩ := h6 c.1 y x hy hx
      rw [e1]
      exact hst.null _ ⟨by rw [← h2]; exact hc.1, hy, hx⟩ (by rw [← e2]; exact hmc)

theorem morph_passesOn {np : NumPy} {big small : Num} {r o : Raster} {s : Scalar} {op : Morph.Op} {size : Morph.SizeArg}
    {ychunks xchunks : List Nat} (hst : Start np big small r s) (hy : ychunks.sum = r.ny) (hx : xchunks.sum = r.nx)
    (h : Morph.morph op big small r size ychunks xchunks = .ok o) : PassesOn r o := by
  obtain ⟨n, m, hs⟩ : ∃ n m, Morph.getFootprint size = .ok (n, m) := by
    unfold Morph.morph at h
    cases hf : Morph.getFootprint size with
    | error e => rw [hf] at h; cases h
    | ok p => exact ⟨p.1, p.2, rfl⟩
  cases op with
  | dilation =>
    obtain ⟨h1, h2, h3, h4, h5, h6⟩ := Morph.C58_dilate hs hst.nv hy hx hst.bounded h
    refine ⟨h1, h5, fun c hc hmc => ?_, fun c hc hmc => ⟨s, h5.trans hst.nv, ?_⟩⟩
    · have hrc : r.Has c := ⟨by rw [← h2]; exact hc.1, by rw [← h3]; exact hc.2.1, by rw [← h4]; exact hc.2.2⟩
      obtain ⟨⟨p, ⟨hp, hpm⟩, e⟩, -⟩ := (h6 c hrc).2.2 hmc
      exact ⟨p, ⟨by rw [hp.1]; exact hrc.1, hp.2.2.1, hp.2.2.2.2⟩, hpm, e.symm⟩
    · have hrc : r.Has c := ⟨by rw [← h2]; exact hc.1, by rw [← h3]; exact hc.2.1, by rw [← h4]; exact hc.2.2⟩
      exact (h6 c hrc).2.1 hmc
  | erosion =>
    obtain ⟨h1, h2, h3, h4, h5, h6⟩ := Morph.C58_erode hs hst.nv hy hx hst.bounded h
    refine ⟨h1, h5, fun c hc hmc => ?_, fun c hc hmc => ⟨s, h5.trans hst.nv, ?_⟩⟩
    · have hrc : r.Has c := ⟨by rw [← h2]; exact hc.1, by rw [← h3]; exact hc.2.1, by rw [← h4]; exact hc.2.2⟩
      obtain ⟨⟨p, hp, e⟩, -⟩ := (h6 c hrc).2.2 hmc
      exact ⟨p, ⟨by rw [hp.1]; exact hrc.1, hp.2.2.1, hp.2.2.2.2⟩, ((h6 c hrc).1.mp hmc).2.2 p hp, e.symm⟩
    · have hrc : r.Has c := ⟨by rw [← h2]; exact hc.1, by rw [← h3]; exact hc.2.1, by rw [← h4]; exact hc.2.2⟩
      exact (h6 c hrc).2.1 hmc

theorem keeps_passesOn {r o : Raster} {s : Scalar} {w : Clip.Window} {keep : Nat → Nat → Prop} (hs : r.nv = some s)
    (hn : ∀ c, r.Has c → r.mask c = true → r.data c = s.val) (hy : w.row + w.ny ≤ r.ny) (hx : w.col + w.nx ≤ r.nx)
    (h : Clip.Spec.Keeps r w keep o) : PassesOn r o := by
  obtain ⟨h1, h2, h3, h4, h5, h6⟩ := h
  have hnull : Clip.Spec.nullOf r = s := by rw [Clip.Spec.nullOf, hs]; rfl
  have hmasked : r.masked = true := by rw [Raster.masked, hs]; rfl
  have hin : ∀ c, o.Has c → r.Has (c.1, w.row + c.2.1, w.col + c.2.2) := by
    intro c ⟨a1, a2, a3⟩
    rw [h2] at a1
    rw [h3] at a2
    rw [h4] at a3
    exact ⟨a1, by show w.row + c.2.1 < r.ny; omega, by show w.col + c.2.2 < r.nx; omega⟩
  have hcell : ∀ c, o.Has c → _ := fun c hc => h6 c.1 c.2.1 c.2.2 (h2 ▸ hc.1) (h3 ▸ hc.2.1) (h4 ▸ hc.2.2)
  refine ⟨h1, by rw [h5, hnull, hs], fun c hc hmc => ?_, fun c hc hmc => ⟨s, by rw [h5, hnull], ?_⟩⟩
  · obtain ⟨k1, k2⟩ := (hcell c hc).1.mp hmc
    refine ⟨_, hin c hc, ?_, (hcell c hc).2.1 k1⟩
    rw [Bool.eq_false_iff]
    exact fun hr => k2 ⟨hmasked, hr⟩
  · by_cases hk : keep (w.row + c.2.1) (w.col + c.2.2)
    · have hnot : ¬ o.mask (c.1, c.2.1, c.2.2) = false := by
        rw [show (c.1, c.2.1, c.2.2) = c from rfl, hmc]
        exact fun h => by cases h
      rw [(hcell c hc).1] at hnot
      have : Clip.Spec.Null r (c.1, w.row + c.2.1, w.col + c.2.2) := by
        by_contra hc'
        exact hnot ⟨hk, hc'⟩
      rw [show o.data c = _ from (hcell c hc).2.1 hk]
      exact hn _ (hin c hc) this.2
    · rw [show o.data c = _ from (hcell c hc).2.2 hk, hnull]

theorem selects_passesOn {np : NumPy} (hnp : BoolCast np) {big small : Num} {r o : Raster} {s : Scalar}
    (hst : Start np big small r s) (h : Selects np big small r o) : PassesOn r o := by
  cases h with
  | bands bs h => exact bands_passesOn hst.nv hst.null h
  | setNull m h1 h2 h => exact setNull_passesOn hnp hst.dtype hst.nv h1 h2 h
  | pad m h => exact pad_passesOn hst h
  | morph op size yc xc h1 h2 h => exact morph_passesOn hst h1 h2 h
  | clip h1 h2 h3 h4 h5 h6 h =>
    rcases h with h | h
    · obtain ⟨o', e, hk⟩ := Clip.C34_clip_partial (np := np) (r := r) h1 h2 h3 h4
      rw [e] at h
      cases h
      exact keeps_passesOn hst.nv hst.null h5 h6 hk
    · obtain ⟨o', e, hk⟩ := Clip.C34_erase_partial (np := np) (r := r) h1 h2 h3 h4
      rw [e] at h
      cases h
      exact keeps_passesOn hst.nv hst.null h5 h6 hk
  | mask invert h1 h =>
    obtain ⟨o', e, hk⟩ := Clip.C34_mask_partial (np := np) (r := r) invert h1
    rw [e] at h
    cases h
    exact keeps_passesOn hst.nv hst.null (le_of_eq (Nat.zero_add _)) (le_of_eq (Nat.zero_add _)) hk

/-- **C96**: after any number of these functions in any order, every valid cell holds the value of a valid cell of the raster at
the beginning, the null value is the same, and null cells hold it. -/
theorem C96_values {np : NumPy} (hnp : BoolCast np) {big small : Num} {r o : Raster} {s : Scalar}
    (hst : Start np big small r s) (h : Relation.ReflTransGen (Selects np big small) r o) : PassesOn r o := by
  induction h with
  | refl => exact passesOn_refl hst.nv hst.null
  | tail _ h ih => exact passesOn_trans ih (selects_passesOn hnp (start_passesOn hst ih) h)

/-- **C96**, null values stay apart. -/
theorem C96_apart {np : NumPy} (hnp : BoolCast np) {big small : Num} {r o : Raster} {s : Scalar}
    (hst : Start np big small r s) (ha : Apart r) (h : Relation.ReflTransGen (Selects np big small) r o) : Apart o := by
  have hp := C96_values hnp hst h
  intro t c ht hc hm
  obtain ⟨p, h1, h2, e⟩ := hp.valid c hc hm
  rw [e]
  exact ha t p (hp.nv ▸ ht) h1 h2

/-- The raster with null outside of it. -/
noncomputable def inside (r : Raster) (s : Scalar) : Raster :=
  open Classical in
  { r with data := fun c => if r.Has c then r.data c else s.val, mask := fun c => if r.Has c then r.mask c else true }

/-- **C96**, in files: the file of the result opens with the null cells of the result, and with its values elsewhere. -/
theorem C96_file_partial {np : NumPy} (hnp : BoolCast np) (hcast : ExactCast np) {g : Files.Gdal} (hg : Files.Spec.Laws np g)
    {big small : Num} {r o : Raster} {s : Scalar} (hst : Start np big small r s) (ha : Apart r)
    (hty : Files.Spec.NullOfType np r) (hi64 : r.dtype ≠ i64) (hu64 : r.dtype = u64 → ∃ q, s.val = .fin q ∧ q ≤ 2 ^ 53)
    (h : Relation.ReflTransGen (Selects np big small) r o) {ext : String} {driver : Option String} {f : Files.File}
    (hf : Files.save np g ext driver none none o = .ok f) :
    let q := Files.openFile np f
    (q.nb = o.nb ∧ q.ny = o.ny ∧ q.nx = o.nx) ∧ q.dtype = r.dtype ∧ q.nv = some ⟨r.dtype, s.val⟩ ∧
    ∀ c, o.Has c → q.mask c = o.mask c ∧ (o.mask c = false → q.data c = o.data c) := by
  have hp := C96_values hnp hst h
  have hap := C96_apart hnp hst ha h
  have hso : Start np big small o s := start_passesOn hst hp
  have hb : (o.masked && o.dtype.isBool) = false := by
    have := hso.dtype
    cases hdt : o.dtype <;> simp_all [DType.isBool]
  have hb' : ((inside o s).masked && (inside o s).dtype.isBool) = false := hb
  obtain ⟨f', hf', hsame, hd⟩ : ∃ f', Files.save np g ext driver none none (inside o s) = .ok f' ∧
      (f'.dtype = f.dtype ∧ f'.nb = f.nb ∧ f'.ny = f.ny ∧ f'.nx = f.nx ∧ f'.nodata = f.nodata) ∧
      ∀ c, o.Has c → f'.data c = f.data c := by
    unfold Files.save at hf ⊢
    simp only [Files.nullArg, Files.withNull, Files.boolAsByte, hb, hb', Bool.false_eq_true, if_false] at hf ⊢
    unfold Files.write at hf ⊢
    split at hf
    · cases hf
    · rename_i hext
      rw [if_neg hext]
      simp only at hf ⊢
      split at hf
      · rename_i hw
        rw [if_pos (by exact hw)]
        injection hf with hf
        subst hf
        refine ⟨_, rfl, ⟨rfl, rfl, rfl, rfl, rfl⟩, fun c hc => ?_⟩
        have hin : (inside o s).data c = o.data c := by simp only [inside, hc, if_true]
        by_cases hX : Files.fileDtype g (Files.resolveDriver ext driver) o.dtype (o.nv.map (·.val)) = o.dtype
        · rw [if_pos (by exact hX), if_pos hX]
          exact hin
        · rw [if_neg (by exact hX), if_neg hX]
          exact congrArg _ hin
      · cases hf
  have hround := Files.C63_round_trip_partial hg hcast (r := inside o s) hf' (fun c hc => ⟨s, hso.nv, ?_⟩)
    (fun t ht => ?_) (fun _ t c ht hc => ?_) (fun hbool => absurd hbool hso.dtype)
    (fun hn => by rw [show (inside o s).nv = o.nv from rfl, hso.nv] at hn; cases hn)
    (fun hu t ht => ?_) (fun hi => absurd (show o.dtype = i64 from hi) (by rw [hp.dtype]; exact hi64))
  · obtain ⟨k1, k2, -, k3, k4, -⟩ := hround
    have hopen : ∀ c, o.Has c → (Files.openFile np f).mask c = (Files.openFile np f').mask c ∧
        (Files.openFile np f).data c = (Files.openFile np f').data c := by
      intro c hc
      simp only [Files.openFile, Files.openedNull, hsame.1, hsame.2.2.2.2, hd c hc, and_self]
    have hdt : (Files.openFile np f').dtype = r.dtype := by
      rcases k3 with ⟨k3, -⟩ | ⟨k3, -⟩ | ⟨-, -, k3⟩
      · exact absurd (show o.dtype = i64 from k3) (by rw [hp.dtype]; exact hi64)
      · exact absurd (show o.dtype = .bool from k3) hso.dtype
      · rw [k3]; exact hp.dtype
    refine ⟨⟨?_, ?_, ?_⟩, ?_, ?_, fun c hc => ?_⟩
    · exact hsame.2.1.symm.trans k1.1
    · exact hsame.2.2.1.symm.trans k1.2.1
    · exact hsame.2.2.2.1.symm.trans k1.2.2
    · rw [← hdt]; exact hsame.1.symm
    · have h4 := k4 s hso.nv
      rw [if_neg (by exact hso.dtype), hdt] at h4
      rw [← h4]
      simp only [Files.openFile, Files.openedNull, hsame.1, hsame.2.2.2.2]
    · obtain ⟨e1, e2⟩ := hopen c hc
      obtain ⟨e3, e4⟩ := k2 c
      have m1 : (inside o s).mask c = o.mask c := by simp only [inside, hc, if_true]
      have m2 : (inside o s).data c = o.data c := by simp only [inside, hc, if_true]
      exact ⟨by rw [e1, e3, m1], fun hm => by rw [e2, e4 (by rw [m1]; exact hm), m2]⟩
  · simp only [inside] at hc ⊢
    split at hc
    · rename_i hh
      rw [if_pos hh]
      exact hso.null c hh hc
    · rename_i hh
      rw [if_neg hh]
  · have := hty t (by rw [← hp.nv]; exact ht)
    rw [show (inside o s).dtype = o.dtype from rfl, hp.dtype]
    exact this
  · simp only [inside] at hc ⊢
    split at hc
    · rename_i hh
      rw [if_pos hh]
      exact hap t c ht hh hc
    · cases hc
  · have : t = s := by
      have : o.nv = some t := ht
      rw [hso.nv] at this
      exact (Option.some.inj this).symm
    rw [this]
    exact hu64 (by rw [← hp.dtype]; exact hu)

/-! ### Cases that meet the hypotheses, and those that do not -/

/-- 5, null, 7 and 5, null, 9: two bands of bytes whose null value is 0. -/
def twoSelections : Raster :=
  ⟨u8, 2, 1, 3, fun c => if c.2.2 = 1 then .fin 0 else if c.2.2 = 0 then .fin 5 else if c.1 = 0 then .fin 7 else .fin 9,
    fun c => c.2.2 = 1, some ⟨u8, .fin 0⟩⟩

theorem twoSelections_start : Start (boolNumPy true) (.fin 0) (.fin 0) twoSelections ⟨u8, .fin 0⟩ ∧ Apart twoSelections := by
  refine ⟨⟨by decide, rfl, rfl, rfl, fun c _ hm => ?_, fun c _ hm => ?_⟩, fun s c hs _ hm => ?_⟩
  · simp only [twoSelections, decide_eq_true_eq] at hm ⊢
    rw [if_pos hm]
  · simp only [twoSelections, decide_eq_false_iff_not] at hm ⊢
    rw [if_neg hm]
    split
    · exact ⟨by norm_num [Stats.Spec.Le], by norm_num [Stats.Spec.Le]⟩
    · split
      · exact ⟨by norm_num [Stats.Spec.Le], by norm_num [Stats.Spec.Le]⟩
      · exact ⟨by norm_num [Stats.Spec.Le], by norm_num [Stats.Spec.Le]⟩
  · cases hs
    simp only [twoSelections, decide_eq_false_iff_not] at hm ⊢
    rw [if_neg hm]
    split
    · decide
    · split <;> decide

/-- The second band, dilated and padded. -/
example : ∃ a b o, Bands.getBands twoSelections [2] = .ok a ∧
    Morph.morph .dilation (.fin 0) (.fin 0) a (.seq [some 1, some 3]) [1] [1, 2] = .ok b ∧
    Bands.pad (boolNumPy true) b ⟨1, 0, 0, 0⟩ .unset = .ok o ∧
    Relation.ReflTransGen (Selects (boolNumPy true) (.fin 0) (.fin 0)) twoSelections o ∧
    o.mask (0, 0, 1) = true ∧ o.mask (0, 1, 1) = false ∧ o.data (0, 1, 1) = .fin 9 :=
  ⟨_, _, _, rfl, rfl, rfl,
    .tail (.tail (.single (.bands [2] rfl)) (.morph .dilation (.seq [some 1, some 3]) [1] [1, 2] rfl rfl rfl))
      (.pad ⟨1, 0, 0, 0⟩ rfl), by decide +kernel⟩

/-- The other hypotheses of `C96_file_partial`. -/
example : BoolCast (boolNumPy true) ∧ ExactCast (boolNumPy true) ∧ Files.Spec.Laws (boolNumPy true) (Files.idGdal true) ∧
    Files.Spec.NullOfType (boolNumPy true) twoSelections ∧ twoSelections.dtype ≠ i64 ∧ twoSelections.dtype ≠ u64 ∧
    ∃ f, Files.save (boolNumPy true) (Files.idGdal true) ".tif" none none none twoSelections = .ok f := by
  refine ⟨fun x => rfl, fun dt n h => ?_, ⟨fun dt v h => ?_, fun dt n h _ _ _ => rfl⟩, fun s hs => .inr ⟨rfl, 0, ?_, 0, 255, by decide, by decide, by decide⟩,
    by decide, by decide, _, rfl⟩
  · by_cases hd : dt = .bool
    · subst hd
      obtain ⟨lo, hi, h, h1, h2⟩ := h
      cases h
      have : n = 0 ∨ n = 1 := by omega
      rcases this with rfl | rfl <;> simp [boolNumPy]
    · simp [boolNumPy, hd]
  · simp [boolNumPy, Files.idGdal]
  · cases hs
    rfl

/-- **Not without a null value**: `set_null` gives the raster the default null value, which may be a value of other cells; in the
file they are null. -/
theorem C96_default_null : ∃ (r m o : Raster) (f : Files.File), r.nv = none ∧ r.setNull (boolNumPy true) m = .ok o ∧
    Files.save (boolNumPy true) (Files.idGdal true) ".tif" none none none o = .ok f ∧ o.mask (0, 0, 1) = false ∧
    o.data (0, 0, 1) = .fin 255 ∧ o.mask (0, 0, 0) = true ∧ (Files.openFile (boolNumPy true) f).mask (0, 0, 1) = true :=
  ⟨⟨u8, 1, 1, 2, fun _ => .fin 255, fun _ => false, none⟩,
    ⟨.bool, 1, 1, 2, fun c => if c.2.2 = 0 then .fin 1 else .fin 0, fun _ => false, none⟩, _, _, rfl, rfl, rfl, by decide +kernel⟩

/-- **Not the most frequent value**: `aggregate(r, window, "mode")` takes its values from `r` but uses the default null value
instead of the one of `r`: bytes of which 0 is the null value lose the windows where 255 is the most frequent value when they
are saved. -/
theorem C96_mode : ∃ (r o : Raster) (f : Files.File), r.nv = some ⟨u8, .fin 0⟩ ∧ Apart r ∧
    Reduce.aggregate (idNumPy true) (fun _ l => l.headD .nan) (fun _ d => d) r (.ints [1, 2]) (.name (some .mode)) = .ok o ∧
    Files.save (idNumPy true) (Files.idGdal true) ".tif" none none none o = .ok f ∧ o.mask (0, 0, 0) = false ∧
    o.data (0, 0, 0) = .fin 255 ∧ (Files.openFile (idNumPy true) f).mask (0, 0, 0) = true :=
  ⟨⟨u8, 1, 1, 4, fun _ => .fin 255, fun _ => false, some ⟨u8, .fin 0⟩⟩, _, _, rfl, fun s c hs _ _ => by cases hs; show (FVal.fin 255 : Num) ≠ .fin 0; decide, rfl, rfl,
    by decide +kernel⟩

end Verif.Trips
