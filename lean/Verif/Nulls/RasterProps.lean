import Verif.Nulls.RasterModel
import Verif.Nulls.ScalarProps

/-!
# Null handling of `Raster`: property theorems (C14, C15, C16, C17, C44)
-/

set_option linter.unusedSectionVars false

namespace Verif.Nulls

open Verif DType

/-! ### Specification -/

namespace Spec

/-- Null cells of a raster hold its null value (and so only rasters with a null value have null cells). -/
def NullsHold (r : Raster) : Prop := ∀ c, r.mask c = true → ∃ s, r.nv = some s ∧ r.data c = s.val

/-- Only a raster with a null value has null cells. -/
def MaskNeedsNull (r : Raster) : Prop := ∀ c, r.mask c = true → r.nv ≠ none

/-- Conversion to a boolean is `x != 0` (NaN is true). -/
def BoolCast (np : NumPy) : Prop :=
  ∀ x : Num, np.cast .bool x = if x = .fin 0 then .fin 0 else .fin 1

/-- Conversion to a float keeps NaN. -/
def NanCast (np : NumPy) : Prop := ∀ d : DType, d.isFloat = true → np.cast d .nan = .nan

/-- A value that an array of the dtype can contain. -/
def ValueOf (d : DType) (x : Num) : Prop :=
  Representable d x ∨ (d.isFloat = true ∧ (x = .nan ∨ x = .posInf ∨ x = .negInf))

/-- A 64 bit integer type and a float type: the one pair between which NumPy's "safe" casting may lose
digits. -/
def Lossy (a b : DType) : Prop := (a = i64 ∨ a = u64) ∧ b.isFloat = true

/-- Safe conversions between the other types do not change values. -/
def Lossless (np : NumPy) : Prop :=
  ∀ a b : DType, ∀ x, a.canCast b = true → ¬ Lossy a b → ValueOf a x → np.cast b x = x

/-- The mask raster marks the cell: true there and not null itself; a single band counts for all bands. -/
def Marks (m : Raster) (c : Cell) : Prop :=
  let c' : Cell := if m.nb = 1 then (0, c.2) else c
  m.data c' ≠ .fin 0 ∧ m.mask c' = false

end Spec

open Spec

theorem Num.eq_iff (a b : Num) : Num.eq a b = true ↔ a = b ∧ a ≠ .nan := by
  cases a <;> cases b <;> simp [Num.eq]

theorem maskOf_iff (s : Num) (x : Num) : maskOf (some s) x = true ↔ x = s := by
  cases s <;> cases x <;> simp [maskOf, Num.isnan, Num.eq]

theorem mergeMasks_iff (ms : List (Cell → Bool)) (c : Cell) :
    mergeMasks ms c = true ↔ ∃ m ∈ ms, m c = true := by
  cases ms with
  | nil => simp [mergeMasks]
  | cons m ms =>
    have : ∀ (ms : List (Cell → Bool)) (b : Bool), ms.foldl (fun acc m => acc || m c) b = true ↔
        b = true ∨ ∃ m ∈ ms, m c = true := by
      intro ms
      induction ms with
      | nil => simp
      | cons m ms ih => intro b; rw [List.foldl_cons, ih]; simp [or_assoc]
    rw [mergeMasks, this]
    simp

/-! ### C14: element-wise operations -/

/-- The error branch of C14: exactly the bitwise and shift operations on floats are rejected, and
operations with several outputs if no operand has a null value (see the notes). -/
theorem C14_rejected (u : Ufunc) (this : Raster) (args : List Operand) :
    (∃ e, applyUfunc u this args = .error e) ↔
      ((u.bitwise = true ∨ u.shift = true) ∧ ∃ a ∈ args, a.ty.isFloat = true) ∨
      (1 < u.nout ∧ ∀ r, Operand.raster r ∈ args → r.nv = none) := by
  have hm : (args.any Operand.masked = false) ↔ ∀ r, Operand.raster r ∈ args → r.nv = none := by
    rw [List.any_eq_false]
    constructor
    · intro h r hr
      have := h _ hr
      simpa [Operand.masked, Raster.masked] using this
    · intro h a ha
      cases a with
      | raster r => simp [Operand.masked, Raster.masked, h r ha]
      | numbers _ _ => simp [Operand.masked]
  have hf : ((args.map Operand.ty).any isFloat = true) ↔ ∃ a ∈ args, a.ty.isFloat = true := by
    simp [List.any_eq_true]
  unfold applyUfunc
  simp only [Bool.and_eq_true, hf]
  rw [← hm]
  by_cases h1 : u.bitwise = true ∧ ∃ a ∈ args, a.ty.isFloat = true
  · rw [if_pos h1]; constructor
    · intro _; exact Or.inl ⟨Or.inl h1.1, h1.2⟩
    · intro _; exact ⟨_, rfl⟩
  rw [if_neg h1]
  by_cases h2 : u.shift = true ∧ ∃ a ∈ args, a.ty.isFloat = true
  · rw [if_pos h2]; constructor
    · intro _; exact Or.inl ⟨Or.inr h2.1, h2.2⟩
    · intro _; exact ⟨_, rfl⟩
  rw [if_neg h2]
  cases h3 : args.any Operand.masked with
  | true =>
    simp only [Bool.not_true, Bool.false_eq_true, if_false]
    constructor
    · rintro ⟨e, h⟩; cases h
    · rintro (⟨h | h, h'⟩ | ⟨_, h⟩)
      · exact absurd ⟨h, h'⟩ h1
      · exact absurd ⟨h, h'⟩ h2
      · cases h
  | false =>
    simp only [Bool.not_false, if_true]
    by_cases h4 : u.nout > 1
    · rw [if_pos h4]
      exact ⟨fun _ => Or.inr ⟨h4, trivial⟩, fun _ => ⟨_, rfl⟩⟩
    · rw [if_neg h4]
      constructor
      · rintro ⟨e, h⟩; cases h
      · rintro (⟨h | h, h'⟩ | ⟨h, _⟩)
        · exact absurd ⟨h, h'⟩ h1
        · exact absurd ⟨h, h'⟩ h2
        · exact absurd h h4

/-- **C14.**  Every output raster of an element-wise operation is null exactly where some raster operand
is null, holds the operation's value elsewhere and its own null value in the null cells; it has the dtype
the operation resolves to, and has a null value exactly if some operand has one. -/
theorem C14_elementwise {u : Ufunc} {this : Raster} {args : List Operand} {outs : List Raster}
    (hout : 0 < u.nout) (hok : applyUfunc u this args = .ok outs)
    (hargs : ∀ r, Operand.raster r ∈ args → MaskNeedsNull r) :
    outs.length = u.nout ∧ ∀ k o, outs[k]? = some o →
      o.dtype = u.outTy (args.map Operand.ty) k ∧ (o.nb, o.ny, o.nx) = (this.nb, this.ny, this.nx) ∧
      (o.nv ≠ none ↔ ∃ r, Operand.raster r ∈ args ∧ r.nv ≠ none) ∧
      ∀ c, (o.mask c = true ↔ ∃ r, Operand.raster r ∈ args ∧ r.mask c = true) ∧
        (o.mask c = false → o.data c = u.fn k (args.map (·.value c))) ∧
        (o.mask c = true → ∃ s, o.nv = some s ∧ o.data c = s.val ∧ Representable o.dtype s.val) := by
  have hany : args.any Operand.masked = true ↔ ∃ r, Operand.raster r ∈ args ∧ r.nv ≠ none := by
    rw [List.any_eq_true]
    constructor
    · rintro ⟨a, ha, h⟩
      cases a with
      | raster r =>
        refine ⟨r, ha, ?_⟩
        simpa [Operand.masked, Raster.masked, Option.isSome_iff_ne_none] using h
      | numbers _ _ => simp [Operand.masked] at h
    · rintro ⟨r, hr, h⟩
      exact ⟨_, hr, by simpa [Operand.masked, Raster.masked, Option.isSome_iff_ne_none] using h⟩
  unfold applyUfunc at hok
  simp only at hok
  split at hok
  · cases hok
  split at hok
  · cases hok
  split at hok
  · next hmask =>
    split at hok
    · cases hok
    · next hnout =>
      injection hok with hok
      have hn : u.nout = 1 := by omega
      have hmask' : args.any Operand.masked = false := by simpa using hmask
      subst hok
      refine ⟨by simp [hn], ?_⟩
      intro k o hko
      have hk : k = 0 := by
        cases k with
        | zero => rfl
        | succ k => simp at hko
      subst hk
      simp only [List.getElem?_cons_zero, Option.some.injEq] at hko
      subst hko
      have hnone : ∀ r, Operand.raster r ∈ args → r.nv = none := by
        intro r hr
        by_contra h
        have := hany.mpr ⟨r, hr, h⟩
        rw [hmask'] at this; cases this
      refine ⟨rfl, rfl, ?_, ?_⟩
      · constructor
        · intro h; exact absurd rfl h
        · rintro ⟨r, hr, h⟩; exact absurd (hnone r hr) h
      · intro c
        refine ⟨?_, fun _ => rfl, ?_⟩
        · constructor
          · intro h; cases h
          · rintro ⟨r, hr, h⟩; exact absurd (hnone r hr) (hargs r hr c h)
        · intro h; cases h
  · next hmask =>
    injection hok with hok
    subst hok
    have hmask' : args.any Operand.masked = true := by simpa using hmask
    refine ⟨by simp, ?_⟩
    intro k o hko
    rw [List.getElem?_map] at hko
    have hk : k < u.nout := by
      by_contra h
      rw [List.getElem?_eq_none (by simpa using h)] at hko
      cases hko
    rw [List.getElem?_range hk] at hko
    simp only [Option.map_some, Option.some.injEq] at hko
    subst hko
    have hmerge : ∀ c, mergeMasks (args.filterMap Operand.mask?) c = true ↔
        ∃ r, Operand.raster r ∈ args ∧ r.mask c = true := by
      intro c
      rw [mergeMasks_iff]
      constructor
      · rintro ⟨m, hm, h⟩
        rw [List.mem_filterMap] at hm
        obtain ⟨a, ha, h'⟩ := hm
        cases a with
        | raster r =>
          simp only [Operand.mask?, Option.some.injEq] at h'
          subst h'
          exact ⟨r, ha, h⟩
        | numbers _ _ => simp [Operand.mask?] at h'
      · rintro ⟨r, hr, h⟩
        exact ⟨r.mask, List.mem_filterMap.mpr ⟨_, hr, rfl⟩, h⟩
    refine ⟨rfl, rfl, ?_, ?_⟩
    · constructor
      · intro _; exact hany.mp hmask'
      · intro _; simp
    · intro c
      refine ⟨hmerge c, ?_, ?_⟩
      · intro h
        simp only at h
        simp [h]
      · intro h
        simp only at h
        exact ⟨_, rfl, by simp [h], (C18_default_fits _).1⟩

/-! ### C15: set_null -/

theorem burn_mask (r : Raster) : r.burn.mask = r.mask := by
  unfold Raster.burn; split <;> rfl

theorem burn_nv (r : Raster) : r.burn.nv = r.nv := by
  unfold Raster.burn; split <;> rfl

theorem burn_dtype (r : Raster) : r.burn.dtype = r.dtype := by
  unfold Raster.burn; split <;> rfl

theorem burn_valid (r : Raster) {c : Cell} (h : r.mask c = false) : r.burn.data c = r.data c := by
  unfold Raster.burn; split
  · rfl
  · simp [h]

theorem burn_null (r : Raster) {c : Cell} {s : Scalar} (hs : r.nv = some s) (h : r.mask c = true) :
    r.burn.data c = if r.dtype.isBool then .fin 1 else s.val := by
  unfold Raster.burn
  rw [hs]
  simp only [h, if_true]
  split
  · next hb => cases hd : r.dtype <;> simp_all [isBool, defaultNull]
  · rfl

/-- The marks that `set_null` computes from its argument. -/
theorem marks_of_mask {np : NumPy} (hnp : BoolCast np) {m : Raster} (hm : MaskNeedsNull m)
    (hd : m.dtype = .bool ∨ m.dtype = i8 ∨ m.dtype = u8) :
    ∃ m', m.asBool np = .ok m' ∧ m'.nb = m.nb ∧
      ∀ c, (if m'.masked then !((m'.data (m'.bcast c)).eq (.fin 0)) && !(m'.mask (m'.bcast c))
        else !((m'.data (m'.bcast c)).eq (.fin 0))) = true ↔ Marks m c := by
  have key : ∀ m' : Raster, m'.nb = m.nb → m'.mask = m.mask → (m'.nv = none ↔ m.nv = none) →
      (∀ c, m.mask c = false → (m'.data c = .fin 0 ↔ m.data c = .fin 0)) →
      ∀ c, (if m'.masked then !((m'.data (m'.bcast c)).eq (.fin 0)) && !(m'.mask (m'.bcast c))
        else !((m'.data (m'.bcast c)).eq (.fin 0))) = true ↔ Marks m c := by
    intro m' h1 h2 h3 h4 c
    have hb : m'.bcast c = if m.nb = 1 then (0, c.2) else c := by unfold Raster.bcast; rw [h1]
    have heq : ∀ x : Num, x.eq (.fin 0) = true ↔ x = .fin 0 := by
      intro x; rw [Num.eq_iff]; constructor
      · exact fun h => h.1
      · rintro rfl; exact ⟨rfl, by simp⟩
    rw [hb, h2]
    unfold Marks
    simp only
    generalize (if m.nb = 1 then ((0, c.2) : Cell) else c) = c'
    by_cases hmk : m.nv = none
    · have hfalse : m.mask c' = false := by
        by_contra h
        exact hm c' (by simpa using h) hmk
      have : m'.masked = false := by simp [Raster.masked, h3.mpr hmk]
      rw [this]
      simp only [Bool.false_eq_true, if_false, Bool.not_eq_true', hfalse, and_true]
      rw [← Bool.not_eq_true, heq, h4 c' hfalse]
    · have : m'.masked = true := by
        rw [Raster.masked, Option.isSome_iff_ne_none]
        exact fun h => hmk (h3.mp h)
      rw [this]
      simp only [if_true, Bool.and_eq_true, Bool.not_eq_true']
      constructor
      · rintro ⟨a, b⟩
        refine ⟨?_, b⟩
        rw [← Bool.not_eq_true, heq, h4 c' b] at a
        exact a
      · rintro ⟨a, b⟩
        refine ⟨?_, b⟩
        rw [← Bool.not_eq_true, heq, h4 c' b]
        exact a
  by_cases hb : m.dtype.isBool = true
  · refine ⟨m, by rw [Raster.asBool, if_pos hb], rfl, ?_⟩
    exact key m rfl rfl Iff.rfl (fun _ _ => Iff.rfl)
  · rw [Raster.asBool, if_neg hb]
    have hne : DType.bool ≠ m.dtype := by
      intro h; rw [← h] at hb; exact hb rfl
    have hc0 : ∀ x : Num, np.cast .bool x = .fin 0 ↔ x = .fin 0 := by
      intro x
      rw [hnp x]
      split
      · next h => simp [h]
      · next h => simp [h]
    unfold Raster.astype
    rw [if_neg (fun h => hne h.1)]
    cases hnv : m.nv with
    | none =>
      refine ⟨_, rfl, rfl, ?_⟩
      exact key _ rfl rfl (by simp [hnv]) (fun c _ => hc0 _)
    | some old =>
      refine ⟨_, rfl, rfl, ?_⟩
      refine key _ rfl rfl ?_ ?_
      · simp only [hnv, reduceCtorEq, iff_false]
        unfold reconcile
        simp only
        repeat' split
        all_goals simp
      · intro c h
        simp only [h, Bool.false_eq_true, if_false]
        exact hc0 _

/-- Arguments that `set_null` accepts. -/
def GoodMask (r m : Raster) : Prop :=
  (m.nb = 1 ∨ m.nb = r.nb) ∧ m.ny = r.ny ∧ m.nx = r.nx ∧ (m.dtype = .bool ∨ m.dtype = i8 ∨ m.dtype = u8)

/-- **C15**, what `set_null` does: null are the old null cells and the marked ones, all other cells keep
their value, null cells hold the null value (`True` in boolean rasters), the null value is the old one or
the default.  Everything else is rejected. -/
theorem C15_set_null {np : NumPy} (hnp : BoolCast np) (r : Raster) {m : Raster} (hm : MaskNeedsNull m)
    (hb : 0 < m.nb) : (¬ GoodMask r m → ∃ e, r.setNull np m = .error e) ∧
    (GoodMask r m → ∃ o, r.setNull np m = .ok o ∧
      o.dtype = r.dtype ∧ (o.nb, o.ny, o.nx) = (r.nb, r.ny, r.nx) ∧
      (∃ s, o.nv = some s ∧ (r.nv = none → s = defaultNull r.dtype) ∧ (∀ t, r.nv = some t → s = t) ∧
        ∀ c, o.mask c = true → o.data c = if r.dtype.isBool then .fin 1 else s.val) ∧
      ∀ c, (o.mask c = true ↔ r.mask c = true ∨ Marks m c) ∧ (o.mask c = false → o.data c = r.data c)) := by
  constructor
  · intro hbad
    unfold Raster.setNull
    split
    · exact ⟨_, rfl⟩
    split
    · exact ⟨_, rfl⟩
    split
    · exact ⟨_, rfl⟩
    · next h1 h2 h3 =>
      exfalso
      apply hbad
      refine ⟨by omega, ?_, ?_, ?_⟩
      · have : (m.ny, m.nx) = (r.ny, r.nx) := by simpa using h2
        exact (Prod.mk.injEq _ _ _ _ ▸ this).1
      · have : (m.ny, m.nx) = (r.ny, r.nx) := by simpa using h2
        exact (Prod.mk.injEq _ _ _ _ ▸ this).2
      · tauto
  · rintro ⟨h1, h2, h3, h4⟩
    obtain ⟨m', hm', hnb, hmarks⟩ := marks_of_mask hnp hm h4
    unfold Raster.setNull
    rw [if_neg (by omega), if_neg (by simp [h2, h3]), if_neg (by tauto), hm']
    refine ⟨_, rfl, ?_⟩
    unfold Raster.addMask
    simp only
    rw [burn_dtype, burn_nv, burn_mask]
    refine ⟨rfl, by unfold Raster.burn; split <;> rfl, ?_, ?_⟩
    · have : ∃ s, (if r.masked then r.nv else some (defaultNull r.dtype)) = some s ∧
          (r.nv = none → s = defaultNull r.dtype) ∧ (∀ t, r.nv = some t → s = t) := by
        cases hnv : r.nv with
        | none =>
          refine ⟨defaultNull r.dtype, by simp [Raster.masked, hnv], fun _ => rfl, ?_⟩
          intro t h; cases h
        | some t =>
          refine ⟨t, by simp [Raster.masked, hnv], ?_, ?_⟩
          · intro h; cases h
          · intro t' h; injection h
      obtain ⟨s, hs, h5, h6⟩ := this
      refine ⟨s, hs, h5, h6, ?_⟩
      intro c hc
      exact burn_null _ hs hc
    · intro c
      refine ⟨?_, ?_⟩
      · simp only [Bool.or_eq_true]
        rw [hmarks c]
      · intro hc
        rw [burn_valid _ hc]

/-- A boolean mask raster that marks what either of two marks. -/
def unionMask (r m1 m2 : Raster) : Raster :=
  let marks := fun (m : Raster) (c : Cell) =>
    !((m.data (if m.nb = 1 then (0, c.2) else c)).eq (.fin 0)) && !(m.mask (if m.nb = 1 then (0, c.2) else c))
  ⟨.bool, r.nb, r.ny, r.nx, fun c => if marks m1 c || marks m2 c then .fin 1 else .fin 0, fun _ => false, none⟩

theorem raster_ext {a b : Raster} (h1 : a.dtype = b.dtype) (h2 : (a.nb, a.ny, a.nx) = (b.nb, b.ny, b.nx))
    (h3 : ∀ c, a.data c = b.data c) (h4 : ∀ c, a.mask c = b.mask c) (h5 : a.nv = b.nv) : a = b := by
  cases a; cases b
  simp only [Prod.mk.injEq] at h2
  obtain ⟨rfl, rfl, rfl⟩ := h2
  simp only at h1 h3 h4 h5
  subst h1; subst h5
  rw [funext h3, funext h4]

/-- The result of `set_null` is determined by the marks. -/
theorem setNull_eq {np : NumPy} {r o : Raster} {m : Raster} (hnp : BoolCast np) (hm : MaskNeedsNull m)
    (hb : 0 < m.nb) (hg : GoodMask r m) (h : r.setNull np m = .ok o) :
    o.dtype = r.dtype ∧ (o.nb, o.ny, o.nx) = (r.nb, r.ny, r.nx) ∧ o.nv = some (r.nv.getD (defaultNull r.dtype)) ∧
    (∀ c, o.mask c = true ↔ r.mask c = true ∨ Marks m c) ∧
    (∀ c, o.data c = if o.mask c then (if r.dtype.isBool then .fin 1 else (r.nv.getD (defaultNull r.dtype)).val)
      else r.data c) := by
  obtain ⟨o', ho', h1, h2, ⟨s, h3, h4, h5, h6⟩, h7⟩ := (C15_set_null hnp r hm hb).2 hg
  rw [h] at ho'
  injection ho' with ho'
  subst ho'
  have hs : s = r.nv.getD (defaultNull r.dtype) := by
    cases hn : r.nv with
    | none => simpa using h4 hn
    | some t => simpa using h5 t hn
  refine ⟨h1, h2, by rw [h3, hs], fun c => (h7 c).1, ?_⟩
  intro c
  split
  · next hc => rw [h6 c hc, hs]
  · next hc => exact (h7 c).2 (by simpa using hc)

/-- **C15**, idempotence: applying the same mask again changes nothing. -/
theorem C15_idempotent {np : NumPy} (hnp : BoolCast np) {r m o : Raster} (hm : MaskNeedsNull m)
    (hb : 0 < m.nb) (hg : GoodMask r m) (h : r.setNull np m = .ok o) : o.setNull np m = .ok o := by
  obtain ⟨a1, a2, a3, a4, a5⟩ := setNull_eq hnp hm hb hg h
  have hsh := a2
  simp only [Prod.mk.injEq] at hsh
  have hg' : GoodMask o m := by
    obtain ⟨g1, g2, g3, g4⟩ := hg
    exact ⟨by rw [hsh.1]; exact g1, by rw [hsh.2.1]; exact g2, by rw [hsh.2.2]; exact g3, g4⟩
  obtain ⟨o2, h2, -⟩ := (C15_set_null hnp o hm hb).2 hg'
  rw [h2]
  obtain ⟨b1, b2, b3, b4, b5⟩ := setNull_eq hnp hm hb hg' h2
  congr 1
  have hmask : ∀ c, o2.mask c = o.mask c := by
    intro c
    rw [Bool.eq_iff_iff, b4, a4]; tauto
  refine raster_ext b1 b2 ?_ hmask (by rw [b3, a3]; rfl)
  intro c
  rw [b5 c, hmask c, a3, a1]
  split
  · next hc => rw [a5 c, if_pos hc]; rfl
  · rfl

/-- **C15**, composition: two masks one after the other do what their union does, so the order does not
matter. -/
theorem C15_union {np : NumPy} (hnp : BoolCast np) {r m1 m2 o1 : Raster} (hm1 : MaskNeedsNull m1)
    (hm2 : MaskNeedsNull m2) (hb1 : 0 < m1.nb) (hb2 : 0 < m2.nb) (hbr : 0 < r.nb) (hg1 : GoodMask r m1) (hg2 : GoodMask r m2) (h1 : r.setNull np m1 = .ok o1) :
    ∃ o, o1.setNull np m2 = .ok o ∧ r.setNull np (unionMask r m1 m2) = .ok o := by
  obtain ⟨a1, a2, a3, a4, a5⟩ := setNull_eq hnp hm1 hb1 hg1 h1
  have hsh := a2
  simp only [Prod.mk.injEq] at hsh
  have hg2' : GoodMask o1 m2 := by
    obtain ⟨g1, g2, g3, g4⟩ := hg2
    exact ⟨by rw [hsh.1]; exact g1, by rw [hsh.2.1]; exact g2, by rw [hsh.2.2]; exact g3, g4⟩
  obtain ⟨o, h2, -⟩ := (C15_set_null hnp o1 hm2 hb2).2 hg2'
  refine ⟨o, h2, ?_⟩
  obtain ⟨b1, b2, b3, b4, b5⟩ := setNull_eq hnp hm2 hb2 hg2' h2
  have hmu : MaskNeedsNull (unionMask r m1 m2) := by intro c h; cases h
  have hgu : GoodMask r (unionMask r m1 m2) := ⟨Or.inr rfl, rfl, rfl, Or.inl rfl⟩
  have hbu : 0 < (unionMask r m1 m2).nb := hbr
  obtain ⟨ou, hu, -⟩ := (C15_set_null hnp r hmu hbu).2 hgu
  rw [hu]
  obtain ⟨u1, u2, u3, u4, u5⟩ := setNull_eq hnp hmu hbu hgu hu
  have hmk : ∀ (m : Raster) (c : Cell), (!((m.data (if m.nb = 1 then (0, c.2) else c)).eq (.fin 0)) &&
      !(m.mask (if m.nb = 1 then (0, c.2) else c))) = true ↔ Marks m c := by
    intro m c
    unfold Marks
    simp only [Bool.and_eq_true, Bool.not_eq_true']
    rw [← Bool.not_eq_true, Num.eq_iff]
    constructor
    · rintro ⟨x, y⟩
      exact ⟨fun h => x ⟨h, by rw [h]; simp⟩, y⟩
    · rintro ⟨x, y⟩
      exact ⟨fun h => x h.1, y⟩
  have hsame : ∀ m : Raster, (m.nb = 1 ∨ m.nb = r.nb) → r.nb = 1 → ∀ c : Cell, Marks m (0, c.2) ↔ Marks m c := by
    intro m hm hr c
    have : m.nb = 1 := by omega
    unfold Marks
    simp only [this, if_true]
  have hum : ∀ c, Marks (unionMask r m1 m2) c ↔ Marks m1 c ∨ Marks m2 c := by
    intro c
    have : ∀ c, (unionMask r m1 m2).data c ≠ .fin 0 ↔ Marks m1 c ∨ Marks m2 c := by
      intro c
      simp only [unionMask]
      rw [← hmk m1 c, ← hmk m2 c, ← Bool.or_eq_true]
      constructor
      · intro h
        by_contra hn
        rw [if_neg hn] at h
        exact h rfl
      · intro h
        rw [if_pos h]
        simp
    unfold Marks
    by_cases hr : r.nb = 1
    · have e : (unionMask r m1 m2).nb = 1 := hr
      simp only [e, if_true]
      rw [this]
      simp only [unionMask, and_true]
      have := hsame m1 hg1.1 hr c
      have := hsame m2 hg2.1 hr c
      unfold Marks at *
      tauto
    · have e : (unionMask r m1 m2).nb ≠ 1 := hr
      simp only [e, if_false]
      rw [this]
      simp only [unionMask, and_true]
      unfold Marks
      exact Iff.rfl
  congr 1
  have hmask : ∀ c, ou.mask c = o.mask c := by
    intro c
    rw [Bool.eq_iff_iff, b4, a4, u4, hum]; tauto
  refine raster_ext (by rw [b1, a1, u1]) (by rw [b2, a2, u2]) ?_ hmask (by rw [b3, a3, u3]; rfl)
  intro c
  rw [b5 c, u5 c, hmask c, a3, a1]
  split
  · rfl
  · next hc =>
    rw [a5 c, if_neg]
    intro h1
    exact hc ((b4 c).mpr (Or.inl h1))

/-- **C15**, the order of two masks does not matter. -/
theorem C15_order {np : NumPy} (hnp : BoolCast np) {r m1 m2 o1 o2 : Raster} (hm1 : MaskNeedsNull m1)
    (hm2 : MaskNeedsNull m2) (hb1 : 0 < m1.nb) (hb2 : 0 < m2.nb) (hbr : 0 < r.nb) (hg1 : GoodMask r m1)
    (hg2 : GoodMask r m2) (h1 : r.setNull np m1 = .ok o1) (h2 : r.setNull np m2 = .ok o2) :
    ∃ o, o1.setNull np m2 = .ok o ∧ o2.setNull np m1 = .ok o := by
  obtain ⟨o, ho, hu⟩ := C15_union hnp hm1 hm2 hb1 hb2 hbr hg1 hg2 h1
  obtain ⟨o', ho', hu'⟩ := C15_union hnp hm2 hm1 hb2 hb1 hbr hg2 hg1 h2
  have : unionMask r m1 m2 = unionMask r m2 m1 := by
    refine raster_ext rfl rfl ?_ (fun _ => rfl) rfl
    intro c
    simp only [unionMask]
    rw [Bool.or_comm]
  rw [this, hu'] at hu
  injection hu with hu
  subst hu
  exact ⟨_, ho, ho'⟩

/-! ### C16: set_null_value -/

theorem commonDtype_pair (i : Item) (dt : DType) :
    ∃ d, commonDtype [i, .dtype dt] = some d ∧ dt.canCast d = true := by
  have hne : itemDtypes [i, .dtype dt] ++ (literalDtype (itemInts [i, .dtype dt])).toList ≠ [] := by
    cases i <;> simp [itemDtypes]
  obtain ⟨r, hr, h1, -, -⟩ := reducePromote_spec hne
  exact ⟨r, hr, h1 dt (by cases i <;> simp [itemDtypes])⟩

/-- How the dtype changes: to one that the old dtype can be cast to. -/
theorem nullDtype_spec (np : NumPy) (dt : DType) (v : NullArg) :
    (nullDtype np dt v = .error .key ∧ v.val = .nan ∧ (dt = i64 ∨ dt = u64)) ∨
    (∃ d, nullDtype np dt v = .ok (some d) ∧ dt.canCast d = true ∧ (v.val = .nan → dt.isInt = true ∧ d.isFloat = true)) ∨
    (nullDtype np dt v = .ok none ∧
      ((v.val = .nan ∧ dt.isInt = false) ∨ (dt.isInt = true ∧ ∃ n : Int, v.val = .fin n ∧ dt.Holds n))) := by
  unfold nullDtype
  by_cases hnan : v.val = .nan
  · rw [hnan]
    simp only [Num.isnan, if_true]
    by_cases hi : dt.isInt = true
    · rw [if_pos hi]
      cases dt <;> simp [isInt] at hi <;> simp only [intToFloat]
      case i64 => left; exact ⟨trivial, trivial, Or.inl trivial⟩
      case u64 => left; exact ⟨trivial, trivial, Or.inr trivial⟩
      all_goals exact Or.inr (Or.inl ⟨_, rfl, rfl, fun _ => ⟨rfl, rfl⟩⟩)
    · rw [if_neg hi]
      exact Or.inr (Or.inr ⟨rfl, Or.inl ⟨trivial, by simpa using hi⟩⟩)
  · have hnan' : v.val.isnan = false := by
      cases h : v.val <;> simp_all [Num.isnan]
    rw [hnan']
    simp only [Bool.false_eq_true, if_false]
    have hc : ∀ i : Item, (∃ d, Except.ok (ε := Err) (commonDtype [i, .dtype dt]) = .ok (some d) ∧ dt.canCast d = true ∧
        (v.val = .nan → dt.isInt = true ∧ d.isFloat = true)) := by
      intro i
      obtain ⟨d, hd, h1⟩ := commonDtype_pair i dt
      exact ⟨d, by rw [hd], h1, fun h => absurd h hnan⟩
    split
    · exact Or.inr (Or.inl (hc _))
    · split
      · next hii =>
        simp only [Bool.and_eq_true] at hii
        split
        · next q lo hi hq hl =>
          have hqn : ∃ n : Int, q = n := by
            cases v with
            | int n => simp only [NullArg.val, FVal.fin.injEq] at hq; exact ⟨n, hq.symm⟩
            | bool b =>
              simp only [NullArg.val] at hq
              cases b
              · simp at hq; exact ⟨0, by simp [← hq]⟩
              · simp at hq; exact ⟨1, by simp [← hq]⟩
            | float x => simp [NullArg.isInt] at hii
          obtain ⟨n, rfl⟩ := hqn
          split
          · next hr =>
            exact Or.inr (Or.inr ⟨rfl, Or.inr ⟨hii.2, n, hq, lo, hi, hl, by exact_mod_cast hr.1, by exact_mod_cast hr.2⟩⟩)
          · exact Or.inr (Or.inl (hc _))
        · next hno =>
          exfalso
          have hl : ∃ p, dt.limits = some p := by
            have := hii.2
            cases dt <;> simp [isInt] at this <;> exact ⟨_, rfl⟩
          obtain ⟨⟨lo, hi⟩, hl⟩ := hl
          cases v with
          | int n => exact hno _ _ _ rfl hl
          | bool b =>
            cases b
            · exact hno 0 _ _ rfl hl
            · exact hno 1 _ _ rfl hl
          | float x => simp [NullArg.isInt] at hii
      · exact Or.inr (Or.inl (hc _))

/-- **C16**, clearing: `set_null_value(None)` removes the null value and the mask; valid cells are
unchanged and former null cells hold the old null value. -/
theorem C16_clear (np : NumPy) (r : Raster) :
    ∃ o, r.setNullValue np none = .ok o ∧ o.nv = none ∧ o.dtype = r.dtype ∧ (∀ c, o.mask c = false) ∧
      (∀ c, r.mask c = false → o.data c = r.data c) ∧
      (NullsHold r → r.dtype.isBool = false → ∀ c, o.data c = r.data c) := by
  refine ⟨_, rfl, rfl, burn_dtype r, fun _ => rfl, fun c h => burn_valid r h, ?_⟩
  intro hr hb c
  simp only
  by_cases h : r.mask c = true
  · obtain ⟨s, hs, hd⟩ := hr c h
    rw [burn_null r hs h, hb, hd]
    simp
  · exact burn_valid r (by simpa using h)

/-- The only rejected null value: NaN for 64 bit integer rasters (a `KeyError`). -/
theorem C16_rejected (np : NumPy) (r : Raster) (v : NullArg) :
    (∃ e, r.setNullValue np (some v) = .error e) ↔ v.val = .nan ∧ (r.dtype = i64 ∨ r.dtype = u64) := by
  unfold Raster.setNullValue
  simp only
  rcases nullDtype_spec np r.dtype v with ⟨h, h1, h2⟩ | ⟨d, h, h1, h2⟩ | ⟨h, h1⟩ <;> rw [h]
  · exact ⟨fun _ => ⟨h1, h2⟩, fun _ => ⟨_, rfl⟩⟩
  · simp only [reduceCtorEq, exists_false, false_iff, not_and, not_or]
    intro hn
    have := (h2 hn)
    constructor
    · intro hd
      rw [hd] at h
      simp [nullDtype, hn, Num.isnan, isInt, intToFloat] at h
    · intro hd
      rw [hd] at h
      simp [nullDtype, hn, Num.isnan, isInt, intToFloat] at h
  · simp only [reduceCtorEq, exists_false, false_iff, not_and, not_or]
    intro hn
    rcases h1 with ⟨_, h1⟩ | ⟨_, n, h1, _⟩
    · constructor <;> intro hd <;> rw [hd] at h1 <;> simp [isInt] at h1
    · rw [hn] at h1; cases h1

/-- **C16.**  `set_null_value(v)`: null cells stay null, only cells whose value is `v` become null in
addition, valid cells keep their value, and the null cells hold the new null value `v`.  Excluded are
boolean rasters (see the witnesses below) and, for the values, 64 bit integer
rasters that turn into floats. -/
theorem C16_set_null_value {np : NumPy} (hnp : ExactCast np) (hnan : NanCast np) (hll : Lossless np)
    {r o : Raster} {v : NullArg} (hok : r.setNullValue np (some v) = .ok o) (hbool : r.dtype.isBool = false)
    (hr : MaskNeedsNull r) (hval : ∀ c, r.mask c = false → ValueOf r.dtype (r.data c)) :
    r.dtype.canCast o.dtype = true ∧ (∃ s, o.nv = some s ∧ s.val = v.val) ∧
    (o.nb, o.ny, o.nx) = (r.nb, r.ny, r.nx) ∧
    ∀ c, (r.mask c = true → o.mask c = true) ∧
      (o.mask c = true → o.data c = v.val) ∧
      (¬ Lossy r.dtype o.dtype →
        (o.mask c = true ↔ r.mask c = true ∨ r.data c = v.val) ∧
        (o.mask c = false → o.data c = r.data c)) := by
  unfold Raster.setNullValue at hok
  simp only at hok
  have hmneed : ∀ c, r.masked = false → r.mask c = false := by
    intro c h
    by_contra hc
    have := hr c (by simpa using hc)
    simp [Raster.masked] at h
    exact this h
  rcases nullDtype_spec np r.dtype v with ⟨h, h1, h2⟩ | ⟨d, h, h1, h2⟩ | ⟨h, h1⟩ <;> rw [h] at hok <;> simp only at hok
  · cases hok
  · injection hok with hok
    subst hok
    have hdb : d.isBool = false := by
      cases hd : r.dtype <;> rw [hd] at h1 hbool <;> cases d <;> simp_all [canCast, isBool]
    rw [burn_dtype, burn_nv, burn_mask]
    refine ⟨h1, ⟨_, rfl, rfl⟩, by unfold Raster.burn; rfl, ?_⟩
    intro c
    have hmask : ∀ c, (if r.masked = true then r.mask c || maskOf (some v.val) (np.cast d (r.data c))
        else maskOf (some v.val) (np.cast d (r.data c))) = true ↔
        r.mask c = true ∨ np.cast d (r.data c) = v.val := by
      intro c
      by_cases hm : r.masked = true
      · rw [if_pos hm, Bool.or_eq_true, maskOf_iff]
      · rw [if_neg hm, maskOf_iff, hmneed c (by simpa using hm)]
        simp
    refine ⟨fun hc => (hmask c).mpr (Or.inl hc), ?_, ?_⟩
    · intro hc
      rw [burn_null _ rfl hc]
      simp [hdb]
    · intro hl
      refine ⟨?_, ?_⟩
      · refine (hmask c).trans ?_
        by_cases hmc : r.mask c = true
        · simp [hmc]
        · rw [hll r.dtype d _ h1 hl (hval c (by simpa using hmc))]
      · intro hc
        rw [burn_valid _ hc]
        have : ¬ r.mask c = true := fun h' => by
          have := (hmask c).mpr (Or.inl h')
          simp only at hc
          rw [this] at hc; cases hc
        exact hll r.dtype d _ h1 hl (hval c (by simpa using this))
  · injection hok with hok
    subst hok
    have hv : np.cast r.dtype v.val = v.val := by
      rcases h1 with ⟨h1, h2⟩ | ⟨_, n, h1, h2⟩
      · rw [h1]
        apply hnan
        cases hd : r.dtype <;> simp_all [isInt, isBool, isFloat]
      · rw [h1]; exact hnp _ n h2
    rw [burn_dtype, burn_nv, burn_mask]
    refine ⟨canCast_refl _, ⟨_, rfl, hv⟩, by unfold Raster.burn; rfl, ?_⟩
    intro c
    rw [hv]
    have hmask : ∀ c, (if r.masked = true then r.mask c || maskOf (some v.val) (r.data c)
        else maskOf (some v.val) (r.data c)) = true ↔ r.mask c = true ∨ r.data c = v.val := by
      intro c
      by_cases hm : r.masked = true
      · rw [if_pos hm, Bool.or_eq_true, maskOf_iff]
      · rw [if_neg hm, maskOf_iff, hmneed c (by simpa using hm)]
        simp
    refine ⟨fun hc => (hmask c).mpr (Or.inl hc), ?_, ?_⟩
    · intro hc
      rw [burn_null _ rfl hc]
      simp [hbool]
    · intro _
      refine ⟨hmask c, ?_⟩
      intro hc
      rw [burn_valid _ hc]

/-- **C16**, the dtype: NaN turns an integer raster into the smallest float type that its dtype can be cast to
safely, and leaves the dtype of a float raster alone. -/
theorem C16_nan_dtype {np : NumPy} {r o : Raster} {v : NullArg} (hv : v.val = .nan)
    (hok : r.setNullValue np (some v) = .ok o) :
    (r.dtype.isInt = true → o.dtype.isFloat = true ∧ r.dtype.canCast o.dtype = true ∧
      ∀ d : DType, d.isFloat = true → r.dtype.canCast d = true → o.dtype.canCast d = true) ∧
    (r.dtype.isFloat = true → o.dtype = r.dtype) := by
  unfold Raster.setNullValue nullDtype at hok
  simp only [hv, Num.isnan, if_true] at hok
  cases hd : r.dtype <;> simp [hd, isInt, intToFloat] at hok <;> subst hok <;> rw [burn_dtype] <;>
    refine ⟨fun h => ?_, fun h => ?_⟩ <;> first
    | exact ⟨rfl, rfl, fun d h1 h2 => by cases d <;> simp_all [canCast, isFloat]⟩
    | exact absurd h (by decide)
    | exact hd
    | rfl

example : ∃ o, (⟨u16, 1, 1, 1, fun _ => .fin 3, fun _ => false, none⟩ : Raster).setNullValue (idNumPy false)
    (some (.float .nan)) = .ok o ∧ o.dtype = f32 := ⟨_, rfl, rfl⟩

/-- **C16 fails for boolean rasters**: `set_null_value(nan)` makes every `True` cell null, whatever the
raster. -/
theorem C16_boolean_nan {np : NumPy} (hnp : BoolCast np) (r : Raster) (hd : r.dtype = .bool) :
    ∃ o, r.setNullValue np (some (.float .nan)) = .ok o ∧ ∀ c, r.data c = .fin 1 → o.mask c = true := by
  refine ⟨_, by simp [Raster.setNullValue, nullDtype, NullArg.val, Num.isnan, hd, isInt]; rfl, ?_⟩
  intro c hc
  rw [burn_mask]
  have hcast : np.cast .bool .nan = .fin 1 := by rw [hnp]; simp
  simp only [hcast, hc]
  have : maskOf (some (.fin 1)) (.fin 1) = true := by decide +kernel
  rw [this]
  simp

/-- **C16 fails for boolean rasters**: after `set_null_value(False)` the null cells hold `True` although
the null value is `False`. -/
theorem C16_boolean_false (np : NumPy) (r : Raster) (hd : r.dtype = .bool) (hc : np.cast .bool (.fin 0) = .fin 0) :
    ∃ o, r.setNullValue np (some (.bool false)) = .ok o ∧ o.nv = some ⟨.bool, .fin 0⟩ ∧
      ∀ c, r.data c = .fin 0 → o.mask c = true ∧ o.data c = .fin 1 := by
  have hnd : nullDtype np .bool (.bool false) = .ok (some .bool) := by
    simp [nullDtype, NullArg.val, Num.isnan, isInt, isFloat, NullArg.isInt, NullArg.item]
    decide +kernel
  refine ⟨_, by simp only [Raster.setNullValue, hd, hnd]; rfl, by rw [burn_nv]; rfl, ?_⟩
  intro c h0
  have hm : (if r.masked = true then r.mask c || maskOf (some (NullArg.bool false).val) (np.cast .bool (r.data c))
      else maskOf (some (NullArg.bool false).val) (np.cast .bool (r.data c))) = true := by
    have : maskOf (some (NullArg.bool false).val) (np.cast .bool (r.data c)) = true := by
      rw [h0, hc]; decide +kernel
    rw [this]; simp
  rw [burn_mask]
  refine ⟨hm, ?_⟩
  rw [burn_null _ rfl hm]
  rfl

/-- **C16 fails for 64 bit integers that turn into floats**: with -1 as null value an unsigned raster
becomes float64 and 2^53 + 1 is not kept. -/
theorem C16_uint64_loses_digits {np : NumPy} (hround : np.cast f64 (.fin (2 ^ 53 + 1)) = .fin (2 ^ 53))
    (r : Raster) (hd : r.dtype = u64) (hnv : r.nv = none) (hm : ∀ c, r.mask c = false) :
    ∃ o, r.setNullValue np (some (.int (-1))) = .ok o ∧ o.dtype = f64 ∧
      ∀ c, r.data c = .fin (2 ^ 53 + 1) → o.mask c = false ∧ o.data c = .fin (2 ^ 53) := by
  have hnd : nullDtype np u64 (.int (-1)) = .ok (some f64) := by
    simp [nullDtype, NullArg.val, Num.isnan, isInt, isFloat, NullArg.isInt, limits]
    decide +kernel
  refine ⟨_, by simp only [Raster.setNullValue, hd, hnd]; rfl, by rw [burn_dtype]; rfl, ?_⟩
  intro c h0
  have hmk : (if r.masked = true then r.mask c || maskOf (some (NullArg.int (-1)).val) (np.cast f64 (r.data c))
      else maskOf (some (NullArg.int (-1)).val) (np.cast f64 (r.data c))) = false := by
    have : maskOf (some (NullArg.int (-1)).val) (np.cast f64 (r.data c)) = false := by
      rw [h0, hround]; decide +kernel
    rw [this, hm c]; simp
  rw [burn_mask]
  refine ⟨hmk, ?_⟩
  rw [burn_valid _ hmk]
  simp only [h0, hround]

/-! ### C17: astype -/

/-- **C17**, without a new null value: `astype` succeeds, keeps the null cells, converts the valid ones,
and the null cells of the result hold its null value, which for integer and boolean types is representable. -/
theorem C17_astype {np : NumPy} (hnp : ExactCast np) (r : Raster) (dt : DType)
    (hr : NullsHold r) :
    ∃ o, r.astype np dt none = .ok o ∧ o.dtype = dt ∧ (o.nb, o.ny, o.nx) = (r.nb, r.ny, r.nx) ∧
      (∀ c, o.mask c = r.mask c) ∧
      (∀ c, r.mask c = false → o.data c = if dt = r.dtype then r.data c else np.cast dt (r.data c)) ∧
      NullsHold o ∧ (o.nv = none ↔ r.nv = none) ∧
      (dt ≠ r.dtype → dt.isFloat = false → ∀ s t, r.nv = some s → WellTyped s → o.nv = some t →
        Representable dt t.val) := by
  unfold Raster.astype
  by_cases hd : dt = r.dtype
  · rw [if_pos ⟨hd, Or.inl rfl⟩]
    exact ⟨r, rfl, hd.symm, rfl, fun _ => rfl, fun c _ => by rw [if_pos hd], hr, Iff.rfl, fun h => absurd hd h⟩
  · rw [if_neg (fun h => hd h.1)]
    cases hnv : r.nv with
    | none =>
      refine ⟨_, rfl, rfl, rfl, fun _ => rfl, fun c _ => by rw [if_neg hd], ?_, by simp, ?_⟩
      · intro c hc
        obtain ⟨s, hs, _⟩ := hr c hc
        rw [hnv] at hs; cases hs
      · intro _ _ s t h; cases h
    | some old =>
      have hsome : ∃ s, (reconcile np (some old) dt).1 = some s := by
        unfold reconcile
        simp only
        repeat' split
        all_goals exact ⟨_, rfl⟩
      obtain ⟨s, hs⟩ := hsome
      simp only [hs]
      refine ⟨_, rfl, rfl, rfl, fun _ => rfl, ?_, ?_, by simp, ?_⟩
      · intro c hc
        simp [hc, hd]
      · intro c hc
        exact ⟨s, rfl, by simp only at hc; simp [hc]⟩
      · intro _ hdt s' t h1 h2 h3
        injection h1 with h1; subst h1
        injection h3 with h3; subst h3
        rcases C18_reconcile_fits hnp hdt (some old) (fun s e => by injection e with e; rw [← e]; exact h2) with
          ⟨h, _⟩ | ⟨a, b, _, h, hrep⟩
        · cases h
        · rw [hs] at h; injection h with h; subst h; exact hrep

/-- Two numbers that `astype` takes for the same null value: equal, or closer than a hundred-thousandth of the second (and 1e-8). -/
def Spec.Close (a v : Num) : Prop :=
  a = v ∨ ∃ p q : Rat, a = .fin p ∧ v = .fin q ∧ -(1 / 100000000 + |q| / 100000) ≤ p - q ∧ p - q ≤ 1 / 100000000 + |q| / 100000

theorem close_iff (a v : Num) : allcloseNum a v = true ↔ Spec.Close a v := by
  unfold Spec.Close
  cases a <;> cases v <;> simp [allcloseNum, allclose]
  rename_i p q
  have hq : (0 : Rat) ≤ |q| := abs_nonneg q
  rw [abs_le]
  constructor
  · rintro ⟨h1, h2⟩
    right
    constructor <;> linarith
  · rintro (h | ⟨h1, h2⟩)
    · rw [h]
      constructor <;> norm_num <;> linarith
    · constructor <;> linarith

/-- A new null value that is not close to the old one. -/
theorem new_null {np : NumPy} (r : Raster) (dt : DType) {s old : Scalar} (hold : r.nv = some old)
    (hclose : allcloseNum s.val old.val = false) :
    (∃ e, r.astype np dt (some s) = .error e ∧ (reconcile np (some s) dt).2 = true) ∨
    ∃ o t, r.astype np dt (some s) = .ok o ∧ (reconcile np (some s) dt) = (some t, false) ∧ o.nv = some t ∧
      o.dtype = dt ∧ (∀ c, o.mask c = r.mask c) ∧ (∀ c, r.mask c = false → o.data c = np.cast dt (r.data c)) ∧
      (∀ c, r.mask c = true → o.data c = t.val) := by
  have hne : nullValuesEqual r.nv (some s) = false := by
    rw [hold]
    simp only [nullValuesEqual]
    by_contra h
    have h := (Num.nanEqual_iff _ _).mp (by simpa using h)
    rw [h] at hclose
    cases hv : s.val <;> rw [hv] at hclose <;> simp [allcloseNum, allclose] at hclose
    have : (0 : Rat) ≤ |‹Rat›| := abs_nonneg _
    linarith
  unfold Raster.astype
  rw [if_neg (by simp [hne]), hold]
  simp only [hclose, Bool.false_eq_true, if_false]
  have hsome : ∃ t, (reconcile np (some s) dt).1 = some t := by
    unfold reconcile
    simp only
    repeat' split
    all_goals exact ⟨_, rfl⟩
  obtain ⟨t, ht⟩ := hsome
  cases hw : (reconcile np (some s) dt).2 with
  | true => left; exact ⟨.value, by simp, rfl⟩
  | false =>
    right
    refine ⟨{ r with dtype := dt, nv := (reconcile np (some s) dt).1
                     data := fun c => if r.mask c then ((reconcile np (some s) dt).1.getD s).val
                       else np.cast dt (r.data c) }, t, by simp,
      Prod.ext ht hw, ht, rfl, fun _ => rfl, ?_, ?_⟩
    · intro c hc; simp [hc]
    · intro c hc; simp [hc, ht]

/-- **C17**, with a new null value, for rasters that have a null value which is not "close" to the new
one: either the value is rejected (it cannot be reconciled with the dtype), or the result has the
reconciled null value in exactly the null cells.  For the rest see the witnesses below. -/
theorem C17_new_null_partial {np : NumPy} (r : Raster) (dt : DType) {s old : Scalar} (hold : r.nv = some old)
    (hclose : ¬ Spec.Close s.val old.val) :
    (∃ e, r.astype np dt (some s) = .error e ∧ (reconcile np (some s) dt).2 = true) ∨
    ∃ o t, r.astype np dt (some s) = .ok o ∧ (reconcile np (some s) dt) = (some t, false) ∧ o.nv = some t ∧
      o.dtype = dt ∧ (∀ c, o.mask c = r.mask c) ∧ (∀ c, r.mask c = false → o.data c = np.cast dt (r.data c)) ∧
      (∀ c, r.mask c = true → o.data c = t.val) :=
  new_null r dt hold (by rw [← close_iff] at hclose; simpa using hclose)

/-- Concrete raster for the witnesses: one float64 cell that is null, null value 1000000. -/
def oneNull : Raster := ⟨f64, 1, 1, 1, fun _ => .fin 1000000, fun _ => true, some ⟨f64, .fin 1000000⟩⟩

/-- **C17 fails for close null values**: the requested null value 1000001 is ignored because it is
`np.allclose` to the old one. -/
theorem C17_close_null_ignored :
    ∃ o, oneNull.astype (idNumPy false) f64 (some ⟨f64, .fin 1000001⟩) = .ok o ∧ o.nv = some ⟨f64, .fin 1000000⟩ ∧
      o.data (0, 0, 0) = .fin 1000000 := by
  have h1 : nullValuesEqual oneNull.nv (some ⟨f64, .fin 1000001⟩) = false := by decide +kernel
  have h2 : allcloseNum (.fin 1000001) (.fin 1000000) = true := by decide +kernel
  refine ⟨{ oneNull with data := fun c => oneNull.data c }, ?_, rfl, rfl⟩
  simp only [Raster.astype, h1]
  simp [oneNull, h2, idNumPy]

/-- **C17 fails for close null values**, which ones: the requested null value is ignored exactly if it is close to the old one,
unless reconciling it with the dtype gives the old one. -/
theorem C17_close_iff {np : NumPy} {r o : Raster} {dt : DType} {s old : Scalar} (hold : r.nv = some old)
    (hne : (reconcile np (some s) dt).1 ≠ some old) (h : r.astype np dt (some s) = .ok o) :
    o.nv = some old ↔ Spec.Close s.val old.val := by
  rw [← close_iff]
  cases hc : allcloseNum s.val old.val with
  | true =>
    simp only [iff_true]
    unfold Raster.astype at h
    split at h
    · injection h with h; rw [← h]; exact hold
    · simp only [hold, hc, if_true] at h
      injection h with h
      rw [← h]
  | false =>
    simp only [Bool.false_eq_true, iff_false]
    rcases new_null (np := np) r dt hold hc with ⟨e, h1, -⟩ | ⟨o', t, h1, h2, h3, -⟩
    · rw [h1] at h; cases h
    · rw [h1] at h
      injection h with h
      subst h
      rw [h3]
      intro ht
      exact hne (by rw [h2, ht])

example : Spec.Close (.fin 1000001) (.fin 1000000) ∧ ¬ Spec.Close (.fin 1000011) (.fin 1000000) := by
  rw [← close_iff, ← close_iff]
  decide +kernel

/-- **C17 fails for rasters without null value**: the requested null value is ignored. -/
theorem C17_unmasked_null_ignored (np : NumPy) (r : Raster) (dt : DType) (s : Scalar) (h : r.nv = none) :
    ∃ o, r.astype np dt (some s) = .ok o ∧ o.nv = none := by
  unfold Raster.astype
  rw [if_neg (by simp [h, nullValuesEqual]), h]
  exact ⟨_, rfl, rfl⟩

/-- **C17 fails for NaN**: asking for NaN as null value gives the default null value. -/
theorem C17_nan_null_replaced (np : NumPy) (r : Raster) (dt : DType) {old : Scalar} (h : r.nv = some old)
    (hold : old.val ≠ .nan) :
    ∃ o, r.astype np dt (some ⟨f64, .nan⟩) = .ok o ∧ o.nv = some (defaultNull dt) := by
  have hc : allcloseNum .nan old.val = false := by cases hv : old.val <;> simp_all [allcloseNum]
  rcases new_null (np := np) r dt h (s := ⟨f64, .nan⟩) hc with ⟨e, _, h2⟩ | ⟨o, t, h1, h2, h3, _⟩
  · simp [reconcile, Num.isnan] at h2
  · refine ⟨o, h1, ?_⟩
    rw [h3]
    simp only [reconcile, Num.isnan, if_true, Prod.mk.injEq] at h2
    exact h2.1.symm

/-! ### Concrete cases -/

/-- A cast that changes nothing but booleans. -/
def boolNumPy (valueBased : Bool) : NumPy :=
  ⟨valueBased, fun d x => if d = .bool then (if x = .fin 0 then .fin 0 else .fin 1) else x⟩

/-- Two int16 cells 3 and 7, the first of them null (null value 3). -/
def twoCells : Raster :=
  ⟨i16, 1, 1, 2, fun c => if c = (0, 0, 0) then .fin 3 else .fin 7, fun c => c = (0, 0, 0), some ⟨i16, .fin 3⟩⟩

/-- A uint8 mask raster that marks the second cell. -/
def markSecond : Raster := ⟨u8, 1, 1, 2, fun c => if c = (0, 0, 1) then .fin 4 else .fin 0, fun _ => false, none⟩

theorem twoCells_nulls : NullsHold twoCells := by
  intro c hc
  have : c = (0, 0, 0) := by simpa [twoCells] using hc
  subst this
  exact ⟨_, rfl, rfl⟩

/-- C14: adding 1 to a raster with a null cell. -/
example : ∃ o, applyUfunc ⟨false, false, 1, fun _ _ => i64, fun _ l => match l with
      | [.fin a, .fin b] => .fin (a + b)
      | _ => .nan⟩ twoCells [.raster twoCells, .numbers i64 fun _ => .fin 1] = .ok [o] ∧
    o.data (0, 0, 1) = .fin 8 ∧ o.mask (0, 0, 0) = true ∧ o.nv = some ⟨i64, .fin (-2 ^ 63)⟩ ∧
    ∀ r, Operand.raster r ∈ [Operand.raster twoCells, .numbers i64 fun _ => .fin 1] → MaskNeedsNull r := by
  refine ⟨_, rfl, by decide +kernel, by decide +kernel, by decide +kernel, ?_⟩
  intro r hr
  simp only [List.mem_cons, Operand.raster.injEq, List.not_mem_nil, or_false, reduceCtorEq] at hr
  subst hr
  intro c hc
  obtain ⟨s, hs, _⟩ := twoCells_nulls c hc
  rw [hs]; simp

/-- C14: a bitwise operation rejects floats, a unary two output operation an unmasked raster. -/
example : (∃ e, applyUfunc ⟨true, false, 1, fun _ _ => i64, fun _ _ => .nan⟩ twoCells
      [.raster twoCells, .numbers f64 fun _ => .fin 1] = .error e) ∧
    ∃ e, applyUfunc ⟨false, false, 2, fun _ _ => f64, fun _ _ => .nan⟩ markSecond [.raster markSecond] = .error e :=
  ⟨⟨_, rfl⟩, ⟨_, rfl⟩⟩

/-- C15: the hypotheses hold for the rasters above, and the mask makes both cells null. -/
example : BoolCast (boolNumPy true) ∧ MaskNeedsNull markSecond ∧ GoodMask twoCells markSecond ∧
    Marks markSecond (0, 0, 1) ∧ ¬ Marks markSecond (0, 0, 0) ∧
    ∃ o, twoCells.setNull (boolNumPy true) markSecond = .ok o ∧ o.mask (0, 0, 1) = true ∧
      o.data (0, 0, 1) = .fin 3 := by
  refine ⟨fun x => by simp [boolNumPy], fun c hc => (Bool.false_ne_true hc).elim, ⟨Or.inl rfl, rfl, rfl, Or.inr (Or.inr rfl)⟩,
    ?_, ?_, _, rfl, by decide +kernel, by decide +kernel⟩
  · refine ⟨by decide +kernel, rfl⟩
  · rintro ⟨h, _⟩
    exact absurd h (by decide +kernel)

/-- C16: the hypotheses hold, and the null value 7 makes the second cell null. -/
example : ExactCast (idNumPy true) ∧ NanCast (idNumPy true) ∧ Lossless (idNumPy true) ∧
    (∀ c, twoCells.mask c = false → ValueOf twoCells.dtype (twoCells.data c)) ∧
    ∃ o, twoCells.setNullValue (idNumPy true) (some (.int 7)) = .ok o ∧ o.dtype = i16 ∧
      o.mask (0, 0, 1) = true ∧ o.mask (0, 0, 0) = true ∧ o.data (0, 0, 0) = .fin 7 := by
  refine ⟨fun _ _ _ => rfl, fun _ _ => rfl, fun _ _ _ _ _ _ => rfl, ?_, _, rfl, by decide +kernel,
    by decide +kernel, by decide +kernel, by decide +kernel⟩
  intro c hc
  have : c ≠ (0, 0, 0) := by
    rintro rfl
    exact absurd hc (by decide +kernel)
  left
  have h7 : twoCells.data c = .fin (7 : Int) := by simp [twoCells, this]
  rw [h7]
  refine ⟨7, by norm_num, ?_⟩
  exact ⟨_, _, rfl, by norm_num, by norm_num⟩

/-- C16: with a null value outside int16 the raster becomes int32. -/
example : ∃ o, twoCells.setNullValue (idNumPy true) (some (.int 40000)) = .ok o ∧ o.dtype = i32 ∧
    o.mask (0, 0, 1) = false ∧ o.data (0, 0, 0) = .fin 40000 ∧ ¬ Lossy i16 i32 :=
  ⟨_, rfl, by decide +kernel, by decide +kernel, by decide +kernel, by rintro ⟨h | h, _⟩ <;> cases h⟩

/-- C17: the null value 3 survives the conversion to uint8; a new one is put into the null cell. -/
example : NullsHold twoCells ∧
    ((twoCells.astype (idNumPy true) u8 none).toOption.map fun o => (o.nv.map (·.val), o.data (0, 0, 0))) =
      some (some (.fin 3), .fin 3) ∧
    ¬ Spec.Close (.fin 9) (.fin 3) ∧
    ((twoCells.astype (idNumPy true) u8 (some ⟨i64, .fin 9⟩)).toOption.map fun o =>
      (o.data (0, 0, 0), o.mask (0, 0, 0))) = some (.fin 9, true) :=
  ⟨twoCells_nulls, by decide +kernel, by rw [← close_iff]; decide +kernel, by decide +kernel⟩

/-! ### C44: histories -/

/-- Rasters that are created with the constructors and transformed with the operations above, in any
order and number.  `burn_mask`, `set_null` and `set_null_value` are only applied to boolean rasters whose
null value is `True`, and `astype` with a new null value only as in `C17_new_null_partial`; see
`C44_boolean_false_null` for what happens otherwise. -/
inductive Reachable (np : NumPy) : Raster → Prop where
  | array (lazy : Bool) (dt : DType) (nb ny nx : Nat) (data : Cell → Num) :
      Reachable np (ofArray np lazy dt nb ny nx data)
  | dataArray (dt : DType) (nb ny nx : Nat) (data : Cell → Num) (nv : Option Scalar) :
      Reachable np (ofDataArray np dt nb ny nx data nv)
  | data (dt : DType) (nb ny nx : Nat) (data : Cell → Num) (mask : Option (Cell → Bool)) (nv : Option Scalar) :
      Reachable np (ofData dt nb ny nx data mask nv true)
  | ufunc {u : Ufunc} {this : Raster} {args : List Operand} {outs : List Raster} {o : Raster} :
      0 < u.nout → (∀ r, Operand.raster r ∈ args → Reachable np r) → applyUfunc u this args = .ok outs →
      o ∈ outs → Reachable np o
  | setNull {r m o : Raster} : Reachable np r → (r.dtype = .bool → ∀ s, r.nv = some s → s.val = .fin 1) →
      r.setNull np m = .ok o → Reachable np o
  | clear {r o : Raster} : r.setNullValue np none = .ok o → Reachable np o
  | setNullValue {r o : Raster} {v : NullArg} : Reachable np r → r.dtype ≠ .bool →
      r.setNullValue np (some v) = .ok o → Reachable np o
  | burn {r : Raster} : Reachable np r → (r.dtype = .bool → ∀ s, r.nv = some s → s.val = .fin 1) →
      Reachable np r.burn
  | astype {r o : Raster} {dt : DType} : Reachable np r → r.astype np dt none = .ok o → Reachable np o
  | astypeNull {r o : Raster} {dt : DType} {s old : Scalar} : Reachable np r → r.nv = some old →
      ¬ Spec.Close s.val old.val → r.astype np dt (some s) = .ok o → Reachable np o
  | nullMask {r : Raster} : Reachable np r.toNullMask

/-- **C44.**  Whatever the history, the null cells of a raster hold its null value; in particular a raster
without null value has no null cells. -/
theorem C44_null_cells_hold_null_value {np : NumPy} {r : Raster} (h : Reachable np r) : NullsHold r := by
  induction h with
  | array lazy dt nb ny nx data =>
    intro c hc
    unfold ofArray at hc ⊢
    simp only at hc ⊢
    split
    · next hn =>
      rw [hn] at hc
      exfalso
      simp only [ofData] at hc
      split at hn
      · simp [reconcile, Num.isnan] at hn
      · next hf => simp [hf, maskOf] at hc
    · next s hs =>
      rw [hs] at hc
      simp only at hc
      exact ⟨s, rfl, by simp only [hc, if_true]⟩
  | dataArray dt nb ny nx data nv =>
    intro c hc
    unfold ofDataArray at hc ⊢
    simp only at hc ⊢
    cases nv with
    | none => simp [maskOf] at hc
    | some o =>
      have hsome : ∃ t, (reconcile np (some o) dt).1 = some t := by
        unfold reconcile
        simp only
        repeat' split
        all_goals exact ⟨_, rfl⟩
      obtain ⟨t, ht⟩ := hsome
      rw [ht] at hc ⊢
      simp only at hc ⊢
      split
      · next hcond =>
        rw [if_pos hcond] at hc
        exact ⟨t, rfl, by simp only at hc ⊢; rw [if_pos hc]⟩
      · next hcond =>
        rw [if_neg hcond] at hc
        simp only [Option.map_some] at hc
        refine ⟨t, rfl, ?_⟩
        have := (maskOf_iff _ _).mp hc
        simp only [Bool.or_eq_true, Bool.not_eq_true', not_or, Bool.not_eq_false] at hcond
        show data c = t.val
        rw [this]
        exact ((Num.eq_iff _ _).mp hcond.2).1
  | data dt nb ny nx data mask nv =>
    intro c hc
    unfold ofData at hc ⊢
    cases mask with
    | none =>
      simp only at hc ⊢
      cases nv with
      | none => simp [maskOf] at hc
      | some s => exact ⟨s, rfl, (maskOf_iff _ _).mp hc⟩
    | some m =>
      simp only at hc ⊢
      exact ⟨_, rfl, by simp [hc]⟩
  | @ufunc u this args outs o hout hargs hok ho ih =>
    intro c hc
    have hneed : ∀ r, Operand.raster r ∈ args → MaskNeedsNull r := by
      intro r hr c hc
      obtain ⟨s, hs, _⟩ := ih r hr c hc
      rw [hs]; simp
    obtain ⟨k, hk, hko⟩ := List.getElem_of_mem ho
    have hko' : outs[k]? = some o := by rw [List.getElem?_eq_getElem hk, hko]
    obtain ⟨_, _, _, h⟩ := (C14_elementwise hout hok hneed).2 k o hko'
    obtain ⟨s, h1, h2, _⟩ := (h c).2.2 hc
    exact ⟨s, h1, h2⟩
  | @setNull r m o _ hb hok ih =>
    have : ∃ m', o = r.addMask m' := by
      unfold Raster.setNull at hok
      repeat' split at hok
      all_goals first
        | (cases hok; done)
        | (injection hok with hok; exact ⟨_, hok.symm⟩)
    obtain ⟨m', rfl⟩ := this
    intro c hc
    unfold Raster.addMask at hc ⊢
    simp only at hc ⊢
    rw [burn_mask] at hc
    rw [burn_nv]
    cases hnv : r.nv with
    | none =>
      have hm : r.masked = false := by simp [Raster.masked, hnv]
      refine ⟨defaultNull r.dtype, by simp [hm], ?_⟩
      rw [← hnv, burn_null _ (s := defaultNull r.dtype) (by simp [hm]) hc]
      simp only
      split
      · next hd => cases hdt : r.dtype <;> simp_all [isBool, defaultNull]
      · rfl
    | some s =>
      have hm : r.masked = true := by simp [Raster.masked, hnv]
      refine ⟨s, by simp [hm], ?_⟩
      rw [← hnv, burn_null _ (s := s) (by simp [hm, hnv]) hc]
      simp only
      split
      · next hd =>
        have hd' : r.dtype = .bool := by cases hdt : r.dtype <;> simp_all [isBool]
        exact (hb hd' s hnv).symm
      · rfl
  | clear hok =>
    intro c hc
    injection hok with hok
    subst hok
    cases hc
  | @setNullValue r o v _ hb hok ih =>
    intro c hc
    unfold Raster.setNullValue at hok
    simp only at hok
    split at hok
    · cases hok
    · next nd hnd =>
      injection hok with hok
      subst hok
      rw [burn_mask] at hc
      rw [burn_nv]
      refine ⟨_, rfl, ?_⟩
      rw [burn_null _ rfl hc]
      have : (nd.getD r.dtype).isBool = false := by
        rcases nullDtype_spec np r.dtype v with ⟨h, _⟩ | ⟨d, h, h1, _⟩ | ⟨h, _⟩
        · rw [h] at hnd; cases hnd
        · rw [h] at hnd; injection hnd with hnd; subst hnd
          cases hd : r.dtype <;> rw [hd] at h1 hb <;> cases d <;> simp_all [canCast, isBool]
        · rw [h] at hnd; injection hnd with hnd; subst hnd
          cases hd : r.dtype <;> simp_all [isBool]
      simp only
      rw [this]
      simp
  | @burn r _ hb ih =>
    intro c hc
    rw [burn_mask] at hc
    rw [burn_nv]
    obtain ⟨s, hs, _⟩ := ih c hc
    refine ⟨s, hs, ?_⟩
    rw [burn_null _ hs hc]
    split
    · next hd =>
      have hd' : r.dtype = .bool := by cases hdt : r.dtype <;> simp_all [isBool]
      exact (hb hd' s hs).symm
    · rfl
  | @astype r o dt _ hok ih =>
    intro c hc
    unfold Raster.astype at hok
    split at hok
    · injection hok with hok; subst hok; exact ih c hc
    · cases hnv : r.nv with
      | none =>
        rw [hnv] at hok
        injection hok with hok
        subst hok
        obtain ⟨s, hs, _⟩ := ih c hc
        rw [hnv] at hs; cases hs
      | some old =>
        rw [hnv] at hok
        injection hok with hok
        subst hok
        have hsome : ∃ t, (reconcile np (some old) dt).1 = some t := by
          unfold reconcile
          simp only
          repeat' split
          all_goals exact ⟨_, rfl⟩
        obtain ⟨t, ht⟩ := hsome
        simp only at hc
        exact ⟨t, ht, by simp [hc, ht]⟩
  | @astypeNull r o dt s old _ hold hclose hok ih =>
    intro c hc
    rcases C17_new_null_partial (np := np) r dt hold hclose with ⟨e, h, _⟩ | ⟨o', t, h1, _, h3, _, h5, _, h7⟩
    · rw [h] at hok; cases hok
    · rw [h1] at hok
      injection hok with hok
      subst hok
      exact ⟨t, h3, h7 c (by rw [← h5 c]; exact hc)⟩
  | nullMask =>
    intro c hc
    cases hc

/-- Concrete case: an int16 raster with null value -5 built from data, divided by a scalar, with cells
nulled afterwards. -/
example : NullsHold (ofDataArray (idNumPy true) i16 1 1 2 (fun c => if c = (0, 0, 0) then .fin (-5) else .fin 7)
    (some ⟨i64, .fin (-5)⟩)) ∧
    (ofDataArray (idNumPy true) i16 1 1 2 (fun c => if c = (0, 0, 0) then .fin (-5) else .fin 7)
    (some ⟨i64, .fin (-5)⟩)).mask (0, 0, 0) = true :=
  ⟨C44_null_cells_hold_null_value (.dataArray _ _ _ _ _ _), by decide +kernel⟩

/-- A boolean raster gets the null value `False` from an integer raster with null value 0 ... -/
def boolFalse : Raster := ⟨u8, 1, 1, 1, fun _ => .fin 0, fun _ => true, some ⟨u8, .fin 0⟩⟩

/-- **C44 fails for boolean rasters with null value `False`**, which arise by `astype(bool)` from rasters
with null value 0: after `burn_mask` (or `set_null`, `set_null_value`) the null cell holds `True`, a value
that is not the null value. -/
theorem C44_boolean_false_null :
    ∃ o, boolFalse.astype (idNumPy true) .bool none = .ok o ∧ o.nv = some ⟨.bool, .fin 0⟩ ∧
      o.burn.mask (0, 0, 0) = true ∧ o.burn.data (0, 0, 0) = .fin 1 := by
  refine ⟨_, rfl, by decide +kernel, by decide +kernel, by decide +kernel⟩

end Verif.Nulls
