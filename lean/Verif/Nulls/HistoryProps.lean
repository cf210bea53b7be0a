import Verif.Nulls.RasterProps

/-!
# Null masks as rasters, replaced null values, rasters of arrays (C15, C16, C44)
-/

set_option linter.unusedSectionVars false

namespace Verif.Nulls

open Verif DType Spec

/-- **C15**, null masks of rasters: `r.set_null(q.to_null_mask())` for rasters of one shape makes the null
cells of `q` null in addition and changes no other cell; with `q` the raster itself nothing becomes null. -/
theorem C15_null_mask {np : NumPy} (hnp : BoolCast np) {r q : Raster} (hb : 0 < q.nb)
    (hs : (q.nb, q.ny, q.nx) = (r.nb, r.ny, r.nx)) :
    ∃ o, r.setNull np q.toNullMask = .ok o ∧ o.dtype = r.dtype ∧ (o.nb, o.ny, o.nx) = (r.nb, r.ny, r.nx) ∧
      ∀ c, r.Has c → (o.mask c = true ↔ r.mask c = true ∨ q.mask c = true) ∧
        (o.mask c = false → o.data c = r.data c) := by
  simp only [Prod.mk.injEq] at hs
  have hm : MaskNeedsNull q.toNullMask := by intro c h; cases h
  have hg : GoodMask r q.toNullMask := ⟨Or.inr hs.1, hs.2.1, hs.2.2, Or.inl rfl⟩
  obtain ⟨o, ho, h1, h2, -, h4⟩ := (C15_set_null hnp r hm hb).2 hg
  refine ⟨o, ho, h1, h2, fun c hc => ⟨?_, (h4 c).2⟩⟩
  rw [(h4 c).1]
  apply or_congr_right
  unfold Marks
  have hcell : (if q.toNullMask.nb = 1 then ((0, c.2) : Cell) else c) = c := by
    split
    · next h =>
      have h0 : c.1 < r.nb := hc.1
      have h1 : q.nb = 1 := h
      rw [show (0 : Nat) = c.1 by omega]
    · rfl
  simp only [hcell]
  simp only [Raster.toNullMask]
  cases q.mask c <;> simp

/-- **C16**, `replace_null`: a number is stored in the null cells, which stay null, and becomes the null
value; a boolean is refused. -/
theorem C16_replace_null {np : NumPy} (hnp : ExactCast np) (hnan : NanCast np) (hll : Lossless np) (r : Raster) :
    (∀ b, r.replaceNull np (.bool b) = .error .type) ∧
    ∀ v : NullArg, (∀ b, v ≠ .bool b) →
      ((∃ e, r.replaceNull np v = .error e) ↔ v.val = .nan ∧ (r.dtype = i64 ∨ r.dtype = u64)) ∧
      ∀ o, r.replaceNull np v = .ok o → r.dtype.isBool = false → MaskNeedsNull r →
        (∀ c, r.mask c = false → ValueOf r.dtype (r.data c)) →
        (∃ s, o.nv = some s ∧ s.val = v.val) ∧ (o.nb, o.ny, o.nx) = (r.nb, r.ny, r.nx) ∧
        ∀ c, (r.mask c = true → o.mask c = true ∧ o.data c = v.val) ∧
          (¬ Lossy r.dtype o.dtype → r.mask c = false → o.data c = r.data c) := by
  refine ⟨fun b => rfl, ?_⟩
  intro v hv
  have he : r.replaceNull np v = r.setNullValue np (some v) := by
    cases v with
    | bool b => exact absurd rfl (hv b)
    | int n => rfl
    | float x => rfl
  rw [he]
  refine ⟨C16_rejected np r v, ?_⟩
  intro o ho hb hm hval
  obtain ⟨-, h2, h3, h4⟩ := C16_set_null_value hnp hnan hll ho hb hm hval
  refine ⟨h2, h3, fun c => ⟨fun hc => ⟨(h4 c).1 hc, (h4 c).2.1 ((h4 c).1 hc)⟩, ?_⟩⟩
  intro hl hc
  cases hoc : o.mask c with
  | false => exact ((h4 c).2.2 hl).2 hoc
  | true =>
    rw [(h4 c).2.1 hoc]
    rcases (((h4 c).2.2 hl).1).mp hoc with h | h
    · rw [hc] at h; cases h
    · exact h.symm

theorem anyCell_iff (nb ny nx : Nat) (p : Cell → Bool) :
    anyCell nb ny nx p = true ↔ ∃ b y x, b < nb ∧ y < ny ∧ x < nx ∧ p (b, y, x) = true := by
  simp only [anyCell, List.any_eq_true, List.mem_range]
  constructor
  · rintro ⟨b, hb, y, hy, x, hx, h⟩
    exact ⟨b, y, x, hb, hy, hx, h⟩
  · rintro ⟨b, y, x, hb, hy, hx, h⟩
    exact ⟨b, hb, y, hy, x, hx, h⟩

/-- **C44**, arrays: the raster of an array has its null cells where the array is NaN, the array's values
elsewhere, and a null value, the default one, exactly if there is a NaN (or if the array is a lazy one of
a floating point type). -/
theorem C44_array (np : NumPy) (lazy : Bool) (dt : DType) (nb ny nx : Nat) (data : Cell → Num)
    (hint : dt.isFloat = false → ∀ c, data c ≠ .nan) :
    let r := ofArray np lazy dt nb ny nx data
    r.dtype = dt ∧ (r.nb, r.ny, r.nx) = (nb, ny, nx) ∧
    (r.nv = some (defaultNull dt) ∨ r.nv = none) ∧
    (r.nv ≠ none ↔ dt.isFloat = true ∧ (lazy = true ∨ ∃ c, r.Has c ∧ data c = .nan)) ∧
    ∀ c, r.Has c → (r.mask c = true ↔ data c = .nan) ∧
      r.data c = if r.mask c then (defaultNull dt).val else data c := by
  intro r
  have hsh : (r.nb, r.ny, r.nx) = (nb, ny, nx) ∧ r.dtype = dt := by
    simp only [r, ofArray, ofData]
    split <;> exact ⟨rfl, rfl⟩
  have hs := hsh.1
  simp only [Prod.mk.injEq] at hs
  have hany : (dt.isFloat && (lazy || anyCell nb ny nx fun c => (data c).isnan)) = true ↔
      dt.isFloat = true ∧ (lazy = true ∨ ∃ c, r.Has c ∧ data c = .nan) := by
    rw [Bool.and_eq_true, Bool.or_eq_true, anyCell_iff]
    apply and_congr_right
    intro _
    apply or_congr_right
    unfold Raster.Has
    rw [hs.1, hs.2.1, hs.2.2]
    constructor
    · rintro ⟨b, y, x, h1, h2, h3, h4⟩
      refine ⟨(b, y, x), ⟨h1, h2, h3⟩, ?_⟩
      cases hd : data (b, y, x) <;> simp_all [Num.isnan]
    · rintro ⟨⟨b, y, x⟩, ⟨h1, h2, h3⟩, h4⟩
      exact ⟨b, y, x, h1, h2, h3, by rw [h4]; rfl⟩
  refine ⟨hsh.2, hsh.1, ?_⟩
  by_cases hn : (dt.isFloat && (lazy || anyCell nb ny nx fun c => (data c).isnan)) = true
  · have hr : r = ⟨dt, nb, ny, nx,
        fun c => if maskOf (some .nan) (data c) then (defaultNull dt).val else data c,
        fun c => maskOf (some .nan) (data c), some (defaultNull dt)⟩ := by
      simp only [r, ofArray, hn, if_true]
      rfl
    refine ⟨Or.inl (by rw [hr]), ⟨fun _ => hany.mp hn, fun _ => by rw [hr]; simp⟩, ?_⟩
    intro c _
    rw [hr]
    simp only [maskOf_iff, true_and]
  · have hr : r = ⟨dt, nb, ny, nx, data, fun _ => false, none⟩ := by
      simp only [r, ofArray, hn, if_false, reconcile, ofData, Option.map_none, maskOf, Bool.false_eq_true]
    refine ⟨Or.inr (by rw [hr]), ⟨fun h => absurd (by rw [hr]) h, fun h => absurd (hany.mpr h) hn⟩, ?_⟩
    intro c hc
    rw [hr]
    refine ⟨⟨fun h => absurd h Bool.false_ne_true, fun h => ?_⟩, by simp⟩
    exfalso
    cases hf : dt.isFloat with
    | false => exact hint hf c h
    | true => exact hn (hany.mpr ⟨hf, Or.inr ⟨c, hc, h⟩⟩)

/-- Concrete cases: the null mask of a raster applied to another; 5 instead of the null value 3; True refused. -/
example : (∃ o, (boolNumPy true |> fun np => markSecond.setNull np twoCells.toNullMask) = .ok o ∧
      o.mask (0, 0, 0) = true ∧ o.mask (0, 0, 1) = false) ∧
    (∃ o, twoCells.replaceNull (idNumPy true) (.int 5) = .ok o ∧ o.mask (0, 0, 0) = true ∧
      o.data (0, 0, 0) = .fin 5 ∧ o.data (0, 0, 1) = .fin 7) ∧ twoCells.dtype.isBool = false ∧
    twoCells.Has (0, 0, 1) := by
  refine ⟨⟨_, rfl, by decide +kernel, by decide +kernel⟩, ⟨_, rfl, by decide +kernel, by decide +kernel, by decide +kernel⟩,
    rfl, by unfold Raster.Has twoCells; decide⟩

/-- Concrete cases: a NaN in the second band only; null cells of another raster. -/
example : (ofArray (idNumPy false) false f32 2 1 2 fun c => if c = (1, 0, 1) then .nan else .fin 7).nv =
      some ⟨f32, .fin (-999999)⟩ ∧
    (ofArray (idNumPy false) false f32 2 1 2 fun _ => .fin 7).nv = none := by decide +kernel


end Verif.Nulls
