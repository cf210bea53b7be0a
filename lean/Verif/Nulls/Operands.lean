import Verif.Nulls.RasterProps

set_option linter.unusedSectionVars false

/-!
# C14: rasters with numbers

`C14_elementwise` for a raster and an array or number as the operands (`raster.py:187-269`), with types and values spelled out.
-/

namespace Verif.Nulls

open DType Spec

/-- **C14 (numbers).** The dtype of a result of a raster and numbers is that of the ufunc for the dtype of the raster and that of the numbers,
in the order of the operands. The valid cells are those of the raster, and hold what the ufunc gives for both values. -/
theorem C14_with_numbers {u : Ufunc} {r : Raster} {dt : DType} {f : Cell → Num} {outs outs' : List Raster} (hout : 0 < u.nout)
    (h : applyUfunc u r [.raster r, .numbers dt f] = .ok outs) (h' : applyUfunc u r [.numbers dt f, .raster r] = .ok outs')
    (hr : MaskNeedsNull r) (k : Nat) :
    (∀ o, outs[k]? = some o → o.dtype = u.outTy [r.dtype, dt] k ∧
      ∀ c, o.mask c = r.mask c ∧ (r.mask c = false → o.data c = u.fn k [r.data c, f c])) ∧
    (∀ o, outs'[k]? = some o → o.dtype = u.outTy [dt, r.dtype] k ∧
      ∀ c, o.mask c = r.mask c ∧ (r.mask c = false → o.data c = u.fn k [f c, r.data c])) := by
  have e1 : ∀ s, Operand.raster s ∈ [Operand.raster r, .numbers dt f] ↔ s = r := fun s => by simp
  have e2 : ∀ s, Operand.raster s ∈ [Operand.numbers dt f, .raster r] ↔ s = r := fun s => by simp
  constructor
  · intro o ho
    obtain ⟨a, -, -, b⟩ := (C14_elementwise hout h fun s hs => (e1 s).1 hs ▸ hr).2 k o ho
    refine ⟨a, fun c => ?_⟩
    obtain ⟨b1, b2, -⟩ := b c
    have em : o.mask c = r.mask c := by
      rw [Bool.eq_iff_iff, b1]
      simp only [e1]
      exact ⟨fun ⟨_, h, k⟩ => h ▸ k, fun k => ⟨r, rfl, k⟩⟩
    exact ⟨em, fun hc => b2 (em.trans hc)⟩
  · intro o ho
    obtain ⟨a, -, -, b⟩ := (C14_elementwise hout h' fun s hs => (e2 s).1 hs ▸ hr).2 k o ho
    refine ⟨a, fun c => ?_⟩
    obtain ⟨b1, b2, -⟩ := b c
    have em : o.mask c = r.mask c := by
      rw [Bool.eq_iff_iff, b1]
      simp only [e2]
      exact ⟨fun ⟨_, h, k⟩ => h ▸ k, fun k => ⟨r, rfl, k⟩⟩
    exact ⟨em, fun hc => b2 (em.trans hc)⟩

/-- The first operand, of numbers and two cells, the first of them null. -/
example : ∃ outs outs', applyUfunc ⟨false, false, 1, fun ts _ => ts.headD f64, fun _ l => l.headD .nan⟩ twoCells
      [.raster twoCells, .numbers f32 fun _ => .fin 3] = .ok outs ∧
    applyUfunc ⟨false, false, 1, fun ts _ => ts.headD f64, fun _ l => l.headD .nan⟩ twoCells
      [.numbers f32 fun _ => .fin 3, .raster twoCells] = .ok outs' ∧ MaskNeedsNull twoCells ∧
    outs.map (·.dtype) = [twoCells.dtype] ∧ outs'.map (·.dtype) = [f32] :=
  ⟨_, _, rfl, rfl, fun c h => by simp [twoCells] at *, rfl, rfl⟩

end Verif.Nulls
