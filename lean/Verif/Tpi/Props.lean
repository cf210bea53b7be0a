import Mathlib.Data.List.Nodup
import Mathlib.Data.List.Perm.Basic
import Mathlib.Data.List.NodupEquivFin
import Mathlib.Data.List.ProdSigma
import Verif.Focal.Props
import Verif.Focal.Correlate
import Verif.Tpi.Model

/-! # C70: the topographic position index -/

set_option linter.unusedSectionVars false

namespace Verif.Tpi

open Verif Verif.Nulls Verif.Nulls.Spec Verif.Focal Verif.Focal.Spec DType

namespace Spec

/-- The cell is in the annulus around another one: a distance of at most `m - 1` and, unless `n` is 0, more than `n - 1`. -/
def Near (n m : Int) (i j : Nat) (p : Nat × Nat) : Prop :=
  (n = 0 ∨ (n - 1) ^ 2 < ((p.1 : Int) - i) ^ 2 + ((p.2 : Int) - j) ^ 2) ∧
    ((p.1 : Int) - i) ^ 2 + ((p.2 : Int) - j) ^ 2 ≤ (m - 1) ^ 2

instance (n m : Int) (i j : Nat) (p : Nat × Nat) : Decidable (Near n m i j p) := by unfold Near; infer_instance

/-- The values of the valid cells of the raster in the annulus. -/
def around (n m : Int) (ny nx : Nat) (null : Nat → Nat → Bool) (q : Nat → Nat → Rat) (i j : Nat) : List Rat :=
  (((List.range ny) ×ˢ (List.range nx)).filter fun p => Near n m i j p ∧ null p.1 p.2 = false).map fun p => q p.1 p.2

/-- `t` is `q` without its fraction. -/
def Truncates (q : Rat) (t : Int) : Prop :=
  (0 ≤ q → (t : Rat) ≤ q ∧ q < t + 1) ∧ (q ≤ 0 → q ≤ t ∧ (t : Rat) - 1 < q)

/-- Conversions to floating point types do not round, those to int32 drop the fraction. -/
structure Exact (np : NumPy) : Prop where
  float : ∀ d : DType, d.isFloat = true → ∀ q, np.cast d (.fin q) = .fin q
  nan : NanCast np
  exact : ExactCast np
  int32 : ∀ q t, Truncates q t → -2 ^ 31 ≤ t → t < 2 ^ 31 → np.cast i32 (.fin q) = .fin t

/-- The mean of the values that are not NaN. -/
structure IsMean (f : List Num → Num) : Prop where
  ignores : IgnoresNan f
  empty : f [] = .nan
  mean : ∀ l : List Rat, l ≠ [] → f (l.map .fin) = .fin (l.sum / l.length)

end Spec

open Spec

/-! ### Windows -/

theorem window_ok {n m : Int} {w : Kernel Bool} (h : window (.int n) (.int m) = .ok w) : 0 ≤ n ∧ n < m ∧
    (w.rows : Int) = 2 * m - 1 ∧ (w.cols : Int) = 2 * m - 1 ∧ ∀ dx dy : Int, |dx| ≤ m - 1 → |dy| ≤ m - 1 →
      (w.at' (m - 1 + dx).toNat (m - 1 + dy).toNat = true ↔
        (n = 0 ∨ (n - 1) ^ 2 < dx ^ 2 + dy ^ 2) ∧ dx ^ 2 + dy ^ 2 ≤ (m - 1) ^ 2) := by
  simp only [window] at h
  split at h
  · cases h
  split at h
  · cases h
  split at h
  · cases h
  split at h
  · next h1 h2 h3 h4 =>
    obtain ⟨w', e, a, b, c⟩ := C30_circle (n := m) (by omega)
    rw [e] at h
    cases h
    refine ⟨by omega, by omega, a, b, fun dx dy hx hy => ?_⟩
    rw [c dx dy hx hy]
    simp [h4]
  · next h1 h2 h3 h4 =>
    obtain ⟨w', e, a, b, c⟩ := C30_annulus (n := n) (m := m) (by omega) (by omega)
    rw [e] at h
    cases h
    refine ⟨by omega, by omega, a, b, fun dx dy hx hy => ?_⟩
    rw [c dx dy hx hy]
    simp only [h4, false_or]
    exact and_comm

/-- The cells under a window. -/
def cellsUnder (w : Kernel Bool) (ny nx : Nat) (null : Nat → Nat → Bool) (r c : Nat) : List (Nat × Nat) :=
  (List.range w.rows).flatMap fun a => (List.range w.cols).filterMap fun b =>
    if w.at' a b = true ∧ (w.rows - 1) / 2 ≤ r + a ∧ r + a - (w.rows - 1) / 2 < ny ∧ (w.cols - 1) / 2 ≤ c + b ∧
      c + b - (w.cols - 1) / 2 < nx ∧ null (r + a - (w.rows - 1) / 2) (c + b - (w.cols - 1) / 2) = false
    then some (r + a - (w.rows - 1) / 2, c + b - (w.cols - 1) / 2) else none

theorem windowValues_eq (w : Kernel Bool) (ny nx : Nat) (null : Nat → Nat → Bool) (data : Nat → Nat → Num) (r c : Nat) :
    windowValues w ny nx null data r c = (cellsUnder w ny nx null r c).map fun p => data p.1 p.2 := by
  unfold windowValues cellsUnder
  rw [List.map_flatMap]
  refine flatMap_congr' fun a _ => ?_
  rw [List.map_filterMap]
  congr 1
  funext b
  simp only
  split <;> simp

theorem mem_cellsUnder {w : Kernel Bool} {ny nx : Nat} {null : Nat → Nat → Bool} {r c : Nat} {p : Nat × Nat} :
    p ∈ cellsUnder w ny nx null r c ↔ p.1 < ny ∧ p.2 < nx ∧ null p.1 p.2 = false ∧ ∃ a b, a < w.rows ∧ b < w.cols ∧
      w.at' a b = true ∧ p.1 + (w.rows - 1) / 2 = r + a ∧ p.2 + (w.cols - 1) / 2 = c + b := by
  unfold cellsUnder
  simp only [List.mem_flatMap, List.mem_range, List.mem_filterMap]
  constructor
  · rintro ⟨a, ha, b, hb, h⟩
    split at h
    · next hc =>
      cases h
      exact ⟨hc.2.2.1, hc.2.2.2.2.1, hc.2.2.2.2.2, a, b, ha, hb, hc.1, by omega, by omega⟩
    · cases h
  · rintro ⟨h1, h2, h3, a, b, ha, hb, hw, e1, e2⟩
    refine ⟨a, ha, b, hb, ?_⟩
    have e1' : r + a - (w.rows - 1) / 2 = p.1 := by omega
    have e2' : c + b - (w.cols - 1) / 2 = p.2 := by omega
    rw [e1', e2', if_pos ⟨hw, by omega, h1, by omega, h2, h3⟩]

theorem nodup_cellsUnder (w : Kernel Bool) (ny nx : Nat) (null : Nat → Nat → Bool) (r c : Nat) :
    (cellsUnder w ny nx null r c).Nodup := by
  unfold cellsUnder
  rw [List.nodup_flatMap]
  constructor
  · intro a _
    refine List.Nodup.filterMap ?_ List.nodup_range
    intro b b' p h h'
    simp only [Option.mem_def] at h h'
    split at h
    · split at h'
      · rw [Option.some.injEq] at h h'
        rw [← h', Prod.mk.injEq] at h
        omega
      · cases h'
    · cases h
  · refine List.Pairwise.imp ?_ List.nodup_range
    intro a a' hne
    simp only [Function.onFun]
    intro p h h'
    simp only [List.mem_filterMap] at h h'
    obtain ⟨b, -, h⟩ := h
    obtain ⟨b', -, h'⟩ := h'
    split at h
    · split at h'
      · rw [Option.some.injEq] at h h'
        rw [← h', Prod.mk.injEq] at h
        omega
      · cases h'
    · cases h

theorem windowValues_perm {n m : Int} {w : Kernel Bool} (hw : window (.int n) (.int m) = .ok w) (ny nx : Nat) (null : Nat → Nat → Bool)
    (data : Nat → Nat → Num) (q : Nat → Nat → Rat) (hq : ∀ i j, i < ny → j < nx → null i j = false → data i j = .fin (q i j))
    (i j : Nat) : ∃ l : List Rat, windowValues w ny nx null data i j = l.map .fin ∧ l.Perm (around n m ny nx null q i j) := by
  obtain ⟨h0, h1, hr, hc, hat⟩ := window_ok hw
  refine ⟨(cellsUnder w ny nx null i j).map fun p => q p.1 p.2, ?_, ?_⟩
  · rw [windowValues_eq, List.map_map]
    refine List.map_congr_left fun p hp => ?_
    obtain ⟨a, b, c, -⟩ := mem_cellsUnder.1 hp
    exact hq _ _ a b c
  · refine List.Perm.map _ ?_
    rw [List.perm_ext_iff_of_nodup (nodup_cellsUnder ..) ((List.Nodup.product List.nodup_range List.nodup_range).filter _)]
    intro p
    rw [mem_cellsUnder, List.mem_filter, decide_eq_true_eq, List.mem_product, List.mem_range, List.mem_range]
    have e1 : (w.rows - 1) / 2 = (m - 1).toNat := by omega
    have e2 : (w.cols - 1) / 2 = (m - 1).toNat := by omega
    rw [e1, e2]
    constructor
    · rintro ⟨a1, a2, a3, a, b, ha, hb, hab, f1, f2⟩
      refine ⟨⟨a1, a2⟩, ?_, a3⟩
      have g1 : a = (m - 1 + ((p.1 : Int) - i)).toNat := by omega
      have g2 : b = (m - 1 + ((p.2 : Int) - j)).toNat := by omega
      rw [g1, g2, hat _ _ (abs_le.2 ⟨by omega, by omega⟩) (abs_le.2 ⟨by omega, by omega⟩)] at hab
      exact hab
    · rintro ⟨⟨a1, a2⟩, hn, a3⟩
      have s1 : |(p.1 : Int) - i| ≤ m - 1 := abs_le_of_sq_le_sq (by nlinarith [hn.2, sq_nonneg ((p.2 : Int) - j)]) (by omega)
      have s2 : |(p.2 : Int) - j| ≤ m - 1 := abs_le_of_sq_le_sq (by nlinarith [hn.2, sq_nonneg ((p.1 : Int) - i)]) (by omega)
      have t1 := abs_le.1 s1
      have t2 := abs_le.1 s2
      exact ⟨a1, a2, a3, _, _, by omega, by omega, (hat _ _ s1 s2).2 hn, by omega, by omega⟩

theorem windowMean {n m : Int} {w : Kernel Bool} (hw : window (.int n) (.int m) = .ok w) {f : List Num → Num} (hf : IsMean f)
    (ny nx : Nat) (null : Nat → Nat → Bool)
    (data : Nat → Nat → Num) (q : Nat → Nat → Rat) (hq : ∀ i j, i < ny → j < nx → null i j = false → data i j = .fin (q i j))
    (i j : Nat) : f (windowValues w ny nx null data i j) = if around n m ny nx null q i j = [] then .nan else
      .fin ((around n m ny nx null q i j).sum / (around n m ny nx null q i j).length) := by
  obtain ⟨l, e, hp⟩ := windowValues_perm hw ny nx null data q hq i j
  rw [e]
  split
  · next h =>
    rw [h] at hp
    rw [List.perm_nil.1 hp]
    exact hf.empty
  · next h =>
    have : l ≠ [] := by
      rintro rfl
      exact h (List.nil_perm.1 hp)
    rw [hf.mean l this, hp.sum_eq, hp.length_eq]

/-! ### Arithmetic -/

theorem result_float (a : DType) : (result [a, promoteToFloat a] 0).isFloat = true := by cases a <;> decide

theorem plus_float {a : DType} (h : a.isFloat = true) : (result [a, f16] 0).isFloat = true := by
  cases a <;> first | decide | cases h

theorem one_ok {e : Except Err (List Raster)} {o : Raster} (h : one e = .ok o) : ∃ l, e = .ok l ∧ l[0]? = some o := by
  unfold one at h
  split at h
  · cases h
  · cases h; exact ⟨_, rfl, rfl⟩
  · cases h

theorem relief_ok {dem mean o : Raster} (hd : MaskNeedsNull dem) (hm : MaskNeedsNull mean) (ht : mean.dtype = promoteToFloat dem.dtype)
    (h : relief dem mean = .ok o) : o.dtype.isFloat = true ∧ (o.nb, o.ny, o.nx) = (dem.nb, dem.ny, dem.nx) ∧
      (o.nv ≠ none ↔ dem.nv ≠ none ∨ mean.nv ≠ none) ∧ NullsHold o ∧
      ∀ c, (o.mask c = true ↔ dem.mask c = true ∨ mean.mask c = true) ∧
        (o.mask c = false → o.data c = add (add (dem.data c) (neg (mean.data c))) (.fin (1 / 2))) := by
  unfold relief at h
  split at h
  · cases h
  · next d hd1 =>
    obtain ⟨l, e, hl⟩ := one_ok hd1
    obtain ⟨-, H⟩ := C14_elementwise (by decide) e (by
      intro r hr
      simp only [List.mem_cons, Operand.raster.injEq, List.not_mem_nil, or_false] at hr
      rcases hr with rfl | rfl
      · exact hd
      · exact hm)
    obtain ⟨d1, d2, d3, d4⟩ := H 0 d hl
    have dn : MaskNeedsNull d := by
      intro c hc
      obtain ⟨s, hs, -⟩ := (d4 c).2.2 hc
      rw [hs]
      exact Option.some_ne_none _
    obtain ⟨l', e', hl'⟩ := one_ok h
    obtain ⟨-, H'⟩ := C14_elementwise (by decide) e' (by
      intro r hr
      simp only [List.mem_cons, Operand.raster.injEq, List.not_mem_nil, or_false, reduceCtorEq] at hr
      rw [hr]
      exact dn)
    obtain ⟨o1, o2, o3, o4⟩ := H' 0 o hl'
    have df : d.dtype.isFloat = true := by
      rw [d1]
      show (result [dem.dtype, mean.dtype] 0).isFloat = true
      rw [ht]
      exact result_float _
    simp only [List.mem_cons, Operand.raster.injEq, List.not_mem_nil, or_false, reduceCtorEq, exists_eq_left, exists_eq_or_imp]
      at d3 d4 o3 o4
    refine ⟨?_, o2.trans d2, o3.trans d3, fun c hc => ?_, fun c => ⟨(o4 c).1.trans (d4 c).1, fun hc => ?_⟩⟩
    · rw [o1]
      exact plus_float df
    · obtain ⟨s, hs, hv, -⟩ := (o4 c).2.2 hc
      exact ⟨s, hs, hv⟩
    · rw [(o4 c).2.1 hc]
      have hdc : d.mask c = false := by
        by_contra hcon
        rw [Bool.not_eq_false] at hcon
        rw [(o4 c).1.2 hcon] at hc
        cases hc
      show add (d.data c) (.fin (1 / 2)) = _
      rw [(d4 c).2.1 hdc]
      rfl

theorem relief_total {dem mean : Raster} : ∃ o, relief dem mean = .ok o := by
  have key : ∀ (u : Ufunc) (this : Raster) (args : List Operand), u.bitwise = false → u.shift = false → u.nout = 1 →
      ∃ o, one (applyUfunc u this args) = .ok o := by
    intro u this args h1 h2 h3
    unfold applyUfunc
    simp only [h1, h2, h3, Bool.false_and, Bool.false_eq_true, if_false]
    split
    · exact ⟨_, rfl⟩
    · exact ⟨_, rfl⟩
  obtain ⟨d, hd⟩ := key subtract dem [.raster dem, .raster mean] rfl rfl rfl
  unfold relief
  rw [hd]
  exact key _ _ _ rfl rfl rfl

theorem truncates_int (t : Int) : Truncates (t : Rat) t := by
  refine ⟨fun _ => ⟨le_refl _, by linarith⟩, fun _ => ⟨le_refl _, by linarith⟩⟩

theorem finish_ok {np : NumPy} (hnp : Exact np) {dem o p : Raster} (hf : o.dtype.isFloat = true) (ho : NullsHold o)
    (hnv : o.nv ≠ none ↔ dem.nv ≠ none) (h : finish np dem o = .ok p) :
    p.dtype = i32 ∧ (p.nb, p.ny, p.nx) = (o.nb, o.ny, o.nx) ∧
    p.nv = (if dem.masked then some ⟨i32, .fin (-2147483648)⟩ else none) ∧
    ∀ c, (o.mask c = true → p.mask c = true) ∧ (o.mask c = false → dem.masked = false → p.mask c = false ∧ p.data c = np.cast i32 (o.data c)) ∧
      (o.mask c = false → ∀ q t, o.data c = .fin q → Truncates q t → -2 ^ 31 < t → t < 2 ^ 31 → p.mask c = false ∧ p.data c = .fin t) := by
  obtain ⟨t, e, t1, t2, t3, t4, t5, t6, -⟩ := C17_astype hnp.exact o i32 ho
  have hne : ¬ i32 = o.dtype := by
    intro he
    rw [← he] at hf
    cases hf
  unfold finish at h
  rw [e] at h
  simp only at h
  simp only [hne, if_false] at t4
  cases hmk : dem.masked with
  | false =>
    simp only [hmk, Bool.false_eq_true, if_false, Except.ok.injEq] at h
    subst h
    have hn : o.nv = none := by
      by_contra hcon
      have := hnv.1 hcon
      unfold Raster.masked at hmk
      cases hd : dem.nv with
      | none => exact this hd
      | some _ => rw [hd] at hmk; cases hmk
    refine ⟨t1, t2, by simpa using t6.2 hn, fun c => ⟨fun hc => by rw [t3, hc], fun hc _ => ⟨by rw [t3, hc], t4 c hc⟩, ?_⟩⟩
    intro hc q s hq hs h1 h2
    refine ⟨by rw [t3, hc], ?_⟩
    rw [t4 c hc, hq]
    exact hnp.int32 q s hs h1.le h2
  | true =>
    simp only [hmk, if_true] at h
    have hlim : nullDtype np t.dtype (.int (-2147483648)) = .ok none := by
      rw [t1]
      rfl
    have hv : np.cast t.dtype (.fin ((-2147483648 : Int) : Rat)) = .fin ((-2147483648 : Int) : Rat) := by
      rw [t1]
      exact hnp.int32 _ _ (truncates_int _) (by norm_num) (by norm_num)
    have htm : t.masked = true := by
      unfold Raster.masked
      rw [Option.isSome_iff_ne_none]
      intro hcon
      have := t6.1 hcon
      unfold Raster.masked at hmk
      rw [Option.isSome_iff_ne_none] at hmk
      exact hnv.2 hmk this
    unfold Raster.setNullValue at h
    simp only [hlim, NullArg.val, Option.getD_none, hv, htm, if_true, Except.ok.injEq] at h
    subst h
    refine ⟨by rw [burn_dtype]; exact t1, ?_, ?_, ?_⟩
    · simp only [Raster.burn]
      exact t2
    · rw [burn_nv]
      simp only [if_true, t1]
      norm_num
    · intro c
      simp only [burn_mask]
      refine ⟨?_, ?_, ?_⟩
      · intro hc
        rw [t3, hc]
        rfl
      · intro _ hcon
        cases hcon
      intro hc q s hq hs h1 h2
      have hd : t.data c = .fin (s : Rat) := by
        rw [t4 c hc, hq]
        exact hnp.int32 q s hs h1.le h2
      have hm : (t.mask c || maskOf (some (.fin ((-2147483648 : Int) : Rat))) (t.data c)) = false := by
        rw [t3, hc, hd, Bool.false_or]
        by_contra hcon
        rw [Bool.not_eq_false, maskOf_iff] at hcon
        injection hcon with hcon
        have : s = -2147483648 := by exact_mod_cast hcon
        omega
      refine ⟨hm, ?_⟩
      rw [burn_valid]
      · exact hd
      · exact hm

/-- **C70.** `tpi` is the integer part of a cell minus the mean of the valid cells in the annulus plus a half, whatever the chunks.
It is null where the raster is null, and in rasters with a null value where the annulus has no valid cell. -/
theorem C70_tpi_partial {np : NumPy} (hnp : Exact np) {func : Stat → List Num → Num} (hf : IsMean (func .mean)) {dem o : Raster}
    (hd : MaskNeedsNull dem) {q : Cell → Rat} (hq : ∀ c, dem.Has c → dem.mask c = false → dem.data c = .fin (q c))
    {n m : Int} {ychunks xchunks : List Nat} (hy : ychunks.sum = dem.ny) (hx : xchunks.sum = dem.nx)
    (h : tpi np func dem (.int n) (.int m) ychunks xchunks = .ok o) :
    o.dtype = i32 ∧ (o.nb, o.ny, o.nx) = (dem.nb, dem.ny, dem.nx) ∧
    o.nv = (if dem.masked then some ⟨i32, .fin (-2147483648)⟩ else none) ∧
    ∀ c, dem.Has c →
      let l := around n m dem.ny dem.nx (fun i j => dem.mask (c.1, i, j)) (fun i j => q (c.1, i, j)) c.2.1 c.2.2
      (dem.mask c = true → o.mask c = true) ∧ (dem.masked = true → l = [] → o.mask c = true) ∧
      (dem.mask c = false → l ≠ [] → ∀ t, Truncates (q c - l.sum / l.length + 1 / 2) t → -2 ^ 31 < t → t < 2 ^ 31 →
        o.mask c = false ∧ o.data c = .fin t) := by
  unfold tpi at h
  split at h
  · cases h
  next w hw =>
  split at h
  · cases h
  next mean hmean =>
  split at h
  · cases h
  next rel hrel =>
  have hfl : (promoteToFloat dem.dtype).isFloat = true := promote_float _
  have hconv : ∀ c, dem.Has c → dem.mask c = false →
      Focal.Spec.inDtype np dem.dtype (promoteToFloat dem.dtype) (dem.data c) = .fin (q c) := by
    intro c h1 h2
    rw [hq c h1 h2]
    unfold Focal.Spec.inDtype
    split
    · rfl
    · exact hnp.float _ hfl _
  -- the mean of the window
  have key : mean.dtype = promoteToFloat dem.dtype ∧ (mean.nv ≠ none ↔ dem.nv ≠ none) ∧ MaskNeedsNull mean ∧ ∀ c, dem.Has c →
      let l := around n m dem.ny dem.nx (fun i j => dem.mask (c.1, i, j)) (fun i j => q (c.1, i, j)) c.2.1 c.2.2
      (dem.masked = true → l = [] → mean.mask c = true) ∧
      (dem.mask c = false → l ≠ [] → mean.mask c = false ∧ mean.data c = .fin (l.sum / l.length)) := by
    cases hmk : dem.masked with
    | true =>
      obtain ⟨-, -, -, e4, e5, e6⟩ := C29_masked hmk hf.ignores hy hx hmean
      refine ⟨e4, by rw [e5]; simpa [Raster.masked, Option.isSome_iff_ne_none] using hmk, fun c _ => by rw [e5]; simp, ?_⟩
      intro c hc
      have e := e6 c hc
      simp only [e4, maskedValue, reduceCtorEq, false_and, if_false] at e
      rw [windowMean hw hf dem.ny dem.nx (fun i j => dem.mask (c.1, i, j)) _ (fun i j => q (c.1, i, j))
        (fun i j hi hj hn => hconv (c.1, i, j) ⟨hc.1, hi, hj⟩ hn)] at e
      simp only at e ⊢
      constructor
      · intro _ hl
        rw [if_pos hl, hnp.nan _ hfl] at e
        exact e.1.2 (.inr (by simp))
      · intro h1 hl
        rw [if_neg hl, hnp.float _ hfl] at e
        have : mean.mask c = false := by
          by_contra hcon
          rw [Bool.not_eq_false] at hcon
          rcases e.1.1 hcon with h2 | ⟨-, h2⟩
          · rw [h1] at h2; cases h2
          · cases h2
        exact ⟨this, e.2.2 this⟩
    | false =>
      obtain ⟨-, -, -, e4, e5, e6⟩ := C29_unmasked hmk hf.ignores (by decide) hy hx hmean
      have hdn : dem.nv = none := by simpa [Raster.masked] using hmk
      have hmask : ∀ c, dem.mask c = false := by
        intro c
        by_contra hcon
        rw [Bool.not_eq_false] at hcon
        exact hd c hcon hdn
      have hmd : mean.dtype = promoteToFloat dem.dtype := by
        unfold focal at hmean
        split at hmean
        · cases hmean
        · simp only [hmk, Bool.false_eq_true, if_false, Except.ok.injEq] at hmean
          rw [← hmean]
          simp [ofData, focalDtype, hmk]
      refine ⟨hmd, by rw [e4, hdn], fun c hc => by rw [e5 c] at hc; exact absurd hc (by decide), ?_⟩
      intro c hc
      have e := e6 c hc
      simp only [reduceCtorEq, false_and, or_false, if_false] at e
      simp only [hmask]
      refine ⟨fun h => absurd h (by decide), fun _ hl => ⟨e5 c, ?_⟩⟩
      rw [e, windowMean hw hf dem.ny dem.nx (fun _ _ => false) _ (fun i j => q (c.1, i, j))
        (fun i j hi hj _ => hconv (c.1, i, j) ⟨hc.1, hi, hj⟩ (hmask _)), if_neg hl, hnp.float _ hfl]
  obtain ⟨k1, k2, k3, k4⟩ := key
  obtain ⟨r1, r2, r3, r4, r5⟩ := relief_ok hd k3 k1 hrel
  obtain ⟨f1, f2, f3, f4⟩ := finish_ok hnp r1 r4 (r3.trans (by rw [k2]; simp)) h
  refine ⟨f1, f2.trans r2, f3, fun c hc => ?_⟩
  obtain ⟨k5, k6⟩ := k4 c hc
  simp only
  refine ⟨fun h => (f4 c).1 ((r5 c).1.2 (.inl h)), fun h1 h2 => (f4 c).1 ((r5 c).1.2 (.inr (k5 h1 h2))), ?_⟩
  intro h1 h2 t ht t1 t2
  obtain ⟨m1, m2⟩ := k6 h1 h2
  have hr : rel.mask c = false := by
    by_contra hcon
    rw [Bool.not_eq_false, (r5 c).1, h1, m1] at hcon
    rcases hcon with hcon | hcon <;> cases hcon
  refine (f4 c).2.2 hr _ t ?_ ht t1 t2
  rw [(r5 c).2 hr, hq c hc h1, m2]
  simp only [add, neg, sub_eq_add_neg]

/-- **C70 (arguments).** Exactly pairs of integers `0 ≤ n < m` are accepted, if the window is not larger than the raster allows. -/
theorem C70_accepted (np : NumPy) (func : Stat → List Num → Num) (dem : Raster) (inner outer : Size) (ychunks xchunks : List Nat) :
    (∃ o, tpi np func dem inner outer ychunks xchunks = .ok o) ↔
      ∃ n m : Int, inner = .int n ∧ outer = .int m ∧ 0 ≤ n ∧ n < m ∧ m - 1 ≤ dem.ny ∧ m - 1 ≤ dem.nx := by
  have hwin : ∀ n m : Int, 0 ≤ n → n < m → ∃ w, window (.int n) (.int m) = .ok w := by
    intro n m h1 h2
    simp only [window]
    rw [if_neg (by omega), if_neg (by omega), if_neg (by omega)]
    split
    · obtain ⟨w, e, -⟩ := C30_circle (n := m) (by omega)
      exact ⟨w, e⟩
    · obtain ⟨w, e, -⟩ := C30_annulus (n := n) (m := m) (by omega) h2
      exact ⟨w, e⟩
  have hov : ∀ {n m : Int} {w : Kernel Bool}, window (.int n) (.int m) = .ok w → overlap w.rows = m - 1 ∧ overlap w.cols = m - 1 := by
    intro n m w hw
    obtain ⟨h0, h1, hr, hc, -⟩ := window_ok hw
    unfold overlap before after
    omega
  constructor
  · rintro ⟨o, h⟩
    unfold tpi at h
    split at h
    · cases h
    next w hw =>
    split at h
    · cases h
    next mean hmean =>
    cases inner with
    | float _ => simp only [window, reduceCtorEq] at hw
    | int n =>
      cases outer with
      | float _ => simp only [window, reduceCtorEq] at hw
      | int m =>
        obtain ⟨h0, h1, -⟩ := window_ok hw
        obtain ⟨o1, o2⟩ := hov hw
        unfold focal at hmean
        split at hmean
        · cases hmean
        next hcon =>
        refine ⟨n, m, rfl, rfl, h0, h1, ?_⟩
        rw [o1, o2] at hcon
        have : ¬ (m - 1 > dem.ny ∨ m - 1 > dem.nx) := fun hh => hcon ⟨.inr (by decide), hh⟩
        omega
  · rintro ⟨n, m, rfl, rfl, h0, h1, h2, h3⟩
    obtain ⟨w, hw⟩ := hwin n m h0 h1
    obtain ⟨o1, o2⟩ := hov hw
    have hf : ∃ mean, focal np func dem .mean w false ychunks xchunks = .ok mean := by
      unfold focal
      rw [if_neg (by rw [o1, o2]; omega)]
      split
      · exact ⟨_, rfl⟩
      · exact ⟨_, rfl⟩
    obtain ⟨mean, hmean⟩ := hf
    obtain ⟨rel, hrel⟩ := relief_total (dem := dem) (mean := mean)
    have ha : ∃ t, rel.astype np i32 none = .ok t ∧ t.dtype = i32 := by
      unfold Raster.astype
      split
      · next hh => exact ⟨_, rfl, hh.1.symm⟩
      · cases rel.nv with
        | none => exact ⟨_, rfl, rfl⟩
        | some s => exact ⟨_, rfl, rfl⟩
    obtain ⟨t, ht, td⟩ := ha
    unfold tpi
    simp only [hw, hmean, hrel, finish, ht]
    split
    · unfold Raster.setNullValue
      have hlim : nullDtype np t.dtype (.int (-2147483648)) = .ok none := by
        rw [td]
        rfl
      simp only [hlim]
      exact ⟨_, rfl⟩
    · exact ⟨_, rfl⟩

/-- **C70 (errors).** A type error if one of the sizes is no integer, a value error for integers that are not
`0 ≤ n < m`. -/
theorem C70_errors (np : NumPy) (func : Stat → List Num → Num) (dem : Raster) (ychunks xchunks : List Nat) :
    (∀ x s, tpi np func dem (.float x) s ychunks xchunks = .error .type ∧
      tpi np func dem s (.float x) ychunks xchunks = .error .type) ∧
    (∀ n m : Int, ¬ (0 ≤ n ∧ n < m) → tpi np func dem (.int n) (.int m) ychunks xchunks = .error .value) := by
  refine ⟨fun x s => ⟨by cases s <;> rfl, by cases s <;> rfl⟩, fun n m h => ?_⟩
  have hw : window (.int n) (.int m) = .error .value := by
    simp only [window]
    split
    · rfl
    · split
      · rfl
      · rw [if_pos (by omega)]
  unfold tpi
  rw [hw]

example : ¬ ((0 : Int) ≤ 4 ∧ (4 : Int) < 4) := by decide

/-! ### Examples -/

/-- The integer part. -/
def trunc (q : Rat) : Int := q.num.tdiv q.den

/-- NumPy without rounding; int32 drops the fraction, and NaN gives the lowest value. -/
def exactNumPy : NumPy := ⟨false, fun d v => match d, v with
  | i32, .fin q => .fin (trunc q)
  | i32, .nan => .fin (-2147483648)
  | _, v => v⟩

/-- The value, if it is a finite number. -/
def finite? : Num → Option Rat
  | .fin q => some q
  | _ => none

/-- The mean of the finite values. -/
def mean (l : List Num) : Num :=
  let v := l.filterMap finite?
  if v.isEmpty then .nan else .fin (v.sum / v.length)

theorem trunc_spec {q : Rat} {t : Int} (h : Truncates q t) : trunc q = t := by
  have hd : (0 : Int) < q.den := by exact_mod_cast q.den_pos
  have hq : q = (q.num : Rat) / (q.den : Rat) := (Rat.num_div_den q).symm
  have hd' : (0 : Rat) < q.den := by exact_mod_cast q.den_pos
  unfold trunc
  rcases le_total 0 q with h0 | h0
  · obtain ⟨h1, h2⟩ := h.1 h0
    have hn : 0 ≤ q.num := Rat.num_nonneg.2 h0
    rw [Int.tdiv_eq_ediv_of_nonneg hn]
    rw [hq, le_div_iff₀ hd'] at h1
    rw [hq, div_lt_iff₀ hd'] at h2
    have h1' : t * q.den ≤ q.num := by exact_mod_cast h1
    have h2' : q.num < (t + 1) * q.den := by exact_mod_cast h2
    have a := (Int.le_ediv_iff_mul_le hd).2 h1'
    have b := (Int.ediv_lt_iff_lt_mul hd).2 h2'
    omega
  · obtain ⟨h1, h2⟩ := h.2 h0
    have hn : q.num ≤ 0 := by
      by_contra hcon
      rw [not_le, Rat.num_pos] at hcon
      linarith
    have e : q.num.tdiv q.den = -((-q.num) / q.den) := by
      rw [← Int.tdiv_eq_ediv_of_nonneg (by omega), Int.neg_tdiv, neg_neg]
    rw [e]
    rw [hq, div_le_iff₀ hd'] at h1
    rw [hq, lt_div_iff₀ hd'] at h2
    have h1' : q.num ≤ t * q.den := by exact_mod_cast h1
    have h2' : (t - 1) * q.den < q.num := by exact_mod_cast h2
    have a := (Int.le_ediv_iff_mul_le (a := -t) (b := -q.num) hd).2 (by rw [neg_mul]; omega)
    have b := (Int.ediv_lt_iff_lt_mul (a := -q.num) (b := -t + 1) hd).2 (by
      have : (-t + 1) * (q.den : Int) = -((t - 1) * q.den) := by ring
      omega)
    omega

theorem exactNumPy_exact : Exact exactNumPy where
  float d hd q := by cases d <;> first | rfl | cases hd
  nan d hd := by cases d <;> first | rfl | cases hd
  exact d n hn := by
    cases d <;> first | rfl | (show FVal.fin ((trunc (n : Rat) : Int) : Rat) = _; rw [trunc_spec (truncates_int n)])
  int32 q t ht _ _ := by
    show FVal.fin ((trunc q : Int) : Rat) = _
    rw [trunc_spec ht]

theorem mean_isMean : IsMean mean where
  ignores l := by
    have : l.filterMap finite? = (Stats.Spec.valid l).filterMap finite? := by
      unfold Stats.Spec.valid
      rw [List.filterMap_filter]
      refine List.filterMap_congr fun v _ => ?_
      cases v <;> rfl
    unfold mean
    rw [this]
  empty := rfl
  mean l hl := by
    have : (l.map (FVal.fin : Rat → Num)).filterMap finite? = l := by
      rw [List.filterMap_map]
      exact List.filterMap_some
    unfold mean
    simp only [this, List.isEmpty_iff, hl, if_false]

/-- A value of a result. -/
def cellOf (e : Except Err Raster) (c : Cell) : Option (Bool × Num) :=
  match e with
  | .error _ => none
  | .ok o => some (o.mask c, o.data c)

/-- A hill of height `h`. -/
def hill (h : Rat) (nv : Option Scalar) : Raster :=
  ⟨f64, 1, 3, 3, fun c => if c = (0, 1, 1) then .fin h else .fin 0, fun _ => false, nv⟩

example : cellOf (tpi exactNumPy (fun _ => mean) (hill 8 none) (.int 1) (.int 2) [2, 1] [3]) (0, 1, 1) = some (false, .fin 8) ∧
    cellOf (tpi exactNumPy (fun _ => mean) (hill 8 none) (.int 0) (.int 2) [3] [1, 2]) (0, 0, 1) = some (false, .fin (-1)) := by
  decide +kernel

/-- **C70 is false without a null value**: a cell without any cell in its annulus gets a meaningless value; with a null value it is
null. -/
theorem C70_empty_annulus : cellOf (tpi exactNumPy (fun _ => mean) (hill 8 none) (.int 3) (.int 4) [3] [3]) (0, 1, 1) =
      some (false, .fin (-2147483648)) ∧
    cellOf (tpi exactNumPy (fun _ => mean) (hill 8 (some ⟨f64, .fin (-1)⟩)) (.int 3) (.int 4) [3] [3]) (0, 1, 1) =
      some (true, .fin (-2147483648)) := by
  decide +kernel

/-- Dropping the fraction is no rounding of negative values: a hill of height 1 has index 1, a hole of depth 1 has index 0. -/
theorem C70_holes : cellOf (tpi exactNumPy (fun _ => mean) (hill 1 none) (.int 1) (.int 2) [3] [3]) (0, 1, 1) = some (false, .fin 1) ∧
    cellOf (tpi exactNumPy (fun _ => mean) (hill (-1) none) (.int 1) (.int 2) [3] [3]) (0, 1, 1) = some (false, .fin 0) := by
  decide +kernel

end Verif.Tpi
