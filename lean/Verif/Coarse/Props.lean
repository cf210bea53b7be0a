import Verif.Coarse.Model
set_option linter.unusedSectionVars false
/-!
# C86: the grid of `aggregate`
-/

namespace Verif.Coarse

open Verif Verif.Nulls Verif.Reduce Verif.PadBox Verif.PadBox.Spec

theorem coarse_line (x0 d : Rat) (n : Nat) {e : Nat} (he : 0 < e) :
    coarse (line x0 d n) e = line (x0 + ((e : Rat) - 1) / 2 * d) (e * d) (n / e) := by
  unfold coarse
  rw [line_length]
  conv_rhs => rw [line]
  apply List.map_congr_left
  intro k hk
  rw [List.mem_range] at hk
  have hle : k * e + e ≤ n := by
    have h1 : (k + 1) * e ≤ n / e * e := Nat.mul_le_mul_right e hk
    have h2 := Nat.div_mul_le_self n e
    calc k * e + e = (k + 1) * e := by ring
      _ ≤ n := h1.trans h2
  have hc : coarsenCoord (fun i => (line x0 d n).getD i 0) e k = coarsenCoord (fun i : Nat => x0 + i * d) e k := by
    unfold coarsenCoord
    congr 1
    apply Finset.sum_congr rfl
    intro c hc
    rw [Finset.mem_range] at hc
    simp only []
    rw [List.getD_eq_getElem?_getD, line_get _ _ _ _ (by omega)]
    rfl
  rw [hc]
  obtain ⟨h1, _, _⟩ := C56_coordinates (K := Rat) x0 d he k
  simp only [] at h1
  push_cast at h1
  linarith

/-- `aggregate` is successful with windows of `ey` rows and `ex` columns. -/
theorem reduce_shape {np : NumPy} {func : AggStat → List Num → Num} {outTy : AggStat → DType → DType} {r o : Raster} {ey ex : Nat}
    {stype : NameArg AggStat} (h : Reduce.aggregate np func outTy r (.ints [(ey : Int), (ex : Int)]) stype = .ok o) :
    windows (.ints [(ey : Int), (ex : Int)]) = (ey, ex) ∧ 0 < ey ∧ 0 < ex ∧ o.ny = r.ny / ey ∧ o.nx = r.nx / ex := by
  unfold Reduce.aggregate at h
  unfold windows
  simp only [checkExpand] at h ⊢
  by_cases h1 : (ey : Int) = 1 ∧ (ex : Int) = 1
  · simp only [if_pos h1] at h; cases h
  · simp only [if_neg h1] at h ⊢
    by_cases h2 : ¬ ((ey : Int) ≥ 1 ∧ (ex : Int) ≥ 1)
    · simp only [if_pos h2] at h; cases h
    · simp only [if_neg h2, Int.toNat_natCast] at h ⊢
      cases stype with
      | notStr => cases h
      | name s =>
        cases s with
        | none => cases h
        | some stat =>
          have h := Except.ok.inj h
          subst h
          have hn : ∀ r, (nullToNan np r).ny = r.ny ∧ (nullToNan np r).nx = r.nx := by
            intro r; unfold nullToNan; split <;> exact ⟨rfl, rfl⟩
          refine ⟨by trivial, by omega, by omega, ?_, ?_⟩ <;> unfold finishAggregate <;> split <;> simp [hn]

theorem aggregate_of {np : NumPy} {func : AggStat → List Num → Num} {outTy : AggStat → DType → DType} {keeps : Bool} {p o : Placed}
    {ey ex : Nat} {stype : NameArg AggStat} {x0 dx y0 dy : Rat} (h : OnGrid p x0 dx y0 dy)
    (ho : aggregate np func outTy keeps p (.ints [(ey : Int), (ex : Int)]) stype = .ok o) :
    0 < ey ∧ 0 < ex ∧ o.raster.ny = p.raster.ny / ey ∧ o.raster.nx = p.raster.nx / ex ∧ o.crs = p.crs ∧
    o.xs = line (x0 + ((ex : Rat) - 1) / 2 * dx) (ex * dx) (p.raster.nx / ex) ∧
    o.ys = line (y0 - ((ey : Rat) - 1) / 2 * dy) (-(ey * dy)) (p.raster.ny / ey) ∧
    o.stored = newScale o.xs o.ys (storedScale keeps p) := by
  unfold aggregate at ho
  cases hr : Reduce.aggregate np func outTy p.raster (.ints [(ey : Int), (ex : Int)]) stype with
  | error e => rw [hr] at ho; cases ho
  | ok r =>
    rw [hr] at ho
    have ho := Except.ok.inj ho
    subst ho
    obtain ⟨hw, hy, hx, h1, h2⟩ := reduce_shape hr
    rw [hw]
    refine ⟨hy, hx, h1, h2, rfl, ?_, ?_, rfl⟩
    · simp only [normalize, h.xs]
      exact coarse_line _ _ _ hx
    · simp only [normalize, h.ys]
      rw [coarse_line _ _ _ hy]
      congr 1 <;> ring

/-- The transform of a raster on a grid. -/
theorem affine_onGrid {q : Placed} {x0 dx y0 dy : Rat} (h : OnGrid q x0 dx y0 dy) :
    affine q = ⟨dx, 0, x0 - dx / 2, 0, -dy, y0 + dy / 2⟩ := by
  unfold affine
  rw [resolution_onGrid h, h.xs, h.ys, first_line _ _ _ h.nx, first_line _ _ _ h.ny]
  simp only [neg_div, sub_neg_eq_add]

/-- **C86**, at least two rows and columns in the result: it lies on the grid whose cells are the windows.  The corners of each cell,
by the transform of the result, are the corners of its window by the transform of the raster; the CRS is kept. -/
theorem C86_grid_partial {np : NumPy} {func : AggStat → List Num → Num} {outTy : AggStat → DType → DType} {keeps : Bool} {p o : Placed}
    {ey ex : Nat} {stype : NameArg AggStat} {x0 dx y0 dy : Rat} (h : OnGrid p x0 dx y0 dy)
    (ho : aggregate np func outTy keeps p (.ints [(ey : Int), (ex : Int)]) stype = .ok o)
    (hy2 : 2 ≤ p.raster.ny / ey) (hx2 : 2 ≤ p.raster.nx / ex) :
    OnGrid o (x0 + ((ex : Rat) - 1) / 2 * dx) (ex * dx) (y0 - ((ey : Rat) - 1) / 2 * dy) (ey * dy) ∧ o.crs = p.crs ∧
    resolution true o = (ex * (resolution true p).1, ey * (resolution true p).2) ∧
    ∀ i j : Nat,
      Grid.rowcolToXy (i : Rat) (j : Rat) (affine o) .ul = Grid.rowcolToXy ((i * ey : Nat) : Rat) ((j * ex : Nat) : Rat) (affine p) .ul ∧
      Grid.rowcolToXy (i : Rat) (j : Rat) (affine o) .lr =
        Grid.rowcolToXy ((i * ey + ey - 1 : Nat) : Rat) ((j * ex + ex - 1 : Nat) : Rat) (affine p) .lr := by
  obtain ⟨hy, hx, h1, h2, hc, hxs, hys, hst⟩ := aggregate_of h ho
  have hex : (0 : Rat) < ex := by exact_mod_cast hx
  have hey : (0 : Rat) < ey := by exact_mod_cast hy
  have hg : OnGrid o (x0 + ((ex : Rat) - 1) / 2 * dx) (ex * dx) (y0 - ((ey : Rat) - 1) / 2 * dy) (ey * dy) := by
    refine ⟨mul_pos hex h.posx, mul_pos hey h.posy, by omega, by omega, by rw [hxs, h2], by rw [hys, h1], ?_⟩
    rw [hst]
    unfold newScale
    rw [hxs, hys, line_length, line_length, if_neg (by simp; omega), last_line _ _ _ (by omega), last_line _ _ _ (by omega),
      first_line _ _ _ (by omega), first_line _ _ _ (by omega)]
    have hx' : (1 : Rat) < ((p.raster.nx / ex : Nat) : Rat) := by exact_mod_cast hx2
    have hy' : (1 : Rat) < ((p.raster.ny / ey : Nat) : Rat) := by exact_mod_cast hy2
    refine Prod.ext ?_ ?_
    · simp only []
      rw [add_sub_cancel_left, mul_div_cancel_left₀ _ (by linarith)]
    · simp only []
      rw [add_sub_cancel_left, mul_div_cancel_left₀ _ (by linarith)]
  refine ⟨hg, hc, ?_, ?_⟩
  · rw [resolution_onGrid hg, resolution_onGrid h]
    refine Prod.ext rfl ?_
    simp only []
    ring
  · intro i j
    rw [affine_onGrid hg, affine_onGrid h]
    simp only [Grid.rowcolToXy, Grid.Affine.mul, Grid.Affine.translation, Grid.Affine.apply, Grid.Offset.rc]
    have e1 : ((i * ey + ey - 1 : Nat) : Rat) = i * ey + ey - 1 := by
      rw [Nat.cast_sub (by omega)]; push_cast; ring
    have e2 : ((j * ex + ex - 1 : Nat) : Rat) = j * ex + ex - 1 := by
      rw [Nat.cast_sub (by omega)]; push_cast; ring
    rw [e1, e2]
    push_cast
    refine ⟨Prod.ext ?_ ?_, Prod.ext ?_ ?_⟩ <;> simp only [] <;> ring

/-- **C86**, the coordinates of the cells, whatever their number: the middle of the window. -/
theorem C86_coordinates {np : NumPy} {func : AggStat → List Num → Num} {outTy : AggStat → DType → DType} {keeps : Bool} {p o : Placed}
    {ey ex : Nat} {stype : NameArg AggStat} {x0 dx y0 dy : Rat} (h : OnGrid p x0 dx y0 dy)
    (ho : aggregate np func outTy keeps p (.ints [(ey : Int), (ex : Int)]) stype = .ok o) :
    o.xs.length = p.raster.nx / ex ∧ o.ys.length = p.raster.ny / ey ∧
    (∀ k u v x, o.xs[k]? = some x → p.xs[k * ex]? = some u → p.xs[k * ex + ex - 1]? = some v → x = (u + v) / 2) ∧
    (∀ k u v y, o.ys[k]? = some y → p.ys[k * ey]? = some u → p.ys[k * ey + ey - 1]? = some v → y = (u + v) / 2) := by
  obtain ⟨hy, hx, h1, h2, hc, hxs, hys, hst⟩ := aggregate_of h ho
  have key : ∀ (z d z' : Rat) (n m e k : Nat) (u v x : Rat), 0 < e → z' = z + ((e : Rat) - 1) / 2 * d →
      (line z' (e * d) m)[k]? = some x → (line z d n)[k * e]? = some u → (line z d n)[k * e + e - 1]? = some v → x = (u + v) / 2 := by
    intro z d z' n m e k u v x he hz e1 e2 e3
    have lt : ∀ {z d : Rat} {n i : Nat} {q : Rat}, (line z d n)[i]? = some q → i < n := by
      intro z d n i q e
      by_contra hc
      rw [List.getElem?_eq_none (by rw [line_length]; omega)] at e
      cases e
    rw [line_get _ _ _ _ (lt e1)] at e1
    rw [line_get _ _ _ _ (lt e2)] at e2
    rw [line_get _ _ _ _ (lt e3)] at e3
    have e1 := Option.some.inj e1
    have e2 := Option.some.inj e2
    have e3 := Option.some.inj e3
    rw [← e1, ← e2, ← e3, hz, Nat.cast_sub (by omega)]
    push_cast
    ring
  refine ⟨by rw [hxs, line_length], by rw [hys, line_length], ?_, ?_⟩
  · intro k u v x e1 e2 e3
    rw [hxs] at e1
    rw [h.xs] at e2 e3
    exact key _ _ _ _ _ _ _ _ _ _ hx rfl e1 e2 e3
  · intro k u v x e1 e2 e3
    rw [hys] at e1
    rw [h.ys] at e2 e3
    rw [show -((ey : Rat) * dy) = ey * -dy by ring] at e1
    exact key y0 (-dy) _ _ _ _ _ _ _ _ hy (by ring) e1 e2 e3

/-- **C86 fails when the result has a single row or column**: `Raster.resolution` of the result is that of the raster without null values that
was aggregated, whatever the windows; and (1, 1), with rows that go up, for rasters with null values where `xr.where` drops the attributes. -/
theorem C86_single {np : NumPy} {func : AggStat → List Num → Num} {outTy : AggStat → DType → DType} {keeps : Bool} {p o : Placed}
    {ey ex : Nat} {stype : NameArg AggStat} {x0 dx y0 dy : Rat} (h : OnGrid p x0 dx y0 dy)
    (ho : aggregate np func outTy keeps p (.ints [(ey : Int), (ex : Int)]) stype = .ok o)
    (h1 : p.raster.ny / ey = 1 ∨ p.raster.nx / ex = 1) :
    (p.raster.masked = false ∨ keeps = true → resolution true o = resolution true p) ∧
    (p.raster.masked = true ∧ keeps = false → resolution true o = (1, 1)) := by
  obtain ⟨hy, hx, hny, hnx, hc, hxs, hys, hst⟩ := aggregate_of h ho
  have hs : (o.xs.length == 1 || o.ys.length == 1) = true := by
    rw [hxs, hys, line_length, line_length]
    rcases h1 with h' | h' <;> simp [h']
  have hr : resolution true o = o.stored := by
    unfold resolution
    rw [Bool.not_true, Bool.false_or, hs]
    rfl
  have hn : o.stored = (storedScale keeps p).getD (1, 1) := by
    rw [hst]; unfold newScale; rw [hs]; rfl
  rw [hr, hn, resolution_onGrid h]
  constructor
  · intro hm
    rw [← h.stored]
    rcases hm with hm | hm <;> simp [storedScale, hm]
  · rintro ⟨hm, hk⟩
    simp [storedScale, hm, hk]

/-! ### Examples -/

def sumOf (_ : AggStat) (l : List Num) : Num := l.headD .nan

/-- Four rows and four columns of cells one wide and two high, from (0, 8). -/
def square : Placed :=
  ⟨⟨.i16, 1, 4, 4, fun c => .fin (c.2.1 * 4 + c.2.2), fun _ => false, none⟩, [1/2, 3/2, 5/2, 7/2], [7, 5, 3, 1], (1, -2), some 5070⟩

theorem square_onGrid : OnGrid square (1 / 2) 1 7 2 := by
  refine ⟨by norm_num, by norm_num, by decide, by decide, ?_, ?_, rfl⟩
  · simp [square, line, List.range_succ]; norm_num
  · simp [square, line, List.range_succ]; norm_num

def shows (r : Except Err Placed) (xs ys : List Rat) (res : Rat × Rat) (b : Rat × Rat × Rat × Rat) : Bool :=
  match r with
  | .error _ => false
  | .ok o => o.xs == xs && o.ys == ys && resolution true o == res && bounds o == b

/-- The hypotheses of C86 are met: windows of two by two cells. -/
example : OnGrid square (1 / 2) 1 7 2 ∧ 2 ≤ square.raster.ny / 2 ∧ 2 ≤ square.raster.nx / 2 ∧
    shows (aggregate (idNumPy false) sumOf (fun _ d => d) true square (.ints [2, 2]) (.name (some .max))) [1, 3] [6, 2] (2, -4) (0, 0, 4, 8) = true := by
  refine ⟨square_onGrid, by decide, by decide, by decide +kernel⟩

/-- A single row: the columns of the result are 2 wide, and its bounds should be those of the raster, `(0, 0, 4, 8)`. -/
example : shows (aggregate (idNumPy false) sumOf (fun _ d => d) true square (.ints [4, 2]) (.name (some .max)))
    [1, 3] [4] (1, -2) (1/2, 3, 5/2, 5) = true := by decide +kernel

end Verif.Coarse
