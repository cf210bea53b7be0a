import Verif.Trips.Readings
import Verif.Trips.Expressions

set_option linter.unusedSectionVars false

/-!
# C125: calculating before and after reading values at points

Expressions of rasters (C110) read with `extract_points_eager` (C66), next to the same expressions of the columns.
-/

namespace Verif.Trips.Samples

open Verif Verif.Nulls DType
open Verif.Extract (extractPoints Geom)
open Verif.Extract.Spec (Reads)
open Verif.Grid.Spec (InCell)
open Verif.Trips.Forecasts.Spec (On)
open Verif.Trips.Readings (entry_reads)
open Verif.Trips.Readings.Spec (entry Inside)
open Verif.Trips.Expressions (Expr eval)
open Verif.Trips.Expressions.Spec (rasters operations Value Null CommonAll)
open Verif.Pair (Placed)
open Verif.Pair.Spec (At SameGrid Proper)

variable {K : Type} [Field K] [LinearOrder K] [IsStrictOrderedRing K] [FloorRing K]

namespace Spec

/-- The expression for numbers in the place of the rasters. -/
def calculated (read : Placed → Num) : Expr → Num
  | .raster p => read p
  | .unary u k e => u.fn k [calculated read e]
  | .number u k _ n first e => u.fn k (if first then [n, calculated read e] else [calculated read e, n])
  | .binary u k e f => u.fn k [calculated read e, calculated read f]

/-- The tables of the values of the rasters at the points; the rasters lie on the grid of the affine. -/
structure Sampled (toF64 : Num → Num) (A : Grid.Affine K) (points : List (Geom K)) (ps : List Placed) (cols : Placed → List (String × List Num)) :
    Prop where
  read : ∀ p ∈ ps, ∃ (g : Grid.Raster K Num) (name : String) (skip : Bool) (axis : Int), axis ≠ 0 ∧ g.affine = A ∧ On p.raster g ∧
    extractPoints toF64 g points name skip axis = .ok (.wide (cols p))

end Spec

open Spec

theorem calculated_value {b y x : Rat} {c : Cell} : ∀ e : Expr, (∀ p ∈ rasters e, At p c b y x) →
    Value b y x e (calculated (fun p => p.raster.data c) e)
  | .raster p, h => ⟨c, h p (by simp [rasters]), rfl⟩
  | .unary u k e, h => ⟨_, calculated_value e h, rfl⟩
  | .number u k dt n first e, h => ⟨_, calculated_value e h, rfl⟩
  | .binary u k e f, h => ⟨_, _, calculated_value e fun p hp => h p (List.mem_append_left _ hp),
      calculated_value f fun p hp => h p (List.mem_append_right _ hp), rfl⟩

theorem calculated_congr {read read' : Placed → Num} : ∀ e : Expr, (∀ p ∈ rasters e, read p = read' p) → calculated read e = calculated read' e
  | .raster p, h => h p (by simp [rasters])
  | .unary u k e, h => by simp only [calculated]; rw [calculated_congr e h]
  | .number u k dt n first e, h => by simp only [calculated]; rw [calculated_congr e h]
  | .binary u k e f, h => by
    simp only [calculated]
    rw [calculated_congr e fun p hp => h p (List.mem_append_left _ hp), calculated_congr f fun p hp => h p (List.mem_append_right _ hp)]

theorem common_same {ls : List (List Rat)} {l out : List Rat} (hne : ls ≠ []) (hall : ∀ m ∈ ls, m = l) (hn : l.Nodup) (h : CommonAll ls out) :
    out = l := by
  obtain ⟨h1, h2⟩ := h
  cases ls with
  | nil => exact absurd rfl hne
  | cons m ms =>
    have hm := hall m (by simp)
    subst hm
    have hs := h1 m rfl
    refine hs.eq_of_length_le (List.Subperm.length_le (hn.subperm fun v hv => (h2 v).2 fun l hl => ?_))
    rw [hall l hl]
    exact hv

theorem result_grid {e : Expr} {o : Placed} (hp : ∀ p ∈ rasters e, Proper p) (hu : ∀ u ∈ operations e, 0 < u.nout) (he : eval e = .ok o)
    (hgrid : ∀ p ∈ rasters e, ∀ q ∈ rasters e, SameGrid p q) {p : Placed} (hpe : p ∈ rasters e) : SameGrid o p := by
  have is := Expressions.C110_cells e o hp hu he
  have hne : ∀ g : Placed → List Rat, (rasters e).map g ≠ [] := fun g h => by
    rw [List.map_eq_nil_iff] at h
    rw [h] at hpe
    cases hpe
  have pr := hp p hpe
  refine ⟨common_same (hne _) ?_ pr.2.2.2.1 is.bands, common_same (hne _) ?_ pr.2.2.2.2.1 is.ys, common_same (hne _) ?_ pr.2.2.2.2.2.1 is.xs⟩ <;>
  · intro m hm
    obtain ⟨q, hq, rfl⟩ := List.mem_map.1 hm
    first
    | exact (hgrid q hq p hpe).1
    | exact (hgrid q hq p hpe).2.1
    | exact (hgrid q hq p hpe).2.2

theorem same_shape {o p : Placed} (ho : Proper o) (hp : Proper p) (h : SameGrid o p) :
    o.raster.nb = p.raster.nb ∧ o.raster.ny = p.raster.ny ∧ o.raster.nx = p.raster.nx := by
  rw [← ho.1, ← ho.2.1, ← ho.2.2.1, ← hp.1, ← hp.2.1, ← hp.2.2.1, h.1, h.2.1, h.2.2]
  exact ⟨rfl, rfl, rfl⟩

theorem at_cell {o : Placed} (ho : Proper o) {c : Cell} (hc : o.raster.Has c) : ∃ b y x, At o c b y x := by
  obtain ⟨h1, h2, h3⟩ := hc
  rw [← ho.1] at h1
  rw [← ho.2.1] at h2
  rw [← ho.2.2.1] at h3
  exact ⟨_, _, _, List.getElem?_eq_getElem h1, List.getElem?_eq_getElem h2, List.getElem?_eq_getElem h3⟩

theorem at_same {o p : Placed} (h : SameGrid o p) {c : Cell} {b y x : Rat} (hat : At o c b y x) : At p c b y x := by
  unfold At at hat ⊢
  rwa [← h.1, ← h.2.1, ← h.2.2]

/-- **C125**: if no raster of the expression reads NaN at a point, then the expression's raster reads there what the expression gives for the numbers
read (as a double). If a raster of the expression is null in the cell of the point, or the point is beside the rasters, it reads NaN. -/
theorem C125_calculated {toF64 : Num → Num} {A : Grid.Affine K} (hdet : A.det ≠ 0) {points : List (Geom K)} {e : Expr} {o : Placed}
    (hp : ∀ p ∈ rasters e, Proper p) (hu : ∀ u ∈ operations e, 0 < u.nout) (he : eval e = .ok o)
    (hgrid : ∀ p ∈ rasters e, ∀ q ∈ rasters e, SameGrid p q)
    (hkeep : ∀ p ∈ rasters e, ∀ c, p.raster.Has c → p.raster.mask c = false → toF64 (p.raster.data c) = p.raster.data c)
    {cols : Placed → List (String × List Num)} (hs : Sampled toF64 A points (o :: rasters e) cols)
    {b : Nat} (hb : b < o.raster.nb) {n : Nat} {x y : K} (hn : points[n]? = some (.point x y)) :
    (∀ read : Placed → Num, (∀ p ∈ rasters e, entry (cols p) b n = some (read p) ∧ read p ≠ .nan) →
      entry (cols o) b n = some (toF64 (calculated read e))) ∧
    ((∃ p ∈ rasters e, ∀ i j : Nat, i < o.raster.ny → j < o.raster.nx → InCell A (x, y) i j → p.raster.mask (b, i, j) = true) →
      entry (cols o) b n = some .nan) := by
  have is := Expressions.C110_cells e o hp hu he
  have grid : ∀ p ∈ rasters e, SameGrid o p := fun p hpe => result_grid hp hu he hgrid hpe
  have shape : ∀ p ∈ rasters e, o.raster.nb = p.raster.nb ∧ o.raster.ny = p.raster.ny ∧ o.raster.nx = p.raster.nx :=
    fun p hpe => same_shape is.proper (hp p hpe) (grid p hpe)
  obtain ⟨og, oname, oskip, oaxis, oa, oaff, oon, oex⟩ := hs.read o (by simp)
  have odet : og.affine.det ≠ 0 := by rw [oaff]; exact hdet
  obtain ⟨v, ov, oread⟩ := entry_reads odet oa oex (by rw [oon.nb]; exact hb) hn
  have nullIff : ∀ i j : Nat, i < o.raster.ny → j < o.raster.nx →
      (o.raster.mask (b, i, j) = true ↔ ∃ p ∈ rasters e, p.raster.mask (b, i, j) = true) := by
    intro i j hi hj
    obtain ⟨β, η, ξ, hat⟩ := at_cell is.proper (c := (b, i, j)) ⟨hb, hi, hj⟩
    rw [is.null _ _ _ _ hat]
    constructor
    · rintro ⟨p, hpe, c, hc, hm⟩
      have h1 := at_same (grid p hpe) hat
      have hp' := hp p hpe
      have e1 := (List.getElem?_inj (List.getElem?_eq_some_iff.1 hc.1).1 hp'.2.2.2.1).1 (hc.1.trans h1.1.symm)
      have e2 := (List.getElem?_inj (List.getElem?_eq_some_iff.1 hc.2.1).1 hp'.2.2.2.2.1).1 (hc.2.1.trans h1.2.1.symm)
      have e3 := (List.getElem?_inj (List.getElem?_eq_some_iff.1 hc.2.2).1 hp'.2.2.2.2.2.1).1 (hc.2.2.trans h1.2.2.symm)
      refine ⟨p, hpe, ?_⟩
      rw [← hm]
      congr 1
      exact (Prod.ext e1 (Prod.ext e2 e3)).symm
    · rintro ⟨p, hpe, hm⟩
      exact ⟨p, hpe, _, at_same (grid p hpe) hat, hm⟩
  constructor
  · intro read hread
    -- every raster is valid in the cell of the point
    have hcell : ∀ p ∈ rasters e, ∃ i j : Nat, i < o.raster.ny ∧ j < o.raster.nx ∧ InCell A (x, y) i j ∧ p.raster.mask (b, i, j) = false ∧
        read p = p.raster.data (b, i, j) := by
      intro p hpe
      obtain ⟨g, name, skip, axis, ha, haff, hon, hex⟩ := hs.read p (List.mem_cons_of_mem _ hpe)
      obtain ⟨hnb, hny, hnx⟩ := shape p hpe
      obtain ⟨w, hw, hr⟩ := entry_reads (by rw [haff]; exact hdet) ha hex (by rw [hon.nb, ← hnb]; exact hb) hn
      have hw' : w = read p := Option.some.inj (hw.symm.trans (hread p hpe).1)
      rcases hr with ⟨i, j, hi, hj, hc, hm, hv⟩ | ⟨-, hv⟩
      · rw [hon.ny, ← hny] at hi
        rw [hon.nx, ← hnx] at hj
        rw [haff] at hc
        rw [hon.mask] at hm
        rw [hon.data, hkeep p hpe (b, i, j) ⟨hnb ▸ hb, hny ▸ hi, hnx ▸ hj⟩ hm] at hv
        exact ⟨i, j, hi, hj, hc, hm, hw'.symm.trans hv⟩
      · exact absurd (hw'.symm.trans hv) (hread p hpe).2
    have hone : ∃ p, p ∈ rasters e := by
      cases h : rasters e with
      | nil => exact absurd h (Expressions.rasters_ne e)
      | cons p ps => exact ⟨p, by simp⟩
    obtain ⟨p0, hp0⟩ := hone
    obtain ⟨i, j, hi, hj, hc, -⟩ := hcell p0 hp0
    have huni : ∀ {i' j' : Nat}, InCell A (x, y) i' j' → i' = i ∧ j' = j := by
      intro i' j' h'
      have e := ((Grid.C20_unique_cell A hdet x y i' j').2 h').symm.trans ((Grid.C20_unique_cell A hdet x y i j).2 hc)
      simpa using e
    have hall : ∀ p ∈ rasters e, p.raster.mask (b, i, j) = false ∧ read p = p.raster.data (b, i, j) := by
      intro p hpe
      obtain ⟨i', j', -, -, hc', h1, h2⟩ := hcell p hpe
      obtain ⟨rfl, rfl⟩ := huni hc'
      exact ⟨h1, h2⟩
    have hom : o.raster.mask (b, i, j) = false := by
      rw [← Bool.not_eq_true, nullIff i j hi hj]
      rintro ⟨p, hpe, hm⟩
      rw [(hall p hpe).1] at hm
      cases hm
    obtain ⟨β, η, ξ, hat⟩ := at_cell is.proper (c := (b, i, j)) ⟨hb, hi, hj⟩
    have hval := is.value _ _ _ _ hat hom
    have hcalc := calculated_value e fun p hpe => at_same (grid p hpe) hat
    have hdata : o.raster.data (b, i, j) = calculated read e := by
      rw [Expressions.value_unique e _ _ hp hval hcalc]
      exact (calculated_congr e fun p hpe => (hall p hpe).2).symm
    rw [ov]
    congr 1
    refine Extract.C66_unique odet oread (.inl ⟨i, j, by rw [oon.ny]; exact hi, by rw [oon.nx]; exact hj, by rw [oaff]; exact hc,
      by rw [oon.mask]; exact hom, ?_⟩)
    rw [oon.data, hdata]
  · rintro ⟨p, hpe, hnull⟩
    rw [ov]
    congr 1
    refine Extract.C66_unique odet oread (.inr ⟨fun i j hi hj hc => ?_, rfl⟩)
    rw [oon.ny] at hi
    rw [oon.nx] at hj
    rw [oaff] at hc
    rw [oon.mask]
    exact (nullIff i j hi hj).2 ⟨p, hpe, hnull i j hi hj hc⟩

/-! ## A concrete case -/

open Verif.Trips.Expressions (exA exB)
open Verif.Pair (exAdd exPlaced_proper)

/-- `a + (b + 1000)`. -/
def exSum : Expr := .binary exAdd 0 (.raster exA) (.number exAdd 0 i16 (.fin 1000) false (.raster exB))

/-- The raster on cells of size 1 with the centres 1, 2 and 3. -/
def onCells (r : Raster) : Grid.Raster ℚ Num :=
  ⟨[r.nb], [r.ny], [r.nx], ⟨1, 0, 1 / 2, 0, -1, 3 / 2⟩, false, fun b y x => r.data (b, y, x), fun b y x => r.mask (b, y, x)⟩

/-- The first point is in a null cell of `a`, the second in a valid one, the third beside the rasters. -/
def exPoints : List (Geom ℚ) := [.point 1 1, .point (11 / 5) 1, .point 9 1]

theorem onCells_on (r : Raster) : On r (onCells r) := by
  refine ⟨?_, ?_, ?_, fun _ _ _ => rfl, fun _ _ _ => rfl⟩ <;> simp [onCells, Grid.Raster.nb, Grid.Raster.ny, Grid.Raster.nx]

/-- The hypotheses of `C125_calculated` (`id` keeps all numbers). -/
example : ∃ o, eval exSum = .ok o ∧ (∀ p ∈ rasters exSum, Proper p) ∧ (∀ u ∈ operations exSum, 0 < u.nout) ∧
    (∀ p ∈ rasters exSum, ∀ q ∈ rasters exSum, SameGrid p q) ∧ (onCells o.raster).affine.det ≠ 0 ∧
    (∀ cols : Placed → List (String × List Num), (∀ p, extractPoints id (onCells p.raster) exPoints "v" true 1 = .ok (.wide (cols p))) →
      Sampled id (onCells o.raster).affine exPoints (o :: rasters exSum) cols) ∧
    extractPoints id (onCells exA.raster) exPoints "v" true 1 = .ok (.wide [("v_1", [.nan, .fin 112, .nan])]) ∧
    extractPoints id (onCells exB.raster) exPoints "v" true 1 = .ok (.wide [("v_1", [.fin 111, .fin 112, .nan])]) ∧
    extractPoints id (onCells o.raster) exPoints "v" true 1 = .ok (.wide [("v_1", [.nan, .fin 1224, .nan])]) := by
  refine ⟨_, rfl, ?_, ?_, ?_, by decide +kernel, ?_, by decide +kernel, by decide +kernel, by decide +kernel⟩
  · intro p hp
    simp only [exSum, rasters, List.cons_append, List.nil_append, List.mem_cons, List.not_mem_nil, or_false] at hp
    rcases hp with rfl | rfl
    · exact exPlaced_proper _ _ (by decide +kernel) (by decide +kernel) (by decide +kernel)
    · exact exPlaced_proper _ _ (by decide +kernel) (by decide +kernel) (by decide +kernel)
  · intro u hu
    simp only [exSum, operations, List.append_nil, List.nil_append, List.mem_cons, List.not_mem_nil, or_false] at hu
    rcases hu with rfl | rfl <;> decide +kernel
  · intro p hp q hq
    simp only [exSum, rasters, List.cons_append, List.nil_append, List.mem_cons, List.not_mem_nil, or_false] at hp hq
    rcases hp with rfl | rfl <;> rcases hq with rfl | rfl <;> exact ⟨rfl, rfl, rfl⟩
  · exact fun cols h => ⟨fun p _ => ⟨onCells p.raster, "v", true, 1, by decide, rfl, onCells_on _, h p⟩⟩

end Verif.Trips.Samples
