import Verif.Reduce.Predict
import Verif.Extract.Props
import Verif.PredictVector.Props
import Mathlib.Tactic.IntervalCases
import Mathlib.Tactic.FinCases

set_option linter.unusedSectionVars false

/-!
# C123: predicting before and after reading values at points

`model_predict_raster` (C57) and then `extract_points_eager` (C66), next to `extract_points_eager` and then `model_predict_vector` (C78).
-/

namespace Verif.Trips.Forecasts

open Verif Verif.Nulls DType
open Verif.Reduce (modelPredict Predicted nanToNum)
open Verif.Reduce.Spec (Rowwise predictors bandCells)
open Verif.Focal (promoteToFloat convert)
open Verif.Extract (extractPoints Geom)
open Verif.Extract.Spec (Reads)
open Verif.Grid.Spec (InCell)
open Verif.PredictVector (predictVector)
open Verif.PredictVector.Spec (Accepted Extends)
open Verif.Nulls.Spec (MaskNeedsNull)

variable {K : Type} [Field K] [LinearOrder K] [IsStrictOrderedRing K] [FloorRing K]

namespace Spec

/-- The raster on its grid. -/
structure On (r : Raster) (g : Grid.Raster K Num) : Prop where
  nb : g.nb = r.nb
  ny : g.ny = r.ny
  nx : g.nx = r.nx
  data : ∀ b y x, g.data b y x = r.data (b, y, x)
  mask : ∀ b y x, g.mask b y x = r.mask (b, y, x)

/-- The computed predictions on the grid of the raster. -/
structure Computed (o : Predicted) (g og : Grid.Raster K Num) : Prop where
  affine : og.affine = g.affine
  nb : og.nb = o.nb
  ny : og.ny = o.ny
  nx : og.nx = o.nx
  data : ∀ b y x, b < o.nb → y < o.ny → x < o.nx → o.value (b, y, x) = .ok (og.data b y x)
  mask : ∀ b y x, og.mask b y x = o.mask (b, y, x)

/-- The valid cells hold finite numbers that the conversions keep. -/
def Plain (np : NumPy) (toF64 : Num → Num) (r : Raster) : Prop :=
  ∀ c, r.Has c → r.mask c = false → ∃ q : Rat, r.data c = .fin q ∧ toF64 (.fin q) = .fin q ∧
    convert np r.dtype (promoteToFloat r.dtype) (.fin q) = .fin q

/-- The table has a row for every point, with the columns of values in fields of the same names. -/
structure Joined (cols : List (String × List Num)) (n : Nat) (t : PredictVector.Table) : Prop where
  length : t.parts.flatten.length = n
  names : ∀ col ∈ cols, col.1 ∈ t.names ∧ t.numeric col.1 = true
  values : ∀ col ∈ cols, ∀ (p : Nat) (row : PredictVector.Row), t.parts.flatten[p]? = some row → col.2[p]? = some (row.value col.1).toNum

end Spec

open Spec

/-- The names of the columns. -/
def fieldNames (name : String) (nb : Nat) : List String := (List.range nb).map fun b => name ++ "_" ++ toString (b + 1)

/-- **C123**: reading the values of the bands at points and predicting from the columns gives, for every point and output, the number that is
read at the point from the raster of predictions: NaN beside the raster and where a band is null, else the prediction. -/
theorem C123_points {np : NumPy} {f : List Num → List Num} {rmodel : Reduce.Model} {vmodel : PredictVector.Model} {big small : Num}
    {toF64 : Num → Num} {r : Raster} {o : Predicted} {n : Nat} {ychunks xchunks : List Nat} {g og : Grid.Raster K Num}
    {points : List (Geom K)} {name oname pre : String} {skip : Bool} {axis : Int} {cols ocols : List (String × List Num)} {t : PredictVector.Table}
    (hrm : Rowwise rmodel f) (hvm : ∀ xs, vmodel xs = .ok (.two n (xs.map f)))
    (hn : 0 < n) (hlen : ∀ row : List Num, row.length = r.nb → (f row).length = n ∧ ∀ v ∈ f row, toF64 v = v)
    (hy : ychunks.sum = r.ny) (hx : xchunks.sum = r.nx) (hnb : 0 < r.nb) (hmn : MaskNeedsNull r) (hpl : Plain np toF64 r)
    (ho : modelPredict np rmodel big small r n ychunks xchunks = .ok o) (hdet : g.affine.det ≠ 0) (hg : On r g) (hog : Computed o g og)
    (ha : axis ≠ 0) (hc : extractPoints toF64 g points name skip axis = .ok (.wide cols))
    (hoc : extractPoints toF64 og points oname skip axis = .ok (.wide ocols))
    (ht : Joined cols points.length t) (hfree : ∀ i : Nat, 1 ≤ i → i ≤ n → pre ++ toString i ∉ t.names) :
    ∃ out, predictVector vmodel (fieldNames name r.nb) n (some pre) t = .ok out ∧ out.parts.flatten.length = points.length ∧
      ∀ i < n, ∃ ws, ocols[i]? = some (oname ++ "_" ++ toString (i + 1), ws) ∧
        ∀ (p : Nat) (row : PredictVector.Row), out.parts.flatten[p]? = some row →
          ∃ w, ws[p]? = some w ∧ row.value (pre ++ toString (i + 1)) = .num w := by
  obtain ⟨o', ho', on, oy, ox, -, hcell⟩ := Reduce.C57_predict (np := np) hrm (big := big) (small := small) (r := r) hn
    (fun row hr => (hlen row hr).1) hy hx
  rw [ho] at ho'
  cases ho'
  obtain ⟨cols', e1, c1, c2⟩ := Extract.C66_columns hdet ha hc
  cases e1
  obtain ⟨ocols', e2, oc1, oc2⟩ := Extract.C66_columns (by rw [hog.affine]; exact hdet) ha hoc
  cases e2
  rw [hg.nb] at c1 c2
  rw [hog.nb, on] at oc1 oc2
  have hpts := ((Extract.C66_accepted toF64 g points name skip axis).1 ⟨_, hc⟩).2
  -- the columns by name
  have hcol : ∀ b < r.nb, ∃ vs, (name ++ "_" ++ toString (b + 1), vs) ∈ cols ∧ vs.length = points.length ∧
      ∀ (p : Nat) (x y : K), points[p]? = some (.point x y) → ∃ v, vs[p]? = some v ∧ Reads toF64 g b x y v := by
    intro b hb
    obtain ⟨vs, h1, h2, h3⟩ := c2 b hb
    exact ⟨vs, List.mem_of_getElem? h1, h2, h3⟩
  have hacc : Accepted (fieldNames name r.nb) n (some pre) t := by
    refine ⟨fun s hs => ?_, by omega, pre, rfl, fun i h1 h2 => hfree i h1 (by omega)⟩
    obtain ⟨b, hb, rfl⟩ := List.mem_map.1 hs
    obtain ⟨vs, hm, -⟩ := hcol b (List.mem_range.1 hb)
    exact (ht.names _ hm).1
  have hnum : ∀ s ∈ fieldNames name r.nb, t.numeric s = true := by
    intro s hs
    obtain ⟨b, hb, rfl⟩ := List.mem_map.1 hs
    obtain ⟨vs, hm, -⟩ := hcol b (List.mem_range.1 hb)
    exact (ht.names _ hm).2
  obtain ⟨out, hout, -, hrows⟩ := PredictVector.C78_rows (g := f) hacc hnum (by simpa using hvm)
  have hflat := List.rel_flatten hrows
  refine ⟨out, hout, by rw [← hflat.length_eq, ht.length], fun i hi => ?_⟩
  obtain ⟨ws, w1, w2, w3⟩ := oc2 i hi
  refine ⟨ws, w1, fun p row hrow => ?_⟩
  have hp : p < out.parts.flatten.length := (List.getElem?_eq_some_iff.1 hrow).1
  have hp' : p < t.parts.flatten.length := by rw [hflat.length_eq]; exact hp
  have hpp : p < points.length := by rw [← ht.length]; exact hp'
  obtain ⟨x, y, hxy⟩ := hpts _ (List.getElem_mem hpp)
  have hpt : points[p]? = some (.point x y) := by rw [List.getElem?_eq_getElem hpp, hxy]
  obtain ⟨w, hw, hread⟩ := w3 p x y hpt
  refine ⟨w, hw, ?_⟩
  have hext := (List.forall₂_iff_get.1 hflat).2 p hp' hp
  rw [List.get_eq_getElem, List.get_eq_getElem] at hext
  rw [(List.getElem?_eq_some_iff.1 hrow).2] at hext
  rw [hext.2.2 i (by simpa using hi)]
  -- the values in the row are what is read at the point
  have hvals : ∀ b < r.nb, Reads toF64 g b x y ((t.parts.flatten[p]).value (name ++ "_" ++ toString (b + 1))).toNum := by
    intro b hb
    obtain ⟨vs, hm, -, h3⟩ := hcol b hb
    obtain ⟨v, hv, hr⟩ := h3 p x y hpt
    have := ht.values _ hm p _ (List.getElem?_eq_getElem hp')
    simp only at this
    rw [hv] at this
    cases this
    exact hr
  generalize t.parts.flatten[p] = trow at hvals ⊢
  have hdet' : og.affine.det ≠ 0 := by rw [hog.affine]; exact hdet
  by_cases hin : ∃ i0 j0 : Nat, i0 < r.ny ∧ j0 < r.nx ∧ InCell g.affine (x, y) i0 j0
  · obtain ⟨i0, j0, hi0, hj0, hcin⟩ := hin
    obtain ⟨k1, -, k3⟩ := hcell (i, i0, j0) hi hi0 hj0
    have huni : ∀ {i' j' : Nat}, InCell g.affine (x, y) i' j' → i' = i0 ∧ j' = j0 := by
      intro i' j' h'
      have e := ((Grid.C20_unique_cell g.affine hdet x y i' j').2 h').symm.trans ((Grid.C20_unique_cell g.affine hdet x y i0 j0).2 hcin)
      simpa using e
    by_cases hall : ∀ b < r.nb, r.mask (b, i0, j0) = false
    · have hq : ∀ b < r.nb, ∃ q : Rat, r.data (b, i0, j0) = .fin q ∧ toF64 (.fin q) = .fin q ∧
          convert np r.dtype (promoteToFloat r.dtype) (.fin q) = .fin q := fun b hb => hpl (b, i0, j0) ⟨hb, hi0, hj0⟩ (hall b hb)
      have hval : ∀ b < r.nb, (trow.value (name ++ "_" ++ toString (b + 1))).toNum = r.data (b, i0, j0) := by
        intro b hb
        obtain ⟨q, q1, q2, -⟩ := hq b hb
        refine Extract.C66_unique hdet (hvals b hb) (.inl ⟨i0, j0, by rw [hg.ny]; exact hi0, by rw [hg.nx]; exact hj0, hcin, ?_, ?_⟩)
        · rw [hg.mask]; exact hall b hb
        · rw [hg.data, q1, q2]
      have homask : o.mask (i, i0, j0) = false := by
        rw [← Bool.not_eq_true]
        intro k
        obtain ⟨-, c, hc, hm⟩ := k1.1 k
        obtain ⟨b, hb, rfl⟩ := List.mem_map.1 hc
        rw [hall b (List.mem_range.1 hb)] at hm
        cases hm
      obtain ⟨v, hv, hf⟩ := k3 homask
      have hpred : predictors (fun p => nanToNum big small
          (if r.masked then convert np r.dtype (promoteToFloat r.dtype) (r.data p) else r.data p)) r.nb (i, i0, j0) =
          (fieldNames name r.nb).map fun s => (trow.value s).toNum := by
        unfold predictors bandCells fieldNames
        rw [List.map_map, List.map_map]
        refine List.map_congr_left fun b hb => ?_
        have hb := List.mem_range.1 hb
        obtain ⟨q, q1, q2, q3⟩ := hq b hb
        simp only [Function.comp]
        rw [hval b hb, q1, q3]
        split <;> rfl
      rw [hpred] at hf
      have hfields : ¬ ∃ s ∈ fieldNames name r.nb, (trow.value s).toNum = .nan := by
        rintro ⟨s, hs, k⟩
        obtain ⟨b, hb, rfl⟩ := List.mem_map.1 hs
        obtain ⟨q, q1, -⟩ := hq b (List.mem_range.1 hb)
        rw [hval b (List.mem_range.1 hb), q1] at k
        cases k
      rw [if_neg hfields, List.getD_eq_getElem?_getD, hf, Option.getD_some]
      congr 1
      refine Extract.C66_unique hdet' (.inl ⟨i0, j0, by rw [hog.ny, oy]; exact hi0, by rw [hog.nx, ox]; exact hj0,
        by rw [hog.affine]; exact hcin, by rw [hog.mask]; exact homask, ?_⟩) hread
      have hd := hog.data i i0 j0 (by rw [on]; exact hi) (by rw [oy]; exact hi0) (by rw [ox]; exact hj0)
      rw [hv] at hd
      rw [← Except.ok.inj hd]
      exact ((hlen _ (by simp [fieldNames])).2 v (List.mem_of_getElem? hf)).symm
    · push Not at hall
      obtain ⟨b, hb, hmb⟩ := hall
      have hmb' : r.mask (b, i0, j0) = true := by simpa using hmb
      have hnan : (trow.value (name ++ "_" ++ toString (b + 1))).toNum = .nan := by
        refine Extract.C66_unique hdet (hvals b hb) (.inr ⟨fun i' j' _ _ h' => ?_, rfl⟩)
        obtain ⟨rfl, rfl⟩ := huni h'
        rw [hg.mask]
        exact hmb'
      rw [if_pos ⟨_, List.mem_map.2 ⟨b, List.mem_range.2 hb, rfl⟩, hnan⟩]
      congr 1
      refine Extract.C66_unique hdet' (.inr ⟨fun i' j' _ _ h' => ?_, rfl⟩) hread
      rw [hog.affine] at h'
      obtain ⟨rfl, rfl⟩ := huni h'
      rw [hog.mask]
      refine k1.2 ⟨?_, (b, i', j'), List.mem_map.2 ⟨b, List.mem_range.2 hb, rfl⟩, hmb'⟩
      unfold Raster.masked
      rw [Option.isSome_iff_ne_none]
      exact hmn _ hmb'
  · have hnan : (trow.value (name ++ "_" ++ toString (0 + 1))).toNum = .nan := by
      refine Extract.C66_unique hdet (hvals 0 hnb) (.inr ⟨fun i' j' h1 h2 h' => ?_, rfl⟩)
      exact absurd ⟨i', j', by rw [← hg.ny]; exact h1, by rw [← hg.nx]; exact h2, h'⟩ hin
    rw [if_pos ⟨_, List.mem_map.2 ⟨0, List.mem_range.2 hnb, rfl⟩, hnan⟩]
    congr 1
    refine Extract.C66_unique hdet' (.inr ⟨fun i' j' h1 h2 h' => ?_, rfl⟩) hread
    rw [hog.affine] at h'
    exact absurd ⟨i', j', by rw [hog.ny, oy] at h1; exact h1, by rw [hog.nx, ox] at h2; exact h2, h'⟩ hin

/-! ## Concrete cases -/

/-- Two bands of three cells; the second band is null at the first cell. -/
def twoBands : Raster :=
  ⟨f64, 2, 1, 3, fun c => if c = (1, 0, 0) then .fin (-1) else .fin (10 * c.1 + c.2.2), fun c => c = (1, 0, 0), some ⟨f64, .fin (-1)⟩⟩

/-- A raster on a grid of cells of size 1 whose top left corner is (0, 1). -/
def place (r : Raster) : Grid.Raster ℚ Num :=
  ⟨[r.nb], [r.ny], [r.nx], ⟨1, 0, 0, 0, -1, 1⟩, false, fun b y x => r.data (b, y, x), fun b y x => r.mask (b, y, x)⟩

/-- The predictions on the same grid. -/
def placeOut (o : Predicted) : Grid.Raster ℚ Num :=
  ⟨[o.nb], [o.ny], [o.nx], ⟨1, 0, 0, 0, -1, 1⟩, false, fun b y x => (o.value (b, y, x)).toOption.getD .nan, fun b y x => o.mask (b, y, x)⟩

/-- The columns "v_1" and "v_2" as a table in two parts. -/
def tableOf (l1 l2 : List Num) (k : Nat) : PredictVector.Table :=
  let rows := (List.zip l1 l2).map fun p => (⟨0, fun s => if s = "v_1" then .num p.1 else .num p.2⟩ : PredictVector.Row)
  ⟨["v_1", "v_2"], fun _ => true, [rows.take k, rows.drop k]⟩

def samplePoints : List (Geom ℚ) := [.point (1 / 2) (1 / 2), .point (3 / 2) (1 / 2), .point 2 1, .point 7 0]

/-- All hypotheses of `C123_points` with a null cell, two valid cells and a point beside the raster. -/
example : ∃ o, modelPredict (idNumPy true) (fun rows => rows.map List.reverse) (.fin 9) (.fin (-9)) twoBands (2 : Nat) [1] [1, 2] = .ok o ∧
    MaskNeedsNull twoBands ∧ Plain (idNumPy true) id twoBands ∧ (place twoBands).affine.det ≠ 0 ∧ On twoBands (place twoBands) ∧
    Computed o (place twoBands) (placeOut o) ∧
    extractPoints id (place twoBands) samplePoints "v" true 1 =
      .ok (.wide [("v_1", [.fin 0, .fin 1, .fin 2, .nan]), ("v_2", [.nan, .fin 11, .fin 12, .nan])]) ∧
    extractPoints id (placeOut o) samplePoints "w" true 1 =
      .ok (.wide [("w_1", [.nan, .fin 11, .fin 12, .nan]), ("w_2", [.nan, .fin 1, .fin 2, .nan])]) ∧
    Joined [("v_1", [.fin 0, .fin 1, .fin 2, .nan]), ("v_2", [.nan, .fin 11, .fin 12, .nan])] samplePoints.length
      (tableOf [.fin 0, .fin 1, .fin 2, .nan] [.nan, .fin 11, .fin 12, .nan] 3) ∧
    (∀ row : List Num, row.length = twoBands.nb → row.reverse.length = 2 ∧ ∀ v ∈ row.reverse, id v = v) ∧
    (∀ i : Nat, 1 ≤ i → i ≤ 2 → "p" ++ toString i ∉ (tableOf [.fin 0, .fin 1, .fin 2, .nan] [.nan, .fin 11, .fin 12, .nan] 3).names) := by
  refine ⟨_, rfl, ?_, ?_, by decide +kernel, ⟨rfl, rfl, rfl, fun _ _ _ => rfl, fun _ _ _ => rfl⟩, ⟨rfl, rfl, rfl, rfl, ?_, fun _ _ _ => rfl⟩,
    by decide +kernel, by decide +kernel, ⟨rfl, by decide +kernel, ?_⟩,
    fun row h => ⟨by rw [List.length_reverse]; exact h, fun _ _ => rfl⟩, fun i h1 h2 => by interval_cases i <;> decide +kernel⟩
  · intro _ _ h; cases h
  · rintro ⟨b, y, x⟩ - hm
    have hm : ¬ (b, y, x) = (1, 0, 0) := by simpa [twoBands] using hm
    exact ⟨10 * b + x, by simp [twoBands, hm], rfl, rfl⟩
  · intro b y x hb hy hx
    have hb : b < 2 := hb
    have hy : y < 1 := hy
    have hx : x < 3 := hx
    interval_cases b <;> interval_cases y <;> interval_cases x <;> rfl
  · intro col hc p row hrow
    have hp := (List.getElem?_eq_some_iff.1 hrow).1
    have hp : p < 4 := hp
    fin_cases hc <;> interval_cases p <;> cases hrow <;> rfl

/-- **C123 needs valid cells without NaN**: a raster without null value that holds NaN gives a prediction from zero there, and the table
with the NaN read at the same point gives NaN. -/
theorem C123_nan_cells : ∃ (r : Raster) (o : Predicted) (out : PredictVector.Table), r.masked = false ∧ r.data (1, 0, 0) = .nan ∧
    modelPredict (idNumPy true) (fun rows => rows.map List.reverse) (.fin 9) (.fin (-9)) r (2 : Nat) [1] [1] = .ok o ∧
    extractPoints id (place r) [.point (1 / 2) (1 / 2)] "v" true 1 = .ok (.wide [("v_1", [.fin 4]), ("v_2", [.nan])]) ∧
    extractPoints id (placeOut o) [.point (1 / 2) (1 / 2)] "w" true 1 = .ok (.wide [("w_1", [.fin 0]), ("w_2", [.fin 4])]) ∧
    predictVector (fun xs => .ok (.two 2 (xs.map List.reverse))) ["v_1", "v_2"] 2 (some "p") (tableOf [.fin 4] [.nan] 1) = .ok out ∧
    out.parts.flatten.map (fun row => (row.value "p1", row.value "p2")) = [(.num .nan, .num .nan)] := by
  refine ⟨⟨f64, 2, 1, 1, fun c => if c.1 = 0 then .fin 4 else .nan, fun _ => false, none⟩, _, _, rfl, rfl, rfl, ?_, ?_, rfl, ?_⟩ <;>
    decide +kernel

/-- **C123 needs finite cells**: from an infinite value the raster predicts with the largest number of the dtype, the table with infinity. -/
theorem C123_infinite_cells : ∃ (r : Raster) (o : Predicted) (out : PredictVector.Table), r.masked = false ∧ r.data (1, 0, 0) = .posInf ∧
    modelPredict (idNumPy true) (fun rows => rows.map List.reverse) (.fin 9) (.fin (-9)) r (2 : Nat) [1] [1] = .ok o ∧
    extractPoints id (place r) [.point (1 / 2) (1 / 2)] "v" true 1 = .ok (.wide [("v_1", [.fin 4]), ("v_2", [.posInf])]) ∧
    extractPoints id (placeOut o) [.point (1 / 2) (1 / 2)] "w" true 1 = .ok (.wide [("w_1", [.fin 9]), ("w_2", [.fin 4])]) ∧
    predictVector (fun xs => .ok (.two 2 (xs.map List.reverse))) ["v_1", "v_2"] 2 (some "p") (tableOf [.fin 4] [.posInf] 1) = .ok out ∧
    out.parts.flatten.map (fun row => (row.value "p1", row.value "p2")) = [(.num .posInf, .num (.fin 4))] := by
  refine ⟨⟨f64, 2, 1, 1, fun c => if c.1 = 0 then .fin 4 else .posInf, fun _ => false, none⟩, _, _, rfl, rfl, rfl, ?_, ?_, rfl, ?_⟩ <;>
    decide +kernel

end Verif.Trips.Forecasts
