import Verif.Extract.Model
import Verif.Grid.Props

/-! # C66: values at points -/

set_option linter.unusedSectionVars false

namespace Verif.Extract

open Verif Verif.Grid Verif.Nulls

variable {K : Type} [Field K] [LinearOrder K] [IsStrictOrderedRing K] [FloorRing K] {V : Type}

namespace Spec

/-- What is read at a point of a band: the value of the cell that contains the point, as a double, if there is one and it is not
null, and NaN otherwise. -/
def Reads (toF64 : Num → Num) (r : Grid.Raster K Num) (band : Nat) (x y : K) (v : Num) : Prop :=
  (∃ row col : Nat, row < r.ny ∧ col < r.nx ∧ Grid.Spec.InCell r.affine (x, y) row col ∧
    r.mask band row col = false ∧ v = toF64 (r.data band row col)) ∨
  ((∀ row col : Nat, row < r.ny → col < r.nx → Grid.Spec.InCell r.affine (x, y) row col → r.mask band row col = true) ∧
    v = .nan)

end Spec

theorem assign_select {W : Type} (p : V → Bool) (f : V → W) (d : W) : ∀ l : List V,
    assign (l.map p) (List.replicate l.length d) ((select (l.map p) l).map f) = l.map fun x => if p x then f x else d
  | [] => rfl
  | x :: l => by
    have ih := assign_select p f d l
    cases hp : p x
    · simp only [List.map_cons, hp, List.length_cons, List.replicate_succ, select, assign, Bool.false_eq_true, if_false, ih]
    · simp only [List.map_cons, hp, List.length_cons, List.replicate_succ, select, assign, if_true, ih]

/-- What is read at a row and column. -/
def readAt (toF64 : Num → Num) (r : Grid.Raster K Num) (band : Nat) (rc : Int × Int) : Num :=
  if inside r rc then (if r.mask band rc.1.toNat rc.2.toNat then .nan else toF64 (r.data band rc.1.toNat rc.2.toNat)) else .nan

theorem extractBand_eq (toF64 : Num → Num) (r : Grid.Raster K Num) (rcs : List (Int × Int)) (band : Nat) :
    extractBand toF64 r rcs band = rcs.map (readAt toF64 r band) := by
  unfold extractBand
  simp only
  rw [assign_select, assign_select, List.zipWith_map, List.zipWith_self]
  apply List.map_congr_left
  intro rc _
  unfold readAt
  cases inside r rc <;> simp

theorem readAt_reads (toF64 : Num → Num) (r : Grid.Raster K Num) (h : r.affine.det ≠ 0) (band : Nat) (x y : K) :
    Spec.Reads toF64 r band x y (readAt toF64 r band (xyToRowcol x y r.affine)) := by
  obtain ⟨row, col, hrc⟩ : ∃ row col, xyToRowcol x y r.affine = (row, col) := ⟨_, _, rfl⟩
  have hcell := (C20_unique_cell r.affine h x y row col).1 hrc
  rw [hrc]
  unfold readAt
  cases hin : inside r (row, col)
  · refine .inr ⟨fun row' col' hr hc hm => ?_, by simp⟩
    have := (C20_unique_cell r.affine h x y row' col').2 hm
    rw [hrc] at this
    simp only [Prod.mk.injEq] at this
    obtain ⟨rfl, rfl⟩ := this
    simp [inside] at hin
    omega
  · simp only [inside, Bool.and_eq_true, decide_eq_true_eq] at hin
    obtain ⟨⟨⟨h1, h2⟩, h3⟩, h4⟩ := hin
    obtain ⟨a, rfl⟩ := Int.eq_ofNat_of_zero_le h1
    obtain ⟨b, rfl⟩ := Int.eq_ofNat_of_zero_le h3
    simp only [Int.toNat_natCast, if_true]
    cases hm : r.mask band a b
    · refine .inl ⟨a, b, by omega, by omega, hcell, hm, by simp⟩
    · refine .inr ⟨fun row' col' hr hc hm' => ?_, by simp⟩
      have := (C20_unique_cell r.affine h x y row' col').2 hm'
      rw [hrc] at this
      simp only [Prod.mk.injEq, Nat.cast_inj] at this
      obtain ⟨rfl, rfl⟩ := this
      exact hm

theorem coords_ok : ∀ {gs : List (Geom K)} {ps : List (K × K)}, coords gs = .ok ps →
    gs = ps.map fun p => .point p.1 p.2
  | [], ps, h => by cases h; rfl
  | .other :: _, ps, h => by cases h
  | .point x y :: gs, ps, h => by
    unfold coords at h
    split at h
    · cases h
    · next l hl =>
      cases h
      rw [coords_ok hl, List.map_cons]

theorem coords_accepted : ∀ gs : List (Geom K), (∃ ps, coords gs = .ok ps) ↔ ∀ g ∈ gs, ∃ x y, g = .point x y
  | [] => by simp [coords]
  | .other :: gs => by simp [coords]
  | .point x y :: gs => by
    have ih := coords_accepted gs
    unfold coords
    cases hc : coords gs with
    | error e => rw [hc] at ih; simpa using ih
    | ok l => rw [hc] at ih; simpa using ih

/-- **C66 (accepted).** A name and points only are needed, and enough. -/
theorem C66_accepted (toF64 : Num → Num) (r : Grid.Raster K Num) (points : List (Geom K)) (name : String)
    (skip : Bool) (axis : Int) :
    (∃ t, extractPoints toF64 r points name skip axis = .ok t) ↔ name ≠ "" ∧ ∀ g ∈ points, ∃ x y, g = .point x y := by
  have hall : points.all Geom.isPoint = true ↔ ∀ g ∈ points, ∃ x y, g = .point x y := by
    rw [List.all_eq_true]
    constructor <;> intro h g hg
    · have := h g hg
      cases g with
      | point x y => exact ⟨x, y, rfl⟩
      | other => simp [Geom.isPoint] at this
    · obtain ⟨x, y, rfl⟩ := h g hg
      rfl
  rw [← coords_accepted] at hall ⊢
  unfold extractPoints
  by_cases hn : name = ""
  · simp [hn]
  · rw [if_neg hn]
    by_cases hp : points.all Geom.isPoint = true
    · obtain ⟨ps, hps⟩ := hall.1 hp
      simp [hp, hps, hn]
    · have : ∀ ps, coords points ≠ .ok ps := fun ps h => hp (hall.2 ⟨ps, h⟩)
      cases hc : coords points with
      | ok ps => exact absurd hc (this ps)
      | error e => cases skip <;> simp [hp]

/-- **C66 (not points).** With validation, other geometries are a TypeError. -/
theorem C66_refused (toF64 : Num → Num) (r : Grid.Raster K Num) (points : List (Geom K)) (name : String) (axis : Int)
    (hn : name ≠ "") (h : .other ∈ points) : extractPoints toF64 r points name false axis = .error .type := by
  unfold extractPoints
  rw [if_neg hn, if_pos]
  simp only [Bool.not_false, Bool.true_and, Bool.not_eq_true', List.all_eq_false]
  exact ⟨_, h, by simp [Geom.isPoint]⟩

theorem coords_error {e : Err} : ∀ {l : List (Geom K)}, coords l = .error e → e = .value
  | [], h => by cases h
  | .other :: _, h => (Except.error.inj h).symm
  | .point x y :: gs, h => by
    simp only [coords] at h
    cases h1 : coords gs with
    | error e1 =>
      rw [h1] at h
      cases h
      exact coords_error h1
    | ok l => rw [h1] at h; cases h

/-- **C66 (errors).** An empty name is a ValueError; other geometries are a TypeError, or a ValueError if validation is skipped. -/
theorem C66_errors {toF64 : Num → Num} {r : Grid.Raster K Num} {points : List (Geom K)} {name : String} {skip : Bool} {axis : Int}
    {e : Err} (h : extractPoints toF64 r points name skip axis = .error e) :
    name = "" ∧ e = .value ∨ name ≠ "" ∧ skip = true ∧ e = .value ∨ name ≠ "" ∧ skip = false ∧ e = .type := by
  unfold extractPoints at h
  split at h
  · next hn => exact .inl ⟨hn, (Except.error.inj h).symm⟩
  next hn =>
  split at h
  · next hs =>
    simp only [Bool.and_eq_true, Bool.not_eq_true'] at hs
    exact .inr (.inr ⟨hn, hs.1, (Except.error.inj h).symm⟩)
  · next hs =>
    cases h1 : coords points with
    | error e1 =>
      rw [h1] at h
      cases h
      cases skip with
      | true => exact .inr (.inl ⟨hn, rfl, coords_error h1⟩)
      | false =>
        exfalso
        simp only [Bool.not_false, Bool.true_and, Bool.not_eq_true', Bool.not_eq_false] at hs
        obtain ⟨ps, hps⟩ := (coords_accepted points).2 fun g hg => by
          have := List.all_eq_true.1 hs g hg
          cases g with
          | point x y => exact ⟨x, y, rfl⟩
          | other => simp [Geom.isPoint] at this
        rw [h1] at hps
        cases hps
    | ok l => rw [h1] at h; cases h

theorem extractPoints_ok {toF64 : Num → Num} {r : Grid.Raster K Num} {points : List (Geom K)} {name : String} {skip : Bool}
    {axis : Int} {t : Table} (h : extractPoints toF64 r points name skip axis = .ok t) :
    ∃ ps : List (K × K), points = ps.map (fun p => .point p.1 p.2) ∧
      t = assemble toF64 r name axis (ps.map fun p => xyToRowcol p.1 p.2 r.affine) := by
  unfold extractPoints at h
  split at h
  · cases h
  · split at h
    · cases h
    · split at h
      · cases h
      · next ps hps =>
        cases h
        exact ⟨ps, coords_ok hps, rfl⟩

/-- Blocks of equal length one after the other. -/
theorem flatMap_range_getElem? {W : Type} (f : Nat → List W) (n : Nat) (hf : ∀ i, (f i).length = n) :
    ∀ m, ((List.range m).flatMap f).length = n * m ∧
      ∀ i < m, ∀ p < n, ((List.range m).flatMap f)[n * i + p]? = (f i)[p]?
  | 0 => by simp
  | m + 1 => by
    obtain ⟨hl, ih⟩ := flatMap_range_getElem? f n hf m
    rw [List.range_succ, List.flatMap_append, List.flatMap_singleton]
    refine ⟨by rw [List.length_append, hl, hf, Nat.mul_succ], fun i hi p hp => ?_⟩
    by_cases him : i < m
    · rw [List.getElem?_append_left, ih i him p hp]
      rw [hl]
      calc n * i + p < n * i + n := by omega
        _ = n * (i + 1) := (Nat.mul_succ n i).symm
        _ ≤ n * m := Nat.mul_le_mul_left n him
    · obtain rfl : i = m := by omega
      rw [List.getElem?_append_right (by rw [hl]; omega), hl]
      congr 1
      omega

/-- **C66 (rows).** With `axis=0` the result has one row for every band and point, the points of the first band first, numbered
from 0, with the band and what is read at the point. -/
theorem C66_rows {toF64 : Num → Num} {r : Grid.Raster K Num} (hdet : r.affine.det ≠ 0) {points : List (Geom K)} {name : String}
    {skip : Bool} {t : Table} (h : extractPoints toF64 r points name skip 0 = .ok t) :
    ∃ rows, t = .long rows ∧ rows.length = points.length * r.nb ∧
      ∀ band < r.nb, ∀ (p : Nat) (x y : K), points[p]? = some (.point x y) →
        ∃ v, rows[points.length * band + p]? = some ⟨points.length * band + p, band + 1, v⟩ ∧
          Spec.Reads toF64 r band x y v := by
  obtain ⟨ps, rfl, rfl⟩ := extractPoints_ok h
  refine ⟨_, by unfold assemble; rw [if_pos rfl], ?_⟩
  have hf : ∀ i, ((extractBand toF64 r (ps.map fun p => xyToRowcol p.1 p.2 r.affine) i).mapIdx fun p v =>
      (⟨(ps.map fun p => xyToRowcol p.1 p.2 r.affine).length * i + p, i + 1, v⟩ : Row)).length = ps.length := by
    intro i
    rw [List.length_mapIdx, extractBand_eq, List.length_map, List.length_map]
  obtain ⟨hl, hg⟩ := flatMap_range_getElem? _ ps.length hf r.nb
  have hlen : (ps.map fun p => (Geom.point p.1 p.2 : Geom K)).length = ps.length := List.length_map _
  rw [hlen]
  refine ⟨hl, fun band hb p x y hp => ?_⟩
  rw [List.getElem?_map, Option.map_eq_some_iff] at hp
  obtain ⟨⟨x', y'⟩, hp, e⟩ := hp
  simp only [Geom.point.injEq] at e
  obtain ⟨rfl, rfl⟩ := e
  have hlt : p < ps.length := by
    rcases List.getElem?_eq_some_iff.1 hp with ⟨h, -⟩
    exact h
  refine ⟨readAt toF64 r band (xyToRowcol x' y' r.affine), ?_, readAt_reads toF64 r hdet band x' y'⟩
  rw [hg band hb p hlt, List.getElem?_mapIdx, extractBand_eq, List.getElem?_map, List.getElem?_map, hp]
  simp

/-- **C66 (columns).** With another axis the result has one column for every band, named after it, with what is read at each
point. -/
theorem C66_columns {toF64 : Num → Num} {r : Grid.Raster K Num} (hdet : r.affine.det ≠ 0) {points : List (Geom K)}
    {name : String} {skip : Bool} {axis : Int} (ha : axis ≠ 0) {t : Table}
    (h : extractPoints toF64 r points name skip axis = .ok t) :
    ∃ cols, t = .wide cols ∧ cols.length = r.nb ∧
      ∀ band < r.nb, ∃ vs, cols[band]? = some (name ++ "_" ++ toString (band + 1), vs) ∧ vs.length = points.length ∧
        ∀ (p : Nat) (x y : K), points[p]? = some (.point x y) → ∃ v, vs[p]? = some v ∧ Spec.Reads toF64 r band x y v := by
  obtain ⟨ps, rfl, rfl⟩ := extractPoints_ok h
  refine ⟨_, by unfold assemble; rw [if_neg ha], by simp, fun band hb => ?_⟩
  refine ⟨extractBand toF64 r (ps.map fun p => xyToRowcol p.1 p.2 r.affine) band, ?_, ?_, ?_⟩
  · rw [List.getElem?_map, List.getElem?_range hb]
    rfl
  · rw [extractBand_eq, List.length_map, List.length_map, List.length_map]
  · intro p x y hp
    rw [List.getElem?_map, Option.map_eq_some_iff] at hp
    obtain ⟨⟨x', y'⟩, hp, e⟩ := hp
    simp only [Geom.point.injEq] at e
    obtain ⟨rfl, rfl⟩ := e
    refine ⟨readAt toF64 r band (xyToRowcol x' y' r.affine), ?_, readAt_reads toF64 r hdet band x' y'⟩
    rw [extractBand_eq, List.getElem?_map, List.getElem?_map, hp]
    rfl

/-- What is read at a point is unique. -/
theorem C66_unique {toF64 : Num → Num} {r : Grid.Raster K Num} (hdet : r.affine.det ≠ 0) {band : Nat} {x y : K} {v w : Num}
    (hv : Spec.Reads toF64 r band x y v) (hw : Spec.Reads toF64 r band x y w) : v = w := by
  have uniq : ∀ {row col row' col' : Nat}, Grid.Spec.InCell r.affine (x, y) row col →
      Grid.Spec.InCell r.affine (x, y) row' col' → row = row' ∧ col = col' := by
    intro row col row' col' h h'
    have e := ((C20_unique_cell r.affine hdet x y row col).2 h).symm.trans ((C20_unique_cell r.affine hdet x y row' col').2 h')
    simpa using e
  rcases hv with ⟨i, j, hi, hj, hc, hm, rfl⟩ | ⟨hn, rfl⟩ <;> rcases hw with ⟨i', j', hi', hj', hc', hm', rfl⟩ | ⟨hn', rfl⟩
  · obtain ⟨rfl, rfl⟩ := uniq hc hc'; rfl
  · rw [hn' i j hi hj hc] at hm; cases hm
  · rw [hn i' j' hi' hj' hc'] at hm'; cases hm'
  · rfl

/-- **C66 (back and forth).** Reading a raster at the points of `to_points` gives the values of the points back. -/
theorem C66_to_points {toF64 : Num → Num} {r : Grid.Raster K Num} (hb : r.affine.b = 0) (hd : r.affine.d = 0)
    (ha : r.affine.a ≠ 0) (he : r.affine.e ≠ 0) (hg : r.geographic = false) {l : List (Point K Num)}
    (h : toPoints r = some l) {p : Point K Num} (hp : p ∈ l) :
    ∃ band : Nat, p.band = band + 1 ∧ Spec.Reads toF64 r band p.px p.py (toF64 p.value) := by
  obtain ⟨l', h', -, hl⟩ := C22_points hb hd ha he hg
  rw [h] at h'
  cases h'
  obtain ⟨c, ⟨c1, c2, c3, c4⟩, rfl⟩ := (hl p).1 hp
  refine ⟨c.1, rfl, .inl ⟨c.2.1, c.2.2, c2, c3, ?_, c4, rfl⟩⟩
  refine ⟨1 / 2, 1 / 2, by norm_num, by norm_num, by norm_num, by norm_num, ?_, ?_⟩
  · simp only [Grid.Spec.pointOf, hb, zero_mul, add_zero]
    push_cast
    ring
  · simp only [Grid.Spec.pointOf, hd, zero_mul, zero_add]
    push_cast
    ring

/-! ### Examples -/

/-- One band of 2 x 2 cells of size 1, the lower right one null. -/
def sample : Grid.Raster ℚ Num :=
  ⟨[1], [2], [2], ⟨1, 0, 0, 0, -1, 2⟩, false, fun _ y x => .fin (10 * y + x : Nat), fun _ y x => decide (y = 1 ∧ x = 1)⟩

example : extractPoints id sample [.point 0 2, .point (3 / 2) (3 / 2), .point (3 / 2) (1 / 2), .point 5 1, .point 1 1] "v" true 0 =
    .ok (.long [⟨0, 1, .fin 0⟩, ⟨1, 1, .fin 1⟩, ⟨2, 1, .nan⟩, ⟨3, 1, .nan⟩, ⟨4, 1, .nan⟩]) := by decide +kernel

example : extractPoints id sample [.point 0 2, .point (-1) 1, .point 0 1] "v" true 1 =
    .ok (.wide [("v_1", [.fin 0, .nan, .fin 10])]) := by decide +kernel

example : sample.affine.det ≠ 0 := by decide +kernel

end Verif.Extract
