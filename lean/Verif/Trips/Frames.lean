import Verif.Trips.Probes
import Verif.ClipBox.Props

set_option linter.unusedSectionVars false

/-!
# C127: padded and clipped rasters read at points

`extract_points_eager` (`zonal.py:531-630`, C66) after `pad` (C85) and `clip_box` (C104), next to what is read from the raster before.
-/

namespace Verif.Trips.Frames

open Verif Verif.Nulls DType
open Verif.Extract (extractPoints Geom)
open Verif.Grid.Spec (InCell)
open Verif.Nulls.Spec
open Verif.PadBox (Placed Padded Target pad)
open Verif.PadBox.Spec (OnGrid Asks)
open Verif.Bands (Fill)
open Verif.Trips.Forecasts.Spec (On)
open Verif.Trips.Readings (inCell_centre)
open Verif.Trips.Readings.Spec (entry)
open Verif.Trips.Probes (inside outside)
open Verif.Trips.Probes.Spec (Read)

namespace Spec

/-- The coordinates are the centres of the cells of the affine. -/
structure Centres (A : Grid.Affine ℚ) (ys xs : List Rat) : Prop where
  b : A.b = 0
  d : A.d = 0
  ys : ∀ (i : Nat) (y : Rat), ys[i]? = some y → y = A.e * (i + 1 / 2) + A.f
  xs : ∀ (j : Nat) (x : Rat), xs[j]? = some x → x = A.a * (j + 1 / 2) + A.c

/-- The point is in a cell of the rows and columns. -/
def InFrame (A : Grid.Affine ℚ) (ys xs : List Rat) (x y : ℚ) : Prop := ∃ i j : Nat, i < ys.length ∧ j < xs.length ∧ InCell A (x, y) i j

end Spec

open Spec

variable {A B : Grid.Affine ℚ} {ys xs ys' xs' : List Rat}

/-- Cells at the same coordinates are the same part of the plane. -/
theorem same_cell (hA : Centres A ys xs) (hB : Centres B ys' xs') (ha : B.a = A.a) (he : B.e = A.e) {i j i' j' : Nat} {x y : ℚ} {u v : Rat}
    (h1 : ys[i]? = some v) (h2 : xs[j]? = some u) (h3 : ys'[i']? = some v) (h4 : xs'[j']? = some u) :
    InCell B (x, y) i' j' ↔ InCell A (x, y) i j :=
  inCell_centre hA.b hA.d hB.b hB.d ha he ((hB.xs _ _ h4).symm.trans (hA.xs _ _ h2)) ((hB.ys _ _ h3).symm.trans (hA.ys _ _ h1))

theorem det_same (hA : Centres A ys xs) (hB : Centres B ys' xs') (ha : B.a = A.a) (he : B.e = A.e) (h : A.det ≠ 0) : B.det ≠ 0 := by
  have e : B.det = A.det := by
    unfold Grid.Affine.det
    rw [hA.b, hA.d, hB.b, hB.d, ha, he]
  rw [e]
  exact h

theorem lengths {p : Placed} {x0 dx y0 dy : Rat} (h : OnGrid p x0 dx y0 dy) : p.raster.ny = p.ys.length ∧ p.raster.nx = p.xs.length := by
  rw [h.xs, h.ys, PadBox.line_length, PadBox.line_length]
  exact ⟨rfl, rfl⟩

/-- The padded raster has the bands of the raster, and a row and a column for each of its coordinates. -/
theorem pad_shape {np : NumPy} {p : Placed} {t : Target} {fill : Fill} {o : Padded} {x0 dx y0 dy minx miny maxx maxy : Rat}
    (h : OnGrid p x0 dx y0 dy) (hm : MaskNeedsNull p.raster) (ht : Asks p t minx miny maxx maxy) (ho : pad np p t fill = .ok o) :
    o.raster.nb = p.raster.nb ∧ o.raster.ny = o.ys.length ∧ o.raster.nx = o.xs.length := by
  have hf : PadBox.Spec.FillOk p.raster fill := by
    unfold pad at ho
    rw [PadBox.resolve_asks ht] at ho
    unfold PadBox.padTo at ho
    cases fill with
    | unset => trivial
    | scalar s => trivial
    | other => simp [Bands.validateFill] at ho
    | list ss =>
      by_contra hc
      have hc : ¬ ss.length = p.raster.nb := hc
      simp [Bands.validateFill, hc] at ho
  obtain ⟨o', l, r, u, s, ho', hb, -, -⟩ := PadBox.pad_onGrid (np := np) h ht hf
  rw [ho'] at ho
  have ho := Except.ok.inj ho
  subst ho
  obtain ⟨-, h1, h2, h3, -⟩ := Bands.C24_pad hm hb
  simp only [PadBox.line_length] at h2 h3 ⊢
  exact ⟨h1, by omega, by omega⟩

/-- **C127 (pad).** Inside of the raster the padded one reads what the raster reads. In the cells added it reads NaN or the fill value: NaN without a
fill value or if that is the null value. Beside them it reads NaN. -/
theorem C127_pad {np : NumPy} {toF64 : Num → Num} {p : Placed} {t : Target} {fill : Fill} {o : Padded} {x0 dx y0 dy minx miny maxx maxy : Rat}
    (h : OnGrid p x0 dx y0 dy) (hm : MaskNeedsNull p.raster) (ht : Asks p t minx miny maxx maxy) (ho : pad np p t fill = .ok o)
    (hA : Centres A p.ys p.xs) (hB : Centres B o.ys o.xs)
    (ha : B.a = A.a) (he : B.e = A.e) (hdet : A.det ≠ 0) {points : List (Geom ℚ)} {cp co : List (String × List Num)}
    (hp : Read toF64 A points p.raster cp) (hr : Read toF64 B points o.raster co) {b : Nat} (hb : b < p.raster.nb) {n : Nat} {x y : ℚ}
    (hn : points[n]? = some (.point x y)) :
    (InFrame A p.ys p.xs x y → entry co b n = entry cp b n) ∧
    (¬ InFrame A p.ys p.xs x y → InFrame B o.ys o.xs x y →
      ((fill = .unset ∨ ∃ f s, Bands.Spec.fillOf fill b = some f ∧ p.raster.nv = some s ∧ f.val = s.val) → entry co b n = some .nan) ∧
      (∀ f, Bands.Spec.fillOf fill b = some f → (∀ g k, Bands.Spec.fillOf fill k = some g → g.ty = f.ty) →
        np.cast f.ty f.val = f.val → np.cast p.raster.dtype f.val = f.val →
        ¬ (fill = .unset ∨ ∃ f s, Bands.Spec.fillOf fill b = some f ∧ p.raster.nv = some s ∧ f.val = s.val) →
        entry co b n = some (toF64 f.val))) ∧
    (¬ InFrame B o.ys o.xs x y → entry co b n = some .nan) := by
  have hdet' := det_same hA hB ha he hdet
  obtain ⟨c1, c2, c3, c4⟩ := PadBox.C85_cells h hm ht ho
  obtain ⟨hpy, hpx⟩ := lengths h
  obtain ⟨hnb, hoy, hox⟩ := pad_shape h hm ht ho
  refine ⟨?_, ?_, ?_⟩
  · rintro ⟨i, j, hi, hj, hc⟩
    obtain ⟨i', hi', ei⟩ := List.getElem_of_mem (c2 _ (List.getElem_mem hi))
    obtain ⟨j', hj', ej⟩ := List.getElem_of_mem (c3 _ (List.getElem_mem hj))
    have g1 : p.ys[i]? = some p.ys[i] := List.getElem?_eq_getElem hi
    have g2 : p.xs[j]? = some p.xs[j] := List.getElem?_eq_getElem hj
    have g3 : o.ys[i']? = some p.ys[i] := by rw [List.getElem?_eq_getElem hi', ei]
    have g4 : o.xs[j']? = some p.xs[j] := by rw [List.getElem?_eq_getElem hj', ej]
    obtain ⟨d1, d2⟩ := c1 i j i' j' _ _ g1 g2 g3 g4 b
    rw [inside hdet hp hb hn (by rw [hpy]; exact hi) (by rw [hpx]; exact hj) hc,
      inside hdet' hr (by rw [hnb]; exact hb) hn (by rw [hoy]; exact hi') (by rw [hox]; exact hj')
        ((same_cell hA hB ha he g1 g2 g3 g4).2 hc), d1, d2]
  · rintro hno ⟨i', j', hi', hj', hc⟩
    have g3 : o.ys[i']? = some o.ys[i'] := List.getElem?_eq_getElem hi'
    have g4 : o.xs[j']? = some o.xs[j'] := List.getElem?_eq_getElem hj'
    have hnew : o.ys[i'] ∉ p.ys ∨ o.xs[j'] ∉ p.xs := by
      by_contra hcon
      push Not at hcon
      obtain ⟨i, hi, ei⟩ := List.getElem_of_mem hcon.1
      obtain ⟨j, hj, ej⟩ := List.getElem_of_mem hcon.2
      refine hno ⟨i, j, hi, hj, (same_cell hA hB ha he ?_ ?_ g3 g4).1 hc⟩
      · rw [List.getElem?_eq_getElem hi, ei]
      · rw [List.getElem?_eq_getElem hj, ej]
    obtain ⟨d1, d2⟩ := c4 i' j' _ _ g3 g4 hnew b hb
    rw [inside hdet' hr (by rw [hnb]; exact hb) hn (by rw [hoy]; exact hi') (by rw [hox]; exact hj') hc]
    refine ⟨fun hf => ?_, fun f hf k1 k2 k3 hfree => ?_⟩
    · rw [if_pos (d1.2 hf)]
    · rw [if_neg (fun hx => hfree (d1.1 hx)), d2 f hf k1 k2 k3]
  · intro hno
    refine outside hdet' hr (by rw [hnb]; exact hb) hn ?_
    rintro ⟨i, j, hi, hj, hc⟩
    rw [hoy] at hi
    rw [hox] at hj
    exact hno ⟨i, j, hi, hj, hc⟩

/-- **C127 (clip_box).** In the cells that meet the box the clipped raster reads what the raster reads, elsewhere NaN. -/
theorem C127_clip_box {G : Type} {toF64 : Num → Num} (place : Clip.Place G) (expand : Placed → List Rat → Option Clip.Window) {p o : Placed}
    {x0 dx y0 dy minx miny maxx maxy : Rat} (h : OnGrid p x0 dx y0 dy) (hm : MaskNeedsNull p.raster)
    (hx : 2 ≤ (ClipBox.Spec.meeting dx minx maxx p.xs).length) (hy : 2 ≤ (ClipBox.Spec.meeting dy miny maxy p.ys).length)
    (ho : ClipBox.clipBox place expand p [minx, miny, maxx, maxy] = .ok o)
    (hA : Centres A p.ys p.xs) (hB : Centres B o.ys o.xs) (ha : B.a = A.a) (he : B.e = A.e) (hdet : A.det ≠ 0) {points : List (Geom ℚ)}
    {cp co : List (String × List Num)} (hp : Read toF64 A points p.raster cp) (hr : Read toF64 B points o.raster co) {b : Nat}
    (hb : b < p.raster.nb) {n : Nat} {x y : ℚ} (hn : points[n]? = some (.point x y)) :
    (∀ i j : Nat, ∀ u v : Rat, p.ys[i]? = some v → p.xs[j]? = some u → InCell A (x, y) i j →
      ClipBox.Spec.Meets dx minx maxx u → ClipBox.Spec.Meets dy miny maxy v → entry co b n = entry cp b n) ∧
    ((¬ ∃ i j : Nat, ∃ u v : Rat, p.ys[i]? = some v ∧ p.xs[j]? = some u ∧ InCell A (x, y) i j ∧
      ClipBox.Spec.Meets dx minx maxx u ∧ ClipBox.Spec.Meets dy miny maxy v) → entry co b n = some .nan) := by
  have hdet' := det_same hA hB ha he hdet
  obtain ⟨o', ho', exs, eys, hox, hoy, hnb, -, -, -, -, c1⟩ := ClipBox.C104_clip_box place expand h hm hx hy
  rw [ho] at ho'
  cases ho'
  obtain ⟨hpy, hpx⟩ := lengths h
  have mx : ∀ u, u ∈ o.xs ↔ u ∈ p.xs ∧ ClipBox.Spec.Meets dx minx maxx u := by
    intro u
    rw [exs, ClipBox.Spec.meeting, List.mem_filter, decide_eq_true_iff]
  have my : ∀ v, v ∈ o.ys ↔ v ∈ p.ys ∧ ClipBox.Spec.Meets dy miny maxy v := by
    intro v
    rw [eys, ClipBox.Spec.meeting, List.mem_filter, decide_eq_true_iff]
  constructor
  · intro i j u v g1 g2 hc hu hv
    obtain ⟨i', hi', ei⟩ := List.getElem_of_mem ((my v).2 ⟨List.mem_of_getElem? g1, hv⟩)
    obtain ⟨j', hj', ej⟩ := List.getElem_of_mem ((mx u).2 ⟨List.mem_of_getElem? g2, hu⟩)
    have g3 : o.ys[i']? = some v := by rw [List.getElem?_eq_getElem hi', ei]
    have g4 : o.xs[j']? = some u := by rw [List.getElem?_eq_getElem hj', ej]
    obtain ⟨d1, d2⟩ := c1 i j i' j' _ _ g1 g2 g3 g4 b
    rw [inside hdet hp hb hn (by rw [hpy]; exact (List.getElem?_eq_some_iff.1 g1).1) (by rw [hpx]; exact (List.getElem?_eq_some_iff.1 g2).1) hc,
      inside hdet' hr (by rw [hnb]; exact hb) hn (by rw [hoy]; exact hi') (by rw [hox]; exact hj')
        ((same_cell hA hB ha he g1 g2 g3 g4).2 hc), d1, d2]
  · intro hno
    refine outside hdet' hr (by rw [hnb]; exact hb) hn ?_
    rintro ⟨i', j', hi', hj', hc⟩
    rw [hoy] at hi'
    rw [hox] at hj'
    have g3 : o.ys[i']? = some o.ys[i'] := List.getElem?_eq_getElem hi'
    have g4 : o.xs[j']? = some o.xs[j'] := List.getElem?_eq_getElem hj'
    obtain ⟨m1, m2⟩ := (my _).1 (List.getElem_mem hi')
    obtain ⟨m3, m4⟩ := (mx _).1 (List.getElem_mem hj')
    obtain ⟨i, hi, ei⟩ := List.getElem_of_mem m1
    obtain ⟨j, hj, ej⟩ := List.getElem_of_mem m3
    have g1 : p.ys[i]? = some o.ys[i'] := by rw [List.getElem?_eq_getElem hi, ei]
    have g2 : p.xs[j]? = some o.xs[j'] := by rw [List.getElem?_eq_getElem hj, ej]
    exact hno ⟨i, j, _, _, g1, g2, (same_cell hA hB ha he g1 g2 g3 g4).1 hc, m4, m2⟩

/-- Points in the cells of `small`, in the cells added, and beside both. -/
def framePoints : List (Geom ℚ) := [.point (3 / 2) 3, .point (9 / 2) 3, .point 50 3]

/-- A raster on cells with the corner, size 1 and 2. -/
def onSmall (A : Grid.Affine ℚ) (r : Raster) : Grid.Raster ℚ Num :=
  ⟨[r.nb], [r.ny], [r.nx], A, false, fun b y x => r.data (b, y, x), fun b y x => r.mask (b, y, x)⟩

theorem read_onSmall {A : Grid.Affine ℚ} {points : List (Geom ℚ)} {r : Raster} {cols : List (String × List Num)}
    (h : extractPoints id (onSmall A r) points "v" true 1 = .ok (.wide cols)) : Read id A points r cols := by
  refine ⟨onSmall A r, "v", true, 1, by decide, rfl, ⟨?_, ?_, ?_, fun _ _ _ => rfl, fun _ _ _ => rfl⟩, h⟩ <;>
    simp [onSmall, Grid.Raster.nb, Grid.Raster.ny, Grid.Raster.nx]

/-- Coordinates that are listed are checked one by one. -/
theorem centres_of {A : Grid.Affine ℚ} {ys xs : List Rat} (hb : A.b = 0) (hd : A.d = 0)
    (hy : ys = (List.range ys.length).map fun (i : Nat) => A.e * (i + 1 / 2) + A.f)
    (hx : xs = (List.range xs.length).map fun (j : Nat) => A.a * (j + 1 / 2) + A.c) : Centres A ys xs := by
  refine ⟨hb, hd, fun i y h => ?_, fun j x h => ?_⟩
  · have hi := (List.getElem?_eq_some_iff.1 h).1
    rw [hy, List.getElem?_map, List.getElem?_range hi] at h
    exact (Option.some.inj h).symm
  · have hj := (List.getElem?_eq_some_iff.1 h).1
    rw [hx, List.getElem?_map, List.getElem?_range hj] at h
    exact (Option.some.inj h).symm

/-- Padding with 9 by one column in the west, two in the east and one row in the north. -/
example : ∃ o, pad (idNumPy false) PadBox.small (.seq [.num (-1), .num 0, .num 5, .num 6]) (.scalar ⟨.i64, .fin 9⟩) = .ok o ∧
    OnGrid PadBox.small (1 / 2) 1 3 2 ∧ MaskNeedsNull PadBox.small.raster ∧
    Asks PadBox.small (.seq [.num (-1), .num 0, .num 5, .num 6]) (-1) 0 5 6 ∧
    Centres ⟨1, 0, 0, 0, -2, 4⟩ PadBox.small.ys PadBox.small.xs ∧ Centres ⟨1, 0, -1, 0, -2, 6⟩ o.ys o.xs ∧
    Read id ⟨1, 0, 0, 0, -2, 4⟩ framePoints PadBox.small.raster [("v_1", [.fin 1, .nan, .nan])] ∧
    Read id ⟨1, 0, -1, 0, -2, 6⟩ framePoints o.raster [("v_1", [.fin 1, .fin 9, .nan])] := by
  have hc : (match pad (idNumPy false) PadBox.small (.seq [.num (-1), .num 0, .num 5, .num 6]) (.scalar ⟨.i64, .fin 9⟩) with
      | .error _ => false
      | .ok o => decide (o.ys = [5, 3, 1]) &&
        decide (o.xs = [-1 / 2, 1 / 2, 3 / 2, 5 / 2, 7 / 2, 9 / 2]) &&
        decide (extractPoints id (onSmall ⟨1, 0, -1, 0, -2, 6⟩ o.raster) framePoints "v" true 1 =
          .ok (.wide [("v_1", [.fin 1, .fin 9, .nan])]))) = true := by decide +kernel
  split at hc
  · cases hc
  · rename_i o ho
    simp only [Bool.and_eq_true, decide_eq_true_eq] at hc
    obtain ⟨⟨h4, h5⟩, h6⟩ := hc
    refine ⟨o, ho, PadBox.small_onGrid, fun c h => by simp [PadBox.small] at *, .numbers _ _ _ _,
      centres_of rfl rfl (by decide +kernel) (by decide +kernel), ?_, read_onSmall (by decide +kernel), read_onSmall h6⟩
    rw [h4, h5]
    exact centres_of rfl rfl (by decide +kernel) (by decide +kernel)

/-- Points in a valid cell in the box, in a null cell in the box, and in a cell beside the box. -/
def tilePoints : List (Geom ℚ) := [.point 5 (3 / 2), .point 3 (3 / 2), .point 1 (5 / 2)]

example (place : Clip.Place Nat) : ∃ o, ClipBox.clipBox place (fun _ _ => none) ClipBox.tile [5 / 2, 1 / 4, 6, 3 / 2] = .ok o ∧
    OnGrid ClipBox.tile 1 2 (5 / 2) 1 ∧ MaskNeedsNull ClipBox.tile.raster ∧ 2 ≤ (ClipBox.Spec.meeting 2 (5 / 2) 6 ClipBox.tile.xs).length ∧
    2 ≤ (ClipBox.Spec.meeting 1 (1 / 4) (3 / 2) ClipBox.tile.ys).length ∧
    Centres ⟨2, 0, 0, 0, -1, 3⟩ ClipBox.tile.ys ClipBox.tile.xs ∧ Centres ⟨2, 0, 2, 0, -1, 2⟩ o.ys o.xs ∧
    Read id ⟨2, 0, 0, 0, -1, 3⟩ tilePoints ClipBox.tile.raster [("v_1", [.fin 6, .nan, .fin 0])] := by
  have hx : ClipBox.Spec.meeting 2 (5 / 2) 6 ClipBox.tile.xs = [3, 5] := by decide +kernel
  have hy : ClipBox.Spec.meeting 1 (1 / 4) (3 / 2) ClipBox.tile.ys = [3 / 2, 1 / 2] := by decide +kernel
  obtain ⟨o, ho, exs, eys, -⟩ := ClipBox.C104_clip_box place (fun _ _ => none) ClipBox.tile_onGrid (fun c _ h => (nomatch h))
    (by rw [hx]; decide) (by rw [hy]; decide)
  refine ⟨o, ho, ClipBox.tile_onGrid, fun c _ h => (nomatch h), by rw [hx]; decide, by rw [hy]; decide,
    centres_of rfl rfl (by decide +kernel) (by decide +kernel), ?_, read_onSmall (by decide +kernel)⟩
  rw [exs, eys, hx, hy]
  exact centres_of rfl rfl (by decide +kernel) (by decide +kernel)

end Verif.Trips.Frames
