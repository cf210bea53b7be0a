import Verif.Regions.Props
import Verif.ZonalTable.Props

set_option linter.unusedSectionVars false

/-!
# C92: zonal statistics of regions

`regions` (`general.py:108-175`, C28) and `zonal_stats` (`zonal.py:222-518`, C76) after each other: `zonal_stats(regions(r), r, stats)`.
-/

namespace Verif.Trips

open Verif Verif.Nulls DType
open Verif.Regions (Labeler Pos regions)
open Verif.Regions.Spec (InGrid Connected IsLabeler)
open Verif.ZonalTable (Located Line onRaster zonalTable statFuncs)
open Verif.ZonalTable.Spec (wanted Unordered zoneColumn)
open Verif.Zonal.Spec (Consistent allCells)

variable {τ : Type}

namespace Spec

/-- The cell belongs to a patch: it is not null and its value is one of those wanted, not 0 and not NaN. -/
def InPatch (r : Raster) (values : Option (List Num)) (p : Pos) : Prop :=
  InGrid r.ny r.nx p ∧ r.mask (0, p) = false ∧ r.data (0, p) ≠ .fin 0 ∧ r.data (0, p) ≠ .nan ∧
    ∀ us, values = some us → r.data (0, p) ∈ us

/-- The cells of the patch of `p`: connected to it by cells of the same value. -/
def SamePatch (r : Raster) (n : Nat) (p q : Pos) : Prop :=
  InGrid r.ny r.nx q ∧ Connected n r.ny r.nx (fun s => r.mask (0, s) = false ∧ r.data (0, s) = r.data (0, p)) p q

/-- The value of a patch as float64. -/
def value64 (np : NumPy) (r : Raster) (p : Pos) : Num :=
  if r.dtype = f64 then r.data (0, p) else np.cast f64 (r.data (0, p))

end Spec

open Spec

/-- The column of a zone as a list of cells. -/
theorem zoneColumn_cells (np : NumPy) (features data : Raster) (b : Nat) (z : Num) : zoneColumn np features data b z =
    ((allCells data.ny data.nx).filter fun q => decide (features.mask (0, q) = false ∧ features.data (0, q) = z)).map fun q =>
      if data.mask (b, q) = true then .nan else if data.dtype = f64 then data.data (b, q) else np.cast f64 (data.data (b, q)) := by
  unfold zoneColumn allCells
  induction List.range data.ny with
  | nil => rfl
  | cons y l ih =>
    rw [List.flatMap_cons, List.flatMap_cons, List.filter_append, List.map_append, ih]
    congr 1
    induction List.range data.nx with
    | nil => rfl
    | cons x m ihx =>
      by_cases h : features.mask (0, y, x) = false ∧ features.data (0, y, x) = z
      · rw [List.filterMap_cons, if_pos h, ihx, List.map_cons, List.filter_cons_of_pos (by simpa using h), List.map_cons]
      · rw [List.filterMap_cons, if_neg h, ihx, List.map_cons, List.filter_cons_of_neg (by simpa using h)]

theorem allCells_nodup (ny nx : Nat) : (allCells ny nx).Nodup := by
  unfold allCells
  rw [List.nodup_flatMap]
  refine ⟨fun y _ => List.nodup_range.map fun a b h => (Prod.mk.inj h).2, ?_⟩
  refine List.nodup_range.imp ?_
  intro a b hab
  simp only [Function.onFun, List.disjoint_left, List.mem_map]
  rintro p ⟨x, _, rfl⟩ ⟨x', _, h⟩
  exact hab (Prod.mk.inj h).1.symm

theorem mem_allCells {ny nx : Nat} {p : Pos} : p ∈ allCells ny nx ↔ InGrid ny nx p := by
  obtain ⟨y, x⟩ := p
  simp only [allCells, List.mem_flatMap, List.mem_range, List.mem_map, Prod.mk.injEq, InGrid]
  constructor
  · rintro ⟨a, ha, b, hb, rfl, rfl⟩
    exact ⟨ha, hb⟩
  · rintro ⟨ha, hb⟩
    exact ⟨y, ha, x, hb, rfl, rfl⟩

theorem connected_in {n ny nx : Nat} {S : Pos → Prop} {p q : Pos} (h : Connected n ny nx S p q) (hp : S p) : S q := by
  induction h with
  | refl => exact hp
  | tail _ hs _ => exact hs.2.2.2.2

/-- **C92.** `zonal_stats(regions(r), r, stats)` has one line for each patch, and its statistics are those of a list that holds the
value of the patch as often as the patch has cells.  Besides there is at most the line of 0, for the cells of no patch.  The null value
of the result of `regions` must not be a label. -/
theorem C92_patches_partial {np : NumPy} {st : String → List Num → τ} {auto : Nat → Nat → Nat × Nat} {label : Nat → Labeler} {r : Raster}
    {neighbors : Int} {values : Option (List Num)} {stats : List String} {yc xc yc' xc' : List Nat} {crs : Option Nat} {org org' : Rat × Rat}
    (hb : r.nb = 1) (hc : Consistent r) (hm : MaskNeedsNull r) (hn : neighbors = 4 ∨ neighbors = 8)
    (hu : ∀ us, values = some us → us.Nodup) (hl : ∀ n, IsLabeler n r.ny r.nx (label n)) (hst : Unordered st)
    (hs : stats ≠ []) (hk : ∀ s ∈ stats, s ∈ statFuncs) (hcast : np.cast f64 .nan = .nan)
    (hnv : ∀ o s, regions np label r neighbors values = .ok o → o.nv = some s →
      ∀ p, InGrid r.ny r.nx p → o.mask (0, p) = false → o.data (0, p) ≠ s.val) :
    ∃ o t, regions np label r neighbors values = .ok o ∧
      onRaster np st auto ⟨o, yc, xc, crs, org⟩ ⟨r, yc', xc', crs, org'⟩ (some stats) false = .ok t ∧
      (t.map (·.zone)).Nodup ∧
      (∀ p, InPatch r values p → ∃ l ∈ t, l.zone = o.data (0, p) ∧ ∃ cells : List Pos, cells.Nodup ∧
        (∀ q, q ∈ cells ↔ SamePatch r neighbors.toNat p q) ∧
        l.entries = wanted st 1 stats fun _ => List.replicate cells.length (value64 np r p)) ∧
      (∀ l ∈ t, l.zone = .fin 0 ∨ ∃ p, InPatch r values p ∧ l.zone = o.data (0, p)) ∧
      ∀ p q, InPatch r values p → InPatch r values q → (o.data (0, p) = o.data (0, q) ↔ SamePatch r neighbors.toNat p q) := by
  obtain ⟨o, ho, hd, ho1, ho2, ho3, hmask, hnull, hlab⟩ := (Regions.C28_regions (np := np) r hm neighbors values hu hl).1 hn
  obtain ⟨lab, e1, e2, e3, -⟩ := hlab 0
  have hpatch : ∀ p, InPatch r values p ↔ InGrid r.ny r.nx p ∧ lab p ≠ 0 := by
    intro p
    unfold InPatch
    constructor
    · rintro ⟨h1, h2, h3, h4, h5⟩
      refine ⟨h1, fun h0 => ?_⟩
      rcases (e2 p h1).1 h0 with h | h | h | ⟨us, h, h'⟩
      · rw [h2] at h; cases h
      · exact h3 h
      · exact h4 h
      · exact h' (h5 us h)
    · rintro ⟨h1, h0⟩
      have hz := fun h => h0 ((e2 p h1).2 h)
      refine ⟨h1, ?_, fun h => hz (.inr (.inl h)), fun h => hz (.inr (.inr (.inl h))), fun us h => ?_⟩
      · cases h : r.mask (0, p) with
        | false => rfl
        | true => exact absurd (.inl h) hz
      · by_contra h'
        exact hz (.inr (.inr (.inr ⟨us, h, h'⟩)))
  have hdata : ∀ p, o.mask (0, p) = false → o.data (0, p) = .fin (lab p : Rat) := fun p h => e1 p (by rw [← hmask]; exact h)
  have hco : Consistent o := by
    intro c hcell
    have h0 : c.1 = 0 := by have := hcell.1; omega
    obtain ⟨b, p⟩ := c
    obtain rfl : b = 0 := h0
    cases h : o.mask (0, p) with
    | true =>
      obtain ⟨s, hs1, hs2⟩ := hnull _ h
      rw [hs1, hs2]
      exact ((maskOf_iff _ _).2 rfl).symm
    | false =>
      cases hs1 : o.nv with
      | none => rfl
      | some s =>
        have := hnv o s ho hs1 p ⟨by rw [← ho2]; exact hcell.2.1, by rw [← ho3]; exact hcell.2.2⟩ h
        cases hx : maskOf (some s.val) (o.data (0, p)) with
        | false => exact hx.symm
        | true => exact absurd ((maskOf_iff _ _).1 hx) this
  have hready : ZonalTable.Ready np o r := ⟨ho1.trans hb, ho2, ho3, hco, hc, hcast⟩
  obtain ⟨w1, w2, w3⟩ := ZonalTable.C76_wide (stats := stats) hready hst
  have hinj : ∀ p q, InPatch r values p → InPatch r values q → (o.data (0, p) = o.data (0, q) ↔ SamePatch r neighbors.toNat p q) := by
    intro p q hp hq
    have hp' := (hpatch p).1 hp
    have hq' := (hpatch q).1 hq
    rw [hdata p (by rw [hmask]; exact hp.2.1), hdata q (by rw [hmask]; exact hq.2.1)]
    have := e3 p q hp'.1 hq'.1 hp'.2 hq'.2
    constructor
    · intro h
      have h := FVal.fin.inj h
      exact ⟨hq'.1, (this.1 (by exact_mod_cast h)).2⟩
    · intro h
      have hin := connected_in h.2 ⟨hp.2.1, rfl⟩
      have e : lab p = lab q := this.2 ⟨hin.2.symm, h.2⟩
      rw [e]
  refine ⟨o, _, ho, ((ZonalTable.C76_accepted np st auto ⟨o, yc, xc, crs, org⟩ ⟨r, yc', xc', crs, org'⟩ (some stats) false (ho1.trans hb)).1 _).2
    ⟨by show o.dtype.isInt = true; rw [hd]; rfl, rfl, rfl, ho2, ho3, .inl hb, stats, rfl, hs, hk, rfl⟩, w1.imp fun h => h.2, ?_, ?_, hinj⟩
  · intro p hp
    have hp' := (hpatch p).1 hp
    have hpm : o.mask (0, p) = false := by rw [hmask]; exact hp.2.1
    obtain ⟨l, hlt, hlz⟩ := List.mem_map.1 ((w2 (o.data (0, p))).2 ⟨(by rw [hdata p hpm]; exact fun h => (nomatch h)), p.1, p.2, hp.1.1, hp.1.2, hpm, rfl⟩)
    refine ⟨l, hlt, hlz, (allCells r.ny r.nx).filter fun q => decide (o.mask (0, q) = false ∧ o.data (0, q) = o.data (0, p)),
      (allCells_nodup _ _).filter _, ?_, ?_⟩
    · intro q
      rw [List.mem_filter, mem_allCells, decide_eq_true_iff]
      constructor
      · rintro ⟨h1, h2, h3⟩
        refine (hinj p q hp ((hpatch q).2 ⟨h1, ?_⟩)).1 h3.symm
        rw [hdata q h2, hdata p hpm] at h3
        have h3 : lab q = lab p := by exact_mod_cast FVal.fin.inj h3
        rw [h3]
        exact hp'.2
      · intro h
        have hin := connected_in h.2 ⟨hp.2.1, rfl⟩
        have hq : InPatch r values q := ⟨h.1, hin.1, by rw [hin.2]; exact hp.2.2.1, by rw [hin.2]; exact hp.2.2.2.1, by
          rw [hin.2]; exact hp.2.2.2.2⟩
        exact ⟨h.1, by rw [hmask]; exact hin.1, ((hinj p q hp hq).2 h).symm⟩
    · rw [w3 l hlt, hb, hlz]
      unfold wanted
      simp only [List.range_one, List.flatMap_cons, List.flatMap_nil, List.append_nil]
      rw [zoneColumn_cells]
      refine List.map_congr_left fun s _ => ?_
      congr 2
      rw [List.eq_replicate_iff]
      refine ⟨by rw [List.length_map], ?_⟩
      intro v hv
      obtain ⟨q, hq, rfl⟩ := List.mem_map.1 hv
      rw [List.mem_filter, mem_allCells, decide_eq_true_iff] at hq
      obtain ⟨h1, h2, h3⟩ := hq
      have hq : InPatch r values q := by
        refine (hpatch q).2 ⟨h1, ?_⟩
        rw [hdata q h2, hdata p hpm] at h3
        have h3 : lab q = lab p := by exact_mod_cast FVal.fin.inj h3
        rw [h3]
        exact hp'.2
      have hin := connected_in ((hinj p q hp hq).1 h3.symm).2 ⟨hp.2.1, rfl⟩
      rw [if_neg (by rw [hin.1]; exact Bool.false_ne_true), hin.2]
      rfl
  · intro l hlt
    obtain ⟨-, y, x, hy, hx, g1, g2⟩ := (w2 l.zone).1 (List.mem_map_of_mem hlt)
    by_cases h0 : lab (y, x) = 0
    · left
      rw [← g2, hdata _ g1, h0]
      rfl
    · exact .inr ⟨(y, x), (hpatch _).2 ⟨⟨hy, hx⟩, h0⟩, g2.symm⟩

/-- **C92 fails** for a patch whose label is the null value that the result of `regions` has from the raster: it has no line. -/
theorem C92_lost {np : NumPy} {st : String → List Num → τ} {features data : Raster} {stats : List String} {s : Scalar}
    (hs : features.nv = some s) : ∀ l ∈ zonalTable np st features data stats, l.zone ≠ s.val := by
  intro l hl he
  rw [ZonalTable.table_eq] at hl
  obtain ⟨z, hz, rfl⟩ := List.mem_map.1 hl
  obtain ⟨h1, h2⟩ := ((ZonalTable.groupKeys_spec _).2 z).1 hz
  rw [List.mem_filter, hs] at h2
  have h2 := h2.2
  have he : z = s.val := he
  simp only [ZonalTable.inFeature, ← he] at h2
  cases z <;> simp_all [Num.eq]

/-- The null value of the result. -/
theorem regions_null {np : NumPy} {label : Nat → Labeler} {r : Raster} {neighbors : Int} {values : Option (List Num)} {o : Raster}
    (h : regions np label r neighbors values = .ok o) : o.nv = some ((reconcile np r.nv u64).1.getD (defaultNull u64)) := by
  unfold regions at h
  split at h
  · cases h
    cases hn : r.nv with
    | none => simp [ofData, Raster.masked, hn, reconcile]
    | some s => simp [ofData, Raster.masked, hn]
  · cases h

/-- The condition on the null value holds if it is none of the numbers from 0 to the number of cells. -/
theorem C92_null_value {np : NumPy} {label : Nat → Labeler} {r : Raster} {neighbors : Int} {values : Option (List Num)}
    (hb : r.nb = 1) (hm : MaskNeedsNull r) (hn : neighbors = 4 ∨ neighbors = 8) (hu : ∀ us, values = some us → us.Nodup)
    (hl : ∀ n, IsLabeler n r.ny r.nx (label n))
    (hk : ∀ k ≤ r.ny * r.nx, ((reconcile np r.nv u64).1.getD (defaultNull u64)).val ≠ .fin (k : Rat)) :
    ∀ o s, regions np label r neighbors values = .ok o → o.nv = some s →
      ∀ p, InGrid r.ny r.nx p → o.mask (0, p) = false → o.data (0, p) ≠ s.val := by
  obtain ⟨o', ho', hd, ho1, ho2, ho3, hmask, hnull, hlab⟩ := (Regions.C28_regions (np := np) r hm neighbors values hu hl).1 hn
  intro o s ho hs p hp hpm
  rw [ho] at ho'
  cases ho'
  obtain ⟨lab, e1, e2, e3, N, e4, e5⟩ := hlab 0
  rw [regions_null ho] at hs
  have hs := Option.some.inj hs
  have hN : N ≤ r.ny * r.nx := by
    have hsub : (Finset.range N).image (· + 1) ⊆ (Finset.range r.ny ×ˢ Finset.range r.nx).image lab := by
      intro k hk
      obtain ⟨j, hj, rfl⟩ := Finset.mem_image.1 hk
      obtain ⟨q, hq, e⟩ := e5 (j + 1) (by omega) (Finset.mem_range.1 hj)
      rw [← e]
      exact Finset.mem_image_of_mem _ (Finset.mem_product.2 ⟨Finset.mem_range.2 hq.1, Finset.mem_range.2 hq.2⟩)
    have := (Finset.card_le_card hsub).trans Finset.card_image_le
    rw [Finset.card_image_of_injective _ (add_left_injective 1)] at this
    simpa using this
  rw [e1 p (by rw [← hmask]; exact hpm)]
  rw [← hs]
  exact fun h => hk (lab p) ((e4 p hp).trans hN) h.symm

/-! ### Concrete cases -/

/-- A row of three cells, 7, null, 7, where null is 1. -/
def row717 : Raster where
  dtype := u8
  nb := 1
  ny := 1
  nx := 3
  data := fun c => if c.2.2 = 1 then .fin 1 else .fin 7
  mask := fun c => c.2.2 == 1
  nv := some ⟨u8, .fin 1⟩

/-- **C92 fails**: of the two patches of the row one has the label 1, which is the null value, and is missing in the table. -/
theorem C92_label_is_null_value {label : Nat → Labeler} (hl : ∀ n, IsLabeler n 1 3 (label n)) :
    Consistent row717 ∧ ∃ o p, regions (idNumPy false) label row717 4 none = .ok o ∧ InPatch row717 none p ∧
      ∀ (st : String → List Num → τ) (stats : List String), ∀ l ∈ zonalTable (idNumPy false) st o row717 stats, l.zone ≠ o.data (0, p) := by
  have hm : MaskNeedsNull row717 := fun c _ h => nomatch h
  refine ⟨?_, ?_⟩
  · intro c _
    by_cases h : c.2.2 = 1 <;> simp [row717, maskOf, Num.isnan, Num.eq, h]
  obtain ⟨o, ho, hd, ho1, ho2, ho3, hmask, hnull, hlab⟩ :=
    (Regions.C28_regions (np := idNumPy false) row717 hm 4 none (fun _ h => nomatch h) hl).1 (.inl rfl)
  obtain ⟨lab, e1, e2, -, N, e4, e5⟩ := hlab 0
  have h00 : InGrid row717.ny row717.nx (0, 0) := ⟨by decide, by decide⟩
  have hpos : lab (0, 0) ≠ 0 := by
    intro h
    rcases (e2 _ h00).1 h with h | h | h | ⟨us, h, -⟩
    · exact absurd h (by decide)
    · exact absurd h (by decide +kernel)
    · exact absurd h (by decide +kernel)
    · cases h
  obtain ⟨p, hp, hp1⟩ := e5 1 le_rfl ((Nat.one_le_iff_ne_zero.2 hpos).trans (e4 _ h00))
  have hz := fun h => (show lab p ≠ 0 by omega) ((e2 p hp).2 h)
  have hpm : row717.mask (0, p) = false := by
    cases h : row717.mask (0, p) with
    | false => rfl
    | true => exact absurd (.inl h) hz
  refine ⟨o, p, ho, ⟨hp, hpm, fun h => hz (.inr (.inl h)), fun h => hz (.inr (.inr (.inl h))), fun _ h => nomatch h⟩, ?_⟩
  intro st stats l hlt
  have hnv : o.nv = some ⟨u8, .fin 1⟩ := by
    rw [regions_null ho]
    decide +kernel
  rw [e1 p hpm, hp1]
  simpa using C92_lost hnv l hlt

/-- The same row with 255 as null value. -/
def row255 : Raster := { row717 with data := fun c => if c.2.2 = 1 then .fin 255 else .fin 7, nv := some ⟨u8, .fin 255⟩ }

example : row255.nb = 1 ∧ Consistent row255 ∧ MaskNeedsNull row255 ∧ InPatch row255 none (0, 2) ∧
    (∀ k ≤ row255.ny * row255.nx, ((reconcile (idNumPy false) row255.nv u64).1.getD (defaultNull u64)).val ≠ .fin (k : Rat)) ∧
    ∃ label : Nat → Labeler, ∀ n, IsLabeler n row255.ny row255.nx (label n) := by
  refine ⟨rfl, ?_, fun c _ h => (nomatch h), ⟨⟨by decide, by decide⟩, by decide, by decide +kernel, by decide +kernel, fun _ h => (nomatch h)⟩, ?_, ?_⟩
  · intro c _
    by_cases h : c.2.2 = 1 <;> simp [row255, row717, maskOf, Num.isnan, Num.eq, h]
  · intro k hk
    have e : ((reconcile (idNumPy false) row255.nv u64).1.getD (defaultNull u64)).val = .fin 255 := by decide +kernel
    rw [e]
    intro h
    have h := FVal.fin.inj h
    have h : 255 = k := by exact_mod_cast h
    have hk : k ≤ 1 * 3 := hk
    omega
  · choose label h using fun n => Regions.labeler_exists n row255.ny row255.nx
    exact ⟨label, h⟩

end Verif.Trips
