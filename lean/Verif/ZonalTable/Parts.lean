import Verif.ZonalTable.Props

set_option linter.unusedSectionVars false

/-!
# C76: the long table of a table in partitions

`zonal.py:175-200`, `510-518`: `map_partitions(_melt_part)`.
-/

namespace Verif.ZonalTable

variable {τ : Type}

/-- **C76 (partitions of the long table).** Apart from row numbers and order, the long table has one row for every row of every partition and
every band: the zone, the number of the band, and the statistics of that band. -/
theorem C76_long_parts (nb : Nat) (parts : List (List (Line τ))) :
    ((melt nb parts).map fun l => (l.zone, l.band, l.stats)).Perm
      (parts.flatten.flatMap fun l => (List.range nb).map fun b =>
        (l.zone, b + 1, l.entries.filterMap fun e => if e.1.1 = label (b + 1) then some (e.1.2, e.2) else none)) := by
  have one : ∀ part : List (Line τ), ((meltPart nb part).map fun l => (l.zone, l.band, l.stats)).Perm
      (part.flatMap fun l => (List.range nb).map fun b =>
        (l.zone, b + 1, l.entries.filterMap fun e => if e.1.1 = label (b + 1) then some (e.1.2, e.2) else none)) := by
    intro part
    unfold meltPart
    rw [List.map_map]
    refine ((List.mergeSort_perm _ _).map _).trans (List.Perm.of_eq ?_)
    have e : ((fun l : LongLine τ => (l.zone, l.band, l.stats)) ∘ toLong) =
        (fun s : Stacked τ => (s.zone, bandNumber s.band, s.stats)) ∘ Prod.fst := rfl
    rw [e, ← List.map_map, List.zipIdx_map_fst]
    unfold stack
    rw [List.map_flatMap]
    refine List.flatMap_congr fun l _ => ?_
    rw [List.map_map]
    refine List.map_congr_left fun b _ => ?_
    simp only [Function.comp, bandNumber_label, statsOf]
  induction parts with
  | nil => exact List.Perm.refl _
  | cons part parts ih =>
    have e : melt nb (part :: parts) = meltPart nb part ++ melt nb parts := rfl
    rw [e, List.map_append, List.flatten_cons, List.flatMap_append]
    exact (one part).append ih

/-- Two partitions, two bands: four rows. -/
example : ((melt 2 [[⟨.fin 1, [((label 1, "mean"), 5), ((label 2, "mean"), 6)]⟩], [⟨.fin 2, [((label 1, "mean"), 7), ((label 2, "mean"), 8)]⟩]] :
    List (LongLine Nat))).length = 4 := by
  have h := (C76_long_parts 2 ([[⟨.fin 1, [((label 1, "mean"), 5), ((label 2, "mean"), 6)]⟩],
    [⟨.fin 2, [((label 1, "mean"), 7), ((label 2, "mean"), 8)]⟩]] : List (List (Line Nat)))).length_eq
  rw [List.length_map] at h
  exact h

end Verif.ZonalTable
