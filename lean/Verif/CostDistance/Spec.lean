import Verif.CostDistance.Model

/-!
# What cost distance means

Cells, steps, paths and tracebacks, written from the documentation only.  From the model only the
record of inputs is used.
-/

namespace Verif.CostDistance.Spec

open Verif Verif.CostDistance

variable {R : Type} [Field R] [LinearOrder R]

/-- Row and column. -/
abbrev Cell := Nat × Nat

/-- The cell lies on the raster. -/
def InGrid (I : Input R) (p : Cell) : Prop := p.1 < I.rows ∧ p.2 < I.cols

/-- A source cell. -/
def IsSource (I : Input R) (p : Cell) : Prop := InGrid I p ∧ I.source p.1 p.2 ≠ I.sourcesNull

/-- A cell that can be traversed: finite non-negative cost, elevation (if used) not null. -/
def Open (I : Input R) (p : Cell) : Prop :=
  (∃ c, I.cost p.1 p.2 = .fin c ∧ 0 ≤ c) ∧ ∀ e, I.elev = some e → e p.1 p.2 ≠ I.elevNull

/-- Neighbouring cells for connectivity 4 or 8. -/
def Adj (I : Input R) (p q : Cell) : Prop :=
  p ≠ q ∧ ((q.1 : Int) - p.1).natAbs ≤ 1 ∧ ((q.2 : Int) - p.2).natAbs ≤ 1 ∧
    (I.connectivity = 4 → p.1 = q.1 ∨ p.2 = q.2)

/-- Travel distance of the step from `p` to `q`. -/
def travel (sqrt : R → R) (I : Input R) (p q : Cell) : R :=
  let dy := I.scaleRow * (((q.1 : Int) - p.1 : Int) : R)
  let dx := I.scaleCol * (((q.2 : Int) - p.2 : Int) : R)
  match I.elev with
  | none => sqrt (dy * dy + dx * dx)
  | some e => sqrt (dy * dy + dx * dx + (e q.1 q.2 - e p.1 p.2) * (e q.1 q.2 - e p.1 p.2))

/-- A legal step from `p` to `q` costing `w`: travel distance times the mean of the cell costs. -/
def StepCost (sqrt : R → R) (I : Input R) (p q : Cell) (w : R) : Prop :=
  Open I p ∧ InGrid I q ∧ Open I q ∧ Adj I p q ∧
    ∃ cp cq, I.cost p.1 p.2 = .fin cp ∧ I.cost q.1 q.2 = .fin cq ∧
      w = travel sqrt I p q * ((cp + cq) / 2)

/-- There is a path from a source to `p` with accumulated cost `w`. -/
inductive PathCost (sqrt : R → R) (I : Input R) : Cell → R → Prop
  | source {p} : IsSource I p → PathCost sqrt I p 0
  | step {p q w e} : PathCost sqrt I p w → StepCost sqrt I p q e → PathCost sqrt I q (w + e)

/-- Documented traceback codes: which neighbour to move to.
```
5  6  7
4  X  0
3  2  1
```
-/
def backDir : Int → Option (Int × Int)
  | 0 => some (0, 1)
  | 1 => some (1, 1)
  | 2 => some (1, 0)
  | 3 => some (1, -1)
  | 4 => some (0, -1)
  | 5 => some (-1, -1)
  | 6 => some (-1, 0)
  | 7 => some (-1, 1)
  | _ => none

/-- `Trail tb p s l w`: following the traceback `tb` from `p` visits the cells `l`, ends at the source
`s`, and the path walked in the other direction costs `w`. -/
inductive Trail (sqrt : R → R) (I : Input R) (tb : Cell → Int) : Cell → Cell → List Cell → R → Prop
  | source {s} : IsSource I s → tb s = -1 → Trail sqrt I tb s s [s] 0
  | step {p q s l w e dr dc} : Trail sqrt I tb q s l w → InGrid I p →
      backDir (tb p) = some (dr, dc) → (q.1 : Int) = p.1 + dr → (q.2 : Int) = p.2 + dc →
      StepCost sqrt I q p e → Trail sqrt I tb p s (p :: l) (w + e)

end Verif.CostDistance.Spec
