import Verif.Base.FVal
import Mathlib.Algebra.Order.Ring.Defs
import Mathlib.Algebra.Order.Monoid.WithTop
import Mathlib.Algebra.Order.Ring.Abs
import Mathlib.Tactic.Linarith

/-!
# Model of `raster_tools/distance/proximity.py`

Numbers are elements of an ordered commutative ring `R` (rounding is not modelled).  The code stores
`sqrt(d)` for a squared distance `d` and squares it again whenever it is compared; the model stores the
squared distance `d` itself, and `none` for the sentinel `-1` ("no target seen").  The two arrays
`pan_near_xi`, `pan_near_yi`, always written together, are one array of optional (row, column) pairs,
`none` for `-1`; the same for `pan_nearest_*`.
-/

namespace Verif.Proximity

open Verif

/-- Row and column. -/
abbrev Cell := Nat × Nat

section
variable {R : Type} [CommRing R] [LinearOrder R]

/-- `proximity.py:28-31`. -/
def euclideanSqr (x1 y1 x2 y2 : R) : R :=
  let dx := x1 - x2
  let dy := y1 - y2
  dx * dx + dy * dy

/-- `proximity.py:41-45`. -/
def taxiSqr (x1 y1 x2 y2 : R) : R :=
  let dx := x1 - x2
  let dy := y1 - y2
  let dist := |dx| + |dy|
  dist * dist

/-- `proximity.py:55-59`. -/
def chebyshevSqr (x1 y1 x2 y2 : R) : R :=
  let dx := |x1 - x2|
  let dy := |y1 - y2|
  let dist := max dx dy
  dist * dist

/-- `proximity.py:179-187`: is the value a target?  An empty `targets` list means every finite
non-zero value.  (NaN and the infinities equal no target because the targets are checked to be
finite, `proximity.py:557`.) -/
def isTarget (targets : List R) (v : FVal R) : Bool :=
  if targets.length > 0 then
    targets.foldl (fun acc t => acc || (match v with | .fin r => r == t | _ => false)) false
  else
    match v with
    | .fin r => r != 0
    | _ => false

/-- Inputs of `_compute_proximity` (`proximity.py:256-267`).  `S` is the type of the secondary
output and `report p t` what is written for the cell `p` with nearest target `t`: the value of `t`
(`_MODE_ALLOCATION`) or the direction from `p` to `t` (`_MODE_DIRECTION`).  In `_MODE_PROXIMITY` the
secondary output is not used. -/
structure Env (R S : Type) where
  ny : Nat
  nx : Nat
  src : Nat → Nat → FVal R
  targets : List R
  xc : Nat → R
  yc : Nat → R
  maxDist : WithTop R
  distSqr : R → R → R → R → R
  report : Cell → Cell → S

variable {S : Type}

/-- `max_distance * max_distance`, `proximity.py:175` (`np.inf * np.inf = np.inf`). -/
def Env.maxSqr (E : Env R S) : WithTop R :=
  match E.maxDist with
  | none => ⊤
  | some d => ((d * d : R) : WithTop R)

/-- `max_dist_sqr * 2.0`, `proximity.py:176`. -/
def Env.maxSqr2 (E : Env R S) : WithTop R :=
  match E.maxDist with
  | none => ⊤
  | some d => ((d * d * 2 : R) : WithTop R)

/-- The call of `dist_sqr_func` in `proximity.py:201-206`: candidate first, current cell second. -/
def Env.dsq (E : Env R S) (c p : Cell) : R :=
  E.distSqr (E.xc c.2) (E.yc c.1) (E.xc p.2) (E.yc p.1)

/-- Is the cell a target? -/
def Env.target (E : Env R S) (p : Cell) : Bool := isTarget E.targets (E.src p.1 p.2)

/-- Buffers of one line. -/
structure Line (R : Type) where
  prox : Nat → Option R
  near : Nat → Option Cell
  nearest : Nat → Option Cell

/-- Write one element of a buffer. -/
def set {α : Type} (f : Nat → α) (i : Nat) (a : α) : Nat → α := fun j => if j = i then a else f j

/-- `proximity.py:199-211`: candidate of the pixel itself and its squared distance. -/
def ownCand (E : Env R S) (p : Cell) (own : Option Cell) : Option Cell × WithTop R :=
  match own with
  | none => (none, E.maxSqr2)
  | some c =>
    if ((E.dsq c p : R) : WithTop R) < E.maxSqr2 then (some c, ((E.dsq c p : R) : WithTop R))
    else (none, E.maxSqr2)

/-- `proximity.py:215-225` and `229-239`: take over a neighbour's candidate if it is nearer. -/
def takeCand (E : Env R S) (p : Cell) (cur : Option Cell × WithTop R) (nb : Option Cell) :
    Option Cell × WithTop R :=
  match nb with
  | none => cur
  | some c => if ((E.dsq c p : R) : WithTop R) < cur.2 then (some c, ((E.dsq c p : R) : WithTop R))
      else cur

/-- `iprev = ipixel - step` if `ipixel != start` (`proximity.py:214-215`). -/
def iprev (nx : Nat) (forward : Bool) (i : Nat) : Option Nat :=
  if forward then (if i = 0 then none else some (i - 1))
  else (if i + 1 = nx then none else some (i + 1))

/-- `inext = ipixel + step` if `inext != end` (`proximity.py:228-229`). -/
def inext (nx : Nat) (forward : Bool) (i : Nat) : Option Nat :=
  if forward then (if i + 1 = nx then none else some (i + 1))
  else (if i = 0 then none else some (i - 1))

/-- The new candidate of pixel `i` of line `row` (`proximity.py:198-239`). -/
def newCand (E : Env R S) (forward : Bool) (row : Nat) (near : Nat → Option Cell) (i : Nat) :
    Option Cell × WithTop R :=
  let c0 := ownCand E (row, i) (near i)
  let c1 := takeCand E (row, i) c0 ((iprev E.nx forward i).bind near)
  takeCand E (row, i) c1 ((inext E.nx forward i).bind near)

/-- `proximity.py:241-248`: should the stored proximity be replaced? -/
def improves (E : Env R S) (cand : Option Cell × WithTop R) (old : Option R) : Bool :=
  match cand.1 with
  | none => false
  | some _ =>
    decide (cand.2 ≤ E.maxSqr) &&
      (match old with
       | none => true
       | some d => decide (cand.2 < ((d : R) : WithTop R)))

/-- `proximity.py:178-252`, body of the loop for pixel `i`. -/
def pixel (E : Env R S) (forward : Bool) (row : Nat) (L : Line R) (i : Nat) : Line R :=
  if E.target (row, i) then
    { prox := set L.prox i (some 0), near := set L.near i (some (row, i))
      nearest := set L.nearest i (some (row, i)) }
  else
    let cand := newCand E forward row L.near i
    if improves E cand (L.prox i) then
      { prox := set L.prox i (match cand.2 with | none => none | some d => some d)
        near := set L.near i cand.1, nearest := set L.nearest i cand.1 }
    else { L with near := set L.near i cand.1 }

/-- The order in which the pixels of a line are processed (`proximity.py:171-178`). -/
def order (nx : Nat) (forward : Bool) : List Nat :=
  if forward then List.range nx else (List.range nx).reverse

/-- `_process_proximity_line`, `proximity.py:149-252`. -/
def processLine (E : Env R S) (forward : Bool) (row : Nat) (L : Line R) : Line R :=
  (order E.nx forward).foldl (pixel E forward row) L

/-- `proximity.py:317-330` (and the three copies of it): write the secondary output of the line. -/
def writeSecondary (E : Env R S) (row : Nat) (L : Line R) (sec : Nat → Nat → Option S) :
    Nat → Nat → Option S := fun r i =>
  if r = row ∧ i < E.nx then
    match L.nearest i, L.prox i with
    | some t, some _ => some (E.report (row, i) t)
    | _, _ => sec r i
  else sec r i

/-- Rows of `proximity` and of the secondary output, and the candidates carried between lines. -/
structure St (R S : Type) where
  near : Nat → Option Cell
  prox : Nat → Nat → Option R
  sec : Nat → Nat → Option S

/-- One line processed in the two directions, `first` being the direction of the first one
(`proximity.py:294-364` with `first = true`, `369-443` with `first = false`).  `start` is the
content of `line_proximity` before the line. -/
def twoPasses (E : Env R S) (first : Bool) (start : Nat → Option R) (st : St R S) (row : Nat) :
    St R S :=
  let L1 := processLine E first row { prox := start, near := st.near, nearest := fun _ => none }
  let sec1 := writeSecondary E row L1 st.sec
  let L2 := processLine E (!first) row { prox := L1.prox, near := L1.near, nearest := fun _ => none }
  let sec2 := writeSecondary E row L2 sec1
  { near := L2.near
    prox := fun r i => if r = row ∧ i < E.nx then L2.prox i else st.prox r i
    sec := sec2 }

/-- `proximity.py:294-364`. -/
def downLine (E : Env R S) (st : St R S) (row : Nat) : St R S :=
  twoPasses E true (fun _ => none) st row

/-- `proximity.py:369-443` (the final replacement of `-1` by `nodata` is the reading of `none`). -/
def upLine (E : Env R S) (st : St R S) (row : Nat) : St R S :=
  twoPasses E false (st.prox row) st row

/-- `_compute_proximity`, `proximity.py:256-443`.  The secondary output starts filled with nodata
(`proximity.py:482-485`), the content of `proximity` before the call is irrelevant. -/
def compute (E : Env R S) : St R S :=
  let st1 := (List.range E.ny).foldl (downLine E)
    { near := fun _ => none, prox := fun _ _ => none, sec := fun _ _ => none }
  (List.range E.ny).reverse.foldl (upLine E) { st1 with near := fun _ => none }

end

end Verif.Proximity
