import Verif.Base.DType
import Mathlib.Algebra.Field.Defs

/-!
# Model of `stat_common.py`

Arrays are lists of numbers with NaN and the infinities.  Arithmetic is exact (a field `K`), counts are unbounded.
The statistics that only call numpy (`nanmin`, `nanmean`, …, `stat_common.py:52-86`) are not repeated here.
-/

namespace Verif.Stats

open Verif

/-- IEEE `<`. -/
def lt : Num → Num → Bool
  | .fin a, .fin b => decide (a < b)
  | .negInf, .fin _ => true
  | .negInf, .posInf => true
  | .fin _, .posInf => true
  | _, _ => false

/-- The order used by `sort` on arrays without NaN. -/
def le (a b : Num) : Bool := lt a b || a.eq b

/-- `s.add(v)`; the set is kept as a list. -/
def setAdd (s : List Num) (v : Num) : List Num := if s.any (·.eq v) then s else s ++ [v]

/-- `stat_common.py:89-99` `nan_unique_count_jit`. -/
def nanUniqueCount (x : List Num) : Nat :=
  (x.foldl (fun s v => if !v.isnan then setAdd s v else s) []).length

/-- A dict from values to counts in insertion order. -/
abbrev Dict := List (Num × Nat)

/-- `if v in c: c[v] += 1 else: c[v] = 1`. -/
def bump : Dict → Num → Dict
  | [], v => [(v, 1)]
  | (w, n) :: c, v => if w.eq v then (w, n + 1) :: c else (w, n) :: bump c v

/-- `c[v]` (0 stands for the `KeyError`, which does not occur). -/
def lookup : Dict → Num → Nat
  | [], _ => 0
  | (w, n) :: c, v => if w.eq v then n else lookup c v

/-- The state of the loop of `nanmode_jit`: the array (changed in place), the counts, the write position. -/
structure ModeState where
  x : List Num
  c : Dict
  j : Nat

/-- `stat_common.py:109-117`. -/
def modeStep (s : ModeState) (i : Nat) : ModeState :=
  match s.x[i]? with
  | none => s
  | some v => if !v.isnan then ⟨s.x.set s.j v, bump s.c v, s.j + 1⟩ else s

/-- `np.argmax`: the first position of the largest count. -/
def argmaxFrom : List Nat → (i best bestPos : Nat) → Nat
  | [], _, _, bestPos => bestPos
  | n :: ns, i, best, bestPos =>
    if n > best then argmaxFrom ns (i + 1) n i else argmaxFrom ns (i + 1) best bestPos
def argmax : List Nat → Nat
  | [] => 0
  | n :: ns => argmaxFrom ns 1 n 0

/-- `stat_common.py:102-125` `nanmode_jit`: the result and the content of the array afterwards (for a contiguous
array, of which `ravel` is a view). -/
def nanmode (x : List Num) : Num × List Num :=
  let s := (List.range x.length).foldl modeStep ⟨x, [], 0⟩
  if s.j = 0 then (.nan, s.x)
  else
    let vals := (s.x.take s.j).mergeSort le
    let cnts := vals.map (lookup s.c)
    (vals.getD (argmax cnts) .nan, vals ++ s.x.drop s.j)

/-- `stat_common.py:132-141`, `152-161`: the counts and the number of values. -/
def counts (x : List Num) : Dict × Nat :=
  x.foldl (fun s v => if !v.isnan then (bump s.1 v, s.2 + 1) else s) ([], 0)

variable {K : Type} [Field K]

/-- `stat_common.py:129-147` `nanentropy_jit`. -/
def nanentropy (log : K → K) (x : List Num) : K :=
  let cn := counts x
  if cn.2 > 0 then
    cn.1.foldl (fun entr e => entr - (e.2 * (1 / cn.2) : K) * log (e.2 * (1 / cn.2))) 0
  else 0

/-- `stat_common.py:150-167` `nanasm_jit`. -/
def nanasm (x : List Num) : K :=
  let cn := counts x
  if cn.2 > 0 then
    cn.1.foldl (fun asm e => asm + (e.2 * (1 / cn.2) : K) * (e.2 * (1 / cn.2))) 0
  else 0

/-- `stat_common.py:182-190`, `207-215`: the loop from position `i`; `better v m` is `v < m` or `v > m`. -/
def argLoop (better : Num → Num → Bool) : List Num → (i j : Nat) → (m : Num) → Nat
  | [], _, j, _ => j
  | v :: vs, i, j, m =>
    if v.isnan then argLoop better vs (i + 1) j m
    else if better v m then argLoop better vs (i + 1) i v
    else argLoop better vs (i + 1) j m

/-- `stat_common.py:170-190` `nanargmin_jit`. -/
def nanargmin (x : List Num) : Int :=
  if x.length = 0 then -1
  else if x.all (·.isnan) then -2
  else argLoop lt x 0 0 .posInf

/-- `stat_common.py:193-215` `nanargmax_jit`. -/
def nanargmax (x : List Num) : Int :=
  if x.length = 0 then -1
  else if x.all (·.isnan) then -2
  else argLoop (fun v m => lt m v) x 0 0 .negInf

end Verif.Stats
