import Verif.CostDistance.Props
import Verif.Nulls.RasterProps
import Verif.CostRaster.Model

/-! # C71: cost distance on rasters -/

set_option linter.unusedSectionVars false

namespace Verif.CostRaster

open Verif Verif.Nulls Verif.Nulls.Spec DType

namespace Spec

/-- Row and column. -/
abbrev Place := Nat × Nat

/-- A landscape: where the sources are and which numbers they have, which cells can be crossed and at what cost, the heights, the height
and the width of a cell, and whether diagonal steps are possible. -/
structure Land where
  rows : Nat
  cols : Nat
  source : Place → Int → Prop
  cost : Place → Rat → Prop
  height : Place → Rat
  dy : Rat
  dx : Rat
  diagonal : Prop

variable (sqrt : Rat → Rat) (L : Land)

def Inside (p : Place) : Prop := p.1 < L.rows ∧ p.2 < L.cols

/-- Neighbours. -/
def Beside (p q : Place) : Prop :=
  p ≠ q ∧ ((q.1 : Int) - p.1).natAbs ≤ 1 ∧ ((q.2 : Int) - p.2).natAbs ≤ 1 ∧ (L.diagonal ∨ p.1 = q.1 ∨ p.2 = q.2)

/-- The length of a step in space. -/
def length (p q : Place) : Rat :=
  sqrt ((L.dy * ((q.1 : Rat) - p.1)) ^ 2 + (L.dx * ((q.2 : Rat) - p.2)) ^ 2 + (L.height q - L.height p) ^ 2)

/-- There is a path from a source with this cost: each step costs its length times the mean of the costs of its two cells. -/
inductive Path : Place → Rat → Prop
  | source {p v} : Inside L p → L.source p v → Path p 0
  | step {p q w a b} : Path p w → L.cost p a → Inside L q → L.cost q b → Beside L p q →
      Path q (w + length sqrt L p q * ((a + b) / 2))

/-- The documented directions.
```
6  7  8
5  X  1
4  3  2
```
-/
def toward : Int → Option (Int × Int)
  | 1 => some (0, 1)
  | 2 => some (1, 1)
  | 3 => some (1, 0)
  | 4 => some (1, -1)
  | 5 => some (0, -1)
  | 6 => some (-1, -1)
  | 7 => some (-1, 0)
  | 8 => some (-1, 1)
  | _ => none

/-- The codes lead from `p` through the cells of the list to the source `s`, and the way back costs `w`. -/
inductive Way (code : Place → Num) : Place → Place → List Place → Rat → Prop
  | source {s v} : Inside L s → L.source s v → code s = .fin 0 → Way code s s [s] 0
  | step {p q s l w a b dr dc} {k : Int} : Way code q s l w → Inside L p → code p = .fin k → toward k = some (dr, dc) →
      (q.1 : Int) = p.1 + dr → (q.2 : Int) = p.2 + dc → L.cost q a → L.cost p b → Beside L q p →
      Way code p s (p :: l) (w + length sqrt L q p * ((a + b) / 2))

/-- The sources: the valid cells of the raster with their values, or the given places with their position in the list. -/
def sourceAt : Sources → Place → Int → Prop
  | .raster r, p, v => r.mask (0, p) = false ∧ r.data (0, p) = .fin v
  | .indices l, p, v => ∃ k : Nat, v = k ∧ l[k]? = some [(p.1 : Int), (p.2 : Int)]

/-- The landscape of the arguments.  A cell can be crossed if its cost is valid and not negative and its elevation is valid. -/
def land (costs : Raster) (resolution : Rat × Rat) (sources : Sources) (elevation : Option Raster) (connectivity : Int)
    (h : Place → Rat) : Land where
  rows := costs.ny
  cols := costs.nx
  source := sourceAt sources
  cost := fun p a => costs.mask (0, p) = false ∧ costs.data (0, p) = .fin a ∧ 0 ≤ a ∧ ∀ e, elevation = some e → e.mask (0, p) = false
  height := h
  dy := |resolution.2|
  dx := |resolution.1|
  diagonal := connectivity = 8

/-- NumPy can put the integer into an array of the dtype. -/
def Fits (np : NumPy) (dt : DType) (k : Int) : Prop :=
  (dt.isFloat = true → np.cast dt (.fin k) = .fin k) ∧ (dt.isInt = true → dt.Holds k ∨ np.valueBased = true)

/-- The raster or list of sources is a possible argument; the values and the null value fit into int64 and differ. -/
def GoodSources (costs : Raster) : Sources → Prop
  | .raster r => (r.nb, r.ny, r.nx) = (costs.nb, costs.ny, costs.nx) ∧ r.dtype.isInt = true ∧ NullsHold r ∧
      ∃ (s : Scalar) (n : Int), r.nv = some s ∧ s.val = .fin n ∧ i64.Holds n ∧
        ∀ c, r.mask c = false → ∃ v : Int, r.data c = .fin v ∧ i64.Holds v ∧ v ≠ n
  | .indices l => l ≠ [] ∧ l.Nodup ∧ l.length < 2 ^ 63 ∧
      ∀ p ∈ l, ∃ y x : Nat, p = [(y : Int), (x : Int)] ∧ y < costs.ny ∧ x < costs.nx

/-- The elevations, if there are any, are finite and not -9999. -/
def GoodElevation (np : NumPy) (costs : Raster) (h : Place → Rat) : Option Raster → Prop
  | none => ∀ p, h p = 0
  | some e => (e.nb, e.ny, e.nx) = (costs.nb, costs.ny, costs.nx) ∧ NullsHold e ∧ (e.nv ≠ none → Fits np e.dtype (-9999)) ∧
      ∀ p, e.mask (0, p) = false → e.data (0, p) = .fin (h p) ∧ h p ≠ -9999

/-- The null value of the allocation. -/
def nullOf : Sources → Num → Prop
  | .raster r, v => ∃ s, r.nv = some s ∧ v = s.val
  | .indices _, v => v = .fin (-1)

/-- What the three rasters should be in one cell. -/
def Right (sqrt : Rat → Rat) (costs : Raster) (L : Land) (sources : Sources) (o : Result) (p : Place) : Prop :=
  (o.distance.mask (0, p) = true ↔ costs.mask (0, p) = true ∨ ¬ ∃ w, Path sqrt L p w) ∧
  o.traceback.mask (0, p) = o.distance.mask (0, p) ∧ o.allocation.mask (0, p) = o.distance.mask (0, p) ∧
  (o.distance.mask (0, p) = true → (∃ s, o.distance.nv = some s ∧ o.distance.data (0, p) = s.val) ∧
    o.traceback.data (0, p) = .fin (-1) ∧ nullOf sources (o.allocation.data (0, p))) ∧
  (o.distance.mask (0, p) = false → ∃ w v s l, o.distance.data (0, p) = .fin w ∧ Path sqrt L p w ∧
    (∀ w', Path sqrt L p w' → w ≤ w') ∧ Way sqrt L (fun q => o.traceback.data (0, q)) p s l w ∧ l.Nodup ∧ L.source s v ∧
    o.allocation.data (0, p) = .fin (v : Int) ∧ ((∃ v', L.source p v') → s = p))

end Spec

open Spec

/-! ### The arguments of the search -/

theorem fill_eq {np : NumPy} {dt : DType} {k : Int} (h : Fits np dt k) : fill np dt k = some (.fin k) := by
  unfold fill
  split
  · next hf => rw [h.1 hf]
  split
  · rfl
  · next hf hb =>
    have hi : dt.isInt = true := by cases dt <;> simp_all [isFloat, isBool, isInt]
    have hl : ∃ lo hi, dt.limits = some (lo, hi) := by cases dt <;> simp_all [limits, isInt]
    obtain ⟨lo, hi', hl⟩ := hl
    rw [hl]
    simp only
    rw [if_pos]
    rcases h.2 hi with ⟨a, b, e, h1, h2⟩ | hv
    · rw [hl] at e
      cases e
      exact .inl ⟨h1, h2⟩
    · exact .inr hv

/-- Null cells get the integer; valid cells keep their value, unless it is NaN. -/
theorem normalize_ok {np : NumPy} {r : Raster} {k : Int} (hn : NullsHold r) (hf : r.nv ≠ none → Fits np r.dtype k) :
    ∃ d, normalize np r k = .ok d ∧ (∀ c, r.mask c = true → d c = .fin k) ∧
      ∀ c, r.mask c = false → d c = r.data c ∨ r.data c = .nan ∧ d c = .fin k := by
  unfold normalize
  cases hv : r.nv with
  | none =>
    refine ⟨r.data, rfl, fun c hm => ?_, fun c _ => .inl rfl⟩
    obtain ⟨s, e, -⟩ := hn c hm
    rw [hv] at e
    cases e
  | some s =>
    have hfill := fill_eq (hf (by rw [hv]; simp))
    have hmask : ∃ d, replace np r k r.mask = .ok d ∧ (∀ c, r.mask c = true → d c = .fin k) ∧
        ∀ c, r.mask c = false → d c = r.data c ∨ r.data c = .nan ∧ d c = .fin k := by
      unfold replace
      rw [hfill]
      refine ⟨_, rfl, fun c hm => by simp [hm], fun c hm => .inl (by simp [hm])⟩
    simp only
    split
    · split
      · next hs =>
        unfold replace
        rw [hfill]
        refine ⟨_, rfl, fun c hm => ?_, fun c hm => ?_⟩
        · obtain ⟨s', e, e'⟩ := hn c hm
          rw [hv] at e
          cases e
          simp only [e', hs, if_true]
        · cases hd : (r.data c).isnan with
          | false => exact .inl (by simp [hd])
          | true =>
            refine .inr ⟨?_, by simp [hd]⟩
            cases hx : r.data c <;> simp_all [Num.isnan]
      · exact hmask
    · exact hmask

theorem toInt_fin (n : Int) : toInt (.fin n) = n := by simp [toInt]

/-- The array of sources tells the sources. -/
structure PlacesOk (np : NumPy) (costs : Raster) (sources : Sources) (p : Places) : Prop where
  iff : ∀ q : Place, q.1 < costs.ny → q.2 < costs.nx → (p.at' q.1 q.2 ≠ p.null ↔ ∃ v, sourceAt sources q v)
  value : ∀ (q : Place) v, sourceAt sources q v → p.at' q.1 q.2 = v ∧ i64.Holds v
  null : nullOf sources p.nv.val ∧ np.cast i64 p.nv.val = p.nv.val

theorem placeOf_some {l : List (List Int)} (hn : l.Nodup) {y x k : Nat} (h : l[k]? = some [(y : Int), (x : Int)]) :
    placeOf l y x = k := by
  have hk : k < l.length := by
    by_contra hc
    rw [List.getElem?_eq_none (by omega)] at h
    cases h
  rw [List.getElem?_eq_getElem hk, Option.some.injEq] at h
  have : l.findIdx? (· == [(y : Int), (x : Int)]) = some k := by
    rw [List.findIdx?_eq_some_iff_getElem]
    refine ⟨hk, by rw [h]; simp, fun j hj => ?_⟩
    have hne : l[j]'(by omega) ≠ l[k] := by
      intro e
      have := (List.Nodup.getElem_inj_iff hn).mp e
      omega
    rw [h] at hne
    simpa using hne
  unfold placeOf
  rw [this]

theorem placeOf_none {l : List (List Int)} {y x : Nat} (h : placeOf l y x ≠ -1) : ∃ k : Nat, l[k]? = some [(y : Int), (x : Int)] := by
  unfold placeOf at h
  cases e : l.findIdx? (· == [(y : Int), (x : Int)]) with
  | none => rw [e] at h; exact absurd rfl h
  | some k =>
    rw [List.findIdx?_eq_some_iff_getElem] at e
    obtain ⟨hk, e1, -⟩ := e
    refine ⟨k, ?_⟩
    rw [List.getElem?_eq_getElem hk]
    simpa using e1

theorem places_ok {np : NumPy} (he : ExactCast np) {costs : Raster} {sources : Sources} (hg : GoodSources costs sources) :
    ∃ p, places np costs sources = .ok p ∧ PlacesOk np costs sources p := by
  cases sources with
  | raster r =>
    obtain ⟨hs, hi, hn, s, n, hv, hsv, hh, hd⟩ := hg
    have hnull : ∀ c, r.mask c = true → r.data c = .fin n := by
      intro c hm
      obtain ⟨s', e, e'⟩ := hn c hm
      rw [hv] at e
      cases e
      rw [e', hsv]
    refine ⟨⟨fun y x => toInt (np.cast i64 (r.data (0, y, x))), toInt s.val, s⟩, ?_, ?_⟩
    · simp only [places]
      rw [if_neg (by simpa using hs), if_neg (by simp [hi]), hv]
    · constructor
      · intro q hy hx
        simp only [hsv, toInt_fin]
        constructor
        · intro hne
          cases hm : r.mask (0, q) with
          | true =>
            rw [hnull _ hm, he _ _ hh] at hne
            simp [toInt] at hne
          | false =>
            obtain ⟨v, e, -, -⟩ := hd _ hm
            exact ⟨v, hm, e⟩
        · rintro ⟨v, hm, e⟩
          obtain ⟨v', e', h1, h2⟩ := hd _ hm
          rw [e', he _ _ h1, toInt_fin]
          exact h2
      · rintro q v ⟨hm, e⟩
        obtain ⟨v', e', h1, h2⟩ := hd _ hm
        have : v = v' := by
          rw [e] at e'
          injection e' with e'
          exact_mod_cast e'
        subst this
        refine ⟨?_, h1⟩
        simp only
        rw [e, he _ _ h1, toInt_fin]
      · exact ⟨⟨s, hv, rfl⟩, by simp only [hsv]; exact he _ _ hh⟩
  | indices l =>
    obtain ⟨h1, h2, h3, h4⟩ := hg
    refine ⟨⟨placeOf l, -1, ⟨i64, .fin (-1)⟩⟩, ?_, ?_⟩
    · simp only [places]
      rw [if_neg, if_neg (by simpa using h2), if_neg]
      · intro hc
        rw [List.any_eq_true] at hc
        obtain ⟨p, hp, hc⟩ := hc
        obtain ⟨y, x, rfl, a, b⟩ := h4 p hp
        simp only [outside, decide_eq_true_eq] at hc
        omega
      · rintro (hc | hc)
        · exact h1 hc
        · rw [List.any_eq_true] at hc
          obtain ⟨p, hp, hc⟩ := hc
          obtain ⟨y, x, rfl, a, b⟩ := h4 p hp
          simp at hc
    · have hb : ∀ (q : Place) (k : Nat), l[k]? = some [(q.1 : Int), (q.2 : Int)] → (k : Int) < 2 ^ 63 := by
        intro q k e
        have hk : k < l.length := by
          by_contra hc
          rw [List.getElem?_eq_none (by omega)] at e
          cases e
        have : (l.length : Int) < 2 ^ 63 := by exact_mod_cast h3
        omega
      constructor
      · intro q hy hx
        constructor
        · intro hne
          obtain ⟨k, e⟩ := placeOf_none hne
          exact ⟨k, k, rfl, e⟩
        · rintro ⟨v, k, rfl, e⟩
          simp only
          rw [placeOf_some h2 e]
          omega
      · rintro q v ⟨k, rfl, e⟩
        have hk := hb q k e
        exact ⟨placeOf_some h2 e, _, _, rfl, by omega, by omega⟩
      · refine ⟨rfl, ?_⟩
        have := he i64 (-1) ⟨_, _, rfl, by norm_num, by norm_num⟩
        exact_mod_cast this

/-- The input of the search describes the landscape. -/
structure Describes (L : Land) (I : CostDistance.Input Rat) : Prop where
  rows : I.rows = L.rows
  cols : I.cols = L.cols
  source : ∀ p, CostDistance.Spec.IsSource I p ↔ Inside L p ∧ ∃ v, L.source p v
  open' : ∀ p, CostDistance.Spec.Open I p ↔ ∃ a, L.cost p a
  cost : ∀ p a, L.cost p a → I.cost p.1 p.2 = .fin a
  travel : ∀ p q a b, L.cost p a → L.cost q b → ∀ sqrt : Rat → Rat, CostDistance.Spec.travel sqrt I p q = length sqrt L p q
  adj : ∀ p q, CostDistance.Spec.Adj I p q ↔ Beside L p q

theorem step_iff {L : Land} {I : CostDistance.Input Rat} (D : Describes L I) {sqrt : Rat → Rat} {p q : Place} {e : Rat} :
    CostDistance.Spec.StepCost sqrt I p q e ↔ ∃ a b, L.cost p a ∧ Inside L q ∧ L.cost q b ∧ Beside L p q ∧
      e = length sqrt L p q * ((a + b) / 2) := by
  have hin : CostDistance.Spec.InGrid I q ↔ Inside L q := by
    unfold CostDistance.Spec.InGrid Inside
    rw [D.rows, D.cols]
  unfold CostDistance.Spec.StepCost
  rw [D.open', D.open', D.adj, hin]
  constructor
  · rintro ⟨⟨a, ha⟩, hi, ⟨b, hb⟩, hbs, cp, cq, e1, e2, rfl⟩
    refine ⟨a, b, ha, hi, hb, hbs, ?_⟩
    rw [D.cost p a ha] at e1
    rw [D.cost q b hb] at e2
    injection e1 with e1
    injection e2 with e2
    rw [D.travel p q a b ha hb, e1, e2]
  · rintro ⟨a, b, ha, hi, hb, hbs, rfl⟩
    exact ⟨⟨a, ha⟩, hi, ⟨b, hb⟩, hbs, a, b, D.cost p a ha, D.cost q b hb, by rw [D.travel p q a b ha hb]⟩

theorem path_iff {L : Land} {I : CostDistance.Input Rat} (D : Describes L I) {sqrt : Rat → Rat} {p : Place} {w : Rat} :
    CostDistance.Spec.PathCost sqrt I p w ↔ Path sqrt L p w := by
  constructor
  · intro h
    induction h with
    | source hs =>
      obtain ⟨hi, v, hv⟩ := (D.source _).mp hs
      exact .source hi hv
    | step _ hc ih =>
      obtain ⟨a, b, ha, hi, hb, hbs, rfl⟩ := (step_iff D).mp hc
      exact .step ih ha hi hb hbs
  · intro h
    induction h with
    | source hi hv => exact .source ((D.source _).mpr ⟨hi, _, hv⟩)
    | step _ ha hi hb hbs ih => exact .step ih ((step_iff D).mpr ⟨_, _, ha, hi, hb, hbs, rfl⟩)

theorem toward_backDir {k : Int} {d : Int × Int} (h : CostDistance.Spec.backDir k = some d) : toward (k + 1) = some d := by
  unfold CostDistance.Spec.backDir at h
  split at h <;> first | exact h | cases h

theorem way_of_trail {L : Land} {I : CostDistance.Input Rat} (D : Describes L I) {sqrt : Rat → Rat} {tb : Place → Int}
    {code : Place → Num} {p s : Place} {l : List Place} {w : Rat} (h : CostDistance.Spec.Trail sqrt I tb p s l w)
    (hc : ∀ q ∈ l, code q = .fin ((tb q + 1 : Int) : Rat)) : Way sqrt L code p s l w := by
  induction h with
  | source hs ht =>
    obtain ⟨hi, v, hv⟩ := (D.source _).mp hs
    refine .source hi hv ?_
    rw [hc _ (by simp), ht]
    norm_num
  | step ht hg hb h1 h2 hst ih =>
    obtain ⟨a, b, ha, hi, hb', hbs, rfl⟩ := (step_iff D).mp hst
    exact .step (ih fun q hq => hc q (by simp [hq])) hi (hc _ (by simp)) (toward_backDir hb) h1 h2 ha hb' hbs

/-- Every cell of a trail that is longer than its first cell can be crossed. -/
theorem trail_open {I : CostDistance.Input Rat} {sqrt : Rat → Rat} {tb : Place → Int} {p s : Place} {l : List Place} {w : Rat}
    (h : CostDistance.Spec.Trail sqrt I tb p s l w) : ∀ q ∈ l, (q = p ∨ CostDistance.Spec.Open I q) ∧
      ∃ w, CostDistance.Spec.PathCost sqrt I q w := by
  induction h with
  | source hs ht =>
    intro q hq
    rw [List.mem_singleton] at hq
    subst hq
    exact ⟨.inl rfl, 0, .source hs⟩
  | step ht hg hb h1 h2 hst ih =>
    intro x hx
    rcases List.mem_cons.mp hx with rfl | hx
    · exact ⟨.inl rfl, _, .step (CostDistance.Trail.pathCost ht) hst⟩
    · obtain ⟨a, b⟩ := ih x hx
      refine ⟨.inr ?_, b⟩
      rcases a with rfl | a
      · exact hst.1
      · exact a

theorem heights_ok {np : NumPy} {costs : Raster} {h : Place → Rat} {elevation : Option Raster}
    (hg : GoodElevation np costs h elevation) : ∃ e, heights np elevation = .ok e ∧ (elevation = none → e = none ∧ ∀ p, h p = 0) ∧
      ∀ r, elevation = some r → ∃ d, e = some d ∧ (∀ p, r.mask (0, p) = true → d (0, p) = .fin (-9999)) ∧
        ∀ p, r.mask (0, p) = false → d (0, p) = .fin (h p) ∧ h p ≠ -9999 := by
  cases elevation with
  | none => exact ⟨none, rfl, fun _ => ⟨rfl, hg⟩, fun r hr => by cases hr⟩
  | some r =>
    obtain ⟨-, hn, hf, hd⟩ := hg
    obtain ⟨d, e1, e2, e3⟩ := normalize_ok hn hf
    refine ⟨some d, by simp [heights, e1], fun hc => (by cases hc), fun r' hr => ?_⟩
    cases hr
    refine ⟨d, rfl, fun p hm => by simpa using e2 _ hm, fun p hm => ?_⟩
    obtain ⟨a, b⟩ := hd p hm
    refine ⟨?_, b⟩
    rcases e3 _ hm with e | ⟨e, -⟩
    · rw [e, a]
    · rw [a] at e
      cases e

theorem describes {np : NumPy} {costs : Raster} {resolution : Rat × Rat} {sources : Sources} {elevation : Option Raster}
    {connectivity : Int} {h : Place → Rat} {p : Places} {data : Cell → Num} {e : Option (Cell → Num)}
    (hk : connectivity = 4 ∨ connectivity = 8) (hp : PlacesOk np costs sources p)
    (hd1 : ∀ c, costs.mask c = true → data c = .fin (-1))
    (hd2 : ∀ c, costs.mask c = false → data c = costs.data c ∨ costs.data c = .nan ∧ data c = .fin (-1))
    (he1 : elevation = none → e = none ∧ ∀ p, h p = 0)
    (he2 : ∀ r, elevation = some r → ∃ d, e = some d ∧ (∀ p, r.mask (0, p) = true → d (0, p) = .fin (-9999)) ∧
        ∀ p, r.mask (0, p) = false → d (0, p) = .fin (h p) ∧ h p ≠ -9999) :
    Describes (land costs resolution sources elevation connectivity h) (input costs data p e resolution connectivity) := by
  have hcost : ∀ (q : Place) (a : Rat), 0 ≤ a → (data (0, q) = .fin a ↔ costs.mask (0, q) = false ∧ costs.data (0, q) = .fin a) := by
    intro q a ha
    cases hm : costs.mask (0, q) with
    | true =>
      rw [hd1 _ hm]
      constructor
      · intro e
        injection e with e
        linarith
      · rintro ⟨h, -⟩
        cases h
    | false =>
      rcases hd2 _ hm with e | ⟨e, e'⟩
      · rw [e]
        simp
      · rw [e, e']
        constructor
        · intro e
          injection e with e
          linarith
        · rintro ⟨-, h⟩
          cases h
  have hcross : ∀ q : Place, (∀ f, (input costs data p e resolution connectivity).elev = some f →
      f q.1 q.2 ≠ (input costs data p e resolution connectivity).elevNull) ↔ ∀ r, elevation = some r → r.mask (0, q) = false := by
    intro q
    cases hel : elevation with
    | none =>
      obtain ⟨rfl, -⟩ := he1 hel
      simp [input]
    | some r =>
      obtain ⟨d, rfl, h1, h2⟩ := he2 r hel
      simp only [input, Option.map_some, Option.some.injEq, Option.isSome_some, if_true, forall_eq']
      cases hm : r.mask (0, q) with
      | true =>
        have : d (0, q.1, q.2) = .fin (-9999) := h1 q hm
        rw [this]
        simp [toRat]
      | false =>
        have : d (0, q.1, q.2) = .fin (h q) := (h2 q hm).1
        rw [this]
        simp [toRat, (h2 q hm).2]
  constructor
  · rfl
  · rfl
  · intro q
    have hin : CostDistance.Spec.InGrid (input costs data p e resolution connectivity) q ↔
        Inside (land costs resolution sources elevation connectivity h) q := Iff.rfl
    unfold CostDistance.Spec.IsSource
    rw [hin]
    constructor
    · rintro ⟨hi, hne⟩
      exact ⟨hi, (hp.iff q hi.1 hi.2).mp hne⟩
    · rintro ⟨hi, hv⟩
      exact ⟨hi, (hp.iff q hi.1 hi.2).mpr hv⟩
  · intro q
    unfold CostDistance.Spec.Open
    rw [hcross]
    constructor
    · rintro ⟨⟨a, ha, h0⟩, hx⟩
      obtain ⟨h1, h2⟩ := (hcost q a h0).mp ha
      exact ⟨a, h1, h2, h0, hx⟩
    · rintro ⟨a, h1, h2, h0, hx⟩
      exact ⟨⟨a, (hcost q a h0).mpr ⟨h1, h2⟩, h0⟩, hx⟩
  · rintro q a ⟨h1, h2, h0, -⟩
    exact (hcost q a h0).mpr ⟨h1, h2⟩
  · rintro q q' a b ⟨-, -, -, hx⟩ ⟨-, -, -, hx'⟩ sqrt
    unfold CostDistance.Spec.travel length
    cases hel : elevation with
    | none =>
      obtain ⟨rfl, hh⟩ := he1 hel
      simp only [input, land, Option.map_none, hh]
      congr 1
      push_cast
      ring
    | some r =>
      obtain ⟨d, rfl, h1, h2⟩ := he2 r hel
      have e1 : d (0, q.1, q.2) = .fin (h q) := (h2 q (hx r hel)).1
      have e2 : d (0, q'.1, q'.2) = .fin (h q') := (h2 q' (hx' r hel)).1
      simp only [input, land, Option.map_some, e1, e2, toRat]
      congr 1
      push_cast
      ring
  · intro q q'
    unfold CostDistance.Spec.Adj Beside
    simp only [input, land]
    have : (connectivity = 4 → q.1 = q'.1 ∨ q.2 = q'.2) ↔ (connectivity = 8 ∨ q.1 = q'.1 ∨ q.2 = q'.2) := by
      rcases hk with rfl | rfl
      · simp
      · simp
    rw [this]

/-! ### The rasters -/

theorem number_coe (w : Rat) : number (w : WithTop Rat) = .fin w := rfl

/-- **C71** for costs, sources and elevations whose nulls the code can tell: the three rasters are null in the same cells, those that are null
in the costs or that no path reaches; elsewhere the distance is the least cost of a path, the codes lead along such a path to a source, and
the allocation is its number.  The theorems below show what happens otherwise. -/
theorem C71_cost_distance_partial {np : NumPy} {sqrt : Rat → Rat} {costs : Raster} {resolution : Rat × Rat} {sources : Sources}
    {elevation : Option Raster} {connectivity : Int} {h : Place → Rat} (hs : ∀ x, 0 ≤ sqrt x) (he : ExactCast np)
    (hb : costs.nb = 1) (hn : NullsHold costs) (hf : costs.nv ≠ none → Fits np costs.dtype (-1))
    (hr : resolution.1 ≠ 0 ∧ resolution.2 ≠ 0) (hk : connectivity = 4 ∨ connectivity = 8)
    (hsrc : GoodSources costs sources) (hel : GoodElevation np costs h elevation) :
    ∃ o, analysis np sqrt costs resolution sources elevation connectivity = .ok o ∧
      (∀ r ∈ [o.distance, o.traceback, o.allocation], (r.nb, r.ny, r.nx) = (1, costs.ny, costs.nx)) ∧
      o.distance.dtype = f64 ∧ o.traceback.dtype = i8 ∧ o.allocation.dtype = i64 ∧
      o.distance.nv = some (costs.nv.getD (defaultNull f64)) ∧ (∃ s, o.traceback.nv = some s ∧ s.val = .fin (-1)) ∧
      (∃ s, o.allocation.nv = some s ∧ nullOf sources s.val) ∧
      ∀ p : Place, p.1 < costs.ny → p.2 < costs.nx →
        Right sqrt costs (land costs resolution sources elevation connectivity h) sources o p := by
  obtain ⟨pl, epl, hpl⟩ := places_ok (np := np) he hsrc
  obtain ⟨data, ed, hd1, hd2⟩ := normalize_ok hn hf
  have hd1 : ∀ c, costs.mask c = true → data c = .fin (-1) := fun c hm => by simpa using hd1 c hm
  have hd2 : ∀ c, costs.mask c = false → data c = costs.data c ∨ costs.data c = .nan ∧ data c = .fin (-1) :=
    fun c hm => by simpa using hd2 c hm
  obtain ⟨e, ee, he1, he2⟩ := heights_ok hel
  have D := describes (resolution := resolution) hk hpl hd1 hd2 he1 he2
  set I := input costs data pl e resolution connectivity with hI
  set L := land costs resolution sources elevation connectivity h with hL
  have hrow : 0 < I.scaleRow := abs_pos.mpr hr.2
  have hcol : 0 < I.scaleCol := abs_pos.mpr hr.1
  obtain ⟨out, e1, h5⟩ := CostDistance.C05_cost_distance_least hs hrow hcol hk
  obtain ⟨out', e1', h6⟩ := CostDistance.C06_reached_iff_path hs hrow hcol hk
  obtain ⟨out'', e1'', h7⟩ := CostDistance.C07_traceback hs hrow hcol hk
  obtain rfl : out = out' := Option.some.inj (Except.ok.inj (e1.symm.trans e1'))
  obtain rfl : out = out'' := Option.some.inj (Except.ok.inj (e1.symm.trans e1''))
  have hwrong : wrongElevation costs elevation = false := by
    cases elevation with
    | none => rfl
    | some r =>
      obtain ⟨hsh, -⟩ := hel
      have : r.nb = 1 := by simp only [Prod.mk.injEq] at hsh; omega
      simp [wrongElevation, this, ← hsh]
  refine ⟨assemble np costs pl out, ?_, ?_, rfl, rfl, rfl, ?_, ⟨_, rfl, ?_⟩, ⟨_, rfl, hpl.null.1⟩, ?_⟩
  · unfold analysis
    rw [if_neg (by simp [hb]), if_neg (by simp [hwrong]), epl]
    simp only
    rw [ed]
    simp only
    rw [ee]
    simp only [run]
    rw [← hI, e1]
  · intro r hrm
    simp only [List.mem_cons, List.not_mem_nil, or_false] at hrm
    rcases hrm with rfl | rfl | rfl <;> simp [assemble, hb]
  · simp only [assemble, distanceNull]
    cases costs.nv <;> rfl
  · norm_num
  · intro p hy hx
    have hg : CostDistance.Spec.InGrid I p := ⟨hy, hx⟩
    obtain ⟨l1, l2, l3⟩ := h5 p hg
    obtain ⟨r1, r2, r3, r4⟩ := h6 p hg
    have hpath : (∃ w, CostDistance.Spec.PathCost sqrt I p w) ↔ ∃ w, Path sqrt L p w := by
      constructor
      · rintro ⟨w, hw⟩
        exact ⟨w, (path_iff D).mp hw⟩
      · rintro ⟨w, hw⟩
        exact ⟨w, (path_iff D).mpr hw⟩
    have hmask : ∀ q : Place, nullCell costs out (0, q) = true ↔ costs.mask (0, q) = true ∨ out.dist q.1 q.2 = ⊤ := by
      intro q
      simp [nullCell]
    refine ⟨?_, rfl, rfl, ?_, ?_⟩
    · show nullCell costs out (0, p) = true ↔ _
      rw [hmask, ← hpath, ← r1, not_not]
    · intro hm
      have hm : nullCell costs out (0, p) = true := hm
      refine ⟨⟨_, rfl, by simp [assemble, hm]⟩, ?_, ?_⟩
      · simp only [assemble, hm, if_true]
        norm_num
      · simp only [assemble, hm, if_true]
        rw [hpl.null.2]
        exact hpl.null.1
    · intro hm
      have hm : nullCell costs out (0, p) = false := hm
      have hm' : costs.mask (0, p) = false ∧ out.dist p.1 p.2 ≠ ⊤ := by
        simp only [nullCell, Bool.or_eq_false_iff, decide_eq_false_iff_not] at hm
        exact hm
      obtain ⟨s, l, w, ht, hnd, hin, hsr, hw, hal, hown⟩ := h7 p hg hm'.2
      obtain ⟨-, v, hv⟩ := (D.source s).mp hsr
      obtain ⟨hv1, hv2⟩ := hpl.value s v hv
      refine ⟨w, v, s, l, ?_, ?_, ?_, ?_, hnd, hv, ?_, ?_⟩
      · simp only [assemble, hm, Bool.false_eq_true, if_false, hw]
        exact number_coe w
      · exact (path_iff D).mp (CostDistance.Trail.pathCost ht)
      · intro w' hw'
        have := l1 w' ((path_iff D).mpr hw')
        rw [hw] at this
        exact WithTop.coe_le_coe.mp this
      · refine way_of_trail D ht fun q hq => ?_
        obtain ⟨ho, hpq⟩ := trail_open ht q hq
        have hq1 : costs.mask (0, q) = false := by
          rcases ho with rfl | ho
          · exact hm'.1
          · obtain ⟨a, ha⟩ := (D.open' q).mp ho
            exact ha.1
        have hq2 : out.dist q.1 q.2 ≠ ⊤ := (h6 q (hin q hq)).1.mpr hpq
        have hq3 : nullCell costs out (0, q) = false := by
          simp [nullCell, hq1, hq2]
        simp only [assemble, hq3, Bool.false_eq_true, if_false]
      · simp only [assemble, hm, Bool.false_eq_true, if_false]
        have : out.alloc p.1 p.2 = v := by rw [hal]; exact hv1
        rw [this]
        exact he _ _ hv2
      · rintro ⟨v', hv'⟩
        exact hown ((D.source p).mpr ⟨⟨hy, hx⟩, v', hv'⟩)

/-- **C71.**  What is accepted. -/
theorem C71_accepted {np : NumPy} {sqrt : Rat → Rat} {costs : Raster} {resolution : Rat × Rat} {sources : Sources}
    {elevation : Option Raster} {connectivity : Int} {o : Result}
    (h : analysis np sqrt costs resolution sources elevation connectivity = .ok o) :
    costs.nb = 1 ∧ (∀ e, elevation = some e → (e.nb, e.ny, e.nx) = (costs.nb, costs.ny, costs.nx)) ∧
    (∀ r, sources = .raster r → (r.nb, r.ny, r.nx) = (costs.nb, costs.ny, costs.nx) ∧ r.dtype.isInt = true ∧ r.nv ≠ none) ∧
    (∀ l, sources = .indices l → l ≠ [] ∧ l.Nodup ∧ ∀ p ∈ l, ∃ y x : Nat, p = [(y : Int), (x : Int)] ∧ y < costs.ny ∧ x < costs.nx) ∧
    resolution.1 ≠ 0 ∧ resolution.2 ≠ 0 ∧ (connectivity = 4 ∨ connectivity = 8) := by
  unfold analysis at h
  split at h
  · cases h
  next hb =>
  split at h
  · cases h
  next hw =>
  split at h
  · cases h
  next p hp =>
  split at h
  · cases h
  split at h
  · cases h
  next data _ _ e _ =>
  have hrun : ¬ ((|resolution.2| ≤ 0 ∨ |resolution.1| ≤ 0) ∨ ¬ (connectivity = 4 ∨ connectivity = 8)) := by
    intro hc
    simp only [run, CostDistance.costDistance] at h
    by_cases h1 : |resolution.2| ≤ 0 ∨ |resolution.1| ≤ 0
    · rw [if_pos (by simpa [input] using h1)] at h
      cases h
    · rcases hc with hc | hc
      · exact h1 hc
      · rw [if_neg (by simpa [input] using h1), if_pos (by simpa [input] using hc)] at h
        cases h
  rw [not_or, not_or, not_not] at hrun
  obtain ⟨⟨h1, h2⟩, h3⟩ := hrun
  refine ⟨by simpa using hb, ?_, ?_, ?_, ?_, ?_, h3⟩
  · rintro r rfl
    simp only [wrongElevation, decide_eq_true_eq, not_or, ne_eq, not_not] at hw
    exact hw.2.symm
  · rintro r rfl
    simp only [places] at hp
    split at hp
    · cases hp
    next hs =>
    split at hp
    · cases hp
    next hi =>
    split at hp
    · cases hp
    next s hv =>
    exact ⟨by simpa using hs, by simpa using hi, by rw [hv]; simp⟩
  · rintro l rfl
    simp only [places] at hp
    split at hp
    · cases hp
    next h4 =>
    split at hp
    · cases hp
    next h5 =>
    split at hp
    · cases hp
    next h6 =>
    rw [not_or] at h4
    refine ⟨h4.1, by simpa using h5, fun q hq => ?_⟩
    have h7 : q.length = 2 := by
      by_contra hc
      exact h4.2 (List.any_eq_true.mpr ⟨q, hq, by simpa using hc⟩)
    have h8 : outside costs.ny costs.nx q = false := by
      by_contra hc
      exact h6 (List.any_eq_true.mpr ⟨q, hq, by simpa using hc⟩)
    match q, h7 with
    | [y, x], _ =>
      simp only [outside, decide_eq_false_iff_not] at h8
      refine ⟨y.toNat, x.toNat, ?_, ?_, ?_⟩
      · rw [Int.toNat_of_nonneg (by omega), Int.toNat_of_nonneg (by omega)]
      · omega
      · omega
  · intro hc
    exact h2 (by rw [hc]; simp)
  · intro hc
    exact h1 (by rw [hc]; simp)

/-- **C71.**  With a NumPy that does not look at values, unsigned costs that have a null value are rejected. -/
theorem C71_unsigned {np : NumPy} {sqrt : Rat → Rat} {costs : Raster} {resolution : Rat × Rat} {sources : Sources}
    {elevation : Option Raster} {connectivity : Int} (hv : np.valueBased = false) (hu : costs.dtype.isUnsigned = true)
    (hn : costs.nv ≠ none) (o : Result) : analysis np sqrt costs resolution sources elevation connectivity ≠ .ok o := by
  intro h
  have hfill : fill np costs.dtype (-1) = none := by
    unfold fill
    cases hd : costs.dtype <;> simp_all [isUnsigned, isFloat, isBool, limits]
  have hnorm : normalize np costs (-1) = .error .runtime := by
    unfold normalize
    cases hs : costs.nv with
    | none => exact absurd hs hn
    | some s =>
      have hf : costs.dtype.isFloat = false := by cases hd : costs.dtype <;> simp_all [isUnsigned, isFloat]
      simp only [hf, Bool.false_eq_true, if_false]
      unfold replace
      rw [hfill]
  unfold analysis at h
  rw [hnorm] at h
  split at h
  · cases h
  split at h
  · cases h
  split at h <;> cases h

theorem places_error {np : NumPy} {costs : Raster} {sources : Sources} {e : Err} (h : places np costs sources = .error e) :
    e = .value ∨ e = .type ∧ ∃ r, sources = .raster r ∧ r.dtype.isInt = false := by
  cases sources with
  | raster r =>
    simp only [places] at h
    split at h
    · exact .inl (Except.error.inj h).symm
    · split at h
      · next hi => exact .inr ⟨(Except.error.inj h).symm, r, rfl, hi⟩
      · split at h
        · exact .inl (Except.error.inj h).symm
        · cases h
  | indices l =>
    simp only [places] at h
    split at h
    · exact .inl (Except.error.inj h).symm
    · split at h
      · exact .inl (Except.error.inj h).symm
      · split at h
        · exact .inl (Except.error.inj h).symm
        · cases h

theorem normalize_error {np : NumPy} {r : Raster} {k : Int} {e : Err} (h : normalize np r k = .error e) :
    e = .runtime ∧ fill np r.dtype k = none := by
  have hr : ∀ p, replace np r k p = .error e → e = .runtime ∧ fill np r.dtype k = none := by
    intro p hp
    unfold replace at hp
    cases hf : fill np r.dtype k with
    | none => rw [hf] at hp; exact ⟨(Except.error.inj hp).symm, rfl⟩
    | some v => rw [hf] at hp; cases hp
  unfold normalize at h
  split at h
  · cases h
  · split at h
    · split at h
      · exact hr _ h
      · exact hr _ h
    · exact hr _ h

/-- **C71.**  The kinds of errors: a TypeError for sources that are a raster of another than an integer dtype; an OverflowError
(`.runtime`) if the dtype of costs or elevation cannot hold the number that stands for nulls; all others are ValueErrors
(`.index` is what the model gives for an index out of bounds, which does not happen). -/
theorem C71_errors {np : NumPy} {sqrt : Rat → Rat} {costs : Raster} {resolution : Rat × Rat} {sources : Sources}
    {elevation : Option Raster} {connectivity : Int} {e : Err}
    (h : analysis np sqrt costs resolution sources elevation connectivity = .error e) :
    e = .value ∨ (e = .type ∧ ∃ r, sources = .raster r ∧ r.dtype.isInt = false) ∨
      (e = .runtime ∧ (fill np costs.dtype (-1) = none ∨ ∃ r, elevation = some r ∧ fill np r.dtype (-9999) = none)) ∨
      (e = .index ∧ ∃ i, CostDistance.costDistance sqrt i = .ok none) := by
  unfold analysis at h
  split at h
  · exact .inl (Except.error.inj h).symm
  split at h
  · exact .inl (Except.error.inj h).symm
  cases h1 : places np costs sources with
  | error e1 =>
    rw [h1] at h
    cases h
    exact (places_error h1).imp id .inl
  | ok p =>
    cases h2 : normalize np costs (-1) with
    | error e2 =>
      rw [h1, h2] at h
      cases h
      obtain ⟨g1, g2⟩ := normalize_error h2
      exact .inr (.inr (.inl ⟨g1, .inl g2⟩))
    | ok d =>
      cases h3 : heights np elevation with
      | error e3 =>
        rw [h1, h2, h3] at h
        cases h
        cases elevation with
        | none => simp only [heights] at h3; cases h3
        | some r =>
          simp only [heights] at h3
          cases h4 : normalize np r (-9999) with
          | error e4 =>
            rw [h4] at h3
            cases h3
            obtain ⟨g1, g2⟩ := normalize_error h4
            exact .inr (.inr (.inl ⟨g1, .inr ⟨r, rfl, g2⟩⟩))
          | ok d' => rw [h4] at h3; cases h3
      | ok el =>
        rw [h1, h2, h3] at h
        simp only [run] at h
        split at h
        · exact .inl (Except.error.inj h).symm
        · next hn => exact .inr (.inr (.inr ⟨(Except.error.inj h).symm, _, hn⟩))
        · cases h

/-! ### Concrete cases -/

/-- Two rows, three columns. -/
def grid (dt : DType) (nv : Option Scalar) (null : Nat → Nat → Bool) (f : Nat → Nat → Int) : Raster :=
  ⟨dt, 1, 2, 3, fun q => if null q.2.1 q.2.2 then (nv.getD (defaultNull dt)).val else .fin (f q.2.1 q.2.2), fun q => null q.2.1 q.2.2, nv⟩

theorem grid_nulls (dt : DType) (s : Scalar) (null : Nat → Nat → Bool) (f : Nat → Nat → Int) : NullsHold (grid dt (some s) null f) := by
  intro c hm
  have hm : null c.2.1 c.2.2 = true := hm
  exact ⟨s, rfl, by simp [grid, hm]⟩

/-- Costs with a null in the middle of the first row. -/
def exCosts : Raster := grid i16 (some ⟨i16, .fin (-5)⟩) (fun y x => y == 0 && x == 1) fun y x => y + x + 1

/-- One source with the number 7. -/
def exSources : Raster := grid u8 (some ⟨u8, .fin 255⟩) (fun y x => !(y == 0 && x == 0)) fun _ _ => 7

def six : List Place := [(0, 0), (0, 1), (0, 2), (1, 0), (1, 1), (1, 2)]

/-- The values and masks of the results. -/
def show' : Except Err Result → Option (List Num × List Num × List Num × List Bool)
  | .ok o => some (six.map fun p => o.distance.data (0, p), six.map fun p => o.traceback.data (0, p),
      six.map fun p => o.allocation.data (0, p), six.map fun p => o.distance.mask (0, p))
  | .error _ => none

/-- A NumPy whose float16 keeps integers up to 2048 and rounds larger ones to a multiple of 8 (as it is from 8192 to 16384). -/
def halfNumPy : NumPy := ⟨false, fun dt v => match dt, v with
  | f16, .fin q => if |q| ≤ 2048 then .fin q else .fin (8 * ((q / 8 + 1 / 2).floor : Int))
  | _, v => v⟩

def exRun (costs : Raster) (sources : Sources) (elevation : Option Raster) : Except Err Result :=
  analysis halfNumPy CostDistance.exSqrt costs (1, -1) sources elevation 4

theorem half_exact : ExactCast halfNumPy := by
  intro dt n h
  cases dt <;> first | rfl | (obtain ⟨_, _, h, _⟩ := h; cases h)

example : exCosts.nb = 1 ∧ NullsHold exCosts ∧ Fits halfNumPy exCosts.dtype (-1) ∧ GoodSources exCosts (.raster exSources) ∧
    GoodElevation halfNumPy exCosts (fun _ => 0) none ∧ GoodSources exCosts (.indices [[1, 2], [0, 0]]) := by
  refine ⟨rfl, grid_nulls _ _ _ _, ⟨by decide, fun _ => .inl ⟨_, _, rfl, by norm_num, by norm_num⟩⟩,
    ⟨rfl, rfl, grid_nulls _ _ _ _, _, 255, rfl, by norm_num, ⟨_, _, rfl, by norm_num, by norm_num⟩, ?_⟩, fun _ => rfl,
    by decide, by decide, by decide, ?_⟩
  · intro c hm
    have hm : (!(c.2.1 == 0 && c.2.2 == 0)) = false := hm
    exact ⟨7, by simp only [exSources, grid, hm]; simp, ⟨_, _, rfl, by norm_num, by norm_num⟩, by decide⟩
  · intro p hp
    simp only [List.mem_cons, List.not_mem_nil, or_false] at hp
    rcases hp with rfl | rfl
    · exact ⟨1, 2, by simp, by decide, by decide⟩
    · exact ⟨0, 0, by simp, by decide, by decide⟩

/-- Elevations of 0, 10, ..., with a null. -/
def exElevation : Raster := grid i16 (some ⟨i16, .fin (-1)⟩) (fun y x => y == 1 && x == 2) fun y x => 10 * (y + x)

example : GoodElevation halfNumPy exCosts (fun p => 10 * (p.1 + p.2)) (some exElevation) := by
  refine ⟨rfl, grid_nulls _ _ _ _, fun _ => ⟨by decide, fun _ => .inl ⟨_, _, rfl, by norm_num, by norm_num⟩⟩, fun p hm => ⟨?_, ?_⟩⟩
  · have hm : (p.1 == 1 && p.2 == 2) = false := hm
    simp only [exElevation, grid, hm]
    simp
  · have h1 : (0 : Rat) ≤ p.1 := Nat.cast_nonneg _
    have h2 : (0 : Rat) ≤ p.2 := Nat.cast_nonneg _
    intro hc
    linarith

/-- The way to the corner on the right is around the null cell. -/
example : show' (exRun exCosts (.raster exSources) none) = some (
    [.fin 0, .fin (-5), .fin 11, .fin (3 / 2), .fin 4, .fin (15 / 2)],
    [.fin 0, .fin (-1), .fin 3, .fin 7, .fin 5, .fin 5],
    [.fin 7, .fin 255, .fin 7, .fin 7, .fin 7, .fin 7], [false, true, false, false, false, false]) := by decide +kernel

/-- Two sources given by their places. -/
example : show' (exRun exCosts (.indices [[1, 2], [0, 0]]) none) = some (
    [.fin 0, .fin (-5), .fin (7 / 2), .fin (3 / 2), .fin (7 / 2), .fin 0],
    [.fin 0, .fin (-1), .fin 3, .fin 7, .fin 1, .fin 0],
    [.fin 1, .fin (-1), .fin 0, .fin 1, .fin 0, .fin 0], [false, true, false, false, false, false]) := by decide +kernel

/-- The distance and the mask of a cell. -/
def cell : Except Err Result → Place → Option (Num × Bool)
  | .ok o, p => some (o.distance.data (0, p), o.distance.mask (0, p))
  | .error _, _ => none

/-- Costs of 1, but -3 in the first cell. -/
def negative : Raster := grid i16 (some ⟨i16, .fin (-5)⟩) (fun _ _ => false) fun y x => if y = 0 ∧ x = 0 then -3 else 1

/-- **C71 fails** for a source in a cell with a negative cost: such costs are to be treated as nulls, but the distance is valid. -/
theorem C71_negative_source : cell (exRun negative (.raster exSources) none) (0, 0) = some (.fin 0, false) := by decide +kernel

/-- Costs of 1. -/
def even : Raster := grid i16 (some ⟨i16, .fin (-5)⟩) (fun _ _ => false) fun _ _ => 1

/-- An elevation of -9999 in the middle of the first row; no nulls. -/
def deep : Raster := grid i16 none (fun _ _ => false) fun y x => if y = 0 ∧ x = 1 then -9999 else 0

/-- **C71 fails** for a valid elevation of -9999: the cell is taken for null. -/
theorem C71_elevation_9999 : cell (exRun even (.raster exSources) (some deep)) (0, 1) = some (.fin (-5), true) ∧
    ∃ w, Path CostDistance.exSqrt (land even (1, -1) (.raster exSources) (some deep) 4 fun p => if p = (0, 1) then -9999 else 0) (0, 1) w := by
  refine ⟨by decide +kernel, _, Path.step (p := (0, 0)) (a := 1) (b := 1) (Path.source (v := 7) ⟨by decide, by decide⟩ ⟨rfl, ?_⟩)
    ⟨rfl, ?_, by norm_num, ?_⟩ ⟨by decide, by decide⟩ ⟨rfl, ?_, by norm_num, ?_⟩ ⟨by decide, by decide, by decide, .inr (.inl rfl)⟩⟩
  · simp [exSources, grid]
  · simp [even, grid]
  · intro e he
    cases he
    rfl
  · simp [even, grid]
  · intro e he
    cases he
    rfl

/-- Elevations in float16 with a null in the middle of the first row. -/
def half : Raster := grid f16 (some ⟨f16, .fin (-1)⟩) (fun y x => y == 0 && x == 1) fun _ _ => 0

/-- **C71 fails** for a null elevation in float16: -9999 becomes -10000, which is an elevation as any other, and the cell is crossed. -/
theorem C71_float16_elevation : cell (exRun even (.raster exSources) (some half)) (0, 1) = some (.fin 100000001, false) ∧
    ∀ h w, ¬ Path CostDistance.exSqrt (land even (1, -1) (.raster exSources) (some half) 4 h) (0, 1) w := by
  refine ⟨by decide +kernel, fun h w hp => ?_⟩
  cases hp with
  | source _ hv =>
    obtain ⟨hm, -⟩ := hv
    exact absurd hm (by decide)
  | step _ _ _ hb _ =>
    obtain ⟨-, -, -, hm⟩ := hb
    exact absurd (hm half rfl) (by decide)

/-- Costs whose null value is 0. -/
def zero : Raster := grid i16 (some ⟨i16, .fin 0⟩) (fun _ _ => false) fun _ _ => 1

/-- **C71.**  If the null value of the costs is 0, the distance of a source is valid but equal to the null value. -/
theorem C71_null_zero : cell (exRun zero (.raster exSources) none) (0, 0) = some (.fin 0, false) ∧ zero.nv = some ⟨i16, .fin 0⟩ := by
  decide +kernel

example : (idNumPy false).valueBased = false ∧ (grid u8 (some ⟨u8, .fin 255⟩) (fun _ _ => false) fun _ _ => 1).dtype.isUnsigned = true ∧
    (grid u8 (some ⟨u8, .fin 255⟩) (fun _ _ => false) fun _ _ => 1).nv ≠ none := by decide

/-- Two bands; elevation with other columns; an index outside; connectivity 5; sources that are not integers; unsigned costs. -/
example : (match analysis halfNumPy CostDistance.exSqrt { exCosts with nb := 2 } (1, -1) (.raster exSources) none 4 with
      | .error .value => true | _ => false) = true ∧
    (match analysis halfNumPy CostDistance.exSqrt exCosts (1, -1) (.indices [[2, 2]]) none 4 with
      | .error .value => true | _ => false) = true ∧
    (match analysis halfNumPy CostDistance.exSqrt exCosts (1, -1) (.raster exSources) none 5 with
      | .error .value => true | _ => false) = true ∧
    (match analysis halfNumPy CostDistance.exSqrt exCosts (1, -1) (.raster { exSources with dtype := f32 }) none 4 with
      | .error .type => true | _ => false) = true ∧
    (match analysis halfNumPy CostDistance.exSqrt { exCosts with dtype := u8 } (1, -1) (.raster exSources) none 4 with
      | .error .runtime => true | _ => false) = true := by decide +kernel

end Verif.CostRaster
