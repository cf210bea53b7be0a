import Verif.Zonal.Model
import Verif.Stats.Props
import Verif.Nulls.RasterProps

/-!
# Properties of the zonal statistics: C32
-/

set_option linter.unusedSectionVars false

namespace Verif.Zonal

open Verif Verif.Nulls DType
open Verif.Stats.Spec (valid Le IsMode)

namespace Spec

/-- The values of band `b` in zone `z`: those of the cells that are valid in both rasters, as float64. -/
def zoneValues (np : NumPy) (features data : Raster) (b : Nat) (z : Num) : List Num :=
  (List.range data.ny).flatMap fun y => (List.range data.nx).filterMap fun x =>
    if features.mask (0, y, x) = false ∧ features.data (0, y, x) = z ∧ data.mask (b, y, x) = false then
      some (if data.dtype = f64 then data.data (b, y, x) else np.cast f64 (data.data (b, y, x)))
    else none

/-- All cells. -/
def allCells (ny nx : Nat) : List (Nat × Nat) := (List.range ny).flatMap fun y => (List.range nx).map fun x => (y, x)

/-- The mask marks the cells that hold the null value, as it does for rasters that were read or built from an array. -/
def Consistent (r : Raster) : Prop := ∀ c, r.Has c → r.mask c = maskOf (r.nv.map (·.val)) (r.data c)

end Spec

open Spec

/-! ### Counting -/

/-- The count of `v`. -/
def tally (p : Pairs) (v : Num) : Nat := (p.map fun e => if e.1 = v then e.2 else 0).sum

theorem same_iff (w v : Num) : (w.eq v || (w.isnan && v.isnan)) = true ↔ w = v := by
  cases w <;> cases v <;> simp [Num.eq, Num.isnan]

theorem tally_insert (v : Num) (n : Nat) : ∀ (p : Pairs) (u : Num),
    tally (insertCount v n p) u = tally p u + if v = u then n else 0
  | [], u => by simp [insertCount, tally]
  | (w, m) :: l, u => by
    have ih := tally_insert v n l u
    unfold insertCount
    by_cases h : w = v
    · rw [if_pos ((same_iff w v).mpr h)]
      subst h
      by_cases hu : w = u
      · simp only [tally, List.map_cons, List.sum_cons, if_pos hu]; omega
      · simp only [tally, List.map_cons, List.sum_cons, if_neg hu]; omega
    · rw [if_neg (fun g => h ((same_iff w v).mp g))]
      split
      · simp only [tally, List.map_cons, List.sum_cons]; omega
      · simp only [tally, List.map_cons, List.sum_cons] at ih ⊢; omega

theorem mem_insert (v : Num) (n : Nat) : ∀ (p : Pairs) (u : Num),
    u ∈ (insertCount v n p).map (·.1) ↔ u = v ∨ u ∈ p.map (·.1)
  | [], u => by simp [insertCount]
  | (w, m) :: l, u => by
    have ih := mem_insert v n l u
    unfold insertCount
    by_cases h : w = v
    · rw [if_pos ((same_iff w v).mpr h)]
      subst h
      simp
    · rw [if_neg (fun g => h ((same_iff w v).mp g))]
      split
      · simp
      · rw [List.map_cons, List.mem_cons, ih, List.map_cons, List.mem_cons]
        tauto

/-- Keys in strictly ascending order. -/
def Ascending (p : Pairs) : Prop := (p.map (·.1)).Pairwise fun a b => Le a b ∧ a ≠ b

theorem ascending_insert {v : Num} (hv : v ≠ .nan) (n : Nat) : ∀ {p : Pairs}, (∀ e ∈ p, e.1 ≠ .nan) → Ascending p →
    Ascending (insertCount v n p)
  | [], _, _ => by simp [insertCount, Ascending]
  | (w, m) :: l, hn, h => by
    have hw : w ≠ .nan := hn (w, m) (by simp)
    have hl : ∀ e ∈ l, e.1 ≠ .nan := fun e he => hn e (List.mem_cons_of_mem _ he)
    obtain ⟨h1, h2⟩ := List.pairwise_cons.mp h
    unfold insertCount
    by_cases he : w = v
    · rw [if_pos ((same_iff w v).mpr he)]
      exact h
    · rw [if_neg (fun g => he ((same_iff w v).mp g))]
      have hwn : w.isnan = false := by cases w <;> simp_all [Num.isnan]
      by_cases hlt : Stats.lt v w = true
      · rw [if_pos (by rw [hlt]; rfl)]
        obtain ⟨g1, g2⟩ := (Stats.lt_iff hv hw).mp hlt
        refine List.pairwise_cons.mpr ⟨?_, h⟩
        intro u hu
        rw [List.map_cons, List.mem_cons] at hu
        rcases hu with rfl | hu
        · exact ⟨g1, g2⟩
        · obtain ⟨k1, k2⟩ := h1 u hu
          refine ⟨Stats.le_trans' g1 k1, ?_⟩
          rintro rfl
          exact g2 (Stats.le_antisymm' g1 k1)
      · rw [if_neg (by rw [hwn, Bool.or_false]; exact hlt)]
        refine List.pairwise_cons.mpr ⟨?_, ascending_insert hv n hl h2⟩
        intro u hu
        rcases (mem_insert v n l u).mp hu with rfl | hu
        · rcases Stats.le_total' hw hv with g | g
          · exact ⟨g, he⟩
          · exact absurd ((Stats.lt_iff hv hw).mpr ⟨g, fun e => he e.symm⟩) hlt
        · exact h1 u hu

theorem tally_unique (s : List Num) (u : Num) : tally (uniqueCounts s) u = s.count u := by
  unfold uniqueCounts
  have : ∀ (s : List Num) (p : Pairs), tally (s.foldl (fun p v => insertCount v 1 p) p) u = tally p u + s.count u := by
    intro s
    induction s with
    | nil => intro p; simp
    | cons v s ih =>
      intro p
      rw [List.foldl_cons, ih, tally_insert, List.count_cons]
      by_cases h : v = u
      · simp [h]; omega
      · have : (v == u) = false := by simpa using h
        simp [h, this]
  rw [this]
  simp [tally]

theorem combine_fold (q : Pairs) (hq : ∀ e ∈ q, e.1 ≠ .nan) : ∀ (p : Pairs), (∀ e ∈ p, e.1 ≠ .nan) → Ascending p →
    (∀ e ∈ q.foldl (fun p e => insertCount e.1 e.2 p) p, e.1 ≠ .nan) ∧
    Ascending (q.foldl (fun p e => insertCount e.1 e.2 p) p) ∧
    (∀ u, tally (q.foldl (fun p e => insertCount e.1 e.2 p) p) u = tally p u + tally q u) ∧
    ∀ u, u ∈ (q.foldl (fun p e => insertCount e.1 e.2 p) p).map (·.1) ↔ u ∈ p.map (·.1) ∨ u ∈ q.map (·.1) := by
  induction q with
  | nil => intro p h1 h2; exact ⟨h1, h2, fun u => by simp [tally], fun u => by simp⟩
  | cons e q ih =>
    intro p h1 h2
    have he := hq e (by simp)
    obtain ⟨k1, k2, k3, k4⟩ := ih (fun e he => hq e (List.mem_cons_of_mem _ he)) (insertCount e.1 e.2 p) (by
      intro e' he'
      have : e'.1 ∈ (insertCount e.1 e.2 p).map (·.1) := List.mem_map_of_mem he'
      rcases (mem_insert _ _ _ _).mp this with g | g
      · rw [g]; exact he
      · obtain ⟨e'', m, g⟩ := List.mem_map.mp g
        rw [← g]; exact h1 e'' m) (ascending_insert he e.2 h1 h2)
    refine ⟨k1, k2, ?_, ?_⟩
    · intro u
      rw [List.foldl_cons, k3, tally_insert]
      simp only [tally, List.map_cons, List.sum_cons]
      omega
    · intro u
      rw [List.foldl_cons, k4, mem_insert, List.map_cons, List.mem_cons]
      tauto

/-- What the combination of counts gives: ascending values without NaN, with the sums of the counts. -/
theorem combine_spec (s : List Pairs) : (∀ e ∈ combineCounts s, e.1 ≠ .nan) ∧ Ascending (combineCounts s) ∧
    (∀ u, u ≠ .nan → tally (combineCounts s) u = (s.map fun p => tally p u).sum) ∧
    ∀ u, u ∈ (combineCounts s).map (·.1) ↔ u ≠ .nan ∧ ∃ p ∈ s, u ∈ p.map (·.1) := by
  have hnan : ∀ v : Num, (!v.isnan) = true ↔ v ≠ .nan := by intro v; cases v <;> simp [Num.isnan]
  obtain ⟨h1, h2, h3, h4⟩ := combine_fold (s.flatten.filter fun e => !e.1.isnan)
    (fun e he => (hnan _).mp (List.mem_filter.mp he).2) [] (by simp) (by simp [Ascending])
  refine ⟨h1, h2, ?_, ?_⟩
  · intro u hu
    unfold combineCounts
    rw [h3]
    have hf : ∀ q : Pairs, tally (q.filter fun e => !e.1.isnan) u = tally q u := by
      intro q
      induction q with
      | nil => rfl
      | cons e q ih =>
        by_cases he : (!e.1.isnan) = true
        · rw [List.filter_cons_of_pos (p := fun e : Num × Nat => !e.1.isnan) he]
          simp only [tally, List.map_cons, List.sum_cons] at ih ⊢
          rw [ih]
        · rw [List.filter_cons_of_neg (p := fun e : Num × Nat => !e.1.isnan) he, ih]
          have : e.1 ≠ u := fun g => he ((hnan _).mpr (g ▸ hu))
          simp [tally, this]
    rw [hf]
    induction s with
    | nil => simp [tally]
    | cons p s ih =>
      have : tally (p :: s).flatten u = tally p u + tally s.flatten u := by
        simp [tally, List.sum_append]
      rw [this, List.map_cons, List.sum_cons]
      have ih := ih (combine_fold _ (fun e he => (hnan _).mp (List.mem_filter.mp he).2) [] (by simp)
        (by simp [Ascending])).1 (combine_fold _ (fun e he => (hnan _).mp (List.mem_filter.mp he).2) [] (by simp)
        (by simp [Ascending])).2.1 (combine_fold _ (fun e he => (hnan _).mp (List.mem_filter.mp he).2) [] (by simp)
        (by simp [Ascending])).2.2.1 (combine_fold _ (fun e he => (hnan _).mp (List.mem_filter.mp he).2) [] (by simp)
        (by simp [Ascending])).2.2.2
      simp only [tally, List.map_nil, List.sum_nil] at ih ⊢
      omega
  · intro u
    unfold combineCounts
    rw [h4]
    constructor
    · rintro (h | h)
      · cases h
      · obtain ⟨e, he, rfl⟩ := List.mem_map.mp h
        obtain ⟨hm, hn⟩ := List.mem_filter.mp he
        obtain ⟨p, hp, hm⟩ := List.mem_flatten.mp hm
        exact ⟨(hnan _).mp hn, p, hp, List.mem_map_of_mem hm⟩
    · rintro ⟨hn, p, hp, hm⟩
      obtain ⟨e, he, rfl⟩ := List.mem_map.mp hm
      exact Or.inr (List.mem_map_of_mem (List.mem_filter.mpr ⟨List.mem_flatten.mpr ⟨p, hp, he⟩, (hnan _).mpr hn⟩))

/-! ### Every reduction counts the values of the zone -/

theorem groupOf_append (z : Num) (a b : List Row) : groupOf z (a ++ b) = groupOf z a ++ groupOf z b := by
  simp [groupOf]

theorem groupOf_flatten (z : Num) (l : List (List Row)) : groupOf z l.flatten = (l.map (groupOf z)).flatten := by
  induction l with
  | nil => rfl
  | cons a l ih => rw [List.flatten_cons, groupOf_append, ih]; rfl

/-- A partial result: missing exactly if the zone does not occur, otherwise right in the sense of `R`. -/
def Right {σ : Type} (R : List Num → σ → Prop) (z : Num) (rows : List Row) (o : Option σ) : Prop :=
  match o with
  | none => groupOf z rows = []
  | some s => groupOf z rows ≠ [] ∧ R (groupOf z rows) s

/-- The results that are there belong to the values of the zone. -/
theorem right_node {σ : Type} {R : List Num → σ → Prop} {z : Num} {l : List (List Row × Option σ)}
    (h : ∀ e ∈ l, Right R z e.1 e.2) : ∃ m : List (List Num × σ), (∀ e ∈ m, R e.1 e.2) ∧
      groupOf z (l.map (·.1)).flatten = (m.map (·.1)).flatten ∧ (l.map (·.2)).filterMap id = m.map (·.2) ∧
      (∀ e ∈ m, e.1 ≠ []) := by
  induction l with
  | nil => exact ⟨[], by simp, rfl, rfl, by simp⟩
  | cons e l ih =>
    obtain ⟨m, h1, h2, h3, h4⟩ := ih (fun e he => h e (List.mem_cons_of_mem _ he))
    have he := h e (by simp)
    obtain ⟨rows, o⟩ := e
    simp only [List.map_cons, List.flatten_cons]
    rw [groupOf_append, h2]
    cases o with
    | none =>
      refine ⟨m, h1, ?_, ?_, h4⟩
      · rw [show groupOf z rows = [] from he, List.nil_append]
      · rw [List.filterMap_cons_none rfl, h3]
    | some s =>
      refine ⟨(groupOf z rows, s) :: m, ?_, rfl, ?_, ?_⟩
      · intro e' he'
        rcases List.mem_cons.mp he' with rfl | g
        · exact he.2
        · exact h1 e' g
      · rw [List.filterMap_cons_some (f := id) (b := s) rfl, h3]; rfl
      · intro e' he'
        rcases List.mem_cons.mp he' with rfl | g
        · exact he.1
        · exact h4 e' g

theorem right_agg {σ : Type} {R R' : List Num → σ → Prop} {agg : List σ → σ} {z : Num}
    (hagg : ∀ m : List (List Num × σ), m ≠ [] → (∀ e ∈ m, R e.1 e.2) → R' (m.map (·.1)).flatten (agg (m.map (·.2))))
    {l : List (List Row × Option σ)} (h : ∀ e ∈ l, Right R z e.1 e.2) :
    Right R' z (l.map (·.1)).flatten (aggStep agg (l.map (·.2))) := by
  obtain ⟨m, h1, h2, h3, h4⟩ := right_node h
  unfold aggStep
  rw [h3]
  cases m with
  | nil => exact h2
  | cons e m =>
    refine ⟨?_, ?_⟩
    · rw [h2]
      have := h4 e (by simp)
      simp [this]
    · rw [h2]
      exact hagg (e :: m) (by simp) h1

theorem reduces_right {σ : Type} {R : List Num → σ → Prop} {chunk : List Num → σ} {agg : List σ → σ} {z : Num}
    (hchunk : ∀ s, s ≠ [] → R s (chunk s))
    (hagg : ∀ m : List (List Num × σ), m ≠ [] → (∀ e ∈ m, R e.1 e.2) → R (m.map (·.1)).flatten (agg (m.map (·.2))))
    {rows : List Row} {o : Option σ} (h : Reduces chunk agg z rows o) : Right R z rows o := by
  induction h with
  | leaf rows =>
    unfold chunkStep
    cases hg : groupOf z rows with
    | nil => exact hg
    | cons v l => exact ⟨by rw [hg]; simp, by rw [hg]; exact hchunk _ (by simp)⟩
  | node l _ ih => exact right_agg hagg ih

/-- The counts are right for all numbers. -/
def Counted (s : List Num) (p : Pairs) : Prop :=
  (∀ v, v ≠ .nan → tally p v = s.count v) ∧ ∀ v, v ≠ .nan → (v ∈ p.map (·.1) ↔ v ∈ s)

theorem counted_chunk (s : List Num) : Counted s (uniqueCounts s) := by
  refine ⟨fun v _ => tally_unique s v, ?_⟩
  intro v _
  unfold uniqueCounts
  have : ∀ (s : List Num) (p : Pairs), v ∈ (s.foldl (fun p v => insertCount v 1 p) p).map (·.1) ↔ v ∈ p.map (·.1) ∨ v ∈ s := by
    intro s
    induction s with
    | nil => intro p; simp
    | cons w s ih =>
      intro p
      rw [List.foldl_cons, ih, mem_insert, List.mem_cons]
      tauto
  rw [this]
  simp

theorem counted_agg (m : List (List Num × Pairs)) (h : ∀ e ∈ m, Counted e.1 e.2) :
    Stats.IsCount (combineCounts (m.map (·.2))) (valid (m.map (·.1)).flatten) ∧
    Counted (m.map (·.1)).flatten (combineCounts (m.map (·.2))) := by
  obtain ⟨h1, h2, h3, h4⟩ := combine_spec (m.map (·.2))
  have hcounted : Counted (m.map (·.1)).flatten (combineCounts (m.map (·.2))) := by
    constructor
    · intro v hv
      rw [h3 v hv, List.count_flatten, List.map_map, List.map_map]
      congr 1
      apply List.map_congr_left
      intro e he
      exact (h e he).1 v hv
    · intro v hv
      rw [h4]
      constructor
      · rintro ⟨_, p, hp, hm⟩
        obtain ⟨e, he, rfl⟩ := List.mem_map.mp hp
        exact List.mem_flatten.mpr ⟨e.1, List.mem_map_of_mem he, ((h e he).2 v hv).mp hm⟩
      · intro hm
        obtain ⟨s, hs, hm⟩ := List.mem_flatten.mp hm
        obtain ⟨e, he, rfl⟩ := List.mem_map.mp hs
        exact ⟨hv, e.2, List.mem_map_of_mem he, ((h e he).2 v hv).mpr hm⟩
  refine ⟨?_, hcounted⟩
  have hnodup : ((combineCounts (m.map (·.2))).map Prod.fst).Nodup := h2.imp fun h => h.2
  have htally : ∀ (p : Pairs), (p.map Prod.fst).Nodup → ∀ e ∈ p, tally p e.1 = e.2 := by
    intro p
    induction p with
    | nil => simp
    | cons a p ih =>
      intro hp e he
      obtain ⟨g1, g2⟩ := List.nodup_cons.mp hp
      have hz : ∀ (p : Pairs) (u : Num), u ∉ p.map Prod.fst → tally p u = 0 := by
        intro p u hu
        unfold tally
        rw [List.sum_eq_zero]
        intro x hx
        obtain ⟨e, he, rfl⟩ := List.mem_map.mp hx
        rw [if_neg]
        rintro rfl
        exact hu (List.mem_map_of_mem he)
      rcases List.mem_cons.mp he with rfl | he
      · have := hz p _ g1
        simp only [tally, List.map_cons, List.sum_cons, if_true] at this ⊢
        omega
      · have := ih g2 e he
        have hne : a.1 ≠ e.1 := fun g => g1 (g ▸ List.mem_map_of_mem he)
        simp only [tally, List.map_cons, List.sum_cons, if_neg hne] at this ⊢
        omega
  refine ⟨hnodup, ?_, ?_, ?_⟩
  · intro v
    rw [Stats.mem_valid]
    constructor
    · intro hm
      obtain ⟨e, he, rfl⟩ := List.mem_map.mp hm
      exact ⟨(hcounted.2 _ (h1 e he)).mp hm, h1 e he⟩
    · rintro ⟨hm, hv⟩
      exact (hcounted.2 v hv).mpr hm
  · intro e he
    rw [← htally _ hnodup e he, hcounted.1 e.1 (h1 e he)]
    unfold valid
    rw [List.count_filter (by simpa using h1 e he)]
  · intro e he
    exact h1 e he

/-- After the last combination the counts are those of the values of the zone without NaN. -/
theorem aggregates_counts {τ : Type} {fin : Pairs → τ} {z : Num} {rows : List Row} {out : Option τ}
    (h : Aggregates uniqueCounts combineCounts fin z rows out) :
    (groupOf z rows = [] ∧ out = none) ∨
    (groupOf z rows ≠ [] ∧ ∃ p, out = some (fin p) ∧ Stats.IsCount p (valid (groupOf z rows))) := by
  obtain ⟨l, hl, rfl, rfl⟩ := h
  have := right_agg (R' := fun s p => Stats.IsCount p (valid s)) (fun m _ hm => (counted_agg m hm).1)
    (fun e he => reduces_right (fun s _ => counted_chunk s) (fun m _ hm => (counted_agg m hm).2) (hl e he))
  cases ho : aggStep combineCounts (l.map (·.2)) with
  | none => rw [ho] at this; exact Or.inl ⟨this, rfl⟩
  | some p => rw [ho] at this; exact Or.inr ⟨this.1, p, rfl, this.2⟩

/-! ### Mode -/

theorem leNum_trans (a b c : Num) (h1 : leNum a b = true) (h2 : leNum b c = true) : leNum a c = true := by
  cases a <;> cases b <;> cases c <;> simp_all [leNum]
  exact le_trans h1 h2

theorem leNum_total (a b : Num) : (leNum a b || leNum b a) = true := by
  cases a <;> cases b <;> simp [leNum, le_total]

theorem leNum_iff {a b : Num} (ha : a ≠ .nan) (hb : b ≠ .nan) : leNum a b = true ↔ Le a b := by
  cases a <;> cases b <;> simp_all [leNum, Le]

theorem modeFin_spec {p : Pairs} {l : List Num} (h : Stats.IsCount p (valid l)) :
    (valid l = [] → modeFin p = .nan) ∧ (valid l ≠ [] → IsMode l (modeFin p)) := by
  obtain ⟨h1, h2, h3, h4⟩ := h
  have hperm := List.mergeSort_perm p modeOrder
  have hsort : (p.mergeSort modeOrder).Pairwise fun a b => modeOrder a b = true := by
    apply List.pairwise_mergeSort
    · intro a b c g1 g2
      simp only [modeOrder, Bool.or_eq_true, decide_eq_true_eq, Bool.and_eq_true, beq_iff_eq] at *
      rcases g1 with g1 | ⟨g1, k1⟩ <;> rcases g2 with g2 | ⟨g2, k2⟩
      · left; omega
      · left; omega
      · left; omega
      · right; exact ⟨by omega, leNum_trans _ _ _ k1 k2⟩
    · intro a b
      have := leNum_total a.1 b.1
      simp only [modeOrder, Bool.or_eq_true, decide_eq_true_eq, Bool.and_eq_true, beq_iff_eq] at *
      rcases Nat.lt_trichotomy a.2 b.2 with g | g | g
      · right; left; exact g
      · rcases this with k | k
        · left; right; exact ⟨g, k⟩
        · right; right; exact ⟨g.symm, k⟩
      · left; left; exact g
  unfold modeFin
  constructor
  · intro he
    have : p = [] := by
      cases p with
      | nil => rfl
      | cons e p =>
        have := (h2 e.1).mp (by simp)
        rw [he] at this
        cases this
    rw [this]
    simp
  · intro hne
    cases hs : p.mergeSort modeOrder with
    | nil =>
      rw [hs] at hperm
      have : p = [] := List.nil_perm.mp hperm
      obtain ⟨v, hv⟩ := List.exists_mem_of_ne_nil _ hne
      have := (h2 v).mpr hv
      simp_all
    | cons e q =>
      rw [hs] at hperm hsort
      have hall : ∀ e' ∈ p, e' = e ∨ modeOrder e e' = true := by
        intro e' he'
        rcases List.mem_cons.mp (hperm.mem_iff.mpr he') with g | g
        · exact Or.inl g
        · exact Or.inr ((List.pairwise_cons.mp hsort).1 e' g)
      have hmem : e ∈ p := hperm.mem_iff.mp (by simp)
      have hem : e.1 ∈ valid l := (h2 e.1).mp (List.mem_map_of_mem hmem)
      refine ⟨hem, ?_⟩
      intro v hv
      obtain ⟨e', he', rfl⟩ := List.mem_map.mp ((h2 v).mpr hv)
      rw [← h3 e hmem, ← h3 e' he']
      rcases hall e' he' with rfl | g
      · exact ⟨le_refl _, fun _ => Stats.le_refl' (h4 _ hmem)⟩
      · simp only [modeOrder, Bool.or_eq_true, decide_eq_true_eq, Bool.and_eq_true, beq_iff_eq] at g
        refine ⟨by omega, ?_⟩
        intro heq
        rcases g with g | ⟨_, g⟩
        · omega
        · exact (leNum_iff (h4 _ hmem) (h4 _ he')).mp g

/-! ### Angular second moment and entropy -/

theorem isCount_length {p : Pairs} {l : List Num} (h : Stats.IsCount p l) : (p.map (·.2)).sum = l.length := by
  have hfin : l.toFinset = (p.map Prod.fst).toFinset := by
    ext v
    rw [List.mem_toFinset, List.mem_toFinset, h.2.1]
  have e : (p.map (·.2)) = p.map ((fun v => l.count v) ∘ Prod.fst) := by
    apply List.map_congr_left
    intro e he
    exact h.2.2.1 e he
  rw [e, ← List.map_map, ← List.sum_toFinset _ h.1, ← hfin]
  exact List.sum_toFinset_count_eq_length l

theorem isCount_empty {p : Pairs} {l : List Num} (h : Stats.IsCount p l) : p = [] ↔ l = [] := by
  constructor
  · rintro rfl
    cases l with
    | nil => rfl
    | cons v l =>
      have := (h.2.1 v).mpr (by simp)
      cases this
  · rintro rfl
    cases p with
    | nil => rfl
    | cons e p =>
      have := (h.2.1 e.1).mp (by simp)
      cases this

section Field

variable {K : Type} [Field K]

theorem asmFin_spec {p : Pairs} {l : List Num} (h : Stats.IsCount p l) : (asmFin p : Option K) =
    if l = [] then none else some (∑ v ∈ l.toFinset, ((l.count v : K) / (l.length : K)) ^ 2) := by
  have hf : ∀ (n : K) (c : List Nat) (a : K), c.foldl (fun asm (cnt : Nat) => asm + (cnt * (1 / n)) * (cnt * (1 / n))) a =
      a + (c.map fun k : Nat => ((k : K) / n) ^ 2).sum := by
    intro n c
    induction c with
    | nil => intro a; simp
    | cons e c ih =>
      intro a
      rw [List.foldl_cons, ih, List.map_cons, List.sum_cons]
      ring
  unfold asmFin
  simp only
  by_cases he : l = []
  · rw [if_pos he, (isCount_empty h).mpr he]
    rfl
  · have hp : p ≠ [] := fun g => he ((isCount_empty h).mp g)
    rw [if_neg he, if_neg (by simpa using hp), hf, zero_add, isCount_length h, List.map_map]
    congr 1
    exact Stats.isCount_sum h (fun k => ((k : K) / (l.length : K)) ^ 2)

theorem entropyFin_spec (log : K → K) {p : Pairs} {l : List Num} (h : Stats.IsCount p l) : entropyFin log p =
    if l = [] then none else some (- ∑ v ∈ l.toFinset, (l.count v : K) / (l.length : K) *
      log ((l.count v : K) / (l.length : K))) := by
  have hf : ∀ (n : K) (c : List Nat) (a : K),
      c.foldl (fun entropy (cnt : Nat) => entropy - (cnt * (1 / n)) * log (cnt * (1 / n))) a =
      a - (c.map fun k : Nat => ((k : K) / n) * log ((k : K) / n)).sum := by
    intro n c
    induction c with
    | nil => intro a; simp
    | cons e c ih =>
      intro a
      rw [List.foldl_cons, ih, List.map_cons, List.sum_cons, mul_one_div]
      ring
  unfold entropyFin
  simp only
  by_cases he : l = []
  · rw [if_pos he, (isCount_empty h).mpr he]
    rfl
  · have hp : p ≠ [] := fun g => he ((isCount_empty h).mp g)
    rw [if_neg he, if_neg (by simpa using hp), hf, zero_sub, isCount_length h, List.map_map]
    congr 2
    exact Stats.isCount_sum h (fun k => ((k : K) / (l.length : K)) * log ((k : K) / (l.length : K)))

end Field

/-! ### Number of values -/

theorem setAdd_mem {s : List Num} (hs : ∀ v ∈ s, v ≠ .nan) {v : Num} (hv : v ≠ .nan) (h : s.Nodup) :
    (Stats.setAdd s v).Nodup ∧ ∀ u, u ∈ Stats.setAdd s v ↔ u ∈ s ∨ u = v := by
  have hany : s.any (·.eq v) = true ↔ v ∈ s := by
    rw [List.any_eq_true]
    constructor
    · rintro ⟨w, hw, he⟩
      rw [← ((Stats.eq_iff _ _).mp he).1]
      exact hw
    · exact fun hm => ⟨v, hm, (Stats.eq_iff _ _).mpr ⟨rfl, hv⟩⟩
  unfold Stats.setAdd
  by_cases hm : v ∈ s
  · rw [if_pos (hany.mpr hm)]
    exact ⟨h, fun u => ⟨Or.inl, fun g => g.elim id (fun e => e ▸ hm)⟩⟩
  · rw [if_neg (fun g => hm (hany.mp g))]
    refine ⟨?_, fun u => by simp⟩
    rw [List.nodup_append]
    refine ⟨h, by simp, ?_⟩
    intro a ha b hb
    simp only [List.mem_singleton] at hb
    rintro rfl
    exact hm (hb ▸ ha)

theorem nuniqueFin_spec (l : List Num) (hl : ∀ v ∈ l, v ≠ .nan) : nuniqueFin l = l.toFinset.card := by
  have : ∀ (l s : List Num), (∀ v ∈ l, v ≠ .nan) → (∀ v ∈ s, v ≠ .nan) → s.Nodup →
      (l.foldl Stats.setAdd s).Nodup ∧ ∀ u, u ∈ l.foldl Stats.setAdd s ↔ u ∈ s ∨ u ∈ l := by
    intro l
    induction l with
    | nil => intro s _ _ h; exact ⟨h, fun u => by simp⟩
    | cons v l ih =>
      intro s hl hs h
      obtain ⟨g1, g2⟩ := setAdd_mem hs (hl v (by simp)) h
      obtain ⟨k1, k2⟩ := ih (Stats.setAdd s v) (fun v hv => hl v (List.mem_cons_of_mem _ hv)) (by
        intro u hu
        rcases (g2 u).mp hu with g | rfl
        · exact hs u g
        · exact hl u (by simp)) g1
      refine ⟨k1, fun u => ?_⟩
      rw [List.foldl_cons, k2, g2, List.mem_cons]
      tauto
  obtain ⟨h1, h2⟩ := this l [] hl (by simp) (by simp)
  unfold nuniqueFin
  rw [← List.toFinset_card_of_nodup h1]
  congr 1
  ext v
  rw [List.mem_toFinset, List.mem_toFinset, h2]
  simp

/-- The lists hold the same values. -/
def SameValues (s l : List Num) : Prop := ∀ v, v ∈ l ↔ v ∈ valid s

theorem aggregates_nunique {z : Num} {rows : List Row} {out : Option Nat}
    (h : Aggregates uniqueList concatLists nuniqueFin z rows out) :
    (groupOf z rows = [] ∧ out = none) ∨
    (groupOf z rows ≠ [] ∧ out = some (valid (groupOf z rows)).toFinset.card) := by
  obtain ⟨l, hl, rfl, rfl⟩ := h
  have hagg : ∀ m : List (List Num × List Num), m ≠ [] → (∀ e ∈ m, SameValues e.1 e.2) →
      SameValues (m.map (·.1)).flatten (concatLists (m.map (·.2))) := by
    intro m _ hm v
    unfold concatLists
    rw [List.mem_flatten, Stats.mem_valid, List.mem_flatten]
    constructor
    · rintro ⟨s, hs, hv⟩
      obtain ⟨e, he, rfl⟩ := List.mem_map.mp hs
      have := Stats.mem_valid.mp ((hm e he v).mp hv)
      exact ⟨⟨e.1, List.mem_map_of_mem he, this.1⟩, this.2⟩
    · rintro ⟨⟨s, hs, hv⟩, hn⟩
      obtain ⟨e, he, rfl⟩ := List.mem_map.mp hs
      exact ⟨e.2, List.mem_map_of_mem he, (hm e he v).mpr (Stats.mem_valid.mpr ⟨hv, hn⟩)⟩
  have := right_agg hagg
    (fun e he => reduces_right (fun s _ => fun v => (Stats.unique_set s).2 v) hagg (hl e he))
  cases ho : aggStep concatLists (l.map (·.2)) with
  | none => rw [ho] at this; exact Or.inl ⟨this, rfl⟩
  | some p =>
    rw [ho] at this
    refine Or.inr ⟨this.1, ?_⟩
    rw [Option.map_some, nuniqueFin_spec p (fun v hv => (Stats.mem_valid.mp ((this.2 v).mp hv)).2)]
    congr 2
    ext v
    rw [List.mem_toFinset, List.mem_toFinset]
    exact this.2 v

/-! ### From rasters -/

/-- What the theorems assume of the two rasters: a feature raster of the same shape, masks that
mark the null values, and a conversion to float64 that keeps NaN. -/
structure Input (np : NumPy) (features data : Raster) (b : Nat) (z : Num) : Prop where
  band : b < data.nb
  oneBand : features.nb = 1
  rows : features.ny = data.ny
  cols : features.nx = data.nx
  features : Consistent features
  data : Consistent data
  castNan : np.cast f64 .nan = .nan
  zone : z ≠ .nan

/-- The cell lies in the zone. -/
def Inside (features : Raster) (z : Num) (y x : Nat) : Prop :=
  features.mask (0, y, x) = false ∧ features.data (0, y, x) = z

theorem row_inside {np : NumPy} {features data : Raster} {b : Nat} {z : Num} (h : Input np features data b z) {y x : Nat}
    (hy : y < data.ny) (hx : x < data.nx) :
    (hasZone features y x = true ∧ (features.data (0, y, x)).eq z = true) ↔ Inside features z y x := by
  have hc := h.features (0, y, x) ⟨by rw [h.oneBand]; exact Nat.one_pos, by rw [h.rows]; exact hy, by rw [h.cols]; exact hx⟩
  unfold hasZone Inside
  rw [hc]
  have heq := Stats.eq_iff (features.data (0, y, x)) z
  cases hn : features.nv with
  | none =>
    simp only [Option.map_none, maskOf, true_and, heq]
    constructor
    · exact fun g => g.1
    · exact fun g => ⟨g, g ▸ h.zone⟩
  | some s =>
    by_cases hs : s.val.isnan = true
    · have hsv : s.val = .nan := by cases hv : s.val <;> simp_all [Num.isnan]
      rw [hsv] at hs
      simp only [Option.map_some, maskOf, hs, if_true, heq, hsv]
      constructor
      · rintro ⟨_, g2, g3⟩
        exact ⟨by cases hd : features.data (0, y, x) <;> simp_all [Num.isnan], g2⟩
      · rintro ⟨_, g2⟩
        exact ⟨by cases features.data (0, y, x) <;> rfl, g2, g2 ▸ h.zone⟩
    · have hs : s.val.isnan = false := by simpa using hs
      simp only [Option.map_some, maskOf, hs, Bool.false_eq_true, if_false, heq]
      constructor
      · rintro ⟨g1, g2, _⟩
        exact ⟨by simpa using g1, g2⟩
      · rintro ⟨g1, g2⟩
        exact ⟨by simpa using g1, g2, g2 ▸ h.zone⟩

theorem bandValue_spec {np : NumPy} {features data : Raster} {b : Nat} {z : Num} (h : Input np features data b z) {y x : Nat}
    (hy : y < data.ny) (hx : x < data.nx) :
    bandValue np data (b, y, x) = if data.mask (b, y, x) = true then .nan
      else if data.dtype = f64 then data.data (b, y, x) else np.cast f64 (data.data (b, y, x)) := by
  have hc := h.data (b, y, x) ⟨h.band, hy, hx⟩
  unfold bandValue
  rw [hc]
  cases hn : data.nv with
  | none => simp [maskOf]
  | some s =>
    simp only [Option.map_some, maskOf]
    by_cases hs : s.val.isnan = true
    · simp only [hs, if_true]
      by_cases hd : (data.data (b, y, x)).isnan = true
      · have : data.data (b, y, x) = .nan := by cases hv : data.data (b, y, x) <;> simp_all [Num.isnan]
        rw [if_pos hd, this, h.castNan]
        simp
      · rw [if_neg hd]
    · simp only [hs, Bool.false_eq_true, if_false]
      by_cases he : (data.data (b, y, x)).eq s.val = true
      · rw [if_pos he, if_pos he, h.castNan]
        simp
      · rw [if_neg he, if_neg he]

theorem groupOf_rows {np : NumPy} {features data : Raster} {b : Nat} {z : Num} (h : Input np features data b z)
    {rows : List Row} (hr : rows.Perm (rowsOf np features data b (allCells data.ny data.nx))) :
    (valid (groupOf z rows)).Perm (valid (zoneValues np features data b z)) ∧
    (groupOf z rows = [] ↔ ∀ y x, y < data.ny → x < data.nx → ¬ Inside features z y x) := by
  have hperm : (groupOf z rows).Perm (groupOf z (rowsOf np features data b (allCells data.ny data.nx))) :=
    (hr.filter _).map _
  -- the group, cell by cell
  let V : Nat × Nat → Option Num := fun p =>
    if hasZone features p.1 p.2 = true ∧ (features.data (0, p.1, p.2)).eq z = true then
      some (bandValue np data (b, p.1, p.2)) else none
  have hgroup : ∀ cells, groupOf z (rowsOf np features data b cells) = cells.filterMap V := by
    intro cells
    induction cells with
    | nil => rfl
    | cons p cells ih =>
      unfold rowsOf groupOf at ih ⊢
      by_cases h1 : hasZone features p.1 p.2 = true
      · rw [List.filter_cons_of_pos (p := fun p : Nat × Nat => hasZone features p.1 p.2) h1, List.map_cons]
        by_cases h2 : (features.data (0, p.1, p.2)).eq z = true
        · have e1 : V p = some (bandValue np data (b, p.1, p.2)) := if_pos ⟨h1, h2⟩
          rw [List.filter_cons_of_pos (p := fun e : Row => e.zone.eq z) h2, List.map_cons, ih,
            List.filterMap_cons_some e1]
        · have e1 : V p = none := if_neg fun g => h2 g.2
          rw [List.filter_cons_of_neg (p := fun e : Row => e.zone.eq z) h2, ih, List.filterMap_cons_none e1]
      · have e1 : V p = none := if_neg fun g => h1 g.1
        rw [List.filter_cons_of_neg (p := fun p : Nat × Nat => hasZone features p.1 p.2) h1, ih,
          List.filterMap_cons_none e1]
  have hmem : ∀ {p : Nat × Nat}, p ∈ allCells data.ny data.nx → p.1 < data.ny ∧ p.2 < data.nx := by
    intro p hp
    obtain ⟨y, hy, hm⟩ := List.mem_flatMap.mp hp
    obtain ⟨x, hx, rfl⟩ := List.mem_map.mp hm
    exact ⟨List.mem_range.mp hy, List.mem_range.mp hx⟩
  constructor
  · refine (hperm.filter _).trans (List.Perm.of_eq ?_)
    rw [hgroup]
    unfold allCells zoneValues
    rw [List.filterMap_flatMap]
    show List.filter _ _ = List.filter _ _
    rw [List.filter_flatMap, List.filter_flatMap]
    refine List.flatMap_congr ?_
    intro y hy
    have hy := List.mem_range.mp hy
    rw [List.filterMap_map]
    let W : Nat → Option Num := fun x => if features.mask (0, y, x) = false ∧ features.data (0, y, x) = z ∧
      data.mask (b, y, x) = false then
      some (if data.dtype = f64 then data.data (b, y, x) else np.cast f64 (data.data (b, y, x))) else none
    have : ∀ xs : List Nat, (∀ x ∈ xs, x < data.nx) →
        (xs.filterMap (V ∘ fun x => (y, x))).filter (fun v => decide (v ≠ .nan)) =
        (xs.filterMap W).filter (fun v => decide (v ≠ .nan)) := by
      intro xs
      induction xs with
      | nil => intro _; rfl
      | cons x xs ih =>
        intro hxs
        have ih := ih (fun x hx => hxs x (List.mem_cons_of_mem _ hx))
        have hx := hxs x (by simp)
        by_cases hin : Inside features z y x
        · have e1 : (V ∘ fun x => (y, x)) x = some (bandValue np data (b, y, x)) := if_pos ((row_inside h hy hx).mpr hin)
          rw [List.filterMap_cons_some e1, bandValue_spec h hy hx]
          by_cases hm : data.mask (b, y, x) = true
          · have e2 : W x = none := if_neg (by simp [hm])
            rw [if_pos hm, List.filter_cons_of_neg (by simp), ih, List.filterMap_cons_none e2]
          · have hm' : data.mask (b, y, x) = false := by simpa using hm
            have e2 : W x = some (if data.dtype = f64 then data.data (b, y, x) else np.cast f64 (data.data (b, y, x))) :=
              if_pos ⟨hin.1, hin.2, hm'⟩
            rw [if_neg hm, List.filterMap_cons_some e2, List.filter_cons, List.filter_cons, ih]
        · have e1 : (V ∘ fun x => (y, x)) x = none := if_neg fun g => hin ((row_inside h hy hx).mp g)
          have e2 : W x = none := if_neg fun g => hin ⟨g.1, g.2.1⟩
          rw [List.filterMap_cons_none e1, ih, List.filterMap_cons_none e2]
    exact this _ fun x hx => List.mem_range.mp hx
  · have : groupOf z rows = [] ↔ (allCells data.ny data.nx).filterMap V = [] := by
      rw [← hgroup]
      constructor
      · intro g; rw [g] at hperm; exact List.nil_perm.mp hperm
      · intro g; rw [g] at hperm; exact List.perm_nil.mp hperm
    rw [this, List.filterMap_eq_nil_iff]
    constructor
    · intro g y x hy hx hin
      have := g (y, x) (List.mem_flatMap.mpr ⟨y, List.mem_range.mpr hy, List.mem_map_of_mem (List.mem_range.mpr hx)⟩)
      rw [show V (y, x) = some (bandValue np data (b, y, x)) from if_pos ((row_inside h hy hx).mpr hin)] at this
      cases this
    · intro g p hp
      obtain ⟨hy, hx⟩ := hmem hp
      exact if_neg fun k => g p.1 p.2 hy hx ((row_inside h hy hx).mp k)

theorem IsMode.of_perm {x y : List Num} (hp : (valid x).Perm (valid y)) {m : Num} (h : IsMode x m) : IsMode y m := by
  refine ⟨hp.mem_iff.mp h.1, ?_⟩
  intro v hv
  have := h.2 v (hp.mem_iff.mpr hv)
  rwa [hp.count_eq, hp.count_eq] at this

variable {np : NumPy} {features data : Raster} {b : Nat} {z : Num} {rows : List Row}

/-- **C32**, mode: however the cells are spread over partitions and the partitions combined, a zone has a result if
and only if it has a cell, and the result is the smallest most frequent value of its valid cells (NaN if none). -/
theorem C32_mode (h : Input np features data b z) (hr : rows.Perm (rowsOf np features data b (allCells data.ny data.nx)))
    {out : Option Num} (ho : Aggregates uniqueCounts combineCounts modeFin z rows out) :
    (out = none ↔ ∀ y x, y < data.ny → x < data.nx → ¬ Inside features z y x) ∧
    ∀ m, out = some m → (valid (zoneValues np features data b z) = [] → m = .nan) ∧
      (valid (zoneValues np features data b z) ≠ [] → IsMode (zoneValues np features data b z) m) := by
  obtain ⟨hp, he⟩ := groupOf_rows h hr
  rw [← he]
  rcases aggregates_counts ho with ⟨g1, rfl⟩ | ⟨g1, p, rfl, g2⟩
  · exact ⟨⟨fun _ => g1, fun _ => rfl⟩, (fun m hm => nomatch hm)⟩
  · refine ⟨⟨(fun g => nomatch g), fun g => absurd g g1⟩, ?_⟩
    rintro m ⟨⟩
    obtain ⟨k1, k2⟩ := modeFin_spec g2
    constructor
    · intro hv
      rw [hv] at hp
      exact k1 (List.perm_nil.mp hp)
    · intro hv
      refine IsMode.of_perm hp (k2 fun g => hv ?_)
      rw [g] at hp
      exact List.nil_perm.mp hp

/-- **C32**, nunique: the number of different valid values. -/
theorem C32_nunique (h : Input np features data b z)
    (hr : rows.Perm (rowsOf np features data b (allCells data.ny data.nx)))
    {out : Option Nat} (ho : Aggregates uniqueList concatLists nuniqueFin z rows out) :
    (out = none ↔ ∀ y x, y < data.ny → x < data.nx → ¬ Inside features z y x) ∧
    ∀ n, out = some n → n = (valid (zoneValues np features data b z)).toFinset.card := by
  obtain ⟨hp, he⟩ := groupOf_rows h hr
  rw [← he]
  rcases aggregates_nunique ho with ⟨g1, rfl⟩ | ⟨g1, rfl⟩
  · exact ⟨⟨fun _ => g1, fun _ => rfl⟩, (fun m hm => nomatch hm)⟩
  · refine ⟨⟨(fun g => nomatch g), fun g => absurd g g1⟩, ?_⟩
    rintro m ⟨⟩
    rw [List.toFinset_eq_of_perm _ _ hp]

section Field

variable {K : Type} [Field K]

/-- **C32**, asm: the sum of the squared frequencies of the valid values; NaN (`none`) if there is none. -/
theorem C32_asm (h : Input np features data b z) (hr : rows.Perm (rowsOf np features data b (allCells data.ny data.nx)))
    {out : Option (Option K)} (ho : Aggregates uniqueCounts combineCounts asmFin z rows out) :
    (out = none ↔ ∀ y x, y < data.ny → x < data.nx → ¬ Inside features z y x) ∧
    ∀ m, out = some m → m = if valid (zoneValues np features data b z) = [] then none else
      some (∑ v ∈ (valid (zoneValues np features data b z)).toFinset,
        (((valid (zoneValues np features data b z)).count v : K) / (valid (zoneValues np features data b z)).length) ^ 2) := by
  obtain ⟨hp, he⟩ := groupOf_rows h hr
  rw [← he]
  rcases aggregates_counts ho with ⟨g1, rfl⟩ | ⟨g1, p, rfl, g2⟩
  · exact ⟨⟨fun _ => g1, fun _ => rfl⟩, (fun m hm => nomatch hm)⟩
  · refine ⟨⟨(fun g => nomatch g), fun g => absurd g g1⟩, ?_⟩
    rintro m ⟨⟩
    rw [asmFin_spec g2, List.toFinset_eq_of_perm _ _ hp, hp.length_eq]
    have hnil : valid (groupOf z rows) = [] ↔ valid (zoneValues np features data b z) = [] := by
      rw [← List.length_eq_zero_iff, hp.length_eq, List.length_eq_zero_iff]
    by_cases hv : valid (zoneValues np features data b z) = []
    · rw [if_pos hv, if_pos (hnil.mpr hv)]
    · rw [if_neg hv, if_neg fun g => hv (hnil.mp g)]
      congr 1
      refine Finset.sum_congr rfl fun v _ => ?_
      rw [hp.count_eq]

/-- **C32**, entropy: minus the sum of `p * log p` over the frequencies of the valid values; NaN if there is none. -/
theorem C32_entropy (log : K → K) (h : Input np features data b z)
    (hr : rows.Perm (rowsOf np features data b (allCells data.ny data.nx)))
    {out : Option (Option K)} (ho : Aggregates uniqueCounts combineCounts (entropyFin log) z rows out) :
    (out = none ↔ ∀ y x, y < data.ny → x < data.nx → ¬ Inside features z y x) ∧
    ∀ m, out = some m → m = if valid (zoneValues np features data b z) = [] then none else
      some (- ∑ v ∈ (valid (zoneValues np features data b z)).toFinset,
        ((valid (zoneValues np features data b z)).count v : K) / (valid (zoneValues np features data b z)).length *
        log (((valid (zoneValues np features data b z)).count v : K) /
          (valid (zoneValues np features data b z)).length)) := by
  obtain ⟨hp, he⟩ := groupOf_rows h hr
  rw [← he]
  rcases aggregates_counts ho with ⟨g1, rfl⟩ | ⟨g1, p, rfl, g2⟩
  · exact ⟨⟨fun _ => g1, fun _ => rfl⟩, (fun m hm => nomatch hm)⟩
  · refine ⟨⟨(fun g => nomatch g), fun g => absurd g g1⟩, ?_⟩
    rintro m ⟨⟩
    rw [entropyFin_spec log g2, List.toFinset_eq_of_perm _ _ hp, hp.length_eq]
    have hnil : valid (groupOf z rows) = [] ↔ valid (zoneValues np features data b z) = [] := by
      rw [← List.length_eq_zero_iff, hp.length_eq, List.length_eq_zero_iff]
    by_cases hv : valid (zoneValues np features data b z) = []
    · rw [if_pos hv, if_pos (hnil.mpr hv)]
    · rw [if_neg hv, if_neg fun g => hv (hnil.mp g)]
      congr 2
      refine Finset.sum_congr rfl fun v _ => ?_
      rw [hp.count_eq]

end Field

/-- Some reduction always exists, so the theorems are about results that there are. -/
theorem aggregates_exists {σ τ : Type} (chunk : List Num → σ) (agg : List σ → σ) (fin : σ → τ) (z : Num)
    (parts : List (List Row)) : ∃ out, Aggregates chunk agg fin z parts.flatten out :=
  ⟨_, parts.map fun p => (p, chunkStep chunk z p), by
    intro e he
    obtain ⟨p, _, rfl⟩ := List.mem_map.mp he
    exact .leaf p, by rw [List.map_map]; simp [Function.comp_def], rfl⟩

/-- **C32**, arguments: the call is accepted exactly for a one-band integer feature raster on the grid of the data,
known statistics (at least one) and no overlap handling, and all other arguments are rejected. -/
theorem C32_arguments (features data : Raster) (crsEqual : Bool) (stats : Option (List String)) (funcs : List String)
    (overlap : Bool) : checkArgs features data crsEqual stats funcs overlap = .ok () ↔
      features.dtype.isInt = true ∧ features.nb ≤ 1 ∧ overlap = false ∧ crsEqual = true ∧ features.ny = data.ny ∧
      features.nx = data.nx ∧ ∃ l, stats = some l ∧ l ≠ [] ∧ ∀ s ∈ l, s ∈ funcs := by
  unfold checkArgs
  cases stats with
  | none => simp; split <;> simp
  | some l =>
    by_cases h1 : features.dtype.isInt = true <;> by_cases h2 : features.nb > 1 <;>
      by_cases h3 : l = [] <;> by_cases h4 : ∀ s ∈ l, s ∈ funcs <;> cases overlap <;> cases crsEqual <;>
      by_cases h5 : features.ny = data.ny <;> by_cases h6 : features.nx = data.nx <;>
      simp_all
    rw [if_neg (by omega), if_neg]
    rintro ⟨x, hx, hn⟩
    exact hn (h4 x hx)

/-! ### Examples -/

/-- Three cells of zones 1, 1, 2; the last feature cell is null. -/
def sampleFeatures : Raster :=
  ⟨i32, 1, 2, 2, fun c => if c = (0, 1, 1) then .fin (-1) else if c.2.1 = 0 then .fin 1 else .fin 2,
    fun c => maskOf (some (.fin (-1))) (if c = (0, 1, 1) then .fin (-1) else if c.2.1 = 0 then .fin 1 else .fin 2),
    some ⟨i32, .fin (-1)⟩⟩

/-- Data with a null cell in zone 1. -/
def sampleData : Raster :=
  ⟨i32, 1, 2, 2, fun c => if c = (0, 0, 1) then .fin (-9) else .fin 7,
    fun c => maskOf (some (.fin (-9))) (if c = (0, 0, 1) then .fin (-9) else .fin 7), some ⟨i32, .fin (-9)⟩⟩

example : Input (idNumPy false) sampleFeatures sampleData 0 (.fin 1) where
  band := by decide
  oneBand := rfl
  rows := rfl
  cols := rfl
  features := fun c _ => rfl
  data := fun c _ => rfl
  castNan := rfl
  zone := fun h => nomatch h

example : zoneValues (idNumPy false) sampleFeatures sampleData 0 (.fin 1) = [.fin 7] := by decide +kernel

end Verif.Zonal
