import Verif.Regions.Model
import Verif.Nulls.RasterProps
import Mathlib.Logic.Relation
import Mathlib.Data.Fintype.EquivFin
import Mathlib.Data.Fintype.Prod
import Mathlib.Data.Fintype.Quotient

/-!
# Properties of `regions`: C28
-/

set_option linter.unusedSectionVars false

namespace Verif.Regions

open Verif Verif.Nulls DType

namespace Spec

/-- The position lies in the grid. -/
def InGrid (ny nx : Nat) (p : Pos) : Prop := p.1 < ny ∧ p.2 < nx

/-- Neighbours by side (4) or also by corner (8). -/
def Adjacent (n : Nat) (p q : Pos) : Prop :=
  if n = 4 then (p.1 = q.1 ∧ (p.2 = q.2 + 1 ∨ q.2 = p.2 + 1)) ∨ (p.2 = q.2 ∧ (p.1 = q.1 + 1 ∨ q.1 = p.1 + 1))
  else p ≠ q ∧ p.1 ≤ q.1 + 1 ∧ q.1 ≤ p.1 + 1 ∧ p.2 ≤ q.2 + 1 ∧ q.2 ≤ p.2 + 1

/-- A step between neighbours that are both in the set `S`. -/
def Step (n ny nx : Nat) (S : Pos → Prop) (p q : Pos) : Prop :=
  Adjacent n p q ∧ InGrid ny nx p ∧ InGrid ny nx q ∧ S p ∧ S q

/-- Connected through cells of `S`. -/
def Connected (n ny nx : Nat) (S : Pos → Prop) : Pos → Pos → Prop := Relation.ReflTransGen (Step n ny nx S)

/-- What `label` promises: the positive labels are the cells of the image, two cells have the same label exactly
if they are connected, and the labels are the numbers from 1 to the count. -/
structure IsLabeler (n ny nx : Nat) (label : Labeler) : Prop where
  pos : ∀ m p, InGrid ny nx p → (0 < (label m).1 p ↔ m p = true)
  bound : ∀ m p, InGrid ny nx p → (label m).1 p ≤ (label m).2
  same : ∀ m p q, InGrid ny nx p → InGrid ny nx q → m p = true → m q = true →
    ((label m).1 p = (label m).1 q ↔ Connected n ny nx (fun s => m s = true) p q)
  onto : ∀ m k, 1 ≤ k → k ≤ (label m).2 → ∃ p, InGrid ny nx p ∧ (label m).1 p = k

end Spec

open Spec

theorem adjacent_symm {n : Nat} {p q : Pos} (h : Adjacent n p q) : Adjacent n q p := by
  unfold Adjacent at *
  split at h
  · rename_i hn
    rw [if_pos hn]
    omega
  · rename_i hn
    rw [if_neg hn]
    exact ⟨h.1.symm, by omega, by omega, by omega, by omega⟩

theorem connected_symm {n ny nx : Nat} {S : Pos → Prop} {p q : Pos} (h : Connected n ny nx S p q) :
    Connected n ny nx S q p := by
  induction h with
  | refl => exact Relation.ReflTransGen.refl
  | tail _ hs ih =>
    exact Relation.ReflTransGen.head ⟨adjacent_symm hs.1, hs.2.2.1, hs.2.1, hs.2.2.2.2, hs.2.2.2.1⟩ ih

open Classical in
/-- A labelling exists for every grid, so the hypothesis of C28 can be met. -/
theorem labeler_exists (n ny nx : Nat) : ∃ label, IsLabeler n ny nx label := by
  have key : ∀ m : Pos → Bool, ∃ (lab : Pos → Nat) (k : Nat),
      (∀ p, InGrid ny nx p → (0 < lab p ↔ m p = true)) ∧ (∀ p, InGrid ny nx p → lab p ≤ k) ∧
      (∀ p q, InGrid ny nx p → InGrid ny nx q → m p = true → m q = true →
        (lab p = lab q ↔ Connected n ny nx (fun s => m s = true) p q)) ∧
      (∀ j, 1 ≤ j → j ≤ k → ∃ p, InGrid ny nx p ∧ lab p = j) := by
    intro m
    let C := { p : Fin ny × Fin nx // m (p.1.1, p.2.1) = true }
    let st : Setoid C :=
      { r := fun a b => Connected n ny nx (fun s => m s = true) (a.1.1.1, a.1.2.1) (b.1.1.1, b.1.2.1)
        iseqv := ⟨fun _ => Relation.ReflTransGen.refl, fun h => connected_symm h, fun h1 h2 => h1.trans h2⟩ }
    let Q := Quotient st
    let e : Q ≃ Fin (Fintype.card Q) := Fintype.equivFin Q
    let mk : ∀ p : Pos, InGrid ny nx p → m p = true → C := fun p hp hm => ⟨(⟨p.1, hp.1⟩, ⟨p.2, hp.2⟩), hm⟩
    let lab : Pos → Nat := fun p =>
      if h : InGrid ny nx p ∧ m p = true then (e (Quotient.mk st (mk p h.1 h.2))).1 + 1 else 0
    have hlab : ∀ p (hp : InGrid ny nx p) (hm : m p = true), lab p = (e (Quotient.mk st (mk p hp hm))).1 + 1 := by
      intro p hp hm
      simp only [lab]
      rw [dif_pos ⟨hp, hm⟩]
    refine ⟨lab, Fintype.card Q, ?_, ?_, ?_, ?_⟩
    · intro p hp
      constructor
      · intro hpos
        by_contra hm
        simp only [lab] at hpos
        rw [dif_neg (fun h => hm h.2)] at hpos
        exact absurd hpos (by omega)
      · intro hm
        rw [hlab p hp hm]; omega
    · intro p hp
      by_cases hm : m p = true
      · rw [hlab p hp hm]
        have := (e (Quotient.mk st (mk p hp hm))).2
        omega
      · simp only [lab]
        rw [dif_neg (fun h => hm h.2)]
        omega
    · intro p q hp hq hmp hmq
      rw [hlab p hp hmp, hlab q hq hmq]
      constructor
      · intro h
        have h : e (Quotient.mk st (mk p hp hmp)) = e (Quotient.mk st (mk q hq hmq)) := Fin.ext (by omega)
        exact Quotient.exact (e.injective h)
      · intro h
        have : Quotient.mk st (mk p hp hmp) = Quotient.mk st (mk q hq hmq) := Quotient.sound h
        rw [this]
    · intro j h1 h2
      obtain ⟨c, hc⟩ := Quotient.exists_rep (e.symm ⟨j - 1, by omega⟩)
      refine ⟨(c.1.1.1, c.1.2.1), ⟨c.1.1.2, c.1.2.2⟩, ?_⟩
      rw [hlab _ ⟨c.1.1.2, c.1.2.2⟩ c.2]
      have : mk (c.1.1.1, c.1.2.1) ⟨c.1.1.2, c.1.2.2⟩ c.2 = c := rfl
      rw [this, hc, Equiv.apply_symm_apply]
      simp only
      omega
  choose lab k h1 h2 h3 h4 using key
  exact ⟨fun m => (lab m, k m), ⟨h1, h2, h3, h4⟩⟩

/-- State of the loop after the values `us`. -/
structure LoopInv (n ny nx : Nat) (data : Pos → Num) (us : List Num) (st : (Pos → Nat) × Nat) : Prop where
  pos : ∀ p, InGrid ny nx p → (0 < st.1 p ↔ ∃ v ∈ us, (data p).eq v = true)
  bound : ∀ p, InGrid ny nx p → st.1 p ≤ st.2
  same : ∀ p q, InGrid ny nx p → InGrid ny nx q → 0 < st.1 p → 0 < st.1 q →
    (st.1 p = st.1 q ↔ data p = data q ∧ Connected n ny nx (fun s => data s = data p) p q)
  onto : ∀ k, 1 ≤ k → k ≤ st.2 → ∃ p, InGrid ny nx p ∧ st.1 p = k
  ordered : ∀ p q, InGrid ny nx p → InGrid ny nx q → 0 < st.1 p → 0 < st.1 q → ∀ i j : Nat, i < j →
    us[i]? = some (data p) → us[j]? = some (data q) → st.1 p < st.1 q

theorem loop_inv {n ny nx : Nat} {label : Labeler} (hl : IsLabeler n ny nx label) (data : Pos → Num) (us : List Num)
    (hnd : us.Nodup) : LoopInv n ny nx data us (us.foldl (labelStep label data) (fun _ => 0, 0)) := by
  induction us using List.reverseRecOn with
  | nil =>
    refine ⟨?_, ?_, ?_, ?_, ?_⟩
    · intro p _; simp
    · intro p _; simp
    · intro p q _ _ h; simp at h
    · intro k h1 h2
      simp only [List.foldl_nil] at h2
      omega
    · intro p q _ _ h; simp at h
  | append_singleton us v ih =>
    obtain ⟨hnd1, hnd2⟩ : us.Nodup ∧ v ∉ us := by
      rw [List.nodup_append] at hnd
      exact ⟨hnd.1, fun h => hnd.2.2 v h v (by simp) rfl⟩
    have ih := ih hnd1
    rw [List.foldl_append, List.foldl_cons, List.foldl_nil]
    generalize us.foldl (labelStep label data) (fun _ => 0, 0) = st at ih ⊢
    obtain ⟨res, cum⟩ := st
    have heq : ∀ p, (data p).eq v = true ↔ data p = v ∧ v ≠ .nan := by
      intro p
      rw [Num.eq_iff]
      constructor
      · rintro ⟨h1, h2⟩; exact ⟨h1, h1 ▸ h2⟩
      · rintro ⟨h1, h2⟩; exact ⟨h1, h1 ▸ h2⟩
    -- value of the new labels
    have hcase : ∀ p, InGrid ny nx p →
        ((data p).eq v = true ∧ res p = 0 ∧
          (labelStep label data (res, cum) v).1 p = (label fun s => (data s).eq v).1 p + cum ∧
          0 < (label fun s => (data s).eq v).1 p) ∨
        ((data p).eq v = false ∧ (labelStep label data (res, cum) v).1 p = res p) := by
      intro p hp
      have h1 := hl.pos (fun s => (data s).eq v) p hp
      cases hv : (data p).eq v with
      | true =>
        left
        have hpos := h1.mpr hv
        have hres : res p = 0 := by
          by_contra hne
          obtain ⟨w, hw, hpw⟩ := (ih.pos p hp).mp (Nat.pos_of_ne_zero hne)
          have e1 := ((Num.eq_iff _ _).mp hpw).1
          have e2 := ((Num.eq_iff _ _).mp hv).1
          exact hnd2 (by rw [← e2, e1]; exact hw)
        refine ⟨rfl, hres, ?_, hpos⟩
        simp only [labelStep, hres, if_pos hpos, Nat.zero_add]
      | false =>
        right
        refine ⟨rfl, ?_⟩
        have : ¬ 0 < (label fun s => (data s).eq v).1 p := fun h => by
          rw [h1, hv] at h; cases h
        simp only [labelStep, if_neg this, Nat.add_zero]
    have hcum : (labelStep label data (res, cum) v).2 = cum + (label fun s => (data s).eq v).2 := rfl
    refine ⟨?_, ?_, ?_, ?_, ?_⟩
    · intro p hp
      rcases hcase p hp with ⟨h1, h2, h3, h4⟩ | ⟨h1, h2⟩
      · rw [h3]
        constructor
        · intro _; exact ⟨v, by simp, h1⟩
        · intro _; omega
      · rw [h2, ih.pos p hp]
        constructor
        · rintro ⟨w, hw, he⟩; exact ⟨w, by simp [hw], he⟩
        · rintro ⟨w, hw, he⟩
          rcases List.mem_append.mp hw with hw | hw
          · exact ⟨w, hw, he⟩
          · simp only [List.mem_singleton] at hw
            subst hw
            rw [h1] at he; cases he
    · intro p hp
      rw [hcum]
      rcases hcase p hp with ⟨h1, h2, h3, h4⟩ | ⟨h1, h2⟩
      · rw [h3]
        have := hl.bound (fun s => (data s).eq v) p hp
        omega
      · rw [h2]
        have := ih.bound p hp
        simp only at this
        omega
    · intro p q hp hq h0p h0q
      rcases hcase p hp with ⟨h1, h2, h3, h4⟩ | ⟨h1, h2⟩ <;> rcases hcase q hq with ⟨g1, g2, g3, g4⟩ | ⟨g1, g2⟩
      · rw [h3, g3]
        have e := hl.same (fun s => (data s).eq v) p q hp hq h1 g1
        have hdp := ((heq p).mp h1)
        have hdq := ((heq q).mp g1)
        have hfun : (fun s => (data s).eq v = true) = fun s => data s = data p := by
          funext s
          rw [heq s, hdp.1]
          simp [hdp.2]
        rw [hfun] at e
        rw [← e]
        constructor
        · intro h; exact ⟨by rw [hdp.1, hdq.1], by omega⟩
        · rintro ⟨_, h⟩; omega
      · constructor
        · intro h
          rw [h3, g2] at h
          have := ih.bound q hq
          simp only at this
          omega
        · rintro ⟨h, _⟩
          rw [h, g1] at h1; cases h1
      · constructor
        · intro h
          rw [h2, g3] at h
          have := ih.bound p hp
          simp only at this
          omega
        · rintro ⟨h, _⟩
          rw [h, g1] at h1; cases h1
      · rw [h2] at h0p
        rw [g2] at h0q
        rw [h2, g2]
        exact ih.same p q hp hq h0p h0q
    · intro k hk1 hk2
      rw [hcum] at hk2
      by_cases hk : k ≤ cum
      · obtain ⟨p, hp, he⟩ := ih.onto k hk1 hk
        simp only at he
        refine ⟨p, hp, ?_⟩
        rcases hcase p hp with ⟨h1, h2, h3, h4⟩ | ⟨h1, h2⟩
        · omega
        · rw [h2, he]
      · obtain ⟨p, hp, he⟩ := hl.onto (fun s => (data s).eq v) (k - cum) (by omega) (by omega)
        refine ⟨p, hp, ?_⟩
        rcases hcase p hp with ⟨h1, h2, h3, h4⟩ | ⟨h1, h2⟩
        · rw [h3, he]; omega
        · have := (hl.pos (fun s => (data s).eq v) p hp).mp (by omega)
          rw [h1] at this; cases this
    · intro p q hp hq h0p h0q i j hij hi hj
      have hlen : j < us.length + 1 := by
        have := (List.getElem?_eq_some_iff.mp hj).1
        simpa using this
      rw [List.getElem?_append_left (by omega)] at hi
      have hmem : data p ∈ us := List.mem_of_getElem? hi
      rcases hcase p hp with ⟨h1, _, _, _⟩ | ⟨h1, h2⟩
      · exact absurd (((heq p).mp h1).1 ▸ hmem) hnd2
      · rw [h2] at h0p ⊢
        rcases hcase q hq with ⟨g1, g2, g3, g4⟩ | ⟨g1, g2⟩
        · rw [g3]
          have := ih.bound p hp
          simp only at this
          omega
        · rw [g2] at h0q ⊢
          have hj' : j < us.length := by
            by_contra hge
            have hje : j = us.length := by omega
            subst hje
            rw [List.getElem?_append_right (le_refl _)] at hj
            simp only [Nat.sub_self, List.getElem?_cons_zero, Option.some.injEq] at hj
            obtain ⟨w, hw, he⟩ := (ih.pos q hq).mp h0q
            have hne : data q ≠ .nan := ((Num.eq_iff _ _).mp he).2
            rw [(heq q).mpr ⟨hj.symm, hj ▸ hne⟩] at g1
            cases g1
          rw [List.getElem?_append_left hj'] at hj
          exact ih.ordered p q hp hq h0p h0q i j hij hi hj

theorem leNum_trans (a b c : Num) (h1 : leNum a b = true) (h2 : leNum b c = true) : leNum a c = true := by
  cases a <;> cases b <;> cases c <;> simp_all [leNum]
  exact le_trans h1 h2

theorem leNum_total (a b : Num) : (leNum a b || leNum b a) = true := by
  cases a <;> cases b <;> simp [leNum, le_total]

theorem mem_unique {ny nx : Nat} {data : Pos → Num} {v : Num} :
    v ∈ unique ny nx data ↔ ∃ p, InGrid ny nx p ∧ data p = v := by
  unfold unique InGrid
  rw [List.mem_mergeSort, List.mem_dedup, List.mem_flatMap]
  constructor
  · rintro ⟨y, hy, h⟩
    obtain ⟨x, hx, rfl⟩ := List.mem_map.mp h
    exact ⟨(y, x), ⟨List.mem_range.mp hy, List.mem_range.mp hx⟩, rfl⟩
  · rintro ⟨⟨y, x⟩, ⟨hy, hx⟩, rfl⟩
    exact ⟨y, List.mem_range.mpr hy, List.mem_map.mpr ⟨x, List.mem_range.mpr hx, rfl⟩⟩

theorem unique_nodup (ny nx : Nat) (data : Pos → Num) : (unique ny nx data).Nodup := by
  unfold unique
  exact (List.mergeSort_perm _ _).symm.nodup (List.nodup_dedup _)

/-- **C28** for one band: a cell is labelled exactly if its value is one of the values asked for, other than 0 and
NaN (all values of the band when none are given); two labelled cells have the same label exactly if they have the
same value and are connected through cells of that value; the labels are the numbers from 1 to some count. -/
theorem C28_labels {n ny nx : Nat} {label : Labeler} (hl : IsLabeler n ny nx label) (data : Pos → Num)
    (uarr : Option (List Num)) (hu : ∀ us, uarr = some us → us.Nodup) :
    (∀ p, InGrid ny nx p → (0 < createLabels label ny nx data uarr p ↔
      data p ≠ .fin 0 ∧ data p ≠ .nan ∧ ∀ us, uarr = some us → data p ∈ us)) ∧
    (∀ p q, InGrid ny nx p → InGrid ny nx q → 0 < createLabels label ny nx data uarr p →
      0 < createLabels label ny nx data uarr q →
      (createLabels label ny nx data uarr p = createLabels label ny nx data uarr q ↔
        data p = data q ∧ Connected n ny nx (fun s => data s = data p) p q)) ∧
    (∃ N, (∀ p, InGrid ny nx p → createLabels label ny nx data uarr p ≤ N) ∧
      ∀ k, 1 ≤ k → k ≤ N → ∃ p, InGrid ny nx p ∧ createLabels label ny nx data uarr p = k) := by
  have hnd : (dropZero (uarr.getD (unique ny nx data))).Nodup := by
    unfold dropZero
    apply List.Nodup.filter
    cases h : uarr with
    | none => exact unique_nodup ny nx data
    | some us => exact hu us h
  have hinv := loop_inv hl data _ hnd
  have hmem : ∀ p, InGrid ny nx p → ((∃ v ∈ dropZero (uarr.getD (unique ny nx data)), (data p).eq v = true) ↔
      data p ≠ .fin 0 ∧ data p ≠ .nan ∧ ∀ us, uarr = some us → data p ∈ us) := by
    intro p hp
    constructor
    · rintro ⟨v, hv, he⟩
      obtain ⟨e1, e2⟩ := (Num.eq_iff _ _).mp he
      rw [← e1] at hv
      unfold dropZero at hv
      obtain ⟨h1, h2⟩ := List.mem_filter.mp hv
      refine ⟨?_, e2, ?_⟩
      · intro h0
        rw [h0] at h2
        simp [Num.eq] at h2
      · intro us hus
        rw [hus] at h1
        exact h1
    · rintro ⟨h0, hn, hus⟩
      refine ⟨data p, ?_, (Num.eq_iff _ _).mpr ⟨rfl, hn⟩⟩
      unfold dropZero
      refine List.mem_filter.mpr ⟨?_, ?_⟩
      · cases h : uarr with
        | none => exact mem_unique.mpr ⟨p, hp, rfl⟩
        | some us => exact hus us h
      · rw [Bool.not_eq_true', Bool.eq_false_iff]
        intro h
        exact h0 ((Num.eq_iff _ _).mp h).1
  refine ⟨?_, ?_, ?_⟩
  · intro p hp
    rw [← hmem p hp]
    exact hinv.pos p hp
  · exact hinv.same
  · exact ⟨_, hinv.bound, hinv.onto⟩

/-- The value `a` is less than `b` (as numbers; NaN is not comparable). -/
def Spec.Less : Num → Num → Prop
  | .nan, _ => False
  | _, .nan => False
  | _, .negInf => False
  | .negInf, _ => True
  | .posInf, _ => False
  | _, .posInf => True
  | .fin a, .fin b => a < b

/-- **C28**, numbering: without a list of values the regions of smaller values get smaller labels; with a list the
regions are numbered in the order of the list. -/
theorem C28_order {n ny nx : Nat} {label : Labeler} (hl : IsLabeler n ny nx label) (data : Pos → Num)
    (p q : Pos) (hp : InGrid ny nx p) (hq : InGrid ny nx q) :
    (0 < createLabels label ny nx data none p → 0 < createLabels label ny nx data none q → Less (data p) (data q) →
      createLabels label ny nx data none p < createLabels label ny nx data none q) ∧
    ∀ us : List Num, us.Nodup → 0 < createLabels label ny nx data (some us) p →
      0 < createLabels label ny nx data (some us) q → ∀ i j : Nat, i < j → us[i]? = some (data p) →
      us[j]? = some (data q) → createLabels label ny nx data (some us) p < createLabels label ny nx data (some us) q := by
  have hless : ∀ (l : List Num) (a b : Num) (i j : Nat), i < j → l[i]? = some a → l[j]? = some b → a ≠ .fin 0 →
      b ≠ .fin 0 → ∃ i' j' : Nat, i' < j' ∧ (dropZero l)[i']? = some a ∧ (dropZero l)[j']? = some b := by
    intro l
    induction l with
    | nil => intro a b i j _ h; simp at h
    | cons v l ih =>
      intro a b i j hij hi hj ha hb
      obtain ⟨j, rfl⟩ : ∃ k, j = k + 1 := ⟨j - 1, by omega⟩
      rw [List.getElem?_cons_succ] at hj
      have hkeep : ∀ u : Num, u ≠ .fin 0 → (!u.eq (.fin 0)) = true := by
        intro u hu
        rw [Bool.not_eq_true', Bool.eq_false_iff]
        exact fun h => hu ((Num.eq_iff _ _).mp h).1
      cases i with
      | zero =>
        rw [List.getElem?_cons_zero, Option.some.injEq] at hi
        subst hi
        have hd : dropZero (v :: l) = v :: dropZero l := List.filter_cons_of_pos (hkeep v ha)
        have hm : b ∈ dropZero l := List.mem_filter.mpr ⟨List.mem_of_getElem? hj, hkeep b hb⟩
        obtain ⟨k, hk⟩ := List.mem_iff_getElem?.mp hm
        exact ⟨0, k + 1, by omega, by rw [hd]; rfl, by rw [hd, List.getElem?_cons_succ]; exact hk⟩
      | succ i =>
        rw [List.getElem?_cons_succ] at hi
        obtain ⟨i', j', h1, h2, h3⟩ := ih a b i j (by omega) hi hj ha hb
        by_cases hv : (!v.eq (.fin 0)) = true
        · have hd : dropZero (v :: l) = v :: dropZero l := List.filter_cons_of_pos hv
          exact ⟨i' + 1, j' + 1, by omega, by rw [hd, List.getElem?_cons_succ]; exact h2,
            by rw [hd, List.getElem?_cons_succ]; exact h3⟩
        · have hd : dropZero (v :: l) = dropZero l := List.filter_cons_of_neg hv
          exact ⟨i', j', h1, by rw [hd]; exact h2, by rw [hd]; exact h3⟩
  have hmain : ∀ us : List Num, us.Nodup →
      0 < ((dropZero us).foldl (labelStep label data) (fun _ => 0, 0)).1 p →
      0 < ((dropZero us).foldl (labelStep label data) (fun _ => 0, 0)).1 q → ∀ i j : Nat, i < j →
      us[i]? = some (data p) → us[j]? = some (data q) →
      ((dropZero us).foldl (labelStep label data) (fun _ => 0, 0)).1 p <
        ((dropZero us).foldl (labelStep label data) (fun _ => 0, 0)).1 q := by
    intro us hnd h0p h0q i j hij hi hj
    have hinv := loop_inv hl data (dropZero us) (List.Nodup.filter _ hnd)
    have hz : ∀ s, InGrid ny nx s → 0 < ((dropZero us).foldl (labelStep label data) (fun _ => 0, 0)).1 s →
        data s ≠ .fin 0 := by
      intro s hs h0 he
      obtain ⟨v, hv, e⟩ := (hinv.pos s hs).mp h0
      have := (List.mem_filter.mp hv).2
      rw [← ((Num.eq_iff _ _).mp e).1, he] at this
      simp [Num.eq] at this
    obtain ⟨i', j', h1, h2, h3⟩ := hless us _ _ i j hij hi hj (hz p hp h0p) (hz q hq h0q)
    exact hinv.ordered p q hp hq h0p h0q i' j' h1 h2 h3
  refine ⟨?_, fun us hnd h0p h0q => hmain us hnd h0p h0q⟩
  intro h0p h0q hlt
  obtain ⟨i, hi⟩ := List.mem_iff_getElem?.mp (mem_unique.mpr ⟨p, hp, rfl⟩ : data p ∈ unique ny nx data)
  obtain ⟨j, hj⟩ := List.mem_iff_getElem?.mp (mem_unique.mpr ⟨q, hq, rfl⟩ : data q ∈ unique ny nx data)
  have hij : i < j := by
    by_contra hge
    rcases Nat.lt_or_eq_of_le (Nat.le_of_not_lt hge) with hji | rfl
    · have hsort : (unique ny nx data).Pairwise fun a b => leNum a b = true :=
        List.pairwise_mergeSort leNum_trans leNum_total _
      obtain ⟨hi1, hi2⟩ := List.getElem?_eq_some_iff.mp hi
      obtain ⟨hj1, hj2⟩ := List.getElem?_eq_some_iff.mp hj
      have := List.pairwise_iff_getElem.mp hsort j i hj1 hi1 hji
      rw [hi2, hj2] at this
      revert this hlt
      cases data p <;> cases data q <;> simp [Less, leNum]
    · rw [hi, Option.some.injEq] at hj
      rw [hj] at hlt
      revert hlt
      cases data q <;> simp [Less]
  exact hmain _ (unique_nodup ny nx data) h0p h0q i j hij hi hj

/-- Values with cells in the order that C28 speaks of. -/
example : Less (.fin 1) (.fin 2) ∧ ([.fin 2, .fin 1] : List Num)[0]? = some (.fin 2) := ⟨by simp [Less], rfl⟩

/-- **C28** for rasters: the null cells are those of the input and hold the null value of the result; a valid cell
holds its label; only 4 and 8 are accepted as neighbourhood.  Null cells do not belong to any region. -/
theorem C28_regions {np : NumPy} {label : Nat → Labeler} (r : Raster) (hr : MaskNeedsNull r) (neighbors : Int)
    (uniqueValues : Option (List Num)) (hu : ∀ us, uniqueValues = some us → us.Nodup)
    (hl : ∀ n, IsLabeler n r.ny r.nx (label n)) :
    ((neighbors = 4 ∨ neighbors = 8) → ∃ o, regions np label r neighbors uniqueValues = .ok o ∧ o.dtype = u64 ∧
      o.nb = r.nb ∧ o.ny = r.ny ∧ o.nx = r.nx ∧ (∀ c, o.mask c = r.mask c) ∧ NullsHold o ∧
      ∀ b, ∃ lab : Pos → Nat, (∀ p, r.mask (b, p) = false → o.data (b, p) = .fin (lab p : Rat)) ∧
        (∀ p, InGrid r.ny r.nx p → (lab p = 0 ↔ r.mask (b, p) = true ∨ r.data (b, p) = .fin 0 ∨ r.data (b, p) = .nan ∨
          ∃ us, uniqueValues = some us ∧ r.data (b, p) ∉ us)) ∧
        (∀ p q, InGrid r.ny r.nx p → InGrid r.ny r.nx q → lab p ≠ 0 → lab q ≠ 0 →
          (lab p = lab q ↔ r.data (b, p) = r.data (b, q) ∧ Connected neighbors.toNat r.ny r.nx
            (fun s => r.mask (b, s) = false ∧ r.data (b, s) = r.data (b, p)) p q)) ∧
        ∃ N, (∀ p, InGrid r.ny r.nx p → lab p ≤ N) ∧ ∀ k, 1 ≤ k → k ≤ N → ∃ p, InGrid r.ny r.nx p ∧ lab p = k) ∧
    (¬ (neighbors = 4 ∨ neighbors = 8) → regions np label r neighbors uniqueValues = .error .value) := by
  refine ⟨?_, ?_⟩
  · intro hn
    unfold regions
    rw [if_pos hn]
    have hmm : ∀ c, (r.masked && r.mask c) = r.mask c := by
      intro c
      cases hc : r.mask c with
      | false => simp
      | true =>
        have := hr c hc
        cases h : r.nv with
        | none => exact absurd h this
        | some s => simp [Raster.masked, h]
    refine ⟨_, rfl, rfl, rfl, rfl, rfl, fun _ => rfl, ?_, ?_⟩
    · intro c hc
      refine ⟨_, rfl, ?_⟩
      have hc : r.mask c = true := hc
      simp [ofData, hmm, hc]
    · intro b
      obtain ⟨h1, h2, h3⟩ := C28_labels (hl neighbors.toNat)
        (fun p => if r.mask (b, p) = true then .fin 0 else r.data (b, p)) uniqueValues hu
      refine ⟨createLabels (label neighbors.toNat) r.ny r.nx
        (fun p => if r.mask (b, p) = true then .fin 0 else r.data (b, p)) uniqueValues, ?_, ?_, ?_, h3⟩
      · intro p hp
        simp [ofData, hmm, hp]
      · intro p hp
        have := h1 p hp
        rw [← not_iff_not, show ∀ a : Nat, (¬ a = 0) = (0 < a) from fun a => propext (Nat.pos_iff_ne_zero).symm, this]
        cases hm : r.mask (b, p) with
        | true => simp
        | false =>
          simp only [Bool.false_eq_true, if_false, false_or, not_or, not_exists, not_and, Decidable.not_not]
      · intro p q hp hq h0p h0q
        have hsel : ∀ s, InGrid r.ny r.nx s → createLabels (label neighbors.toNat) r.ny r.nx
            (fun p => if r.mask (b, p) = true then .fin 0 else r.data (b, p)) uniqueValues s ≠ 0 →
            r.mask (b, s) = false ∧ r.data (b, s) ≠ .fin 0 := by
          intro s hs h0
          have := (h1 s hs).mp (Nat.pos_of_ne_zero h0)
          cases hm : r.mask (b, s) with
          | true => simp [hm] at this
          | false =>
            simp only [hm, Bool.false_eq_true, if_false] at this
            exact ⟨rfl, this.1⟩
        have hp' := hsel p hp h0p
        have hq' := hsel q hq h0q
        rw [h2 p q hp hq (Nat.pos_of_ne_zero h0p) (Nat.pos_of_ne_zero h0q)]
        simp only [hp'.1, hq'.1, Bool.false_eq_true, if_false]
        have hS : (fun s => (if r.mask (b, s) = true then (.fin 0 : Num) else r.data (b, s)) = r.data (b, p)) =
            fun s => r.mask (b, s) = false ∧ r.data (b, s) = r.data (b, p) := by
          funext s
          cases hm : r.mask (b, s) with
          | true =>
            simp only [if_true, Bool.true_eq_false, false_and, eq_iff_iff, iff_false]
            exact fun h => hp'.2 h.symm
          | false => simp
        rw [hS]
  · intro hn
    unfold regions
    rw [if_neg hn]

/-- The hypotheses of C28 are met for every raster without nulls. -/
example (ny nx : Nat) : ∃ label : Nat → Labeler, (∀ n, IsLabeler n ny nx (label n)) ∧
    MaskNeedsNull ⟨u8, 1, ny, nx, fun c => .fin c.2.1, fun _ => false, none⟩ := by
  choose label h using fun n => labeler_exists n ny nx
  exact ⟨label, h, fun c hc => nomatch hc⟩

/-- **C28**, the null value: that of the raster as `reconcile_nullvalue_with_dtype` converts it to uint64 (see C18 and
C43), and the default one of uint64 if the raster has none. -/
theorem C28_null_value (np : NumPy) (label : Nat → Labeler) (r : Raster) (neighbors : Int) (uniqueValues : Option (List Num))
    {o : Raster} (h : regions np label r neighbors uniqueValues = .ok o) :
    (r.nv = none → o.nv = some (defaultNull u64)) ∧
    ∀ s, r.nv = some s → o.nv = (reconcile np (some s) u64).1 := by
  unfold regions at h
  split at h
  · simp only [Except.ok.injEq] at h
    subst h
    refine ⟨fun hn => ?_, fun s hs => ?_⟩
    · simp [ofData, Raster.masked, hn]
    · simp only [ofData, Raster.masked, hs, Option.isSome_some, if_true]
      cases hr : (reconcile np (some s) u64).1 with
      | some t => rfl
      | none =>
        exfalso
        unfold reconcile at hr
        simp only at hr
        repeat' split at hr
        all_goals cases hr
  · cases h

example : (∃ o, regions (idNumPy true) (fun _ _ => (fun _ => 0, 0)) ⟨i16, 1, 1, 1, fun _ => .fin 0, fun _ => true, some ⟨i16, .fin 7⟩⟩ 4
    none = .ok o ∧ o.nv = some ⟨i16, .fin 7⟩) := ⟨_, rfl, by decide +kernel⟩

/-- **Duplicate values**: with a value listed twice the labels of two regions may coincide, because both copies
are added up: for the row 1, 0, 2 and the values 1, 1, 2, the cell of value 1 gets 1 + 2 and the cell of value 2
gets 3 as well. -/
theorem C28_duplicates_collide : ∃ (label : Labeler) (data : Pos → Num), IsLabeler 4 1 3 label ∧
    data (0, 0) ≠ data (0, 2) ∧
    createLabels label 1 3 data (some [.fin 1, .fin 1, .fin 2]) (0, 0) =
      createLabels label 1 3 data (some [.fin 1, .fin 1, .fin 2]) (0, 2) := by
  obtain ⟨label, hl⟩ := labeler_exists 4 1 3
  -- cells 1, 0, 2
  let data : Pos → Num := fun p => if p.2 = 0 then .fin 1 else if p.2 = 2 then .fin 2 else .fin 0
  refine ⟨label, data, hl, by decide +kernel, ?_⟩
  have one : ∀ v : Num, (∃! p : Pos, InGrid 1 3 p ∧ (data p).eq v = true) → (label fun s => (data s).eq v).2 = 1 ∧
      ∀ p, InGrid 1 3 p → (label fun s => (data s).eq v).1 p = if (data p).eq v = true then 1 else 0 := by
    rintro v ⟨p0, ⟨hp0, hv0⟩, huniq⟩
    have hz : ∀ p, InGrid 1 3 p → (data p).eq v ≠ true → (label fun s => (data s).eq v).1 p = 0 := by
      intro p hp hne
      by_contra h
      exact hne ((hl.pos _ p hp).mp (Nat.pos_of_ne_zero h))
    have hpos := (hl.pos (fun s => (data s).eq v) p0 hp0).mpr hv0
    have hb := hl.bound (fun s => (data s).eq v) p0 hp0
    have hn : (label fun s => (data s).eq v).2 = 1 := by
      by_contra hne
      have h2 : 2 ≤ (label fun s => (data s).eq v).2 := by omega
      have hall : ∀ k, 1 ≤ k → k ≤ (label fun s => (data s).eq v).2 → (label fun s => (data s).eq v).1 p0 = k := by
        intro k h1 h2
        obtain ⟨p, hp, he⟩ := hl.onto (fun s => (data s).eq v) k h1 h2
        have : (data p).eq v = true := (hl.pos (fun s => (data s).eq v) p hp).mp (by omega)
        rw [huniq p ⟨hp, this⟩] at he
        exact he
      have a := hall 1 (by omega) (by omega)
      have b := hall 2 (by omega) h2
      omega
    refine ⟨hn, ?_⟩
    intro p hp
    by_cases hv : (data p).eq v = true
    · rw [if_pos hv, huniq p ⟨hp, hv⟩]
      omega
    · rw [if_neg hv, hz p hp hv]
  have grid : ∀ p : Pos, InGrid 1 3 p → p = (0, 0) ∨ p = (0, 1) ∨ p = (0, 2) := by
    rintro ⟨y, x⟩ ⟨h1, h2⟩
    simp only at h1 h2
    have : y = 0 := by omega
    subst this
    have : x = 0 ∨ x = 1 ∨ x = 2 := by omega
    rcases this with rfl | rfl | rfl <;> simp
  have u1 := one (.fin 1) ⟨(0, 0), ⟨⟨by decide, by decide⟩, by decide +kernel⟩, by
    rintro p ⟨hp, hv⟩
    rcases grid p hp with rfl | rfl | rfl
    · rfl
    · revert hv; decide +kernel
    · revert hv; decide +kernel⟩
  have u2 := one (.fin 2) ⟨(0, 2), ⟨⟨by decide, by decide⟩, by decide +kernel⟩, by
    rintro p ⟨hp, hv⟩
    rcases grid p hp with rfl | rfl | rfl
    · revert hv; decide +kernel
    · revert hv; decide +kernel
    · rfl⟩
  have g0 : InGrid 1 3 (0, 0) := ⟨by decide, by decide⟩
  have g2 : InGrid 1 3 (0, 2) := ⟨by decide, by decide⟩
  have d1 : dropZero [.fin 1, .fin 1, .fin 2] = [.fin 1, .fin 1, .fin 2] := by decide +kernel
  have a1 : (data (0, 0)).eq (.fin 1) = true := by decide +kernel
  have a2 : (data (0, 0)).eq (.fin 2) = false := by decide +kernel
  have b1 : (data (0, 2)).eq (.fin 1) = false := by decide +kernel
  have b2 : (data (0, 2)).eq (.fin 2) = true := by decide +kernel
  simp only [createLabels, Option.getD_some, d1, List.foldl_cons, List.foldl_nil, labelStep, u1.1, u1.2 _ g0, u1.2 _ g2,
    u2.2 _ g0, u2.2 _ g2, a1, a2, b1, b2]
  decide

end Verif.Regions
