import Verif.Stats.Model
import Mathlib.Data.List.Sort
import Mathlib.Algebra.BigOperators.Group.List.Lemmas
import Mathlib.Algebra.BigOperators.Group.Finset.Basic
import Mathlib.Data.Finset.Card
import Mathlib.Tactic.Ring

/-!
# Properties of the NaN-aware statistics: C38
-/

set_option linter.unusedSectionVars false

namespace Verif.Stats

open Verif

namespace Spec

/-- The values that are not NaN. -/
def valid (x : List Num) : List Num := x.filter fun v => decide (v ≠ .nan)

/-- `a ≤ b` on numbers with infinities. -/
def Le : Num → Num → Prop
  | .negInf, b => b ≠ .nan
  | a, .posInf => a ≠ .nan
  | .fin a, .fin b => a ≤ b
  | _, _ => False

/-- The most frequent value and, of several, the smallest. -/
def IsMode (x : List Num) (m : Num) : Prop :=
  m ∈ valid x ∧ ∀ v ∈ valid x, (valid x).count v ≤ (valid x).count m ∧
    ((valid x).count v = (valid x).count m → Le m v)

/-- Position of the first value that is at least as good as all the others. -/
def IsFirst (better : Num → Num → Prop) (x : List Num) (i : Nat) : Prop :=
  ∃ v, x[i]? = some v ∧ v ≠ .nan ∧ ∀ (k : Nat) w, x[k]? = some w → w ≠ .nan → better v w ∧ (k < i → v ≠ w)

end Spec

open Spec

/-! ### The order -/

theorem le_iff {a b : Num} (ha : a ≠ .nan) (hb : b ≠ .nan) : le a b = true ↔ Le a b := by
  cases a <;> cases b <;> simp_all [le, lt, Num.eq, Le, le_iff_lt_or_eq]

theorem lt_iff {a b : Num} (ha : a ≠ .nan) (hb : b ≠ .nan) : lt a b = true ↔ Le a b ∧ a ≠ b := by
  cases a <;> cases b <;> simp_all [lt, Le, lt_iff_le_and_ne]

theorem le_not_nan {a b : Num} (h : Le a b) : a ≠ .nan ∧ b ≠ .nan := by
  cases a <;> cases b <;> simp_all [Le]

theorem le_total' {a b : Num} (ha : a ≠ .nan) (hb : b ≠ .nan) : Le a b ∨ Le b a := by
  cases a <;> cases b <;> simp_all [Le, le_total]

theorem le_trans' {a b c : Num} (h1 : Le a b) (h2 : Le b c) : Le a c := by
  cases a <;> cases b <;> cases c <;> simp_all [Le]
  exact le_trans h1 h2

theorem le_antisymm' {a b : Num} (h1 : Le a b) (h2 : Le b a) : a = b := by
  cases a <;> cases b <;> simp_all [Le]
  exact le_antisymm h1 h2

theorem le_refl' {a : Num} (h : a ≠ .nan) : Le a a := by
  cases a <;> simp_all [Le]

theorem isnan_false {v : Num} : (!v.isnan) = true ↔ v ≠ .nan := by
  cases v <;> simp [Num.isnan]

theorem eq_iff (a b : Num) : a.eq b = true ↔ a = b ∧ a ≠ .nan := by
  cases a <;> cases b <;> simp [Num.eq]

/-! ### Counting -/

/-- What a dict of counts should be after the values `l`. -/
def IsCount (c : Dict) (l : List Num) : Prop :=
  (c.map Prod.fst).Nodup ∧ (∀ v, v ∈ c.map Prod.fst ↔ v ∈ l) ∧ (∀ e ∈ c, e.2 = l.count e.1) ∧
    ∀ e ∈ c, e.1 ≠ .nan

theorem bump_keys {v : Num} (hv : v ≠ .nan) : ∀ c : Dict, (∀ e ∈ c, e.1 ≠ .nan) →
    (bump c v).map Prod.fst = if v ∈ c.map Prod.fst then c.map Prod.fst else c.map Prod.fst ++ [v]
  | [], _ => by simp [bump]
  | (w, n) :: c, h => by
    have ih := bump_keys hv c (fun e he => h e (List.mem_cons_of_mem _ he))
    have hw : w ≠ .nan := h (w, n) (by simp)
    unfold bump
    by_cases hwv : w = v
    · subst hwv
      have : w.eq w = true := (eq_iff _ _).mpr ⟨rfl, hw⟩
      rw [if_pos this]
      simp
    · have : ¬ w.eq v = true := fun he => hwv ((eq_iff _ _).mp he).1
      rw [if_neg this, List.map_cons, ih]
      by_cases hm : v ∈ c.map Prod.fst
      · rw [if_pos hm, if_pos (by simp only [List.map_cons]; exact List.mem_cons_of_mem _ hm), List.map_cons]
      · rw [if_neg hm, if_neg (by
          simp only [List.map_cons]
          intro h
          rcases List.mem_cons.mp h with h | h
          · exact hwv h.symm
          · exact hm h)]
        simp

theorem bump_mem {v : Num} (hv : v ≠ .nan) : ∀ c : Dict, (∀ e ∈ c, e.1 ≠ .nan) → (c.map Prod.fst).Nodup →
    ∀ e ∈ bump c v, (e.1 ≠ v ∧ e ∈ c) ∨ (e.1 = v ∧ ((v ∉ c.map Prod.fst ∧ e.2 = 1) ∨ ∃ n, (v, n) ∈ c ∧ e.2 = n + 1))
  | [], _, _, e, he => by
    simp only [bump, List.mem_singleton] at he
    subst he
    exact .inr ⟨rfl, .inl ⟨by simp, rfl⟩⟩
  | (w, n) :: c, h, hnd, e, he => by
    have hw : w ≠ .nan := h (w, n) (by simp)
    rw [List.map_cons, List.nodup_cons] at hnd
    unfold bump at he
    by_cases hwv : w = v
    · subst hwv
      have : w.eq w = true := (eq_iff _ _).mpr ⟨rfl, hw⟩
      rw [if_pos this] at he
      rcases List.mem_cons.mp he with rfl | he
      · exact .inr ⟨rfl, .inr ⟨n, by simp, rfl⟩⟩
      · refine .inl ⟨fun h => hnd.1 (List.mem_map.mpr ⟨e, he, h⟩), List.mem_cons_of_mem _ he⟩
    · have : ¬ w.eq v = true := fun he => hwv ((eq_iff _ _).mp he).1
      rw [if_neg this] at he
      rcases List.mem_cons.mp he with rfl | he
      · exact .inl ⟨hwv, by simp⟩
      · rcases bump_mem hv c (fun e he => h e (List.mem_cons_of_mem _ he)) hnd.2 e he with ⟨h1, h2⟩ | ⟨h1, h2⟩
        · exact .inl ⟨h1, List.mem_cons_of_mem _ h2⟩
        · refine .inr ⟨h1, ?_⟩
          rcases h2 with ⟨h2, h3⟩ | ⟨m, h2, h3⟩
          · refine .inl ⟨?_, h3⟩
            rw [List.map_cons]
            intro hm
            rcases List.mem_cons.mp hm with hm | hm
            · exact hwv hm.symm
            · exact h2 hm
          · exact .inr ⟨m, List.mem_cons_of_mem _ h2, h3⟩

theorem isCount_bump {c : Dict} {l : List Num} (h : IsCount c l) {v : Num} (hv : v ≠ .nan) :
    IsCount (bump c v) (l ++ [v]) := by
  obtain ⟨h1, h2, h3, h4⟩ := h
  have hk := bump_keys hv c h4
  refine ⟨?_, ?_, ?_, ?_⟩
  · rw [hk]
    split
    · exact h1
    · rename_i hn
      rw [List.nodup_append]
      refine ⟨h1, by simp, ?_⟩
      intro a ha b hb
      simp only [List.mem_singleton] at hb
      rintro rfl
      exact hn (hb ▸ ha)
  · intro w
    rw [hk, List.mem_append, List.mem_singleton]
    split
    · rename_i hm
      rw [h2 w]
      constructor
      · exact fun h => .inl h
      · rintro (h | rfl)
        · exact h
        · exact (h2 _).mp hm
    · rw [List.mem_append, List.mem_singleton, h2 w]
  · intro e he
    rcases bump_mem hv c h4 h1 e he with ⟨g1, g2⟩ | ⟨g1, g2⟩
    · rw [h3 e g2, List.count_append]
      have : List.count e.1 [v] = 0 := List.count_eq_zero.mpr (by simpa using g1)
      omega
    · rw [List.count_append, g1]
      have : List.count v [v] = 1 := by simp
      rcases g2 with ⟨g2, g3⟩ | ⟨n, g2, g3⟩
      · have : List.count v l = 0 := List.count_eq_zero.mpr (fun h => g2 ((h2 v).mpr h))
        omega
      · have := h3 _ g2
        simp only at this
        omega
  · intro e he
    rcases bump_mem hv c h4 h1 e he with ⟨_, g2⟩ | ⟨g1, _⟩
    · exact h4 e g2
    · rw [g1]; exact hv

theorem lookup_of_mem {v : Num} {n : Nat} : ∀ (c : Dict), (∀ e ∈ c, e.1 ≠ .nan) → (c.map Prod.fst).Nodup →
    (v, n) ∈ c → lookup c v = n
  | [], _, _, h => nomatch h
  | (w, m) :: c, h, hnd, hm => by
    rw [List.map_cons, List.nodup_cons] at hnd
    have hw : w ≠ .nan := h (w, m) (by simp)
    unfold lookup
    rcases List.mem_cons.mp hm with he | hm
    · simp only [Prod.mk.injEq] at he
      obtain ⟨rfl, rfl⟩ := he
      rw [if_pos ((eq_iff _ _).mpr ⟨rfl, hw⟩)]
    · have : ¬ w.eq v = true := fun he => hnd.1 (((eq_iff _ _).mp he).1 ▸ List.mem_map.mpr ⟨_, hm, rfl⟩)
      rw [if_neg this]
      exact lookup_of_mem c (fun e he => h e (List.mem_cons_of_mem _ he)) hnd.2 hm

theorem lookup_count {c : Dict} {l : List Num} (h : IsCount c l) {v : Num} (hv : v ∈ l) :
    lookup c v = l.count v := by
  obtain ⟨e, he, rfl⟩ := List.mem_map.mp ((h.2.1 v).mpr hv)
  rw [lookup_of_mem (n := e.2) c h.2.2.2 h.1 he, h.2.2.1 e he]

theorem isCount_nil : IsCount [] [] := ⟨by simp, by simp, by simp, by simp⟩

theorem counts_isCount (x : List Num) : IsCount (counts x).1 (valid x) ∧ (counts x).2 = (valid x).length := by
  unfold counts
  induction x using List.reverseRecOn with
  | nil => exact ⟨isCount_nil, rfl⟩
  | append_singleton x v ih =>
    rw [List.foldl_append, List.foldl_cons, List.foldl_nil]
    have hval : valid (x ++ [v]) = if v ≠ .nan then valid x ++ [v] else valid x := by
      unfold valid
      rw [List.filter_append]
      by_cases h : v = .nan <;> simp [h]
    rw [hval]
    by_cases h : v = .nan
    · have hn : ¬ (!v.isnan) = true := fun g => isnan_false.mp g h
      rw [if_neg hn, if_neg (by simpa using h)]
      exact ih
    · have hn : (!v.isnan) = true := isnan_false.mpr h
      rw [if_pos hn, if_pos h]
      refine ⟨isCount_bump ih.1 h, ?_⟩
      rw [List.length_append, List.length_singleton, ← ih.2]

/-! ### Unique count -/

theorem unique_set (x : List Num) :
    let s := x.foldl (fun s v => if !v.isnan then setAdd s v else s) []
    s.Nodup ∧ (∀ v, v ∈ s ↔ v ∈ valid x) := by
  induction x using List.reverseRecOn with
  | nil => simp [valid]
  | append_singleton x v ih =>
    simp only [List.foldl_append, List.foldl_cons, List.foldl_nil] at ih ⊢
    generalize x.foldl (fun s v => if !v.isnan then setAdd s v else s) [] = s at ih ⊢
    obtain ⟨h1, h2⟩ := ih
    have hval : ∀ w, w ∈ valid (x ++ [v]) ↔ w ∈ valid x ∨ (w = v ∧ v ≠ .nan) := by
      intro w
      unfold valid
      rw [List.filter_append, List.mem_append]
      by_cases h : v = .nan <;> simp [h]
    by_cases h : v = .nan
    · have hn : ¬ (!v.isnan) = true := fun g => isnan_false.mp g h
      rw [if_neg hn]
      exact ⟨h1, fun w => by rw [hval, h2]; simp [h]⟩
    · have hn : (!v.isnan) = true := isnan_false.mpr h
      rw [if_pos hn]
      have hany : s.any (·.eq v) = true ↔ v ∈ s := by
        rw [List.any_eq_true]
        constructor
        · rintro ⟨w, hw, he⟩
          rw [← ((eq_iff _ _).mp he).1]
          exact hw
        · intro hm
          exact ⟨v, hm, (eq_iff _ _).mpr ⟨rfl, h⟩⟩
      unfold setAdd
      by_cases hm : v ∈ s
      · rw [if_pos (hany.mpr hm)]
        refine ⟨h1, fun w => ?_⟩
        rw [hval, h2]
        constructor
        · exact fun h => .inl h
        · rintro (h | ⟨rfl, _⟩)
          · exact h
          · exact (h2 _).mp hm
      · rw [if_neg (fun g => hm (hany.mp g))]
        refine ⟨?_, fun w => ?_⟩
        · rw [List.nodup_append]
          refine ⟨h1, by simp, ?_⟩
          intro a ha b hb
          simp only [List.mem_singleton] at hb
          rintro rfl
          exact hm (hb ▸ ha)
        · rw [hval, List.mem_append, List.mem_singleton, h2]
          simp [h]

/-- **C38**, unique: the number of different values other than NaN. -/
theorem C38_unique (x : List Num) : nanUniqueCount x = (valid x).toFinset.card := by
  obtain ⟨h1, h2⟩ := unique_set x
  unfold nanUniqueCount
  rw [← List.toFinset_card_of_nodup h1]
  congr 1
  ext v
  rw [List.mem_toFinset, List.mem_toFinset, h2]

/-! ### Angular second moment and entropy -/

section Field

variable {K : Type} [Field K]

theorem isCount_sum {c : Dict} {l : List Num} (h : IsCount c l) (f : Nat → K) :
    (c.map fun e => f e.2).sum = ∑ v ∈ l.toFinset, f (l.count v) := by
  have hfin : l.toFinset = (c.map Prod.fst).toFinset := by
    ext v
    rw [List.mem_toFinset, List.mem_toFinset, h.2.1]
  rw [hfin, List.sum_toFinset _ h.1, List.map_map]
  congr 1
  apply List.map_congr_left
  intro e he
  simp only [Function.comp]
  rw [h.2.2.1 e he]

/-- **C38**, asm: the sum of the squared frequencies. -/
theorem C38_asm (x : List Num) : (nanasm x : K) =
    ∑ v ∈ (valid x).toFinset, (((valid x).count v : K) / ((valid x).length : K)) ^ 2 := by
  obtain ⟨h1, h2⟩ := counts_isCount x
  have hf : ∀ (n : K) (c : Dict) (a : K), c.foldl (fun asm e => asm + (e.2 * (1 / n) : K) * (e.2 * (1 / n))) a =
      a + (c.map fun e => ((e.2 : K) / n) ^ 2).sum := by
    intro n c
    induction c with
    | nil => intro a; simp
    | cons e c ih =>
      intro a
      rw [List.foldl_cons, ih, List.map_cons, List.sum_cons]
      ring
  unfold nanasm
  simp only
  split
  · rw [hf, zero_add, isCount_sum h1 (fun k => ((k : K) / _) ^ 2), h2]
  · rename_i hn
    rw [h2] at hn
    have : valid x = [] := List.length_eq_zero_iff.mp (by omega)
    rw [this]
    simp

/-- **C38**, entropy: minus the sum of `p * log p` over the frequencies. -/
theorem C38_entropy (log : K → K) (x : List Num) : nanentropy log x =
    - ∑ v ∈ (valid x).toFinset, ((valid x).count v : K) / ((valid x).length : K) *
      log (((valid x).count v : K) / ((valid x).length : K)) := by
  obtain ⟨h1, h2⟩ := counts_isCount x
  have hf : ∀ (n : K) (c : Dict) (a : K),
      c.foldl (fun entr e => entr - (e.2 * (1 / n) : K) * log (e.2 * (1 / n))) a =
      a - (c.map fun e => ((e.2 : K) / n) * log ((e.2 : K) / n)).sum := by
    intro n c
    induction c with
    | nil => intro a; simp
    | cons e c ih =>
      intro a
      rw [List.foldl_cons, ih, List.map_cons, List.sum_cons, mul_one_div]
      ring
  unfold nanentropy
  simp only
  split
  · rw [hf, zero_sub, isCount_sum h1 (fun k => ((k : K) / _) * log ((k : K) / _)), h2]
  · rename_i hn
    rw [h2] at hn
    have : valid x = [] := List.length_eq_zero_iff.mp (by omega)
    rw [this]
    simp

end Field

/-! ### Mode -/

theorem argmaxFrom_spec : ∀ (ns : List Nat) (pre : List Nat) (best bestPos : Nat),
    (pre ++ ns)[bestPos]? = some best → bestPos < pre.length → (∀ (k : Nat) n, pre[k]? = some n → n ≤ best ∧ (k < bestPos → n < best)) →
    ∃ m, (pre ++ ns)[argmaxFrom ns pre.length best bestPos]? = some m ∧
      ∀ (k : Nat) n, (pre ++ ns)[k]? = some n → n ≤ m ∧ (k < argmaxFrom ns pre.length best bestPos → n < m)
  | [], pre, best, bestPos, h1, h2, h3 => by
    refine ⟨best, h1, ?_⟩
    rw [List.append_nil] at *
    exact h3
  | n :: ns, pre, best, bestPos, h1, h2, h3 => by
    have hpre : pre ++ n :: ns = (pre ++ [n]) ++ ns := by simp
    have hlen : pre.length + 1 = (pre ++ [n]).length := by simp
    have hget : ∀ (k : Nat) m, (pre ++ [n])[k]? = some m → (k < pre.length ∧ pre[k]? = some m) ∨ (k = pre.length ∧ m = n) := by
      intro k m hk
      by_cases hkl : k < pre.length
      · rw [List.getElem?_append_left hkl] at hk
        exact .inl ⟨hkl, hk⟩
      · rw [List.getElem?_append_right (by omega)] at hk
        have : k - pre.length = 0 := by
          by_contra hne
          rw [List.getElem?_eq_none (by simp; omega)] at hk
          cases hk
        rw [this] at hk
        simp only [List.getElem?_cons_zero, Option.some.injEq] at hk
        exact .inr ⟨by omega, hk.symm⟩
    unfold argmaxFrom
    by_cases hn : n > best
    · rw [if_pos hn, hlen, hpre]
      apply argmaxFrom_spec
      · rw [List.append_assoc, List.getElem?_append_right (by omega)]
        simp
      · simp
      · intro k m hk
        rcases hget k m hk with ⟨h, hk⟩ | ⟨rfl, rfl⟩
        · have := (h3 k m hk).1
          exact ⟨by omega, fun _ => by omega⟩
        · exact ⟨le_refl _, fun h => by omega⟩
    · rw [if_neg hn, hlen, hpre]
      apply argmaxFrom_spec
      · rw [← hpre]; exact h1
      · simp; omega
      · intro k m hk
        rcases hget k m hk with ⟨_, hk⟩ | ⟨rfl, rfl⟩
        · exact h3 k m hk
        · exact ⟨by omega, fun h => by omega⟩

theorem argmax_spec {ns : List Nat} (hne : ns ≠ []) : ∃ m, ns[argmax ns]? = some m ∧
    ∀ (k : Nat) n, ns[k]? = some n → n ≤ m ∧ (k < argmax ns → n < m) := by
  cases ns with
  | nil => exact absurd rfl hne
  | cons n ns =>
    have := argmaxFrom_spec ns [n] n 0 (by simp) (by simp) (by
      intro k m hk
      cases k with
      | zero =>
        simp only [List.getElem?_cons_zero, Option.some.injEq] at hk
        exact ⟨by omega, fun h => by omega⟩
      | succ k => simp at hk)
    exact this

/-- The loop of `nanmode_jit` moves the values to the front and counts them. -/
theorem mode_loop (x : List Num) :
    let s := (List.range x.length).foldl modeStep ⟨x, [], 0⟩
    s.x.take s.j = valid x ∧ s.j = (valid x).length ∧ s.x.length = x.length ∧ IsCount s.c (valid x) := by
  have key : ∀ i, i ≤ x.length →
      let s := (List.range i).foldl modeStep ⟨x, [], 0⟩
      s.x.take s.j = valid (x.take i) ∧ s.j = (valid (x.take i)).length ∧ s.x.length = x.length ∧
        IsCount s.c (valid (x.take i)) ∧ ∀ (k : Nat), i ≤ k → s.x[k]? = x[k]? := by
    intro i
    induction i with
    | zero =>
      intro _
      simp only [List.range_zero, List.foldl_nil, List.take_zero]
      exact ⟨rfl, rfl, trivial, isCount_nil, fun _ _ => trivial⟩
    | succ i ih =>
      intro hi
      have ih := ih (by omega)
      simp only [List.range_succ, List.foldl_append, List.foldl_cons, List.foldl_nil] at ih ⊢
      generalize (List.range i).foldl modeStep ⟨x, [], 0⟩ = s at ih ⊢
      obtain ⟨h1, h2, h3, h4, h5⟩ := ih
      have hxi : x[i]? = some x[i] := List.getElem?_eq_getElem (by omega)
      have htake : x.take (i + 1) = x.take i ++ [x[i]] := by
        rw [List.take_add_one, hxi]; rfl
      have hval : valid (x.take (i + 1)) = if x[i] ≠ .nan then valid (x.take i) ++ [x[i]] else valid (x.take i) := by
        rw [htake]
        unfold valid
        rw [List.filter_append]
        by_cases h : x[i] = .nan <;> simp [h]
      unfold modeStep
      rw [h5 i (le_refl _), hxi]
      simp only
      by_cases h : x[i] = .nan
      · have hn : ¬ (!(x[i]).isnan) = true := fun g => isnan_false.mp g h
        rw [if_neg hn, hval, if_neg (by simpa using h)]
        exact ⟨h1, h2, h3, h4, fun k hk => h5 k (by omega)⟩
      · have hn : (!(x[i]).isnan) = true := isnan_false.mpr h
        rw [if_pos hn, hval, if_pos h]
        have hj : s.j ≤ i := by
          rw [h2]
          exact le_trans (List.length_filter_le _ _) (by rw [List.length_take]; omega)
        refine ⟨?_, ?_, ?_, isCount_bump h4 h, ?_⟩
        · simp only
          rw [List.take_add_one, List.take_set, List.getElem?_set_self (by omega)]
          rw [List.set_eq_of_length_le (by rw [List.length_take]; omega), h1]
          rfl
        · simp only
          rw [List.length_append, List.length_singleton, h2]
        · simp only
          rw [List.length_set, h3]
        · intro k hk
          simp only
          rw [List.getElem?_set_ne (by omega)]
          exact h5 k (by omega)
  obtain ⟨h1, h2, h3, h4, _⟩ := key x.length (le_refl _)
  rw [List.take_length] at h1 h2 h4
  exact ⟨h1, h2, h3, h4⟩

theorem mem_valid {x : List Num} {v : Num} : v ∈ valid x ↔ v ∈ x ∧ v ≠ .nan := by
  unfold valid
  simp

theorem pairwise_le_sort {l : List Num} (h : ∀ v ∈ l, v ≠ .nan) : (l.mergeSort le).Pairwise Le := by
  -- sort pairs of values with proofs by a total order: work with the order of `le` on non-NaN values
  have hmem : ∀ v ∈ l.mergeSort le, v ≠ .nan := fun v hv => h v (List.mem_mergeSort.mp hv)
  let le' : Num → Num → Bool := fun a b =>
    if a = .nan then decide (b = .nan) else if b = .nan then true else le a b
  have heq : l.mergeSort le = l.mergeSort le' := by
    have := List.map_mergeSort (r := fun a b : { v : Num // v ≠ .nan } => le a.1 b.1) (s := le)
      (f := Subtype.val) (l := l.attach.map fun a => ⟨a.1, h a.1 a.2⟩) (by intros; rfl)
    have h2 := List.map_mergeSort (r := fun a b : { v : Num // v ≠ .nan } => le a.1 b.1) (s := le')
      (f := Subtype.val) (l := l.attach.map fun a => ⟨a.1, h a.1 a.2⟩) (by
        intro a _ b _
        simp only [le', if_neg a.2, if_neg b.2])
    have hl : List.map Subtype.val (l.attach.map fun a => (⟨a.1, h a.1 a.2⟩ : { v : Num // v ≠ .nan })) = l := by
      rw [List.map_map]
      exact List.attach_map_subtype_val l
    rw [hl] at this h2
    rw [← this, ← h2]
  rw [heq] at hmem ⊢
  have hs : (l.mergeSort le').Pairwise fun a b => le' a b = true := by
    apply List.pairwise_mergeSort
    · intro a b c h1 h2
      simp only [le'] at *
      by_cases ha : a = .nan <;> by_cases hb : b = .nan <;> by_cases hc : c = .nan <;> simp_all
      exact (le_iff ha hc).mpr (le_trans' ((le_iff ha hb).mp h1) ((le_iff hb hc).mp h2))
    · intro a b
      simp only [le']
      by_cases ha : a = .nan <;> by_cases hb : b = .nan <;> simp_all
      rcases le_total' ha hb with h | h
      · exact .inl ((le_iff ha hb).mpr h)
      · exact .inr ((le_iff hb ha).mpr h)
  refine hs.imp_of_mem ?_
  intro a b ha hb hab
  simp only [le', if_neg (hmem a ha), if_neg (hmem b hb)] at hab
  exact (le_iff (hmem a ha) (hmem b hb)).mp hab

/-- **C38**, mode: NaN if there is no value, otherwise the smallest of the most frequent values. -/
theorem C38_mode (x : List Num) :
    (valid x = [] → (nanmode x).1 = .nan) ∧ (valid x ≠ [] → IsMode x (nanmode x).1) := by
  obtain ⟨h1, h2, h3, h4⟩ := mode_loop x
  unfold nanmode
  simp only
  generalize (List.range x.length).foldl modeStep ⟨x, [], 0⟩ = s at h1 h2 h3 h4 ⊢
  constructor
  · intro he
    rw [if_pos (by rw [h2, he]; rfl)]
  · intro hne
    have hj : s.j ≠ 0 := by
      rw [h2]
      exact fun h => hne (List.length_eq_zero_iff.mp h)
    rw [if_neg hj, h1]
    simp only
    have hperm := List.mergeSort_perm (valid x) le
    have hsort := pairwise_le_sort (l := valid x) (fun v hv => (mem_valid.mp hv).2)
    generalize (valid x).mergeSort le = vals at hperm hsort ⊢
    have hvne : vals.map (lookup s.c) ≠ [] := by
      intro h
      rw [List.map_eq_nil_iff] at h
      rw [h] at hperm
      exact hne (List.nil_perm.mp hperm)
    obtain ⟨m, hm, hbest⟩ := argmax_spec hvne
    rw [List.getElem?_map] at hm
    cases hv : vals[argmax (vals.map (lookup s.c))]? with
    | none => rw [hv] at hm; cases hm
    | some w =>
      rw [hv] at hm
      simp only [Option.map_some, Option.some.injEq] at hm
      have hwmem : w ∈ valid x := hperm.mem_iff.mp (List.mem_of_getElem? hv)
      rw [lookup_count h4 hwmem] at hm
      have hD : vals.getD (argmax (vals.map (lookup s.c))) .nan = w := by
        rw [List.getD_eq_getElem?_getD, hv]; rfl
      rw [hD]
      refine ⟨hwmem, ?_⟩
      intro v hvm
      obtain ⟨k, hk⟩ := List.mem_iff_getElem?.mp (hperm.mem_iff.mpr hvm)
      have hb := hbest k (lookup s.c v) (by rw [List.getElem?_map, hk]; rfl)
      rw [lookup_count h4 hvm] at hb
      refine ⟨by rw [hm]; exact hb.1, ?_⟩
      intro heq
      by_cases hlt : k < argmax (vals.map (lookup s.c))
      · have := hb.2 hlt
        omega
      · by_cases heqk : k = argmax (vals.map (lookup s.c))
        · rw [heqk, hv] at hk
          simp only [Option.some.injEq] at hk
          subst hk
          exact le_refl' (mem_valid.mp hwmem).2
        · obtain ⟨ha, ha'⟩ := List.getElem?_eq_some_iff.mp hv
          obtain ⟨hb1, hb'⟩ := List.getElem?_eq_some_iff.mp hk
          have := (List.pairwise_iff_getElem.mp hsort) _ _ ha hb1 (by omega)
          rw [ha', hb'] at this
          exact this

theorem IsMode.unique {x y : List Num} (hp : (valid x).Perm (valid y)) {a b : Num} (ha : IsMode x a) (hb : IsMode y b) :
    a = b := by
  have ha' := ha.2 b (hp.mem_iff.mpr hb.1)
  have hb' := hb.2 a (hp.mem_iff.mp ha.1)
  rw [hp.count_eq, hp.count_eq] at ha'
  have e : (valid y).count a = (valid y).count b := le_antisymm hb'.1 ha'.1
  exact le_antisymm' (ha'.2 e.symm) (hb'.2 e)

/-- **C38**: order and NaNs do not matter. -/
theorem C38_invariance {x y : List Num} (h : (valid x).Perm (valid y)) :
    nanUniqueCount x = nanUniqueCount y ∧ (nanmode x).1 = (nanmode y).1 ∧ (nanasm x : Rat) = nanasm y ∧
    ∀ {K : Type} [Field K] (log : K → K), (nanasm x : K) = nanasm y ∧ nanentropy log x = nanentropy log y := by
  have hfin : (valid x).toFinset = (valid y).toFinset := List.toFinset_eq_of_perm _ _ h
  refine ⟨?_, ?_, ?_, ?_⟩
  · rw [C38_unique, C38_unique, hfin]
  · by_cases he : valid x = []
    · have he' : valid y = [] := by
        rw [he] at h
        exact List.nil_perm.mp h
      rw [(C38_mode x).1 he, (C38_mode y).1 he']
    · have he' : valid y ≠ [] := by
        intro h'
        rw [h'] at h
        exact he (List.perm_nil.mp h)
      exact IsMode.unique h ((C38_mode x).2 he) ((C38_mode y).2 he')
  · rw [C38_asm, C38_asm, hfin, h.length_eq]
    simp only [h.count_eq]
  · intro K _ log
    refine ⟨?_, ?_⟩
    · rw [C38_asm, C38_asm, hfin, h.length_eq]
      simp only [h.count_eq]
    · rw [C38_entropy, C38_entropy, hfin, h.length_eq]
      simp only [h.count_eq]

/-- The mode computation reorders the caller's array: afterwards it starts with the values in ascending order. -/
theorem C38_mode_sorts_argument (x : List Num) : (nanmode x).2.length = x.length ∧
    ((nanmode x).2.take (valid x).length).Perm (valid x) := by
  obtain ⟨h1, h2, h3, h4⟩ := mode_loop x
  unfold nanmode
  simp only
  generalize (List.range x.length).foldl modeStep ⟨x, [], 0⟩ = s at h1 h2 h3 h4 ⊢
  have hlen : (valid x).length ≤ x.length := List.length_filter_le _ _
  split
  · rename_i hj
    refine ⟨h3, ?_⟩
    simp only
    rw [← h2, h1]
  · refine ⟨?_, ?_⟩
    · simp only
      rw [List.length_append, List.length_mergeSort, List.length_take, List.length_drop]
      omega
    · simp only
      rw [h1, ← List.length_mergeSort (le := le) (valid x), List.take_left]
      exact List.mergeSort_perm _ _

theorem all_nan {x : List Num} : (x.all (·.isnan)) = true ↔ valid x = [] := by
  rw [List.all_eq_true, List.eq_nil_iff_forall_not_mem]
  constructor
  · intro h v hv
    obtain ⟨h1, h2⟩ := mem_valid.mp hv
    have := h v h1
    cases v <;> simp_all [Num.isnan]
  · intro h v hv
    by_contra hn
    exact h v (mem_valid.mpr ⟨hv, fun e => hn (by rw [e]; rfl)⟩)

/-! ### Position of the smallest and largest value -/

/-- What the loop has found after the values `pre`. -/
def ArgInv (good : Num → Num → Prop) (worst : Num) (pre : List Num) (j : Nat) (m : Num) : Prop :=
  m ≠ .nan ∧ (∀ (k : Nat) w, pre[k]? = some w → w ≠ .nan → good m w) ∧
  ((pre[j]? = some m ∧ ∀ (k : Nat) w, pre[k]? = some w → w ≠ .nan → k < j → w ≠ m) ∨ (m = worst ∧ j = 0))

theorem getElem?_snoc {pre : List Num} {a w : Num} {k : Nat} (hk : (pre ++ [a])[k]? = some w) :
    (k < pre.length ∧ pre[k]? = some w) ∨ (k = pre.length ∧ w = a) := by
  by_cases hkl : k < pre.length
  · rw [List.getElem?_append_left hkl] at hk
    exact .inl ⟨hkl, hk⟩
  · rw [List.getElem?_append_right (by omega)] at hk
    have : k - pre.length = 0 := by
      by_contra hne
      rw [List.getElem?_eq_none (by simp only [List.length_singleton]; omega)] at hk
      cases hk
    rw [this] at hk
    simp only [List.getElem?_cons_zero, Option.some.injEq] at hk
    exact .inr ⟨by omega, hk.symm⟩

theorem argLoop_spec {better : Num → Num → Bool} {good : Num → Num → Prop} {worst : Num}
    (hgood : ∀ a b, a ≠ .nan → b ≠ .nan → (better a b = true ↔ good a b ∧ a ≠ b))
    (htot : ∀ a b, a ≠ .nan → b ≠ .nan → good a b ∨ good b a)
    (htr : ∀ a b c, good a b → good b c → good a c) (hanti : ∀ a b, good a b → good b a → a = b) :
    ∀ (x pre : List Num) (j : Nat) (m : Num), ArgInv good worst pre j m →
      ∃ m', ArgInv good worst (pre ++ x) (argLoop better x pre.length j m) m'
  | [], pre, j, m, h => by
    refine ⟨m, ?_⟩
    rw [List.append_nil]
    exact h
  | a :: x, pre, j, m, h => by
    have happ : pre ++ a :: x = (pre ++ [a]) ++ x := by simp
    have hlen : pre.length + 1 = (pre ++ [a]).length := by simp
    obtain ⟨hm, hpre, hj⟩ := h
    have hstay : (a ≠ .nan → good m a) → ArgInv good worst (pre ++ [a]) j m := by
      intro ha
      refine ⟨hm, ?_, ?_⟩
      · intro k w hk hw
        rcases getElem?_snoc hk with ⟨_, hk⟩ | ⟨_, rfl⟩
        · exact hpre k w hk hw
        · exact ha hw
      · rcases hj with ⟨h1, h2⟩ | h
        · have hlt : j < pre.length := (List.getElem?_eq_some_iff.mp h1).1
          refine .inl ⟨by rw [List.getElem?_append_left hlt]; exact h1, ?_⟩
          intro k w hk hw hkj
          rcases getElem?_snoc hk with ⟨_, hk⟩ | ⟨hk, _⟩
          · exact h2 k w hk hw hkj
          · omega
        · exact .inr h
    unfold argLoop
    by_cases ha : a = .nan
    · have hn : a.isnan = true := by rw [ha]; rfl
      rw [if_pos hn, hlen, happ]
      exact argLoop_spec hgood htot htr hanti x _ j m (hstay (fun h => absurd ha h))
    · have hn : ¬ a.isnan = true := by
        cases a <;> simp_all [Num.isnan]
      rw [if_neg hn]
      by_cases hb : better a m = true
      · rw [if_pos hb, hlen, happ]
        have hg := (hgood a m ha hm).mp hb
        have hrefl : good a a := by
          rcases htot a a ha ha with h | h <;> exact h
        refine argLoop_spec hgood htot htr hanti x _ pre.length a ⟨ha, ?_, .inl ⟨?_, ?_⟩⟩
        · intro k w hk hw
          rcases getElem?_snoc hk with ⟨_, hk⟩ | ⟨_, rfl⟩
          · exact htr _ _ _ hg.1 (hpre k w hk hw)
          · exact hrefl
        · rw [List.getElem?_append_right (le_refl _)]
          simp
        · intro k w hk hw hkj he
          rcases getElem?_snoc hk with ⟨_, hk'⟩ | ⟨hk', _⟩
          · subst he
            exact hg.2 (hanti _ _ hg.1 (hpre k w hk' hw))
          · omega
      · rw [if_neg hb, hlen, happ]
        refine argLoop_spec hgood htot htr hanti x _ j m (hstay fun _ => ?_)
        rcases htot m a hm ha with h | h
        · exact h
        · by_cases e : a = m
          · rw [e]; rw [e] at h; exact h
          · exact absurd ((hgood a m ha hm).mpr ⟨h, e⟩) hb

theorem arg_first {better : Num → Num → Bool} {good : Num → Num → Prop} {worst : Num} (hw0 : worst ≠ .nan)
    (hgood : ∀ a b, a ≠ .nan → b ≠ .nan → (better a b = true ↔ good a b ∧ a ≠ b))
    (htot : ∀ a b, a ≠ .nan → b ≠ .nan → good a b ∨ good b a)
    (htr : ∀ a b c, good a b → good b c → good a c) (hanti : ∀ a b, good a b → good b a → a = b)
    (hworst : ∀ a, a ≠ .nan → good a worst) {x : List Num}
    (hx : (∃ v ∈ x, v ≠ .nan ∧ v ≠ worst) ∨ ∃ v, x[0]? = some v ∧ v ≠ .nan) :
    IsFirst good x (argLoop better x 0 0 worst) := by
  obtain ⟨m, hm, hall, hj⟩ := argLoop_spec (worst := worst) hgood htot htr hanti x [] 0 worst
    ⟨hw0, fun k w hk => by simp at hk, .inr ⟨rfl, rfl⟩⟩
  rw [List.nil_append] at *
  simp only [List.length_nil] at hj
  rcases hj with ⟨h1, h2⟩ | ⟨rfl, h2⟩
  · exact ⟨m, h1, hm, fun k w hk hw => ⟨hall k w hk hw, fun hkj e => h2 k w hk hw hkj e.symm⟩⟩
  · have hone : ∀ (k : Nat) w, x[k]? = some w → w ≠ .nan → w = m := fun k w hk hw =>
      hanti _ _ (hworst w hw) (hall k w hk hw)
    rcases hx with ⟨v, hv, hn, hne⟩ | ⟨v, hv, hn⟩
    · obtain ⟨k, hk⟩ := List.mem_iff_getElem?.mp hv
      exact absurd (hone k v hk hn) hne
    · rw [h2]
      refine ⟨v, hv, hn, fun k w hk hw => ⟨?_, fun h => by omega⟩⟩
      rw [hone k w hk hw]
      exact hworst v hn

/-- **C38** for `nanargmin`, on arrays that hold a value other than `inf` and NaN or that do not begin with NaN. -/
theorem C38_argmin_partial (x : List Num) : (x = [] → nanargmin x = -1) ∧
    (x ≠ [] → valid x = [] → nanargmin x = -2) ∧
    (((∃ v ∈ x, v ≠ .nan ∧ v ≠ .posInf) ∨ ∃ v, x[0]? = some v ∧ v ≠ .nan) →
      ∃ i : Nat, nanargmin x = i ∧ IsFirst Le x i) := by
  refine ⟨fun h => by rw [h]; rfl, ?_, ?_⟩
  · intro hne hv
    unfold nanargmin
    rw [if_neg (fun h => hne (List.length_eq_zero_iff.mp h)), if_pos (all_nan.mpr hv)]
  · intro hx
    have hv : valid x ≠ [] := by
      obtain ⟨v, hv, hn⟩ : ∃ v ∈ x, v ≠ .nan := by
        rcases hx with ⟨v, hv, hn, _⟩ | ⟨v, hv, hn⟩
        · exact ⟨v, hv, hn⟩
        · exact ⟨v, List.mem_of_getElem? hv, hn⟩
      exact List.ne_nil_of_mem (mem_valid.mpr ⟨hv, hn⟩)
    have hne : x ≠ [] := by rintro rfl; exact hv rfl
    unfold nanargmin
    rw [if_neg (fun h => hne (List.length_eq_zero_iff.mp h)), if_neg (fun h => hv (all_nan.mp h))]
    refine ⟨_, rfl, arg_first (by decide) (fun a b => lt_iff) (fun a b => le_total')
      (fun a b c => le_trans') (fun a b => le_antisymm') ?_ hx⟩
    intro a ha
    cases a <;> simp_all [Le]

/-- **C38** for `nanargmax`, on arrays that hold a value other than `-inf` and NaN or that do not begin with NaN. -/
theorem C38_argmax_partial (x : List Num) : (x = [] → nanargmax x = -1) ∧
    (x ≠ [] → valid x = [] → nanargmax x = -2) ∧
    (((∃ v ∈ x, v ≠ .nan ∧ v ≠ .negInf) ∨ ∃ v, x[0]? = some v ∧ v ≠ .nan) →
      ∃ i : Nat, nanargmax x = i ∧ IsFirst (fun a b => Le b a) x i) := by
  refine ⟨fun h => by rw [h]; rfl, ?_, ?_⟩
  · intro hne hv
    unfold nanargmax
    rw [if_neg (fun h => hne (List.length_eq_zero_iff.mp h)), if_pos (all_nan.mpr hv)]
  · intro hx
    have hv : valid x ≠ [] := by
      obtain ⟨v, hv, hn⟩ : ∃ v ∈ x, v ≠ .nan := by
        rcases hx with ⟨v, hv, hn, _⟩ | ⟨v, hv, hn⟩
        · exact ⟨v, hv, hn⟩
        · exact ⟨v, List.mem_of_getElem? hv, hn⟩
      exact List.ne_nil_of_mem (mem_valid.mpr ⟨hv, hn⟩)
    have hne : x ≠ [] := by rintro rfl; exact hv rfl
    unfold nanargmax
    rw [if_neg (fun h => hne (List.length_eq_zero_iff.mp h)), if_neg (fun h => hv (all_nan.mp h))]
    refine ⟨_, rfl, arg_first (by decide) (fun a b ha hb => ?_) (fun a b ha hb => le_total' hb ha)
      (fun a b c h1 h2 => le_trans' h2 h1) (fun a b h1 h2 => le_antisymm' h2 h1) ?_ hx⟩
    · rw [lt_iff hb ha]
      exact and_congr_right fun _ => ne_comm
    · intro a ha
      cases a <;> simp_all [Le]

/-- The hypotheses of the partial theorems are met. -/
example : (∃ v ∈ ([.nan, .fin 3, .fin 1, .fin 1] : List Num), v ≠ .nan ∧ v ≠ .posInf) ∧
    nanargmin [.nan, .fin 3, .fin 1, .fin 1] = 2 := by decide +kernel

/-- **C38 is false for arrays of infinities behind a NaN**: the index of the NaN is returned. -/
theorem C38_argmin_returns_nan : nanargmin [.nan, .posInf] = 0 ∧ nanargmax [.nan, .negInf] = 0 := by
  decide +kernel

/-- Unique counts and moments of lists with NaNs, ties and infinities; the mode exists for the first. -/
example : valid [.fin 3, .nan, .fin 2, .posInf, .fin 3, .fin 2] ≠ [] ∧
    nanUniqueCount [.fin 3, .nan, .fin 2, .posInf, .fin 3, .fin 2] = 3 ∧
    (nanasm [.fin 3, .nan, .fin 2, .fin 3, .fin 2] : Rat) = 1 / 2 := by decide +kernel

/-- Lists with the same values in another order and other NaNs meet the hypothesis of `C38_invariance`. -/
example : (valid [.fin 3, .nan, .fin 2]).Perm (valid [.nan, .fin 2, .nan, .fin 3]) := by decide +kernel

end Verif.Stats
