import Mathlib.Data.List.Nodup
import Mathlib.Data.List.Range
import Verif.Heap.Refine
import Verif.Heap.Spec

/-! From rows to maps. -/

namespace Verif.Heap

open Verif Spec

set_option linter.unusedSectionVars false

variable {K : Type _} [LinearOrder K] [OrderTop K]

/-- Row `r` lists the map `m`. -/
def RowMap (r : Row K) (m : PMap K) : Prop := ∀ v k, m v = some k ↔ ∃ i, r.ent i = some (k, v)

section
variable {h : State K} {r : Row K}

theorem RowMap.noneOf {m : PMap K} (M : RowMap r m) {v : Nat} (hv : ∀ k p, r.ent k = some p → p.2 ≠ v) :
    m v = none := by
  rcases hc : m v with _ | k
  · rfl
  · obtain ⟨i, hi⟩ := (M v k).mp hc
    exact absurd rfl (hv _ _ hi)

theorem RowMap.setKey {m : PMap K} (M : RowMap r m) (R : Rep h r) {i : Nat} {p : K × Nat}
    (hp : r.ent i = some p) (key : K) :
    RowMap (r.setKey i (key, p.2)) (Function.update m p.2 (some key)) := by
  intro v k
  by_cases hv : v = p.2
  · subst hv
    simp only [Function.update_self, Option.some.injEq]
    constructor
    · rintro rfl; exact ⟨i, by simp [Row.setKey]⟩
    · rintro ⟨j, hj⟩
      simp only [Row.setKey] at hj
      split at hj
      · injection hj with hj; injection hj
      · rename_i hji
        exact absurd (R.inj hj hp rfl) hji
  · rw [Function.update_of_ne hv, M]
    constructor
    · rintro ⟨j, hj⟩
      refine ⟨j, ?_⟩
      have : j ≠ i := by
        rintro rfl
        rw [hp] at hj; injection hj with hj
        exact hv (by rw [hj])
      simp [Row.setKey, this, hj]
    · rintro ⟨j, hj⟩
      simp only [Row.setKey] at hj
      split at hj
      · injection hj with hj; injection hj with _ hj; exact absurd hj.symm hv
      · exact ⟨j, hj⟩

theorem RowMap.append {m : PMap K} (M : RowMap r m) (R : Rep h r) {n : Nat}
    (hn : ∀ k p, r.ent k = some p → p.2 ≠ n) (key : K) :
    RowMap (r.append (key, n)) (Function.update m n (some key)) := by
  have hend : r.ent r.n = none := R.none_of_ge (le_refl _)
  intro v k
  by_cases hv : v = n
  · subst hv
    simp only [Function.update_self, Option.some.injEq]
    constructor
    · rintro rfl; exact ⟨r.n, by simp [Row.append]⟩
    · rintro ⟨j, hj⟩
      simp only [Row.append] at hj
      split at hj
      · injection hj with hj; injection hj
      · exact absurd rfl (hn _ _ hj)
  · rw [Function.update_of_ne hv, M]
    constructor
    · rintro ⟨j, hj⟩
      refine ⟨j, ?_⟩
      have : j ≠ r.n := by
        rintro rfl
        rw [hend] at hj; cases hj
      simp [Row.append, this, hj]
    · rintro ⟨j, hj⟩
      simp only [Row.append] at hj
      split at hj
      · injection hj with hj; injection hj with _ hj; exact absurd hj.symm hv
      · exact ⟨j, hj⟩

theorem RowMap.drop {m : PMap K} (M : RowMap r m) (R : Rep h r) {i : Nat} {p : K × Nat}
    (hp : r.ent i = some p) :
    RowMap (r.drop i) (Function.update m p.2 none) := by
  have hin := R.lt_of_some hp
  intro v k
  by_cases hv : v = p.2
  · subst hv
    simp only [Function.update_self]
    constructor
    · intro hc; cases hc
    · rintro ⟨j, hj⟩
      simp only [Row.drop] at hj
      split at hj
      · cases hj
      · rename_i hjl
        split at hj
        · rename_i hji
          have := R.inj hj hp rfl
          exact absurd (by omega) hjl
        · rename_i hji
          exact absurd (R.inj hj hp rfl) hji
  · rw [Function.update_of_ne hv, M]
    constructor
    · rintro ⟨j, hj⟩
      have hji : j ≠ i := by
        rintro rfl
        rw [hp] at hj; injection hj with hj
        exact hv (by rw [hj])
      by_cases hjl : j = r.n - 1
      · subst hjl
        exact ⟨i, by simp [Row.drop, hji.symm, hj]⟩
      · exact ⟨j, by simp [Row.drop, hji, hjl, hj]⟩
    · rintro ⟨j, hj⟩
      simp only [Row.drop] at hj
      split at hj
      · cases hj
      · split at hj
        · exact ⟨_, hj⟩
        · exact ⟨_, hj⟩

theorem RowMap.hasSize {m : PMap K} (M : RowMap r m) (R : Rep h r) : HasSize m h.count := by
  let f : Nat → Nat := fun k => ((r.ent k).map Prod.snd).getD 0
  refine ⟨(List.range r.n).map f, ?_, by simp [R.cnt], ?_⟩
  · refine List.Nodup.map_on ?_ List.nodup_range
    intro a ha b hb hab
    obtain ⟨p, hp⟩ := R.some_of_lt (List.mem_range.mp ha)
    obtain ⟨q, hq⟩ := R.some_of_lt (List.mem_range.mp hb)
    simp only [f, hp, hq, Option.map_some, Option.getD_some] at hab
    exact R.inj hp hq hab
  · intro v
    rw [List.mem_map]
    constructor
    · rintro ⟨k, hk, rfl⟩
      obtain ⟨p, hp⟩ := R.some_of_lt (List.mem_range.mp hk)
      have : m (f k) = some p.1 := (M _ _).mpr ⟨k, by simp [f, hp]⟩
      simp [this]
    · intro hv
      obtain ⟨k, hk⟩ := Option.isSome_iff_exists.mp hv
      obtain ⟨i, hi⟩ := (M v k).mp hk
      exact ⟨i, List.mem_range.mpr (R.lt_of_some hi), by simp [f, hi]⟩

theorem rowMap_empty : RowMap (K := K) ⟨0, fun _ => none⟩ Spec.empty := by
  intro v k; simp [Spec.empty]

/-- Every step of the heap is a step of the map. -/
theorem step_refines {m : PMap K} (R : Rep h r) (M : RowMap r m) (op : Op K) :
    ∃ h' out r' m', step h op = some (h', out) ∧ Rep h' r' ∧ RowMap r' m' ∧
      Step h.maxValue m op out m' ∧ h'.maxValue = h.maxValue := by
  cases op with
  | push k v =>
    rcases rep_push R k v with ⟨hv, he⟩ | ⟨i, p, h', hp, rfl, he, R', hm⟩ |
      ⟨n, h', rfl, hn, hf, he, R', hm⟩
    · exact ⟨h, _, r, m, by simp [step, he], R, M, Step.pushRejected hv, rfl⟩
    · exact ⟨h', _, _, _, by simp [step, he], R', M.setKey R hp k,
        Step.pushOld (R.vals _ _ hp).2.1 ((M _ _).mpr ⟨i, hp⟩), hm⟩
    · exact ⟨h', _, _, _, by simp [step, he], R', M.append R hf k,
        Step.pushNew hn (M.noneOf hf), hm⟩
  | pushIfLower k v =>
    rcases rep_pushIfLower R k v with ⟨hv, he⟩ | ⟨i, p, hp, rfl, hk, he⟩ |
      ⟨i, p, h', hp, rfl, hk, he, R', hm⟩ | ⟨n, h', rfl, hn, hf, he, R', hm⟩
    · exact ⟨h, _, r, m, by simp [step, he], R, M, Step.lowerRejected hv, rfl⟩
    · exact ⟨h, _, r, m, by simp [step, he], R, M,
        Step.lowerKept (R.vals _ _ hp).2.1 ((M _ _).mpr ⟨i, hp⟩) (not_lt.mp hk), rfl⟩
    · exact ⟨h', _, _, _, by simp [step, he], R', M.setKey R hp k,
        Step.lowerLess (R.vals _ _ hp).2.1 ((M _ _).mpr ⟨i, hp⟩) hk, hm⟩
    · exact ⟨h', _, _, _, by simp [step, he], R', M.append R hf k,
        Step.lowerNew hn (M.noneOf hf), hm⟩
  | pop =>
    rcases Nat.eq_zero_or_pos r.n with h0 | h0
    · obtain ⟨v, he⟩ := rep_pop_empty R h0
      refine ⟨h, .popped ⊤ v, r, m, by simp [step, he], R, M, Step.popEmpty ?_, rfl⟩
      intro v
      exact M.noneOf (fun k p hp => by have := R.lt_of_some hp; omega)
    · obtain ⟨i, p, h', ⟨hi, hmin, _⟩, hp, he, R', hm⟩ := rep_pop R h0
      refine ⟨h', _, _, _, by simp [step, he], R', M.drop R hp,
        Step.popMin ((M _ _).mpr ⟨i, hp⟩) ?_, hm⟩
      intro v' k' hk'
      obtain ⟨j, hj⟩ := (M _ _).mp hk'
      have := hmin j
      rw [hp, hj] at this
      exact this

/-- Every history of the heap is a history of the map. -/
theorem run_refines (ops : List (Op K)) : ∀ {h : State K} {r : Row K} {m : PMap K},
    Rep h r → RowMap r m →
    ∃ h' outs r' m', run h ops = some (h', outs) ∧ Rep h' r' ∧ RowMap r' m' ∧
      Runs h.maxValue m ops outs m' ∧ h'.maxValue = h.maxValue := by
  induction ops with
  | nil => intro h r m R M; exact ⟨h, [], r, m, rfl, R, M, Runs.nil, rfl⟩
  | cons op ops ih =>
    intro h r m R M
    obtain ⟨h1, o, r1, m1, e1, R1, M1, S1, x1⟩ := step_refines R M op
    obtain ⟨h2, os, r2, m2, e2, R2, M2, S2, x2⟩ := ih R1 M1
    refine ⟨h2, o :: os, r2, m2, by simp [run, e1, e2], R2, M2, Runs.cons S1 ?_, by omega⟩
    rwa [x1] at S2

end

/-- The reported results determine the final map. -/
theorem step_det {maxV : Nat} {m m1 m2 : PMap K} {op : Op K} {out : Out K}
    (h1 : Step maxV m op out m1) (h2 : Step maxV m op out m2) : m1 = m2 := by
  cases h1 <;> cases h2 <;> try rfl
  all_goals first
    | contradiction
    | (rename_i hall; simp_all)

theorem runs_det {maxV : Nat} {ops : List (Op K)} : ∀ {m m1 m2 : PMap K} {outs : List (Out K)},
    Runs maxV m ops outs m1 → Runs maxV m ops outs m2 → m1 = m2 := by
  induction ops with
  | nil => intro m m1 m2 outs h1 h2; cases h1; cases h2; rfl
  | cons op ops ih =>
    intro m m1 m2 outs h1 h2
    cases h1 with
    | cons s1 r1 =>
      cases h2 with
      | cons s2 r2 =>
        have := step_det s1 s2
        subst this
        exact ih r1 r2

/-! ### Two heaps with the same row -/

theorem rep_push_old {h : State K} {r : Row K} (R : Rep h r) (key : K) {i : Nat} {p : K × Nat}
    (hp : r.ent i = some p) : ∃ h', push h key p.2 = some (h', 0) ∧
      Rep h' (r.setKey i (key, p.2)) ∧ h'.maxValue = h.maxValue := by
  rcases rep_push R key p.2 with ⟨hv, _⟩ | ⟨j, q, h', hq, e, he, R', hm⟩ | ⟨n, h', e, _, hf, _⟩
  · exact absurd ⟨Int.natCast_nonneg _, by exact_mod_cast (R.vals _ _ hp).2.1⟩ hv
  · have e : q.2 = p.2 := by exact_mod_cast e
    have := R.inj hq hp e
    subst this
    rw [hp] at hq; injection hq with hq; subst hq
    exact ⟨h', he, R', hm⟩
  · have e : n = p.2 := by exact_mod_cast e
    exact absurd e.symm (hf _ _ hp)

theorem rep_push_new {h : State K} {r : Row K} (R : Rep h r) (key : K) {n : Nat}
    (hn : n ≤ h.maxValue) (hf : ∀ k p, r.ent k = some p → p.2 ≠ n) :
    ∃ h', push h key n = some (h', 1) ∧
      Rep h' (r.append (key, n)) ∧ h'.maxValue = h.maxValue := by
  rcases rep_push R key n with ⟨hv, _⟩ | ⟨j, q, h', hq, e, he, R', hm⟩ | ⟨m, h', e, _, _, he, R', hm⟩
  · exact absurd ⟨Int.natCast_nonneg _, by exact_mod_cast hn⟩ hv
  · exact absurd (by exact_mod_cast e) (hf _ _ hq)
  · have e : m = n := by exact_mod_cast e
    subst e
    exact ⟨h', he, R', hm⟩

theorem rep_lower_old {h : State K} {r : Row K} (R : Rep h r) (key : K) {i : Nat} {p : K × Nat}
    (hp : r.ent i = some p) :
    (¬ key < p.1 → pushIfLower h key p.2 = some (h, 0)) ∧
    (key < p.1 → ∃ h', pushIfLower h key p.2 = some (h', 1) ∧
      Rep h' (r.setKey i (key, p.2)) ∧ h'.maxValue = h.maxValue) := by
  rcases rep_pushIfLower R key p.2 with ⟨hv, _⟩ | ⟨j, q, hq, e, hk, he⟩ |
    ⟨j, q, h', hq, e, hk, he, R', hm⟩ | ⟨n, h', e, _, hf, _⟩
  · exact absurd ⟨Int.natCast_nonneg _, by exact_mod_cast (R.vals _ _ hp).2.1⟩ hv
  · have e : q.2 = p.2 := by exact_mod_cast e
    have := R.inj hq hp e
    subst this
    rw [hp] at hq; injection hq with hq; subst hq
    exact ⟨fun _ => he, fun hc => absurd hc hk⟩
  · have e : q.2 = p.2 := by exact_mod_cast e
    have := R.inj hq hp e
    subst this
    rw [hp] at hq; injection hq with hq; subst hq
    exact ⟨fun hc => absurd hk hc, fun _ => ⟨h', he, R', hm⟩⟩
  · have e : n = p.2 := by exact_mod_cast e
    exact absurd e.symm (hf _ _ hp)

theorem rep_lower_new {h : State K} {r : Row K} (R : Rep h r) (key : K) {n : Nat}
    (hn : n ≤ h.maxValue) (hf : ∀ k p, r.ent k = some p → p.2 ≠ n) :
    ∃ h', pushIfLower h key n = some (h', 1) ∧
      Rep h' (r.append (key, n)) ∧ h'.maxValue = h.maxValue := by
  rcases rep_pushIfLower R key n with ⟨hv, _⟩ | ⟨j, q, hq, e, hk, he⟩ |
    ⟨j, q, h', hq, e, hk, he, R', hm⟩ | ⟨m, h', e, _, _, he, R', hm⟩
  · exact absurd ⟨Int.natCast_nonneg _, by exact_mod_cast hn⟩ hv
  · exact absurd (by exact_mod_cast e) (hf _ _ hq)
  · exact absurd (by exact_mod_cast e) (hf _ _ hq)
  · have e : m = n := by exact_mod_cast e
    subst e
    exact ⟨h', he, R', hm⟩

/-- What two heaps of different capacity report for the same call. -/
def OutAgree (nonempty : Prop) : Out K → Out K → Prop
  | .flag a, .flag b => a = b
  | .popped k v, .popped k' v' => k = k' ∧ (nonempty → v = v')
  | _, _ => False

theorem step_same {h g : State K} {r : Row K} (R : Rep h r) (S : Rep g r)
    (hm : g.maxValue = h.maxValue) (op : Op K) :
    ∃ h' g' o o' r', step h op = some (h', o) ∧ step g op = some (g', o') ∧ Rep h' r' ∧ Rep g' r' ∧
      g'.maxValue = h'.maxValue ∧ OutAgree (0 < h.count) o o' := by
  have key : ∀ v : Int, (¬ (0 ≤ v ∧ v ≤ h.maxValue)) ∨
      (∃ i p, r.ent i = some p ∧ v = (p.2 : Int)) ∨
      (∃ n : Nat, v = n ∧ n ≤ h.maxValue ∧ ∀ k p, r.ent k = some p → p.2 ≠ n) := by
    intro v
    by_cases hv : 0 ≤ v ∧ v ≤ h.maxValue
    · right
      by_cases hx : ∃ i p, r.ent i = some p ∧ v = (p.2 : Int)
      · exact Or.inl hx
      · right
        obtain ⟨n, rfl⟩ : ∃ n : Nat, v = n := ⟨v.toNat, by omega⟩
        refine ⟨n, rfl, by omega, ?_⟩
        rintro k p hp rfl
        exact hx ⟨k, p, hp, rfl⟩
    · exact Or.inl hv
  cases op with
  | push k v =>
    rcases key v with hv | ⟨i, p, hp, rfl⟩ | ⟨n, rfl, hn, hf⟩
    · refine ⟨h, g, .flag (-1), .flag (-1), r, ?_, ?_, R, S, hm, rfl⟩
      · simp only [step, push]; rw [if_pos hv]; rfl
      · simp only [step, push]; rw [if_pos (by rwa [hm])]; rfl
    · obtain ⟨h', a1, a2, a3⟩ := rep_push_old R k hp
      obtain ⟨g', b1, b2, b3⟩ := rep_push_old S k hp
      exact ⟨h', g', .flag 0, .flag 0, _, by simp only [step, a1]; rfl, by simp only [step, b1]; rfl, a2, b2,
        by omega, rfl⟩
    · obtain ⟨h', a1, a2, a3⟩ := rep_push_new R k hn hf
      obtain ⟨g', b1, b2, b3⟩ := rep_push_new S k (by omega) hf
      exact ⟨h', g', .flag 1, .flag 1, _, by simp only [step, a1]; rfl, by simp only [step, b1]; rfl, a2, b2,
        by omega, rfl⟩
  | pushIfLower k v =>
    rcases key v with hv | ⟨i, p, hp, rfl⟩ | ⟨n, rfl, hn, hf⟩
    · refine ⟨h, g, .flag (-1), .flag (-1), r, ?_, ?_, R, S, hm, rfl⟩
      · simp only [step, pushIfLower]; rw [if_pos hv]; rfl
      · simp only [step, pushIfLower]; rw [if_pos (by rwa [hm])]; rfl
    · by_cases hk : k < p.1
      · obtain ⟨h', a1, a2, a3⟩ := (rep_lower_old R k hp).2 hk
        obtain ⟨g', b1, b2, b3⟩ := (rep_lower_old S k hp).2 hk
        exact ⟨h', g', .flag 1, .flag 1, _, by simp only [step, a1]; rfl, by simp only [step, b1]; rfl, a2, b2,
          by omega, rfl⟩
      · exact ⟨h, g, .flag 0, .flag 0, _, by simp only [step, (rep_lower_old R k hp).1 hk]; rfl,
          by simp only [step, (rep_lower_old S k hp).1 hk]; rfl, R, S, hm, rfl⟩
    · obtain ⟨h', a1, a2, a3⟩ := rep_lower_new R k hn hf
      obtain ⟨g', b1, b2, b3⟩ := rep_lower_new S k (by omega) hf
      exact ⟨h', g', .flag 1, .flag 1, _, by simp only [step, a1]; rfl, by simp only [step, b1]; rfl, a2, b2,
        by omega, rfl⟩
  | pop =>
    rcases Nat.eq_zero_or_pos r.n with h0 | h0
    · obtain ⟨v, a1⟩ := rep_pop_empty R h0
      obtain ⟨w, b1⟩ := rep_pop_empty S h0
      exact ⟨h, g, .popped ⊤ v, .popped ⊤ w, _, by simp only [step, a1]; rfl, by simp only [step, b1]; rfl, R, S, hm,
        rfl, fun hc => by have := R.cnt; omega⟩
    · obtain ⟨i, p, h', hi, hp, a1, a2, a3⟩ := rep_pop R h0
      obtain ⟨j, q, g', hj, hq, b1, b2, b3⟩ := rep_pop S h0
      have hij := hi.unique hj
      subst hij
      rw [hp] at hq; injection hq with hq; subst hq
      exact ⟨h', g', .popped p.1 p.2, .popped p.1 p.2, _, by simp only [step, a1]; rfl, by simp only [step, b1]; rfl, a2, b2,
        by omega, rfl, fun _ => rfl⟩

end Verif.Heap
