import Mathlib.Order.WithBot
import Mathlib.Data.List.Pairwise
import Mathlib.Data.List.Perm.Basic
import Verif.Heap.Abstract

/-!
# C01 - C04: the indexed heap

`initHeapData`, `push`, `pushIfLower`, `pop`, `run` are the model of `_heap.py`;
`Spec.Runs` is the map the user has in mind.
-/

namespace Verif.Heap

open Verif Spec

set_option linter.unusedSectionVars false

variable {K : Type _} [LinearOrder K] [OrderTop K]

/-- C01.  Every history of calls on a fresh heap is a history of the same calls on a map, with the
same reported results, and the heap's count is the number of entries of the map. -/
theorem C01_heap_is_map {capacity maxValue : Int} {h₀ : State K}
    (hinit : initHeapData capacity maxValue = .ok h₀) (ops : List (Op K)) :
    ∃ h outs m, run h₀ ops = some (h, outs) ∧ Runs maxValue.toNat Spec.empty ops outs m ∧
      HasSize m h.count := by
  obtain ⟨R, hm⟩ := rep_init hinit
  obtain ⟨h, outs, r, m, e, R', M', S, _⟩ := run_refines ops R rowMap_empty
  refine ⟨h, outs, m, e, ?_, M'.hasSize R'⟩
  rwa [show maxValue.toNat = h₀.maxValue by omega]

/-- C02.  `init_heap_data` accepts exactly positive arguments, and afterwards no history of calls
makes any access outside the arrays (`run` would be `none`). -/
theorem C02_heap_memory_safe (capacity maxValue : Int) :
    (capacity < 1 → initHeapData (K := K) capacity maxValue = .error .capacity) ∧
    (1 ≤ capacity → maxValue < 1 → initHeapData (K := K) capacity maxValue = .error .maxValue) ∧
    (1 ≤ capacity → 1 ≤ maxValue → ∃ h₀ : State K, initHeapData capacity maxValue = .ok h₀ ∧
      ∀ ops, (run h₀ ops).isSome = true) := by
  refine ⟨fun h => by simp [initHeapData, h], fun h1 h2 => ?_, fun h1 h2 => ?_⟩
  · simp [initHeapData, h2, not_lt.mpr h1]
  · have : ∃ h₀ : State K, initHeapData capacity maxValue = .ok h₀ := by
      simp [initHeapData, not_lt.mpr h1, not_lt.mpr h2]
    obtain ⟨h₀, hi⟩ := this
    refine ⟨h₀, hi, fun ops => ?_⟩
    obtain ⟨h, outs, m, e, _⟩ := C01_heap_is_map hi ops
    simp [e]

/-- C03.  Flags of `push` and `push_if_lower` in any reachable state whose contents are `m`. -/
theorem C03_heap_flags {capacity maxValue : Int} {h₀ h : State K}
    (hinit : initHeapData capacity maxValue = .ok h₀) {ops : List (Op K)} {outs : List (Out K)}
    {m : PMap K} (hrun : run h₀ ops = some (h, outs))
    (hm : Runs maxValue.toNat Spec.empty ops outs m) (k : K) (v : Int) :
    (∃ h' f, push h k v = some (h', f) ∧
      (f = -1 ↔ ¬ (0 ≤ v ∧ v ≤ maxValue)) ∧
      (f = 0 ↔ 0 ≤ v ∧ v ≤ maxValue ∧ (m v.toNat).isSome) ∧
      (f = 1 ↔ 0 ≤ v ∧ v ≤ maxValue ∧ m v.toNat = none) ∧
      (f = -1 → h' = h)) ∧
    (∃ h' f, pushIfLower h k v = some (h', f) ∧
      (f = -1 ↔ ¬ (0 ≤ v ∧ v ≤ maxValue)) ∧
      (f = 1 ↔ 0 ≤ v ∧ v ≤ maxValue ∧
        (m v.toNat = none ∨ ∃ k₀, m v.toNat = some k₀ ∧ k < k₀)) ∧
      (f = 0 ↔ 0 ≤ v ∧ v ≤ maxValue ∧ ∃ k₀, m v.toNat = some k₀ ∧ k₀ ≤ k) ∧
      (f ≠ 1 → h' = h)) := by
  obtain ⟨R, hmv⟩ := rep_init hinit
  obtain ⟨h', outs', r, m', e, R', M', S, hx⟩ := run_refines ops R rowMap_empty
  rw [hrun] at e
  injection e with e
  obtain ⟨rfl, rfl⟩ := Prod.mk.injEq .. ▸ e
  rw [show h₀.maxValue = maxValue.toNat by omega] at S
  have := runs_det S hm
  subst this
  have hmax : (h.maxValue : Int) = maxValue := by omega
  constructor
  · rcases rep_push R' k v with ⟨hv, he⟩ | ⟨i, p, h', hp, rfl, he, _⟩ |
      ⟨n, h', rfl, hn, hf, he, _⟩
    · rw [hmax] at hv
      exact ⟨h, -1, he, by simpa using hv, by simp; omega, by simp; omega, by simp⟩
    · have h1 := (R'.vals _ _ hp).2.1
      have h2 : m' p.2 = some p.1 := (M' _ _).mpr ⟨i, hp⟩
      refine ⟨h', 0, he, by simp; omega, by simp [h2]; omega, by simp [h2], by simp⟩
    · have h2 := M'.noneOf hf
      refine ⟨h', 1, he, by simp; omega, by simp [h2], by simp [h2]; omega, by simp⟩
  · rcases rep_pushIfLower R' k v with ⟨hv, he⟩ | ⟨i, p, hp, rfl, hk, he⟩ |
      ⟨i, p, h', hp, rfl, hk, he, _⟩ | ⟨n, h', rfl, hn, hf, he, _⟩
    · rw [hmax] at hv
      refine ⟨h, -1, he, by simpa using hv, ?_, ?_, by simp⟩
      · constructor
        · intro hc; omega
        · rintro ⟨a, b, _⟩; exact absurd ⟨a, b⟩ hv
      · constructor
        · intro hc; omega
        · rintro ⟨a, b, _⟩; exact absurd ⟨a, b⟩ hv
    · have h1 := (R'.vals _ _ hp).2.1
      have h2 : m' p.2 = some p.1 := (M' _ _).mpr ⟨i, hp⟩
      refine ⟨h, 0, he, by simp; omega, by simp [h2, not_lt.mp hk], ?_, by simp⟩
      simp [h2, not_lt.mp hk]; omega
    · have h1 := (R'.vals _ _ hp).2.1
      have h2 : m' p.2 = some p.1 := (M' _ _).mpr ⟨i, hp⟩
      refine ⟨h', 1, he, by simp; omega, ?_, by simp [h2, hk], by simp⟩
      simp [h2, hk]; omega
    · have h2 := M'.noneOf hf
      refine ⟨h', 1, he, by simp; omega, ?_, by simp [h2], by simp⟩
      simp [h2]; omega

/-- Draining a heap that represents a row. -/
theorem drain_aux (n : Nat) : ∀ {h : State K} {r : Row K} {m : PMap K}, Rep h r → RowMap r m →
    r.n = n → ∃ (h' : State K) (ps : List (K × Nat)), run h (List.replicate n Op.pop) =
        some (h', ps.map fun p => Out.popped p.1 (p.2 : Int)) ∧
      ps.length = n ∧ h'.count = 0 ∧
      ps.Pairwise (fun a b => a.1 ≤ b.1) ∧ (ps.map Prod.snd).Nodup ∧
      (∀ v k, m v = some k ↔ (k, v) ∈ ps) ∧
      (∃ r', Rep h' r' ∧ r'.n = 0) := by
  induction n with
  | zero =>
    intro h r m R M hn
    refine ⟨h, [], rfl, rfl, by rw [R.cnt, hn], List.Pairwise.nil, List.nodup_nil, ?_, r, R, hn⟩
    intro v k
    rw [M]
    simp only [List.not_mem_nil, iff_false, not_exists]
    intro i hi
    have := R.lt_of_some hi
    omega
  | succ n ih =>
    intro h r m R M hn
    obtain ⟨i, p, h1, ⟨hi, hmin, _⟩, hp, e1, R1, _⟩ := rep_pop R (by omega)
    have M1 := M.drop R hp
    obtain ⟨h2, ps, e2, hl, hc, hpw, hnd, hmem, hr⟩ := ih R1 M1 (by simp [Row.drop, hn])
    refine ⟨h2, p :: ps, ?_, by simp [hl], hc, ?_, ?_, ?_, hr⟩
    · simp [List.replicate_succ, run, step, e1, e2]
    · refine List.Pairwise.cons ?_ hpw
      rintro ⟨k, v⟩ hq
      have h3 := (hmem v k).mpr hq
      by_cases hvp : v = p.2
      · subst hvp; simp at h3
      · rw [Function.update_of_ne hvp, M] at h3
        obtain ⟨j, hj⟩ := h3
        have := hmin j
        rwa [hp, hj] at this
    · rw [List.map_cons, List.nodup_cons]
      refine ⟨?_, hnd⟩
      rw [List.mem_map]
      rintro ⟨⟨k, v⟩, hq, rfl⟩
      have h3 := (hmem _ k).mpr hq
      simp at h3
    · intro v k
      by_cases hvp : v = p.2
      · subst hvp
        have hmp : m p.2 = some p.1 := (M _ _).mpr ⟨i, hp⟩
        have hno : ∀ k', (k', p.2) ∉ ps := fun k' hk' => by
          have := (hmem _ _).mpr hk'
          simp at this
        rw [hmp]
        simp only [Option.some.injEq, List.mem_cons, hno, or_false]
        constructor
        · rintro rfl; rfl
        · rintro he; rw [← he]
      · have h4 := hmem v k
        rw [Function.update_of_ne hvp] at h4
        rw [h4, List.mem_cons]
        constructor
        · exact Or.inr
        · rintro (he | he)
          · exact absurd (by rw [← he]) hvp
          · exact he

/-- C04, first part.  In any reachable state with contents `m` and `h.count` entries, `h.count` pops
return every entry of `m` exactly once, keys in non-decreasing order, and leave the heap empty; a
further pop reports the key `inf`. -/
theorem C04_drain_sorted {capacity maxValue : Int} {h₀ h : State K}
    (hinit : initHeapData capacity maxValue = .ok h₀) {ops : List (Op K)} {outs : List (Out K)}
    {m : PMap K} (hrun : run h₀ ops = some (h, outs))
    (hm : Runs maxValue.toNat Spec.empty ops outs m) :
    HasSize m h.count ∧ ∃ (h' : State K) (ps : List (K × Nat)), run h (List.replicate h.count Op.pop) =
        some (h', ps.map fun p => Out.popped p.1 (p.2 : Int)) ∧
      h'.count = 0 ∧ ps.length = h.count ∧
      ps.Pairwise (fun a b => a.1 ≤ b.1) ∧ (ps.map Prod.snd).Nodup ∧
      (∀ v k, m v = some k ↔ (k, v) ∈ ps) ∧ (∃ x, pop h' = some (h', ⊤, x)) := by
  obtain ⟨R, hmv⟩ := rep_init hinit
  obtain ⟨h', outs', r, m', e, R', M', S, hx⟩ := run_refines ops R rowMap_empty
  rw [hrun] at e
  injection e with e
  obtain ⟨rfl, rfl⟩ := Prod.mk.injEq .. ▸ e
  rw [show h₀.maxValue = maxValue.toNat by omega] at S
  have := runs_det S hm
  subst this
  refine ⟨M'.hasSize R', ?_⟩
  obtain ⟨h2, ps, a, b, c, d, e', f, r2, R2, hr2⟩ := drain_aux h.count R' M' R'.cnt.symm
  exact ⟨h2, ps, a, c, b, d, e', f, rep_pop_empty R2 hr2⟩

/-- The part of a report that cannot depend on the capacity: flags and popped keys. -/
def Out.visible : Out K → Int ⊕ K
  | .flag f => .inl f
  | .popped k _ => .inr k

theorem OutAgree.visible {P : Prop} {o o' : Out K} (h : OutAgree P o o') :
    o.visible = o'.visible := by
  cases o <;> cases o' <;> simp only [OutAgree] at h <;> simp only [Out.visible, h]

theorem OutAgree.eq {P : Prop} {o o' : Out K} (h : OutAgree P o o')
    (hp : P ∨ ∃ f, o = .flag f) : o = o' := by
  cases o <;> cases o' <;> simp only [OutAgree] at h
  · rw [h]
  · rcases hp with hp | ⟨f, hf⟩
    · rw [h.1, h.2 hp]
    · cases hf

/-- C04, second part.  Two heaps created with different capacities report the same flags and the
same popped keys for every history, and exactly the same results if the history never pops an
empty heap. -/
theorem C04_capacity_independent {c₁ c₂ maxValue : Int} {h₁ h₂ : State K}
    (i₁ : initHeapData c₁ maxValue = .ok h₁) (i₂ : initHeapData c₂ maxValue = .ok h₂)
    (ops : List (Op K)) :
    ∃ g₁ g₂ o₁ o₂, run h₁ ops = some (g₁, o₁) ∧ run h₂ ops = some (g₂, o₂) ∧
      o₁.map Out.visible = o₂.map Out.visible ∧ g₁.count = g₂.count ∧
      ((∀ pre post h o, ops = pre ++ Op.pop :: post → run h₁ pre = some (h, o) → 0 < h.count) →
        o₁ = o₂) := by
  have main : ∀ (ops : List (Op K)) {h g : State K} {r : Row K}, Rep h r → Rep g r →
      g.maxValue = h.maxValue → ∃ g₁ g₂ o₁ o₂, run h ops = some (g₁, o₁) ∧
        run g ops = some (g₂, o₂) ∧ o₁.map Out.visible = o₂.map Out.visible ∧
        g₁.count = g₂.count ∧
        ((∀ pre post x o, ops = pre ++ Op.pop :: post → run h pre = some (x, o) → 0 < x.count) →
          o₁ = o₂) := by
    intro ops
    induction ops with
    | nil => intro h g r R S _; exact ⟨h, g, [], [], rfl, rfl, rfl, by rw [R.cnt, S.cnt], fun _ => rfl⟩
    | cons op ops ih =>
      intro h g r R S hm
      obtain ⟨h', g', o, o', r', e1, e2, R', S', hm', ha⟩ := step_same R S hm op
      obtain ⟨g₁, g₂, o₁, o₂, f1, f2, f3, f4, f5⟩ := ih R' S' hm'
      refine ⟨g₁, g₂, o :: o₁, o' :: o₂, by simp [run, e1, f1], by simp [run, e2, f2], ?_, f4, ?_⟩
      · rw [List.map_cons, List.map_cons, f3, ha.visible]
      · intro hne
        have ho : o = o' := by
          apply ha.eq
          cases op with
          | pop => exact Or.inl (hne [] ops h [] rfl rfl)
          | push k v =>
            right
            obtain ⟨x, _, hx⟩ := Option.map_eq_some_iff.mp e1
            exact ⟨x.2, (congrArg Prod.snd hx).symm⟩
          | pushIfLower k v =>
            right
            obtain ⟨x, _, hx⟩ := Option.map_eq_some_iff.mp e1
            exact ⟨x.2, (congrArg Prod.snd hx).symm⟩
        have hos : o₁ = o₂ := by
          apply f5
          intro pre post x oo hsplit hrun
          exact hne (op :: pre) post x (o :: oo) (by simp [hsplit]) (by simp [run, e1, hrun])
        rw [ho, hos]
  obtain ⟨R, hm1⟩ := rep_init i₁
  obtain ⟨S, hm2⟩ := rep_init i₂
  exact main ops R S (by omega)

/-! ### Concrete cases -/

/-- Keys used in the concrete cases: natural numbers and `inf`. -/
abbrev ExKey := WithTop Nat

/-- A fresh heap of capacity 1, values 0..3. -/
def exHeap : State ExKey :=
  { keys := Arr.full 4 ⊤, values := Arr.full 2 (-1), crossrefs := Arr.full 4 (-1)
    maxValue := 3, levels := 1, minLevels := 1, count := 0 }

/-- Pushes that force one growth, a lowered key, a kept key, a rejected value, then pops that force
a shrink and one pop on the empty heap. -/
def exOps : List (Op ExKey) :=
  [.push (5 : ℕ) 0, .push (3 : ℕ) 1, .push (4 : ℕ) 2, .pushIfLower (1 : ℕ) 2,
   .pushIfLower (9 : ℕ) 0, .push (2 : ℕ) 7, .pop, .pop, .pop, .pop]

example : initHeapData (K := ExKey) 1 3 = .ok exHeap := by
  have h : growLevels 1 1 = 1 := by unfold growLevels; rfl
  simp [initHeapData, exHeap, h]

example : (run exHeap exOps).map (fun r => (r.2, r.1.count)) =
    some ([.flag 1, .flag 1, .flag 1, .flag 1, .flag 0, .flag (-1), .popped (1 : ℕ) 2,
      .popped (3 : ℕ) 1, .popped (5 : ℕ) 0, .popped ⊤ (-1)], 0) := by
  decide

example : (run exHeap (exOps.take 6)).map (·.1.count) = some 3 := by decide

/-- The hypotheses of C03 and of the first part of C04 are met after the six pushes. -/
example : ∃ h outs m, run exHeap (exOps.take 6) = some (h, outs) ∧
    Runs 3 Spec.empty (exOps.take 6) outs m ∧ HasSize m h.count := by
  have hi : initHeapData (K := ExKey) 1 3 = .ok exHeap := by
    have h : growLevels 1 1 = 1 := by unfold growLevels; rfl
    simp [initHeapData, exHeap, h]
  exact C01_heap_is_map hi _

end Verif.Heap
