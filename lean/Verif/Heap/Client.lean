import Verif.Heap.Abstract

/-! The heap as its clients see it. -/

namespace Verif.Heap

open Verif Spec

variable {K : Type} [LinearOrder K] [OrderTop K]

/-- Heap `h` holds the map `m`. -/
def Holds (h : State K) (m : PMap K) : Prop := ∃ r, Rep h r ∧ RowMap r m

theorem holds_init {capacity maxValue : Int} (h1 : 1 ≤ capacity) (h2 : 1 ≤ maxValue) :
    ∃ h : State K, initHeapData capacity maxValue = .ok h ∧ Holds h (fun _ => none) ∧
      (h.maxValue : Int) = maxValue := by
  have : ∃ h₀ : State K, initHeapData capacity maxValue = .ok h₀ := by
    simp [initHeapData, not_lt.mpr h1, not_lt.mpr h2]
  obtain ⟨h₀, hi⟩ := this
  obtain ⟨R, hm⟩ := rep_init hi
  exact ⟨h₀, hi, ⟨_, R, rowMap_empty⟩, hm⟩

theorem Holds.count_eq_zero {h : State K} {m : PMap K} (H : Holds h m) :
    h.count = 0 ↔ ∀ v, m v = none := by
  obtain ⟨r, R, M⟩ := H
  rw [R.cnt]
  constructor
  · intro h0 v
    exact M.noneOf (fun k p hp => by have := R.lt_of_some hp; omega)
  · intro h0
    by_contra hc
    obtain ⟨p, hp⟩ := R.some_of_lt (k := 0) (by omega)
    have := (M p.2 p.1).mpr ⟨0, hp⟩
    rw [h0] at this
    cases this

theorem Holds.push {h : State K} {m : PMap K} (H : Holds h m) (k : K) {v : Nat}
    (hv : v ≤ h.maxValue) : ∃ h' f, push h k v = some (h', f) ∧
      Holds h' (Function.update m v (some k)) ∧ h'.maxValue = h.maxValue := by
  obtain ⟨r, R, M⟩ := H
  rcases rep_push R k v with ⟨hc, _⟩ | ⟨i, p, h', hp, e, he, R', hm⟩ | ⟨n, h', e, _, hf, he, R', hm⟩
  · exact absurd ⟨Int.natCast_nonneg _, by exact_mod_cast hv⟩ hc
  · have e : p.2 = v := by exact_mod_cast e
    subst e
    exact ⟨h', 0, he, ⟨_, R', M.setKey R hp k⟩, hm⟩
  · have e : n = v := by exact_mod_cast e
    subst e
    exact ⟨h', 1, he, ⟨_, R', M.append R hf k⟩, hm⟩

theorem Holds.pushIfLower {h : State K} {m : PMap K} (H : Holds h m) (k : K) {v : Nat}
    (hv : v ≤ h.maxValue) :
    (∃ h', pushIfLower h k v = some (h', 1) ∧ Holds h' (Function.update m v (some k)) ∧
      h'.maxValue = h.maxValue ∧ ∀ k₀, m v = some k₀ → k < k₀) ∨
    (∃ k₀, pushIfLower h k v = some (h, 0) ∧ m v = some k₀ ∧ k₀ ≤ k) := by
  obtain ⟨r, R, M⟩ := H
  rcases rep_pushIfLower R k v with ⟨hc, _⟩ | ⟨i, p, hp, e, hk, he⟩ |
    ⟨i, p, h', hp, e, hk, he, R', hm⟩ | ⟨n, h', e, _, hf, he, R', hm⟩
  · exact absurd ⟨Int.natCast_nonneg _, by exact_mod_cast hv⟩ hc
  · right
    have e : p.2 = v := by exact_mod_cast e
    subst e
    exact ⟨p.1, he, (M _ _).mpr ⟨i, hp⟩, not_lt.mp hk⟩
  · left
    have e : p.2 = v := by exact_mod_cast e
    subst e
    refine ⟨h', he, ⟨_, R', M.setKey R hp k⟩, hm, ?_⟩
    intro k₀ hk₀
    rw [(M p.2 p.1).mpr ⟨i, hp⟩] at hk₀
    injection hk₀ with hk₀
    rwa [← hk₀]
  · left
    have e : n = v := by exact_mod_cast e
    subst e
    refine ⟨h', he, ⟨_, R', M.append R hf k⟩, hm, ?_⟩
    intro k₀ hk₀
    rw [M.noneOf hf] at hk₀
    cases hk₀

theorem Holds.pop {h : State K} {m : PMap K} (H : Holds h m) (hc : h.count ≠ 0) :
    ∃ (h' : State K) (k : K) (v : Nat), pop h = some (h', k, (v : Int)) ∧ m v = some k ∧
      (∀ v' k', m v' = some k' → k ≤ k') ∧ Holds h' (Function.update m v none) ∧
      h'.maxValue = h.maxValue := by
  obtain ⟨r, R, M⟩ := H
  obtain ⟨i, p, h', ⟨hi, hmin, _⟩, hp, he, R', hm⟩ := rep_pop R (by rw [← R.cnt]; omega)
  refine ⟨h', p.1, p.2, he, (M _ _).mpr ⟨i, hp⟩, ?_, ⟨_, R', M.drop R hp⟩, hm⟩
  intro v' k' hk'
  obtain ⟨j, hj⟩ := (M _ _).mp hk'
  have := hmin j
  rw [hp, hj] at this
  exact this

end Verif.Heap
