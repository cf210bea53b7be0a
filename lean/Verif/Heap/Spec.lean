import Mathlib.Logic.Function.Basic
import Verif.Heap.Model

/-!
# What the heap should do

A finite map from values to keys; written without reference to the arrays of the heap.
Only the call alphabet `Op` and the reported results `Out` are shared with the model.
-/

namespace Verif.Heap.Spec

open Verif.Heap

/-- Contents: the key stored for a value, if any. -/
abbrev PMap (K : Type _) := Nat → Option K

variable {K : Type _} [LinearOrder K] [OrderTop K]

/-- `v` names a value the heap accepts. -/
def InRange (maxV : Nat) (v : Int) : Prop := 0 ≤ v ∧ v ≤ maxV

/-- One call on the map. -/
inductive Step (maxV : Nat) : PMap K → Op K → Out K → PMap K → Prop
  | pushRejected {m k v} : ¬ InRange maxV v → Step maxV m (.push k v) (.flag (-1)) m
  | pushOld {m k} {v : Nat} {k₀} : v ≤ maxV → m v = some k₀ →
      Step maxV m (.push k v) (.flag 0) (Function.update m v (some k))
  | pushNew {m k} {v : Nat} : v ≤ maxV → m v = none →
      Step maxV m (.push k v) (.flag 1) (Function.update m v (some k))
  | lowerRejected {m k v} : ¬ InRange maxV v → Step maxV m (.pushIfLower k v) (.flag (-1)) m
  | lowerNew {m k} {v : Nat} : v ≤ maxV → m v = none →
      Step maxV m (.pushIfLower k v) (.flag 1) (Function.update m v (some k))
  | lowerLess {m k} {v : Nat} {k₀} : v ≤ maxV → m v = some k₀ → k < k₀ →
      Step maxV m (.pushIfLower k v) (.flag 1) (Function.update m v (some k))
  | lowerKept {m k} {v : Nat} {k₀} : v ≤ maxV → m v = some k₀ → k₀ ≤ k →
      Step maxV m (.pushIfLower k v) (.flag 0) m
  | popMin {m k} {v : Nat} : m v = some k → (∀ v' k', m v' = some k' → k ≤ k') →
      Step maxV m .pop (.popped k v) (Function.update m v none)
  | popEmpty {m x} : (∀ v, m v = none) → Step maxV m .pop (.popped ⊤ x) m

/-- A history of calls on the map. -/
inductive Runs (maxV : Nat) : PMap K → List (Op K) → List (Out K) → PMap K → Prop
  | nil {m} : Runs maxV m [] [] m
  | cons {m m' m'' op out ops outs} : Step maxV m op out m' → Runs maxV m' ops outs m'' →
      Runs maxV m (op :: ops) (out :: outs) m''

/-- The empty map. -/
def empty : PMap K := fun _ => none

/-- The map has exactly `n` entries. -/
def HasSize (m : PMap K) (n : Nat) : Prop :=
  ∃ l : List Nat, l.Nodup ∧ l.length = n ∧ ∀ v, v ∈ l ↔ (m v).isSome = true

end Verif.Heap.Spec
