import Verif.Versions.Model
import Verif.Batch.Props
import Mathlib.Data.List.GetD

set_option linter.unusedSectionVars false

/-!
# Properties of the checks of versions
-/

namespace Verif.Versions

open Verif Verif.Nulls
open Verif.Batch (Text splitOn strip)

namespace Spec

/-- The text of a release: numbers with points between them. -/
def text : List Nat → Text
  | [] => []
  | [n] => Nat.toDigits 10 n
  | n :: ns => Nat.toDigits 10 n ++ '.' :: text ns

/-- The text of a release with blanks around it. -/
def Written (ns : List Nat) (v : Text) : Prop :=
  ∃ p q, (∀ c ∈ p, c ∈ [' ', '\t', '\n', '\r', '\x0b', '\x0c']) ∧ (∀ c ∈ q, c ∈ [' ', '\t', '\n', '\r', '\x0b', '\x0c']) ∧ v = p ++ text ns ++ q

/-- The order of releases: missing numbers are zero. -/
def Earlier (a b : List Nat) : Prop := ∃ k, (∀ i < k, a.getD i 0 = b.getD i 0) ∧ a.getD k 0 < b.getD k 0

/-- Characters that may occur in versions of releases. -/
def Plain (c : Char) : Prop := c.isDigit = true ∨ c ∈ ['.', '_', '+', '-', ' ', '\t', '\n', '\r', '\x0b', '\x0c']

end Spec

open Spec

/-! ### Numbers -/

theorem digit_plain {c : Char} (h : c.isDigit = true) : Batch.isSpace c = false ∧ c ≠ '.' ∧ c ≠ '_' ∧ c ≠ '-' ∧ c ≠ '+' := by
  have hne : ∀ d : Char, d.isDigit = false → c ≠ d := fun d hd e => by rw [e, hd] at h; cases h
  refine ⟨?_, hne _ (by decide), hne _ (by decide), hne _ (by decide), hne _ (by decide)⟩
  unfold Batch.isSpace
  rw [decide_eq_false_iff_not]
  intro k
  simp only [List.mem_cons, List.not_mem_nil, or_false] at k
  rcases k with rfl | rfl | rfl | rfl | rfl | rfl <;> revert h <;> decide

theorem toDigits_digit {n : Nat} {c : Char} (h : c ∈ Nat.toDigits 10 n) : c.isDigit = true :=
  Nat.isDigit_of_mem_toDigits (b := 10) (by decide) (by decide) h

theorem toDigits_ne_nil (n : Nat) : Nat.toDigits 10 n ≠ [] := by
  rw [Nat.toDigits_eq_if (by decide)]
  split <;> simp

theorem dropWhile_head {p : Char → Bool} {s : Text} (h : ∀ c, s.head? = some c → p c = false) : s.dropWhile p = s := by
  cases s with
  | nil => rfl
  | cons c s => rw [List.dropWhile_cons_of_neg (by rw [h c rfl]; simp)]

theorem strip_id {s : Text} (h1 : ∀ c, s.head? = some c → Batch.isSpace c = false) (h2 : ∀ c, s.getLast? = some c → Batch.isSpace c = false) :
    strip s = s := by
  unfold strip
  rw [dropWhile_head h1, dropWhile_head (by intro c hc; rw [List.head?_reverse] at hc; exact h2 c hc), List.reverse_reverse]

theorem pyInt_digits (n : Nat) : pyInt (Nat.toDigits 10 n) = .ok n := by
  have hs : strip (Nat.toDigits 10 n) = Nat.toDigits 10 n :=
    strip_id (fun c hc => (digit_plain (toDigits_digit (List.mem_of_mem_head? hc))).1)
      (fun c hc => (digit_plain (toDigits_digit (List.mem_of_getLast? hc))).1)
  have hsign : splitSign (Nat.toDigits 10 n) = (false, Nat.toDigits 10 n) := by
    have : ∀ s : Text, (∀ c, s.head? = some c → c ≠ '-' ∧ c ≠ '+') → splitSign s = (false, s) := by
      intro s hs
      unfold splitSign
      split
      · exact absurd rfl (hs '-' rfl).1
      · exact absurd rfl (hs '+' rfl).2
      · rfl
    refine this _ fun c hc => ?_
    have := digit_plain (toDigits_digit (List.mem_of_mem_head? hc))
    exact ⟨this.2.2.2.1, this.2.2.2.2⟩
  have hgr : splitOn '_' (Nat.toDigits 10 n) = [Nat.toDigits 10 n] :=
    Batch.splitOn_none fun h => (digit_plain (toDigits_digit h)).2.2.1 rfl
  simp only [pyInt, hs, hsign, hgr]
  rw [if_pos]
  · simp [Nat.ofDigitChars_ten_toDigits]
  · simp only [wellFormed, List.all_cons, List.all_nil, Bool.and_true, Bool.and_eq_true, Bool.not_eq_true', List.isEmpty_eq_false_iff, List.all_eq_true]
    exact ⟨toDigits_ne_nil n, fun c hc => toDigits_digit hc⟩

/-- **C100, signs**: a number may have a sign, as for Python's `int`. -/
theorem C100_sign (n : Nat) :
    pyInt ('-' :: Nat.toDigits 10 n) = .ok (-(n : Int)) ∧ pyInt ('+' :: Nat.toDigits 10 n) = .ok (n : Int) := by
  have hlast : ∀ (a c : Char), (a :: Nat.toDigits 10 n).getLast? = some c → Batch.isSpace c = false := by
    intro a c hc
    rw [List.getLast?_cons] at hc
    cases hl : (Nat.toDigits 10 n).getLast? with
    | none => exact absurd (List.getLast?_eq_none_iff.mp hl) (toDigits_ne_nil n)
    | some d =>
      rw [hl] at hc
      cases hc
      exact (digit_plain (toDigits_digit (List.mem_of_getLast? hl))).1
  have hgr : splitOn '_' (Nat.toDigits 10 n) = [Nat.toDigits 10 n] :=
    Batch.splitOn_none fun h => (digit_plain (toDigits_digit h)).2.2.1 rfl
  have hwf : wellFormed [Nat.toDigits 10 n] = true := by
    simp only [wellFormed, List.all_cons, List.all_nil, Bool.and_true, Bool.and_eq_true, Bool.not_eq_true', List.isEmpty_eq_false_iff, List.all_eq_true]
    exact ⟨toDigits_ne_nil n, fun c hc => toDigits_digit hc⟩
  constructor
  · have hs : strip ('-' :: Nat.toDigits 10 n) = '-' :: Nat.toDigits 10 n :=
      strip_id (fun c hc => by cases hc; decide) (hlast '-')
    simp only [pyInt, hs, splitSign, hgr, hwf]
    simp [Nat.ofDigitChars_ten_toDigits]
  · have hs : strip ('+' :: Nat.toDigits 10 n) = '+' :: Nat.toDigits 10 n :=
      strip_id (fun c hc => by cases hc; decide) (hlast '+')
    simp only [pyInt, hs, splitSign, hgr, hwf]
    simp [Nat.ofDigitChars_ten_toDigits]

/-- A case for `C100_sign`. -/
example : pyInt "-12".toList = .ok (-12) ∧ pyInt "+7".toList = .ok 7 := by decide +kernel

theorem text_split (n : Nat) (ns : List Nat) : splitOn '.' (text (n :: ns)) = (n :: ns).map (Nat.toDigits 10) := by
  have hp : ∀ n, '.' ∉ Nat.toDigits 10 n := fun n h => (digit_plain (toDigits_digit h)).2.1 rfl
  induction ns generalizing n with
  | nil => exact Batch.splitOn_none (hp n)
  | cons m ms ih =>
    show splitOn '.' (Nat.toDigits 10 n ++ '.' :: text (m :: ms)) = _
    rw [Batch.splitOn_some _ (hp n), ih]
    rfl

theorem text_head {n : Nat} {ns : List Nat} {c : Char} (h : (text (n :: ns)).head? = some c) : c.isDigit = true := by
  cases ns with
  | nil => exact toDigits_digit (List.mem_of_mem_head? h)
  | cons m ms =>
    have : text (n :: m :: ms) = Nat.toDigits 10 n ++ '.' :: text (m :: ms) := rfl
    rw [this, List.head?_append_of_ne_nil _ (toDigits_ne_nil n)] at h
    exact toDigits_digit (List.mem_of_mem_head? h)

theorem text_last {n : Nat} {ns : List Nat} {c : Char} (h : (text (n :: ns)).getLast? = some c) : c.isDigit = true := by
  induction ns generalizing n with
  | nil => exact toDigits_digit (List.mem_of_getLast? h)
  | cons m ms ih =>
    have e : text (n :: m :: ms) = (Nat.toDigits 10 n ++ ['.']) ++ text (m :: ms) := by
      show Nat.toDigits 10 n ++ '.' :: text (m :: ms) = _
      simp
    have hne : text (m :: ms) ≠ [] := by
      cases ms with
      | nil => exact toDigits_ne_nil m
      | cons k ks =>
        show Nat.toDigits 10 m ++ _ ≠ []
        simp
    rw [e, List.getLast?_append_of_ne_nil _ hne] at h
    exact ih h

theorem pyInts_digits (ns : List Nat) : pyInts (ns.map (Nat.toDigits 10)) = .ok (ns.map fun n : Nat => (n : Int)) := by
  induction ns with
  | nil => rfl
  | cons n ns ih => simp only [List.map_cons, pyInts, pyInt_digits, ih]

theorem tuple_of_text {v : Text} {ns : List Nat} (h : ns ≠ []) (hv : Written ns v) : versionToTuple v = .ok (ns.map fun n : Nat => (n : Int)) := by
  cases ns with
  | nil => exact absurd rfl h
  | cons n ns =>
    obtain ⟨p, q, hp, hq, rfl⟩ := hv
    unfold versionToTuple
    have hsp : ∀ c ∈ ([' ', '\t', '\n', '\r', '\x0b', '\x0c'] : List Char), Batch.Spec.space c = true := by decide
    have hno : ∀ c : Char, c.isDigit = true → Batch.Spec.space c = false := by
      intro c hc
      rw [Bool.eq_false_iff]
      intro k
      simp only [Batch.Spec.space, Bool.or_eq_true, beq_iff_eq] at k
      rcases k with ((((rfl | rfl) | rfl) | rfl) | rfl) | rfl <;> revert hc <;> decide
    rw [Batch.strip_of_padded (t := text (n :: ns)), text_split, pyInts_digits]
    refine ⟨fun c hc => ?_, p, q, fun c hc => hsp c (hp c hc), fun c hc => hsp c (hq c hc), rfl⟩
    rcases hc with hc | hc
    · exact hno c (text_head hc)
    · exact hno c (text_last hc)

/-! ### Comparing -/

theorem earlier_cons {a b : Nat} {as bs : List Nat} : Earlier (a :: as) (b :: bs) ↔ a < b ∨ a = b ∧ Earlier as bs := by
  constructor
  · rintro ⟨k, h1, h2⟩
    cases k with
    | zero => exact .inl h2
    | succ k => exact .inr ⟨h1 0 (by omega), k, fun i hi => h1 (i + 1) (by omega), h2⟩
  · rintro (h | ⟨rfl, k, h1, h2⟩)
    · exact ⟨0, fun i hi => absurd hi (by omega), h⟩
    · refine ⟨k + 1, fun i hi => ?_, h2⟩
      cases i with
      | zero => rfl
      | succ i => exact h1 i (by omega)

theorem tupleLt_iff {a b : List Nat} (h : b.length ≤ a.length) :
    tupleLt (a.map fun n : Nat => (n : Int)) (b.map fun n : Nat => (n : Int)) = true ↔ Earlier a b := by
  induction a generalizing b with
  | nil =>
    cases b with
    | nil => simp [tupleLt, Earlier]
    | cons b bs => simp at h
  | cons a as ih =>
    cases b with
    | nil => simp [tupleLt, Earlier]
    | cons b bs =>
      rw [earlier_cons, ← ih (by simpa using h)]
      simp only [List.map_cons, tupleLt]
      by_cases hab : a = b
      · subst hab
        simp
      · rw [if_neg (by exact_mod_cast hab)]
        simp [hab]

/-- **C100 (partial: releases that are written with as many numbers as the bound).**  A release passes the check exactly if it is not earlier than the bound. -/
theorem C100_release_partial {v : Text} {ns bound : List Nat} (hn : ns ≠ []) (hv : Written ns v) (hb : bound.length ≤ ns.length) :
    ∃ b, atLeast v (bound.map fun n : Nat => (n : Int)) = .ok b ∧ (b = true ↔ ¬ Earlier ns bound) := by
  refine ⟨_, by unfold atLeast; rw [tuple_of_text hn hv], ?_⟩
  rw [Bool.not_eq_true', ← tupleLt_iff hb, Bool.not_eq_true]

/-- **C100, the flags for NumPy and the keyword for dask**, for releases of at least three numbers. -/
theorem C100_flags_partial {v : Text} {a b c : Nat} {rest : List Nat} (hv : Written (a :: b :: c :: rest) v) :
    compat v = .ok (decide (2 ≤ a), decide (2 < a ∨ a = 2 ∧ 2 ≤ b)) ∧
    shuffleKeyword v =
      .ok (if 2024 < a ∨ a = 2024 ∧ (1 < b ∨ b = 1 ∧ 1 ≤ c) then "shuffle_method" else "shuffle") := by
  have h := fun x y z : Nat => C100_release_partial (ns := a :: b :: c :: rest) (bound := [x, y, z]) (by simp) hv (by simp)
  have hE : ∀ x y z : Nat, ¬ Earlier (a :: b :: c :: rest) [x, y, z] ↔ x < a ∨ a = x ∧ (y < b ∨ b = y ∧ z ≤ c) := by
    intro x y z
    rw [earlier_cons, earlier_cons, earlier_cons]
    have : ¬ Earlier rest [] := by rintro ⟨k, -, k2⟩; simp at k2
    simp only [this, and_false, or_false]
    omega
  constructor
  · obtain ⟨p, h1, h2⟩ := h 2 0 0
    obtain ⟨q, h3, h4⟩ := h 2 2 0
    have e1 : atLeast v [2, 0, 0] = .ok p := h1
    have e2 : atLeast v [2, 2, 0] = .ok q := h3
    simp only [compat, e1, e2]
    rw [hE] at h2 h4
    congr 1
    congr 1
    · rw [Bool.eq_iff_iff, h2, decide_eq_true_eq]; omega
    · rw [Bool.eq_iff_iff, h4, decide_eq_true_eq]; omega
  · obtain ⟨p, h1, h2⟩ := h 2024 1 1
    have e1 : atLeast v [2024, 1, 1] = .ok p := h1
    simp only [shuffleKeyword, e1]
    rw [hE] at h2
    congr 1
    by_cases hp : p = true
    · rw [if_pos hp, if_pos (h2.1 hp)]
    · rw [if_neg hp, if_neg fun k => hp (h2.2 k)]

/-! ### Versions that are not releases -/

theorem strip_mem {c : Char} {s : Text} (h : c ∈ s) (hc : Batch.isSpace c = false) : c ∈ strip s := by
  have hd : ∀ s : Text, c ∈ s → c ∈ s.dropWhile Batch.isSpace := by
    intro s hs
    induction s with
    | nil => cases hs
    | cons d s ih =>
      by_cases hd : Batch.isSpace d = true
      · rw [List.dropWhile_cons_of_pos hd]
        rcases List.mem_cons.1 hs with rfl | hs
        · rw [hc] at hd; cases hd
        · exact ih hs
      · rw [List.dropWhile_cons_of_neg hd]; exact hs
  unfold strip
  exact List.mem_reverse.2 (hd _ (List.mem_reverse.2 (hd _ h)))

theorem splitOn_mem {c d : Char} {s : Text} (h : c ∈ s) (hc : c ≠ d) : ∃ p ∈ splitOn d s, c ∈ p := by
  induction s with
  | nil => cases h
  | cons e s ih =>
    by_cases he : e = d
    · rw [splitOn, if_pos he]
      rcases List.mem_cons.1 h with rfl | h
      · exact absurd he hc
      · obtain ⟨p, hp, hcp⟩ := ih h
        exact ⟨p, List.mem_cons_of_mem _ hp, hcp⟩
    · obtain ⟨x, l, e1, e2⟩ := Batch.splitOn_cons_ne he s
      rw [e2]
      rcases List.mem_cons.1 h with rfl | h
      · exact ⟨_, List.mem_cons_self, List.mem_cons_self⟩
      · obtain ⟨p, hp, hcp⟩ := ih h
        rw [e1] at hp
        rcases List.mem_cons.1 hp with rfl | hp
        · exact ⟨_, List.mem_cons_self, List.mem_cons_of_mem _ hcp⟩
        · exact ⟨p, List.mem_cons_of_mem _ hp, hcp⟩

theorem pyInt_error {c : Char} {s : Text} (h : c ∈ s) (hc : ¬ Plain c) : pyInt s = .error .value := by
  have hn : c.isDigit = false ∧ Batch.isSpace c = false ∧ c ≠ '_' ∧ c ≠ '+' ∧ c ≠ '-' := by
    unfold Plain at hc
    rw [not_or] at hc
    simp only [List.mem_cons, List.not_mem_nil, or_false, not_or] at hc
    refine ⟨Bool.eq_false_iff.2 hc.1, ?_, hc.2.2.1, hc.2.2.2.1, hc.2.2.2.2.1⟩
    unfold Batch.isSpace
    rw [decide_eq_false_iff_not]
    simp only [List.mem_cons, List.not_mem_nil, or_false, not_or]
    exact hc.2.2.2.2.2
  have h1 : c ∈ (splitSign (strip s)).2 := by
    have := strip_mem h hn.2.1
    revert this
    generalize strip s = t
    intro ht
    unfold splitSign
    split
    · rcases List.mem_cons.1 ht with e | e
      · exact absurd e hn.2.2.2.2
      · exact e
    · rcases List.mem_cons.1 ht with e | e
      · exact absurd e hn.2.2.2.1
      · exact e
    · exact ht
  obtain ⟨p, hp, hcp⟩ := splitOn_mem h1 hn.2.2.1
  simp only [pyInt]
  rw [if_neg]
  unfold wellFormed
  rw [Bool.not_eq_true, List.all_eq_false]
  refine ⟨p, hp, ?_⟩
  rw [Bool.and_eq_true, not_and_or]
  right
  rw [Bool.not_eq_true, List.all_eq_false]
  exact ⟨c, hcp, by rw [hn.1]; simp⟩

theorem pyInt_value {s : Text} {e : Err} (h : pyInt s = .error e) : e = .value := by
  simp only [pyInt] at h
  split at h
  · cases h
  · cases h; rfl

theorem pyInts_error {p : Text} {ps : List Text} (h : p ∈ ps) (hp : pyInt p = .error .value) : pyInts ps = .error .value := by
  induction ps with
  | nil => cases h
  | cons q qs ih =>
    cases hq : pyInt q with
    | error e => simp only [pyInts, hq, pyInt_value hq]
    | ok n =>
      rcases List.mem_cons.1 h with rfl | h
      · rw [hp] at hq; cases hq
      · simp only [pyInts, hq, ih h]

/-- **C100 is false of the code** for versions with letters, as those of release candidates, development versions and local builds have: the package cannot be
imported with such a NumPy (`__init__.py:4` imports `_compat.py`), and medians cannot be computed with such a dask. -/
theorem C100_letters {c : Char} {s : Text} (h : c ∈ s) (hc : ¬ Plain c) :
    compat s = .error .value ∧ shuffleKeyword s = .error .value := by
  have hv : versionToTuple s = .error .value := by
    have hs : Batch.isSpace c = false := by
      unfold Batch.isSpace
      rw [decide_eq_false_iff_not]
      intro k
      exact hc (.inr (by simp only [List.mem_cons, List.not_mem_nil, or_false] at k ⊢; tauto))
    have hd : c ≠ '.' := fun k => hc (.inr (by simp [k]))
    obtain ⟨p, hp, hcp⟩ := splitOn_mem (strip_mem h hs) hd
    exact pyInts_error hp (pyInt_error hcp hc)
  constructor
  · simp only [compat, atLeast, hv]
  · simp only [shuffleKeyword, atLeast, hv]

/-- **C100 is false of the code** for releases that are written with fewer numbers than the bound and agree with it: they fail the check, also if the missing
numbers of the bound are zero. -/
theorem C100_short {v : Text} {ns rest : List Nat} (hn : ns ≠ []) (hv : Written ns v) (hr : rest ≠ []) :
    atLeast v ((ns ++ rest).map fun n : Nat => (n : Int)) = .ok false := by
  unfold atLeast
  rw [tuple_of_text hn hv]
  have : ∀ l : List Nat, tupleLt (l.map fun n : Nat => (n : Int)) ((l ++ rest).map fun n : Nat => (n : Int)) = true := by
    intro l
    induction l with
    | nil =>
      cases rest with
      | nil => exact absurd rfl hr
      | cons a as => rfl
    | cons a as ih => simp only [List.map_cons, List.cons_append, tupleLt, if_true, ih]
  simp only [this]
  rfl

/-! ### Examples -/

/-- NumPy 1.26.4, 2.0.0, 2.2.1 and 10.0.0; dask 2023.12.1 and 2024.1.1. -/
example : compat "1.26.4".toList = .ok (false, false) ∧ compat "2.0.0".toList = .ok (true, false) ∧ compat "2.2.1".toList = .ok (true, true) ∧
    compat "10.0.0".toList = .ok (true, true) ∧ text [2, 2, 1] = "2.2.1".toList ∧
    shuffleKeyword "2023.12.1".toList = .ok "shuffle" ∧ shuffleKeyword "2024.1.1".toList = .ok "shuffle_method" ∧
    Written [2, 2, 1] " 2.2.1\n".toList ∧ Earlier [1, 26, 4] [2, 0, 0] := by
  refine ⟨by decide +kernel, by decide +kernel, by decide +kernel, by decide +kernel, by decide +kernel, by decide +kernel, by decide +kernel,
    ⟨[' '], ['\n'], by decide, by decide, by decide +kernel⟩, 0, ?_, ?_⟩
  · intro i hi; omega
  · decide

/-- NumPy 2.4.0rc1 has a letter; "2.0" is not earlier than 2.0.0. -/
example : 'r' ∈ "2.4.0rc1".toList ∧ ¬ Plain 'r' ∧ text [2, 0] = "2.0".toList ∧ ¬ Earlier [2, 0] [2, 0, 0] := by
  refine ⟨by decide, by unfold Plain; decide, by decide +kernel, ?_⟩
  rintro ⟨k, -, h⟩
  rcases k with _ | _ | _ | k
  · simp at h
  · simp at h
  · simp at h
  · simp at h

end Verif.Versions
