import Mathlib.Order.Lattice
import Mathlib.Tactic.Ring
import Mathlib.Tactic.Linarith
import Verif.Heap.Model

/-! Helper lemmas for the heap: sifting restores the tournament tree, tracing finds the leftmost
minimal leaf. -/

namespace Verif.Heap

open Verif

variable {K : Type _} [LinearOrder K]

/-- Inner node `j` holds the minimum of its children. -/
def NodeEq (keys : Arr K) (j : Nat) : Prop :=
  keys.get j = min (keys.get (2 * j + 1)) (keys.get (2 * j + 2))

/-- The nodes rewritten by `siftLoop keys n i`. -/
def Anc : Nat → Nat → Nat → Prop
  | 0, _, _ => False
  | n + 1, i, j => j = (i - 1) / 2 ∨
      Anc n (if ((i - 1) / 2) % 2 = 0 then (i - 1) / 2 - 1 else (i - 1) / 2) j

theorem pairStart_of_pos {i : Nat} (h : 0 < i) :
    pairStart i = some (if i % 2 = 0 then i - 1 else i) := by
  unfold pairStart; split
  · omega
  · rfl

theorem siftLoop_spec (n : Nat) : ∀ (i : Nat) (keys : Arr K), i % 2 = 1 →
    2 ^ (n + 1) - 1 ≤ i → i < 2 ^ (n + 2) - 1 → 2 ^ (n + 2) - 1 ≤ keys.size →
    ∃ keys', siftLoop keys n i = some keys' ∧ keys'.size = keys.size ∧
      (∀ j, 2 ^ (n + 1) - 1 ≤ j → keys'.get j = keys.get j) ∧
      (∀ j, 1 ≤ j → j < 2 ^ (n + 1) - 1 →
        NodeEq keys' j ∨ (¬ Anc n i j ∧ keys'.get j = keys.get j ∧
          keys'.get (2 * j + 1) = keys.get (2 * j + 1) ∧
          keys'.get (2 * j + 2) = keys.get (2 * j + 2))) := by
  induction n with
  | zero =>
    intro i keys _ _ _ _
    refine ⟨keys, rfl, rfl, fun _ _ => rfl, ?_⟩
    intro j h1 h2
    simp at h2; omega
  | succ n ih =>
    intro i keys hodd hlo hhi hsz
    have e1 : 2 ^ (n + 1 + 1) = 2 * 2 ^ (n + 1) := by ring
    have e2 : 2 ^ (n + 1 + 2) = 4 * 2 ^ (n + 1) := by ring
    have e3 : 2 ^ (n + 2) = 2 * 2 ^ (n + 1) := by ring
    have hp : 1 ≤ 2 ^ n := Nat.one_le_two_pow
    have e4 : 2 ^ (n + 1) = 2 * 2 ^ n := by ring
    generalize 2 ^ (n + 1) = P at *
    rw [e1] at hlo; rw [e2] at hhi hsz
    obtain ⟨p, rfl⟩ : ∃ p, i = 2 * p + 1 := ⟨i / 2, by omega⟩
    have hpar : (2 * p + 1 - 1) / 2 = p := by omega
    have hr1 : 2 * p + 1 < keys.size := by omega
    have hr2 : 2 * p + 1 + 1 < keys.size := by omega
    have hw : p < keys.size := by omega
    set k1 := keys.upd p (min (keys.get (2 * p + 1)) (keys.get (2 * p + 2))) with hk1
    have hpp : 0 < p := by omega
    set i' := (if p % 2 = 0 then p - 1 else p) with hi'
    have hi'odd : i' % 2 = 1 := by rw [hi']; split <;> omega
    have hi'lo : P - 1 ≤ i' := by rw [hi']; split <;> omega
    have hi'hi : i' < 2 ^ (n + 2) - 1 := by rw [e3, hi']; split <;> omega
    obtain ⟨keys', hk', hsz', hhigh, hlow⟩ := ih i' k1 hi'odd hi'lo hi'hi
      (by rw [e3]; simp [hk1]; omega)
    refine ⟨keys', ?_, by simpa [hk1] using hsz', ?_, ?_⟩
    · simp only [siftLoop, hpar, Arr.read_of_lt hr1, Arr.read_of_lt hr2, Arr.write_of_lt hw,
        pairStart_of_pos hpp, Option.bind_eq_bind, Option.bind_some]
      exact hk'
    · intro j hj
      rw [e1] at hj
      rw [hhigh j (by omega), hk1, Arr.upd_get_ne _ _ (by omega)]
    · intro j hj1 hj2
      rw [e1] at hj2
      by_cases hjP : P - 1 ≤ j
      · by_cases hjp : j = p
        · left
          subst hjp
          unfold NodeEq
          rw [hhigh _ hjP, hhigh _ (by omega), hhigh _ (by omega), hk1, Arr.upd_get_self,
            Arr.upd_get_ne _ _ (by omega), Arr.upd_get_ne _ _ (by omega)]
        · right
          refine ⟨?_, ?_, ?_, ?_⟩
          · simp only [Anc, hpar]
            rintro (h | h)
            · exact hjp h
            · -- ancestors further up are below level `n + 1`
              have key : ∀ m i j, 0 < m → 2 ^ (m + 1) - 1 ≤ i → i < 2 ^ (m + 2) - 1 → Anc m i j →
                  j < 2 ^ (m + 1) - 1 := by
                intro m
                induction m with
                | zero => intro i j h; omega
                | succ m ihm =>
                  intro i j _ h1 h2 h3
                  have f1 : 2 ^ (m + 1 + 1) = 2 * 2 ^ (m + 1) := by ring
                  have f2 : 2 ^ (m + 1 + 2) = 4 * 2 ^ (m + 1) := by ring
                  have f3 : 2 ^ (m + 2) = 2 * 2 ^ (m + 1) := by ring
                  have f4 : 2 ^ (m + 1) = 2 * 2 ^ m := by ring
                  have : 1 ≤ 2 ^ m := Nat.one_le_two_pow
                  simp only [Anc] at h3
                  rcases h3 with h3 | h3
                  · omega
                  · rcases Nat.eq_zero_or_pos m with hm | hm
                    · subst hm; simp [Anc] at h3
                    · have := ihm _ j hm (by split <;> omega) (by split <;> omega) h3
                      omega
              rcases Nat.eq_zero_or_pos n with hn | hn
              · subst hn; simp [Anc] at h
              · have := key n i' j hn (by omega) hi'hi h
                omega
          · rw [hhigh _ hjP, hk1, Arr.upd_get_ne _ _ hjp]
          · rw [hhigh _ (by omega), hk1, Arr.upd_get_ne _ _ (by omega)]
          · rw [hhigh _ (by omega), hk1, Arr.upd_get_ne _ _ (by omega)]
      · rcases hlow j hj1 (by omega) with h | ⟨ha, hb, hc, hd⟩
        · exact Or.inl h
        · right
          have hjne : j ≠ p := by omega
          have hn1 : n ≠ 0 := by rintro rfl; omega
          obtain ⟨m, rfl⟩ := Nat.exists_eq_succ_of_ne_zero hn1
          have hnotpar : j ≠ (i' - 1) / 2 := by
            intro he
            apply ha
            simp only [Anc]
            exact Or.inl he
          have hc1 : 2 * j + 1 ≠ p := by
            intro he; apply hnotpar; rw [hi']; split <;> omega
          have hc2 : 2 * j + 2 ≠ p := by
            intro he; apply hnotpar; rw [hi']; split <;> omega
          refine ⟨?_, ?_, ?_, ?_⟩
          · rw [Anc]
            simp only [hpar]
            rintro (h | h)
            · exact hjne h
            · exact ha h
          · rw [hb, hk1, Arr.upd_get_ne _ _ hjne]
          · rw [hc, hk1, Arr.upd_get_ne _ _ hc1]
          · rw [hd, hk1, Arr.upd_get_ne _ _ hc2]

/-- Nodes rewritten by `sift keys L i`. -/
def SiftAnc (L i j : Nat) : Prop := Anc (L - 1) (if i % 2 = 0 then i - 1 else i) j

theorem sift_spec {L i : Nat} {keys : Arr K} (hL : 1 ≤ L) (hlo : 2 ^ L - 1 ≤ i)
    (hhi : i < 2 ^ (L + 1) - 1) (hsz : keys.size = 2 * 2 ^ L) :
    ∃ keys', sift keys L i = some keys' ∧ keys'.size = 2 * 2 ^ L ∧
      (∀ j, 2 ^ L - 1 ≤ j → keys'.get j = keys.get j) ∧
      (∀ j, 1 ≤ j → j < 2 ^ L - 1 →
        NodeEq keys' j ∨ (¬ SiftAnc L i j ∧ keys'.get j = keys.get j ∧
          keys'.get (2 * j + 1) = keys.get (2 * j + 1) ∧
          keys'.get (2 * j + 2) = keys.get (2 * j + 2))) := by
  obtain ⟨n, rfl⟩ : ∃ n, L = n + 1 := ⟨L - 1, by omega⟩
  have e1 : 2 ^ (n + 1 + 1) = 2 * 2 ^ (n + 1) := by ring
  have e2 : 2 ^ (n + 1) = 2 * 2 ^ n := by ring
  have hp : 1 ≤ 2 ^ n := Nat.one_le_two_pow
  have hipos : 0 < i := by omega
  have e3 : 2 ^ (n + 2) = 2 * 2 ^ (n + 1) := by ring
  obtain ⟨keys', h1, h2, h3, h4⟩ := siftLoop_spec n (if i % 2 = 0 then i - 1 else i) keys
    (by split <;> omega) (by split <;> omega) (by split <;> omega) (by omega)
  refine ⟨keys', ?_, by omega, h3, h4⟩
  simp only [sift, pairStart_of_pos hipos, Option.bind_eq_bind, Option.bind_some,
    Nat.add_sub_cancel]
  exact h1

/-- The parent of the sifted leaf is rewritten. -/
theorem siftAnc_parent {L i : Nat} (hL : 2 ≤ L) (hi : 0 < i) : SiftAnc L i ((i - 1) / 2) := by
  obtain ⟨n, rfl⟩ : ∃ n, L = n + 2 := ⟨L - 2, by omega⟩
  simp only [SiftAnc, show n + 2 - 1 = n + 1 by omega, Anc]
  left
  split <;> omega

/-- Every inner node is rewritten by the sift of some (odd) leaf. -/
theorem exists_leaf_anc (d : Nat) : ∀ l j, 2 ^ (l + 1) - 1 ≤ j → j < 2 ^ (l + 2) - 1 →
    ∃ i, i % 2 = 1 ∧ 2 ^ (l + 2 + d) - 1 ≤ i ∧ i < 2 ^ (l + 3 + d) - 1 ∧ Anc (l + 1 + d) i j := by
  induction d with
  | zero =>
    intro l j h1 h2
    have e1 : 2 ^ (l + 2 + 0) = 2 * 2 ^ (l + 1) := by ring
    have e2 : 2 ^ (l + 3 + 0) = 4 * 2 ^ (l + 1) := by ring
    have e3 : 2 ^ (l + 2) = 2 * 2 ^ (l + 1) := by ring
    have hp : 1 ≤ 2 ^ (l + 1) := Nat.one_le_two_pow
    refine ⟨2 * j + 1, by omega, by omega, by omega, ?_⟩
    simp only [Anc]
    left; omega
  | succ d ih =>
    intro l j h1 h2
    obtain ⟨i, ho, hi1, hi2, ha⟩ := ih l j h1 h2
    have e1 : 2 ^ (l + 2 + (d + 1)) = 2 * 2 ^ (l + 2 + d) := by ring
    have e2 : 2 ^ (l + 3 + (d + 1)) = 2 * 2 ^ (l + 3 + d) := by ring
    have hp : 1 ≤ 2 ^ (l + 2 + d) := Nat.one_le_two_pow
    refine ⟨2 * i + 1, by omega, by omega, by omega, ?_⟩
    rw [show l + 1 + (d + 1) = (l + 1 + d) + 1 by ring, Anc]
    right
    have : (2 * i + 1 - 1) / 2 = i := by omega
    rw [this, if_neg (by omega)]
    exact ha

/-- `_sift_all` builds the whole tree from its leaves. -/
theorem siftAll_spec {L : Nat} {keys : Arr K} (hL : 1 ≤ L) (hsz : keys.size = 2 * 2 ^ L) :
    ∃ keys', siftAll keys L = some keys' ∧ keys'.size = 2 * 2 ^ L ∧
      (∀ j, 2 ^ L - 1 ≤ j → keys'.get j = keys.get j) ∧
      (∀ j, 1 ≤ j → j < 2 ^ L - 1 → NodeEq keys' j) := by
  have hpow : 1 ≤ 2 ^ L := Nat.one_le_two_pow
  have hev : 2 ^ L = 2 * 2 ^ (L - 1) := by
    rw [← pow_succ']; congr 1; omega
  -- after the first `m` pairs, all nodes touched so far are right
  have main : ∀ m, 2 * m ≤ 2 ^ L → ∃ keys',
      (List.range m).foldlM (fun ks k => sift ks L (2 ^ L - 1 + 2 * k)) keys = some keys' ∧
      keys'.size = 2 * 2 ^ L ∧ (∀ j, 2 ^ L - 1 ≤ j → keys'.get j = keys.get j) ∧
      (∀ j, 1 ≤ j → j < 2 ^ L - 1 → (∃ k < m, SiftAnc L (2 ^ L - 1 + 2 * k) j) →
        NodeEq keys' j) := by
    intro m
    induction m with
    | zero => intro _; exact ⟨keys, rfl, hsz, fun _ _ => rfl, by rintro j _ _ ⟨k, hk, _⟩; omega⟩
    | succ m ih =>
      intro hm
      obtain ⟨k1, hk1, hs1, hl1, hn1⟩ := ih (by omega)
      obtain ⟨k2, hk2, hs2, hl2, hn2⟩ := sift_spec (K := K) (L := L) (i := 2 ^ L - 1 + 2 * m)
        (keys := k1) hL (by omega) (by rw [pow_succ]; omega) hs1
      refine ⟨k2, ?_, hs2, fun j hj => by rw [hl2 j hj, hl1 j hj], ?_⟩
      · rw [List.range_succ, List.foldlM_append, hk1]
        simp [hk2]
      · rintro j hj1 hj2 ⟨k, hk, ha⟩
        rcases hn2 j hj1 hj2 with h | ⟨hna, e1, e2, e3⟩
        · exact h
        · rcases Nat.lt_succ_iff_lt_or_eq.mp hk with hlt | rfl
          · have := hn1 j hj1 hj2 ⟨k, hlt, ha⟩
            unfold NodeEq at *
            rw [e1, e2, e3, this]
          · exact absurd ha hna
  obtain ⟨keys', h1, h2, h3, h4⟩ := main (2 ^ (L - 1)) (by omega)
  refine ⟨keys', ?_, h2, h3, ?_⟩
  · unfold siftAll
    simp only
    rw [show (2 ^ L - 1 + 1 + 1) / 2 = 2 ^ (L - 1) by omega]
    exact h1
  · intro j hj1 hj2
    apply h4 j hj1 hj2
    -- level of `j`
    have hlev : ∃ l, 2 ^ (l + 1) - 1 ≤ j ∧ j < 2 ^ (l + 2) - 1 := by
      refine ⟨Nat.log2 (j + 1) - 1, ?_⟩
      have h2le : 1 ≤ Nat.log2 (j + 1) := by
        rw [Nat.le_log2 (by omega)]; omega
      have ha := (Nat.log2_lt (n := j + 1) (k := Nat.log2 (j + 1) + 1) (by omega)).mp (by omega)
      have hb := (Nat.le_log2 (n := j + 1) (k := Nat.log2 (j + 1)) (by omega)).mp (le_refl _)
      rw [show Nat.log2 (j + 1) - 1 + 1 = Nat.log2 (j + 1) by omega,
        show Nat.log2 (j + 1) - 1 + 2 = Nat.log2 (j + 1) + 1 by omega]
      omega
    obtain ⟨l, hl1, hl2⟩ := hlev
    have hlL : l + 2 ≤ L := by
      by_contra hcon
      have : 2 ^ L ≤ 2 ^ (l + 1) := Nat.pow_le_pow_right (by decide) (by omega)
      omega
    obtain ⟨i, ho, hi1, hi2, ha⟩ := exists_leaf_anc (L - (l + 2)) l j hl1 hl2
    rw [show l + 2 + (L - (l + 2)) = L by omega] at hi1
    rw [show l + 3 + (L - (l + 2)) = L + 1 by omega, pow_succ] at hi2
    refine ⟨(i - (2 ^ L - 1)) / 2, by omega, ?_⟩
    rw [show 2 ^ L - 1 + 2 * ((i - (2 ^ L - 1)) / 2) = i by omega]
    unfold SiftAnc
    rw [if_neg (by omega), show L - 1 = l + 1 + (L - (l + 2)) by omega]
    exact ha

/-! ### Tracing -/

/-- A node is a lower bound of the leaves below it. -/
theorem node_le_leaf {L : Nat} {keys : Arr K}
    (hnode : ∀ j, 1 ≤ j → j < 2 ^ L - 1 → NodeEq keys j) (d : Nat) :
    ∀ j t, 1 ≤ j → (j + 1) * 2 ^ d + 2 ^ d ≤ 2 ^ (L + 1) → t < 2 ^ d →
      keys.get j ≤ keys.get ((j + 1) * 2 ^ d - 1 + t) := by
  induction d with
  | zero => intro j t _ _ ht; simp at ht; subst ht; simp
  | succ d ih =>
    intro j t hj hb ht
    have hpd : 1 ≤ 2 ^ d := Nat.one_le_two_pow
    have e : (j + 1) * 2 ^ (d + 1) = (2 * j + 2) * 2 ^ d := by ring
    have e' : (2 * j + 3) * 2 ^ d = (2 * j + 2) * 2 ^ d + 2 ^ d := by ring
    have e2 : 2 ^ (d + 1) = 2 * 2 ^ d := by ring
    have e3 : 2 ^ (L + 1) = 2 * 2 ^ L := by ring
    rw [e, e2] at hb
    have hjL : j < 2 ^ L - 1 := by
      have : (2 * j + 2) * 1 ≤ (2 * j + 2) * 2 ^ d := Nat.mul_le_mul_left _ hpd
      omega
    have hn := hnode j hj hjL
    unfold NodeEq at hn
    rw [hn, e]
    have hpos : 1 ≤ (2 * j + 2) * 2 ^ d := Nat.mul_pos (by omega) hpd
    by_cases htd : t < 2 ^ d
    · refine le_trans (min_le_left _ _) ?_
      have := ih (2 * j + 1) t (by omega) (by rw [show 2 * j + 1 + 1 = 2 * j + 2 by ring]; omega) htd
      rwa [show 2 * j + 1 + 1 = 2 * j + 2 by ring] at this
    · refine le_trans (min_le_right _ _) ?_
      have := ih (2 * j + 2) (t - 2 ^ d) (by omega)
        (by rw [show 2 * j + 2 + 1 = 2 * j + 3 by ring, e']; omega) (by omega)
      rw [show 2 * j + 2 + 1 = 2 * j + 3 by ring, e'] at this
      rwa [show (2 * j + 2) * 2 ^ d - 1 + t = (2 * j + 2) * 2 ^ d + 2 ^ d - 1 + (t - 2 ^ d) by
        omega]

/-- Tracing from a pair ends at a pair of leaves; the lower of the two (the first on ties) holds
the minimum of the pair's nodes and every leaf before it below this pair is strictly larger. -/
theorem trace_spec {L : Nat} {keys : Arr K} (hsz : keys.size = 2 * 2 ^ L)
    (hnode : ∀ j, 1 ≤ j → j < 2 ^ L - 1 → NodeEq keys j) (d : Nat) :
    ∀ i, 1 ≤ i → (i + 1) * 2 ^ d + 2 * 2 ^ d ≤ 2 ^ (L + 1) →
      ∃ f, trace keys d i = some f ∧ (i + 1) * 2 ^ d - 1 ≤ f ∧
        f + 1 < (i + 1) * 2 ^ d - 1 + 2 * 2 ^ d ∧
        min (keys.get f) (keys.get (f + 1)) = min (keys.get i) (keys.get (i + 1)) ∧
        ∀ t, (i + 1) * 2 ^ d - 1 ≤ t → t < f →
          min (keys.get i) (keys.get (i + 1)) < keys.get t := by
  induction d with
  | zero =>
    intro i hi hb
    refine ⟨i, rfl, by simp, by simp, rfl, ?_⟩
    intro t h1 h2; simp at h1; omega
  | succ d ih =>
    intro i hi hb
    have hpd : 1 ≤ 2 ^ d := Nat.one_le_two_pow
    have e : (i + 1) * 2 ^ (d + 1) = (2 * i + 2) * 2 ^ d := by ring
    have e4 : (2 * i + 4) * 2 ^ d = (2 * i + 2) * 2 ^ d + 2 * 2 ^ d := by ring
    have e2 : 2 ^ (d + 1) = 2 * 2 ^ d := by ring
    have e3 : 2 ^ (L + 1) = 2 * 2 ^ L := by ring
    rw [e, e2] at hb
    have hge : (2 * i + 2) * 1 ≤ (2 * i + 2) * 2 ^ d := Nat.mul_le_mul_left _ hpd
    have hge4 : (2 * i + 4) * 1 ≤ (2 * i + 4) * 2 ^ d := Nat.mul_le_mul_left _ hpd
    have hr1 : i < keys.size := by omega
    have hr2 : i + 1 < keys.size := by omega
    have hn1 := hnode i hi (by omega)
    have hn2 := hnode (i + 1) (by omega) (by omega)
    unfold NodeEq at hn1 hn2
    by_cases hle : keys.get i ≤ keys.get (i + 1)
    · obtain ⟨f, h1, h2, h3, h4, h5⟩ := ih (2 * i + 1) (by omega)
        (by rw [show 2 * i + 1 + 1 = 2 * i + 2 by ring]; omega)
      rw [show 2 * i + 1 + 1 = 2 * i + 2 by ring] at h2 h3 h4 h5
      refine ⟨f, ?_, by rw [e]; omega, by rw [e, e2]; omega, ?_, ?_⟩
      · simp only [trace, Arr.read_of_lt hr1, Arr.read_of_lt hr2, Option.bind_eq_bind,
          Option.bind_some, if_pos hle, Nat.mul_comm i 2]
        exact h1
      · rw [h4, ← hn1, min_eq_left hle]
      · intro t ht1 ht2
        rw [e] at ht1
        have := h5 t ht1 ht2
        rwa [← hn1, ← min_eq_left hle] at this
    · have hlt : keys.get (i + 1) < keys.get i := not_le.mp hle
      obtain ⟨f, h1, h2, h3, h4, h5⟩ := ih (2 * i + 3) (by omega)
        (by rw [show 2 * i + 3 + 1 = 2 * i + 4 by ring, e4]; omega)
      rw [show 2 * i + 3 + 1 = 2 * i + 4 by ring] at h2 h3 h4 h5
      rw [e4] at h2 h3 h5
      rw [show 2 * (i + 1) + 1 = 2 * i + 3 by ring, show 2 * (i + 1) + 2 = 2 * i + 4 by ring] at hn2
      refine ⟨f, ?_, by rw [e]; omega, by rw [e, e2]; omega, ?_, ?_⟩
      · simp only [trace, Arr.read_of_lt hr1, Arr.read_of_lt hr2, Option.bind_eq_bind,
          Option.bind_some, if_neg hle, show (i + 1) * 2 + 1 = 2 * i + 3 by ring]
        exact h1
      · rw [h4, ← hn2, min_eq_right hlt.le]
      · intro t ht1 ht2
        rw [e] at ht1
        rw [min_eq_right hlt.le]
        by_cases htm : t < (2 * i + 2) * 2 ^ d - 1 + 2 * 2 ^ d
        · -- leaf below the left node of the pair
          have hpos : 1 ≤ (2 * i + 2) * 2 ^ d := by omega
          have := node_le_leaf hnode (d + 1) i (t - ((i + 1) * 2 ^ (d + 1) - 1)) hi
            (by rw [e, e2]; omega) (by rw [e, e2]; omega)
          rw [show (i + 1) * 2 ^ (d + 1) - 1 + (t - ((i + 1) * 2 ^ (d + 1) - 1)) = t by
            rw [e]; omega] at this
          exact lt_of_lt_of_le hlt this
        · have := h5 t (by omega) ht2
          rwa [← hn2] at this

end Verif.Heap
