import Verif.Heap.Lemmas

/-! The heap arrays represent a contiguous row of entries; every heap call acts on that row. -/

namespace Verif.Heap

open Verif

variable {K : Type _} [LinearOrder K]

/-- Sifting from leaf `i` repairs every node that was right up to the parent of `i`. -/
theorem sift_fix {L i : Nat} {keys : Arr K} (Q : Nat → Prop) (hL : 1 ≤ L) (hlo : 2 ^ L - 1 ≤ i)
    (hhi : i < 2 ^ (L + 1) - 1) (hsz : keys.size = 2 * 2 ^ L)
    (hn : ∀ j, 1 ≤ j → j < 2 ^ L - 1 → j ≠ (i - 1) / 2 → NodeEq keys j ∨ Q j) :
    ∃ keys', sift keys L i = some keys' ∧ keys'.size = 2 * 2 ^ L ∧
      (∀ j, 2 ^ L - 1 ≤ j → keys'.get j = keys.get j) ∧
      (∀ j, 1 ≤ j → j < 2 ^ L - 1 → NodeEq keys' j ∨ Q j) := by
  obtain ⟨keys', h1, h2, h3, h4⟩ := sift_spec hL hlo hhi hsz
  refine ⟨keys', h1, h2, h3, fun j hj1 hj2 => ?_⟩
  rcases h4 j hj1 hj2 with h | ⟨hna, e1, e2, e3⟩
  · exact Or.inl h
  · have hL2 : 2 ≤ L := by
      by_contra hc
      have : L = 1 := by omega
      subst this; simp at hj2; omega
    have h2L : 2 ^ 2 ≤ 2 ^ L := Nat.pow_le_pow_right (by decide) hL2
    have hne : j ≠ (i - 1) / 2 := by
      rintro rfl
      exact hna (siftAnc_parent hL2 (by omega))
    rcases hn j hj1 hj2 hne with h | h
    · left; unfold NodeEq at *; rw [e1, e2, e3, h]
    · exact Or.inr h

variable [OrderTop K]

/-- Key of a slot; empty slots hold `inf`. -/
def slotKey : Option (K × Nat) → K
  | some p => p.1
  | none => ⊤

/-- The row of entries of a heap: `n` entries at positions `0 .. n - 1`. -/
structure Row (K : Type _) where
  n : Nat
  ent : Nat → Option (K × Nat)

/-- Heap `h` holds the row `r`. -/
structure Rep (h : State K) (r : Row K) : Prop where
  lev1 : 1 ≤ h.minLevels
  lev2 : h.minLevels ≤ h.levels
  ksz : h.keys.size = 2 * 2 ^ h.levels
  vsz : h.values.size = 2 ^ h.levels
  csz : h.crossrefs.size = h.maxValue + 1
  cnt : h.count = r.n
  cap : r.n ≤ 2 ^ h.levels
  row : ∀ k, (r.ent k).isSome = true ↔ k < r.n
  leaf : ∀ k, k < 2 ^ h.levels → h.keys.get (2 ^ h.levels - 1 + k) = slotKey (r.ent k)
  vals : ∀ k p, r.ent k = some p →
    h.values.get k = p.2 ∧ p.2 ≤ h.maxValue ∧ h.crossrefs.get p.2 = k
  xref : ∀ v, v ≤ h.maxValue → h.crossrefs.get v = -1 ∨ ∃ k p, r.ent k = some p ∧ p.2 = v
  tree : ∀ j, 1 ≤ j → j < 2 ^ h.levels - 1 → NodeEq h.keys j

namespace Rep

variable {h : State K} {r : Row K}

theorem lt_of_some (R : Rep h r) {k p} (hk : r.ent k = some p) : k < r.n :=
  (R.row k).mp (by simp [hk])

theorem none_of_ge (R : Rep h r) {k} (hk : r.n ≤ k) : r.ent k = none := by
  rcases hc : r.ent k with _ | p
  · rfl
  · have := R.lt_of_some hc; omega

theorem some_of_lt (R : Rep h r) {k} (hk : k < r.n) : ∃ p, r.ent k = some p :=
  Option.isSome_iff_exists.mp ((R.row k).mpr hk)

theorem inj (R : Rep h r) {k k' p p'} (h1 : r.ent k = some p) (h2 : r.ent k' = some p')
    (he : p.2 = p'.2) : k = k' := by
  have a := (R.vals _ _ h1).2.2
  have b := (R.vals _ _ h2).2.2
  rw [he] at a
  rw [a] at b
  exact_mod_cast b

end Rep

/-- `growLevels` only grows. -/
theorem le_growLevels (c l : Nat) : l ≤ growLevels c l := by
  unfold growLevels
  split
  · exact le_trans (Nat.le_succ l) (le_growLevels c (l + 1))
  · exact le_refl l
termination_by c - 2 ^ l
decreasing_by
  have : 2 ^ l < 2 ^ (l + 1) := Nat.pow_lt_pow_right (by decide) (by omega)
  omega

/-- A fresh heap holds the empty row. -/
theorem rep_init {capacity maxValue : Int} {h : State K}
    (hi : initHeapData capacity maxValue = .ok h) :
    Rep h ⟨0, fun _ => none⟩ ∧ (h.maxValue : Int) = maxValue := by
  unfold initHeapData at hi
  split at hi
  · cases hi
  split at hi
  · cases hi
  · injection hi with hi
    subst hi
    constructor
    · constructor <;> simp [slotKey, NodeEq]
      exact le_growLevels _ _
    · simp; omega

/-- Resizing keeps the row. -/
theorem rep_resize {h : State K} {r : Row K} (nl : Nat)
    (lev1 : 1 ≤ h.minLevels) (lev2 : h.minLevels ≤ nl)
    (ksz : h.keys.size = 2 * 2 ^ h.levels) (vsz : h.values.size = 2 ^ h.levels)
    (csz : h.crossrefs.size = h.maxValue + 1) (cnt : h.count = r.n)
    (cap : r.n ≤ 2 ^ h.levels) (cap' : r.n ≤ 2 ^ nl)
    (row : ∀ k, (r.ent k).isSome = true ↔ k < r.n)
    (leaf : ∀ k, k < 2 ^ h.levels → h.keys.get (2 ^ h.levels - 1 + k) = slotKey (r.ent k))
    (vals : ∀ k p, r.ent k = some p →
      h.values.get k = p.2 ∧ p.2 ≤ h.maxValue ∧ h.crossrefs.get p.2 = k)
    (xref : ∀ v, v ≤ h.maxValue → h.crossrefs.get v = -1 ∨ ∃ k p, r.ent k = some p ∧ p.2 = v) :
    ∃ h', resizeLevels h nl = some h' ∧ Rep h' r ∧ h'.levels = nl ∧ h'.maxValue = h.maxValue ∧
      h'.minLevels = h.minLevels := by
  have hpow : 1 ≤ 2 ^ nl := Nat.one_le_two_pow
  have hpow' : 1 ≤ 2 ^ h.levels := Nat.one_le_two_pow
  -- content of the new arrays before sifting
  obtain ⟨nk, nv, hstep, hnks, hnvs, hnk, hnv⟩ : ∃ (nk : Arr K) (nv : Arr Int),
      resizeArrays h nl = some (nk, nv) ∧
      nk.size = 2 * 2 ^ nl ∧ nv.size = 2 ^ nl ∧
      (∀ k, k < 2 ^ nl → nk.get (2 ^ nl - 1 + k) = slotKey (r.ent k)) ∧
      (∀ k p, r.ent k = some p → nv.get k = p.2) := by
    by_cases hc : h.count = 0
    · have hr0 : r.n = 0 := by omega
      have hnone : ∀ k, r.ent k = none := by
        intro k
        rcases he : r.ent k with _ | p
        · rfl
        · have := (row k).mp (by simp [he]); omega
      refine ⟨_, _, by unfold resizeArrays; exact if_neg (not_not.mpr hc), rfl, rfl, ?_, ?_⟩
      · intro k _; simp [hnone, slotKey]
      · intro k p hk; rw [hnone] at hk; cases hk
    · have hm : min (2 ^ nl - 1) (2 ^ h.levels - 1) + 1 ≤ 2 ^ nl := by omega
      have hm' : min (2 ^ nl - 1) (2 ^ h.levels - 1) + 1 ≤ 2 ^ h.levels := by omega
      refine ⟨_, _, by
        unfold resizeArrays
        simp only
        rw [if_pos hc, Arr.copySlice_of_le (by simp only [Arr.full_size]; omega) (by omega),
          Arr.copySlice_of_le (by simp only [Arr.full_size]; omega) (by omega)]
        rfl, rfl, rfl, ?_, ?_⟩
      · intro k hk
        rw [Arr.blit_get]
        split
        · rw [show 2 ^ nl - 1 + k - (2 ^ nl - 1) = k by omega, leaf k (by omega)]
        · have : r.ent k = none := by
            rcases he : r.ent k with _ | p
            · rfl
            · have := (row k).mp (by simp [he]); omega
          rw [this]; rfl
      · intro k p hk
        have hkn : k < r.n := (row k).mp (by simp [hk])
        rw [Arr.blit_get, if_pos ⟨by omega, by omega⟩]
        simpa using (vals k p hk).1
  obtain ⟨ks, hks, hkss, hksl, hkst⟩ := siftAll_spec (L := nl) (keys := nk) (by omega) hnks
  refine ⟨{ h with keys := ks, values := nv, levels := nl }, ?_, ?_, rfl, rfl, rfl⟩
  · unfold resizeLevels
    rw [hstep]
    simp [hks]
  · exact { lev1 := lev1, lev2 := lev2, ksz := hkss, vsz := hnvs, csz := csz, cnt := cnt,
            cap := cap', row := row
            leaf := fun k hk => by rw [hksl _ (by simp only; omega)]; exact hnk k hk
            vals := fun k p hk => ⟨hnv k p hk, (vals k p hk).2⟩
            xref := xref, tree := hkst }

/-! ### Effect of the calls on the row -/

/-- Row with the key at position `i` replaced. -/
def Row.setKey (r : Row K) (i : Nat) (p : K × Nat) : Row K :=
  ⟨r.n, fun k => if k = i then some p else r.ent k⟩

/-- Row with an entry appended. -/
def Row.append (r : Row K) (p : K × Nat) : Row K :=
  ⟨r.n + 1, fun k => if k = r.n then some p else r.ent k⟩

/-- Row with entry `i` dropped; the last entry takes its place. -/
def Row.drop (r : Row K) (i : Nat) : Row K :=
  ⟨r.n - 1, fun k => if k = r.n - 1 then none else if k = i then r.ent (r.n - 1) else r.ent k⟩

/-- Overwriting the key of a stored value and sifting. -/
theorem rep_setKey {h : State K} {r : Row K} (R : Rep h r) {i : Nat} {p : K × Nat}
    (hi : r.ent i = some p) (key : K) :
    ∃ ks ks', h.keys.write (2 ^ h.levels - 1 + i) key = some ks ∧
      sift ks h.levels (2 ^ h.levels - 1 + i) = some ks' ∧
      Rep { h with keys := ks' } (r.setKey i (key, p.2)) := by
  have hin := R.lt_of_some hi
  have hcap := R.cap
  have hL : 1 ≤ h.levels := le_trans R.lev1 R.lev2
  have hpow : 1 ≤ 2 ^ h.levels := Nat.one_le_two_pow
  have hw : 2 ^ h.levels - 1 + i < h.keys.size := by rw [R.ksz]; omega
  obtain ⟨ks', h1, h2, h3, h4⟩ := sift_fix (K := K) (L := h.levels)
    (i := 2 ^ h.levels - 1 + i) (keys := h.keys.upd (2 ^ h.levels - 1 + i) key) (fun _ => False) hL
    (by omega) (by rw [pow_succ]; omega) (by simpa using R.ksz) (by
      intro j hj1 hj2 hj3
      left
      have := R.tree j hj1 hj2
      unfold NodeEq at *
      rw [Arr.upd_get_ne _ _ (by omega), Arr.upd_get_ne _ _ (by omega),
        Arr.upd_get_ne _ _ (by omega), this])
  refine ⟨_, ks', Arr.write_of_lt hw _, h1, ?_⟩
  refine { lev1 := R.lev1, lev2 := R.lev2, ksz := h2, vsz := R.vsz, csz := R.csz, cnt := R.cnt,
           cap := R.cap, row := ?_, leaf := ?_, vals := ?_, xref := ?_,
           tree := fun j a b => (h4 j a b).resolve_right id }
  · intro k
    simp only [Row.setKey]
    split
    · subst_vars; simpa using hin
    · exact R.row k
  · intro k hk
    simp only at hk ⊢
    rw [h3 _ (by omega), Arr.upd_get]
    simp only [Row.setKey]
    by_cases hki : k = i
    · subst hki; simp [slotKey]
    · rw [if_neg (by omega), if_neg hki]; exact R.leaf k hk
  · intro k q hk
    simp only [Row.setKey] at hk
    split at hk
    · rename_i hki
      injection hk with hk; subst hk; subst hki; exact R.vals _ p hi
    · exact R.vals _ _ hk
  · intro v hv
    rcases R.xref v hv with hx | ⟨k, q, hk, hq⟩
    · exact Or.inl hx
    · right
      by_cases hki : k = i
      · subst hki
        rw [hi] at hk; injection hk with hk; subst hk
        exact ⟨k, (key, p.2), by simp [Row.setKey], hq⟩
      · exact ⟨k, q, by simp [Row.setKey, hki, hk], hq⟩

/-- `_simple_push` appends. -/
theorem rep_simplePush {h : State K} {r : Row K} (R : Rep h r) (key : K) {v : Nat}
    (hv : v ≤ h.maxValue) (hnew : h.crossrefs.get v = -1) :
    ∃ h', simplePush h key v = some h' ∧ Rep h' (r.append (key, v)) ∧ h'.maxValue = h.maxValue := by
  -- after a possible growth there is room
  obtain ⟨g, hg, G, hroom, hmax, hcr⟩ : ∃ g, ensureRoom h = some g ∧ Rep g r ∧ r.n < 2 ^ g.levels ∧
      g.maxValue = h.maxValue ∧ g.crossrefs = h.crossrefs := by
    unfold ensureRoom
    by_cases hc : 2 ^ h.levels ≤ h.count
    · rw [if_pos hc]
      obtain ⟨g, g1, g2, g3, g4, g5⟩ := rep_resize (h := h) (r := r) (h.levels + 1) R.lev1
        (by have := R.lev2; omega) R.ksz R.vsz R.csz R.cnt R.cap
        (le_trans R.cap (Nat.pow_le_pow_right (by decide) (by omega))) R.row R.leaf R.vals R.xref
      refine ⟨g, g1, g2, ?_, g4, ?_⟩
      · rw [g3, pow_succ]
        have := R.cap
        have : 1 ≤ 2 ^ h.levels := Nat.one_le_two_pow
        omega
      · unfold resizeLevels at g1
        simp only [Option.bind_eq_bind, Option.bind_eq_some_iff, Option.pure_def,
          Option.some.injEq] at g1
        obtain ⟨_, _, _, _, rfl⟩ := g1
        rfl
    · rw [if_neg hc]
      exact ⟨h, rfl, R, by have := R.cnt; omega, rfl, rfl⟩
  have hL : 1 ≤ g.levels := le_trans G.lev1 G.lev2
  have hpow : 1 ≤ 2 ^ g.levels := Nat.one_le_two_pow
  have hw : 2 ^ g.levels - 1 + g.count < g.keys.size := by rw [G.ksz, G.cnt]; omega
  have hw2 : g.count < g.values.size := by rw [G.vsz, G.cnt]; omega
  have hw3 : v < g.crossrefs.size := by rw [G.csz, hmax]; omega
  obtain ⟨ks', h1, h2, h3, h4⟩ := sift_fix (K := K) (L := g.levels)
    (i := 2 ^ g.levels - 1 + g.count) (keys := g.keys.upd (2 ^ g.levels - 1 + g.count) key)
    (fun _ => False) hL
    (by omega) (by rw [pow_succ, G.cnt]; omega) (by simpa using G.ksz) (by
      intro j hj1 hj2 hj3
      left
      have := G.tree j hj1 hj2
      unfold NodeEq at *
      rw [Arr.upd_get_ne _ _ (by omega), Arr.upd_get_ne _ _ (by omega),
        Arr.upd_get_ne _ _ (by omega), this])
  have hend : r.ent r.n = none := G.none_of_ge (le_refl _)
  have hfresh : ∀ k q, r.ent k = some q → q.2 ≠ v := by
    rintro k q hk rfl
    have := (R.vals k q hk).2.2
    rw [hnew] at this
    omega
  refine ⟨{ g with keys := ks', values := g.values.upd g.count v
                   crossrefs := g.crossrefs.upd v g.count, count := g.count + 1 }, ?_, ?_, hmax⟩
  · unfold simplePush
    rw [hg]
    simp only [Option.bind_eq_bind, Option.bind_some, Arr.write_of_lt hw, Arr.write_of_lt hw2,
      Arr.write_of_lt hw3, h1, Option.pure_def]
  · refine { lev1 := G.lev1, lev2 := G.lev2, ksz := h2, vsz := by simpa using G.vsz,
             csz := by simpa using G.csz, cnt := by simp [Row.append, G.cnt],
             cap := by simp only [Row.append]; omega
             row := ?_, leaf := ?_, vals := ?_, xref := ?_,
             tree := fun j a b => (h4 j a b).resolve_right id }
    · intro k
      simp only [Row.append]
      split
      · simp; omega
      · rw [G.row k]; omega
    · intro k hk
      simp only at hk ⊢
      rw [h3 _ (by omega), Arr.upd_get, G.cnt]
      simp only [Row.append]
      by_cases hki : k = r.n
      · subst hki; simp [slotKey]
      · rw [if_neg (by omega), if_neg hki]; exact G.leaf k hk
    · intro k q hk
      simp only [Row.append] at hk
      simp only
      split at hk
      · rename_i hkn
        injection hk with hk; subst hk; subst hkn
        refine ⟨by rw [G.cnt]; simp, by omega, by simp [G.cnt]⟩
      · rename_i hkn
        have hG := G.vals k q hk
        rw [Arr.upd_get_ne _ _ (by rw [G.cnt]; exact hkn),
          Arr.upd_get_ne _ _ (hfresh k q hk)]
        exact hG
    · intro w hw'
      simp only at hw' ⊢
      by_cases hwv : w = v
      · right; exact ⟨r.n, (key, v), by simp [Row.append], hwv.symm⟩
      · rw [Arr.upd_get_ne _ _ hwv]
        rcases G.xref w hw' with hx | ⟨k, q, hk, hq⟩
        · exact Or.inl hx
        · right
          have : k ≠ r.n := by have := G.lt_of_some hk; omega
          exact ⟨k, q, by simp [Row.append, this, hk], hq⟩

/-- `_remove` drops the entry. -/
theorem rep_remove {h : State K} {r : Row K} (R : Rep h r) {i : Nat} (hi : i < r.n) :
    ∃ h', remove h (2 ^ h.levels - 1 + i) = some h' ∧ Rep h' (r.drop i) ∧
      h'.maxValue = h.maxValue := by
  have hcap := R.cap
  have hcnt := R.cnt
  have hL : 1 ≤ h.levels := le_trans R.lev1 R.lev2
  have hpow : 1 ≤ 2 ^ h.levels := Nat.one_le_two_pow
  obtain ⟨p, hp⟩ := R.some_of_lt hi
  obtain ⟨q, hq⟩ := R.some_of_lt (k := r.n - 1) (by omega)
  obtain ⟨vp, mp, xp⟩ := R.vals _ _ hp
  obtain ⟨vq, mq, xq⟩ := R.vals _ _ hq
  -- the state before sifting or resizing
  set keys1 := (h.keys.upd (2 ^ h.levels - 1 + i)
      (h.keys.get (2 ^ h.levels - 1 + h.count - 1))).upd (2 ^ h.levels - 1 + h.count - 1) ⊤ with hk1
  set vals1 := h.values.upd i q.2 with hv1
  set cr1 := (h.crossrefs.upd q.2 (i : Int)).upd p.2 (-1) with hc1
  set g : State K := { h with keys := keys1, values := vals1, crossrefs := cr1
                              count := h.count - 1 } with hg
  have hrow : ∀ k, ((r.drop i).ent k).isSome = true ↔ k < (r.drop i).n := by
    intro k
    simp only [Row.drop]
    split
    · simp; omega
    · split
      · rw [R.row]; omega
      · rw [R.row]; omega
  have hleaf : ∀ k, k < 2 ^ h.levels →
      keys1.get (2 ^ h.levels - 1 + k) = slotKey ((r.drop i).ent k) := by
    intro k hk
    rw [hk1]
    simp only [Row.drop]
    by_cases hkl : k = r.n - 1
    · rw [if_pos hkl, Arr.upd_get, if_pos (by omega)]; rfl
    · rw [if_neg hkl, Arr.upd_get_ne _ _ (by omega)]
      by_cases hki : k = i
      · rw [if_pos hki, hki, Arr.upd_get_self,
          show 2 ^ h.levels - 1 + h.count - 1 = 2 ^ h.levels - 1 + (r.n - 1) by omega]
        exact R.leaf _ (by omega)
      · rw [if_neg hki, Arr.upd_get_ne _ _ (by omega)]
        exact R.leaf k hk
  have hvals : ∀ k e, (r.drop i).ent k = some e →
      vals1.get k = e.2 ∧ e.2 ≤ h.maxValue ∧ cr1.get e.2 = k := by
    intro k e hke
    simp only [Row.drop] at hke
    by_cases hkl : k = r.n - 1
    · rw [if_pos hkl] at hke; cases hke
    · rw [if_neg hkl] at hke
      by_cases hki : k = i
      · rw [if_pos hki, hq] at hke
        injection hke with hke
        subst hke; subst hki
        have hne : q.2 ≠ p.2 := by
          intro he
          exact hkl (R.inj hp hq he.symm)
        refine ⟨by simp [hv1], mq, ?_⟩
        rw [hc1, Arr.upd_get_ne _ _ hne, Arr.upd_get_self]
      · rw [if_neg hki] at hke
        obtain ⟨a, b, c⟩ := R.vals _ _ hke
        refine ⟨by rw [hv1, Arr.upd_get_ne _ _ hki, a], b, ?_⟩
        have hn1 : e.2 ≠ p.2 := fun he => hki (R.inj hke hp he)
        have hn2 : e.2 ≠ q.2 := fun he => hkl (R.inj hke hq he)
        rw [hc1, Arr.upd_get_ne _ _ hn1, Arr.upd_get_ne _ _ hn2, c]
  have hxref : ∀ v, v ≤ h.maxValue →
      cr1.get v = -1 ∨ ∃ k e, (r.drop i).ent k = some e ∧ e.2 = v := by
    intro v hv
    rw [hc1]
    by_cases hvp : v = p.2
    · left; rw [hvp]; simp
    · rw [Arr.upd_get_ne _ _ hvp]
      by_cases hvq : v = q.2
      · right
        have hin : i ≠ r.n - 1 := by
          rintro he
          rw [he, hq] at hp
          injection hp with hp
          exact hvp (by rw [hvq, hp])
        exact ⟨i, q, by simp [Row.drop, hin, hq], hvq.symm⟩
      · rw [Arr.upd_get_ne _ _ hvq]
        rcases R.xref v hv with hx | ⟨k, e, hke, hev⟩
        · exact Or.inl hx
        · right
          have hk1' : k ≠ r.n - 1 := by
            rintro rfl
            rw [hq] at hke; injection hke with hke
            exact hvq (by rw [← hev, hke])
          have hk2' : k ≠ i := by
            rintro rfl
            rw [hp] at hke; injection hke with hke
            exact hvp (by rw [← hev, hke])
          exact ⟨k, e, by simp [Row.drop, hk1', hk2', hke], hev⟩
  have hr1 : h.count - 1 < h.values.size := by rw [R.vsz]; omega
  have hr2 : i < h.values.size := by rw [R.vsz]; omega
  have hr3 : q.2 < h.crossrefs.size := by rw [R.csz]; omega
  have hr4 : p.2 < (h.crossrefs.upd q.2 (i : Int)).size := by simp only [Arr.upd_size]; rw [R.csz]; omega
  have hr5 : 2 ^ h.levels - 1 + h.count - 1 < h.keys.size := by rw [R.ksz]; omega
  have hr6 : 2 ^ h.levels - 1 + i < h.keys.size := by rw [R.ksz]; omega
  have hr7 : 2 ^ h.levels - 1 + h.count - 1 < (h.keys.upd (2 ^ h.levels - 1 + i)
      (h.keys.get (2 ^ h.levels - 1 + h.count - 1))).size := by simpa using hr5
  have hvq' : h.values.get (h.count - 1) = (q.2 : Int) := by rw [hcnt]; exact vq
  have hidx : ∀ n : Nat, toIdx (n : Int) = some n := by intro n; simp [toIdx]
  have hprefix : remove h (2 ^ h.levels - 1 + i) =
      (if h.minLevels < h.levels ∧ h.count - 1 < 2 ^ (h.levels - 2) then
        resizeLevels g (h.levels - 1)
      else do
        let keys ← sift keys1 h.levels (2 ^ h.levels - 1 + i)
        let keys ← sift keys h.levels (2 ^ h.levels - 1 + h.count - 1)
        pure { g with keys := keys }) := by
    unfold remove
    simp only [show 2 ^ h.levels - 1 + i - (2 ^ h.levels - 1) = i by omega, Arr.read_of_lt hr1,
      Arr.read_of_lt hr2, hvq', vp, hidx, Option.bind_eq_bind, Option.bind_some,
      Arr.write_of_lt hr3, Arr.write_of_lt hr4, Arr.read_of_lt hr5, Arr.write_of_lt hr6,
      Arr.write_of_lt hr2, Arr.write_of_lt hr7]
    rfl
  rw [hprefix]
  by_cases hsh : h.minLevels < h.levels ∧ h.count - 1 < 2 ^ (h.levels - 2)
  · rw [if_pos hsh]
    have hle : 2 ^ (h.levels - 2) ≤ 2 ^ (h.levels - 1) := Nat.pow_le_pow_right (by decide) (by omega)
    have hl2 := R.lev2
    obtain ⟨g', g1, g2, g3, g4, g5⟩ := rep_resize (h := g) (r := r.drop i) (h.levels - 1) R.lev1
      (by have := hsh.1; simp only [hg]; omega) (by simpa [hg, hk1] using R.ksz)
      (by simpa [hg, hv1] using R.vsz) (by simpa [hg, hc1] using R.csz)
      (by simp [hg, Row.drop, hcnt]) (by simp only [hg, Row.drop]; omega)
      (by simp only [Row.drop]; omega) hrow hleaf hvals hxref
    exact ⟨g', g1, g2, g4⟩
  · rw [if_neg hsh]
    obtain ⟨k2, a1, a2, a3, a4⟩ := sift_fix (K := K) (L := h.levels)
      (i := 2 ^ h.levels - 1 + i) (keys := keys1)
      (fun j => j = (2 ^ h.levels - 1 + h.count - 1 - 1) / 2) hL
      (by omega) (by rw [pow_succ]; omega) (by simpa [hk1] using R.ksz) (by
        intro j hj1 hj2 hj3
        by_cases hjl : j = (2 ^ h.levels - 1 + h.count - 1 - 1) / 2
        · exact Or.inr hjl
        · left
          have := R.tree j hj1 hj2
          unfold NodeEq at *
          rw [hk1]
          rw [Arr.upd_get_ne _ _ (by omega), Arr.upd_get_ne _ _ (by omega),
            Arr.upd_get_ne _ _ (by omega), Arr.upd_get_ne _ _ (by omega),
            Arr.upd_get_ne _ _ (by omega), Arr.upd_get_ne _ _ (by omega), this])
    obtain ⟨k3, b1, b2, b3, b4⟩ := sift_fix (K := K) (L := h.levels)
      (i := 2 ^ h.levels - 1 + h.count - 1) (keys := k2) (fun _ => False) hL
      (by omega) (by rw [pow_succ]; omega) a2 (by
        intro j hj1 hj2 hj3
        rcases a4 j hj1 hj2 with h | h
        · exact Or.inl h
        · exact absurd h hj3)
    refine ⟨{ g with keys := k3 }, ?_, ?_, rfl⟩
    · simp [a1, b1]
    · refine { lev1 := R.lev1, lev2 := R.lev2, ksz := b2, vsz := by simpa [hg, hv1] using R.vsz
               csz := by simpa [hg, hc1] using R.csz, cnt := by simp [hg, Row.drop, hcnt],
               cap := by simp only [hg, Row.drop]; omega
               row := hrow, leaf := ?_, vals := hvals, xref := hxref,
               tree := fun j a b => (b4 j a b).resolve_right id }
      intro k hk
      simp only [hg] at hk ⊢
      rw [b3 _ (by omega), a3 _ (by omega)]
      exact hleaf k hk

/-- The leaf found by `pop`: leftmost among the minimal ones. -/
theorem pop_index {h : State K} {r : Row K} (R : Rep h r) :
    ∃ f i, trace h.keys (h.levels - 1) 1 = some f ∧ f < h.keys.size ∧ f + 1 < h.keys.size ∧
      i < 2 ^ h.levels ∧
      (if h.keys.get (f + 1) < h.keys.get f then f + 1 else f) = 2 ^ h.levels - 1 + i ∧
      (∀ k, slotKey (r.ent i) ≤ slotKey (r.ent k)) ∧
      (∀ k, k < i → slotKey (r.ent i) < slotKey (r.ent k)) := by
  have hL : 1 ≤ h.levels := le_trans R.lev1 R.lev2
  have hpow : 1 ≤ 2 ^ h.levels := Nat.one_le_two_pow
  have hd : 2 ^ h.levels = 2 * 2 ^ (h.levels - 1) := by rw [← pow_succ']; congr 1; omega
  have hd' : 2 ^ (h.levels + 1) = 2 * 2 ^ h.levels := by ring
  have hpd : 1 ≤ 2 ^ (h.levels - 1) := Nat.one_le_two_pow
  obtain ⟨f, f1, f2, f3, f4, f5⟩ := trace_spec R.ksz R.tree (h.levels - 1) 1 (le_refl _)
    (by rw [hd', hd]; omega)
  simp only [Nat.reduceAdd] at f2 f3 f4 f5
  rw [← hd] at f2 f3 f5
  -- every leaf is at least the overall minimum
  have hall : ∀ k, k < 2 ^ h.levels →
      min (h.keys.get 1) (h.keys.get 2) ≤ h.keys.get (2 ^ h.levels - 1 + k) := by
    intro k hk
    by_cases hkh : k < 2 ^ (h.levels - 1)
    · refine le_trans (min_le_left _ _) ?_
      have := node_le_leaf R.tree (h.levels - 1) 1 k (le_refl _) (by rw [hd', hd]; omega) hkh
      simp only [Nat.reduceAdd] at this
      rwa [← hd] at this
    · refine le_trans (min_le_right _ _) ?_
      have := node_le_leaf R.tree (h.levels - 1) 2 (k - 2 ^ (h.levels - 1)) (by omega)
        (by rw [hd', hd]; omega) (by omega)
      rwa [show (2 + 1) * 2 ^ (h.levels - 1) - 1 + (k - 2 ^ (h.levels - 1)) =
        2 ^ h.levels - 1 + k by omega] at this
  set F := (if h.keys.get (f + 1) < h.keys.get f then f + 1 else f) with hF
  have hFmin : h.keys.get F = min (h.keys.get 1) (h.keys.get 2) := by
    rw [← f4, hF]
    split
    · rename_i hlt; rw [min_eq_right hlt.le]
    · rename_i hlt; rw [min_eq_left (not_lt.mp hlt)]
  have hFlo : 2 ^ h.levels - 1 ≤ F := by rw [hF]; split <;> omega
  have hFhi : F < 2 ^ h.levels - 1 + 2 ^ h.levels := by rw [hF]; split <;> omega
  have hFbefore : ∀ t, 2 ^ h.levels - 1 ≤ t → t < F →
      min (h.keys.get 1) (h.keys.get 2) < h.keys.get t := by
    intro t ht1 ht2
    by_cases htf : t < f
    · exact f5 t ht1 htf
    · rw [hF] at ht2
      split at ht2
      · rename_i hlt
        have : t = f := by omega
        subst this
        rw [← f4, min_eq_right hlt.le]
        exact hlt
      · omega
  obtain ⟨i, hi⟩ : ∃ i, F = 2 ^ h.levels - 1 + i := ⟨F - (2 ^ h.levels - 1), by omega⟩
  have hi2 : i < 2 ^ h.levels := by omega
  refine ⟨f, i, f1, by rw [R.ksz]; omega, by rw [R.ksz]; omega, hi2, hi, ?_, ?_⟩
  · intro k
    by_cases hk : k < 2 ^ h.levels
    · rw [← R.leaf k hk, ← R.leaf i hi2, ← hi, hFmin]
      exact hall k hk
    · have : r.ent k = none := R.none_of_ge (by have := R.cap; omega)
      rw [this]; exact le_top
  · intro k hk
    rw [← R.leaf k (by omega), ← R.leaf i hi2, ← hi, hFmin]
    exact hFbefore _ (by omega) (by omega)

/-- Position of the entry that `pop` takes from a non-empty row. -/
def Row.IsFirstMin (r : Row K) (i : Nat) : Prop :=
  i < r.n ∧ (∀ k, slotKey (r.ent i) ≤ slotKey (r.ent k)) ∧
    (∀ k, k < i → slotKey (r.ent i) < slotKey (r.ent k))

theorem Row.IsFirstMin.unique {r : Row K} {i j : Nat} (hi : r.IsFirstMin i) (hj : r.IsFirstMin j) :
    i = j := by
  rcases Nat.lt_trichotomy i j with hlt | he | hlt
  · exact absurd (hi.2.1 j) (not_le.mpr (hj.2.2 i hlt))
  · exact he
  · exact absurd (hj.2.1 i) (not_le.mpr (hi.2.2 j hlt))

/-- `pop` on a non-empty heap. -/
theorem rep_pop {h : State K} {r : Row K} (R : Rep h r) (hne : 0 < r.n) :
    ∃ i p h', r.IsFirstMin i ∧ r.ent i = some p ∧
      pop h = some (h', p.1, (p.2 : Int)) ∧ Rep h' (r.drop i) ∧ h'.maxValue = h.maxValue := by
  obtain ⟨f, i, f1, f2, f3, hi, hF, hmin, hbef⟩ := pop_index R
  have hin : i < r.n := by
    by_contra hc
    have h0 := hbef 0 (by omega)
    rw [R.none_of_ge (by omega)] at h0
    exact absurd le_top (not_le.mpr h0)
  obtain ⟨p, hp⟩ := R.some_of_lt hin
  obtain ⟨h', hr, Rr, hm⟩ := rep_remove R hin
  have hpow : 1 ≤ 2 ^ h.levels := Nat.one_le_two_pow
  refine ⟨i, p, h', ⟨hin, hmin, hbef⟩, hp, ?_, Rr, hm⟩
  have hv : i < h.values.size := by rw [R.vsz]; omega
  have hk : 2 ^ h.levels - 1 + i < h.keys.size := by rw [R.ksz]; omega
  unfold pop
  simp only [f1, Option.bind_eq_bind, Option.bind_some, Arr.read_of_lt f2, Arr.read_of_lt f3, hF,
    Arr.read_of_lt hk, show 2 ^ h.levels - 1 + i - (2 ^ h.levels - 1) = i by omega,
    Arr.read_of_lt hv, if_pos (show 0 < h.count by rw [R.cnt]; exact hne), hr, Option.pure_def]
  rw [R.leaf i hi, hp, (R.vals i p hp).1]
  rfl

/-- `pop` on an empty heap changes nothing and reports key `inf`. -/
theorem rep_pop_empty {h : State K} {r : Row K} (R : Rep h r) (hne : r.n = 0) :
    ∃ v, pop h = some (h, ⊤, v) := by
  obtain ⟨f, i, f1, f2, f3, hi, hF, hmin, hbef⟩ := pop_index R
  have hpow : 1 ≤ 2 ^ h.levels := Nat.one_le_two_pow
  have hv : i < h.values.size := by rw [R.vsz]; omega
  have hk : 2 ^ h.levels - 1 + i < h.keys.size := by rw [R.ksz]; omega
  refine ⟨h.values.get i, ?_⟩
  unfold pop
  simp only [f1, Option.bind_eq_bind, Option.bind_some, Arr.read_of_lt f2, Arr.read_of_lt f3, hF,
    Arr.read_of_lt hk, show 2 ^ h.levels - 1 + i - (2 ^ h.levels - 1) = i by omega,
    Arr.read_of_lt hv, if_neg (show ¬ 0 < h.count by rw [R.cnt]; omega), Option.pure_def]
  rw [R.leaf i hi, R.none_of_ge (by omega)]
  rfl

/-- `push`. -/
theorem rep_push {h : State K} {r : Row K} (R : Rep h r) (key : K) (v : Int) :
    (¬ (0 ≤ v ∧ v ≤ h.maxValue) ∧ push h key v = some (h, -1)) ∨
    (∃ i p h', r.ent i = some p ∧ (p.2 : Int) = v ∧ push h key v = some (h', 0) ∧
      Rep h' (r.setKey i (key, p.2)) ∧ h'.maxValue = h.maxValue) ∨
    (∃ (n : Nat) (h' : State K), (n : Int) = v ∧ n ≤ h.maxValue ∧ (∀ k p, r.ent k = some p → p.2 ≠ n) ∧
      push h key v = some (h', 1) ∧ Rep h' (r.append (key, n)) ∧ h'.maxValue = h.maxValue) := by
  by_cases hv : 0 ≤ v ∧ v ≤ h.maxValue
  · right
    obtain ⟨n, rfl⟩ : ∃ n : Nat, v = n := ⟨v.toNat, by omega⟩
    have hn : n ≤ h.maxValue := by omega
    have hrd : n < h.crossrefs.size := by rw [R.csz]; omega
    rcases R.xref n hn with hx | ⟨i, p, hp, rfl⟩
    · right
      obtain ⟨h', h1, h2, h3⟩ := rep_simplePush R key hn hx
      refine ⟨n, h', rfl, hn, ?_, ?_, h2, h3⟩
      · rintro k p hk rfl
        have := (R.vals k p hk).2.2
        omega
      · unfold push
        simp [hn, Arr.read_of_lt hrd, hx, h1]
    · left
      obtain ⟨ks, ks', h1, h2, h3⟩ := rep_setKey R hp key
      refine ⟨i, p, { h with keys := ks' }, hp, rfl, ?_, h3, rfl⟩
      have hx := (R.vals i p hp).2.2
      unfold push
      simp [hn, Arr.read_of_lt hrd, hx, toIdx, h1, h2]
  · left
    exact ⟨hv, by unfold push; rw [if_pos hv]⟩

/-- `push_if_lower`. -/
theorem rep_pushIfLower {h : State K} {r : Row K} (R : Rep h r) (key : K) (v : Int) :
    (¬ (0 ≤ v ∧ v ≤ h.maxValue) ∧ pushIfLower h key v = some (h, -1)) ∨
    (∃ i p, r.ent i = some p ∧ (p.2 : Int) = v ∧ ¬ key < p.1 ∧ pushIfLower h key v = some (h, 0)) ∨
    (∃ i p h', r.ent i = some p ∧ (p.2 : Int) = v ∧ key < p.1 ∧
      pushIfLower h key v = some (h', 1) ∧
      Rep h' (r.setKey i (key, p.2)) ∧ h'.maxValue = h.maxValue) ∨
    (∃ (n : Nat) (h' : State K), (n : Int) = v ∧ n ≤ h.maxValue ∧ (∀ k p, r.ent k = some p → p.2 ≠ n) ∧
      pushIfLower h key v = some (h', 1) ∧ Rep h' (r.append (key, n)) ∧
      h'.maxValue = h.maxValue) := by
  by_cases hv : 0 ≤ v ∧ v ≤ h.maxValue
  · right
    obtain ⟨n, rfl⟩ : ∃ n : Nat, v = n := ⟨v.toNat, by omega⟩
    have hn : n ≤ h.maxValue := by omega
    have hrd : n < h.crossrefs.size := by rw [R.csz]; omega
    rcases R.xref n hn with hx | ⟨i, p, hp, rfl⟩
    · right; right
      obtain ⟨h', h1, h2, h3⟩ := rep_simplePush R key hn hx
      refine ⟨n, h', rfl, hn, ?_, ?_, h2, h3⟩
      · rintro k p hk rfl
        have := (R.vals k p hk).2.2
        omega
      · unfold pushIfLower
        simp [hn, Arr.read_of_lt hrd, hx, h1]
    · have hx := (R.vals i p hp).2.2
      have hin := R.lt_of_some hp
      have hcap := R.cap
      have hpow : 1 ≤ 2 ^ h.levels := Nat.one_le_two_pow
      have hk : 2 ^ h.levels - 1 + i < h.keys.size := by rw [R.ksz]; omega
      have hleaf : h.keys.get (2 ^ h.levels - 1 + i) = p.1 := by
        rw [R.leaf i (by omega), hp]; rfl
      have hne : ((i : Int) = -1) = False := by simp
      by_cases hlt : key < p.1
      · right; left
        obtain ⟨ks, ks', h1, h2, h3⟩ := rep_setKey R hp key
        refine ⟨i, p, { h with keys := ks' }, hp, rfl, hlt, ?_, h3, rfl⟩
        unfold pushIfLower
        simp [hn, Arr.read_of_lt hrd, hx, toIdx, h1, h2, Arr.read_of_lt hk, hleaf, hlt, hne]
      · left
        refine ⟨i, p, hp, rfl, hlt, ?_⟩
        unfold pushIfLower
        simp [hn, Arr.read_of_lt hrd, hx, toIdx, Arr.read_of_lt hk, hleaf, hlt, hne]
  · left
    exact ⟨hv, by unfold pushIfLower; rw [if_pos hv]⟩

end Verif.Heap
