import Verif.Trips.Choices

/-!
# C118: the laws of `reclassify` (`general.py:1338-1400`)

`reclassify` (C26) with dicts that are permuted, put one after another and inverted, with and without `unmapped_to_null`, and called again with the dict
that it changed.  The definitions are those of `Verif.Remap.Model`.
-/

set_option linter.unusedSectionVars false

namespace Verif.Trips.Dicts

open Verif Verif.Nulls Verif.Remap DType
open Verif.Nulls.Spec (MaskNeedsNull)
open Verif.Trips.Choices.Spec (cell)

namespace Spec

/-- The key of the dict is the number (NaN is no key). -/
def Hit (k : NullArg) (v : Num) : Prop := k.val = v ∧ v ≠ .nan

/-- What a cell becomes: null stays null, a key gets its value, other numbers stay or become null. -/
def Goes (flag : Bool) (t : Remapping) : Option Num → Option Num → Prop
  | none, w => w = none
  | some v, w => (∃ k x, (k, x) ∈ t ∧ Hit k v ∧ w = x.map (·.val)) ∨
      (∀ k x, (k, x) ∈ t → ¬ Hit k v) ∧ w = if flag then none else some v

/-- NumPy's conversions of the numbers involved lose nothing; a dict has each key once. -/
structure Casts (np : NumPy) (r : Raster) (t : Remapping) (newType : Option DType) (out : DType) : Prop where
  clean : MaskNeedsNull r
  dtype : reclassifyDtype r newType = some out
  dict : (t.map (·.1.val)).Nodup
  keys : ∀ kx ∈ t, np.cast (keyType t) kx.1.val = kx.1.val
  new : ∀ kx ∈ t, ∀ s, kx.2 = some s → np.cast (valueType (r.nv.getD (defaultNull out)) t) s.val = s.val ∧ np.cast out s.val = s.val
  null : np.cast out (r.nv.getD (defaultNull out)).val = (r.nv.getD (defaultNull out)).val
  null' : (∃ kx ∈ t, kx.2 = none) → np.cast (valueType (r.nv.getD (defaultNull out)) t) (r.nv.getD (defaultNull out)).val = (r.nv.getD (defaultNull out)).val
  cells : ∀ c, np.cast (keyType t) (r.data c) = r.data c ∧ np.cast out (r.data c) = r.data c

/-- As before, and if the result has a null value it is not among the numbers. -/
structure Exact (np : NumPy) (r : Raster) (t : Remapping) (newType : Option DType) (flag : Bool) (out : DType) : Prop extends Casts np r t newType out where
  free : (r.masked = true ∨ flag = true ∨ ∃ kx ∈ t, kx.2 = none) →
    (∀ kx ∈ t, ∀ s, kx.2 = some s → s.val ≠ (r.nv.getD (defaultNull out)).val) ∧
      (flag = false → ∀ c, r.mask c = false → r.data c ≠ (r.nv.getD (defaultNull out)).val)

/-- The first dict followed by the second: keys of the first get what the second makes of their values, other keys of the second their values. -/
structure Joined (flag : Bool) (t t' u : Remapping) : Prop where
  sound : ∀ k y, (k, y) ∈ u → (∃ k' x, (k', x) ∈ t ∧ k'.val = k.val ∧ Goes flag t' (x.map (·.val)) (y.map (·.val))) ∨
    ((∀ k' x, (k', x) ∈ t → k'.val ≠ k.val) ∧ (∃ k' x, (k', x) ∈ t' ∧ k'.val = k.val ∧ y.map (·.val) = x.map (·.val)))
  complete : ∀ k x, (k, x) ∈ t ∨ (k, x) ∈ t' → ∃ k' y, (k', y) ∈ u ∧ k'.val = k.val

/-- The dict read backwards. -/
structure Backwards (t u : Remapping) : Prop where
  sound : ∀ k y, (k, y) ∈ u → ∃ k' s, (k', some s) ∈ t ∧ k.val = s.val ∧ y.map (·.val) = some k'.val
  complete : ∀ k x, (k, x) ∈ t → ∃ s k' y, x = some s ∧ (k', y) ∈ u ∧ k'.val = s.val ∧ y.map (·.val) = some k.val

end Spec

open Spec

theorem hit_iff (k : NullArg) (v : Num) : k.val.eq v = true ↔ Hit k v := by
  rw [Num.eq_iff]
  unfold Hit
  constructor
  · rintro ⟨h1, h2⟩
    exact ⟨h1, h1 ▸ h2⟩
  · rintro ⟨h1, h2⟩
    exact ⟨h1, h1 ▸ h2⟩

section

variable {np : NumPy} {r o p : Raster} {t t' u after after' : Remapping} {nt nt' : Option DType} {flag flag' : Bool} {out out' : DType}

theorem same_entry (hd : (t.map (·.1.val)).Nodup) {k k' : NullArg} {x x' : Option Scalar} (h : (k, x) ∈ t) (h' : (k', x') ∈ t) (e : k.val = k'.val) :
    x = x' := by
  induction t with
  | nil => cases h
  | cons a t ih =>
    rw [List.map_cons, List.nodup_cons] at hd
    rcases List.mem_cons.1 h with h | h <;> rcases List.mem_cons.1 h' with h' | h'
    · rw [← h'] at h
      cases h
      rfl
    · exact absurd (List.mem_map.2 ⟨_, h', by rw [← h]; exact e.symm⟩) hd.1
    · exact absurd (List.mem_map.2 ⟨_, h, by rw [← h']; exact e⟩) hd.1
    · exact ih hd.2 h h'

theorem goes_unique (hd : (t.map (·.1.val)).Nodup) {v w w' : Option Num} (h : Goes flag t v w) (h' : Goes flag t v w') : w = w' := by
  cases v with
  | none => exact Eq.trans h (Eq.symm h')
  | some v =>
    rcases h with ⟨k, x, h1, h2, h3⟩ | ⟨h1, h2⟩ <;> rcases h' with ⟨k', x', k1, k2, k3⟩ | ⟨k1, k2⟩
    · rw [h3, k3, same_entry hd h1 k1 (h2.1.trans k2.1.symm)]
    · exact absurd h2 (k1 k x h1)
    · exact absurd k2 (h1 k' x' k1)
    · rw [h2, k2]

/-- **C118 (cells).**  The cells of the result of `reclassify`. -/
theorem C118_cells (hex : Exact np r t nt flag out) (h : reclassify np r t nt flag = .ok (o, after)) (c : Cell) : Goes flag t (cell r c) (cell o c) := by
  obtain ⟨-, h2, h3, h4⟩ := C26_reclassify hex.clean hex.dtype hex.keys hex.new hex.null hex.null' hex.dict h (hex.cells c).1 (hex.cells c).2
  have hfree : ∀ n, o.nv = some n → n.val = (r.nv.getD (defaultNull out)).val ∧ (r.masked = true ∨ flag = true ∨ ∃ kx ∈ t, kx.2 = none) := by
    intro n hn
    rw [h2] at hn
    split at hn
    · next hc =>
      cases hn
      exact ⟨rfl, hc⟩
    · cases hn
  cases hm : r.mask c with
  | true =>
    have e1 : cell r c = none := by unfold cell; rw [hm]; rfl
    have e2 : cell o c = none := by unfold cell; rw [h3 hm]; rfl
    rw [e1, e2]
    rfl
  | false =>
    obtain ⟨h5, h6⟩ := h4 hm
    have e1 : cell r c = some (r.data c) := by unfold cell; rw [hm]; rfl
    rw [e1]
    by_cases hin : ∃ k x, (k, x) ∈ t ∧ Hit k (r.data c)
    · obtain ⟨k, x, hk, hh⟩ := hin
      obtain ⟨g1, g2⟩ := h5 k x hk ((hit_iff _ _).2 hh)
      refine .inl ⟨k, x, hk, hh, ?_⟩
      cases x with
      | none =>
        unfold cell
        rw [g1 rfl]
        rfl
      | some s =>
        obtain ⟨g3, g4⟩ := g2 s rfl
        have : o.mask c = false := by
          by_contra e
          rw [Bool.not_eq_false] at e
          obtain ⟨n, hn, hv⟩ := g4.1 e
          obtain ⟨e1, e2⟩ := hfree n hn
          exact (hex.free e2).1 _ hk s rfl (hv.symm.trans e1)
        unfold cell
        rw [this, g3]
        rfl
    · have hno : ∀ k x, (k, x) ∈ t → ¬ Hit k (r.data c) := fun k x hk hh => hin ⟨k, x, hk, hh⟩
      obtain ⟨g1, g2⟩ := h6 fun k x hk => by
        rw [← Bool.not_eq_true, hit_iff]
        exact hno k x hk
      refine .inr ⟨hno, ?_⟩
      cases flag with
      | true =>
        unfold cell
        rw [g1 rfl]
        rfl
      | false =>
        obtain ⟨g3, g4⟩ := g2 rfl
        have : o.mask c = false := by
          by_contra e
          rw [Bool.not_eq_false] at e
          obtain ⟨n, hn, hv⟩ := g4.1 e
          obtain ⟨e1, e2⟩ := hfree n hn
          exact (hex.free e2).2 rfl c hm (hv.symm.trans e1)
        unfold cell
        rw [this, g3]

/-- **C118 (order).**  The order of the dict does not matter. -/
theorem C118_order (hperm : t.Perm t') (hex : Exact np r t nt flag out) (hex' : Exact np r t' nt' flag out')
    (ho : reclassify np r t nt flag = .ok (o, after)) (hp : reclassify np r t' nt' flag = .ok (p, after')) (c : Cell) : cell o c = cell p c := by
  have h1 := C118_cells hex ho c
  have h2 := C118_cells hex' hp c
  refine goes_unique hex'.dict ?_ h2
  cases hc : cell r c with
  | none =>
    rw [hc] at h1
    exact h1
  | some v =>
    rw [hc] at h1
    rcases h1 with ⟨k, x, g1, g2, g3⟩ | ⟨g1, g2⟩
    · exact .inl ⟨k, x, hperm.mem_iff.1 g1, g2, g3⟩
    · exact .inr ⟨fun k x hk => g1 k x (hperm.mem_iff.2 hk), g2⟩

/-- **C118 (unmapped).**  With `unmapped_to_null` the keys get the same values, and all other cells are null. -/
theorem C118_unmapped (hex : Exact np r t nt false out) (hex' : Exact np r t nt' true out')
    (ho : reclassify np r t nt false = .ok (o, after)) (hp : reclassify np r t nt' true = .ok (p, after')) (c : Cell) :
    (∀ v, cell r c = some v → (∃ k x, (k, x) ∈ t ∧ Hit k v) → cell p c = cell o c) ∧
    ((∀ v, cell r c = some v → ∀ k x, (k, x) ∈ t → ¬ Hit k v) → cell p c = none ∧ cell o c = cell r c) := by
  have h1 := C118_cells hex ho c
  have h2 := C118_cells hex' hp c
  refine ⟨?_, ?_⟩
  · rintro v hv ⟨k, x, hk, hh⟩
    rw [hv] at h1 h2
    have e1 := goes_unique hex.dict h1 (.inl ⟨k, x, hk, hh, rfl⟩)
    have e2 := goes_unique hex.dict h2 (.inl ⟨k, x, hk, hh, rfl⟩)
    rw [e1, e2]
  · intro hno
    cases hc : cell r c with
    | none =>
      rw [hc] at h1 h2
      exact ⟨h2, h1⟩
    | some v =>
      rw [hc] at h1 h2
      exact ⟨goes_unique hex.dict h2 (.inr ⟨hno v hc, rfl⟩), goes_unique hex.dict h1 (.inr ⟨hno v hc, rfl⟩)⟩

/-- **C118 (one after another).**  Reclassifying the result of `reclassify` is one `reclassify` with the first dict followed by the second. -/
theorem C118_after {i : Raster} {nt₁ : Option DType} {out₁ : DType} {after₁ : Remapping} (hj : Joined flag t t' u) (hex : Exact np r t nt false out) (hex' : Exact np i t' nt' flag out')
    (hex'' : Exact np r u nt₁ flag out₁) (hi : reclassify np r t nt false = .ok (i, after)) (ho : reclassify np i t' nt' flag = .ok (o, after'))
    (hp : reclassify np r u nt₁ flag = .ok (p, after₁)) (c : Cell) : cell o c = cell p c := by
  have h1 := C118_cells hex hi c
  have h2 := C118_cells hex' ho c
  have h3 := C118_cells hex'' hp c
  cases hc : cell r c with
  | none =>
    rw [hc] at h1 h3
    have h1 : cell i c = none := h1
    rw [h1] at h2
    exact Eq.trans h2 (Eq.symm h3)
  | some v =>
    rw [hc] at h1 h3
    rcases h3 with ⟨k, y, g1, g2, g3⟩ | ⟨g1, g2⟩
    · rw [g3]
      rcases hj.sound k y g1 with ⟨k', x, m1, m2, m3⟩ | ⟨m1, k', x, m2, m3, m4⟩
      · have e : cell i c = x.map (·.val) := goes_unique hex.dict h1 (.inl ⟨k', x, m1, ⟨m2.trans g2.1, g2.2⟩, rfl⟩)
        rw [e] at h2
        exact goes_unique hex'.dict h2 m3
      · have e : cell i c = some v := goes_unique hex.dict h1 (.inr ⟨fun k'' x'' hk'' hh => m1 k'' x'' hk'' (hh.1.trans g2.1.symm), rfl⟩)
        rw [e] at h2
        rw [m4]
        exact goes_unique hex'.dict h2 (.inl ⟨k', x, m2, ⟨m3.trans g2.1, g2.2⟩, rfl⟩)
    · have hno : ∀ k x, (k, x) ∈ t ∨ (k, x) ∈ t' → ¬ Hit k v := by
        intro k x hk hh
        obtain ⟨k', y, m1, m2⟩ := hj.complete k x hk
        exact g1 k' y m1 ⟨m2.trans hh.1, hh.2⟩
      have e : cell i c = some v := goes_unique hex.dict h1 (.inr ⟨fun k x hk => hno k x (.inl hk), rfl⟩)
      rw [e] at h2
      rw [g2]
      exact goes_unique hex'.dict h2 (.inr ⟨fun k x hk => hno k x (.inr hk), rfl⟩)

/-- **C118 (backwards).**  If different keys have different values and no other cell has one of the values, the dict read backwards gives the raster
back. -/
theorem C118_backwards {i : Raster} (hb : Backwards t u) (hnan : ∀ k x, (k, x) ∈ t → ∀ s, x = some s → s.val ≠ .nan)
    (hother : ∀ c v, cell r c = some v → (∀ k x, (k, x) ∈ t → ¬ Hit k v) → ∀ k s, (k, some s) ∈ t → s.val ≠ v)
    (hex : Exact np r t nt false out) (hex' : Exact np i u nt' false out') (hi : reclassify np r t nt false = .ok (i, after))
    (ho : reclassify np i u nt' false = .ok (o, after')) (c : Cell) : cell o c = cell r c := by
  have h1 := C118_cells hex hi c
  have h2 := C118_cells hex' ho c
  cases hc : cell r c with
  | none =>
    rw [hc] at h1
    have h1 : cell i c = none := h1
    rw [h1] at h2
    exact h2
  | some v =>
    rw [hc] at h1
    rcases h1 with ⟨k, x, g1, g2, g3⟩ | ⟨g1, g2⟩
    · obtain ⟨s, k', y, rfl, m1, m2, m3⟩ := hb.complete k x g1
      rw [g3] at h2
      rw [goes_unique hex'.dict h2 (.inl ⟨k', y, m1, ⟨m2, hnan k _ g1 s rfl⟩, rfl⟩), m3, g2.1]
    · rw [g2] at h2
      refine goes_unique hex'.dict h2 (.inr ⟨?_, rfl⟩)
      intro k y hk hh
      obtain ⟨k', s, n1, n2, -⟩ := hb.sound k y hk
      exact hother c v hc g1 k' s n1 (n2.symm.trans hh.1)

/-- **C118 (changed dict).**  For a raster with a null value, a second call with the dict as the first call left it gives the same cells. -/
theorem C118_changed_dict (hnv : r.nv ≠ none) (hex : Casts np r t nt out) (ho : reclassify np r t nt flag = .ok (o, after)) (hex' : Casts np r after nt out)
    (hp : reclassify np r after nt flag = .ok (p, after')) (c : Cell) : cell p c = cell o c := by
  obtain ⟨n, hn⟩ := Option.ne_none_iff_exists'.1 hnv
  have hr : r.masked = true := by unfold Raster.masked; rw [hn]; rfl
  obtain ⟨-, h2, h3, h4⟩ := C26_reclassify hex.clean hex.dtype hex.keys hex.new hex.null hex.null' hex.dict ho (hex.cells c).1 (hex.cells c).2
  obtain ⟨-, k2, k3, k4⟩ := C26_reclassify hex'.clean hex'.dtype hex'.keys hex'.new hex'.null hex'.null' hex'.dict hp (hex'.cells c).1 (hex'.cells c).2
  rw [if_pos (.inl hr), hn] at h2 k2
  have hafter : after = t.map fun kx => (kx.1, some (kx.2.getD n)) := by
    unfold reclassify at ho
    rw [hex.dtype] at ho
    simp only [Except.ok.injEq, Prod.mk.injEq] at ho
    rw [← ho.2, hn]
    rfl
  have hmem : ∀ k x, (k, x) ∈ t → (k, some (x.getD n)) ∈ after := by
    intro k x hk
    rw [hafter]
    exact List.mem_map.2 ⟨_, hk, rfl⟩
  have hback : ∀ k y, (k, y) ∈ after → ∃ x, (k, x) ∈ t := by
    intro k y hk
    rw [hafter] at hk
    obtain ⟨⟨k', x⟩, hx, e⟩ := List.mem_map.1 hk
    cases e
    exact ⟨_, hx⟩
  unfold cell
  cases hm : r.mask c with
  | true => rw [h3 hm, k3 hm]; rfl
  | false =>
    obtain ⟨h5, h6⟩ := h4 hm
    obtain ⟨k5, k6⟩ := k4 hm
    by_cases hin : ∃ k x, (k, x) ∈ t ∧ Hit k (r.data c)
    · obtain ⟨k, x, hk, hh⟩ := hin
      obtain ⟨g1, g2⟩ := h5 k x hk ((hit_iff _ _).2 hh)
      obtain ⟨-, m2⟩ := k5 k _ (hmem k x hk) ((hit_iff _ _).2 hh)
      obtain ⟨m3, m4⟩ := m2 _ rfl
      cases x with
      | none =>
        rw [g1 rfl, m4.2 ⟨n, k2, rfl⟩]
        rfl
      | some s =>
        obtain ⟨g3, g4⟩ := g2 s rfl
        have e : p.mask c = o.mask c := by
          rw [Bool.eq_iff_iff, m4, g4, h2, k2]
          rfl
        rw [e, m3, g3]
        rfl
    · have hno : ∀ k x, (k, x) ∈ t → k.val.eq (r.data c) = false := fun k x hk => by
        rw [← Bool.not_eq_true, hit_iff]
        exact fun hh => hin ⟨k, x, hk, hh⟩
      obtain ⟨g1, g2⟩ := h6 hno
      obtain ⟨m1, m2⟩ := k6 fun k y hk => (hback k y hk).elim fun x hx => hno k x hx
      cases flag with
      | true => rw [g1 rfl, m1 rfl]; rfl
      | false =>
        obtain ⟨g3, g4⟩ := g2 rfl
        obtain ⟨m3, m4⟩ := m2 rfl
        have e : p.mask c = o.mask c := by
          rw [Bool.eq_iff_iff, m4, g4, h2, k2]
        rw [e, m3, g3]

end

/-! ### Examples -/

section

open Verif.Trips.Choices (exR exRow exCells given_exR)

/-- The raster 7, null, 9, 4 with the null value -1 and dicts whose values are not -1. -/
theorem exact_exR {t : Remapping} {flag : Bool} (hd : (t.map (·.1.val)).Nodup) (hn : ∀ kx ∈ t, ∀ s, kx.2 = some s → s.val ≠ .fin (-1)) :
    Exact (idNumPy false) exR t none flag i32 := by
  refine ⟨⟨fun _ _ => by simp [exR, exRow], rfl, hd, fun _ _ => rfl, fun _ _ _ _ => ⟨rfl, rfl⟩, rfl, fun _ => rfl, fun _ => ⟨rfl, rfl⟩⟩, fun _ => ⟨hn, fun _ c hm => ?_⟩⟩
  have := given_exR c (exR.data c) (by
    change (if exR.mask c then none else some (exR.data c)) = _
    rw [hm]
    rfl)
  revert this
  generalize exR.data c = v
  intro h e
  change v = .fin (-1) at e
  subst e
  revert h
  decide +kernel

def exT : Remapping := [(.int 7, some ⟨i64, .fin 20⟩), (.int 4, none)]
def exU : Remapping := [(.int 20, some ⟨i64, .fin 4⟩), (.int 9, some ⟨i64, .fin 1⟩)]
def exTU : Remapping := [(.int 9, some ⟨i64, .fin 1⟩), (.int 4, none), (.int 20, some ⟨i64, .fin 4⟩), (.int 7, some ⟨i64, .fin 4⟩)]

/-- `reclassify` of a result. -/
def exRun (r : Except Err Raster) (t : Remapping) (flag : Bool) : Except Err Raster :=
  match r with
  | .error e => .error e
  | .ok r => match reclassify (idNumPy false) r t none flag with
    | .error e => .error e
    | .ok (o, _) => .ok o

example : Exact (idNumPy false) exR exT none false i32 ∧ Exact (idNumPy false) exR exT none true i32 ∧ Exact (idNumPy false) exR exT.reverse none false i32 ∧
    Exact (idNumPy false) exR exTU none false i32 ∧
    exCells (exRun (.ok exR) exT false) = some [some (.fin 20), none, some (.fin 9), none] ∧
    exCells (exRun (.ok exR) exT.reverse false) = some [some (.fin 20), none, some (.fin 9), none] ∧
    exCells (exRun (.ok exR) exT true) = some [some (.fin 20), none, none, none] ∧
    exCells (exRun (exRun (.ok exR) exT false) exU false) = some [some (.fin 4), none, some (.fin 1), none] ∧
    exCells (exRun (.ok exR) exTU false) = some [some (.fin 4), none, some (.fin 1), none] :=
  ⟨exact_exR (by decide +kernel) (by decide +kernel), exact_exR (by decide +kernel) (by decide +kernel), exact_exR (by decide +kernel) (by decide +kernel),
    exact_exR (by decide +kernel) (by decide +kernel), by decide +kernel, by decide +kernel, by decide +kernel, by decide +kernel, by decide +kernel⟩

example : Joined false exT exU exTU := by
  constructor
  · intro k y h
    simp only [exTU, List.mem_cons, Prod.mk.injEq, List.not_mem_nil, or_false] at h
    rcases h with ⟨rfl, rfl⟩ | ⟨rfl, rfl⟩ | ⟨rfl, rfl⟩ | ⟨rfl, rfl⟩
    · exact .inr ⟨fun k x h => (by decide +kernel : ∀ kx ∈ exT, kx.1.val ≠ .fin 9) (k, x) h, .int 9, _, .tail _ (.head _), rfl, rfl⟩
    · exact .inl ⟨.int 4, none, .tail _ (.head _), rfl, rfl⟩
    · exact .inr ⟨fun k x h => (by decide +kernel : ∀ kx ∈ exT, kx.1.val ≠ .fin 20) (k, x) h, .int 20, _, .head _, rfl, rfl⟩
    · exact .inl ⟨.int 7, _, .head _, rfl, .inl ⟨.int 20, _, .head _, ⟨rfl, by decide +kernel⟩, rfl⟩⟩
  · intro k x h
    simp only [exT, exU, List.mem_cons, Prod.mk.injEq, List.not_mem_nil, or_false] at h
    rcases h with (⟨rfl, rfl⟩ | ⟨rfl, rfl⟩) | ⟨rfl, rfl⟩ | ⟨rfl, rfl⟩
    · exact ⟨.int 7, _, .tail _ (.tail _ (.tail _ (.head _))), rfl⟩
    · exact ⟨.int 4, _, .tail _ (.head _), rfl⟩
    · exact ⟨.int 20, _, .tail _ (.tail _ (.head _)), rfl⟩
    · exact ⟨.int 9, _, .head _, rfl⟩

/-- The keys 7 and 4 change places, and are put back. -/
def exSwap : Remapping := [(.int 7, some ⟨i64, .fin 4⟩), (.int 4, some ⟨i64, .fin 7⟩)]

example : Backwards exSwap exSwap ∧ exCells (exRun (.ok exR) exSwap false) = some [some (.fin 4), none, some (.fin 9), some (.fin 7)] ∧
    exCells (exRun (exRun (.ok exR) exSwap false) exSwap false) = exCells (.ok exR) := by
  refine ⟨⟨?_, ?_⟩, by decide +kernel, by decide +kernel⟩
  · intro k y h
    simp only [exSwap, List.mem_cons, Prod.mk.injEq, List.not_mem_nil, or_false] at h
    rcases h with ⟨rfl, rfl⟩ | ⟨rfl, rfl⟩
    · exact ⟨.int 4, _, .tail _ (.head _), rfl, rfl⟩
    · exact ⟨.int 7, _, .head _, rfl, rfl⟩
  · intro k x h
    simp only [exSwap, List.mem_cons, Prod.mk.injEq, List.not_mem_nil, or_false] at h
    rcases h with ⟨rfl, rfl⟩ | ⟨rfl, rfl⟩
    · exact ⟨_, .int 4, _, rfl, .tail _ (.head _), rfl, rfl⟩
    · exact ⟨_, .int 7, _, rfl, .head _, rfl, rfl⟩

/-- With `unmapped_to_null` in the first call the joined dict would be another one: 9 is null already. -/
example : exCells (exRun (exRun (.ok exR) exT true) exU false) = some [some (.fin 4), none, none, none] := by decide +kernel

/-- Without a null value the second call with the changed dict gives a raster without null cells. -/
example : let r := exRow i32 [.fin 7, .fin 3, .fin 9, .fin 4] [false, false, false, false] none
    ∃ o after p after', reclassify (idNumPy false) r exT none false = .ok (o, after) ∧ reclassify (idNumPy false) r after none false = .ok (p, after') ∧
      cell o ⟨0, 0, 3⟩ = none ∧ cell p ⟨0, 0, 3⟩ ≠ none := by
  refine ⟨_, _, _, _, rfl, rfl, by decide +kernel, by decide +kernel⟩

example : ∃ o after p after', reclassify (idNumPy false) exR exT none false = .ok (o, after) ∧ reclassify (idNumPy false) exR after none false = .ok (p, after') ∧
    after ≠ exT ∧ Casts (idNumPy false) exR after none i32 ∧ exCells (.ok o) = exCells (.ok p) := by
  refine ⟨_, _, _, _, rfl, rfl, by decide +kernel, ⟨fun _ _ => by simp [exR, exRow], rfl, by decide +kernel, fun _ _ => rfl, fun _ _ _ _ => ⟨rfl, rfl⟩, rfl, fun _ => rfl,
    fun _ => ⟨rfl, rfl⟩⟩, by decide +kernel⟩

end

end Verif.Trips.Dicts
