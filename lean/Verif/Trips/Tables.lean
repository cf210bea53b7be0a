import Verif.Remap.Props

set_option linter.unusedSectionVars false

/-!
# C103: `remap_range` with ranges of one number, and `reclassify`

`remap_range` (`general.py:1034-1124`, C25) with the ranges `(k, k + 1, v)` and `reclassify` (`general.py:1338-1400`, C26)
with the dict `{k: v}` on a raster of whole numbers.
-/

namespace Verif.Trips.Tables

open Verif Verif.Nulls Verif.Remap DType
open Verif.Remap.Spec

namespace Spec

/-- A table: whole numbers, each with a new value or `None`. -/
abbrev Table := List (Int × Option NullArg)

/-- The ranges `(k, k + 1, v)`. -/
def ranges (t : Table) : List Mapping := t.map fun kv => ⟨.int kv.1, .int (kv.1 + 1), kv.2⟩

/-- The list of tuples that is passed to `remap_range`. -/
def tuples (t : Table) : MappingArg := .list ((ranges t).map fun m => .seq (written m))

/-- The dict `{k: v}` that is passed to `reclassify`. -/
def dict (t : Table) : Remapping := t.map fun kv => (.int kv.1, kv.2.map fun a => ⟨arrayType a, a.val⟩)

/-- `general.py:1366-1371`: the dtype `get_common_dtype` gives for the new values, if there are any. -/
def dictType (np : NumPy) (t : Table) : Option DType :=
  match t.filterMap (·.2) with
  | [] => none
  | vs => commonDtype (vs.map (·.item np))

/-- The dtype in which `remap_range` computes (`general.py:1089`). -/
def work (out : DType) : DType := if out = f16 then f32 else out

/-- The dtypes hold the number. -/
def Kept (np : NumPy) (dts : List DType) (v : Num) : Prop := ∀ d ∈ dts, np.cast d v = v

/-- NumPy's conversions of the numbers involved to the dtypes involved lose nothing. -/
structure Exact (np : NumPy) (r : Raster) (t : Table) (out : DType) : Prop where
  cells : ∀ c, Kept np [r.dtype, work out, out, keyType (dict t)] (r.data c)
  keys : ∀ kv ∈ t, Kept np [keyType (dict t), boundsType (ranges t)] (.fin kv.1) ∧
    Kept np [boundsType (ranges t)] (.fin (kv.1 + 1))
  new : ∀ kv ∈ t, ∀ a, kv.2 = some a →
    Kept np [valueType (r.nv.getD (defaultNull out)) (dict t), work out, out] a.val
  null : Kept np [valueType (r.nv.getD (defaultNull out)) (dict t), work out, out] (r.nv.getD (defaultNull out)).val

end Spec

open Spec

/-! ### Dtypes -/

theorem promote_self (d : DType) : d.promote d = some d := by cases d <;> rfl

theorem promote_comm (a b : DType) : a.promote b = b.promote a := by cases a <;> cases b <;> rfl

theorem news (t : Table) : (ranges t).filterMap (·.new) = t.filterMap (·.2) := by
  simp [ranges, List.filterMap_map, Function.comp_def]

theorem same_dtype {np : NumPy} (r : Raster) {t : Table} (h : t.filterMap (·.2) ≠ [] → dictType np t ≠ none) :
    ∃ out, remapDtype np r (ranges t) = some out ∧ reclassifyDtype r (dictType np t) = some out := by
  unfold remapDtype
  unfold dictType at h ⊢
  rw [news]
  cases hv : t.filterMap (·.2) with
  | nil => exact ⟨_, promote_self _, rfl⟩
  | cons v vs =>
    rw [hv] at h
    cases hd : commonDtype ((v :: vs).map (·.item np)) with
    | none => exact absurd hd (h (by simp))
    | some d =>
      obtain ⟨e, he, -⟩ := promote_spec r.dtype d
      refine ⟨e, ?_, ?_⟩
      · show (commonDtype ((v :: vs).map (·.item np))).bind (fun d => r.dtype.promote d) = some e
        rw [hd]
        exact he
      · show reclassifyDtype r (commonDtype ((v :: vs).map (·.item np))) = some e
        rw [hd, ← he]
        exact promote_comm _ _

theorem newType_eq {r : Raster} {t : Table} {out : DType} :
    newType (ranges t) (remapNull r (ranges t) out) = valueType (r.nv.getD (defaultNull out)) (dict t) := by
  unfold newType valueType
  congr 1
  simp only [ranges, dict, List.map_map]
  refine List.map_congr_left fun kv hkv => ?_
  simp only [Function.comp, newScalar]
  cases h : kv.2 with
  | some a => rfl
  | none =>
    simp only [Option.map_none, Option.getD_none]
    congr 1
    unfold remapNull
    cases r.nv with
    | some s => rfl
    | none =>
      rw [if_pos]
      · rfl
      · simp only [List.any_map, List.any_eq_true]
        exact ⟨kv, hkv, by simp [h]⟩

theorem remapNull_eq (r : Raster) (t : Table) (out : DType) :
    remapNull r (ranges t) out =
      if r.masked ∨ false = true ∨ (∃ kt ∈ dict t, kt.2 = none) then some (r.nv.getD (defaultNull out)) else none := by
  unfold remapNull
  cases h : r.nv with
  | some s => simp [Raster.masked, h]
  | none =>
    have e : (ranges t).any (·.new.isNone) = true ↔ r.masked = true ∨ false = true ∨ ∃ kt ∈ dict t, kt.2 = none := by
      simp [Raster.masked, h, ranges, dict]
    simp only [Option.getD_none]
    by_cases hx : (ranges t).any (·.new.isNone) = true
    · rw [if_pos hx, if_pos (e.mp hx)]
    · rw [if_neg hx, if_neg (fun hc => hx (e.mpr hc))]

theorem inside_iff (k n : Int) : Inside "left" (.fin k) (.fin (k + 1)) (.fin n) ↔ n = k := by
  unfold Inside ClosedLeft ClosedRight
  simp only [lt, decide_eq_true_eq, FVal.fin.injEq, ne_eq, reduceCtorEq, not_false_eq_true, true_and, true_or]
  constructor
  · rintro ⟨h1, h2⟩
    have h3 : n < k + 1 := by
      rcases h2 with h2 | ⟨h2, -⟩
      · exact_mod_cast h2
      · simp at h2
    have h4 : k ≤ n := by
      rcases h1 with h1 | h1
      · exact le_of_lt (by exact_mod_cast h1)
      · exact le_of_eq (by exact_mod_cast h1.symm)
    omega
  · rintro rfl
    exact ⟨Or.inr rfl, Or.inl (by exact_mod_cast Int.lt_succ n)⟩

theorem first_of {t : Table} {kv : Int × Option NullArg} (hk : (t.map (·.1)).Nodup) (h : kv ∈ t) :
    ∃ i, First "left" (ranges t) (.fin kv.1) i ⟨.int kv.1, .int (kv.1 + 1), kv.2⟩ := by
  obtain ⟨i, hi⟩ := List.mem_iff_getElem?.mp h
  refine ⟨i, by simp [ranges, hi], ?_, ?_⟩
  · have := (inside_iff kv.1 kv.1).mpr rfl
    simpa [NullArg.val] using this
  · intro j hj m hm hin
    simp only [ranges, List.getElem?_map, Option.map_eq_some_iff] at hm
    obtain ⟨kw, hw, rfl⟩ := hm
    have e : kv.1 = kw.1 := by
      apply (inside_iff kw.1 kv.1).mp
      simpa [NullArg.val] using hin
    have : j = i := by
      refine (List.getElem?_inj ?_ hk).mp ?_
      · obtain ⟨hl, -⟩ := List.getElem?_eq_some_iff.mp hw
        simpa using hl
      · simp [hi, hw, e]
    omega

theorem eq_fin (a b : Rat) : Num.eq (.fin a) (.fin b) = true ↔ a = b := by
  rw [Num.eq_iff]; simp

/-- **C103.**  On a raster of whole numbers `remap_range` with the ranges `(k, k + 1, v)` and `reclassify` with the dict
`{k: v}` both succeed, and give rasters of the same dtype, shape and null value, with the same null cells and the same
values in the others. -/
theorem C103_tables {np : NumPy} {r : Raster} {t : Table} (hr : MaskNeedsNull r) (ht : t ≠ [])
    (hk : (t.map (·.1)).Nodup) (htype : t.filterMap (·.2) ≠ [] → dictType np t ≠ none) (hnum : ∀ kv ∈ t, ∀ a, kv.2 = some a → IsNumber a)
    (hwhole : ∀ c, r.mask c = false → ∃ n : Int, r.data c = .fin n)
    (hex : ∀ out, reclassifyDtype r (dictType np t) = some out → Exact np r t out) :
    ∃ o o' after, remapRange np r (tuples t) "left" = .ok o ∧
      reclassify np r (dict t) (dictType np t) false = .ok (o', after) ∧
      o.dtype = o'.dtype ∧ o.nv = o'.nv ∧ (o.nb, o.ny, o.nx) = (o'.nb, o'.ny, o'.nx) ∧
      ∀ c, o.mask c = o'.mask c ∧ (o.mask c = false → o.data c = o'.data c) := by
  obtain ⟨out, hout, hout'⟩ := same_dtype r htype
  have ex := hex out hout'
  have hms : normalizeMappings (tuples t) = .ok (ranges t) := by
    refine (C25_accepted _ _).mpr ⟨by simpa [ranges] using ht, ?_, Or.inl rfl⟩
    intro m hm
    simp only [ranges, List.mem_map] at hm
    obtain ⟨kv, hkv, rfl⟩ := hm
    exact ⟨trivial, trivial, by simp [NullArg.val, lt], hnum kv hkv⟩
  obtain ⟨o, ho⟩ : ∃ o, remapRange np r (tuples t) "left" = .ok o := by
    unfold remapRange
    simp only [hms, inclusivityCode, hout]
    exact ⟨_, rfl⟩
  obtain ⟨⟨o', after⟩, ho'⟩ : ∃ p, reclassify np r (dict t) (dictType np t) false = .ok p := by
    unfold reclassify
    simp only [hout']
    exact ⟨_, rfl⟩
  have hshape : (o'.nb, o'.ny, o'.nx) = (r.nb, r.ny, r.nx) := by
    unfold reclassify at ho'
    simp only [hout'] at ho'
    injection ho' with ho'
    simp only [Prod.mk.injEq] at ho'
    rw [← ho'.1]
    rfl
  have kept : ∀ v, Kept np [work out, out] v → stored np out v = v := by
    intro v hv
    unfold stored
    split
    · next h =>
      have h1 := hv (work out) (by simp)
      have h2 := hv out (by simp)
      rw [work, if_pos h] at h1
      rw [h1, ← h, h2]
    · exact hv out (by simp)
  have sub : ∀ {d v}, Kept np [d, work out, out] v → Kept np [work out, out] v := by
    intro d v h e he
    exact h e (List.mem_cons_of_mem _ he)
  have hargs : ExactArgs np (ranges t) (remapNull r (ranges t) out) := by
    constructor
    · intro m hm
      simp only [ranges, List.mem_map] at hm
      obtain ⟨kv, hkv, rfl⟩ := hm
      have h1 := (ex.keys kv hkv).1 (boundsType (ranges t)) (by simp)
      have h2 := (ex.keys kv hkv).2 (boundsType (ranges t)) (by simp)
      refine ⟨h1, ?_⟩
      simpa [NullArg.val, ranges] using h2
    · intro m hm
      rw [newType_eq]
      simp only [ranges, List.mem_map] at hm
      obtain ⟨kv, hkv, rfl⟩ := hm
      cases h : kv.2 with
      | some a =>
        simp only [newScalar]
        exact ex.new kv hkv a h _ (by simp)
      | none =>
        have e : remapNull r (ranges t) out = some (r.nv.getD (defaultNull out)) := by
          rw [remapNull_eq, if_pos]
          exact Or.inr (Or.inr ⟨(.int kv.1, none), List.mem_map.mpr ⟨kv, hkv, by simp [h]⟩, rfl⟩)
        simp only [newScalar]
        rw [e]
        exact ex.null _ (by simp)
  have hnv : ∀ s, remapNull r (ranges t) out = some s → stored np out s.val = s.val := by
    intro s hs
    rw [remapNull_eq] at hs
    split at hs
    · injection hs with hs
      rw [← hs]
      exact kept _ (sub ex.null)
    · cases hs
  have h25 := C25_remap_range hr (fun c => ex.cells c _ (by simp)) hms hout hargs hnv ho
  have h26 := fun c => C26_reclassify (c := c) hr hout'
    (fun kt hkt => by
      obtain ⟨kv, hkv, rfl⟩ := List.mem_map.mp hkt
      exact (ex.keys kv hkv).1 _ (by simp))
    (fun kt hkt s hs => by
      obtain ⟨kv, hkv, rfl⟩ := List.mem_map.mp hkt
      simp only [Option.map_eq_some_iff] at hs
      obtain ⟨a, ha, rfl⟩ := hs
      exact ⟨ex.new kv hkv a ha _ (by simp), ex.new kv hkv a ha _ (by simp)⟩)
    (ex.null _ (by simp)) (fun _ => ex.null _ (by simp))
    (by
      have e : (dict t).map (·.1.val) = (t.map (·.1)).map fun n : Int => (.fin n : Num) := by
        simp [dict, NullArg.val, Function.comp_def]
      rw [e]
      refine List.Pairwise.map _ ?_ hk
      intro a b hab hc
      exact hab (by simpa using hc))
    ho' (ex.cells c _ (by simp)) (ex.cells c _ (by simp))
  have hnveq : o.nv = o'.nv := by
    rw [(h25 (0, 0, 0)).2.1, (h26 (0, 0, 0)).2.1, remapNull_eq]
  refine ⟨o, o', after, ho, ho', ?_, hnveq, ?_, ?_⟩
  · rw [(h25 (0, 0, 0)).1, (h26 (0, 0, 0)).1]
  · rw [(h25 (0, 0, 0)).2.2.1, hshape]
  · intro c
    obtain ⟨-, -, -, a1, a2⟩ := h25 c
    obtain ⟨-, -, b1, b2⟩ := h26 c
    cases hm : r.mask c with
    | true => exact ⟨by rw [a1 hm, b1 hm], fun h => by rw [a1 hm] at h; cases h⟩
    | false =>
      obtain ⟨a3, a4⟩ := a2 hm
      obtain ⟨b3, b4⟩ := b2 hm
      obtain ⟨n, hn⟩ := hwhole c hm
      have hw : np.cast (if out = f16 then f32 else out) (r.data c) = .fin n := by
        rw [← hn]
        exact ex.cells c (work out) (by simp)
      rw [hw] at a3 a4
      have same : ∀ v, o.data c = v → o'.data c = v → (o.mask c = true ↔ ∃ s, o.nv = some s ∧ s.val = v) →
          (o'.mask c = true ↔ ∃ s, o'.nv = some s ∧ s.val = v) →
          o.mask c = o'.mask c ∧ (o.mask c = false → o.data c = o'.data c) := by
        intro v h1 h2 h3 h4
        refine ⟨?_, fun _ => by rw [h1, h2]⟩
        rw [Bool.eq_iff_iff, h3, h4, hnveq]
      by_cases hfound : ∃ kv ∈ t, kv.1 = n
      · obtain ⟨kv, hkv, rfl⟩ := hfound
        obtain ⟨i, hi⟩ := first_of hk hkv
        obtain ⟨c1, c2⟩ := a3 i _ hi
        obtain ⟨d1, d2⟩ := b3 (.int kv.1) (kv.2.map fun a => ⟨arrayType a, a.val⟩) (List.mem_map.mpr ⟨kv, hkv, rfl⟩)
          (by rw [hn]; exact (eq_fin _ _).mpr rfl)
        cases h : kv.2 with
        | none =>
          have e1 := c1 h
          have e2 := d1 (by simp [h])
          exact ⟨by rw [e1, e2], fun hf => by rw [e1] at hf; cases hf⟩
        | some a =>
          obtain ⟨e1, e2⟩ := c2 a h
          obtain ⟨e3, e4⟩ := d2 ⟨arrayType a, a.val⟩ (by simp [h])
          rw [kept _ (sub (ex.new kv hkv a h))] at e1 e2
          exact same a.val e1 e3 e2 e4
      · have c1 := a4 (by
          intro m hm hin
          obtain ⟨kv, hkv, rfl⟩ := List.mem_map.mp hm
          refine hfound ⟨kv, hkv, ((inside_iff kv.1 n).mp ?_).symm⟩
          simpa [NullArg.val] using hin)
        have d1 := b4 (by
          intro k s hks
          obtain ⟨kv, hkv, e⟩ := List.mem_map.mp hks
          injection e with e1 e2
          subst e1
          rw [Bool.eq_false_iff, hn]
          intro he
          have := (eq_fin _ _).mp he
          exact hfound ⟨kv, hkv, by exact_mod_cast this⟩)
        obtain ⟨d2, d3⟩ := d1.2 rfl
        have hkc : Kept np [work out, out] (r.data c) := by
          intro d hd
          refine ex.cells c d ?_
          simp only [List.mem_cons] at hd ⊢
          rcases hd with hd | hd | hd
          · exact Or.inr (Or.inl hd)
          · exact Or.inr (Or.inr (Or.inl hd))
          · cases hd
        rw [kept _ hkc] at c1
        exact same _ c1.1 d2 c1.2 d3

/-- A table that sends 1 to 7 and 2 to null. -/
def sample : Table := [(1, some (.int 7)), (2, none)]

/-- Four cells with the values 0 to 3, the first of them null. -/
def cells : Raster := ⟨u8, 1, 1, 4, fun c => .fin (c.2.2 : Nat), fun c => c.2.2 == 0, some ⟨u8, .fin 0⟩⟩

example : MaskNeedsNull cells ∧ sample ≠ [] ∧ (sample.map (·.1)).Nodup ∧
    (sample.filterMap (·.2) ≠ [] → dictType (idNumPy false) sample ≠ none) ∧
    (∀ kv ∈ sample, ∀ a, kv.2 = some a → IsNumber a) ∧
    (∀ c, cells.mask c = false → ∃ n : Int, cells.data c = .fin n) ∧
    ∀ out, reclassifyDtype cells (dictType (idNumPy false) sample) = some out → Exact (idNumPy false) cells sample out := by
  refine ⟨fun c _ h => (nomatch h), by simp [sample], by decide, fun _ => by decide +kernel, ?_, fun c _ => ⟨c.2.2, by simp [cells]⟩, ?_⟩
  · intro kv hkv a ha
    simp only [sample, List.mem_cons, List.not_mem_nil, or_false] at hkv
    rcases hkv with rfl | rfl
    · injection ha with ha
      subst ha
      trivial
    · cases ha
  · intro out _
    exact ⟨fun _ _ _ => rfl, fun _ _ => ⟨fun _ _ => rfl, fun _ _ => rfl⟩, fun _ _ _ _ _ _ => rfl, fun _ _ => rfl⟩

example : ∃ o, remapRange (idNumPy false) cells (tuples sample) "left" = .ok o ∧ o.data (0, 0, 1) = .fin 7 ∧
    o.mask (0, 0, 2) = true ∧ o.data (0, 0, 3) = .fin 3 := ⟨_, rfl, by decide +kernel, by decide +kernel, by decide +kernel⟩

/-- Between whole numbers the two differ: 3/2 lies in the range from 1 to 2 but is no key. -/
theorem C103_fractions :
    ∃ o o' after, remapRange (idNumPy false) { cells with dtype := f64, data := fun _ => .fin (3 / 2) } (tuples sample) "left" = .ok o ∧
      reclassify (idNumPy false) { cells with dtype := f64, data := fun _ => .fin (3 / 2) } (dict sample)
        (dictType (idNumPy false) sample) false = .ok (o', after) ∧
      o.data (0, 0, 1) = .fin 7 ∧ o'.data (0, 0, 1) = .fin (3 / 2) :=
  ⟨_, _, _, rfl, rfl, by decide +kernel, by decide +kernel⟩

end Verif.Trips.Tables
