import Verif.Kwargs.Model

set_option linter.unusedSectionVars false

/-!
# C107: keyword arguments reach the function as given, or are rejected
-/

namespace Verif.Kwargs

open Verif Verif.Nulls

variable {V : Type}

namespace Spec

/-- The names documented as injected on demand: a parameter of this name makes the function get the extra. -/
def Extra (geo : Prop) (k : String) : Prop :=
  k = "input_masks" ∨ k = "input_null_values" ∨ k = "block_info" ∨ k = "block_id" ∨ k = "out_null_value" ∨ geo ∧ k = "geo_block_info"

/-- The names of options of dask's own functions. -/
def DaskOption (k : String) : Prop :=
  k = "chunks" ∨ k = "name" ∨ k = "token" ∨ k = "drop_axis" ∨ k = "new_axis" ∨ k = "enforce_ndim" ∨ k = "concatenate" ∨ k = "align_arrays" ∨
    k = "trim" ∨ k = "allow_rechunk"

/-- The function gets coordinates. -/
def Geo (fn : Fn) : Prop := fn = .geoMapBlocks ∨ fn = .geoMapOverlap

/-- The function has overlaps. -/
def Overlap (fn : Fn) : Prop := fn = .mapOverlap ∨ fn = .geoMapOverlap

/-- `k` is given the value `v`. -/
def Gets (d : List (String × V)) (k : String) (v : V) : Prop := (k, v) ∈ d

/-- A `dict` has one value for a key. -/
def IsDict (d : List (String × V)) : Prop := (d.map (·.1)).Nodup

end Spec

open Spec

theorem filter_ne_nil {names : List String} {kwargs : List (String × V)} :
    names.filter (· ∈ keys kwargs) ≠ [] ↔ ∃ k ∈ names, k ∈ kwargs.map (·.1) := by
  show _ ↔ ∃ k ∈ names, k ∈ keys kwargs
  generalize keys kwargs = ks
  rw [ne_eq, List.filter_eq_nil_iff]
  simp

theorem mem_dask (k : String) : k ∈ daskReserved ↔ DaskOption k := by simp [daskReserved, DaskOption]

theorem mem_reserved (fn : Fn) (k : String) : k ∈ fn.reserved ↔ Extra (Geo fn) k := by
  cases fn <;> simp [Fn.reserved, geoMapBlocksReserved, mapBlocksReserved, Extra, Geo]

theorem mem_order (fn : Fn) (k : String) : k ∈ fn.order ↔ Extra (Geo fn) k := by
  cases fn <;> simp [Fn.order, Extra, Geo] <;> tauto

theorem overlaps_iff (fn : Fn) : fn.overlaps = true ↔ Overlap fn := by cases fn <;> simp [Fn.overlaps, Overlap]

/-- **C107 (accepted).**  A call passes the checks exactly if there is a raster, `dtype` and `meta` do not contradict each other, and no keyword argument
has the name of an extra, of an option of dask or, with overlaps, is `out_bands`; otherwise it is a `ValueError`. -/
theorem C107_accepted (fn : Fn) (rasters : Nat) (dtype like : Option DType) (kwargs : List (String × V)) :
    (checkCall fn rasters dtype like kwargs = .ok () ↔
      0 < rasters ∧ (∀ d m, dtype = some d → like = some m → d = m) ∧
        ∀ k v, Gets kwargs k v → ¬ Extra (Geo fn) k ∧ ¬ DaskOption k ∧ ¬ (Overlap fn ∧ k = "out_bands")) ∧
    (checkCall fn rasters dtype like kwargs = .ok () ∨ checkCall fn rasters dtype like kwargs = .error .value) := by
  have hgets : ∀ k, k ∈ kwargs.map (·.1) ↔ ∃ v, Gets kwargs k v := by
    intro k
    rw [List.mem_map]
    constructor
    · rintro ⟨⟨a, v⟩, h, rfl⟩
      exact ⟨v, h⟩
    · rintro ⟨v, h⟩
      exact ⟨(k, v), h, rfl⟩
  have hmeta : checkDtypeMetaAgree dtype like = .ok () ∧ (∀ d m, dtype = some d → like = some m → d = m) ∨
      checkDtypeMetaAgree dtype like = .error .value ∧ ¬ (∀ d m, dtype = some d → like = some m → d = m) := by
    unfold checkDtypeMetaAgree
    cases dtype with
    | none => exact .inl ⟨rfl, fun d m h => nomatch h⟩
    | some d =>
      cases like with
      | none => exact .inl ⟨rfl, fun d m _ h => nomatch h⟩
      | some m =>
        by_cases e : d = m
        · refine .inl ⟨by simp [e], fun d' m' h1 h2 => ?_⟩
          cases h1
          cases h2
          exact e
        · exact .inr ⟨by simp [e], fun h => e (h d m rfl rfl)⟩
  have hdask : checkNoDaskKwargs kwargs = .ok () ∧ (∀ k v, Gets kwargs k v → ¬ DaskOption k) ∨
      checkNoDaskKwargs kwargs = .error .value ∧ ¬ (∀ k v, Gets kwargs k v → ¬ DaskOption k) := by
    unfold checkNoDaskKwargs
    by_cases h : daskReserved.filter (· ∈ keys kwargs) ≠ []
    · rw [if_pos h]
      obtain ⟨k, h1, h2⟩ := filter_ne_nil.1 h
      obtain ⟨v, hv⟩ := (hgets k).1 h2
      exact .inr ⟨rfl, fun hn => hn k v hv ((mem_dask k).1 h1)⟩
    · rw [if_neg h]
      exact .inl ⟨rfl, fun k v hv hd => h (filter_ne_nil.2 ⟨k, (mem_dask k).2 hd, (hgets k).2 ⟨v, hv⟩⟩)⟩
  have hres : checkReservedKwargs kwargs fn.reserved = .ok () ∧ (∀ k v, Gets kwargs k v → ¬ Extra (Geo fn) k) ∨
      checkReservedKwargs kwargs fn.reserved = .error .value ∧ ¬ (∀ k v, Gets kwargs k v → ¬ Extra (Geo fn) k) := by
    unfold checkReservedKwargs
    by_cases h : fn.reserved.filter (· ∈ keys kwargs) ≠ []
    · rw [if_pos h]
      obtain ⟨k, h1, h2⟩ := filter_ne_nil.1 h
      obtain ⟨v, hv⟩ := (hgets k).1 h2
      exact .inr ⟨rfl, fun hn => hn k v hv ((mem_reserved fn k).1 h1)⟩
    · rw [if_neg h]
      exact .inl ⟨rfl, fun k v hv hd => h (filter_ne_nil.2 ⟨k, (mem_reserved fn k).2 hd, (hgets k).2 ⟨v, hv⟩⟩)⟩
  have hout : (if fn.overlaps then checkNoOutBands kwargs else .ok ()) = .ok () ∧ (∀ k v, Gets kwargs k v → ¬ (Overlap fn ∧ k = "out_bands")) ∨
      (if fn.overlaps then checkNoOutBands kwargs else .ok ()) = .error .value ∧
        ¬ (∀ k v, Gets kwargs k v → ¬ (Overlap fn ∧ k = "out_bands")) := by
    by_cases ho : fn.overlaps = true
    · rw [if_pos ho]
      unfold checkNoOutBands
      by_cases h : "out_bands" ∈ keys kwargs
      · rw [if_pos h]
        obtain ⟨v, hv⟩ := (hgets _).1 h
        exact .inr ⟨rfl, fun hn => hn _ v hv ⟨(overlaps_iff fn).1 ho, rfl⟩⟩
      · rw [if_neg h]
        refine .inl ⟨rfl, ?_⟩
        rintro k v hv ⟨-, rfl⟩
        exact h ((hgets _).2 ⟨v, hv⟩)
    · rw [if_neg ho]
      exact .inl ⟨rfl, fun k v _ h => ho ((overlaps_iff fn).2 h.1)⟩
  have split : (∀ k v, Gets kwargs k v → ¬ Extra (Geo fn) k ∧ ¬ DaskOption k ∧ ¬ (Overlap fn ∧ k = "out_bands")) ↔
      (∀ k v, Gets kwargs k v → ¬ Extra (Geo fn) k) ∧ (∀ k v, Gets kwargs k v → ¬ DaskOption k) ∧
        ∀ k v, Gets kwargs k v → ¬ (Overlap fn ∧ k = "out_bands") :=
    ⟨fun h => ⟨fun k v g => (h k v g).1, fun k v g => (h k v g).2.1, fun k v g => (h k v g).2.2⟩,
      fun h k v g => ⟨h.1 k v g, h.2.1 k v g, h.2.2 k v g⟩⟩
  rw [split]
  have no : ∀ {P : Prop}, checkCall fn rasters dtype like kwargs = .error .value → ¬ P →
      (checkCall fn rasters dtype like kwargs = .ok () ↔ P) ∧
        (checkCall fn rasters dtype like kwargs = .ok () ∨ checkCall fn rasters dtype like kwargs = .error .value) := by
    intro P h hP
    rw [h]
    exact ⟨iff_of_false (fun k => nomatch k) hP, .inr rfl⟩
  by_cases h0 : rasters = 0
  · exact no (by unfold checkCall; rw [if_pos h0]) (fun h => by omega)
  rcases hmeta with ⟨e1, p1⟩ | ⟨e1, p1⟩
  · rcases hdask with ⟨e2, p2⟩ | ⟨e2, p2⟩
    · rcases hout with ⟨e3, p3⟩ | ⟨e3, p3⟩
      · rcases hres with ⟨e4, p4⟩ | ⟨e4, p4⟩
        · have e : checkCall fn rasters dtype like kwargs = .ok () := by
            unfold checkCall; rw [if_neg h0]; simp only [e1, e2, e3, e4]
          exact ⟨iff_of_true e ⟨by omega, p1, p4, p2, p3⟩, .inl e⟩
        · exact no (by unfold checkCall; rw [if_neg h0]; simp only [e1, e2, e3, e4]) (fun h => p4 h.2.2.1)
      · exact no (by unfold checkCall; rw [if_neg h0]; simp only [e1, e2, e3]) (fun h => p3 h.2.2.2.2)
    · exact no (by unfold checkCall; rw [if_neg h0]; simp only [e1, e2]) (fun h => p2 h.2.2.2.1)
  · exact no (by unfold checkCall; rw [if_neg h0]; simp only [e1]) (fun h => p1 h.2.1)

/-! ### The call of the function -/

theorem setItem_mem {d : List (String × V)} {k : String} {v : V} (hd : IsDict d) (k' : String) (v' : V) :
    (k', v') ∈ setItem d k v ↔ if k' = k then v' = v else (k', v') ∈ d := by
  unfold IsDict at hd
  induction d with
  | nil =>
    show (k', v') ∈ [(k, v)] ↔ _
    rw [List.mem_singleton, Prod.mk.injEq]
    split
    · next h => simp [h]
    · next h => simp [h]
  | cons e d ih =>
    obtain ⟨ek, ev⟩ := e
    rw [List.map_cons, List.nodup_cons] at hd
    unfold setItem
    by_cases he : ek = k
    · subst he
      simp only [if_true, List.mem_cons, Prod.mk.injEq]
      by_cases hk : k' = ek
      · subst hk
        simp only [true_and, if_true]
        constructor
        · rintro (h | h)
          · exact h
          · exact absurd (List.mem_map.2 ⟨_, h, rfl⟩) hd.1
        · exact .inl
      · simp [hk]
    · simp only [if_neg he, List.mem_cons, ih hd.2, Prod.mk.injEq]
      by_cases hk : k' = k
      · subst hk
        simp [Ne.symm he]
      · simp [hk]

theorem setItem_keys {d : List (String × V)} (hd : IsDict d) (k : String) (v : V) : IsDict (setItem d k v) := by
  unfold IsDict at hd ⊢
  induction d with
  | nil => simp [setItem]
  | cons e d ih =>
    obtain ⟨ek, ev⟩ := e
    rw [List.map_cons, List.nodup_cons] at hd
    unfold setItem
    by_cases he : ek = k
    · subst he
      simp only [if_true, List.map_cons, List.nodup_cons]
      exact hd
    · simp only [if_neg he, List.map_cons, List.nodup_cons]
      refine ⟨fun h => ?_, ih hd.2⟩
      obtain ⟨⟨a, b⟩, hab, rfl⟩ := List.mem_map.1 h
      rw [setItem_mem hd.2] at hab
      simp only at hab he hd
      rw [if_neg he] at hab
      exact hd.1 (List.mem_map.2 ⟨_, hab, rfl⟩)

theorem injectIf_mem (params : List String) (injected : String → V) {d : List (String × V)} (hd : IsDict d) (n k : String) (v : V) :
    ((k, v) ∈ injectIf params injected d n ↔ (k = n ∧ k ∈ params ∧ v = injected k) ∨ (¬ (k = n ∧ k ∈ params) ∧ (k, v) ∈ d)) ∧
      IsDict (injectIf params injected d n) := by
  unfold injectIf
  by_cases hn : n ∈ params
  · rw [if_pos hn]
    refine ⟨?_, setItem_keys hd _ _⟩
    rw [setItem_mem hd]
    by_cases e : k = n
    · subst e
      rw [if_pos rfl]
      tauto
    · rw [if_neg e]
      tauto
  · rw [if_neg hn]
    refine ⟨?_, hd⟩
    have : ¬ (k = n ∧ k ∈ params) := by
      rintro ⟨rfl, h⟩
      exact hn h
    tauto

theorem fold_mem (params : List String) (injected : String → V) (names : List String) {d : List (String × V)} (hd : IsDict d)
    (k : String) (v : V) : ((k, v) ∈ names.foldl (injectIf params injected) d ↔
      (k ∈ names ∧ k ∈ params ∧ v = injected k) ∨ (¬ (k ∈ names ∧ k ∈ params) ∧ (k, v) ∈ d)) ∧
      IsDict (names.foldl (injectIf params injected) d) := by
  induction names generalizing d with
  | nil => exact ⟨by simp, hd⟩
  | cons n names ih =>
    rw [List.foldl_cons]
    obtain ⟨h1, h2⟩ := injectIf_mem params injected hd n k v
    refine ⟨?_, (ih h2).2⟩
    rw [(ih h2).1, h1, List.mem_cons]
    tauto

/-- **C107 (received).**  The function is called with the extras that it names and, under every other name, with what the caller gave, nothing else;
each name has one value. -/
theorem C107_received (fn : Fn) (params : List String) (injected : String → V) {kwargs : List (String × V)} (hd : IsDict kwargs) (k : String) (v : V) :
    (Gets (innerKwargs fn params injected kwargs) k v ↔
      (Extra (Geo fn) k ∧ k ∈ params ∧ v = injected k) ∨ (¬ (Extra (Geo fn) k ∧ k ∈ params) ∧ Gets kwargs k v)) ∧
    IsDict (innerKwargs fn params injected kwargs) := by
  unfold innerKwargs Gets
  obtain ⟨h1, h2⟩ := fold_mem params injected fn.order hd k v
  refine ⟨?_, h2⟩
  rw [h1, mem_order]

/-- **C107 (kept).**  If a call passes the checks, no argument of the caller is lost or replaced, and what the function gets besides are extras it
names. -/
theorem C107_kept {fn : Fn} {rasters : Nat} {dtype like : Option DType} {kwargs : List (String × V)} (params : List String)
    (injected : String → V) (hd : IsDict kwargs) (h : checkCall fn rasters dtype like kwargs = .ok ()) :
    (∀ k v, Gets kwargs k v → Gets (innerKwargs fn params injected kwargs) k v) ∧
    (∀ k v, Gets (innerKwargs fn params injected kwargs) k v → Gets kwargs k v ∨ (Extra (Geo fn) k ∧ k ∈ params ∧ v = injected k)) ∧
    ∀ k, Extra (Geo fn) k → k ∈ params → Gets (innerKwargs fn params injected kwargs) k (injected k) := by
  have hno := ((C107_accepted fn rasters dtype like kwargs).1.1 h).2.2
  refine ⟨fun k v g => ?_, fun k v g => ?_, fun k he hp => ?_⟩
  · exact (C107_received fn params injected hd k v).1.2 (.inr ⟨fun he => (hno k v g).1 he.1, g⟩)
  · rcases (C107_received fn params injected hd k v).1.1 g with h' | h'
    · exact .inr h'
    · exact .inl h'.2
  · exact (C107_received fn params injected hd k _).1.2 (.inl ⟨he, hp, rfl⟩)

/-- **C107 (dtype).**  In a call that passes the checks the dtype of the result is known from `dtype` and from `meta`, whichever is given. -/
theorem C107_dtype {fn : Fn} {rasters : Nat} {dtype like : Option DType} {kwargs : List (String × V)}
    (h : checkCall fn rasters dtype like kwargs = .ok ()) (d : DType) :
    outDtypeHint dtype like = some d ↔ dtype = some d ∨ like = some d := by
  have hm := ((C107_accepted fn rasters dtype like kwargs).1.1 h).2.1
  unfold outDtypeHint
  cases like with
  | none => simp
  | some m =>
    show some m = some d ↔ _
    constructor
    · exact .inr
    · rintro (rfl | h')
      · rw [hm d m rfl rfl]
      · exact h'

/-! ### `return_mask=True` -/

/-- **C107 (mask).**  With `return_mask` the result of the function is taken exactly if it is a pair and, in real blocks, both arrays have the same shape
and as many bands as asked for; then the block holds the data in the dtype of the result and the truth values of the mask. -/
theorem C107_pack (cast : V → V) (truth : V → Bool) (result : Ret V) (real : Bool) (outBands : Option Nat) (d : Arr V) (m : Arr Bool) :
    packDataMask cast truth result real outBands = .ok (d, m) ↔
      ∃ data mask : Arr V, result = .seq [data, mask] ∧
        (real = true → mask.shape = data.shape ∧ ∀ n, outBands = some n → data.shape.head? = some n) ∧
        d = ⟨data.shape, fun i => cast (data.at' i)⟩ ∧ m = ⟨data.shape, fun i => truth (mask.at' i)⟩ := by
  constructor
  · intro h
    unfold packDataMask at h
    match result, h with
    | .seq [data, mask], h =>
      refine ⟨data, mask, rfl, ?_⟩
      cases real with
      | false =>
        have h := Prod.mk.inj (Except.ok.inj h)
        exact ⟨(fun k => nomatch k), h.1.symm, h.2.symm⟩
      | true =>
        simp only [if_true] at h
        cases outBands with
        | none =>
          simp only at h
          by_cases e : mask.shape ≠ data.shape
          · rw [if_pos e] at h; cases h
          · rw [if_neg e] at h
            have h := Prod.mk.inj (Except.ok.inj h)
            exact ⟨fun _ => ⟨not_not.1 e, (fun n hn => nomatch hn)⟩, h.1.symm, h.2.symm⟩
        | some n =>
          cases hs : data.shape with
          | nil => rw [hs] at h; cases h
          | cons s l =>
            rw [hs] at h
            simp only at h
            by_cases e1 : s ≠ n
            · rw [if_pos e1] at h; cases h
            · rw [if_neg e1] at h
              by_cases e : mask.shape ≠ s :: l
              · rw [if_pos e] at h; cases h
              · rw [if_neg e] at h
                have h := Prod.mk.inj (Except.ok.inj h)
                refine ⟨fun _ => ⟨not_not.1 e, fun n' hn => ?_⟩, h.1.symm, h.2.symm⟩
                cases hn
                rw [not_not.1 e1]
                rfl
  · rintro ⟨data, mask, rfl, hreal, rfl, rfl⟩
    unfold packDataMask
    cases real with
    | false => rfl
    | true =>
      obtain ⟨h1, h2⟩ := hreal rfl
      simp only [if_true]
      cases outBands with
      | none =>
        simp only
        rw [if_neg (not_not.2 h1)]
      | some n =>
        have h2 := h2 n rfl
        cases hs : data.shape with
        | nil => rw [hs] at h2; cases h2
        | cons s l =>
          rw [hs] at h2 h1
          simp only
          rw [if_neg (not_not.2 (Option.some.inj h2)), if_neg (not_not.2 h1)]

/-- **C107 (mask, errors).**  What is not taken is a `ValueError`, except for data without axes, of which a number of bands is expected: an `IndexError`. -/
theorem C107_pack_errors (cast : V → V) (truth : V → Bool) (result : Ret V) (real : Bool) (outBands : Option Nat) (e : Err)
    (h : packDataMask cast truth result real outBands = .error e) :
    (e = .index ∧ real = true ∧ outBands ≠ none ∧ ∃ data mask : Arr V, result = .seq [data, mask] ∧ data.shape = []) ∨
    (e = .value ∧ ¬ (real = true ∧ outBands ≠ none ∧ ∃ data mask : Arr V, result = .seq [data, mask] ∧ data.shape = [])) := by
  unfold packDataMask at h
  split at h
  · rename_i data mask
    split at h
    · rename_i hreal
      split at h
      · rename_i hs
        cases h
        exact .inl ⟨rfl, hreal, by simp, data, mask, rfl, hs⟩
      · rename_i s l hs
        right
        refine ⟨?_, ?_⟩
        · split at h
          · cases h; rfl
          · split at h <;> cases h
            rfl
        · rintro ⟨-, -, d, m, e', h0⟩
          cases e'
          rw [hs] at h0
          cases h0
      · right
        refine ⟨?_, fun h0 => h0.2.1 rfl⟩
        split at h <;> cases h
        rfl
    · cases h
  · rename_i hno
    cases h
    exact .inr ⟨rfl, fun ⟨_, _, d, m, e', _⟩ => hno d m e'⟩

/-- Data without axes and a number of bands. -/
example : packDataMask (fun v : Nat => v) (fun v => v != 0) (.seq [⟨[], fun _ => 1⟩, ⟨[], fun _ => 0⟩]) true (some 1) = .error .index :=
  rfl

/-! ### Examples -/

example : IsDict [("factor", 2), ("chunk", 3)] ∧ checkCall .geoMapOverlap 1 (some .u8) (some .u8) [("factor", 2), ("chunk", 3)] = .ok () ∧
    innerKwargs .geoMapOverlap ["factor", "block_id", "geo_block_info"] (fun k => k.length) [("factor", 2), ("chunk", 3)] =
      [("factor", 2), ("chunk", 3), ("block_id", 8), ("geo_block_info", 14)] ∧
    checkCall .mapOverlap 1 none none [("out_bands", 2)] = .error .value ∧ checkCall .mapBlocks 1 none none [("trim", 2)] = .error .value ∧
    checkCall .mapBlocks 1 none none [("geo_block_info", 2)] = .ok () := by
  refine ⟨?_, by decide +kernel, by decide +kernel, by decide +kernel, by decide +kernel, by decide +kernel⟩
  unfold IsDict
  decide

example : packDataMask (fun v : Nat => v) (fun v => decide (v ≠ 0)) (.seq [⟨[2, 1], fun _ => 7⟩, ⟨[2, 1], fun _ => 1⟩]) true (some 2) ≠ .error .value ∧
    packDataMask (fun v : Nat => v) (fun v => decide (v ≠ 0)) (.seq [⟨[2, 1], fun _ => 7⟩, ⟨[1, 1], fun _ => 1⟩]) true none = .error .value := by
  refine ⟨(fun h => nomatch h), rfl⟩

end Verif.Kwargs
