import Verif.Remap.Model
import Verif.Nulls.RasterProps

/-!
# Properties of `remap_range`, `reclassify` and `where`: C25, C26, C27
-/

set_option linter.unusedSectionVars false

namespace Verif.Remap

open Verif Verif.Nulls DType

namespace Spec

/-- The left (right) end belongs to the range. -/
def ClosedLeft (inclusivity : String) : Prop := inclusivity = "left" ∨ inclusivity = "both"
def ClosedRight (inclusivity : String) : Prop := inclusivity = "right" ∨ inclusivity = "both"

/-- The number lies in the range from `l` to `r`. -/
def Inside (inclusivity : String) (l r v : Num) : Prop :=
  v ≠ .nan ∧ (lt l v = true ∨ (ClosedLeft inclusivity ∧ v = l)) ∧ (lt v r = true ∨ (ClosedRight inclusivity ∧ v = r))

/-- Mapping `i` is the first one that contains `v`. -/
def First (inclusivity : String) (ms : List Mapping) (v : Num) (i : Nat) (m : Mapping) : Prop :=
  ms[i]? = some m ∧ Inside inclusivity m.lo.val m.hi.val v ∧
    ∀ j < i, ∀ m', ms[j]? = some m' → ¬ Inside inclusivity m'.lo.val m'.hi.val v

/-- A number that is not a python bool. -/
def IsNumber : NullArg → Prop
  | .bool _ => False
  | _ => True

/-- A legal mapping. -/
def Legal (m : Mapping) : Prop :=
  IsNumber m.lo ∧ IsNumber m.hi ∧ lt m.lo.val m.hi.val = true ∧ ∀ v, m.new = some v → IsNumber v

/-- How a mapping is written. -/
def written (m : Mapping) : List Py := [.num m.lo, .num m.hi, (m.new.map Py.num).getD .none]

end Spec

open Spec

/-! ### C25: remap_range -/

theorem lt_total {a b : Num} (ha : a ≠ .nan) (hb : b ≠ .nan) : lt a b = true ↔ le b a = false := by
  cases a <;> cases b <;> simp_all [lt, le]

theorem le_iff (a b : Num) : le a b = true ↔ lt a b = true ∨ (a = b ∧ a ≠ .nan) := by
  cases a <;> cases b <;> simp [lt, le, le_iff_lt_or_eq]

theorem lt_not_nan {a b : Num} (h : lt a b = true) : a ≠ .nan ∧ b ≠ .nan := by
  cases a <;> cases b <;> simp_all [lt]

theorem inRange_iff {s : String} {inc : Nat} (h : inclusivityCode s = some inc) (l r v : Num) :
    inRange inc l r v = true ↔ Inside s l r v := by
  have hle : ∀ a b : Num, le a b = true → a ≠ .nan ∧ b ≠ .nan := by
    intro a b h; cases a <;> cases b <;> simp_all [le]
  have hnan : inRange inc l r v = true → v ≠ .nan := by
    unfold inclusivityCode at h
    split at h <;> simp only [Option.some.injEq, reduceCtorEq] at h <;> subst h <;>
      simp only [inRange, Bool.and_eq_true, if_true, reduceCtorEq, if_false, OfNat.ofNat_ne_zero, OfNat.ofNat_ne_one,
        Nat.reduceEqDiff, one_ne_zero] <;> rintro ⟨h1, h2⟩
    · exact (hle _ _ h1).2
    · exact (lt_not_nan h1).2
    · exact (hle _ _ h1).2
    · exact (lt_not_nan h1).2
  by_cases hv : v = .nan
  · constructor
    · intro hr; exact absurd hv (hnan hr)
    · intro hr; exact absurd hv hr.1
  · unfold Inside ClosedLeft ClosedRight
    unfold inclusivityCode at h
    split at h <;> simp only [Option.some.injEq, reduceCtorEq] at h <;> subst h <;>
      simp only [inRange, Bool.and_eq_true, if_true, reduceCtorEq, if_false, OfNat.ofNat_ne_zero, OfNat.ofNat_ne_one,
        Nat.reduceEqDiff, one_ne_zero, le_iff] <;> simp [hv] <;> aesop

theorem checkMapping_iff (ps : List Py) (m : Mapping) : checkMapping ps = .ok m ↔ Legal m ∧ ps = written m := by
  constructor
  · intro h
    unfold checkMapping at h
    split at h
    · rename_i a b c
      split at h
      · cases h
      · rename_i hsc
        simp only [Bool.not_eq_true, Bool.not_eq_false', Bool.and_eq_true] at hsc
        split at h
        · rename_i lo hi
          split at h
          · cases h
          · rename_i hnn
            split at h
            · cases h
            · rename_i hle
              simp only [Bool.or_eq_true, not_or, Bool.not_eq_true] at hnn
              have hlt : lt lo.val hi.val = true := by
                rw [lt_total]
                · simpa using hle
                · intro hc; rw [hc] at hnn; simp [Num.isnan] at hnn
                · intro hc; rw [hc] at hnn; simp [Num.isnan] at hnn
              have hlo : IsNumber lo := by cases lo <;> simp_all [isScalar, IsNumber]
              have hhi : IsNumber hi := by cases hi <;> simp_all [isScalar, IsNumber]
              split at h
              · cases h
              · rename_i v hv
                injection h with h
                subst h
                refine ⟨⟨hlo, hhi, hlt, ?_⟩, rfl⟩
                intro w hw
                injection hw with hw
                subst hw
                cases v with
                | bool b => exact absurd rfl (hv b)
                | int n => trivial
                | float x => trivial
              · injection h with h
                subst h
                exact ⟨⟨hlo, hhi, hlt, fun v hv => by cases hv⟩, rfl⟩
              · cases h
        · cases h
    · cases h
  · rintro ⟨⟨hlo, hhi, hlt, hnew⟩, rfl⟩
    have hn := lt_not_nan hlt
    have e1 : isScalar (.num m.lo) = true := by cases h : m.lo <;> simp_all [isScalar, IsNumber]
    have e2 : isScalar (.num m.hi) = true := by cases h : m.hi <;> simp_all [isScalar, IsNumber]
    have e3 : m.lo.val.isnan = false := by cases h : m.lo.val <;> simp_all [Num.isnan]
    have e4 : m.hi.val.isnan = false := by cases h : m.hi.val <;> simp_all [Num.isnan]
    have e5 : le m.hi.val m.lo.val = false := (lt_total hn.1 hn.2).mp hlt
    unfold checkMapping written
    simp only [e1, e2, e3, e4, e5, Bool.and_self, Bool.not_true, Bool.or_self, Bool.false_eq_true, if_false]
    obtain ⟨lo, hi, new⟩ := m
    cases new with
    | none => rfl
    | some v =>
      cases v with
      | bool b => exact absurd (hnew _ rfl) (fun h => h)
      | int n => rfl
      | float x => rfl

theorem checkMappings_iff (pss : List (List Py)) (ms : List Mapping) :
    checkMappings pss = .ok ms ↔ (∀ m ∈ ms, Legal m) ∧ pss = ms.map written := by
  induction pss generalizing ms with
  | nil =>
    simp only [checkMappings, Except.ok.injEq]
    constructor
    · rintro rfl; simp
    · rintro ⟨_, h⟩
      cases ms with
      | nil => rfl
      | cons m ms => cases h
  | cons ps pss ih =>
    simp only [checkMappings]
    constructor
    · intro h
      split at h
      · cases h
      · rename_i m hm
        split at h
        · cases h
        · rename_i ms' hms
          injection h with h
          subst h
          obtain ⟨h1, h2⟩ := (checkMapping_iff ps m).mp hm
          obtain ⟨h3, h4⟩ := (ih ms').mp hms
          refine ⟨?_, by simp [h2, h4]⟩
          intro q hq
          rcases List.mem_cons.mp hq with rfl | hq
          · exact h1
          · exact h3 q hq
    · rintro ⟨h1, h2⟩
      cases ms with
      | nil => cases h2
      | cons m ms =>
        simp only [List.map_cons, List.cons.injEq] at h2
        rw [(checkMapping_iff ps m).mpr ⟨h1 m (by simp), h2.1⟩,
          (ih ms).mpr ⟨fun q hq => h1 q (by simp [hq]), h2.2⟩]

theorem asLists_iff (items : List Item) (pss : List (List Py)) :
    asLists items = .ok pss ↔ items = pss.map Item.seq := by
  induction items generalizing pss with
  | nil => cases pss <;> simp [asLists]
  | cons i items ih =>
    cases i with
    | one p => cases pss <;> simp [asLists]
    | seq ps =>
      simp only [asLists]
      constructor
      · intro h
        split at h
        · cases h
        · rename_i pss' hp
          injection h with h
          subst h
          rw [(ih pss').mp hp]; rfl
      · intro h
        cases pss with
        | nil => cases h
        | cons q pss =>
          simp only [List.map_cons, List.cons.injEq, Item.seq.injEq] at h
          rw [(ih pss).mpr h.2, h.1]

/-- **C25**, malformed mappings: the argument is accepted exactly if it is a non-empty list of legal mappings, or
a single legal mapping without the list; anything else raises. -/
theorem C25_accepted (arg : MappingArg) (ms : List Mapping) :
    normalizeMappings arg = .ok ms ↔ ms ≠ [] ∧ (∀ m ∈ ms, Legal m) ∧
      (arg = .list (ms.map fun m => .seq (written m)) ∨ ∃ m, ms = [m] ∧ arg = .list ((written m).map .one)) := by
  have hseq : ∀ items : List Item, (∃ pss, asLists items = .ok pss ∧ checkMappings pss = .ok ms) ↔
      (∀ m ∈ ms, Legal m) ∧ items = ms.map fun m => .seq (written m) := by
    intro items
    constructor
    · rintro ⟨pss, hp, h⟩
      · skip
        obtain ⟨h1, h2⟩ := (checkMappings_iff pss ms).mp h
        refine ⟨h1, ?_⟩
        rw [(asLists_iff items pss).mp hp, h2, List.map_map]
        rfl
    · rintro ⟨h1, h2⟩
      exact ⟨_, (asLists_iff items (ms.map written)).mpr (by rw [h2, List.map_map]; rfl),
        (checkMappings_iff _ _).mpr ⟨h1, rfl⟩⟩
  have hnorm : ∀ arg : MappingArg, normalizeMappings arg = .ok ms ↔
      ∃ pss, asSequences arg = .ok pss ∧ checkMappings pss = .ok ms := by
    intro arg
    unfold normalizeMappings
    cases asSequences arg with
    | error e => simp
    | ok pss => simp
  have hscal : ∀ m, Legal m → isScalar (.num m.lo) = true := by
    intro m hm
    have := hm.1
    cases h : m.lo <;> simp_all [isScalar, IsNumber]
  rw [hnorm]
  cases arg with
  | other => simp [asSequences]
  | list items =>
    cases items with
    | nil =>
      simp only [asSequences, reduceCtorEq, false_and, exists_false, false_iff]
      rintro ⟨h1, _, h | ⟨m, _, h⟩⟩
      · cases ms with
        | nil => exact h1 rfl
        | cons m ms => simp at h
      · simp [written] at h
    | cons i rest =>
      cases i with
      | seq ps =>
        simp only [asSequences]
        rw [hseq]
        constructor
        · rintro ⟨h1, h2⟩
          refine ⟨by rintro rfl; simp at h2, h1, Or.inl (by rw [h2])⟩
        · rintro ⟨_, h1, h | ⟨m, _, h⟩⟩
          · injection h with h
            exact ⟨h1, h⟩
          · simp [written] at h
      | one p =>
        simp only [asSequences]
        by_cases hp : isScalar p = true
        · rw [if_pos hp]
          simp only [Except.ok.injEq, exists_eq_left']
          rw [checkMappings_iff]
          constructor
          · rintro ⟨h1, h2⟩
            obtain ⟨m, tl, e, hm, hnil⟩ := List.map_eq_cons_iff.mp h2.symm
            have e : ms = [m] := by rw [e, List.map_eq_nil_iff.mp hnil]
            have hleg := h1 m (by simp [e])
            refine ⟨by simp [e], h1, Or.inr ⟨m, e, ?_⟩⟩
            unfold written at hm
            simp only [List.cons.injEq] at hm
            obtain ⟨h3, h4⟩ := hm
            match rest, h4 with
            | [], h4 => simp at h4
            | [_], h4 => simp at h4
            | _ :: _ :: _ :: _, h4 => simp at h4
            | [a, b], h4 =>
              simp only [List.map_cons, List.map_nil, List.cons.injEq, and_true] at h4
              unfold written
              rw [← h3]
              cases a with
              | seq _ => exact absurd h4.1.symm (by simp [Item.py])
              | one a =>
                cases b with
                | seq _ =>
                  have := h4.2
                  cases hn : m.new <;> rw [hn] at this <;> simp [Item.py] at this
                | one b =>
                  simp only [Item.py] at h4
                  simp [h4.1, h4.2]
          · rintro ⟨_, h1, h | ⟨m, e, h⟩⟩
            · cases ms with
              | nil => cases h
              | cons m ms => simp at h
            · refine ⟨h1, ?_⟩
              subst e
              injection h with h
              simp only [written, List.map_cons, List.map_nil, List.cons.injEq, Item.one.injEq] at h
              simp [h.1, h.2, written, Item.py]
        · rw [if_neg hp]
          rw [hseq]
          constructor
          · rintro ⟨h1, h2⟩
            cases ms with
            | nil => simp at h2
            | cons m ms => simp at h2
          · rintro ⟨_, h1, h | ⟨m, e, h⟩⟩
            · cases ms with
              | nil => cases h
              | cons m ms => simp at h
            · exfalso
              injection h with h
              simp only [written, List.map_cons, List.cons.injEq, Item.one.injEq] at h
              exact hp (by rw [h.1]; exact hscal m (h1 m (by simp [e])))

example : normalizeMappings (.list [.seq [.num (.int 0), .num (.float (.fin (1/2))), .none],
    .seq [.num (.int 1), .num (.float .posInf), .num (.int 7)]]) =
    .ok [⟨.int 0, .float (.fin (1/2)), none⟩, ⟨.int 1, .float .posInf, some (.int 7)⟩] := by decide +kernel

example : normalizeMappings (.list [.one (.num (.int 0)), .one (.num (.int 0)), .one .none]) = .error .value := by
  decide +kernel

/-- The loop returns the new value of the first matching range. -/
theorem remapLoop_first {s : String} {inc : Nat} (h : inclusivityCode s = some inc) (v : Num)
    (table : List ((Num × Num) × Num)) :
    (∀ (i : Nat) (l r new : Num), table[i]? = some ((l, r), new) → Inside s l r v →
      (∀ j < i, ∀ l' r' n', table[j]? = some ((l', r'), n') → ¬ Inside s l' r' v) → remapLoop inc v table = new) ∧
    ((∀ (i : Nat) (l r new : Num), table[i]? = some ((l, r), new) → ¬ Inside s l r v) → remapLoop inc v table = v) := by
  induction table with
  | nil => exact ⟨by simp, fun _ => rfl⟩
  | cons e table ih =>
    obtain ⟨⟨l0, r0⟩, n0⟩ := e
    refine ⟨?_, ?_⟩
    · intro i l r new hi hin hfirst
      simp only [remapLoop]
      cases i with
      | zero =>
        simp only [List.getElem?_cons_zero, Option.some.injEq, Prod.mk.injEq] at hi
        obtain ⟨⟨rfl, rfl⟩, rfl⟩ := hi
        rw [if_pos ((inRange_iff h _ _ _).mpr hin)]
      | succ i =>
        have h0 := hfirst 0 (by omega) l0 r0 n0 (by simp)
        rw [if_neg (fun hc => h0 ((inRange_iff h _ _ _).mp hc))]
        refine ih.1 i l r new (by simpa using hi) hin ?_
        intro j hj l' r' n' hj'
        exact hfirst (j + 1) (by omega) l' r' n' (by simpa using hj')
    · intro hno
      simp only [remapLoop]
      rw [if_neg (fun hc => hno 0 l0 r0 n0 (by simp) ((inRange_iff h _ _ _).mp hc))]
      exact ih.2 fun i l r new hi => hno (i + 1) l r new (by simpa using hi)

/-- numpy's conversions of the arguments of `remap_range` to arrays lose nothing. -/
structure ExactArgs (np : NumPy) (ms : List Mapping) (nv : Option Scalar) : Prop where
  bounds : ∀ m ∈ ms, np.cast (boundsType ms) m.lo.val = m.lo.val ∧ np.cast (boundsType ms) m.hi.val = m.hi.val
  new : ∀ m ∈ ms, np.cast (newType ms nv) (newScalar nv m).val = (newScalar nv m).val

/-- The value as stored in a raster of type `out` (`general.py:1089` takes a detour over float32 for float16). -/
def Spec.stored (np : NumPy) (out : DType) (v : Num) : Num :=
  if out = f16 then np.cast f16 (np.cast f32 v) else np.cast out v

/-- **C25**: the result of `remap_range`, cell by cell.  A valid cell whose value lies in some range gets the new
value of the first such range (null for `None`), a valid cell outside all ranges keeps its value, and a cell is
null exactly if it was null, is sent to `None`, or its new value is the null value of the result. -/
theorem C25_remap_range {np : NumPy} {r o : Raster} {arg : MappingArg} {inclusivity : String} {ms : List Mapping}
    {out : DType} (hr : MaskNeedsNull r) (hown : ∀ c, np.cast r.dtype (r.data c) = r.data c)
    (hms : normalizeMappings arg = .ok ms) (hout : remapDtype np r ms = some out)
    (hargs : ExactArgs np ms (remapNull r ms out))
    (hnv : ∀ s, remapNull r ms out = some s → stored np out s.val = s.val)
    (h : remapRange np r arg inclusivity = .ok o) (c : Cell) :
    o.dtype = out ∧ o.nv = remapNull r ms out ∧ (o.nb, o.ny, o.nx) = (r.nb, r.ny, r.nx) ∧
    (r.mask c = true → o.mask c = true) ∧
    (r.mask c = false →
      (∀ i m, First inclusivity ms (np.cast (if out = f16 then f32 else out) (r.data c)) i m →
        (m.new = none → o.mask c = true) ∧
        ∀ w, m.new = some w → o.data c = stored np out w.val ∧
          (o.mask c = true ↔ ∃ s, o.nv = some s ∧ s.val = stored np out w.val)) ∧
      ((∀ m ∈ ms, ¬ Inside inclusivity m.lo.val m.hi.val (np.cast (if out = f16 then f32 else out) (r.data c))) →
        o.data c = stored np out (r.data c) ∧
          (o.mask c = true ↔ ∃ s, o.nv = some s ∧ s.val = stored np out (r.data c)))) := by
  unfold remapRange at h
  simp only [hms] at h
  split at h
  · cases h
  · rename_i inc hinc
    simp only [hout] at h
    injection h with h
    subst h
    have hmaskiff : ∀ v : Num, (maskOf ((remapNull r ms out).map (·.val)) v = true ↔
        ∃ s, remapNull r ms out = some s ∧ s.val = v) := by
      intro v
      cases hn : remapNull r ms out with
      | none => simp [maskOf]
      | some s =>
        rw [Option.map_some, maskOf_iff]
        simp [eq_comm]
    have hfin : ∀ v : Num, (if out = f16 then np.cast f16 (np.cast (if out = f16 then f32 else out) v)
        else np.cast (if out = f16 then f32 else out) v) = stored np out v := by
      intro v
      unfold stored
      by_cases ho : out = f16 <;> simp [ho]
    have hx : (if (if out = f16 then f32 else out) = r.dtype then r.data c
        else np.cast (if out = f16 then f32 else out) (r.data c)) = np.cast (if out = f16 then f32 else out) (r.data c) := by
      generalize (if out = f16 then f32 else out) = w
      by_cases hd : w = r.dtype
      · rw [if_pos hd, hd, hown]
      · rw [if_neg hd]
    have hb : boundsArray np ms = ms.map fun m => (m.lo.val, m.hi.val) := by
      unfold boundsArray
      apply List.map_congr_left
      intro m hm
      rw [(hargs.bounds m hm).1, (hargs.bounds m hm).2]
    have htable : ∀ (i : Nat) (m : Mapping), ms[i]? = some m → ((boundsArray np ms).zip ((newArray np ms (remapNull r ms out)).map
        (np.cast (if out = f16 then f32 else out))))[i]? = some ((m.lo.val, m.hi.val),
          np.cast (if out = f16 then f32 else out) (newScalar (remapNull r ms out) m).val) := by
      intro i m hi
      rw [hb]
      have hm : m ∈ ms := List.mem_of_getElem? hi
      simp only [List.getElem?_zip_eq_some, newArray, List.getElem?_map, hi, Option.map_some, Option.some.injEq,
        true_and]
      rw [hargs.new m hm]
    have htable' : ∀ (i : Nat) (l rr new : Num), ((boundsArray np ms).zip ((newArray np ms (remapNull r ms out)).map
        (np.cast (if out = f16 then f32 else out))))[i]? = some ((l, rr), new) →
        ∃ m, ms[i]? = some m ∧ l = m.lo.val ∧ rr = m.hi.val := by
      intro i l rr new hi
      rw [List.getElem?_zip_eq_some] at hi
      have h1 := hi.1
      rw [hb, List.getElem?_map] at h1
      cases hm : ms[i]? with
      | none => rw [hm] at h1; cases h1
      | some m =>
        rw [hm] at h1
        simp only [Option.map_some, Option.some.injEq, Prod.mk.injEq] at h1
        exact ⟨m, rfl, h1.1.symm, h1.2.symm⟩
    refine ⟨rfl, rfl, rfl, ?_, ?_⟩
    · intro hc
      simp only [ofData, hc, if_true]
      rw [hfin, hmaskiff]
      have : ∃ s, remapNull r ms out = some s := by
        unfold remapNull
        cases hrn : r.nv with
        | none => exact absurd hrn (hr c hc)
        | some s => exact ⟨s, rfl⟩
      obtain ⟨s, hs⟩ := this
      refine ⟨s, hs, ?_⟩
      rw [hs]
      exact (hnv s hs).symm
    · intro hc
      simp only [ofData, hc, Bool.false_eq_true, if_false, hx]
      obtain ⟨hl1, hl2⟩ := remapLoop_first hinc (np.cast (if out = f16 then f32 else out) (r.data c))
        ((boundsArray np ms).zip ((newArray np ms (remapNull r ms out)).map
          (np.cast (if out = f16 then f32 else out))))
      refine ⟨?_, ?_⟩
      · rintro i m ⟨hi, hin, hfirst⟩
        have hval := hl1 i _ _ _ (htable i m hi) hin (by
          intro j hj l' r' n' hj'
          obtain ⟨m', hm', rfl, rfl⟩ := htable' j l' r' n' hj'
          exact hfirst j hj m' hm')
        rw [hval]
        refine ⟨?_, ?_⟩
        · intro hnone
          rw [hfin, hmaskiff]
          have hm : m ∈ ms := List.mem_of_getElem? hi
          have : ∃ s, remapNull r ms out = some s := by
            unfold remapNull
            cases r.nv with
            | some s => exact ⟨s, rfl⟩
            | none => exact ⟨_, if_pos (List.any_eq_true.mpr ⟨m, hm, by simp [hnone]⟩)⟩
          obtain ⟨s, hs⟩ := this
          refine ⟨s, hs, ?_⟩
          simp only [newScalar, hnone, hs, Option.getD_some]
          exact (hnv s hs).symm
        · intro w hw
          simp only [newScalar, hw]
          rw [hfin, hmaskiff]
          exact ⟨rfl, Iff.rfl⟩
      · intro hno
        rw [hl2 (by
          intro i l rr new hi
          obtain ⟨m, hm, rfl, rfl⟩ := htable' i l rr new hi
          exact hno m (List.mem_of_getElem? hm))]
        rw [hfin, hmaskiff]
        exact ⟨rfl, Iff.rfl⟩

/-- The hypotheses of C25 are met by overlapping ranges on a raster with a null cell. -/
example : ∃ o ms, normalizeMappings (.list [.seq [.num (.int 0), .num (.int 5), .num (.int 7)],
      .seq [.num (.int 3), .num (.int 9), .none]]) = .ok ms ∧
    remapRange (idNumPy false) twoCells (.list [.seq [.num (.int 0), .num (.int 5), .num (.int 7)],
      .seq [.num (.int 3), .num (.int 9), .none]]) "left" = .ok o ∧
    remapDtype (idNumPy false) twoCells ms = some twoCells.dtype ∧ MaskNeedsNull twoCells ∧
    ExactArgs (idNumPy false) ms (remapNull twoCells ms twoCells.dtype) ∧
    (∀ s, remapNull twoCells ms twoCells.dtype = some s → stored (idNumPy false) twoCells.dtype s.val = s.val) := by
  refine ⟨_, _, rfl, rfl, by decide +kernel, ?_, ⟨fun m _ => ⟨rfl, rfl⟩, fun m _ => rfl⟩, ?_⟩
  · intro c hc
    obtain ⟨s, hs, _⟩ := twoCells_nulls c hc
    rw [hs]
    exact fun h => nomatch h
  · intro s _
    unfold stored
    split <;> rfl

theorem safeMinFloat_isFloat (np : NumPy) (x : Num) : (safeMinFloat np x).isFloat = true := by
  have tries : ∀ (l : List DType) (p : DType → Bool), (∀ d ∈ l, d.isFloat = true) → ((l.find? p).getD f64).isFloat = true := by
    intro l p hl
    cases h : l.find? p with
    | none => rfl
    | some d => exact hl d (List.mem_of_find?_eq_some h)
  unfold safeMinFloat
  split
  · apply tries
    intro d hd
    split at hd <;> simp at hd
    · rcases hd with rfl | rfl | rfl <;> rfl
    · rcases hd with rfl | rfl <;> rfl
    · rw [hd]; rfl
  · exact minScalarFloat_isFloat _

/-- **C25**, the dtype of the result: one that every number of the raster can be converted to safely and that holds every new value, a floating point
type if some new value is a `float`.  Without new values it is the dtype of the raster. -/
theorem C25_dtype (np : NumPy) (r : Raster) {ms : List Mapping}
    (hfit : ∃ d ∈ Nulls.Spec.preference, ∀ m ∈ ms, ∀ n, m.new = some (.int n) → d.Holds n) :
    ∃ out, remapDtype np r ms = some out ∧ r.dtype.canCast out = true ∧
      (∀ m ∈ ms, ∀ n, m.new = some (.int n) → out.isFloat = true ∨ out.Holds n) ∧
      (∀ m ∈ ms, ∀ x, m.new = some (.float x) → out.isFloat = true) ∧
      ((∀ m ∈ ms, m.new = none) → out = r.dtype) := by
  have hmem : ∀ a, a ∈ ms.filterMap (·.new) ↔ ∃ m ∈ ms, m.new = some a := fun a => List.mem_filterMap
  unfold remapDtype
  cases hv : ms.filterMap (·.new) with
  | nil =>
    have hn : ∀ m ∈ ms, m.new = none := by
      intro m hm
      cases h : m.new with
      | none => rfl
      | some a =>
        have := (hmem a).2 ⟨m, hm, h⟩
        rw [hv] at this
        exact absurd this (by simp)
    refine ⟨r.dtype, ?_, canCast_refl _, ?_, ?_, fun _ => rfl⟩
    · cases r.dtype <;> rfl
    · intro m hm n h
      rw [hn m hm] at h
      cases h
    · intro m hm x h
      rw [hn m hm] at h
      cases h
  | cons v vs =>
    rw [hv] at hmem
    obtain ⟨d, hd, hholds⟩ := hfit
    have hint : ∀ n, Item.int n ∈ (v :: vs).map (·.item np) → NullArg.int n ∈ v :: vs := by
      intro n h
      obtain ⟨a, ha, e⟩ := List.mem_map.1 h
      cases a with
      | int k =>
        cases e
        exact ha
      | float x => cases e
      | bool b => cases e
    obtain ⟨e, he, h1, h2, -⟩ := Nulls.C19_common_dtype_holds_literals (items := (v :: vs).map (·.item np)) (by simp)
      ⟨d, hd, fun n h => by
        obtain ⟨m, hm, hn⟩ := (hmem _).1 (hint n h)
        exact hholds m hm n hn⟩
    obtain ⟨out, ho, c1, c2⟩ := promote_spec r.dtype e
    refine ⟨out, ?_, c1, ?_, ?_, ?_⟩
    · show (commonDtype ((v :: vs).map (·.item np))).bind (fun d => r.dtype.promote d) = some out
      rw [he]
      exact ho
    · intro m hm n h
      have hin : Item.int n ∈ (v :: vs).map (·.item np) := List.mem_map.2 ⟨.int n, (hmem _).2 ⟨m, hm, h⟩, rfl⟩
      cases hf : out.isFloat with
      | true => exact .inl rfl
      | false =>
        refine .inr ?_
        rcases h1 n hin with hef | heh
        · rw [canCast_float c2 hef] at hf
          cases hf
        · exact canCast_limits c2 hf heh
    · intro m hm x h
      have hin : Item.other (safeMinFloat np x) ∈ (v :: vs).map (·.item np) :=
        List.mem_map.2 ⟨.float x, (hmem _).2 ⟨m, hm, h⟩, rfl⟩
      exact canCast_float c2 (canCast_float (h2 _ (.inr hin)) (safeMinFloat_isFloat np x))
    · intro hn
      obtain ⟨m, hm, h⟩ := (hmem v).1 (by simp)
      rw [hn m hm] at h
      cases h

/-- The hypothesis is met; a new value that the raster's dtype does not hold makes the dtype wider. -/
example : (∃ d ∈ Nulls.Spec.preference, ∀ m ∈ [(⟨.int 0, .int 5, some (.int 300)⟩ : Mapping), ⟨.int 5, .int 6, some (.float (.fin (1 / 2)))⟩],
      ∀ n, m.new = some (.int n) → d.Holds n) ∧
    remapDtype (idNumPy false) { twoCells with dtype := u8 } [⟨.int 0, .int 5, some (.int 300)⟩] = some u16 := by
  refine ⟨⟨u16, by decide, ?_⟩, by decide +kernel⟩
  intro m hm n h
  simp at hm
  rcases hm with rfl | rfl
  · simp at h
    subst h
    exact ⟨0, 65535, rfl, by norm_num, by norm_num⟩
  · simp at h

/-- **C25**, when it fails: a rejected mapping, an unknown inclusivity, or (never for numbers numpy can hold) no
common dtype. -/
theorem C25_rejected (np : NumPy) (r : Raster) (arg : MappingArg) (inclusivity : String) :
    (∃ o, remapRange np r arg inclusivity = .ok o) ↔
      inclusivity ∈ ["left", "right", "both", "none"] ∧
        ∃ ms, normalizeMappings arg = .ok ms ∧ ∃ out, remapDtype np r ms = some out := by
  have hcode : (∃ inc, inclusivityCode inclusivity = some inc) ↔ inclusivity ∈ ["left", "right", "both", "none"] := by
    unfold inclusivityCode
    split <;> simp_all
  constructor
  · rintro ⟨o, h⟩
    unfold remapRange at h
    split at h
    · cases h
    · rename_i ms hms
      split at h
      · cases h
      · rename_i inc hinc
        split at h
        · cases h
        · rename_i out hout
          exact ⟨hcode.mp ⟨inc, hinc⟩, ms, hms, out, hout⟩
  · rintro ⟨h1, ms, h2, out, h3⟩
    obtain ⟨inc, hinc⟩ := hcode.mpr h1
    unfold remapRange
    simp only [h2, hinc, h3]
    exact ⟨_, rfl⟩

theorem checkMappings_first {pre : List Mapping} (hpre : ∀ m ∈ pre, Legal m) {ps : List Py} {e : Err}
    (h : checkMapping ps = .error e) (post : List (List Py)) :
    checkMappings (pre.map written ++ ps :: post) = .error e := by
  induction pre with
  | nil => simp only [List.map_nil, List.nil_append, checkMappings, h]
  | cons m pre ih =>
    simp only [List.map_cons, List.cons_append, checkMappings,
      (checkMapping_iff (written m) m).mpr ⟨hpre m (by simp), rfl⟩, ih (fun x hx => hpre x (by simp [hx]))]

/-- The number is not one: a bool, `None` or anything else. -/
def NoNumber : Py → Prop
  | .num (.bool _) => True
  | .num _ => False
  | _ => True

theorem noNumber_iff (p : Py) : NoNumber p ↔ isScalar p = false := by
  cases p with
  | num v => cases v <;> simp [NoNumber, isScalar]
  | none => simp [NoNumber, isScalar]
  | other => simp [NoNumber, isScalar]

/-- What is wrong with a mapping, in the order in which it is noticed, and the kind of error. -/
inductive Faulty : List Py → Err → Prop
  | length {ps : List Py} : ps.length ≠ 3 → Faulty ps .value
  | bounds {a b c : Py} : NoNumber a ∨ NoNumber b → Faulty [a, b, c] .type
  | nan {lo hi : NullArg} {c : Py} : IsNumber lo → IsNumber hi → lo.val = .nan ∨ hi.val = .nan →
      Faulty [.num lo, .num hi, c] .value
  | order {lo hi : NullArg} {c : Py} : IsNumber lo → IsNumber hi → ¬ lt lo.val hi.val = true →
      Faulty [.num lo, .num hi, c] .value
  | new {lo hi : NullArg} {c : Py} : IsNumber lo → IsNumber hi → lt lo.val hi.val = true → NoNumber c → c ≠ .none →
      Faulty [.num lo, .num hi, c] .value

theorem faulty_error {ps : List Py} {e : Err} (h : Faulty ps e) : checkMapping ps = .error e := by
  have hnum : ∀ v : NullArg, IsNumber v → isScalar (.num v) = true := by
    intro v hv
    cases v <;> simp_all [IsNumber, isScalar]
  cases h with
  | length h =>
    rcases ps with _ | ⟨a, _ | ⟨b, _ | ⟨c, _ | ⟨d, t⟩⟩⟩⟩ <;> first | rfl | simp at h
  | @bounds a b c h =>
    have h' : (!(isScalar a && isScalar b)) = true := by
      rw [Bool.not_eq_true', Bool.and_eq_false_iff]
      rcases h with h | h
      · exact Or.inl ((noNumber_iff _).mp h)
      · exact Or.inr ((noNumber_iff _).mp h)
    simp only [checkMapping]
    rw [if_pos h']
  | nan h1 h2 h =>
    simp only [checkMapping, hnum _ h1, hnum _ h2, Bool.and_self, Bool.not_true, Bool.false_eq_true, if_false]
    rw [if_pos]
    rcases h with h | h <;> simp [h, Num.isnan]
  | order h1 h2 h =>
    simp only [checkMapping, hnum _ h1, hnum _ h2, Bool.and_self, Bool.not_true, Bool.false_eq_true, if_false]
    split
    · rfl
    · next hn =>
      rw [if_pos]
      simp only [Bool.or_eq_true, not_or] at hn
      have ha : ∀ v : Num, ¬ v.isnan = true → v ≠ .nan := fun v hv e => hv (by rw [e]; rfl)
      by_contra hc
      exact h ((lt_total (ha _ hn.1) (ha _ hn.2)).mpr (by simpa using hc))
  | new h1 h2 h h3 h4 =>
    simp only [checkMapping, hnum _ h1, hnum _ h2, Bool.and_self, Bool.not_true, Bool.false_eq_true, if_false]
    split
    · rfl
    · split
      · rfl
      · rename_i c _ _
        cases c with
        | num v => cases v <;> simp_all [NoNumber]
        | none => exact absurd rfl h4
        | other => rfl

/-- **C25**, the kinds of errors: a type error if the mappings are no list or one of them is a single value where lists
are expected, a value error for an empty list; otherwise the error of the first faulty mapping; and, if the mappings are
fine, a value error for an unknown `inclusivity`. -/
theorem C25_errors (np : NumPy) (r : Raster) (inclusivity : String) :
    remapRange np r .other inclusivity = .error .type ∧
    remapRange np r (.list []) inclusivity = .error .value ∧
    (∀ p rest, NoNumber p → remapRange np r (.list (.one p :: rest)) inclusivity = .error .type) ∧
    (∀ qs (pre : List (List Py)) p post, remapRange np r (.list (.seq qs :: pre.map Item.seq ++ .one p :: post)) inclusivity = .error .type) ∧
    (∀ pre : List Mapping, (∀ m ∈ pre, Legal m) → ∀ ps e, Faulty ps e → ∀ post : List (List Py),
      remapRange np r (.list (pre.map (fun m => Item.seq (written m)) ++ .seq ps :: post.map Item.seq)) inclusivity = .error e) ∧
    (∀ p rest e, ¬ NoNumber p → Faulty (p :: rest) e →
      remapRange np r (.list (.one p :: rest.map Item.one)) inclusivity = .error e) ∧
    (∀ arg ms, normalizeMappings arg = .ok ms → inclusivity ∉ ["left", "right", "both", "none"] →
      remapRange np r arg inclusivity = .error .value) := by
  have hrun : ∀ arg e, normalizeMappings arg = .error e → remapRange np r arg inclusivity = .error e := by
    intro arg e h
    unfold remapRange
    rw [h]
  refine ⟨rfl, rfl, ?_, ?_, ?_, ?_, ?_⟩
  · intro p rest hp
    refine hrun _ _ ?_
    simp only [normalizeMappings, asSequences, (noNumber_iff p).mp hp, Bool.false_eq_true, if_false, asLists]
  · intro qs pre p post
    refine hrun _ _ ?_
    have : ∀ l : List (List Py), asLists (l.map Item.seq ++ .one p :: post) = .error .type := by
      intro l
      induction l with
      | nil => rfl
      | cons q l ih => simp only [List.map_cons, List.cons_append, asLists, ih]
    have h2 := this (qs :: pre)
    simp only [List.map_cons, List.cons_append] at h2
    simp only [normalizeMappings, List.cons_append, asSequences, h2]
  · intro pre hpre ps e hf post
    refine hrun _ _ ?_
    have h1 : pre.map (fun m => Item.seq (written m)) ++ .seq ps :: post.map Item.seq =
        (pre.map written ++ ps :: post).map Item.seq := by simp
    have h2 : asSequences (.list ((pre.map written ++ ps :: post).map Item.seq)) = .ok (pre.map written ++ ps :: post) := by
      have := (asLists_iff _ (pre.map written ++ ps :: post)).mpr rfl
      cases pre with
      | nil => exact this
      | cons m pre => exact this
    rw [normalizeMappings, h1, h2]
    exact checkMappings_first hpre (faulty_error hf) post
  · intro p rest e hp hf
    refine hrun _ _ ?_
    have hs : isScalar p = true := by
      cases h : isScalar p with
      | true => rfl
      | false => exact absurd ((noNumber_iff p).mpr h) hp
    have hr : (rest.map Item.one).map Item.py = rest := by
      rw [List.map_map]
      exact List.map_id' rest
    simp only [normalizeMappings, asSequences, hs, if_true, hr]
    simp only [checkMappings, faulty_error hf]
  · intro arg ms h hi
    unfold remapRange
    rw [h]
    have : inclusivityCode inclusivity = none := by
      unfold inclusivityCode
      split <;> simp_all
    simp only [this]

/-- A second mapping whose bounds are the wrong way round, and one with a string for its lower bound. -/
example : Legal ⟨.int 0, .int 5, none⟩ ∧ Faulty [.num (.int 5), .num (.int 5), .none] .value ∧
    Faulty [.other, .num (.int 5), .none] .type :=
  ⟨⟨trivial, trivial, by decide +kernel, by simp⟩, .order trivial trivial (by decide +kernel), .bounds (Or.inl trivial)⟩

/-- **Boolean rasters lose their True cells**: `remap_range` takes the null cells of the result from the values,
and a boolean raster with nulls has the null value True, so a mapping that matches nothing turns every valid True
cell into null. -/
theorem C25_boolean_true_lost :
    ∃ o, remapRange (boolNumPy false) ⟨.bool, 1, 1, 2, fun _ => .fin 1, fun c => c.2.2 == 1, some ⟨.bool, .fin 1⟩⟩
      (.list [.one (.num (.int 5)), .one (.num (.int 6)), .one (.num (.int 7))]) "left" = .ok o ∧
      o.mask (0, 0, 0) = true :=
  ⟨_, rfl, by decide +kernel⟩

/-! ### C26: reclassify -/

theorem dictGet_some {v : Num} {table : List (Num × Num)} (hnd : (table.map (·.1)).Nodup) {k t : Num}
    (hm : (k, t) ∈ table) (hk : k.eq v = true) : dictGet v table = some t := by
  induction table with
  | nil => cases hm
  | cons e table ih =>
    obtain ⟨k', t'⟩ := e
    simp only [List.map_cons, List.nodup_cons] at hnd
    rcases List.mem_cons.mp hm with h | h
    · simp only [Prod.mk.injEq] at h
      obtain ⟨rfl, rfl⟩ := h
      simp only [dictGet]
      have hnone : dictGet v table = none := by
        cases hd : dictGet v table with
        | none => rfl
        | some t2 =>
          exfalso
          have hex : ∀ tb : List (Num × Num), dictGet v tb = some t2 → ∃ k2, (k2, t2) ∈ tb ∧ k2.eq v = true := by
            intro tb
            induction tb with
            | nil => intro h; cases h
            | cons e tb ih2 =>
              obtain ⟨k3, t3⟩ := e
              intro h
              simp only [dictGet] at h
              split at h
              · rename_i t4 h4
                injection h with h
                subst h
                obtain ⟨k2, h5, h6⟩ := ih2 h4
                exact ⟨k2, by simp [h5], h6⟩
              · split at h
                · rename_i h7
                  injection h with h
                  subst h
                  exact ⟨k3, by simp, h7⟩
                · cases h
          obtain ⟨k2, h2, h3⟩ := hex table hd
          have : k2 = k := by
            rw [((Num.eq_iff _ _).mp h3).1, ((Num.eq_iff _ _).mp hk).1]
          subst this
          exact hnd.1 (List.mem_map.mpr ⟨_, h2, rfl⟩)
      rw [hnone]
      simp [hk]
    · simp only [dictGet, ih hnd.2 h]

theorem dictGet_none {v : Num} {table : List (Num × Num)} (h : ∀ k t, (k, t) ∈ table → k.eq v = false) :
    dictGet v table = none := by
  induction table with
  | nil => rfl
  | cons e table ih =>
    obtain ⟨k, t⟩ := e
    simp only [dictGet, ih fun k t hm => h k t (by simp [hm]), h k t (by simp)]
    rfl

/-- **C26**, one call: a valid cell equal to a key gets the key's value, or null for `None`; other valid cells are
kept or become null as asked for; null cells stay null.  A cell is null exactly if it was null, is sent to null, or
(when the result has a null value) its new value equals the null value.  The conversions of keys and values are
assumed to be exact, in particular that of the cell's value to the type of the keys. -/
theorem C26_reclassify {np : NumPy} {r o : Raster} {remapping after : Remapping} {newType : Option DType}
    {flag : Bool} {out : DType} (hr : MaskNeedsNull r) (hout : reclassifyDtype r newType = some out)
    (hkey : ∀ kt ∈ remapping, np.cast (keyType remapping) kt.1.val = kt.1.val)
    (hnew : ∀ kt ∈ remapping, ∀ s, kt.2 = some s →
      np.cast (valueType (r.nv.getD (defaultNull out)) remapping) s.val = s.val ∧ np.cast out s.val = s.val)
    (hnull : np.cast out (r.nv.getD (defaultNull out)).val = (r.nv.getD (defaultNull out)).val)
    (hnull' : (∃ kt ∈ remapping, kt.2 = none) → np.cast (valueType (r.nv.getD (defaultNull out)) remapping)
      (r.nv.getD (defaultNull out)).val = (r.nv.getD (defaultNull out)).val)
    (hkeys : (remapping.map (·.1.val)).Nodup)
    (h : reclassify np r remapping newType flag = .ok (o, after)) {c : Cell}
    (hval : np.cast (keyType remapping) (r.data c) = r.data c) (hval' : np.cast out (r.data c) = r.data c) :
    o.dtype = out ∧
    (o.nv = if r.masked ∨ flag = true ∨ (∃ kt ∈ remapping, kt.2 = none) then some (r.nv.getD (defaultNull out)) else none) ∧
    (r.mask c = true → o.mask c = true) ∧
    (r.mask c = false →
      (∀ k t, (k, t) ∈ remapping → k.val.eq (r.data c) = true →
        (t = none → o.mask c = true) ∧
        ∀ s, t = some s → o.data c = s.val ∧ (o.mask c = true ↔ ∃ n, o.nv = some n ∧ n.val = s.val)) ∧
      ((∀ k t, (k, t) ∈ remapping → k.val.eq (r.data c) = false) →
        (flag = true → o.mask c = true) ∧
        (flag = false → o.data c = r.data c ∧ (o.mask c = true ↔ ∃ n, o.nv = some n ∧ n.val = r.data c)))) := by
  unfold reclassify at h
  simp only [hout] at h
  injection h with h
  simp only [Prod.mk.injEq] at h
  obtain ⟨h, -⟩ := h
  have hmiff : (r.masked || flag || remapping.any (·.2.isNone)) = true ↔
      (r.masked ∨ flag = true ∨ ∃ kt ∈ remapping, kt.2 = none) := by
    simp [Bool.or_eq_true, List.any_eq_true, or_assoc]
  have hnveq : (if (r.masked || flag || remapping.any (·.2.isNone)) = true then some (r.nv.getD (defaultNull out)) else none)
      = (if r.masked ∨ flag = true ∨ (∃ kt ∈ remapping, kt.2 = none) then some (r.nv.getD (defaultNull out)) else none) := by
    simp only [hmiff]
  have honv : o.nv = if r.masked ∨ flag = true ∨ (∃ kt ∈ remapping, kt.2 = none) then some (r.nv.getD (defaultNull out)) else none := by
    rw [← h, ← hnveq]; rfl
  have hmask : ∀ v, o.data c = v → (o.mask c = true ↔ ∃ n, o.nv = some n ∧ n.val = v) := by
    intro v hv
    have e : o.mask c = maskOf (o.nv.map (·.val)) (o.data c) := by rw [← h]; rfl
    rw [e, hv]
    cases hn : o.nv with
    | none => simp [maskOf]
    | some s =>
      rw [Option.map_some, maskOf_iff]
      simp [eq_comm]
  have hkt : ∀ nv : Scalar, keyType (remapping.map fun kt => (kt.1, some (kt.2.getD nv))) = keyType remapping := by
    intro nv
    simp [keyType, List.map_map, Function.comp_def]
  have hvt : ∀ nv : Scalar, valueType nv (remapping.map fun kt => (kt.1, some (kt.2.getD nv))) = valueType nv remapping := by
    intro nv
    simp [valueType, List.map_map, Function.comp_def]
  have htab : ∀ nv : Scalar, nv = r.nv.getD (defaultNull out) →
      ((remapping.map fun kt => (kt.1, some (kt.2.getD nv))).map fun kt =>
        (np.cast (keyType remapping) kt.1.val, np.cast out (np.cast (valueType nv remapping) (kt.2.getD nv).val))) =
      remapping.map fun kt => (kt.1.val, (kt.2.getD nv).val) := by
    intro nv hnv
    rw [List.map_map]
    apply List.map_congr_left
    intro kt hkt
    simp only [Function.comp, Option.getD_some]
    rw [hkey kt hkt]
    congr 1
    cases h2 : kt.2 with
    | none =>
      simp only [Option.getD_none]
      rw [hnv, hnull' ⟨kt, hkt, h2⟩, hnull]
    | some s =>
      simp only [Option.getD_some]
      rw [hnv, (hnew kt hkt s h2).1, (hnew kt hkt s h2).2]
  have hnd : ((remapping.map fun kt => (kt.1.val, (kt.2.getD (r.nv.getD (defaultNull out))).val)).map (·.1)).Nodup := by
    rw [List.map_map]; exact hkeys
  have hdata : o.data c = if r.mask c then (r.nv.getD (defaultNull out)).val else
      (dictGet (r.data c) (remapping.map fun kt => (kt.1.val, (kt.2.getD (r.nv.getD (defaultNull out))).val))).getD
        (if flag then (r.nv.getD (defaultNull out)).val else r.data c) := by
    rw [← h]
    simp only [ofData, hkt, hvt, htab _ rfl, hval, hval', hnull]
  refine ⟨by rw [← h]; rfl, honv, ?_, ?_⟩
  · intro hc
    rw [if_pos hc] at hdata
    rw [hmask _ hdata]
    refine ⟨r.nv.getD (defaultNull out), ?_, rfl⟩
    rw [honv, if_pos]
    left
    have := hr c hc
    cases hn : r.nv with
    | none => exact absurd hn this
    | some s => simp [Raster.masked, hn]
  · intro hc
    rw [if_neg (by simp [hc])] at hdata
    refine ⟨?_, ?_⟩
    · intro k t hkt hk
      rw [dictGet_some hnd (k := k.val) (t := (t.getD (r.nv.getD (defaultNull out))).val)
        (List.mem_map.mpr ⟨(k, t), hkt, rfl⟩) hk, Option.getD_some] at hdata
      refine ⟨?_, ?_⟩
      · rintro rfl
        rw [hmask _ hdata]
        refine ⟨_, ?_, rfl⟩
        rw [honv, if_pos (Or.inr (Or.inr ⟨_, hkt, rfl⟩))]
        rfl
      · rintro s rfl
        exact ⟨hdata, hmask _ hdata⟩
    · intro hno
      rw [dictGet_none (by
        intro k t hm
        obtain ⟨kt, hkt, e⟩ := List.mem_map.mp hm
        simp only [Prod.mk.injEq] at e
        rw [← e.1]
        exact hno kt.1 kt.2 hkt), Option.getD_none] at hdata
      refine ⟨?_, ?_⟩
      · intro hf
        rw [if_pos hf] at hdata
        rw [hmask _ hdata]
        refine ⟨_, ?_, rfl⟩
        rw [honv, if_pos (Or.inr (Or.inl hf))]
      · intro hf
        rw [if_neg (by simp [hf])] at hdata
        exact ⟨hdata, hmask _ hdata⟩

/-- The type of an integer in an array holds it, and it is the signed one whenever that holds it. -/
theorem arrayType_holds {n : Int} (h : u64.Holds n ∨ i64.Holds n) :
    (arrayType (.int n)).Holds n ∧ (i64.Holds n → arrayType (.int n) = i64) := by
  have hu : u64.Holds n ↔ 0 ≤ n ∧ n ≤ 18446744073709551615 := by simp [DType.Holds, DType.limits]
  have hi : i64.Holds n ↔ -9223372036854775808 ≤ n ∧ n ≤ 9223372036854775807 := by simp [DType.Holds, DType.limits]
  rw [hu, hi] at h
  unfold arrayType
  by_cases hn : n ≤ 2 ^ 63 - 1
  · simp only [if_pos hn, hi]
    exact ⟨by omega, fun _ => trivial⟩
  · simp only [if_neg hn, hu, hi]
    exact ⟨by omega, fun _ => by omega⟩

/-- **C26**, the shape of the result is that of the raster. -/
theorem C26_shape {np : NumPy} {r o : Raster} {remapping after : Remapping} {newType : Option DType}
    {flag : Bool} (h : reclassify np r remapping newType flag = .ok (o, after)) :
    o.nb = r.nb ∧ o.ny = r.ny ∧ o.nx = r.nx := by
  unfold reclassify at h
  split at h
  · cases h
  · simp only [Except.ok.injEq, Prod.mk.injEq] at h
    rw [← h.1]
    exact ⟨rfl, rfl, rfl⟩

/-- **C26**, the mapping: `reclassify` changes the dict of the caller exactly if it has a `None`: every `None` is
overwritten with the null value used for this raster. -/
theorem C26_mapping_after {np : NumPy} {r o : Raster} {remapping after : Remapping} {newType : Option DType}
    {flag : Bool} {out : DType} (hout : reclassifyDtype r newType = some out)
    (h : reclassify np r remapping newType flag = .ok (o, after)) :
    after = remapping.map (fun kt => (kt.1, some (kt.2.getD (r.nv.getD (defaultNull out))))) ∧
    (after = remapping ↔ ∀ kt ∈ remapping, kt.2 ≠ none) := by
  unfold reclassify at h
  simp only [hout] at h
  injection h with h
  simp only [Prod.mk.injEq] at h
  obtain ⟨-, h⟩ := h
  refine ⟨h.symm, ?_⟩
  rw [← h]
  constructor
  · intro e kt hkt hnone
    have : kt ∈ remapping.map (fun kt => (kt.1, some (kt.2.getD (r.nv.getD (defaultNull out))))) := by rw [e]; exact hkt
    obtain ⟨kt', _, e'⟩ := List.mem_map.mp this
    rw [← e'] at hnone
    cases hnone
  · intro hall
    conv => rhs; rw [← List.map_id remapping]
    apply List.map_congr_left
    intro kt hkt
    cases h2 : kt.2 with
    | none => exact absurd h2 (hall kt hkt)
    | some s => simp only [Option.getD_some, id]; rw [← h2]

/-- A uint8 raster without nulls, all cells 1. -/
def ones : Raster := ⟨u8, 1, 1, 1, fun _ => .fin 1, fun _ => false, none⟩

/-- **C26 fails for a mapping that is used twice**: the first call with `{1: None}` makes the cell null; the second
call, with the same arguments, does not, because the dict now says `{1: 255}`. -/
theorem C26_second_call_differs :
    ∃ o1 m1 o2 m2, reclassify (idNumPy false) ones [(.int 1, none)] none false = .ok (o1, m1) ∧
      o1.mask (0, 0, 0) = true ∧ reclassify (idNumPy false) ones m1 (some u8) false = .ok (o2, m2) ∧
      o2.mask (0, 0, 0) = false ∧ o2.nv = none ∧ o2.data (0, 0, 0) = .fin 255 :=
  ⟨_, _, _, _, rfl, by decide +kernel, rfl, by decide +kernel, by decide +kernel, by decide +kernel⟩

/-- **C26 fails for fractional values and integer keys**: the value looked up is converted to the type of the
keys, so where that truncates, a cell of 1.5 is taken for the key 1. -/
theorem C26_fraction_matches_integer_key {np : NumPy} (htrunc : np.cast i64 (.fin (3 / 2)) = .fin 1)
    (h1 : np.cast i64 (.fin 1) = .fin 1) (h2 : np.cast i64 (.fin 10) = .fin 10) (h3 : np.cast f64 (.fin 10) = .fin 10) :
    ∃ o m, reclassify np ⟨f64, 1, 1, 1, fun _ => .fin (3 / 2), fun _ => false, none⟩ [(.int 1, some ⟨i64, .fin 10⟩)]
      (some u8) false = .ok (o, m) ∧ o.data (0, 0, 0) = .fin 10 := by
  refine ⟨_, _, rfl, ?_⟩
  have e1 : (DType.promote u8 f64) = some f64 := by decide
  simp [ofData, keyType, valueType, listType, reducePromote, arrayType, NullArg.val, htrunc, h1, h2, h3, dictGet, Num.eq]

/-- The hypotheses of C26 are met. -/
example : ∃ o m, reclassify (idNumPy false) ones [(.int 1, some ⟨i64, .fin 4⟩), (.int 2, none)] (some u8) true = .ok (o, m) ∧
    MaskNeedsNull ones ∧ reclassifyDtype ones (some u8) = some u8 ∧
    (([(.int 1, some ⟨i64, .fin 4⟩), (.int 2, none)] : Remapping).map (·.1.val)).Nodup ∧
    o.data (0, 0, 0) = .fin 4 ∧ o.mask (0, 0, 0) = false :=
  ⟨_, _, rfl, (fun c h => nomatch h), by decide, by decide +kernel, by decide +kernel, by decide +kernel⟩

/-! ### The dtypes of the arrays of arguments -/

theorem listType_least {ds : List DType} (hne : ds ≠ []) : (∀ d ∈ ds, d.canCast (listType ds) = true) ∧
    ∀ c, NotSmallFloat c → (∀ d ∈ ds, d.canCast c = true) → (listType ds).canCast c = true := by
  obtain ⟨r, hr, h1, h2, -⟩ := reducePromote_spec hne
  unfold listType
  rw [hr]
  exact ⟨h1, h2⟩

/-- **C25**: the array of bounds has the least dtype that both bounds of every range can be cast to safely, and the array of new values
the least one for every new value, float16 and float32 aside. -/
theorem C25_array_types {ms : List Mapping} (hne : ms ≠ []) (nv : Option Scalar) :
    (∀ m ∈ ms, (arrayType m.lo).canCast (boundsType ms) = true ∧ (arrayType m.hi).canCast (boundsType ms) = true) ∧
    (∀ c, NotSmallFloat c → (∀ m ∈ ms, (arrayType m.lo).canCast c = true ∧ (arrayType m.hi).canCast c = true) →
      (boundsType ms).canCast c = true) ∧
    (∀ m ∈ ms, (∀ v, m.new = some v → (arrayType v).canCast (newType ms nv) = true) ∧
      (∀ s, m.new = none → nv = some s → s.ty.canCast (newType ms nv) = true)) ∧
    (∀ c s, nv = some s → NotSmallFloat c → (∀ m ∈ ms, ∀ v, m.new = some v → (arrayType v).canCast c = true) →
      s.ty.canCast c = true → (newType ms nv).canCast c = true) := by
  obtain ⟨m0, rest, rfl⟩ := List.exists_cons_of_ne_nil hne
  obtain ⟨h1, h2⟩ := listType_least (ds := (m0 :: rest).flatMap fun m => [arrayType m.lo, arrayType m.hi]) (by simp)
  obtain ⟨h3, h4⟩ := listType_least (ds := (m0 :: rest).map fun m => (newScalar nv m).ty) (by simp)
  refine ⟨fun m hm => ⟨h1 _ (List.mem_flatMap.2 ⟨m, hm, by simp⟩), h1 _ (List.mem_flatMap.2 ⟨m, hm, by simp⟩)⟩, fun c hc h => h2 c hc fun d hd => ?_,
    fun m hm => ⟨fun v hv => ?_, fun s hn hs => ?_⟩, fun c s hs hc h hsc => h4 c hc fun d hd => ?_⟩
  · obtain ⟨m, hm, hd⟩ := List.mem_flatMap.1 hd
    simp only [List.mem_cons, List.not_mem_nil, or_false] at hd
    rcases hd with rfl | rfl
    · exact (h m hm).1
    · exact (h m hm).2
  · have e : (newScalar nv m).ty = arrayType v := by simp only [newScalar, hv]
    exact e ▸ h3 _ (List.mem_map.2 ⟨m, hm, rfl⟩)
  · have e : (newScalar nv m).ty = s.ty := by simp only [newScalar, hn, hs, Option.getD_some]
    exact e ▸ h3 _ (List.mem_map.2 ⟨m, hm, rfl⟩)
  · obtain ⟨m, hm, rfl⟩ := List.mem_map.1 hd
    unfold newScalar
    split
    · rename_i v hv
      exact h m hm v hv
    · rw [hs]
      exact hsc

/-- **C26**: the array of keys has the least dtype that every key can be cast to safely, the array of values the least one for every
value, float16 and float32 aside. -/
theorem C26_array_types {m : Remapping} (hne : m ≠ []) (nv : Scalar) :
    (∀ kt ∈ m, (arrayType kt.1).canCast (keyType m) = true) ∧
    (∀ c, NotSmallFloat c → (∀ kt ∈ m, (arrayType kt.1).canCast c = true) → (keyType m).canCast c = true) ∧
    (∀ kt ∈ m, ((kt.2.getD nv).ty).canCast (valueType nv m) = true) ∧
    (∀ c, NotSmallFloat c → (∀ kt ∈ m, ((kt.2.getD nv).ty).canCast c = true) → (valueType nv m).canCast c = true) := by
  obtain ⟨h1, h2⟩ := listType_least (ds := m.map fun kt => arrayType kt.1) (by simpa using hne)
  obtain ⟨h3, h4⟩ := listType_least (ds := m.map fun kt => (kt.2.getD nv).ty) (by simpa using hne)
  refine ⟨fun kt hk => h1 _ (List.mem_map.2 ⟨kt, hk, rfl⟩), fun c hc h => h2 c hc fun d hd => ?_,
    fun kt hk => h3 _ (List.mem_map.2 ⟨kt, hk, rfl⟩), fun c hc h => h4 c hc fun d hd => ?_⟩
  · obtain ⟨kt, hk, rfl⟩ := List.mem_map.1 hd
    exact h kt hk
  · obtain ⟨kt, hk, rfl⟩ := List.mem_map.1 hd
    exact h kt hk

/-- An integer and a fraction as bounds or keys make an array of doubles. -/
example : boundsType [⟨.int 1, .float (.fin (5 / 2)), none⟩] = f64 ∧ NotSmallFloat f64 ∧
    keyType [(.int 1, none), (.float (.fin (5 / 2)), none)] = f64 ∧ keyType [(.bool true, none), (.int 3, none)] = i64 := by decide +kernel

/-! ### C27: where -/

namespace Spec

/-- The condition holds: positive for integers, true for booleans. -/
def Holds (cond : Raster) (c : Cell) : Prop :=
  if cond.dtype.isInt then ∃ q : Rat, 0 < q ∧ cond.data c = .fin q else cond.data c ≠ .fin 0

/-- The operand is null at the cell. -/
def NullAt : Arg → Cell → Prop
  | .raster r, c => r.mask c = true
  | .num _, _ => False
  | .null, _ => True

/-- The value of an operand that is not null. -/
def HasValue : Arg → Cell → Num → Prop
  | .raster r, c, v => r.data c = v
  | .num w, _, v => w.val = v
  | .null, _, _ => False

open Classical in
/-- The operand selected at the cell. -/
noncomputable def selected (cond : Raster) (x y : Arg) (c : Cell) : Arg := if Holds cond c then x else y

/-- Null according to the documentation of `where`. -/
def DocumentedNull (cond : Raster) (x y : Arg) (c : Cell) : Prop :=
  cond.mask c = true ∨ NullAt (selected cond x y c) c

end Spec

/-- The mask of an operand without null value is empty. -/
def Clean : Arg → Prop
  | .raster r => MaskNeedsNull r
  | _ => True

theorem cond_iff (cond : Raster) (hc : ∀ c, ∃ n : Int, cond.data c = .fin n)
    (c : Cell) : condTrue cond c = true ↔ Spec.Holds cond c := by
  obtain ⟨n, hn⟩ := hc c
  unfold Spec.Holds condTrue
  split
  · rw [hn]
    simp [lt]
  · rw [hn]
    simp [Num.eq]

/-- **C27**, exact: a cell of the result is null exactly if it is null according to the documentation or the value
selected equals the null value of the result; a cell that is not null holds the value selected.  Without any null
involved nothing is null. -/
theorem C27_where_partial {np : NumPy} {cond : Raster} {x y : Arg} {out : DType} {o : Raster}
    (hcond : MaskNeedsNull cond) (hx : Clean x) (hy : Clean y) (hints : ∀ c, ∃ n : Int, cond.data c = .fin n)
    (hnv : ∀ nv, whereNv np x y = some nv → np.cast out nv.val = nv.val)
    (h : whereRaster np cond x y out = .ok o) (c : Cell) :
    (o.mask c = true ↔ DocumentedNull cond x y c ∨
      ∃ nv v, o.nv = some nv ∧ HasValue (selected cond x y c) c v ∧ np.cast out v = nv.val) ∧
    (¬ DocumentedNull cond x y c → ∃ v, HasValue (selected cond x y c) c v ∧ o.data c = np.cast out v) ∧
    (o.nv = none ↔ cond.nv = none ∧ x.masked = false ∧ y.masked = false ∧ x.isNull = false ∧ y.isNull = false) := by
  unfold whereRaster at h
  split at h
  · cases h
  · rename_i hd
    split at h
    · cases h
    · have hval : ∀ (a : Arg) (nv : Num), ¬ NullAt a c → HasValue a c (a.value nv c) := by
        intro a nv ha
        cases a with
        | raster r => rfl
        | num w => rfl
        | null => exact ha trivial
      have huniq : ∀ (a : Arg) (nv v : Num), HasValue a c v → v = a.value nv c := by
        intro a nv v hv
        cases a with
        | raster r => exact hv.symm
        | num w => exact hv.symm
        | null => exact hv.elim
      have hmasknull : ∀ a : Arg, a.mask c = true → NullAt a c := by
        intro a ha
        cases a with
        | raster r => exact ha
        | num w => cases ha
        | null => trivial
      simp only at h
      split at h
      · rename_i hmasked
        split at h
        · cases h
        · rename_i nv hw
          have hnv := hnv nv hw
          injection h with h
          have hsel : (if condTrue cond c = true then x else y) = selected cond x y c := by
            unfold selected
            by_cases hh : Spec.Holds cond c
            · rw [if_pos hh, if_pos ((cond_iff cond hints c).mpr hh)]
            · rw [if_neg hh, if_neg (fun h2 => hh ((cond_iff cond hints c).mp h2))]
          have hmask : o.mask c = true ↔ o.data c = nv.val := by
            rw [← maskOf_iff, ← h]
          have hdataC : cond.mask c = true → o.data c = nv.val := by
            intro hm
            rw [← h]
            simp [hm, hnv]
          have hdataS : cond.mask c = false → o.data c =
              if (selected cond x y c).mask c then nv.val else np.cast out ((selected cond x y c).value nv.val c) := by
            intro hm
            rw [← hsel, ← h]
            simp only [hm, Bool.false_eq_true, if_false, hnv]
            by_cases hct : condTrue cond c = true
            · simp only [hct, if_true]
            · simp only [hct, if_false, Bool.false_eq_true]
          have hnull : ∀ a : Arg, NullAt a c → (if a.mask c then nv.val else np.cast out (a.value nv.val c)) = nv.val := by
            intro a ha
            cases a with
            | raster r =>
              have : r.mask c = true := ha
              simp [Arg.mask, this]
            | num w => exact ha.elim
            | null => simp [Arg.mask, Arg.value, hnv]
          refine ⟨?_, ?_, ?_⟩
          · rw [hmask]
            cases hm : cond.mask c with
            | true =>
              constructor
              · intro _; exact Or.inl (Or.inl hm)
              · intro _; exact hdataC hm
            | false =>
              rw [hdataS hm]
              constructor
              · intro he
                by_cases hN : NullAt (selected cond x y c) c
                · exact Or.inl (Or.inr hN)
                · right
                  rw [if_neg (fun h2 => hN (hmasknull _ h2))] at he
                  exact ⟨nv, _, by rw [← h], hval _ nv.val hN, he⟩
              · rintro ((h1 | h1) | ⟨nv', v, h1, h2, h3⟩)
                · rw [hm] at h1; cases h1
                · exact hnull _ h1
                · rw [← h] at h1
                  simp only [Option.some.injEq] at h1
                  subst h1
                  rw [← huniq _ nv.val v h2, h3]
                  simp
          · intro hdoc
            unfold DocumentedNull at hdoc
            simp only [not_or, Bool.not_eq_true] at hdoc
            refine ⟨_, hval _ nv.val hdoc.2, ?_⟩
            rw [hdataS hdoc.1, if_neg (fun h2 => hdoc.2 (hmasknull _ h2))]
          · rw [← h]
            simp only [reduceCtorEq, false_iff, not_and]
            intro h1 h2 h3 h4 h5
            simp [Raster.masked, h1, h2, h3, h4, h5] at hmasked
      · rename_i hmasked
        injection h with h
        simp only [Bool.or_eq_true, not_or, Bool.not_eq_true] at hmasked
        obtain ⟨⟨⟨⟨h1, h2⟩, h3⟩, h4⟩, h5⟩ := hmasked
        have hcn : cond.nv = none := by simpa [Raster.masked] using h1
        have hcm : cond.mask c = false := by
          cases hm : cond.mask c with
          | false => rfl
          | true => exact absurd hcn (hcond c hm)
        have hnn : ∀ a : Arg, Clean a → a.masked = false → a.isNull = false → ¬ NullAt a c := by
          intro a ha hm hn hN
          cases a with
          | raster r =>
            refine ha c hN ?_
            simpa [Arg.masked, Raster.masked] using hm
          | num w => exact hN
          | null => cases hn
        have hselN : ¬ NullAt (selected cond x y c) c := by
          unfold selected
          split
          · exact hnn x hx h2 h4
          · exact hnn y hy h3 h5
        have hdata : o.data c = np.cast out ((selected cond x y c).value .nan c) := by
          rw [← h]
          unfold selected
          by_cases hh : Spec.Holds cond c
          · simp only [if_pos hh, (cond_iff cond hints c).mpr hh, if_true]
          · have : condTrue cond c = false := by
              rw [Bool.eq_false_iff]
              exact fun h2 => hh ((cond_iff cond hints c).mp h2)
            simp only [if_neg hh, this, Bool.false_eq_true, if_false]
        refine ⟨?_, ?_, ?_⟩
        · rw [← h]
          simp only [Bool.false_eq_true, false_iff, not_or, reduceCtorEq, false_and, exists_false, not_false_eq_true,
            and_true]
          exact fun hdoc => hdoc.elim (fun h => by rw [hcm] at h; cases h) hselN
        · intro _
          exact ⟨_, hval _ .nan hselN, hdata⟩
        · rw [← h]
          simp [hcn, h2, h3, h4, h5]

/-- **C27**: where no selected value equals the null value of the result, the nulls are those documented. -/
theorem C27_documented_partial {np : NumPy} {cond : Raster} {x y : Arg} {out : DType} {o : Raster}
    (hcond : MaskNeedsNull cond) (hx : Clean x) (hy : Clean y) (hints : ∀ c, ∃ n : Int, cond.data c = .fin n)
    (hnv : ∀ nv, whereNv np x y = some nv → np.cast out nv.val = nv.val)
    (h : whereRaster np cond x y out = .ok o) (c : Cell)
    (hfree : ∀ nv v, o.nv = some nv → HasValue (selected cond x y c) c v → np.cast out v ≠ nv.val) :
    o.mask c = true ↔ DocumentedNull cond x y c := by
  rw [(C27_where_partial hcond hx hy hints hnv h c).1]
  constructor
  · rintro (h1 | ⟨nv, v, h1, h2, h3⟩)
    · exact h1
    · exact absurd h3 (hfree nv v h1 h2)
  · exact Or.inl

/-- **C27**, rejected arguments. -/
theorem C27_rejected {np : NumPy} {cond : Raster} {x y : Arg} {out : DType}
    (h : (cond.dtype.isBool || cond.dtype.isInt) = false ∨ (x.isNull = true ∧ y.isNull = true)) :
    ∃ e, whereRaster np cond x y out = .error e := by
  unfold whereRaster
  rcases h with h | ⟨h1, h2⟩
  · rw [if_pos (by simp [h])]; exact ⟨_, rfl⟩
  · split
    · exact ⟨_, rfl⟩
    · rw [if_pos (by simp [h1, h2])]; exact ⟨_, rfl⟩

/-- **C27**, accepted arguments: with a raster to select from, exactly the integer and boolean conditions. -/
theorem C27_accepted (np : NumPy) (cond : Raster) (x y : Arg) (out : DType) (hr : (∃ r, x = .raster r) ∨ ∃ r, y = .raster r) :
    (∃ o, whereRaster np cond x y out = .ok o) ↔ cond.dtype.isBool = true ∨ cond.dtype.isInt = true := by
  have hp : ∀ a b : DType, ∃ d, a.promote b = some d := by
    intro a b
    cases a <;> cases b <;> exact ⟨_, rfl⟩
  have hnv : ∃ nv, whereNv np x y = some nv := by
    rcases x with q | v | _ <;> rcases y with q' | v' | _ <;>
      first
      | exact ⟨_, rfl⟩
      | (exfalso
         rcases hr with ⟨r, h⟩ | ⟨r, h⟩ <;> cases h; done)
      | skip
    obtain ⟨d, hd⟩ := hp q.dtype q'.dtype
    exact ⟨defaultNull d, by simp only [whereNv, hd, Option.map_some]⟩
  have hnn : (x.isNull && y.isNull) = false := by
    rcases hr with ⟨r, h⟩ | ⟨r, h⟩ <;> subst h <;> simp [Arg.isNull]
  obtain ⟨nv, hnv⟩ := hnv
  unfold whereRaster
  rw [hnn, hnv]
  cases hc : (cond.dtype.isBool || cond.dtype.isInt)
  · simp only [Bool.not_false, if_true]
    rw [Bool.or_eq_false_iff] at hc
    simp [hc]
  · simp only [Bool.not_true, Bool.false_eq_true, if_false]
    rw [Bool.or_eq_true] at hc
    simp only [hc, iff_true]
    split <;> exact ⟨_, rfl⟩

/-- **C27**, the shape and type of the result. -/
theorem C27_shape {np : NumPy} {cond : Raster} {x y : Arg} {out : DType} {o : Raster}
    (h : whereRaster np cond x y out = .ok o) :
    o.dtype = out ∧ o.nb = cond.nb ∧ o.ny = cond.ny ∧ o.nx = cond.nx := by
  unfold whereRaster at h
  split at h
  · cases h
  · split at h
    · cases h
    · simp only at h
      split at h
      · split at h
        · cases h
        · injection h with h
          rw [← h]
          exact ⟨rfl, rfl, rfl, rfl⟩
      · injection h with h
        rw [← h]
        exact ⟨rfl, rfl, rfl, rfl⟩

/-- A boolean condition with one true cell and one null cell. -/
def condition : Raster := ⟨.bool, 1, 1, 2, fun _ => .fin 1, fun c => c.2.2 == 1, some ⟨.bool, .fin 1⟩⟩

/-- **C27 fails for scalars**: `where(condition, 255, 0)` with a condition that has nulls uses the null value 255,
so that every cell where the condition is true becomes null. -/
theorem C27_scalar_lost :
    ∃ o, whereRaster (idNumPy false) condition (.num (.int 255)) (.num (.int 0)) u8 = .ok o ∧
      ¬ DocumentedNull condition (.num (.int 255)) (.num (.int 0)) (0, 0, 0) ∧ o.mask (0, 0, 0) = true := by
  refine ⟨_, rfl, ?_, by decide +kernel⟩
  rintro (h | h)
  · revert h; decide +kernel
  · unfold selected at h
    split at h <;> exact h

/-- **C27 fails for boolean rasters**: selecting from two boolean rasters, one of which has nulls, makes every
true cell null. -/
theorem C27_boolean_lost (c : Cell) (hc : c.2.2 = 0) :
    ∃ o, whereRaster (boolNumPy false) condition (.raster condition) (.raster condition) .bool = .ok o ∧
      ¬ DocumentedNull condition (.raster condition) (.raster condition) c ∧ o.mask c = true := by
  have hm : condition.mask c = false := by simp [condition, hc]
  refine ⟨_, rfl, ?_, ?_⟩
  · rintro (h | h)
    · rw [hm] at h; cases h
    · unfold selected at h
      split at h <;> (have h : condition.mask c = true := h; rw [hm] at h; cases h)
  · simp [hm, condition, hc, Arg.mask, Arg.value, boolNumPy, whereNv, Num.eq, Num.isnan, defaultNull]
    decide

example : ∃ o, whereRaster (idNumPy false) condition (.num (.int 3)) .null u8 = .ok o ∧ MaskNeedsNull condition ∧
    (∀ c, ∃ n : Int, condition.data c = .fin n) ∧ o.data (0, 0, 0) = .fin 3 ∧ o.mask (0, 0, 0) = false ∧
    o.mask (0, 0, 1) = true :=
  ⟨_, rfl, fun _ _ => (fun h => nomatch h), fun _ => ⟨1, by simp [condition]⟩, by decide +kernel, by decide +kernel,
    by decide +kernel⟩

end Verif.Remap
