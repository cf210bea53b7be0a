import Verif.Mosaic.Lemmas
import Mathlib.Data.ZMod.Basic
import Mathlib.Order.Basic
import Mathlib.Tactic.Order
import Mathlib.Algebra.BigOperators.Group.List.Basic

/-!
# Mosaic: property theorems (C10 - C13)
-/

set_option linter.unusedSectionVars false

namespace Verif.Mosaic

open Verif

variable {V : Type}

/-! ### Specification -/

namespace Spec

/-- The cells of the inputs that have the band `b`, in input order; `none` is a null cell. -/
def inputs (rasters : List (List (Option V))) (b : Nat) : List (Option V) := rasters.filterMap (·[b]?)

/-- A cell counts if it is not null and does not hold the null value of the output. -/
def counted [DecidableEq V] (nodata : V) (x : Option V) : Option V := if x = some nodata then none else x

/-- `r` is the first valid entry, or null if there is none. -/
def FirstValid (l : List (Option V)) (r : Option V) : Prop :=
  (r = none ∧ ∀ x ∈ l, x = none) ∨
  ∃ pre v post, l = pre ++ some v :: post ∧ (∀ x ∈ pre, x = none) ∧ r = some v

/-- `r` is the last valid entry, or null if there is none. -/
def LastValid (l : List (Option V)) (r : Option V) : Prop :=
  (r = none ∧ ∀ x ∈ l, x = none) ∨
  ∃ pre v post, l = pre ++ some v :: post ∧ (∀ x ∈ post, x = none) ∧ r = some v

/-- `r` is a valid entry before or equal (`le`) to all valid entries, or null if there is none. -/
def ExtremeValid (le : V → V → Prop) (l : List (Option V)) (r : Option V) : Prop :=
  (r = none ∧ ∀ x ∈ l, x = none) ∨
  ∃ v, r = some v ∧ some v ∈ l ∧ ∀ w, some w ∈ l → le v w

/-- Order of floating point numbers with NaN after everything. -/
def fle {K : Type} [LinearOrder K] : FVal K → FVal K → Prop
  | _, .nan => True
  | .nan, _ => False
  | .negInf, _ => True
  | _, .negInf => False
  | _, .posInf => True
  | .posInf, _ => False
  | .fin a, .fin b => a ≤ b

/-- Reversed order of floating point numbers, again with NaN after everything. -/
def fge {K : Type} [LinearOrder K] : FVal K → FVal K → Prop
  | _, .nan => True
  | .nan, _ => False
  | .posInf, _ => True
  | _, .posInf => False
  | _, .negInf => True
  | .negInf, _ => False
  | .fin a, .fin b => b ≤ a

end Spec

open Spec

/-- What the program is given: the layers hold the null value where the input is null. -/
def run (O : Ops V) (m : Method) (rasters : List (List (Option V))) : List (Option V) :=
  mosaicBands O m (rasters.map (List.map (encode O)))

/-- The null test recognises exactly the null value. -/
def Lawful (O : Ops V) : Prop := ∀ v, O.isMissing v = true ↔ v = O.nodata

theorem lawful_int (lo hi nodata : Int) : Lawful (intOps lo hi nodata) := by
  intro v; simp [intOps]

theorem lawful_float {K : Type} [LinearOrder K] [Add K] [Zero K] (nodata : FVal K) :
    Lawful (floatOps nodata) := by
  intro v
  cases nodata <;> cases v <;> simp [floatOps, isnan, feq]

/-- No valid cell of the inputs holds the output's null value. -/
def NoClash (O : Ops V) (rasters : List (List (Option V))) : Prop :=
  ∀ r ∈ rasters, ∀ v, some v ∈ r → v ≠ O.nodata

/-! ### From cells to stacks -/

theorem run_length (O : Ops V) (m : Method) (rasters : List (List (Option V))) :
    (run O m rasters).length = (rasters.map List.length).foldl Nat.max 0 := by
  simp [run, mosaicBands, Function.comp_def]

theorem run_get (O : Ops V) (m : Method) (rasters : List (List (Option V))) {b : Nat}
    (hb : b < (rasters.map List.length).foldl Nat.max 0) :
    (run O m rasters)[b]? = some (singleBand O m ((inputs rasters b).map (encode O))) := by
  have h1 : ((rasters.map (List.map (encode O))).map List.length).foldl Nat.max 0 =
      (rasters.map List.length).foldl Nat.max 0 := by
    simp [Function.comp_def]
  unfold run mosaicBands
  simp only
  rw [List.getElem?_map, List.getElem?_range (by rw [h1]; exact hb), Option.map_some]
  congr 2
  unfold inputs
  rw [List.filterMap_map, List.map_filterMap]
  congr 1
  funext x
  simp

theorem inputs_clash {O : Ops V} {rasters : List (List (Option V))} (h : NoClash O rasters) (b : Nat) :
    ∀ v, some v ∈ inputs rasters b → v ≠ O.nodata := by
  intro v hv
  simp only [inputs, List.mem_filterMap] at hv
  obtain ⟨r, hr, hrb⟩ := hv
  exact h r hr v (List.mem_of_getElem? hrb)

theorem encode_missing {O : Ops V} (L : Lawful O) {x : Option V} (hx : ∀ v, x = some v → v ≠ O.nodata) :
    O.isMissing (encode O x) = true ↔ x = none := by
  cases x with
  | none => simp [encode, (L _).mpr rfl]
  | some v =>
    rw [L]
    simp only [encode]
    constructor
    · intro h; exact absurd h (hx v rfl)
    · intro h; cases h

theorem reduce_push_last {O : Ops V} (xs : List V) {r : V} (h : reduce (pushBinop O) xs = some r) :
    (xs.all O.isMissing = true ∧ O.isMissing r = true) ∨
    ∃ pre v post, xs = pre ++ v :: post ∧ O.isMissing v = false ∧ post.all O.isMissing = true ∧ r = v := by
  induction xs generalizing r with
  | nil => cases h
  | cons x xs ih =>
    rw [reduce_cons (pushBinop_assoc O)] at h
    cases hr : reduce (pushBinop O) xs with
    | none =>
      rw [hr] at h
      injection h with h
      have hx : xs = [] := by
        cases xs with
        | nil => rfl
        | cons y ys => cases hr
      subst hx; subst h
      by_cases hm : O.isMissing x = true
      · left; simp [hm]
      · right; exact ⟨[], x, [], rfl, by simpa using hm, rfl, rfl⟩
    | some s =>
      rw [hr] at h
      injection h with h
      simp only at h
      rcases ih hr with ⟨h1, h2⟩ | ⟨pre, v, post, e, h1, h2, h3⟩
      · rw [pushBinop, if_pos h2] at h
        subst h
        by_cases hm : O.isMissing x = true
        · left; simp [hm]; simpa using h1
        · right; exact ⟨[], x, xs, rfl, by simpa using hm, h1, rfl⟩
      · subst h3
        rw [pushBinop, if_neg (by simp [h1])] at h
        subst h
        right
        exact ⟨x :: pre, s, post, by rw [e]; rfl, h1, h2, rfl⟩

theorem map_split {l : List (Option V)} {f : Option V → V} {pre post : List V} {v : V}
    (h : l.map f = pre ++ v :: post) : ∃ p x q, l = p ++ x :: q ∧ p.map f = pre ∧ f x = v ∧ q.map f = post := by
  rw [List.map_eq_append_iff] at h
  obtain ⟨p, q', rfl, hp, hq⟩ := h
  rw [List.map_eq_cons_iff] at hq
  obtain ⟨x, q, rfl, hx, hq⟩ := hq
  exact ⟨p, x, q, rfl, hp, hx, hq⟩

theorem decode_valid {O : Ops V} {v : V} (h : O.isMissing v = false) : decode O v = some v := by
  simp [decode, h]

theorem decode_missing {O : Ops V} {v : V} (h : O.isMissing v = true) : decode O v = none := by
  simp [decode, h]

/-- A cell list painted by pushing towards the end gives the last valid entry. -/
theorem push_lastValid {O : Ops V} (L : Lawful O) {l : List (Option V)}
    (hl : ∀ v, some v ∈ l → v ≠ O.nodata) {r : V}
    (h : reduce (pushBinop O) (O.nodata :: l.map (encode O)) = some r ∨
      reduce (pushBinop O) (l.map (encode O) ++ [O.nodata]) = some r) :
    LastValid l (decode O r) := by
  have hnd : O.isMissing O.nodata = true := (L _).mpr rfl
  have hall : (l.map (encode O)).all O.isMissing = true → ∀ x ∈ l, x = none := by
    intro ha x hx
    rw [List.all_eq_true] at ha
    exact (encode_missing L (fun v e => hl v (e ▸ hx))).mp (ha _ (List.mem_map_of_mem hx))
  have hsome : ∀ {p q : List (Option V)} {x : Option V} {v : V}, l = p ++ x :: q → encode O x = v →
      O.isMissing v = false → x = some v := by
    intro p q x v e hx hv
    cases x with
    | none => simp only [encode] at hx; rw [← hx, hnd] at hv; cases hv
    | some w => simp only [encode] at hx; rw [hx]
  have hsub : ∀ {p q : List (Option V)} {x : Option V}, l = p ++ x :: q →
      (q.map (encode O)).all O.isMissing = true → ∀ y ∈ q, y = none := by
    intro p q x e ha y hy
    rw [List.all_eq_true] at ha
    refine (encode_missing L (fun v e' => hl v ?_)).mp (ha _ (List.mem_map_of_mem hy))
    rw [e, ← e']; simp [hy]
  rcases h with h | h
  · rcases reduce_push_last _ h with ⟨h1, h2⟩ | ⟨pre, v, post, e, h1, h2, h3⟩
    · left
      refine ⟨decode_missing h2, hall ?_⟩
      rw [List.all_cons, Bool.and_eq_true] at h1
      exact h1.2
    · right
      cases pre with
      | nil =>
        simp only [List.nil_append, List.cons.injEq] at e
        rw [← e.1, hnd] at h1; cases h1
      | cons y pre =>
        simp only [List.cons_append, List.cons.injEq] at e
        obtain ⟨p, x, q, e1, _, e3, e4⟩ := map_split e.2
        refine ⟨p, v, q, ?_, ?_, by rw [h3]; exact decode_valid h1⟩
        · rw [e1, hsome e1 e3 h1]
        · exact hsub e1 (by rw [e4]; exact h2)
  · rcases reduce_push_last _ h with ⟨h1, h2⟩ | ⟨pre, v, post, e, h1, h2, h3⟩
    · left
      refine ⟨decode_missing h2, hall ?_⟩
      rw [List.all_append, Bool.and_eq_true] at h1
      exact h1.1
    · right
      rcases List.eq_nil_or_concat post with rfl | ⟨post', z, rfl⟩
      · have := (List.append_inj' e rfl).2
        simp only [List.cons.injEq, and_true] at this
        rw [← this, hnd] at h1; cases h1
      · rw [List.concat_eq_append, ← List.cons_append, ← List.append_assoc] at e
        have e' := (List.append_inj' e rfl).1
        obtain ⟨p, x, q, e1, _, e3, e4⟩ := map_split e'
        refine ⟨p, v, q, ?_, ?_, by rw [h3]; exact decode_valid h1⟩
        · rw [e1, hsome e1 e3 h1]
        · rw [List.concat_eq_append, List.all_append, Bool.and_eq_true] at h2
          exact hsub e1 (by rw [e4]; exact h2.1)

/-! ### C10 -/

theorem first_noClash {O : Ops V} (L : Lawful O) {rasters : List (List (Option V))} (hc : NoClash O rasters) :
    (run O .first rasters).length = (rasters.map List.length).foldl Nat.max 0 ∧
    ∀ b, b < (rasters.map List.length).foldl Nat.max 0 →
      ∃ out, (run O .first rasters)[b]? = some (some out) ∧ FirstValid (inputs rasters b) (decode O out) := by
  refine ⟨run_length O _ rasters, ?_⟩
  intro b hb
  rw [run_get O _ rasters hb]
  have hne : ((inputs rasters b).map (encode O)).reverse ++ [O.nodata] ≠ [] := by simp
  obtain ⟨r, hr⟩ := reduce_isSome (f := pushBinop O) hne
  refine ⟨r, by rw [singleBand, recursive_first O hne, hr], ?_⟩
  have hl := inputs_clash hc b
  generalize inputs rasters b = l at *
  rw [← List.map_reverse] at hr
  have := push_lastValid L (l := l.reverse) (fun v hv => hl v (by simpa using hv)) (Or.inr hr)
  rcases this with ⟨h1, h2⟩ | ⟨pre, v, post, e, h1, h2⟩
  · exact Or.inl ⟨h1, fun x hx => h2 x (by simpa using hx)⟩
  · right
    refine ⟨post.reverse, v, pre.reverse, ?_, fun x hx => h1 x (by simpa using hx), h2⟩
    have := congrArg List.reverse e
    simpa using this

theorem last_noClash {O : Ops V} (L : Lawful O) {rasters : List (List (Option V))} (hc : NoClash O rasters) :
    (run O .last rasters).length = (rasters.map List.length).foldl Nat.max 0 ∧
    ∀ b, b < (rasters.map List.length).foldl Nat.max 0 →
      ∃ out, (run O .last rasters)[b]? = some (some out) ∧ LastValid (inputs rasters b) (decode O out) := by
  refine ⟨run_length O _ rasters, ?_⟩
  intro b hb
  rw [run_get O _ rasters hb]
  have hne : ((inputs rasters b).map (encode O)).reverse ++ [O.nodata] ≠ [] := by simp
  have hne' : (((inputs rasters b).map (encode O)).reverse ++ [O.nodata]).reverse ≠ [] := by simp
  obtain ⟨r, hr⟩ := reduce_isSome (f := pushBinop O) hne'
  refine ⟨r, by rw [singleBand, recursive_last O hne, hr], ?_⟩
  have hl := inputs_clash hc b
  generalize inputs rasters b = l at *
  rw [List.reverse_append, List.reverse_reverse] at hr
  exact push_lastValid L hl (Or.inl hr)

/-! ### Cells that hold the output's null value -/

section Counted

variable [DecidableEq V]

/-- The inputs with the cells that do not count made null. -/
def normalized (O : Ops V) (rasters : List (List (Option V))) : List (List (Option V)) :=
  rasters.map (List.map (counted O.nodata))

theorem encode_counted (O : Ops V) (x : Option V) : encode O (counted O.nodata x) = encode O x := by
  unfold counted
  split
  · next h => rw [h]; rfl
  · rfl

theorem run_normalized (O : Ops V) (m : Method) (rasters : List (List (Option V))) :
    run O m (normalized O rasters) = run O m rasters := by
  unfold run normalized
  congr 1
  rw [List.map_map]
  congr 1
  funext r
  simp only [Function.comp_apply, List.map_map]
  congr 1
  funext x
  exact encode_counted O x

theorem normalized_noClash (O : Ops V) (rasters : List (List (Option V))) : NoClash O (normalized O rasters) := by
  intro r hr v hv hvn
  simp only [normalized, List.mem_map] at hr
  obtain ⟨r', _, rfl⟩ := hr
  simp only [List.mem_map] at hv
  obtain ⟨x, _, hx⟩ := hv
  unfold counted at hx
  split at hx
  · cases hx
  · next h => rw [hx, hvn] at h; exact h rfl

theorem normalized_lengths (O : Ops V) (rasters : List (List (Option V))) :
    (normalized O rasters).map List.length = rasters.map List.length := by
  simp [normalized, Function.comp_def]

theorem inputs_normalized (O : Ops V) (rasters : List (List (Option V))) (b : Nat) :
    inputs (normalized O rasters) b = (inputs rasters b).map (counted O.nodata) := by
  unfold inputs normalized
  rw [List.filterMap_map, List.map_filterMap]
  congr 1
  funext x
  simp

theorem normalized_mem {O : Ops V} {rasters : List (List (Option V))} {P : V → Prop}
    (h : ∀ r ∈ rasters, ∀ v, some v ∈ r → P v) : ∀ r ∈ normalized O rasters, ∀ v, some v ∈ r → P v := by
  intro r hr v hv
  simp only [normalized, List.mem_map] at hr
  obtain ⟨r', hr', rfl⟩ := hr
  simp only [List.mem_map] at hv
  obtain ⟨x, hx, hxv⟩ := hv
  unfold counted at hxv
  split at hxv
  · cases hxv
  · rw [hxv] at hx; exact h r' hr' v hx

/-- **C10** ('first').  The result has as many bands as the input with most bands; every cell of band `b`
is the first counting cell among the inputs that have a band `b`. -/
theorem C10_first {O : Ops V} (L : Lawful O) (rasters : List (List (Option V))) :
    (run O .first rasters).length = (rasters.map List.length).foldl Nat.max 0 ∧
    ∀ b, b < (rasters.map List.length).foldl Nat.max 0 →
      ∃ out, (run O .first rasters)[b]? = some (some out) ∧
        FirstValid ((inputs rasters b).map (counted O.nodata)) (decode O out) := by
  have := first_noClash L (normalized_noClash O rasters)
  rw [run_normalized, normalized_lengths] at this
  simpa only [inputs_normalized] using this

/-- **C10** ('last'). -/
theorem C10_last {O : Ops V} (L : Lawful O) (rasters : List (List (Option V))) :
    (run O .last rasters).length = (rasters.map List.length).foldl Nat.max 0 ∧
    ∀ b, b < (rasters.map List.length).foldl Nat.max 0 →
      ∃ out, (run O .last rasters)[b]? = some (some out) ∧
        LastValid ((inputs rasters b).map (counted O.nodata)) (decode O out) := by
  have := last_noClash L (normalized_noClash O rasters)
  rw [run_normalized, normalized_lengths] at this
  simpa only [inputs_normalized] using this

end Counted

/-- Nine inputs (more than the recursion cut-off of the stack), one or two bands, value 7 valid in the
second and the eighth raster only. -/
def exRasters : List (List (Option Int)) :=
  [[none], [some 7, some 1], [none], [none], [none], [none], [none], [some 9], [none]]

example : Lawful (intOps (-128) 127 (-128)) ∧
    run (intOps (-128) 127 (-128)) .first exRasters = [some 7, some 1] ∧
    run (intOps (-128) 127 (-128)) .last exRasters = [some 9, some 1] := by
  exact ⟨lawful_int _ _ _, by decide +kernel, by decide +kernel⟩

/-- Why `counted` is needed in C10: a valid cell whose value equals the output's null value is skipped
and the next raster is used instead. -/
theorem C10_valid_null_value_is_lost :
    run (intOps 0 255 255) .first [[some 255], [some 3]] = [some 3] := by decide +kernel

/-! ### C11 -/

theorem reduce_extreme {f : V → V → V} {le : V → V → Prop} (hf : Assoc f) (hrefl : ∀ a, le a a)
    (htrans : ∀ a b c, le a b → le b c → le a c) (hsel : ∀ a b, f a b = a ∨ f a b = b)
    (hl : ∀ a b, le (f a b) a) (hr : ∀ a b, le (f a b) b) {xs : List V} {r : V}
    (h : reduce f xs = some r) : r ∈ xs ∧ ∀ w ∈ xs, le r w := by
  induction xs generalizing r with
  | nil => cases h
  | cons x xs ih =>
    rw [reduce_cons hf] at h
    cases hrx : reduce f xs with
    | none =>
      rw [hrx] at h
      injection h with h
      have hx : xs = [] := by
        cases xs with
        | nil => rfl
        | cons y ys => cases hrx
      subst hx; subst h
      simp [hrefl]
    | some s =>
      rw [hrx] at h
      injection h with h
      simp only at h
      obtain ⟨h1, h2⟩ := ih hrx
      subst h
      constructor
      · rcases hsel x s with e | e
        · rw [e]; simp
        · rw [e]; simp [h1]
      · intro w hw
        rcases List.mem_cons.mp hw with rfl | hw
        · exact hl _ _
        · exact htrans _ _ _ (hr x s) (h2 w hw)

/-- Selecting reductions with a neutral fill: the result of the mosaic is the extreme valid value. -/
theorem extreme_main {O : Ops V} (L : Lawful O) {m : Method} {f : V → V → V} {e : V} {D : V → Prop}
    {le : V → V → Prop} (F : Filler f e D) (hm : ∀ xs, paint O m xs = paintFill O f e xs)
    (hrefl : ∀ a, le a a)
    (htrans : ∀ a b c, le a b → le b c → le a c) (hsel : ∀ a b, f a b = a ∨ f a b = b)
    (hl : ∀ a b, le (f a b) a) (hr : ∀ a b, le (f a b) b)
    {rasters : List (List (Option V))} (hc : NoClash O rasters)
    (hD : ∀ r ∈ rasters, ∀ v, some v ∈ r → D v) {b : Nat}
    (hb : b < (rasters.map List.length).foldl Nat.max 0) :
    ∃ out, (run O m rasters)[b]? = some (some out) ∧
      ExtremeValid le (inputs rasters b) (decode O out) := by
  rw [run_get O _ rasters hb]
  have hnd : O.isMissing O.nodata = true := (L _).mpr rfl
  have hcl := inputs_clash hc b
  have hDl : ∀ v, some v ∈ inputs rasters b → D v := by
    intro v hv
    simp only [inputs, List.mem_filterMap] at hv
    obtain ⟨r, hr, hrb⟩ := hv
    exact hD r hr v (List.mem_of_getElem? hrb)
  generalize inputs rasters b = l at *
  set stack := (l.map (encode O)).reverse ++ [O.nodata] with hstack
  have hmem : ∀ v, v ∈ stack → O.isMissing v = false → some v ∈ l := by
    intro v hv hvm
    simp only [hstack, List.mem_append, List.mem_reverse, List.mem_map, List.mem_singleton] at hv
    rcases hv with ⟨x, hx, hxv⟩ | hv
    · cases x with
      | none => simp only [encode] at hxv; rw [← hxv, hnd] at hvm; cases hvm
      | some w => simp only [encode] at hxv; rw [← hxv]; exact hx
    · rw [hv, hnd] at hvm; cases hvm
  have hval : ∀ v, v ∈ valids O stack ↔ some v ∈ l := by
    intro v
    simp only [valids, List.mem_filter, Bool.not_eq_true']
    constructor
    · rintro ⟨h1, h2⟩; exact hmem v h1 h2
    · intro hv
      refine ⟨?_, ?_⟩
      · simp only [hstack, List.mem_append, List.mem_reverse, List.mem_map]
        exact Or.inl ⟨some v, hv, rfl⟩
      · rw [Bool.eq_false_iff]
        intro hm'
        exact hcl v hv ((L v).mp hm')
  have hrec := recursive_fill F hm hnd stack.length stack (le_refl _) (by simp [hstack])
    (fun x hx hxm => hDl x (hmem x hx hxm)) (by
      intro _ seg hseg r hr'
      have hin := (reduce_extreme F.assoc hrefl htrans hsel hl hr hr').1
      simp only [valids, List.mem_filter, Bool.not_eq_true'] at hin
      exact hin.2)
  refine ⟨_, congrArg some hrec, ?_⟩
  cases hred : reduce f (valids O stack) with
  | none =>
    left
    refine ⟨decode_missing hnd, ?_⟩
    intro x hx
    cases x with
    | none => rfl
    | some v =>
      have := (hval v).mpr hx
      cases hv : valids O stack with
      | nil => rw [hv] at this; cases this
      | cons y ys => rw [hv] at hred; cases hred
  | some r =>
    right
    obtain ⟨h1, h2⟩ := reduce_extreme F.assoc hrefl htrans hsel hl hr hred
    have hrm : O.isMissing r = false := by
      simp only [valids, List.mem_filter, Bool.not_eq_true'] at h1
      exact h1.2
    exact ⟨r, decode_valid hrm, (hval r).mp h1, fun w hw => h2 w ((hval w).mpr hw)⟩

theorem filler_int_min (lo hi nodata : Int) :
    Filler (intOps lo hi nodata).redMin hi (fun v => lo ≤ v ∧ v ≤ hi) := by
  refine ⟨?_, ?_, ?_, ?_, ?_⟩ <;> simp only [intOps, Assoc] <;> intros <;> (repeat' split) <;> omega

theorem filler_int_max (lo hi nodata : Int) :
    Filler (intOps lo hi nodata).redMax lo (fun v => lo ≤ v ∧ v ≤ hi) := by
  refine ⟨?_, ?_, ?_, ?_, ?_⟩ <;> simp only [intOps, Assoc] <;> intros <;> (repeat' split) <;> omega

theorem integer_noClash {lo hi nodata : Int} {rasters : List (List (Option Int))}
    (hc : NoClash (intOps lo hi nodata) rasters)
    (hD : ∀ r ∈ rasters, ∀ v, some v ∈ r → lo ≤ v ∧ v ≤ hi) {b : Nat}
    (hb : b < (rasters.map List.length).foldl Nat.max 0) :
    (∃ out, (run (intOps lo hi nodata) .min rasters)[b]? = some (some out) ∧
      ExtremeValid (· ≤ ·) (inputs rasters b) (decode (intOps lo hi nodata) out)) ∧
    (∃ out, (run (intOps lo hi nodata) .max rasters)[b]? = some (some out) ∧
      ExtremeValid (· ≥ ·) (inputs rasters b) (decode (intOps lo hi nodata) out)) := by
  constructor
  · refine extreme_main (lawful_int _ _ _) (filler_int_min lo hi nodata) (fun _ => rfl) (le := (· ≤ ·))
      (fun a => le_refl a) (fun a b c => le_trans) ?_ ?_ ?_ hc hD hb <;>
      simp only [intOps] <;> intro a b <;> split <;> omega
  · refine extreme_main (lawful_int _ _ _) (filler_int_max lo hi nodata) (fun _ => rfl) (le := (· ≥ ·))
      (fun a => le_refl a) (fun a b c h1 h2 => le_trans h2 h1) ?_ ?_ ?_ hc hD hb <;>
      simp only [intOps] <;> intro a b <;> split <;> omega

section Float

variable {K : Type} [LinearOrder K]

theorem nanmin2_assoc : Assoc (nanmin2 : FVal K → FVal K → FVal K) := by
  intro a b c
  cases a <;> cases b <;> cases c <;> simp only [nanmin2]
  congr 1
  repeat' split
  all_goals first | rfl | (apply le_antisymm <;> order)

theorem nanmax2_assoc : Assoc (nanmax2 : FVal K → FVal K → FVal K) := by
  intro a b c
  cases a <;> cases b <;> cases c <;> simp only [nanmax2]
  congr 1
  repeat' split
  all_goals first | rfl | (apply le_antisymm <;> order)

theorem nanmin2_sel (a b : FVal K) : nanmin2 a b = a ∨ nanmin2 a b = b := by
  cases a <;> cases b <;> simp only [nanmin2, true_or, or_true]
  split
  · exact Or.inl rfl
  · exact Or.inr rfl

theorem nanmax2_sel (a b : FVal K) : nanmax2 a b = a ∨ nanmax2 a b = b := by
  cases a <;> cases b <;> simp only [nanmax2, true_or, or_true]
  split
  · exact Or.inr rfl
  · exact Or.inl rfl

theorem filler_float_min [Add K] [Zero K] (nodata : FVal K) :
    Filler (floatOps nodata).redMin .nan (fun _ => True) := by
  refine ⟨nanmin2_assoc, fun _ _ _ _ => trivial, rfl, ?_, ?_⟩
  · intro a _; cases a <;> rfl
  · intro a _; cases a <;> rfl

theorem filler_float_max [Add K] [Zero K] (nodata : FVal K) :
    Filler (floatOps nodata).redMax .nan (fun _ => True) := by
  refine ⟨nanmax2_assoc, fun _ _ _ _ => trivial, rfl, ?_, ?_⟩
  · intro a _; cases a <;> rfl
  · intro a _; cases a <;> rfl

theorem float_noClash [Add K] [Zero K] {nodata : FVal K} {rasters : List (List (Option (FVal K)))}
    (hc : NoClash (floatOps nodata) rasters) {b : Nat}
    (hb : b < (rasters.map List.length).foldl Nat.max 0) :
    (∃ out, (run (floatOps nodata) .min rasters)[b]? = some (some out) ∧
      ExtremeValid fle (inputs rasters b) (decode (floatOps nodata) out)) ∧
    (∃ out, (run (floatOps nodata) .max rasters)[b]? = some (some out) ∧
      ExtremeValid fge (inputs rasters b) (decode (floatOps nodata) out)) := by
  constructor
  · refine extreme_main (lawful_float _) (filler_float_min nodata) (fun _ => rfl) (le := fle)
      ?_ ?_ ?_ ?_ ?_ hc (fun _ _ _ _ => trivial) hb
    · intro a; cases a <;> simp [fle]
    · intro a b c h1 h2
      cases a <;> cases b <;> cases c <;> simp_all only [fle]
      exact le_trans h1 h2
    · exact nanmin2_sel
    · intro a b
      cases a <;> cases b <;> simp [floatOps, nanmin2, fle]
      split <;> order
    · intro a b
      cases a <;> cases b <;> simp [floatOps, nanmin2, fle]
      split <;> order
  · refine extreme_main (lawful_float _) (filler_float_max nodata) (fun _ => rfl) (le := fge)
      ?_ ?_ ?_ ?_ ?_ hc (fun _ _ _ _ => trivial) hb
    · intro a; cases a <;> simp [fge]
    · intro a b c h1 h2
      cases a <;> cases b <;> cases c <;> simp_all only [fge]
      exact le_trans h2 h1
    · exact nanmax2_sel
    · intro a b
      cases a <;> cases b <;> simp [floatOps, nanmax2, fge]
      split <;> order
    · intro a b
      cases a <;> cases b <;> simp [floatOps, nanmax2, fge]
      split <;> order

end Float

/-- **C11** for integer data types with limits `lo` and `hi`. -/
theorem C11_integer_min_max {lo hi nodata : Int} {rasters : List (List (Option Int))}
    (hD : ∀ r ∈ rasters, ∀ v, some v ∈ r → lo ≤ v ∧ v ≤ hi) {b : Nat}
    (hb : b < (rasters.map List.length).foldl Nat.max 0) :
    (∃ out, (run (intOps lo hi nodata) .min rasters)[b]? = some (some out) ∧
      ExtremeValid (· ≤ ·) ((inputs rasters b).map (counted nodata)) (decode (intOps lo hi nodata) out)) ∧
    (∃ out, (run (intOps lo hi nodata) .max rasters)[b]? = some (some out) ∧
      ExtremeValid (· ≥ ·) ((inputs rasters b).map (counted nodata)) (decode (intOps lo hi nodata) out)) := by
  have := integer_noClash (normalized_noClash (intOps lo hi nodata) rasters) (normalized_mem hD)
    (b := b) (by rw [normalized_lengths]; exact hb)
  rw [run_normalized, run_normalized, inputs_normalized] at this
  exact this

/-- **C11** for floating point data: NaN that is not the null value is passed over unless there is
nothing else. -/
theorem C11_float_min_max {K : Type} [LinearOrder K] [Add K] [Zero K] {nodata : FVal K}
    (rasters : List (List (Option (FVal K)))) {b : Nat}
    (hb : b < (rasters.map List.length).foldl Nat.max 0) :
    (∃ out, (run (floatOps nodata) .min rasters)[b]? = some (some out) ∧
      ExtremeValid fle ((inputs rasters b).map (counted nodata)) (decode (floatOps nodata) out)) ∧
    (∃ out, (run (floatOps nodata) .max rasters)[b]? = some (some out) ∧
      ExtremeValid fge ((inputs rasters b).map (counted nodata)) (decode (floatOps nodata) out)) := by
  have := float_noClash (normalized_noClash (floatOps nodata) rasters)
    (b := b) (by rw [normalized_lengths]; exact hb)
  rw [run_normalized, run_normalized, inputs_normalized] at this
  exact this

/-- Concrete cases: nine integer inputs whose minimum is the sentinel itself, float inputs with NaN. -/
example : run (intOps 0 255 0) .min [[some 255], [none], [none], [none], [none], [none], [none], [none], [none]]
      = [some 255] ∧
    run (floatOps (K := Int) (.fin (-1))) .max [[some (.fin 2), none], [some .nan], [some (.fin 4)]]
      = [some (.fin 4), some (.fin (-1))] := by
  constructor <;> decide +kernel

/-! ### C12 -/

/-- The sum of the valid cells. -/
def Spec.total [AddCommMonoid V] (l : List (Option V)) : V := (l.filterMap id).sum

theorem filler_add [AddCommMonoid V] : Filler (fun a b : V => a + b) 0 (fun _ => True) := by
  refine ⟨fun a b c => add_assoc a b c, fun _ _ _ _ => trivial, add_zero 0, fun a _ => zero_add a,
    fun a _ => add_zero a⟩

theorem reduce_add_eq_sum [AddCommMonoid V] {xs : List V} {r : V}
    (h : reduce (fun a b : V => a + b) xs = some r) : r = xs.sum := by
  cases xs with
  | nil => cases h
  | cons x xs =>
    simp only [reduce, Option.some.injEq] at h
    rw [← h, List.sum_cons]
    clear h
    induction xs generalizing x with
    | nil => simp
    | cons y ys ih => rw [List.foldl_cons, ih, List.sum_cons, add_assoc]

/-- **C12**, partial.  `V` is any type of numbers with addition, exact or wrapping.  If there are fewer
than seven rasters with the band, or if no partial sum over consecutive rasters equals the null value,
the cell holds the sum of all valid values; it is null iff there is none or the total equals the null
value.  Missing from the full claim: seven or more rasters without that condition, and totals equal to
the null value; both are false, see below. -/
theorem C12_sum_partial [AddCommMonoid V] {O : Ops V} (L : Lawful O) (hadd : O.add = fun a b => a + b)
    (hzero : O.zero = 0) {rasters : List (List (Option V))} (hc : NoClash O rasters) {b : Nat}
    (hb : b < (rasters.map List.length).foldl Nat.max 0)
    (hpart : (inputs rasters b).length < 7 ∨
      ∀ seg, seg <:+: inputs rasters b → (∃ v, some v ∈ seg) → Spec.total seg ≠ O.nodata) :
    ∃ out, (run O .sum rasters)[b]? = some (some out) ∧
      ((∀ x ∈ inputs rasters b, x = none) → decode O out = none) ∧
      ((∃ v, some v ∈ inputs rasters b) → out = Spec.total (inputs rasters b) ∧
        (Spec.total (inputs rasters b) ≠ O.nodata → decode O out = some (Spec.total (inputs rasters b)))) := by
  rw [run_get O _ rasters hb]
  have hnd : O.isMissing O.nodata = true := (L _).mpr rfl
  have hcl := inputs_clash hc b
  generalize inputs rasters b = l at *
  have hmiss : ∀ x ∈ l, O.isMissing (encode O x) = true ↔ x = none := fun x hx =>
    encode_missing L (fun v e => hcl v (e ▸ hx))
  -- valid layers of an encoded sub-list
  have hvl : ∀ s : List (Option V), (∀ x ∈ s, x ∈ l) → valids O (s.map (encode O)) = s.filterMap id := by
    intro s
    induction s with
    | nil => intro _; rfl
    | cons x s ih =>
      intro hs
      have ih' := ih (fun y hy => hs y (by simp [hy]))
      have hx := hmiss x (hs x (by simp))
      simp only [valids] at ih' ⊢
      cases x with
      | none =>
        rw [List.map_cons, List.filter_cons_of_neg (by simp [hx]), ih']
        rfl
      | some v =>
        rw [List.map_cons, List.filter_cons_of_pos (by
          simp only [Bool.not_eq_true', Bool.eq_false_iff, ne_eq, hx]; simp), ih']
        rfl
  have hstack : (l.map (encode O)).reverse ++ [O.nodata] = (none :: l).reverse.map (encode O) := by
    simp [encode]
  have hpaint : ∀ xs, paint O .sum xs = paintFill O (fun a b : V => a + b) 0 xs := by
    intro xs
    simp only [paint, paintFill, hadd, hzero]
  have hrec := recursive_fill filler_add hpaint hnd
    ((l.map (encode O)).reverse ++ [O.nodata]).length ((l.map (encode O)).reverse ++ [O.nodata])
    (le_refl _) (by simp) (fun _ _ _ => trivial) (by
      intro h8 seg hseg r hr
      have h8' : ¬ l.length < 7 := by simp at h8; omega
      have hpart := hpart.resolve_left h8'
      rw [hstack] at hseg
      -- the segment is the image of a segment of the reversed inputs
      obtain ⟨pre, post, e⟩ := hseg
      rw [List.append_assoc] at e
      have e1 := e.symm
      rw [List.map_eq_append_iff] at e1
      obtain ⟨p, q, e2, _, e3⟩ := e1
      rw [List.map_eq_append_iff] at e3
      obtain ⟨s, t, e4, e5, _⟩ := e3
      subst e4
      -- split off the destination layer
      have hs : valids O seg = s.filterMap id := by
        rw [← e5]
        have hs' : ∀ x ∈ s, x = none ∨ x ∈ l := by
          intro x hx
          have : x ∈ (none :: l).reverse := by rw [e2]; simp [hx]
          simpa [or_comm] using this
        clear e5 e2
        induction s with
        | nil => rfl
        | cons x s ih =>
          have ih' := ih (fun y hy => hs' y (by simp [hy]))
          simp only [valids] at ih' ⊢
          cases x with
          | none =>
            rw [List.map_cons, List.filter_cons_of_neg (by simp [encode, hnd]), ih']
            rfl
          | some v =>
            have hv := (hs' (some v) (by simp)).resolve_left (by simp)
            rw [List.map_cons, List.filter_cons_of_pos (by
              simp only [Bool.not_eq_true', Bool.eq_false_iff, ne_eq, hmiss _ hv]; simp), ih']
            rfl
      have hsum := reduce_add_eq_sum hr
      rw [Bool.eq_false_iff]
      intro hrm
      have hrnd := (L r).mp hrm
      have hne : valids O seg ≠ [] := by intro h0; rw [h0] at hr; cases hr
      -- reversed segment inside of the inputs
      have erev := congrArg List.reverse e2
      simp only [List.reverse_reverse, List.reverse_append] at erev
      -- none :: l = t.reverse ++ s.reverse ++ p.reverse
      have hex : ∃ v, some v ∈ s := by
        cases hfm : s.filterMap id with
        | nil => rw [hs, hfm] at hne; exact absurd rfl hne
        | cons v vs =>
          have : v ∈ s.filterMap id := by rw [hfm]; simp
          rw [List.mem_filterMap] at this
          obtain ⟨x, hx, hxv⟩ := this
          simp only [id] at hxv
          exact ⟨v, hxv ▸ hx⟩
      have htot : ∀ u : List (Option V), Spec.total u.reverse = Spec.total u := by
        intro u
        simp only [Spec.total, List.filterMap_reverse, List.sum_reverse]
      have hcontra : ∃ u, u <:+: l ∧ (∃ v, some v ∈ u) ∧ Spec.total u = (s.filterMap id).sum := by
        cases ht : t.reverse with
        | nil =>
          rw [ht, List.nil_append] at erev
          cases hsr : s.reverse with
          | nil =>
            have : s = [] := by simpa using hsr
            subst this
            obtain ⟨v, hv⟩ := hex; cases hv
          | cons y u =>
            rw [hsr, List.cons_append, List.cons.injEq] at erev
            refine ⟨u, ⟨[], p.reverse, by simpa using erev.2.symm⟩, ?_, ?_⟩
            · obtain ⟨v, hv⟩ := hex
              have : some v ∈ s.reverse := by simpa using hv
              rw [hsr, ← erev.1] at this
              simp at this
              exact ⟨v, this⟩
            · rw [← Spec.total, ← htot s, hsr, ← erev.1]
              simp [Spec.total]
        | cons y u =>
          rw [ht, List.cons_append, List.cons_append, List.cons.injEq] at erev
          refine ⟨s.reverse, ⟨u, p.reverse, by simp [erev.2]⟩, ?_, htot s⟩
          obtain ⟨v, hv⟩ := hex
          exact ⟨v, by simpa using hv⟩
      obtain ⟨u, h1, h2, h3⟩ := hcontra
      exact hpart u h1 h2 (by rw [h3, ← hs, ← hsum]; exact hrnd))
  refine ⟨_, congrArg some hrec, ?_, ?_⟩
  · intro hnone
    have : valids O ((l.map (encode O)).reverse ++ [O.nodata]) = [] := by
      rw [valids_nil_iff, List.all_append, List.all_reverse]
      simp only [List.all_map, List.all_cons, List.all_nil, hnd, Bool.and_true, List.all_eq_true]
      intro x hx
      exact (hmiss x hx).mpr (hnone x hx)
    rw [this]
    exact decode_missing hnd
  · rintro ⟨v, hv⟩
    have hvals : valids O ((l.map (encode O)).reverse ++ [O.nodata]) = (l.filterMap id).reverse := by
      rw [valids_append, ← List.map_reverse, hvl l.reverse (by simp), List.filterMap_reverse]
      simp [valids, hnd]
    have hne : (l.filterMap id).reverse ≠ [] := by
      intro h0
      have : v ∈ l.filterMap id := List.mem_filterMap.mpr ⟨some v, hv, rfl⟩
      rw [List.reverse_eq_nil_iff] at h0
      rw [h0] at this; cases this
    obtain ⟨r, hr⟩ := reduce_isSome (f := fun a b : V => a + b) hne
    rw [hvals, hr, Option.getD_some]
    have hsum : r = Spec.total l := by
      rw [reduce_add_eq_sum hr, List.sum_reverse]; rfl
    refine ⟨hsum, ?_⟩
    intro hneq
    rw [hsum]
    apply decode_valid
    rw [Bool.eq_false_iff]
    intro h
    exact hneq ((L _).mp h)

/-- Wrapping integers, e.g. `wrapOps 256` for unsigned bytes ('min' and 'max' are not used). -/
def wrapOps (n : Nat) (nodata : ZMod n) : Ops (ZMod n) where
  nodata := nodata
  isMissing := fun v => decide (v = nodata)
  fillMin := 0
  redMin := fun a _ => a
  fillMax := 0
  redMax := fun a _ => a
  zero := 0
  add := fun a b => a + b

/-- The hypotheses of C12 are met by byte rasters, with and without wrapping. -/
example : Lawful (wrapOps 256 255) ∧ ((inputs [[some (200 : ZMod 256)], [none], [some 100]] 0).length < 7) ∧
    run (wrapOps 256 255) .sum [[some 200], [none], [some 100]] = [some 44] := by
  refine ⟨fun v => by simp [wrapOps], by decide, by decide +kernel⟩

/-- Addition of floating point values without rounding is commutative and associative, with infinities and NaN. -/
@[instance_reducible] def floatMonoid {K : Type} [LinearOrder K] [AddCommMonoid K] : AddCommMonoid (FVal K) where
  add := fadd
  zero := .fin 0
  nsmul := @nsmulRec _ ⟨.fin 0⟩ ⟨fadd⟩
  add_assoc a b c := by
    show fadd (fadd a b) c = fadd a (fadd b c)
    cases a <;> cases b <;> cases c <;> simp [fadd, add_assoc]
  zero_add a := by
    show fadd (.fin 0) a = a
    cases a <;> simp [fadd]
  add_zero a := by
    show fadd a (.fin 0) = a
    cases a <;> simp [fadd]
  add_comm a b := by
    show fadd a b = fadd b a
    cases a <;> cases b <;> simp [fadd, add_comm]

/-- `r` is the sum of floating point values: NaN if there is one or if there are infinities of both signs, else the infinity that there is, else the sum of the
numbers. -/
def Spec.FloatTotal {K : Type} [AddCommMonoid K] (vs : List (FVal K)) (r : FVal K) : Prop :=
  (.nan ∈ vs ∨ .posInf ∈ vs ∧ .negInf ∈ vs → r = .nan) ∧
  (.nan ∉ vs → .posInf ∈ vs → .negInf ∉ vs → r = .posInf) ∧
  (.nan ∉ vs → .posInf ∉ vs → .negInf ∈ vs → r = .negInf) ∧
  ∀ qs : List K, vs = qs.map .fin → r = .fin qs.sum

theorem floatTotal_fold {K : Type} [LinearOrder K] [AddCommMonoid K] (vs : List (FVal K)) : Spec.FloatTotal vs (vs.foldr fadd (.fin 0)) := by
  induction vs with
  | nil =>
    refine ⟨by simp, by simp, by simp, fun qs h => ?_⟩
    rw [List.map_eq_nil_iff.1 h.symm]; rfl
  | cons v vs ih =>
    obtain ⟨h1, h2, h3, h4⟩ := ih
    have hfin : .nan ∉ vs → .posInf ∉ vs → .negInf ∉ vs → ∃ q, vs.foldr fadd (.fin 0) = .fin q := by
      intro a b c
      have : ∃ qs : List K, vs = qs.map .fin := by
        clear h1 h2 h3 h4
        induction vs with
        | nil => exact ⟨[], rfl⟩
        | cons w ws ih =>
          simp only [List.mem_cons, not_or] at a b c
          obtain ⟨qs, rfl⟩ := ih a.2 b.2 c.2
          cases w with
          | fin q => exact ⟨q :: qs, rfl⟩
          | nan => exact absurd rfl a.1
          | posInf => exact absurd rfl b.1
          | negInf => exact absurd rfl c.1
      obtain ⟨qs, hq⟩ := this
      exact ⟨_, h4 qs hq⟩
    have hlast : ∀ qs : List K, v :: vs = qs.map .fin → (v :: vs).foldr fadd (.fin 0) = .fin qs.sum := by
      intro qs h
      cases qs with
      | nil => cases h
      | cons q qs =>
        rw [List.map_cons, List.cons.injEq] at h
        rw [List.foldr_cons, h4 qs h.2, h.1, List.sum_cons]; rfl
    refine ⟨?_, ?_, ?_, hlast⟩
    all_goals
      rw [List.foldr_cons]
      simp only [List.mem_cons]
      generalize vs.foldr fadd (.fin 0) = s at *
      by_cases a : FVal.nan ∈ vs <;> by_cases b : FVal.posInf ∈ vs <;> by_cases c : FVal.negInf ∈ vs <;>
        simp only [a, b, c, not_true, not_false_eq_true, true_or, or_true, or_false, and_true, and_false, and_self, true_and,
          forall_const, false_imp_iff] at h1 h2 h3 hfin ⊢ <;>
        first
        | (subst h1; cases v <;> simp [fadd])
        | (subst h2; cases v <;> simp [fadd])
        | (subst h3; cases v <;> simp [fadd])
        | (obtain ⟨q, rfl⟩ := hfin; cases v <;> simp [fadd])

/-- **C12 for floating point values** (partial, as C12_sum_partial; additions without rounding): NaN and infinities that are valid count as in floating point
arithmetic. -/
theorem C12_float_partial {K : Type} [LinearOrder K] [AddCommMonoid K] {nodata : FVal K} {rasters : List (List (Option (FVal K)))}
    (hc : NoClash (floatOps nodata) rasters) {b : Nat} (hb : b < (rasters.map List.length).foldl Nat.max 0)
    (hpart : (inputs rasters b).length < 7 ∨
      ∀ seg, seg <:+: inputs rasters b → (∃ v, some v ∈ seg) → ¬ Spec.FloatTotal (seg.filterMap id) nodata) :
    ∃ out, (run (floatOps nodata) .sum rasters)[b]? = some (some out) ∧
      ((∀ x ∈ inputs rasters b, x = none) → decode (floatOps nodata) out = none) ∧
      ((∃ v, some v ∈ inputs rasters b) → Spec.FloatTotal ((inputs rasters b).filterMap id) out ∧
        (out ≠ nodata → decode (floatOps nodata) out = some out)) := by
  letI := floatMonoid (K := K)
  have htot : ∀ l : List (Option (FVal K)), Spec.FloatTotal (l.filterMap id) (Spec.total l) := fun l => floatTotal_fold _
  obtain ⟨out, h1, h2, h3⟩ := C12_sum_partial (lawful_float nodata) rfl rfl hc hb
    (hpart.imp_right fun h seg k1 k2 e => h seg k1 k2 (by have := htot seg; rw [e] at this; exact this))
  refine ⟨out, h1, h2, fun h => ?_⟩
  obtain ⟨e, h4⟩ := h3 h
  rw [← e] at h4
  exact ⟨e ▸ htot _, h4⟩

/-- Valid infinities and NaN, beside null cells. -/
example : run (floatOps (K := Int) (.fin (-1))) .sum [[some (.fin 2), none, some .posInf], [none, none, some .negInf], [some (.fin 4), none, none]] =
      [some (.fin 6), some (.fin (-1)), some .nan] ∧
    Spec.FloatTotal (K := Int) [.fin 2, .posInf] .posInf := by
  refine ⟨by decide +kernel, by simp, by simp, by simp, fun qs h => ?_⟩
  rcases qs with _ | ⟨a, _ | ⟨b, qs⟩⟩ <;> simp at h

/-- **C12 fails for seven rasters**: the total of the valid cells is 6 but the result is 1, because the
sum 2 + 3 of one half happens to equal the null value 5 and is dropped. -/
theorem C12_sum_of_seven_loses_values :
    run (intOps (-128) 127 5) .sum [[some 1], [none], [none], [none], [none], [some 3], [some 2]] = [some 1] ∧
    Spec.total ([some 1, none, none, none, none, some 3, some 2] : List (Option Int)) = 6 := by
  constructor <;> decide +kernel

/-- **C12 fails for totals equal to the null value**: two valid cells, null result. -/
theorem C12_sum_equal_to_null_is_null :
    run (intOps (-128) 127 5) .sum [[some 2], [some 3]] = [some 5] ∧
    decode (intOps (-128) 127 5) 5 = none := by
  constructor <;> decide +kernel

/-! ### C13 -/

/-- **C13**, parallel scan.  For every split of the layers into non-empty blocks and every choice of
combination trees over the block summaries, the scanned blocks put together are the sequential scan of
the whole stack. -/
theorem C13_parallel_scan (O : Ops V) (blocks : List (List V)) (hne : ∀ b ∈ blocks, b ≠ [])
    (pre : Nat → Option (Tree V)) (h0 : pre 0 = none)
    (hpre : ∀ k, 0 < k → k < blocks.length →
      ∃ t, pre k = some t ∧ t.leaves.map some = (blocks.take k).map (pushTakeLast O)) :
    (blocks.mapIdx fun k b => scanBlock O (pre k) b).flatten = push O blocks.flatten := by
  -- summaries of a block list reduce to the reduction of the concatenation
  have hsum : ∀ (bs : List (List V)), (∀ b ∈ bs, b ≠ []) → ∀ ls : List V,
      ls.map some = bs.map (pushTakeLast O) → reduce (pushBinop O) ls = reduce (pushBinop O) bs.flatten := by
    intro bs
    induction bs with
    | nil =>
      intro _ ls h
      have : ls = [] := by simpa using h
      subst this; rfl
    | cons b bs ih =>
      intro hb ls h
      cases ls with
      | nil => simp at h
      | cons x ls =>
        simp only [List.map_cons, List.cons.injEq] at h
        obtain ⟨hx, hls⟩ := h
        have hx' : reduce (pushBinop O) b = some x := by
          rw [← paintPush_eq]; exact hx.symm
        have ih' := ih (fun c hc => hb c (by simp [hc])) ls hls
        rw [List.flatten_cons, reduce_cons (pushBinop_assoc O), ih']
        cases hr : reduce (pushBinop O) bs.flatten with
        | none =>
          have : bs.flatten = [] := by
            cases hf : bs.flatten with
            | nil => rfl
            | cons y ys => rw [hf] at hr; cases hr
          rw [this, List.append_nil, hx']
        | some r => rw [reduce_append (pushBinop_assoc O) hx' hr]
  -- by induction on the number of blocks taken
  have main : ∀ n, n ≤ blocks.length →
      ((blocks.take n).mapIdx fun k b => scanBlock O (pre k) b).flatten = push O (blocks.take n).flatten := by
    intro n
    induction n with
    | zero => intro _; rfl
    | succ n ih =>
      intro hn
      have hlt : n < blocks.length := by omega
      have ht : blocks.take (n + 1) = blocks.take n ++ [blocks[n]] := by
        rw [List.take_append_getElem]
      rw [ht, List.mapIdx_append, List.flatten_append, List.flatten_append, ih (by omega)]
      simp only [List.mapIdx_cons, List.mapIdx_nil, List.flatten_cons, List.flatten_nil, List.append_nil,
        List.length_take, Nat.zero_add, Nat.min_eq_left hlt.le]
      by_cases hn0 : n = 0
      · subst hn0
        simp [h0, scanBlock, push]
      · obtain ⟨t, e1, e2⟩ := hpre n (by omega) hlt
        rw [e1]
        simp only [scanBlock, map_push]
        have e3 := hsum (blocks.take n) (fun b hb => hne b (List.mem_of_mem_take hb)) t.leaves e2
        rw [tree_eval (pushBinop_assoc O)] at e3
        rw [push_append O _ e3.symm]
  have := main blocks.length (le_refl _)
  rw [List.take_length] at this
  exact this

/-- Three blocks with the tree that dask builds for the third one. -/
example : (([[5, 0], [0], [0, 3]] : List (List Int)).mapIdx fun k b =>
      scanBlock (intOps (-9) 9 0)
        (if k = 0 then none else if k = 1 then some (.leaf 5) else some (.node (.leaf 5) (.leaf 0))) b).flatten
      = [5, 5, 5, 5, 3] ∧
    (Tree.node (.leaf 5) (.leaf 0)).leaves.map some =
      ([[5, 0], [0]] : List (List Int)).map (pushTakeLast (intOps (-9) 9 0)) := by
  constructor <;> decide +kernel

/-- **C13**, reductions: every evaluation tree of 'min' and 'max' gives the same value as the reduction
in order. -/
theorem C13_tree_reduction {K : Type} [LinearOrder K] [Add K] [Zero K] (nodata : FVal K) (t : Tree (FVal K))
    (lo hi nd : Int) (s : Tree Int) :
    some (t.eval (floatOps nodata).redMin) = reduce (floatOps nodata).redMin t.leaves ∧
    some (t.eval (floatOps nodata).redMax) = reduce (floatOps nodata).redMax t.leaves ∧
    some (s.eval (intOps lo hi nd).redMin) = reduce (intOps lo hi nd).redMin s.leaves ∧
    some (s.eval (intOps lo hi nd).redMax) = reduce (intOps lo hi nd).redMax s.leaves :=
  ⟨(tree_eval nanmin2_assoc t).symm, (tree_eval nanmax2_assoc t).symm,
    (tree_eval (filler_int_min lo hi nd).assoc s).symm, (tree_eval (filler_int_max lo hi nd).assoc s).symm⟩

example : (Tree.node (.leaf (FVal.fin (3 : Int))) (.node (.leaf .nan) (.leaf (.fin 1)))).eval nanmin2 = .fin 1 := by
  decide +kernel

/-- **C13**, halving: painting recursively equals painting in one go, for every method but 'sum'. -/
theorem C13_halving_float {K : Type} [LinearOrder K] [Add K] [Zero K] (nodata : FVal K) (m : Method)
    (hm : m ≠ .sum) {stack : List (FVal K)} (hne : stack ≠ []) :
    paintRecursive (floatOps nodata) m stack = paint (floatOps nodata) m stack := by
  have hL := lawful_float nodata
  cases m with
  | sum => exact absurd rfl hm
  | first => rw [recursive_first _ hne]; exact (paintPush_eq _ _).symm
  | last => rw [recursive_last _ hne]; exact (paintPush_eq _ _).symm
  | min =>
    have hsel := nanmin2_sel (K := K)
    rw [recursive_fill (filler_float_min nodata) (fun _ => rfl) ((hL _).mpr rfl) stack.length stack
      (le_refl _) hne (fun _ _ _ => trivial)]
    · exact (paintFill_eq (filler_float_min nodata) hne (fun _ _ _ => trivial)).symm
    · intro _ seg _ r hr
      have := (reduce_extreme (le := fun _ _ => True) nanmin2_assoc (fun _ => trivial) (fun _ _ _ _ _ => trivial)
        hsel (fun _ _ => trivial) (fun _ _ => trivial) hr).1
      simp only [valids, List.mem_filter, Bool.not_eq_true'] at this
      exact this.2
  | max =>
    have hsel := nanmax2_sel (K := K)
    rw [recursive_fill (filler_float_max nodata) (fun _ => rfl) ((hL _).mpr rfl) stack.length stack
      (le_refl _) hne (fun _ _ _ => trivial)]
    · exact (paintFill_eq (filler_float_max nodata) hne (fun _ _ _ => trivial)).symm
    · intro _ seg _ r hr
      have := (reduce_extreme (le := fun _ _ => True) nanmax2_assoc (fun _ => trivial) (fun _ _ _ _ _ => trivial)
        hsel (fun _ _ => trivial) (fun _ _ => trivial) hr).1
      simp only [valids, List.mem_filter, Bool.not_eq_true'] at this
      exact this.2

/-- **C13**, halving, integer data types (values inside of the limits). -/
theorem C13_halving_integer (lo hi nodata : Int) (m : Method) (hm : m ≠ .sum) {stack : List Int}
    (hne : stack ≠ []) (hD : ∀ x ∈ stack, lo ≤ x ∧ x ≤ hi) :
    paintRecursive (intOps lo hi nodata) m stack = paint (intOps lo hi nodata) m stack := by
  have hL := lawful_int lo hi nodata
  cases m with
  | sum => exact absurd rfl hm
  | first => rw [recursive_first _ hne]; exact (paintPush_eq _ _).symm
  | last => rw [recursive_last _ hne]; exact (paintPush_eq _ _).symm
  | min =>
    rw [recursive_fill (filler_int_min lo hi nodata) (fun _ => rfl) ((hL _).mpr rfl) stack.length stack
      (le_refl _) hne (fun x hx _ => hD x hx)]
    · exact (paintFill_eq (filler_int_min lo hi nodata) hne (fun x hx _ => hD x hx)).symm
    · intro _ seg _ r hr
      have := (reduce_extreme (le := fun _ _ => True) (filler_int_min lo hi nodata).assoc (fun _ => trivial)
        (fun _ _ _ _ _ => trivial) (by intro a b; simp only [intOps]; split <;> simp)
        (fun _ _ => trivial) (fun _ _ => trivial) hr).1
      simp only [valids, List.mem_filter, Bool.not_eq_true'] at this
      exact this.2
  | max =>
    rw [recursive_fill (filler_int_max lo hi nodata) (fun _ => rfl) ((hL _).mpr rfl) stack.length stack
      (le_refl _) hne (fun x hx _ => hD x hx)]
    · exact (paintFill_eq (filler_int_max lo hi nodata) hne (fun x hx _ => hD x hx)).symm
    · intro _ seg _ r hr
      have := (reduce_extreme (le := fun _ _ => True) (filler_int_max lo hi nodata).assoc (fun _ => trivial)
        (fun _ _ _ _ _ => trivial) (by intro a b; simp only [intOps]; split <;> simp)
        (fun _ _ => trivial) (fun _ _ => trivial) hr).1
      simp only [valids, List.mem_filter, Bool.not_eq_true'] at this
      exact this.2

example : paintRecursive (intOps 0 9 0) .min [5, 0, 0, 4, 0, 0, 0, 0, 7] = some 4 := by decide +kernel

end Verif.Mosaic
