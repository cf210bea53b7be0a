import Verif.Remap.Props
import Verif.Nulls.ScalarProps

/-!
# C111: choosing with `where` (`general.py:1145-1256`)

`where` (C27) together with `~`, `&` and `|` of conditions (`raster.py:187-269`, C14), `set_null` (`raster.py:2091-2143`, C15) and `to_null_mask`
(`raster.py:2165-2182`).  The definitions of these are the ones of `Verif.Remap.Model` and `Verif.Nulls.RasterModel`; rasters have one shape.
-/

set_option linter.unusedSectionVars false

namespace Verif.Trips.Choices

open Verif Verif.Nulls DType
open Verif.Nulls.Spec (MaskNeedsNull)
open Verif.Remap (whereRaster whereNv Arg Clean condTrue)

namespace Spec

/-- The number of a cell, if it is not null. -/
def cell (r : Raster) (c : Cell) : Option Num := if r.mask c then none else some (r.data c)

/-- The number of an operand at a cell, if it is not null. -/
def given : Arg → Cell → Option Num
  | .raster r, c => cell r c
  | .num v, _ => some v.val
  | .null, _ => none

/-- A boolean as a number. -/
def bit : Bool → Num
  | false => .fin 0
  | true => .fin 1

/-- A boolean raster. -/
structure Boolean (r : Raster) : Prop where
  dtype : r.dtype = .bool
  clean : MaskNeedsNull r
  bits : ∀ c, r.mask c = false → ∃ b, r.data c = bit b

/-- An operation on boolean rasters that gives one boolean raster. -/
structure Logic (u : Ufunc) (n : Nat) : Prop where
  one : u.nout = 1
  noShift : u.shift = false
  dtype : u.outTy (List.replicate n .bool) 0 = .bool

/-- `~`. -/
def IsNot (u : Ufunc) : Prop := Logic u 1 ∧ ∀ a, u.fn 0 [bit a] = bit (!a)

/-- `&`. -/
def IsAnd (u : Ufunc) : Prop := Logic u 2 ∧ ∀ a b, u.fn 0 [bit a, bit b] = bit (a && b)

/-- `|`. -/
def IsOr (u : Ufunc) : Prop := Logic u 2 ∧ ∀ a b, u.fn 0 [bit a, bit b] = bit (a || b)

/-- What `where` is documented to give at a cell. -/
def chosen (cond : Raster) (x y : Arg) (c : Cell) : Option Num :=
  if cond.mask c then none else if cond.data c = .fin 0 then given y c else given x c

/-- The same raster, as far as the cells it has. -/
structure Same (o p : Raster) : Prop where
  dtype : o.dtype = p.dtype
  nv : o.nv = p.nv
  nb : o.nb = p.nb
  ny : o.ny = p.ny
  nx : o.nx = p.nx
  cells : ∀ c, p.Has c → o.mask c = p.mask c ∧ o.data c = p.data c

end Spec

open Spec

/-! ### One choice -/

/-- The dtype of the result holds what is given, and none of it is the null value that `where` uses. -/
structure Fits (np : NumPy) (x y : Arg) (out : DType) : Prop where
  null : ∀ s, whereNv np x y = some s → np.cast out s.val = s.val ∧ ∀ c, given x c ≠ some s.val ∧ given y c ≠ some s.val
  keeps : ∀ c v, given x c = some v ∨ given y c = some v → np.cast out v = v
  cleanX : Clean x
  cleanY : Clean y

theorem condTrue_bit {cond : Raster} (h : Boolean cond) {c : Cell} {b : Bool} (hb : cond.data c = bit b) : condTrue cond c = b := by
  unfold condTrue
  rw [h.dtype, hb]
  cases b <;> decide +kernel

theorem bit_zero (b : Bool) : bit b = .fin 0 ↔ b = false := by
  cases b <;> decide +kernel

theorem value_given {x : Arg} {nv v : Num} {c : Cell} (h : given x c = some v) : x.value nv c = v ∧ x.mask c = false := by
  cases x with
  | raster r =>
    change (if r.mask c then none else some (r.data c)) = _ at h
    split at h
    · cases h
    · rename_i hm
      exact ⟨Option.some.inj h, (by simpa using hm : r.mask c = false)⟩
  | num w => exact ⟨Option.some.inj h, rfl⟩
  | null => cases h

theorem value_null {x : Arg} {nv : Num} {c : Cell} (h : given x c = none) : x.mask c = true ∨ x.value nv c = nv := by
  cases x with
  | raster r =>
    change (if r.mask c then none else some (r.data c)) = _ at h
    split at h
    · exact .inl ‹_›
    · cases h
  | num w => cases h
  | null => exact .inr rfl

theorem given_none_masked {x : Arg} (hx : Clean x) {c : Cell} (h : given x c = none) : x.masked = true ∨ x.isNull = true := by
  cases x with
  | raster r =>
    change (if r.mask c then none else some (r.data c)) = _ at h
    split at h
    · rename_i hm
      left
      have := hx c hm
      show r.masked = true
      unfold Raster.masked
      cases hn : r.nv with
      | none => exact absurd hn this
      | some s => rfl
    · cases h
  | num w => cases h
  | null => exact .inr rfl

/-- **C111 (cells).**  If the dtype of the result holds what is given and the null value is not among it, a cell of the result is null where the
condition is null, and otherwise as in the operand chosen by the condition. -/
theorem C111_cells {np : NumPy} {cond : Raster} {x y : Arg} {out : DType} {o : Raster} (hc : Boolean cond) (hf : Fits np x y out)
    (h : whereRaster np cond x y out = .ok o) (c : Cell) : cell o c = chosen cond x y c := by
  unfold whereRaster at h
  rw [if_neg (by rw [hc.dtype]; decide)] at h
  split at h
  · cases h
  · dsimp only at h
    split at h
    · rename_i hmask
      cases hnv : whereNv np x y with
      | none => rw [hnv] at h; cases h
      | some nv =>
        rw [hnv] at h
        injection h with h
        subst h
        obtain ⟨h1, h2⟩ := hf.null nv hnv
        unfold cell chosen
        dsimp only
        have key : ∀ z : Arg, (z = x ∨ z = y) →
            (if maskOf (some nv.val) (if z.mask c = true then np.cast out nv.val else np.cast out (z.value nv.val c)) = true then none
              else some (if z.mask c = true then np.cast out nv.val else np.cast out (z.value nv.val c))) = given z c := by
          intro z hz
          cases hg : given z c with
          | none =>
            rcases value_null (nv := nv.val) hg with e | e
            · rw [if_pos e, h1, if_pos ((maskOf_iff _ _).2 rfl)]
            · rw [e, ite_self, h1, if_pos ((maskOf_iff _ _).2 rfl)]
          | some v =>
            obtain ⟨e1, e2⟩ := value_given (nv := nv.val) hg
            have e3 : np.cast out v = v := hf.keeps c v (by rcases hz with rfl | rfl; exacts [.inl hg, .inr hg])
            simp only [e2, e1, e3, Bool.false_eq_true, if_false]
            rw [if_neg]
            rw [maskOf_iff]
            intro e
            subst e
            rcases hz with rfl | rfl
            · exact (h2 c).1 hg
            · exact (h2 c).2 hg
        by_cases hm : cond.mask c = true
        · simp only [hm, if_true, h1]
          rw [if_pos ((maskOf_iff _ _).2 rfl)]
        · obtain ⟨b, hb⟩ := hc.bits c (by simpa using hm)
          simp only [hm, if_false, condTrue_bit hc hb]
          rw [hb]
          simp only [bit_zero]
          cases b with
          | false => simpa using key y (.inr rfl)
          | true => simpa using key x (.inl rfl)
    · rename_i hmask
      injection h with h
      subst h
      simp only [Bool.or_eq_true, not_or, Bool.not_eq_true] at hmask
      obtain ⟨⟨⟨⟨m1, m2⟩, m3⟩, m4⟩, m5⟩ := hmask
      have hm : cond.mask c = false := by
        cases e : cond.mask c with
        | false => rfl
        | true =>
          have := hc.clean c e
          unfold Raster.masked at m1
          cases hn : cond.nv with
          | none => exact absurd hn this
          | some s => rw [hn] at m1; cases m1
      unfold cell chosen
      dsimp only
      rw [hm]
      simp only [Bool.false_eq_true, if_false]
      have key : ∀ z : Arg, (z = x ∨ z = y) → some (np.cast out (z.value .nan c)) = given z c := by
        intro z hz
        cases hg : given z c with
        | none =>
          exfalso
          rcases hz with rfl | rfl
          · rcases given_none_masked hf.cleanX hg with e | e
            · rw [m2] at e; cases e
            · rw [m4] at e; cases e
          · rcases given_none_masked hf.cleanY hg with e | e
            · rw [m3] at e; cases e
            · rw [m5] at e; cases e
        | some v =>
          obtain ⟨e1, -⟩ := value_given (nv := .nan) hg
          rw [e1, hf.keeps c v (by rcases hz with rfl | rfl; exacts [.inl hg, .inr hg])]
      obtain ⟨b, hb⟩ := hc.bits c hm
      simp only [condTrue_bit hc hb]
      rw [hb]
      simp only [bit_zero]
      cases b with
      | false => simpa using key y (.inr rfl)
      | true => simpa using key x (.inl rfl)

/-! ### Conditions made of conditions -/

theorem logic_bool {u : Ufunc} {rs : List Raster} (hu : Logic u rs.length) (this : Raster) (hrs : ∀ r ∈ rs, Boolean r) :
    ∃ o, applyUfunc u this (rs.map .raster) = .ok [o] ∧ o.dtype = .bool ∧ MaskNeedsNull o ∧ (o.nb, o.ny, o.nx) = (this.nb, this.ny, this.nx) ∧
      (o.nv ≠ none ↔ ∃ r ∈ rs, r.nv ≠ none) ∧
      ∀ p, (o.mask p = true ↔ ∃ r ∈ rs, r.mask p = true) ∧ (o.mask p = false → o.data p = u.fn 0 (rs.map (·.data p))) := by
  have hmem : ∀ r, Operand.raster r ∈ rs.map Operand.raster ↔ r ∈ rs := by
    intro r
    rw [List.mem_map]
    exact ⟨fun ⟨q, hq, e⟩ => by cases e; exact hq, fun h => ⟨r, h, rfl⟩⟩
  have hty : (rs.map Operand.raster).map Operand.ty = List.replicate rs.length .bool := by
    rw [List.map_map, List.eq_replicate_iff]
    refine ⟨by simp, ?_⟩
    intro b hb
    obtain ⟨r, hr, rfl⟩ := List.mem_map.1 hb
    exact (hrs r hr).dtype
  cases h : applyUfunc u this (rs.map .raster) with
  | error e =>
    exfalso
    rcases (C14_rejected u this _).1 ⟨e, h⟩ with ⟨-, a, ha, hf⟩ | ⟨h1, -⟩
    · obtain ⟨r, hr, rfl⟩ := List.mem_map.1 ha
      have : r.dtype.isFloat = true := hf
      rw [(hrs r hr).dtype] at this
      cases this
    · rw [hu.one] at h1
      omega
  | ok outs =>
    obtain ⟨h1, h2⟩ := C14_elementwise (by rw [hu.one]; exact Nat.one_pos) h fun r hr => (hrs r ((hmem r).1 hr)).clean
    rw [hu.one] at h1
    obtain ⟨o, rfl⟩ := List.length_eq_one_iff.1 h1
    obtain ⟨h3, h4, h5, h6⟩ := h2 0 o rfl
    simp only [hmem] at h5 h6
    refine ⟨o, rfl, ?_, ?_, h4, h5, fun p => ⟨(h6 p).1, fun hp => ?_⟩⟩
    · rw [h3, hty]
      exact hu.dtype
    · intro p hp
      obtain ⟨s, hs, -⟩ := (h6 p).2.2 hp
      rw [hs]
      simp
    · rw [(h6 p).2.1 hp, List.map_map]
      rfl

/-- `~c`. -/
theorem not_bool {u : Ufunc} (hu : IsNot u) {c : Raster} (hc : Boolean c) :
    ∃ o, applyUfunc u c [.raster c] = .ok [o] ∧ Boolean o ∧ (∀ p, o.mask p = c.mask p) ∧ o.masked = c.masked ∧ (o.nb, o.ny, o.nx) = (c.nb, c.ny, c.nx) ∧
      ∀ p b, c.mask p = false → c.data p = bit b → o.data p = bit (!b) := by
  obtain ⟨o, h1, h2, h3, h4, h5, h6⟩ := logic_bool (rs := [c]) hu.1 c (by simpa using hc)
  simp only [List.mem_singleton, exists_eq_left] at h5 h6
  have hm : ∀ p, o.mask p = c.mask p := fun p => Bool.eq_iff_iff.2 (h6 p).1
  have hd : ∀ p b, c.mask p = false → c.data p = bit b → o.data p = bit (!b) := by
    intro p b hp hb
    rw [(h6 p).2 (by rw [hm, hp])]
    show u.fn 0 [c.data p] = _
    rw [hb, hu.2]
  refine ⟨o, h1, ⟨h2, h3, ?_⟩, hm, ?_, h4, hd⟩
  · intro p hp
    rw [hm] at hp
    obtain ⟨b, hb⟩ := hc.bits p hp
    exact ⟨_, hd p b hp hb⟩
  · unfold Raster.masked
    rw [Bool.eq_iff_iff, Option.isSome_iff_ne_none, Option.isSome_iff_ne_none]
    exact h5

/-- `c & d` and `c | d`. -/
theorem both_bool {u : Ufunc} {f : Bool → Bool → Bool} (hu : Logic u 2) (hf : ∀ a b, u.fn 0 [bit a, bit b] = bit (f a b)) {c d : Raster}
    (hc : Boolean c) (hd : Boolean d) :
    ∃ o, applyUfunc u c [.raster c, .raster d] = .ok [o] ∧ Boolean o ∧ (∀ p, o.mask p = (c.mask p || d.mask p)) ∧
      (o.nb, o.ny, o.nx) = (c.nb, c.ny, c.nx) ∧
      ∀ p a b, c.mask p = false → d.mask p = false → c.data p = bit a → d.data p = bit b → o.data p = bit (f a b) := by
  obtain ⟨o, h1, h2, h3, h4, h5, h6⟩ := logic_bool (rs := [c, d]) hu c (by simp [hc, hd])
  simp only [List.mem_cons, List.not_mem_nil, or_false, exists_eq_or_imp, exists_eq_left] at h5 h6
  have hm : ∀ p, o.mask p = (c.mask p || d.mask p) := by
    intro p
    rw [Bool.eq_iff_iff, Bool.or_eq_true]
    exact (h6 p).1
  have hb : ∀ p a b, c.mask p = false → d.mask p = false → c.data p = bit a → d.data p = bit b → o.data p = bit (f a b) := by
    intro p a b hp hq ha hb
    rw [(h6 p).2 (by rw [hm, hp, hq]; rfl)]
    show u.fn 0 [c.data p, d.data p] = _
    rw [ha, hb, hf]
  refine ⟨o, h1, ⟨h2, h3, ?_⟩, hm, h4, hb⟩
  intro p hp
  rw [hm, Bool.or_eq_false_iff] at hp
  obtain ⟨a, ha⟩ := hc.bits p hp.1
  obtain ⟨b, hb'⟩ := hd.bits p hp.2
  exact ⟨_, hb p a b hp.1 hp.2 ha hb'⟩

/-! ### The laws -/

theorem promote_comm (a b : DType) : a.promote b = b.promote a := by
  cases a <;> cases b <;> rfl

theorem common_comm (a b : Nulls.Item) : commonDtype [a, b] = commonDtype [b, a] := by
  cases a <;> cases b <;>
    first
    | exact C19_literal_order_independent (List.Perm.swap _ _ _) rfl
    | (simp only [commonDtype, itemDtypes, itemInts, reducePromote, literalDtype, List.filterMap_cons, List.filterMap_nil, List.foldl_cons, List.foldl_nil,
        List.append_nil, List.cons_append, List.nil_append, Option.bind_some, Option.toList]
       exact promote_comm _ _)

theorem whereNv_comm (np : NumPy) (x y : Arg) : whereNv np x y = whereNv np y x := by
  rcases x with r | v | _ <;> rcases y with r' | v' | _
  · show (r.dtype.promote r'.dtype).map _ = (r'.dtype.promote r.dtype).map _
    rw [promote_comm]
  all_goals first
    | rfl
    | (show (commonDtype [v.item np, v'.item np]).map _ = (commonDtype [v'.item np, v.item np]).map _
       rw [common_comm])

/-- **C111 (swapped).**  `where(c, x, y)` is `where(~c, y, x)`, whatever is given, also if it is refused. -/
theorem C111_swapped {np : NumPy} {u : Ufunc} {c : Raster} (hu : IsNot u) (hc : Boolean c) (x y : Arg) (out : DType) :
    ∃ n, applyUfunc u c [.raster c] = .ok [n] ∧ whereRaster np n y x out = whereRaster np c x y out := by
  obtain ⟨n, h1, h2, h3, h4, h5, h6⟩ := not_bool hu hc
  refine ⟨n, h1, ?_⟩
  simp only [Prod.mk.injEq] at h5
  obtain ⟨h5, h7, h8⟩ := h5
  have hflip : ∀ p, c.mask p = false → condTrue n p = !condTrue c p := by
    intro p hp
    obtain ⟨b, hb⟩ := hc.bits p hp
    rw [condTrue_bit hc hb, condTrue_bit h2 (h6 p b hp hb)]
  have hmask : (n.masked || y.masked || x.masked || y.isNull || x.isNull) = (c.masked || x.masked || y.masked || x.isNull || y.isNull) := by
    rw [h4]
    cases c.masked <;> cases x.masked <;> cases y.masked <;> cases x.isNull <;> cases y.isNull <;> rfl
  unfold whereRaster
  rw [h2.dtype, hc.dtype, Bool.and_comm y.isNull, whereNv_comm np y x]
  dsimp only
  rw [hmask, h5, h7, h8]
  split
  · rfl
  split
  · rfl
  split
  · cases whereNv np x y with
    | none => rfl
    | some nv =>
      have hdata : (fun p => if (if n.mask p = true then true else if (if n.mask p = true then false else condTrue n p) = true then y.mask p else x.mask p) = true
            then np.cast out nv.val
            else np.cast out (if (if n.mask p = true then false else condTrue n p) = true then y.value nv.val p else x.value nv.val p)) =
          fun p => if (if c.mask p = true then true else if (if c.mask p = true then false else condTrue c p) = true then x.mask p else y.mask p) = true
            then np.cast out nv.val
            else np.cast out (if (if c.mask p = true then false else condTrue c p) = true then x.value nv.val p else y.value nv.val p) := by
        funext p
        rw [h3 p]
        by_cases hp : c.mask p = true
        · simp only [hp, if_true]
        · simp only [hp, Bool.false_eq_true, if_false]
          rw [hflip p (by simpa using hp)]
          cases condTrue c p <;> rfl
      show Except.ok (ε := Err) _ = Except.ok _
      congr 1
      simp only [Raster.mk.injEq, true_and, and_true]
      refine ⟨hdata, ?_⟩
      funext p
      exact congrArg (maskOf (some nv.val)) (congrFun hdata p)
  · rename_i hno
    have hcm : ∀ p, c.mask p = false := by
      intro p
      cases e : c.mask p with
      | false => rfl
      | true =>
        have := hc.clean p e
        have h : c.masked = false := by
          cases h : c.masked with
          | false => rfl
          | true => rw [h] at hno; simp at hno
        unfold Raster.masked at h
        cases hn : c.nv with
        | none => exact absurd hn this
        | some s => rw [hn] at h; cases h
    congr 2
    funext p
    rw [hflip p (hcm p)]
    cases condTrue c p <;> rfl

/-- **C111 (nested).**  Choosing by `c` and then by `d` is choosing by `c & d`, except that `d` being null matters only where `c` is true. -/
theorem C111_and {np : NumPy} {u : Ufunc} {c d i o e q : Raster} {x y : Arg} {out₁ out₂ out₃ : DType} (hu : IsAnd u) (hc : Boolean c) (hd : Boolean d)
    (h₁ : Fits np x y out₁) (h₂ : Fits np (.raster i) y out₂) (h₃ : Fits np x y out₃)
    (hi : whereRaster np d x y out₁ = .ok i) (ho : whereRaster np c (.raster i) y out₂ = .ok o)
    (he : applyUfunc u c [.raster c, .raster d] = .ok [e]) (hq : whereRaster np e x y out₃ = .ok q) (p : Cell) :
    (d.mask p = false → cell o p = cell q p) ∧
      (d.mask p = true → cell q p = none ∧ cell o p = if cell c p = some (bit false) then given y p else none) := by
  obtain ⟨e', h1, h2, h3, -, h5⟩ := both_bool (f := (· && ·)) hu.1 hu.2 hc hd
  rw [he] at h1
  cases h1
  rw [C111_cells hc h₂ ho, C111_cells h2 h₃ hq]
  unfold chosen
  rw [h3 p]
  have hin : given (.raster i) p = chosen d x y p := C111_cells hd h₁ hi p
  rw [hin]
  unfold chosen cell
  cases hcm : c.mask p with
  | true => simp
  | false =>
    obtain ⟨a, ha⟩ := hc.bits p hcm
    cases hdm : d.mask p with
    | true =>
      simp only [Bool.false_eq_true, if_false, Bool.or_true, if_true, ha]
      cases a <;> simp [bit]
    | false =>
      obtain ⟨b, hb⟩ := hd.bits p hdm
      rw [h5 p a b hcm hdm ha hb, ha, hb]
      cases a <;> cases b <;> simp [bit]

/-- **C111 (alternatives).**  Choosing by `c`, and by `d` where `c` is false, is choosing by `c | d`, except that `d` being null matters only where `c`
is false. -/
theorem C111_or {np : NumPy} {u : Ufunc} {c d i o e q : Raster} {x y : Arg} {out₁ out₂ out₃ : DType} (hu : IsOr u) (hc : Boolean c) (hd : Boolean d)
    (h₁ : Fits np x y out₁) (h₂ : Fits np x (.raster i) out₂) (h₃ : Fits np x y out₃)
    (hi : whereRaster np d x y out₁ = .ok i) (ho : whereRaster np c x (.raster i) out₂ = .ok o)
    (he : applyUfunc u c [.raster c, .raster d] = .ok [e]) (hq : whereRaster np e x y out₃ = .ok q) (p : Cell) :
    (d.mask p = false → cell o p = cell q p) ∧
      (d.mask p = true → cell q p = none ∧ cell o p = if cell c p = some (bit true) then given x p else none) := by
  obtain ⟨e', h1, h2, h3, -, h5⟩ := both_bool (f := (· || ·)) hu.1 hu.2 hc hd
  rw [he] at h1
  cases h1
  rw [C111_cells hc h₂ ho, C111_cells h2 h₃ hq]
  unfold chosen
  rw [h3 p]
  have hin : given (.raster i) p = chosen d x y p := C111_cells hd h₁ hi p
  rw [hin]
  unfold chosen cell
  cases hcm : c.mask p with
  | true => simp
  | false =>
    obtain ⟨a, ha⟩ := hc.bits p hcm
    cases hdm : d.mask p with
    | true =>
      simp only [Bool.false_eq_true, if_false, Bool.or_true, if_true, ha]
      cases a <;> simp [bit]
    | false =>
      obtain ⟨b, hb⟩ := hd.bits p hdm
      rw [h5 p a b hcm hdm ha hb, ha, hb]
      cases a <;> cases b <;> simp [bit]

/-- **C111 (again).**  Choosing by the same condition again changes nothing: the inner choice is never asked for its other side. -/
theorem C111_again {np : NumPy} {c i o q : Raster} {x y z : Arg} {out₁ out₂ out₃ : DType} (hc : Boolean c)
    (h₁ : Fits np x y out₁) (hi : whereRaster np c x y out₁ = .ok i) :
    (Fits np (.raster i) z out₂ → Fits np x z out₃ → whereRaster np c (.raster i) z out₂ = .ok o → whereRaster np c x z out₃ = .ok q →
      ∀ p, cell o p = cell q p) ∧
    (Fits np z (.raster i) out₂ → Fits np z y out₃ → whereRaster np c z (.raster i) out₂ = .ok o → whereRaster np c z y out₃ = .ok q →
      ∀ p, cell o p = cell q p) := by
  have hin : ∀ p, given (.raster i) p = chosen c x y p := C111_cells hc h₁ hi
  constructor
  · intro h₂ h₃ ho hq p
    rw [C111_cells hc h₂ ho, C111_cells hc h₃ hq]
    unfold chosen
    rw [hin]
    unfold chosen
    split
    · rfl
    · split <;> rfl
  · intro h₂ h₃ ho hq p
    rw [C111_cells hc h₂ ho, C111_cells hc h₃ hq]
    unfold chosen
    rw [hin]
    unfold chosen
    split
    · rfl
    · split <;> rfl

/-- **C111 (equal).**  Choosing between a raster and itself keeps the raster where the condition is not null, and gives it the default null value. -/
theorem C111_equal {np : NumPy} {c r o : Raster} {out : DType} (hc : Boolean c) (hf : Fits np (.raster r) (.raster r) out)
    (h : whereRaster np c (.raster r) (.raster r) out = .ok o) :
    (∀ p, cell o p = if c.mask p then none else cell r p) ∧ (o.nv ≠ none → o.nv = some (defaultNull r.dtype)) := by
  refine ⟨fun p => ?_, ?_⟩
  · rw [C111_cells hc hf h]
    unfold chosen
    rw [ite_self]
    rfl
  · intro hne
    unfold whereRaster at h
    rw [if_neg (by rw [hc.dtype]; decide)] at h
    rw [if_neg (by simp [Arg.isNull])] at h
    dsimp only at h
    split at h
    · have hp : whereNv np (.raster r) (.raster r) = some (defaultNull r.dtype) := by
        show (r.dtype.promote r.dtype).map defaultNull = _
        have : r.dtype.promote r.dtype = some r.dtype := by cases r.dtype <;> rfl
        rw [this]
        rfl
      rw [hp] at h
      injection h with h
      rw [← h]
    · injection h with h
      rw [← h] at hne
      exact absurd rfl hne

theorem where_none {np : NumPy} {c : Raster} (hc : Boolean c) (r : Raster) {s : Scalar} (hs : r.nv.getD (defaultNull r.dtype) = s) (out : DType) :
    ∃ o, whereRaster np c (.raster r) .null out = .ok o ∧ o.nv = some s ∧ ∀ p, o.mask p = maskOf (some s.val) (o.data p) := by
  have hnv : whereNv np (.raster r) .null = some s := congrArg some hs
  unfold whereRaster
  rw [if_neg (by rw [hc.dtype]; decide), if_neg (by simp [Arg.isNull])]
  dsimp only
  rw [if_pos (by simp [Arg.isNull]), hnv]
  exact ⟨_, rfl, rfl, fun _ => rfl⟩

/-- **C111 (keeping).**  `where(c, r, None)` is `r.set_null(~c).set_null(c.to_null_mask())`. -/
theorem C111_set_null {np : NumPy} {u : Ufunc} {c r : Raster} {s : Scalar} (hu : IsNot u) (hc : Boolean c) (hb : r.dtype ≠ .bool)
    (hshape : (c.nb, c.ny, c.nx) = (r.nb, r.ny, r.nx)) (hr : MaskNeedsNull r) (hs : r.nv.getD (defaultNull r.dtype) = s)
    (hcast : np.cast r.dtype s.val = s.val) (hkeep : ∀ p, r.mask p = false → np.cast r.dtype (r.data p) = r.data p ∧ r.data p ≠ s.val) :
    ∃ n a b o, applyUfunc u c [.raster c] = .ok [n] ∧ r.setNull np n = .ok a ∧ a.setNull np c.toNullMask = .ok b ∧
      whereRaster np c (.raster r) .null r.dtype = .ok o ∧ Same o b := by
  obtain ⟨n, h1, h2, h3, h4, h5, h6⟩ := not_bool hu hc
  simp only [Prod.mk.injEq] at h5 hshape
  obtain ⟨h5, h7, h8⟩ := h5
  obtain ⟨g1, g2, g3⟩ := hshape
  have hset : ∀ (r m : Raster), m.dtype = .bool → m.nb = r.nb → m.ny = r.ny → m.nx = r.nx → r.setNull np m = .ok (r.addMask m) := by
    intro r m e1 e2 e3 e4
    unfold Raster.setNull Raster.asBool
    rw [if_neg (by omega), if_neg (by simp [e3, e4]), if_neg (by simp [e1]), e1]
    rfl
  have hnone : c.nv = none → ∀ p, c.mask p = false := by
    intro h p
    cases e : c.mask p with
    | false => rfl
    | true => exact absurd h (hc.clean p e)
  have hadd : ∀ (r m : Raster) (s : Scalar), r.dtype ≠ .bool → r.nv.getD (defaultNull r.dtype) = s →
      (r.addMask m).dtype = r.dtype ∧ (r.addMask m).nb = r.nb ∧ (r.addMask m).ny = r.ny ∧ (r.addMask m).nx = r.nx ∧ (r.addMask m).nv = some s ∧
      ∀ p, (r.addMask m).mask p = (r.mask p || (if m.masked then !((m.data (m.bcast p)).eq (.fin 0)) && !(m.mask (m.bcast p)) else
        !((m.data (m.bcast p)).eq (.fin 0)))) ∧ (r.addMask m).data p = if (r.addMask m).mask p then s.val else r.data p := by
    intro r m s e1 e2
    have hnv : (if r.masked then r.nv else some (defaultNull r.dtype)) = some s := by
      unfold Raster.masked
      cases h : r.nv with
      | none => rw [h] at e2; simpa using e2
      | some t => rw [h] at e2; simpa using e2
    have hbool : r.dtype.isBool = false := by
      cases h : r.dtype <;> first | rfl | exact absurd h e1
    unfold Raster.addMask Raster.burn
    dsimp only
    rw [hnv]
    dsimp only
    rw [hbool]
    refine ⟨rfl, rfl, rfl, rfl, rfl, fun p => ⟨rfl, rfl⟩⟩
  have hbc : ∀ (m : Raster) p, p.1 < r.nb → m.nb = r.nb → m.bcast p = p := by
    intro m p hp hm
    unfold Raster.bcast
    split
    · have : p.1 = 0 := by omega
      rw [← this]
    · rfl
  obtain ⟨a1, a2, a3, a4, a5, a6⟩ := hadd r n s hb hs
  obtain ⟨b1, b2, b3, b4, b5, b6⟩ := hadd (r.addMask n) c.toNullMask s (by rw [a1]; exact hb) (by rw [a5]; rfl)
  obtain ⟨o, o1, o2, o3⟩ := where_none (np := np) hc r hs r.dtype
  have hfit : Fits np (.raster r) .null r.dtype := by
    refine ⟨?_, ?_, hr, trivial⟩
    · intro t ht
      have : t = s := Option.some.inj (ht.symm.trans (congrArg some hs))
      subst this
      refine ⟨hcast, fun p => ⟨?_, by simp [given]⟩⟩
      intro h
      obtain ⟨e1, e2⟩ := value_given (nv := .nan) h
      exact (hkeep p e2).2 e1
    · rintro p v (h | h)
      · obtain ⟨e1, e2⟩ := value_given (nv := .nan) h
        exact e1 ▸ (hkeep p e2).1
      · cases h
  have hcell := C111_cells hc hfit o1
  obtain ⟨k1, k2, k3, k4⟩ := Remap.C27_shape o1
  refine ⟨n, r.addMask n, (r.addMask n).addMask c.toNullMask, o, h1, hset r n h2.dtype (by omega) (by omega) (by omega),
    hset _ c.toNullMask rfl ?_ ?_ ?_, o1, ?_, ?_, ?_, ?_, ?_, ?_⟩
  · rw [a2]; exact g1
  · rw [a3]; exact g2
  · rw [a4]; exact g3
  · rw [b1, a1, k1]
  · rw [b5, o2]
  · rw [b2, a2, k2]; exact g1
  · rw [b3, a3, k3]; exact g2
  · rw [b4, a4, k4]; exact g3
  · intro p hp
    have hp1 : p.1 < r.nb := by
      have := hp.1
      rw [b2, a2] at this
      exact this
    have hb1 : n.bcast p = p := hbc n p hp1 (by omega)
    have hb2 : c.toNullMask.bcast p = p := hbc c.toNullMask p hp1 g1
    have hm : ((r.addMask n).addMask c.toNullMask).mask p = true ↔ cell o p = none := by
      rw [(b6 p).1, (a6 p).1, hb1, hb2, hcell p]
      unfold chosen
      rw [h3 p]
      cases hcm : c.mask p with
      | true =>
        have : c.toNullMask.data p = .fin 1 := by
          show (if c.mask p then _ else _) = _
          rw [hcm]
          rfl
        rw [this]
        have : c.toNullMask.masked = false := rfl
        rw [this]
        have e : (Num.eq (.fin 1) (.fin 0)) = false := by decide +kernel
        simp [e]
      | false =>
        obtain ⟨v, hv⟩ := hc.bits p hcm
        have e1 : c.toNullMask.data p = .fin 0 := by
          show (if c.mask p then _ else _) = _
          rw [hcm]
          rfl
        have e2 : c.toNullMask.masked = false := rfl
        rw [e1, e2, h6 p v hcm hv, hv]
        have e3 : (Num.eq (.fin 0) (.fin 0)) = true := by decide +kernel
        have e4 : ∀ w, Num.eq (bit w) (.fin 0) = !w := by intro w; cases w <;> decide +kernel
        simp only [e3, e4, bit_zero]
        show _ ↔ (if v = false then none else cell r p) = none
        unfold cell
        cases v <;> cases n.masked <;> simp
    have hd := (b6 p).2
    cases hom : o.mask p with
    | true =>
      have hnone : cell o p = none := by
        unfold cell
        rw [hom]
        rfl
      refine ⟨(hm.2 hnone).symm, ?_⟩
      rw [hd, if_pos (hm.2 hnone)]
      rw [o3] at hom
      exact (maskOf_iff _ _).1 hom
    | false =>
      have hsome : cell o p = some (o.data p) := by
        unfold cell
        rw [hom]
        rfl
      have hbm : ((r.addMask n).addMask c.toNullMask).mask p = false := by
        cases e : ((r.addMask n).addMask c.toNullMask).mask p with
        | false => rfl
        | true =>
          have := hm.1 e
          rw [hsome] at this
          cases this
      refine ⟨hbm.symm, ?_⟩
      rw [hd, hbm, if_neg (by simp), (a6 p).2]
      have ham : (r.addMask n).mask p = false := by
        rw [(b6 p).1, Bool.or_eq_false_iff] at hbm
        exact hbm.1
      rw [ham, if_neg (by simp)]
      rw [hcell p] at hsome
      unfold chosen at hsome
      split at hsome
      · cases hsome
      · split at hsome
        · cases hsome
        · change (if r.mask p then none else some (r.data p)) = _ at hsome
          split at hsome
          · cases hsome
          · exact (Option.some.inj hsome).symm

/-! ### A concrete case -/

/-- One row of four cells. -/
def exRow (dt : DType) (vs : List Num) (nulls : List Bool) (nv : Option Scalar) : Raster :=
  ⟨dt, 1, 1, 4, fun c => vs.getD c.2.2 (.fin 0), fun c => nulls.getD c.2.2 false, nv⟩

/-- True, false, null, true. -/
def exC : Raster := exRow .bool [.fin 1, .fin 0, .fin 1, .fin 1] [false, false, true, false] (some ⟨.bool, .fin 1⟩)

/-- True, true, true, null. -/
def exD : Raster := exRow .bool [.fin 1, .fin 1, .fin 1, .fin 1] [false, false, false, true] (some ⟨.bool, .fin 1⟩)

/-- 7, null, 9, 4. -/
def exR : Raster := exRow i32 [.fin 7, .fin (-1), .fin 9, .fin 4] [false, true, false, false] (some ⟨i32, .fin (-1)⟩)

def exNot : Ufunc := ⟨true, false, 1, fun _ _ => .bool, fun _ vs => if vs.getD 0 (.fin 0) = .fin 0 then .fin 1 else .fin 0⟩
def exAnd : Ufunc := ⟨true, false, 1, fun _ _ => .bool, fun _ vs => if vs.getD 0 (.fin 0) = .fin 0 ∨ vs.getD 1 (.fin 0) = .fin 0 then .fin 0 else .fin 1⟩
def exOr : Ufunc := ⟨true, false, 1, fun _ _ => .bool, fun _ vs => if vs.getD 0 (.fin 0) = .fin 0 ∧ vs.getD 1 (.fin 0) = .fin 0 then .fin 0 else .fin 1⟩

/-- The cells of the row. -/
def exCells : Except Err Raster → Option (List (Option Num))
  | .ok o => some ((List.range 4).map fun x => cell o (0, 0, x))
  | .error _ => none

theorem getD_all {α : Type} {P : α → Prop} {d : α} (l : List α) (h : ∀ a ∈ l, P a) (hd : P d) (k : Nat) : P (l.getD k d) := by
  rw [List.getD_eq_getElem?_getD]
  cases e : l[k]? with
  | none => exact hd
  | some a => exact h a (List.mem_of_getElem? e)

theorem exRow_boolean {vs : List Num} {nulls : List Bool} {nv : Scalar} (h : ∀ v ∈ vs, v = .fin 0 ∨ v = .fin 1) :
    Boolean (exRow .bool vs nulls (some nv)) := by
  refine ⟨rfl, fun _ _ => by simp [exRow], fun c _ => ?_⟩
  have : (vs.getD c.2.2 (.fin 0)) = .fin 0 ∨ (vs.getD c.2.2 (.fin 0)) = .fin 1 :=
    getD_all (P := fun v => v = .fin 0 ∨ v = .fin 1) vs h (.inl rfl) _
  rcases this with e | e
  · exact ⟨false, e⟩
  · exact ⟨true, e⟩

theorem exC_boolean : Boolean exC := exRow_boolean (by decide +kernel)
theorem exD_boolean : Boolean exD := exRow_boolean (by decide +kernel)

theorem given_exR (c : Cell) (v : Num) (h : given (.raster exR) c = some v) : v ∈ [.fin 7, .fin 9, .fin 4, .fin 0] := by
  change (if exR.mask c then none else some (exR.data c)) = _ at h
  split at h
  · cases h
  · rename_i hm
    have e : exR.data c = v := Option.some.inj h
    subst e
    obtain ⟨b, y, x⟩ := c
    match x, hm with
    | 0, _ => exact .head _
    | 1, hm => exact absurd rfl hm
    | 2, _ => exact .tail _ (.head _)
    | 3, _ => exact .tail _ (.tail _ (.head _))
    | x + 4, _ => exact .tail _ (.tail _ (.tail _ (.head _)))

/-- The hypotheses of C111 are met, and the rasters are as expected. -/
example : Boolean exC ∧ Boolean exD ∧ IsNot exNot ∧ IsAnd exAnd ∧ IsOr exOr ∧ Fits (idNumPy false) (.raster exR) (.num (.int 5)) i32 ∧
    exCells (whereRaster (idNumPy false) exC (.raster exR) (.num (.int 5)) i32) = some [some (.fin 7), some (.fin 5), none, some (.fin 4)] ∧
    exCells (whereRaster (idNumPy false) exC (.raster exR) .null i32) = some [some (.fin 7), none, none, some (.fin 4)] := by
  refine ⟨exC_boolean, exD_boolean, ⟨⟨rfl, rfl, rfl⟩, by decide +kernel⟩, ⟨⟨rfl, rfl, rfl⟩, by decide +kernel⟩, ⟨⟨rfl, rfl, rfl⟩, by decide +kernel⟩,
    ⟨?_, fun _ _ _ => rfl, fun _ _ => by simp [exR, exRow], trivial⟩, by decide +kernel, by decide +kernel⟩
  intro s hs
  have : s = ⟨i32, .fin (-1)⟩ := (Option.some.inj hs).symm
  subst this
  refine ⟨rfl, fun c => ⟨?_, fun h => absurd (Option.some.inj h) (by decide +kernel)⟩⟩
  intro h
  have := given_exR c _ h
  revert this
  decide +kernel

/-- Where `c` is false and `d` is null, choosing by one after the other is not choosing by both. -/
example : let d := exRow .bool [.fin 1, .fin 1, .fin 1, .fin 1] [false, true, false, false] (some ⟨.bool, .fin 1⟩)
    (match whereRaster (idNumPy false) d (.num (.int 3)) (.num (.int 5)) i32, applyUfunc exAnd exC [.raster exC, .raster d] with
      | .ok i, .ok [e] => some (exCells (whereRaster (idNumPy false) exC (.raster i) (.num (.int 5)) i32),
          exCells (whereRaster (idNumPy false) e (.num (.int 3)) (.num (.int 5)) i32))
      | _, _ => none) =
    some (some [some (.fin 3), some (.fin 5), none, some (.fin 3)], some [some (.fin 3), none, none, some (.fin 3)]) := by
  decide +kernel

end Verif.Trips.Choices
