import Verif.Nulls.ScalarModel
import Mathlib.Tactic.Linarith
import Mathlib.Tactic.NormNum
import Mathlib.Tactic.Tauto
import Mathlib.Data.List.Perm.Basic
import Mathlib.Data.List.Perm.Subperm
import Mathlib.Data.List.MinMax

/-!
# Null values and data types: property theorems (C18, C19)
-/

set_option linter.unusedSectionVars false

namespace Verif.Nulls

open Verif DType

/-! ### Specification -/

namespace Spec

/-- Significand bits and largest exponent of the floating point types (binary16, 32, 64; `longdouble`
is at least as wide as binary64). -/
def floatFormat : DType → Option (Nat × Nat)
  | f16 => some (11, 15)
  | f32 => some (24, 127)
  | f64 => some (53, 1023)
  | f128 => some (53, 1023)
  | _ => none

/-- The value is exactly representable in the data type; for floating point types that is a significand
of `p` bits times a power of two between the subnormal and the largest exponent. -/
def Representable (dt : DType) (v : Num) : Prop :=
  match floatFormat dt with
  | some (p, emax) => ∃ m e : Int, v = .fin ((m : Rat) * 2 ^ e) ∧ |m| < 2 ^ p ∧ e + p ≤ emax + 1 ∧ 2 ≤ e + emax + p
  | none => ∃ n : Int, v = .fin n ∧ dt.Holds n

/-- A scalar whose value belongs to its own type, if that is not a floating point type. -/
def WellTyped (s : Scalar) : Prop := s.ty.isFloat = false → ∃ n : Int, s.val = .fin n ∧ s.ty.Holds n

/-- Converting a value that fits to an integer or boolean type does not change it. -/
def ExactCast (np : NumPy) : Prop :=
  ∀ dt : DType, ∀ n : Int, dt.Holds n → np.cast dt (.fin n) = .fin n

/-- The integer types from the smallest to the largest, unsigned first. -/
def preference : List DType := [u8, i8, u16, i16, u32, i32, u64, i64]

end Spec

open Spec

/-! ### C18 -/

/-- **C18**, defaults: the default null value of every data type is representable in it. -/
theorem C18_default_fits (dt : DType) : Representable dt (defaultNull dt).val ∧ (defaultNull dt).ty = dt := by
  refine ⟨?_, by cases dt <;> rfl⟩
  cases dt <;> simp only [Representable, floatFormat, defaultNull]
  case f16 => exact ⟨-2047, 5, by norm_num, by norm_num, by norm_num⟩
  case f32 => exact ⟨-999999, 0, by norm_num, by norm_num, by norm_num⟩
  case f64 => exact ⟨-999999, 0, by norm_num, by norm_num, by norm_num⟩
  case f128 => exact ⟨-999999, 0, by norm_num, by norm_num, by norm_num⟩
  case bool => exact ⟨1, by norm_num, _, _, rfl, by norm_num, by norm_num⟩
  case u8 => exact ⟨255, by norm_num, _, _, rfl, by norm_num, by norm_num⟩
  case i8 => exact ⟨-128, by norm_num, _, _, rfl, by norm_num, by norm_num⟩
  case u16 => exact ⟨65535, by norm_num, _, _, rfl, by norm_num, by norm_num⟩
  case i16 => exact ⟨-32768, by norm_num, _, _, rfl, by norm_num, by norm_num⟩
  case u32 => exact ⟨4294967295, by norm_num, _, _, rfl, by norm_num, by norm_num⟩
  case i32 => exact ⟨-2147483648, by norm_num, _, _, rfl, by norm_num, by norm_num⟩
  case u64 => exact ⟨18446744073709549568, by norm_num, _, _, rfl, by norm_num, by norm_num⟩
  case i64 => exact ⟨-9223372036854775808, by norm_num, _, _, rfl, by norm_num, by norm_num⟩

/-- Safe casting between types with limits only widens the range. -/
theorem canCast_limits {a d : DType} (h : a.canCast d = true) (hd : d.isFloat = false) {n : Int}
    (hn : a.Holds n) : d.Holds n := by
  obtain ⟨lo, hi, h1, h2, h3⟩ := hn
  cases a <;> cases d <;> simp [canCast, isFloat] at h hd <;>
    simp only [limits, Option.some.injEq, Prod.mk.injEq] at h1 <;>
    obtain ⟨rfl, rfl⟩ := h1 <;> exact ⟨_, _, rfl, by norm_num at *; omega, by norm_num at *; omega⟩

theorem canCast_float {a d : DType} (h : a.canCast d = true) (ha : a.isFloat = true) : d.isFloat = true := by
  cases a <;> cases d <;> simp_all [canCast, isFloat]

theorem minScalarInt_holds {n : Int} {m : DType} (h : minScalarInt n = some m) :
    m.Holds n ∧ m.isFloat = false ∧ m.isInt = true := by
  unfold minScalarInt at h
  repeat' split at h
  all_goals first
    | (cases h; done)
    | (injection h with h; subst h
       exact ⟨⟨_, _, rfl, by norm_num at *; omega, by norm_num at *; omega⟩, rfl, rfl⟩)

theorem minScalarFloat_isFloat (v : Num) : (minScalarFloat v).isFloat = true := by
  unfold minScalarFloat
  repeat' split
  all_goals rfl

theorem bool_or_int {d : DType} (h : d.isFloat = false) : d.isInt = true ∨ d = .bool := by
  cases d <;> simp_all [isFloat, isInt]

theorem canCastScalar_holds {np : NumPy} {s : Scalar} {dt : DType} (hs : WellTyped s)
    (hdt : dt.isFloat = false) (h : np.canCastScalar s dt = true) :
    ∃ n : Int, s.val = .fin n ∧ dt.Holds n := by
  by_cases hf : s.ty.isFloat = true
  · exfalso
    unfold NumPy.canCastScalar at h
    have hi : s.ty.isInt = false := by cases hty : s.ty <;> simp_all [isInt, isFloat]
    split at h
    · rw [hi] at h
      simp only [hf, if_true] at h
      have := canCast_float h (minScalarFloat_isFloat _)
      rw [hdt] at this; cases this
    · have := canCast_float h hf
      rw [hdt] at this; cases this
  · have hf : s.ty.isFloat = false := by simpa using hf
    obtain ⟨n, hn, hh⟩ := hs hf
    refine ⟨n, hn, ?_⟩
    unfold NumPy.canCastScalar at h
    split at h
    · rcases bool_or_int hf with hi | hb
      · rw [hi, hn] at h
        simp only at h
        cases dt <;> simp only [limits, isFloat, Bool.false_eq_true, reduceCtorEq, Bool.and_eq_true,
          decide_eq_true_eq] at h hdt <;>
          exact ⟨_, _, rfl, by exact_mod_cast h.1, by exact_mod_cast h.2⟩
      · rw [hb] at h
        simp only [isInt, isFloat] at h
        rw [hb] at hh
        exact canCast_limits (a := .bool) (by rfl) hdt hh
    · exact canCast_limits h hdt hh

theorem secondTry_wellTyped {np : NumPy} {s : Scalar} (hs : WellTyped s) : WellTyped (secondTry np s) := by
  unfold secondTry
  split
  · next q hq =>
    split
    · next hf =>
      split
      · next hden =>
        split
        · exact hs
        · split
          · next m hm =>
            intro _
            refine ⟨q.num, ?_, (minScalarInt_holds hm).1⟩
            simp only [FVal.fin.injEq]
            exact ((Rat.den_eq_one_iff q).mp hden).symm
          · exact hs
      · intro h
        rw [minScalarFloat_isFloat] at h; cases h
    · next hf =>
      split
      · split
        · next m hm =>
          intro _
          obtain ⟨n, hn, _⟩ := hs (by simpa using hf)
          rw [hq] at hn
          injection hn with hn
          refine ⟨q.num, ?_, (minScalarInt_holds hm).1⟩
          rw [hn]; simp
        · exact hs
      · exact hs
  · intro h
    rw [minScalarFloat_isFloat] at h; cases h

/-- **C18**, boolean null values fit every dtype and are left alone. -/
theorem C18_boolean (np : NumPy) (dt : DType) {v : Num} (hv : v ≠ .nan) :
    reconcile np (some ⟨.bool, v⟩) dt = (some ⟨.bool, v⟩, false) := by
  have h1 : v.isnan = false := by cases v <;> simp_all [Num.isnan]
  have h2 : np.canCastScalar ⟨.bool, v⟩ dt = true := by
    have : DType.bool.canCast dt = true := by cases dt <;> rfl
    unfold NumPy.canCastScalar
    split
    · exact this
    · exact this
  simp only [reconcile, h1, h2, Bool.false_eq_true, if_false, if_true]

/-- **C18**, reconciling: for integer and boolean data types the reconciled null value is representable,
whatever NumPy version and input; there is no null value exactly if none was given. -/
theorem C18_reconcile_fits {np : NumPy} (hnp : ExactCast np) {dt : DType} (hdt : dt.isFloat = false)
    (nv : Option Scalar) (hs : ∀ s, nv = some s → WellTyped s) :
    (nv = none ∧ (reconcile np nv dt).1 = none) ∨
    ∃ s r, nv = some s ∧ (reconcile np nv dt).1 = some r ∧ Representable dt r.val := by
  have hrep : ∀ n : Int, dt.Holds n → Representable dt (.fin (n : Rat)) := by
    intro n hn
    have : floatFormat dt = none := by cases dt <;> simp_all [isFloat, floatFormat]
    simp only [Representable, this]
    exact ⟨n, rfl, hn⟩
  cases nv with
  | none => exact Or.inl ⟨rfl, rfl⟩
  | some s =>
    right
    have hs := hs s rfl
    unfold reconcile
    simp only
    split
    · exact ⟨s, _, rfl, rfl, (C18_default_fits dt).1⟩
    · split
      · next h =>
        obtain ⟨n, hn, hh⟩ := canCastScalar_holds hs hdt h
        exact ⟨s, _, rfl, rfl, by rw [hn]; exact hrep n hh⟩
      · split
        · next h =>
          refine ⟨s, _, rfl, rfl, ?_⟩
          simp only [Bool.or_eq_true, Bool.and_eq_true] at h
          rcases h with h | ⟨hb, h⟩
          · obtain ⟨n, hn, hh⟩ := canCastScalar_holds (secondTry_wellTyped (np := np) hs) hdt h
            rw [hn, hnp dt n hh]
            exact hrep n hh
          · have hdb : dt = .bool := by cases dt <;> simp_all [isBool]
            have : ∃ n : Int, (secondTry np s).val = .fin n ∧ (n = 0 ∨ n = 1) := by
              rcases h with h | h
              · refine ⟨0, ?_, Or.inl rfl⟩
                cases hv : (secondTry np s).val <;> rw [hv] at h <;> simp [Num.eq] at h
                rw [h]; rfl
              · refine ⟨1, ?_, Or.inr rfl⟩
                cases hv : (secondTry np s).val <;> rw [hv] at h <;> simp [Num.eq] at h
                rw [h]; rfl
            obtain ⟨n, hn, h01⟩ := this
            have hh : dt.Holds n := by
              rw [hdb]
              exact ⟨0, 1, rfl, by omega, by omega⟩
            rw [hn, hnp dt n hh]
            exact hrep n hh
        · exact ⟨s, _, rfl, rfl, (C18_default_fits dt).1⟩

/-- **C43**, kept: before NumPy 2 an integer null value that the integer data type can hold is kept. -/
theorem C43_kept_numpy1 {np : NumPy} (hv : np.valueBased = true) {s : Scalar} {dt : DType} {n : Int}
    (hs : s.ty.isInt = true) (hn : s.val = .fin n) (hdt : dt.isInt = true) (hh : dt.Holds n) :
    (reconcile np (some s) dt) = (some s, false) := by
  unfold reconcile
  simp only [hn, Num.isnan, Bool.false_eq_true, if_false]
  rw [if_pos]
  unfold NumPy.canCastScalar
  rw [if_pos hv, hs, hn]
  obtain ⟨lo, hi, h1, h2, h3⟩ := hh
  cases dt <;> simp [isInt] at hdt <;>
    simp only [limits, Option.some.injEq, Prod.mk.injEq] at h1 <;> obtain ⟨rfl, rfl⟩ := h1 <;>
    simp only [limits, Bool.and_eq_true, decide_eq_true_eq] <;>
    exact ⟨by exact_mod_cast h2, by exact_mod_cast h3⟩

/-- Values that NumPy 2 keeps: see `C43_kept_numpy2_partial`. -/
def KeptByNumPy2 (dt : DType) (n : Int) : Prop :=
  n < 0 ∨ dt.isUnsigned = true ∨ dt = i64 ∨ (dt = i16 ∧ n < 2 ^ 8) ∨ (dt = i32 ∧ n < 2 ^ 16)

theorem minScalar_numpy2 {dt : DType} {n : Int} (hdt : dt.isInt = true) (hne : dt ≠ i64) (hh : dt.Holds n) :
    ∃ m, minScalarInt n = some m ∧ (m.canCast dt = true ↔ KeptByNumPy2 dt n) := by
  obtain ⟨lo, hi, h1, h2, h3⟩ := hh
  unfold minScalarInt KeptByNumPy2
  cases dt <;> simp [isInt] at hdt hne <;>
    simp only [limits, Option.some.injEq, Prod.mk.injEq] at h1 <;> obtain ⟨rfl, rfl⟩ := h1 <;>
    norm_num at h2 h3 <;> (repeat' split) <;>
    first
    | (exfalso; norm_num at *; omega)
    | (refine ⟨_, rfl, ?_⟩; simp [canCast, isUnsigned] <;> norm_num at * <;> omega)

/-- **C43**, kept, since NumPy 2: a python int that the data type can hold is kept exactly if it is
negative, or the type is unsigned or int64, or it is small (below 2^8 for int16, 2^16 for int32);
otherwise it is replaced by the default null value.  The full claim (kept whenever it fits) is false:
see `C43_numpy2_replaces_fitting_value`. -/
theorem C43_kept_numpy2_partial {np : NumPy} (hnp : ExactCast np) (hv : np.valueBased = false) {dt : DType}
    {n : Int} (hdt : dt.isInt = true) (hh : dt.Holds n) :
    ∃ r, (reconcile np (some ⟨i64, .fin n⟩) dt).1 = some r ∧
      (KeptByNumPy2 dt n → r.val = .fin n) ∧ (¬ KeptByNumPy2 dt n → r = defaultNull dt) := by
  unfold reconcile
  simp only [Num.isnan, Bool.false_eq_true, if_false]
  by_cases h64 : dt = i64
  · subst h64
    rw [if_pos (by simp [NumPy.canCastScalar, hv, canCast])]
    exact ⟨_, rfl, fun _ => rfl, fun h => absurd (Or.inr (Or.inr (Or.inl rfl))) h⟩
  · have hdb : dt.isBool = false := by cases dt <;> simp_all [isInt, isBool]
    have hno : np.canCastScalar ⟨i64, .fin n⟩ dt = false := by
      unfold NumPy.canCastScalar
      rw [hv]
      cases dt <;> simp_all [isInt, canCast]
    rw [hno]
    obtain ⟨m, hm, hiff⟩ := minScalar_numpy2 hdt h64 hh
    have hsec : secondTry np ⟨i64, .fin n⟩ = ⟨m, .fin n⟩ := by
      simp [secondTry, isFloat, isInt, hm]
    simp only [Bool.false_eq_true, if_false, hsec, hdb, Bool.false_and, Bool.or_false]
    have hcc : np.canCastScalar ⟨m, .fin n⟩ dt = m.canCast dt := by
      simp [NumPy.canCastScalar, hv]
    rw [hcc]
    by_cases hk : KeptByNumPy2 dt n
    · rw [if_pos (hiff.mpr hk)]
      exact ⟨_, rfl, fun _ => hnp dt n hh, fun h => absurd hk h⟩
    · rw [if_neg (fun h => hk (hiff.mp h))]
      exact ⟨_, rfl, fun h => absurd h hk, fun _ => rfl⟩

/-- A NumPy for examples: conversion is exact on everything. -/
def idNumPy (valueBased : Bool) : NumPy := ⟨valueBased, fun _ v => v⟩

/-- **C43 fails with NumPy 2**: the null value 100 fits into int8 but is replaced by -128. -/
theorem C43_numpy2_replaces_fitting_value :
    i8.Holds 100 ∧ reconcile (idNumPy false) (pyInt 100) i8 = (some ⟨i8, .fin (-128)⟩, true) := by
  refine ⟨⟨_, _, rfl, by norm_num, by norm_num⟩, by decide +kernel⟩

/-- Concrete cases for the C18 and C43 theorems. -/
example : ExactCast (idNumPy false) ∧ WellTyped ⟨f64, .fin (5 / 2)⟩ ∧ WellTyped ⟨i64, .fin 300⟩ ∧
    reconcile (idNumPy false) (some ⟨f64, .fin (5 / 2)⟩) u8 = (some ⟨u8, .fin 255⟩, true) ∧
    reconcile (idNumPy false) (some ⟨i64, .fin 300⟩) u16 = (some ⟨u16, .fin 300⟩, false) ∧
    reconcile (idNumPy true) (some ⟨i64, .fin 100⟩) i8 = (some ⟨i64, .fin 100⟩, false) := by
  refine ⟨fun _ _ _ => rfl, ?_, ?_, by decide +kernel, by decide +kernel, by decide +kernel⟩
  · intro h; cases h
  · intro _; exact ⟨300, by norm_num, _, _, rfl, by norm_num, by norm_num⟩

/-! ### C19 -/

theorem promote_spec (a b : DType) : ∃ d, a.promote b = some d ∧ a.canCast d = true ∧ b.canCast d = true := by
  cases a <;> cases b <;> exact ⟨_, rfl, rfl, rfl⟩

theorem canCast_refl (a : DType) : a.canCast a = true := by cases a <;> rfl

theorem canCast_trans {a b c : DType} (h1 : a.canCast b = true) (h2 : b.canCast c = true) :
    a.canCast c = true := by
  have : ∀ a ∈ all, ∀ b ∈ all, ∀ c ∈ all, a.canCast b = true → b.canCast c = true → a.canCast c = true := by
    decide +kernel
  exact this a (mem_all a) b (mem_all b) c (mem_all c) h1 h2

/-- Neither float16 nor float32: into these the small integer types can be cast, but not what a signed
and an unsigned one are promoted to. -/
def NotSmallFloat (d : DType) : Prop := d ≠ f16 ∧ d ≠ f32

instance (d : DType) : Decidable (NotSmallFloat d) := inferInstanceAs (Decidable (_ ∧ _))

/-- The promotion is the least type both can be cast to, small floats aside. -/
theorem promote_least {a b c d : DType} (h : a.promote b = some d) (ha : a.canCast c = true)
    (hb : b.canCast c = true) (hc : NotSmallFloat c) : d.canCast c = true := by
  have : ∀ a ∈ all, ∀ b ∈ all, ∀ c ∈ all, a.canCast c = true → b.canCast c = true → NotSmallFloat c →
      (a.promote b).map (·.canCast c) = some true := by
    decide +kernel
  have := this a (mem_all a) b (mem_all b) c (mem_all c) ha hb hc
  rw [h] at this
  simpa using this

theorem promote_notSmall {a b d : DType} (h : a.promote b = some d) (ha : NotSmallFloat a)
    (hb : NotSmallFloat b) : NotSmallFloat d := by
  have : ∀ a ∈ all, ∀ b ∈ all, NotSmallFloat a → NotSmallFloat b → ∀ d ∈ a.promote b, NotSmallFloat d := by
    decide +kernel
  exact this a (mem_all a) b (mem_all b) ha hb d h

theorem canCast_antisymm {a b : DType} (h1 : a.canCast b = true) (h2 : b.canCast a = true) : a = b := by
  have : ∀ a ∈ all, ∀ b ∈ all, a.canCast b = true → b.canCast a = true → a = b := by decide +kernel
  exact this a (mem_all a) b (mem_all b) h1 h2

theorem foldl_promote (ds : List DType) (d : DType) :
    ∃ r, ds.foldl (fun acc e => acc.bind (·.promote e)) (some d) = some r ∧
      (d.canCast r = true ∧ ∀ e ∈ ds, e.canCast r = true) ∧
      (∀ c, NotSmallFloat c → d.canCast c = true → (∀ e ∈ ds, e.canCast c = true) → r.canCast c = true) ∧
      (NotSmallFloat d → (∀ e ∈ ds, NotSmallFloat e) → NotSmallFloat r) := by
  induction ds generalizing d with
  | nil => exact ⟨d, rfl, ⟨canCast_refl d, by simp⟩, fun c _ h _ => h, fun h _ => h⟩
  | cons e ds ih =>
    obtain ⟨p, hp, h1, h2⟩ := promote_spec d e
    obtain ⟨r, hr, ⟨h3, h4⟩, h5, h6⟩ := ih p
    refine ⟨r, ?_, ⟨canCast_trans h1 h3, ?_⟩, ?_, ?_⟩
    · rw [List.foldl_cons, Option.bind_some, hp, hr]
    · intro x hx
      rcases List.mem_cons.mp hx with rfl | hx
      · exact canCast_trans h2 h3
      · exact h4 x hx
    · intro c hs hc hall
      refine h5 c hs (promote_least hp hc (hall e (by simp)) hs) ?_
      intro x hx; exact hall x (by simp [hx])
    · intro hd hall
      exact h6 (promote_notSmall hp hd (hall e (by simp))) (fun x hx => hall x (by simp [hx]))

theorem reducePromote_spec {ds : List DType} (hne : ds ≠ []) :
    ∃ r, reducePromote ds = some r ∧ (∀ e ∈ ds, e.canCast r = true) ∧
      (∀ c, NotSmallFloat c → (∀ e ∈ ds, e.canCast c = true) → r.canCast c = true) ∧
      ((∀ e ∈ ds, NotSmallFloat e) → NotSmallFloat r) := by
  cases ds with
  | nil => exact absurd rfl hne
  | cons d ds =>
    obtain ⟨r, hr, ⟨h1, h2⟩, h3, h4⟩ := foldl_promote ds d
    refine ⟨r, hr, ?_, fun c hs hc => h3 c hs (hc d (by simp)) (fun e he => hc e (by simp [he])),
      fun hc => h4 (hc d (by simp)) (fun e he => hc e (by simp [he]))⟩
    intro e he
    rcases List.mem_cons.mp he with rfl | he
    · exact h1
    · exact h2 e he

theorem reducePromote_perm {ds es : List DType} (h : ds.Perm es) (hs : ∀ e ∈ ds, NotSmallFloat e) :
    reducePromote ds = reducePromote es := by
  by_cases hne : ds = []
  · subst hne
    rw [h.nil_eq]
  · have hne' : es ≠ [] := fun e => hne (by rw [e] at h; exact h.eq_nil)
    obtain ⟨r, hr, h1, h2, h5⟩ := reducePromote_spec hne
    obtain ⟨s, hs', h3, h4, h6⟩ := reducePromote_spec hne'
    rw [hr, hs']
    congr 1
    exact canCast_antisymm
      (h2 s (h6 (fun e he => hs e (h.mem_iff.mpr he))) (fun e he => h3 e (h.mem_iff.mp he)))
      (h4 r (h5 hs) (fun e he => h1 e (h.mem_iff.mpr he)))

theorem listMin_spec {xs : List Int} {m : Int} (h : listMin xs = some m) : m ∈ xs ∧ ∀ x ∈ xs, m ≤ x := by
  cases xs with
  | nil => cases h
  | cons x xs =>
    simp only [listMin, Option.some.injEq] at h
    subst h
    induction xs generalizing x with
    | nil => simp
    | cons y ys ih =>
      rw [List.foldl_cons]
      obtain ⟨h1, h2⟩ := ih (min x y)
      refine ⟨?_, ?_⟩
      · rcases List.mem_cons.mp h1 with h | h
        · rcases min_choice x y with e | e <;> rw [h, e] <;> simp
        · simp [h]
      · intro z hz
        have h0 := h2 (min x y) (by simp)
        rcases List.mem_cons.mp hz with rfl | hz
        · exact le_trans h0 (min_le_left _ _)
        · rcases List.mem_cons.mp hz with rfl | hz
          · exact le_trans h0 (min_le_right _ _)
          · exact h2 z (by simp [hz])

theorem listMax_spec {xs : List Int} {m : Int} (h : listMax xs = some m) : m ∈ xs ∧ ∀ x ∈ xs, x ≤ m := by
  cases xs with
  | nil => cases h
  | cons x xs =>
    simp only [listMax, Option.some.injEq] at h
    subst h
    induction xs generalizing x with
    | nil => simp
    | cons y ys ih =>
      rw [List.foldl_cons]
      obtain ⟨h1, h2⟩ := ih (max x y)
      refine ⟨?_, ?_⟩
      · rcases List.mem_cons.mp h1 with h | h
        · rcases max_choice x y with e | e <;> rw [h, e] <;> simp
        · simp [h]
      · intro z hz
        have h0 := h2 (max x y) (by simp)
        rcases List.mem_cons.mp hz with rfl | hz
        · exact le_trans (le_max_left _ _) h0
        · rcases List.mem_cons.mp hz with rfl | hz
          · exact le_trans (le_max_right _ _) h0
          · exact h2 z (by simp [hz])

theorem listMin_perm {xs ys : List Int} (h : xs.Perm ys) : listMin xs = listMin ys := by
  cases hx : listMin xs with
  | none =>
    have : xs = [] := by cases xs <;> simp_all [listMin]
    subst this
    rw [h.nil_eq.symm]; rfl
  | some m =>
    cases hy : listMin ys with
    | none =>
      have : ys = [] := by cases ys <;> simp_all [listMin]
      subst this
      rw [h.eq_nil] at hx; cases hx
    | some k =>
      obtain ⟨h1, h2⟩ := listMin_spec hx
      obtain ⟨h3, h4⟩ := listMin_spec hy
      congr 1
      exact le_antisymm (h2 k (h.mem_iff.mpr h3)) (h4 m (h.mem_iff.mp h1))

theorem listMax_perm {xs ys : List Int} (h : xs.Perm ys) : listMax xs = listMax ys := by
  cases hx : listMax xs with
  | none =>
    have : xs = [] := by cases xs <;> simp_all [listMax]
    subst this
    rw [h.nil_eq.symm]; rfl
  | some m =>
    cases hy : listMax ys with
    | none =>
      have : ys = [] := by cases ys <;> simp_all [listMax]
      subst this
      rw [h.eq_nil] at hx; cases hx
    | some k =>
      obtain ⟨h1, h2⟩ := listMax_spec hx
      obtain ⟨h3, h4⟩ := listMax_spec hy
      congr 1
      exact le_antisymm (h4 m (h.mem_iff.mp h1)) (h2 k (h.mem_iff.mpr h3))

theorem fitsRange_iff {lo hi : Int} (hle : lo ≤ hi) {dt : DType} (hdt : dt ∈ intTypes) :
    fitsRange lo hi dt = true ↔ dt.Holds lo ∧ dt.Holds hi := by
  simp only [intTypes, List.mem_cons, List.not_mem_nil, or_false] at hdt
  unfold fitsRange DType.Holds
  rcases hdt with rfl | rfl | rfl | rfl | rfl | rfl | rfl | rfl <;>
    simp only [isUnsigned, limits, Bool.and_true, Bool.and_false, decide_eq_true_eq, Option.some.injEq,
      Prod.mk.injEq, Bool.false_eq_true, if_false]
  all_goals
    constructor
    · intro h
      try split at h
      all_goals first
        | (exact absurd h Bool.false_ne_true)
        | (simp only [Bool.and_eq_true, decide_eq_true_eq] at h
           exact ⟨⟨_, _, ⟨rfl, rfl⟩, by omega, by omega⟩, ⟨_, _, ⟨rfl, rfl⟩, by omega, by omega⟩⟩)
    · rintro ⟨⟨a, b, ⟨rfl, rfl⟩, h1, h2⟩, ⟨_, _, ⟨rfl, rfl⟩, h3, h4⟩⟩
      try rw [if_neg (by omega)]
      simp only [Bool.and_eq_true, decide_eq_true_eq]
      omega

/-- **C19.**  If some 64 bit or narrower integer type holds all the integer literals (and there is
something to determine a dtype from), `get_common_dtype` returns a type that holds every literal, or a
floating point type (only because of the other items), and that every other item's dtype can be safely
cast to.  For literals alone it is the first fitting type in the documented order. -/
theorem C19_common_dtype_holds_literals {items : List Item} (hne : items ≠ [])
    (hfit : ∃ d ∈ preference, ∀ n, Item.int n ∈ items → d.Holds n) :
    ∃ r, commonDtype items = some r ∧
      (∀ n, Item.int n ∈ items → r.isFloat = true ∨ r.Holds n) ∧
      (∀ d, (Item.dtype d ∈ items ∨ Item.other d ∈ items) → d.canCast r = true) ∧
      ((∀ x ∈ items, ∃ n, x = Item.int n) →
        ∃ pre post, preference = pre ++ r :: post ∧ (∀ n, Item.int n ∈ items → r.Holds n) ∧
          ∀ d ∈ pre, ∃ n, Item.int n ∈ items ∧ ¬ d.Holds n) := by
  have hpref : preference = intTypes := rfl
  rw [hpref] at hfit ⊢
  have hmemI : ∀ n, n ∈ itemInts items ↔ Item.int n ∈ items := by
    intro n
    simp only [itemInts, List.mem_filterMap]
    constructor
    · rintro ⟨x, hx, h⟩
      cases x <;> simp at h
      subst h; exact hx
    · intro h; exact ⟨_, h, rfl⟩
  have hmemD : ∀ d, d ∈ itemDtypes items ↔ (Item.dtype d ∈ items ∨ Item.other d ∈ items) := by
    intro d
    simp only [itemDtypes, List.mem_filterMap]
    constructor
    · rintro ⟨x, hx, h⟩
      cases x <;> simp at h <;> subst h
      · exact Or.inl hx
      · exact Or.inr hx
    · rintro (h | h)
      · exact ⟨_, h, rfl⟩
      · exact ⟨_, h, rfl⟩
  -- the literal dtype
  have hlit : (itemInts items = [] ∧ literalDtype (itemInts items) = none) ∨
      ∃ l pre post, itemInts items ≠ [] ∧ literalDtype (itemInts items) = some l ∧ intTypes = pre ++ l :: post ∧
        (∀ n, Item.int n ∈ items → l.Holds n) ∧ (∀ d ∈ pre, ∃ n, Item.int n ∈ items ∧ ¬ d.Holds n) := by
    by_cases h0 : itemInts items = []
    · left; rw [h0]; exact ⟨rfl, rfl⟩
    · right
      obtain ⟨lo, hlo⟩ : ∃ lo, listMin (itemInts items) = some lo := by
        cases h : itemInts items with
        | nil => exact absurd h h0
        | cons x xs => exact ⟨_, rfl⟩
      obtain ⟨hi, hhi⟩ : ∃ hi, listMax (itemInts items) = some hi := by
        cases h : itemInts items with
        | nil => exact absurd h h0
        | cons x xs => exact ⟨_, rfl⟩
      obtain ⟨a1, a2⟩ := listMin_spec hlo
      obtain ⟨b1, b2⟩ := listMax_spec hhi
      have hle : lo ≤ hi := a2 _ b1
      have hb : ∀ d : DType, d.Holds lo → d.Holds hi → ∀ n, Item.int n ∈ items → d.Holds n := by
        rintro d ⟨x, y, e1, e2, e3⟩ ⟨x', y', e1', e2', e3'⟩ n hn
        rw [e1] at e1'
        injection e1' with e1'
        injection e1' with ex ey
        subst ex; subst ey
        have := a2 n ((hmemI n).mpr hn)
        have := b2 n ((hmemI n).mpr hn)
        exact ⟨x, y, e1, by omega, by omega⟩
      have hl : literalDtype (itemInts items) = intTypes.find? (fitsRange lo hi) := by
        simp only [literalDtype, hlo, hhi]
      obtain ⟨d0, hd0, hfd⟩ := hfit
      have hfind : ∃ l, intTypes.find? (fitsRange lo hi) = some l := by
        cases hf : intTypes.find? (fitsRange lo hi) with
        | some l => exact ⟨l, rfl⟩
        | none =>
          exfalso
          rw [List.find?_eq_none] at hf
          refine hf d0 hd0 ((fitsRange_iff hle hd0).mpr ⟨?_, ?_⟩)
          · exact hfd lo ((hmemI lo).mp a1)
          · exact hfd hi ((hmemI hi).mp b1)
      obtain ⟨l, hlf⟩ := hfind
      have hlf' := hlf
      rw [List.find?_eq_some_iff_append] at hlf
      obtain ⟨hfl, pre, post, hsplit, hpre⟩ := hlf
      have hlm : l ∈ intTypes := by rw [hsplit]; simp
      have hlh := (fitsRange_iff hle hlm).mp hfl
      refine ⟨l, pre, post, h0, by rw [hl, hlf'], hsplit, hb l hlh.1 hlh.2, ?_⟩
      intro d hd
      have hdm : d ∈ intTypes := by rw [hsplit]; simp [hd]
      have hnf := hpre d hd
      have : ¬ (d.Holds lo ∧ d.Holds hi) := fun hh => by
        rw [(fitsRange_iff hle hdm).mpr hh] at hnf; simp at hnf
      by_cases hdl : d.Holds lo
      · exact ⟨hi, (hmemI hi).mp b1, fun hh => this ⟨hdl, hh⟩⟩
      · exact ⟨lo, (hmemI lo).mp a1, hdl⟩
  have hlist : itemDtypes items ++ (literalDtype (itemInts items)).toList ≠ [] := by
    obtain ⟨x, hx⟩ := List.exists_mem_of_ne_nil _ hne
    cases x with
    | dtype d =>
      have : d ∈ itemDtypes items := (hmemD d).mpr (Or.inl hx)
      intro h; rw [List.append_eq_nil_iff] at h; rw [h.1] at this; cases this
    | other d =>
      have : d ∈ itemDtypes items := (hmemD d).mpr (Or.inr hx)
      intro h; rw [List.append_eq_nil_iff] at h; rw [h.1] at this; cases this
    | int n =>
      rcases hlit with ⟨h0, _⟩ | ⟨l, pre, post, _, h1, _⟩
      · have := (hmemI n).mpr hx
        rw [h0] at this; cases this
      · rw [h1]; simp
  obtain ⟨r, hr, h1, -, -⟩ := reducePromote_spec hlist
  refine ⟨r, hr, ?_, ?_, ?_⟩
  · intro n hn
    rcases hlit with ⟨h0, _⟩ | ⟨l, pre, post, _, e1, _, e3, _⟩
    · have := (hmemI n).mpr hn
      rw [h0] at this; cases this
    · by_cases hrf : r.isFloat = true
      · exact Or.inl hrf
      · right
        exact canCast_limits (h1 l (by rw [e1]; simp)) (by simpa using hrf) (e3 n hn)
  · intro d hd
    exact h1 d (by simp [(hmemD d).mpr hd])
  · intro hints
    have hd0 : itemDtypes items = [] := by
      rw [List.eq_nil_iff_forall_not_mem]
      intro d hd
      rcases (hmemD d).mp hd with h | h
      · obtain ⟨n, hn⟩ := hints _ h; cases hn
      · obtain ⟨n, hn⟩ := hints _ h; cases hn
    rcases hlit with ⟨h0, hnone⟩ | ⟨l, pre, post, _, e1, e2, e3, e4⟩
    · rw [hd0, hnone] at hlist; exact absurd rfl hlist
    · have : reducePromote (itemDtypes items ++ (literalDtype (itemInts items)).toList) = some l := by
        rw [hd0, e1]; rfl
      rw [this] at hr
      injection hr with hr
      subst hr
      exact ⟨pre, post, e2, e3, e4⟩

/-- **C19**, order independence: reordering the items does not change the result as long as the other
items keep their order among themselves. -/
theorem C19_literal_order_independent {xs ys : List Item} (h : xs.Perm ys) (hd : itemDtypes xs = itemDtypes ys) :
    commonDtype xs = commonDtype ys := by
  unfold commonDtype
  have : literalDtype (itemInts xs) = literalDtype (itemInts ys) := by
    unfold literalDtype
    rw [listMin_perm (xs := itemInts xs) (ys := itemInts ys) (h.filterMap _),
      listMax_perm (xs := itemInts xs) (ys := itemInts ys) (h.filterMap _)]
  rw [this, hd]

theorem literalDtype_notSmall {xs : List Int} {d : DType} (h : literalDtype xs = some d) : NotSmallFloat d := by
  unfold literalDtype at h
  split at h
  · have := List.mem_of_find?_eq_some h
    revert this
    have hh : ∀ d ∈ intTypes, NotSmallFloat d := by decide +kernel
    exact hh d
  · cases h

/-- **C19**, order independence of all items, if none of them is a float16 or float32. -/
theorem C19_order_independent_partial {xs ys : List Item} (h : xs.Perm ys)
    (hs : ∀ d, (Item.dtype d ∈ xs ∨ Item.other d ∈ xs) → NotSmallFloat d) : commonDtype xs = commonDtype ys := by
  unfold commonDtype
  have hl : literalDtype (itemInts xs) = literalDtype (itemInts ys) := by
    unfold literalDtype
    rw [listMin_perm (xs := itemInts xs) (ys := itemInts ys) (h.filterMap _),
      listMax_perm (xs := itemInts xs) (ys := itemInts ys) (h.filterMap _)]
  apply reducePromote_perm
  · rw [hl]
    exact List.Perm.append (h.filterMap _) (List.Perm.refl _)
  · intro e he
    rw [List.mem_append] at he
    rcases he with he | he
    · simp only [itemDtypes, List.mem_filterMap] at he
      obtain ⟨x, hx, h⟩ := he
      cases x <;> simp at h <;> subst h
      · exact hs _ (Or.inl hx)
      · exact hs _ (Or.inr hx)
    · exact literalDtype_notSmall (by simpa using he)

/-- With float16 the order of explicit dtypes matters: `np.promote_types` is not associative. -/
theorem C19_dtype_order_matters :
    commonDtype [.dtype u8, .dtype i8, .dtype f16] = some f32 ∧
    commonDtype [.dtype u8, .dtype f16, .dtype i8] = some f16 := by
  decide +kernel

/-- Concrete case: 200 and -3 need int16, and with a float32 item the result is float32. -/
example : commonDtype [.int 200, .int (-3)] = some i16 ∧ commonDtype [.int 200, .dtype f32, .int (-3)] = some f32 ∧
    (∀ n, Item.int n ∈ [Item.int 200, .int (-3)] → i16.Holds n) := by
  refine ⟨by decide +kernel, by decide +kernel, ?_⟩
  intro n hn
  simp only [List.mem_cons, Item.int.injEq, List.not_mem_nil, or_false] at hn
  rcases hn with rfl | rfl <;> exact ⟨_, _, rfl, by norm_num, by norm_num⟩

/-- The hypothesis of C19 is needed: literals that no type holds together are silently ignored. -/
theorem C19_unfitting_literals_ignored : commonDtype [.int (-1), .int (2 ^ 63), .dtype u8] = some u8 := by
  decide +kernel

end Verif.Nulls
