import Verif.Nulls.ScalarProps
import Mathlib.Tactic.Linarith
import Mathlib.Tactic.NormNum

/-!
# Floating point null values and data types (C95), python integers (C43)
-/

set_option linter.unusedSectionVars false

namespace Verif.Nulls

open Verif DType

namespace Spec

/-- The largest finite number of the floating point types with significands of `p` bits and the largest
exponent `emax`. -/
def IsLargest (dt : DType) (q : Rat) : Prop :=
  Representable dt (.fin q) ∧ ∀ r : Rat, Representable dt (.fin r) → |r| ≤ q

/-- The range by which NumPy chooses a floating point type for a number. -/
def InRange : DType → Rat → Prop
  | f16, q => |q| < 65000
  | f32, q => |q| < 34 * 10 ^ 37
  | f64, _ => True
  | f128, _ => True
  | _, _ => False

/-- The whole numbers that the narrow floating point types hold by NumPy's rule of safe casting. -/
def SafeWhole : DType → Int → Prop
  | f16, n => -128 ≤ n ∧ n ≤ 255
  | f32, n => -32768 ≤ n ∧ n ≤ 65535
  | _, _ => False

/-- Rounding to a wider floating point type does not carry a number of float64 into the range of a narrower
type (the ends of the ranges are numbers of the wider types). -/
def KeepsRange (np : NumPy) : Prop :=
  ∀ dt m : DType, ∀ q : Rat, m.isFloat = true → Representable f64 (.fin q) → InRange m q → ¬ InRange dt q →
    ∃ r, np.cast m (.fin q) = .fin r ∧ ¬ InRange dt r

end Spec

open Spec

/-! ### C43: python integers -/

/-- **C43**, python integers: an integer becomes a number of a type that holds it, an int64 if possible;
only those beyond 64 bits have none. -/
theorem C43_pyInt (n : Int) :
    (∀ s, pyInt n = some s → s.val = .fin n ∧ s.ty.Holds n ∧ (s.ty = i64 ∨ s.ty = u64 ∧ ¬ i64.Holds n)) ∧
    (pyInt n = none ↔ n < -2 ^ 63 ∨ 2 ^ 64 ≤ n) := by
  unfold pyInt
  refine ⟨?_, ?_⟩
  · intro s h
    split at h
    · next h1 =>
      injection h with h; subst h
      exact ⟨rfl, ⟨_, _, rfl, h1.1, h1.2⟩, Or.inl rfl⟩
    · next h1 =>
      split at h
      · next h2 =>
        injection h with h; subst h
        refine ⟨rfl, ⟨_, _, rfl, h2.1, h2.2⟩, Or.inr ⟨rfl, ?_⟩⟩
        rintro ⟨lo, hi, h3, h4, h5⟩
        simp only [limits, Option.some.injEq, Prod.mk.injEq] at h3
        obtain ⟨rfl, rfl⟩ := h3
        exact h1 ⟨h4, h5⟩
      · cases h
  · split
    · next h1 => simp; norm_num at *; omega
    · next h1 =>
      split
      · next h2 => simp; norm_num at *; omega
      · next h2 => simp; norm_num at *; omega

example : pyInt (2 ^ 63) = some ⟨u64, .fin 9223372036854775808⟩ ∧ pyInt (-5) = some ⟨i64, .fin (-5)⟩ ∧
    pyInt (2 ^ 64) = none := by decide +kernel

/-! ### C95 -/

theorem minScalarFloat_range {dt : DType} (hdt : dt.isFloat = true) (q : Rat) :
    (minScalarFloat (.fin q)).canCast dt = true ↔ InRange dt q := by
  have h65 : (-65000 < q ∧ q < 65000) ↔ |q| < 65000 := by rw [abs_lt]
  have h34 : (-34 * 10 ^ 37 < q ∧ q < 34 * 10 ^ 37) ↔ |q| < 34 * 10 ^ 37 := by rw [abs_lt, neg_mul]
  unfold minScalarFloat
  simp only
  split
  · next h =>
    have h1 := h65.mp h
    have h2 : |q| < 34 * 10 ^ 37 := lt_trans h1 (by norm_num)
    cases dt <;> simp [isFloat] at hdt <;> simp only [InRange, canCast] <;> simp [h1, h2]
  · next h =>
    have h1 : ¬ |q| < 65000 := fun h' => h (h65.mpr h')
    split
    · next h' =>
      have h2 := h34.mp h'
      cases dt <;> simp [isFloat] at hdt <;> simp only [InRange, canCast] <;> simp [h1, h2]
    · next h' =>
      have h2 : ¬ |q| < 34 * 10 ^ 37 := fun h'' => h' (h34.mpr h'')
      cases dt <;> simp [isFloat] at hdt <;> simp only [InRange, canCast] <;> simp [h1, h2]

theorem minScalarInt_safe {dt : DType} (h : dt = f16 ∨ dt = f32) (n : Int) :
    (∃ m, minScalarInt n = some m ∧ m.canCast dt = true) ↔ SafeWhole dt n := by
  rcases h with rfl | rfl <;> simp only [SafeWhole] <;> unfold minScalarInt <;> (repeat' split) <;>
    simp [canCast] <;> norm_num at * <;> omega

theorem allclose_big {q v : Rat} (h : allclose q v = true) (hv : 2 ^ 100 ≤ |v|) : 2 ^ 90 < |q| := by
  simp only [allclose, decide_eq_true_eq] at h
  have h1 : |v| - |q| ≤ |q - v| := by
    have := abs_sub_abs_le_abs_sub v q
    rwa [abs_sub_comm] at this
  norm_num at *
  linarith

theorem extremes_big {q : Rat}
    (h : (allclose q (-f32max) || allclose q f32max || allclose q (-f64max) || allclose q f64max) = true) :
    2 ^ 90 < |q| := by
  have h1 : (2 : Rat) ^ 100 ≤ |f32max| := by unfold f32max; norm_num [abs_of_pos]
  have h2 : (2 : Rat) ^ 100 ≤ |f64max| := by
    unfold f64max
    have h3 : (2 : Rat) ^ 100 ≤ 2 ^ 971 := pow_le_pow_right₀ (by norm_num) (by norm_num)
    have h4 : (0 : Rat) < 2 ^ 971 := pow_pos (by norm_num) _
    rw [abs_of_pos (mul_pos (by norm_num) h4)]
    have h5 : (1 : Rat) ≤ 2 ^ 53 - 1 := by norm_num
    exact le_trans h3 (le_mul_of_one_le_left h4.le h5)
  simp only [Bool.or_eq_true] at h
  rcases h with ((h | h) | h) | h
  · exact allclose_big h (by rwa [abs_neg])
  · exact allclose_big h h1
  · exact allclose_big h (by rwa [abs_neg])
  · exact allclose_big h h2

theorem minScalarInt_big {n : Int} (h : (2 : Rat) ^ 90 < |(n : Rat)|) : minScalarInt n = none := by
  have h' : 2 ^ 90 < |n| := by exact_mod_cast h
  unfold minScalarInt
  rcases abs_choice n with e | e <;> rw [e] at h' <;> (repeat' split) <;> first
    | rfl
    | (exfalso; norm_num at *; omega)

/-- What is tried second of a whole floating point number: the comparison with the limits of float32 and
float64 decides nothing, as no integer type holds such numbers. -/
theorem secondTry_whole {np : NumPy} {s : Scalar} {n : Int} (hs : s.ty.isFloat = true) (hv : s.val = .fin n) :
    secondTry np s = match minScalarInt n with
      | some m => ⟨m, .fin n⟩
      | none => s := by
  unfold secondTry
  rw [hv]
  simp only [hs, if_true, Rat.den_intCast, Rat.num_intCast]
  split
  · next h => rw [minScalarInt_big (extremes_big h)]
  · rfl

/-- **C95**, NumPy 1: a finite floating point null value is kept as it is, without a warning, exactly if
it is in the range of the dtype as NumPy sees it; otherwise the default null value takes its place, with a
warning.  The range ends before the largest numbers of the dtype, see `C95_largest_replaced`. -/
theorem C95_numpy1_partial {np : NumPy} (hnp : np.valueBased = true) (hk : KeepsRange np) {s : Scalar}
    (hs : s.ty.isFloat = true) {q : Rat} (hq : s.val = .fin q) (hrep : Representable f64 (.fin q)) {dt : DType} (hdt : dt.isFloat = true) :
    (InRange dt q → reconcile np (some s) dt = (some s, false)) ∧
    (¬ InRange dt q → reconcile np (some s) dt = (some (defaultNull dt), true)) := by
  have hi : s.ty.isInt = false := by cases hty : s.ty <;> simp_all [isInt, isFloat]
  have hc : np.canCastScalar s dt = (minScalarFloat (.fin q)).canCast dt := by
    simp only [NumPy.canCastScalar, hnp, hi, hq, hs, if_true]
  have hb : dt.isBool = false := by cases dt <;> simp_all [isBool, isFloat]
  refine ⟨fun h => ?_, fun h => ?_⟩
  · unfold reconcile
    simp only [hq, Num.isnan, Bool.false_eq_true, if_false]
    rw [if_pos (by rw [hc]; exact (minScalarFloat_range hdt q).mpr h)]
  · have hno : np.canCastScalar s dt = false := by
      rw [hc]; exact Bool.eq_false_iff.mpr (fun h' => h ((minScalarFloat_range hdt q).mp h'))
    have hbig : dt = f16 ∧ 65000 ≤ |q| ∨ dt = f32 ∧ 34 * 10 ^ 37 ≤ |q| := by
      cases dt <;> simp [isFloat] at hdt <;> simp only [InRange] at h <;> simp at h <;> simp [h]
    have hno2 : np.canCastScalar (secondTry np s) dt = false := by
      by_cases hden : q.den = 1
      · have hqn : (q.num : Rat) = q := (Rat.den_eq_one_iff q).mp hden
        rw [secondTry_whole hs (n := q.num) (by rw [hq, hqn])]
        cases hm : minScalarInt q.num with
        | none => simpa using hno
        | some m =>
          simp only
          have hmi := (minScalarInt_holds hm).2.2
          have hlim : dt.limits = none := by rcases hbig with ⟨rfl, _⟩ | ⟨rfl, _⟩ <;> rfl
          have : np.canCastScalar ⟨m, .fin (q.num : Rat)⟩ dt = m.canCast dt := by
            simp only [NumPy.canCastScalar, hnp, hmi, if_true, hlim, Rat.num_intCast, hm]
            rcases hbig with ⟨rfl, _⟩ | ⟨rfl, _⟩ <;> rfl
          rw [this]
          apply Bool.eq_false_iff.mpr
          intro hcast
          have hsafe : SafeWhole dt q.num :=
            (minScalarInt_safe (by rcases hbig with ⟨h, _⟩ | ⟨h, _⟩ <;> simp [h]) q.num).mp ⟨m, hm, hcast⟩
          have habs : |q| = ((|q.num| : Int) : Rat) := by rw [Int.cast_abs, hqn]
          rcases hbig with ⟨rfl, hb2⟩ | ⟨rfl, hb2⟩ <;> rw [habs] at hb2 <;> simp only [SafeWhole] at hsafe
          · have hb' : (65000 : Int) ≤ |q.num| := by exact_mod_cast hb2
            rcases abs_choice q.num with e | e <;> omega
          · have hb' : (34 * 10 ^ 37 : Int) ≤ |q.num| := by exact_mod_cast hb2
            rcases abs_choice q.num with e | e <;> norm_num at hb' <;> omega
      · have : secondTry np s = ⟨minScalarFloat s.val, np.cast (minScalarFloat s.val) s.val⟩ := by
          unfold secondTry
          simp only [hq, hs, if_true, if_neg hden]
        rw [this, hq]
        have hm := minScalarFloat_isFloat (.fin q)
        obtain ⟨r, hr, hr2⟩ := hk dt _ q hm hrep ((minScalarFloat_range hm q).mp (canCast_refl _)) h
        rw [hr]
        have hmi : (minScalarFloat (.fin q)).isInt = false := by
          cases hty : minScalarFloat (.fin q) <;> simp_all [isInt, isFloat]
        simp only [NumPy.canCastScalar, hnp, hmi, hm, if_true]
        exact Bool.eq_false_iff.mpr (fun h' => hr2 ((minScalarFloat_range hdt r).mp h'))
    unfold reconcile
    simp only [hq, Num.isnan, Bool.false_eq_true, if_false, hno, hno2, hb, Bool.false_and, Bool.or_false]

/-- **C95**, NumPy 2: of a finite float64 null value.  The wide dtypes keep it.  A whole number is kept by
float32 and float16 exactly if it is in the range of the 16 and 8 bit integers, and is replaced with a
warning otherwise.  Another number in the range is rounded to the narrowest type of the range first
(float16 below 65000), and then to the dtype; beyond the range it is replaced. -/
theorem C95_numpy2_partial {np : NumPy} (hnp : np.valueBased = false) (q : Rat) :
    (∀ dt, dt = f64 ∨ dt = f128 → reconcile np (some ⟨f64, .fin q⟩) dt = (some ⟨f64, .fin q⟩, false)) ∧
    ∀ dt, dt = f16 ∨ dt = f32 →
      (∀ n : Int, q = n → SafeWhole dt n →
        reconcile np (some ⟨f64, .fin q⟩) dt = (some ⟨dt, np.cast dt (.fin q)⟩, false)) ∧
      (∀ n : Int, q = n → ¬ SafeWhole dt n →
        reconcile np (some ⟨f64, .fin q⟩) dt = (some (defaultNull dt), true)) ∧
      ((∀ n : Int, q ≠ n) → InRange f16 q →
        reconcile np (some ⟨f64, .fin q⟩) dt = (some ⟨dt, np.cast dt (np.cast f16 (.fin q))⟩, false)) ∧
      ((∀ n : Int, q ≠ n) → ¬ InRange f16 q → InRange dt q →
        reconcile np (some ⟨f64, .fin q⟩) dt = (some ⟨dt, np.cast dt (np.cast dt (.fin q))⟩, false)) ∧
      ((∀ n : Int, q ≠ n) → ¬ InRange dt q →
        reconcile np (some ⟨f64, .fin q⟩) dt = (some (defaultNull dt), true)) := by
  have hcc : ∀ (s : Scalar) (dt : DType), np.canCastScalar s dt = s.ty.canCast dt := by
    intro s dt
    simp [NumPy.canCastScalar, hnp]
  refine ⟨?_, ?_⟩
  · rintro dt (rfl | rfl) <;> unfold reconcile <;> simp [Num.isnan, hcc, canCast]
  · intro dt hdt
    have hno : f64.canCast dt = false := by rcases hdt with rfl | rfl <;> rfl
    have hb : dt.isBool = false := by rcases hdt with rfl | rfl <;> rfl
    have hfl : dt.isFloat = true := by rcases hdt with rfl | rfl <;> rfl
    have hrec : reconcile np (some ⟨f64, .fin q⟩) dt =
        if (secondTry np ⟨f64, .fin q⟩).ty.canCast dt = true then
          (some ⟨dt, np.cast dt (secondTry np ⟨f64, .fin q⟩).val⟩, false)
        else (some (defaultNull dt), true) := by
      unfold reconcile
      simp only [Num.isnan, Bool.false_eq_true, if_false, hcc, hno, hb, Bool.false_and, Bool.or_false]
    have hden : (∀ n : Int, q ≠ n) → q.den ≠ 1 := fun h hd => h q.num ((Rat.den_eq_one_iff q).mp hd).symm
    have hsec : (∀ n : Int, q ≠ n) → secondTry np ⟨f64, .fin q⟩ =
        ⟨minScalarFloat (.fin q), np.cast (minScalarFloat (.fin q)) (.fin q)⟩ := by
      intro h
      unfold secondTry
      simp only [isFloat, if_true, if_neg (hden h)]
    refine ⟨?_, ?_, ?_, ?_, ?_⟩
    · rintro n rfl h
      obtain ⟨m, hm, hc⟩ := (minScalarInt_safe hdt n).mpr h
      rw [hrec, secondTry_whole rfl rfl, hm]
      simp only [hc, if_true]
    · rintro n rfl h
      rw [hrec, secondTry_whole rfl rfl]
      cases hm : minScalarInt n with
      | none => simp only [hno, Bool.false_eq_true, if_false]
      | some m =>
        simp only
        rw [if_neg (fun hc => h ((minScalarInt_safe hdt n).mp ⟨m, hm, hc⟩))]
    · intro h h16
      have hm : minScalarFloat (.fin q) = f16 := by
        simp only [InRange, abs_lt] at h16
        simp only [minScalarFloat, if_pos h16]
      rw [hrec, hsec h, hm]
      rcases hdt with rfl | rfl <;> rfl
    · intro h h16 hr
      rcases hdt with rfl | rfl
      · exact absurd hr h16
      · have hm : minScalarFloat (.fin q) = f32 := by
          simp only [InRange, abs_lt] at h16 hr
          simp only [minScalarFloat, if_neg h16, neg_mul, if_pos hr]
        rw [hrec, hsec h, hm]
        rfl
    · intro h hr
      rw [hrec, hsec h, if_neg (fun hc => hr ((minScalarFloat_range hfl q).mp hc))]

/-- **C95**, the others: NaN becomes the default null value of every dtype, without a warning; the
infinities are kept by every floating point dtype, without a warning. -/
theorem C95_nan_infinite (np : NumPy) (ty dt : DType) :
    reconcile np (some ⟨ty, .nan⟩) dt = (some (defaultNull dt), false) ∧
    (ty.isFloat = true → dt.isFloat = true → (∀ d, np.cast d .posInf = .posInf ∧ np.cast d .negInf = .negInf) →
      (∃ t, reconcile np (some ⟨ty, .posInf⟩) dt = (some ⟨t, .posInf⟩, false)) ∧
      ∃ t, reconcile np (some ⟨ty, .negInf⟩) dt = (some ⟨t, .negInf⟩, false)) := by
  refine ⟨rfl, fun hty hdt hc => ?_⟩
  have hi : ty.isInt = false := by cases ty <;> simp_all [isInt, isFloat]
  have h16 : f16.canCast dt = true := by cases dt <;> simp [isFloat] at hdt <;> rfl
  have key : ∀ v : Num, v = .posInf ∨ v = .negInf → np.cast dt v = v →
      ∃ t, reconcile np (some ⟨ty, v⟩) dt = (some ⟨t, v⟩, false) := by
    intro v hv hcv
    have hnan : v.isnan = false := by rcases hv with rfl | rfl <;> rfl
    have hmin : minScalarFloat v = f16 := by rcases hv with rfl | rfl <;> rfl
    have hsec : secondTry np ⟨ty, v⟩ = ⟨f16, v⟩ := by rcases hv with rfl | rfl <;> rfl
    unfold reconcile
    simp only [hnan, Bool.false_eq_true, if_false, hsec, hcv]
    split
    · exact ⟨ty, rfl⟩
    · have : np.canCastScalar ⟨f16, v⟩ dt = true := by
        unfold NumPy.canCastScalar
        split
        · rcases hv with rfl | rfl <;> exact h16
        · exact h16
      rw [this, Bool.true_or, if_pos rfl]
      exact ⟨dt, rfl⟩
  exact ⟨key _ (Or.inl rfl) (hc dt).1, key _ (Or.inr rfl) (hc dt).2⟩

/-- The largest numbers. -/
theorem f32max_largest : IsLargest f32 f32max := by
  refine ⟨⟨2 ^ 24 - 1, 104, ?_, by norm_num, by norm_num⟩, ?_⟩
  · unfold f32max; norm_num
  · rintro r ⟨m, e, hr, hm, he, _⟩
    have hr := FVal.fin.inj hr
    rw [hr, abs_mul]
    have h1 : |(m : Rat)| ≤ 2 ^ 24 - 1 := by
      have : |m| ≤ 2 ^ 24 - 1 := by omega
      exact_mod_cast this
    have h2 : |(2 : Rat) ^ e| ≤ 2 ^ 104 := by
      rw [abs_of_pos (zpow_pos (by norm_num) e)]
      have := zpow_le_zpow_right₀ (a := (2 : Rat)) (by norm_num) (show e ≤ 104 by omega)
      exact_mod_cast this
    unfold f32max
    exact mul_le_mul h1 h2 (abs_nonneg _) (by norm_num)

theorem f64max_largest : IsLargest f64 f64max := by
  refine ⟨⟨2 ^ 53 - 1, 971, ?_, by norm_num, by norm_num⟩, ?_⟩
  · unfold f64max
    rw [show (((2 : Int) ^ 53 - 1 : Int) : Rat) = 2 ^ 53 - 1 by norm_num,
      show (2 : Rat) ^ (971 : Int) = 2 ^ 971 from zpow_natCast 2 971]
  · rintro r ⟨m, e, hr, hm, he, _⟩
    have hr := FVal.fin.inj hr
    rw [hr, abs_mul]
    have h1 : |(m : Rat)| ≤ 2 ^ 53 - 1 := by
      have : |m| ≤ 2 ^ 53 - 1 := by omega
      exact_mod_cast this
    have h2 : |(2 : Rat) ^ e| ≤ 2 ^ 971 := by
      rw [abs_of_pos (zpow_pos (by norm_num) e)]
      have := zpow_le_zpow_right₀ (a := (2 : Rat)) (by norm_num) (show e ≤ 971 by omega)
      exact_mod_cast this
    unfold f64max
    exact mul_le_mul h1 h2 (abs_nonneg _) (by norm_num)

/-- **C95 fails**: the largest and the lowest number of float32, given as float64 (as python does), are
replaced by the default null value with NumPy 1 and 2. -/
theorem C95_largest_replaced {np : NumPy} (hk : KeepsRange np) (q : Rat) (hq : q = f32max ∨ q = -f32max) :
    Representable f32 (.fin q) ∧
    reconcile np (some ⟨f64, .fin q⟩) f32 = (some (defaultNull f32), true) := by
  have hint : ∃ n : Int, q = n ∧ ¬ SafeWhole f32 n := by
    rcases hq with rfl | rfl
    · exact ⟨(2 ^ 24 - 1) * 2 ^ 104, by unfold f32max; norm_num, by simp only [SafeWhole]; norm_num⟩
    · exact ⟨-((2 ^ 24 - 1) * 2 ^ 104), by unfold f32max; norm_num, by simp only [SafeWhole]; norm_num⟩
  have hrep : ∀ dt, dt = f32 ∨ dt = f64 → Representable dt (.fin q) := by
    rintro dt (rfl | rfl) <;> rcases hq with rfl | rfl
    · exact f32max_largest.1
    · exact ⟨-(2 ^ 24 - 1), 104, by unfold f32max; norm_num, by norm_num, by norm_num⟩
    · exact ⟨2 ^ 24 - 1, 104, by unfold f32max; norm_num, by norm_num, by norm_num⟩
    · exact ⟨-(2 ^ 24 - 1), 104, by unfold f32max; norm_num, by norm_num, by norm_num⟩
  refine ⟨hrep _ (Or.inl rfl), ?_⟩
  cases hnp : np.valueBased with
  | true =>
    refine (C95_numpy1_partial hnp hk rfl rfl (hrep _ (Or.inr rfl)) rfl).2 ?_
    rcases hq with rfl | rfl <;> simp only [InRange, f32max, abs_neg] <;> norm_num [abs_of_pos]
  | false =>
    obtain ⟨n, h1, h2⟩ := hint
    exact ((C95_numpy2_partial hnp q).2 f32 (Or.inr rfl)).2.1 n h1 h2

/-- **C95 fails** with NumPy 2 for -99999, which is a number of float32, and for 2049.5, which is one as
well and becomes 2050 on its way through float16. -/
theorem C95_numpy2_replaced {np : NumPy} (hnp : np.valueBased = false)
    (h16 : np.cast f16 (.fin (4099 / 2)) = .fin 2050) (h32 : np.cast f32 (.fin 2050) = .fin 2050) :
    Representable f32 (.fin (-99999)) ∧ Representable f32 (.fin (4099 / 2)) ∧
    reconcile np (some ⟨f64, .fin (-99999)⟩) f32 = (some ⟨f32, .fin (-999999)⟩, true) ∧
    reconcile np (some ⟨f64, .fin (4099 / 2)⟩) f32 = (some ⟨f32, .fin 2050⟩, false) := by
  refine ⟨⟨-99999, 0, by norm_num, by norm_num, by norm_num⟩, ⟨4099, -1, by norm_num, by norm_num, by norm_num⟩,
    ?_, ?_⟩
  · exact ((C95_numpy2_partial hnp (-99999)).2 f32 (Or.inr rfl)).2.1 (-99999) (by norm_num) (by simp [SafeWhole])
  · have := ((C95_numpy2_partial hnp (4099 / 2)).2 f32 (Or.inr rfl)).2.2.1 (fun n h => by
      have h2 : (4099 : Rat) = ((2 * n : Int) : Rat) := by push_cast; linarith
      have h3 : (4099 : Int) = 2 * n := by exact_mod_cast h2
      omega) (by simp only [InRange]; norm_num [abs_of_pos])
    rw [this, h16, h32]

/-- Rounding 2049.5 to float16 and keeping everything else. -/
def halfNumPy (valueBased : Bool) : NumPy :=
  ⟨valueBased, fun d v => if d = f16 ∧ v = .fin (4099 / 2) then .fin 2050 else v⟩

/-- Concrete cases for the theorems of C95. -/
example : KeepsRange (idNumPy true) ∧ InRange f32 (-99999) ∧ ¬ InRange f16 (-99999) ∧
    reconcile (idNumPy true) (some ⟨f64, .fin (-99999)⟩) f32 = (some ⟨f64, .fin (-99999)⟩, false) ∧
    reconcile (idNumPy true) (some ⟨f64, .fin (-99999)⟩) f16 = (some ⟨f16, .fin (-65504)⟩, true) ∧
    (halfNumPy false).cast f16 (.fin (4099 / 2)) = .fin 2050 ∧ (halfNumPy false).cast f32 (.fin 2050) = .fin 2050 ∧
    SafeWhole f32 (-9999) ∧
    reconcile (halfNumPy false) (some ⟨f64, .fin (-9999)⟩) f32 = (some ⟨f32, .fin (-9999)⟩, false) := by
  refine ⟨fun dt m q _ _ _ h => ⟨q, rfl, h⟩, ?_, ?_, by decide +kernel, by decide +kernel, by decide +kernel,
    by decide +kernel, by simp [SafeWhole], by decide +kernel⟩ <;> simp only [InRange] <;> norm_num

end Verif.Nulls
