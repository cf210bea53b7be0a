import Verif.Nulls.HistoryProps

set_option linter.unusedSectionVars false

/-!
# C122: dtypes and null values changed several times

`astype` without a new null value (`raster.py:1868-1940`, C17) and `set_null_value` (C16) applied to each other's results.
-/

namespace Verif.Trips.Conversions

open Verif Verif.Nulls DType
open Verif.Nulls.Spec

namespace Spec

/-- The rasters have the same cells, null cells and numbers in the cells that are not null. -/
def Agree (a b : Raster) : Prop :=
  (a.nb, a.ny, a.nx) = (b.nb, b.ny, b.nx) ∧ ∀ c, a.mask c = b.mask c ∧ (a.mask c = false → a.data c = b.data c)

/-- No cell that is not null has the number. -/
def Free (r : Raster) (v : Num) : Prop := ∀ c, r.mask c = false → r.data c ≠ v

end Spec

open Spec

/-! ### Dtypes -/

/-- **C122**, a detour: converting to one dtype and then to another gives the same null cells and valid numbers as converting directly, if
the detour keeps what the second conversion makes of the numbers. -/
theorem C122_detour {np : NumPy} (hnp : ExactCast np) {r a b d : Raster} {d1 d2 : DType} (hr : NullsHold r)
    (ha : r.astype np d1 none = .ok a) (hb : a.astype np d2 none = .ok b) (hd : r.astype np d2 none = .ok d)
    (h1 : ∀ c, r.mask c = false → np.cast d2 (np.cast d1 (r.data c)) = np.cast d2 (r.data c))
    (hown : ∀ c, r.mask c = false → np.cast r.dtype (r.data c) = r.data c)
    (htwice : ∀ c, r.mask c = false → np.cast d1 (np.cast d1 (r.data c)) = np.cast d1 (r.data c)) :
    b.dtype = d.dtype ∧ Agree b d ∧ (b.nv = none ↔ d.nv = none) ∧ NullsHold b := by
  obtain ⟨a', ea, a1, a2, a3, a4, a5, a6, -⟩ := C17_astype hnp r d1 hr
  rw [ha] at ea
  cases ea
  obtain ⟨b', eb, b1, b2, b3, b4, b5, b6, -⟩ := C17_astype hnp a d2 a5
  rw [hb] at eb
  cases eb
  obtain ⟨d', ed, c1, c2, c3, c4, c5, c6, -⟩ := C17_astype hnp r d2 hr
  rw [hd] at ed
  cases ed
  refine ⟨by rw [b1, c1], ⟨by rw [b2, a2, c2], fun c => ⟨by rw [b3, a3, c3], fun hc => ?_⟩⟩, by rw [b6, a6, c6], b5⟩
  rw [b3, a3] at hc
  rw [b4 c (by rw [a3]; exact hc), c4 c hc, a4 c hc, a1]
  have hc1 : (if d1 = r.dtype then r.data c else np.cast d1 (r.data c)) = np.cast d1 (r.data c) := by
    split
    · rename_i e
      rw [e, hown c hc]
    · rfl
  have hc2 : (if d2 = r.dtype then r.data c else np.cast d2 (r.data c)) = np.cast d2 (r.data c) := by
    split
    · rename_i e
      rw [e, hown c hc]
    · rfl
  rw [hc1, hc2]
  split
  · rename_i e
    rw [← h1 c hc, e, htwice c hc]
  · exact h1 c hc

/-- **C122**, there and back: converting to a dtype that the raster's dtype can be cast to safely (64 bit integers to floats excepted),
and back, gives the null cells and valid numbers of the raster. -/
theorem C122_there_and_back {np : NumPy} (hnp : ExactCast np) (hll : Lossless np) {r a b : Raster} {dt : DType} (hr : NullsHold r)
    (hsafe : r.dtype.canCast dt = true) (hlossy : ¬ Lossy r.dtype dt)
    (hval : ∀ c, r.mask c = false → ValueOf r.dtype (r.data c))
    (ha : r.astype np dt none = .ok a) (hb : a.astype np r.dtype none = .ok b) :
    b.dtype = r.dtype ∧ Agree a r ∧ Agree b r ∧ (b.nv = none ↔ r.nv = none) ∧ NullsHold b := by
  obtain ⟨a', ea, a1, a2, a3, a4, a5, a6, -⟩ := C17_astype hnp r dt hr
  rw [ha] at ea
  cases ea
  obtain ⟨b', eb, b1, b2, b3, b4, b5, b6, -⟩ := C17_astype hnp a r.dtype a5
  rw [hb] at eb
  cases eb
  have hrefl : ∀ d : DType, d.canCast d = true := by intro d; cases d <;> rfl
  have hself : ¬ Lossy r.dtype r.dtype := by
    rintro ⟨h | h, k⟩ <;> rw [h] at k <;> cases k
  have hda : ∀ c, r.mask c = false → a.data c = r.data c := by
    intro c hc
    rw [a4 c hc]
    split
    · rfl
    · exact hll _ _ _ hsafe hlossy (hval c hc)
  refine ⟨b1, ⟨a2, fun c => ⟨a3 c, fun hc => hda c (by rw [← a3]; exact hc)⟩⟩,
    ⟨by rw [b2, a2], fun c => ⟨by rw [b3, a3], fun hc => ?_⟩⟩, by rw [b6, a6], b5⟩
  rw [b3, a3] at hc
  rw [b4 c (by rw [a3]; exact hc), hda c hc]
  split
  · rfl
  · exact hll _ _ _ (hrefl _) hself (hval c hc)

/-! ### Null values -/

/-- What is known of a raster after `set_null_value` with a number. -/
theorem after_set {np : NumPy} (hnp : ExactCast np) (hnan : NanCast np) (hll : Lossless np) {r o : Raster} {v : NullArg}
    (hok : r.setNullValue np (some v) = .ok o) (hbool : r.dtype.isBool = false) (hr : MaskNeedsNull r)
    (hval : ∀ c, r.mask c = false → ValueOf r.dtype (r.data c)) (hlossy : ¬ Lossy r.dtype o.dtype) :
    (∃ s, o.nv = some s ∧ s.val = v.val) ∧ (o.nb, o.ny, o.nx) = (r.nb, r.ny, r.nx) ∧ MaskNeedsNull o ∧
    ∀ c, (o.mask c = true ↔ r.mask c = true ∨ r.data c = v.val) ∧ (o.mask c = true → o.data c = v.val) ∧
      (o.mask c = false → o.data c = r.data c) := by
  obtain ⟨-, ⟨s, hs, hsv⟩, h3, h4⟩ := C16_set_null_value hnp hnan hll hok hbool hr hval
  refine ⟨⟨s, hs, hsv⟩, h3, fun c _ => by rw [hs]; simp, fun c => ?_⟩
  obtain ⟨-, k2, k3⟩ := h4 c
  exact ⟨(k3 hlossy).1, k2, (k3 hlossy).2⟩

/-- **C122**, the same null value again changes nothing. -/
theorem C122_again {np : NumPy} (hnp : ExactCast np) (hnan : NanCast np) (hll : Lossless np) {r o p : Raster} {v : NullArg}
    (ho : r.setNullValue np (some v) = .ok o) (hp : o.setNullValue np (some v) = .ok p)
    (hbool : r.dtype.isBool = false ∧ o.dtype.isBool = false) (hr : MaskNeedsNull r)
    (hval : (∀ c, r.mask c = false → ValueOf r.dtype (r.data c)) ∧ ∀ c, o.mask c = false → ValueOf o.dtype (o.data c))
    (hlossy : ¬ Lossy r.dtype o.dtype ∧ ¬ Lossy o.dtype p.dtype) :
    (∀ c, p.mask c = o.mask c ∧ p.data c = o.data c) ∧ ∃ s t, o.nv = some s ∧ p.nv = some t ∧ t.val = s.val := by
  obtain ⟨⟨s, hs, hsv⟩, -, o2, o3⟩ := after_set hnp hnan hll ho hbool.1 hr hval.1 hlossy.1
  obtain ⟨⟨t, ht, htv⟩, -, -, p3⟩ := after_set hnp hnan hll hp hbool.2 o2 hval.2 hlossy.2
  have hm : ∀ c, p.mask c = o.mask c := by
    intro c
    rw [Bool.eq_iff_iff, (p3 c).1]
    constructor
    · rintro (h | h)
      · exact h
      · by_contra hc
        have hc' : o.mask c = false := by simpa using hc
        have := (o3 c).1
        rw [(o3 c).2.2 hc'] at h
        exact hc (this.2 (.inr h))
    · exact .inl
  refine ⟨fun c => ⟨hm c, ?_⟩, s, t, hs, ht, by rw [htv, hsv]⟩
  by_cases hc : o.mask c = true
  · rw [(p3 c).2.1 (by rw [hm]; exact hc), (o3 c).2.1 hc]
  · exact (p3 c).2.2 (by rw [hm]; simpa using hc)

/-- **C122**, two null values: the cells that are null after one and then the other are the null cells and those with either number, whatever
the order; the rest keep their numbers. -/
theorem C122_order {np : NumPy} (hnp : ExactCast np) (hnan : NanCast np) (hll : Lossless np) {r a ab b ba : Raster} {v w : NullArg}
    (ha : r.setNullValue np (some v) = .ok a) (hab : a.setNullValue np (some w) = .ok ab)
    (hb : r.setNullValue np (some w) = .ok b) (hba : b.setNullValue np (some v) = .ok ba)
    (hbool : r.dtype.isBool = false ∧ a.dtype.isBool = false ∧ b.dtype.isBool = false) (hr : MaskNeedsNull r)
    (hval : (∀ c, r.mask c = false → ValueOf r.dtype (r.data c)) ∧ (∀ c, a.mask c = false → ValueOf a.dtype (a.data c)) ∧
      ∀ c, b.mask c = false → ValueOf b.dtype (b.data c))
    (hlossy : ¬ Lossy r.dtype a.dtype ∧ ¬ Lossy a.dtype ab.dtype ∧ ¬ Lossy r.dtype b.dtype ∧ ¬ Lossy b.dtype ba.dtype) :
    Agree ab ba ∧ (∀ c, ab.mask c = true ↔ r.mask c = true ∨ r.data c = v.val ∨ r.data c = w.val) ∧
      (∀ c, ab.mask c = true → ab.data c = w.val ∧ ba.data c = v.val) ∧ ∀ c, ab.mask c = false → ab.data c = r.data c := by
  obtain ⟨-, a1, a2, a3⟩ := after_set hnp hnan hll ha hbool.1 hr hval.1 hlossy.1
  obtain ⟨-, ab1, -, ab3⟩ := after_set hnp hnan hll hab hbool.2.1 a2 hval.2.1 hlossy.2.1
  obtain ⟨-, b1, b2, b3⟩ := after_set hnp hnan hll hb hbool.1 hr hval.1 hlossy.2.2.1
  obtain ⟨-, ba1, -, ba3⟩ := after_set hnp hnan hll hba hbool.2.2 b2 hval.2.2 hlossy.2.2.2
  have two : ∀ {p q : Raster} {x y : NullArg}, (∀ c, (p.mask c = true ↔ r.mask c = true ∨ r.data c = x.val) ∧
        (p.mask c = true → p.data c = x.val) ∧ (p.mask c = false → p.data c = r.data c)) →
      (∀ c, (q.mask c = true ↔ p.mask c = true ∨ p.data c = y.val) ∧ (q.mask c = true → q.data c = y.val) ∧
        (q.mask c = false → q.data c = p.data c)) →
      ∀ c, (q.mask c = true ↔ r.mask c = true ∨ r.data c = x.val ∨ r.data c = y.val) ∧ (q.mask c = false → q.data c = r.data c) := by
    intro p q x y hp hq c
    obtain ⟨p1, -, p3⟩ := hp c
    obtain ⟨q1, -, q3⟩ := hq c
    constructor
    · rw [q1]
      by_cases hc : p.mask c = true
      · have := p1.1 hc
        simp only [hc, true_or, true_iff]
        tauto
      · rw [p3 (by simpa using hc)]
        have : ¬ (r.mask c = true ∨ r.data c = x.val) := fun k => hc (p1.2 k)
        tauto
    · intro hc
      have hpc : p.mask c = false := by
        by_contra k
        have := q1.2 (.inl (by simpa using k))
        rw [hc] at this
        cases this
      rw [q3 hc, p3 hpc]
  have t1 := two a3 ab3
  have t2 := two b3 ba3
  have hmask : ∀ c, ab.mask c = ba.mask c := by
    intro c
    rw [Bool.eq_iff_iff, (t1 c).1, (t2 c).1]
    tauto
  refine ⟨⟨by rw [ab1, a1, ba1, b1], fun c => ⟨hmask c, fun hc => ?_⟩⟩, fun c => (t1 c).1, fun c hc => ⟨(ab3 c).2.1 hc, (ba3 c).2.1 ?_⟩,
    fun c => (t1 c).2⟩
  · rw [(t1 c).2 hc, (t2 c).2 (by rw [← hmask]; exact hc)]
  · rw [← hmask]; exact hc

/-- **C122**, another null value and the old one again: if no valid cell has either number, null cells, numbers and null value are those of
the raster. -/
theorem C122_null_back {np : NumPy} (hnp : ExactCast np) (hnan : NanCast np) (hll : Lossless np) {r a b : Raster} {v w : NullArg} {s : Scalar}
    (hs : r.nv = some s) (hsv : s.val = v.val) (ha : r.setNullValue np (some w) = .ok a) (hb : a.setNullValue np (some v) = .ok b)
    (hr : NullsHold r) (hfv : Free r v.val) (hfw : Free r w.val)
    (hbool : r.dtype.isBool = false ∧ a.dtype.isBool = false)
    (hval : (∀ c, r.mask c = false → ValueOf r.dtype (r.data c)) ∧ ∀ c, a.mask c = false → ValueOf a.dtype (a.data c))
    (hlossy : ¬ Lossy r.dtype a.dtype ∧ ¬ Lossy a.dtype b.dtype) :
    (∀ c, b.mask c = r.mask c ∧ b.data c = r.data c) ∧ (∀ c, a.mask c = r.mask c) ∧ ∃ t, b.nv = some t ∧ t.val = s.val := by
  have hneed : MaskNeedsNull r := fun c hc => by rw [hs]; simp
  obtain ⟨-, -, a2, a3⟩ := after_set hnp hnan hll ha hbool.1 hneed hval.1 hlossy.1
  obtain ⟨⟨t, ht, htv⟩, -, -, b3⟩ := after_set hnp hnan hll hb hbool.2 a2 hval.2 hlossy.2
  have hma : ∀ c, a.mask c = r.mask c := by
    intro c
    rw [Bool.eq_iff_iff, (a3 c).1]
    refine ⟨?_, .inl⟩
    rintro (h | h)
    · exact h
    · by_contra k
      exact hfw c (by simpa using k) h
  have hmb : ∀ c, b.mask c = r.mask c := by
    intro c
    rw [Bool.eq_iff_iff, (b3 c).1, hma]
    refine ⟨?_, .inl⟩
    rintro (h | h)
    · exact h
    · by_contra k
      have k' : r.mask c = false := by simpa using k
      rw [(a3 c).2.2 (by rw [hma]; exact k')] at h
      exact hfv c k' h
  refine ⟨fun c => ⟨hmb c, ?_⟩, hma, t, ht, by rw [htv, hsv]⟩
  by_cases hc : r.mask c = true
  · obtain ⟨s', hs', hd⟩ := hr c hc
    rw [hs] at hs'
    cases hs'
    rw [(b3 c).2.1 (by rw [hmb]; exact hc), hd, hsv]
  · have hc' : r.mask c = false := by simpa using hc
    rw [(b3 c).2.2 (by rw [hmb]; exact hc'), (a3 c).2.2 (by rw [hma]; exact hc')]

/-- **C122**, no null value and the old one again: if no valid cell has the number of the null value, `set_null_value(None)` and then the null
value give the raster back. -/
theorem C122_cleared {np : NumPy} (hnp : ExactCast np) (hnan : NanCast np) (hll : Lossless np) {r a b : Raster} {v : NullArg} {s : Scalar}
    (hs : r.nv = some s) (hsv : s.val = v.val) (ha : r.setNullValue np none = .ok a) (hb : a.setNullValue np (some v) = .ok b)
    (hr : NullsHold r) (hfv : Free r v.val) (hbool : r.dtype.isBool = false)
    (hval : ∀ c, ValueOf r.dtype (r.data c)) (hlossy : ¬ Lossy r.dtype b.dtype) :
    (∀ c, a.mask c = false ∧ a.data c = r.data c) ∧ (∀ c, b.mask c = r.mask c ∧ b.data c = r.data c) ∧
      ∃ t, b.nv = some t ∧ t.val = s.val := by
  obtain ⟨a', ea, a1, a2, a3, -, a5⟩ := C16_clear np r
  rw [ha] at ea
  cases ea
  have a5 := a5 hr hbool
  obtain ⟨⟨t, ht, htv⟩, -, -, b3⟩ := after_set hnp hnan hll hb (by rw [a2]; exact hbool) (fun c hc => by rw [a3] at hc; cases hc)
    (fun c _ => by rw [a2, a5]; exact hval c) (by rw [a2]; exact hlossy)
  have hmb : ∀ c, b.mask c = r.mask c := by
    intro c
    rw [Bool.eq_iff_iff, (b3 c).1, a3, a5]
    constructor
    · rintro (h | h)
      · cases h
      · by_contra k
        exact hfv c (by simpa using k) h
    · intro h
      obtain ⟨s', hs', hd⟩ := hr c h
      rw [hs] at hs'
      cases hs'
      exact .inr (by rw [hd, hsv])
  refine ⟨fun c => ⟨a3 c, a5 c⟩, fun c => ⟨hmb c, ?_⟩, t, ht, by rw [htv, hsv]⟩
  by_cases hc : r.mask c = true
  · obtain ⟨s', hs', hd⟩ := hr c hc
    rw [hs] at hs'
    cases hs'
    rw [(b3 c).2.1 (by rw [hmb]; exact hc), hd, hsv]
  · rw [(b3 c).2.2 (by rw [hmb]; simpa using hc), a5]

/-! ### Examples -/

theorem seven {d : DType} (hd : d ∈ [i16, i32, f64]) : ValueOf d (.fin (7 : Int)) := by
  left
  simp only [List.mem_cons, List.not_mem_nil, or_false] at hd
  rcases hd with rfl | rfl | rfl
  · exact ⟨7, by norm_num, _, _, rfl, by norm_num, by norm_num⟩
  · exact ⟨7, by norm_num, _, _, rfl, by norm_num, by norm_num⟩
  · exact ⟨7, 0, by norm_num, by norm_num, by norm_num, by norm_num⟩

theorem twoCells_seven {c : Cell} (hc : twoCells.mask c = false) : twoCells.data c = .fin (7 : Int) := by
  have : c ≠ (0, 0, 0) := by
    rintro rfl
    exact absurd hc (by decide +kernel)
  simp [twoCells, this]

/-- The hypotheses of `C122_there_and_back` and of `C122_detour` hold for an int16 raster with a null cell that becomes float64. -/
example : NullsHold twoCells ∧ twoCells.dtype.canCast f64 = true ∧ ¬ Lossy twoCells.dtype f64 ∧ Lossless (idNumPy true) ∧
    (∀ c, twoCells.mask c = false → ValueOf twoCells.dtype (twoCells.data c)) ∧
    ∃ a b, twoCells.astype (idNumPy true) f64 none = .ok a ∧ a.astype (idNumPy true) twoCells.dtype none = .ok b ∧
      b.mask (0, 0, 0) = true ∧ b.data (0, 0, 1) = .fin 7 ∧ a.dtype = f64 :=
  ⟨twoCells_nulls, rfl, (by rintro ⟨h | h, _⟩ <;> cases h), fun _ _ _ _ _ _ => rfl,
    fun c hc => by rw [twoCells_seven hc]; exact seven (by simp [twoCells]), _, _, rfl, rfl, by decide +kernel⟩

/-- The hypotheses of `C122_null_back` hold for the null value 3 of an int16 raster that is 40000 for a while. -/
example : ∃ s a b, twoCells.nv = some s ∧ s.val = (NullArg.int 3).val ∧ twoCells.setNullValue (idNumPy true) (some (.int 40000)) = .ok a ∧
    a.setNullValue (idNumPy true) (some (.int 3)) = .ok b ∧ Free twoCells (NullArg.int 3).val ∧ Free twoCells (NullArg.int 40000).val ∧
    a.dtype = i32 ∧ b.dtype = i32 ∧ ¬ Lossy twoCells.dtype a.dtype ∧ ¬ Lossy a.dtype b.dtype ∧
    (∀ c, a.mask c = false → ValueOf a.dtype (a.data c)) ∧ b.data (0, 0, 0) = .fin 3 ∧ a.data (0, 0, 0) = .fin 40000 := by
  have hfree : ∀ n : Int, n ≠ 7 → Free twoCells (NullArg.int n).val := by
    intro n hn c hc
    rw [twoCells_seven hc]
    intro k
    have : (7 : Rat) = n := FVal.fin.inj k
    exact hn (by exact_mod_cast this.symm)
  obtain ⟨a, ha, hda⟩ : ∃ a, twoCells.setNullValue (idNumPy true) (some (.int 40000)) = .ok a ∧ a.dtype = i32 := ⟨_, rfl, by decide +kernel⟩
  have h1 : ¬ Lossy twoCells.dtype a.dtype := by
    rintro ⟨h | h, _⟩ <;> cases h
  have h2 := after_set (np := idNumPy true) (fun _ _ _ => rfl) (fun _ _ => rfl) (fun _ _ _ _ _ _ => rfl) ha rfl
    (fun c _ => by simp [twoCells]) (fun c hc => by rw [twoCells_seven hc]; exact seven (by simp [twoCells])) h1
  have h3 : ∀ c, a.mask c = false → ValueOf a.dtype (a.data c) := by
    intro c hc
    have hm : twoCells.mask c = false := by
      by_contra k
      have := ((h2.2.2.2 c).1).2 (.inl (by simpa using k))
      rw [hc] at this
      cases this
    rw [(h2.2.2.2 c).2.2 hc, twoCells_seven hm, hda]
    exact seven (by simp)
  cases ha
  exact ⟨_, _, _, rfl, by decide +kernel, rfl, rfl, hfree 3 (by decide), hfree 40000 (by decide), hda, by decide +kernel, h1,
    (by rw [hda]; rintro ⟨h | h, _⟩ <;> cases h), h3, by decide +kernel⟩

/-- `C122_order`: the null values 7 and 40000 one after the other. -/
example : ∃ a ab b ba, twoCells.setNullValue (idNumPy true) (some (.int 7)) = .ok a ∧ a.setNullValue (idNumPy true) (some (.int 40000)) = .ok ab ∧
    twoCells.setNullValue (idNumPy true) (some (.int 40000)) = .ok b ∧ b.setNullValue (idNumPy true) (some (.int 7)) = .ok ba ∧
    ab.mask (0, 0, 1) = true ∧ ba.mask (0, 0, 1) = true ∧ ab.data (0, 0, 1) = .fin 40000 ∧ ba.data (0, 0, 0) = .fin 7 :=
  ⟨_, _, _, _, rfl, rfl, rfl, rfl, by decide +kernel⟩

/-- `C122_cleared`: without a null value the cell shows 3, and with it again the cell is null. -/
example : ∃ a b, twoCells.setNullValue (idNumPy true) none = .ok a ∧ a.setNullValue (idNumPy true) (some (.int 3)) = .ok b ∧
    a.mask (0, 0, 0) = false ∧ a.data (0, 0, 0) = .fin 3 ∧ b.mask (0, 0, 0) = true ∧ b.mask (0, 0, 1) = false :=
  ⟨_, _, rfl, rfl, by decide +kernel⟩

/-- A valid cell that has the number of the null value is lost on the way: the hypothesis of `C122_cleared` is needed. -/
theorem C122_lost : ∃ r a b : Raster, NullsHold r ∧ r.mask (0, 0, 1) = false ∧ r.setNullValue (idNumPy true) none = .ok a ∧
    a.setNullValue (idNumPy true) (some (.int 3)) = .ok b ∧ r.nv = some ⟨i16, .fin 3⟩ ∧ b.mask (0, 0, 1) = true :=
  ⟨{ twoCells with data := fun _ => .fin 3, nv := some ⟨i16, .fin 3⟩ }, _, _, fun c _ => ⟨_, rfl, rfl⟩, rfl, rfl, rfl, rfl, by decide +kernel⟩

end Verif.Trips.Conversions
