import Verif.Bands.Model
import Verif.Nulls.RasterProps

/-!
# Properties of band selection, stacking and padding: C23, C24, C46, C47
-/

set_option linter.unusedSectionVars false

namespace Verif.Bands

open Verif Verif.Nulls DType

namespace Spec

/-- The raster's values are values of its dtype: converting them to it changes nothing. -/
def OwnValues (np : NumPy) (r : Raster) : Prop := ∀ c, np.cast r.dtype (r.data c) = r.data c

/-- Band `b` of `p` has the null cells of band `b'` of `r`, and its valid values converted to `dt`. -/
def SameBand (np : NumPy) (dt : DType) (p : Raster) (b : Nat) (r : Raster) (b' : Nat) : Prop :=
  ∀ y x, p.mask (b, y, x) = r.mask (b', y, x) ∧
    (r.mask (b', y, x) = false → p.data (b, y, x) = np.cast dt (r.data (b', y, x)))

end Spec

open Spec

/-! ### C46: get_bands -/

/-- **C46**: `get_bands` succeeds exactly for a non-empty list of band numbers from 1 to the number of bands,
and then band `k` of the result is the band asked for at position `k`. -/
theorem C46_get_bands (r : Raster) (bands : List Int) :
    ((bands ≠ [] ∧ ∀ b ∈ bands, 1 ≤ b ∧ b ≤ (r.nb : Int)) →
      ∃ o, getBands r bands = .ok o ∧ o.nb = bands.length ∧ o.dtype = r.dtype ∧ o.nv = r.nv ∧
        o.ny = r.ny ∧ o.nx = r.nx ∧
        ∀ (k : Nat) (b : Nat), bands[k]? = some ((b : Int) + 1) →
          ∀ y x, o.mask (k, y, x) = r.mask (b, y, x) ∧ o.data (k, y, x) = r.data (b, y, x)) ∧
    (bands = [] → getBands r bands = .error .value) ∧
    (bands ≠ [] → (∃ b ∈ bands, b < 1 ∨ (r.nb : Int) < b) → getBands r bands = .error .index) := by
  refine ⟨?_, ?_, ?_⟩
  · rintro ⟨hne, hb⟩
    have h1 : ¬ bands.length = 0 := by simpa using hne
    have h2 : ¬ (bands.any (fun b => decide (b < 1) || decide (b > (r.nb : Int))) = true) := by
      intro h
      obtain ⟨b, hmem, h⟩ := List.any_eq_true.mp h
      have := hb b hmem
      simp only [Bool.or_eq_true, decide_eq_true_eq] at h
      omega
    unfold getBands
    rw [if_neg h1, if_neg h2]
    refine ⟨_, rfl, rfl, rfl, rfl, rfl, rfl, ?_⟩
    intro k b hk y x
    simp [List.getD, hk]
  · rintro rfl
    rfl
  · rintro hne ⟨b, hmem, hb⟩
    unfold getBands
    rw [if_neg (by simpa using hne), if_pos]
    refine List.any_eq_true.mpr ⟨b, hmem, ?_⟩
    simp only [Bool.or_eq_true, decide_eq_true_eq]
    omega

/-- Repeated and reordered bands. -/
example : ∃ o, getBands ⟨u8, 3, 1, 1, fun c => .fin c.1, fun c => c.1 == 1, some ⟨u8, .fin 1⟩⟩ [3, 2, 3] = .ok o ∧
    o.nb = 3 ∧ o.data (0, 0, 0) = .fin 2 ∧ o.mask (1, 0, 0) = true ∧ o.data (2, 0, 0) = .fin 2 :=
  ⟨_, rfl, rfl, by decide +kernel, by decide +kernel, by decide +kernel⟩

/-- Selecting from a selection is a selection. -/
theorem C46_compose {r o : Raster} {bs : List Int} (h : getBands r bs = .ok o) {ks : List Int} {p : Raster}
    (hp : getBands o ks = .ok p) :
    ∃ q, getBands r (ks.map fun k => bs.getD (k - 1).toNat 0) = .ok q ∧ q.nb = p.nb ∧
      ∀ k < q.nb, ∀ y x, q.mask (k, y, x) = p.mask (k, y, x) ∧ q.data (k, y, x) = p.data (k, y, x) := by
  unfold getBands at h
  split at h
  · cases h
  · rename_i h1
    split at h
    · cases h
    · rename_i h2
      injection h with h
      subst h
      unfold getBands at hp
      split at hp
      · cases hp
      · rename_i h3
        split at hp
        · cases hp
        · rename_i h4
          injection hp with hp
          subst hp
          have inb : ∀ k ∈ ks, 1 ≤ k ∧ k ≤ (bs.length : Int) := by
            intro k hk
            by_contra hcon
            apply h4
            refine List.any_eq_true.mpr ⟨k, hk, ?_⟩
            simp only [Bool.or_eq_true, decide_eq_true_eq]
            omega
          have inr : ∀ b ∈ bs, 1 ≤ b ∧ b ≤ (r.nb : Int) := by
            intro b hb
            by_contra hcon
            apply h2
            refine List.any_eq_true.mpr ⟨b, hb, ?_⟩
            simp only [Bool.or_eq_true, decide_eq_true_eq]
            omega
          have hget : ∀ k ∈ ks, ∃ b, bs[(k - 1).toNat]? = some b ∧ 1 ≤ b ∧ b ≤ (r.nb : Int) := by
            intro k hk
            have := inb k hk
            have hlt : (k - 1).toNat < bs.length := by omega
            exact ⟨bs[(k - 1).toNat], List.getElem?_eq_getElem hlt, inr _ (List.getElem_mem hlt)⟩
          have g1 : ¬ (ks.map fun k => bs.getD (k - 1).toNat 0).length = 0 := by simpa using h3
          have g2 : ¬ ((ks.map fun k => bs.getD (k - 1).toNat 0).any
              (fun b => decide (b < 1) || decide (b > (r.nb : Int))) = true) := by
            intro hany
            obtain ⟨b, hmem, hb⟩ := List.any_eq_true.mp hany
            obtain ⟨k, hk, rfl⟩ := List.mem_map.mp hmem
            obtain ⟨b, hb', hr1, hr2⟩ := hget k hk
            simp only [List.getD, hb', Option.getD_some, Bool.or_eq_true, decide_eq_true_eq] at hb
            omega
          unfold getBands
          rw [if_neg g1, if_neg g2]
          refine ⟨_, rfl, by simp, ?_⟩
          intro k hk y x
          simp only [List.length_map] at hk
          obtain ⟨b, hb', _, _⟩ := hget ks[k] (List.getElem_mem hk)
          have e1 : ks.getD k 1 = ks[k] := by simp [List.getD, List.getElem?_eq_getElem hk]
          have e2 : (ks.map fun k => bs.getD (k - 1).toNat 0).getD k 1 = b := by
            simp only [List.getD, List.getElem?_map, List.getElem?_eq_getElem hk, Option.map_some, Option.getD_some, hb']
          have e3 : bs.getD (ks[k] - 1).toNat 1 = b := by simp only [List.getD, hb', Option.getD_some]
          simp only [e1, e2, e3, and_self]

/-! ### C23: stack and split -/

theorem getBand_ok (r : Raster) {i : Nat} (h : i < r.nb) :
    ∃ p, getBands r [(i : Int) + 1] = .ok p ∧ p.nb = 1 ∧ p.dtype = r.dtype ∧ p.nv = r.nv ∧ p.ny = r.ny ∧
      p.nx = r.nx ∧ ∀ y x, p.mask (0, y, x) = r.mask (i, y, x) ∧ p.data (0, y, x) = r.data (i, y, x) := by
  obtain ⟨o, h0, h1, h2, h3, h4, h5, h6⟩ := (C46_get_bands r [(i : Int) + 1]).1 ⟨by simp, by
    intro b hb
    simp only [List.mem_singleton] at hb
    omega⟩
  exact ⟨o, h0, h1, h2, h3, h4, h5, h6 0 i rfl⟩

theorem sequence_ok {l : List (Except Err Raster)} (h : ∀ a ∈ l, ∃ r, a = .ok r) :
    ∃ rs, sequence l = .ok rs ∧ rs.length = l.length ∧ ∀ (k : Nat) (r : Raster), l[k]? = some (Except.ok r) → rs[k]? = some r := by
  induction l with
  | nil => exact ⟨[], rfl, rfl, by simp⟩
  | cons a l ih =>
    obtain ⟨r, rfl⟩ := h a (by simp)
    obtain ⟨rs, h1, h2, h3⟩ := ih fun b hb => h b (by simp [hb])
    refine ⟨r :: rs, by simp only [sequence, h1], by simp [h2], ?_⟩
    intro k q hk
    cases k with
    | zero => simpa using hk
    | succ k => simpa using h3 k q (by simpa using hk)

theorem sequence_inv {l : List (Except Err Raster)} {rs : List Raster} (h : sequence l = .ok rs) :
    l = rs.map .ok := by
  induction l generalizing rs with
  | nil =>
    injection h with h
    subst h; rfl
  | cons a l ih =>
    cases a with
    | error e => cases h
    | ok r =>
      simp only [sequence] at h
      split at h
      · cases h
      · rename_i rs' hrs
        injection h with h
        subst h
        rw [ih hrs]; rfl

theorem sequence_error {l : List (Except Err Raster)} {e : Err} (h : sequence l = .error e) : .error e ∈ l := by
  induction l with
  | nil => cases h
  | cons a l ih =>
    cases a with
    | error e' =>
      simp only [sequence, Except.error.injEq] at h
      simp [h]
    | ok r =>
      simp only [sequence] at h
      split at h
      · rename_i e' he
        injection h with h
        subst h
        exact List.mem_cons_of_mem _ (ih he)
      · cases h

/-- `split_bands` always succeeds and gives the bands in order. -/
theorem split_spec (o : Raster) :
    ∃ parts, splitBands o = .ok parts ∧ parts.length = o.nb ∧ ∀ i < o.nb, ∃ p, parts[i]? = some p ∧ p.nb = 1 ∧
      p.dtype = o.dtype ∧ p.nv = o.nv ∧ p.ny = o.ny ∧ p.nx = o.nx ∧
      ∀ y x, p.mask (0, y, x) = o.mask (i, y, x) ∧ p.data (0, y, x) = o.data (i, y, x) := by
  obtain ⟨parts, h1, h2, h3⟩ := sequence_ok (l := (List.range o.nb).map fun i : Nat => getBands o [(i : Int) + 1]) (by
    intro a ha
    obtain ⟨i, hi, rfl⟩ := List.mem_map.mp ha
    obtain ⟨p, hp, _⟩ := getBand_ok o (List.mem_range.mp hi)
    exact ⟨p, hp⟩)
  refine ⟨parts, h1, by simpa using h2, ?_⟩
  intro i hi
  obtain ⟨p, hp, hrest⟩ := getBand_ok o hi
  exact ⟨p, h3 i p (by simp [hi, ← hp]), hrest⟩

theorem concat_at {α : Type} (f : Raster → Cell → α) (d : α) (pre : List Raster) (r : Raster) (post : List Raster)
    {b : Nat} (hb : b < r.nb) (yx : Nat × Nat) :
    concat f d (pre ++ r :: post) (totalBands pre + b, yx) = f r (b, yx) := by
  induction pre with
  | nil => simp [concat, totalBands, hb]
  | cons q pre ih =>
    have e : totalBands (q :: pre) = q.nb + totalBands pre := by simp [totalBands]
    simp only [List.cons_append, concat, e]
    rw [if_neg (by omega), ← ih]
    congr 2
    omega

/-- `_cast_if_needed` keeps the shape and the null cells and converts the valid cells. -/
theorem cast_spec {np : NumPy} {r o : Raster} {dt : DType} {s : Scalar} (hr : OwnValues np r)
    (h : castIfNeeded np r dt s = .ok o) :
    o.dtype = dt ∧ o.nb = r.nb ∧ o.ny = r.ny ∧ o.nx = r.nx ∧ (∀ c, o.mask c = r.mask c) ∧
      ∀ c, r.mask c = false → o.data c = np.cast dt (r.data c) := by
  unfold castIfNeeded at h
  split at h
  · rename_i hd
    injection h with h
    subst h
    refine ⟨hd.1, rfl, rfl, rfl, fun _ => rfl, fun c _ => ?_⟩
    rw [← hd.1, hr c]
  · unfold Raster.astype at h
    split at h
    · rename_i hd
      injection h with h
      subst h
      refine ⟨hd.1.symm, rfl, rfl, rfl, fun _ => rfl, fun c _ => ?_⟩
      rw [hd.1, hr c]
    · simp only at h
      cases hnv : r.nv with
      | none =>
        rw [hnv] at h
        injection h with h
        subst h
        exact ⟨rfl, rfl, rfl, rfl, fun _ => rfl, fun _ _ => rfl⟩
      | some old =>
        rw [hnv] at h
        simp only at h
        split at h
        · injection h with h
          subst h
          exact ⟨rfl, rfl, rfl, rfl, fun _ => rfl, fun _ _ => rfl⟩
        · split at h
          · cases h
          · injection h with h
            subst h
            refine ⟨rfl, rfl, rfl, rfl, fun _ => rfl, fun c hc => ?_⟩
            simp [hc]

theorem castAll_bands {np : NumPy} {dt : DType} {s : Scalar} (rs cs : List Raster)
    (h : rs.map (fun r => castIfNeeded np r dt s) = cs.map .ok) (hown : ∀ r ∈ rs, OwnValues np r) :
    totalBands cs = totalBands rs := by
  induction rs generalizing cs with
  | nil => cases cs with
    | nil => rfl
    | cons c cs => cases h
  | cons r rs ih =>
    cases cs with
    | nil => cases h
    | cons c cs =>
      simp only [List.map_cons, List.cons.injEq] at h
      have := (cast_spec (hown r (by simp)) h.1).2.1
      have := ih cs h.2 fun q hq => hown q (by simp [hq])
      simp only [totalBands, List.map_cons, List.sum_cons] at *
      omega

/-- **C23**: splitting a stack gives back the bands of the inputs in order: band `b` of the input `r` is at the
position after all the bands of the inputs before `r`, with the same null cells and the same valid values
(converted to the dtype of the stack). -/
theorem C23_stack_split {np : NumPy} {resultType : List DType → DType} {rs : List Raster} {dtype : Option DType}
    {nullValue : NullOption} {o : Raster} (hown : ∀ r ∈ rs, OwnValues np r)
    (hgrid : ∀ r ∈ rs, ∀ q ∈ rs, r.ny = q.ny ∧ r.nx = q.nx)
    (h : stackBands np resultType rs dtype nullValue = .ok o) :
    let dt := dtype.getD (resultType (rs.map (·.dtype)))
    o.dtype = dt ∧ o.nb = (rs.map (·.nb)).sum ∧ (∀ r ∈ rs, o.ny = r.ny ∧ o.nx = r.nx) ∧
    ∃ parts, splitBands o = .ok parts ∧ parts.length = (rs.map (·.nb)).sum ∧
      ∀ pre r post, rs = pre ++ r :: post → ∀ b < r.nb,
        ∃ p, parts[(pre.map (·.nb)).sum + b]? = some p ∧ p.nb = 1 ∧ p.dtype = dt ∧ p.ny = r.ny ∧ p.nx = r.nx ∧
          SameBand np dt p 0 r b := by
  intro dt
  have key : o.dtype = dt ∧ o.nb = totalBands rs ∧ (∀ r ∈ rs, o.ny = r.ny ∧ o.nx = r.nx) ∧
      ∀ pre r post, rs = pre ++ r :: post → ∀ b < r.nb, SameBand np dt o (totalBands pre + b) r b := by
    unfold stackBands at h
    cases rs with
    | nil => cases h
    | cons first rest =>
      simp only at h
      cases rest with
      | nil =>
        simp only at h
        obtain ⟨h1, h2, h3, h4, h5, h6⟩ := cast_spec (hown first (by simp)) h
        refine ⟨h1, by simp [totalBands, h2], by simp [h3, h4], ?_⟩
        intro pre r post e b hb
        cases pre with
        | cons q pre => simp at e
        | nil =>
          simp only [List.nil_append, List.cons.injEq] at e
          obtain ⟨e, _⟩ := e
          subst e
          intro y x
          simp only [totalBands, List.map_nil, List.sum_nil, Nat.zero_add]
          exact ⟨h5 _, h6 _⟩
      | cons second rest =>
        simp only at h
        split at h
        · cases h
        · rename_i cs hcs
          injection h with h
          subst h
          obtain ⟨nod, hcs⟩ : ∃ nod, (first :: second :: rest).map (fun r => castIfNeeded np r dt nod) = cs.map .ok :=
            ⟨_, sequence_inv hcs⟩
          have htot := castAll_bands _ cs hcs hown
          refine ⟨rfl, htot, ?_, ?_⟩
          · intro r hr
            exact hgrid first (by simp) r hr
          · intro pre r post e b hb
            rw [e, List.map_append, List.map_cons] at hcs
            obtain ⟨pre', tail, e', hpre, htail⟩ := List.map_eq_append_iff.mp hcs.symm
            obtain ⟨c, post', e'', hc, hpost⟩ := List.map_eq_cons_iff.mp htail
            subst e''
            subst e'
            have hr : r ∈ first :: second :: rest := by rw [e]; simp
            obtain ⟨h1, h2, h3, h4, h5, h6⟩ := cast_spec (hown r hr) hc.symm
            have htp : totalBands pre' = totalBands pre :=
              castAll_bands pre pre' hpre.symm fun q hq => hown q (by rw [e]; simp [hq])
            intro y x
            simp only [ofData, Bool.false_eq_true, if_false]
            rw [← htp, concat_at _ _ pre' c post' (by omega), concat_at _ _ pre' c post' (by omega)]
            exact ⟨h5 _, h6 _⟩
  obtain ⟨k1, k2, k3, k4⟩ := key
  refine ⟨k1, k2, k3, ?_⟩
  obtain ⟨parts, p1, p2, p3⟩ := split_spec o
  refine ⟨parts, p1, by rw [p2]; exact k2, ?_⟩
  intro pre r post e b hb
  have hlt : totalBands pre + b < o.nb := by
    rw [k2, e]
    simp only [totalBands, List.map_append, List.map_cons, List.sum_append, List.sum_cons]
    omega
  obtain ⟨p, q1, q2, q3, _, q5, q6, q7⟩ := p3 _ hlt
  have hr : r ∈ rs := by rw [e]; simp
  refine ⟨p, q1, q2, by rw [q3, k1], by rw [q5, (k3 r hr).1], by rw [q6, (k3 r hr).2], ?_⟩
  intro y x
  rw [(q7 y x).1, (q7 y x).2]
  exact k4 pre r post e b hb y x

/-- **C23**, when it fails: stacking raises exactly for an empty list, or when the null value asked for (or
inherited) cannot be reconciled with the dtype of the stack and some input has a different null value. -/
theorem C23_rejected (np : NumPy) (resultType : List DType → DType) (rs : List Raster) (dtype : Option DType)
    (nullValue : NullOption) (e : Err) (h : stackBands np resultType rs dtype nullValue = .error e) :
    rs = [] ∨ ∃ r ∈ rs, ∃ old, r.nv = some old ∧
      (reconcile np (some (stackNull rs (dtype.getD (resultType (rs.map (·.dtype)))) nullValue))
        (dtype.getD (resultType (rs.map (·.dtype))))).2 = true := by
  have key : ∀ (r : Raster) (dt : DType) (s : Scalar), castIfNeeded np r dt s = .error e →
      ∃ old, r.nv = some old ∧ (reconcile np (some s) dt).2 = true := by
    intro r dt s hc
    unfold castIfNeeded at hc
    split at hc
    · cases hc
    · unfold Raster.astype at hc
      split at hc
      · cases hc
      · cases hnv : r.nv with
        | none => rw [hnv] at hc; cases hc
        | some old =>
          rw [hnv] at hc
          simp only at hc
          split at hc
          · cases hc
          · split at hc
            · rename_i hw
              exact ⟨old, rfl, hw⟩
            · cases hc
  cases rs with
  | nil => exact Or.inl rfl
  | cons first rest =>
    right
    cases rest with
    | nil =>
      simp only [stackBands] at h
      obtain ⟨old, h1, h2⟩ := key first _ _ h
      exact ⟨first, by simp, old, h1, h2⟩
    | cons second rest =>
      simp only [stackBands] at h
      split at h
      · rename_i e' he
        injection h with h
        subst h
        obtain ⟨r, hr, hc⟩ := List.mem_map.mp (sequence_error he)
        obtain ⟨old, h1, h2⟩ := key r _ _ hc
        exact ⟨r, hr, old, h1, h2⟩
      · cases h

/-- Two uint8 rasters, one with two bands. -/
def twoBands : Raster := ⟨u8, 2, 1, 1, fun c => .fin (10 + c.1), fun c => c.1 == 1, some ⟨u8, .fin 11⟩⟩

def oneBand : Raster := ⟨u8, 1, 1, 1, fun _ => .fin 7, fun _ => false, none⟩

/-- The hypotheses of C23 are met by a stack of three bands. -/
example : ∃ o, stackBands (idNumPy false) (fun _ => u8) [oneBand, twoBands] none .unset = .ok o ∧
    (∀ r ∈ [oneBand, twoBands], OwnValues (idNumPy false) r) ∧
    (∀ r ∈ [oneBand, twoBands], ∀ q ∈ [oneBand, twoBands], r.ny = q.ny ∧ r.nx = q.nx) ∧ o.nb = 3 ∧
    o.mask (2, 0, 0) = true ∧ o.data (1, 0, 0) = .fin 10 := by
  refine ⟨_, rfl, fun r _ c => rfl, ?_, rfl, by decide +kernel, by decide +kernel⟩
  intro r hr q hq
  simp only [List.mem_cons, List.not_mem_nil, or_false] at hr hq
  rcases hr with rfl | rfl <;> rcases hq with rfl | rfl <;> exact ⟨rfl, rfl⟩

/-- The null value of a stack: the one given, or the first one found, or the default of the dtype. -/
theorem C23_null_value {np : NumPy} {resultType : List DType → DType} {r1 r2 : Raster} {rs : List Raster}
    {dtype : Option DType} {nullValue : NullOption} {o : Raster}
    (h : stackBands np resultType (r1 :: r2 :: rs) dtype nullValue = .ok o) :
    (∀ s, nullValue = .value s → o.nv = some s) ∧ (nullValue = .default → o.nv = some (defaultNull o.dtype)) ∧
    (nullValue = .unset → (∀ r ∈ r1 :: r2 :: rs, r.nv = none) → o.nv = some (defaultNull o.dtype)) ∧
    (nullValue = .unset → ∀ pre r post s, r1 :: r2 :: rs = pre ++ r :: post → (∀ q ∈ pre, q.nv = none) →
      r.nv = some s → o.nv = some s) := by
  simp only [stackBands] at h
  split at h
  · cases h
  · injection h with h
    subst h
    refine ⟨?_, ?_, ?_, ?_⟩
    · rintro s rfl; rfl
    · rintro rfl; rfl
    · rintro rfl hn
      have : (r1 :: r2 :: rs).filterMap (·.nv) = [] := List.filterMap_eq_nil_iff.mpr hn
      simp only [ofData, stackNull, this, Option.getD_some]
    · rintro rfl pre r post s e hpre hs
      have : (r1 :: r2 :: rs).filterMap (·.nv) = s :: post.filterMap (·.nv) := by
        rw [e, List.filterMap_append, List.filterMap_eq_nil_iff.mpr hpre]
        simp [hs]
      simp only [ofData, stackNull, this, Option.getD_some]

/-- A null cell of a float64 raster with null value `v`. -/
def nullCell (v : Rat) : Raster := ⟨f64, 1, 1, 1, fun _ => .fin v, fun _ => true, some ⟨f64, .fin v⟩⟩

/-- **Stacks may hold the wrong value in null cells**: with the null values 1000000 and 1000001 the second input
keeps its own value, so that the null cell holds 1000001 while the null value of the stack is 1000000. -/
theorem C23_close_null_not_replaced :
    NullsHold (nullCell 1000000) ∧ NullsHold (nullCell 1000001) ∧
    ∃ o, stackBands (idNumPy false) (fun _ => f64) [nullCell 1000000, nullCell 1000001] none .unset = .ok o ∧
      o.nv = some ⟨f64, .fin 1000000⟩ ∧ o.mask (1, 0, 0) = true ∧ o.data (1, 0, 0) = .fin 1000001 ∧
      ¬ NullsHold o := by
  refine ⟨fun c _ => ⟨_, rfl, rfl⟩, fun c _ => ⟨_, rfl, rfl⟩, ?_⟩
  have h1 : castIfNeeded (idNumPy false) (nullCell 1000000) f64 ⟨f64, .fin 1000000⟩ = .ok (nullCell 1000000) := by
    unfold castIfNeeded
    rw [if_pos ⟨rfl, by decide +kernel⟩]
  have h2 : castIfNeeded (idNumPy false) (nullCell 1000001) f64 ⟨f64, .fin 1000000⟩ = .ok (nullCell 1000001) := by
    have hne : ¬ nullValuesEqual (nullCell 1000001).nv (some ⟨f64, .fin 1000000⟩) = true := by decide +kernel
    have hcl : allcloseNum (.fin 1000000) (.fin 1000001) = true := by decide +kernel
    unfold castIfNeeded
    rw [if_neg (fun h => hne h.2)]
    unfold Raster.astype
    rw [if_neg (by rintro ⟨_, h | h⟩ <;> [cases h; exact hne h])]
    simp [nullCell, hcl, idNumPy]
  have h3 : stackBands (idNumPy false) (fun _ => f64) [nullCell 1000000, nullCell 1000001] none .unset =
      .ok (ofData f64 2 1 1 (concat (·.data) .nan [nullCell 1000000, nullCell 1000001])
        (some (concat (·.mask) false [nullCell 1000000, nullCell 1000001])) (some ⟨f64, .fin 1000000⟩) false) := by
    have h1' := h1
    simp only [stackBands, List.map_cons, List.map_nil, stackNull, nullCell, List.filterMap_cons, Option.getD_none] at h1 h2 ⊢
    rw [h1, h2]
    rfl
  refine ⟨_, h3, rfl, rfl, rfl, ?_⟩
  intro hn
  obtain ⟨s, hs, hd⟩ := hn (1, 0, 0) rfl
  simp only [ofData, Option.getD_some, Option.some.injEq] at hs
  subst hs
  simp [ofData, concat, nullCell] at hd

/-! ### C47: band_concat -/

/-- **C47**: `band_concat` puts the bands of the inputs one after the other with the same null cells and the same
valid values, and (for more than one input) every null cell holds the null value of the result. -/
theorem C47_band_concat {np : NumPy} {resultType : List DType → DType} {r1 r2 : Raster} {rs : List Raster}
    (hmask : ∀ r ∈ r1 :: r2 :: rs, MaskNeedsNull r) :
    ∃ o, bandConcat np resultType (r1 :: r2 :: rs) = .ok o ∧
      o.nb = ((r1 :: r2 :: rs).map (·.nb)).sum ∧ o.ny = r1.ny ∧ o.nx = r1.nx ∧
      o.dtype = resultType ((r1 :: r2 :: rs).map (·.dtype)) ∧
      (∀ pre r post, r1 :: r2 :: rs = pre ++ r :: post → ∀ b < r.nb,
        SameBand np o.dtype o ((pre.map (·.nb)).sum + b) r b) ∧
      (∀ b y x, b < o.nb → o.mask (b, y, x) = true → ∃ s, o.nv = some s ∧ o.data (b, y, x) = s.val) ∧
      (o.nv = none ↔ ∀ r ∈ r1 :: r2 :: rs, r.nv = none) := by
  simp only [bandConcat]
  split
  · rename_i hany
    refine ⟨_, rfl, rfl, rfl, rfl, rfl, ?_, ?_, ?_⟩
    · intro pre r post e b hb y x
      simp only [e]
      have := concat_at (·.mask) false pre r post hb (y, x)
      have h2 := concat_at (·.data) .nan pre r post hb (y, x)
      simp only [totalBands] at this h2
      simp only [this, h2, true_and]
      intro hm
      simp [hm]
    · intro b y x _ hm
      refine ⟨_, rfl, ?_⟩
      simp only at hm
      simp [hm]
    · simp only [reduceCtorEq, false_iff]
      intro hn
      obtain ⟨r, hr, hm⟩ := List.any_eq_true.mp hany
      simp [Raster.masked, hn r hr] at hm
  · rename_i hany
    have hn : ∀ r ∈ r1 :: r2 :: rs, r.nv = none := by
      intro r hr
      by_contra hc
      apply hany
      refine List.any_eq_true.mpr ⟨r, hr, ?_⟩
      cases h : r.nv with
      | none => exact absurd h hc
      | some s => simp [Raster.masked, h]
    refine ⟨_, rfl, rfl, rfl, rfl, rfl, ?_, ?_, ?_⟩
    · intro pre r post e b hb y x
      simp only [e]
      have := concat_at (·.mask) false pre r post hb (y, x)
      have h2 := concat_at (·.data) .nan pre r post hb (y, x)
      simp only [totalBands] at this h2
      simp only [this, h2, true_and]
      exact fun _ => trivial
    · intro b y x hb hm
      exfalso
      have key : ∀ (l : List Raster), (∀ r ∈ l, MaskNeedsNull r ∧ r.nv = none) → ∀ c : Cell,
          concat (·.mask) false l c = false := by
        intro l
        induction l with
        | nil => intro _ _; rfl
        | cons q l ih =>
          intro hl c
          simp only [concat]
          split
          · cases hq : q.mask c with
            | false => rfl
            | true => exact absurd (hl q (by simp)).2 ((hl q (by simp)).1 c hq)
          · exact ih (fun r hr => hl r (by simp [hr])) _
      have := key (r1 :: r2 :: rs) (fun r hr => ⟨hmask r hr, hn r hr⟩) (b, y, x)
      simp only at hm
      rw [this] at hm
      cases hm
    · simp only [true_iff]
      exact hn

example : ∀ r ∈ [oneBand, twoBands], MaskNeedsNull r := by
  intro r hr
  simp only [List.mem_cons, List.not_mem_nil, or_false] at hr
  rcases hr with rfl | rfl
  · intro c hc; cases hc
  · intro c _; exact fun h => nomatch h

/-! ### C24: pad -/

/-- The fill asked for on band `b`, if any. -/
def Spec.fillOf : Fill → Nat → Option Scalar
  | .unset, _ => none
  | .scalar s, _ => some s
  | .list ss, b => ss[b]?
  | .other, _ => none

/-- **C24**: every original cell keeps its value and null state at its position; the other cells hold the fill
of their band (the null value when none is given), and are null exactly when no fill was given or it equals
the null value. -/
theorem C24_pad {np : NumPy} {r o : Raster} {m : Margins} {fill : Fill} (hr : MaskNeedsNull r)
    (h : pad np r m fill = .ok o) :
    o.dtype = r.dtype ∧ o.nb = r.nb ∧ o.ny = m.top + r.ny + m.bottom ∧ o.nx = m.left + r.nx + m.right ∧
    (∀ s, r.nv = some s → o.nv = some s) ∧
    (∀ b y x, y < r.ny → x < r.nx →
      o.data (b, m.top + y, m.left + x) = r.data (b, y, x) ∧ o.mask (b, m.top + y, m.left + x) = r.mask (b, y, x)) ∧
    (∀ b y x, b < r.nb → (y < m.top ∨ m.top + r.ny ≤ y ∨ x < m.left ∨ m.left + r.nx ≤ x) →
      (o.mask (b, y, x) = true ↔ fill = .unset ∨ ∃ f s, Spec.fillOf fill b = some f ∧ r.nv = some s ∧ f.val = s.val) ∧
      (fill = .unset → ∃ s, o.nv = some s ∧ ∃ d, o.data (b, y, x) = np.cast r.dtype (np.cast d s.val)) ∧
      (∀ f, Spec.fillOf fill b = some f → ∃ d, o.data (b, y, x) = np.cast r.dtype (np.cast d f.val) ∧
        ((∀ g k, Spec.fillOf fill k = some g → g.ty = f.ty) → d = f.ty))) := by
  unfold pad at h
  split at h
  · cases h
  · rename_i perBand mark outNv hv
    injection h with h
    subst h
    refine ⟨rfl, rfl, rfl, rfl, ?_, ?_, ?_⟩
    · intro s hs
      unfold validateFill at hv
      split at hv
      · injection hv with hv
        simp only [Prod.mk.injEq] at hv
        rw [← hv.2.2, hs]; rfl
      · injection hv with hv
        simp only [Prod.mk.injEq] at hv
        rw [← hv.2.2, hs]
      · split at hv
        · cases hv
        · injection hv with hv
          simp only [Prod.mk.injEq] at hv
          rw [← hv.2.2, hs]
      · cases hv
    · intro b y x hy hx
      have hold : m.old r (b, m.top + y, m.left + x) = true := by
        simp only [Margins.old, Bool.and_eq_true, decide_eq_true_eq]
        omega
      simp only [Margins.pad, hold, if_true, Bool.false_eq_true, if_false, Nat.add_sub_cancel_left, true_and,
        Bool.false_and, Bool.or_false]
      split
      · rfl
      · rename_i hm
        cases hc : r.mask (b, y, x) with
        | false => rfl
        | true =>
          exfalso
          apply hr _ hc
          simpa [Raster.masked] using hm
    · intro b y x hb hnew
      have hold : m.old r (b, y, x) = false := by
        rw [Bool.eq_false_iff]
        simp only [Margins.old, ne_eq, Bool.and_eq_true, decide_eq_true_eq]
        omega
      have hxm : (if r.masked = true then m.pad r r.mask false (b, y, x) else false) = false := by
        simp [Margins.pad, hold]
      have hpromote : ∀ ss : List Scalar, ss ≠ [] → ∃ d, reducePromote (ss.map (·.ty)) = some d ∧
          (∀ t, (∀ s ∈ ss, s.ty = t) → d = t) := by
        intro ss hss
        obtain ⟨d, hd, _⟩ := reducePromote_spec (ds := ss.map (·.ty)) (by simpa using hss)
        refine ⟨d, hd, ?_⟩
        intro t ht
        have hrep : ss.map (·.ty) = List.replicate ss.length t := by
          rw [List.eq_replicate_iff]
          refine ⟨by simp, ?_⟩
          intro a ha
          obtain ⟨s, hs, rfl⟩ := List.mem_map.mp ha
          exact ht s hs
        rw [hrep] at hd
        have hlen : ss.length ≠ 0 := by simpa using hss
        obtain ⟨n, hn⟩ := Nat.exists_eq_succ_of_ne_zero hlen
        rw [hn] at hd
        clear hrep ht hlen hn hss
        have hpp : ∀ t : DType, t.promote t = some t := by intro t; cases t <;> rfl
        have hfold : ∀ n, reducePromote (List.replicate (n + 1) t) = some t := by
          intro n
          induction n with
          | zero => rfl
          | succ n ih =>
            simp only [List.replicate_succ, reducePromote, List.foldl_cons] at ih ⊢
            simp [hpp]
            simpa using ih
        rw [Nat.succ_eq_add_one, hfold n] at hd
        injection hd with hd
        exact hd.symm
      have hdata : ∀ (ss : List Scalar) f, ss[b]? = some f → ∃ d, ((asarray np ss).map (np.cast r.dtype)).getD b .nan =
          np.cast r.dtype (np.cast d f.val) ∧ (∀ t, (∀ s ∈ ss, s.ty = t) → d = t) := by
        intro ss f hf
        have hne : ss ≠ [] := by rintro rfl; simp at hf
        obtain ⟨d, hd, ht⟩ := hpromote ss hne
        refine ⟨d, ?_, ht⟩
        simp only [asarray, hd, List.getD, List.getElem?_map, hf, Option.map_some, Option.getD_some]
      have hnv : ∀ f : Num, equalsNull f r.nv = true ↔ ∃ s, r.nv = some s ∧ f = s.val := by
        intro f
        cases hn : r.nv with
        | none => simp [equalsNull]
        | some s => simp [equalsNull, Num.nanEqual_iff]
      simp only [Margins.pad, hold, Bool.false_eq_true, if_false, if_true, Bool.true_and]
      have hxm' : (if r.masked = true then false else false) = false := by split <;> rfl
      simp only [ite_self, Bool.false_or]
      unfold validateFill at hv
      split at hv
      · injection hv with hv
        simp only [Prod.mk.injEq] at hv
        obtain ⟨e1, e2, e3⟩ := hv
        subst e1; subst e2; subst e3
        refine ⟨by simp [hb, List.getD], fun _ => ?_, fun f hf => by cases hf⟩
        obtain ⟨d, hd, _⟩ := hdata (List.replicate r.nb (r.nv.getD (defaultNull r.dtype)))
          (r.nv.getD (defaultNull r.dtype)) (by simp [hb])
        exact ⟨_, rfl, d, hd⟩
      · rename_i s
        injection hv with hv
        simp only [Prod.mk.injEq] at hv
        obtain ⟨e1, e2, e3⟩ := hv
        subst e1; subst e2; subst e3
        refine ⟨?_, fun hc => (nomatch hc), ?_⟩
        · simp [hb, List.getD, Spec.fillOf, hnv]
        · intro f hf
          simp only [Spec.fillOf, Option.some.injEq] at hf
          subst hf
          obtain ⟨d, hd, ht⟩ := hdata (List.replicate r.nb s) s (by simp [hb])
          exact ⟨d, hd, fun _ => ht _ (by simp [List.mem_replicate])⟩
      · rename_i ss
        split at hv
        · cases hv
        · rename_i hlen
          injection hv with hv
          simp only [Prod.mk.injEq] at hv
          obtain ⟨e1, e2, e3⟩ := hv
          subst e1; subst e2; subst e3
          have hlt : b < ss.length := by omega
          refine ⟨?_, fun hc => (nomatch hc), ?_⟩
          · simp [List.getD, Spec.fillOf, hnv, List.getElem?_eq_getElem hlt]
          · intro f hf
            simp only [Spec.fillOf] at hf
            obtain ⟨d, hd, ht⟩ := hdata ss f hf
            refine ⟨d, hd, fun hall => ht _ ?_⟩
            intro s hs
            obtain ⟨k, hk, rfl⟩ := List.getElem_of_mem hs
            exact hall _ k (by simp [Spec.fillOf, List.getElem?_eq_getElem hk])
      · cases hv

/-- **C24**, when it fails: only for a list of the wrong length or an argument of the wrong type. -/
theorem C24_rejected (np : NumPy) (r : Raster) (m : Margins) (fill : Fill) :
    (pad np r m fill = .error .value ↔ ∃ ss, fill = .list ss ∧ ss.length ≠ r.nb) ∧
    (pad np r m fill = .error .type ↔ fill = .other) ∧
    ((∃ o, pad np r m fill = .ok o) ↔ fill ≠ .other ∧ ∀ ss, fill = .list ss → ss.length = r.nb) := by
  cases fill with
  | unset => simp [pad, validateFill]
  | scalar s => simp [pad, validateFill]
  | other => simp [pad, validateFill]
  | list ss => by_cases h : ss.length = r.nb <;> simp [pad, validateFill, h]

/-- **C24**, exact values: a fill that the dtype of the raster can represent is found in the new cells, for a
scalar or a list of fills of one type. -/
theorem C24_exact_fill {np : NumPy} {r o : Raster} {m : Margins} {fill : Fill} (hr : MaskNeedsNull r)
    (h : pad np r m fill = .ok o) {b y x : Nat} (hb : b < r.nb)
    (hnew : y < m.top ∨ m.top + r.ny ≤ y ∨ x < m.left ∨ m.left + r.nx ≤ x) {f : Scalar}
    (hf : Spec.fillOf fill b = some f) (hty : ∀ g k, Spec.fillOf fill k = some g → g.ty = f.ty)
    (hown : np.cast f.ty f.val = f.val) (hrep : np.cast r.dtype f.val = f.val) : o.data (b, y, x) = f.val := by
  obtain ⟨d, hd, h2⟩ := ((C24_pad hr h).2.2.2.2.2.2 b y x hb hnew).2.2 f hf
  rw [hd, h2 hty, hown, hrep]

/-- The hypotheses of C24 are met: one more row above, fill 3 which is not the null value. -/
example : ∃ o, pad (idNumPy false) twoBands ⟨1, 0, 0, 0⟩ (.scalar ⟨i64, .fin 3⟩) = .ok o ∧ MaskNeedsNull twoBands ∧
    o.data (0, 0, 0) = .fin 3 ∧ o.mask (0, 0, 0) = false ∧ o.data (0, 1, 0) = .fin 10 ∧ o.mask (1, 1, 0) = true := by
  refine ⟨_, rfl, fun c _ => (fun h => nomatch h), by decide +kernel, by decide +kernel, by decide +kernel,
    by decide +kernel⟩

/-- **A fill the dtype cannot hold**: the comparison with the null value is made before the conversion, so filling
a uint8 raster whose null value is 0 with 256 puts 0 into the new cells (in any numpy where 256 wraps to 0)
without marking them null. -/
theorem C24_fill_wraps_to_null {np : NumPy} (h1 : np.cast i64 (.fin 256) = .fin 256)
    (h2 : np.cast u8 (.fin 256) = .fin 0) (r : Raster) (hd : r.dtype = u8) (hnv : r.nv = some ⟨u8, .fin 0⟩)
    (hb : 0 < r.nb) :
    ∃ o, pad np r ⟨1, 0, 0, 0⟩ (.scalar ⟨i64, .fin 256⟩) = .ok o ∧ o.nv = some ⟨u8, .fin 0⟩ ∧
      o.data (0, 0, 0) = .fin 0 ∧ o.mask (0, 0, 0) = false := by
  obtain ⟨o, ho⟩ := (C24_rejected np r ⟨1, 0, 0, 0⟩ (.scalar ⟨i64, .fin 256⟩)).2.2.mpr
    ⟨(fun h => nomatch h), (fun ss h => nomatch h)⟩
  have hd2 : ∀ n, reducePromote (List.replicate (n + 1) i64) = some i64 := by
    intro n
    induction n with
    | zero => rfl
    | succ n ih =>
      simp only [List.replicate_succ, reducePromote, List.foldl_cons] at ih ⊢
      have : i64.promote i64 = some i64 := by decide
      simp [this]
      simpa using ih
  obtain ⟨n, hn⟩ := Nat.exists_eq_succ_of_ne_zero (Nat.pos_iff_ne_zero.mp hb)
  refine ⟨_, rfl, hnv, ?_, ?_⟩
  · simp only [Margins.pad, Margins.old, asarray, hd, hn, Nat.succ_eq_add_one, List.map_replicate, hd2]
    simp [List.getD, h1, h2]
  · simp [Margins.pad, Margins.old, equalsNull, hnv, Num.nanEqual, Num.isnan, Num.eq, List.getD, hb]

example : ∃ np : NumPy, np.cast i64 (.fin 256) = .fin 256 ∧ np.cast u8 (.fin 256) = .fin 0 :=
  ⟨⟨false, fun d v => if d = u8 ∧ v = .fin 256 then .fin 0 else v⟩, by decide +kernel, by decide +kernel⟩

end Verif.Bands
