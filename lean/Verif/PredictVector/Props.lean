import Verif.PredictVector.Model

set_option linter.unusedSectionVars false

/-!
# Properties of `model_predict_vector`
-/

namespace Verif.PredictVector

open Verif Verif.Nulls

namespace Spec

/-- The arguments can be used: the fields exist, there is an output, the prefix is a string whose names are new. -/
def Accepted (fields : List String) (nOutputs : Int) (pre : Option String) (t : Table) : Prop :=
  (∀ f ∈ fields, f ∈ t.names) ∧ 1 ≤ nOutputs ∧
    ∃ p, pre = some p ∧ ∀ i : Nat, 1 ≤ i → (i : Int) ≤ nOutputs → p ++ toString i ∉ t.names

/-- The row `r'` is the row `r` with predictions: the index and the old columns are kept; the column of output `i` has its
prediction for the values of the fields, or NaN if one of them is NaN. -/
def Extends (g : List Num → List Num) (fields : List String) (n : Nat) (pre : String) (names : List String) (r r' : Row) :
    Prop :=
  r'.index = r.index ∧ (∀ c ∈ names, r'.value c = r.value c) ∧
    ∀ i < n, r'.value (pre ++ toString (i + 1)) =
      .num (if ∃ f ∈ fields, (r.value f).toNum = .nan then .nan
        else (g (fields.map fun f => (r.value f).toNum)).getD i .nan)

end Spec

open Spec

/-! ### Names -/

theorem toString_inj {a b : Nat} (h : toString a = toString b) : a = b := by
  have h' : Nat.toDigits 10 a = Nat.toDigits 10 b := by
    have := congrArg String.toList h
    change (Nat.repr a).toList = (Nat.repr b).toList at this
    rwa [Nat.toList_repr, Nat.toList_repr] at this
  rw [← Nat.ofDigitChars_ten_toDigits (n := a), ← Nat.ofDigitChars_ten_toDigits (n := b), h']

theorem name_inj {p : String} {a b : Nat} (h : p ++ toString a = p ++ toString b) : a = b := by
  apply toString_inj
  have := congrArg String.toList h
  rw [String.toList_append, String.toList_append] at this
  exact String.toList_inj.mp (List.append_cancel_left this)

theorem mem_newNames {p c : String} {n : Nat} : c ∈ newNames p n ↔ ∃ i < n, c = p ++ toString (i + 1) := by
  simp only [newNames, List.mem_map, List.mem_range]
  constructor
  · rintro ⟨i, hi, rfl⟩
    exact ⟨i, hi, rfl⟩
  · rintro ⟨i, hi, rfl⟩
    exact ⟨i, hi, rfl⟩

theorem newNames_nodup (p : String) (n : Nat) : (newNames p n).Nodup := by
  simp only [newNames]
  rw [List.nodup_iff_pairwise_ne, List.pairwise_map]
  refine (List.nodup_iff_pairwise_ne.mp List.nodup_range).imp ?_
  intro a b hab h
  apply hab
  have := name_inj h
  omega

theorem find_new {p : String} {n i : Nat} (hi : i < n) :
    (newNames p n).findIdx? (· == p ++ toString (i + 1)) = some i := by
  rw [List.findIdx?_eq_some_iff_getElem]
  have hl : i < (newNames p n).length := by simpa [newNames] using hi
  refine ⟨hl, by simp [newNames], ?_⟩
  intro j hj h
  simp only [newNames, List.getElem_map, List.getElem_range, beq_iff_eq] at h
  have := name_inj h
  omega

theorem find_old {p c : String} {n : Nat} (h : c ∉ newNames p n) : (newNames p n).findIdx? (· == c) = none := by
  rw [List.findIdx?_eq_none_iff]
  intro x hx
  rw [beq_eq_false_iff_ne]
  rintro rfl
  exact h hx

/-! ### Rows -/

theorem isValid_iff (fields : List String) (r : Row) :
    isValid (predictors fields r) = true ↔ ¬ ∃ f ∈ fields, (r.value f).toNum = .nan := by
  have hn : ∀ v : Num, v.isnan = true ↔ v = .nan := by
    intro v
    cases v <;> simp [Num.isnan]
  simp only [isValid, predictors, Bool.not_eq_true', List.any_eq_false, List.mem_map, forall_exists_index, and_imp,
    forall_apply_eq_imp_iff₂, hn, not_exists, not_and]

theorem scatter_length (n cols : Nat) (y : List (List Num)) (vs : List Bool) : ∀ j, (scatter n cols y j vs).length = vs.length := by
  induction vs with
  | nil => intro j; rfl
  | cons v vs ih =>
    intro j
    cases v <;> simp [scatter, ih]

theorem scatter_row (n cols : Nat) (y : List (List Num)) (vs : List Bool) : ∀ j, ∀ p ∈ scatter n cols y j vs, p.length = n := by
  induction vs with
  | nil =>
    intro j p hp
    cases hp
  | cons v vs ih =>
    intro j p hp
    cases v with
    | true =>
      rcases List.mem_cons.mp hp with rfl | hp
      · simp
      · exact ih _ p hp
    | false =>
      rcases List.mem_cons.mp hp with rfl | hp
      · simp
      · exact ih _ p hp

/-- The rows of a table that are used for the valid rows. -/
theorem scatter_eq (n cols : Nat) (y : List (List Num)) (pick : Nat → List Num) (xs : List (List Num)) :
    ∀ j, (∀ k < (xs.filter isValid).length,
        ((List.range n).map fun i => (y.getD (stretch y.length (j + k)) []).getD (stretch cols i) .nan) = pick (j + k)) →
      ∀ m, (hm : m < xs.length) → (scatter n cols y j (xs.map isValid)).getD m [] =
        if isValid xs[m] then pick (j + ((xs.take m).filter isValid).length) else List.replicate n .nan := by
  induction xs with
  | nil =>
    intro j _ m hm
    cases hm
  | cons x xs ih =>
    intro j hp m hm
    cases hv : isValid x with
    | true =>
      rw [List.filter_cons_of_pos hv] at hp
      simp only [List.map_cons, hv, scatter]
      cases m with
      | zero =>
        simp only [List.getD_cons_zero, List.getElem_cons_zero, hv, if_true, List.take_zero, List.filter_nil, List.length_nil]
        exact hp 0 (by simp)
      | succ m =>
        simp only [List.getD_cons_succ, List.getElem_cons_succ, List.take_succ_cons, List.filter_cons_of_pos hv,
          List.length_cons]
        rw [ih (j + 1)]
        · rw [show j + 1 + ((xs.take m).filter isValid).length = j + (((xs.take m).filter isValid).length + 1) by omega]
        · intro k hk
          have := hp (k + 1) (by rw [List.length_cons]; omega)
          rw [show j + 1 + k = j + (k + 1) by omega]
          exact this
    | false =>
      rw [List.filter_cons_of_neg (by rw [hv]; decide)] at hp
      simp only [List.map_cons, hv, scatter]
      cases m with
      | zero => simp [hv]
      | succ m =>
        simp only [List.getD_cons_succ, List.getElem_cons_succ, List.take_succ_cons,
          List.filter_cons_of_neg (p := isValid) (a := x) (by rw [hv]; decide)]
        exact ih j hp m (by simpa using hm)

theorem valid_before (xs : List (List Num)) : ∀ m, (hm : m < xs.length) → isValid xs[m] = true →
    (xs.filter isValid)[((xs.take m).filter isValid).length]? = some xs[m] := by
  induction xs with
  | nil =>
    intro m hm
    cases hm
  | cons x xs ih =>
    intro m hm hv
    cases m with
    | zero =>
      simp only [List.getElem_cons_zero] at hv ⊢
      simp [hv]
    | succ m =>
      simp only [List.getElem_cons_succ] at hv ⊢
      rw [List.take_succ_cons]
      by_cases hx : isValid x = true
      · rw [List.filter_cons_of_pos hx, List.filter_cons_of_pos hx, List.length_cons, List.getElem?_cons_succ]
        exact ih m (by simpa using hm) hv
      · rw [List.filter_cons_of_neg hx, List.filter_cons_of_neg hx]
        exact ih m (by simpa using hm) hv

/-- A row with predictions has them in its new columns and the rest as it was. -/
theorem addColumns_spec {pre : String} {names : List String} {n : Nat} (hnew : ∀ c ∈ newNames pre n, c ∉ names) (r : Row)
    (p : List Num) (hp : p.length = n) :
    (addColumns pre r p).index = r.index ∧ (∀ c ∈ names, (addColumns pre r p).value c = r.value c) ∧
      ∀ i < n, (addColumns pre r p).value (pre ++ toString (i + 1)) = .num (p.getD i .nan) := by
  refine ⟨rfl, ?_, ?_⟩
  · intro c hc
    have : c ∉ newNames pre p.length := by
      rw [hp]
      exact fun h => hnew c h hc
    simp only [addColumns, find_old this]
  · intro i hi
    rw [← hp] at hi
    simp only [addColumns, find_new hi]

/-! ### Partitions -/

/-- What is known of the model: for the valid rows of a table it gives, after stretching, the row of outputs `g`. -/
def Gives (model : Model) (g : List Num → List Num) (n : Nat) (xs : List (List Num)) : Prop :=
  ∃ y, model xs = .ok y ∧ fits n xs.length y.expand.1 y.expand.2.length = true ∧
    ∀ k, (hk : k < xs.length) → ∀ i < n, (y.expand.2.getD (stretch y.expand.2.length k) []).getD (stretch y.expand.1 i) .nan =
      (g xs[k]).getD i .nan

theorem predPart_spec {model : Model} {g : List Num → List Num} {fields : List String} {n : Nat} {pre : String}
    {names : List String} {numeric : String → Bool} (hnew : ∀ c ∈ newNames pre n, c ∉ names)
    (hnum : ∀ f ∈ fields, numeric f = true) (rows : List Row)
    (hg : Gives model g n ((rows.map (predictors fields)).filter isValid)) :
    ∃ out, predPart model numeric fields n pre rows = .ok out ∧
      List.Forall₂ (Extends g fields n pre names) rows out := by
  obtain ⟨y, hy, hfit, hval⟩ := hg
  have hall : fields.all numeric = true := List.all_eq_true.mpr hnum
  simp only [predPart, hall, if_true, predictions, hy, hfit]
  refine ⟨_, rfl, ?_⟩
  set xs := rows.map (predictors fields) with hxs
  set ps := scatter n y.expand.1 y.expand.2 0 (xs.map isValid) with hps
  have hlen : ps.length = rows.length := by
    rw [hps, scatter_length]
    simp [hxs]
  rw [List.forall₂_iff_get]
  refine ⟨by simp [hlen], ?_⟩
  intro m hm hm'
  simp only [List.get_eq_getElem, List.getElem_zipWith]
  have hmp : m < ps.length := by omega
  have hmx : m < xs.length := by simpa [hxs] using hm
  have hrow : ps[m].length = n := scatter_row n y.expand.1 y.expand.2 (xs.map isValid) 0 _ (List.getElem_mem hmp)
  obtain ⟨h1, h2, h3⟩ := addColumns_spec hnew rows[m] ps[m] hrow
  refine ⟨h1, h2, ?_⟩
  intro i hi
  rw [h3 i hi]
  congr 1
  have hs := scatter_eq n y.expand.1 y.expand.2
    (fun k => (List.range n).map fun i => (y.expand.2.getD (stretch y.expand.2.length k) []).getD (stretch y.expand.1 i) .nan)
    xs 0 (fun k _ => rfl) m hmx
  have hpm : ps[m] = ps.getD m [] := by
    rw [List.getD_eq_getElem?_getD, List.getElem?_eq_getElem hmp]
    rfl
  have hxm : xs[m] = predictors fields rows[m] := by simp [hxs]
  rw [hpm, hps, hs, hxm]
  by_cases hv : isValid (predictors fields rows[m]) = true
  · rw [if_pos hv, if_neg ((isValid_iff _ _).mp hv)]
    have hb := valid_before xs m hmx (by rw [hxm]; exact hv)
    obtain ⟨hk, hbk⟩ := List.getElem?_eq_some_iff.mp hb
    have := hval _ hk i hi
    rw [hbk, hxm] at this
    simp only [Nat.zero_add]
    rw [List.getD_eq_getElem?_getD, List.getElem?_map, List.getElem?_range hi]
    simp only [Option.map_some, Option.getD_some]
    exact this
  · rw [if_neg hv, if_pos]
    · simp [List.getD_eq_getElem?_getD, hi]
    · by_contra h
      exact hv ((isValid_iff _ _).mpr h)

theorem predParts_spec {f : List Row → Except Err (List Row)} {R : Row → Row → Prop} (parts : List (List Row))
    (h : ∀ p ∈ parts, ∃ q, f p = .ok q ∧ List.Forall₂ R p q) :
    ∃ out, predParts f parts = .ok out ∧ List.Forall₂ (List.Forall₂ R) parts out := by
  induction parts with
  | nil => exact ⟨[], rfl, List.Forall₂.nil⟩
  | cons p ps ih =>
    obtain ⟨q, hq, hR⟩ := h p (List.mem_cons_self ..)
    obtain ⟨qs, hqs, hRs⟩ := ih fun p hp => h p (List.mem_cons_of_mem _ hp)
    exact ⟨q :: qs, by simp only [predParts, hq, hqs], List.Forall₂.cons hR hRs⟩

/-! ### C78 -/

theorem new_not_old {p : String} {nOutputs : Int} {names : List String}
    (h : ∀ i : Nat, 1 ≤ i → (i : Int) ≤ nOutputs → p ++ toString i ∉ names) : ∀ c ∈ newNames p nOutputs.toNat, c ∉ names := by
  intro c hc
  obtain ⟨i, hi, rfl⟩ := mem_newNames.mp hc
  exact h (i + 1) (by omega) (by omega)

/-- Accepted arguments lead to the loop over the partitions. -/
theorem predictVector_accepted (model : Model) {fields : List String} {nOutputs : Int} {p : String} {t : Table}
    (h : Accepted fields nOutputs (some p) t) :
    predictVector model fields nOutputs (some p) t =
      match predParts (predPart model t.numeric fields nOutputs.toNat p) t.parts with
      | .error e => .error e
      | .ok parts => .ok { names := t.names ++ newNames p nOutputs.toNat
                           numeric := fun c => t.numeric c || (newNames p nOutputs.toNat).contains c
                           parts := parts } := by
  obtain ⟨h1, h2, q, hq, h3⟩ := h
  rw [Option.some.injEq] at hq
  subst hq
  have hf : fields.all (t.names.contains ·) = true := by
    rw [List.all_eq_true]
    intro f hf
    rw [List.contains_iff_mem]
    exact h1 f hf
  have hn : (newNames p nOutputs.toNat).any (t.names.contains ·) = false := by
    rw [List.any_eq_false]
    intro c hc
    rw [List.contains_iff_mem]
    exact new_not_old h3 c hc
  simp only [predictVector]
  rw [if_neg (by rw [hf]; decide), if_neg (by omega), if_neg (by rw [hn]; decide)]
  cases predParts (predPart model t.numeric fields nOutputs.toNat p) t.parts <;> rfl

/-- **C78.** What is raised for other arguments: a KeyError for an unknown field, a ValueError without outputs, a TypeError for
a prefix that is no string, and a KeyError for a name that is taken, in this order. -/
theorem C78_rejected (model : Model) (fields : List String) (nOutputs : Int) (pre : Option String) (t : Table) :
    ((∃ f ∈ fields, f ∉ t.names) → predictVector model fields nOutputs pre t = .error .key) ∧
    ((∀ f ∈ fields, f ∈ t.names) → nOutputs < 1 → predictVector model fields nOutputs pre t = .error .value) ∧
    ((∀ f ∈ fields, f ∈ t.names) → 1 ≤ nOutputs → pre = none → predictVector model fields nOutputs pre t = .error .type) ∧
    (∀ (p : String) (i : Nat), (∀ f ∈ fields, f ∈ t.names) → pre = some p → 1 ≤ i → (i : Int) ≤ nOutputs → p ++ toString i ∈ t.names →
      predictVector model fields nOutputs pre t = .error .key) := by
  have hf : (∀ f ∈ fields, f ∈ t.names) → (!fields.all (t.names.contains ·)) = false := by
    intro h
    rw [Bool.not_eq_false', List.all_eq_true]
    intro f hf
    rw [List.contains_iff_mem]
    exact h f hf
  refine ⟨?_, ?_, ?_, ?_⟩
  · rintro ⟨f, hf, hn⟩
    simp only [predictVector]
    rw [if_pos]
    rw [Bool.not_eq_true', List.all_eq_false]
    refine ⟨f, hf, ?_⟩
    rw [List.contains_iff_mem]
    exact hn
  · intro h hn
    simp only [predictVector]
    rw [if_neg (by rw [hf h]; decide), if_pos hn]
  · rintro h hn rfl
    simp only [predictVector]
    rw [if_neg (by rw [hf h]; decide), if_neg (by omega)]
  · rintro p i h rfl h1 h2 hm
    simp only [predictVector]
    rw [if_neg (by rw [hf h]; decide), if_neg (by omega), if_pos]
    rw [List.any_eq_true]
    refine ⟨p ++ toString i, mem_newNames.mpr ⟨i - 1, by omega, ?_⟩, ?_⟩
    · rw [show i - 1 + 1 = i by omega]
    · rw [List.contains_iff_mem]
      exact hm

theorem predictVector_spec {model : Model} {g : List Num → List Num} {fields : List String} {nOutputs : Int} {p : String}
    {t : Table} (h : Accepted fields nOutputs (some p) t) (hnum : ∀ f ∈ fields, t.numeric f = true)
    (hg : ∀ rows ∈ t.parts, Gives model g nOutputs.toNat ((rows.map (predictors fields)).filter isValid)) :
    ∃ out, predictVector model fields nOutputs (some p) t = .ok out ∧
      out.names = t.names ++ (List.range nOutputs.toNat).map (fun i => p ++ toString (i + 1)) ∧
      List.Forall₂ (List.Forall₂ (Extends g fields nOutputs.toNat p t.names)) t.parts out.parts := by
  have hnew : ∀ c ∈ newNames p nOutputs.toNat, c ∉ t.names := by
    obtain ⟨-, -, q, hq, h3⟩ := h
    rw [Option.some.injEq] at hq
    subst hq
    exact new_not_old h3
  obtain ⟨out, ho, hR⟩ := predParts_spec (f := predPart model t.numeric fields nOutputs.toNat p)
    (R := Extends g fields nOutputs.toNat p t.names) t.parts fun rows hr => predPart_spec hnew hnum rows (hg rows hr)
  rw [predictVector_accepted model h, ho]
  exact ⟨_, rfl, rfl, hR⟩

theorem stretch_row {len k : Nat} (h : k < len) : stretch len k = k := by
  simp only [stretch]
  by_cases h1 : len = 1
  · rw [if_pos h1]
    omega
  · rw [if_neg h1]

theorem getD_map {A : Type} {xs : List A} {f : A → List Num} {k : Nat} (h : k < xs.length) : (xs.map f).getD k [] = f xs[k] := by
  rw [List.getD_eq_getElem?_getD, List.getElem?_map, List.getElem?_eq_getElem h]
  rfl

/-- **C78.** With a model that gives `n` outputs for each row, the result has the partitions, rows, index and columns of the
vector; the new columns hold the outputs, or NaN in rows with NaN in one of the fields.  This holds whatever the partitions
are, as a row is treated alike in all of them. -/
theorem C78_rows {model : Model} {g : List Num → List Num} {fields : List String} {nOutputs : Int} {p : String} {t : Table}
    (h : Accepted fields nOutputs (some p) t) (hnum : ∀ f ∈ fields, t.numeric f = true)
    (hm : ∀ xs, model xs = .ok (.two nOutputs.toNat (xs.map g))) :
    ∃ out, predictVector model fields nOutputs (some p) t = .ok out ∧
      out.names = t.names ++ (List.range nOutputs.toNat).map (fun i => p ++ toString (i + 1)) ∧
      List.Forall₂ (List.Forall₂ (Extends g fields nOutputs.toNat p t.names)) t.parts out.parts := by
  refine predictVector_spec h hnum fun rows _ => ⟨_, hm _, by simp [Y.expand, fits], ?_⟩
  intro k hk i hi
  simp only [Y.expand, List.length_map]
  rw [stretch_row hk, stretch_row hi, getD_map hk]

/-- **C78.** The same with a model that gives one number for each row. -/
theorem C78_one {model : Model} {g : List Num → Num} {fields : List String} {p : String} {t : Table}
    (h : Accepted fields 1 (some p) t) (hnum : ∀ f ∈ fields, t.numeric f = true)
    (hm : ∀ xs, model xs = .ok (.one (xs.map g))) :
    ∃ out, predictVector model fields 1 (some p) t = .ok out ∧ out.names = t.names ++ [p ++ toString 1] ∧
      List.Forall₂ (List.Forall₂ (Extends (fun x => [g x]) fields 1 p t.names)) t.parts out.parts := by
  refine predictVector_spec h hnum fun rows _ => ⟨_, hm _, by simp [Y.expand, fits], ?_⟩
  intro k hk i hi
  simp only [Y.expand, List.length_map]
  have hi0 : i = 0 := by simpa using hi
  rw [stretch_row hk, hi0, List.map_map, getD_map hk]
  rfl

/-- **C78 is false of the code** where it says that a model must give `n_outputs` values: a model that gives one is accepted
whatever `n_outputs` is, and all new columns have its value. -/
theorem C78_broadcast {model : Model} {g : List Num → Num} {fields : List String} {nOutputs : Int} {p : String} {t : Table}
    (h : Accepted fields nOutputs (some p) t) (hnum : ∀ f ∈ fields, t.numeric f = true)
    (hm : ∀ xs, model xs = .ok (.one (xs.map g))) :
    ∃ out, predictVector model fields nOutputs (some p) t = .ok out ∧
      List.Forall₂ (List.Forall₂ (Extends (fun x => List.replicate nOutputs.toNat (g x)) fields nOutputs.toNat p t.names))
        t.parts out.parts := by
  obtain ⟨out, h1, -, h2⟩ := predictVector_spec (g := fun x => List.replicate nOutputs.toNat (g x)) h hnum
    fun rows _ => ⟨_, hm _, by simp [Y.expand, fits], by
      intro k hk i hi
      simp only [Y.expand, List.length_map, List.length_map]
      rw [stretch_row hk, List.map_map, getD_map hk]
      simp [stretch, List.getD_eq_getElem?_getD, hi]⟩
  exact ⟨out, h1, h2⟩

theorem predParts_error {f : List Row → Except Err (List Row)} {e : Err} (parts : List (List Row))
    (h : ∀ q ∈ parts, (∃ r, f q = .ok r) ∨ f q = .error e) (hp : ∃ q ∈ parts, f q = .error e) :
    predParts f parts = .error e := by
  induction parts with
  | nil =>
    obtain ⟨q, hq, -⟩ := hp
    cases hq
  | cons a ps ih =>
    simp only [predParts]
    rcases h a (List.mem_cons_self ..) with ⟨r, hr⟩ | hr
    · rw [hr]
      simp only
      have hp' : ∃ q ∈ ps, f q = .error e := by
        obtain ⟨q, hq, hqe⟩ := hp
        rcases List.mem_cons.mp hq with rfl | hq
        · rw [hr] at hqe
          cases hqe
        · exact ⟨q, hq, hqe⟩
      rw [ih (fun q hq => h q (List.mem_cons_of_mem _ hq)) hp']
    · rw [hr]

/-- **C78.** A model that gives any other number of outputs than `n_outputs` or 1 raises a ValueError, if there are rows. -/
theorem C78_wrong_outputs {model : Model} {fields : List String} {nOutputs : Int} {p : String} {t : Table} {k : Nat}
    {g : List Num → List Num} (h : Accepted fields nOutputs (some p) t) (hnum : ∀ f ∈ fields, t.numeric f = true)
    (hm : ∀ xs, model xs = .ok (.two k (xs.map g))) (hk : (k : Int) ≠ nOutputs) (hk1 : k ≠ 1) (hp : t.parts ≠ []) :
    predictVector model fields nOutputs (some p) t = .error .value := by
  have hall : fields.all t.numeric = true := List.all_eq_true.mpr hnum
  have he : ∀ rows, predPart model t.numeric fields nOutputs.toNat p rows = .error .value := by
    intro rows
    have h1 := h.2.1
    have hf : fits nOutputs.toNat ((rows.map (predictors fields)).filter isValid).length k
        (((rows.map (predictors fields)).filter isValid).map g).length = false := by
      have h2 : (k == nOutputs.toNat) = false := by
        rw [beq_eq_false_iff_ne]
        omega
      have h3 : (k == 1) = false := by
        rw [beq_eq_false_iff_ne]
        exact hk1
      simp only [fits, h2, h3, Bool.or_self, Bool.false_and]
    simp only [predPart, hall, if_true, predictions, hm, Y.expand, hf]
    rfl
  rw [predictVector_accepted model h, predParts_error t.parts (fun q _ => Or.inr (he q))]
  cases hc : t.parts with
  | nil => exact absurd hc hp
  | cons a ps => exact ⟨a, List.mem_cons_self .., he a⟩

/-- **C78 is false of the code** for models that give a single row whatever they are asked (the class priors, say): it is taken
for every valid row, without an error. -/
theorem C78_single_row {model : Model} {row : List Num} {fields : List String} {nOutputs : Int} {p : String} {t : Table}
    (h : Accepted fields nOutputs (some p) t) (hnum : ∀ f ∈ fields, t.numeric f = true)
    (hm : ∀ xs, model xs = .ok (.two nOutputs.toNat [row])) :
    ∃ out, predictVector model fields nOutputs (some p) t = .ok out ∧
      List.Forall₂ (List.Forall₂ (Extends (fun _ => row) fields nOutputs.toNat p t.names)) t.parts out.parts := by
  obtain ⟨out, h1, -, h2⟩ := predictVector_spec (g := fun _ => row) h hnum
    fun rows _ => ⟨_, hm _, by simp [Y.expand, fits], by
      intro k hk i hi
      simp only [Y.expand, List.length_singleton]
      rw [stretch_row hi]
      rfl⟩
  exact ⟨out, h1, h2⟩

/-- **C78.** A model that gives fewer or more rows than it is asked for, but not a single one, raises a ValueError. -/
theorem C78_wrong_rows {model : Model} {fields : List String} {nOutputs : Int} {p : String} {t : Table}
    {y : List (List Num) → List (List Num)} (h : Accepted fields nOutputs (some p) t)
    (hnum : ∀ f ∈ fields, t.numeric f = true) (hm : ∀ xs, model xs = .ok (.two nOutputs.toNat (y xs)))
    (hy : ∀ xs, (y xs).length ≠ xs.length ∧ (y xs).length ≠ 1) (hp : t.parts ≠ []) :
    predictVector model fields nOutputs (some p) t = .error .value := by
  have hall : fields.all t.numeric = true := List.all_eq_true.mpr hnum
  have he : ∀ rows, predPart model t.numeric fields nOutputs.toNat p rows = .error .value := by
    intro rows
    obtain ⟨a1, a2⟩ := hy ((rows.map (predictors fields)).filter isValid)
    have hf : fits nOutputs.toNat ((rows.map (predictors fields)).filter isValid).length nOutputs.toNat
        (y ((rows.map (predictors fields)).filter isValid)).length = false := by
      have h2 := beq_eq_false_iff_ne.mpr a1
      have h3 := beq_eq_false_iff_ne.mpr a2
      simp only [fits, h2, h3, Bool.or_self, Bool.and_false]
    simp only [predPart, hall, if_true, predictions, hm, Y.expand, hf]
    rfl
  rw [predictVector_accepted model h, predParts_error t.parts (fun q _ => Or.inr (he q))]
  cases hc : t.parts with
  | nil => exact absurd hc hp
  | cons a ps => exact ⟨a, List.mem_cons_self .., he a⟩

/-- **C78 is false of the code** where a partition has no row without NaN: the model is called without rows, and most models
refuse that.  So the result depends on the partitions. -/
theorem C78_no_valid_rows {model : Model} {g : List Num → List Num} {e : Err} {fields : List String} {nOutputs : Int} {p : String}
    {t : Table} (h : Accepted fields nOutputs (some p) t) (hnum : ∀ f ∈ fields, t.numeric f = true)
    (hm : ∀ xs, model xs = if xs = [] then .error e else .ok (.two nOutputs.toNat (xs.map g))) :
    predictVector model fields nOutputs (some p) t = .error e ↔
      ∃ rows ∈ t.parts, ∀ r ∈ rows, ∃ f ∈ fields, (r.value f).toNum = .nan := by
  have hall : fields.all t.numeric = true := List.all_eq_true.mpr hnum
  have hempty : ∀ rows : List Row, (rows.map (predictors fields)).filter isValid = [] ↔
      ∀ r ∈ rows, ∃ f ∈ fields, (r.value f).toNum = .nan := by
    intro rows
    rw [List.filter_eq_nil_iff]
    constructor
    · intro h r hr
      by_contra hc
      exact h _ (List.mem_map.mpr ⟨r, hr, rfl⟩) ((isValid_iff fields r).mpr hc)
    · intro h x hx
      obtain ⟨r, hr, rfl⟩ := List.mem_map.mp hx
      rw [isValid_iff]
      exact fun hc => hc (h r hr)
  have hpart : ∀ rows, (predPart model t.numeric fields nOutputs.toNat p rows = .error e ∧
        ∀ r ∈ rows, ∃ f ∈ fields, (r.value f).toNum = .nan) ∨
      ((∃ q, predPart model t.numeric fields nOutputs.toNat p rows = .ok q) ∧
        ¬ ∀ r ∈ rows, ∃ f ∈ fields, (r.value f).toNum = .nan) := by
    intro rows
    by_cases hc : (rows.map (predictors fields)).filter isValid = []
    · left
      refine ⟨?_, (hempty rows).mp hc⟩
      simp only [predPart, hall, if_true, predictions, hm]
      rw [if_pos hc]
    · right
      refine ⟨?_, fun h => hc ((hempty rows).mpr h)⟩
      have hf : fits nOutputs.toNat ((rows.map (predictors fields)).filter isValid).length nOutputs.toNat
          (((rows.map (predictors fields)).filter isValid).map g).length = true := by
        simp [fits]
      simp only [predPart, hall, if_true, predictions, hm]
      rw [if_neg hc]
      simp only [Y.expand, hf, if_true]
      exact ⟨_, rfl⟩
  rw [predictVector_accepted model h]
  constructor
  · intro he
    by_contra hn
    have hok : ∀ rows ∈ t.parts, ∃ q, predPart model t.numeric fields nOutputs.toNat p rows = .ok q ∧
        List.Forall₂ (fun _ _ => True) ([] : List Row) ([] : List Row) := by
      intro rows hr
      rcases hpart rows with h1 | h1
      · exact absurd ⟨rows, hr, h1.2⟩ hn
      · obtain ⟨q, hq⟩ := h1.1
        exact ⟨q, hq, List.Forall₂.nil⟩
    have : ∃ out, predParts (predPart model t.numeric fields nOutputs.toNat p) t.parts = .ok out := by
      clear he hn
      generalize t.parts = parts at hok
      induction parts with
      | nil => exact ⟨[], rfl⟩
      | cons a ps ih =>
        obtain ⟨q, hq, -⟩ := hok a (List.mem_cons_self ..)
        obtain ⟨qs, hqs⟩ := ih fun r hr => hok r (List.mem_cons_of_mem _ hr)
        exact ⟨q :: qs, by simp only [predParts, hq, hqs]⟩
    obtain ⟨out, ho⟩ := this
    rw [ho] at he
    cases he
  · rintro ⟨rows, hr, hnan⟩
    rw [predParts_error t.parts]
    · intro q _
      rcases hpart q with h1 | h1
      · exact Or.inr h1.1
      · exact Or.inl h1.1
    · refine ⟨rows, hr, ?_⟩
      rcases hpart rows with h1 | h1
      · exact h1.1
      · exact absurd hnan h1.2

/-- **C78.** A field that is not numeric raises a TypeError. -/
theorem C78_not_numeric (model : Model) {fields : List String} {nOutputs : Int} {p : String} {t : Table}
    (h : Accepted fields nOutputs (some p) t) (hf : ∃ f ∈ fields, t.numeric f = false) (hp : t.parts ≠ []) :
    predictVector model fields nOutputs (some p) t = .error .type := by
  have he : ∀ rows, predPart model t.numeric fields nOutputs.toNat p rows = .error .type := by
    intro rows
    obtain ⟨f, hf1, hf2⟩ := hf
    have : fields.all t.numeric = false := by
      rw [List.all_eq_false]
      exact ⟨f, hf1, by rw [hf2]; decide⟩
    simp only [predPart, this]
    rfl
  rw [predictVector_accepted model h, predParts_error t.parts (fun q _ => Or.inr (he q))]
  cases hc : t.parts with
  | nil => exact absurd hc hp
  | cons a ps => exact ⟨a, List.mem_cons_self .., he a⟩

/-- **C78.** The names of the result are distinct if those of the vector are. -/
theorem C78_names {model : Model} {fields : List String} {nOutputs : Int} {p : String} {t out : Table}
    (h : Accepted fields nOutputs (some p) t) (hn : t.names.Nodup)
    (ho : predictVector model fields nOutputs (some p) t = .ok out) : out.names.Nodup := by
  rw [predictVector_accepted model h] at ho
  cases hp : predParts (predPart model t.numeric fields nOutputs.toNat p) t.parts with
  | error e =>
    rw [hp] at ho
    cases ho
  | ok parts =>
    rw [hp] at ho
    rw [← Except.ok.inj ho]
    simp only
    rw [List.nodup_append]
    refine ⟨hn, newNames_nodup _ _, ?_⟩
    intro a ha b hb hab
    obtain ⟨-, -, q, hq, h3⟩ := h
    rw [Option.some.injEq] at hq
    subst hq
    exact new_not_old h3 b hb (hab ▸ ha)

/-! ### Examples -/

/-- A vector with two fields in two partitions, with NaN in the second row. -/
def sample : Table where
  names := ["a", "b", "geometry"]
  numeric := fun c => c == "a" || c == "b"
  parts := [[⟨0, fun c => if c = "a" then .num (.fin 1) else if c = "b" then .num (.fin 10) else .other 0⟩,
      ⟨1, fun c => if c = "a" then .num .nan else if c = "b" then .num (.fin 20) else .other 1⟩],
    [⟨0, fun c => if c = "a" then .num (.fin 3) else if c = "b" then .num (.fin 30) else .other 2⟩]]

/-- A model with two outputs: the values in the other order. -/
def swapModel : Model := fun xs => .ok (.two 2 (xs.map List.reverse))

theorem sample_accepted : Accepted ["a", "b"] 2 (some "pred_") sample := by
  refine ⟨by decide, by decide, "pred_", rfl, ?_⟩
  intro i h1 h2
  have : i = 1 ∨ i = 2 := by omega
  rcases this with rfl | rfl <;> decide

example : ∃ out, predictVector swapModel ["a", "b"] 2 (some "pred_") sample = .ok out ∧
    out.names = ["a", "b", "geometry", "pred_1", "pred_2"] ∧
    out.parts.map (fun rows => rows.map fun r => (r.index, r.value "a", r.value "pred_1", r.value "pred_2")) =
      [[(0, .num (.fin 1), .num (.fin 10), .num (.fin 1)), (1, .num .nan, .num .nan, .num .nan)],
        [(0, .num (.fin 3), .num (.fin 30), .num (.fin 3))]] := by
  refine ⟨_, rfl, ?_, ?_⟩ <;> decide +kernel

example : Accepted ["a", "b"] 2 (some "pred_") sample ∧ (∀ f ∈ ["a", "b"], sample.numeric f = true) ∧
    ∀ xs, swapModel xs = .ok (.two (2 : Int).toNat (xs.map List.reverse)) := ⟨sample_accepted, by decide, fun _ => rfl⟩

/-- One output in two columns. -/
example : ∃ out, predictVector (fun xs => .ok (.one (xs.map fun x => x.getD 0 .nan))) ["a", "b"] 2 (some "pred_") sample = .ok out ∧
    out.parts.map (fun rows => rows.map fun r => (r.value "pred_1", r.value "pred_2")) =
      [[(.num (.fin 1), .num (.fin 1)), (.num .nan, .num .nan)], [(.num (.fin 3), .num (.fin 3))]] := by
  refine ⟨_, rfl, ?_⟩
  decide +kernel

/-- A single row for all, and a row too many. -/
example : ∃ out, predictVector (fun _ => .ok (.two 2 [[.fin 8, .fin 9]])) ["a", "b"] 2 (some "pred_") sample = .ok out ∧
    out.parts.map (fun rows => rows.map fun r => (r.value "pred_1", r.value "pred_2")) =
      [[(.num (.fin 8), .num (.fin 9)), (.num .nan, .num .nan)], [(.num (.fin 8), .num (.fin 9))]] := by
  refine ⟨_, rfl, ?_⟩
  decide +kernel
example (xs : List (List Num)) (a b : List Num) : (xs ++ [a, b]).length ≠ xs.length ∧ (xs ++ [a, b]).length ≠ 1 := by
  simp

/-- The same rows in other partitions: the second has NaN only. -/
def sample' : Table := { sample with parts := (sample.parts.flatten).map fun r => [r] }

/-- A model that refuses to predict nothing works for one and not for the other. -/
example : (∃ out, predictVector (fun xs => if xs = [] then .error .value else swapModel xs) ["a", "b"] 2 (some "pred_") sample =
      .ok out) ∧
    predictVector (fun xs => if xs = [] then .error .value else swapModel xs) ["a", "b"] 2 (some "pred_") sample' =
      .error .value := by
  refine ⟨⟨_, rfl⟩, ?_⟩
  rfl

/-- Three outputs where two are expected, and a field that is not numeric. -/
example : predictVector (fun xs => .ok (.two 3 (xs.map fun x => x ++ x.take 1))) ["a", "b"] 2 (some "pred_") sample =
      .error .value ∧
    predictVector swapModel ["a", "geometry"] 2 (some "pred_") sample = .error .type := by
  constructor <;> rfl

end Verif.PredictVector
