import Verif.Trips.Choices

/-!
# C117: the laws of `remap_range` (`general.py:1034-1124`)

`remap_range` (C25) with lists of ranges that are permuted, split and joined, one call after another, and next to `where` (C27), comparisons and `&` (C14)
and `set_null` (C15).  The definitions are those of `Verif.Remap.Model` and `Verif.Nulls.RasterModel`.
-/

set_option linter.unusedSectionVars false

namespace Verif.Trips.Ranges

open Verif Verif.Nulls Verif.Remap DType
open Verif.Remap.Spec (Inside First Legal written stored ClosedLeft ClosedRight IsNumber)
open Verif.Nulls.Spec (MaskNeedsNull)
open Verif.Trips.Choices (Fits C111_cells both_bool)
open Verif.Trips.Choices.Spec (cell given bit Boolean IsAnd)

namespace Spec

/-- What a cell becomes: null stays null, a number in some range gets what the first such range says, other numbers stay. -/
def Becomes (inclusivity : String) (ms : List Mapping) : Option Num → Option Num → Prop
  | none, w => w = none
  | some v, w => (∃ i m, First inclusivity ms v i m ∧ w = m.new.map (·.val)) ∨
      (∀ m ∈ ms, ¬ Inside inclusivity m.lo.val m.hi.val v) ∧ w = some v

/-- Two ranges without a common number. -/
def Apart (inclusivity : String) (m m' : Mapping) : Prop :=
  ∀ v, Inside inclusivity m.lo.val m.hi.val v → ¬ Inside inclusivity m'.lo.val m'.hi.val v

/-- The list of tuples that is passed to `remap_range`. -/
def tuples (ms : List Mapping) : MappingArg := .list (ms.map fun m => .seq (written m))

/-- NumPy's conversions of the numbers involved lose nothing, and the null value of the result is not among them. -/
structure Exact (np : NumPy) (r : Raster) (ms : List Mapping) (out : DType) : Prop where
  clean : MaskNeedsNull r
  dtype : remapDtype np r ms = some out
  args : ExactArgs np ms (remapNull r ms out)
  own : ∀ c, np.cast r.dtype (r.data c) = r.data c
  cells : ∀ c, r.mask c = false → np.cast (if out = f16 then f32 else out) (r.data c) = r.data c ∧ stored np out (r.data c) = r.data c
  new : ∀ m ∈ ms, ∀ w, m.new = some w → stored np out w.val = w.val
  null : ∀ s, remapNull r ms out = some s → stored np out s.val = s.val ∧ (∀ m ∈ ms, ∀ w, m.new = some w → w.val ≠ s.val) ∧
    ∀ c, r.mask c = false → r.data c ≠ s.val

/-- A comparison. -/
structure IsCompare (u : Ufunc) (rel : Num → Num → Bool) : Prop where
  one : u.nout = 1
  bitwise : u.bitwise = false
  shift : u.shift = false
  dtype : ∀ a b, u.outTy [a, b] 0 = .bool
  fn : ∀ a b, u.fn 0 [a, b] = bit (rel a b)

/-- `>=` or `>`. -/
def above (inclusivity : String) (v l : Num) : Bool := if inclusivity = "left" ∨ inclusivity = "both" then le l v else lt l v

/-- `<=` or `<`. -/
def below (inclusivity : String) (v h : Num) : Bool := if inclusivity = "right" ∨ inclusivity = "both" then le v h else lt v h

end Spec

open Spec

/-! ### What numbers become -/

theorem becomes_nil (s : String) (v : Num) (w : Option Num) : Becomes s [] (some v) w ↔ w = some v := by
  unfold Becomes First
  simp

theorem first_cons {s : String} {m : Mapping} {ms : List Mapping} {v : Num} {i : Nat} {m' : Mapping} :
    First s (m :: ms) v i m' ↔ (i = 0 ∧ m' = m ∧ Inside s m.lo.val m.hi.val v) ∨
      ∃ j, i = j + 1 ∧ ¬ Inside s m.lo.val m.hi.val v ∧ First s ms v j m' := by
  unfold First
  cases i with
  | zero =>
    simp only [List.getElem?_cons_zero, Option.some.injEq]
    constructor
    · rintro ⟨rfl, h, -⟩
      exact .inl ⟨trivial, rfl, h⟩
    · rintro (⟨-, rfl, h⟩ | ⟨j, h, -⟩)
      · exact ⟨rfl, h, fun j hj => absurd hj (Nat.not_lt_zero j)⟩
      · cases h
  | succ i =>
    simp only [List.getElem?_cons_succ]
    constructor
    · rintro ⟨h1, h2, h3⟩
      refine .inr ⟨i, rfl, h3 0 (Nat.succ_pos i) m rfl, h1, h2, fun j hj m'' hm => h3 (j + 1) (by omega) m'' (by simpa using hm)⟩
    · rintro (⟨h, -⟩ | ⟨j, h, h1, h2, h3, h4⟩)
      · cases h
      · cases h
        refine ⟨h2, h3, fun j hj m'' hm => ?_⟩
        cases j with
        | zero =>
          cases hm
          exact h1
        | succ j => exact h4 j (by omega) m'' (by simpa using hm)

theorem becomes_cons (s : String) (m : Mapping) (ms : List Mapping) (v : Num) (w : Option Num) :
    Becomes s (m :: ms) (some v) w ↔ (Inside s m.lo.val m.hi.val v ∧ w = m.new.map (·.val)) ∨
      (¬ Inside s m.lo.val m.hi.val v ∧ Becomes s ms (some v) w) := by
  unfold Becomes
  simp only [first_cons, List.mem_cons, forall_eq_or_imp]
  constructor
  · rintro (⟨i, m', (⟨-, rfl, h⟩ | ⟨j, -, h1, h2⟩), hw⟩ | ⟨⟨h1, h2⟩, hw⟩)
    · exact .inl ⟨h, hw⟩
    · exact .inr ⟨h1, .inl ⟨j, m', h2, hw⟩⟩
    · exact .inr ⟨h1, .inr ⟨h2, hw⟩⟩
  · rintro (⟨h, hw⟩ | ⟨h1, ⟨j, m', h2, hw⟩ | ⟨h2, hw⟩⟩)
    · exact .inl ⟨0, m, .inl ⟨rfl, rfl, h⟩, hw⟩
    · exact .inl ⟨j + 1, m', .inr ⟨j, rfl, h1, h2⟩, hw⟩
    · exact .inr ⟨⟨h1, h2⟩, hw⟩

theorem becomes_unique {s : String} {ms : List Mapping} {v w w' : Option Num} (h : Becomes s ms v w) (h' : Becomes s ms v w') : w = w' := by
  cases v with
  | none => exact Eq.trans h (Eq.symm h')
  | some v =>
    induction ms with
    | nil =>
      rw [becomes_nil] at h h'
      rw [h, h']
    | cons m ms ih =>
      rw [becomes_cons] at h h'
      rcases h with ⟨h1, h2⟩ | ⟨h1, h2⟩ <;> rcases h' with ⟨k1, k2⟩ | ⟨k1, k2⟩
      · rw [h2, k2]
      · exact absurd h1 k1
      · exact absurd k1 h1
      · exact ih h2 k2

/-! ### Cells -/

/-- **C117 (cells).**  The cells of the result of `remap_range`. -/
theorem C117_cells {np : NumPy} {r o : Raster} {ms : List Mapping} {s : String} {out : DType} (hl : ∀ m ∈ ms, Legal m) (hne : ms ≠ [])
    (hex : Exact np r ms out) (h : remapRange np r (tuples ms) s = .ok o) (c : Cell) : Becomes s ms (cell r c) (cell o c) := by
  have hms : normalizeMappings (tuples ms) = .ok ms := (C25_accepted _ _).mpr ⟨hne, hl, .inl rfl⟩
  obtain ⟨-, h2, -, h4, h5⟩ := C25_remap_range hex.clean hex.own hms hex.dtype hex.args (fun s hs => (hex.null s hs).1) h c
  cases hm : r.mask c with
  | true =>
    have e1 : cell r c = none := by unfold cell; rw [hm]; rfl
    have e2 : cell o c = none := by unfold cell; rw [h4 hm]; rfl
    rw [e1, e2]
    rfl
  | false =>
    obtain ⟨h6, h7⟩ := h5 hm
    have e1 : cell r c = some (r.data c) := by unfold cell; rw [hm]; rfl
    rw [(hex.cells c hm).1] at h6 h7
    rw [(hex.cells c hm).2] at h7
    rw [e1]
    by_cases hin : ∃ i m, First s ms (r.data c) i m
    · obtain ⟨i, m, hf⟩ := hin
      obtain ⟨g1, g2⟩ := h6 i m hf
      refine .inl ⟨i, m, hf, ?_⟩
      have hmem : m ∈ ms := List.mem_of_getElem? hf.1
      cases hn : m.new with
      | none =>
        unfold cell
        rw [g1 hn]
        rfl
      | some w =>
        obtain ⟨g3, g4⟩ := g2 w hn
        rw [hex.new m hmem w hn] at g3 g4
        have : o.mask c = false := by
          by_contra e
          rw [Bool.not_eq_false] at e
          obtain ⟨t, ht, hv⟩ := g4.1 e
          exact (hex.null t (h2 ▸ ht)).2.1 m hmem w hn hv.symm
        unfold cell
        rw [this, g3]
        rfl
    · have hno : ∀ m ∈ ms, ¬ Inside s m.lo.val m.hi.val (r.data c) := by
        intro m hm' hi
        -- the first of the ranges that contain the number
        clear h6 h7 h5 h4 h2 hms hex h hl hne
        induction ms with
        | nil => cases hm'
        | cons a ms ih =>
          by_cases ha : Inside s a.lo.val a.hi.val (r.data c)
          · exact hin ⟨0, a, first_cons.2 (.inl ⟨rfl, rfl, ha⟩)⟩
          · rcases List.mem_cons.1 hm' with rfl | hm'
            · exact ha hi
            · refine ih ?_ hm'
              rintro ⟨i, b, hb⟩
              exact hin ⟨i + 1, b, first_cons.2 (.inr ⟨i, rfl, ha, hb⟩)⟩
      obtain ⟨g3, g4⟩ := h7 hno
      refine .inr ⟨hno, ?_⟩
      have : o.mask c = false := by
        by_contra e
        rw [Bool.not_eq_false] at e
        obtain ⟨t, ht, hv⟩ := g4.1 e
        exact (hex.null t (h2 ▸ ht)).2.2 c hm hv.symm
      unfold cell
      rw [this, g3]
      rfl

section

variable {np : NumPy} {r o p : Raster} {ms ms' : List Mapping} {s : String} {out out' : DType}

/-- Lists of ranges that say the same about every number give the same cells. -/
theorem same_cells (hl : ∀ m ∈ ms, Legal m) (hne : ms ≠ []) (hl' : ∀ m ∈ ms', Legal m) (hne' : ms' ≠ []) (hex : Exact np r ms out)
    (hex' : Exact np r ms' out') (ho : remapRange np r (tuples ms) s = .ok o) (hp : remapRange np r (tuples ms') s = .ok p)
    (hsame : ∀ v w, Becomes s ms (some v) w → Becomes s ms' (some v) w) (c : Cell) : cell o c = cell p c := by
  have h1 := C117_cells hl hne hex ho c
  have h2 := C117_cells hl' hne' hex' hp c
  cases hc : cell r c with
  | none =>
    rw [hc] at h1 h2
    exact Eq.trans h1 (Eq.symm h2)
  | some v =>
    rw [hc] at h1 h2
    exact becomes_unique (hsame _ _ h1) h2

theorem becomes_apart (hap : ms.Pairwise (Apart s)) (v : Num) (w : Option Num) : Becomes s ms (some v) w ↔
    (∃ m ∈ ms, Inside s m.lo.val m.hi.val v ∧ w = m.new.map (·.val)) ∨ (∀ m ∈ ms, ¬ Inside s m.lo.val m.hi.val v) ∧ w = some v := by
  induction ms with
  | nil => rw [becomes_nil]; simp
  | cons m ms ih =>
    rw [List.pairwise_cons] at hap
    rw [becomes_cons, ih hap.2]
    simp only [List.mem_cons, exists_eq_or_imp, forall_eq_or_imp]
    constructor
    · rintro (⟨h1, h2⟩ | ⟨h1, h2 | ⟨h2, h3⟩⟩)
      · exact .inl (.inl ⟨h1, h2⟩)
      · exact .inl (.inr h2)
      · exact .inr ⟨⟨h1, h2⟩, h3⟩
    · rintro ((⟨h1, h2⟩ | ⟨m', hm', h1, h2⟩) | ⟨⟨h1, h2⟩, h3⟩)
      · exact .inl ⟨h1, h2⟩
      · exact .inr ⟨fun h => hap.1 m' hm' v h h1, .inl ⟨m', hm', h1, h2⟩⟩
      · exact .inr ⟨h1, .inr ⟨h2, h3⟩⟩

/-- **C117 (order).**  Ranges without common numbers may be given in any order. -/
theorem C117_order (hl : ∀ m ∈ ms, Legal m) (hne : ms ≠ []) (hperm : ms.Perm ms') (hap : ms.Pairwise (Apart s)) (hex : Exact np r ms out)
    (hex' : Exact np r ms' out') (ho : remapRange np r (tuples ms) s = .ok o) (hp : remapRange np r (tuples ms') s = .ok p) (c : Cell) :
    cell o c = cell p c := by
  have hap' : ms'.Pairwise (Apart s) := (hperm.pairwise_iff fun {a b} h v hb ha => h v ha hb).1 hap
  refine same_cells hl hne (fun m hm => hl m (hperm.mem_iff.2 hm)) ?_ hex hex' ho hp ?_ c
  · rintro rfl
    exact hne hperm.eq_nil
  · intro v w
    rw [becomes_apart hap, becomes_apart hap']
    simp only [hperm.mem_iff, imp_self]

theorem becomes_prefix (pre : List Mapping) (h : ∀ v w, Becomes s ms (some v) w → Becomes s ms' (some v) w) (v : Num) (w : Option Num) :
    Becomes s (pre ++ ms) (some v) w → Becomes s (pre ++ ms') (some v) w := by
  induction pre with
  | nil => exact h v w
  | cons m pre ih =>
    rw [List.cons_append, List.cons_append, becomes_cons, becomes_cons]
    exact Or.imp_right (And.imp_right ih)

theorem lt_trans' {a b c : Num} (h : lt a b = true) (h' : lt b c = true) : lt a c = true := by
  cases a <;> cases b <;> cases c <;> simp_all [lt]
  exact _root_.lt_trans h h'

theorem inside_split (hs : s = "left" ∨ s = "right" ∨ s = "both") {a b c : Num} (hab : lt a b = true) (hbc : lt b c = true) (v : Num) :
    Inside s a c v ↔ Inside s a b v ∨ Inside s b c v := by
  obtain ⟨hb1, -⟩ := lt_not_nan hbc
  have htot : ∀ x y : Num, x ≠ .nan → y ≠ .nan → lt x y = true ∨ x = y ∨ lt y x = true := by
    intro x y hx hy
    cases x <;> cases y <;> simp_all [lt]
    exact lt_trichotomy _ _
  have hl : ClosedLeft s ∨ ClosedRight s := by
    rcases hs with rfl | rfl | rfl
    · exact .inl (.inl rfl)
    · exact .inr (.inl rfl)
    · exact .inl (.inr rfl)
  unfold Inside
  constructor
  · rintro ⟨hn, h1, h2⟩
    rcases htot v b hn hb1 with h | rfl | h
    · exact .inl ⟨hn, h1, .inl h⟩
    · rcases hl with hl | hl
      · exact .inr ⟨hn, .inr ⟨hl, rfl⟩, h2⟩
      · exact .inl ⟨hn, h1, .inr ⟨hl, rfl⟩⟩
    · exact .inr ⟨hn, .inl h, h2⟩
  · rintro (⟨hn, h1, h2⟩ | ⟨hn, h1, h2⟩)
    · refine ⟨hn, h1, .inl ?_⟩
      rcases h2 with h2 | ⟨-, rfl⟩
      · exact lt_trans' h2 hbc
      · exact hbc
    · refine ⟨hn, .inl ?_, h2⟩
      rcases h1 with h1 | ⟨-, rfl⟩
      · exact lt_trans' hab h1
      · exact hab

/-- **C117 (splitting).**  A range may be split at a number inside of it, unless neither end belongs to ranges. -/
theorem C117_split (pre post : List Mapping) {lo mid hi : NullArg} {new : Option NullArg} (hs : s = "left" ∨ s = "right" ∨ s = "both")
    (hl : ∀ m ∈ pre ++ ⟨lo, mid, new⟩ :: ⟨mid, hi, new⟩ :: post, Legal m) (hex : Exact np r (pre ++ ⟨lo, hi, new⟩ :: post) out)
    (hex' : Exact np r (pre ++ ⟨lo, mid, new⟩ :: ⟨mid, hi, new⟩ :: post) out') (ho : remapRange np r (tuples (pre ++ ⟨lo, hi, new⟩ :: post)) s = .ok o)
    (hp : remapRange np r (tuples (pre ++ ⟨lo, mid, new⟩ :: ⟨mid, hi, new⟩ :: post)) s = .ok p) (c : Cell) : cell o c = cell p c := by
  have l1 := hl ⟨lo, mid, new⟩ (by simp)
  have l2 := hl ⟨mid, hi, new⟩ (by simp)
  refine same_cells ?_ (by simp) hl (by simp) hex hex' ho hp ?_ c
  · intro m hm
    rw [List.mem_append, List.mem_cons] at hm
    rcases hm with hm | rfl | hm
    · exact hl m (List.mem_append_left _ hm)
    · exact ⟨l1.1, l2.2.1, lt_trans' l1.2.2.1 l2.2.2.1, l1.2.2.2⟩
    · exact hl m (List.mem_append_right _ (List.mem_cons_of_mem _ (List.mem_cons_of_mem _ hm)))
  · refine becomes_prefix pre ?_
    intro v w
    rw [becomes_cons, becomes_cons, becomes_cons]
    dsimp only
    rw [inside_split hs l1.2.2.1 l2.2.2.1]
    rintro (⟨h1 | h1, h2⟩ | ⟨h1, h2⟩)
    · exact .inl ⟨h1, h2⟩
    · by_cases h : Inside s lo.val mid.val v
      · exact .inl ⟨h, h2⟩
      · exact .inr ⟨h, .inl ⟨h1, h2⟩⟩
    · exact .inr ⟨fun h => h1 (.inl h), .inr ⟨fun h => h1 (.inr h), h2⟩⟩

/-- **C117 (hidden).**  A range of which every number lies in earlier ranges may be left out. -/
theorem C117_hidden (pre post : List Mapping) {m : Mapping} (hne : pre ≠ []) (hl : ∀ q ∈ pre ++ m :: post, Legal q)
    (hhid : ∀ v, Inside s m.lo.val m.hi.val v → ∃ q ∈ pre, Inside s q.lo.val q.hi.val v) (hex : Exact np r (pre ++ m :: post) out)
    (hex' : Exact np r (pre ++ post) out') (ho : remapRange np r (tuples (pre ++ m :: post)) s = .ok o)
    (hp : remapRange np r (tuples (pre ++ post)) s = .ok p) (c : Cell) : cell o c = cell p c := by
  refine same_cells hl (by simp) ?_ (by simp [hne]) hex hex' ho hp ?_ c
  · intro q hq
    refine hl q ?_
    rw [List.mem_append] at hq ⊢
    exact hq.imp_right (List.mem_cons_of_mem _)
  · intro v w
    have key : ∀ pre : List Mapping, (Inside s m.lo.val m.hi.val v → ∃ q ∈ pre, Inside s q.lo.val q.hi.val v) →
        Becomes s (pre ++ m :: post) (some v) w → Becomes s (pre ++ post) (some v) w := by
      intro pre
      induction pre with
      | nil =>
        intro h hb
        rw [List.nil_append, becomes_cons] at hb
        rcases hb with ⟨h1, -⟩ | ⟨-, h2⟩
        · obtain ⟨q, hq, -⟩ := h h1
          cases hq
        · exact h2
      | cons a pre ih =>
        intro h hb
        rw [List.cons_append, becomes_cons] at hb ⊢
        rcases hb with h1 | ⟨h1, h2⟩
        · exact .inl h1
        · refine .inr ⟨h1, ih ?_ h2⟩
          intro hi
          obtain ⟨q, hq, hqi⟩ := h hi
          rcases List.mem_cons.1 hq with rfl | hq
          · exact absurd hqi h1
          · exact ⟨q, hq, hqi⟩
    exact key pre (hhid v)

/-- **C117 (one after another).**  Remapping the result of `remap_range` is one `remap_range`: the new values of the first list become what the second
makes of them, and the ranges of the second follow. -/
theorem C117_after {i : Raster} {ns : List Mapping} {out₁ out₂ : DType} (hl : ∀ m ∈ ms, Legal m) (hne : ms ≠ []) (hl' : ∀ m ∈ ms', Legal m)
    (hne' : ms' ≠ []) (hln : ∀ m ∈ ns, Legal m) (hns : List.Forall₂ (fun m n => n.lo = m.lo ∧ n.hi = m.hi ∧
      Becomes s ms' (m.new.map (·.val)) (n.new.map (·.val))) ms ns) (hex : Exact np r ms out) (hex' : Exact np i ms' out₁)
    (hex'' : Exact np r (ns ++ ms') out₂) (hi : remapRange np r (tuples ms) s = .ok i) (ho : remapRange np i (tuples ms') s = .ok o)
    (hp : remapRange np r (tuples (ns ++ ms')) s = .ok p) (c : Cell) : cell o c = cell p c := by
  have h1 := C117_cells hl hne hex hi c
  have h2 := C117_cells hl' hne' hex' ho c
  have h3 := C117_cells (by
    intro m hm
    exact (List.mem_append.1 hm).elim (hln m) (hl' m)) (by simp [hne']) hex'' hp c
  cases hc : cell r c with
  | none =>
    rw [hc] at h1 h3
    have h1 : cell i c = none := h1
    rw [h1] at h2
    exact Eq.trans h2 (Eq.symm h3)
  | some v =>
    rw [hc] at h1 h3
    refine becomes_unique ?_ h3
    clear hl hne hln hex hex'' hi hp h3 hex' ho hl' hne'
    induction hns with
    | nil =>
      rw [becomes_nil] at h1
      rw [h1] at h2
      exact h2
    | @cons m n ms ns hmn _ ih =>
      obtain ⟨e1, e2, e3⟩ := hmn
      rw [List.cons_append, becomes_cons, e1, e2]
      rw [becomes_cons] at h1
      rcases h1 with ⟨h, hw⟩ | ⟨h, hw⟩
      · rw [hw] at h2
        exact .inl ⟨h, becomes_unique h2 e3⟩
      · exact .inr ⟨h, ih hw⟩

/-- **C117 (again).**  If the new values lie outside all ranges, the same `remap_range` again changes nothing. -/
theorem C117_again {i : Raster} {out₁ : DType} (hl : ∀ m ∈ ms, Legal m) (hne : ms ≠ [])
    (hout : ∀ m ∈ ms, ∀ w, m.new = some w → ∀ q ∈ ms, ¬ Inside s q.lo.val q.hi.val w.val) (hex : Exact np r ms out) (hex' : Exact np i ms out₁)
    (hi : remapRange np r (tuples ms) s = .ok i) (ho : remapRange np i (tuples ms) s = .ok o) (c : Cell) : cell o c = cell i c := by
  have h1 := C117_cells hl hne hex hi c
  have h2 := C117_cells hl hne hex' ho c
  refine becomes_unique h2 ?_
  cases hc : cell r c with
  | none =>
    rw [hc] at h1
    have h1 : cell i c = none := h1
    rw [h1]
    rfl
  | some v =>
    rw [hc] at h1
    rcases h1 with ⟨k, m, hf, hw⟩ | ⟨hno, hw⟩
    · rw [hw]
      cases hn : m.new with
      | none => rfl
      | some w => exact .inr ⟨hout m (List.mem_of_getElem? hf.1) w hn, rfl⟩
    · rw [hw]
      exact .inr ⟨hno, rfl⟩

/-! ### `where` and `set_null` -/

theorem above_iff (s : String) {v l : Num} : above s v l = true ↔ v ≠ .nan ∧ l ≠ .nan ∧ (lt l v = true ∨ (ClosedLeft s ∧ v = l)) := by
  unfold above ClosedLeft
  by_cases h : s = "left" ∨ s = "both"
  · rw [if_pos h, le_iff]
    constructor
    · rintro (g | ⟨rfl, g⟩)
      · exact ⟨(lt_not_nan g).2, (lt_not_nan g).1, .inl g⟩
      · exact ⟨g, g, .inr ⟨h, rfl⟩⟩
    · rintro ⟨g1, g2, g | ⟨-, rfl⟩⟩
      · exact .inl g
      · exact .inr ⟨rfl, g1⟩
  · rw [if_neg h]
    exact ⟨fun g => ⟨(lt_not_nan g).2, (lt_not_nan g).1, .inl g⟩, fun g => g.2.2.elim id fun k => absurd k.1 h⟩

theorem below_iff (s : String) {v u : Num} : below s v u = true ↔ v ≠ .nan ∧ u ≠ .nan ∧ (lt v u = true ∨ (ClosedRight s ∧ v = u)) := by
  unfold below ClosedRight
  by_cases h : s = "right" ∨ s = "both"
  · rw [if_pos h, le_iff]
    constructor
    · rintro (g | ⟨rfl, g⟩)
      · exact ⟨(lt_not_nan g).1, (lt_not_nan g).2, .inl g⟩
      · exact ⟨g, g, .inr ⟨h, rfl⟩⟩
    · rintro ⟨g1, g2, g | ⟨-, rfl⟩⟩
      · exact .inl g
      · exact .inr ⟨rfl, g1⟩
  · rw [if_neg h]
    exact ⟨fun g => ⟨(lt_not_nan g).1, (lt_not_nan g).2, .inl g⟩, fun g => g.2.2.elim id fun k => absurd k.1 h⟩

theorem compare_bool {u : Ufunc} {rel : Num → Num → Bool} (hu : IsCompare u rel) (hr : MaskNeedsNull r) (dt : DType) (l : Num) :
    ∃ q, applyUfunc u r [.raster r, .numbers dt fun _ => l] = .ok [q] ∧ Boolean q ∧ (q.nb, q.ny, q.nx) = (r.nb, r.ny, r.nx) ∧
      ∀ c, q.mask c = r.mask c ∧ (r.mask c = false → q.data c = bit (rel (r.data c) l)) := by
  have hmem : ∀ a, Operand.raster a ∈ [Operand.raster r, .numbers dt fun _ => l] ↔ a = r := by
    intro a
    simp
  cases h : applyUfunc u r [.raster r, .numbers dt fun _ => l] with
  | error e =>
    exfalso
    rcases (C14_rejected u r _).1 ⟨e, h⟩ with ⟨h1 | h1, -⟩ | ⟨h1, -⟩
    · rw [hu.bitwise] at h1; cases h1
    · rw [hu.shift] at h1; cases h1
    · rw [hu.one] at h1; omega
  | ok outs =>
    obtain ⟨h1, h2⟩ := C14_elementwise (by rw [hu.one]; exact Nat.one_pos) h fun a ha => by rw [(hmem a).1 ha]; exact hr
    rw [hu.one] at h1
    obtain ⟨q, rfl⟩ := List.length_eq_one_iff.1 h1
    obtain ⟨h3, h4, h5, h6⟩ := h2 0 q rfl
    simp only [hmem, exists_eq_left] at h5 h6
    have hm : ∀ c, q.mask c = r.mask c := fun c => Bool.eq_iff_iff.2 (h6 c).1
    have hd : ∀ c, r.mask c = false → q.data c = bit (rel (r.data c) l) := by
      intro c hc
      rw [(h6 c).2.1 (by rw [hm, hc])]
      exact hu.fn _ _
    refine ⟨q, rfl, ⟨h3.trans (hu.dtype _ _), ?_, ?_⟩, h4, fun c => ⟨hm c, hd c⟩⟩
    · intro c hc
      obtain ⟨t, ht, -⟩ := (h6 c).2.2 hc
      rw [ht]
      simp
    · intro c hc
      exact ⟨_, hd c (by rw [← hm, hc])⟩

/-- `(r >= lo) & (r < hi)`, with the comparisons that fit `inclusivity`: true in the range, false elsewhere, null where the raster is null. -/
theorem condition {ge lt' and : Ufunc} (hge : IsCompare ge (above s)) (hlt : IsCompare lt' (below s)) (hand : IsAnd and) (hr : MaskNeedsNull r)
    {m : Mapping} (hm : Legal m) (dt dt' : DType) :
    ∃ a b q, applyUfunc ge r [.raster r, .numbers dt fun _ => m.lo.val] = .ok [a] ∧ applyUfunc lt' r [.raster r, .numbers dt' fun _ => m.hi.val] = .ok [b] ∧
      applyUfunc and a [.raster a, .raster b] = .ok [q] ∧ Boolean q ∧ (q.nb, q.ny, q.nx) = (r.nb, r.ny, r.nx) ∧
      ∀ c, q.mask c = r.mask c ∧ (r.mask c = false → ∃ t, q.data c = bit t ∧ (t = true ↔ Inside s m.lo.val m.hi.val (r.data c))) := by
  obtain ⟨a, a1, a2, a3, a4⟩ := compare_bool hge hr dt m.lo.val
  obtain ⟨b, b1, b2, b3, b4⟩ := compare_bool hlt hr dt' m.hi.val
  obtain ⟨q, q1, q2, q3, q4, q5⟩ := both_bool (f := (· && ·)) hand.1 hand.2 a2 b2
  obtain ⟨n1, n2⟩ := lt_not_nan hm.2.2.1
  refine ⟨a, b, q, a1, b1, q1, q2, q4.trans a3, fun c => ⟨?_, fun hc => ?_⟩⟩
  · rw [q3, (a4 c).1, (b4 c).1, Bool.or_self]
  · refine ⟨_, q5 c _ _ ((a4 c).1.trans hc) ((b4 c).1.trans hc) ((a4 c).2 hc) ((b4 c).2 hc), ?_⟩
    rw [Bool.and_eq_true, above_iff, below_iff]
    unfold Inside
    constructor
    · rintro ⟨⟨h1, -, h2⟩, -, -, h3⟩
      exact ⟨h1, h2, h3⟩
    · rintro ⟨h1, h2, h3⟩
      exact ⟨⟨h1, n1, h2⟩, h1, n2, h3⟩

/-- A new value as an operand of `where`. -/
def newArg : Option NullArg → Arg
  | some v => .num v
  | none => .null

theorem given_new (n : Option NullArg) (c : Cell) : given (newArg n) c = n.map (·.val) := by cases n <;> rfl

/-- **C117 (choosing).**  `remap_range(r, [(lo, hi, new), ...])` is `where((r >= lo) & (r < hi), new, remap_range(r, [...]))`, and
`remap_range(r, (lo, hi, new))` is `where((r >= lo) & (r < hi), new, r)`, with the comparisons that fit `inclusivity`. -/
theorem C117_where {ge lt' and : Ufunc} (hge : IsCompare ge (above s)) (hlt : IsCompare lt' (below s)) (hand : IsAnd and) {m : Mapping}
    (hl : ∀ q ∈ m :: ms, Legal q) (hex : Exact np r (m :: ms) out) (ho : remapRange np r (tuples (m :: ms)) s = .ok o) (dt dt' : DType) :
    ∃ a b q, applyUfunc ge r [.raster r, .numbers dt fun _ => m.lo.val] = .ok [a] ∧ applyUfunc lt' r [.raster r, .numbers dt' fun _ => m.hi.val] = .ok [b] ∧
      applyUfunc and a [.raster a, .raster b] = .ok [q] ∧
      (ms = [] → Fits np (newArg m.new) (.raster r) out' → whereRaster np q (newArg m.new) (.raster r) out' = .ok p → ∀ c, cell o c = cell p c) ∧
      (ms ≠ [] → ∀ i out₁, Exact np r ms out₁ → remapRange np r (tuples ms) s = .ok i → Fits np (newArg m.new) (.raster i) out' →
        whereRaster np q (newArg m.new) (.raster i) out' = .ok p → ∀ c, cell o c = cell p c) := by
  obtain ⟨a, b, q, q1, q2, q3, q4, -, q6⟩ := condition hge hlt hand hex.clean (hl m (by simp)) dt dt'
  have key : ∀ i : Raster, (∀ c, Becomes s ms (cell r c) (cell i c)) → Fits np (newArg m.new) (.raster i) out' →
      whereRaster np q (newArg m.new) (.raster i) out' = .ok p → ∀ c, cell o c = cell p c := by
    intro i hi hf hp c
    have h1 := C117_cells hl (by simp) hex ho c
    have h2 := hi c
    rw [C111_cells q4 hf hp c]
    unfold Choices.Spec.chosen
    rw [(q6 c).1]
    cases hc : r.mask c with
    | true =>
      have e1 : cell r c = none := by unfold cell; rw [hc]; rfl
      rw [e1] at h1
      exact h1
    | false =>
      have e1 : cell r c = some (r.data c) := by unfold cell; rw [hc]; rfl
      rw [e1] at h1 h2
      obtain ⟨t, ht, hti⟩ := (q6 c).2 hc
      rw [if_neg (by simp), ht, given_new]
      rw [becomes_cons] at h1
      rcases h1 with ⟨g, hw⟩ | ⟨g, hw⟩
      · rw [hti.2 g, if_neg (by decide +kernel), hw]
      · rw [Bool.eq_false_iff.2 fun k => g (hti.1 k), if_pos (by rfl)]
        exact becomes_unique hw h2
  refine ⟨a, b, q, q1, q2, q3, ?_, ?_⟩
  · rintro rfl hf hp c
    refine key r ?_ hf hp c
    intro c
    cases cell r c with
    | none => exact rfl
    | some v => exact (becomes_nil s v _).2 rfl
  · intro hne i out₁ hei hi hf hp c
    exact key i (C117_cells (fun q hq => hl q (List.mem_cons_of_mem _ hq)) hne hei hi) hf hp c

/-- **C117 (removing).**  `remap_range(r, (lo, hi, None))` is `r.set_null((r >= lo) & (r < hi))`: same dtype, null value and cells. -/
theorem C117_set_null (hnp : Nulls.Spec.BoolCast np) {ge lt' and : Ufunc} (hge : IsCompare ge (above s)) (hlt : IsCompare lt' (below s)) (hand : IsAnd and) {lo hi : NullArg}
    (hl : Legal ⟨lo, hi, none⟩) (hex : Exact np r [⟨lo, hi, none⟩] out) (ho : remapRange np r (tuples [⟨lo, hi, none⟩]) s = .ok o) (hb : 0 < r.nb)
    (dt dt' : DType) :
    ∃ a b q n, applyUfunc ge r [.raster r, .numbers dt fun _ => lo.val] = .ok [a] ∧ applyUfunc lt' r [.raster r, .numbers dt' fun _ => hi.val] = .ok [b] ∧
      applyUfunc and a [.raster a, .raster b] = .ok [q] ∧ r.setNull np q = .ok n ∧ o.dtype = n.dtype ∧ o.nv = n.nv ∧
      (o.nb, o.ny, o.nx) = (n.nb, n.ny, n.nx) ∧ ∀ c, c.1 < r.nb → cell o c = cell n c := by
  obtain ⟨a, b, q, q1, q2, q3, q4, q5, q6⟩ := condition hge hlt hand hex.clean hl dt dt'
  have q5' := q5
  simp only [Prod.mk.injEq] at q5'
  obtain ⟨g1, g2, g3⟩ := q5'
  obtain ⟨n, n1, n2, n3, ⟨t, n4, n5, n6, -⟩, n7⟩ := (C15_set_null hnp r q4.clean (by omega)).2 ⟨.inr g1, g2, g3, by rw [q4.dtype]; decide⟩
  have hms : normalizeMappings (tuples [⟨lo, hi, none⟩]) = .ok [⟨lo, hi, none⟩] :=
    (C25_accepted _ _).mpr ⟨by simp, by simpa using hl, .inl rfl⟩
  have hshape := fun c => C25_remap_range hex.clean hex.own hms hex.dtype hex.args (fun s hs => (hex.null s hs).1) ho c
  obtain ⟨s1, s2, s3, -, -⟩ := hshape (0, 0, 0)
  have hout : out = r.dtype := by
    have := hex.dtype
    unfold remapDtype at this
    simp only [List.filterMap_cons, List.filterMap_nil] at this
    have e : r.dtype.promote r.dtype = some r.dtype := by cases r.dtype <;> rfl
    rw [e] at this
    exact (Option.some.inj this).symm
  refine ⟨a, b, q, n, q1, q2, q3, n1, s1.trans (hout.trans n2.symm), ?_, s3.trans n3.symm, ?_⟩
  · rw [s2, n4]
    unfold remapNull
    cases hr : r.nv with
    | none =>
      rw [n5 hr, hout]
      rfl
    | some t' =>
      rw [n6 t' hr]
  · intro c hcb
    have h1 := C117_cells (by simpa using hl) (by simp) hex ho c
    obtain ⟨k1, k2⟩ := n7 c
    have hbc : q.bcast c = c := by
      unfold Raster.bcast
      split
      · next h =>
        obtain ⟨cb, cy, cx⟩ := c
        have : cb = 0 := by
          have : cb < r.nb := hcb
          omega
        rw [this]
      · rfl
    cases hc : r.mask c with
    | true =>
      have e1 : cell r c = none := by unfold cell; rw [hc]; rfl
      rw [e1] at h1
      have e2 : cell n c = none := by unfold cell; rw [k1.2 (.inl hc)]; rfl
      rw [e2]
      exact h1
    | false =>
      have e1 : cell r c = some (r.data c) := by unfold cell; rw [hc]; rfl
      rw [e1, becomes_cons, becomes_nil] at h1
      have hmarks : Nulls.Spec.Marks q c ↔ Inside s lo.val hi.val (r.data c) := by
        have e : Nulls.Spec.Marks q c ↔ q.data (q.bcast c) ≠ .fin 0 ∧ q.mask (q.bcast c) = false := Iff.rfl
        obtain ⟨t, ht, hti⟩ := (q6 c).2 hc
        rw [e, hbc, ht, (q6 c).1, hc, ← hti, ne_eq, Choices.bit_zero]
        simp
      rw [hmarks, hc] at k1
      rcases h1 with ⟨g, hw⟩ | ⟨g, hw⟩
      · rw [hw]
        unfold cell
        rw [k1.2 (.inr g)]
        rfl
      · have : n.mask c = false := by
          by_contra e
          rw [Bool.not_eq_false] at e
          rcases k1.1 e with e | e
          · cases e
          · exact g e
        rw [hw]
        unfold cell
        rw [this, k2 this]
        rfl

end

/-! ### Concrete cases -/

open Verif.Trips.Choices (exR exAnd exCells given_exR)

def exAbove : Ufunc := ⟨false, false, 1, fun _ _ => .bool, fun _ vs => bit (le (vs.getD 1 .nan) (vs.getD 0 .nan))⟩
def exBelow : Ufunc := ⟨false, false, 1, fun _ _ => .bool, fun _ vs => bit (lt (vs.getD 0 .nan) (vs.getD 1 .nan))⟩

/-- The comparisons for ranges that contain their left end. -/
example : IsCompare exAbove (above "left") ∧ IsCompare exBelow (below "left") :=
  ⟨⟨rfl, rfl, rfl, fun _ _ => rfl, fun _ _ => rfl⟩, ⟨rfl, rfl, rfl, fun _ _ => rfl, fun _ _ => rfl⟩⟩

/-- The raster 7, null, 9, 4 with the null value -1 and ranges whose new values are not -1. -/
theorem exact_exR {ms : List Mapping} {out : DType} (hd : remapDtype (idNumPy false) exR ms = some out)
    (hn : ∀ m ∈ ms, ∀ w, m.new = some w → w.val ≠ .fin (-1)) : Exact (idNumPy false) exR ms out := by
  have hstored : ∀ v, stored (idNumPy false) out v = v := by
    intro v
    unfold stored
    split <;> rfl
  refine ⟨fun _ _ => by simp [exR, Choices.exRow], hd, ⟨fun _ _ => ⟨rfl, rfl⟩, fun _ _ => rfl⟩, fun _ => rfl, fun c _ => ⟨rfl, hstored _⟩, fun _ _ _ _ => hstored _, ?_⟩
  intro s hs
  have : s = ⟨i32, .fin (-1)⟩ := (Option.some.inj hs).symm
  subst this
  refine ⟨hstored _, hn, ?_⟩
  intro c hc e
  have := given_exR c (exR.data c) (by show (if exR.mask c then none else some (exR.data c)) = _; rw [hc]; rfl)
  rw [e] at this
  revert this
  decide +kernel

def exMs : List Mapping := [⟨.int 0, .int 5, none⟩, ⟨.int 5, .int 8, some (.int 20)⟩]

/-- The hypotheses of the theorems are met by two ranges without common numbers, in both orders, and the results are as expected. -/
example : (∀ m ∈ exMs, Legal m) ∧ Exact (idNumPy false) exR exMs i32 ∧ Exact (idNumPy false) exR exMs.reverse i32 ∧ exMs.Pairwise (Apart "left") ∧
    exCells (remapRange (idNumPy false) exR (tuples exMs) "left") = some [some (.fin 20), none, some (.fin 9), none] ∧
    exCells (remapRange (idNumPy false) exR (tuples exMs.reverse) "left") = some [some (.fin 20), none, some (.fin 9), none] := by
  refine ⟨?_, exact_exR (by decide +kernel) ?_, exact_exR (by decide +kernel) ?_, ?_, by decide +kernel, by decide +kernel⟩
  · intro m hm
    simp only [exMs, List.mem_cons, List.not_mem_nil, or_false] at hm
    rcases hm with rfl | rfl
    · exact ⟨trivial, trivial, by decide +kernel, fun v h => nomatch h⟩
    · refine ⟨trivial, trivial, by decide +kernel, fun v h => ?_⟩
      cases h
      trivial
  · decide +kernel
  · decide +kernel
  · simp only [exMs, List.pairwise_cons, List.mem_singleton, forall_eq, List.not_mem_nil, false_imp_iff, implies_true, List.Pairwise.nil, and_true]
    have irrefl : ∀ q : Num, lt q q = true → False := by
      intro q
      cases q <;> simp [lt]
    rintro v ⟨-, -, h | ⟨h, -⟩⟩ ⟨-, h', -⟩
    · rcases h' with h' | ⟨-, rfl⟩
      · exact irrefl _ (lt_trans' h h')
      · exact irrefl _ h
    · rcases h with h | h <;> revert h <;> decide

/-- Split at 7, and followed by another list: the lists of `C117_split` and `C117_after`. -/
example :
    exCells (remapRange (idNumPy false) exR (tuples [⟨.int 0, .int 8, some (.int 20)⟩]) "right") = some [some (.fin 20), none, some (.fin 9), some (.fin 20)] ∧
    exCells (remapRange (idNumPy false) exR (tuples [⟨.int 0, .int 7, some (.int 20)⟩, ⟨.int 7, .int 8, some (.int 20)⟩]) "right") =
      some [some (.fin 20), none, some (.fin 9), some (.fin 20)] ∧
    exCells (match remapRange (idNumPy false) exR (tuples exMs) "left" with
      | .ok i => remapRange (idNumPy false) i (tuples [⟨.int 9, .int 21, some (.int 4)⟩]) "left"
      | .error e => .error e) = some [some (.fin 4), none, some (.fin 4), none] ∧
    exCells (remapRange (idNumPy false) exR (tuples ([⟨.int 0, .int 5, none⟩, ⟨.int 5, .int 8, some (.int 4)⟩] ++ [⟨.int 9, .int 21, some (.int 4)⟩])) "left") =
      some [some (.fin 4), none, some (.fin 4), none] := by
  refine ⟨by decide +kernel, by decide +kernel, by decide +kernel, by decide +kernel⟩

/-- Without ends, splitting a range loses the number at which it is split. -/
theorem C117_split_open :
    exCells (remapRange (idNumPy false) exR (tuples [⟨.int 0, .int 8, some (.int 20)⟩]) "none") = some [some (.fin 20), none, some (.fin 9), some (.fin 20)] ∧
    exCells (remapRange (idNumPy false) exR (tuples [⟨.int 0, .int 7, some (.int 20)⟩, ⟨.int 7, .int 8, some (.int 20)⟩]) "none") =
      some [some (.fin 7), none, some (.fin 9), some (.fin 20)] := by
  refine ⟨by decide +kernel, by decide +kernel⟩

/-- The condition `(r >= 5) & (r < 8)` and the choice. -/
example : (match applyUfunc exAbove exR [.raster exR, .numbers i64 fun _ => .fin 5], applyUfunc exBelow exR [.raster exR, .numbers i64 fun _ => .fin 8] with
      | .ok [a], .ok [b] =>
        match applyUfunc exAnd a [.raster a, .raster b] with
        | .ok [q] => (exCells (.ok q), exCells (whereRaster (idNumPy false) q (.num (.int 20)) (.raster exR) i32))
        | _ => (none, none)
      | _, _ => (none, none)) =
    (some [some (.fin 1), none, some (.fin 0), some (.fin 0)], some [some (.fin 20), none, some (.fin 9), some (.fin 4)]) := by
  decide +kernel

end Verif.Trips.Ranges
