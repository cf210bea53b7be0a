import Verif.Nulls.RasterProps
import Verif.Pair.Model

/-! # C73 and C74: which cells an element-wise operation combines -/

set_option linter.unusedSectionVars false

namespace Verif.Pair

open Verif Verif.Nulls Verif.Nulls.Spec DType

namespace Spec

/-- The cell `c` has this band number and these coordinates. -/
def At (p : Placed) (c : Cell) (b y x : Rat) : Prop := p.bands[c.1]? = some b ∧ p.ys[c.2.1]? = some y ∧ p.xs[c.2.2]? = some x

/-- The coordinates belong to the cells and do not repeat. -/
def Proper (p : Placed) : Prop :=
  p.bands.length = p.raster.nb ∧ p.ys.length = p.raster.ny ∧ p.xs.length = p.raster.nx ∧ p.bands.Nodup ∧ p.ys.Nodup ∧ p.xs.Nodup ∧
  MaskNeedsNull p.raster

/-- The common labels in the order of the first list. -/
def Common (l r out : List Rat) : Prop := out.Sublist l ∧ ∀ v, v ∈ out ↔ v ∈ l ∧ v ∈ r

/-- The rasters have the same bands and coordinates. -/
def SameGrid (l r : Placed) : Prop := l.bands = r.bands ∧ l.ys = r.ys ∧ l.xs = r.xs

/-- The operation is one on integers, and an operand has a float dtype. -/
def FloatBits (u : Ufunc) (types : List DType) : Prop := (u.bitwise = true ∨ u.shift = true) ∧ ∃ t ∈ types, t.isFloat = true

/-- Output `k` of the operation combines the cells of `l` and `r` with the same band and coordinates. -/
def Combines (u : Ufunc) (k : Nat) (l r out : Placed) : Prop :=
  Proper out ∧ Common l.bands r.bands out.bands ∧ Common l.ys r.ys out.ys ∧ Common l.xs r.xs out.xs ∧
  out.raster.dtype = u.outTy [l.raster.dtype, r.raster.dtype] k ∧
  (out.raster.nv ≠ none ↔ l.raster.nv ≠ none ∨ r.raster.nv ≠ none) ∧
  ∀ c b y x, At out c b y x → ∃ cl cr, At l cl b y x ∧ At r cr b y x ∧
    (out.raster.mask c = true ↔ l.raster.mask cl = true ∨ r.raster.mask cr = true) ∧
    (out.raster.mask c = false → out.raster.data c = u.fn k [l.raster.data cl, r.raster.data cr]) ∧
    (out.raster.mask c = true → ∃ s, out.raster.nv = some s ∧ out.raster.data c = s.val)

/-- The array can be stretched to the shape of the raster: from the last dimension on, each of its at most three sizes is 1 or that of
the raster. -/
def Stretches (r : Raster) : List Nat → Prop
  | [n] => n = 1 ∨ n = r.nx
  | [m, n] => (m = 1 ∨ m = r.ny) ∧ (n = 1 ∨ n = r.nx)
  | [l, m, n] => (l = 1 ∨ l = r.nb) ∧ (m = 1 ∨ m = r.ny) ∧ (n = 1 ∨ n = r.nx)
  | _ => False

/-- The index along a dimension of the given size. -/
def along (n i : Nat) : Nat := if n = 1 then 0 else i

/-- The element of the array for a cell. -/
def element (a : Array) (c : Cell) : Num :=
  match a.shape with
  | [n] => a.at' [along n c.2.2]
  | [m, n] => a.at' [along m c.2.1, along n c.2.2]
  | [l, m, n] => a.at' [along l c.1, along m c.2.1, along n c.2.2]
  | _ => .nan

/-- Output `k` combines each cell of the raster with the number `f` gives for it. -/
def CombinesNumbers (u : Ufunc) (k : Nat) (r : Raster) (dt : DType) (f : Cell → Num) (arrayFirst : Bool) (out : Raster) : Prop :=
  out.dtype = u.outTy (if arrayFirst then [dt, r.dtype] else [r.dtype, dt]) k ∧ (out.nb, out.ny, out.nx) = (r.nb, r.ny, r.nx) ∧
  (out.nv ≠ none ↔ r.nv ≠ none) ∧
  ∀ c, out.mask c = r.mask c ∧
    (out.mask c = false → out.data c = u.fn k (if arrayFirst then [f c, r.data c] else [r.data c, f c])) ∧
    (out.mask c = true → ∃ s, out.nv = some s ∧ out.data c = s.val)

end Spec

open Spec

theorem badTypes_iff (u : Ufunc) (types : List DType) : badTypes u types = true ↔ FloatBits u types := by
  simp [badTypes, FloatBits]

theorem inner_common {l r : List Rat} (_hl : l.Nodup) : Common l r (inner l r) := by
  unfold inner
  split
  · next h =>
    subst h
    exact ⟨List.Sublist.refl _, fun v => by simp⟩
  · exact ⟨List.filter_sublist, fun v => by simp⟩

theorem inner_same (l : List Rat) : inner l l = l := by simp [inner]

theorem idxOf_at {l : List Rat} {v : Rat} (h : v ∈ l) : l[l.idxOf v]? = some v := by
  have := List.idxOf_lt_length_iff.mpr h
  rw [List.getElem?_eq_getElem this, List.getElem_idxOf]

theorem reindex_at (p : Placed) (bands ys xs : List Rat) (hb : ∀ v ∈ bands, v ∈ p.bands) (hy : ∀ v ∈ ys, v ∈ p.ys) (hx : ∀ v ∈ xs, v ∈ p.xs)
    (c : Cell) (b y x : Rat) (h : bands[c.1]? = some b ∧ ys[c.2.1]? = some y ∧ xs[c.2.2]? = some x) :
    ∃ c', At p c' b y x ∧ (p.reindex bands ys xs).raster.data c = p.raster.data c' ∧
      (p.reindex bands ys xs).raster.mask c = p.raster.mask c' := by
  obtain ⟨h1, h2, h3⟩ := h
  refine ⟨(p.bands.idxOf b, p.ys.idxOf y, p.xs.idxOf x), ⟨idxOf_at (hb _ (List.mem_of_getElem? h1)),
    idxOf_at (hy _ (List.mem_of_getElem? h2)), idxOf_at (hx _ (List.mem_of_getElem? h3))⟩, ?_, ?_⟩
  · simp [Placed.reindex, List.getD_eq_getElem?_getD, h1, h2, h3]
  · simp [Placed.reindex, List.getD_eq_getElem?_getD, h1, h2, h3]

/-- **C73, which pairs of rasters are accepted**: those without a null value, and those with the same bands and coordinates; operations on bits
are for integers. -/
theorem C73_accepted (u : Ufunc) (l r : Placed) :
    (∃ outs, binary u l r = .ok outs) ↔ ¬ FloatBits u [l.raster.dtype, r.raster.dtype] ∧
      ((l.raster.nv = none ∧ r.raster.nv = none ∧ u.nout ≤ 1) ∨ ((l.raster.nv ≠ none ∨ r.raster.nv ≠ none) ∧ SameGrid l r)) := by
  unfold binary
  simp only
  have hrej := C14_rejected u (l.reindex (inner l.bands r.bands) (inner l.ys r.ys) (inner l.xs r.xs)).raster
    [.raster (l.reindex (inner l.bands r.bands) (inner l.ys r.ys) (inner l.xs r.xs)).raster,
      .raster (r.reindex (inner l.bands r.bands) (inner l.ys r.ys) (inner l.xs r.xs)).raster]
  have hfb : ((u.bitwise = true ∨ u.shift = true) ∧ ∃ a ∈ [Operand.raster (l.reindex (inner l.bands r.bands) (inner l.ys r.ys)
      (inner l.xs r.xs)).raster, .raster (r.reindex (inner l.bands r.bands) (inner l.ys r.ys) (inner l.xs r.xs)).raster],
      a.ty.isFloat = true) ↔ FloatBits u [l.raster.dtype, r.raster.dtype] := by
    simp [FloatBits, Operand.ty, Placed.reindex]
  have hnn : (∀ q, Operand.raster q ∈ [Operand.raster (l.reindex (inner l.bands r.bands) (inner l.ys r.ys) (inner l.xs r.xs)).raster,
      .raster (r.reindex (inner l.bands r.bands) (inner l.ys r.ys) (inner l.xs r.xs)).raster] → q.nv = none) ↔
      l.raster.nv = none ∧ r.raster.nv = none := by
    simp [Placed.reindex]
  rw [hfb, hnn] at hrej
  cases hb : badTypes u [l.raster.dtype, r.raster.dtype] with
  | true =>
    rw [badTypes_iff] at hb
    constructor
    · rintro ⟨_, h⟩; cases h
    · rintro ⟨h, _⟩; exact absurd hb h
  | false =>
    have hb' : ¬ FloatBits u [l.raster.dtype, r.raster.dtype] := by rw [← badTypes_iff, hb]; simp
    have hmk : (l.raster.masked || r.raster.masked) = true ↔ l.raster.nv ≠ none ∨ r.raster.nv ≠ none := by
      simp [Raster.masked, Option.isSome_iff_ne_none]
    have hsg : (decide (l.bands = r.bands) && decide (l.ys = r.ys) && decide (l.xs = r.xs)) = true ↔ SameGrid l r := by
      simp [SameGrid, and_assoc]
    rw [if_neg (by simp)]
    by_cases hm : (l.raster.masked || r.raster.masked) = true
    · by_cases hs : (decide (l.bands = r.bands) && decide (l.ys = r.ys) && decide (l.xs = r.xs)) = true
      · rw [if_neg (by rw [hs]; simp)]
        have hmm := hmk.mp hm
        split
        · next e he =>
          exfalso
          rcases hrej.mp ⟨e, he⟩ with h | h
          · exact hb' h
          · exact hmm.elim (fun k => k h.2.1) (fun k => k h.2.2)
        · exact ⟨fun _ => ⟨hb', .inr ⟨hmm, hsg.mp hs⟩⟩, fun _ => ⟨_, rfl⟩⟩
      · rw [if_pos (by simp only [hm, Bool.not_eq_true _ ▸ hs]; rfl)]
        constructor
        · rintro ⟨_, h⟩; cases h
        · rintro ⟨_, ⟨h1, h2, _⟩ | ⟨_, h⟩⟩
          · exact ((hmk.mp hm).elim (fun q => q h1) (fun q => q h2)).elim
          · exact absurd (hsg.mpr h) hs
    · rw [if_neg (by simp [Bool.not_eq_true _ ▸ hm])]
      have hmm : l.raster.nv = none ∧ r.raster.nv = none := by
        rw [hmk] at hm
        simpa [not_or] using hm
      split
      · next e he =>
        constructor
        · rintro ⟨_, h⟩; cases h
        · rintro ⟨_, ⟨_, _, h⟩ | ⟨h, _⟩⟩
          · rcases hrej.mp ⟨e, he⟩ with k | k
            · exact absurd k hb'
            · omega
          · exact absurd h (by simp [hmm])
      · next outs he =>
        refine ⟨fun _ => ⟨hb', .inl ⟨hmm.1, hmm.2, ?_⟩⟩, fun _ => ⟨_, rfl⟩⟩
        by_contra hc
        obtain ⟨e, h⟩ := hrej.mpr (.inr ⟨by omega, hmm⟩)
        rw [he] at h
        cases h

/-- **C73.**  Each output of an operation on two rasters has the bands and coordinates that both have, in the order of the first, and combines in
each cell the cells of the two that have its band and coordinates; it is null where one of them is. -/
theorem C73_pairs {u : Ufunc} {l r : Placed} (hl : Proper l) (hr : Proper r) (hout : 0 < u.nout) {outs : List Placed}
    (h : binary u l r = .ok outs) : outs.length = u.nout ∧ ∀ k o, outs[k]? = some o → Combines u k l r o := by
  unfold binary at h
  simp only at h
  split at h
  · cases h
  split at h
  · cases h
  split at h
  · cases h
  next outs' he =>
  obtain rfl := Except.ok.inj h
  obtain ⟨_, _, _, ln1, ln2, ln3, lm⟩ := hl
  obtain ⟨_, _, _, rn1, rn2, rn3, rm⟩ := hr
  have cb := inner_common (r := r.bands) ln1
  have cy := inner_common (r := r.ys) ln2
  have cx := inner_common (r := r.xs) ln3
  have hneed : ∀ q, Operand.raster q ∈ [Operand.raster (l.reindex (inner l.bands r.bands) (inner l.ys r.ys) (inner l.xs r.xs)).raster,
      .raster (r.reindex (inner l.bands r.bands) (inner l.ys r.ys) (inner l.xs r.xs)).raster] → MaskNeedsNull q := by
    intro q hq
    simp only [List.mem_cons, Operand.raster.injEq, List.not_mem_nil, or_false] at hq
    rcases hq with rfl | rfl
    · intro c hc; exact lm _ hc
    · intro c hc; exact rm _ hc
  obtain ⟨hlen, hk⟩ := C14_elementwise hout he hneed
  refine ⟨by rw [List.length_map]; exact hlen, ?_⟩
  intro k o ho
  rw [List.getElem?_map, Option.map_eq_some_iff] at ho
  obtain ⟨q, hq, rfl⟩ := ho
  obtain ⟨h1, h2, h3, h4⟩ := hk k q hq
  simp only [Prod.mk.injEq] at h2
  obtain ⟨e1, e2, e3⟩ := h2
  have h3 : q.nv ≠ none ↔ l.raster.nv ≠ none ∨ r.raster.nv ≠ none := by
    rw [h3]
    simp [Placed.reindex]
  refine ⟨⟨e1.symm, e2.symm, e3.symm, cb.1.nodup ln1, cy.1.nodup ln2, cx.1.nodup ln3, ?_⟩, cb, cy, cx, h1, h3, ?_⟩
  · intro c hc
    obtain ⟨s, hs, _⟩ := (h4 c).2.2 hc
    show q.nv ≠ none
    rw [hs]
    simp
  · intro c b y x hat
    obtain ⟨cl, la, ld, lk⟩ := reindex_at l _ _ _ (fun v hv => ((cb.2 v).mp hv).1) (fun v hv => ((cy.2 v).mp hv).1)
      (fun v hv => ((cx.2 v).mp hv).1) c b y x hat
    obtain ⟨cr, ra, rd, rk⟩ := reindex_at r _ _ _ (fun v hv => ((cb.2 v).mp hv).2) (fun v hv => ((cy.2 v).mp hv).2)
      (fun v hv => ((cx.2 v).mp hv).2) c b y x hat
    obtain ⟨g1, g2, g3⟩ := h4 c
    refine ⟨cl, cr, la, ra, ?_, ?_, ?_⟩
    · rw [← lk, ← rk, g1]
      simp
    · intro hm
      rw [g2 hm, ← ld, ← rd]
      rfl
    · intro hm
      obtain ⟨s, s1, s2, _⟩ := g3 hm
      exact ⟨s, s1, s2⟩

/-! ### Arrays -/

theorem broadcastDim_iff (m n : Nat) : broadcastDim m n = some m ↔ n = 1 ∨ n = m := by
  unfold broadcastDim
  split
  · next h => simp [h]
  · next h =>
    split
    · next h1 =>
      rw [Option.some.injEq]
      omega
    · split
      · next h2 => simp [h2]
      · next h2 =>
        constructor
        · intro h; cases h
        · rintro (h3 | h3)
          · exact absurd h3 h2
          · exact absurd h3.symm h

theorem broadcastRev_length : ∀ (s t d : List Nat), broadcastRev s t = some d → d.length = max s.length t.length
  | [], t, d, h => by
    simp only [broadcastRev, Option.some.injEq] at h
    simp [h]
  | a :: s, [], d, h => by
    simp only [broadcastRev, Option.some.injEq] at h
    simp [← h]
  | m :: s, n :: t, d, h => by
    simp only [broadcastRev] at h
    split at h
    · next d' ds _ hr =>
      have := broadcastRev_length s t ds hr
      simp only [Option.some.injEq] at h
      rw [← h]
      simp only [List.length_cons, this]
      omega
    · cases h

theorem broadcastShapes_length {s t d : List Nat} (h : broadcastShapes s t = some d) : d.length = max s.length t.length := by
  unfold broadcastShapes at h
  split at h
  · next d' hd =>
    rw [Option.some.injEq] at h
    rw [← h, List.length_reverse, broadcastRev_length _ _ _ hd]
    simp
  · cases h

theorem rev_cons (m n : Nat) (s t : List Nat) (ds : List Nat) :
    broadcastRev (m :: s) (n :: t) = some (m :: ds) ↔ (n = 1 ∨ n = m) ∧ broadcastRev s t = some ds := by
  rw [← broadcastDim_iff]
  simp only [broadcastRev]
  cases broadcastDim m n <;> cases broadcastRev s t <;> simp

theorem rev_nil (s : List Nat) : broadcastRev s [] = some s := by cases s <;> rfl

theorem shapes_iff (r : Raster) (s : List Nat) (hs : s ≠ []) :
    broadcastShapes (shapeOf r) s = some (shapeOf r) ↔ Stretches r s := by
  have hrev : broadcastShapes (shapeOf r) s = some (shapeOf r) ↔ broadcastRev [r.nx, r.ny, r.nb] s.reverse = some [r.nx, r.ny, r.nb] := by
    unfold broadcastShapes shapeOf
    simp only [List.reverse_cons, List.reverse_nil, List.nil_append, List.cons_append]
    split
    · next d hd =>
      rw [hd, Option.some.injEq, Option.some.injEq]
      constructor
      · intro h
        have := congrArg List.reverse h
        simpa using this
      · intro h
        rw [h]
        rfl
    · next hd =>
      constructor
      · intro h; cases h
      · intro h
        rw [hd] at h; cases h
  match s, hs with
  | [n], _ =>
    rw [hrev]
    simp only [List.reverse_cons, List.reverse_nil, List.nil_append, rev_cons, rev_nil, Stretches]
    simp
  | [m, n], _ =>
    rw [hrev]
    simp only [List.reverse_cons, List.reverse_nil, List.nil_append, List.cons_append, rev_cons, rev_nil, Stretches]
    simp only [and_true]
    exact and_comm
  | [l, m, n], _ =>
    rw [hrev]
    simp only [List.reverse_cons, List.reverse_nil, List.nil_append, List.cons_append, rev_cons, rev_nil, Stretches]
    simp only [and_true]
    tauto
  | a :: b :: c :: d :: t, _ =>
    simp only [Stretches, iff_false]
    intro h
    have := broadcastShapes_length h
    simp only [shapeOf, List.length_cons, List.length_nil] at this
    omega

theorem canBroadcast_of {r : Raster} {s : List Nat} (h : broadcastShapes (shapeOf r) s = some (shapeOf r)) : canBroadcast (shapeOf r) s = true := by
  unfold canBroadcast
  rw [h]
  rfl

theorem cell_eq (a : Array) {r : Raster} (h : Stretches r a.shape) (c : Cell) : a.cell c = element a c := by
  unfold Array.cell element
  rcases hs : a.shape with _ | ⟨n1, _ | ⟨n2, _ | ⟨n3, _ | ⟨n4, t⟩⟩⟩⟩
  · rw [hs] at h; exact h.elim
  · simp [bcastRev, along]
  · simp [bcastRev, along]
  · simp [bcastRev, along]
  · rw [hs] at h; exact h.elim

theorem applyUfunc_numbers {u : Ufunc} {this : Raster} {dt : DType} {f : Cell → Num} {arrayFirst : Bool} (hout : 0 < u.nout)
    (hn : MaskNeedsNull this) {outs : List Raster}
    (h : applyUfunc u this (operands arrayFirst (.raster this) (.numbers dt f)) = .ok outs) :
    outs.length = u.nout ∧ ∀ k o, outs[k]? = some o → CombinesNumbers u k this dt f arrayFirst o := by
  have hneed : ∀ q, Operand.raster q ∈ operands arrayFirst (.raster this) (.numbers dt f) → MaskNeedsNull q := by
    intro q hq
    have : q = this := by cases arrayFirst <;> simpa [operands] using hq
    rw [this]
    exact hn
  have hmem : ∀ P : Raster → Prop, (∃ q, Operand.raster q ∈ operands arrayFirst (.raster this) (.numbers dt f) ∧ P q) ↔ P this := by
    intro P
    cases arrayFirst <;> simp [operands]
  obtain ⟨hlen, hk⟩ := C14_elementwise hout h hneed
  refine ⟨hlen, fun k o ho => ?_⟩
  obtain ⟨h1, h2, h3, h4⟩ := hk k o ho
  rw [hmem (fun q => q.nv ≠ none)] at h3
  refine ⟨?_, h2, h3, fun c => ?_⟩
  · rw [h1]
    cases arrayFirst <;> rfl
  · obtain ⟨g1, g2, g3⟩ := h4 c
    rw [hmem (fun q => q.mask c = true)] at g1
    refine ⟨?_, ?_, ?_⟩
    · cases h : this.mask c with
      | true => exact g1.mpr h
      | false =>
        cases h' : o.mask c with
        | false => rfl
        | true => rw [g1.mp h'] at h; cases h
    · intro hm
      rw [g2 hm]
      cases arrayFirst <;> rfl
    · intro hm
      obtain ⟨s, s1, s2, _⟩ := g3 hm
      exact ⟨s, s1, s2⟩

theorem applyUfunc_ok (u : Ufunc) (this : Raster) (dt : DType) (f : Cell → Num) (arrayFirst : Bool) :
    (∃ outs, applyUfunc u this (operands arrayFirst (.raster this) (.numbers dt f)) = .ok outs) ↔
      ¬ FloatBits u [this.dtype, dt] ∧ (this.nv ≠ none ∨ u.nout ≤ 1) := by
  have hrej := C14_rejected u this (operands arrayFirst (.raster this) (.numbers dt f))
  have hfb : ((u.bitwise = true ∨ u.shift = true) ∧ ∃ a ∈ operands arrayFirst (.raster this) (.numbers dt f), a.ty.isFloat = true) ↔
      FloatBits u [this.dtype, dt] := by
    cases arrayFirst
    · simp [FloatBits, Operand.ty, operands]
    · simp [FloatBits, Operand.ty, operands, or_comm]
  have hnn : (∀ q, Operand.raster q ∈ operands arrayFirst (.raster this) (.numbers dt f) → q.nv = none) ↔ this.nv = none := by
    cases arrayFirst <;> simp [operands]
  rw [hfb, hnn] at hrej
  have hcase : (∃ outs, applyUfunc u this (operands arrayFirst (.raster this) (.numbers dt f)) = .ok outs) ↔
      ¬ ∃ e, applyUfunc u this (operands arrayFirst (.raster this) (.numbers dt f)) = .error e := by
    cases applyUfunc u this (operands arrayFirst (.raster this) (.numbers dt f)) <;> simp
  rw [hcase, hrej, not_or, not_and]
  refine and_congr_right fun _ => ?_
  constructor
  · intro h
    by_cases hn : this.nv = none
    · exact Or.inr (Nat.le_of_not_lt fun hlt => h hlt hn)
    · exact Or.inl hn
  · rintro (h | h) hlt
    · exact h
    · omega

/-- **C73, which arrays are accepted**: those that NumPy would stretch to the shape of the raster; an array never stretches a raster. -/
theorem C73_array_accepted (u : Ufunc) (r : Raster) (a : Array) (arrayFirst : Bool) (hs : a.shape ≠ []) :
    (∃ outs, withArray u r a arrayFirst = .ok outs) ↔
      Stretches r a.shape ∧ ¬ FloatBits u [r.dtype, a.dtype] ∧ (r.nv ≠ none ∨ u.nout ≤ 1) := by
  rw [← shapes_iff r a.shape hs, ← badTypes_iff]
  unfold withArray
  by_cases hb : broadcastShapes (shapeOf r) a.shape = some (shapeOf r)
  · have hc := canBroadcast_of hb
    by_cases ht : badTypes u [r.dtype, a.dtype] = true
    · simp [hc, ht]
    · have hok := applyUfunc_ok u r a.dtype a.cell arrayFirst
      rw [← badTypes_iff] at hok
      simp only [hc, ht, hb, Bool.not_true, Bool.false_eq_true, if_false, ne_eq, not_true_eq_false, true_and] at hok ⊢
      exact hok
  · constructor
    · rintro ⟨outs, h⟩
      split at h
      · cases h
      · split at h
        · cases h
        · cases h
    · intro h
      exact absurd h.1 hb

/-- **C73, the kind of error**: a type error for floats in bitwise and shift operations; otherwise a value error for
rasters on different grids of which one has a null value. -/
theorem C73_errors (u : Ufunc) (l r : Placed) :
    (FloatBits u [l.raster.dtype, r.raster.dtype] → binary u l r = .error .type) ∧
    (¬ FloatBits u [l.raster.dtype, r.raster.dtype] → (l.raster.nv ≠ none ∨ r.raster.nv ≠ none) → ¬ SameGrid l r →
      binary u l r = .error .value) := by
  rw [← badTypes_iff]
  refine ⟨fun h => ?_, fun h hn hg => ?_⟩
  · unfold binary
    simp only
    rw [if_pos h]
  · unfold binary
    simp only
    rw [if_neg h, if_pos]
    simp only [Bool.and_eq_true, Bool.or_eq_true, Raster.masked, Bool.not_eq_true', Bool.and_eq_false_iff,
      decide_eq_false_iff_not]
    refine ⟨?_, ?_⟩
    · rcases hn with hn | hn
      · left; cases h : l.raster.nv <;> simp_all
      · right; cases h : r.raster.nv <;> simp_all
    · by_contra hc
      apply hg
      simp only [not_or, not_not] at hc
      exact ⟨hc.1.1, hc.1.2, hc.2⟩

/-- **C73, the kind of error with an array**: a value error if it has more than three dimensions or cannot be
stretched to the raster's shape and the types are fine; a type error for floats in bitwise and shift operations
if it can be stretched. -/
theorem C73_array_errors (u : Ufunc) (r : Raster) (a : Array) (arrayFirst : Bool) (hs : a.shape ≠ []) :
    (3 < a.shape.length → withArray u r a arrayFirst = .error .value) ∧
    (¬ Stretches r a.shape → ¬ FloatBits u [r.dtype, a.dtype] → withArray u r a arrayFirst = .error .value) ∧
    (Stretches r a.shape → FloatBits u [r.dtype, a.dtype] → withArray u r a arrayFirst = .error .type) := by
  refine ⟨?_, ?_, ?_⟩
  · intro hl
    have : canBroadcast (shapeOf r) a.shape = false := by
      unfold canBroadcast
      cases hb : broadcastShapes (shapeOf r) a.shape with
      | none => rfl
      | some d =>
        have := broadcastShapes_length hb
        simp only [shapeOf, List.length_cons, List.length_nil] at this
        simp only [Bool.and_eq_false_iff, decide_eq_false_iff_not]
        right
        omega
    unfold withArray
    rw [this]
    rfl
  · rw [← shapes_iff r a.shape hs, ← badTypes_iff]
    intro h1 h2
    unfold withArray
    rw [if_neg h2, if_pos h1]
    split <;> rfl
  · rw [← shapes_iff r a.shape hs, ← badTypes_iff]
    intro h1 h2
    unfold withArray
    rw [canBroadcast_of h1, if_pos h2]
    rfl

/-- **C73, with an array**: a cell is combined with the element NumPy's broadcasting pairs with it, null cells stay null. -/
theorem C73_array {u : Ufunc} {r : Raster} {a : Array} {arrayFirst : Bool} (hout : 0 < u.nout) (hs : a.shape ≠ []) (hn : MaskNeedsNull r)
    {outs : List Raster} (h : withArray u r a arrayFirst = .ok outs) :
    outs.length = u.nout ∧ ∀ k o, outs[k]? = some o → CombinesNumbers u k r a.dtype (element a) arrayFirst o := by
  have hst := ((C73_array_accepted u r a arrayFirst hs).mp ⟨outs, h⟩).1
  have hf : a.cell = element a := funext fun c => cell_eq a hst c
  unfold withArray at h
  split at h
  · cases h
  · split at h
    · cases h
    · split at h
      · cases h
      · rw [hf] at h
        exact applyUfunc_numbers hout hn h

/-! ### Bandwise -/

theorem broadcastDim_ok (m n : Nat) : broadcastDim m n ≠ none ↔ m = n ∨ m = 1 ∨ n = 1 := by
  unfold broadcastDim
  split
  · next h => simp [h]
  · next h =>
    split
    · next h1 => simp [h1]
    · next h1 =>
      split
      · next h2 => simp [h2]
      · next h2 => simp [h, h1, h2]

theorem canBroadcast_list (n nb ny nx : Nat) : canBroadcast [n] [nb, ny, nx] = true ↔ n = nx ∨ n = 1 ∨ nx = 1 := by
  rw [← broadcastDim_ok]
  unfold canBroadcast broadcastShapes
  simp only [List.reverse_cons, List.reverse_nil, List.nil_append, List.cons_append, broadcastRev]
  cases broadcastDim n nx <;> simp

theorem FloatBits_congr (u : Ufunc) (a b : DType) : FloatBits u [a, b] ↔ FloatBits u [b, a] := by simp [FloatBits, or_comm]

theorem prod_one : ∀ {s : List Nat}, s.prod = 1 ↔ ∀ n ∈ s, n = 1
  | [] => by simp
  | n :: s => by
    rw [List.prod_cons]
    simp only [List.mem_cons, forall_eq_or_imp]
    rw [← prod_one (s := s)]
    constructor
    · intro h
      exact ⟨Nat.eq_one_of_mul_eq_one_right h, Nat.eq_one_of_mul_eq_one_left h⟩
    · rintro ⟨h1, h2⟩
      rw [h1, h2]

theorem ravelOne_stretches (r : Raster) (a : Array) : Stretches r a.ravelOne.shape := Or.inl rfl

/-- **C74, which arrays are accepted**: those with one element, and lists of one value for each band if the raster is neither one column wide nor
as wide as it has bands. -/
theorem C74_accepted (u : Ufunc) (r : Raster) (a : Array) (arrayFirst : Bool) :
    (∃ outs, bandwise u r a arrayFirst = .ok outs) ↔
      ((∀ n ∈ a.shape, n = 1) ∨ (a.shape = [r.nb] ∧ r.nx ≠ r.nb ∧ r.nx ≠ 1)) ∧
      ¬ FloatBits u [r.dtype, a.dtype] ∧ (r.nv ≠ none ∨ u.nout ≤ 1) := by
  unfold bandwise normalizeBandwise
  by_cases h1 : a.shape.prod = 1
  · rw [if_pos h1]
    simp only
    rw [C73_array_accepted u r a.ravelOne arrayFirst (by simp [Array.ravelOne])]
    constructor
    · rintro ⟨_, h⟩
      exact ⟨Or.inl (prod_one.mp h1), h⟩
    · rintro ⟨_, h⟩
      exact ⟨ravelOne_stretches r a, h⟩
  · rw [if_neg h1]
    have hne : ¬ ∀ n ∈ a.shape, n = 1 := fun h => h1 (prod_one.mpr h)
    by_cases hs : a.shape = [r.nb]
    · have hb1 : r.nb ≠ 1 := by
        intro h
        rw [hs, h] at h1
        exact h1 rfl
      have hcb := canBroadcast_list r.nb r.nb r.ny r.nx
      by_cases hc : canBroadcast a.shape (shapeOf r) = true
      · rw [if_pos hc]
        rw [hs] at hc
        have := hcb.mp hc
        simp only [reduceCtorEq, exists_false, false_iff]
        rintro ⟨h | ⟨_, h2, h3⟩, _⟩
        · exact hne h
        · rcases this with h | h | h
          · exact h2 h.symm
          · exact hb1 h
          · exact h3 h
      · rw [if_neg hc, if_pos (by simp [hs, shapeOf])]
        simp only
        rw [C73_array_accepted u r a.column arrayFirst (by simp [Array.column])]
        rw [hs] at hc
        have hc' := mt hcb.mpr hc
        have hst : Stretches r a.column.shape := ⟨Or.inr (by simp [hs]), Or.inl rfl, Or.inl rfl⟩
        constructor
        · rintro ⟨_, h⟩
          exact ⟨Or.inr ⟨hs, fun h => hc' (Or.inl h.symm), fun h => hc' (Or.inr (Or.inr h))⟩, h⟩
        · rintro ⟨_, h⟩
          exact ⟨hst, h⟩
    · have hno : ¬ (a.shape.length = 1 ∧ a.shape.prod = (shapeOf r).headD 0) := by
        rintro ⟨hl, hp⟩
        obtain ⟨n, hn⟩ := List.length_eq_one_iff.mp hl
        rw [hn] at hp
        refine hs ?_
        rw [hn]
        simpa [shapeOf] using hp
      rw [if_neg hno, ite_self]
      simp [hne, hs]

/-- **C74, the result**: every cell of a band is combined with the value of the band, or with the only value there is. -/
theorem C74_bandwise {u : Ufunc} {r : Raster} {a : Array} {arrayFirst : Bool} (hout : 0 < u.nout) (hn : MaskNeedsNull r) {outs : List Raster}
    (h : bandwise u r a arrayFirst = .ok outs) :
    outs.length = u.nout ∧ ∀ k o, outs[k]? = some o → ∃ f, CombinesNumbers u k r a.dtype f arrayFirst o ∧
      ((∀ n ∈ a.shape, n = 1) → ∀ c, f c = a.at' (a.shape.map fun _ => 0)) ∧
      (¬ (∀ n ∈ a.shape, n = 1) → a.shape = [r.nb] ∧ ∀ c, f c = a.at' [c.1]) := by
  have hacc := ((C74_accepted u r a arrayFirst).mp ⟨outs, h⟩).1
  unfold bandwise normalizeBandwise at h
  by_cases h1 : a.shape.prod = 1
  · rw [if_pos h1] at h
    simp only at h
    obtain ⟨hlen, hk⟩ := C73_array hout (by simp [Array.ravelOne]) hn h
    refine ⟨hlen, fun k o ho => ⟨_, hk k o ho, fun _ c => rfl, fun hno => absurd (prod_one.mp h1) hno⟩⟩
  · rw [if_neg h1] at h
    have hne : ¬ ∀ n ∈ a.shape, n = 1 := fun h => h1 (prod_one.mpr h)
    have hs : a.shape = [r.nb] := (hacc.resolve_left hne).1
    have hb1 : r.nb ≠ 1 := by
      intro h
      rw [hs, h] at h1
      exact h1 rfl
    split at h
    · cases h
    · next a' ha =>
      split at ha
      · cases ha
      · rw [if_pos (by simp [hs, shapeOf])] at ha
        cases ha
        obtain ⟨hlen, hk⟩ := C73_array hout (by simp [Array.column]) hn h
        refine ⟨hlen, fun k o ho => ⟨_, hk k o ho, fun hall => absurd hall hne, fun _ => ⟨hs, fun c => ?_⟩⟩⟩
        simp [element, Array.column, hs, along, hb1]

/-! ### Examples and counterexamples -/

def plus : Num → Num → Num
  | .fin a, .fin b => .fin (a + b)
  | _, _ => .nan

/-- `np.add`, and one like `np.divmod` with two results. -/
def exAdd : Ufunc := ⟨false, false, 1, fun ts _ => ts.headD f64, fun _ vs => plus (vs.getD 0 .nan) (vs.getD 1 .nan)⟩

def exBoth : Ufunc := { exAdd with nout := 2 }

/-- A raster of the numbers 100·band + 10·y + x at the given places, the cell at (null, null, null) being null. -/
def exPlaced (nv : Option Scalar) (null : Rat) (bands ys xs : List Rat) : Placed :=
  let isNull := fun (c : Cell) => nv.isSome && decide (bands.getD c.1 0 = null ∧ ys.getD c.2.1 0 = null ∧ xs.getD c.2.2 0 = null)
  ⟨⟨i16, bands.length, ys.length, xs.length, fun c => if isNull c then (nv.getD ⟨i16, .nan⟩).val else .fin (100 * bands.getD c.1 0 +
    10 * ys.getD c.2.1 0 + xs.getD c.2.2 0), isNull, nv⟩, bands, ys, xs⟩

def cells (r : Raster) : List Cell :=
  (List.range r.nb).flatMap fun b => (List.range r.ny).flatMap fun y => (List.range r.nx).map fun x => (b, y, x)

/-- The labels, the data and the mask of a raster. -/
structure Shown where
  bands : List Rat
  ys : List Rat
  xs : List Rat
  data : List Num
  mask : List Bool
deriving DecidableEq

def show' : Except Err (List Placed) → Except Err (List Shown)
  | .error e => .error e
  | .ok l => .ok (l.map fun o => ⟨o.bands, o.ys, o.xs, (cells o.raster).map o.raster.data, (cells o.raster).map o.raster.mask⟩)

def showRasters : Except Err (List Raster) → Except Err (List (List Num × List Bool))
  | .error e => .error e
  | .ok l => .ok (l.map fun o => ((cells o).map o.data, (cells o).map o.mask))

theorem exPlaced_proper (nv : Option Scalar) (null : Rat) {bands ys xs : List Rat} (hb : bands.Nodup) (hy : ys.Nodup) (hx : xs.Nodup) :
    Proper (exPlaced nv null bands ys xs) := by
  refine ⟨rfl, rfl, rfl, hb, hy, hx, ?_⟩
  intro c h1
  cases nv with
  | some s => intro h2; cases h2
  | none => intro h2; simp [exPlaced] at h1

/-- The second raster lies one cell further east and south: the cells in common are paired by coordinates, not by position. -/
example : Proper (exPlaced none 0 [1] [5, 4] [0, 1, 2]) ∧ Proper (exPlaced none 0 [1] [4, 3] [1, 2, 3]) ∧
    show' (binary exAdd (exPlaced none 0 [1] [5, 4] [0, 1, 2]) (exPlaced none 0 [1] [4, 3] [1, 2, 3])) =
      .ok [⟨[1], [4], [1, 2], [.fin 282, .fin 284], [false, false]⟩] :=
  ⟨exPlaced_proper _ _ (by decide) (by decide) (by decide), exPlaced_proper _ _ (by decide) (by decide) (by decide), by decide +kernel⟩

/-- The order of the coordinates does not matter: the second raster runs from south to north. -/
example : show' (binary exAdd (exPlaced none 0 [1] [5, 4] [0]) (exPlaced none 0 [1] [4, 5] [0])) =
    .ok [⟨[1], [5, 4], [0], [.fin 300, .fin 280], [false, false]⟩] := by
  decide +kernel

/-- Different grids with a null value, and floats where integers are expected. -/
example : ¬ FloatBits exAdd [i16, i16] ∧
    ¬ SameGrid (exPlaced (some ⟨i16, .fin 9⟩) 1 [1] [2, 1] [1, 2]) (exPlaced none 0 [1] [2, 1] [1, 3]) ∧
    FloatBits { exAdd with shift := true } [i16, f64] :=
  ⟨fun h => by simp [exAdd, FloatBits] at h, fun h => absurd h.2.2 (by decide +kernel), Or.inr rfl, f64, by simp, rfl⟩

/-- A null cell on the same grid. -/
example : show' (binary exAdd (exPlaced (some ⟨i16, .fin 9⟩) 1 [1] [2, 1] [1, 2]) (exPlaced none 0 [1] [2, 1] [1, 2])) =
    .ok [⟨[1], [2, 1], [1, 2], [.fin 242, .fin 244, .fin (-32768), .fin 224], [false, false, true, false]⟩] := by
  decide +kernel

/-- **Bands disappear**: a raster with three bands and one with a single band give one band, without a message; with a null value in either of
them it is an error. -/
theorem C73_bands_lost :
    show' (binary exAdd (exPlaced none 0 [1, 2, 3] [5] [0, 1]) (exPlaced none 0 [1] [5] [0, 1])) =
      .ok [⟨[1], [5], [0, 1], [.fin 300, .fin 302], [false, false]⟩] ∧
    show' (binary exAdd (exPlaced (some ⟨i16, .fin 9⟩) 0 [1, 2, 3] [5] [0, 1]) (exPlaced none 0 [1] [5] [0, 1])) = .error .value := by
  constructor <;> decide +kernel

/-- **Rasters without common cells give an empty raster**: also if they differ by a rounding error only. -/
theorem C73_empty :
    show' (binary exAdd (exPlaced none 0 [1] [5, 4] [0, 1]) (exPlaced none 0 [1] [5, 4] [1 / 1000000, 1 + 1 / 1000000])) =
      .ok [⟨[1], [5, 4], [], [], []⟩] := by
  decide +kernel

/-- **Two results need a null value**: `np.divmod` of rasters without null values fails. -/
theorem C73_two_results_fail :
    show' (binary exBoth (exPlaced none 0 [1] [5] [0]) (exPlaced none 0 [1] [5] [0])) = .error .type := by
  decide +kernel

/-- Two bands of one row and three columns. -/
def exRaster : Raster := (exPlaced (some ⟨i16, .fin 9⟩) 1 [1, 2] [1] [1, 2, 3]).raster

/-- A list of integers. -/
def exList (l : List Int) : Array := ⟨i16, [l.length], fun i => .fin (l.getD (i.headD 0) 0)⟩

/-- An array that differs by row and column. -/
def exTable (ny nx : Nat) : Array := ⟨i16, [ny, nx], fun i => .fin (100 * i.getD 0 0 + i.getD 1 0)⟩

example : exRaster.nb = 2 ∧ MaskNeedsNull exRaster ∧ Stretches exRaster (exList [1, 2, 3]).shape ∧ Stretches exRaster (exTable 1 3).shape := by
  refine ⟨rfl, fun c _ h => ?_, Or.inr rfl, Or.inl rfl, Or.inr rfl⟩
  cases h

example : showRasters (withArray exAdd exRaster (exList [1000, 2000, 3000]) false) =
    .ok [([.fin (-32768), .fin 2112, .fin 3113, .fin 1211, .fin 2212, .fin 3213], [true, false, false, false, false, false])] := by
  decide +kernel

/-- An array with more rows than the raster is refused although the shapes can be broadcast. -/
example : showRasters (withArray exAdd exRaster (exTable 2 3) true) = .error .value := by decide +kernel

example : showRasters (bandwise exAdd exRaster (exList [1000, 2000]) true) =
    .ok [([.fin (-32768), .fin 1112, .fin 1113, .fin 2211, .fin 2212, .fin 2213], [true, false, false, false, false, false])] := by
  decide +kernel

example : showRasters (bandwise exAdd exRaster (exList [1000]) false) =
    .ok [([.fin (-32768), .fin 1112, .fin 1113, .fin 1211, .fin 1212, .fin 1213], [true, false, false, false, false, false])] := by
  decide +kernel

/-- **Bandwise operations depend on the width**: two values for two bands are refused if the raster is two columns or one column wide. -/
theorem C74_width_matters :
    showRasters (bandwise exAdd (exPlaced none 0 [1, 2] [1, 2, 3] [1, 2]).raster (exList [1000, 2000]) false) = .error .value ∧
    showRasters (bandwise exAdd (exPlaced none 0 [1, 2] [1, 2, 3] [1]).raster (exList [1000, 2000]) false) = .error .value ∧
    showRasters (bandwise exAdd (exPlaced none 0 [1, 2] [1] [1, 2, 3]).raster (exList [1000, 2000]) false) =
      .ok [([.fin 1111, .fin 1112, .fin 1113, .fin 2211, .fin 2212, .fin 2213], [false, false, false, false, false, false])] := by
  refine ⟨?_, ?_, ?_⟩ <;> decide +kernel

end Verif.Pair
