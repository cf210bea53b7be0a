import Verif.Pair.Props
import Mathlib.Data.List.Nodup
import Mathlib.Data.List.Perm.Basic

/-!
# Expressions of rasters (`raster.py:160-473`)

An expression such as `(a + b) * 2 >= ~c` is worked out one operation after the other, each of them making a raster with its own dtype, null value
and coordinates (`Verif.Pair`, C73).  Here such expressions are followed from their rasters to the result.
-/

set_option linter.unusedSectionVars false

namespace Verif.Trips.Expressions

open Verif Verif.Nulls Verif.Nulls.Spec Verif.Pair Verif.Pair.Spec DType

/-- An expression: a raster, or output `k` of an operation on one expression, on an expression and a number, or on two expressions. -/
inductive Expr where
  | raster (p : Placed)
  | unary (u : Ufunc) (k : Nat) (e : Expr)
  | number (u : Ufunc) (k : Nat) (dt : DType) (v : Num) (first : Bool) (e : Expr)
  | binary (u : Ufunc) (k : Nat) (a b : Expr)

/-- The output asked for. -/
def output {α : Type} (k : Nat) : Except Err (List α) → Except Err α
  | .error e => .error e
  | .ok outs => match outs[k]? with
    | some o => .ok o
    | none => .error .index

/-- The coordinates of the operand are kept: `raster.py:187-269` for one raster. -/
def onOne (f : Raster → Except Err (List Raster)) (k : Nat) : Except Err Placed → Except Err Placed
  | .error e => .error e
  | .ok p => match output k (f p.raster) with
    | .error e => .error e
    | .ok o => .ok ⟨o, p.bands, p.ys, p.xs⟩

/-- `raster.py:187-269` for two rasters, the first being worked out first. -/
def onTwo (u : Ufunc) (k : Nat) : Except Err Placed → Except Err Placed → Except Err Placed
  | .error e, _ => .error e
  | .ok _, .error e => .error e
  | .ok p, .ok q => output k (Pair.binary u p q)

/-- The expression worked out. -/
def eval : Expr → Except Err Placed
  | .raster p => .ok p
  | .unary u k e => onOne (fun r => applyUfunc u r [.raster r]) k (eval e)
  | .number u k dt v first e => onOne (fun r => withArray u r ⟨dt, [1], fun _ => v⟩ first) k (eval e)
  | .binary u k a b => onTwo u k (eval a) (eval b)

/-! ### What is to be shown -/

namespace Spec

/-- The rasters of an expression, from left to right. -/
def rasters : Expr → List Placed
  | .raster p => [p]
  | .unary _ _ e => rasters e
  | .number _ _ _ _ _ e => rasters e
  | .binary _ _ a b => rasters a ++ rasters b

/-- The operations of an expression. -/
def operations : Expr → List Ufunc
  | .raster _ => []
  | .unary u _ e => u :: operations e
  | .number u _ _ _ _ e => u :: operations e
  | .binary u _ a b => u :: (operations a ++ operations b)

/-- The number an expression has at a place, if its rasters have the numbers of their cells there. -/
def Value (b y x : Rat) : Expr → Num → Prop
  | .raster p, v => ∃ c, At p c b y x ∧ p.raster.data c = v
  | .unary u k e, v => ∃ w, Value b y x e w ∧ v = u.fn k [w]
  | .number u k _ n first e, v => ∃ w, Value b y x e w ∧ v = u.fn k (if first then [n, w] else [w, n])
  | .binary u k e f, v => ∃ w z, Value b y x e w ∧ Value b y x f z ∧ v = u.fn k [w, z]

/-- The dtype an expression has by the rules of NumPy. -/
def dtype : Expr → DType
  | .raster p => p.raster.dtype
  | .unary u k e => u.outTy [dtype e] k
  | .number u k dt _ first e => u.outTy (if first then [dt, dtype e] else [dtype e, dt]) k
  | .binary u k e f => u.outTy [dtype e, dtype f] k

/-- Some raster of the list is null at the place. -/
def Null (ps : List Placed) (b y x : Rat) : Prop := ∃ p ∈ ps, ∃ c, At p c b y x ∧ p.raster.mask c = true

/-- The labels all the lists have, in the order of the first. -/
def CommonAll (ls : List (List Rat)) (out : List Rat) : Prop :=
  (∀ l, ls.head? = some l → out.Sublist l) ∧ ∀ v, v ∈ out ↔ ∀ l ∈ ls, v ∈ l

/-- Every operation has one output, which is the one taken. -/
def Single : Expr → Prop
  | .raster _ => True
  | .unary u k e => u.nout = 1 ∧ k = 0 ∧ Single e
  | .number u k _ _ _ e => u.nout = 1 ∧ k = 0 ∧ Single e
  | .binary u k e f => u.nout = 1 ∧ k = 0 ∧ Single e ∧ Single f

/-- No operation on the bits of integers is given floats. -/
def Typed : Expr → Prop
  | .raster _ => True
  | .unary u _ e => Typed e ∧ ¬ FloatBits u [dtype e]
  | .number u _ dt _ _ e => Typed e ∧ ¬ FloatBits u [dtype e, dt]
  | .binary u _ e f => Typed e ∧ Typed f ∧ ¬ FloatBits u [dtype e, dtype f]

/-- The rasters lie on one grid, or none of them has a null value. -/
def Fitting (ps : List Placed) : Prop := (∀ p ∈ ps, ∀ q ∈ ps, SameGrid p q) ∨ ∀ p ∈ ps, p.raster.nv = none

/-- The raster `o` is what the expression means. -/
structure Is (e : Expr) (o : Placed) : Prop where
  proper : Proper o
  dtype : o.raster.dtype = dtype e
  bands : CommonAll ((rasters e).map (·.bands)) o.bands
  ys : CommonAll ((rasters e).map (·.ys)) o.ys
  xs : CommonAll ((rasters e).map (·.xs)) o.xs
  nv : o.raster.nv ≠ none ↔ ∃ p ∈ rasters e, p.raster.nv ≠ none
  null : ∀ c b y x, At o c b y x → (o.raster.mask c = true ↔ Null (rasters e) b y x)
  value : ∀ c b y x, At o c b y x → o.raster.mask c = false → Value b y x e (o.raster.data c)
  kept : (∃ p, e = .raster p) ∨ ∀ c b y x, At o c b y x → o.raster.mask c = true →
    ∃ s, o.raster.nv = some s ∧ o.raster.data c = s.val

end Spec

open Spec

/-! ### Proofs -/

theorem output_ok {α : Type} {k : Nat} {r : Except Err (List α)} {o : α} (h : output k r = .ok o) : ∃ outs, r = .ok outs ∧ outs[k]? = some o := by
  cases r with
  | error e => cases h
  | ok outs =>
    refine ⟨outs, rfl, ?_⟩
    unfold output at h
    simp only at h
    cases ho : outs[k]? with
    | none => rw [ho] at h; cases h
    | some q => rw [ho] at h; cases h; rfl

theorem rasters_ne : ∀ e : Expr, rasters e ≠ []
  | .raster _ => by simp [rasters]
  | .unary _ _ e => rasters_ne e
  | .number _ _ _ _ _ e => rasters_ne e
  | .binary _ _ a b => by
    have := rasters_ne a
    simp [rasters, this]

theorem commonAll_append {ls ms : List (List Rat)} {l m out : List Rat} (hne : ls ≠ []) (hl : CommonAll ls l) (hm : CommonAll ms m)
    (h : Common l m out) : CommonAll (ls ++ ms) out := by
  constructor
  · intro first hf
    refine h.1.trans (hl.1 first ?_)
    rw [List.head?_append_of_ne_nil _ hne] at hf
    exact hf
  · intro v
    rw [h.2 v, hl.2 v, hm.2 v]
    simp only [List.mem_append]
    constructor
    · rintro ⟨h1, h2⟩ t (ht | ht)
      · exact h1 t ht
      · exact h2 t ht
    · exact fun h => ⟨fun t ht => h t (Or.inl ht), fun t ht => h t (Or.inr ht)⟩

theorem at_unique {p : Placed} (hp : Proper p) {c d : Cell} {b y x : Rat} (hc : At p c b y x) (hd : At p d b y x) : c = d := by
  obtain ⟨_, _, _, n1, n2, n3, _⟩ := hp
  have key : ∀ {l : List Rat} {i j : Nat} {v : Rat}, l.Nodup → l[i]? = some v → l[j]? = some v → i = j := by
    intro l i j v hn hi hj
    obtain ⟨hi', e1⟩ := List.getElem?_eq_some_iff.mp hi
    obtain ⟨hj', e2⟩ := List.getElem?_eq_some_iff.mp hj
    exact (List.Nodup.getElem_inj_iff hn).mp (e1.trans e2.symm)
  exact Prod.ext (key n1 hc.1 hd.1) (Prod.ext (key n2 hc.2.1 hd.2.1) (key n3 hc.2.2 hd.2.2))

/-- An operation on one raster that keeps the places. -/
theorem onOne_is {e e' : Expr} {p : Placed} {o : Raster} (h : Is e p) (hr : rasters e' = rasters e) (hd : o.dtype = Spec.dtype e')
    (hshape : (o.nb, o.ny, o.nx) = (p.raster.nb, p.raster.ny, p.raster.nx)) (hnv : o.nv ≠ none ↔ p.raster.nv ≠ none)
    (hmask : ∀ c, o.mask c = p.raster.mask c)
    (hval : ∀ c b y x, o.mask c = false → Value b y x e (p.raster.data c) → Value b y x e' (o.data c))
    (hnull : ∀ c, o.mask c = true → ∃ s, o.nv = some s ∧ o.data c = s.val) : Is e' ⟨o, p.bands, p.ys, p.xs⟩ := by
  obtain ⟨l1, l2, l3, n1, n2, n3, hm⟩ := h.proper
  simp only [Prod.mk.injEq] at hshape
  obtain ⟨s1, s2, s3⟩ := hshape
  refine ⟨⟨?_, ?_, ?_, n1, n2, n3, ?_⟩, hd, ?_, ?_, ?_, ?_, ?_, ?_, Or.inr fun c _ _ _ _ hc => hnull c hc⟩
  · rw [l1, s1]
  · rw [l2, s2]
  · rw [l3, s3]
  · intro c hc
    obtain ⟨s, hs, _⟩ := hnull c hc
    show o.nv ≠ none
    rw [hs]
    simp
  · rw [hr]; exact h.bands
  · rw [hr]; exact h.ys
  · rw [hr]; exact h.xs
  · rw [hr]
    exact hnv.trans h.nv
  · intro c b y x hat
    rw [hr, ← h.null c b y x hat]
    show o.mask c = true ↔ _
    rw [hmask]
  · intro c b y x hat hmc
    have hmc : o.mask c = false := hmc
    exact hval c b y x hmc (h.value c b y x hat (by rw [← hmask]; exact hmc))

/-- **C110.**  An expression of rasters, worked out operation by operation, has the bands and coordinates that all of its rasters have, in the
order of the first, and the dtype of NumPy's rules; a cell is null exactly if a raster of the expression is null there, and holds otherwise the
number that the expression has for the numbers of the rasters at that place; it has a null value exactly if one of the rasters has. -/
theorem C110_cells : ∀ (e : Expr) (o : Placed), (∀ p ∈ rasters e, Proper p) → (∀ u ∈ operations e, 0 < u.nout) → eval e = .ok o → Is e o
  | .raster p, o, hp, _, h => by
    cases h
    refine ⟨hp p (by simp [rasters]), rfl, ?_, ?_, ?_, ?_, ?_, ?_, Or.inl ⟨p, rfl⟩⟩
    · simp [CommonAll, rasters]
    · simp [CommonAll, rasters]
    · simp [CommonAll, rasters]
    · simp [rasters]
    · intro c b y x hat
      constructor
      · exact fun h => ⟨p, by simp [rasters], c, hat, h⟩
      · rintro ⟨q, hq, d, hd, hm⟩
        simp only [rasters, List.mem_singleton] at hq
        subst hq
        rwa [at_unique (hp q (by simp [rasters])) hat hd]
    · exact fun c b y x hat _ => ⟨c, hat, rfl⟩
  | .unary u k e, o, hp, hu, h => by
    unfold eval onOne at h
    cases he : eval e with
    | error er => rw [he] at h; cases h
    | ok p =>
      rw [he] at h
      simp only at h
      cases ho : output k (applyUfunc u p.raster [.raster p.raster]) with
      | error er => rw [ho] at h; cases h
      | ok q =>
        rw [ho] at h
        cases h
        have ih := C110_cells e p hp (fun v hv => hu v (by simp [operations, hv])) he
        obtain ⟨outs, h1, h2⟩ := output_ok ho
        have hn := ih.proper.2.2.2.2.2.2
        obtain ⟨_, hk⟩ := C14_elementwise (hu u (by simp [operations])) h1 (by
          intro r hr
          simp only [List.mem_singleton, Operand.raster.injEq] at hr
          rw [hr]
          exact hn)
        obtain ⟨g1, g2, g3, g4⟩ := hk k q h2
        have hmem : ∀ P : Raster → Prop, (∃ r, Operand.raster r ∈ [Operand.raster p.raster] ∧ P r) ↔ P p.raster := by
          intro P
          simp
        refine onOne_is ih rfl ?_ g2 ?_ ?_ ?_ ?_
        · rw [g1]
          show u.outTy [p.raster.dtype] k = u.outTy [Spec.dtype e] k
          rw [ih.dtype]
        · rw [g3, hmem (fun r => r.nv ≠ none)]
        · intro c
          have := (g4 c).1
          rw [hmem (fun r => r.mask c = true)] at this
          exact Bool.eq_iff_iff.mpr this
        · exact fun c b y x hmc hv => ⟨_, hv, (g4 c).2.1 hmc⟩
        · intro c hc
          obtain ⟨s, s1, s2, _⟩ := (g4 c).2.2 hc
          exact ⟨s, s1, s2⟩
  | .number u k dt v first e, o, hp, hu, h => by
    unfold eval onOne at h
    cases he : eval e with
    | error er => rw [he] at h; cases h
    | ok p =>
      rw [he] at h
      simp only at h
      cases ho : output k (withArray u p.raster ⟨dt, [1], fun _ => v⟩ first) with
      | error er => rw [ho] at h; cases h
      | ok q =>
        rw [ho] at h
        cases h
        have ih := C110_cells e p hp (fun v hv => hu v (by simp [operations, hv])) he
        obtain ⟨outs, h1, h2⟩ := output_ok ho
        obtain ⟨_, hk⟩ := C73_array (hu u (by simp [operations])) (by simp) ih.proper.2.2.2.2.2.2 h1
        obtain ⟨g1, g2, g3, g4⟩ := hk k q h2
        refine onOne_is ih rfl ?_ g2 g3 (fun c => (g4 c).1) ?_ (fun c => (g4 c).2.2)
        · rw [g1]
          show _ = u.outTy (if first then [dt, Spec.dtype e] else [Spec.dtype e, dt]) k
          rw [ih.dtype]
        · exact fun c b y x hmc hv => ⟨_, hv, (g4 c).2.1 hmc⟩
  | .binary u k a b, o, hp, hu, h => by
    unfold eval onTwo at h
    cases ha : eval a with
    | error er => rw [ha] at h; cases h
    | ok p =>
      cases hb : eval b with
      | error er => rw [ha, hb] at h; cases h
      | ok q =>
        rw [ha, hb] at h
        have iha := C110_cells a p (fun r hr => hp r (by simp [rasters, hr])) (fun v hv => hu v (by simp [operations, hv])) ha
        have ihb := C110_cells b q (fun r hr => hp r (by simp [rasters, hr])) (fun v hv => hu v (by simp [operations, hv])) hb
        obtain ⟨outs, h1, h2⟩ := output_ok h
        obtain ⟨_, hk⟩ := C73_pairs iha.proper ihb.proper (hu u (by simp [operations])) h1
        obtain ⟨g0, g1, g2, g3, g4, g5, g6⟩ := hk k o h2
        have hne : ∀ f : Placed → List Rat, (rasters a).map f ≠ [] := by
          intro f
          simp [rasters_ne a]
        refine ⟨g0, ?_, ?_, ?_, ?_, ?_, ?_, ?_, Or.inr ?_⟩
        · rw [g4, iha.dtype, ihb.dtype]
          rfl
        · simp only [rasters, List.map_append]
          exact commonAll_append (hne _) iha.bands ihb.bands g1
        · simp only [rasters, List.map_append]
          exact commonAll_append (hne _) iha.ys ihb.ys g2
        · simp only [rasters, List.map_append]
          exact commonAll_append (hne _) iha.xs ihb.xs g3
        · rw [g5, iha.nv, ihb.nv]
          simp only [rasters, List.mem_append]
          constructor
          · rintro (⟨r, hr, hn⟩ | ⟨r, hr, hn⟩)
            · exact ⟨r, Or.inl hr, hn⟩
            · exact ⟨r, Or.inr hr, hn⟩
          · rintro ⟨r, hr | hr, hn⟩
            · exact Or.inl ⟨r, hr, hn⟩
            · exact Or.inr ⟨r, hr, hn⟩
        · intro c b' y x hat
          obtain ⟨cl, cr, la, ra, hm, _, _⟩ := g6 c b' y x hat
          rw [hm, iha.null cl b' y x la, ihb.null cr b' y x ra]
          unfold Null
          simp only [rasters, List.mem_append]
          constructor
          · rintro (⟨r, hr, hn⟩ | ⟨r, hr, hn⟩)
            · exact ⟨r, Or.inl hr, hn⟩
            · exact ⟨r, Or.inr hr, hn⟩
          · rintro ⟨r, hr | hr, hn⟩
            · exact Or.inl ⟨r, hr, hn⟩
            · exact Or.inr ⟨r, hr, hn⟩
        · intro c b' y x hat hmc
          obtain ⟨cl, cr, la, ra, hm, hv, _⟩ := g6 c b' y x hat
          have hml : p.raster.mask cl = false := by
            cases hx : p.raster.mask cl with
            | false => rfl
            | true => rw [hm.mpr (Or.inl hx)] at hmc; cases hmc
          have hmr : q.raster.mask cr = false := by
            cases hx : q.raster.mask cr with
            | false => rfl
            | true => rw [hm.mpr (Or.inr hx)] at hmc; cases hmc
          exact ⟨_, _, iha.value cl b' y x la hml, ihb.value cr b' y x ra hmr, hv hmc⟩
        · intro c b' y x hat hc
          obtain ⟨_, _, _, _, _, _, hn⟩ := g6 c b' y x hat
          exact hn hc

theorem sublist_filter {out l : List Rat} (h : out.Sublist l) : l.Nodup → out = l.filter fun v => decide (v ∈ out) := by
  induction h with
  | slnil => intro _; rfl
  | @cons out l a hs ih =>
    intro hn
    obtain ⟨h1, h2⟩ := List.nodup_cons.mp hn
    have ha : a ∉ out := fun hm => h1 (hs.subset hm)
    rw [List.filter_cons_of_neg (by simpa using ha)]
    exact ih h2
  | @cons_cons out l a hs ih =>
    intro hn
    obtain ⟨h1, h2⟩ := List.nodup_cons.mp hn
    rw [List.filter_cons_of_pos (by simp)]
    congr 1
    refine (ih h2).trans (List.filter_congr fun v hv => ?_)
    have : v ≠ a := fun hva => h1 (hva ▸ hv)
    simp [this]

theorem sublist_unique {out out' l : List Rat} (hn : l.Nodup) (h : out.Sublist l) (h' : out'.Sublist l) (hm : ∀ v, v ∈ out ↔ v ∈ out') :
    out = out' := by
  rw [sublist_filter h hn, sublist_filter h' hn]
  refine List.filter_congr fun v _ => ?_
  simp [hm v]

theorem commonAll_unique {ls ms : List (List Rat)} {out out' : List Rat} (hls : ls ≠ []) (hn : ∀ l ∈ ls, l.Nodup) (hh : ls.head? = ms.head?)
    (hmem : ∀ l, l ∈ ls ↔ l ∈ ms) (h : CommonAll ls out) (h' : CommonAll ms out') : out = out' := by
  obtain ⟨l, hl⟩ : ∃ l, ls.head? = some l := by
    cases ls with
    | nil => exact absurd rfl hls
    | cons l _ => exact ⟨l, rfl⟩
  refine sublist_unique (hn l (List.mem_of_head? hl)) (h.1 l hl) (h'.1 l (hh ▸ hl)) fun v => ?_
  rw [h.2, h'.2]
  exact ⟨fun g l hl => g l ((hmem l).mpr hl), fun g l hl => g l ((hmem l).mp hl)⟩

/-- The number of an expression at a place is determined. -/
theorem value_unique {b y x : Rat} : ∀ (e : Expr) (v w : Num), (∀ p ∈ rasters e, Proper p) → Value b y x e v → Value b y x e w → v = w
  | .raster p, v, w, hp, ⟨c, hc, h1⟩, ⟨d, hd, h2⟩ => by
    rw [← h1, ← h2, at_unique (hp p (by simp [rasters])) hc hd]
  | .unary u k e, v, w, hp, ⟨v', h1, h2⟩, ⟨w', h3, h4⟩ => by
    rw [h2, h4, value_unique e v' w' hp h1 h3]
  | .number u k dt n first e, v, w, hp, ⟨v', h1, h2⟩, ⟨w', h3, h4⟩ => by
    rw [h2, h4, value_unique e v' w' hp h1 h3]
  | .binary u k e f, v, w, hp, ⟨v1, v2, h1, h2, h3⟩, ⟨w1, w2, h4, h5, h6⟩ => by
    rw [h3, h6, value_unique e v1 w1 (fun p h => hp p (by simp [rasters, h])) h1 h4,
      value_unique f v2 w2 (fun p h => hp p (by simp [rasters, h])) h2 h5]

/-- **C110** (laws).  Two expressions of the same rasters that begin with the same raster and have, for all numbers of the rasters, the same value
give rasters with the same bands and coordinates, the same null cells and the same values elsewhere. -/
theorem C110_laws {e f : Expr} {o o' : Placed} (hp : ∀ p ∈ rasters e, Proper p) (hu : ∀ u ∈ operations e, 0 < u.nout)
    (hu' : ∀ u ∈ operations f, 0 < u.nout) (hmem : ∀ p, p ∈ rasters e ↔ p ∈ rasters f) (hhead : (rasters e).head? = (rasters f).head?)
    (hlaw : ∀ b y x v w, Value b y x e v → Value b y x f w → v = w) (h : eval e = .ok o) (h' : eval f = .ok o') :
    SameGrid o o' ∧ (o.raster.nv ≠ none ↔ o'.raster.nv ≠ none) ∧ ∀ c b y x, At o c b y x →
      o.raster.mask c = o'.raster.mask c ∧ (o.raster.mask c = false → o.raster.data c = o'.raster.data c) := by
  have i1 := C110_cells e o hp hu h
  have i2 := C110_cells f o' (fun p hf => hp p ((hmem p).mpr hf)) hu' h'
  have key : ∀ g : Placed → List Rat, (∀ p ∈ rasters e, (g p).Nodup) → CommonAll ((rasters e).map g) (g o) →
      CommonAll ((rasters f).map g) (g o') → g o = g o' := by
    intro g hg c1 c2
    refine commonAll_unique (by simp [rasters_ne]) ?_ ?_ ?_ c1 c2
    · intro l hl
      obtain ⟨p, hp', rfl⟩ := List.mem_map.mp hl
      exact hg p hp'
    · rw [List.head?_map, List.head?_map, hhead]
    · intro l
      simp [hmem]
  have g1 := key (·.bands) (fun p h => (hp p h).2.2.2.1) i1.bands i2.bands
  have g2 := key (·.ys) (fun p h => (hp p h).2.2.2.2.1) i1.ys i2.ys
  have g3 := key (·.xs) (fun p h => (hp p h).2.2.2.2.2.1) i1.xs i2.xs
  refine ⟨⟨g1, g2, g3⟩, ?_, ?_⟩
  · rw [i1.nv, i2.nv]
    simp [hmem]
  · intro c b y x hat
    have hat' : At o' c b y x := by
      unfold At at hat ⊢
      rw [← g1, ← g2, ← g3]
      exact hat
    have hm : o.raster.mask c = o'.raster.mask c := by
      rw [Bool.eq_iff_iff, i1.null c b y x hat, i2.null c b y x hat']
      unfold Null
      simp [hmem]
    exact ⟨hm, fun hf => hlaw b y x _ _ (i1.value c b y x hat hf) (i2.value c b y x hat' (hm ▸ hf))⟩

theorem grid_of {e : Expr} {o : Placed} (h : Is e o) (hp : ∀ p ∈ rasters e, Proper p) {q : Placed} (hq : q ∈ rasters e)
    (hs : ∀ p ∈ rasters e, SameGrid p q) : SameGrid o q := by
  have key : ∀ g : Placed → List Rat, (∀ p ∈ rasters e, (g p).Nodup) → (∀ p ∈ rasters e, g p = g q) →
      CommonAll ((rasters e).map g) (g o) → g o = g q := by
    intro g hg hs c1
    obtain ⟨p, hpe⟩ : ∃ p, (rasters e).head? = some p := by
      cases hr : rasters e with
      | nil => exact absurd hr (rasters_ne e)
      | cons p _ => exact ⟨p, rfl⟩
    have hmem := List.mem_of_head? hpe
    refine sublist_unique (hg q hq) ?_ (List.Sublist.refl _) fun v => ?_
    · rw [← hs p hmem]
      exact c1.1 _ (by rw [List.head?_map, hpe]; rfl)
    · rw [c1.2]
      constructor
      · exact fun h => h _ (List.mem_map_of_mem hq)
      · intro hv l hl
        obtain ⟨r, hr, rfl⟩ := List.mem_map.mp hl
        rwa [hs r hr]
  exact ⟨key (·.bands) (fun p h => (hp p h).2.2.2.1) (fun p h => (hs p h).1) h.bands,
    key (·.ys) (fun p h => (hp p h).2.2.2.2.1) (fun p h => (hs p h).2.1) h.ys,
    key (·.xs) (fun p h => (hp p h).2.2.2.2.2.1) (fun p h => (hs p h).2.2) h.xs⟩

theorem single_nout : ∀ e : Expr, Single e → ∀ u ∈ operations e, u.nout = 1
  | .raster _, _, u, hu => by simp [operations] at hu
  | .unary v k e, ⟨h1, _, h2⟩, u, hu => by
    rcases List.mem_cons.mp hu with rfl | hu
    · exact h1
    · exact single_nout e h2 u hu
  | .number v k dt n first e, ⟨h1, _, h2⟩, u, hu => by
    rcases List.mem_cons.mp hu with rfl | hu
    · exact h1
    · exact single_nout e h2 u hu
  | .binary v k e f, ⟨h1, _, h2, h3⟩, u, hu => by
    rcases List.mem_cons.mp hu with rfl | hu
    · exact h1
    · rcases List.mem_append.mp hu with hu | hu
      · exact single_nout e h2 u hu
      · exact single_nout f h3 u hu

theorem output_single {α : Type} {r : Except Err (List α)} {n : Nat} (hr : ∀ outs, r = .ok outs → outs.length = n) (hn : n = 1) :
    (∃ o, output 0 r = .ok o) ↔ ∃ outs, r = .ok outs := by
  constructor
  · rintro ⟨o, h⟩
    obtain ⟨outs, h1, _⟩ := output_ok h
    exact ⟨outs, h1⟩
  · rintro ⟨outs, rfl⟩
    have := hr outs rfl
    match outs, this with
    | [], h => simp [hn] at h
    | o :: _, _ => exact ⟨o, rfl⟩

theorem onOne_accepted {f : Raster → Except Err (List Raster)} {r : Except Err Placed}
    (hlen : ∀ p, r = .ok p → ∀ outs, f p.raster = .ok outs → outs.length = 1) :
    (∃ o, onOne f 0 r = .ok o) ↔ ∃ p, r = .ok p ∧ ∃ outs, f p.raster = .ok outs := by
  cases r with
  | error e =>
    constructor
    · rintro ⟨o, h⟩; cases h
    · rintro ⟨p, h, _⟩; cases h
  | ok p =>
    have := output_single (hlen p rfl) rfl
    unfold onOne
    simp only [Except.ok.injEq, exists_eq_left']
    rw [← this]
    cases ho : output 0 (f p.raster) with
    | error e => simp
    | ok o => simp

theorem fitting_left {ps qs : List Placed} (h : Fitting (ps ++ qs)) : Fitting ps := by
  rcases h with h | h
  · exact Or.inl fun p hp q hq => h p (by simp [hp]) q (by simp [hq])
  · exact Or.inr fun p hp => h p (by simp [hp])

theorem fitting_right {ps qs : List Placed} (h : Fitting (ps ++ qs)) : Fitting qs := by
  rcases h with h | h
  · exact Or.inl fun p hp q hq => h p (by simp [hp]) q (by simp [hq])
  · exact Or.inr fun p hp => h p (by simp [hp])

/-- **C110** (accepted).  If the rasters lie on one grid, or none of them has a null value, then an expression of operations with one output can be
worked out exactly if no operation on bits is given floats. -/
theorem C110_accepted : ∀ e : Expr, (∀ p ∈ rasters e, Proper p) → Single e → Fitting (rasters e) → ((∃ o, eval e = .ok o) ↔ Typed e)
  | .raster p, _, _, _ => ⟨fun _ => trivial, fun _ => ⟨p, rfl⟩⟩
  | .unary u k e, hp, ⟨h1, hk, h2⟩, hf => by
    subst hk
    have ih := C110_accepted e hp h2 hf
    have hu : ∀ u ∈ operations e, 0 < u.nout := fun v hv => by rw [single_nout e h2 v hv]; exact Nat.one_pos
    have hlen : ∀ p, eval e = .ok p → ∀ outs, applyUfunc u p.raster [.raster p.raster] = .ok outs → outs.length = 1 := by
      intro p hpe outs ho
      have hn := (C110_cells e p hp hu hpe).proper.2.2.2.2.2.2
      rw [← h1]
      exact (C14_elementwise (by omega) ho (by
        intro r hr
        simp only [List.mem_singleton, Operand.raster.injEq] at hr
        rw [hr]
        exact hn)).1
    have hacc : ∀ p : Placed, (∃ outs, applyUfunc u p.raster [.raster p.raster] = .ok outs) ↔ ¬ FloatBits u [p.raster.dtype] := by
      intro p
      have hrej := C14_rejected u p.raster [.raster p.raster]
      have hfb : ((u.bitwise = true ∨ u.shift = true) ∧ ∃ a ∈ [Operand.raster p.raster], a.ty.isFloat = true) ↔ FloatBits u [p.raster.dtype] := by
        simp [FloatBits, Operand.ty]
      rw [hfb] at hrej
      have hcase : (∃ outs, applyUfunc u p.raster [.raster p.raster] = .ok outs) ↔
          ¬ ∃ er, applyUfunc u p.raster [.raster p.raster] = .error er := by
        cases applyUfunc u p.raster [.raster p.raster] <;> simp
      rw [hcase, hrej, not_or]
      exact and_iff_left fun h => by omega
    unfold eval
    rw [onOne_accepted hlen]
    unfold Typed
    constructor
    · rintro ⟨p, hpe, ho⟩
      refine ⟨ih.mp ⟨p, hpe⟩, ?_⟩
      rw [← (C110_cells e p hp hu hpe).dtype]
      exact (hacc p).mp ho
    · rintro ⟨ht, hb⟩
      obtain ⟨p, hpe⟩ := ih.mpr ht
      refine ⟨p, hpe, (hacc p).mpr ?_⟩
      rwa [(C110_cells e p hp hu hpe).dtype]
  | .number u k dt v first e, hp, ⟨h1, hk, h2⟩, hf => by
    subst hk
    have ih := C110_accepted e hp h2 hf
    have hu : ∀ u ∈ operations e, 0 < u.nout := fun v hv => by rw [single_nout e h2 v hv]; exact Nat.one_pos
    have hlen : ∀ p, eval e = .ok p → ∀ outs, withArray u p.raster ⟨dt, [1], fun _ => v⟩ first = .ok outs → outs.length = 1 := by
      intro p hpe outs ho
      have hn := (C110_cells e p hp hu hpe).proper.2.2.2.2.2.2
      rw [← h1]
      exact (C73_array (by omega) (by simp) hn ho).1
    have hacc : ∀ p : Placed, (∃ outs, withArray u p.raster ⟨dt, [1], fun _ => v⟩ first = .ok outs) ↔ ¬ FloatBits u [p.raster.dtype, dt] := by
      intro p
      rw [C73_array_accepted u p.raster ⟨dt, [1], fun _ => v⟩ first (by simp)]
      constructor
      · rintro ⟨_, h, _⟩; exact h
      · exact fun h => ⟨Or.inl rfl, h, Or.inr (by omega)⟩
    unfold eval
    rw [onOne_accepted hlen]
    unfold Typed
    constructor
    · rintro ⟨p, hpe, ho⟩
      refine ⟨ih.mp ⟨p, hpe⟩, ?_⟩
      rw [← (C110_cells e p hp hu hpe).dtype]
      exact (hacc p).mp ho
    · rintro ⟨ht, hb⟩
      obtain ⟨p, hpe⟩ := ih.mpr ht
      refine ⟨p, hpe, (hacc p).mpr ?_⟩
      rwa [(C110_cells e p hp hu hpe).dtype]
  | .binary u k e f, hp, ⟨h1, hk, h2, h3⟩, hf => by
    subst hk
    have hpe : ∀ p ∈ rasters e, Proper p := fun p h => hp p (by simp [rasters, h])
    have hpf : ∀ p ∈ rasters f, Proper p := fun p h => hp p (by simp [rasters, h])
    have ihe := C110_accepted e hpe h2 (fitting_left hf)
    have ihf := C110_accepted f hpf h3 (fitting_right hf)
    have hue : ∀ u ∈ operations e, 0 < u.nout := fun v hv => by rw [single_nout e h2 v hv]; exact Nat.one_pos
    have huf : ∀ u ∈ operations f, 0 < u.nout := fun v hv => by rw [single_nout f h3 v hv]; exact Nat.one_pos
    have hacc : ∀ p q, eval e = .ok p → eval f = .ok q →
        ((∃ o, output 0 (Pair.binary u p q) = .ok o) ↔ ¬ FloatBits u [Spec.dtype e, Spec.dtype f]) := by
      intro p q h4 h5
      have ip := C110_cells e p hpe hue h4
      have iq := C110_cells f q hpf huf h5
      rw [output_single (fun outs ho => (C73_pairs ip.proper iq.proper (by omega) ho).1) h1, C73_accepted, ip.dtype, iq.dtype]
      refine and_iff_left ?_
      rcases hf with hf | hf
      · have hg : SameGrid p q := by
          obtain ⟨r, hr⟩ := List.exists_mem_of_ne_nil _ (rasters_ne e)
          have a := grid_of ip hpe hr fun s hs => hf s (by simp [rasters, hs]) r (by simp [rasters, hr])
          obtain ⟨t, ht⟩ := List.exists_mem_of_ne_nil _ (rasters_ne f)
          have b := grid_of iq hpf ht fun s hs => hf s (by simp [rasters, hs]) t (by simp [rasters, ht])
          have c := hf r (by simp [rasters, hr]) t (by simp [rasters, ht])
          exact ⟨a.1.trans (c.1.trans b.1.symm), a.2.1.trans (c.2.1.trans b.2.1.symm), a.2.2.trans (c.2.2.trans b.2.2.symm)⟩
        by_cases hn : p.raster.nv ≠ none ∨ q.raster.nv ≠ none
        · exact Or.inr ⟨hn, hg⟩
        · rw [not_or, not_not, not_not] at hn
          exact Or.inl ⟨hn.1, hn.2, by omega⟩
      · have a : p.raster.nv = none := by
          by_contra hc
          obtain ⟨r, hr, hn⟩ := ip.nv.mp hc
          exact hn (hf r (by simp [rasters, hr]))
        have b : q.raster.nv = none := by
          by_contra hc
          obtain ⟨r, hr, hn⟩ := iq.nv.mp hc
          exact hn (hf r (by simp [rasters, hr]))
        exact Or.inl ⟨a, b, by omega⟩
    unfold eval Typed
    constructor
    · rintro ⟨o, ho⟩
      unfold onTwo at ho
      cases h4 : eval e with
      | error er => rw [h4] at ho; cases ho
      | ok p =>
        cases h5 : eval f with
        | error er => rw [h4, h5] at ho; cases ho
        | ok q =>
          rw [h4, h5] at ho
          exact ⟨ihe.mp ⟨p, h4⟩, ihf.mp ⟨q, h5⟩, (hacc p q h4 h5).mp ⟨o, ho⟩⟩
    · rintro ⟨te, tf, hb⟩
      obtain ⟨p, h4⟩ := ihe.mpr te
      obtain ⟨q, h5⟩ := ihf.mpr tf
      rw [h4, h5]
      exact (hacc p q h4 h5).mpr hb

/-! ### Cases -/

def flipped : Num → Num
  | .fin 0 => .fin 1
  | _ => .fin 0

def both : Num → Num → Num
  | .fin 1, .fin 1 => .fin 1
  | _, _ => .fin 0

def less : Num → Num → Num
  | .fin a, .fin b => if a < b then .fin 1 else .fin 0
  | _, _ => .fin 0

/-- `np.less`, `np.bitwise_and` and `np.invert` for booleans, and `np.bitwise_or`. -/
def exLess : Ufunc := ⟨false, false, 1, fun _ _ => .bool, fun _ vs => less (vs.getD 0 .nan) (vs.getD 1 .nan)⟩
def exAnd : Ufunc := ⟨true, false, 1, fun ts _ => ts.headD .bool, fun _ vs => both (vs.getD 0 .nan) (vs.getD 1 .nan)⟩
def exNot : Ufunc := ⟨true, false, 1, fun ts _ => ts.headD .bool, fun _ vs => flipped (vs.getD 0 .nan)⟩
def exOr : Ufunc := ⟨true, false, 1, fun ts _ => ts.headD .bool, fun _ vs =>
  flipped (both (flipped (vs.getD 0 .nan)) (flipped (vs.getD 1 .nan)))⟩

/-- Two rasters of one row, the first with a null cell. -/
def exA : Placed := exPlaced (some ⟨i16, .fin 9⟩) 1 [1] [1] [1, 2, 3]
def exB : Placed := exPlaced none 0 [1] [1] [1, 2, 3]

/-- `~((a < 113) & (112 < b))` and `~(a < 113) | ~(112 < b)`. -/
def exNotBoth : Expr :=
  .unary exNot 0 (.binary exAnd 0 (.number exLess 0 i16 (.fin 113) false (.raster exA)) (.number exLess 0 i16 (.fin 112) true (.raster exB)))
def exEither : Expr :=
  .binary exOr 0 (.unary exNot 0 (.number exLess 0 i16 (.fin 113) false (.raster exA)))
    (.unary exNot 0 (.number exLess 0 i16 (.fin 112) true (.raster exB)))

/-- What is seen of a result. -/
def seen : Except Err Placed → Except Err (List Shown)
  | .error e => .error e
  | .ok p => show' (.ok [p])

example : (∀ p ∈ rasters exNotBoth, Proper p) ∧ Single exNotBoth ∧ Fitting (rasters exNotBoth) ∧ Typed exNotBoth ∧
    seen (eval exNotBoth) = .ok [⟨[1], [1], [1, 2, 3], [.fin 1, .fin 1, .fin 1], [true, false, false]⟩] := by
  refine ⟨?_, ⟨rfl, rfl, rfl, rfl, ⟨rfl, rfl, trivial⟩, rfl, rfl, trivial⟩, Or.inl ?_, ⟨⟨⟨trivial, ?_⟩, ⟨trivial, ?_⟩, ?_⟩, ?_⟩, by decide +kernel⟩
  · intro p hp
    simp only [exNotBoth, rasters, List.cons_append, List.nil_append, List.mem_cons, List.not_mem_nil, or_false] at hp
    rcases hp with rfl | rfl
    · exact exPlaced_proper _ _ (by decide +kernel) (by decide +kernel) (by decide +kernel)
    · exact exPlaced_proper _ _ (by decide +kernel) (by decide +kernel) (by decide +kernel)
  · intro p hp q hq
    simp only [exNotBoth, rasters, List.cons_append, List.nil_append, List.mem_cons, List.not_mem_nil, or_false] at hp hq
    rcases hp with rfl | rfl <;> rcases hq with rfl | rfl <;> exact ⟨rfl, rfl, rfl⟩
  · simp [FloatBits, exLess]
  · simp [FloatBits, exLess]
  · simp [FloatBits, exAnd, Spec.dtype, exLess, isFloat]
  · simp [FloatBits, exNot, Spec.dtype, exLess, exAnd, isFloat]

theorem flipped_both (v w : Num) (hv : v = .fin 0 ∨ v = .fin 1) (hw : w = .fin 0 ∨ w = .fin 1) :
    flipped (both v w) = flipped (both (flipped (flipped v)) (flipped (flipped w))) := by
  rcases hv with rfl | rfl <;> rcases hw with rfl | rfl <;> decide +kernel

theorem less_bool (v w : Num) : less v w = .fin 0 ∨ less v w = .fin 1 := by
  unfold less
  split
  · split
    · exact Or.inr rfl
    · exact Or.inl rfl
  · exact Or.inl rfl

/-- A case for `C110_laws`: De Morgan's law for two comparisons. -/
example : (∀ p, p ∈ rasters exNotBoth ↔ p ∈ rasters exEither) ∧ (rasters exNotBoth).head? = (rasters exEither).head? ∧
    (∀ b y x v w, Value b y x exNotBoth v → Value b y x exEither w → v = w) ∧ seen (eval exNotBoth) = seen (eval exEither) := by
  refine ⟨fun p => Iff.rfl, rfl, ?_, by decide +kernel⟩
  rintro b y x v w ⟨v1, ⟨v2, v3, ⟨v4, h4, h5⟩, ⟨v6, h6, h7⟩, h8⟩, h9⟩ ⟨w1, w2, ⟨w3, ⟨w4, g4, g5⟩, g6⟩, ⟨w7, ⟨w8, g8, g9⟩, g10⟩, g11⟩
  have e1 : v4 = w4 := value_unique (.raster exA) v4 w4 (by
    intro p hp
    simp only [rasters, List.mem_singleton] at hp
    rw [hp]
    exact exPlaced_proper _ _ (by decide +kernel) (by decide +kernel) (by decide +kernel)) h4 g4
  have e2 : v6 = w8 := value_unique (.raster exB) v6 w8 (by
    intro p hp
    simp only [rasters, List.mem_singleton] at hp
    rw [hp]
    exact exPlaced_proper _ _ (by decide +kernel) (by decide +kernel) (by decide +kernel)) h6 g8
  subst e1 e2
  rw [h9, h8, g11, g6, g10, h5, h7, g5, g9]
  exact flipped_both _ _ (less_bool _ _) (less_bool _ _)

end Verif.Trips.Expressions
