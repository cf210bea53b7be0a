import Verif.MosaicRaster.Props

set_option linter.unusedSectionVars false

/-!
# C108: cutting a raster and putting the pieces together again

`Raster.to_quadrants` (`raster.py:2807-2849`, C45) and `get_chunk_rasters` (`raster.py:2931-2971`, C21) cut a raster into pieces; `mosaic` (`_mosaic.py`,
C88) puts rasters together.
-/

namespace Verif.Trips.Pieces

open Verif Verif.Nulls DType
open Verif.Warp (Frame Placed Engine)
open Verif.Warp.Spec (valid Monotone Separated Nearest Upright)
open Verif.Nulls.Spec (NullsHold)
open Verif.Mosaic (Method)
open Verif.Mosaic.Spec (FirstValid LastValid ExtremeValid fle fge counted)
open Verif.MosaicRaster (mosaic Tools Args resamplingOf)
open Verif.MosaicRaster.Spec (OutType OutNull OutGrid On Apart Typed Chosen layers entries converted name)

variable {K : Type} [DecidableEq K]

/-- Rows `y0` to `y1` and columns `x0` to `x1`, the last ones not included. -/
structure Window where
  y0 : Nat
  y1 : Nat
  x0 : Nat
  x1 : Nat
  deriving DecidableEq

/-- The rows and columns of a window, with all bands: `raster.py:2832-2848`, and `2956-2966` for rasters of one band. -/
def piece (p : Placed K) (w : Window) : Placed K :=
  ⟨⟨p.frame.crs, (p.frame.ys.take w.y1).drop w.y0, (p.frame.xs.take w.x1).drop w.x0⟩,
    ⟨p.raster.dtype, p.raster.nb, w.y1 - w.y0, w.x1 - w.x0, fun c => p.raster.data (c.1, w.y0 + c.2.1, w.x0 + c.2.2),
      fun c => p.raster.mask (c.1, w.y0 + c.2.1, w.x0 + c.2.2), p.raster.nv⟩⟩

/-- `raster.py:2821-2826` the windows of `to_quadrants`. -/
def quadrants (ny nx : Nat) : List Window :=
  [⟨0, ny / 2, 0, nx / 2⟩, ⟨0, ny / 2, nx / 2, nx⟩, ⟨ny / 2, ny, 0, nx / 2⟩, ⟨ny / 2, ny, nx / 2, nx⟩]

/-- The slices of one dimension: `raster.py:2954`, `2967`. -/
def slices (start : Nat) : List Nat → List (Nat × Nat)
  | [] => []
  | c :: cs => (start, start + c) :: slices (start + c) cs

/-- `raster.py:2952-2970` the windows of `get_chunk_rasters`. -/
def chunks (ychunks xchunks : List Nat) : List Window :=
  (slices 0 ychunks).flatMap fun y => (slices 0 xchunks).map fun x => ⟨y.1, y.2, x.1, x.2⟩

namespace Spec

/-- The cell is in the window. -/
def In (w : Window) (i j : Nat) : Prop := w.y0 ≤ i ∧ i < w.y1 ∧ w.x0 ≤ j ∧ j < w.x1

instance (w : Window) (i j : Nat) : Decidable (In w i j) := by unfold In; infer_instance

/-- The grid is part of the other one: same CRS, and its rows and columns are consecutive ones of the other one. -/
def PartOf (s d : Frame K) : Prop := s.crs = d.crs ∧ s.ys <:+: d.ys ∧ s.xs <:+: d.xs

/-- The nearest neighbour on a grid that is part of the destination is the pixel at the same coordinates, if there is one. -/
def SamePixels (source : Frame K → Frame K → Nat → Nat → Option (Nat × Nat)) : Prop :=
  ∀ s d, PartOf s d → d.ys.Nodup → d.xs.Nodup → ∀ i < d.ys.length, ∀ j < d.xs.length, ∀ i' j',
    source s d i j = some (i', j') ↔ s.ys[i']? = d.ys[i]? ∧ s.xs[j']? = d.xs[j]?

/-- Every cell is in some window. -/
def Cover (ny nx : Nat) (ws : List Window) : Prop := ∀ i < ny, ∀ j < nx, ∃ w ∈ ws, In w i j

/-- The conditions on a raster: rows from north to south, columns from west to east, a null value that the dtype holds and that marks exactly the null
cells, numbers of the dtype. -/
structure Sound (t : Tools K) (p : Placed K) (s : Scalar) : Prop where
  rows : p.frame.ys.Pairwise (· > ·)
  columns : p.frame.xs.Pairwise (· < ·)
  ny : p.raster.ny = p.frame.ys.length
  nx : p.raster.nx = p.frame.xs.length
  null : p.raster.nv = some s
  apart : Separated p.raster
  typed : Typed t.np p.raster
  whole : p.raster.dtype.isFloat = false → ∀ c, p.raster.mask c = false → ∃ n : Int, p.raster.data c = .fin n ∧ p.raster.dtype.Holds n
  exact : t.np.cast p.raster.dtype s.val = s.val
  writable : t.writable p.raster.dtype s = true

/-- The arguments: a method other than the sum ('first' or 'last' for booleans), nearest neighbours, nothing else but, perhaps, the grid of the raster, which is also
that of the union of the pieces. -/
structure Plain (t : Tools K) (p : Placed K) (ws : List Window) (a : Args K) (m : Method)
    (source : Frame K → Frame K → Nat → Nat → Option (Nat × Nat)) : Prop where
  method : a.method = name m
  notSum : m ≠ .sum
  bool : p.raster.dtype = .bool → m = .first ∨ m = .last
  dtype : a.dtype = none
  null : a.null = .absent
  grid : OutGrid t (ws.map (piece p)) a.crs a.grid p.frame
  known : resamplingOf a.resampling ∈ t.engine.methods
  nearest : Nearest t.engine (resamplingOf a.resampling) source
  pixels : SamePixels source
  same : ∀ w ∈ ws, t.same (piece p w).frame p.frame = true → (piece p w).frame = p.frame

/-- The same raster: grid, dtype, null value, shape, null cells and values of the others. -/
structure Same (o p : Placed K) : Prop where
  frame : o.frame = p.frame
  dtype : o.raster.dtype = p.raster.dtype
  null : o.raster.nv = p.raster.nv
  nb : o.raster.nb = p.raster.nb
  ny : o.raster.ny = p.raster.ny
  nx : o.raster.nx = p.raster.nx
  cells : ∀ b < p.raster.nb, ∀ i < p.raster.ny, ∀ j < p.raster.nx, valid o.raster b i j = valid p.raster b i j

end Spec

open Spec

theorem orient_id {nb : Nat} {ys xs : List Rat} {get : Nat → Nat → Nat → Num} (hy : ys.Pairwise (· > ·)) (hx : xs.Pairwise (· < ·)) :
    Build.orient nb ys xs get = ⟨nb, ys, xs, get⟩ := by
  have h1 : Build.increasing ys = false := by
    cases h : Build.increasing ys with
    | false => rfl
    | true =>
      obtain ⟨h2, h3⟩ := (Build.increasing_iff ys).1 h
      exact absurd hy (fun hy => Build.not_both h2 h3 hy)
  have h2 : Build.decreasing xs = false := by
    cases h : Build.decreasing xs with
    | false => rfl
    | true =>
      obtain ⟨h2, h3⟩ := (Build.decreasing_iff xs).1 h
      exact absurd h3 (fun h3 => Build.not_both h2 hx h3)
  simp [Build.orient, h1, h2]

theorem slice_infix (l : List Rat) (a b : Nat) : (l.take b).drop a <:+: l :=
  (List.drop_suffix _ _).isInfix.trans (List.take_prefix _ _).isInfix

theorem slice_get {l : List Rat} {a b k : Nat} : ((l.take b).drop a)[k]? = if a + k < b then l[a + k]? else none := by
  rw [List.getElem?_drop, List.getElem?_take]

theorem slice_all {l : List Rat} {a b i : Nat} (h : (l.take b).drop a = l) (hi : i < l.length) : a = 0 ∧ i < b := by
  have := congrArg List.length h
  simp only [List.length_drop, List.length_take] at this
  omega

theorem piece_separated {p : Placed K} {s : Scalar} (hnv : p.raster.nv = some s) (hsep : Separated p.raster) (w : Window) :
    Separated (piece p w).raster := by
  unfold Separated at hsep ⊢
  rw [hnv] at hsep
  show match p.raster.nv with | none => _ | some s => _
  rw [hnv]
  exact fun c => hsep _

theorem sorted_inj {l : List Rat} (h : l.Nodup) {i j : Nat} (hi : i < l.length) (he : l[i]? = l[j]?) : i = j :=
  (List.getElem?_inj hi h).1 he

/-- A piece on the grid of the whole raster. -/
theorem on_piece (t : Tools K) {p : Placed K} {s : Scalar} {method : String} {source : Frame K → Frame K → Nat → Nat → Option (Nat × Nat)}
    (hmeth : method ∈ t.engine.methods) (he : Nearest t.engine method source) (hsrc : SamePixels source)
    (hy : p.frame.ys.Pairwise (· > ·)) (hx : p.frame.xs.Pairwise (· < ·)) (hnv : p.raster.nv = some s) (hsep : Separated p.raster)
    (htyped : Typed t.np p.raster) (hc : t.np.cast p.raster.dtype s.val = s.val) (w : Window)
    (hsame : t.same (piece p w).frame p.frame = true → (piece p w).frame = p.frame) :
    ∃ q, On t p.frame method (piece p w) q ∧ q.raster.dtype = p.raster.dtype ∧ q.raster.nb = p.raster.nb ∧ q.raster.nv = some s ∧
      NullsHold q.raster ∧ Typed t.np q.raster ∧
      (∀ b i j v, valid q.raster b i j = some v → ∃ c, p.raster.mask c = false ∧ p.raster.data c = v) ∧
      ∀ b, ∀ i < p.frame.ys.length, ∀ j < p.frame.xs.length,
        valid q.raster b i j = if In w i j then valid p.raster b i j else none := by
  have hsep' : ∀ c, p.raster.mask c = true ↔ p.raster.data c = s.val := by
    unfold Separated at hsep
    rw [hnv] at hsep
    exact hsep
  by_cases hf : (piece p w).frame = p.frame
  · refine ⟨piece p w, ?_, rfl, rfl, hnv, ?_, fun c => htyped _, ?_, ?_⟩
    · cases h : t.same (piece p w).frame p.frame with
      | true => exact .inl ⟨h, rfl⟩
      | false =>
        refine .inr ⟨h, ?_⟩
        simp only [Warp.reproject, hmeth, not_true_eq_false, if_false, Warp.destination, Warp.base, Warp.zoom, hf, if_true]
    · intro c h
      exact ⟨s, hnv, (hsep' _).1 h⟩
    · intro b i j v h
      unfold valid at h
      split at h
      · cases h
      · rename_i hm
        cases h
        exact ⟨(b, w.y0 + i, w.x0 + j), by simpa [piece] using hm, rfl⟩
    · intro b i hi j hj
      obtain ⟨e1, e2⟩ := slice_all (congrArg Frame.ys hf) hi
      obtain ⟨e3, e4⟩ := slice_all (congrArg Frame.xs hf) hj
      rw [if_pos ⟨by omega, e2, by omega, e4⟩]
      show (if p.raster.mask (b, w.y0 + i, w.x0 + j) then none else some (p.raster.data (b, w.y0 + i, w.x0 + j))) = _
      rw [e1, e3, Nat.zero_add, Nat.zero_add]
      rfl
  · have hsm : t.same (piece p w).frame p.frame = false := by
      cases h : t.same (piece p w).frame p.frame with
      | true => exact absurd (hsame h) hf
      | false => rfl
    let src : Nat → Nat → Nat → Option Num := fun k i j => (source (piece p w).frame p.frame i j).bind fun q => valid (piece p w).raster k q.1 q.2
    have hnod : Warp.nodata (piece p w).raster = s := by
      unfold Warp.nodata
      show (p.raster.nv).getD _ = s
      rw [hnv]
      rfl
    have hval : ∀ k i j v, src k i j = some v → ∃ c, p.raster.mask c = false ∧ p.raster.data c = v := by
      intro k i j v h
      obtain ⟨q, -, h⟩ := Option.bind_eq_some_iff.1 h
      unfold valid at h
      split at h
      · cases h
      · rename_i hm
        cases h
        exact ⟨(k, w.y0 + q.1, w.x0 + q.2), by simpa [piece] using hm, rfl⟩
    have hwarp : ∀ k i j, Warp.warped t.engine method (piece p w).frame p.frame (piece p w).raster k i j = (src k i j).getD s.val := by
      intro k i j
      unfold Warp.warped
      rw [Warp.seen_eq (piece_separated hnv hsep w), he, hnod]
      change (match src k i j with | none => _ | some v => _) = _
      cases h : src k i j with
      | none => rfl
      | some v =>
        obtain ⟨c, h1, h2⟩ := hval k i j v h
        show (if maskOf (some s.val) v = true then _ else v) = v
        rw [if_neg]
        rw [maskOf_iff]
        intro e
        have := (hsep' c).2 (h2.trans e)
        rw [h1] at this
        cases this
    refine ⟨⟨p.frame, ofData p.raster.dtype p.raster.nb p.frame.ys.length p.frame.xs.length
      (fun c => (src c.1 c.2.1 c.2.2).getD s.val) none (some s) false⟩, .inr ⟨hsm, ?_⟩, rfl, rfl, rfl, ?_, ?_, ?_, ?_⟩
    · simp only [Warp.reproject, hmeth, not_true_eq_false, if_false, Warp.destination, Warp.base, Warp.zoom]
      rw [if_neg (Ne.symm hf), orient_id hy hx, hnod]
      congr 3
      funext c
      exact hwarp _ _ _
    · intro c h
      exact ⟨s, rfl, (maskOf_iff _ _).1 h⟩
    · intro c
      show t.np.cast p.raster.dtype ((src c.1 c.2.1 c.2.2).getD s.val) = (src c.1 c.2.1 c.2.2).getD s.val
      cases h : src c.1 c.2.1 c.2.2 with
      | none => exact hc
      | some v =>
        obtain ⟨d, -, rfl⟩ := hval _ _ _ v h
        exact htyped d
    · intro b i j v h
      have h' : (if maskOf (some s.val) ((src b i j).getD s.val) = true then none else some ((src b i j).getD s.val)) = some v := h
      split at h'
      · cases h'
      · rename_i hm
        cases hs : src b i j with
        | none =>
          rw [hs] at hm
          exact absurd ((maskOf_iff _ _).2 rfl) hm
        | some u =>
          rw [hs] at h'
          cases h'
          exact hval b i j _ hs
    · intro b i hi j hj
      have hpart : PartOf (piece p w).frame p.frame := ⟨rfl, slice_infix _ _ _, slice_infix _ _ _⟩
      have hiff := hsrc (piece p w).frame p.frame hpart (hy.imp fun h => ne_of_gt h) (hx.imp fun h => ne_of_lt h) i hi j hj
      have hout : valid (ofData p.raster.dtype p.raster.nb p.frame.ys.length p.frame.xs.length
          (fun c => (src c.1 c.2.1 c.2.2).getD s.val) none (some s) false) b i j = src b i j := by
        show (if maskOf (some s.val) ((src b i j).getD s.val) = true then none else some ((src b i j).getD s.val)) = src b i j
        cases h : src b i j with
        | none =>
          show (if maskOf (some s.val) s.val = true then none else some s.val) = none
          rw [if_pos ((maskOf_iff _ _).2 rfl)]
        | some v =>
          obtain ⟨c, h1, h2⟩ := hval b i j v h
          show (if maskOf (some s.val) v = true then _ else some v) = some v
          rw [if_neg]
          rw [maskOf_iff]
          intro e
          have := (hsep' c).2 (h2.trans e)
          rw [h1] at this
          cases this
      refine hout.trans ?_
      by_cases hin : In w i j
      · rw [if_pos hin]
        obtain ⟨h1, h2, h3, h4⟩ := hin
        have : source (piece p w).frame p.frame i j = some (i - w.y0, j - w.x0) := by
          rw [hiff]
          constructor
          · show ((p.frame.ys.take w.y1).drop w.y0)[i - w.y0]? = _
            rw [slice_get, Nat.add_sub_cancel' h1, if_pos h2]
          · show ((p.frame.xs.take w.x1).drop w.x0)[j - w.x0]? = _
            rw [slice_get, Nat.add_sub_cancel' h3, if_pos h4]
        show (source (piece p w).frame p.frame i j).bind _ = _
        rw [this]
        show (if p.raster.mask (b, w.y0 + (i - w.y0), w.x0 + (j - w.x0)) then none
          else some (p.raster.data (b, w.y0 + (i - w.y0), w.x0 + (j - w.x0)))) = _
        rw [Nat.add_sub_cancel' h1, Nat.add_sub_cancel' h3]
        rfl
      · rw [if_neg hin]
        show (source (piece p w).frame p.frame i j).bind _ = none
        cases hs : source (piece p w).frame p.frame i j with
        | none => rfl
        | some q =>
          obtain ⟨i', j'⟩ := q
          obtain ⟨e1, e2⟩ := (hiff i' j').1 hs
          exfalso
          apply hin
          have e1' : ((p.frame.ys.take w.y1).drop w.y0)[i']? = p.frame.ys[i]? := e1
          have e2' : ((p.frame.xs.take w.x1).drop w.x0)[j']? = p.frame.xs[j]? := e2
          rw [slice_get] at e1' e2'
          split at e1'
          · split at e2'
            · have a1 := sorted_inj (hy.imp fun h => ne_of_gt h) hi e1'.symm
              have a2 := sorted_inj (hx.imp fun h => ne_of_lt h) hj e2'.symm
              exact ⟨by omega, by omega, by omega, by omega⟩
            · rw [List.getElem?_eq_getElem hj] at e2'
              cases e2'
          · rw [List.getElem?_eq_getElem hi] at e1'
            cases e1'

theorem reduce_same (d : DType) (l : List DType) (hne : l ≠ []) (h : ∀ e ∈ l, e = d) : reducePromote l = some d := by
  cases l with
  | nil => exact absurd rfl hne
  | cons e es =>
    have he := h e (by simp)
    subst he
    have hes : ∀ x ∈ es, x = e := fun x hx => h x (by simp [hx])
    show es.foldl (fun acc e => acc.bind (·.promote e)) (some e) = some e
    clear h hne
    induction es with
    | nil => rfl
    | cons x xs ih =>
      rw [List.foldl_cons, hes x (by simp)]
      have : (some e).bind (·.promote e) = some e := by cases e <;> rfl
      rw [this]
      exact ih fun y hy => hes y (by simp [hy])

theorem chosen_only {m : Method} {l : List (Option Num)} {r u : Option Num} (hsum : m ≠ .sum) (hl : ∀ x ∈ l, x = none ∨ x = u) (hu : u ∈ l)
    (h : Chosen m l r) : r = u := by
  have none_case : (r = none ∧ ∀ x ∈ l, x = none) → r = u := fun h => h.1.trans (h.2 u hu).symm
  have some_case : ∀ v, some v ∈ l → r = some v → r = u := by
    intro v hv hr
    rcases hl _ hv with h | h
    · cases h
    · exact hr.trans h
  cases m with
  | sum => exact absurd rfl hsum
  | first =>
    rcases h with h | ⟨pre, v, post, rfl, -, hr⟩
    · exact none_case h
    · exact some_case v (by simp) hr
  | last =>
    rcases h with h | ⟨pre, v, post, rfl, -, hr⟩
    · exact none_case h
    · exact some_case v (by simp) hr
  | min =>
    rcases h with h | ⟨v, hr, hv, -⟩
    · exact none_case h
    · exact some_case v hv hr
  | max =>
    rcases h with h | ⟨v, hr, hv, -⟩
    · exact none_case h
    · exact some_case v hv hr

theorem all_pieces {α β : Type} {P : α → β → Prop} {l : List α} (h : ∀ a ∈ l, ∃ b, P a b) : ∃ bs, List.Forall₂ P l bs := by
  induction l with
  | nil => exact ⟨[], .nil⟩
  | cons a l ih =>
    obtain ⟨b, hb⟩ := h a (by simp)
    obtain ⟨bs, hbs⟩ := ih fun x hx => h x (by simp [hx])
    exact ⟨b :: bs, .cons hb hbs⟩

theorem pair_left {α β : Type} {P : α → β → Prop} {l : List α} {bs : List β} (h : List.Forall₂ P l bs) {a : α} (ha : a ∈ l) :
    ∃ b ∈ bs, P a b := by
  induction h with
  | nil => simp at ha
  | cons hab _ ih =>
    rcases List.mem_cons.1 ha with rfl | ha
    · exact ⟨_, by simp, hab⟩
    · obtain ⟨b, hb, hP⟩ := ih ha
      exact ⟨b, by simp [hb], hP⟩

theorem pair_right {α β : Type} {P : α → β → Prop} {l : List α} {bs : List β} (h : List.Forall₂ P l bs) {b : β} (hb : b ∈ bs) :
    ∃ a ∈ l, P a b := by
  induction h with
  | nil => simp at hb
  | cons hab _ ih =>
    rcases List.mem_cons.1 hb with rfl | hb
    · exact ⟨_, by simp, hab⟩
    · obtain ⟨a, ha, hP⟩ := ih hb
      exact ⟨a, by simp [ha], hP⟩

theorem upright_same {f g : Frame K} (hy : f.ys.Pairwise (· > ·)) (hx : f.xs.Pairwise (· < ·)) (h : Upright f g) : g = f := by
  obtain ⟨h1, h2, h3, h4, h5⟩ := h
  have e1 : g.ys = f.ys := h2.eq_of_pairwise (fun a b _ _ h h' => absurd h (not_lt_of_gt h')) h4 hy
  have e2 : g.xs = f.xs := h3.eq_of_pairwise (fun a b _ _ h h' => absurd h (not_lt_of_gt h')) h5 hx
  cases f
  cases g
  simp_all

/-- **C108 (pieces).**  The mosaic of pieces of a raster on its grid, by any of the methods 'first', 'last', 'min' and 'max', whether the pieces overlap
or not, has the raster's grid, dtype, null value and bands; what some piece covers is as in the raster, the rest is null. -/
theorem C108_pieces {t : Tools K} {p : Placed K} {s : Scalar} {ws : List Window} {a : Args K} {m : Method}
    {source : Frame K → Frame K → Nat → Nat → Option (Nat × Nat)} (hp : Sound t p s) (ha : Plain t p ws a m source) (hne : ws ≠ []) :
    ∃ out, mosaic t (ws.map (piece p)) a = .ok out ∧ out.frame = p.frame ∧ out.raster.dtype = p.raster.dtype ∧ out.raster.nv = p.raster.nv ∧
      out.raster.nb = p.raster.nb ∧ out.raster.ny = p.raster.ny ∧ out.raster.nx = p.raster.nx ∧
      ∀ b < p.raster.nb, ∀ i < p.raster.ny, ∀ j < p.raster.nx,
        ((∃ w ∈ ws, In w i j) → valid out.raster b i j = valid p.raster b i j) ∧ ((∀ w ∈ ws, ¬ In w i j) → valid out.raster b i j = none) := by
  obtain ⟨hy, hx, hny, hnx, hnv, hsep, htyped, hwhole, hc, hw⟩ := hp
  obtain ⟨hm, hsum, hbool, hdt, hnull, hgrid, hmeth, he, hsrc, hsame⟩ := ha
  have hsep' : ∀ c, p.raster.mask c = true ↔ p.raster.data c = s.val := by
    unfold Separated at hsep
    rw [hnv] at hsep
    exact hsep
  obtain ⟨qs, hqs⟩ := all_pieces fun w hw => on_piece t hmeth he hsrc hy hx hnv hsep htyped hc w (hsame w hw)
  have hon : List.Forall₂ (On t p.frame (resamplingOf a.resampling)) (ws.map (piece p)) qs := by
    rw [List.forall₂_map_left_iff]
    exact hqs.imp fun _ _ h => h.1
  have hout : OutType (ws.map (piece p)) a.dtype p.raster.dtype := by
    refine .inr ⟨hdt, reduce_same _ _ (by simpa using hne) ?_⟩
    intro e hmem
    simp only [List.map_map, List.mem_map] at hmem
    obtain ⟨w, -, rfl⟩ := hmem
    rfl
  have hnullS : OutNull (ws.map (piece p)) p.raster.dtype a.null s := by
    refine .inr ⟨hnull, .inl ?_⟩
    cases ws with
    | nil => exact absurd rfl hne
    | cons w ws => exact ⟨[], piece p w, ws.map (piece p), rfl, by simp, hnv⟩
  obtain ⟨out, h1, h2, h3, h4, h5, h6, h7, h8⟩ := MosaicRaster.C88_mosaic_partial t (by simpa using hne) hm hmeth hout hnullS hgrid hon
    (fun q hq => by
      obtain ⟨w, -, h⟩ := pair_right hqs hq
      exact h.2.2.2.2.1)
    (fun q hq => by
      obtain ⟨w, -, h⟩ := pair_right hqs hq
      exact h.2.2.2.2.2.1) hw hc
    (fun q hq => by
      obtain ⟨w, -, h⟩ := pair_right hqs hq
      intro old ho
      rw [h.2.2.2.1] at ho
      cases ho
      exact .inl rfl) hsum hbool
    (fun hf q hq b i j v hv => by
      obtain ⟨w, -, h⟩ := pair_right hqs hq
      obtain ⟨c, hc1, hc2⟩ := h.2.2.2.2.2.2.1 b i j v hv
      obtain ⟨n, hn1, hn2⟩ := hwhole hf c hc1
      refine ⟨n, ?_, hn2⟩
      unfold converted
      rw [if_pos h.2.1.symm, ← hc2, hn1]) (.inr hy) (.inl hx)
  have hnb : ∀ b, b < out.raster.nb ↔ b < p.raster.nb := by
    intro b
    rw [h7]
    constructor
    · rintro ⟨q, hq, hb⟩
      obtain ⟨w, -, h⟩ := pair_right hqs hq
      rw [h.2.2.1] at hb
      exact hb
    · intro hb
      cases ws with
      | nil => exact absurd rfl hne
      | cons w ws =>
        obtain ⟨q, hq, h⟩ := pair_left hqs (a := w) (by simp)
        exact ⟨q, hq, by rw [h.2.2.1]; exact hb⟩
  refine ⟨out, h1, upright_same hy hx h2, h3, h4.trans hnv.symm, ?_, h5.trans hny.symm, h6.trans hnx.symm, ?_⟩
  · have a1 := hnb out.raster.nb
    have a2 := hnb p.raster.nb
    omega
  · intro b hb i hi j hj
    have entry : ∀ q : Placed K, q.raster.dtype = p.raster.dtype → q.raster.nb = p.raster.nb →
        (entries t.np p.raster.dtype i j q.raster)[b]? = some (valid q.raster b i j) := by
      intro q e1 e2
      have : converted t.np p.raster.dtype q.raster = id := by
        funext v
        unfold converted
        rw [if_pos e1.symm]
        rfl
      unfold entries
      rw [this, e2]
      simp [hb]
    have hcounted : counted s.val (valid p.raster b i j) = valid p.raster b i j := by
      unfold counted
      rw [if_neg]
      intro h
      unfold valid at h
      split at h
      · cases h
      · rename_i hm'
        exact hm' ((hsep' _).2 (Option.some.inj h))
    have hlayer : ∀ x ∈ (layers t.np p.raster.dtype qs b i j).map (counted s.val),
        ∃ w ∈ ws, x = if In w i j then valid p.raster b i j else none := by
      intro x hx'
      obtain ⟨y, hy', rfl⟩ := List.mem_map.1 hx'
      unfold layers at hy'
      obtain ⟨q, hq, hqe⟩ := List.mem_filterMap.1 hy'
      obtain ⟨w, hw', h⟩ := pair_right hqs hq
      rw [entry q h.2.1 h.2.2.1, h.2.2.2.2.2.2.2 b i (hny ▸ hi) j (hnx ▸ hj)] at hqe
      refine ⟨w, hw', ?_⟩
      by_cases hin : In w i j
      · rw [if_pos hin] at hqe ⊢
        cases hqe
        exact hcounted
      · rw [if_neg hin] at hqe ⊢
        cases hqe
        rfl
    have hmem : ∀ w ∈ ws, (if In w i j then valid p.raster b i j else none) ∈ (layers t.np p.raster.dtype qs b i j).map (counted s.val) := by
      intro w hw'
      obtain ⟨q, hq, h⟩ := pair_left hqs hw'
      refine List.mem_map.2 ⟨if In w i j then valid p.raster b i j else none, ?_, ?_⟩
      · unfold layers
        refine List.mem_filterMap.2 ⟨q, hq, ?_⟩
        rw [entry q h.2.1 h.2.2.1, h.2.2.2.2.2.2.2 b i (hny ▸ hi) j (hnx ▸ hj)]
      · by_cases hin : In w i j
        · rw [if_pos hin]
          exact hcounted
        · rw [if_neg hin]
          rfl
    have hch := h8 b i j ((hnb b).2 hb)
    constructor
    · rintro ⟨w, hw', hin⟩
      refine chosen_only hsum ?_ ?_ hch
      · intro x hx'
        obtain ⟨v, -, rfl⟩ := hlayer x hx'
        by_cases hv : In v i j
        · exact .inr (if_pos hv)
        · exact .inl (if_neg hv)
      · have := hmem w hw'
        rw [if_pos hin] at this
        exact this
    · intro hno
      refine chosen_only hsum ?_ ?_ hch
      · intro x hx'
        obtain ⟨v, hv, rfl⟩ := hlayer x hx'
        exact .inl (if_neg (hno v hv))
      · obtain ⟨w, hw'⟩ := List.exists_mem_of_ne_nil ws hne
        have := hmem w hw'
        rw [if_neg (hno w hw')] at this
        exact this

/-! ### Quadrants and chunks -/

theorem quadrants_cover (ny nx : Nat) : Cover ny nx (quadrants ny nx) := by
  intro i hi j hj
  unfold quadrants
  by_cases h1 : i < ny / 2 <;> by_cases h2 : j < nx / 2
  · exact ⟨_, .head _, Nat.zero_le _, h1, Nat.zero_le _, h2⟩
  · exact ⟨_, .tail _ (.head _), Nat.zero_le _, h1, Nat.le_of_not_lt h2, hj⟩
  · exact ⟨_, .tail _ (.tail _ (.head _)), Nat.le_of_not_lt h1, hi, Nat.zero_le _, h2⟩
  · exact ⟨_, .tail _ (.tail _ (.tail _ (.head _))), Nat.le_of_not_lt h1, hi, Nat.le_of_not_lt h2, hj⟩

theorem slices_cover (cs : List Nat) (start i : Nat) (h1 : start ≤ i) (h2 : i < start + cs.sum) :
    ∃ w ∈ slices start cs, w.1 ≤ i ∧ i < w.2 := by
  induction cs generalizing start with
  | nil => simp at h2; omega
  | cons c cs ih =>
    rw [List.sum_cons] at h2
    by_cases h : i < start + c
    · exact ⟨_, .head _, h1, h⟩
    · obtain ⟨w, hw, h'⟩ := ih (start + c) (by omega) (by omega)
      exact ⟨w, .tail _ hw, h'⟩

theorem chunks_cover (ychunks xchunks : List Nat) : Cover ychunks.sum xchunks.sum (chunks ychunks xchunks) := by
  intro i hi j hj
  obtain ⟨y, hy, h1⟩ := slices_cover ychunks 0 i (by omega) (by omega)
  obtain ⟨x, hx, h2⟩ := slices_cover xchunks 0 j (by omega) (by omega)
  exact ⟨_, List.mem_flatMap.2 ⟨y, hy, List.mem_map.2 ⟨x, hx, rfl⟩⟩, h1.1, h1.2, h2.1, h2.2⟩

theorem whole_again {t : Tools K} {p : Placed K} {s : Scalar} {ws : List Window} {a : Args K} {m : Method}
    {source : Frame K → Frame K → Nat → Nat → Option (Nat × Nat)} (hp : Sound t p s) (ha : Plain t p ws a m source) (hne : ws ≠ [])
    (hcover : Cover p.raster.ny p.raster.nx ws) : ∃ out, mosaic t (ws.map (piece p)) a = .ok out ∧ Same out p := by
  obtain ⟨out, h, h1, h2, h3, h4, h5, h6, h7⟩ := C108_pieces hp ha hne
  exact ⟨out, h, h1, h2, h3, h4, h5, h6, fun b hb i hi j hj => (h7 b hb i hi j hj).1 (hcover i hi j hj)⟩

/-- **C108 (quadrants).**  The mosaic of the quadrants of a raster is the raster. -/
theorem C108_quadrants {t : Tools K} {p : Placed K} {s : Scalar} {a : Args K} {m : Method}
    {source : Frame K → Frame K → Nat → Nat → Option (Nat × Nat)} (hp : Sound t p s)
    (ha : Plain t p (quadrants p.raster.ny p.raster.nx) a m source) :
    ∃ out, mosaic t ((quadrants p.raster.ny p.raster.nx).map (piece p)) a = .ok out ∧ Same out p :=
  whole_again hp ha (by simp [quadrants]) (quadrants_cover _ _)

/-- **C108 (chunks).**  The mosaic of the chunk rasters of a raster of one band is the raster. -/
theorem C108_chunks {t : Tools K} {p : Placed K} {s : Scalar} {a : Args K} {m : Method} {ychunks xchunks : List Nat}
    {source : Frame K → Frame K → Nat → Nat → Option (Nat × Nat)} (hp : Sound t p s) (hys : ychunks.sum = p.raster.ny) (hxs : xchunks.sum = p.raster.nx)
    (hy0 : ychunks ≠ []) (hx0 : xchunks ≠ []) (ha : Plain t p (chunks ychunks xchunks) a m source) :
    ∃ out, mosaic t ((chunks ychunks xchunks).map (piece p)) a = .ok out ∧ Same out p := by
  refine whole_again hp ha ?_ (hys ▸ hxs ▸ chunks_cover _ _)
  match ychunks, xchunks, hy0, hx0 with
  | y :: ys, x :: xs, _, _ => simp [chunks, slices]

theorem slices_within (cs : List Nat) (start : Nat) {w : Nat × Nat} (h : w ∈ slices start cs) : w.1 ≤ w.2 ∧ w.2 ≤ start + cs.sum := by
  induction cs generalizing start with
  | nil => cases h
  | cons c cs ih =>
    rw [List.sum_cons]
    rcases List.mem_cons.1 h with rfl | h
    · exact ⟨by simp, by simp⟩
    · have := ih (start + c) h
      omega

/-- **C108 (cells of the pieces).**  Every quadrant and every chunk raster has as many rows and columns as coordinates, the raster's CRS, dtype, null value
and bands, and each of its cells is the cell of the raster at the same coordinates. -/
theorem C108_cells (p : Placed K) {ychunks xchunks : List Nat} {w : Window} (hny : p.raster.ny = p.frame.ys.length)
    (hnx : p.raster.nx = p.frame.xs.length) (hys : ychunks.sum = p.raster.ny) (hxs : xchunks.sum = p.raster.nx)
    (hw : w ∈ quadrants p.raster.ny p.raster.nx ∨ w ∈ chunks ychunks xchunks) :
    (piece p w).frame.crs = p.frame.crs ∧ (piece p w).raster.dtype = p.raster.dtype ∧ (piece p w).raster.nv = p.raster.nv ∧
      (piece p w).raster.nb = p.raster.nb ∧ (piece p w).raster.ny = (piece p w).frame.ys.length ∧
      (piece p w).raster.nx = (piece p w).frame.xs.length ∧
      ∀ b, ∀ i < (piece p w).raster.ny, ∀ j < (piece p w).raster.nx, ∃ i' < p.raster.ny, ∃ j' < p.raster.nx,
        (piece p w).frame.ys[i]? = p.frame.ys[i']? ∧ (piece p w).frame.xs[j]? = p.frame.xs[j']? ∧
        valid (piece p w).raster b i j = valid p.raster b i' j' := by
  have hin : w.y0 ≤ w.y1 ∧ w.y1 ≤ p.raster.ny ∧ w.x0 ≤ w.x1 ∧ w.x1 ≤ p.raster.nx := by
    rcases hw with hw | hw
    · simp only [quadrants, List.mem_cons, List.not_mem_nil, or_false] at hw
      rcases hw with rfl | rfl | rfl | rfl <;> refine ⟨?_, ?_, ?_, ?_⟩ <;> simp only <;> omega
    · obtain ⟨y, hy, hw⟩ := List.mem_flatMap.1 hw
      obtain ⟨x, hx, rfl⟩ := List.mem_map.1 hw
      have h1 := slices_within _ _ hy
      have h2 := slices_within _ _ hx
      exact ⟨h1.1, by simp only; omega, h2.1, by simp only; omega⟩
  obtain ⟨h1, h2, h3, h4⟩ := hin
  have e1 : (piece p w).raster.ny = w.y1 - w.y0 := rfl
  have e2 : (piece p w).raster.nx = w.x1 - w.x0 := rfl
  refine ⟨rfl, rfl, rfl, rfl, ?_, ?_, ?_⟩
  · show _ = ((p.frame.ys.take w.y1).drop w.y0).length
    rw [List.length_drop, List.length_take, e1]
    omega
  · show _ = ((p.frame.xs.take w.x1).drop w.x0).length
    rw [List.length_drop, List.length_take, e2]
    omega
  · intro b i hi j hj
    rw [e1] at hi
    rw [e2] at hj
    refine ⟨w.y0 + i, by omega, w.x0 + j, by omega, ?_, ?_, rfl⟩
    · show ((p.frame.ys.take w.y1).drop w.y0)[i]? = _
      rw [slice_get, if_pos (by omega)]
    · show ((p.frame.xs.take w.x1).drop w.x0)[j]? = _
      rw [slice_get, if_pos (by omega)]

/-! ### A concrete case -/

/-- The pixel at the same coordinates. -/
def exSource (s d : Frame Nat) (i j : Nat) : Option (Nat × Nat) :=
  match d.ys[i]?, d.xs[j]? with
  | some y, some x => match s.ys.idxOf? y, s.xs.idxOf? x with
    | some r, some c => some (r, c)
    | _, _ => none
  | _, _ => none

theorem idx_iff {l : List Rat} (h : l.Nodup) (y : Rat) (r : Nat) : l.idxOf? y = some r ↔ l[r]? = some y := by
  rw [List.idxOf?, List.findIdx?_eq_some_iff_getElem]
  constructor
  · rintro ⟨hr, h1, -⟩
    rw [List.getElem?_eq_getElem hr]
    simpa using h1
  · intro h1
    obtain ⟨hr, h2⟩ := List.getElem?_eq_some_iff.1 h1
    refine ⟨hr, by simpa using h2, ?_⟩
    intro j hj
    simp only [beq_iff_eq]
    intro h3
    have := (List.Nodup.getElem_inj_iff h).1 (h3.trans h2.symm)
    omega

theorem exSource_same : SamePixels exSource := by
  intro s d hpart hy hx i hi j hj i' j'
  obtain ⟨-, h1, h2⟩ := hpart
  have hy' := hy.sublist h1.sublist
  have hx' := hx.sublist h2.sublist
  unfold exSource
  rw [List.getElem?_eq_getElem hi, List.getElem?_eq_getElem hj]
  rw [← idx_iff hy', ← idx_iff hx']
  show (match s.ys.idxOf? d.ys[i], s.xs.idxOf? d.xs[j] with | some r, some c => some (r, c) | _, _ => none) = some (i', j') ↔ _
  cases s.ys.idxOf? d.ys[i] with
  | none => simp
  | some a => cases s.xs.idxOf? d.xs[j] with
    | none => simp
    | some b => simp

theorem exTools_nearest : Nearest MosaicRaster.exTools.engine "nearest" exSource := by
  intro s d f i j
  unfold exSource
  simp only [MosaicRaster.exTools]
  cases d.ys[i]? with
  | none => rfl
  | some y => cases d.xs[j]? with
    | none => rfl
    | some x =>
      show (match s.ys.idxOf? y, s.xs.idxOf? x with | some r, some c => f r c | _, _ => none) =
        (match s.ys.idxOf? y, s.xs.idxOf? x with | some r, some c => some (r, c) | _, _ => none).bind fun q => f q.1 q.2
      cases s.ys.idxOf? y with
      | none => rfl
      | some a => cases s.xs.idxOf? x with
        | none => rfl
        | some b => rfl

/-- Three rows and five columns of small integers, every third cell null. -/
def exWhole : Placed Nat :=
  ⟨⟨1, [2, 1, 0], [0, 1, 2, 3, 4]⟩, ofData i32 1 3 5 (fun c => if (c.2.1 + c.2.2) % 3 = 0 then .fin (-1) else .fin 7) none
    (some ⟨i32, .fin (-1)⟩) false⟩

/-- The hypotheses of C108 are met by the quadrants and by chunks. -/
example : Sound MosaicRaster.exTools exWhole ⟨i32, .fin (-1)⟩ ∧
    (∀ ws : List Window, Plain MosaicRaster.exTools exWhole ws (MosaicRaster.exArgs "max" exWhole.frame) .max exSource) ∧
    [2, 1].sum = exWhole.raster.ny ∧ [4, 1].sum = exWhole.raster.nx := by
  refine ⟨⟨by decide +kernel, by decide +kernel, rfl, rfl, rfl, ?_, fun _ => rfl, ?_, rfl, rfl⟩, fun ws => ?_, rfl, rfl⟩
  · intro c
    exact maskOf_iff (.fin (-1)) (exWhole.raster.data c)
  · intro _ c hc
    have hd : exWhole.raster.data c = if (c.2.1 + c.2.2) % 3 = 0 then .fin (-1) else .fin 7 := rfl
    rw [hd]
    split
    · exact ⟨-1, by norm_num, -2147483648, 2147483647, rfl, by norm_num, by norm_num⟩
    · exact ⟨7, by norm_num, -2147483648, 2147483647, rfl, by norm_num, by norm_num⟩
  · refine ⟨rfl, by decide, (fun h => nomatch h), rfl, rfl, .inl rfl, by decide, exTools_nearest, exSource_same, ?_⟩
    intro w _ h
    exact of_decide_eq_true h

/-- The last quadrant and the last chunk. -/
example : (⟨1, 3, 2, 5⟩ : Window) ∈ quadrants exWhole.raster.ny exWhole.raster.nx ∧ (⟨2, 3, 4, 5⟩ : Window) ∈ chunks [2, 1] [4, 1] ∧
    (piece exWhole ⟨1, 3, 2, 5⟩).frame.ys = [1, 0] ∧ (piece exWhole ⟨1, 3, 2, 5⟩).raster.ny = 2 := by
  decide +kernel

/-- The quadrants of the raster, put together: the second row. -/
example : (match mosaic MosaicRaster.exTools ((quadrants 3 5).map (piece exWhole)) (MosaicRaster.exArgs "max" exWhole.frame) with
    | .ok o => (List.range 5).map fun j => valid o.raster 0 1 j
    | .error _ => []) = [some (.fin 7), some (.fin 7), none, some (.fin 7), some (.fin 7)] := by
  decide +kernel

end Verif.Trips.Pieces
