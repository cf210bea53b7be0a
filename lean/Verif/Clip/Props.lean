import Verif.Clip.Model
import Verif.Rasterize.Props

/-!
# Properties of `clip`, `erase`, `mask` and `envelope`: C34
-/

set_option linter.unusedSectionVars false

namespace Verif.Clip

open Verif Verif.Nulls Verif.Rasterize DType
open Verif.Rasterize.Spec (Touched Lawful Geometric TwoByTwo Covers)

variable {G : Type}

namespace Spec

/-- What is assumed of one raster and the features: the laws of `Rasterize`, and that the geometry has its size.
The theorems are partial because of `boxes`, see `C34_single_row_chunk`. -/
structure Good (ext : Ext G) (t : Table G) (like : Like G) (ny nx : Nat) : Prop where
  lawful : Lawful ext like
  geometric : Geometric like
  boxes : TwoByTwo like
  hull : Covers like t.parts (t.parts.map ext.hull)
  empty : ∀ f ∈ t.parts.flatten, f.empty = true → ∀ p, like.touch f.geom p = false
  rows : like.ychunks.sum = ny
  cols : like.xchunks.sum = nx

/-- The geometry of a window is that of the whole raster. -/
def Seen (p : Place G) (w : Window) : Prop :=
  ∀ g y x, (p.like w).touch g (y, x) = p.whole.touch g (w.row + y, w.col + x)

/-- The null value of the results. -/
def nullOf (r : Raster) : Scalar := r.nv.getD (defaultNull r.dtype)

/-- A null cell of the input. -/
def Null (r : Raster) (c : Cell) : Prop := r.masked = true ∧ r.mask c = true

/-- `o` holds the cells of the window of `r` that are in `keep`; the others are null and hold the null value. -/
def Keeps (r : Raster) (w : Window) (keep : Nat → Nat → Prop) (o : Raster) : Prop :=
  o.dtype = r.dtype ∧ o.nb = r.nb ∧ o.ny = w.ny ∧ o.nx = w.nx ∧ o.nv = some (nullOf r) ∧
  ∀ b y x, b < r.nb → y < w.ny → x < w.nx →
    (o.mask (b, y, x) = false ↔ keep (w.row + y) (w.col + x) ∧ ¬ Null r (b, w.row + y, w.col + x)) ∧
    (keep (w.row + y) (w.col + x) → o.data (b, y, x) = r.data (b, w.row + y, w.col + x)) ∧
    (¬ keep (w.row + y) (w.col + x) → o.data (b, y, x) = (nullOf r).val)

end Spec

open Spec

theorem apply_spec {np : NumPy} {ext : Ext G} {t : Table G} {r : Raster} {like : Like G} {invert env : Bool}
    (h : Good ext t like r.ny r.nx) :
    ∃ o, apply np ext t r like invert env = .ok o ∧ o.dtype = r.dtype ∧ o.nb = r.nb ∧ o.ny = r.ny ∧ o.nx = r.nx ∧
      o.nv = some (nullOf r) ∧
      ∀ b y x, y < r.ny → x < r.nx →
        let keep := if env then invert = false else (Touched like t.parts.flatten (y, x) ↔ invert = false)
        (o.mask (b, y, x) = false ↔ keep ∧ ¬ Null r (b, y, x)) ∧ (keep → o.data (b, y, x) = r.data (b, y, x)) ∧
        (¬ keep → o.data (b, y, x) = (nullOf r).val) := by
  obtain ⟨f, t', e, _, _, _, h1, h2, h3⟩ := C33_mask (np := np) (t := { t with spatial := none }) (invert := false)
    (crsDiffers := false) (aware := false) h.lawful h.geometric h.boxes (fun _ _ h => nomatch h) h.hull h.empty
  unfold apply
  rw [e]
  have hnv : (if r.masked then r.nv.getD (defaultNull r.dtype) else defaultNull r.dtype) = nullOf r := by
    unfold nullOf Raster.masked
    cases r.nv <;> rfl
  refine ⟨_, rfl, rfl, rfl, rfl, rfl, by rw [hnv], ?_⟩
  intro b y x hy hx
  obtain ⟨d1, d2, d3⟩ := h3 y x (by rw [h1, h.rows]; exact hy) (by rw [h2, h.cols]; exact hx)
  have hmask : f.mask (0, y, x) = true ↔ ¬ Touched like t.parts.flatten (y, x) := by
    rw [d3]
    simp only [eq_self_iff_true, iff_true] at d2
    rw [← d2]
    rcases d1 with d1 | d1 <;> rw [d1] <;> simp
  have hkeep : clipMask f invert env (b, y, x) = true ↔
      (if env then invert = false else (Touched like t.parts.flatten (y, x) ↔ invert = false)) := by
    unfold clipMask
    cases env <;> cases invert <;> simp [hmask]
    rw [Bool.eq_false_iff, Ne, hmask]
    exact not_not
  simp only
  rw [← hkeep, hnv]
  refine ⟨?_, fun hk => if_pos hk, fun hk => if_neg hk⟩
  unfold Null
  cases r.masked <;> cases clipMask f invert env (b, y, x) <;> cases r.mask (b, y, x) <;> decide

theorem cutOut_null (r : Raster) (w : Window) (b y x : Nat) :
    Null (cutOut r w) (b, y, x) ↔ Null r (b, w.row + y, w.col + x) := by
  unfold Null cutOut
  show r.masked = true ∧ (if r.masked then _ else false) = true ↔ _
  cases r.masked <;> simp

theorem cut_spec {np : NumPy} {ext : Ext G} {p : Place G} {t : Table G} {r : Raster} {w : Window} {invert env : Bool}
    (h : Good ext t (p.like w) w.ny w.nx) (hs : Seen p w) :
    ∃ o, apply np ext t (cutOut r w) (p.like w) invert env = .ok o ∧
      Keeps r w (fun y x => if env then invert = false else (Touched p.whole t.parts.flatten (y, x) ↔ invert = false)) o := by
  obtain ⟨o, e, h1, h2, h3, h4, h5, h6⟩ := apply_spec (np := np) (r := cutOut r w) (invert := invert) (env := env) h
  refine ⟨o, e, h1, h2, h3, h4, h5, ?_⟩
  intro b y x hb hy hx
  have := h6 b y x hy hx
  have ht : Touched (p.like w) t.parts.flatten (y, x) ↔ Touched p.whole t.parts.flatten (w.row + y, w.col + x) := by
    unfold Touched
    exact exists_congr fun f => and_congr_right fun _ => by rw [hs f.geom y x]
  simp only [cutOut_null, ht] at this
  exact this

/-- **C34**: `clip` keeps the cells of the box that a feature touches. -/
theorem C34_clip_partial {np : NumPy} {ext : Ext G} {p : Place G} {t : Table G} {r : Raster} {bounds : Option (List Rat)}
    {w : Window} (hb : ∀ b, bounds = some b → b.length = 4) (hw : p.window (bounds.getD p.featureBounds) = some w)
    (h : Good ext t (p.like w) w.ny w.nx) (hs : Seen p w) :
    ∃ o, clip np ext p t r true bounds = .ok o ∧ Keeps r w (fun y x => Touched p.whole t.parts.flatten (y, x)) o := by
  obtain ⟨o, e, hk⟩ := cut_spec (np := np) (r := r) (invert := false) (env := false) h hs
  refine ⟨o, ?_, by simpa using hk⟩
  unfold clip clipWith
  have : bounds.any (fun b => b.length ≠ 4) = false := by
    cases bounds with
    | none => rfl
    | some b => simp [hb b rfl]
  simp only [this, hw, e, Bool.not_true, Bool.false_eq_true, if_false, Bool.and_false, if_true]

/-- **C34**: `erase` keeps the cells of the box that no feature touches. -/
theorem C34_erase_partial {np : NumPy} {ext : Ext G} {p : Place G} {t : Table G} {r : Raster} {bounds : Option (List Rat)}
    {w : Window} (hb : ∀ b, bounds = some b → b.length = 4) (hw : p.window (bounds.getD p.featureBounds) = some w)
    (h : Good ext t (p.like w) w.ny w.nx) (hs : Seen p w) :
    ∃ o, erase np ext p t r true bounds = .ok o ∧ Keeps r w (fun y x => ¬ Touched p.whole t.parts.flatten (y, x)) o := by
  obtain ⟨o, e, hk⟩ := cut_spec (np := np) (r := r) (invert := true) (env := false) h hs
  refine ⟨o, ?_, by simpa using hk⟩
  unfold erase clipWith
  have : bounds.any (fun b => b.length ≠ 4) = false := by
    cases bounds with
    | none => rfl
    | some b => simp [hb b rfl]
  simp only [this, hw, e, Bool.not_true, Bool.false_eq_true, if_false, Bool.false_and, if_true]

/-- **C34**: a valid cell of the box is valid in exactly one of `clip` and `erase` and keeps its value there; a null
cell is null in both. -/
theorem C34_split_partial {np : NumPy} {ext : Ext G} {p : Place G} {t : Table G} {r : Raster} {bounds : Option (List Rat)}
    {w : Window} (hb : ∀ b, bounds = some b → b.length = 4) (hw : p.window (bounds.getD p.featureBounds) = some w)
    (h : Good ext t (p.like w) w.ny w.nx) (hs : Seen p w) :
    ∃ o e, clip np ext p t r true bounds = .ok o ∧ erase np ext p t r true bounds = .ok e ∧
      o.ny = w.ny ∧ o.nx = w.nx ∧ e.ny = w.ny ∧ e.nx = w.nx ∧
      ∀ b y x, b < r.nb → y < w.ny → x < w.nx →
        (Null r (b, w.row + y, w.col + x) → o.mask (b, y, x) = true ∧ e.mask (b, y, x) = true) ∧
        (¬ Null r (b, w.row + y, w.col + x) →
          (o.mask (b, y, x) = false ∧ o.data (b, y, x) = r.data (b, w.row + y, w.col + x) ∧ e.mask (b, y, x) = true) ∨
          (e.mask (b, y, x) = false ∧ e.data (b, y, x) = r.data (b, w.row + y, w.col + x) ∧ o.mask (b, y, x) = true)) := by
  obtain ⟨o, ho, _, _, o1, o2, _, o3⟩ := C34_clip_partial (np := np) (r := r) hb hw h hs
  obtain ⟨e, he, _, _, e1, e2, _, e3⟩ := C34_erase_partial (np := np) (r := r) hb hw h hs
  refine ⟨o, e, ho, he, o1, o2, e1, e2, ?_⟩
  intro b y x hb' hy hx
  obtain ⟨p1, p2, _⟩ := o3 b y x hb' hy hx
  obtain ⟨q1, q2, _⟩ := e3 b y x hb' hy hx
  have tr : ∀ m : Bool, m = true ↔ ¬ m = false := by decide
  refine ⟨fun hn => ⟨?_, ?_⟩, fun hn => ?_⟩
  · rw [tr, p1]; exact fun h => h.2 hn
  · rw [tr, q1]; exact fun h => h.2 hn
  · by_cases ht : Touched p.whole t.parts.flatten (w.row + y, w.col + x)
    · exact Or.inl ⟨p1.mpr ⟨ht, hn⟩, p2 ht, by rw [tr, q1]; exact fun h => h.1 ht⟩
    · exact Or.inr ⟨q1.mpr ⟨ht, hn⟩, q2 ht, by rw [tr, p1]; exact fun h => ht h.1⟩

/-- **C34**: `mask` does the same on the whole raster. -/
theorem C34_mask_partial {np : NumPy} {ext : Ext G} {p : Place G} {t : Table G} {r : Raster} (invert : Bool)
    (h : Good ext t p.whole r.ny r.nx) :
    ∃ o, mask np ext p t r true invert = .ok o ∧
      Keeps r ⟨0, 0, r.ny, r.nx⟩ (fun y x => Touched p.whole t.parts.flatten (y, x) ↔ invert = false) o := by
  obtain ⟨o, e, h1, h2, h3, h4, h5, h6⟩ := apply_spec (np := np) (r := r) (invert := invert) (env := false) h
  refine ⟨o, ?_, h1, h2, h3, h4, h5, ?_⟩
  · unfold mask clipWith
    simp only [e, Bool.not_true, Bool.false_eq_true, if_false, Bool.false_and, Option.any_none]
  · intro b y x hb hy hx
    have := h6 b y x hy hx
    simpa using this

/-- **C34**: `envelope` keeps all cells of the box of the features. -/
theorem C34_envelope_partial {np : NumPy} {ext : Ext G} {p : Place G} {t : Table G} {r : Raster}
    {w : Window} (hw : p.window p.featureBounds = some w)
    (h : Good ext t (p.like w) w.ny w.nx) (hs : Seen p w) :
    ∃ o, envelope np ext p t r true = .ok o ∧ Keeps r w (fun _ _ => True) o := by
  obtain ⟨o, e, hk⟩ := cut_spec (np := np) (r := r) (invert := false) (env := true) h hs
  refine ⟨o, ?_, by simpa using hk⟩
  unfold envelope clipWith
  simp only [hw, e, Bool.not_true, Bool.false_eq_true, if_false, Bool.and_false, Option.any_none, Option.getD_none,
    if_true]

/-- **C34**: `clip_box` cuts out the window. -/
theorem C34_clip_box {p : Place G} {r : Raster} {bounds : List Rat} {w : Window} (hb : bounds.length = 4)
    (hw : p.window bounds = some w) :
    ∃ o, clipBox p r bounds = .ok o ∧ o.dtype = r.dtype ∧ o.nb = r.nb ∧ o.ny = w.ny ∧ o.nx = w.nx ∧ o.nv = r.nv ∧
      ∀ b y x, o.data (b, y, x) = r.data (b, w.row + y, w.col + x) ∧
        (o.mask (b, y, x) = true ↔ Null r (b, w.row + y, w.col + x)) := by
  refine ⟨cutOut r w, ?_, rfl, rfl, rfl, rfl, rfl, ?_⟩
  · unfold clipBox
    rw [if_neg (by simp [hb]), hw]
  · intro b y x
    refine ⟨rfl, ?_⟩
    unfold Null cutOut
    cases r.masked <;> simp

/-- **C34 fails** if the box leaves a chunk with a single row or column, as a chunk border next to its edge does:
neither `clip` nor `erase` gives a result. -/
theorem C34_single_row_chunk (np : NumPy) (ext : Ext G) (p : Place G) (t : Table G) (r : Raster)
    {bounds : Option (List Rat)} {w : Window} (hb : ∀ b, bounds = some b → b.length = 4)
    (hw : p.window (bounds.getD p.featureBounds) = some w) (h : ¬ TwoByTwo (p.like w)) :
    clip np ext p t r true bounds = .error .oneDim ∧ erase np ext p t r true bounds = .error .oneDim := by
  have : bounds.any (fun b => b.length ≠ 4) = false := by
    cases bounds with
    | none => rfl
    | some b => simp [hb b rfl]
  have hr := (C33_single_row_chunk np true ext { t with spatial := none } (p.like w) ⟨.none, "first", .none, false, false⟩
    false false false none h).2
  unfold clip erase clipWith apply
  simp only [this, hw, hr, Bool.not_true, Bool.false_eq_true, if_false, Bool.false_and, Bool.and_false, if_true, and_self]

example : ¬ TwoByTwo (Toy.like [1, 2] [3]) := by
  rintro ⟨h, _⟩
  exact absurd (h 1 (by simp [Toy.like])) (by decide)

/-- **C34**: what is rejected, and how. -/
theorem C34_rejected (np : NumPy) (ext : Ext G) (p : Place G) (t : Table G) (r : Raster) :
    (∀ a : Args, a.hasCrs = false → clipWith np ext p t r a = .error .value) ∧
    (∀ a : Args, (∃ b, a.bounds = some b ∧ b.length ≠ 4) → clipWith np ext p t r a = .error .value) ∧
    (∀ a : Args, a.envelope = true → a.invert = true → clipWith np ext p t r a = .error .value) ∧
    (∀ bounds, (∀ b, bounds = some b → b.length = 4) → p.window (bounds.getD p.featureBounds) = none →
      clip np ext p t r true bounds = .error .runtime ∧ erase np ext p t r true bounds = .error .runtime) ∧
    (∀ bounds : List Rat, bounds.length ≠ 4 → clipBox p r bounds = .error .value) ∧
    (∀ bounds : List Rat, bounds.length = 4 → p.window bounds = none → clipBox p r bounds = .error .noData) := by
  refine ⟨?_, ?_, ?_, ?_, ?_, ?_⟩
  · intro a h
    unfold clipWith
    simp [h]
  · rintro a ⟨b, h, hl⟩
    unfold clipWith
    cases a.hasCrs <;> simp [h, hl]
  · intro a h1 h2
    unfold clipWith
    simp only [h1, h2, Bool.and_self, if_true]
    split
    · rfl
    · split <;> rfl
  · intro bounds hb hw
    have : bounds.any (fun b => b.length ≠ 4) = false := by
      cases bounds with
      | none => rfl
      | some b => simp [hb b rfl]
    unfold clip erase clipWith
    simp only [this, hw, Bool.not_true, Bool.false_eq_true, if_false, Bool.false_and, Bool.and_false, if_true, and_self]
  · intro bounds h
    unfold clipBox
    rw [if_pos h]
  · intro bounds h hw
    unfold clipBox
    rw [if_neg (by simp [h]), hw]

/-! ### Concrete cases -/

open Toy

/-- A raster of 4 x 4 cells with one null cell; boxes are given by rows and columns. -/
def place : Place Rect where
  window b := match b with
    | [0, 0, 2, 2] => some ⟨1, 1, 2, 2⟩
    | [1, 1, 3, 4] => some ⟨1, 0, 3, 3⟩
    | _ => none
  whole := Toy.like [2, 2] [2, 2]
  like w := ⟨[w.ny], [w.nx], ⟨w.col, w.row, w.col + w.nx, w.row + w.ny⟩,
    fun _ _ => ⟨w.col, w.row, w.col + w.nx, w.row + w.ny⟩,
    fun g q => (Toy.like [] []).touch g (w.row + q.1, w.col + q.2), rectBox, fun g b => b.meets (rectBox g)⟩
  featureBounds := [0, 0, 2, 2]

def sample : Raster :=
  ⟨i16, 1, 4, 4, fun c => if c = (0, 1, 1) then .fin (-5) else .fin (10 * c.2.1 + c.2.2), fun c => decide (c = (0, 1, 1)),
    some ⟨i16, .fin (-5)⟩⟩

def vector : Table Rect := ⟨[[left (.fin 7)]], none⟩

def show2 (r : Except Err Raster) : Option (List Num × List Bool) :=
  match r with
  | .ok r => some ([r.data (0, 0, 0), r.data (0, 0, 1), r.data (0, 1, 0), r.data (0, 1, 1)],
      [r.mask (0, 0, 0), r.mask (0, 0, 1), r.mask (0, 1, 0), r.mask (0, 1, 1)])
  | .error _ => none

theorem place_meets (w : Window) (g : Rect) (i j : Nat) (q : Pos)
    (hq : Rasterize.Spec.InChunk (place.like w) i j q)
    (ht : (place.like w).touch g (Rasterize.Spec.cellOf (place.like w) i j q) = true) :
    ((place.like w).chunkBox i j).meets (rectBox g) = true := by
  obtain ⟨⟨h, hh, hqh⟩, w', hw, hqw⟩ := hq
  have hi : i = 0 := by
    have := (List.getElem?_eq_some_iff.mp hh).1
    simp [place] at this
    exact this
  have hj : j = 0 := by
    have := (List.getElem?_eq_some_iff.mp hw).1
    simp [place] at this
    exact this
  subst hi hj
  simp only [place, List.getElem?_cons_zero, Option.some.injEq] at hh hw
  subst hh hw
  simp only [place, Toy.like, Rasterize.Spec.cellOf, List.take_zero, List.sum_nil, Bool.and_eq_true,
    decide_eq_true_eq] at ht
  rw [meets_iff]
  simp only [place, rectBox]
  norm_cast
  omega

example : Good ext vector (place.like ⟨1, 1, 2, 2⟩) 2 2 ∧ Seen place ⟨1, 1, 2, 2⟩ ∧
    Good ext vector place.whole sample.ny sample.nx ∧ place.window place.featureBounds = some ⟨1, 1, 2, 2⟩ ∧
    show2 (clip (idNumPy true) ext place vector sample true none) =
      some ([.fin (-5), .fin (-5), .fin 21, .fin (-5)], [true, true, false, true]) ∧
    show2 (erase (idNumPy true) ext place vector sample true none) =
      some ([.fin (-5), .fin 12, .fin (-5), .fin 22], [true, false, true, false]) := by
  have hempty : ∀ (l : Like Rect), ∀ f ∈ vector.parts.flatten, f.empty = true → ∀ p, l.touch f.geom p = false := by
    intro l f hf
    simp only [vector, List.flatten_cons, List.flatten_nil, List.append_nil, List.mem_singleton] at hf
    subst hf
    simp [left]
  refine ⟨⟨lawful _, ⟨?_, ?_⟩, ?_, ⟨by simp, ?_⟩, hempty _, rfl, rfl⟩, fun g y x => rfl,
    ⟨lawful _, geometric _ _, by simp [place, TwoByTwo, Toy.like], hulls _ _ _, hempty _, rfl, rfl⟩, rfl,
    by decide +kernel, by decide +kernel⟩
  · intro g i j q hq ht
    exact ⟨place_meets _ g i j q hq ht, place_meets _ g i j q hq ht⟩
  · intro i j _ _
    simp only [place]
    decide +kernel
  · simp [place, TwoByTwo]
  · intro e he f hf hem i j q hq ht
    have : e.2 = ext.hull e.1 := by
      obtain ⟨n, hn, rfl⟩ := List.mem_iff_getElem.mp he
      simp
    rw [this]
    exact List.any_eq_true.mpr ⟨f, hf, by rw [hem, place_meets _ _ _ _ _ hq ht]; rfl⟩

end Verif.Clip
