import Verif.Rasterize.Props

set_option linter.unusedSectionVars false

/-!
# C115: the ways of rasterizing agree

`rasterize` (`rasterize.py:537-713`, C33) called for the same features with different methods, as a mask, in another order, and for the features of
two tables.
-/

namespace Verif.Trips.Burns

open Verif Verif.Nulls DType
open Verif.Rasterize
open Verif.Rasterize.Spec
open Verif.Stats.Spec (Le)

variable {G : Type}

namespace Spec

/-- A call: the table, the raster to rasterize onto and the arguments. -/
structure Call (G : Type) where
  ext : Ext G
  table : Table G
  like : Like G
  args : Args

/-- What C33 needs: pandas and geopandas do what they promise, the boxes are those of the geometries, chunks have two rows and columns, the spatial
partitions cover their features, the arguments are accepted, and the values and the null value are different numbers of the type. -/
structure Call.Good (c : Call G) (np : NumPy) (s64 : Bool) (dt : DType) (fill : Scalar) (method : Method) : Prop where
  ext : Lawful c.ext c.like
  geo : Geometric c.like
  boxes : TwoByTwo c.like
  spatial : c.args.crsDiffers = false → ∀ regions, c.table.spatial = some regions → Covers c.like c.table.parts regions
  hull : Covers c.like c.table.parts (c.table.parts.map c.ext.hull)
  dtype : fieldType c.args.field = .ok dt
  null : fillOf c.args.field dt c.args.null = .ok fill
  name : parseMethod c.args.method = some method
  values : Values np s64 dt fill.val method c.args.field.isNone c.table.parts.flatten

/-- The features of the table in its order. -/
def Call.features (c : Call G) : List (Feature G) := c.table.parts.flatten

/-- The raster of the call. -/
def Call.Makes (c : Call G) (np : NumPy) (s64 : Bool) (r : Raster) : Prop := ∃ t, rasterize np s64 c.ext c.table c.like c.args = .ok (r, t)

/-- Two calls burn features onto the same grid. -/
structure Call.SameGrid (c d : Call G) : Prop where
  touch : ∀ g p, c.like.touch g p = d.like.touch g p
  ny : c.like.ychunks.sum = d.like.ychunks.sum
  nx : c.like.xchunks.sum = d.like.xchunks.sum
  index : c.args.field.isNone = d.args.field.isNone

end Spec

open Spec

section

variable {c d e : Call G} {np : NumPy} {s64 : Bool} {dt dt' dt'' : DType} {fill fill' fill'' : Scalar} {method method' method'' : Method}

/-- What C33 says about a call. -/
theorem cells (hc : c.Good np s64 dt fill method) {r : Raster} (h : c.Makes np s64 r) :
    r.dtype = dt ∧ r.nv = some fill ∧ r.nb = 1 ∧ r.ny = c.like.ychunks.sum ∧ r.nx = c.like.xchunks.sum ∧
      ∀ y x, y < c.like.ychunks.sum → x < c.like.xchunks.sum →
        (r.mask (0, y, x) = true ↔ touching c.like c.args.field.isNone c.features (y, x) = []) ∧
        (r.mask (0, y, x) = true → r.data (0, y, x) = fill.val) ∧
        (r.mask (0, y, x) = false → Picks method (touching c.like c.args.field.isNone c.features (y, x)) (r.data (0, y, x))) := by
  obtain ⟨r', t', e, h1, h2, h3, h4, h5, _, h6⟩ := C33_rasterize_partial hc.ext hc.geo hc.boxes hc.spatial hc.hull hc.dtype hc.null hc.name hc.values
  obtain ⟨t, h⟩ := h
  rw [h] at e
  cases e
  refine ⟨h1, h2, h3, h4, h5, fun y x hy hx => h6 y x (by rw [h4]; exact hy) (by rw [h5]; exact hx)⟩

/-- Accepted calls make a raster. -/
theorem makes (hc : c.Good np s64 dt fill method) : ∃ r, c.Makes np s64 r := by
  obtain ⟨r', t', e, _⟩ := C33_rasterize_partial hc.ext hc.geo hc.boxes hc.spatial hc.hull hc.dtype hc.null hc.name hc.values
  exact ⟨r', t', e⟩

theorem touching_grid (hg : c.SameGrid d) (l : List (Feature G)) (p : Rasterize.Pos) :
    touching d.like d.args.field.isNone l p = touching c.like c.args.field.isNone l p := by
  unfold touching
  rw [hg.index]
  simp only [hg.touch]

theorem touching_perm {like : Like G} {u : Bool} {l m : List (Feature G)} (h : l.Perm m) (p : Rasterize.Pos) : (touching like u l p).Perm (touching like u m p) :=
  (h.filter _).map _

theorem touching_reverse {like : Like G} {u : Bool} (l : List (Feature G)) (p : Rasterize.Pos) :
    touching like u l.reverse p = (touching like u l p).reverse := by
  unfold touching
  rw [List.filter_reverse, List.map_reverse]

/-- **C115 (nulls).**  Which method is used, in which order the features are, which field is burned and which null value is used does not matter for
which cells are null. -/
theorem C115_nulls (hc : c.Good np s64 dt fill method) (hd : d.Good np s64 dt' fill' method') (hg : c.SameGrid d) (hp : c.features.Perm d.features)
    {r s : Raster} (hr : c.Makes np s64 r) (hs : d.Makes np s64 s) :
    r.ny = s.ny ∧ r.nx = s.nx ∧ ∀ y x, y < r.ny → x < r.nx → r.mask (0, y, x) = s.mask (0, y, x) := by
  obtain ⟨_, _, _, r1, r2, r3⟩ := cells hc hr
  obtain ⟨_, _, _, s1, s2, s3⟩ := cells hd hs
  refine ⟨by rw [r1, s1, hg.ny], by rw [r2, s2, hg.nx], fun y x hy hx => ?_⟩
  rw [r1] at hy
  rw [r2] at hx
  rw [Bool.eq_iff_iff, (r3 y x hy hx).1, (s3 y x (hg.ny ▸ hy) (hg.nx ▸ hx)).1, touching_grid hg]
  have := touching_perm (like := c.like) (u := c.args.field.isNone) hp (y, x)
  exact ⟨fun h => by rw [h] at this; exact List.nil_perm.1 this, fun h => by rw [h] at this; exact List.perm_nil.1 this⟩

/-- **C115 (masks).**  The features as a mask are null in the same cells and 1 elsewhere; as an inverted mask they are 1 in those cells and null
elsewhere. -/
theorem C115_masks (hc : c.Good np s64 dt fill method) (hempty : ∀ f ∈ c.features, f.empty = true → ∀ p, c.like.touch f.geom p = false)
    {r : Raster} (hr : c.Makes np s64 r) (invert aware : Bool) :
    ∃ m t, rasterizeMask np c.ext c.table c.like invert none c.args.crsDiffers aware = .ok (m, t) ∧ m.ny = r.ny ∧ m.nx = r.nx ∧
      ∀ y x, y < r.ny → x < r.nx → m.mask (0, y, x) = (r.mask (0, y, x) ^^ invert) ∧ (m.mask (0, y, x) = false → m.data (0, y, x) = .fin 1) := by
  obtain ⟨m, t, e, _, _, _, m1, m2, m3⟩ := C33_mask (np := np) (invert := invert) (aware := aware) hc.ext hc.geo hc.boxes hc.spatial hc.hull hempty
  obtain ⟨_, _, _, r1, r2, r3⟩ := cells hc hr
  refine ⟨m, t, e, by rw [m1, r1], by rw [m2, r2], fun y x hy hx => ?_⟩
  rw [r1] at hy
  rw [r2] at hx
  obtain ⟨a1, a2, a3⟩ := m3 y x (by rw [m1]; exact hy) (by rw [m2]; exact hx)
  have ht : r.mask (0, y, x) = false ↔ Touched c.like c.table.parts.flatten (y, x) := by
    rw [Bool.eq_false_iff, Ne, (r3 y x hy hx).1]
    unfold touching Touched
    rw [List.map_eq_nil_iff, List.filter_eq_nil_iff]
    push Not
    constructor
    · rintro ⟨f, hf, h⟩
      rw [Bool.and_eq_true] at h
      exact ⟨f, hf, h.2⟩
    · rintro ⟨f, hf, h⟩
      refine ⟨f, hf, ?_⟩
      cases he : f.empty with
      | true => rw [hempty f hf he] at h; cases h
      | false => simpa using h
  have hm : m.mask (0, y, x) = false ↔ m.data (0, y, x) = .fin 1 := by
    rw [Bool.eq_false_iff, Ne, a3]
    rcases a1 with h | h <;> rw [h] <;> simp
  refine ⟨?_, fun h => hm.1 h⟩
  rw [← ht] at a2
  rw [← hm] at a2
  generalize m.mask (0, y, x) = a at a2 ⊢
  generalize r.mask (0, y, x) = b at a2 ⊢
  revert a2
  cases a <;> cases b <;> cases invert <;> simp

/-- **C115 (bounds).**  The values of the smallest and the largest features bound those of the first and the last. -/
theorem C115_bounds (hc : c.Good np s64 dt fill method) (hd : d.Good np s64 dt' fill' .min) (he : e.Good np s64 dt'' fill'' .max) (hg : c.SameGrid d)
    (hg' : c.SameGrid e) (hp : c.features.Perm d.features) (hp' : c.features.Perm e.features)
    {r s t : Raster} (hr : c.Makes np s64 r) (hs : d.Makes np s64 s) (ht : e.Makes np s64 t) {y x : Nat} (hy : y < r.ny) (hx : x < r.nx)
    (hm : r.mask (0, y, x) = false) : Le (s.data (0, y, x)) (r.data (0, y, x)) ∧ Le (r.data (0, y, x)) (t.data (0, y, x)) := by
  have n1 := (C115_nulls hc hd hg hp hr hs).2.2 y x hy hx
  have n2 := (C115_nulls hc he hg' hp' hr ht).2.2 y x hy hx
  obtain ⟨_, _, _, r1, r2, r3⟩ := cells hc hr
  obtain ⟨_, _, _, _, _, s3⟩ := cells hd hs
  obtain ⟨_, _, _, _, _, t3⟩ := cells he ht
  rw [r1] at hy
  rw [r2] at hx
  have q1 := picks_mem ((r3 y x hy hx).2.2 hm)
  have q2 := (s3 y x (hg.ny ▸ hy) (hg.nx ▸ hx)).2.2 (n1 ▸ hm)
  have q3 := (t3 y x (hg'.ny ▸ hy) (hg'.nx ▸ hx)).2.2 (n2 ▸ hm)
  rw [touching_grid hg] at q2
  rw [touching_grid hg'] at q3
  exact ⟨q2.2 _ ((touching_perm hp _).mem_iff.1 q1), q3.2 _ ((touching_perm hp' _).mem_iff.1 q1)⟩

/-- The method that does with the reversed table what the method does with the table. -/
def turned : Method → Method
  | .first => .last
  | .last => .first
  | .min => .min
  | .max => .max

theorem picks_reverse {m : Method} {l : List Num} {v : Num} : Picks (turned m) l.reverse v ↔ Picks m l v := by
  cases m <;> simp [Picks, turned]

theorem picks_perm {m : Method} (hm : m = .min ∨ m = .max) {l l' : List Num} (h : l.Perm l') {v : Num} (hv : Picks m l v) : Picks m l' v := by
  rcases hm with rfl | rfl
  · exact ⟨h.mem_iff.1 hv.1, fun w hw => hv.2 w (h.mem_iff.2 hw)⟩
  · exact ⟨h.mem_iff.1 hv.1, fun w hw => hv.2 w (h.mem_iff.2 hw)⟩

/-- **C115 (order).**  With the features in reverse order, the first feature is burned where the last one was and the other way round; the smallest
and the largest values do not depend on the order at all. -/
theorem C115_order (hc : c.Good np s64 dt fill method) (hd : d.Good np s64 dt fill method') (hg : c.SameGrid d)
    (h : (method' = turned method ∧ d.features = c.features.reverse) ∨ (method' = method ∧ (method = .min ∨ method = .max) ∧ c.features.Perm d.features))
    {r s : Raster} (hr : c.Makes np s64 r) (hs : d.Makes np s64 s) :
    ∀ y x, y < r.ny → x < r.nx → r.mask (0, y, x) = s.mask (0, y, x) ∧ r.data (0, y, x) = s.data (0, y, x) := by
  intro y x hy hx
  have hp : c.features.Perm d.features := by
    rcases h with ⟨_, h⟩ | ⟨_, _, h⟩
    · rw [h]; exact (List.reverse_perm _).symm
    · exact h
  have n1 := (C115_nulls hc hd hg hp hr hs).2.2 y x hy hx
  obtain ⟨_, _, _, r1, r2, r3⟩ := cells hc hr
  obtain ⟨_, _, _, _, _, s3⟩ := cells hd hs
  rw [r1] at hy
  rw [r2] at hx
  obtain ⟨_, r4, r5⟩ := r3 y x hy hx
  obtain ⟨_, s4, s5⟩ := s3 y x (hg.ny ▸ hy) (hg.nx ▸ hx)
  refine ⟨n1, ?_⟩
  cases hm : r.mask (0, y, x) with
  | true => rw [r4 hm, s4 (n1 ▸ hm)]
  | false =>
    have q1 := r5 hm
    have q2 := s5 (n1 ▸ hm)
    rw [touching_grid hg] at q2
    rcases h with ⟨rfl, h⟩ | ⟨rfl, hm, h⟩
    · rw [h, touching_reverse, picks_reverse] at q2
      exact picks_unique q1 q2
    · exact picks_unique (picks_perm hm (touching_perm h _) q1) q2

/-- The value that a method prefers of two. -/
def Prefers : Method → Num → Num → Num → Prop
  | .first, a, _, v => v = a
  | .last, _, b, v => v = b
  | .min, a, b, v => (v = a ∧ Le a b) ∨ (v = b ∧ Le b a)
  | .max, a, b, v => (v = a ∧ Le b a) ∨ (v = b ∧ Le a b)

theorem prefers_of_picks {m : Method} {l l' : List Num} {a b v : Num} (ha : Picks m l a) (hb : Picks m l' b) (hv : Picks m (l ++ l') v) : Prefers m a b v := by
  cases m with
  | first =>
    change (l ++ l').head? = some v at hv
    change l.head? = some a at ha
    rw [List.head?_append, ha] at hv
    exact (Option.some.inj hv).symm
  | last =>
    change (l ++ l').getLast? = some v at hv
    change l'.getLast? = some b at hb
    rw [List.getLast?_append, hb] at hv
    exact (Option.some.inj hv).symm
  | min =>
    have h1 := hv.2 a (List.mem_append_left _ ha.1)
    have h2 := hv.2 b (List.mem_append_right _ hb.1)
    rcases List.mem_append.1 hv.1 with h | h
    · have e := le_antisymm' h1 (ha.2 v h)
      exact Or.inl ⟨e, e ▸ h2⟩
    · have e := le_antisymm' h2 (hb.2 v h)
      exact Or.inr ⟨e, e ▸ h1⟩
  | max =>
    have h1 := hv.2 a (List.mem_append_left _ ha.1)
    have h2 := hv.2 b (List.mem_append_right _ hb.1)
    rcases List.mem_append.1 hv.1 with h | h
    · have e := le_antisymm' (ha.2 v h) h1
      exact Or.inl ⟨e, e ▸ h2⟩
    · have e := le_antisymm' (hb.2 v h) h2
      exact Or.inr ⟨e, e ▸ h1⟩

/-- **C115 (two tables).**  The features of one table followed by those of another: a cell is null if it is for both tables, holds the value of the
table for which it is not null, and if it is null for neither the value that the method prefers: the one of the first table, of the second, the smaller
or the larger one. -/
theorem C115_tables (hc : c.Good np s64 dt fill method) (hd : d.Good np s64 dt' fill' method) (he : e.Good np s64 dt'' fill'' method)
    (hg : e.SameGrid c) (hg' : e.SameGrid d) (hf : e.features = c.features ++ d.features)
    {r s t : Raster} (hr : c.Makes np s64 r) (hs : d.Makes np s64 s) (ht : e.Makes np s64 t) :
    ∀ y x, y < t.ny → x < t.nx →
      t.mask (0, y, x) = (r.mask (0, y, x) && s.mask (0, y, x)) ∧
      (r.mask (0, y, x) = false → s.mask (0, y, x) = true → t.data (0, y, x) = r.data (0, y, x)) ∧
      (r.mask (0, y, x) = true → s.mask (0, y, x) = false → t.data (0, y, x) = s.data (0, y, x)) ∧
      (r.mask (0, y, x) = false → s.mask (0, y, x) = false → Prefers method (r.data (0, y, x)) (s.data (0, y, x)) (t.data (0, y, x))) := by
  intro y x hy hx
  obtain ⟨_, _, _, t1, t2, t3⟩ := cells he ht
  obtain ⟨_, _, _, _, _, r3⟩ := cells hc hr
  obtain ⟨_, _, _, _, _, s3⟩ := cells hd hs
  rw [t1] at hy
  rw [t2] at hx
  obtain ⟨t4, _, t5⟩ := t3 y x hy hx
  obtain ⟨r4, _, r5⟩ := r3 y x (hg.ny ▸ hy) (hg.nx ▸ hx)
  obtain ⟨s4, _, s5⟩ := s3 y x (hg'.ny ▸ hy) (hg'.nx ▸ hx)
  rw [hf, touching_append] at t4 t5
  rw [touching_grid hg] at r4 r5
  rw [touching_grid hg'] at s4 s5
  have hmask : t.mask (0, y, x) = (r.mask (0, y, x) && s.mask (0, y, x)) := by
    rw [Bool.eq_iff_iff, Bool.and_eq_true, t4, r4, s4, List.append_eq_nil_iff]
  refine ⟨hmask, fun h1 h2 => ?_, fun h1 h2 => ?_, fun h1 h2 => ?_⟩
  · have := t5 (by rw [hmask, h1]; rfl)
    rw [s4.1 h2, List.append_nil] at this
    exact picks_unique this (r5 h1)
  · have := t5 (by rw [hmask, h2, Bool.and_false])
    rw [r4.1 h1, List.nil_append] at this
    exact picks_unique this (s5 h2)
  · exact prefers_of_picks (r5 h1) (s5 h2) (t5 (by rw [hmask, h1]; rfl))

end

/-! ### Concrete cases -/

open Toy

/-- A call for rectangles. -/
def exCall (features : List (Feature Rect)) (method : String) : Call Rect :=
  ⟨ext, ⟨features.map fun f => [f], none⟩, like [2, 2] [2, 2], args f64 (.num ⟨f64, .fin (-1)⟩) method⟩

theorem exGood {features : List (Feature Rect)} (h : ∀ f ∈ features, ∃ q : Rat, f.value = .fin q ∧ q ≠ -1) {name : String} {method : Method}
    (hm : parseMethod name = some method) : (exCall features name).Good (idNumPy true) true f64 ⟨f64, .fin (-1)⟩ method where
  ext := lawful _
  geo := geometric _ _
  boxes := by simp [TwoByTwo, exCall, like]
  spatial := by intro _ regions h; cases h
  hull := hulls _ _ _
  dtype := rfl
  null := rfl
  name := hm
  values := by
    have hfl : (exCall features name).table.parts.flatten = features := by
      show (features.map fun f => [f]).flatten = features
      induction features with
      | nil => rfl
      | cons f l ih => rw [List.map_cons, List.flatten_cons, ih fun g hg => h g (List.mem_cons_of_mem _ hg)]; rfl
    rw [hfl]
    refine ⟨by simp, rfl, by decide +kernel, ?_, ?_, ?_⟩
    · intro f hf
      simp [viaRio, rioDtype]
    · intro f hf
      obtain ⟨q, hq, hne⟩ := h f hf
      simp only [exCall, args, Field.isNone, burnValue, hq]
      intro e
      rw [if_neg (by decide)] at e
      exact hne (by injection e)
    · intro _ f hf
      obtain ⟨q, hq, hne⟩ := h f hf
      rw [hq]
      simp

/-- Concrete cases for `C115_nulls`, `C115_masks`, `C115_bounds`, `C115_order` and `C115_tables`. -/
example : (∀ name method, parseMethod name = some method →
      (exCall [left (.fin 7), right (.fin 5)] name).Good (idNumPy true) true f64 ⟨f64, .fin (-1)⟩ method ∧
      (exCall [right (.fin 5), left (.fin 7)] name).Good (idNumPy true) true f64 ⟨f64, .fin (-1)⟩ method ∧
      (exCall [left (.fin 7)] name).Good (idNumPy true) true f64 ⟨f64, .fin (-1)⟩ method ∧
      (exCall [right (.fin 5)] name).Good (idNumPy true) true f64 ⟨f64, .fin (-1)⟩ method) ∧
    (∀ l l' n n', (exCall l n).SameGrid (exCall l' n')) ∧
    (exCall [right (.fin 5), left (.fin 7)] "first").features = (exCall [left (.fin 7), right (.fin 5)] "last").features.reverse ∧
    (exCall [left (.fin 7), right (.fin 5)] "last").features = (exCall [left (.fin 7)] "last").features ++ (exCall [right (.fin 5)] "last").features ∧
    turned .last = .first ∧ Prefers .min (.fin 7) (.fin 5) (.fin 5) ∧ ¬ Prefers .max (.fin 7) (.fin 5) (.fin 5) := by
  have h7 : ∃ q : Rat, (left (.fin 7)).value = .fin q ∧ q ≠ -1 := ⟨7, rfl, by norm_num⟩
  have h5 : ∃ q : Rat, (right (.fin 5)).value = .fin q ∧ q ≠ -1 := ⟨5, rfl, by norm_num⟩
  refine ⟨fun name method hm => ⟨exGood ?_ hm, exGood ?_ hm, exGood ?_ hm, exGood ?_ hm⟩, fun l l' n n' => ⟨fun _ _ => rfl, rfl, rfl, rfl⟩, rfl, rfl, rfl, ?_, ?_⟩
  · intro f hf
    rcases List.mem_cons.1 hf with rfl | hf
    · exact h7
    · rw [List.mem_singleton.1 hf]; exact h5
  · intro f hf
    rcases List.mem_cons.1 hf with rfl | hf
    · exact h5
    · rw [List.mem_singleton.1 hf]; exact h7
  · intro f hf
    rw [List.mem_singleton.1 hf]; exact h7
  · intro f hf
    rw [List.mem_singleton.1 hf]; exact h5
  · exact Or.inr ⟨rfl, by show (5 : Rat) ≤ 7; norm_num⟩
  · rintro (⟨h, _⟩ | ⟨_, h⟩)
    · injection h with h; norm_num at h
    · change (7 : Rat) ≤ 5 at h; norm_num at h

end Verif.Trips.Burns
