import Verif.Blocks.Model
import Verif.Focal.Lemmas
import Verif.Nulls.RasterProps
set_option linter.unusedSectionVars false
/-!
# Overlap depth and boundary arguments, and the results of `map_blocks` and `map_overlap`: property theorems (C36, C48)
-/

namespace Verif.Blocks

open Verif Verif.Nulls DType

namespace Spec

/-- The argument for one axis describes this many cells before and after. -/
def Describes : AxisArg → Int × Int → Prop
  | .int n, s => 0 ≤ n ∧ s = (n, n)
  | .tuple [.int a, .int b], s => 0 ≤ a ∧ 0 ≤ b ∧ s = (a, b)
  | _, _ => False

/-- What a `dict` describes for an axis: nothing said means no overlap. -/
def DescribesAxis (l : List (Key × AxisArg)) (axis : Rat) (s : Int × Int) : Prop :=
  (∃ v, (Key.num axis, v) ∈ l ∧ Describes v s) ∨ ((∀ v, (Key.num axis, v) ∉ l) ∧ s = (0, 0))

/-- The argument `depth` describes these cells along y and x, and none along the bands. -/
def DescribesDepth : DepthArg → Int × Int → Int × Int → Prop
  | .int n, y, x => Describes (.int n) y ∧ Describes (.int n) x
  | .tuple [a, b], y, x => Describes a y ∧ Describes b x
  | .dict l, y, x => (∀ e ∈ l, (e.1 = .num 0 ∨ e.1 = .num 1 ∨ e.1 = .num 2) ∧ ∃ s, Describes e.2 s) ∧
      DescribesAxis l 0 (0, 0) ∧ DescribesAxis l 1 y ∧ DescribesAxis l 2 x
  | _, _, _ => False

/-- The keys of a `dict` are different. -/
def GoodDict : DepthArg → Prop
  | .dict l => (l.map (·.1)).Nodup
  | _ => True

/-- A pair is given for the band axis. -/
def PairForBands : DepthArg → Prop
  | .dict l => ∃ t, (Key.num 0, AxisArg.tuple t) ∈ l
  | _ => False

/-- `s` is the name `t` in upper or lower case letters. -/
def Spells (s t : String) : Prop := s.toList.map Char.toLower = t.toList

instance (s t : String) : Decidable (Spells s t) := by unfold Spells; infer_instance

/-- Nothing is to be put around the raster. -/
def NoBoundary : Boundary → Prop
  | .none => True
  | .str s => Spells s "none"
  | .num _ => False

instance (b : Boundary) : Decidable (NoBoundary b) := by unfold NoBoundary; cases b <;> infer_instance

/-- One of the names for the null value. -/
def NullName (s : String) : Prop := Spells s "null" ∨ Spells s "null_value" ∨ Spells s "nodata"

instance (s : String) : Decidable (NullName s) := by unfold NullName; infer_instance

/-- The boundary is one that is documented. -/
def Known : Boundary → Prop
  | .str s => NullName s ∨ Spells s "reflect" ∨ Spells s "periodic" ∨ Spells s "nearest" ∨ Spells s "none"
  | _ => True

/-- Where the array is mirrored at its ends. -/
def mirrored (n : Nat) (i : Int) : Int := if i < 0 then -i - 1 else if i < n then i else 2 * n - i - 1

/-- The nearest position in the array. -/
def nearest (n : Nat) (i : Int) : Int := max 0 (min i (n - 1))

/-- The value and mask of a raster at a position that may lie outside of it; `none` if there is nothing. -/
def around (np : NumPy) (b : Boundary) (r : Raster) (band : Nat) (row col : Int) : Option (Num × Bool) :=
  let at' := fun i j : Int => some (r.data (band, i.toNat, j.toNat), r.mask (band, i.toNat, j.toNat))
  if 0 ≤ row ∧ row < r.ny ∧ 0 ≤ col ∧ col < r.nx then at' row col
  else match b with
    | .none => none
    | .num v => some (np.cast r.dtype v, decide (r.nv.map (·.val) = some v))
    | .str s =>
      if NullName s then some ((r.nv.getD (defaultNull r.dtype)).val, true)
      else if Spells s "reflect" then at' (mirrored r.ny row) (mirrored r.nx col)
      else if Spells s "periodic" then at' (row % r.ny) (col % r.nx)
      else if Spells s "nearest" then at' (nearest r.ny row) (nearest r.nx col)
      else none

/-- The null value of the raster (or the default one) is a value of its dtype. -/
def NullFits (np : NumPy) (r : Raster) : Prop :=
  np.cast r.dtype (r.nv.getD (defaultNull r.dtype)).val = (r.nv.getD (defaultNull r.dtype)).val

/-- A view of the inputs around a cell: the value and mask of an input at an offset, `none` if there is no such cell. -/
abbrev View := Nat → Int → Int → Option (Num × Bool)

/-- The offset is not larger than the depth. -/
def Reaches (y x : Int × Int) (dy dx : Int) : Prop := -y.1 ≤ dy ∧ dy ≤ y.2 ∧ -x.1 ≤ dx ∧ dx ≤ x.2

instance (y x : Int × Int) (dy dx : Int) : Decidable (Reaches y x dy dx) := by unfold Reaches; infer_instance

/-- What a function can see around a cell of its block. -/
def blockView (call : Call) (y x : Int × Int) (cell : Cell) : View := fun k dy dx =>
  let row := (cell.2.1 : Int) + dy
  let col := (cell.2.2 : Int) + dx
  if Reaches y x dy dx ∧ 0 ≤ row ∧ row < call.rows ∧ 0 ≤ col ∧ col < call.cols then
    match call.data[k]?, call.masks[k]? with
    | some d, some m => some (d (cell.1, row.toNat, col.toNat), m (cell.1, row.toNat, col.toNat))
    | _, _ => none
  else none

/-- What is around a cell of the rasters. -/
def rasterView (np : NumPy) (b : Boundary) (rs : List Raster) (y x : Int × Int) (cell : Cell) : View := fun k dy dx =>
  if Reaches y x dy dx then (rs[k]?).bind fun r => around np b r cell.1 (cell.2.1 + dy) (cell.2.2 + dx) else none

/-- The function computes a cell from what is around it (in the same band), within the depth. -/
def LocalTo (func : Call → Out) (y x : Int × Int)
    (g : List (Option Scalar) → Option Scalar → View → Num × Bool) : Prop :=
  ∀ (call : Call) (cell : Cell), cell.1 < call.nb → cell.2.1 < call.rows → cell.2.2 < call.cols →
    ((func call).data cell, (func call).mask cell) = g call.nullValues call.outNull (blockView call y x cell)

/-- The null value of the result. -/
def OutNull (arg : NullArg) (rs : List Raster) (outDtype : DType) (nv : Option Scalar) : Prop :=
  match arg with
  | .str => False
  | .scalar s => nv = some s
  | .none => (∀ r, rs = [r] → r.dtype = outDtype → nv = r.nv) ∧
      (¬(∃ r, rs = [r] ∧ r.dtype = outDtype) → nv = some (defaultNull outDtype))

/-- The raster made of the values `v` (and masks, if they are returned). -/
structure Made (out : Raster) (outDtype : DType) (nv : Option Scalar) (returnMask : Bool) (c : Cell) (v : Num × Bool) :
    Prop where
  /-- without a mask, cells are null where they hold the null value -/
  plain : returnMask = false → out.nv = nv ∧ out.data c = v.1 ∧ (out.mask c = true ↔ ∃ s, nv = some s ∧ v.1 = s.val)
  /-- with a mask, the marked cells and no others are null and hold the null value -/
  explicit : returnMask = true → out.nv = some (nv.getD (defaultNull outDtype)) ∧ out.mask c = v.2 ∧
    out.data c = if v.2 then (nv.getD (defaultNull outDtype)).val else v.1

/-- The column of cells of a call, over all its bands. -/
def blockColumn (call : Call) (row col : Nat) : Nat → Nat → Option (Num × Bool) := fun k band =>
  if band < call.nb then
    match call.data[k]?, call.masks[k]? with
    | some d, some m => some (d (band, row, col), m (band, row, col))
    | _, _ => none
  else none

/-- The column of cells of the rasters. -/
def rasterColumn (rs : List Raster) (row col : Nat) : Nat → Nat → Option (Num × Bool) := fun k band =>
  match rs[k]? with
  | some r => if band < r.nb then some (r.data (band, row, col), r.mask (band, row, col)) else none
  | none => none

/-- The function computes a cell of any band from the cells of all the bands at its row and column. -/
def ColumnWise (func : Call → Out)
    (g : List (Option Scalar) → Option Scalar → Nat → (Nat → Nat → Option (Num × Bool)) → Num × Bool) : Prop :=
  ∀ (call : Call) (cell : Cell), cell.1 < (func call).nb → cell.2.1 < call.rows → cell.2.2 < call.cols →
    ((func call).data cell, (func call).mask cell) =
      g call.nullValues call.outNull cell.1 (blockColumn call cell.2.1 cell.2.2)

/-- The chunks cover the raster. -/
def Covers (ch : Chunks) (r : Raster) : Prop := ch.bands.sum = r.nb ∧ ch.rows.sum = r.ny ∧ ch.cols.sum = r.nx

end Spec

open Spec

/-! ### Depth -/

theorem normalizeAxis_iff (a : AxisArg) (s : Int × Int) :
    (∃ d, normalizeAxis a = .ok d ∧ (d.before, d.after) = s) ↔ Describes a s := by
  cases a with
  | int n =>
    simp only [normalizeAxis, Describes]
    split
    · next h => constructor
                · rintro ⟨_, h, _⟩; exact nomatch h
                · intro ⟨h', _⟩; omega
    · next h => constructor
                · rintro ⟨d, h, rfl⟩; cases h; exact ⟨by omega, rfl⟩
                · rintro ⟨_, rfl⟩; exact ⟨_, rfl, rfl⟩
  | other => simp [normalizeAxis, Describes]
  | tuple l =>
    match l with
    | [.int a, .int b] =>
      simp only [normalizeAxis, Describes]
      split
      · next h => constructor
                  · rintro ⟨_, h, _⟩; exact nomatch h
                  · intro ⟨h1, h2, _⟩; omega
      · next h => constructor
                  · rintro ⟨d, h, rfl⟩; cases h; exact ⟨by omega, by omega, rfl⟩
                  · rintro ⟨_, _, rfl⟩; exact ⟨_, rfl, rfl⟩
    | [] => simp [normalizeAxis, Describes]
    | [_] => simp [normalizeAxis, Describes]
    | .other :: _ :: _ => simp [normalizeAxis, Describes]
    | .int _ :: .other :: _ => simp [normalizeAxis, Describes]
    | .int _ :: .int _ :: _ :: _ => simp [normalizeAxis, Describes]

/-- The depth of an axis. -/
def Depth.get (d : Depth) : Nat → AxisDepth
  | 0 => d.band
  | 1 => d.y
  | _ => d.x

theorem axis_iff (k : Key) (a : Nat) : k.axis = some a ↔ a < 3 ∧ k = .num (a : Rat) := by
  cases k with
  | other => simp [Key.axis]
  | num q =>
    simp only [Key.axis, Key.num.injEq]
    constructor
    · intro h
      split at h
      · cases h; simp [*]
      · split at h
        · cases h; simp [*]
        · split at h
          · cases h; simp [*]
          · exact nomatch h
    · rintro ⟨h, rfl⟩
      match a, h with
      | 0, _ => simp
      | 1, _ => norm_num
      | 2, _ => norm_num

theorem get_store (d : Depth) (v : AxisDepth) {a b : Nat} (ha : a < 3) (hb : b < 3) :
    (d.store a v).get b = if b = a then v else d.get b := by
  match a, ha, b, hb with
  | 0, _, 0, _ => rfl
  | 0, _, 1, _ => rfl
  | 0, _, 2, _ => rfl
  | 1, _, 0, _ => rfl
  | 1, _, 1, _ => rfl
  | 1, _, 2, _ => rfl
  | 2, _, 0, _ => rfl
  | 2, _, 1, _ => rfl
  | 2, _, 2, _ => rfl

/-- What the loop over a `dict` has stored in the end. -/
theorem normalizeDict_sound : ∀ (l : List (Key × AxisArg)) (out d : Depth), (l.map (·.1)).Nodup →
    normalizeDict l out = .ok d → (∀ e ∈ l, ∃ a : Nat, a < 3 ∧ e.1 = .num (a : Rat) ∧ normalizeAxis e.2 = .ok (d.get a)) ∧
      (∀ a : Nat, a < 3 → (∀ v, (Key.num (a : Rat), v) ∉ l) → d.get a = out.get a) ∧ d.band = .same 0
  | [], out, d, _, h => by
    simp only [normalizeDict] at h
    split at h
    · next hb => cases h; exact ⟨by simp, fun _ _ _ => rfl, hb⟩
    · exact nomatch h
  | (key, v) :: l, out, d, hn, h => by
    simp only [normalizeDict] at h
    split at h
    · exact nomatch h
    · next a ha =>
      obtain ⟨ha3, rfl⟩ := (axis_iff _ _).mp ha
      split at h
      · exact nomatch h
      · next nd hnd =>
        simp only [List.map_cons, List.nodup_cons] at hn
        obtain ⟨h1, h2, h3⟩ := normalizeDict_sound l _ d hn.2 h
        have hnot : ∀ v', (Key.num (a : Rat), v') ∉ l := fun v' hm => hn.1 (List.mem_map.mpr ⟨_, hm, rfl⟩)
        refine ⟨?_, ?_, h3⟩
        · intro e he
          rcases List.mem_cons.mp he with rfl | he
          · refine ⟨a, ha3, rfl, ?_⟩
            rw [hnd, h2 a ha3 hnot, get_store _ _ ha3 ha3, if_pos rfl]
          · exact h1 e he
        · intro b hb hnb
          rw [h2 b hb fun v' hm => hnb v' (List.mem_cons_of_mem _ hm), get_store _ _ ha3 hb, if_neg]
          rintro rfl
          exact hnb v (by simp)

theorem normalizeDict_complete : ∀ (l : List (Key × AxisArg)) (out : Depth), out.band = .same 0 →
    (∀ e ∈ l, ∃ a nd, a < 3 ∧ e.1 = .num ((a : Nat) : Rat) ∧ normalizeAxis e.2 = .ok nd ∧ (a = 0 → nd = .same 0)) →
    ∃ d, normalizeDict l out = .ok d
  | [], out, hb, _ => ⟨out, by simp [normalizeDict, hb]⟩
  | (key, v) :: l, out, hb, h => by
    obtain ⟨a, nd, ha, hk, hnd, h0⟩ := h (key, v) (by simp)
    simp only at hk hnd
    subst hk
    have : (out.store a nd).band = .same 0 := by
      have := get_store out nd ha (b := 0) (by omega)
      show (out.store a nd).get 0 = _
      rw [this]
      split
      · next h => exact h0 h.symm
      · exact hb
    obtain ⟨d, hd⟩ := normalizeDict_complete l (out.store a nd) this fun e he => h e (List.mem_cons_of_mem _ he)
    refine ⟨d, ?_⟩
    simp only [normalizeDict]
    rw [(axis_iff _ _).mpr ⟨ha, rfl⟩]
    simp only [hnd]
    exact hd

/-- The cells before and after along y and x. -/
def Depth.sides (d : Depth) : (Int × Int) × (Int × Int) := ((d.y.before, d.y.after), (d.x.before, d.x.after))

theorem num_mem_of_key {l : List (Key × AxisArg)} {e : Key × AxisArg} (he : e ∈ l) {q : Rat} (h : e.1 = .num q) :
    (Key.num q, e.2) ∈ l := by
  rw [← h]; exact he

theorem describesAxis_of {l : List (Key × AxisArg)} {d : Depth}
    (h1 : ∀ e ∈ l, ∃ a : Nat, a < 3 ∧ e.1 = .num (a : Rat) ∧ normalizeAxis e.2 = .ok (d.get a))
    (h2 : ∀ a : Nat, a < 3 → (∀ v, (Key.num (a : Rat), v) ∉ l) → d.get a = .same 0) {a : Nat} (ha : a < 3) :
    DescribesAxis l (a : Rat) ((d.get a).before, (d.get a).after) := by
  by_cases hm : ∃ v, (Key.num (a : Rat), v) ∈ l
  · obtain ⟨v, hv⟩ := hm
    obtain ⟨b, _, hk, hn⟩ := h1 _ hv
    simp only [Key.num.injEq, Nat.cast_inj] at hk
    subst hk
    exact Or.inl ⟨v, hv, (normalizeAxis_iff _ _).mp ⟨_, hn, rfl⟩⟩
  · refine Or.inr ⟨fun v hv => hm ⟨v, hv⟩, ?_⟩
    rw [h2 a ha fun v hv => hm ⟨v, hv⟩]
    rfl

/-- Both descriptions of an axis of a `dict` agree. -/
theorem describesAxis_unique {l : List (Key × AxisArg)} (hn : (l.map (·.1)).Nodup) {q : Rat} {s t : Int × Int}
    (h1 : DescribesAxis l q s) (h2 : DescribesAxis l q t) : s = t := by
  rcases h1 with ⟨v, hv, hs⟩ | ⟨hv, rfl⟩ <;> rcases h2 with ⟨w, hw, ht⟩ | ⟨hw, rfl⟩
  · have : v = w := by
      have := (List.inj_on_of_nodup_map hn) hv hw rfl
      simpa using this
    subst this
    obtain ⟨d, hd, rfl⟩ := (normalizeAxis_iff _ _).mpr hs
    obtain ⟨e, he, rfl⟩ := (normalizeAxis_iff _ _).mpr ht
    rw [hd] at he
    cases he
    rfl
  · exact absurd hv (hw v)
  · exact absurd hw (hv w)
  · rfl

theorem normalizeAxis_zero {v : AxisArg} (h : Describes v (0, 0)) (ht : ∀ t, v ≠ .tuple t) :
    normalizeAxis v = .ok (.same 0) := by
  cases v with
  | int n =>
    simp only [Describes, Prod.mk.injEq] at h
    obtain ⟨_, h, _⟩ := h
    subst h
    rfl
  | tuple t => exact absurd rfl (ht t)
  | other => simp [Describes] at h

/-- **C36** (depth), in part: `map_overlap` accepts a depth exactly when it describes non-negative numbers of cells along
y and x and none along the bands, and then uses the numbers described - unless a pair is given for the bands
(`C36_pair_for_bands`). -/
theorem C36_depth_partial (arg : DepthArg) (hg : GoodDict arg) (y x : Int × Int) :
    (∃ d, normalizeDepth arg = .ok d ∧ d.band = .same 0 ∧ d.sides = (y, x)) ↔
      DescribesDepth arg y x ∧ ¬PairForBands arg := by
  cases arg with
  | other => simp [normalizeDepth, DescribesDepth]
  | int n =>
    simp only [normalizeDepth, DescribesDepth, PairForBands, not_false_eq_true, and_true]
    rw [← normalizeAxis_iff, ← normalizeAxis_iff]
    constructor
    · rintro ⟨d, h, _, hs⟩
      split at h
      · exact nomatch h
      · next e he =>
        cases h
        simp only [Depth.sides, Prod.mk.injEq] at hs
        exact ⟨⟨e, he, by simp [← hs.1]⟩, ⟨e, he, by simp [← hs.2]⟩⟩
    · rintro ⟨⟨d, hd, rfl⟩, ⟨e, he, rfl⟩⟩
      rw [hd] at he
      cases he
      simp only [hd]
      exact ⟨_, rfl, rfl, rfl⟩
  | tuple l =>
    match l with
    | [a, b] =>
      simp only [normalizeDepth, DescribesDepth, PairForBands, not_false_eq_true, and_true]
      rw [← normalizeAxis_iff, ← normalizeAxis_iff]
      constructor
      · rintro ⟨d, h, _, hs⟩
        split at h
        · exact nomatch h
        · exact nomatch h
        · next e f he hf =>
          cases h
          simp only [Depth.sides, Prod.mk.injEq] at hs
          exact ⟨⟨e, he, by simp [← hs.1]⟩, ⟨f, hf, by simp [← hs.2]⟩⟩
      · rintro ⟨⟨d, hd, rfl⟩, ⟨e, he, rfl⟩⟩
        simp only [hd, he]
        exact ⟨_, rfl, rfl, rfl⟩
    | [] => simp [normalizeDepth, DescribesDepth]
    | [_] => simp [normalizeDepth, DescribesDepth]
    | _ :: _ :: _ :: _ => simp [normalizeDepth, DescribesDepth]
  | dict l =>
    simp only [normalizeDepth, DescribesDepth, PairForBands]
    constructor
    · rintro ⟨d, h, _, hs⟩
      obtain ⟨h1, h2, h3⟩ := normalizeDict_sound l _ d hg h
      have h2' : ∀ a : Nat, a < 3 → (∀ v, (Key.num (a : Rat), v) ∉ l) → d.get a = .same 0 := fun a ha hv => by
        rw [h2 a ha hv]
        match a, ha with
        | 0, _ => rfl
        | 1, _ => rfl
        | 2, _ => rfl
      simp only [Depth.sides, Prod.mk.injEq] at hs
      refine ⟨⟨?_, ?_, ?_, ?_⟩, ?_⟩
      · intro e he
        obtain ⟨a, ha, hk, hn⟩ := h1 e he
        refine ⟨?_, _, (normalizeAxis_iff _ _).mp ⟨_, hn, rfl⟩⟩
        match a, ha with
        | 0, _ => left; simpa using hk
        | 1, _ => right; left; simpa using hk
        | 2, _ => right; right; simpa using hk
      · have := describesAxis_of h1 h2' (a := 0) (by omega)
        have e : d.get 0 = .same 0 := h3
        rw [e] at this
        simpa [AxisDepth.before, AxisDepth.after] using this
      · have := describesAxis_of h1 h2' (a := 1) (by omega)
        rw [← hs.1]
        simpa [Depth.get] using this
      · have := describesAxis_of h1 h2' (a := 2) (by omega)
        rw [← hs.2]
        simpa [Depth.get] using this
      · rintro ⟨t, ht⟩
        obtain ⟨a, _, hk, hn⟩ := h1 _ ht
        simp only [Key.num.injEq] at hk
        have ha : a = 0 := by exact_mod_cast hk.symm
        subst ha
        have e : d.get 0 = .same 0 := h3
        rw [e] at hn
        match t with
        | [.int a, .int b] =>
          simp only [normalizeAxis] at hn
          split at hn <;> exact nomatch hn
        | [] => simp [normalizeAxis] at hn
        | [_] => simp [normalizeAxis] at hn
        | .other :: _ :: _ => simp [normalizeAxis] at hn
        | .int _ :: .other :: _ => simp [normalizeAxis] at hn
        | .int _ :: .int _ :: _ :: _ => simp [normalizeAxis] at hn
    · rintro ⟨⟨hall, h0, h1, h2⟩, hp⟩
      have : ∀ e ∈ l, ∃ a nd, a < 3 ∧ e.1 = .num ((a : Nat) : Rat) ∧ normalizeAxis e.2 = .ok nd ∧
          (a = 0 → nd = .same 0) := by
        intro e he
        obtain ⟨hk, s, hs⟩ := hall e he
        obtain ⟨nd, hnd, _⟩ := (normalizeAxis_iff _ _).mpr hs
        rcases hk with hk | hk | hk
        · refine ⟨0, nd, by omega, by simpa using hk, hnd, fun _ => ?_⟩
          have hm := num_mem_of_key he hk
          have : Describes e.2 (0, 0) := by
            rcases h0 with ⟨v, hv, hd⟩ | ⟨hv, _⟩
            · have : v = e.2 := by
                have := (List.inj_on_of_nodup_map hg) hv hm rfl
                simpa using this
              rw [← this]
              exact hd
            · exact absurd hm (hv _)
          rw [normalizeAxis_zero this fun t ht => hp ⟨t, by rw [← ht]; exact hm⟩] at hnd
          cases hnd
          rfl
        · exact ⟨1, nd, by omega, by simpa using hk, hnd, by simp⟩
        · exact ⟨2, nd, by omega, by simpa using hk, hnd, by simp⟩
      obtain ⟨d, hd⟩ := normalizeDict_complete l ⟨.same 0, .same 0, .same 0⟩ rfl this
      obtain ⟨s1, s2, s3⟩ := normalizeDict_sound l _ d hg hd
      have s2' : ∀ a : Nat, a < 3 → (∀ v, (Key.num (a : Rat), v) ∉ l) → d.get a = .same 0 := fun a ha hv => by
        rw [s2 a ha hv]
        match a, ha with
        | 0, _ => rfl
        | 1, _ => rfl
        | 2, _ => rfl
      refine ⟨d, hd, s3, ?_⟩
      have e1 := describesAxis_of s1 s2' (a := 1) (by omega)
      have e2 := describesAxis_of s1 s2' (a := 2) (by omega)
      unfold Depth.sides
      rw [Prod.mk.injEq]
      exact ⟨describesAxis_unique hg (by simpa [Depth.get] using e1) h1,
        describesAxis_unique hg (by simpa [Depth.get] using e2) h2⟩

/-- Depths that are accepted: three cells on all sides; one above, two below, none left or right. -/
example : DescribesDepth (.int 3) (3, 3) (3, 3) ∧
    DescribesDepth (.dict [(.num 1, .tuple [.int 1, .int 2]), (.num 0, .int 0)]) (1, 2) (0, 0) ∧
    ¬PairForBands (.dict [(.num 1, .tuple [.int 1, .int 2]), (.num 0, .int 0)]) ∧
    normalizeDepth (.dict [(.num 1, .tuple [.int 1, .int 2]), (.num 0, .int 0)]) = .ok ⟨.same 0, .pair 1 2, .same 0⟩ := by
  refine ⟨⟨by simp [Describes], by simp [Describes]⟩, ⟨?_, ?_, ?_, ?_⟩, ?_, by decide +kernel⟩
  · simp [Describes]
  · exact Or.inl ⟨.int 0, by simp, by simp [Describes]⟩
  · exact Or.inl ⟨.tuple [.int 1, .int 2], by simp, by simp [Describes]⟩
  · exact Or.inr ⟨by simp, rfl⟩
  · simp [PairForBands]

/-- A pair of zeros for the band axis describes no overlap along the bands, but is rejected. -/
theorem C36_pair_for_bands : DescribesDepth (.dict [(.num 0, .tuple [.int 0, .int 0]), (.num 1, .int 1)]) (1, 1) (0, 0) ∧
    normalizeDepth (.dict [(.num 0, .tuple [.int 0, .int 0]), (.num 1, .int 1)]) = .error .value := by
  refine ⟨⟨?_, ?_, ?_, ?_⟩, by decide +kernel⟩
  · simp [Describes]
  · exact Or.inl ⟨.tuple [.int 0, .int 0], by simp, by simp [Describes]⟩
  · exact Or.inl ⟨.int 1, by simp, by simp [Describes]⟩
  · exact Or.inr ⟨by simp, rfl⟩

/-- **C36** (asymmetric depth): different depths on the two sides of an axis need a boundary of none, and equal ones
given as one number go with every boundary; what is refused is refused with a ValueError. -/
theorem C36_asymmetric (d : Depth) (b : Boundary) :
    ((d.y.before ≠ d.y.after ∨ d.x.before ≠ d.x.after) → (checkAsymmetric d b = .ok () ↔ NoBoundary b)) ∧
    ((∃ m n, d.y = .same m ∧ d.x = .same n) → checkAsymmetric d b = .ok ()) ∧
    (NoBoundary b → checkAsymmetric d b = .ok ()) ∧
    (∀ e, checkAsymmetric d b = .error e → e = .value) := by
  have key : (d.y.before ≠ d.y.after ∨ d.x.before ≠ d.x.after) → (d.y.isPair || d.x.isPair) = true := by
    rcases d with ⟨_, y, x⟩
    cases y <;> cases x <;> simp [AxisDepth.before, AxisDepth.after, AxisDepth.isPair]
  refine ⟨fun h => ?_, ?_, ?_, ?_⟩
  · have hk := key h
    cases b with
    | none => simp [checkAsymmetric, NoBoundary]
    | num v => simp [checkAsymmetric, NoBoundary, hk]
    | str s =>
      simp only [checkAsymmetric, NoBoundary, Spells, lower]
      by_cases hs : s.toList.map Char.toLower = "none".toList <;> simp [hs, hk]
  · rintro ⟨m, n, h1, h2⟩
    cases b <;> simp [checkAsymmetric, h1, h2, AxisDepth.isPair]
  · intro h
    cases b with
    | none => rfl
    | num v => exact absurd h (by simp [NoBoundary])
    | str s =>
      simp only [NoBoundary, Spells] at h
      simp [checkAsymmetric, lower, h]
  · intro e h
    unfold checkAsymmetric at h
    split at h
    · cases h
    · split at h
      · cases h
      · split at h
        · exact (Except.error.inj h).symm
        · cases h
    · split at h
      · exact (Except.error.inj h).symm
      · cases h

/-- An asymmetric depth and both kinds of boundary. -/
example : ((⟨.same 0, .pair 1 2, .same 0⟩ : Depth).y.before ≠ (⟨.same 0, .pair 1 2, .same 0⟩ : Depth).y.after) ∧
    NoBoundary (.str "None") ∧ ¬NoBoundary (.str "reflect") ∧
    checkAsymmetric ⟨.same 0, .pair 1 2, .same 0⟩ (.str "None") = .ok () ∧
    checkAsymmetric ⟨.same 0, .pair 1 2, .same 0⟩ (.str "reflect") = .error .value := by
  decide +kernel

/-! ### Boundary -/

theorem isNullName_iff (s : String) : isNullName s = true ↔ NullName s := by
  unfold isNullName NullName Spells
  rw [Bool.or_eq_true, Bool.or_eq_true, or_assoc, decide_eq_true_eq, decide_eq_true_eq, decide_eq_true_eq]
  rfl

theorem namedPad_some (s : String) (α : Type) : (∃ p : Pad α, namedPad (lower s) α = some p) ↔
    (Spells s "reflect" ∨ Spells s "periodic" ∨ Spells s "nearest" ∨ Spells s "none") := by
  unfold namedPad Spells
  change _ ↔ (lower s = _ ∨ lower s = _ ∨ lower s = _ ∨ lower s = _)
  generalize "none".toList = t1
  generalize "reflect".toList = t2
  generalize "periodic".toList = t3
  generalize "nearest".toList = t4
  by_cases h1 : lower s = t1
  · rw [if_pos h1]; exact ⟨fun _ => Or.inr (Or.inr (Or.inr h1)), fun _ => ⟨_, rfl⟩⟩
  rw [if_neg h1]
  by_cases h2 : lower s = t2
  · rw [if_pos h2]; exact ⟨fun _ => Or.inl h2, fun _ => ⟨_, rfl⟩⟩
  rw [if_neg h2]
  by_cases h3 : lower s = t3
  · rw [if_pos h3]; exact ⟨fun _ => Or.inr (Or.inl h3), fun _ => ⟨_, rfl⟩⟩
  rw [if_neg h3]
  by_cases h4 : lower s = t4
  · rw [if_pos h4]; exact ⟨fun _ => Or.inr (Or.inr (Or.inl h4)), fun _ => ⟨_, rfl⟩⟩
  rw [if_neg h4]
  exact ⟨fun ⟨_, h⟩ => (nomatch h), by tauto⟩

/-- **C36** (boundary names): the boundaries that are accepted are the documented ones, in upper or lower case. -/
theorem C36_known_boundary (b : Boundary) (r : Raster) :
    ((∃ p, resolveBoundary b r = .ok p) ↔ Known b) ∧ (¬Known b → resolveBoundary b r = .error .value) := by
  cases b with
  | none => simp [resolveBoundary, Known]
  | num v =>
    simp only [resolveBoundary, Known, iff_true, not_true_eq_false, false_implies, and_true]
    cases r.nv with
    | none => exact ⟨_, rfl⟩
    | some s =>
      simp only
      split <;> exact ⟨_, rfl⟩
  | str s =>
    simp only [resolveBoundary, Known]
    by_cases hn : isNullName s = true
    · simp [hn, (isNullName_iff s).mp hn]
    · have hn' : ¬NullName s := fun h => hn ((isNullName_iff s).mpr h)
      rw [if_neg hn, ← namedPad_some s Num]
      have hb : (∃ p : Pad Bool, namedPad (lower s) Bool = some p) ↔ (∃ p : Pad Num, namedPad (lower s) Num = some p) := by
        rw [namedPad_some, namedPad_some]
      cases h1 : namedPad (lower s) Num with
      | none => simp [hn']
      | some p =>
        obtain ⟨q, hq⟩ := hb.mpr ⟨p, h1⟩
        simp [hq]

/-- Accepted and rejected names. -/
example : Known (.str "NoData") ∧ Known (.str "REFLECT") ∧ ¬Known (.str "mirror") ∧ ¬Known (.str "") := by
  simp only [Known, NullName, Spells]
  decide +kernel

theorem mirrored_eq (n : Nat) (i : Int) : (Pad.reflect (α := Num)).index n i = some (mirrored n i) := by
  unfold Pad.index mirrored
  by_cases h : 0 ≤ i ∧ i < n
  · rw [if_pos h, if_neg (by omega), if_pos h.2]
  · rw [if_neg h]
    by_cases h' : i < 0
    · simp only [if_pos h']; congr 1; omega
    · simp only [if_neg h']
      rw [if_neg (by omega)]
      congr 1
      omega

theorem index_congr {α β : Type} {p : Pad α} {q : Pad β} {n : Nat} {i : Int}
    (h : p = .reflect ∧ q = .reflect ∨ p = .periodic ∧ q = .periodic ∨ p = .nearest ∧ q = .nearest) :
    p.index n i = q.index n i := by
  unfold Pad.index
  rcases h with ⟨rfl, rfl⟩ | ⟨rfl, rfl⟩ | ⟨rfl, rfl⟩ <;> rfl

theorem nearest_eq (n : Nat) (i : Int) (hn : 0 < n) : (Pad.nearest (α := Num)).index n i = some (Spec.nearest n i) := by
  unfold Pad.index Spec.nearest
  by_cases h : 0 ≤ i ∧ i < n
  · rw [if_pos h]; congr 1; omega
  · rw [if_neg h]
    by_cases h' : i < 0
    · simp only [if_pos h']; congr 1; omega
    · simp only [if_neg h']; congr 1; omega

theorem periodic_eq (n : Nat) (i : Int) : (Pad.periodic (α := Num)).index n i = some (i % n) := by
  unfold Pad.index
  by_cases h : 0 ≤ i ∧ i < n
  · rw [if_pos h, Int.emod_eq_of_lt h.1 h.2]
  · rw [if_neg h]

theorem extend_inside {α : Type} (p : Pad α) (conv : α → α) {ny nx : Nat} (data : Nat → Nat → α) {r c : Int}
    (hr : 0 ≤ r ∧ r < ny) (hc : 0 ≤ c ∧ c < nx) : p.extend conv ny nx data r c = data r.toNat c.toNat := by
  unfold Pad.extend Pad.index
  rw [if_pos hr, if_pos hc]

theorem extend_fill {α : Type} (v : α) (conv : α → α) {ny nx : Nat} (data : Nat → Nat → α) {r c : Int}
    (h : ¬(0 ≤ r ∧ r < ny ∧ 0 ≤ c ∧ c < nx)) : (Pad.fill v).extend conv ny nx data r c = conv v := by
  unfold Pad.extend Pad.index
  by_cases h1 : 0 ≤ r ∧ r < ny
  · rw [if_pos h1, if_neg (by omega)]
  · rw [if_neg h1]

theorem extend_index {α : Type} (p : Pad α) (conv : α → α) {ny nx : Nat} (data : Nat → Nat → α) {r c i j : Int}
    (h1 : p.index ny r = some i) (h2 : p.index nx c = some j) :
    p.extend conv ny nx data r c = data i.toNat j.toNat := by
  unfold Pad.extend
  rw [h1, h2]

/-- **C36** (boundary): around the raster there is what the boundary says; for the names of the null value it is the
null value of the raster (or the default one), and the cells are marked as null. -/
theorem C36_boundary (np : NumPy) (b : Boundary) (r : Raster) (hf : NullFits np r) {p : Pad Num} {q : Pad Bool}
    (h : resolveBoundary b r = .ok (p, q)) (band : Nat) (row col : Int) (hy : 0 < r.ny) (hx : 0 < r.nx)
    (hex : NoBoundary b → 0 ≤ row ∧ row < r.ny ∧ 0 ≤ col ∧ col < r.nx) :
    around np b r band row col = some
      (p.extend (np.cast r.dtype) r.ny r.nx (fun i j => r.data (band, i, j)) row col,
       q.extend id r.ny r.nx (fun i j => r.mask (band, i, j)) row col) := by
  unfold around
  simp only
  by_cases hin : 0 ≤ row ∧ row < r.ny ∧ 0 ≤ col ∧ col < r.nx
  · rw [if_pos hin, extend_inside p _ _ ⟨hin.1, hin.2.1⟩ hin.2.2, extend_inside q _ _ ⟨hin.1, hin.2.1⟩ hin.2.2]
  · rw [if_neg hin]
    cases b with
    | none => exact absurd (hex trivial) hin
    | num v =>
      simp only [resolveBoundary] at h
      cases hnv : r.nv with
      | none =>
        rw [hnv] at h
        cases h
        rw [extend_fill _ _ _ hin, extend_fill _ _ _ hin]
        simp
      | some s =>
        rw [hnv] at h
        simp only at h
        split at h
        · next he =>
          cases h
          rw [extend_fill _ _ _ hin, extend_fill _ _ _ hin]
          simp [(Num.nanEqual_iff _ _).mp he]
        · next he =>
          cases h
          rw [extend_fill _ _ _ hin, extend_fill _ _ _ hin]
          have : s.val ≠ v := fun e => he ((Num.nanEqual_iff _ _).mpr e.symm)
          simp [this]
    | str s =>
      simp only [resolveBoundary] at h
      by_cases hn : isNullName s = true
      · rw [if_pos hn] at h
        cases h
        simp only [(isNullName_iff s).mp hn, if_true]
        rw [extend_fill _ _ _ hin, extend_fill _ _ _ hin, hf]
        rfl
      · have hn' : ¬NullName s := fun h => hn ((isNullName_iff s).mpr h)
        rw [if_neg hn] at h
        simp only [hn', if_false]
        have hne : ¬Spells s "none" := fun hs => hin (hex hs)
        have hne' : ¬lower s = "none".toList := hne
        simp only [namedPad, if_neg hne'] at h
        by_cases h1 : Spells s "reflect"
        · have h1' : lower s = "reflect".toList := h1
          simp only [if_pos h1'] at h
          cases h
          rw [if_pos h1, extend_index _ _ _ (mirrored_eq _ _) (mirrored_eq _ _),
            extend_index (Pad.reflect (α := Bool)) id _ ((index_congr (by simp)).trans (mirrored_eq _ _))
              ((index_congr (by simp)).trans (mirrored_eq _ _))]
        · have h1' : ¬lower s = "reflect".toList := h1
          simp only [if_neg h1'] at h
          rw [if_neg h1]
          by_cases h2 : Spells s "periodic"
          · have h2' : lower s = "periodic".toList := h2
            simp only [if_pos h2'] at h
            cases h
            rw [if_pos h2, extend_index _ _ _ (periodic_eq _ _) (periodic_eq _ _),
              extend_index (Pad.periodic (α := Bool)) id _ ((index_congr (by simp)).trans (periodic_eq _ _))
                ((index_congr (by simp)).trans (periodic_eq _ _))]
          · have h2' : ¬lower s = "periodic".toList := h2
            simp only [if_neg h2'] at h
            rw [if_neg h2]
            by_cases h3 : Spells s "nearest"
            · have h3' : lower s = "nearest".toList := h3
              simp only [if_pos h3'] at h
              cases h
              rw [if_pos h3, extend_index _ _ _ (nearest_eq _ _ hy) (nearest_eq _ _ hx),
                extend_index (Pad.nearest (α := Bool)) id _ ((index_congr (by simp)).trans (nearest_eq _ _ hy))
                  ((index_congr (by simp)).trans (nearest_eq _ _ hx))]
            · have h3' : ¬lower s = "nearest".toList := h3
              simp only [if_neg h3'] at h
              exact nomatch h

/-- A raster with one cell, valid, of value 7. -/
def seven : Raster := ⟨u8, 1, 1, 1, fun _ => .fin 7, fun _ => false, none⟩

/-- The cell to the left of it for some boundaries. -/
example : NullFits (idNumPy true) seven ∧ (∃ p q, resolveBoundary (.str "NODATA") seven = .ok (p, q)) ∧
    around (idNumPy true) (.str "NODATA") seven 0 0 (-1) = some (.fin 255, true) ∧
    around (idNumPy true) (.num (.fin 3)) seven 0 0 (-1) = some (.fin 3, false) ∧
    around (idNumPy true) (.str "reflect") seven 0 0 (-1) = some (.fin 7, false) ∧
    around (idNumPy true) (.str "None") seven 0 0 (-1) = none := by
  refine ⟨rfl, ⟨.fill (.fin 255), .fill true, by decide +kernel⟩, ?_, ?_, ?_, ?_⟩ <;> decide +kernel

/-! ### Blocks -/

theorem resolveBoundaries_get {b : Boundary} : ∀ {rs : List Raster} {pads : List (Pad Num × Pad Bool)},
    resolveBoundaries b rs = .ok pads → pads.length = rs.length ∧
      ∀ (k : Nat) (r : Raster), rs[k]? = some r → ∃ p, pads[k]? = some p ∧ resolveBoundary b r = .ok p
  | [], pads, h => by cases h; simp
  | r :: rs, pads, h => by
    simp only [resolveBoundaries] at h
    split at h
    · exact nomatch h
    · exact nomatch h
    · next p ps hp hps =>
      cases h
      obtain ⟨h1, h2⟩ := resolveBoundaries_get hps
      refine ⟨by simp [h1], ?_⟩
      intro k r' hk
      match k with
      | 0 => simp only [List.getElem?_cons_zero, Option.some.injEq] at hk; subst hk; exact ⟨p, rfl, hp⟩
      | k + 1 => exact h2 k r' (by simpa using hk)

theorem resolveBoundaries_ok {b : Boundary} : ∀ {rs : List Raster}, rs ≠ [] →
    ((∃ pads, resolveBoundaries b rs = .ok pads) ↔ Known b)
  | [], h => absurd rfl h
  | [r], _ => by
    rw [← (C36_known_boundary b r).1]
    simp only [resolveBoundaries]
    cases resolveBoundary b r <;> simp
  | r :: r' :: rs, _ => by
    have ih := resolveBoundaries_ok (b := b) (rs := r' :: rs) (by simp)
    have h1 := (C36_known_boundary b r).1
    rw [resolveBoundaries]
    constructor
    · rintro ⟨pads, h⟩
      split at h
      · exact nomatch h
      · exact nomatch h
      · next p ps hp hps => exact h1.mp ⟨_, hp⟩
    · intro h
      obtain ⟨p, hp⟩ := h1.mpr h
      obtain ⟨ps, hps⟩ := ih.mpr h
      rw [hp, hps]
      exact ⟨_, rfl⟩

theorem isAbsent_iff (b : Boundary) : b.isAbsent = true ↔ NoBoundary b := by
  cases b with
  | none => simp [Boundary.isAbsent, NoBoundary]
  | num v => simp [Boundary.isAbsent, NoBoundary]
  | str s =>
    unfold Boundary.isAbsent NoBoundary Spells
    rw [decide_eq_true_eq]
    rfl

/-- A row or column of a block belongs to this one of the raster. -/
theorem low_le {absent : Bool} {start p size : Nat} {before : Int} (h0 : 0 ≤ before) (h1 : start ≤ p)
    (_h2 : p < start + size) : low absent start before ≤ p := by
  unfold low
  split <;> omega

/-- Within the depth, a position exists in the block exactly if it exists in the raster or is filled. -/
theorem in_block {absent : Bool} {n start size p : Nat} {before after d : Int} (h1 : start ≤ p)
    (h2 : p < start + size) (h3 : start + size ≤ n) (hb : 0 ≤ before) (ha : 0 ≤ after) (hd : -before ≤ d ∧ d ≤ after) :
    let i := ((p : Int) - low absent start before).toNat
    let len := (high absent n start size after - low absent start before).toNat
    (0 ≤ (i : Int) + d ∧ (i : Int) + d < len) ↔ (absent = true → 0 ≤ (p : Int) + d ∧ (p : Int) + d < n) := by
  unfold low high
  cases absent <;> simp only [if_true, if_false, Bool.false_eq_true, false_implies, iff_true, true_implies] <;> omega

theorem block_pos {absent : Bool} {start size p : Nat} {before d : Int} (h1 : start ≤ p) (h2 : p < start + size)
    (hb : 0 ≤ before) (hd : 0 ≤ (((p : Int) - low absent start before).toNat : Int) + d) :
    low absent start before + ((((p : Int) - low absent start before).toNat : Int) + d).toNat = (p : Int) + d := by
  have := low_le (absent := absent) hb h1 h2
  omega

theorem chunkOf_le : ∀ {ns : List Nat} {start p s n : Nat}, Focal.chunkOf ns start p = some (s, n) →
    s + n ≤ start + ns.sum
  | [], start, p, s, n, h => nomatch h
  | m :: ns, start, p, s, n, h => by
    unfold Focal.chunkOf at h
    rw [List.sum_cons]
    split at h
    · cases h; omega
    · have := chunkOf_le h
      omega

/-- What the function sees around a cell of its block is what there is around the cell of the rasters. -/
theorem blockView_eq (np : NumPy) {b : Boundary} {d : Depth} {rs : List Raster} {pads : List (Pad Num × Pad Bool)}
    (outNull : Option Scalar) {ny nx : Nat} (hs : ∀ r ∈ rs, r.ny = ny ∧ r.nx = nx) (hf : ∀ r ∈ rs, NullFits np r)
    (hp : resolveBoundaries b rs = .ok pads) (hy : 0 ≤ d.y.before ∧ 0 ≤ d.y.after) (hx : 0 ≤ d.x.before ∧ 0 ≤ d.x.after)
    {cell : Cell} {bb r c : Nat × Nat} (hb : bb.1 ≤ cell.1) (hr : r.1 ≤ cell.2.1 ∧ cell.2.1 < r.1 + r.2 ∧ r.1 + r.2 ≤ ny)
    (hc : c.1 ≤ cell.2.2 ∧ cell.2.2 < c.1 + c.2 ∧ c.1 + c.2 ≤ nx) :
    blockView (blockCall np b.isAbsent d rs pads outNull ny nx bb r c) d.sides.1 d.sides.2
      (cell.1 - bb.1, ((cell.2.1 : Int) - low b.isAbsent r.1 d.y.before).toNat,
        ((cell.2.2 : Int) - low b.isAbsent c.1 d.x.before).toNat) =
    rasterView np b rs d.sides.1 d.sides.2 cell := by
  funext k dy dx
  unfold blockView rasterView
  by_cases hR : Reaches d.sides.1 d.sides.2 dy dx
  · simp only [hR, true_and, if_true]
    have hR' := hR
    unfold Reaches Depth.sides at hR'
    simp only at hR'
    have iy := in_block (absent := b.isAbsent) hr.1 hr.2.1 hr.2.2 hy.1 hy.2 ⟨hR'.1, hR'.2.1⟩
    have ix := in_block (absent := b.isAbsent) hc.1 hc.2.1 hc.2.2 hx.1 hx.2 hR'.2.2
    simp only at iy ix
    have hkey : rs[k]? = none ∨ ∃ r', rs[k]? = some r' := by cases rs[k]? <;> simp
    obtain ⟨hlen, hget⟩ := resolveBoundaries_get hp
    split
    · next hin =>
      have hin' : b.isAbsent = true → (0 ≤ (cell.2.1 : Int) + dy ∧ (cell.2.1 : Int) + dy < ny) ∧
          (0 ≤ (cell.2.2 : Int) + dx ∧ (cell.2.2 : Int) + dx < nx) := fun ha =>
        ⟨iy.mp ⟨hin.1, hin.2.1⟩ ha, ix.mp ⟨hin.2.2.1, hin.2.2.2⟩ ha⟩
      have py := block_pos hr.1 hr.2.1 hy.1 hin.1
      have px := block_pos hc.1 hc.2.1 hx.1 hin.2.2.1
      rcases hkey with hk | ⟨r', hk⟩
      · have e : (rs.zip pads)[k]? = none := by
          rw [List.getElem?_eq_none_iff] at hk ⊢
          simp only [List.length_zip]
          omega
        simp only [blockCall, List.getElem?_map, e, hk, Option.map_none, Option.bind_none]
      · obtain ⟨p, hpk, hpr⟩ := hget k r' hk
        have e : (rs.zip pads)[k]? = some (r', p) := by
          rw [List.getElem?_zip_eq_some]
          exact ⟨hk, hpk⟩
        have hmem : r' ∈ rs := List.mem_of_getElem? hk
        obtain ⟨sy, sx⟩ := hs r' hmem
        have hb' : bb.1 + (cell.1 - bb.1) = cell.1 := by omega
        simp only [blockCall, List.getElem?_map, e, hk, Option.map_some, Option.bind_some, py, px, hb']
        subst sy
        subst sx
        refine (C36_boundary np b r' (hf r' hmem) hpr cell.1 _ _ (by omega) (by omega) ?_).symm
        intro hno
        obtain ⟨⟨a1, a2⟩, a3, a4⟩ := hin' ((isAbsent_iff b).mpr hno)
        exact ⟨a1, a2, a3, a4⟩
    · next hout =>
      symm
      rw [Option.bind_eq_none_iff]
      intro r' hk
      obtain ⟨sy, sx⟩ := hs r' (List.mem_of_getElem? hk)
      by_cases hno : NoBoundary b
      · have ha := (isAbsent_iff b).mpr hno
        have hout' : ¬(0 ≤ (cell.2.1 : Int) + dy ∧ (cell.2.1 : Int) + dy < r'.ny ∧ 0 ≤ (cell.2.2 : Int) + dx ∧
            (cell.2.2 : Int) + dx < r'.nx) := by
          rintro ⟨a1, a2, a3, a4⟩
          obtain ⟨b1, b2⟩ := iy.mpr fun _ => ⟨a1, by omega⟩
          obtain ⟨b3, b4⟩ := ix.mpr fun _ => ⟨a3, by omega⟩
          exact hout ⟨b1, b2, b3, b4⟩
        unfold around
        simp only [if_neg hout']
        cases b with
        | none => rfl
        | num v => exact absurd hno (by simp [NoBoundary])
        | str s =>
          have hsp : Spells s "none" := hno
          have n1 : ¬NullName s := by
            unfold NullName Spells
            rw [show s.toList.map Char.toLower = "none".toList from hsp]
            decide +kernel
          have n2 : ¬Spells s "reflect" := by
            unfold Spells
            rw [show s.toList.map Char.toLower = "none".toList from hsp]
            decide +kernel
          have n3 : ¬Spells s "periodic" := by
            unfold Spells
            rw [show s.toList.map Char.toLower = "none".toList from hsp]
            decide +kernel
          have n4 : ¬Spells s "nearest" := by
            unfold Spells
            rw [show s.toList.map Char.toLower = "none".toList from hsp]
            decide +kernel
          simp only [if_neg n1, if_neg n2, if_neg n3, if_neg n4]
      · exfalso
        have ha : ¬(b.isAbsent = true) := fun h => hno ((isAbsent_iff b).mp h)
        obtain ⟨b1, b2⟩ := iy.mpr fun h => absurd h ha
        obtain ⟨b3, b4⟩ := ix.mpr fun h => absurd h ha
        exact hout ⟨b1, b2, b3, b4⟩
  · simp only [hR, false_and, if_false]

theorem cellOut_eq (np : NumPy) {func : Call → Out} {b : Boundary} {d : Depth} {rs : List Raster}
    {pads : List (Pad Num × Pad Bool)} (outNull : Option Scalar) {nb ny nx : Nat} {ch : Chunks}
    (hch : ch.bands.sum = nb ∧ ch.rows.sum = ny ∧ ch.cols.sum = nx) (hs : ∀ r ∈ rs, r.ny = ny ∧ r.nx = nx)
    (hf : ∀ r ∈ rs, NullFits np r) (hp : resolveBoundaries b rs = .ok pads)
    (hy : 0 ≤ d.y.before ∧ 0 ≤ d.y.after) (hx : 0 ≤ d.x.before ∧ 0 ≤ d.x.after)
    {g : List (Option Scalar) → Option Scalar → View → Num × Bool} (hg : LocalTo func d.sides.1 d.sides.2 g)
    {cell : Cell} (h1 : cell.1 < nb) (h2 : cell.2.1 < ny) (h3 : cell.2.2 < nx) :
    cellOut np func b.isAbsent d rs pads outNull ny nx ch cell =
      some (g (rs.map (·.nv)) outNull (rasterView np b rs d.sides.1 d.sides.2 cell)) := by
  obtain ⟨b0, nbc, e1, hb1, hb2⟩ := Focal.chunkOf_spec ch.bands 0 cell.1 (by omega) (by omega)
  obtain ⟨r0, h, e2, hr1, hr2⟩ := Focal.chunkOf_spec ch.rows 0 cell.2.1 (by omega) (by omega)
  obtain ⟨c0, w, e3, hc1, hc2⟩ := Focal.chunkOf_spec ch.cols 0 cell.2.2 (by omega) (by omega)
  have l2 := chunkOf_le e2
  have l3 := chunkOf_le e3
  unfold cellOut
  rw [e1, e2, e3]
  simp only
  congr 1
  have hrow : ((cell.2.1 : Int) - low b.isAbsent r0 d.y.before).toNat <
      (high b.isAbsent ny r0 h d.y.after - low b.isAbsent r0 d.y.before).toNat := by
    have := (in_block (absent := b.isAbsent) (d := 0) (n := ny) hr1 hr2 (by omega) hy.1 hy.2
      ⟨by omega, by omega⟩).mpr fun _ => by omega
    omega
  have hcol : ((cell.2.2 : Int) - low b.isAbsent c0 d.x.before).toNat <
      (high b.isAbsent nx c0 w d.x.after - low b.isAbsent c0 d.x.before).toNat := by
    have := (in_block (absent := b.isAbsent) (d := 0) (n := nx) hc1 hc2 (by omega) hx.1 hx.2
      ⟨by omega, by omega⟩).mpr fun _ => by omega
    omega
  rw [hg (blockCall np b.isAbsent d rs pads outNull ny nx (b0, nbc) (r0, h) (c0, w)) _ (by simp only [blockCall]; omega)
    hrow hcol]
  rw [blockView_eq np outNull hs hf hp hy hx hb1 ⟨hr1, hr2, by omega⟩ ⟨hc1, hc2, by omega⟩]
  rfl

theorem isnan_iff (a : Num) : a.isnan = true ↔ a = .nan := by
  cases a <;> simp [Num.isnan]

theorem made_assemble (outDtype : DType) (nb ny nx : Nat) (cells : Cell → Option (Num × Bool)) (nv : Option Scalar)
    (returnMask : Bool) {c : Cell} {v : Num × Bool} (h : cells c = some v) :
    Made (assemble outDtype nb ny nx cells nv returnMask) outDtype nv returnMask c v := by
  constructor
  · rintro rfl
    unfold assemble ofData
    simp only [h, Bool.false_eq_true, if_false, Option.map_some, Option.getD_some]
    refine ⟨trivial, trivial, ?_⟩
    cases nv with
    | none => simp [maskOf]
    | some s =>
      simp only [Option.map_some, maskOf, Option.some.injEq, exists_eq_left']
      split
      · next hn =>
        rw [isnan_iff] at hn
        rw [isnan_iff, hn]
      · next hn =>
        rw [Num.eq_iff]
        constructor
        · exact fun h => h.1
        · intro e
          refine ⟨e, fun hv => hn ?_⟩
          rw [← e, hv]
          rfl
  · rintro rfl
    unfold assemble ofData
    simp only [if_true, h, Option.map_some, Option.getD_some]
    simp

theorem resolveOutNull_ok {arg : NullArg} {ref : Raster} {rest : List Raster} {dt : DType} {nv : Option Scalar} :
    resolveOutNull arg ref.dtype ref.nv (ref :: rest).length dt = .ok nv ↔ OutNull arg (ref :: rest) dt nv := by
  cases arg with
  | str => simp [resolveOutNull, OutNull]
  | scalar s => simp only [resolveOutNull, OutNull, Except.ok.injEq]; exact eq_comm
  | none =>
    simp only [resolveOutNull, OutNull]
    by_cases hc : rest = [] ∧ ref.dtype = dt
    · obtain ⟨rfl, hd⟩ := hc
      simp only [List.length_cons, List.length_nil, hd, and_self, if_true, Except.ok.injEq, List.cons.injEq, and_true,
        forall_eq', true_implies, exists_eq_left', not_true_eq_false, false_implies]
      exact eq_comm
    · have : ¬((ref :: rest).length = 1 ∧ ref.dtype = dt) := by
        rintro ⟨h1, h2⟩
        simp only [List.length_cons, Nat.add_eq_right, List.length_eq_zero_iff] at h1
        exact hc ⟨h1, h2⟩
      rw [if_neg this]
      have hne : ¬∃ r, ref :: rest = [r] ∧ r.dtype = dt := by
        rintro ⟨r, h1, h2⟩
        simp only [List.cons.injEq] at h1
        obtain ⟨rfl, rfl⟩ := h1
        exact hc ⟨rfl, h2⟩
      simp only [Except.ok.injEq, hne, not_false_eq_true, true_implies]
      constructor
      · rintro rfl
        exact ⟨fun r h1 h2 => absurd ⟨r, h1, h2⟩ hne, rfl⟩
      · exact fun h => h.2.symm

theorem describes_nonneg {a : AxisArg} {s : Int × Int} (h : Describes a s) : 0 ≤ s.1 ∧ 0 ≤ s.2 := by
  unfold Describes at h
  split at h
  · obtain ⟨h, rfl⟩ := h; exact ⟨h, h⟩
  · obtain ⟨h1, h2, rfl⟩ := h; exact ⟨h1, h2⟩
  · exact h.elim

theorem describesAxis_nonneg {l : List (Key × AxisArg)} {q : Rat} {s : Int × Int} (h : DescribesAxis l q s) :
    0 ≤ s.1 ∧ 0 ≤ s.2 := by
  rcases h with ⟨_, _, h⟩ | ⟨_, rfl⟩
  · exact describes_nonneg h
  · simp

theorem describesDepth_nonneg {arg : DepthArg} {y x : Int × Int} (h : DescribesDepth arg y x) :
    (0 ≤ y.1 ∧ 0 ≤ y.2) ∧ (0 ≤ x.1 ∧ 0 ≤ x.2) := by
  unfold DescribesDepth at h
  split at h
  · exact ⟨describes_nonneg h.1, describes_nonneg h.2⟩
  · exact ⟨describes_nonneg h.1, describes_nonneg h.2⟩
  · exact ⟨describesAxis_nonneg h.2.2.1, describesAxis_nonneg h.2.2.2⟩
  · exact h.elim

theorem all_shapes {ref : Raster} {rest : List Raster}
    (h : ¬(rest.any (fun r => decide ((r.nb, r.ny, r.nx) ≠ (ref.nb, ref.ny, ref.nx))) = true)) :
    ∀ r ∈ ref :: rest, (r.nb, r.ny, r.nx) = (ref.nb, ref.ny, ref.nx) := by
  intro r hr
  rcases List.mem_cons.mp hr with rfl | hr
  · rfl
  · by_contra hne
    exact h (List.any_eq_true.mpr ⟨r, hr, by simp only [decide_eq_true_eq]; exact hne⟩)

/-- **C48** (`map_overlap`).  For a function that computes a cell from what is around it within the depth, the result at
every cell is the function of what is around the cell in the rasters continued by the boundary - so it does not depend
on the chunks.  The null value is the one given, else the one of a single input with the dtype of the result, else the
default; a cell is null exactly if it holds the null value or, with `return_mask`, is marked by the function. -/
theorem C48_map_overlap (np : NumPy) (func : Call → Out) (ref : Raster) (rest : List Raster) (depth : DepthArg)
    (b : Boundary) (nv : NullArg) (outDtype : DType) (o : Options) (ch : Chunks) (out : Raster)
    (h : mapOverlap np func (ref :: rest) depth b nv outDtype o ch = .ok out) (hk : GoodDict depth)
    (hch : Covers ch ref) (hf : ∀ r ∈ ref :: rest, NullFits np r) :
    out.dtype = outDtype ∧ (out.nb, out.ny, out.nx) = (ref.nb, ref.ny, ref.nx) ∧
    ∃ y x outNull, DescribesDepth depth y x ∧ OutNull nv (ref :: rest) outDtype outNull ∧
      ∀ g, LocalTo func y x g → ∀ c, ref.Has c →
        Made out outDtype outNull o.returnMask c
          (g ((ref :: rest).map (·.nv)) outNull (rasterView np b (ref :: rest) y x c)) := by
  unfold mapOverlap at h
  simp only at h
  split at h
  · exact nomatch h
  · next hsh =>
    have shapes := all_shapes hsh
    split at h
    · exact nomatch h
    · next d hd =>
      split at h
      · exact nomatch h
      · exact nomatch h
      · exact nomatch h
      · exact nomatch h
      · next pads outNull _ hpads hnull _ =>
        split at h
        · exact nomatch h
        · cases h
          have hband : d.band = .same 0 := by
            cases depth with
            | other => exact nomatch hd
            | int n =>
              simp only [normalizeDepth] at hd
              split at hd
              · exact nomatch hd
              · cases hd; rfl
            | tuple l =>
              match l with
              | [a, b] =>
                simp only [normalizeDepth] at hd
                split at hd
                · exact nomatch hd
                · exact nomatch hd
                · cases hd; rfl
              | [] => exact nomatch hd
              | [_] => exact nomatch hd
              | _ :: _ :: _ :: _ => exact nomatch hd
            | dict l => exact (normalizeDict_sound l _ d hk hd).2.2
          have hdesc := ((C36_depth_partial depth hk d.sides.1 d.sides.2).mp ⟨d, hd, hband, rfl⟩).1
          obtain ⟨ny, nx⟩ := describesDepth_nonneg hdesc
          refine ⟨?_, ?_, d.sides.1, d.sides.2, outNull, hdesc, resolveOutNull_ok.mp hnull, ?_⟩
          · unfold assemble ofData; cases o.returnMask <;> rfl
          · unfold assemble ofData; cases o.returnMask <;> rfl
          · intro g hg c hc
            apply made_assemble
            refine cellOut_eq np outNull hch ?_ hf hpads ny nx hg hc.1 hc.2.1 hc.2.2
            intro r hr
            have := shapes r hr
            simp only [Prod.mk.injEq] at this
            exact this.2

/-- **C48** (chunks): two ways to chunk the rasters give the same cells. -/
theorem C48_chunks (np : NumPy) (func : Call → Out) (ref : Raster) (rest : List Raster) (depth : DepthArg)
    (b : Boundary) (nv : NullArg) (outDtype : DType) (o : Options) (ch ch' : Chunks) (out out' : Raster)
    (h : mapOverlap np func (ref :: rest) depth b nv outDtype o ch = .ok out)
    (h' : mapOverlap np func (ref :: rest) depth b nv outDtype o ch' = .ok out') (hk : GoodDict depth)
    (hch : Covers ch ref) (hch' : Covers ch' ref) (hf : ∀ r ∈ ref :: rest, NullFits np r)
    (hg : ∀ y x, DescribesDepth depth y x → ∃ g, LocalTo func y x g) :
    out.nv = out'.nv ∧ ∀ c, ref.Has c → out.data c = out'.data c ∧ out.mask c = out'.mask c := by
  obtain ⟨_, _, y, x, n, hd, hn, hm⟩ := C48_map_overlap np func ref rest depth b nv outDtype o ch out h hk hch hf
  obtain ⟨_, _, y', x', n', hd', hn', hm'⟩ := C48_map_overlap np func ref rest depth b nv outDtype o ch' out' h' hk hch' hf
  have hn2 : n = n' := by
    have e1 := resolveOutNull_ok.mpr hn
    have e2 := resolveOutNull_ok.mpr hn'
    rw [e1] at e2
    cases e2
    rfl
  have hd2 : y = y' ∧ x = x' := by
    unfold mapOverlap at h
    simp only at h
    split at h
    · exact nomatch h
    · split at h
      · exact nomatch h
      · next d hdd =>
        by_cases hp : PairForBands depth
        · exfalso
          have : ∃ y x, DescribesDepth depth y x ∧ ¬PairForBands depth := by
            have hb : d.band = .same 0 := by
              cases depth with
              | dict l => exact (normalizeDict_sound l _ d hk hdd).2.2
              | _ => exact hp.elim
            exact ⟨_, _, (C36_depth_partial depth hk d.sides.1 d.sides.2).mp ⟨d, hdd, hb, rfl⟩⟩
          obtain ⟨_, _, _, hq⟩ := this
          exact hq hp
        · obtain ⟨d1, a1, _, s1⟩ := (C36_depth_partial depth hk y x).mpr ⟨hd, hp⟩
          obtain ⟨d2, a2, _, s2⟩ := (C36_depth_partial depth hk y' x').mpr ⟨hd', hp⟩
          rw [a1] at a2
          cases a2
          rw [s1] at s2
          simpa using s2
  obtain ⟨rfl, rfl⟩ := hd2
  subst hn2
  obtain ⟨g, hg⟩ := hg y x hd
  have nvs : out.nv = out'.nv := by
    unfold mapOverlap at h h'
    simp only at h h'
    split at h
    · exact nomatch h
    · next hsh =>
      rw [if_neg hsh] at h'
      split at h
      · exact nomatch h
      · next d hdd =>
        rw [hdd] at h'
        simp only at h'
        split at h
        · exact nomatch h
        · exact nomatch h
        · exact nomatch h
        · exact nomatch h
        · next q1 q2 q3 q4 =>
          rw [q1, q2, q3, q4] at h'
          simp only at h'
          split at h
          · exact nomatch h
          · next hbig =>
            rw [if_neg hbig] at h'
            cases h
            cases h'
            unfold assemble ofData
            cases o.returnMask <;> rfl
  refine ⟨nvs, fun c hc => ?_⟩
  have m1 := hm g hg c hc
  have m2 := hm' g hg c hc
  cases hr : o.returnMask with
  | false =>
    obtain ⟨_, a1, a2⟩ := m1.plain hr
    obtain ⟨_, b1, b2⟩ := m2.plain hr
    refine ⟨by rw [a1, b1], ?_⟩
    rw [Bool.eq_iff_iff, a2, b2]
  | true =>
    obtain ⟨_, a1, a2⟩ := m1.explicit hr
    obtain ⟨_, b1, b2⟩ := m2.explicit hr
    exact ⟨by rw [a2, b2], by rw [a1, b1]⟩

/-- **C48** (rejected arguments).  `map_overlap` gives a result exactly if there are rasters, all of one shape, the depth
describes an overlap along y and x (no pair for the bands) not larger than the raster, asymmetric depths go without a
boundary, the boundary is a known one, the null value is not a string, and `out_null_value` is not asked for together with
`return_mask` without saying what the dtype or the null value is. -/
theorem C48_accepted (np : NumPy) (func : Call → Out) (rs : List Raster) (depth : DepthArg) (b : Boundary)
    (nv : NullArg) (outDtype : DType) (o : Options) (ch : Chunks) :
    (∃ out, mapOverlap np func rs depth b nv outDtype o ch = .ok out) ↔
      ∃ ref rest, rs = ref :: rest ∧ (∀ r ∈ rest, (r.nb, r.ny, r.nx) = (ref.nb, ref.ny, ref.nx)) ∧
        (∃ d, normalizeDepth depth = .ok d ∧ checkAsymmetric d b = .ok () ∧ d.y.before ≤ ref.ny ∧ d.y.after ≤ ref.ny ∧
          d.x.before ≤ ref.nx ∧ d.x.after ≤ ref.nx) ∧
        Known b ∧ nv ≠ .str ∧ ¬(o.wantsOutNull ∧ o.returnMask ∧ ¬o.hinted ∧ nv = .none) := by
  constructor
  · rintro ⟨out, h⟩
    unfold mapOverlap at h
    split at h
    · exact nomatch h
    · next ref rest =>
      split at h
      · exact nomatch h
      · next hsh =>
        split at h
        · exact nomatch h
        · next d hd =>
          split at h
          · exact nomatch h
          · exact nomatch h
          · exact nomatch h
          · exact nomatch h
          · next pads outNull ha hp hn hw =>
            split at h
            · exact nomatch h
            · next hbig =>
              refine ⟨ref, rest, rfl, fun r hr => all_shapes hsh r (List.mem_cons_of_mem _ hr),
                ⟨d, hd, ha, by omega, by omega, by omega, by omega⟩, (resolveBoundaries_ok (by simp)).mp ⟨_, hp⟩, ?_, ?_⟩
              · rintro rfl; exact nomatch hn
              · intro hc
                unfold checkWrapper at hw
                rw [if_pos hc] at hw
                exact nomatch hw
  · rintro ⟨ref, rest, rfl, hsh, ⟨d, hd, ha, b1, b2, b3, b4⟩, hb, hn, hw⟩
    obtain ⟨pads, hp⟩ := (resolveBoundaries_ok (b := b) (rs := ref :: rest) (by simp)).mpr hb
    obtain ⟨n, hn⟩ : ∃ n, resolveOutNull nv ref.dtype ref.nv (ref :: rest).length outDtype = .ok n := by
      cases nv with
      | str => exact absurd rfl hn
      | scalar s => exact ⟨_, rfl⟩
      | none => unfold resolveOutNull; simp only; split <;> exact ⟨_, rfl⟩
    have hw' : checkWrapper nv o = .ok () := by unfold checkWrapper; rw [if_neg hw]
    have hsh' : ¬(rest.any (fun r => decide ((r.nb, r.ny, r.nx) ≠ (ref.nb, ref.ny, ref.nx))) = true) := by
      intro hany
      obtain ⟨r, hr, hne⟩ := List.any_eq_true.mp hany
      exact (decide_eq_true_eq.mp hne) (hsh r hr)
    unfold mapOverlap
    simp only
    rw [if_neg hsh', hd]
    simp only
    rw [ha, hp, hn, hw']
    simp only
    rw [if_neg (by omega)]
    exact ⟨_, rfl⟩

/-! ### `map_blocks` -/

theorem resolveBoundaries_none : ∀ rs : List Raster,
    resolveBoundaries .none rs = .ok (rs.map fun _ => (.absent, .absent))
  | [] => rfl
  | r :: rs => by
    simp only [resolveBoundaries, resolveBoundaries_none rs, resolveBoundary, List.map_cons]

/-- **C48** (`map_blocks`).  For a function that computes a cell from the cells at the same place in the inputs, the
result is the function of the cells at every place, whatever the chunks, with the null value and the mask as for
`map_overlap`. -/
theorem C48_map_blocks (np : NumPy) (func : Call → Out) (ref : Raster) (rest : List Raster) (nv : NullArg)
    (outDtype : DType) (o : Options) (ch : Chunks) (out : Raster)
    (h : mapBlocks np func (ref :: rest) .none nv outDtype o ch = .ok out) (hch : Covers ch ref)
    (hf : ∀ r ∈ ref :: rest, NullFits np r) :
    out.dtype = outDtype ∧ (out.nb, out.ny, out.nx) = (ref.nb, ref.ny, ref.nx) ∧
    ∃ outNull, OutNull nv (ref :: rest) outDtype outNull ∧
      ∀ g, LocalTo func (0, 0) (0, 0) g → ∀ c, ref.Has c →
        Made out outDtype outNull o.returnMask c
          (g ((ref :: rest).map (·.nv)) outNull (rasterView np .none (ref :: rest) (0, 0) (0, 0) c)) := by
  unfold mapBlocks at h
  simp only [checkOutBands] at h
  split at h
  · exact nomatch h
  · next hsh =>
    have shapes := all_shapes hsh
    split at h
    · next hh => exact nomatch hh
    · exact nomatch h
    · exact nomatch h
    · next outNull _ hnull _ =>
      cases h
      refine ⟨?_, ?_, outNull, resolveOutNull_ok.mp hnull, ?_⟩
      · unfold assemble ofData; cases o.returnMask <;> rfl
      · unfold assemble ofData; cases o.returnMask <;> rfl
      · intro g hg c hc
        apply made_assemble
        refine cellOut_eq (b := .none) (d := ⟨.same 0, .same 0, .same 0⟩) np outNull hch ?_ hf
          (resolveBoundaries_none _) (by simp [AxisDepth.before, AxisDepth.after])
          (by simp [AxisDepth.before, AxisDepth.after]) hg hc.1 hc.2.1 hc.2.2
        intro r hr
        have := shapes r hr
        simp only [Prod.mk.injEq] at this
        exact this.2
    · next hh _ _ => exact nomatch hh

theorem extend_absent_inside {α : Type} (conv : α → α) {ny nx : Nat} (data : Nat → Nat → α) {r c : Nat}
    (hr : r < ny) (hc : c < nx) : (Pad.absent (α := α)).extend conv ny nx data (r : Int) (c : Int) = data r c := by
  rw [extend_inside _ _ _ ⟨by omega, by omega⟩ ⟨by omega, by omega⟩]
  simp

/-- What a call with all the bands holds in a column. -/
theorem blockColumn_eq (np : NumPy) {rs : List Raster} (outNull : Option Scalar) {nb ny nx : Nat}
    (hs : ∀ r ∈ rs, r.nb = nb ∧ r.ny = ny ∧ r.nx = nx) {row col : Nat} {r c : Nat × Nat}
    (hr : r.1 ≤ row ∧ row < ny) (hc : c.1 ≤ col ∧ col < nx) :
    blockColumn (mapBlocks.allBands np rs outNull nb ny nx r c) (row - r.1) (col - c.1) = rasterColumn rs row col := by
  funext k band
  unfold blockColumn rasterColumn mapBlocks.allBands blockCall
  simp only [List.getElem?_map]
  have hz : (rs.zip (rs.map fun _ => ((Pad.absent, Pad.absent) : Pad Num × Pad Bool)))[k]? =
      (rs[k]?).map fun r => (r, (Pad.absent, Pad.absent)) := by
    rw [List.zip_map_right, List.getElem?_map]
    unfold List.zip
    rw [List.getElem?_zipWith]
    cases rs[k]? <;> rfl
  rw [hz]
  cases hk : rs[k]? with
  | none => simp
  | some r' =>
    obtain ⟨h1, h2, h3⟩ := hs r' (List.mem_of_getElem? hk)
    simp only [Option.map_some, h1]
    have e1 : low true r.1 (AxisDepth.same 0).before + ((row - r.1 : Nat) : Int) = (row : Int) := by
      unfold low; simp only [if_true, AxisDepth.before]; omega
    have e2 : low true c.1 (AxisDepth.same 0).before + ((col - c.1 : Nat) : Int) = (col : Int) := by
      unfold low; simp only [if_true, AxisDepth.before]; omega
    rw [e1, e2, extend_absent_inside _ _ hr.2 hc.2, extend_absent_inside _ _ hr.2 hc.2]
    simp

/-- **C48** (`out_bands`).  With `out_bands=n` the result has `n` bands, and for a function that computes a cell from
the cells of all bands at its place it is that function of all the bands of the inputs, whatever the chunks. -/
theorem C48_out_bands (np : NumPy) (func : Call → Out) (ref : Raster) (rest : List Raster) (n : Int) (nv : NullArg)
    (outDtype : DType) (o : Options) (ch : Chunks) (out : Raster)
    (h : mapBlocks np func (ref :: rest) (.int n) nv outDtype o ch = .ok out) (hch : Covers ch ref) :
    1 ≤ n ∧ out.dtype = outDtype ∧ ((out.nb : Int), out.ny, out.nx) = (n, ref.ny, ref.nx) ∧
    ∃ outNull, OutNull nv (ref :: rest) outDtype outNull ∧
      ∀ g, ColumnWise func g → ∀ c, out.Has c →
        Made out outDtype outNull o.returnMask c
          (g ((ref :: rest).map (·.nv)) outNull c.1 (rasterColumn (ref :: rest) c.2.1 c.2.2)) := by
  unfold mapBlocks at h
  simp only [checkOutBands] at h
  split at h
  · exact nomatch h
  · next hsh =>
    have shapes := all_shapes hsh
    split at h
    · exact nomatch h
    · exact nomatch h
    · exact nomatch h
    · next hh _ _ => split at hh <;> exact nomatch hh
    · next n' outNull hn hnull _ =>
      split at hn
      · exact nomatch hn
      · next hpos =>
        cases hn
        split at h
        · exact nomatch h
        · next hwrong =>
          cases h
          refine ⟨by omega, ?_, ?_, outNull, resolveOutNull_ok.mp hnull, ?_⟩
          · unfold assemble ofData; cases o.returnMask <;> rfl
          · unfold assemble ofData; cases o.returnMask <;> simp <;> omega
          · intro g hg c hc
            have hc' : c.1 < n.toNat ∧ c.2.1 < ref.ny ∧ c.2.2 < ref.nx := by
              unfold assemble ofData Raster.Has at hc
              revert hc
              cases o.returnMask <;> exact fun h => h
            apply made_assemble
            obtain ⟨r0, hh, e2, hr1, hr2⟩ := Focal.chunkOf_spec ch.rows 0 c.2.1 (by omega)
              (by have := hch.2.1; omega)
            obtain ⟨c0, w, e3, hc1, hc2⟩ := Focal.chunkOf_spec ch.cols 0 c.2.2 (by omega)
              (by have := hch.2.2; omega)
            have l2 := chunkOf_le e2
            have l3 := chunkOf_le e3
            have s2 := hch.2.1
            have s3 := hch.2.2
            have hbands : (func (mapBlocks.allBands np (ref :: rest) outNull ref.nb ref.ny ref.nx (r0, hh) (c0, w))).nb =
                n.toNat := by
              by_contra hne
              apply hwrong
              unfold mapBlocks.wrongBands
              rw [List.any_eq_true]
              refine ⟨c.2.1, List.mem_range.mpr hc'.2.1, ?_⟩
              rw [List.any_eq_true]
              refine ⟨c.2.2, List.mem_range.mpr hc'.2.2, ?_⟩
              rw [e2, e3]
              simp only [decide_eq_true_eq]
              exact hne
            unfold mapBlocks.cellOutBands
            rw [e2, e3]
            simp only
            congr 1
            rw [hg (mapBlocks.allBands np (ref :: rest) outNull ref.nb ref.ny ref.nx (r0, hh) (c0, w))
              (c.1, c.2.1 - r0, c.2.2 - c0) (by rw [hbands]; exact hc'.1)]
            · rw [show (c.1, c.2.1 - r0, c.2.2 - c0).2.1 = c.2.1 - r0 from rfl,
                show (c.1, c.2.1 - r0, c.2.2 - c0).2.2 = c.2.2 - c0 from rfl,
                blockColumn_eq np outNull (r := (r0, hh)) (c := (c0, w)) ?_ ⟨hr1, hc'.2.1⟩ ⟨hc1, hc'.2.2⟩]
              · rfl
              · intro r hr
                have := shapes r hr
                simpa only [Prod.mk.injEq] using this
            · unfold mapBlocks.allBands blockCall low high
              simp only [if_true, AxisDepth.before, AxisDepth.after]
              omega
            · unfold mapBlocks.allBands blockCall low high
              simp only [if_true, AxisDepth.before, AxisDepth.after]
              omega

/-- **C48** (`out_bands` rejected): numbers below one, booleans and anything else that is not an integer; and a function
that returns another number of bands. -/
theorem C48_out_bands_rejected (np : NumPy) (func : Call → Out) (ref : Raster) (rest : List Raster) (nv : NullArg)
    (outDtype : DType) (o : Options) (ch : Chunks) (hsh : ∀ r ∈ rest, (r.nb, r.ny, r.nx) = (ref.nb, ref.ny, ref.nx)) :
    (∀ n : Int, n < 1 → mapBlocks np func (ref :: rest) (.int n) nv outDtype o ch = .error .value) ∧
    (∀ t, mapBlocks np func (ref :: rest) (.bool t) nv outDtype o ch = .error .value) ∧
    mapBlocks np func (ref :: rest) .other nv outDtype o ch = .error .value ∧
    (∀ n : Int, (∀ call, ((func call).nb : Int) ≠ n) → 0 < ref.ny → 0 < ref.nx → Covers ch ref →
      ¬∃ out, mapBlocks np func (ref :: rest) (.int n) nv outDtype o ch = .ok out) := by
  have hsh' : ¬(rest.any (fun r => decide ((r.nb, r.ny, r.nx) ≠ (ref.nb, ref.ny, ref.nx))) = true) := by
    intro hany
    obtain ⟨r, hr, hne⟩ := List.any_eq_true.mp hany
    exact (decide_eq_true_eq.mp hne) (hsh r hr)
  refine ⟨fun n hn => ?_, fun t => ?_, ?_, ?_⟩
  · unfold mapBlocks; simp only [if_neg hsh', checkOutBands, if_pos hn]
  · unfold mapBlocks; simp only [if_neg hsh', checkOutBands]
  · unfold mapBlocks; simp only [if_neg hsh', checkOutBands]
  · rintro n hb hy hx hch ⟨out, h⟩
    unfold mapBlocks at h
    simp only [if_neg hsh', checkOutBands] at h
    split at h
    · exact nomatch h
    · exact nomatch h
    · exact nomatch h
    · next hh _ _ => split at hh <;> exact nomatch hh
    · next n' outNull hn hnull _ =>
      split at hn
      · exact nomatch hn
      · next hpos =>
        cases hn
        split at h
        · exact nomatch h
        · next hwrong =>
          apply hwrong
          obtain ⟨r0, hh, e2, -, -⟩ := Focal.chunkOf_spec ch.rows 0 0 (by omega) (by have := hch.2.1; omega)
          obtain ⟨c0, w, e3, -, -⟩ := Focal.chunkOf_spec ch.cols 0 0 (by omega) (by have := hch.2.2; omega)
          unfold mapBlocks.wrongBands
          rw [List.any_eq_true]
          refine ⟨0, List.mem_range.mpr hy, ?_⟩
          rw [List.any_eq_true]
          refine ⟨0, List.mem_range.mpr hx, ?_⟩
          rw [e2, e3]
          simp only [decide_eq_true_eq]
          intro he
          exact hb _ (by rw [he]; omega)

/-- A function that names `out_null_value` together with `return_mask=True` is documented to work (`blocks.py:617-618`)
but fails if neither the dtype nor the null value is given. -/
theorem C48_out_null_value_with_return_mask :
    mapOverlap (idNumPy true) (fun call => ⟨call.nb, fun c => (call.data.headD fun _ => .nan) c, fun _ => false⟩) [seven]
      (.int 0) .none .none u8 ⟨true, false, true⟩ ⟨[1], [1], [1]⟩ = .error .key := by
  rfl

/-! ### Examples -/

/-- The cell to the left, NaN if there is none. -/
def leftOf (call : Call) (c : Cell) : Num × Bool :=
  if 1 ≤ c.2.2 then
    match call.data[0]?, call.masks[0]? with
    | some d, some m => (d (c.1, c.2.1, c.2.2 - 1), m (c.1, c.2.1, c.2.2 - 1))
    | _, _ => (.nan, false)
  else (.nan, false)

/-- A function that moves the data of a block one to the right. -/
def shiftRight (call : Call) : Out := ⟨call.nb, fun c => (leftOf call c).1, fun c => (leftOf call c).2⟩

/-- Three cells with the values 0, 1, 2. -/
def row3 : Raster := ⟨u8, 1, 1, 3, fun c => .fin c.2.2, fun _ => false, some ⟨u8, .fin 9⟩⟩

/-- The function above sees one cell to the left. -/
theorem shiftRight_local : LocalTo shiftRight (0, 0) (1, 1) fun _ _ view => (view 0 0 (-1)).getD (.nan, false) := by
  intro call cell h1 h2 h3
  unfold shiftRight leftOf blockView
  simp only
  by_cases h : 1 ≤ cell.2.2
  · rw [if_pos h, if_pos ⟨by simp [Reaches], by omega, by omega, by omega, by omega⟩]
    have e1 : ((cell.2.1 : Int) + 0).toNat = cell.2.1 := by omega
    have e2 : ((cell.2.2 : Int) + -1).toNat = cell.2.2 - 1 := by omega
    rw [e1, e2]
    cases call.data[0]? <;> cases call.masks[0]? <;> rfl
  · rw [if_neg h, if_neg (by omega)]
    rfl

/-- The hypotheses of C48 are met: the row is moved to the right over the chunk borders, and the null value enters. -/
example : Covers ⟨[1], [1], [1, 2]⟩ row3 ∧ NullFits (idNumPy true) row3 ∧ DescribesDepth (.tuple [.int 0, .int 1]) (0, 0) (1, 1) ∧
    ∃ out, mapOverlap (idNumPy true) shiftRight [row3] (.tuple [.int 0, .int 1]) (.str "null") .none u8
      ⟨false, true, false⟩ ⟨[1], [1], [1, 2]⟩ = .ok out ∧ out.data (0, 0, 0) = .fin 9 ∧ out.data (0, 0, 1) = .fin 0 ∧
      out.data (0, 0, 2) = .fin 1 ∧ out.mask (0, 0, 0) = true ∧ out.mask (0, 0, 1) = false := by
  refine ⟨⟨rfl, rfl, rfl⟩, rfl, ⟨by simp [Describes], by simp [Describes]⟩, _, rfl, ?_, ?_, ?_, ?_, ?_⟩ <;> decide +kernel

/-- Two bands are made of one: the band itself and its double. -/
def twoBands (call : Call) : Out :=
  ⟨2, fun c => match call.data[0]? with
    | some d => if c.1 = 0 then d (0, c.2) else Focal.add (d (0, c.2)) (d (0, c.2))
    | none => .nan, fun _ => false⟩

/-- The hypotheses of C48 (`out_bands`) are met. -/
example : ∃ out, mapBlocks (idNumPy true) twoBands [row3] (.int 2) .none u8 ⟨false, true, false⟩ ⟨[1], [1], [2, 1]⟩ = .ok out ∧
    out.data (0, 0, 2) = .fin 2 ∧ out.data (1, 0, 2) = .fin 4 ∧ out.Has (1, 0, 2) := by
  refine ⟨_, rfl, by decide +kernel, by decide +kernel, ?_⟩
  unfold Raster.Has
  decide +kernel

example : ¬∃ out, mapBlocks (idNumPy true) twoBands [row3] (.int 3) .none u8 ⟨false, true, false⟩ ⟨[1], [1], [2, 1]⟩ = .ok out := by
  rintro ⟨_, h⟩
  exact nomatch h

end Verif.Blocks
