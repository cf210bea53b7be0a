import Verif.FromData.Model
import Verif.Build.Props

set_option linter.unusedSectionVars false

/-!
# Properties of the construction of rasters from arrays
-/

namespace Verif.FromData

open Verif Verif.Nulls DType Verif.Build

namespace Spec

/-- The bands, rows, columns and elements of an array of two or three dimensions. -/
def Reads : Arr → Nat → Nat → Nat → (Nat → Nat → Nat → Num) → Prop
  | .flat ny nx get, nb, h, w, f => nb = 1 ∧ h = ny ∧ w = nx ∧ ∀ k i j, f k i j = get i j
  | .cube b ny nx get, nb, h, w, f => nb = b ∧ h = ny ∧ w = nx ∧ f = get
  | _, _, _, _, _ => False

/-- The coordinates that the arguments give to `h` rows and `w` columns: those of the affine if there is one, those given, or by
default `N - 1/2, …, 1/2` for rows and `1/2, 3/2, …` for columns. -/
inductive Coords (h w : Nat) : Coord → Coord → Option Affine → List Rat → List Rat → Prop
  | affine (x y : Coord) (t : Affine) (ys xs : List Rat) (hy : ys.length = h) (hx : xs.length = w)
      (vy : ∀ i, (hi : i < ys.length) → ys[i] = t.e * (i + 1 / 2) + t.f)
      (vx : ∀ j, (hj : j < xs.length) → xs[j] = t.a * (j + 1 / 2) + t.c) : Coords h w x y (some t) ys xs
  | given (ys xs : List Rat) (hy : ys.length = h) (hx : xs.length = w) : Coords h w (.array xs) (.array ys) none ys xs
  | default (ys xs : List Rat) (hy : ys.length = h) (hx : xs.length = w)
      (vy : ∀ i, (hi : i < ys.length) → ys[i] = h - i - 1 / 2)
      (vx : ∀ j, (hj : j < xs.length) → xs[j] = j + 1 / 2) : Coords h w .absent .absent none ys xs

/-- The mask of the result: the cells where the given mask is set, or those that hold the null value. -/
def NullAt (mask : Option (Nat → Nat → Nat → Num)) (nv : Option Scalar) (get : Nat → Nat → Nat → Num) (k i j : Nat) : Prop :=
  match mask with
  | some m => m k i j ≠ .fin 0
  | none => ∃ s, nv = some s ∧ get k i j = s.val

/-- The null value of the result: the given one, else the default one if there is a mask. -/
def NullOf (dt : DType) (mask : Bool) (nv out : Option Scalar) : Prop :=
  (∃ s, nv = some s ∧ out = some s) ∨ (nv = none ∧ mask = true ∧ out = some (defaultNull dt)) ∨
    (nv = none ∧ mask = false ∧ out = none)

/-- The value in a cell: the null value in null cells if they are burned in, the element of the array otherwise. -/
def ValueOf (burn null : Prop) (nv : Option Scalar) (v out : Num) : Prop :=
  (burn ∧ null → ∃ s, nv = some s ∧ out = s.val) ∧ (¬ (burn ∧ null) → out = v)

end Spec

open Spec

/-! ### Arrays -/

theorem normalizeData_iff (a : Arr) (d : Cube) : normalizeData a = .ok d ↔ Reads a d.nb d.ny d.nx d.get := by
  obtain ⟨nb, ny, nx, get⟩ := d
  cases a with
  | flat h w g =>
    simp only [normalizeData, Reads, Except.ok.injEq, Cube.mk.injEq]
    constructor
    · rintro ⟨rfl, rfl, rfl, rfl⟩
      exact ⟨rfl, rfl, rfl, fun _ _ _ => rfl⟩
    · rintro ⟨rfl, rfl, rfl, h⟩
      exact ⟨rfl, rfl, rfl, by funext k i j; exact (h k i j).symm⟩
  | cube b h w g =>
    simp only [normalizeData, Reads, Except.ok.injEq, Cube.mk.injEq]
    constructor
    · rintro ⟨rfl, rfl, rfl, rfl⟩
      exact ⟨rfl, rfl, rfl, rfl⟩
    · rintro ⟨rfl, rfl, rfl, rfl⟩
      exact ⟨rfl, rfl, rfl, rfl⟩
  | odd => simp [normalizeData, Reads]
  | other => simp [normalizeData, Reads]

/-! ### Coordinates -/

theorem centers_get (s o : Rat) (n i : Nat) (h : i < (centers s o n).length) : (centers s o n)[i] = s * (i + 1 / 2) + o := by
  simp [centers]

theorem defaultX_get (n i : Nat) (h : i < (defaultX n).length) : (defaultX n)[i] = i + 1 / 2 := by
  simp [defaultX]

theorem defaultY_get (n i : Nat) (h : i < (defaultY n).length) : (defaultY n)[i] = n - i - 1 / 2 := by
  have hn : i < n := by simpa [defaultY] using h
  simp only [defaultY, List.getElem_map, List.getElem_reverse, List.getElem_range, List.length_range]
  have : ((n - 1 - i : Nat) : Rat) = n - 1 - i := by
    rw [Nat.cast_sub (by omega), Nat.cast_sub (by omega)]
    simp
  rw [this]
  ring

theorem coords_iff (x y : Coord) (t : Option Affine) (h w : Nat) (ys xs : List Rat) :
    coords x y t h w = .ok (ys, xs) ↔ Coords h w x y t ys xs := by
  constructor
  · intro hc
    cases t with
    | some t =>
      simp only [coords, Except.ok.injEq, Prod.mk.injEq] at hc
      obtain ⟨rfl, rfl⟩ := hc
      exact .affine x y t _ _ (by simp [centers]) (by simp [centers]) (fun i hi => centers_get _ _ _ i hi)
        (fun j hj => centers_get _ _ _ j hj)
    | none =>
      cases x with
      | absent =>
        cases y with
        | absent =>
          simp only [coords, Except.ok.injEq, Prod.mk.injEq] at hc
          obtain ⟨rfl, rfl⟩ := hc
          exact .default _ _ (by simp [defaultY]) (by simp [defaultX]) (fun i hi => defaultY_get _ i hi)
            (fun j hj => defaultX_get _ j hj)
        | array l => cases hc
        | other => cases hc
      | other => cases y <;> cases hc
      | array l =>
        cases y with
        | absent => cases hc
        | other => cases hc
        | array l' =>
          simp only [coords, givenCoords] at hc
          by_cases hl : l'.length = h ∧ l.length = w
          · rw [if_pos hl, Except.ok.injEq, Prod.mk.injEq] at hc
            obtain ⟨rfl, rfl⟩ := hc
            exact .given _ _ hl.1 hl.2
          · rw [if_neg hl] at hc
            cases hc
  · intro hc
    cases hc with
    | affine _ _ t _ _ hy hx vy vx =>
      simp only [coords, Except.ok.injEq, Prod.mk.injEq]
      constructor
      · refine List.ext_getElem (by simp [centers, hy]) ?_
        intro i h1 h2
        rw [centers_get, vy i h2]
      · refine List.ext_getElem (by simp [centers, hx]) ?_
        intro i h1 h2
        rw [centers_get, vx i h2]
    | given _ _ hy hx =>
      simp only [coords, givenCoords]
      rw [if_pos ⟨hy, hx⟩]
    | default _ _ hy hx vy vx =>
      simp only [coords, Except.ok.injEq, Prod.mk.injEq]
      constructor
      · refine List.ext_getElem (by simp [defaultY, hy]) ?_
        intro i h1 h2
        rw [defaultY_get, vy i h2]
      · refine List.ext_getElem (by simp [defaultX, hx]) ?_
        intro i h1 h2
        rw [defaultX_get, vx i h2]

theorem coords_length {h w : Nat} {x y : Coord} {t : Option Affine} {ys xs : List Rat} (hc : Coords h w x y t ys xs) :
    ys.length = h ∧ xs.length = w := by
  cases hc with
  | affine _ _ _ _ _ hy hx => exact ⟨hy, hx⟩
  | given _ _ hy hx => exact ⟨hy, hx⟩
  | default _ _ hy hx => exact ⟨hy, hx⟩

/-! ### Rasters -/

/-- A mask that can be used with the data. -/
def MaskReads (nb h w : Nat) : Option Arr → Option (Nat → Nat → Nat → Num) → Prop
  | none, none => True
  | some a, some f => Reads a nb h w f
  | _, _ => False

theorem place_spec (dt : DType) (d : Cube) (mask : Nat → Nat → Nat → Bool) (nv : Option Scalar) {ys xs : List Rat} :
    (place dt d mask nv ys xs).raster.nb = d.nb ∧ (place dt d mask nv ys xs).raster.ny = ys.length ∧
    (place dt d mask nv ys xs).raster.nx = xs.length ∧ (place dt d mask nv ys xs).ys.length = ys.length ∧
    (place dt d mask nv ys xs).xs.length = xs.length ∧
    ∀ i < ys.length, ∀ j < xs.length, ∃ i' < ys.length, ∃ j' < xs.length,
      (place dt d mask nv ys xs).ys[i']? = ys[i]? ∧ (place dt d mask nv ys xs).xs[j']? = xs[j]? ∧
      ∀ k, (place dt d mask nv ys xs).raster.data (k, i', j') = d.get k i j ∧
        (place dt d mask nv ys xs).raster.mask (k, i', j') = mask k i j := by
  obtain ⟨h1, h2, h3⟩ := orient_sizes d.nb ys xs d.get
  refine ⟨rfl, h2, h3, h2, h3, ?_⟩
  intro i hi j hj
  obtain ⟨i', hi', e1, e2⟩ := flip_at ys (increasing ys) hi
  obtain ⟨j', hj', e3, e4⟩ := flip_at xs (decreasing xs) hj
  refine ⟨i', hi', j', hj', e1, e3, fun k => ⟨?_, ?_⟩⟩
  · simp only [place, Norm.data, orient]
    rw [e2, e4]
  · simp only [place, Norm.data, orient]
    rw [e2, e4]
    cases mask k i j <;> simp

/-- **C80.** A raster made of arrays has the elements of the array, band by band, at the coordinates that the arguments give to
them, and the same for the mask. -/
theorem C80_cells {dt : DType} {data : Arr} {mask : Option Arr} {x y : Coord} {t : Option Affine} {nv : Option Scalar}
    {burn : Bool} {nb h w : Nat} {get : Nat → Nat → Nat → Num} {m : Option (Nat → Nat → Nat → Num)} {ys xs : List Rat}
    (hd : Reads data nb h w get) (hm : MaskReads nb h w mask m) (hc : Coords h w x y t ys xs) :
    ∃ out, dataToRaster dt data mask x y t nv burn = .ok out ∧ out.raster.dtype = dt ∧ out.raster.nb = nb ∧
      out.raster.ny = h ∧ out.raster.nx = w ∧ out.ys.length = h ∧ out.xs.length = w ∧
      NullOf dt mask.isSome nv out.raster.nv ∧
      ∀ i < h, ∀ j < w, ∃ i' < h, ∃ j' < w, out.ys[i']? = ys[i]? ∧ out.xs[j']? = xs[j]? ∧
        ∀ k < nb, (out.raster.mask (k, i', j') = true ↔ NullAt m nv get k i j) ∧
          ValueOf (burn = true) (mask ≠ none ∧ NullAt m nv get k i j) out.raster.nv (get k i j)
            (out.raster.data (k, i', j')) := by
  have hd' := (normalizeData_iff data ⟨nb, h, w, get⟩).mpr hd
  have hc' := (coords_iff x y t h w ys xs).mpr hc
  obtain ⟨hy, hx⟩ := coords_length hc
  simp only [dataToRaster, hd']
  cases mask with
  | none =>
    cases m with
    | some f => cases hm
    | none =>
      simp only [normalizeMask, masked, hc']
      obtain ⟨p1, p2, p3, p4, p5, p6⟩ := place_spec dt ⟨nb, h, w, get⟩ (fun k i j => maskOf (nv.map (·.val)) (get k i j)) nv
        (ys := ys) (xs := xs)
      refine ⟨_, rfl, rfl, p1, p2.trans hy, p3.trans hx, p4.trans hy, p5.trans hx, ?_, ?_⟩
      · cases nv with
        | none => exact Or.inr (Or.inr ⟨rfl, rfl, rfl⟩)
        | some s => exact Or.inl ⟨s, rfl, rfl⟩
      · intro i hi j hj
        obtain ⟨i', hi', j', hj', e1, e2, e3⟩ := p6 i (by omega) j (by omega)
        refine ⟨i', by omega, j', by omega, e1, e2, ?_⟩
        intro k _
        obtain ⟨e4, e5⟩ := e3 k
        rw [e4, e5]
        refine ⟨?_, ⟨fun hb => absurd rfl hb.2.1, fun _ => rfl⟩⟩
        cases nv with
        | none => simp [NullAt, maskOf]
        | some s =>
          simp only [Option.map_some, maskOf_iff, NullAt, Option.some.injEq]
          constructor
          · intro e
            exact ⟨s, rfl, e⟩
          · rintro ⟨s', hs, e⟩
            rw [hs]
            exact e
  | some a =>
    cases m with
    | none => cases hm
    | some f =>
      have hm' := (normalizeData_iff a ⟨nb, h, w, f⟩).mpr hm
      simp only [normalizeMask, hm', masked, Cube.shape, ne_eq, not_true_eq_false, if_false]
      have hcc : ∀ d : Cube, coords x y t h w = .ok (ys, xs) := fun _ => hc'
      simp only [hc']
      obtain ⟨p1, p2, p3, p4, p5, p6⟩ := place_spec dt
        (if burn = true then ⟨nb, h, w, fun k i j => if decide (f k i j ≠ .fin 0) = true then (nv.getD (defaultNull dt)).val
          else get k i j⟩ else (⟨nb, h, w, get⟩ : Cube)) (fun k i j => decide (f k i j ≠ .fin 0))
        (some (nv.getD (defaultNull dt))) (ys := ys) (xs := xs)
      refine ⟨_, rfl, rfl, ?_, p2.trans hy, p3.trans hx, p4.trans hy, p5.trans hx, ?_, ?_⟩
      · refine p1.trans ?_
        cases burn <;> rfl
      · cases nv with
        | none => exact Or.inr (Or.inl ⟨rfl, rfl, rfl⟩)
        | some s => exact Or.inl ⟨s, rfl, rfl⟩
      · intro i hi j hj
        obtain ⟨i', hi', j', hj', e1, e2, e3⟩ := p6 i (by omega) j (by omega)
        refine ⟨i', by omega, j', by omega, e1, e2, ?_⟩
        intro k _
        obtain ⟨e4, e5⟩ := e3 k
        refine ⟨?_, ?_, ?_⟩
        · refine (Iff.of_eq (congrArg (· = true) e5)).trans ?_
          simp only [decide_eq_true_eq, NullAt]
        · rintro ⟨hb, -, hn⟩
          refine ⟨nv.getD (defaultNull dt), rfl, e4.trans ?_⟩
          rw [hb]
          simp only [NullAt] at hn
          simp only [if_true]
          rw [if_pos (decide_eq_true hn)]
        · intro hb
          refine e4.trans ?_
          cases burn with
          | false => rfl
          | true =>
            simp only [if_true]
            rw [if_neg]
            rw [decide_eq_true_iff]
            intro hn
            exact hb ⟨rfl, by simp, hn⟩

/-- **C80.** The arguments that are accepted: an array of two or three dimensions, a mask of its shape or none, and coordinates
of the right lengths in arrays, or none of both, or an affine. -/
theorem C80_accepted (dt : DType) (data : Arr) (mask : Option Arr) (x y : Coord) (t : Option Affine) (nv : Option Scalar)
    (burn : Bool) :
    (∃ out, dataToRaster dt data mask x y t nv burn = .ok out) ↔
      ∃ nb h w get m ys xs, Reads data nb h w get ∧ MaskReads nb h w mask m ∧ Coords h w x y t ys xs := by
  constructor
  · rintro ⟨out, ho⟩
    simp only [dataToRaster] at ho
    cases hd : normalizeData data with
    | error e =>
      rw [hd] at ho
      cases ho
    | ok d =>
      rw [hd] at ho
      simp only at ho
      have hd' := (normalizeData_iff data d).mp hd
      cases hm : normalizeMask mask with
      | error e =>
        rw [hm] at ho
        cases ho
      | ok m =>
        rw [hm] at ho
        simp only at ho
        cases hk : masked dt d m nv burn with
        | error e =>
          rw [hk] at ho
          cases ho
        | ok r =>
          rw [hk] at ho
          simp only at ho
          cases hc : coords x y t d.ny d.nx with
          | error e =>
            rw [hc] at ho
            cases ho
          | ok c =>
            refine ⟨d.nb, d.ny, d.nx, d.get, m.map Cube.get, c.1, c.2, hd', ?_, (coords_iff ..).mp hc⟩
            cases mask with
            | none =>
              simp only [normalizeMask, Except.ok.injEq] at hm
              rw [← hm]
              trivial
            | some a =>
              simp only [normalizeMask] at hm
              cases ha : normalizeData a with
              | error e =>
                rw [ha] at hm
                cases hm
              | ok q =>
                rw [ha] at hm
                simp only [Except.ok.injEq] at hm
                rw [← hm]
                have hq := (normalizeData_iff a q).mp ha
                rw [← hm] at hk
                simp only [masked] at hk
                by_cases hs : q.shape ≠ d.shape
                · rw [if_pos hs] at hk
                  cases hk
                · have hs' := not_not.mp hs
                  simp only [Cube.shape, Prod.mk.injEq] at hs'
                  rw [hs'.1, hs'.2.1, hs'.2.2] at hq
                  exact hq
  · rintro ⟨nb, h, w, get, m, ys, xs, hd, hm, hc⟩
    obtain ⟨out, ho, -⟩ := C80_cells (dt := dt) (nv := nv) (burn := burn) hd hm hc
    exact ⟨out, ho⟩

/-- **C80.** What is raised: a TypeError if the data is no array, a ValueError if it has another number of dimensions, and if
coordinates are missing or of a wrong length. -/
theorem C80_rejected (dt : DType) (mask : Option Arr) (x y : Coord) (t : Option Affine) (nv : Option Scalar) (burn : Bool) :
    dataToRaster dt .other mask x y t nv burn = .error .type ∧ dataToRaster dt .odd mask x y t nv burn = .error .value ∧
    (∀ data nb h w get l, Reads data nb h w get →
      dataToRaster dt data none (.array l) .absent none nv burn = .error .value ∧
      dataToRaster dt data none .absent (.array l) none nv burn = .error .value) ∧
    (∀ data nb h w get xs ys, Reads data nb h w get → (ys.length, xs.length) ≠ (h, w) →
      dataToRaster dt data none (.array xs) (.array ys) none nv burn = .error .value) ∧
    (∀ data nb h w get a nb' h' w' get', Reads data nb h w get → Reads a nb' h' w' get' → (nb', h', w') ≠ (nb, h, w) →
      dataToRaster dt data (some a) x y t nv burn = .error .value) := by
  refine ⟨rfl, rfl, ?_, ?_, ?_⟩
  · intro data nb h w get l hd
    have hd' := (normalizeData_iff data ⟨nb, h, w, get⟩).mpr hd
    simp only [dataToRaster, hd', normalizeMask, masked, coords, givenCoords, and_self]
  · intro data nb h w get xs ys hd hl
    have hd' := (normalizeData_iff data ⟨nb, h, w, get⟩).mpr hd
    simp only [dataToRaster, hd', normalizeMask, masked, coords, givenCoords]
    rw [if_neg]
    rintro ⟨h1, h2⟩
    exact hl (by rw [h1, h2])
  · intro data nb h w get a nb' h' w' get' hd ha hs
    have hd' := (normalizeData_iff data ⟨nb, h, w, get⟩).mpr hd
    have ha' := (normalizeData_iff a ⟨nb', h', w', get'⟩).mpr ha
    simp only [dataToRaster, hd', normalizeMask, ha', masked, Cube.shape]
    rw [if_pos hs]

/-- **C80 is false of the code** where it says, as documented, that coordinates can be lists: a list for `x` raises a TypeError,
a list for `y` an AttributeError, as `x` is checked twice. -/
theorem C80_lists (dt : DType) (nv : Option Scalar) (burn : Bool) {data : Arr} {nb h w : Nat} {get : Nat → Nat → Nat → Num}
    (hd : Reads data nb h w get) (xs ys : List Rat) :
    dataToRaster dt data none .other (.array ys) none nv burn = .error .type ∧
      dataToRaster dt data none (.array xs) .other none nv burn = .error .runtime := by
  have hd' := (normalizeData_iff data ⟨nb, h, w, get⟩).mpr hd
  simp only [dataToRaster, hd', normalizeMask, masked, coords, givenCoords, and_self]

/-! ### Orientation -/

theorem place_ys (dt : DType) (d : Cube) (mask : Nat → Nat → Nat → Bool) (nv : Option Scalar) (ys xs : List Rat) :
    (place dt d mask nv ys xs).ys = (if increasing ys then ys.reverse else ys) ∧
      (place dt d mask nv ys xs).xs = (if decreasing xs then xs.reverse else xs) := ⟨rfl, rfl⟩

theorem dataToRaster_coords {dt : DType} {data : Arr} {mask : Option Arr} {x y : Coord} {t : Option Affine} {nv : Option Scalar}
    {burn : Bool} {out : Placed} {nb h w : Nat} {get : Nat → Nat → Nat → Num} {ys xs : List Rat}
    (hd : Reads data nb h w get) (hc : Coords h w x y t ys xs) (ho : dataToRaster dt data mask x y t nv burn = .ok out) :
    out.ys = (if increasing ys then ys.reverse else ys) ∧ out.xs = (if decreasing xs then xs.reverse else xs) := by
  have hd' := (normalizeData_iff data ⟨nb, h, w, get⟩).mpr hd
  have hc' := (coords_iff x y t h w ys xs).mpr hc
  simp only [dataToRaster, hd', hc'] at ho
  cases hm : normalizeMask mask with
  | error e =>
    rw [hm] at ho
    cases ho
  | ok m =>
    rw [hm] at ho
    simp only at ho
    cases hk : masked dt ⟨nb, h, w, get⟩ m nv burn with
    | error e =>
      rw [hk] at ho
      cases ho
    | ok r =>
      rw [hk] at ho
      rw [← Except.ok.inj ho]
      exact place_ys ..

/-- **C80.** The rows of the result go down and the columns up if the coordinates are monotone; coordinates that are so already
are kept. -/
theorem C80_orientation {dt : DType} {data : Arr} {mask : Option Arr} {x y : Coord} {t : Option Affine} {nv : Option Scalar}
    {burn : Bool} {out : Placed} {nb h w : Nat} {get : Nat → Nat → Nat → Num} {ys xs : List Rat}
    (hd : Reads data nb h w get) (hc : Coords h w x y t ys xs) (ho : dataToRaster dt data mask x y t nv burn = .ok out) :
    (ys.Pairwise (· > ·) → out.ys = ys) ∧ (ys.Pairwise (· < ·) → out.ys = ys.reverse) ∧
      (xs.Pairwise (· < ·) → out.xs = xs) ∧ (xs.Pairwise (· > ·) → out.xs = xs.reverse) := by
  obtain ⟨h1, h2⟩ := dataToRaster_coords hd hc ho
  have hshort : ∀ l : List Rat, ¬ 2 ≤ l.length → l.reverse = l := by
    intro l hl
    match l with
    | [] => rfl
    | [a] => rfl
    | a :: b :: l =>
      simp only [List.length_cons] at hl
      omega
  rw [h1, h2]
  refine ⟨?_, ?_, ?_, ?_⟩
  · intro hp
    rw [if_neg]
    intro hi
    obtain ⟨hl, hi⟩ := (increasing_iff _).mp hi
    exact not_both hl hi hp
  · intro hp
    by_cases hl : 2 ≤ ys.length
    · rw [if_pos ((increasing_iff _).mpr ⟨hl, hp⟩)]
    · rw [hshort ys hl]
      simp
  · intro hp
    rw [if_neg]
    intro hi
    obtain ⟨hl, hi⟩ := (decreasing_iff _).mp hi
    exact not_both hl hp hi
  · intro hp
    by_cases hl : 2 ≤ xs.length
    · rw [if_pos ((decreasing_iff _).mpr ⟨hl, hp⟩)]
    · rw [hshort xs hl]
      simp

/-! ### Templates -/

/-- **C80.** With a template the coordinates are those of the template, whose rows and columns the data must have. -/
theorem C80_like {dt : DType} {data : Arr} {mask : Option Arr} {nv : Option Scalar} {burn : Bool} {nb h w : Nat}
    {get : Nat → Nat → Nat → Num} {ys xs : List Rat} (hd : Reads data nb h w get) :
    ((h, w) ≠ (ys.length, xs.length) → dataToRasterLike dt data ys xs mask nv burn = .error .value) ∧
    ((h, w) = (ys.length, xs.length) →
      dataToRasterLike dt data ys xs mask nv burn = dataToRaster dt data mask (.array xs) (.array ys) none nv burn ∧
      (∀ out, dataToRasterLike dt data ys xs mask nv burn = .ok out → ys.Pairwise (· > ·) → xs.Pairwise (· < ·) →
        out.ys = ys ∧ out.xs = xs)) := by
  have hd' := (normalizeData_iff data ⟨nb, h, w, get⟩).mpr hd
  constructor
  · intro hs
    simp only [dataToRasterLike, hd']
    rw [if_pos hs]
  · intro hs
    have he : dataToRasterLike dt data ys xs mask nv burn = dataToRaster dt data mask (.array xs) (.array ys) none nv burn := by
      simp only [dataToRasterLike, hd']
      rw [if_neg (not_not.mpr hs)]
    refine ⟨he, ?_⟩
    intro out ho hy hx
    rw [he] at ho
    simp only [Prod.mk.injEq] at hs
    obtain ⟨h1, -, h3, -⟩ := C80_orientation hd (.given ys xs hs.1.symm hs.2.symm) ho
    exact ⟨h1 hy, h3 hx⟩

/-! ### Examples -/

/-- Two rows from south to north, with a null value. -/
example : ∃ out, dataToRaster u8 (.flat 2 2 fun i j => .fin (10 * i + j)) none (.array [5, 6]) (.array [1, 2]) none
      (some ⟨u8, .fin 11⟩) false = .ok out ∧ out.ys = [2, 1] ∧ out.xs = [5, 6] ∧
    [(0, 0, 0), (0, 0, 1), (0, 1, 0), (0, 1, 1)].map (fun c => (out.raster.data c, out.raster.mask c)) =
      [(.fin 10, false), (.fin 11, true), (.fin 0, false), (.fin 1, false)] := by
  refine ⟨_, rfl, ?_, ?_, ?_⟩ <;> decide +kernel

/-- The default coordinates, a mask that is burned in, and the default null value. -/
example : ∃ out, dataToRaster u8 (.cube 1 2 1 fun _ i _ => .fin i) (some (.flat 2 1 fun i _ => .fin (1 - i))) .absent .absent none
      none true = .ok out ∧ out.ys = [3 / 2, 1 / 2] ∧ out.xs = [1 / 2] ∧ out.raster.nv = some ⟨u8, .fin 255⟩ ∧
    [(0, 0, 0), (0, 1, 0)].map (fun c => (out.raster.data c, out.raster.mask c)) = [(.fin 255, true), (.fin 1, false)] := by
  refine ⟨_, rfl, ?_, ?_, ?_, ?_⟩ <;> decide +kernel

/-- An affine wins over coordinates, even of wrong lengths. -/
example : ∃ out, dataToRaster u8 (.flat 2 1 fun i _ => .fin i) none (.array [7, 8, 9]) .other (some ⟨30, 100, -30, 500⟩) none false =
      .ok out ∧ out.ys = [485, 455] ∧ out.xs = [115] := by
  refine ⟨_, rfl, ?_, ?_⟩ <;> decide +kernel

end Verif.FromData
