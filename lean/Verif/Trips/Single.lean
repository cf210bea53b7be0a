import Verif.Trips.Windows

set_option linter.unusedSectionVars false

/-!
# C106: kernels and windows with a single cell move the raster

`correlate` and `convolve` (`focal.py`, C31) with a kernel that is one in a single place and zero elsewhere, and `focal` (C29) with a window that
has a single cell.
-/

namespace Verif.Trips.Single

open Verif Verif.Nulls DType
open Verif.Focal (Kernel Stat focal promoteToFloat correlate convolve resultDtype rounded Mode)
open Verif.Focal.Spec (windowValues IgnoresNan inDtype contribution source total)
open Verif.Trips.Windows (inDtype_fin)

namespace Spec

/-- The weights are one at `(a, b)` and zero elsewhere. -/
def OneAt (a b : Nat) (w : Nat → Nat → Rat) : Prop := ∀ i j, w i j = if i = a ∧ j = b then 1 else 0

/-- `p` is `c` moved by `dy` rows and `dx` columns. -/
def Moved (dy dx : Int) (c p : Cell) : Prop := p.1 = c.1 ∧ (p.2.1 : Int) = c.2.1 + dy ∧ (p.2.2 : Int) = c.2.2 + dx

/-- The raster's numbers, and zero, are numbers of its dtype. -/
def Own (np : NumPy) (r : Raster) (q : Cell → Rat) : Prop :=
  np.cast r.dtype (.fin 0) = .fin 0 ∧ np.cast f64 (.fin 0) = .fin 0 ∧ np.cast (promoteToFloat r.dtype) (.fin 0) = .fin 0 ∧
    ∀ c, np.cast r.dtype (.fin (q c)) = .fin (q c)

end Spec

open Spec

theorem total_one {rows cols a b : Nat} {w : Nat → Nat → Rat} (hw : OneAt a b w) (ha : a < rows) (hb : b < cols)
    (value : Int → Int → Rat) (i j : Nat) : total rows cols w value i j =
      value ((i : Int) + a - ((rows - 1) / 2 : Nat)) ((j : Int) + b - ((cols - 1) / 2 : Nat)) := by
  unfold total
  rw [Finset.sum_eq_single a, Finset.sum_eq_single b]
  · rw [hw a b, if_pos ⟨rfl, rfl⟩, one_mul]
  · intro j' _ hne
    rw [hw a j', if_neg (fun h => hne h.2), zero_mul]
  · intro h
    exact absurd (Finset.mem_range.2 hb) h
  · intro i' _ hne
    refine Finset.sum_eq_zero fun j' _ => ?_
    rw [hw i' j', if_neg (fun h => hne h.1), zero_mul]
  · intro h
    exact absurd (Finset.mem_range.2 ha) h

theorem source_inside (m : Mode) {n : Nat} {i : Int} (h0 : 0 ≤ i) (h1 : i < n) : source m n i = some i.toNat := by
  cases m with
  | constant => simp only [source]; rw [if_pos ⟨h0, h1⟩]
  | nearest => simp only [source]; congr 1; omega
  | wrap => simp only [source]; rw [Int.emod_eq_of_lt h0 h1]
  | reflect =>
    simp only [source]
    rw [Int.emod_eq_of_lt h0 (by omega)]
    congr 1
    omega

theorem rounded_own {np : NumPy} {r : Raster} {kdt : DType} {a : Rat} (h0 : np.cast r.dtype (.fin a) = .fin a)
    (h1 : np.cast f64 (.fin a) = .fin a) (h2 : np.cast (promoteToFloat r.dtype) (.fin a) = .fin a) (masked : Bool) :
    rounded np (resultDtype r kdt) masked a = .fin a := by
  have hd : np.cast (resultDtype r kdt) (.fin a) = .fin a := by
    unfold resultDtype
    split
    · exact h1
    · exact h0
  have hp : np.cast (promoteToFloat (resultDtype r kdt)) (.fin a) = .fin a := by
    unfold resultDtype
    split
    · exact h1
    · exact h2
  unfold rounded
  cases masked with
  | true => rw [if_pos rfl, hp, inDtype_fin hd]
  | false => rw [if_neg (by simp), hd]

/-- **C106 (correlation).**  `correlate` with a kernel that is one at `(a, b)` and zero elsewhere gives, in every cell that is not null, the number of
the cell as many rows and columns away as `(a, b)` is from the kernel's middle, zero if that cell is null; null cells stay null. -/
theorem C106_correlate {np : NumPy} {r : Raster} {kdt : DType} {k : Kernel Num} {ychunks xchunks : List Nat} {q : Cell → Rat}
    {w : Nat → Nat → Rat} {a b : Nat} (h : Focal.Input np r kdt k ychunks xchunks q w) (hw : OneAt a b w) (ha : a < k.rows) (hb : b < k.cols)
    (hq : Own np r q) (mode : Mode) (cval : Rat) :
    ∃ o, correlate np r kdt k (some mode) (.fin cval) ychunks xchunks = .ok o ∧ (∀ c, o.mask c = r.mask c) ∧
      ∀ c p, r.Has c → r.mask c = false → r.Has p →
        Moved ((a : Int) - ((k.rows - 1) / 2 : Nat)) ((b : Int) - ((k.cols - 1) / 2 : Nat)) c p →
        (r.mask p = false → o.data c = r.data p) ∧ (r.mask p = true → o.data c = .fin 0) := by
  obtain ⟨o, ho, -, -, -, -, -, hm, -, hv⟩ := Focal.C31_correlate h mode cval
  refine ⟨o, ho, hm, fun c p hc hn hp hmv => ?_⟩
  rw [hv c hc hn, total_one hw ha hb]
  obtain ⟨m1, m2, m3⟩ := hmv
  obtain ⟨p0, p1, p2⟩ := hp
  have e1 : (c.2.1 : Int) + a - ((k.rows - 1) / 2 : Nat) = p.2.1 := by omega
  have e2 : (c.2.2 : Int) + b - ((k.cols - 1) / 2 : Nat) = p.2.2 := by omega
  rw [e1, e2]
  unfold contribution
  rw [source_inside mode (by omega) (by omega), source_inside mode (by omega) (by omega)]
  simp only [Int.toNat_natCast]
  have e3 : (c.1, p.2.1, p.2.2) = p := by rw [← m1]
  rw [e3]
  constructor
  · intro hpm
    rw [hpm, if_neg (by simp), h.data p ⟨p0, p1, p2⟩ hpm]
    exact rounded_own (hq.2.2.2 p) (h.castData p _ (by simp)) (h.castData p _ (by simp)) _
  · intro hpm
    rw [hpm, if_pos rfl]
    exact rounded_own hq.1 hq.2.1 hq.2.2.1 _

/-- **C106 (convolution).**  `convolve` with a kernel that is one at `(a, b)` moves the raster the other way. -/
theorem C106_convolve {np : NumPy} {r : Raster} {kdt : DType} {k : Kernel Num} {ychunks xchunks : List Nat} {q : Cell → Rat}
    {w : Nat → Nat → Rat} {a b : Nat} (h : Focal.Input np r kdt k ychunks xchunks q w) (hw : OneAt a b w) (ha : a < k.rows) (hb : b < k.cols)
    (hq : Own np r q) (mode : Mode) (cval : Rat) :
    ∃ o, convolve np r kdt k (some mode) (.fin cval) ychunks xchunks = .ok o ∧ (∀ c, o.mask c = r.mask c) ∧
      ∀ c p, r.Has c → r.mask c = false → r.Has p → Moved ((k.rows / 2 : Nat) - (a : Int)) ((k.cols / 2 : Nat) - (b : Int)) c p →
        (r.mask p = false → o.data c = r.data p) ∧ (r.mask p = true → o.data c = .fin 0) := by
  rw [(Focal.C31_convolve_flip np r kdt k _ _ _ _).2]
  have hflip : Focal.Input np r kdt (Focal.flip k) ychunks xchunks q
      (fun i j => if i = k.rows - 1 - a ∧ j = k.cols - 1 - b then 1 else 0) :=
    { ysum := h.ysum, xsum := h.xsum, yfits := h.yfits, xfits := h.xfits, data := h.data
      weight := fun i j hi hj => by
        simp only [Focal.flip] at hi hj
        rw [show (Focal.flip k).at' i j = k.at' (k.rows - 1 - i) (k.cols - 1 - j) from rfl, h.weight _ _ (by omega) (by omega), hw]
        congr 1
        exact if_congr (by omega) rfl rfl
      castData := h.castData
      castWeight := fun i j dt hdt => by
        have h1 := h.castWeight a b dt hdt
        have h2 := h.castWeight (a + 1) b dt hdt
        rw [hw, if_pos ⟨rfl, rfl⟩] at h1
        rw [hw, if_neg (by omega)] at h2
        split
        · exact h1
        · exact h2
      unmasked := h.unmasked }
  obtain ⟨o, ho, hm, hv⟩ := C106_correlate hflip (a := k.rows - 1 - a) (b := k.cols - 1 - b) (fun i j => rfl)
    (show k.rows - 1 - a < k.rows by omega) (show k.cols - 1 - b < k.cols by omega) hq mode cval
  refine ⟨o, ho, hm, fun c p hc hn hp hmv => hv c p hc hn hp ?_⟩
  obtain ⟨m1, m2, m3⟩ := hmv
  refine ⟨m1, ?_, ?_⟩
  · rw [m2]
    show _ = (c.2.1 : Int) + (((k.rows - 1 - a : Nat) : Int) - ((k.rows - 1) / 2 : Nat))
    omega
  · rw [m3]
    show _ = (c.2.2 : Int) + (((k.cols - 1 - b : Nat) : Int) - ((k.cols - 1) / 2 : Nat))
    omega

/-- **C106 (the middle).**  A kernel that is one in its middle changes nothing, whatever the boundary mode: with `correlate` the cell
`((rows - 1) / 2, (cols - 1) / 2)`, with `convolve` the cell `(rows / 2, cols / 2)`. -/
theorem C106_middle {np : NumPy} {r : Raster} {kdt : DType} {k : Kernel Num} {ychunks xchunks : List Nat} {q : Cell → Rat}
    {w : Nat → Nat → Rat} (h : Focal.Input np r kdt k ychunks xchunks q w) (hk : 0 < k.rows ∧ 0 < k.cols) (hq : Own np r q)
    (mode : Mode) (cval : Rat) :
    (OneAt ((k.rows - 1) / 2) ((k.cols - 1) / 2) w → ∃ o, correlate np r kdt k (some mode) (.fin cval) ychunks xchunks = .ok o ∧
      ∀ c, o.mask c = r.mask c ∧ (r.Has c → r.mask c = false → o.data c = r.data c)) ∧
    (OneAt (k.rows / 2) (k.cols / 2) w → ∃ o, convolve np r kdt k (some mode) (.fin cval) ychunks xchunks = .ok o ∧
      ∀ c, o.mask c = r.mask c ∧ (r.Has c → r.mask c = false → o.data c = r.data c)) := by
  constructor
  · intro hw
    obtain ⟨o, ho, hm, hv⟩ := C106_correlate h hw (by omega) (by omega) hq mode cval
    exact ⟨o, ho, fun c => ⟨hm c, fun hc hn => (hv c c hc hn hc ⟨rfl, by omega, by omega⟩).1 hn⟩⟩
  · intro hw
    obtain ⟨o, ho, hm, hv⟩ := C106_convolve h hw (by omega) (by omega) hq mode cval
    exact ⟨o, ho, fun c => ⟨hm c, fun hc hn => (hv c c hc hn hc ⟨rfl, by omega, by omega⟩).1 hn⟩⟩

/-! ### Windows -/

theorem flatMap_single {α : Type} {n a : Nat} {f : Nat → List α} (ha : a < n) (h : ∀ i, i ≠ a → f i = []) :
    (List.range n).flatMap f = f a := by
  induction n with
  | zero => omega
  | succ n ih =>
    rw [List.range_succ, List.flatMap_append, List.flatMap_singleton]
    by_cases e : a = n
    · subst e
      rw [List.flatMap_eq_nil_iff.2 (fun i hi => h i (by have := List.mem_range.1 hi; omega)), List.nil_append]
    · rw [ih (by omega), h n (fun k => e k.symm), List.append_nil]

theorem filterMap_flatMap {α β : Type} (f : α → Option β) (l : List α) : l.filterMap f = l.flatMap fun x => (f x).toList := by
  induction l with
  | nil => rfl
  | cons x l ih =>
    rw [List.flatMap_cons, ← ih, List.filterMap_cons]
    cases f x <;> rfl

/-- A window with a single cell, `(a, b)`. -/
theorem windowValues_one {w : Kernel Bool} {a b : Nat} (ha : a < w.rows) (hb : b < w.cols)
    (hw : ∀ i j, w.at' i j = true ↔ i = a ∧ j = b) {ny nx : Nat} {null : Nat → Nat → Bool} {data : Nat → Nat → Num} {r c : Nat} :
    windowValues w ny nx null data r c =
      if (w.rows - 1) / 2 ≤ r + a ∧ r + a - (w.rows - 1) / 2 < ny ∧ (w.cols - 1) / 2 ≤ c + b ∧ c + b - (w.cols - 1) / 2 < nx ∧
          null (r + a - (w.rows - 1) / 2) (c + b - (w.cols - 1) / 2) = false then
        [data (r + a - (w.rows - 1) / 2) (c + b - (w.cols - 1) / 2)] else [] := by
  unfold windowValues
  rw [flatMap_single ha, filterMap_flatMap, flatMap_single hb]
  · have := (hw a b).2 ⟨rfl, rfl⟩
    simp only [this, true_and]
    split <;> rfl
  · intro j hj
    rw [if_neg (fun h => hj ((hw a j).1 h.1).2)]
    rfl
  · intro i hi
    rw [List.filterMap_eq_nil_iff]
    intro j _
    simp only
    rw [if_neg (fun h => hi ((hw i j).1 h.1).1)]

/-- **C106 (windows).**  `focal` of a raster with a null value and a window with the single cell `(a, b)`: a cell that is not null gets the statistic of
the number as many rows and columns away as `(a, b)` is from the window's middle.  Every statistic that gives back a single number moves the raster so. -/
theorem C106_focal {np : NumPy} {func : Stat → List Num → Num} {r o : Raster} {stat : Stat} {w : Kernel Bool} {ychunks xchunks : List Nat}
    {ignoreNull : Bool} {q : Cell → Rat} {a b : Nat} (ha : a < w.rows) (hb : b < w.cols) (hw : ∀ i j, w.at' i j = true ↔ i = a ∧ j = b)
    (hm : r.masked = true) (hf : IgnoresNan (func stat)) (hs : ∀ x : Rat, func stat [.fin x] = .fin x)
    (hu : stat ≠ .unique) (hq : Windows.Spec.Numbers np r q)
    (hy : ychunks.sum = r.ny) (hx : xchunks.sum = r.nx)
    (h : focal np func r stat w ignoreNull ychunks xchunks = .ok o) :
    ∀ c p, r.Has c → r.mask c = false → r.Has p → r.mask p = false →
      Moved ((a : Int) - ((w.rows - 1) / 2 : Nat)) ((b : Int) - ((w.cols - 1) / 2 : Nat)) c p →
      o.mask c = false ∧ o.data c = r.data p := by
  intro c p hc hcm hp hpm hmv
  obtain ⟨m1, m2, m3⟩ := hmv
  obtain ⟨p0, p1, p2⟩ := hp
  obtain ⟨e1, e2⟩ := hq p ⟨p0, p1, p2⟩ hpm
  obtain ⟨f1, f2, f3, f4, f5, f6⟩ := Focal.C29_masked hm hf hy hx h
  obtain ⟨k1, k2, k3⟩ := f6 c hc
  have hr : c.2.1 + a - (w.rows - 1) / 2 = p.2.1 := by omega
  have hcl : c.2.2 + b - (w.cols - 1) / 2 = p.2.2 := by omega
  have e3 : (c.1, p.2.1, p.2.2) = p := by rw [← m1]
  have hval : np.cast o.dtype (func stat (windowValues w r.ny r.nx (fun i j => r.mask (c.1, i, j))
      (fun i j => inDtype np r.dtype o.dtype (r.data (c.1, i, j))) c.2.1 c.2.2)) = .fin (q p) := by
    rw [windowValues_one ha hb hw, hr, hcl, e3]
    rw [if_pos ⟨by omega, p1, by omega, p2, hpm⟩, e1, f4, inDtype_fin e2, hs, e2]
  rw [hval] at k1 k3
  have hmv : Focal.maskedValue stat (.fin (q p)) = .fin (q p) := by
    unfold Focal.maskedValue
    rw [if_neg (fun k => hu k.1)]
  rw [hmv] at k1 k3
  have hom : o.mask c = false := by
    rw [← Bool.not_eq_true, k1]
    rintro (k | ⟨-, k⟩)
    · rw [hcm] at k; cases k
    · cases k
  exact ⟨hom, by rw [k3 hom, e1]⟩

/-- **C106 (one cell).**  `focal` of a raster with a null value and a window of one row and one column gives back the numbers of the raster, for every
statistic that gives back a single number. -/
theorem C106_one_cell {np : NumPy} {func : Stat → List Num → Num} {r o : Raster} {stat : Stat} {w : Kernel Bool} {ychunks xchunks : List Nat}
    {ignoreNull : Bool} {q : Cell → Rat} (hw : Focal.getFocalWindow (.one (.int 1)) (some (.int 1)) = .ok w)
    (hm : r.masked = true) (hf : IgnoresNan (func stat)) (hs : ∀ x : Rat, func stat [.fin x] = .fin x)
    (hu : stat ≠ .unique) (hq : Windows.Spec.Numbers np r q) (hy : ychunks.sum = r.ny) (hx : xchunks.sum = r.nx)
    (h : focal np func r stat w ignoreNull ychunks xchunks = .ok o) :
    ∀ c, r.Has c → o.mask c = r.mask c ∧ (r.mask c = false → o.data c = r.data c) := by
  obtain ⟨h1, h2, h3⟩ := Windows.rectangle_window (n := 1) (m := 1) (by omega) (by omega) hw
  intro c hc
  obtain ⟨f1, f2, f3, f4, f5, f6⟩ := Focal.C29_masked hm hf hy hx h
  obtain ⟨k1, k2, k3⟩ := f6 c hc
  cases hcm : r.mask c with
  | true => exact ⟨k1.2 (.inl hcm), fun k => by cases k⟩
  | false =>
    obtain ⟨e1, e2⟩ := hq c hc hcm
    have hwv : windowValues w r.ny r.nx (fun i j => r.mask (c.1, i, j))
        (fun i j => inDtype np r.dtype o.dtype (r.data (c.1, i, j))) c.2.1 c.2.2 = [.fin (q c)] := by
      unfold windowValues
      rw [h1, h2]
      simp only [List.range_one, List.flatMap_cons, List.flatMap_nil, List.append_nil, List.filterMap_cons, List.filterMap_nil, h3,
        Nat.add_zero, Nat.sub_self, Nat.zero_div, Nat.sub_zero, Nat.zero_le, true_and]
      have : c.2.1 < r.ny ∧ c.2.2 < r.nx ∧ r.mask c = false := ⟨hc.2.1, hc.2.2, hcm⟩
      rw [if_pos this]
      show [inDtype np r.dtype o.dtype (r.data c)] = _
      rw [e1, f4, inDtype_fin e2]
    rw [hwv, hs, f4, e2] at k1 k3
    have hmv : Focal.maskedValue stat (.fin (q c)) = .fin (q c) := by
      unfold Focal.maskedValue
      rw [if_neg (fun k => hu k.1)]
    rw [hmv] at k1 k3
    have hom : o.mask c = false := by
      rw [← Bool.not_eq_true, k1]
      rintro (k | ⟨-, k⟩)
      · rw [hcm] at k; cases k
      · cases k
    exact ⟨hom, fun _ => by rw [k3 hom, e1]⟩

/-! ### Examples -/

/-- One row of four cells, the last null. -/
def sampleRow : Raster :=
  ⟨f64, 1, 1, 4, fun c => if c.2.2 = 3 then .fin (-9) else .fin (c.2.2 + 1 : Nat), fun c => decide (c.2.2 = 3), some ⟨f64, .fin (-9)⟩⟩

/-- One to the right of the middle of three. -/
def sampleKernel : Kernel Num := ⟨1, 3, fun a b => if a = 0 ∧ b = 2 then .fin 1 else .fin 0⟩

example : Focal.Input (idNumPy false) sampleRow f64 sampleKernel [1] [1, 3] (fun c => (c.2.2 + 1 : Nat))
    (fun a b => if a = 0 ∧ b = 2 then 1 else 0) where
  ysum := rfl
  xsum := rfl
  yfits := by decide
  xfits := by decide
  data := fun c _ h => by
    have : ¬ c.2.2 = 3 := by simpa [sampleRow] using h
    simp [sampleRow, this]
  weight := fun a b _ _ => by
    show (if a = 0 ∧ b = 2 then (.fin 1 : Num) else .fin 0) = _
    split <;> rfl
  castData := fun _ _ _ => rfl
  castWeight := fun _ _ _ _ => rfl
  unmasked := fun h => nomatch h

example : OneAt 0 2 (fun a b => if a = 0 ∧ b = 2 then 1 else 0) ∧ Own (idNumPy false) sampleRow (fun c => (c.2.2 + 1 : Nat)) ∧
    Moved (0 - (0 : Nat)) (2 - (1 : Nat)) (0, 0, 1) (0, 0, 2) :=
  ⟨fun _ _ => rfl, ⟨rfl, rfl, rfl, fun _ => rfl⟩, rfl, by decide, by decide⟩

/-- `correlate` moves the row to the left, `convolve` to the right. -/
example : (∃ o, correlate (idNumPy false) sampleRow f64 sampleKernel (some .reflect) (.fin 0) [1] [1, 3] = .ok o ∧
      o.data (0, 0, 0) = .fin 2 ∧ o.data (0, 0, 1) = .fin 3 ∧ o.data (0, 0, 2) = .fin 0) ∧
    ∃ o, convolve (idNumPy false) sampleRow f64 sampleKernel (some .reflect) (.fin 0) [1] [1, 3] = .ok o ∧
      o.data (0, 0, 1) = .fin 1 ∧ o.data (0, 0, 2) = .fin 2 :=
  ⟨⟨_, rfl, by decide +kernel, by decide +kernel, by decide +kernel⟩, _, rfl, by decide +kernel, by decide +kernel⟩

example : (∀ i j, (⟨1, 3, fun i j => decide (i = 0 ∧ j = 2)⟩ : Kernel Bool).at' i j = true ↔ i = 0 ∧ j = 2) ∧
    IgnoresNan (Windows.exFunc .max) ∧ (∀ x : Rat, Windows.exFunc .max [.fin x] = .fin x) ∧
    Windows.Spec.Numbers (idNumPy false) sampleRow (fun c => (c.2.2 + 1 : Nat)) ∧
    ∃ o, focal (idNumPy false) Windows.exFunc sampleRow .max ⟨1, 3, fun i j => decide (i = 0 ∧ j = 2)⟩ false [1] [1, 3] = .ok o ∧
      o.mask (0, 0, 0) = false ∧ o.data (0, 0, 0) = .fin 2 := by
  refine ⟨fun i j => by simp, Windows.exFunc_statistics.ignores .max (by simp), fun _ => rfl, ?_, _, rfl, ?_, ?_⟩
  · intro c _ h
    have : ¬ c.2.2 = 3 := by simpa [sampleRow] using h
    exact ⟨by simp [sampleRow, this], rfl⟩
  · decide +kernel
  · decide +kernel

example : ∃ w, Focal.getFocalWindow (.one (.int 1)) (some (.int 1)) = .ok w ∧
    ∃ o, focal (idNumPy false) Windows.exFunc sampleRow .sum w false [1] [1, 3] = .ok o ∧ o.data (0, 0, 1) = .fin 2 ∧ o.mask (0, 0, 3) = true :=
  ⟨_, rfl, _, rfl, by decide +kernel, by decide +kernel⟩

end Verif.Trips.Single
