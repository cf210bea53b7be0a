import Verif.Nulls.RasterModel
import Mathlib.Tactic.Choose

/-!
# Model of `list_reshape_2d` and `list_reshape_3d` (`utils.py`)
-/

namespace Verif.Utils

open Verif Verif.Nulls

variable {α : Type}

/-- The inner loop, `utils.py:137-139`: a row and the next flat index. -/
def takeRow (lst : List α) (idx : Nat) : Nat → Except Err (List α × Nat)
  | 0 => .ok ([], idx)
  | n + 1 =>
    match lst[idx]? with
    | none => .error .index
    | some a =>
      match takeRow lst (idx + 1) n with
      | .error e => .error e
      | .ok (row, i) => .ok (a :: row, i)

/-- The outer loop, `utils.py:135-139`. -/
def takeRows (lst : List α) (ncols idx : Nat) : Nat → Except Err (List (List α))
  | 0 => .ok []
  | n + 1 =>
    match takeRow lst idx ncols with
    | .error e => .error e
    | .ok (row, i) =>
      match takeRows lst ncols i n with
      | .error e => .error e
      | .ok rows => .ok (row :: rows)

/-- `utils.py:129-140` `list_reshape_2d`. -/
def listReshape2d (lst : List α) (shape : List Nat) (flatStart : Nat) : Except Err (List (List α)) :=
  match shape with
  | [nrows, ncols] => takeRows lst ncols flatStart nrows
  | _ => .error .type

/-- The loop `utils.py:149-152`. -/
def takeBands (lst : List α) (shape2d : List Nat) (n2d idx : Nat) : Nat → Except Err (List (List (List α)))
  | 0 => .ok []
  | n + 1 =>
    match listReshape2d lst shape2d idx with
    | .error e => .error e
    | .ok band =>
      match takeBands lst shape2d n2d (idx + n2d) n with
      | .error e => .error e
      | .ok bands => .ok (band :: bands)

/-- `utils.py:143-153` `list_reshape_3d`. -/
def listReshape3d (lst : List α) (shape : List Nat) : Except Err (List (List (List α))) :=
  match shape with
  | [nbands, nrows, ncols] => takeBands lst [nrows, ncols] (nrows * ncols) 0 nbands
  | _ => .error .type

/-! ### C40 -/

theorem takeRow_spec (lst : List α) : ∀ (n idx : Nat) (row : List α) (i : Nat),
    takeRow lst idx n = .ok (row, i) ↔ i = idx + n ∧ row.length = n ∧ row = (lst.drop idx).take n
  | 0, idx, row, i => by
    simp only [takeRow, Except.ok.injEq, Prod.mk.injEq, List.take_zero]
    constructor
    · rintro ⟨rfl, rfl⟩; exact ⟨by omega, rfl, rfl⟩
    · rintro ⟨rfl, _, rfl⟩; exact ⟨rfl, by omega⟩
  | n + 1, idx, row, i => by
    unfold takeRow
    cases h : lst[idx]? with
    | none =>
      have hl : lst.length ≤ idx := List.getElem?_eq_none_iff.mp h
      rw [List.drop_eq_nil_of_le hl, List.take_nil]
      constructor
      · intro h; cases h
      · rintro ⟨_, h1, rfl⟩; cases h1
    | some a =>
      obtain ⟨hl, ha⟩ := List.getElem?_eq_some_iff.mp h
      rw [List.drop_eq_getElem_cons hl, ha, List.take_succ_cons]
      have ih := takeRow_spec lst n (idx + 1)
      simp only
      constructor
      · intro h
        split at h
        · cases h
        · rename_i r j hr
          obtain ⟨h1, h2, h3⟩ := (ih r j).mp hr
          simp only [Except.ok.injEq, Prod.mk.injEq] at h
          obtain ⟨rfl, rfl⟩ := h
          exact ⟨by omega, by simp [h2], by rw [← h3]⟩
      · rintro ⟨rfl, h1, rfl⟩
        have := (ih ((lst.drop (idx + 1)).take n) (idx + 1 + n)).mpr ⟨rfl, by simpa using h1, rfl⟩
        rw [this]
        simp only [Except.ok.injEq, Prod.mk.injEq, true_and]
        omega

theorem takeRow_error (lst : List α) : ∀ (n idx : Nat) (e : Err), takeRow lst idx n = .error e → e = .index
  | 0, idx, e, h => by cases h
  | n + 1, idx, e, h => by
    unfold takeRow at h
    split at h
    · injection h with h; exact h.symm
    · split at h
      · rename_i e' he'
        injection h with h
        exact h ▸ takeRow_error lst n (idx + 1) e' he'
      · cases h

/-- `out` has `n` rows of `m` items which in order are the items of `lst` from `start` on. -/
def Spec.Rows (lst : List α) (start n m : Nat) (out : List (List α)) : Prop :=
  out.length = n ∧ (∀ row ∈ out, row.length = m) ∧
  ∀ i j : Nat, i < n → j < m → ∃ row, out[i]? = some row ∧ row[j]? = lst[start + i * m + j]? ∧ row[j]? ≠ none

open Spec

theorem takeRows_spec (lst : List α) (m : Nat) : ∀ (n start : Nat) (out : List (List α)),
    takeRows lst m start n = .ok out ↔ Rows lst start n m out
  | 0, start, out => by
    simp only [takeRows, Except.ok.injEq, Rows]
    constructor
    · rintro rfl; exact ⟨rfl, by simp, fun i j hi => absurd hi (by omega)⟩
    · rintro ⟨h, _⟩; exact (List.length_eq_zero_iff.mp h).symm
  | n + 1, start, out => by
    have ih := takeRows_spec lst m n (start + m)
    unfold takeRows
    constructor
    · intro h
      split at h
      · cases h
      · rename_i row i hr
        obtain ⟨rfl, h2, h3⟩ := (takeRow_spec lst m start row _).mp hr
        split at h
        · cases h
        · rename_i rows hrows
          injection h with h
          subst h
          obtain ⟨g1, g2, g3⟩ := (ih rows).mp hrows
          refine ⟨by simp [g1], ?_, ?_⟩
          · intro r hr
            rcases List.mem_cons.mp hr with rfl | hr
            · exact h2
            · exact g2 r hr
          · intro i j hi hj
            cases i with
            | zero =>
              refine ⟨row, rfl, ?_, ?_⟩
              · rw [h3, List.getElem?_take_of_lt hj, List.getElem?_drop]
                congr 1
                omega
              · rw [List.getElem?_eq_getElem (by omega)]
                exact fun h => nomatch h
            | succ i =>
              obtain ⟨r, k1, k2, k3⟩ := g3 i j (by omega) hj
              refine ⟨r, by rw [List.getElem?_cons_succ]; exact k1, ?_, k3⟩
              rw [k2]
              congr 1
              rw [Nat.add_mul]
              omega
    · rintro ⟨h1, h2, h3⟩
      cases out with
      | nil => cases h1
      | cons row rows =>
        have hrow : row = (lst.drop start).take m := by
          apply List.ext_getElem?
          intro j
          by_cases hj : j < m
          · obtain ⟨r, k1, k2, _⟩ := h3 0 j (by omega) hj
            rw [List.getElem?_cons_zero, Option.some.injEq] at k1
            subst k1
            rw [k2, List.getElem?_take_of_lt hj, List.getElem?_drop]
            congr 1
            omega
          · rw [List.getElem?_eq_none (by rw [h2 row (by simp)]; omega),
              List.getElem?_eq_none (by rw [List.length_take]; omega)]
        rw [(takeRow_spec lst m start row (start + m)).mpr ⟨rfl, h2 row (by simp), hrow⟩]
        simp only
        have : Rows lst (start + m) n m rows := by
          refine ⟨by simpa using h1, fun r hr => h2 r (by simp [hr]), ?_⟩
          intro i j hi hj
          obtain ⟨r, k1, k2, k3⟩ := h3 (i + 1) j (by omega) hj
          rw [List.getElem?_cons_succ] at k1
          refine ⟨r, k1, ?_, k3⟩
          rw [k2]
          congr 1
          rw [Nat.add_mul]
          omega
        rw [(ih rows).mpr this]

theorem takeRows_error (lst : List α) (m : Nat) : ∀ (n start : Nat) (e : Err),
    takeRows lst m start n = .error e → e = .index
  | 0, start, e, h => by cases h
  | n + 1, start, e, h => by
    unfold takeRows at h
    split at h
    · rename_i e' he'
      injection h with h
      exact h ▸ takeRow_error lst m start e' he'
    · split at h
      · rename_i e' he'
        injection h with h
        exact h ▸ takeRows_error lst m n _ e' he'
      · cases h

/-- Rows exist exactly if there are enough items. -/
theorem rows_exist (lst : List α) (start n m : Nat) :
    (∃ out, Rows lst start n m out) ↔ (n * m = 0 ∨ start + n * m ≤ lst.length) := by
  constructor
  · rintro ⟨out, h1, h2, h3⟩
    by_cases h0 : n * m = 0
    · exact Or.inl h0
    · have hn : 0 < n := Nat.pos_of_ne_zero fun h => h0 (by rw [h, Nat.zero_mul])
      have hm : 0 < m := Nat.pos_of_ne_zero fun h => h0 (by rw [h, Nat.mul_zero])
      obtain ⟨r, _, k2, k3⟩ := h3 (n - 1) (m - 1) (by omega) (by omega)
      rw [k2, Ne, List.getElem?_eq_none_iff, Nat.not_le] at k3
      right
      have : (n - 1) * m + m = n * m := by
        rw [← Nat.succ_mul]
        congr 1
        omega
      omega
  · intro h
    refine ⟨(List.range n).map fun i => (lst.drop (start + i * m)).take m, by simp, ?_, ?_⟩
    · intro row hrow
      obtain ⟨i, hi, rfl⟩ := List.mem_map.mp hrow
      have hi := List.mem_range.mp hi
      rw [List.length_take, List.length_drop]
      rcases h with h | h
      · rcases Nat.mul_eq_zero.mp h with h | h <;> omega
      · have : (i + 1) * m ≤ n * m := Nat.mul_le_mul_right _ hi
        rw [Nat.succ_mul] at this
        omega
    · intro i j hi hj
      refine ⟨(lst.drop (start + i * m)).take m, by simp [hi], ?_, ?_⟩
      · rw [List.getElem?_take_of_lt hj, List.getElem?_drop]
      · rw [List.getElem?_take_of_lt hj, List.getElem?_drop, Ne, List.getElem?_eq_none_iff, Nat.not_le]
        rcases h with h | h
        · rcases Nat.mul_eq_zero.mp h with h | h <;> omega
        · have : (i + 1) * m ≤ n * m := Nat.mul_le_mul_right _ hi
          rw [Nat.succ_mul] at this
          omega

/-- **C40** in two dimensions: the result has the shape asked for and holds the items from the start index on, in
order, row by row; the call fails exactly if the shape is not a pair (TypeError) or there are too few items
(IndexError). -/
theorem C40_2d (lst : List α) (n m start : Nat) :
    (∀ out, listReshape2d lst [n, m] start = .ok out ↔ Rows lst start n m out) ∧
    ((∃ out, listReshape2d lst [n, m] start = .ok out) ↔ n * m = 0 ∨ start + n * m ≤ lst.length) ∧
    (∀ e, listReshape2d lst [n, m] start = .error e → e = .index) ∧
    ∀ shape : List Nat, shape.length ≠ 2 → listReshape2d lst shape start = .error .type := by
  refine ⟨takeRows_spec lst m n start, ?_, takeRows_error lst m n start, ?_⟩
  · rw [← rows_exist]
    exact exists_congr (takeRows_spec lst m n start)
  · intro shape hs
    match shape with
    | [] => rfl
    | [_] => rfl
    | [_, _] => exact absurd rfl hs
    | _ :: _ :: _ :: _ => rfl

theorem takeBands_spec (lst : List α) (n m : Nat) : ∀ (b start : Nat) (out : List (List (List α))),
    takeBands lst [n, m] (n * m) start b = .ok out ↔
      out.length = b ∧ ∀ (k : Nat) (band : List (List α)), out[k]? = some band → Rows lst (start + k * (n * m)) n m band
  | 0, start, out => by
    simp only [takeBands, Except.ok.injEq]
    constructor
    · rintro rfl; exact ⟨rfl, fun k band h => by simp at h⟩
    · rintro ⟨h, _⟩; exact (List.length_eq_zero_iff.mp h).symm
  | b + 1, start, out => by
    have ih := takeBands_spec lst n m b (start + n * m)
    unfold takeBands
    constructor
    · intro h
      split at h
      · cases h
      · rename_i band hb
        have hb := (takeRows_spec lst m n start band).mp hb
        split at h
        · cases h
        · rename_i bands hbs
          injection h with h
          subst h
          obtain ⟨g1, g2⟩ := (ih bands).mp hbs
          refine ⟨by simp [g1], ?_⟩
          intro k bd hk
          cases k with
          | zero =>
            rw [List.getElem?_cons_zero, Option.some.injEq] at hk
            subst hk
            simpa using hb
          | succ k =>
            rw [List.getElem?_cons_succ] at hk
            have := g2 k bd hk
            rwa [show start + n * m + k * (n * m) = start + (k + 1) * (n * m) by rw [Nat.succ_mul]; omega] at this
    · rintro ⟨h1, h2⟩
      cases out with
      | nil => cases h1
      | cons band bands =>
        have hb : listReshape2d lst [n, m] start = .ok band :=
          (takeRows_spec lst m n start band).mpr (by simpa using h2 0 band rfl)
        rw [hb]
        simp only
        rw [(ih bands).mpr ⟨by simpa using h1, ?_⟩]
        intro k bd hk
        have := h2 (k + 1) bd (by rw [List.getElem?_cons_succ]; exact hk)
        rwa [show start + (k + 1) * (n * m) = start + n * m + k * (n * m) by rw [Nat.succ_mul]; omega] at this

/-- **C40** in three dimensions: band `k` consists of the rows from item `k * rows * cols` on. -/
theorem C40_3d (lst : List α) (b n m : Nat) :
    (∀ out, listReshape3d lst [b, n, m] = .ok out ↔
      out.length = b ∧ ∀ (k : Nat) (band : List (List α)), out[k]? = some band → Rows lst (k * (n * m)) n m band) ∧
    ((∃ out, listReshape3d lst [b, n, m] = .ok out) ↔ b * (n * m) ≤ lst.length) ∧
    ∀ shape : List Nat, shape.length ≠ 3 → listReshape3d lst shape = .error .type := by
  have hspec : ∀ out, listReshape3d lst [b, n, m] = .ok out ↔
      out.length = b ∧ ∀ (k : Nat) (band : List (List α)), out[k]? = some band → Rows lst (k * (n * m)) n m band := by
    intro out
    have := takeBands_spec lst n m b 0 out
    simp only [Nat.zero_add] at this
    exact this
  refine ⟨hspec, ?_, ?_⟩
  · rw [exists_congr hspec]
    constructor
    · rintro ⟨out, h1, h2⟩
      by_cases h0 : b * (n * m) = 0
      · omega
      · have hb : 0 < b := Nat.pos_of_ne_zero fun h => h0 (by rw [h, Nat.zero_mul])
        have hlt : b - 1 < out.length := by omega
        have := (rows_exist lst ((b - 1) * (n * m)) n m).mp ⟨_, h2 (b - 1) _ (List.getElem?_eq_getElem hlt)⟩
        have he : (b - 1) * (n * m) + n * m = b * (n * m) := by
          rw [← Nat.succ_mul]
          congr 1
          omega
        rcases this with h | h
        · rw [h, Nat.mul_zero] at h0
          exact absurd rfl h0
        · omega
    · intro h
      have hband : ∀ k < b, ∃ band, Rows lst (k * (n * m)) n m band := by
        intro k hk
        apply (rows_exist lst _ n m).mpr
        right
        have : (k + 1) * (n * m) ≤ b * (n * m) := Nat.mul_le_mul_right _ hk
        rw [Nat.succ_mul] at this
        omega
      choose! f hf using hband
      refine ⟨(List.range b).map f, by simp, ?_⟩
      intro k band hk
      by_cases hkb : k < b
      · have : ((List.range b).map f)[k]? = some (f k) := by simp [hkb]
        rw [this, Option.some.injEq] at hk
        exact hk ▸ hf k hkb
      · rw [List.getElem?_eq_none (by simp; omega)] at hk
        cases hk
  · intro shape hs
    match shape with
    | [] => rfl
    | [_] => rfl
    | [_, _] => rfl
    | [_, _, _] => exact absurd rfl hs
    | _ :: _ :: _ :: _ :: _ => rfl

/-- The concatenation of the rows is the part of the list that was reshaped. -/
theorem C40_flatten (lst : List α) (n m start : Nat) (out : List (List α))
    (h : listReshape2d lst [n, m] start = .ok out) : out.flatten = (lst.drop start).take (n * m) := by
  have key : ∀ (n start : Nat) (out : List (List α)), takeRows lst m start n = .ok out →
      out.flatten = (lst.drop start).take (n * m) := by
    intro n
    induction n with
    | zero =>
      intro start out h
      simp only [takeRows, Except.ok.injEq] at h
      subst h
      simp
    | succ n ih =>
      intro start out h
      unfold takeRows at h
      split at h
      · cases h
      · rename_i row i hr
        obtain ⟨rfl, h2, h3⟩ := (takeRow_spec lst m start row _).mp hr
        split at h
        · cases h
        · rename_i rows hrows
          injection h with h
          subst h
          rw [List.flatten_cons, ih _ _ hrows, h3, Nat.succ_mul, Nat.add_comm (n * m) m, List.take_add, List.drop_drop]
  exact key n start out h

example : listReshape2d [1, 2, 3, 4, 5, 6] [2, 3] 0 = .ok [[1, 2, 3], [4, 5, 6]] := by decide
example : listReshape3d [1, 2, 3, 4] [2, 1, 2] = .ok [[[1, 2]], [[3, 4]]] := by decide

end Verif.Utils
