import Verif.Mosaic.Model
import Mathlib.Tactic.Tauto
import Mathlib.Data.List.Basic

/-! # Mosaic: helper lemmas -/

set_option linter.unusedSectionVars false

namespace Verif.Mosaic

open Verif

variable {V : Type}

/-- The binary operation is associative. -/
def Assoc (f : V → V → V) : Prop := ∀ a b c, f (f a b) c = f a (f b c)

theorem foldl_assoc {f : V → V → V} (hf : Assoc f) (a b : V) (ys : List V) :
    ys.foldl f (f a b) = f a (ys.foldl f b) := by
  induction ys generalizing b with
  | nil => rfl
  | cons y ys ih => rw [List.foldl_cons, List.foldl_cons, hf, ih]

theorem reduce_append {f : V → V → V} (hf : Assoc f) {xs ys : List V} {a b : V}
    (ha : reduce f xs = some a) (hb : reduce f ys = some b) :
    reduce f (xs ++ ys) = some (f a b) := by
  cases xs with
  | nil => cases ha
  | cons x xs =>
    cases ys with
    | nil => cases hb
    | cons y ys =>
      simp only [reduce, Option.some.injEq] at ha hb
      simp only [List.cons_append, reduce, List.foldl_append, List.foldl_cons, Option.some.injEq]
      rw [ha, foldl_assoc hf, hb]

theorem reduce_cons {f : V → V → V} (hf : Assoc f) (x : V) (xs : List V) :
    reduce f (x :: xs) = some (match reduce f xs with | none => x | some r => f x r) := by
  cases xs with
  | nil => rfl
  | cons y ys =>
    have := reduce_append hf (xs := [x]) (ys := y :: ys) (a := x) rfl rfl
    rw [List.singleton_append] at this
    rw [this]; rfl

theorem reduce_isSome {f : V → V → V} {xs : List V} (h : xs ≠ []) : ∃ r, reduce f xs = some r := by
  cases xs with
  | nil => exact absurd rfl h
  | cons x xs => exact ⟨_, rfl⟩

theorem pushBinop_assoc (O : Ops V) : Assoc (pushBinop O) := by
  intro a b c
  simp only [pushBinop]
  by_cases hc : O.isMissing c = true
  · simp [hc]
  · simp [hc]

theorem pushFrom_getLast (O : Ops V) (p : V) (xs : List V) :
    (p :: pushFrom O p xs).getLast? = some (xs.foldl (pushBinop O) p) := by
  induction xs generalizing p with
  | nil => rfl
  | cons x xs ih =>
    rw [pushFrom, List.foldl_cons]
    rw [List.getLast?_cons_cons]
    exact ih _

theorem paintPush_eq (O : Ops V) (xs : List V) : paintPush O xs = reduce (pushBinop O) xs := by
  cases xs with
  | nil => rfl
  | cons x xs => exact pushFrom_getLast O x xs

/-- The layers that count. -/
def valids (O : Ops V) (xs : List V) : List V := xs.filter (fun v => !O.isMissing v)

theorem valids_append (O : Ops V) (xs ys : List V) : valids O (xs ++ ys) = valids O xs ++ valids O ys :=
  List.filter_append ..

theorem valids_nil_iff (O : Ops V) (xs : List V) : valids O xs = [] ↔ xs.all O.isMissing = true := by
  simp [valids, List.filter_eq_nil_iff]

/-! ### Methods that fill the missing layers -/

/-- The fill value `e` is neutral for `f` on the domain `D`. -/
structure Filler (f : V → V → V) (e : V) (D : V → Prop) : Prop where
  assoc : Assoc f
  closed : ∀ a b, D a → D b → D (f a b)
  ee : f e e = e
  left : ∀ a, D a → f e a = a
  right : ∀ a, D a → f a e = a

/-- `da.where(mask, fill, stack)` followed by the reduction and `da.where(all_missing, nodata, _)`. -/
def paintFill (O : Ops V) (f : V → V → V) (e : V) (stack : List V) : Option V :=
  (reduce f (stack.map fun v => if O.isMissing v then e else v)).map fun r =>
    if stack.all O.isMissing then O.nodata else r

theorem reduce_mem_dom {f : V → V → V} {e : V} {D : V → Prop} (F : Filler f e D) {xs : List V}
    (hD : ∀ x ∈ xs, D x) {r : V} (h : reduce f xs = some r) : D r := by
  induction xs generalizing r with
  | nil => cases h
  | cons x xs ih =>
    rw [reduce_cons F.assoc] at h
    injection h with h
    cases hr : reduce f xs with
    | none =>
      rw [hr] at h
      subst h
      exact hD _ (by simp)
    | some s =>
      rw [hr] at h
      subst h
      exact F.closed _ _ (hD _ (by simp)) (ih (fun y hy => hD y (by simp [hy])) hr)

theorem reduce_fill {O : Ops V} {f : V → V → V} {e : V} {D : V → Prop} (F : Filler f e D)
    {xs : List V} (hne : xs ≠ []) (hD : ∀ x ∈ xs, O.isMissing x = false → D x) :
    reduce f (xs.map fun v => if O.isMissing v then e else v) =
      some ((reduce f (valids O xs)).getD e) := by
  induction xs with
  | nil => exact absurd rfl hne
  | cons x xs ih =>
    rw [List.map_cons, reduce_cons F.assoc]
    congr 1
    by_cases hxs : xs = []
    · subst hxs
      by_cases hx : O.isMissing x = true
      · simp [reduce, valids, hx]
      · simp [reduce, valids, hx]
    · have ih' := ih hxs (fun y hy => hD y (by simp [hy]))
      rw [ih']
      simp only
      by_cases hx : O.isMissing x = true
      · have hv : valids O (x :: xs) = valids O xs := by simp [valids, hx]
        rw [hv, if_pos hx]
        cases hr : reduce f (valids O xs) with
        | none => exact F.ee
        | some r =>
          apply F.left
          refine reduce_mem_dom F ?_ hr
          intro y hy
          simp only [valids, List.mem_filter, Bool.not_eq_true'] at hy
          exact hD y (by simp [hy.1]) hy.2
      · have hx' : O.isMissing x = false := by simpa using hx
        have hv : valids O (x :: xs) = x :: valids O xs := by simp [valids, hx']
        rw [hv, if_neg hx, reduce_cons F.assoc]
        cases hr : reduce f (valids O xs) with
        | none => exact F.right _ (hD x (by simp) hx')
        | some r => rfl

theorem paintFill_eq {O : Ops V} {f : V → V → V} {e : V} {D : V → Prop} (F : Filler f e D)
    {xs : List V} (hne : xs ≠ []) (hD : ∀ x ∈ xs, O.isMissing x = false → D x) :
    paintFill O f e xs = some ((reduce f (valids O xs)).getD O.nodata) := by
  unfold paintFill
  rw [reduce_fill F hne hD, Option.map_some]
  congr 1
  by_cases hall : xs.all O.isMissing = true
  · rw [if_pos hall, (valids_nil_iff O xs).mpr hall]; rfl
  · rw [if_neg hall]
    obtain ⟨r, hr⟩ := reduce_isSome (f := f) (xs := valids O xs)
      (fun h => hall ((valids_nil_iff O xs).mp h))
    rw [hr]; rfl

/-- Filling methods and recursion: if no sub-stack has a result that looks missing, halving makes no
difference. -/
theorem recursive_fill {O : Ops V} {m : Method} {f : V → V → V} {e : V} {D : V → Prop}
    (F : Filler f e D) (hm : ∀ xs, paint O m xs = paintFill O f e xs)
    (hnd : O.isMissing O.nodata = true) (n : Nat) :
    ∀ xs : List V, xs.length ≤ n → xs ≠ [] → (∀ x ∈ xs, O.isMissing x = false → D x) →
      (8 ≤ xs.length → ∀ seg, seg <:+: xs → ∀ r, reduce f (valids O seg) = some r → O.isMissing r = false) →
      paintRecursive O m xs = some ((reduce f (valids O xs)).getD O.nodata) := by
  induction n with
  | zero =>
    intro xs hl hne
    exact absurd (List.length_eq_zero_iff.mp (Nat.le_zero.mp hl)) hne
  | succ n ih =>
    intro xs hl hne hD hseg
    rw [paintRecursive]
    split
    · rw [hm]; exact paintFill_eq F hne hD
    · next h8 =>
      have h8 : 8 ≤ xs.length := by omega
      have hsplit : xs.take (xs.length / 2) ++ xs.drop (xs.length / 2) = xs := List.take_append_drop _ _
      have hlt : (xs.take (xs.length / 2)).length = xs.length / 2 := by
        rw [List.length_take]; omega
      have hld : (xs.drop (xs.length / 2)).length = xs.length - xs.length / 2 := List.length_drop
      generalize hl' : xs.take (xs.length / 2) = L at *
      generalize hr' : xs.drop (xs.length / 2) = R at *
      have hLne : L ≠ [] := by rintro rfl; simp at hlt; omega
      have hRne : R ≠ [] := by rintro rfl; simp at hld; omega
      have hLi : L <:+: xs := ⟨[], R, by simpa using hsplit⟩
      have hRi : R <:+: xs := ⟨L, [], by simpa using hsplit⟩
      rw [ih L (by omega) hLne (fun x hx => hD x (hLi.subset hx))
          (fun _ seg hs => hseg h8 seg (hs.trans hLi)),
        ih R (by omega) hRne (fun x hx => hD x (hRi.subset hx))
          (fun _ seg hs => hseg h8 seg (hs.trans hRi))]
      simp only [Option.bind_eq_bind, Option.bind_some]
      rw [hm]
      have hdom : ∀ seg, seg <:+: xs → ∀ r, reduce f (valids O seg) = some r → D r := by
        intro seg hs r hr
        refine reduce_mem_dom F ?_ hr
        intro y hy
        simp only [valids, List.mem_filter, Bool.not_eq_true'] at hy
        exact hD y (hs.subset hy.1) hy.2
      have hv : valids O xs = valids O L ++ valids O R := by rw [← valids_append, hsplit]
      rw [hv]
      have pf : ∀ a b, (O.isMissing a = false → D a) → (O.isMissing b = false → D b) →
          paintFill O f e [a, b] = some ((reduce f (valids O [a, b])).getD O.nodata) := by
        intro a b ha hb
        apply paintFill_eq F (by simp)
        intro x hx
        rcases List.mem_cons.mp hx with rfl | hx
        · exact ha
        · rw [List.mem_singleton.mp hx]; exact hb
      have ndm : O.isMissing O.nodata = false → D O.nodata := by intro h; rw [hnd] at h; cases h
      cases hrL : reduce f (valids O L) with
      | none =>
        have hvL : valids O L = [] := by
          cases hvl : valids O L with
          | nil => rfl
          | cons a as => rw [hvl] at hrL; cases hrL
        rw [hvL, List.nil_append]
        cases hrR : reduce f (valids O R) with
        | none =>
          simp only [Option.getD_none]
          rw [pf _ _ ndm ndm]
          simp [valids, hnd, reduce]
        | some b =>
          simp only [Option.getD_none, Option.getD_some]
          rw [pf _ _ ndm (fun _ => hdom R hRi b hrR)]
          simp [valids, hnd, hseg h8 R hRi b hrR, reduce]
      | some a =>
        cases hrR : reduce f (valids O R) with
        | none =>
          have hvR : valids O R = [] := by
            cases hvl : valids O R with
            | nil => rfl
            | cons a as => rw [hvl] at hrR; cases hrR
          rw [hvR, List.append_nil, hrL]
          simp only [Option.getD_none, Option.getD_some]
          rw [pf _ _ (fun _ => hdom L hLi a hrL) ndm]
          simp [valids, hnd, hseg h8 L hLi a hrL, reduce]
        | some b =>
          rw [reduce_append F.assoc hrL hrR]
          simp only [Option.getD_some]
          rw [pf _ _ (fun _ => hdom L hLi a hrL) (fun _ => hdom R hRi b hrR)]
          simp [valids, hseg h8 L hLi a hrL, hseg h8 R hRi b hrR, reduce]

/-! ### Methods that push -/

/-- Halving makes no difference for an associative combination. -/
theorem recursive_assoc {O : Ops V} {m : Method}
    (h : ∀ xs ys : List V, xs ≠ [] → ys ≠ [] → ∃ a b, paint O m xs = some a ∧ paint O m ys = some b ∧
      paint O m (xs ++ ys) = paint O m [a, b]) (n : Nat) :
    ∀ xs : List V, xs.length ≤ n → xs ≠ [] → paintRecursive O m xs = paint O m xs := by
  induction n with
  | zero =>
    intro xs hl hne
    exact absurd (List.length_eq_zero_iff.mp (Nat.le_zero.mp hl)) hne
  | succ n ih =>
    intro xs hl hne
    rw [paintRecursive]
    split
    · rfl
    · next h8 =>
      have hsplit : xs.take (xs.length / 2) ++ xs.drop (xs.length / 2) = xs := List.take_append_drop _ _
      have hlt : (xs.take (xs.length / 2)).length = xs.length / 2 := by
        rw [List.length_take]; omega
      have hld : (xs.drop (xs.length / 2)).length = xs.length - xs.length / 2 := List.length_drop
      generalize hl' : xs.take (xs.length / 2) = L at *
      generalize hr' : xs.drop (xs.length / 2) = R at *
      have hLne : L ≠ [] := by rintro rfl; simp at hlt; omega
      have hRne : R ≠ [] := by rintro rfl; simp at hld; omega
      obtain ⟨a, b, ha, hb, hab⟩ := h L R hLne hRne
      rw [ih L (by omega) hLne, ih R (by omega) hRne, ha, hb]
      simp only [Option.bind_eq_bind, Option.bind_some]
      rw [← hab, hsplit]

theorem recursive_first (O : Ops V) {xs : List V} (hne : xs ≠ []) :
    paintRecursive O .first xs = reduce (pushBinop O) xs := by
  rw [recursive_assoc (n := xs.length) _ _ (le_refl _) hne]
  · exact paintPush_eq O xs
  · intro xs ys hx hy
    obtain ⟨a, ha⟩ := reduce_isSome (f := pushBinop O) hx
    obtain ⟨b, hb⟩ := reduce_isSome (f := pushBinop O) hy
    refine ⟨a, b, by rw [← ha]; exact paintPush_eq O xs, by rw [← hb]; exact paintPush_eq O ys, ?_⟩
    show paintPush O _ = paintPush O _
    rw [paintPush_eq, paintPush_eq, reduce_append (pushBinop_assoc O) ha hb]
    rfl

theorem recursive_last (O : Ops V) {xs : List V} (hne : xs ≠ []) :
    paintRecursive O .last xs = reduce (pushBinop O) xs.reverse := by
  rw [recursive_assoc (n := xs.length) _ _ (le_refl _) hne]
  · exact paintPush_eq O xs.reverse
  · intro xs ys hx hy
    obtain ⟨a, ha⟩ := reduce_isSome (f := pushBinop O) (xs := xs.reverse) (by simpa using hx)
    obtain ⟨b, hb⟩ := reduce_isSome (f := pushBinop O) (xs := ys.reverse) (by simpa using hy)
    refine ⟨a, b, by rw [← ha]; exact paintPush_eq O _, by rw [← hb]; exact paintPush_eq O _, ?_⟩
    show paintPush O _ = paintPush O _
    rw [paintPush_eq, paintPush_eq, List.reverse_append, reduce_append (pushBinop_assoc O) hb ha]
    rfl

/-! ### Trees and scans -/

theorem tree_eval {f : V → V → V} (hf : Assoc f) (t : Tree V) : reduce f t.leaves = some (t.eval f) := by
  induction t with
  | leaf v => rfl
  | node l r ihl ihr => exact reduce_append hf ihl ihr

theorem map_pushFrom (O : Ops V) (p q : V) (xs : List V) :
    (pushFrom O q xs).map (pushBinop O p) = pushFrom O (pushBinop O p q) xs := by
  induction xs generalizing q with
  | nil => rfl
  | cons x xs ih =>
    simp only [pushFrom, List.map_cons]
    have : pushBinop O p (if O.isMissing x = true then q else x) =
        if O.isMissing x = true then pushBinop O p q else x := by
      by_cases hx : O.isMissing x = true
      · simp [hx]
      · simp [hx, pushBinop]
    rw [ih, this]

theorem map_push (O : Ops V) (p : V) (xs : List V) : (push O xs).map (pushBinop O p) = pushFrom O p xs := by
  cases xs with
  | nil => rfl
  | cons x xs =>
    simp only [push, pushFrom, List.map_cons, map_pushFrom]
    rfl

theorem pushFrom_append (O : Ops V) (p : V) (xs ys : List V) :
    pushFrom O p (xs ++ ys) = pushFrom O p xs ++ pushFrom O (xs.foldl (pushBinop O) p) ys := by
  induction xs generalizing p with
  | nil => rfl
  | cons x xs ih =>
    simp only [List.cons_append, pushFrom, List.foldl_cons, ih]
    rfl

theorem push_append (O : Ops V) {xs : List V} {a : V} (ys : List V)
    (ha : reduce (pushBinop O) xs = some a) : push O (xs ++ ys) = push O xs ++ pushFrom O a ys := by
  cases xs with
  | nil => cases ha
  | cons x xs =>
    simp only [reduce, Option.some.injEq] at ha
    simp only [List.cons_append, push, pushFrom_append, ha]

end Verif.Mosaic
