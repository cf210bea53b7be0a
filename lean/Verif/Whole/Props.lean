import Verif.Whole.Model
import Verif.Stats.Props
import Verif.Nulls.RasterProps
import Mathlib.Algebra.BigOperators.Group.Finset.Basic
import Mathlib.Algebra.BigOperators.Group.List.Basic
import Mathlib.Tactic.Ring

/-! # C62: reductions of a raster to one number -/

set_option linter.unusedSectionVars false

namespace Verif.Whole

open Verif Verif.Nulls

namespace Spec

/-- `v` is the value of a cell that is not null. -/
def Valid (r : Raster) (v : Num) : Prop := ∃ c, r.Has c ∧ r.mask c = false ∧ r.data c = v

/-- The blocks of an array with the valid cells. -/
def BlocksOf (r : Raster) (blocks : List (List Num)) : Prop := blocks.flatten.Perm (validValues r)

/-- Sum over all cells. -/
def total {M : Type} [AddCommMonoid M] (r : Raster) (f : Cell → M) : M :=
  ∑ b ∈ Finset.range r.nb, ∑ y ∈ Finset.range r.ny, ∑ x ∈ Finset.range r.nx, f (b, y, x)

/-- The number of cells that hold a number. -/
def count (r : Raster) : Nat := total r fun c => if r.mask c = false ∧ r.data c ≠ .nan then 1 else 0

end Spec

/-! ### Trees -/

theorem groupsFrom_flatten {α : Type} {k : Nat} (hk : 0 < k) : ∀ (f : Nat) (l : List α), l.length ≤ f →
    (groupsFrom k f l).flatten = l
  | 0, [], _ => rfl
  | _ + 1, [], _ => rfl
  | f + 1, a :: l, h => by
    have hd : ((a :: l).drop k).length ≤ f := by
      rw [List.length_drop]; simp at h ⊢; omega
    rw [groupsFrom, List.flatten_cons, groupsFrom_flatten hk f _ hd, List.take_append_drop]
  | 0, _ :: _, h => absurd h (by simp)

theorem groups_flatten {α : Type} (k : Nat) (l : List α) : (groups k l).flatten = l :=
  groupsFrom_flatten (by omega) _ _ le_rfl

/-- A reduction does not depend on the blocks and on the tree, if combining combined parts is combining all at once. -/
theorem treeReduce_eq {α β : Type} {chunk : List α → List β} {agg : List β → List β} {whole : List α → List β}
    (h1 : ∀ parts : List (List β), agg (parts.map agg).flatten = agg parts.flatten)
    (h2 : ∀ blocks : List (List α), agg (blocks.map chunk).flatten = whole blocks.flatten) (ks : List Nat)
    (blocks : List (List α)) : treeReduce chunk agg ks blocks = whole blocks.flatten := by
  have key : ∀ (ks : List Nat) (parts : List (List β)), agg (ks.foldl (combineRound agg) parts).flatten = agg parts.flatten := by
    intro ks
    induction ks with
    | nil => intro parts; rfl
    | cons k ks ih =>
      intro parts
      rw [List.foldl_cons, ih]
      have : combineRound agg parts k = ((groups k parts).map List.flatten).map agg := by
        unfold combineRound; rw [List.map_map]; rfl
      rw [this, h1, ← List.flatten_flatten, groups_flatten]
  unfold treeReduce
  rw [key, h2]

/-! ### Extremes -/

section Best

variable {better : Num → Num → Bool} {le : Num → Num → Prop}

/-- `better` is the strict part of a linear order of the numbers. -/
structure IsOrder (better : Num → Num → Bool) (le : Num → Num → Prop) : Prop where
  better_iff : ∀ {a b}, a ≠ .nan → b ≠ .nan → (better a b = true ↔ le a b ∧ a ≠ b)
  total : ∀ {a b : Num}, a ≠ .nan → b ≠ .nan → le a b ∨ le b a
  trans : ∀ {a b c}, le a b → le b c → le a c
  antisymm : ∀ {a b}, le a b → le b a → a = b
  refl : ∀ {a : Num}, a ≠ .nan → le a a

theorem minOrder : IsOrder Stats.lt Stats.Spec.Le :=
  ⟨Stats.lt_iff, Stats.le_total', Stats.le_trans', Stats.le_antisymm', Stats.le_refl'⟩

theorem maxOrder : IsOrder (fun a b => Stats.lt b a) (fun a b => Stats.Spec.Le b a) :=
  ⟨fun ha hb => by rw [Stats.lt_iff hb ha]; exact and_congr_right fun _ => ne_comm,
    fun ha hb => (Stats.le_total' ha hb).symm, fun h1 h2 => Stats.le_trans' h2 h1,
    fun h1 h2 => Stats.le_antisymm' h2 h1, Stats.le_refl'⟩

theorem isnan_iff (a : Num) : a.isnan = true ↔ a = .nan := by cases a <;> simp [Num.isnan]

/-- What the best of a list is. -/
def IsBest (le : Num → Num → Prop) (l : List Num) (m : Num) : Prop :=
  (m ∈ l ∧ m ≠ .nan ∧ ∀ v ∈ l, v ≠ .nan → le m v) ∨ (m = .nan ∧ ∀ v ∈ l, v = .nan)

theorem nanBest_isBest (ho : IsOrder better le) (l : List Num) : IsBest le l (nanBest better l) := by
  induction l with
  | nil => exact .inr ⟨rfl, by simp⟩
  | cons a l ih =>
    have e : nanBest better (a :: l) = pick better a (nanBest better l) := rfl
    rw [e]
    generalize nanBest better l = m at ih
    unfold pick
    by_cases ha : a = .nan
    · rw [if_pos ((isnan_iff a).2 ha)]
      rcases ih with ⟨h1, h2, h3⟩ | ⟨h1, h2⟩
      · refine .inl ⟨List.mem_cons_of_mem _ h1, h2, fun v hv hn => ?_⟩
        rcases List.mem_cons.1 hv with rfl | hv
        · exact absurd ha hn
        · exact h3 v hv hn
      · exact .inr ⟨h1, by simpa [ha] using h2⟩
    · rw [if_neg fun h => ha ((isnan_iff a).1 h)]
      rcases ih with ⟨h1, h2, h3⟩ | ⟨h1, h2⟩
      · rw [if_neg fun h => h2 ((isnan_iff m).1 h)]
        by_cases hb : better m a = true
        · rw [if_pos hb]
          refine .inl ⟨List.mem_cons_of_mem _ h1, h2, fun v hv hn => ?_⟩
          rcases List.mem_cons.1 hv with rfl | hv
          · exact ((ho.better_iff h2 hn).1 hb).1
          · exact h3 v hv hn
        · rw [if_neg hb]
          have hle : le a m := by
            rcases ho.total ha h2 with h | h
            · exact h
            · by_cases e : m = a
              · rw [e]; exact ho.refl ha
              · exact absurd ((ho.better_iff h2 ha).2 ⟨h, e⟩) hb
          refine .inl ⟨List.mem_cons_self, ha, fun v hv hn => ?_⟩
          rcases List.mem_cons.1 hv with rfl | hv
          · exact ho.refl ha
          · exact ho.trans hle (h3 v hv hn)
      · rw [if_pos ((isnan_iff m).2 h1)]
        refine .inl ⟨List.mem_cons_self, ha, fun v hv hn => ?_⟩
        rcases List.mem_cons.1 hv with rfl | hv
        · exact ho.refl ha
        · exact absurd (h2 v hv) hn

theorem isBest_unique (ho : IsOrder better le) {l l' : List Num} {m m' : Num} (hl : ∀ v, v ∈ l ↔ v ∈ l') (h : IsBest le l m)
    (h' : IsBest le l' m') : m = m' := by
  rcases h with ⟨h1, h2, h3⟩ | ⟨h1, h2⟩ <;> rcases h' with ⟨k1, k2, k3⟩ | ⟨k1, k2⟩
  · exact ho.antisymm (h3 _ ((hl _).2 k1) k2) (k3 _ ((hl _).1 h1) h2)
  · exact absurd (k2 _ ((hl _).1 h1)) h2
  · exact absurd (h2 _ ((hl _).2 k1)) k2
  · rw [h1, k1]

theorem handleEmpty_nil (f : List Num → Num) : handleEmpty f [] = [] := rfl

theorem handleEmpty_cons (f : List Num → Num) (a : Num) (l : List Num) : handleEmpty f (a :: l) = [f (a :: l)] := by
  unfold handleEmpty; rw [if_pos (by simp)]

/-- The best of the results of the blocks is the best of all. -/
theorem best_parts (ho : IsOrder better le) (parts : List (List Num)) :
    IsBest le parts.flatten (nanBest better (parts.map (handleEmpty (nanBest better))).flatten) := by
  induction parts with
  | nil => exact .inr ⟨rfl, by simp⟩
  | cons p parts ih =>
    rw [List.map_cons, List.flatten_cons, List.flatten_cons]
    cases p with
    | nil => exact ih
    | cons a p =>
      rw [handleEmpty_cons]
      have hp := nanBest_isBest ho (a :: p)
      generalize nanBest better (a :: p) = m at hp
      have hall := nanBest_isBest ho (m :: (parts.map (handleEmpty (nanBest better))).flatten)
      have hrest := nanBest_isBest ho (parts.map (handleEmpty (nanBest better))).flatten
      show IsBest le (a :: p ++ parts.flatten) (nanBest better (m :: (parts.map (handleEmpty (nanBest better))).flatten))
      have e : nanBest better (m :: (parts.map (handleEmpty (nanBest better))).flatten) =
        pick better m (nanBest better (parts.map (handleEmpty (nanBest better))).flatten) := rfl
      rw [e]
      generalize nanBest better (parts.map (handleEmpty (nanBest better))).flatten = q at ih
      unfold pick
      by_cases hm : m = .nan
      · rw [if_pos ((isnan_iff m).2 hm)]
        rcases hp with ⟨-, h2, -⟩ | ⟨-, hnan⟩
        · exact absurd hm h2
        · rcases ih with ⟨h1, h2, h3⟩ | ⟨h1, h2⟩
          · refine .inl ⟨List.mem_append_right _ h1, h2, fun v hv hn => ?_⟩
            rcases List.mem_append.1 hv with hv | hv
            · exact absurd (hnan v hv) hn
            · exact h3 v hv hn
          · refine .inr ⟨h1, fun v hv => ?_⟩
            rcases List.mem_append.1 hv with hv | hv
            · exact hnan v hv
            · exact h2 v hv
      · rw [if_neg fun h => hm ((isnan_iff m).1 h)]
        rcases hp with ⟨p1, -, p3⟩ | ⟨p1, -⟩
        · rcases ih with ⟨h1, h2, h3⟩ | ⟨h1, h2⟩
          · rw [if_neg fun h => h2 ((isnan_iff q).1 h)]
            by_cases hb : better q m = true
            · rw [if_pos hb]
              have hle := ((ho.better_iff h2 hm).1 hb).1
              refine .inl ⟨List.mem_append_right _ h1, h2, fun v hv hn => ?_⟩
              rcases List.mem_append.1 hv with hv | hv
              · exact ho.trans hle (p3 v hv hn)
              · exact h3 v hv hn
            · rw [if_neg hb]
              have hle : le m q := by
                rcases ho.total hm h2 with h | h
                · exact h
                · by_cases e : q = m
                  · rw [e]; exact ho.refl hm
                  · exact absurd ((ho.better_iff h2 hm).2 ⟨h, e⟩) hb
              refine .inl ⟨List.mem_append_left _ p1, hm, fun v hv hn => ?_⟩
              rcases List.mem_append.1 hv with hv | hv
              · exact p3 v hv hn
              · exact ho.trans hle (h3 v hv hn)
          · rw [if_pos ((isnan_iff q).2 h1)]
            refine .inl ⟨List.mem_append_left _ p1, hm, fun v hv hn => ?_⟩
            rcases List.mem_append.1 hv with hv | hv
            · exact p3 v hv hn
            · exact absurd (h2 v hv) hn
        · exact absurd p1 hm

theorem parts_empty (f : List Num → Num) (parts : List (List Num)) :
    (parts.map (handleEmpty f)).flatten = [] ↔ parts.flatten = [] := by
  induction parts with
  | nil => simp
  | cons p parts ih =>
    rw [List.map_cons, List.flatten_cons, List.flatten_cons, List.append_eq_nil_iff, List.append_eq_nil_iff, ih]
    cases p with
    | nil => simp [handleEmpty_nil]
    | cons a p => simp [handleEmpty_cons]

theorem handleEmpty_parts (ho : IsOrder better le) (parts : List (List Num)) :
    handleEmpty (nanBest better) (parts.map (handleEmpty (nanBest better))).flatten =
      handleEmpty (nanBest better) parts.flatten := by
  unfold handleEmpty
  have he := parts_empty (nanBest better) parts
  by_cases h : parts.flatten = []
  · have h' := he.2 h
    unfold handleEmpty at h'
    rw [h, h']
  · have h' := fun e => h (he.1 e)
    have hb := isBest_unique ho (fun _ => Iff.rfl) (best_parts ho parts) (nanBest_isBest ho parts.flatten)
    unfold handleEmpty at h' hb
    rw [if_pos (List.length_pos_iff.2 h), if_pos (List.length_pos_iff.2 h'), hb]

end Best

/-! ### Valid cells -/

theorem mem_validValues (r : Raster) (v : Num) : v ∈ validValues r ↔ Spec.Valid r v := by
  unfold validValues Spec.Valid
  simp only [List.mem_flatMap, List.mem_map, List.mem_filter, List.mem_range, Bool.not_eq_true', Raster.Has]
  constructor
  · rintro ⟨b, hb, y, hy, x, ⟨hx, hm⟩, rfl⟩; exact ⟨(b, y, x), ⟨hb, hy, hx⟩, hm, rfl⟩
  · rintro ⟨⟨b, y, x⟩, ⟨hb, hy, hx⟩, hm, rfl⟩; exact ⟨b, hb, y, hy, x, ⟨hx, hm⟩, rfl⟩

/-- What `min` and `max` give, for the order that decides. -/
theorem best_of_raster {better : Num → Num → Bool} {le : Num → Num → Prop} (ho : IsOrder better le) {r : Raster}
    {blocks : List (List Num)} (hb : Spec.BlocksOf r blocks) (ks : List Nat) :
    let res := treeReduce (handleEmpty (nanBest better)) (handleEmpty (nanBest better)) ks blocks
    ((¬∃ v, Spec.Valid r v) → res = []) ∧
    ((∃ v, Spec.Valid r v) → (∀ v, Spec.Valid r v → v = .nan) → res = [.nan]) ∧
    ((∃ v, Spec.Valid r v ∧ v ≠ .nan) → ∃ m, res = [m] ∧ Spec.Valid r m ∧ m ≠ .nan ∧
      ∀ v, Spec.Valid r v → v ≠ .nan → le m v) := by
  intro res
  have hres : res = handleEmpty (nanBest better) blocks.flatten :=
    treeReduce_eq (handleEmpty_parts ho) (handleEmpty_parts ho) ks blocks
  have hmem : ∀ v, v ∈ blocks.flatten ↔ Spec.Valid r v := fun v => (hb.mem_iff).trans (mem_validValues r v)
  have hbest := nanBest_isBest ho blocks.flatten
  have hne : (∃ v, Spec.Valid r v) → res = [nanBest better blocks.flatten] := by
    rintro ⟨v, hv⟩
    rw [hres]
    unfold handleEmpty
    rw [if_pos (List.length_pos_iff.2 (List.ne_nil_of_mem ((hmem v).2 hv)))]
  refine ⟨fun h => ?_, fun h h' => ?_, fun h => ?_⟩
  · have : blocks.flatten = [] := by
      rw [List.eq_nil_iff_forall_not_mem]
      exact fun v hv => h ⟨v, (hmem v).1 hv⟩
    rw [hres, this]; rfl
  · rw [hne h]
    rcases hbest with ⟨h1, h2, -⟩ | ⟨h1, -⟩
    · exact absurd (h' _ ((hmem _).1 h1)) h2
    · rw [h1]
  · obtain ⟨v, hv, hvn⟩ := h
    refine ⟨_, hne ⟨v, hv⟩, ?_⟩
    rcases hbest with ⟨h1, h2, h3⟩ | ⟨h1, h2⟩
    · exact ⟨(hmem _).1 h1, h2, fun w hw hn => h3 w ((hmem w).2 hw) hn⟩
    · exact absurd (h2 v ((hmem v).2 hv)) hvn

/-- **C62 (min).** `raster.min()` is the least value of all cells that are not null, NaN aside; NaN if they are all NaN; an empty
array if there are none.  It does not depend on the blocks, their order, empty blocks and the order of combination. -/
theorem C62_min {r : Raster} {blocks : List (List Num)} (hb : Spec.BlocksOf r blocks) (ks : List Nat) :
    ((¬∃ v, Spec.Valid r v) → daskNanmin ks blocks = []) ∧
    ((∃ v, Spec.Valid r v) → (∀ v, Spec.Valid r v → v = .nan) → daskNanmin ks blocks = [.nan]) ∧
    ((∃ v, Spec.Valid r v ∧ v ≠ .nan) → ∃ m, daskNanmin ks blocks = [m] ∧ Spec.Valid r m ∧ m ≠ .nan ∧
      ∀ v, Spec.Valid r v → v ≠ .nan → Stats.Spec.Le m v) :=
  best_of_raster minOrder hb ks

/-- **C62 (max).** The same for the greatest value. -/
theorem C62_max {r : Raster} {blocks : List (List Num)} (hb : Spec.BlocksOf r blocks) (ks : List Nat) :
    ((¬∃ v, Spec.Valid r v) → daskNanmax ks blocks = []) ∧
    ((∃ v, Spec.Valid r v) → (∀ v, Spec.Valid r v → v = .nan) → daskNanmax ks blocks = [.nan]) ∧
    ((∃ v, Spec.Valid r v ∧ v ≠ .nan) → ∃ m, daskNanmax ks blocks = [m] ∧ Spec.Valid r m ∧ m ≠ .nan ∧
      ∀ v, Spec.Valid r v → v ≠ .nan → Stats.Spec.Le v m) :=
  best_of_raster maxOrder hb ks

/-! ### Sums -/

theorem add_comm' (a b : Num) : add a b = add b a := by
  cases a <;> cases b <;> simp [add, _root_.add_comm]

theorem add_assoc' (a b c : Num) : add (add a b) c = add a (add b c) := by
  cases a <;> cases b <;> cases c <;> simp [add, _root_.add_assoc]

theorem zero_add' (a : Num) : add (.fin 0) a = a := by cases a <;> simp [add]

theorem sum_append (l l' : List Num) : sum (l ++ l') = add (sum l) (sum l') := by
  induction l with
  | nil => exact (zero_add' _).symm
  | cons a l ih =>
    show add a (sum (l ++ l')) = add (add a (sum l)) (sum l')
    rw [ih, add_assoc']

theorem sum_flatten (parts : List (List Num)) : sum (parts.map sum) = sum parts.flatten := by
  induction parts with
  | nil => rfl
  | cons p parts ih =>
    rw [List.flatten_cons, sum_append, ← ih]; rfl

theorem sum_perm {l l' : List Num} (h : l.Perm l') : sum l = sum l' := by
  induction h with
  | nil => rfl
  | cons a _ ih => exact congrArg (add a) ih
  | swap a b l =>
    show add b (add a (sum l)) = add a (add b (sum l))
    rw [← add_assoc', ← add_assoc', add_comm' b a]
  | trans _ _ ih1 ih2 => exact ih1.trans ih2

/-- NaN counts as 0. -/
def orZero (v : Num) : Num := if v.isnan then .fin 0 else v

theorem nansum_eq (l : List Num) : nansum l = sum (l.map orZero) := rfl

theorem flatten_singletons {α β : Type} (f : α → β) (l : List α) : (l.map fun a => [f a]).flatten = l.map f := by
  induction l with
  | nil => rfl
  | cons a l ih => rw [List.map_cons, List.flatten_cons, ih]; rfl

theorem daskNansum_eq (ks : List Nat) (blocks : List (List Num)) : daskNansum ks blocks = [nansum blocks.flatten] := by
  refine treeReduce_eq (whole := fun l => [nansum l]) ?_ ?_ ks blocks
  · intro parts
    rw [flatten_singletons, sum_flatten]
  · intro bl
    rw [flatten_singletons]
    have : bl.map nansum = (bl.map fun l => l.map orZero).map sum := by
      rw [List.map_map]; rfl
    rw [this, sum_flatten, nansum_eq, List.map_flatten]

theorem sum_fin (l : List Rat) : sum (l.map .fin) = .fin l.sum := by
  induction l with
  | nil => rfl
  | cons a l ih =>
    show add (.fin a) (sum (l.map .fin)) = _
    rw [ih, List.sum_cons]; rfl

/-- Lists over the cells and sums over the cells. -/
theorem list_total {M : Type} [AddCommMonoid M] (r : Raster) (g : Num → M) :
    ((validValues r).map g).sum = Spec.total r fun c => if r.mask c = false then g (r.data c) else 0 := by
  have hsum : ∀ {A : Type} (l : List A) (p : A → Bool) (f : A → M),
      ((l.filter p).map f).sum = (l.map fun a => if p a = true then f a else 0).sum := by
    intro A l p f
    induction l with
    | nil => rfl
    | cons a l ih =>
      by_cases h : p a = true
      · rw [List.filter_cons_of_pos h, List.map_cons, List.sum_cons, ih, List.map_cons, List.sum_cons, if_pos h]
      · rw [List.filter_cons_of_neg h, ih, List.map_cons, List.sum_cons, if_neg h, zero_add]
  have hrange : ∀ (n : Nat) (f : Nat → M), ((List.range n).map f).sum = ∑ i ∈ Finset.range n, f i := by
    intro n f
    induction n with
    | zero => rfl
    | succ n ih => rw [List.range_succ, List.map_append, List.sum_append, ih, Finset.sum_range_succ]; simp
  have hflat : ∀ {A : Type} (l : List A) (f : A → List Num), ((l.flatMap f).map g).sum = (l.map fun a => ((f a).map g).sum).sum := by
    intro A l f
    induction l with
    | nil => rfl
    | cons a l ih => rw [List.flatMap_cons, List.map_append, List.sum_append, ih, List.map_cons, List.sum_cons]
  unfold validValues Spec.total
  rw [hflat, hrange]
  refine Finset.sum_congr rfl fun b _ => ?_
  rw [hflat, hrange]
  refine Finset.sum_congr rfl fun y _ => ?_
  rw [List.map_map, hsum, hrange]
  refine Finset.sum_congr rfl fun x _ => ?_
  simp

theorem total_congr {M : Type} [AddCommMonoid M] {r : Raster} {f g : Cell → M} (h : ∀ c, r.Has c → f c = g c) :
    Spec.total r f = Spec.total r g := by
  unfold Spec.total
  refine Finset.sum_congr rfl fun b hb => Finset.sum_congr rfl fun y hy => Finset.sum_congr rfl fun x hx => ?_
  exact h (b, y, x) ⟨Finset.mem_range.1 hb, Finset.mem_range.1 hy, Finset.mem_range.1 hx⟩

/-- The number that a value adds. -/
def part : Num → Rat
  | .fin q => q
  | _ => 0

theorem nansum_fin {l : List Num} (h : ∀ v ∈ l, v = .nan ∨ ∃ q, v = .fin q) : nansum l = .fin (l.map part).sum := by
  rw [nansum_eq, ← sum_fin, List.map_map]
  congr 1
  refine List.map_congr_left fun v hv => ?_
  rcases h v hv with rfl | ⟨q, rfl⟩ <;> rfl

theorem nansum_perm {l l' : List Num} (h : l.Perm l') : nansum l = nansum l' := by
  rw [nansum_eq, nansum_eq]; exact sum_perm (h.map _)

theorem nansum_raster {r : Raster} {q : Cell → Rat}
    (hq : ∀ c, r.Has c → r.mask c = false → r.data c = .fin (q c) ∨ (r.data c = .nan ∧ q c = 0)) :
    nansum (validValues r) = .fin (Spec.total r fun c => if r.mask c = false then q c else 0) := by
  rw [nansum_fin, list_total]
  · congr 1
    refine total_congr fun c hc => ?_
    by_cases hm : r.mask c = false
    · rw [if_pos hm, if_pos hm]
      rcases hq c hc hm with h | ⟨h, h'⟩
      · rw [h]; rfl
      · rw [h, h']; rfl
    · rw [if_neg hm, if_neg hm]
  · intro v hv
    obtain ⟨c, hc, hm, rfl⟩ := (mem_validValues r v).1 hv
    rcases hq c hc hm with h | ⟨h, -⟩
    · exact .inr ⟨_, h⟩
    · exact .inl h

/-- **C62 (sum).** `raster.sum()` is the sum of the values of the cells that are not null; NaN counts as 0.  It does not depend on the
blocks and on the order of combination (in exact arithmetic). -/
theorem C62_sum {r : Raster} {blocks : List (List Num)} (hb : Spec.BlocksOf r blocks) (ks : List Nat) {q : Cell → Rat}
    (hq : ∀ c, r.Has c → r.mask c = false → r.data c = .fin (q c) ∨ (r.data c = .nan ∧ q c = 0)) :
    daskNansum ks blocks = [.fin (Spec.total r fun c => if r.mask c = false then q c else 0)] := by
  rw [daskNansum_eq, nansum_perm hb, nansum_raster hq]

/-- **C62 (sum, infinite).** With a valid positive infinity and no negative one, or the other way round, the sum is that infinity; with
both it is NaN. -/
theorem C62_sum_infinite {r : Raster} {blocks : List (List Num)} (hb : Spec.BlocksOf r blocks) (ks : List Nat) :
    (Spec.Valid r .posInf → ¬Spec.Valid r .negInf → daskNansum ks blocks = [.posInf]) ∧
    (Spec.Valid r .negInf → ¬Spec.Valid r .posInf → daskNansum ks blocks = [.negInf]) ∧
    (Spec.Valid r .posInf → Spec.Valid r .negInf → daskNansum ks blocks = [.nan]) := by
  have key : ∀ l : List Num,
      nansum l = if (FVal.posInf : Num) ∈ l then (if (FVal.negInf : Num) ∈ l then .nan else .posInf)
        else (if (FVal.negInf : Num) ∈ l then .negInf else .fin (l.map part).sum) := by
    intro l
    induction l with
    | nil => rfl
    | cons a l ih =>
      have e : nansum (a :: l) = add (orZero a) (nansum l) := rfl
      rw [e, ih]
      cases a <;> by_cases h1 : (FVal.posInf : Num) ∈ l <;> by_cases h2 : (FVal.negInf : Num) ∈ l <;>
        simp [h1, h2, orZero, Num.isnan, add, part]
  have hmem : ∀ v, v ∈ blocks.flatten ↔ Spec.Valid r v := fun v => (hb.mem_iff).trans (mem_validValues r v)
  rw [daskNansum_eq, key]
  refine ⟨fun h1 h2 => ?_, fun h1 h2 => ?_, fun h1 h2 => ?_⟩
  · rw [if_pos ((hmem _).2 h1), if_neg fun h => h2 ((hmem _).1 h)]
  · rw [if_neg fun h => h2 ((hmem _).1 h), if_pos ((hmem _).2 h1)]
  · rw [if_pos ((hmem _).2 h1), if_pos ((hmem _).2 h2)]

/-! ### The mean -/

theorem countNums_append (l l' : List Num) :
    ((l ++ l').filter fun v => !v.isnan).length = (l.filter fun v => !v.isnan).length + (l'.filter fun v => !v.isnan).length := by
  rw [List.filter_append, List.length_append]

theorem meanCombine_append (l l' : List (Num × Nat)) :
    meanCombine (l ++ l') = (add (meanCombine l).1 (meanCombine l').1, (meanCombine l).2 + (meanCombine l').2) := by
  unfold meanCombine
  rw [List.map_append, List.map_append, sum_append, List.sum_append]

theorem meanCombine_cons (p : Num × Nat) (l : List (Num × Nat)) :
    meanCombine (p :: l) = (add p.1 (meanCombine l).1, p.2 + (meanCombine l).2) := by
  unfold meanCombine
  rw [List.map_cons, List.map_cons, List.sum_cons]; rfl

theorem daskNanmean_eq (ks : List Nat) (blocks : List (List Num)) :
    daskNanmean ks blocks = [divide (nansum blocks.flatten) (blocks.flatten.filter fun v => !v.isnan).length] := by
  unfold daskNanmean
  rw [treeReduce_eq (whole := fun l => [meanChunk l])]
  · rfl
  · intro parts
    rw [flatten_singletons]
    congr 1
    induction parts with
    | nil => rfl
    | cons p parts ih => rw [List.map_cons, meanCombine_cons, ih, List.flatten_cons, meanCombine_append]
  · intro bl
    rw [flatten_singletons]
    congr 1
    induction bl with
    | nil => rfl
    | cons p bl ih =>
      rw [List.map_cons, meanCombine_cons, ih, List.flatten_cons]
      unfold meanChunk
      rw [countNums_append, nansum_eq, nansum_eq, nansum_eq, List.map_append, sum_append]

theorem filter_length_sum (l : List Num) (p : Num → Bool) : (l.filter p).length = (l.map fun v => if p v = true then 1 else 0).sum := by
  induction l with
  | nil => rfl
  | cons a l ih =>
    by_cases h : p a = true
    · rw [List.filter_cons_of_pos h, List.length_cons, ih, List.map_cons, List.sum_cons, if_pos h, Nat.add_comm]
    · rw [List.filter_cons_of_neg h, ih, List.map_cons, List.sum_cons, if_neg h, Nat.zero_add]

theorem count_raster (r : Raster) : ((validValues r).filter fun v => !v.isnan).length = Spec.count r := by
  rw [filter_length_sum, list_total]
  unfold Spec.count
  refine total_congr fun c _ => ?_
  have := isnan_iff (r.data c)
  by_cases hm : r.mask c = false
  · by_cases hn : r.data c = .nan
    · rw [if_pos hm, if_neg (by rw [this.2 hn]; decide), if_neg fun h => h.2 hn]
    · rw [if_pos hm, if_pos (by rw [Bool.not_eq_true', Bool.eq_false_iff]; exact fun h => hn (this.1 h)), if_pos ⟨hm, hn⟩]
  · rw [if_neg hm, if_neg fun h => hm h.1]

/-- **C62 (mean).** `raster.mean()` is the sum of the valid numbers divided by how many there are, and NaN if there are none. -/
theorem C62_mean {r : Raster} {blocks : List (List Num)} (hb : Spec.BlocksOf r blocks) (ks : List Nat) {q : Cell → Rat}
    (hq : ∀ c, r.Has c → r.mask c = false → r.data c = .fin (q c) ∨ (r.data c = .nan ∧ q c = 0)) :
    daskNanmean ks blocks = [if Spec.count r = 0 then .nan
      else .fin ((Spec.total r fun c => if r.mask c = false then q c else 0) / Spec.count r)] := by
  rw [daskNanmean_eq, nansum_perm hb, nansum_raster hq, (hb.filter _).length_eq, count_raster]
  by_cases h : Spec.count r = 0
  · rw [if_pos h, h]
    have hz : (Spec.total r fun c => if r.mask c = false then q c else 0) = 0 := by
      have hno : ∀ c, r.Has c → ¬(r.mask c = false ∧ r.data c ≠ .nan) := by
        intro c hc hn
        have hmem : r.data c ∈ (validValues r).filter fun v => !v.isnan := by
          rw [List.mem_filter]
          refine ⟨(mem_validValues r _).2 ⟨c, hc, hn.1, rfl⟩, ?_⟩
          rw [Bool.not_eq_true', Bool.eq_false_iff]; exact fun h => hn.2 ((isnan_iff _).1 h)
        have := List.length_pos_of_mem hmem
        rw [count_raster, h] at this
        exact absurd this (lt_irrefl _)
      rw [total_congr (g := fun _ => 0)]
      · unfold Spec.total; simp
      · intro c hc
        by_cases hm : r.mask c = false
        · rw [if_pos hm]
          rcases hq c hc hm with h' | ⟨-, h'⟩
          · exact absurd ⟨hm, by rw [h']; exact nofun⟩ (hno c hc)
          · exact h'
        · rw [if_neg hm]
    rw [hz]; rfl
  · rw [if_neg h]
    obtain ⟨n, hn⟩ := Nat.exists_eq_succ_of_ne_zero h
    rw [hn]; rfl

/-! ### All and any -/

theorem truthy_iff (v : Num) : truthy v = true ↔ v ≠ .fin 0 := by
  unfold truthy
  rw [Bool.not_eq_true', Bool.eq_false_iff, Ne, Nulls.Num.eq_iff]
  constructor
  · exact fun h e => h ⟨e, by rw [e]; exact nofun⟩
  · exact fun h e => h e.1

theorem daskAll_eq (ks : List Nat) (blocks : List (List Num)) : daskAll ks blocks = [blocks.flatten.all truthy] := by
  refine treeReduce_eq (whole := fun l => [l.all truthy]) ?_ ?_ ks blocks
  · intro parts
    rw [flatten_singletons]
    congr 1
    induction parts with
    | nil => rfl
    | cons p parts ih => rw [List.map_cons, List.all_cons, ih, List.flatten_cons, List.all_append]; rfl
  · intro bl
    rw [flatten_singletons]
    congr 1
    induction bl with
    | nil => rfl
    | cons p bl ih => rw [List.map_cons, List.all_cons, ih, List.flatten_cons, List.all_append]; rfl

theorem daskAny_eq (ks : List Nat) (blocks : List (List Num)) : daskAny ks blocks = [blocks.flatten.any truthy] := by
  refine treeReduce_eq (whole := fun l => [l.any truthy]) ?_ ?_ ks blocks
  · intro parts
    rw [flatten_singletons]
    congr 1
    induction parts with
    | nil => rfl
    | cons p parts ih => rw [List.map_cons, List.any_cons, ih, List.flatten_cons, List.any_append]; rfl
  · intro bl
    rw [flatten_singletons]
    congr 1
    induction bl with
    | nil => rfl
    | cons p bl ih => rw [List.map_cons, List.any_cons, ih, List.flatten_cons, List.any_append]; rfl

/-- **C62 (all, any).** `raster.all()` is true iff no valid cell is 0, and `raster.any()` iff some valid cell is not 0 (NaN is not 0);
without valid cells they are true and false. -/
theorem C62_all_any {r : Raster} {blocks : List (List Num)} (hb : Spec.BlocksOf r blocks) (ks : List Nat) :
    (∃ p, daskAll ks blocks = [p] ∧ (p = true ↔ ∀ v, Spec.Valid r v → v ≠ .fin 0)) ∧
    (∃ p, daskAny ks blocks = [p] ∧ (p = true ↔ ∃ v, Spec.Valid r v ∧ v ≠ .fin 0)) := by
  have hmem : ∀ v, v ∈ blocks.flatten ↔ Spec.Valid r v := fun v => (hb.mem_iff).trans (mem_validValues r v)
  refine ⟨⟨_, daskAll_eq ks blocks, ?_⟩, ⟨_, daskAny_eq ks blocks, ?_⟩⟩
  · rw [List.all_eq_true]
    exact ⟨fun h v hv => (truthy_iff v).1 (h v ((hmem v).2 hv)), fun h v hv => (truthy_iff v).2 (h v ((hmem v).1 hv))⟩
  · rw [List.any_eq_true]
    exact ⟨fun ⟨v, hv, h⟩ => ⟨v, (hmem v).1 hv, (truthy_iff v).1 h⟩, fun ⟨v, hv, h⟩ => ⟨v, (hmem v).2 hv, (truthy_iff v).2 h⟩⟩

/-! ### Cases that meet the hypotheses -/

/-- Two rows: 3, null, NaN and -2, 5, 0. -/
def sample : Raster :=
  { dtype := .f64
    nb := 1
    ny := 2
    nx := 3
    data := fun c => if c = (0, 0, 0) then .fin 3 else if c = (0, 0, 2) then .nan else if c = (0, 1, 0) then .fin (-2)
      else if c = (0, 1, 1) then .fin 5 else if c = (0, 1, 2) then .fin 0 else .fin (-99)
    mask := fun c => c = (0, 0, 1)
    nv := some ⟨.f64, .fin (-99)⟩ }

def sampleBlocks : List (List Num) := [[.fin 5, .fin 0], [], [.fin 3], [.nan, .fin (-2)]]

example : Spec.BlocksOf sample sampleBlocks := by unfold Spec.BlocksOf; decide +kernel

example : ∀ c, sample.Has c → sample.mask c = false →
    sample.data c = .fin (if sample.data c = .nan then 0 else part (sample.data c)) ∨
      (sample.data c = .nan ∧ (if sample.data c = .nan then (0 : Rat) else part (sample.data c)) = 0) := by
  intro c _ _
  unfold sample
  simp only
  split_ifs <;> simp_all [part]

example : daskNanmin [2, 2] sampleBlocks = [.fin (-2)] ∧ daskNanmax [3] sampleBlocks = [.fin 5] ∧
    daskNansum [2] sampleBlocks = [.fin 6] ∧ daskNanmean [2] sampleBlocks = [.fin (3 / 2)] ∧
    daskAll [2] sampleBlocks = [false] ∧ daskAny [] sampleBlocks = [true] := by decide +kernel

end Verif.Whole
