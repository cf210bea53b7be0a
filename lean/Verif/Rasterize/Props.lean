import Verif.Rasterize.Model
import Verif.Stats.Props
import Verif.Nulls.RasterProps
import Mathlib.Data.List.Sort

/-!
# Properties of `rasterize`: C33
-/

set_option linter.unusedSectionVars false

namespace Verif.Rasterize

open Verif Verif.Nulls DType
open Verif.Stats.Spec (Le)

variable {G : Type}

namespace Spec

/-- One more than a number. -/
def oneMore : Num → Num
  | .fin a => .fin (1 + a)
  | .posInf => .posInf
  | .negInf => .negInf
  | .nan => .nan

/-- The value a feature is burned with: that of the field, or index + 1. -/
def burnValue (useIndex : Bool) (f : Feature G) : Num := if useIndex then oneMore f.value else f.value

/-- The values of the features that touch the cell, in the order of the table. -/
def touching (like : Like G) (useIndex : Bool) (features : List (Feature G)) (p : Pos) : List Num :=
  (features.filter fun f => !f.empty && like.touch f.geom p).map (burnValue useIndex)

/-- The value a method selects from the values of overlapping features. -/
def Picks : Method → List Num → Num → Prop
  | .first, l, v => l.head? = some v
  | .last, l, v => l.getLast? = some v
  | .min, l, v => v ∈ l ∧ ∀ w ∈ l, Le v w
  | .max, l, v => v ∈ l ∧ ∀ w ∈ l, Le w v

/-- What pandas and geopandas promise. -/
structure Lawful (ext : Ext G) (like : Like G) : Prop where
  clip : ∀ box l, (ext.clip like box l).Perm (l.filter fun e => like.keeps e.2.geom box)
  sortIdx : ∀ l, (ext.sortIdx l).Perm l ∧ (ext.sortIdx l).Pairwise fun a b => a.1 ≤ b.1
  sortAsc : ∀ l, (ext.sortAsc l).Perm l ∧ (ext.sortAsc l).Pairwise fun a b => a.value = .nan ∨ Le a.value b.value
  sortDesc : ∀ l, (ext.sortDesc l).Perm l ∧ (ext.sortDesc l).Pairwise fun a b => a.value = .nan ∨ Le b.value a.value

/-- The cell `q` of chunk `i`, `j` in the coordinates of the raster. -/
def cellOf (like : Like G) (i j : Nat) (q : Pos) : Pos :=
  ((like.ychunks.take i).sum + q.1, (like.xchunks.take j).sum + q.2)

/-- `q` is a cell of chunk `i`, `j`. -/
def InChunk (like : Like G) (i j : Nat) (q : Pos) : Prop :=
  (∃ h, like.ychunks[i]? = some h ∧ q.1 < h) ∧ ∃ w, like.xchunks[j]? = some w ∧ q.2 < w

/-- The boxes are those of the geometries: a geometry that touches a cell of a chunk meets the box of the chunk, with
its own box and after clipping; the box of the raster meets those of the chunks. -/
structure Geometric (like : Like G) : Prop where
  touch : ∀ g i j q, InChunk like i j q → like.touch g (cellOf like i j q) = true →
    like.keeps g (like.chunkBox i j) = true ∧ (like.chunkBox i j).meets (like.bounds g) = true
  chunks : ∀ i j, i < like.ychunks.length → j < like.xchunks.length → like.box.meets (like.chunkBox i j) = true

/-- Every chunk has at least two rows and two columns. -/
def TwoByTwo (like : Like G) : Prop := (∀ c ∈ like.ychunks, 2 ≤ c) ∧ ∀ c ∈ like.xchunks, 2 ≤ c

/-- The spatial partitions cover their features. -/
def Covers (like : Like G) (parts : List (List (Feature G))) (regions : List Region) : Prop :=
  regions.length = parts.length ∧
  ∀ e ∈ parts.zip regions, ∀ f ∈ e.1, f.empty = false → ∀ i j q, InChunk like i j q →
    like.touch f.geom (cellOf like i j q) = true → e.2 (like.chunkBox i j) = true

end Spec

open Spec

/-! ### One partition -/

theorem burn_eq (touch : G → Pos → Bool) (fill : Num) (p : Pos) : ∀ shapes : List (G × Num),
    rioRasterize touch fill shapes p = (((shapes.filter fun s => touch s.1 p).map (·.2)).getLast?).getD fill := by
  intro shapes
  unfold rioRasterize
  induction shapes using List.reverseRecOn with
  | nil => rfl
  | append_singleton l s ih =>
    rw [List.foldl_append, List.foldl_cons, List.foldl_nil, List.filter_append]
    by_cases h : touch s.1 p = true
    · rw [if_pos h, List.filter_cons_of_pos (p := fun s : G × Num => touch s.1 p) h]
      simp
    · rw [if_neg h, ih, List.filter_cons_of_neg (p := fun s : G × Num => touch s.1 p) h]
      simp

theorem sorted_unique {l m : List (Nat × Feature G)} (hp : l.Perm m) (hl : l.Pairwise fun a b => a.1 ≤ b.1)
    (hm : m.Pairwise fun a b => a.1 < b.1) : l = m := by
  have hnd : (m.map (·.1)).Nodup := by
    rw [List.nodup_iff_pairwise_ne, List.pairwise_map]
    exact hm.imp fun h => Nat.ne_of_lt h
  have hnd' : (l.map (·.1)).Nodup := (hp.map _).symm.nodup hnd
  have hl' : l.Pairwise fun a b => a.1 < b.1 := by
    have h2 : l.Pairwise fun a b => a.1 ≠ b.1 := List.pairwise_map.mp (List.nodup_iff_pairwise_ne.mp hnd')
    exact (hl.and h2).imp fun h => Nat.lt_of_le_of_ne h.1 h.2
  exact hp.eq_of_pairwise (fun a b _ _ h1 h2 => absurd h1 (Nat.lt_asymm h2)) hl' hm

theorem numbered_pairwise (fs : List (Feature G)) : (numbered fs).Pairwise fun a b => a.1 < b.1 := by
  have : ∀ (fs : List (Feature G)) (s : Nat), ((List.range' s fs.length).zip fs).Pairwise fun a b => a.1 < b.1 := by
    intro fs
    induction fs with
    | nil => intro s; simp
    | cons f fs ih =>
      intro s
      rw [List.length_cons, List.range'_succ, List.zip_cons_cons, List.pairwise_cons]
      refine ⟨?_, ih (s + 1)⟩
      intro e he
      have := (List.of_mem_zip he).1
      rw [List.mem_range'_1] at this
      exact this.1
  unfold numbered
  rw [List.range_eq_range']
  exact this fs 0

theorem numbered_snd (fs : List (Feature G)) : (numbered fs).map (·.2) = fs := by
  unfold numbered
  rw [List.map_snd_zip (by simp)]

/-- Clipping and restoring the order. -/
theorem clipped_eq {ext : Ext G} {like : Like G} (h : Lawful ext like) (box : Box) (fs : List (Feature G)) :
    (ext.sortIdx (ext.clip like box (numbered fs))).map (·.2) = fs.filter fun f => like.keeps f.geom box := by
  have e : ext.sortIdx (ext.clip like box (numbered fs)) = (numbered fs).filter fun e => like.keeps e.2.geom box :=
    sorted_unique ((h.sortIdx _).1.trans (h.clip box _)) (h.sortIdx _).2 ((numbered_pairwise fs).filter _)
  rw [e]
  conv => rhs; rw [← numbered_snd fs, List.filter_map]
  rfl

theorem meets_iff (a b : Box) : a.meets b = true ↔ a.x0 ≤ b.x1 ∧ b.x0 ≤ a.x1 ∧ a.y0 ≤ b.y1 ∧ b.y0 ≤ a.y1 := by
  simp [Box.meets, and_assoc]

theorem meets_total {like : Like G} {box : Box} {fs : List (Feature G)} {f : Feature G} (hf : f ∈ fs)
    (h : box.meets (like.bounds f.geom) = true) : ∃ b, totalBounds like fs = some b ∧ box.meets b = true := by
  have key : ∀ (fs : List (Feature G)) (b : Box),
      ((box.meets b = true ∨ ∃ f ∈ fs, box.meets (like.bounds f.geom) = true) →
        box.meets (fs.foldl (fun b g => b.union (like.bounds g.geom)) b) = true) := by
    intro fs
    induction fs with
    | nil => rintro b (h | ⟨f, hf, _⟩); exacts [h, nomatch hf]
    | cons g fs ih =>
      intro b hb
      rw [List.foldl_cons]
      apply ih
      have hun : box.meets b = true ∨ box.meets (like.bounds g.geom) = true →
          box.meets (b.union (like.bounds g.geom)) = true := by
        rw [meets_iff, meets_iff, meets_iff]
        simp only [Box.union]
        rintro (⟨h1, h2, h3, h4⟩ | ⟨h1, h2, h3, h4⟩)
        · exact ⟨le_trans h1 (le_max_left _ _), le_trans (min_le_left _ _) h2, le_trans h3 (le_max_left _ _),
            le_trans (min_le_left _ _) h4⟩
        · exact ⟨le_trans h1 (le_max_right _ _), le_trans (min_le_right _ _) h2, le_trans h3 (le_max_right _ _),
            le_trans (min_le_right _ _) h4⟩
      rcases hb with hb | ⟨f, hf, hb⟩
      · exact Or.inl (hun (Or.inl hb))
      · rcases List.mem_cons.mp hf with rfl | hf
        · exact Or.inl (hun (Or.inr hb))
        · exact Or.inr ⟨f, hf, hb⟩
  cases fs with
  | nil => cases hf
  | cons g fs =>
    refine ⟨_, rfl, key fs _ ?_⟩
    rcases List.mem_cons.mp hf with rfl | hf
    · exact Or.inl h
    · exact Or.inr ⟨f, hf, h⟩

/-- The value at a cell is the one selected from the list of touching features, or the fill. -/
def Right (method : Method) (fill : Num) (l : List Num) (v : Num) : Prop :=
  (l = [] → v = fill) ∧ (l ≠ [] → Picks method l v)

/-- What is assumed of the values. -/
structure Values (np : NumPy) (s64 : Bool) (dt : DType) (fill : Num) (method : Method) (useIndex : Bool)
    (features : List (Feature G)) : Prop where
  fillNotNan : fill ≠ .nan
  fillCast : np.cast dt fill = fill
  fillRio : viaRio np s64 dt fill = fill
  rio : ∀ f ∈ features, viaRio np s64 dt (burnValue useIndex f) = burnValue useIndex f
  notFill : ∀ f ∈ features, burnValue useIndex f ≠ fill
  notNan : (method = .min ∨ method = .max) → ∀ f ∈ features, f.value ≠ .nan

theorem addOne_eq (a : Num) : addOne a = oneMore a := by
  cases a with
  | fin a => show FVal.fin (a + 1) = FVal.fin (1 + a); rw [add_comm]
  | posInf => rfl
  | negInf => rfl
  | nan => rfl

theorem oneMore_le {a b : Num} (h : Le a b) : Le (oneMore a) (oneMore b) := by
  cases a <;> cases b <;> simp_all [Le, oneMore]

theorem oneMore_nan {a : Num} (h : a ≠ .nan) : oneMore a ≠ .nan := by
  cases a <;> simp_all [oneMore]

theorem burnValue_le {u : Bool} {f g : Feature G} (h : Le f.value g.value) : Le (burnValue u f) (burnValue u g) := by
  cases u
  · exact h
  · exact oneMore_le h

theorem picks_of_order {ext : Ext G} {like : Like G} (hext : Lawful ext like) {method : Method} {u : Bool}
    {fs : List (Feature G)} (hnan : (method = .min ∨ method = .max) → ∀ f ∈ fs, f.value ≠ .nan)
    (sel : Feature G → Bool) :
    let l := (fs.filter sel).map (burnValue u)
    let m := ((orderFor ext method fs).filter sel).map (burnValue u)
    (l = [] ↔ m = []) ∧ ∀ v, m.getLast? = some v → Picks method l v := by
  have hle : ∀ {f : Feature G}, f.value ≠ .nan → Le (burnValue u f) (burnValue u f) :=
    fun h => burnValue_le (Stats.le_refl' h)
  cases method with
  | first =>
    simp only [orderFor, List.filter_reverse, List.map_reverse, List.reverse_eq_nil_iff, true_and, List.getLast?_reverse]
    exact fun v hv => hv
  | last =>
    simp only [orderFor, true_and]
    exact fun v hv => hv
  | min =>
    obtain ⟨h1, h2⟩ := hext.sortDesc fs
    have hp : ((ext.sortDesc fs).filter sel).Perm (fs.filter sel) := h1.filter sel
    have hs := h2.filter sel
    simp only [orderFor, List.map_eq_nil_iff]
    refine ⟨⟨fun h => ?_, fun h => ?_⟩, ?_⟩
    · rw [h] at hp; exact List.perm_nil.mp hp
    · rw [h] at hp; exact List.nil_perm.mp hp
    · intro v hv
      rw [List.getLast?_map] at hv
      obtain ⟨e, he, rfl⟩ := Option.map_eq_some_iff.mp hv
      obtain ⟨init, hi⟩ := List.getLast?_eq_some_iff.mp he
      refine ⟨List.mem_map_of_mem (hp.mem_iff.mp (by rw [hi]; simp)), ?_⟩
      intro w hw
      obtain ⟨g, hg, rfl⟩ := List.mem_map.mp hw
      have hgfs : g ∈ fs := List.mem_of_mem_filter hg
      have hgn := hnan (Or.inl rfl) g hgfs
      rw [← hp.mem_iff, hi, List.mem_append] at hg
      rcases hg with hg | hg
      · rw [hi, List.pairwise_append] at hs
        rcases hs.2.2 g hg e (by simp) with h | h
        · exact absurd h hgn
        · exact burnValue_le h
      · simp only [List.mem_singleton] at hg
        subst hg
        exact hle hgn
  | max =>
    obtain ⟨h1, h2⟩ := hext.sortAsc fs
    have hp : ((ext.sortAsc fs).filter sel).Perm (fs.filter sel) := h1.filter sel
    have hs := h2.filter sel
    simp only [orderFor, List.map_eq_nil_iff]
    refine ⟨⟨fun h => ?_, fun h => ?_⟩, ?_⟩
    · rw [h] at hp; exact List.perm_nil.mp hp
    · rw [h] at hp; exact List.nil_perm.mp hp
    · intro v hv
      rw [List.getLast?_map] at hv
      obtain ⟨e, he, rfl⟩ := Option.map_eq_some_iff.mp hv
      obtain ⟨init, hi⟩ := List.getLast?_eq_some_iff.mp he
      refine ⟨List.mem_map_of_mem (hp.mem_iff.mp (by rw [hi]; simp)), ?_⟩
      intro w hw
      obtain ⟨g, hg, rfl⟩ := List.mem_map.mp hw
      have hgfs : g ∈ fs := List.mem_of_mem_filter hg
      have hgn := hnan (Or.inr rfl) g hgfs
      rw [← hp.mem_iff, hi, List.mem_append] at hg
      rcases hg with hg | hg
      · rw [hi, List.pairwise_append] at hs
        rcases hs.2.2 g hg e (by simp) with h | h
        · exact absurd h hgn
        · exact burnValue_le h
      · simp only [List.mem_singleton] at hg
        subst hg
        exact hle hgn

theorem onto_right {np : NumPy} {s64 : Bool} {ext : Ext G} {like : Like G} (hext : Lawful ext like)
    (hgeo : Geometric like) {useIndex : Bool} {out : DType} {fill : Num} {method : Method} {part : List (Feature G)}
    (hv : Values np s64 out fill method useIndex part) {i j : Nat} {q : Pos} (hq : InChunk like i j q) :
    Right method fill (touching like useIndex part (cellOf like i j q))
      (rasterizeOntoChunk np s64 ext like useIndex out fill method part i j q) := by
  have htouch : ∀ g, localTouch like i j g q = like.touch g (cellOf like i j q) := fun g => rfl
  -- no touching feature is cut off
  have hnone : (∀ f ∈ part, f.empty = false → like.touch f.geom (cellOf like i j q) = false) →
      touching like useIndex part (cellOf like i j q) = [] := by
    intro h
    unfold touching
    rw [List.map_eq_nil_iff, List.filter_eq_nil_iff]
    intro f hf
    cases he : f.empty with
    | true => simp
    | false => simp [h f hf he]
  have hfill : Right method fill [] (np.cast out fill) := ⟨fun _ => hv.fillCast, fun h => absurd rfl h⟩
  unfold rasterizeOntoChunk
  simp only
  have hbox : ∀ f ∈ part, f.empty = false → like.touch f.geom (cellOf like i j q) = true →
      ∃ b, totalBounds like (part.filter fun f => !f.empty) = some b ∧ (like.chunkBox i j).meets b = true := by
    intro f hf he ht
    exact meets_total (List.mem_filter.mpr ⟨hf, by simp [he]⟩) (hgeo.touch _ _ _ _ hq ht).2
  cases hb : totalBounds like (part.filter fun f => !f.empty) with
  | none =>
    rw [hnone]
    · exact hfill
    · intro f hf he
      by_contra hc
      obtain ⟨b, h1, _⟩ := hbox f hf he (by simpa using hc)
      rw [hb] at h1
      cases h1
  | some b =>
    simp only
    split
    · rename_i hm
      rw [hnone]
      · exact hfill
      · intro f hf he
        by_contra hc
        obtain ⟨b', h1, h2⟩ := hbox f hf he (by simpa using hc)
        rw [hb, Option.some.injEq] at h1
        rw [← h1] at h2
        simp [h2] at hm
    · have hclip := clipped_eq hext (like.chunkBox i j) (part.filter fun f => !f.empty)
      split
      · rename_i hlen
        rw [List.length_eq_zero_iff] at hlen
        rw [hlen] at hclip
        rw [hnone]
        · exact hfill
        · intro f hf he
          by_contra hc
          have hk := (hgeo.touch f.geom i j q hq (by simpa using hc)).1
          have : f ∈ (part.filter fun f => !f.empty).filter fun f => like.keeps f.geom (like.chunkBox i j) :=
            List.mem_filter.mpr ⟨List.mem_filter.mpr ⟨hf, by simp [he]⟩, hk⟩
          rw [← hclip] at this
          cases this
      · rw [hclip, burn_eq]
        have hsub : ∀ f ∈ ((part.filter fun f => !f.empty).filter fun f => like.keeps f.geom (like.chunkBox i j)),
            f ∈ part := fun f hf => List.mem_of_mem_filter (List.mem_of_mem_filter hf)
        -- the touching features among the clipped ones
        have hl : touching like useIndex part (cellOf like i j q) =
            (((part.filter fun f => !f.empty).filter fun f => like.keeps f.geom (like.chunkBox i j)).filter
              fun f => like.touch f.geom (cellOf like i j q)).map (burnValue useIndex) := by
          unfold touching
          rw [List.filter_filter, List.filter_filter]
          congr 1
          apply List.filter_congr
          intro f hf
          cases he : f.empty with
          | true => simp
          | false =>
            cases ht : like.touch f.geom (cellOf like i j q) with
            | false => simp
            | true => simp [(hgeo.touch _ _ _ _ hq ht).1]
        obtain ⟨p1, p2⟩ := picks_of_order hext (method := method) (u := useIndex)
          (fs := (part.filter fun f => !f.empty).filter fun f => like.keeps f.geom (like.chunkBox i j))
          (fun hm f hf => hv.notNan hm f (hsub f hf)) (fun f => like.touch f.geom (cellOf like i j q))
        rw [← hl] at p1 p2
        -- the burned shapes
        have hm : ((((orderFor ext method ((part.filter fun f => !f.empty).filter
              fun f => like.keeps f.geom (like.chunkBox i j))).map fun f =>
              (f.geom, viaRio np s64 out (if useIndex then addOne f.value else f.value))).filter
              fun s => localTouch like i j s.1 q).map (·.2)) =
            ((orderFor ext method ((part.filter fun f => !f.empty).filter
              fun f => like.keeps f.geom (like.chunkBox i j))).filter
              fun f => like.touch f.geom (cellOf like i j q)).map (burnValue useIndex) := by
          rw [List.filter_map, List.map_map]
          have hmem : ∀ f ∈ orderFor ext method ((part.filter fun f => !f.empty).filter
              fun f => like.keeps f.geom (like.chunkBox i j)), f ∈ part := by
            intro f hf
            apply hsub
            cases method with
            | first => exact List.mem_reverse.mp hf
            | last => exact hf
            | min => exact (hext.sortDesc _).1.mem_iff.mp hf
            | max => exact (hext.sortAsc _).1.mem_iff.mp hf
          apply List.map_congr_left
          intro f hf
          have e := hv.rio f (hmem f (List.mem_of_mem_filter hf))
          unfold burnValue at e
          rw [← addOne_eq] at e
          show viaRio np s64 out (if useIndex then addOne f.value else f.value) = burnValue useIndex f
          unfold burnValue
          rw [← addOne_eq]
          exact e
        rw [hm, hv.fillRio]
        constructor
        · intro he
          rw [p1.mp he]
          rfl
        · intro hne
          obtain ⟨v, hlast⟩ : ∃ v, (((orderFor ext method ((part.filter fun f => !f.empty).filter
              fun f => like.keeps f.geom (like.chunkBox i j))).filter
              fun f => like.touch f.geom (cellOf like i j q)).map (burnValue useIndex)).getLast? = some v :=
            ⟨_, List.getLast?_eq_getLast_of_ne_nil fun h => hne (p1.mpr h)⟩
          rw [hlast]
          exact p2 v hlast

/-! ### Several partitions -/

theorem le_of_not_lt {a b : Num} (ha : a ≠ .nan) (hb : b ≠ .nan) (h : lt b a = false) : Le a b := by
  cases a <;> cases b <;> simp_all [Le, lt]

theorem le_of_lt {a b : Num} (h : lt a b = true) : Le a b := by
  cases a <;> cases b <;> simp_all [Le, lt]
  exact _root_.le_of_lt h

theorem isnan_iff (a : Num) : a.isnan = true ↔ a = .nan := by
  cases a <;> simp [Num.isnan]

theorem nanmax2_le {a b : Num} : (a ≠ .nan → nanmax2 a b ≠ .nan ∧ Le a (nanmax2 a b)) ∧
    (b ≠ .nan → nanmax2 a b ≠ .nan ∧ Le b (nanmax2 a b)) := by
  unfold nanmax2
  by_cases ha : a.isnan = true
  · rw [if_pos ha]
    exact ⟨fun h => absurd ((isnan_iff a).mp ha) h, fun h => ⟨h, Stats.le_refl' h⟩⟩
  · have ha' : a ≠ .nan := fun h => ha ((isnan_iff a).mpr h)
    rw [if_neg ha]
    by_cases hb : b.isnan = true
    · rw [if_pos hb]
      exact ⟨fun h => ⟨h, Stats.le_refl' h⟩, fun h => absurd ((isnan_iff b).mp hb) h⟩
    · have hb' : b ≠ .nan := fun h => hb ((isnan_iff b).mpr h)
      rw [if_neg hb]
      by_cases hl : lt a b = true
      · rw [if_pos hl]
        exact ⟨fun _ => ⟨hb', le_of_lt hl⟩, fun h => ⟨h, Stats.le_refl' h⟩⟩
      · rw [if_neg hl]
        exact ⟨fun h => ⟨h, Stats.le_refl' h⟩, fun h => ⟨ha', le_of_not_lt h ha' (by simpa using hl)⟩⟩

theorem nanmin2_le {a b : Num} : (a ≠ .nan → nanmin2 a b ≠ .nan ∧ Le (nanmin2 a b) a) ∧
    (b ≠ .nan → nanmin2 a b ≠ .nan ∧ Le (nanmin2 a b) b) := by
  unfold nanmin2
  by_cases ha : a.isnan = true
  · rw [if_pos ha]
    exact ⟨fun h => absurd ((isnan_iff a).mp ha) h, fun h => ⟨h, Stats.le_refl' h⟩⟩
  · have ha' : a ≠ .nan := fun h => ha ((isnan_iff a).mpr h)
    rw [if_neg ha]
    by_cases hb : b.isnan = true
    · rw [if_pos hb]
      exact ⟨fun h => ⟨h, Stats.le_refl' h⟩, fun h => absurd ((isnan_iff b).mp hb) h⟩
    · have hb' : b ≠ .nan := fun h => hb ((isnan_iff b).mpr h)
      rw [if_neg hb]
      by_cases hl : lt b a = true
      · rw [if_pos hl]
        exact ⟨fun _ => ⟨hb', le_of_lt hl⟩, fun h => ⟨h, Stats.le_refl' h⟩⟩
      · rw [if_neg hl]
        exact ⟨fun h => ⟨h, Stats.le_refl' h⟩, fun h => ⟨ha', le_of_not_lt ha' h (by simpa using hl)⟩⟩

theorem nanmax_fold (l : List Num) : ∀ (s x : Num), (x = s ∨ x ∈ l) → x ≠ .nan →
    l.foldl nanmax2 s ≠ .nan ∧ Le x (l.foldl nanmax2 s) := by
  induction l with
  | nil =>
    rintro s x (rfl | h) hx
    · exact ⟨hx, Stats.le_refl' hx⟩
    · cases h
  | cons b l ih =>
    intro s x h hx
    rw [List.foldl_cons]
    have step : ∀ y, nanmax2 s b ≠ .nan ∧ Le y (nanmax2 s b) →
        l.foldl nanmax2 (nanmax2 s b) ≠ .nan ∧ Le y (l.foldl nanmax2 (nanmax2 s b)) := by
      rintro y ⟨h1, h2⟩
      obtain ⟨h3, h4⟩ := ih (nanmax2 s b) _ (Or.inl rfl) h1
      exact ⟨h3, Stats.le_trans' h2 h4⟩
    rcases h with rfl | h
    · exact step _ (nanmax2_le.1 hx)
    · rcases List.mem_cons.mp h with rfl | h
      · exact step _ (nanmax2_le.2 hx)
      · exact ih _ _ (Or.inr h) hx

theorem nanmin_fold (l : List Num) : ∀ (s x : Num), (x = s ∨ x ∈ l) → x ≠ .nan →
    l.foldl nanmin2 s ≠ .nan ∧ Le (l.foldl nanmin2 s) x := by
  induction l with
  | nil =>
    rintro s x (rfl | h) hx
    · exact ⟨hx, Stats.le_refl' hx⟩
    · cases h
  | cons b l ih =>
    intro s x h hx
    rw [List.foldl_cons]
    have step : ∀ y, nanmin2 s b ≠ .nan ∧ Le (nanmin2 s b) y →
        l.foldl nanmin2 (nanmin2 s b) ≠ .nan ∧ Le (l.foldl nanmin2 (nanmin2 s b)) y := by
      rintro y ⟨h1, h2⟩
      obtain ⟨h3, h4⟩ := ih (nanmin2 s b) _ (Or.inl rfl) h1
      exact ⟨h3, Stats.le_trans' h4 h2⟩
    rcases h with rfl | h
    · exact step _ (nanmin2_le.1 hx)
    · rcases List.mem_cons.mp h with rfl | h
      · exact step _ (nanmin2_le.2 hx)
      · exact ih _ _ (Or.inr h) hx

theorem mem_allValues {shape q : Pos} (h1 : q.1 < shape.1) (h2 : q.2 < shape.2) (a b : Img) :
    a q ∈ allValues shape a b ∧ b q ∈ allValues shape a b := by
  unfold allValues
  simp only [List.mem_flatMap, List.mem_range]
  exact ⟨⟨q.1, h1, q.2, h2, by simp⟩, ⟨q.1, h1, q.2, h2, by simp⟩⟩

theorem min2_spec {a b : Num} (ha : a ≠ .nan) (hb : b ≠ .nan) :
    (min2 a b = a ∨ min2 a b = b) ∧ Le (min2 a b) a ∧ Le (min2 a b) b := by
  unfold min2
  rw [if_neg fun h => ha ((isnan_iff a).mp h), if_neg fun h => hb ((isnan_iff b).mp h)]
  by_cases hl : lt b a = true
  · rw [if_pos hl]; exact ⟨Or.inr rfl, le_of_lt hl, Stats.le_refl' hb⟩
  · rw [if_neg hl]; exact ⟨Or.inl rfl, Stats.le_refl' ha, le_of_not_lt ha hb (by simpa using hl)⟩

theorem max2_spec {a b : Num} (ha : a ≠ .nan) (hb : b ≠ .nan) :
    (max2 a b = a ∨ max2 a b = b) ∧ Le a (max2 a b) ∧ Le b (max2 a b) := by
  unfold max2
  rw [if_neg fun h => ha ((isnan_iff a).mp h), if_neg fun h => hb ((isnan_iff b).mp h)]
  by_cases hl : lt a b = true
  · rw [if_pos hl]; exact ⟨Or.inr rfl, le_of_lt hl, Stats.le_refl' hb⟩
  · rw [if_neg hl]; exact ⟨Or.inl rfl, Stats.le_refl' ha, le_of_not_lt hb ha (by simpa using hl)⟩

theorem le_antisymm' {a b : Num} (h1 : Le a b) (h2 : Le b a) : a = b := by
  cases a <;> cases b <;> simp_all [Le]
  exact le_antisymm h1 h2

/-- The assumptions on a list of values. -/
def Fine (method : Method) (fill : Num) (l : List Num) : Prop :=
  (∀ v ∈ l, v ≠ fill) ∧ ((method = .min ∨ method = .max) → ∀ v ∈ l, v ≠ .nan)

theorem picks_mem {method : Method} {l : List Num} {v : Num} (h : Picks method l v) : v ∈ l := by
  cases method with
  | first => exact List.mem_of_head? h
  | last => exact List.mem_of_getLast? h
  | min => exact h.1
  | max => exact h.1

theorem resolve_right {method : Method} {fill : Num} (hf : fill ≠ .nan) {shape q : Pos} (h1 : q.1 < shape.1)
    (h2 : q.2 < shape.2) {la lb : List Num} {a b : Img} (ha : Right method fill la (a q))
    (hb : Right method fill lb (b q)) (fa : Fine method fill la) (fb : Fine method fill lb) :
    Right method fill (la ++ lb) (resolve fill shape method a b q) := by
  have key : ∀ {l : List Num} {v : Num}, Right method fill l v → Fine method fill l →
      (l = [] ∧ v = fill ∧ v.eq fill = true) ∨ (l ≠ [] ∧ Picks method l v ∧ v.eq fill = false) := by
    intro l v hr hl
    by_cases hn : l = []
    · exact Or.inl ⟨hn, hr.1 hn, (Num.eq_iff _ _).mpr ⟨hr.1 hn, by rw [hr.1 hn]; exact hf⟩⟩
    · refine Or.inr ⟨hn, hr.2 hn, ?_⟩
      cases he : v.eq fill with
      | false => rfl
      | true => exact absurd ((Num.eq_iff _ _).mp he).1 (hl.1 v (picks_mem (hr.2 hn)))
  obtain ⟨ma, mb⟩ := mem_allValues h1 h2 a b
  rcases key ha fa with ⟨na, va, ea⟩ | ⟨na, va, ea⟩ <;> rcases key hb fb with ⟨nb, vb, eb⟩ | ⟨nb, vb, eb⟩
  · -- both untouched
    subst na nb
    refine ⟨fun _ => ?_, fun h => absurd rfl h⟩
    cases method <;> simp only [resolve, ea, eb, if_true, Bool.and_self] <;> assumption
  · subst na
    rw [List.nil_append]
    refine ⟨fun h => absurd h nb, fun _ => ?_⟩
    cases method with
    | first => simp only [resolve, ea, if_true]; exact vb
    | last => simp only [resolve, eb, Bool.false_eq_true, if_false]; exact vb
    | min =>
      simp only [resolve, ea, eb, if_true, Bool.and_false, Bool.false_eq_true, if_false]
      have hbn : b q ≠ .nan := fb.2 (Or.inl rfl) _ vb.1
      obtain ⟨t1, t2⟩ := nanmax_fold (allValues shape a b) .nan (b q) (Or.inr mb) hbn
      obtain ⟨m1, m2, m3⟩ := min2_spec t1 hbn
      have : min2 ((allValues shape a b).foldl nanmax2 .nan) (b q) = b q := by
        rcases m1 with m1 | m1
        · rw [m1] at m3 ⊢
          exact le_antisymm' m3 t2
        · exact m1
      rw [this]
      exact vb
    | max =>
      simp only [resolve, ea, eb, if_true, Bool.and_false, Bool.false_eq_true, if_false]
      have hbn : b q ≠ .nan := fb.2 (Or.inr rfl) _ vb.1
      obtain ⟨t1, t2⟩ := nanmin_fold (allValues shape a b) .nan (b q) (Or.inr mb) hbn
      obtain ⟨m1, m2, m3⟩ := max2_spec t1 hbn
      have : max2 ((allValues shape a b).foldl nanmin2 .nan) (b q) = b q := by
        rcases m1 with m1 | m1
        · rw [m1] at m3 ⊢
          exact le_antisymm' t2 m3
        · exact m1
      rw [this]
      exact vb
  · subst nb
    rw [List.append_nil]
    refine ⟨fun h => absurd h na, fun _ => ?_⟩
    cases method with
    | first => simp only [resolve, ea, Bool.false_eq_true, if_false]; exact va
    | last => simp only [resolve, eb, if_true]; exact va
    | min =>
      simp only [resolve, ea, eb, if_true, Bool.false_and, Bool.false_eq_true, if_false]
      have han : a q ≠ .nan := fa.2 (Or.inl rfl) _ va.1
      obtain ⟨t1, t2⟩ := nanmax_fold (allValues shape a b) .nan (a q) (Or.inr ma) han
      obtain ⟨m1, m2, m3⟩ := min2_spec han t1
      have : min2 (a q) ((allValues shape a b).foldl nanmax2 .nan) = a q := by
        rcases m1 with m1 | m1
        · exact m1
        · rw [m1] at m2 ⊢
          exact le_antisymm' m2 t2
      rw [this]
      exact va
    | max =>
      simp only [resolve, ea, eb, if_true, Bool.false_and, Bool.false_eq_true, if_false]
      have han : a q ≠ .nan := fa.2 (Or.inr rfl) _ va.1
      obtain ⟨t1, t2⟩ := nanmin_fold (allValues shape a b) .nan (a q) (Or.inr ma) han
      obtain ⟨m1, m2, m3⟩ := max2_spec han t1
      have : max2 (a q) ((allValues shape a b).foldl nanmin2 .nan) = a q := by
        rcases m1 with m1 | m1
        · exact m1
        · rw [m1] at m2 ⊢
          exact le_antisymm' t2 m2
      rw [this]
      exact va
  · refine ⟨fun h => absurd (List.append_eq_nil_iff.mp h).1 na, fun _ => ?_⟩
    cases method with
    | first =>
      simp only [resolve, ea, Bool.false_eq_true, if_false]
      show (la ++ lb).head? = _
      rw [List.head?_append_of_ne_nil _ na]
      exact va
    | last =>
      simp only [resolve, eb, Bool.false_eq_true, if_false]
      show (la ++ lb).getLast? = _
      rw [List.getLast?_append_of_ne_nil _ nb]
      exact vb
    | min =>
      simp only [resolve, ea, eb, Bool.and_self, Bool.false_eq_true, if_false]
      obtain ⟨m1, m2, m3⟩ := min2_spec (fa.2 (Or.inl rfl) _ va.1) (fb.2 (Or.inl rfl) _ vb.1)
      refine ⟨?_, ?_⟩
      · rcases m1 with m1 | m1 <;> rw [m1, List.mem_append]
        exacts [Or.inl va.1, Or.inr vb.1]
      · intro w hw
        rcases List.mem_append.mp hw with hw | hw
        · exact Stats.le_trans' m2 (va.2 w hw)
        · exact Stats.le_trans' m3 (vb.2 w hw)
    | max =>
      simp only [resolve, ea, eb, Bool.and_self, Bool.false_eq_true, if_false]
      obtain ⟨m1, m2, m3⟩ := max2_spec (fa.2 (Or.inr rfl) _ va.1) (fb.2 (Or.inr rfl) _ vb.1)
      refine ⟨?_, ?_⟩
      · rcases m1 with m1 | m1 <;> rw [m1, List.mem_append]
        exacts [Or.inl va.1, Or.inr vb.1]
      · intro w hw
        rcases List.mem_append.mp hw with hw | hw
        · exact Stats.le_trans' (va.2 w hw) m2
        · exact Stats.le_trans' (vb.2 w hw) m3

theorem fine_append {method : Method} {fill : Num} {l m : List Num} :
    Fine method fill (l ++ m) ↔ Fine method fill l ∧ Fine method fill m := by
  constructor
  · rintro ⟨h1, h2⟩
    exact ⟨⟨fun v hv => h1 v (List.mem_append_left _ hv), fun hm v hv => h2 hm v (List.mem_append_left _ hv)⟩,
      ⟨fun v hv => h1 v (List.mem_append_right _ hv), fun hm v hv => h2 hm v (List.mem_append_right _ hv)⟩⟩
  · rintro ⟨⟨h1, h2⟩, h3, h4⟩
    refine ⟨fun v hv => ?_, fun hm v hv => ?_⟩ <;> rcases List.mem_append.mp hv with hv | hv
    exacts [h1 v hv, h3 v hv, h2 hm v hv, h4 hm v hv]

section tree
variable {method : Method} {fill : Num} (hf : fill ≠ .nan) {shape q : Pos} (h1 : q.1 < shape.1) (h2 : q.2 < shape.2)
include hf h1 h2

theorem pairRound_right : ∀ (ls : List (List Num)) (imgs : List Img),
    List.Forall₂ (fun l (img : Img) => Right method fill l (img q)) ls imgs → Fine method fill ls.flatten →
    ∃ ls', ls'.flatten = ls.flatten ∧
      List.Forall₂ (fun l (img : Img) => Right method fill l (img q)) ls' (pairRound (resolve fill shape method) imgs)
  | [], [], _, _ => ⟨[], rfl, .nil⟩
  | [l], [a], h, _ => ⟨[l], rfl, h⟩
  | la :: lb :: ls, a :: b :: imgs, .cons ha (.cons hb h), hfine => by
    simp only [List.flatten_cons] at hfine ⊢
    rw [fine_append, fine_append] at hfine
    obtain ⟨ls', e, h'⟩ := pairRound_right ls imgs h hfine.2.2
    exact ⟨(la ++ lb) :: ls', by simp [e], .cons (resolve_right hf h1 h2 ha hb hfine.1 hfine.2.1) h'⟩

theorem rounds_right : ∀ (n : Nat) (ls : List (List Num)) (imgs : List Img),
    List.Forall₂ (fun l (img : Img) => Right method fill l (img q)) ls imgs → Fine method fill ls.flatten →
    ∃ ls', ls'.flatten = ls.flatten ∧
      List.Forall₂ (fun l (img : Img) => Right method fill l (img q)) ls' (rounds (resolve fill shape method) n imgs)
  | 0, ls, imgs, h, _ => ⟨ls, rfl, h⟩
  | n + 1, ls, imgs, h, hfine => by
    obtain ⟨ls', e, h'⟩ := pairRound_right hf h1 h2 ls imgs h hfine
    obtain ⟨ls'', e', h''⟩ := rounds_right n ls' _ h' (by rw [e]; exact hfine)
    exact ⟨ls'', by rw [e', e], h''⟩

end tree

theorem pairRound_length (f : Img → Img → Img) : ∀ l : List Img, (pairRound f l).length = (l.length + 1) / 2
  | [] => by simp [pairRound]
  | [_] => by simp [pairRound]
  | a :: b :: l => by
    simp only [pairRound, List.length_cons, pairRound_length f l]
    omega

theorem rounds_length (f : Img → Img → Img) : ∀ (n : Nat) (l : List Img), l.length ≤ 2 ^ n →
    (rounds f n l).length ≤ 1
  | 0, l, h => by simpa [rounds] using h
  | n + 1, l, h => by
    unfold rounds
    apply rounds_length f n
    rw [pairRound_length]
    rw [pow_succ] at h
    omega

theorem treeReduce_right {method : Method} {fill : Num} (hf : fill ≠ .nan) {shape q : Pos} (h1 : q.1 < shape.1)
    (h2 : q.2 < shape.2) {ls : List (List Num)} {imgs : List Img}
    (h : List.Forall₂ (fun l (img : Img) => Right method fill l (img q)) ls imgs) (hfine : Fine method fill ls.flatten)
    {d : Img} (hd : d q = fill) :
    Right method fill ls.flatten ((treeReduce (resolve fill shape method) imgs).getD d q) := by
  unfold treeReduce
  have hlen := rounds_length (resolve fill shape method) (Nat.max 1 (Nat.clog 2 imgs.length)) imgs
    (le_trans (Nat.le_pow_clog (by decide) _) (Nat.pow_le_pow_right (by decide) (Nat.le_max_right _ _)))
  obtain ⟨ls', e, h'⟩ := rounds_right hf h1 h2 (Nat.max 1 (Nat.clog 2 imgs.length)) ls imgs h hfine
  rw [← e]
  generalize rounds (resolve fill shape method) (Nat.max 1 (Nat.clog 2 imgs.length)) imgs = r at hlen h' ⊢
  cases h' with
  | nil => exact ⟨fun _ => hd, fun hne => absurd rfl hne⟩
  | cons ha h'' =>
    cases h'' with
    | nil => simpa using ha
    | cons _ _ => simp at hlen

/-! ### The chunks -/

theorem locate_spec : ∀ (cs : List Nat) (n : Nat), n < cs.sum →
    (cs.take (locate cs n).1).sum + (locate cs n).2 = n ∧
    ∃ c, cs[(locate cs n).1]? = some c ∧ (locate cs n).2 < c
  | [], n, h => absurd h (by simp)
  | c :: cs, n, h => by
    unfold locate
    by_cases hc : n < c
    · rw [if_pos hc]
      exact ⟨by simp, c, rfl, hc⟩
    · rw [if_neg hc]
      rw [List.sum_cons] at h
      obtain ⟨h1, c', h2, h3⟩ := locate_spec cs (n - c) (by omega)
      refine ⟨?_, c', by simpa using h2, h3⟩
      simp only [List.take_succ_cons, List.sum_cons]
      omega

theorem assemble_spec (like : Like G) (chunk : Nat → Nat → Img) (fill : Num) :
    ∃ img, assemble like chunk fill = .ok img ∧
      ∀ y x, y < like.ychunks.sum → x < like.xchunks.sum → ∃ i j q, InChunk like i j q ∧
        cellOf like i j q = (y, x) ∧ img (y, x) = chunk i j q := by
  set ny := like.ychunks.length with hny
  set nx := like.xchunks.length with hnx
  set flat := (List.range (ny * nx)).map fun k => chunk (k / nx) (k % nx) with hflat
  obtain ⟨grid, hgrid⟩ := (Utils.rows_exist flat 0 ny nx).mpr (Or.inr (by simp [hflat]))
  have hr : Utils.listReshape2d flat [ny, nx] 0 = .ok grid := (Utils.takeRows_spec flat nx ny 0 grid).mpr hgrid
  refine ⟨block like grid fill, ?_, ?_⟩
  · unfold assemble
    simp only
    rw [← hny, ← hnx, ← hflat, hr]
  · intro y x hy hx
    obtain ⟨y1, h, y2, y3⟩ := locate_spec like.ychunks y hy
    obtain ⟨x1, w, x2, x3⟩ := locate_spec like.xchunks x hx
    refine ⟨(locate like.ychunks y).1, (locate like.xchunks x).1, ((locate like.ychunks y).2, (locate like.xchunks x).2),
      ⟨⟨h, y2, y3⟩, w, x2, x3⟩, ?_, ?_⟩
    · unfold cellOf
      simp only
      rw [y1, x1]
    · have hi : (locate like.ychunks y).1 < ny := (List.getElem?_eq_some_iff.mp y2).1
      have hj : (locate like.xchunks x).1 < nx := (List.getElem?_eq_some_iff.mp x2).1
      obtain ⟨row, r1, r2, _⟩ := hgrid.2.2 _ _ hi hj
      unfold block
      simp only
      rw [r1, Option.getD_some, r2, hflat]
      have hk : (locate like.ychunks y).1 * nx + (locate like.xchunks x).1 < ny * nx :=
        calc _ < (locate like.ychunks y).1 * nx + nx := by omega
          _ = ((locate like.ychunks y).1 + 1) * nx := by rw [Nat.succ_mul]
          _ ≤ ny * nx := Nat.mul_le_mul_right _ hi
      have hpos : 0 < nx := by omega
      rw [Nat.zero_add, List.getElem?_map, List.getElem?_range hk, Option.map_some]
      simp only
      rw [Nat.mul_comm _ nx, Nat.mul_add_div hpos, Nat.div_eq_of_lt hj, Nat.add_zero, Nat.mul_add_mod,
        Nat.mod_eq_of_lt hj]

theorem touching_append (like : Like G) (u : Bool) (l m : List (Feature G)) (p : Pos) :
    touching like u (l ++ m) p = touching like u l p ++ touching like u m p := by
  simp [touching]

theorem touching_flatten (like : Like G) (u : Bool) (p : Pos) : ∀ parts : List (List (Feature G)),
    touching like u parts.flatten p = (parts.map fun l => touching like u l p).flatten
  | [] => rfl
  | l :: parts => by
    rw [List.flatten_cons, touching_append, touching_flatten like u p parts, List.map_cons, List.flatten_cons]

theorem matched_touching {like : Like G} {u : Bool} {parts : List (List (Feature G))} {regions : List Region}
    (hcov : Covers like parts regions) {i j : Nat} {q : Pos} (hq : InChunk like i j q) :
    touching like u (matched like parts regions i j).flatten (cellOf like i j q) =
      touching like u parts.flatten (cellOf like i j q) := by
  obtain ⟨hlen, hcov⟩ := hcov
  unfold matched
  induction parts generalizing regions with
  | nil => simp
  | cons part parts ih =>
    cases regions with
    | nil => simp at hlen
    | cons r regions =>
      have ih' := ih (regions := regions) (by simpa using hlen)
        (fun e he => hcov e (by rw [List.zip_cons_cons]; exact List.mem_cons_of_mem _ he))
      rw [List.zip_cons_cons, List.flatten_cons, touching_append, ← ih']
      by_cases h : r (like.chunkBox i j) = true
      · rw [List.filter_cons_of_pos (p := fun e : List (Feature G) × Region => e.2 (like.chunkBox i j)) h, List.map_cons,
          List.flatten_cons, touching_append]
      · rw [List.filter_cons_of_neg (p := fun e : List (Feature G) × Region => e.2 (like.chunkBox i j)) h]
        have : touching like u part (cellOf like i j q) = [] := by
          unfold touching
          rw [List.map_eq_nil_iff, List.filter_eq_nil_iff]
          intro f hf
          cases he : f.empty with
          | true => simp
          | false =>
            cases ht : like.touch f.geom (cellOf like i j q) with
            | false => simp
            | true =>
              exact absurd (hcov (part, r) (by rw [List.zip_cons_cons]; exact List.mem_cons_self) f hf he i j q hq ht) h
        rw [this, List.nil_append]

theorem mem_matched {like : Like G} {parts : List (List (Feature G))} {regions : List Region} {i j : Nat}
    {part : List (Feature G)} (h : part ∈ matched like parts regions i j) : part ∈ parts := by
  unfold matched at h
  obtain ⟨e, he, rfl⟩ := List.mem_map.mp h
  exact (List.of_mem_zip (List.mem_of_mem_filter he)).1

theorem Values.sub {np : NumPy} {s64 : Bool} {dt : DType} {fill : Num} {method : Method} {u : Bool}
    {l m : List (Feature G)} (h : Values np s64 dt fill method u l) (hs : ∀ f ∈ m, f ∈ l) :
    Values np s64 dt fill method u m :=
  ⟨h.1, h.2, h.3, fun f hf => h.4 f (hs f hf), fun f hf => h.5 f (hs f hf), fun hm f hf => h.6 hm f (hs f hf)⟩

theorem burnValue_nan {u : Bool} {f : Feature G} (h : f.value ≠ .nan) : burnValue u f ≠ .nan := by
  cases u
  · exact h
  · exact oneMore_nan h

theorem Values.fine {np : NumPy} {s64 : Bool} {dt : DType} {fill : Num} {method : Method} {u : Bool}
    {l : List (Feature G)} (h : Values np s64 dt fill method u l) (like : Like G) (p : Pos) :
    Fine method fill (touching like u l p) := by
  refine ⟨fun v hv => ?_, fun hm v hv => ?_⟩ <;> obtain ⟨f, hf, rfl⟩ := List.mem_map.mp hv
  · exact h.notFill f (List.mem_of_mem_filter hf)
  · exact burnValue_nan (h.notNan hm f (List.mem_of_mem_filter hf))

/-- The data of the result. -/
theorem valueData_spec {np : NumPy} {s64 : Bool} {ext : Ext G} {like : Like G} (hext : Lawful ext like)
    (hgeo : Geometric like) {u : Bool} {out : DType} {fill : Num} {method : Method} {parts : List (List (Feature G))}
    {regions : List Region} (hcov : Covers like parts regions) (hv : Values np s64 out fill method u parts.flatten) :
    ∃ img, valueData np s64 ext like u out fill method parts regions = .ok img ∧
      ∀ y x, y < like.ychunks.sum → x < like.xchunks.sum →
        Right method fill (touching like u parts.flatten (y, x)) (img (y, x)) := by
  obtain ⟨img, h1, h2⟩ := assemble_spec like (fun i j =>
    (treeReduce (resolve fill (chunkShape like i j) method) ((matched like parts regions i j).map fun part =>
      rasterizeOntoChunk np s64 ext like u out fill method part i j)).getD fun _ => np.cast out fill) (np.cast out fill)
  refine ⟨img, h1, ?_⟩
  intro y x hy hx
  obtain ⟨i, j, q, hq, hc, he⟩ := h2 y x hy hx
  rw [he, ← hc, ← matched_touching hcov hq, touching_flatten]
  have hsub : ∀ part ∈ matched like parts regions i j, ∀ f ∈ part, f ∈ parts.flatten := fun part hp f hf =>
    List.mem_flatten.mpr ⟨part, mem_matched hp, hf⟩
  obtain ⟨⟨h, hh, hqh⟩, w, hw, hqw⟩ := hq
  apply treeReduce_right hv.fillNotNan
  · simp only [chunkShape, hh, Option.getD_some]; exact hqh
  · simp only [chunkShape, hw, Option.getD_some]; exact hqw
  · rw [List.forall₂_map_left_iff, List.forall₂_map_right_iff, List.forall₂_same]
    intro part hp
    exact onto_right hext hgeo (hv.sub (hsub part hp)) ⟨⟨h, hh, hqh⟩, w, hw, hqw⟩
  · rw [← touching_flatten]
    exact (hv.sub fun f hf => by
      obtain ⟨part, hp, hf⟩ := List.mem_flatten.mp hf
      exact hsub part hp f hf).fine like _
  · exact hv.fillCast

theorem regions_cover {ext : Ext G} {like : Like G} (hgeo : Geometric like) {t : Table G} {crsDiffers aware : Bool}
    (hs : crsDiffers = false → ∀ regions, t.spatial = some regions → Covers like t.parts regions)
    (hhull : Covers like t.parts (t.parts.map ext.hull)) :
    Covers like t.parts (regionsFor ext like t crsDiffers aware).1 := by
  unfold regionsFor
  have hnaive : Covers like t.parts (t.parts.map fun _ => fun b => like.box.meets b) := by
    refine ⟨by simp, ?_⟩
    intro e he f _ _ i j q hq _
    obtain ⟨_, hr⟩ := List.of_mem_zip he
    obtain ⟨_, _, hr⟩ := List.mem_map.mp hr
    rw [← hr]
    obtain ⟨⟨h, hh, _⟩, w, hw, _⟩ := hq
    exact hgeo.chunks i j (List.getElem?_eq_some_iff.mp hh).1 (List.getElem?_eq_some_iff.mp hw).1
  cases hc : (if crsDiffers then none else t.spatial) with
  | none =>
    simp only
    cases aware with
    | true => rw [if_pos rfl]; exact hhull
    | false => rw [if_neg (by decide)]; exact hnaive
  | some regions =>
    simp only
    cases crsDiffers with
    | true => rw [if_pos rfl] at hc; cases hc
    | false => rw [if_neg (by decide)] at hc; exact hs rfl regions hc

theorem hasBoxes_iff (like : Like G) : hasBoxes like = true ↔ TwoByTwo like := by
  simp [hasBoxes, TwoByTwo]

theorem hasBoxes_of {like : Like G} (h : TwoByTwo like) : hasBoxes like = true := (hasBoxes_iff like).mpr h

/-- **C33**: a cell that no feature touches is null and holds the null value; a cell that features touch holds the
value of the first, last, smallest or largest of them and is not null.  The right hand side does not mention the
partitions, the chunks or the spatial partitions.  Partial: the null value and, for `min` and `max`, the values may
not be NaN, no value may equal the null value, no chunk may have a single row or column, and spatial partitions that the vector has must cover its features;
the theorems below show that each of these is needed. -/
theorem C33_rasterize_partial {np : NumPy} {s64 : Bool} {ext : Ext G} {t : Table G} {like : Like G} {a : Args} {dt : DType}
    {fill : Scalar} {method : Method} (hext : Lawful ext like) (hgeo : Geometric like) (hboxes : TwoByTwo like)
    (hs : a.crsDiffers = false → ∀ regions, t.spatial = some regions → Covers like t.parts regions)
    (hhull : Covers like t.parts (t.parts.map ext.hull)) (hdt : fieldType a.field = .ok dt)
    (hfill : fillOf a.field dt a.null = .ok fill) (hm : parseMethod a.method = some method)
    (hv : Values np s64 dt fill.val method a.field.isNone t.parts.flatten) :
    ∃ r t', rasterize np s64 ext t like a = .ok (r, t') ∧ r.dtype = dt ∧ r.nv = some fill ∧ r.nb = 1 ∧
      r.ny = like.ychunks.sum ∧ r.nx = like.xchunks.sum ∧ t'.parts = t.parts ∧
      ∀ y x, y < r.ny → x < r.nx →
        (r.mask (0, y, x) = true ↔ touching like a.field.isNone t.parts.flatten (y, x) = []) ∧
        (r.mask (0, y, x) = true → r.data (0, y, x) = fill.val) ∧
        (r.mask (0, y, x) = false →
          Picks method (touching like a.field.isNone t.parts.flatten (y, x)) (r.data (0, y, x))) := by
  obtain ⟨img, h1, h2⟩ := valueData_spec hext hgeo (regions_cover hgeo hs hhull (aware := a.aware)) hv
  refine ⟨_, (regionsFor ext like t a.crsDiffers a.aware).2, by unfold rasterize; rw [hdt]; simp only; rw [hfill]; simp only; rw [hm]; simp only; rw [hasBoxes_of hboxes, if_neg (by decide), h1],
    rfl, rfl, rfl, rfl, rfl, ?_, ?_⟩
  · unfold regionsFor
    split
    · rfl
    · cases a.aware with
      | true => rfl
      | false => cases a.crsDiffers <;> rfl
  · intro y x hy hx
    have hr := h2 y x hy hx
    have hfine := hv.fine like (y, x)
    have hmask : maskOf (some fill.val) (img (y, x)) = true ↔ img (y, x) = fill.val := by
      unfold maskOf
      simp only
      rw [if_neg fun h => hv.fillNotNan ((isnan_iff _).mp h), Num.eq_iff]
      exact ⟨fun h => h.1, fun h => ⟨h, h ▸ hv.fillNotNan⟩⟩
    have hiff : img (y, x) = fill.val ↔ touching like a.field.isNone t.parts.flatten (y, x) = [] := by
      constructor
      · intro h
        by_contra hne
        exact hfine.1 _ (picks_mem (hr.2 hne)) h
      · exact hr.1
    refine ⟨hmask.trans hiff, fun h => hmask.mp h, fun h => hr.2 fun hne => ?_⟩
    rw [Bool.eq_false_iff] at h
    exact h (hmask.mpr (hiff.mpr hne))

theorem picks_unique {method : Method} {l : List Num} {v w : Num} (h : Picks method l v) (h' : Picks method l w) :
    v = w := by
  cases method with
  | first => exact Option.some.inj (h.symm.trans h')
  | last => exact Option.some.inj (h.symm.trans h')
  | min => exact le_antisymm' (h.2 w h'.1) (h'.2 v h.1)
  | max => exact le_antisymm' (h'.2 v h.1) (h.2 w h'.1)

/-- **C33**: the same features in other partitions, with or without spatial partitions, with other chunks of the
raster and with another order of equal keys in pandas give the same raster. -/
theorem C33_partitions_partial {np : NumPy} {s64 : Bool} {ext ext' : Ext G} {t t' : Table G} {like like' : Like G} {a : Args}
    {aware : Bool} {dt : DType} {fill : Scalar} {method : Method} (hext : Lawful ext like) (hext' : Lawful ext' like')
    (hgeo : Geometric like) (hgeo' : Geometric like') (hboxes : TwoByTwo like) (hboxes' : TwoByTwo like') (hflat : t.parts.flatten = t'.parts.flatten)
    (htouch : ∀ g p, like.touch g p = like'.touch g p) (hny : like.ychunks.sum = like'.ychunks.sum)
    (hnx : like.xchunks.sum = like'.xchunks.sum)
    (hs : a.crsDiffers = false → ∀ regions, t.spatial = some regions → Covers like t.parts regions)
    (hs' : a.crsDiffers = false → ∀ regions, t'.spatial = some regions → Covers like' t'.parts regions)
    (hhull : Covers like t.parts (t.parts.map ext.hull)) (hhull' : Covers like' t'.parts (t'.parts.map ext'.hull))
    (hdt : fieldType a.field = .ok dt)
    (hfill : fillOf a.field dt a.null = .ok fill) (hm : parseMethod a.method = some method)
    (hv : Values np s64 dt fill.val method a.field.isNone t.parts.flatten) :
    ∃ r r' u u', rasterize np s64 ext t like a = .ok (r, u) ∧
      rasterize np s64 ext' t' like' { a with aware := aware } = .ok (r', u') ∧
      r.dtype = r'.dtype ∧ r.nv = r'.nv ∧ r.ny = r'.ny ∧ r.nx = r'.nx ∧
      ∀ y x, y < r.ny → x < r.nx → r.mask (0, y, x) = r'.mask (0, y, x) ∧ r.data (0, y, x) = r'.data (0, y, x) := by
  obtain ⟨r, u, e, d1, d2, _, d3, d4, _, d5⟩ := C33_rasterize_partial hext hgeo hboxes hs hhull hdt hfill hm hv
  obtain ⟨r', u', e', d1', d2', _, d3', d4', _, d5'⟩ := C33_rasterize_partial (a := { a with aware := aware }) hext' hgeo' hboxes' hs'
    hhull' hdt hfill hm (hflat ▸ hv)
  refine ⟨r, r', u, u', e, e', d1.trans d1'.symm, d2.trans d2'.symm, by rw [d3, d3', hny], by rw [d4, d4', hnx], ?_⟩
  intro y x hy hx
  obtain ⟨p1, p2, p3⟩ := d5 y x hy hx
  obtain ⟨p1', p2', p3'⟩ := d5' y x (by rw [d3', ← hny, ← d3]; exact hy) (by rw [d4', ← hnx, ← d4]; exact hx)
  have ht : touching like a.field.isNone t.parts.flatten (y, x) = touching like' a.field.isNone t'.parts.flatten (y, x) := by
    unfold touching
    rw [hflat]
    simp only [htouch]
  have hmask : r.mask (0, y, x) = r'.mask (0, y, x) := by
    rw [Bool.eq_iff_iff, p1, p1', ht]
  refine ⟨hmask, ?_⟩
  cases h : r.mask (0, y, x) with
  | true => rw [p2 h, p2' (hmask ▸ h)]
  | false =>
    have q1 := p3 h
    rw [ht] at q1
    exact picks_unique q1 (p3' (hmask ▸ h))

/-- **C33**: the arguments that are rejected. -/
theorem C33_rejected (np : NumPy) (s64 : Bool) (ext : Ext G) (t : Table G) (like : Like G) (a : Args) :
    ((a.field = .other ∨ a.field = .column none ∨ a.field = .column (some none) ∨
      a.field = .column (some (some .bool))) → rasterize np s64 ext t like a = .error .value) ∧
    ((∃ dt, fieldType a.field = .ok dt) → a.null = .other → rasterize np s64 ext t like a = .error .type) ∧
    ((∃ dt, fieldType a.field = .ok dt) → a.null ≠ .other → a.method ∉ ["first", "last", "min", "max"] →
      rasterize np s64 ext t like a = .error .value) := by
  refine ⟨?_, ?_, ?_⟩
  · intro h
    unfold rasterize
    rcases h with h | h | h | h <;> rw [h] <;> rfl
  · rintro ⟨dt, h⟩ hn
    unfold rasterize
    rw [h]
    simp only
    rw [hn]
    rfl
  · rintro ⟨dt, h⟩ hn hmeth
    obtain ⟨fill, hf⟩ : ∃ fill, fillOf a.field dt a.null = .ok fill := by
      cases hnull : a.null with
      | num s => exact ⟨s, rfl⟩
      | other => exact absurd hnull hn
      | none => unfold fillOf; cases a.field <;> exact ⟨_, rfl⟩
    have hp : parseMethod a.method = none := by
      unfold parseMethod
      split <;> simp_all
    unfold rasterize
    rw [h]
    simp only
    rw [hf]
    simp only
    rw [hp]

/-- **C33**: a table whose field is of an integer or float type gets that type and its default null value, the index
gives int64 and the null value 0; a given null value is used as it is. -/
theorem C33_defaults :
    (∀ dt : DType, dt ≠ .bool → fieldType (.column (some (some dt))) = .ok dt ∧
      fillOf (.column (some (some dt))) dt .none = .ok (defaultNull dt)) ∧
    fieldType .none = .ok i64 ∧ fillOf .none i64 .none = .ok ⟨i64, .fin 0⟩ ∧
    ∀ field dt s, fillOf field dt (.num s) = .ok s := by
  refine ⟨?_, rfl, rfl, fun _ _ _ => rfl⟩
  intro dt h
  cases dt <;> first | exact absurd rfl h | exact ⟨rfl, rfl⟩

/-- **C33**: the names of the methods. -/
theorem C33_methods : ∀ name method, parseMethod name = some method ↔
    (name = "first" ∧ method = .first) ∨ (name = "last" ∧ method = .last) ∨ (name = "min" ∧ method = .min) ∨
      (name = "max" ∧ method = .max) := by
  intro name method
  unfold parseMethod
  split <;> simp_all [eq_comm]

/-- **C33**: the values reach the raster unchanged, except that 64 bit integers pass through float64 if the installed GDAL
cannot rasterize them. -/
theorem C33_rio_values {np : NumPy} (hnp : ExactCast np) {s64 : Bool} {dt : DType} (h : s64 = true ∨ dt ≠ i64 ∧ dt ≠ u64) :
    (∀ k : Int, dt.Holds k → viaRio np s64 dt (.fin k) = .fin k) ∧
    (dt ≠ i8 → ∀ v, viaRio np s64 dt v = v) := by
  have hrio : dt ≠ i8 → rioDtype s64 dt = dt := by
    intro h8
    unfold rioDtype
    rw [if_neg h8, if_neg]
    rintro ⟨h1, h2⟩
    rcases h with h | h
    · rw [h] at h2; cases h2
    · rcases h1 with h1 | h1
      · exact h.1 h1
      · exact h.2 h1
  refine ⟨?_, fun h8 v => by unfold viaRio; rw [if_pos (hrio h8)]⟩
  intro k hk
  unfold viaRio
  by_cases h8 : dt = i8
  · subst h8
    have h16 : (i16).Holds k := by
      obtain ⟨lo, hi, h1, h2, h3⟩ := hk
      cases h1
      exact ⟨_, _, rfl, by omega, by omega⟩
    rw [if_neg (by simp [rioDtype])]
    simp only [rioDtype, if_true]
    rw [hnp _ k h16, hnp _ k hk]
  · rw [if_pos (hrio h8)]

example : ExactCast (idNumPy true) ∧ (true = true ∨ (i8 : DType) ≠ i64 ∧ (i8 : DType) ≠ u64) ∧ (i8).Holds (-128) :=
  ⟨fun _ _ _ => rfl, by decide, _, _, rfl, by decide, by decide⟩

/-! ### Masks -/

namespace Spec

/-- Some feature touches the cell. -/
def Touched (like : Like G) (features : List (Feature G)) (p : Pos) : Prop :=
  ∃ f ∈ features, like.touch f.geom p = true

end Spec

/-- The value of a cell of a mask before null values are set. -/
def MaskRight (invert : Bool) (touched : Prop) (v : Num) : Prop :=
  (touched → v = if invert then .fin 0 else .fin 1) ∧ (¬ touched → v = if invert then .fin 1 else .fin 0)

theorem maskOnto_right {ext : Ext G} {like : Like G} (hext : Lawful ext like) (hgeo : Geometric like) {invert : Bool}
    {part : List (Feature G)} (hempty : ∀ f ∈ part, f.empty = true → ∀ p, like.touch f.geom p = false) {i j : Nat}
    {q : Pos} (hq : InChunk like i j q) :
    MaskRight invert (Touched like part (cellOf like i j q)) (maskOntoChunk ext like invert part i j q) := by
  have hfill : (¬ Touched like part (cellOf like i j q)) →
      MaskRight invert (Touched like part (cellOf like i j q)) (if invert then .fin 1 else .fin 0) :=
    fun h => ⟨fun h' => absurd h' h, fun _ => rfl⟩
  have hbox : ∀ f ∈ part, like.touch f.geom (cellOf like i j q) = true →
      ∃ b, totalBounds like (part.filter fun f => !f.empty) = some b ∧ (like.chunkBox i j).meets b = true := by
    intro f hf ht
    have he : f.empty = false := by
      cases he : f.empty with
      | false => rfl
      | true => rw [hempty f hf he] at ht; cases ht
    exact meets_total (List.mem_filter.mpr ⟨hf, by simp [he]⟩) (hgeo.touch _ _ _ _ hq ht).2
  unfold maskOntoChunk
  simp only
  cases hb : totalBounds like (part.filter fun f => !f.empty) with
  | none =>
    apply hfill
    rintro ⟨f, hf, ht⟩
    obtain ⟨b, h1, _⟩ := hbox f hf ht
    rw [hb] at h1
    cases h1
  | some b =>
    simp only
    split
    · rename_i hm
      apply hfill
      rintro ⟨f, hf, ht⟩
      obtain ⟨b', h1, h2⟩ := hbox f hf ht
      rw [hb, Option.some.injEq] at h1
      rw [← h1] at h2
      simp [h2] at hm
    · have hmem : ∀ f, (∃ k, (k, f) ∈ ext.clip like (like.chunkBox i j) (numbered part)) ↔
          f ∈ part ∧ like.keeps f.geom (like.chunkBox i j) = true := by
        intro f
        constructor
        · rintro ⟨k, hk⟩
          rw [(hext.clip _ _).mem_iff, List.mem_filter] at hk
          refine ⟨?_, hk.2⟩
          rw [← numbered_snd part]
          exact List.mem_map.mpr ⟨(k, f), hk.1, rfl⟩
        · rintro ⟨hf, hk⟩
          rw [← numbered_snd part] at hf
          obtain ⟨e, he, rfl⟩ := List.mem_map.mp hf
          exact ⟨e.1, by rw [(hext.clip _ _).mem_iff, List.mem_filter]; exact ⟨he, hk⟩⟩
      split
      · rename_i hlen
        rw [List.length_eq_zero_iff] at hlen
        apply hfill
        rintro ⟨f, hf, ht⟩
        obtain ⟨k, hk⟩ := (hmem f).mpr ⟨hf, (hgeo.touch _ _ _ _ hq ht).1⟩
        rw [hlen] at hk
        cases hk
      · rw [burn_eq, List.filter_map, List.map_map]
        set cl := (ext.clip like (like.chunkBox i j) (numbered part)).filter
          ((fun s : G × Num => localTouch like i j s.1 q) ∘ fun f : Nat × Feature G =>
            (f.2.geom, if invert then (.fin 0 : Num) else .fin 1)) with hcl
        have hiff : cl ≠ [] ↔ Touched like part (cellOf like i j q) := by
          constructor
          · intro h
            obtain ⟨e, he⟩ := List.exists_mem_of_ne_nil _ h
            obtain ⟨h1, h2⟩ := List.mem_filter.mp he
            exact ⟨e.2, ((hmem e.2).mp ⟨e.1, h1⟩).1, h2⟩
          · rintro ⟨f, hf, ht⟩ hnil
            obtain ⟨k, hk⟩ := (hmem f).mpr ⟨hf, (hgeo.touch _ _ _ _ hq ht).1⟩
            have : (k, f) ∈ cl := List.mem_filter.mpr ⟨hk, ht⟩
            rw [hnil] at this
            cases this
        constructor
        · intro ht
          rw [List.getLast?_map, List.getLast?_eq_getLast_of_ne_nil (hiff.mpr ht)]
          rfl
        · intro ht
          have : cl = [] := by by_contra h; exact ht (hiff.mp h)
          rw [this]
          rfl

theorem exists_cons (u : Prop) (ts : List Prop) : (∃ t ∈ u :: ts, t) ↔ (u ∨ ∃ t ∈ ts, t) := by
  constructor
  · rintro ⟨t, ht, h⟩
    rcases List.mem_cons.mp ht with rfl | ht
    · exact Or.inl h
    · exact Or.inr ⟨t, ht, h⟩
  · rintro (h | ⟨t, ht, h⟩)
    · exact ⟨u, List.mem_cons_self, h⟩
    · exact ⟨t, List.mem_cons_of_mem _ ht, h⟩

theorem reduceMasks_right {invert : Bool} {q : Pos} {d : Img} (hd : d q = if invert then .fin 1 else .fin 0) :
    ∀ (ts : List Prop) (imgs : List Img), List.Forall₂ (fun t (img : Img) => MaskRight invert t (img q)) ts imgs →
    MaskRight invert (∃ t ∈ ts, t) ((reduceMasks invert imgs).getD d q) := by
  have key : ∀ (ts : List Prop) (imgs : List Img) (t : Prop) (a : Img), MaskRight invert t (a q) →
      List.Forall₂ (fun t (img : Img) => MaskRight invert t (img q)) ts imgs →
      MaskRight invert (t ∨ ∃ t ∈ ts, t)
        (imgs.foldl (fun acc b p => if invert then min2 (acc p) (b p) else max2 (acc p) (b p)) a q) := by
    intro ts
    induction ts with
    | nil =>
      intro imgs t a ha h
      cases h
      exact ⟨fun h => ha.1 (by simpa using h), fun h => ha.2 (by simpa using h)⟩
    | cons u ts ih =>
      intro imgs t a ha h
      cases h with
      | cons hb h =>
        rename_i b imgs
        have := ih imgs (t ∨ u) (fun p => if invert then min2 (a p) (b p) else max2 (a p) (b p)) ?_ h
        · rw [List.foldl_cons]
          have e : (t ∨ ∃ t ∈ u :: ts, t) ↔ ((t ∨ u) ∨ ∃ t ∈ ts, t) := by rw [exists_cons, or_assoc]
          exact ⟨fun h => this.1 (e.mp h), fun h => this.2 fun h' => h (e.mpr h')⟩
        · by_cases ht : t <;> by_cases hu : u
          · refine ⟨fun _ => ?_, fun h => absurd (Or.inl ht) h⟩
            simp only [ha.1 ht, hb.1 hu]
            cases invert <;> decide +kernel
          · refine ⟨fun _ => ?_, fun h => absurd (Or.inl ht) h⟩
            simp only [ha.1 ht, hb.2 hu]
            cases invert <;> decide +kernel
          · refine ⟨fun _ => ?_, fun h => absurd (Or.inr hu) h⟩
            simp only [ha.2 ht, hb.1 hu]
            cases invert <;> decide +kernel
          · refine ⟨fun h => (h.elim ht hu).elim, fun _ => ?_⟩
            simp only [ha.2 ht, hb.2 hu]
            cases invert <;> decide +kernel
  intro ts imgs h
  cases h with
  | nil => exact ⟨fun h => by simp at h, fun _ => hd⟩
  | cons ha h =>
    rename_i t a ts imgs
    have := key ts imgs t a ha h
    have e : (∃ t' ∈ t :: ts, t') ↔ (t ∨ ∃ t ∈ ts, t) := exists_cons t ts
    exact ⟨fun h => this.1 (e.mp h), fun h => this.2 fun h' => h (e.mpr h')⟩

theorem touched_matched {like : Like G} {parts : List (List (Feature G))} {regions : List Region}
    (hcov : Covers like parts regions) (hempty : ∀ f ∈ parts.flatten, f.empty = true → ∀ p, like.touch f.geom p = false)
    {i j : Nat} {q : Pos} (hq : InChunk like i j q) :
    (∃ t ∈ (matched like parts regions i j).map (fun part => Touched like part (cellOf like i j q)), t) ↔
      Touched like parts.flatten (cellOf like i j q) := by
  constructor
  · rintro ⟨t, ht, h⟩
    obtain ⟨part, hp, rfl⟩ := List.mem_map.mp ht
    obtain ⟨f, hf, h⟩ := h
    exact ⟨f, List.mem_flatten.mpr ⟨part, mem_matched hp, hf⟩, h⟩
  · rintro ⟨f, hf, ht⟩
    have he : f.empty = false := by
      cases he : f.empty with
      | false => rfl
      | true => rw [hempty f hf he] at ht; cases ht
    obtain ⟨part, hp, hf⟩ := List.mem_flatten.mp hf
    obtain ⟨n, hn, rfl⟩ := List.mem_iff_getElem.mp hp
    have hz : (parts[n], regions[n]'(by rw [hcov.1]; exact hn)) ∈ parts.zip regions :=
      List.mem_iff_getElem.mpr ⟨n, by rw [List.length_zip, hcov.1]; simpa using hn, by rw [List.getElem_zip]⟩
    refine ⟨_, List.mem_map.mpr ⟨parts[n], ?_, rfl⟩, f, hf, ht⟩
    exact List.mem_map.mpr ⟨_, List.mem_filter.mpr ⟨hz, hcov.2 _ hz f hf he i j q hq ht⟩, rfl⟩

/-- **C33** for masks: the cells that some feature touches get 1 and the others are null with 0; inverted, the
touched cells are null with 0 and the others get 1. -/
theorem C33_mask {np : NumPy} {ext : Ext G} {t : Table G} {like : Like G} {invert crsDiffers aware : Bool}
    (hext : Lawful ext like) (hgeo : Geometric like) (hboxes : TwoByTwo like)
    (hs : crsDiffers = false → ∀ regions, t.spatial = some regions → Covers like t.parts regions)
    (hhull : Covers like t.parts (t.parts.map ext.hull))
    (hempty : ∀ f ∈ t.parts.flatten, f.empty = true → ∀ p, like.touch f.geom p = false) :
    ∃ r t', rasterizeMask np ext t like invert none crsDiffers aware = .ok (r, t') ∧ r.dtype = u8 ∧
      r.nv = some ⟨u8, .fin 0⟩ ∧ r.nb = 1 ∧ r.ny = like.ychunks.sum ∧ r.nx = like.xchunks.sum ∧
      ∀ y x, y < r.ny → x < r.nx →
        (r.data (0, y, x) = .fin 0 ∨ r.data (0, y, x) = .fin 1) ∧
        (r.data (0, y, x) = .fin 1 ↔ (Touched like t.parts.flatten (y, x) ↔ invert = false)) ∧
        (r.mask (0, y, x) = true ↔ r.data (0, y, x) = .fin 0) := by
  have hcov := regions_cover hgeo hs hhull (aware := aware)
  obtain ⟨img, h1, h2⟩ := assemble_spec like (fun i j =>
    (reduceMasks invert ((matched like t.parts (regionsFor ext like t crsDiffers aware).1 i j).map fun part =>
      maskOntoChunk ext like invert part i j)).getD fun _ => if invert then .fin 1 else .fin 0)
    (if invert then .fin 1 else .fin 0)
  refine ⟨_, (regionsFor ext like t crsDiffers aware).2, by unfold rasterizeMask maskData; simp only; rw [hasBoxes_of hboxes, if_neg (by decide), h1],
    rfl, rfl, rfl, rfl, rfl, ?_⟩
  intro y x hy hx
  obtain ⟨i, j, q, hq, hc, he⟩ := h2 y x hy hx
  have hr : MaskRight invert (Touched like t.parts.flatten (y, x)) (img (y, x)) := by
    rw [he, ← hc]
    have := reduceMasks_right (invert := invert) (q := q) (d := fun _ => if invert then .fin 1 else .fin 0) rfl
      ((matched like t.parts (regionsFor ext like t crsDiffers aware).1 i j).map
        fun part => Touched like part (cellOf like i j q))
      ((matched like t.parts (regionsFor ext like t crsDiffers aware).1 i j).map fun part =>
        maskOntoChunk ext like invert part i j) (by
        rw [List.forall₂_map_left_iff, List.forall₂_map_right_iff, List.forall₂_same]
        intro part hp
        exact maskOnto_right hext hgeo (fun f hf => hempty f (List.mem_flatten.mpr ⟨part, mem_matched hp, hf⟩)) hq)
    have e := touched_matched hcov hempty hq
    exact ⟨fun h => this.1 (e.mpr h), fun h => this.2 fun h' => h (e.mp h')⟩
  have hval : img (y, x) = .fin 0 ∨ img (y, x) = .fin 1 := by
    by_cases ht : Touched like t.parts.flatten (y, x)
    · rw [hr.1 ht]; cases invert <;> simp
    · rw [hr.2 ht]; cases invert <;> simp
  refine ⟨hval, ?_, ?_⟩
  · show img (y, x) = .fin 1 ↔ _
    by_cases ht : Touched like t.parts.flatten (y, x)
    · rw [hr.1 ht]; cases invert <;> simp [ht]
    · rw [hr.2 ht]; cases invert <;> simp [ht]
  · show maskOf (some (.fin 0)) (img (y, x)) = true ↔ img (y, x) = .fin 0
    unfold maskOf
    simp only
    rw [if_neg (by simp [Num.isnan]), Num.eq_iff]
    exact ⟨fun h => h.1, fun h => ⟨h, by rw [h]; simp⟩⟩

/-! ### A world of rectangles: concrete cases and counterexamples -/

namespace Toy

/-- A geometry: rows and columns of a rectangle of cells, both ends included. -/
structure Rect where
  y0 : Nat
  y1 : Nat
  x0 : Nat
  x1 : Nat

/-- The box around the centres. -/
def rectBox (g : Rect) : Box := ⟨g.x0, g.y0, g.x1, g.y1⟩

/-- A raster with the given chunks. -/
def like (ys xs : List Nat) : Like Rect where
  ychunks := ys
  xchunks := xs
  box := ⟨0, 0, xs.sum, ys.sum⟩
  chunkBox i j := ⟨(xs.take j).sum, (ys.take i).sum, (xs.take (j + 1)).sum, (ys.take (i + 1)).sum⟩
  touch g p := decide (g.y0 ≤ p.1) && decide (p.1 ≤ g.y1) && decide (g.x0 ≤ p.2) && decide (p.2 ≤ g.x1)
  bounds := rectBox
  keeps g b := b.meets (rectBox g)

def insertBy {α : Type} (r : α → α → Bool) (a : α) : List α → List α
  | [] => [a]
  | b :: l => if r a b then a :: b :: l else b :: insertBy r a l

def sortBy {α : Type} (r : α → α → Bool) : List α → List α
  | [] => []
  | a :: l => insertBy r a (sortBy r l)

theorem insertBy_perm {α : Type} (r : α → α → Bool) (a : α) : ∀ l, (insertBy r a l).Perm (a :: l)
  | [] => List.Perm.refl _
  | b :: l => by
    unfold insertBy
    split
    · exact List.Perm.refl _
    · exact ((insertBy_perm r a l).cons b).trans (List.Perm.swap a b l)

theorem sortBy_perm {α : Type} (r : α → α → Bool) : ∀ l, (sortBy r l).Perm l
  | [] => List.Perm.refl _
  | a :: l => (insertBy_perm r a _).trans ((sortBy_perm r l).cons a)

theorem sortBy_sorted {α : Type} (r : α → α → Bool) (total : ∀ a b, r a b = true ∨ r b a = true)
    (trans : ∀ a b c, r a b = true → r b c = true → r a c = true) : ∀ l, (sortBy r l).Pairwise fun a b => r a b = true
  | [] => List.Pairwise.nil
  | a :: l => by
    have ih := sortBy_sorted r total trans l
    show (insertBy r a (sortBy r l)).Pairwise _
    generalize sortBy r l = m at ih
    induction m with
    | nil => exact List.pairwise_singleton _ _
    | cons b m ih' =>
      unfold insertBy
      rw [List.pairwise_cons] at ih
      split
      · rename_i h
        refine List.Pairwise.cons ?_ (List.pairwise_cons.mpr ih)
        intro c hc
        rcases List.mem_cons.mp hc with rfl | hc
        · exact h
        · exact trans _ _ _ h (ih.1 c hc)
      · rename_i h
        refine List.Pairwise.cons ?_ (ih' ih.2)
        intro c hc
        rcases List.mem_cons.mp ((insertBy_perm r a m).mem_iff.mp hc) with rfl | hc
        · exact (total b c).resolve_right h
        · exact ih.1 c hc

def up (a b : Feature Rect) : Bool := a.value.isnan || (!b.value.isnan && Stats.le a.value b.value)
def down (a b : Feature Rect) : Bool := a.value.isnan || (!b.value.isnan && Stats.le b.value a.value)

theorem up_iff (a b : Feature Rect) : up a b = true ↔ a.value = .nan ∨ Le a.value b.value := by
  unfold up
  rw [Bool.or_eq_true, Bool.and_eq_true, isnan_iff, Stats.isnan_false]
  constructor
  · rintro (h | ⟨h1, h2⟩)
    · exact Or.inl h
    · by_cases ha : a.value = .nan
      · exact Or.inl ha
      · exact Or.inr ((Stats.le_iff ha h1).mp h2)
  · rintro (h | h)
    · exact Or.inl h
    · obtain ⟨ha, hb⟩ := Stats.le_not_nan h
      exact Or.inr ⟨hb, (Stats.le_iff ha hb).mpr h⟩

theorem down_iff (a b : Feature Rect) : down a b = true ↔ a.value = .nan ∨ Le b.value a.value := by
  unfold down
  rw [Bool.or_eq_true, Bool.and_eq_true, isnan_iff, Stats.isnan_false]
  constructor
  · rintro (h | ⟨h1, h2⟩)
    · exact Or.inl h
    · by_cases ha : a.value = .nan
      · exact Or.inl ha
      · exact Or.inr ((Stats.le_iff h1 ha).mp h2)
  · rintro (h | h)
    · exact Or.inl h
    · obtain ⟨hb, ha⟩ := Stats.le_not_nan h
      exact Or.inr ⟨hb, (Stats.le_iff hb ha).mpr h⟩

/-- A `clip` that returns the features in reverse order. -/
def ext : Ext Rect where
  clip like box l := (l.filter fun e => like.keeps e.2.geom box).reverse
  sortIdx := sortBy fun a b => decide (a.1 ≤ b.1)
  sortAsc := sortBy up
  sortDesc := sortBy down
  hull fs := fun b => fs.any fun f => !f.empty && b.meets (rectBox f.geom)

theorem lawful (l : Like Rect) : Lawful ext l where
  clip box fs := List.reverse_perm _
  sortIdx fs := ⟨sortBy_perm _ _, (sortBy_sorted (fun a b : Nat × Feature Rect => decide (a.1 ≤ b.1))
    (fun a b => by simp only [decide_eq_true_eq]; exact Nat.le_total _ _)
    (fun a b c => by simp only [decide_eq_true_eq]; exact Nat.le_trans) fs).imp fun h => of_decide_eq_true h⟩
  sortAsc fs := by
    refine ⟨sortBy_perm _ _, (sortBy_sorted up ?_ ?_ fs).imp fun h => (up_iff _ _).mp h⟩
    · intro a b
      rw [up_iff, up_iff]
      by_cases ha : a.value = .nan
      · exact Or.inl (Or.inl ha)
      · by_cases hb : b.value = .nan
        · exact Or.inr (Or.inl hb)
        · exact (Stats.le_total' ha hb).imp Or.inr Or.inr
    · intro a b c
      rw [up_iff, up_iff, up_iff]
      rintro (h | h) h'
      · exact Or.inl h
      · exact Or.inr (Stats.le_trans' h (h'.resolve_left (Stats.le_not_nan h).2))
  sortDesc fs := by
    refine ⟨sortBy_perm _ _, (sortBy_sorted down ?_ ?_ fs).imp fun h => (down_iff _ _).mp h⟩
    · intro a b
      rw [down_iff, down_iff]
      by_cases ha : a.value = .nan
      · exact Or.inl (Or.inl ha)
      · by_cases hb : b.value = .nan
        · exact Or.inr (Or.inl hb)
        · exact (Stats.le_total' hb ha).imp Or.inr Or.inr
    · intro a b c
      rw [down_iff, down_iff, down_iff]
      rintro (h | h) h'
      · exact Or.inl h
      · exact Or.inr (Stats.le_trans' (h'.resolve_left (Stats.le_not_nan h).1) h)

theorem sum_take_succ {l : List Nat} {i h : Nat} (hi : l[i]? = some h) : (l.take (i + 1)).sum = (l.take i).sum + h := by
  rw [List.take_succ, hi]
  simp

theorem sum_take_le (l : List Nat) (i : Nat) : (l.take i).sum ≤ l.sum := by
  conv => rhs; rw [← List.take_append_drop i l, List.sum_append]
  exact Nat.le_add_right _ _

theorem touch_meets {ys xs : List Nat} {g : Rect} {i j : Nat} {q : Pos} (hq : InChunk (like ys xs) i j q)
    (ht : (like ys xs).touch g (cellOf (like ys xs) i j q) = true) :
    ((like ys xs).chunkBox i j).meets (rectBox g) = true := by
  obtain ⟨⟨h, hh, hqh⟩, w, hw, hqw⟩ := hq
  have e1 := sum_take_succ hh
  have e2 := sum_take_succ hw
  simp only [like, cellOf, Bool.and_eq_true, decide_eq_true_eq] at ht hh hw e1 e2 ⊢
  rw [meets_iff]
  simp only [rectBox, Nat.cast_le]
  omega

theorem geometric (ys xs : List Nat) : Geometric (like ys xs) where
  touch g i j q hq ht := ⟨touch_meets hq ht, touch_meets hq ht⟩
  chunks i j hi hj := by
    rw [meets_iff]
    simp only [like]
    refine ⟨?_, ?_, ?_, ?_⟩
    · exact_mod_cast Nat.zero_le _
    · exact_mod_cast sum_take_le _ _
    · exact_mod_cast Nat.zero_le _
    · exact_mod_cast sum_take_le _ _

theorem hulls (ys xs : List Nat) (parts : List (List (Feature Rect))) :
    Covers (like ys xs) parts (parts.map ext.hull) := by
  refine ⟨by simp, ?_⟩
  intro e he f hf hempty i j q hq ht
  have : e.2 = ext.hull e.1 := by
    obtain ⟨n, hn, rfl⟩ := List.mem_iff_getElem.mp he
    simp
  rw [this]
  exact List.any_eq_true.mpr ⟨f, hf, by rw [hempty, touch_meets hq ht]; rfl⟩

/-- Two rectangles with values that overlap. -/
def left (v : Num) : Feature Rect := ⟨⟨0, 2, 0, 1⟩, false, v⟩
def right (v : Num) : Feature Rect := ⟨⟨1, 3, 1, 2⟩, false, v⟩

/-- The arguments for a field of the given type. -/
def args (dt : DType) (null : NullSpec) (method : String) : Args := ⟨.column (some (some dt)), method, null, false, false⟩

def cells (r : Except Err (Raster × Table Rect)) (n m : Nat) : Option (List (List Num)) :=
  match r with
  | .ok r => some ((List.range n).map fun y => (List.range m).map fun x => r.1.data (0, y, x))
  | .error _ => none

def nulls (r : Except Err (Raster × Table Rect)) (n m : Nat) : Option (List (List Bool)) :=
  match r with
  | .ok r => some ((List.range n).map fun y => (List.range m).map fun x => r.1.mask (0, y, x))
  | .error _ => none

end Toy

open Toy

/-- A concrete case for `C33_rasterize_partial` and `C33_partitions_partial`. -/
example : Lawful ext (like [2, 2] [2, 2]) ∧ Geometric (like [2, 2] [2, 2]) ∧ TwoByTwo (like [2, 2] [2, 2]) ∧
    Covers (like [2, 2] [2, 2]) [[left (.fin 7)], [right (.fin 5)]] ([[left (.fin 7)], [right (.fin 5)]].map ext.hull) ∧
    (∀ method : Method, Values (idNumPy true) true f64 (.fin (-1)) method false
      ([[left (.fin 7)], [right (.fin 5)]] : List (List (Feature Rect))).flatten) ∧
    touching (like [2, 2] [2, 2]) false [left (.fin 7), right (.fin 5)] (2, 1) = [.fin 7, .fin 5] ∧
    cells (rasterize (idNumPy true) true ext ⟨[[left (.fin 7)], [right (.fin 5)]], none⟩ (like [2, 2] [2, 2])
      (args f64 (.num ⟨f64, .fin (-1)⟩) "min")) 4 3 =
      some [[.fin 7, .fin 7, .fin (-1)], [.fin 7, .fin 5, .fin 5], [.fin 7, .fin 5, .fin 5],
        [.fin (-1), .fin 5, .fin 5]] ∧
    cells (rasterize (idNumPy true) true ext ⟨[[left (.fin 7)], [right (.fin 5)]], none⟩ (like [2, 2] [2, 2])
      (args f64 (.num ⟨f64, .fin (-1)⟩) "first")) 4 3 =
      some [[.fin 7, .fin 7, .fin (-1)], [.fin 7, .fin 7, .fin 5], [.fin 7, .fin 7, .fin 5],
        [.fin (-1), .fin 5, .fin 5]] := by
  refine ⟨lawful _, geometric _ _, by simp [TwoByTwo, like], hulls _ _ _, ?_, by decide +kernel, by decide +kernel, by decide +kernel⟩
  intro method
  refine ⟨by simp, rfl, by decide +kernel, ?_, ?_, ?_⟩
  · intro f hf
    simp [viaRio, rioDtype]
  · intro f hf
    simp only [List.flatten_cons, List.flatten_nil, List.mem_append, List.mem_singleton, List.not_mem_nil, or_false] at hf
    rcases hf with rfl | rfl <;> simp [burnValue, left, right] <;> norm_num
  · intro _ f hf
    simp only [List.flatten_cons, List.flatten_nil, List.mem_append, List.mem_singleton, List.not_mem_nil, or_false] at hf
    rcases hf with rfl | rfl <;> simp [left, right]

/-- A concrete case for `C33_mask`. -/
example : (∀ f ∈ ([[left (.fin 7)], [right (.fin 5)]] : List (List (Feature Rect))).flatten, f.empty = true →
      ∀ p, (like [2, 2] [2, 2]).touch f.geom p = false) ∧
    Touched (like [2, 2] [2, 2]) [left (.fin 7), right (.fin 5)] (3, 1) ∧
    nulls (rasterizeMask (idNumPy true) ext ⟨[[left (.fin 7)], [right (.fin 5)]], none⟩ (like [2, 2] [2, 2]) true none
      false false) 4 3 =
      some [[true, true, false], [true, true, true], [true, true, true], [false, true, true]] := by
  refine ⟨?_, ⟨right (.fin 5), by simp, by decide +kernel⟩, by decide +kernel⟩
  intro f hf
  simp only [List.flatten_cons, List.flatten_nil, List.mem_append, List.mem_singleton, List.not_mem_nil, or_false] at hf
  rcases hf with rfl | rfl <;> simp [left, right]

/-- A concrete case for `C33_rejected`. -/
example : rasterize (idNumPy true) true ext ⟨[[left (.fin 7)]], none⟩ (like [2, 2] [2, 2])
      (args f64 .none "mean") = .error .value ∧
    rasterize (idNumPy true) true ext ⟨[[left (.fin 7)]], none⟩ (like [2, 2] [2, 2])
      (args .bool .none "min") = .error .value ∧
    rasterize (idNumPy true) true ext ⟨[[left (.fin 7)]], none⟩ (like [2, 2] [2, 2])
      (args f64 .other "min") = .error .type := ⟨rfl, rfl, rfl⟩

/-- **C33 fails** for the null value NaN: with two partitions `first` keeps the NaN of the first partition where only
the second one touches; in one partition the value is there. -/
theorem C33_nan_null_value :
    cells (rasterize (idNumPy true) true ext ⟨[[left (.fin 7)], [right (.fin 5)]], none⟩ (like [4] [3])
      (args f64 (.num ⟨f64, .nan⟩) "first")) 4 3 =
      some [[.fin 7, .fin 7, .nan], [.fin 7, .fin 7, .nan], [.fin 7, .fin 7, .nan], [.nan, .nan, .nan]] ∧
    cells (rasterize (idNumPy true) true ext ⟨[[left (.fin 7), right (.fin 5)]], none⟩ (like [4] [3])
      (args f64 (.num ⟨f64, .nan⟩) "first")) 4 3 =
      some [[.fin 7, .fin 7, .nan], [.fin 7, .fin 7, .fin 5], [.fin 7, .fin 7, .fin 5], [.nan, .fin 5, .fin 5]] := by
  constructor <;> decide +kernel

/-- **C33 fails** for NaN values: `min` skips them within a partition, and takes them across partitions. -/
theorem C33_nan_values :
    cells (rasterize (idNumPy true) true ext ⟨[[left .nan], [right (.fin 5)]], none⟩ (like [4] [3])
      (args f64 (.num ⟨f64, .fin (-1)⟩) "min")) 4 3 =
      some [[.nan, .nan, .fin (-1)], [.nan, .nan, .fin 5], [.nan, .nan, .fin 5], [.fin (-1), .fin 5, .fin 5]] ∧
    cells (rasterize (idNumPy true) true ext ⟨[[left .nan, right (.fin 5)]], none⟩ (like [4] [3])
      (args f64 (.num ⟨f64, .fin (-1)⟩) "min")) 4 3 =
      some [[.nan, .nan, .fin (-1)], [.nan, .fin 5, .fin 5], [.nan, .fin 5, .fin 5], [.fin (-1), .fin 5, .fin 5]] := by
  constructor <;> decide +kernel

/-- **C33 fails** for a feature value equal to the null value: across partitions it counts as untouched. -/
theorem C33_value_is_null_value :
    cells (rasterize (idNumPy true) true ext ⟨[[left (.fin 0)], [right (.fin 5)]], none⟩ (like [4] [3])
      (args f64 (.num ⟨f64, .fin 0⟩) "first")) 4 3 =
      some [[.fin 0, .fin 0, .fin 0], [.fin 0, .fin 5, .fin 5], [.fin 0, .fin 5, .fin 5], [.fin 0, .fin 5, .fin 5]] ∧
    cells (rasterize (idNumPy true) true ext ⟨[[left (.fin 0), right (.fin 5)]], none⟩ (like [4] [3])
      (args f64 (.num ⟨f64, .fin 0⟩) "first")) 4 3 =
      some [[.fin 0, .fin 0, .fin 0], [.fin 0, .fin 0, .fin 5], [.fin 0, .fin 0, .fin 5], [.fin 0, .fin 5, .fin 5]] := by
  constructor <;> decide +kernel

/-- The rasters of two calls one after the other with the same vector object. -/
def twice (t : Table Rect) (a b : Like Rect) (args : Args) : Option (List (List Num)) :=
  match rasterize (idNumPy true) true ext t a args with
  | .error _ => none
  | .ok first => cells (rasterize (idNumPy true) true ext first.2 b args) 6 2

/-- **C33 fails** for a second call: without spatial partitions the first call leaves the box of its raster in the
vector as spatial partitions, so that the second call, onto a larger raster, skips chunks that features touch. -/
theorem C33_second_call :
    twice ⟨[[⟨⟨1, 5, 1, 2⟩, false, .fin 5⟩]], none⟩ (like [2] [2]) (like [2, 2, 2] [2])
      (args f64 (.num ⟨f64, .fin 0⟩) "first") =
      some [[.fin 0, .fin 0], [.fin 0, .fin 5], [.fin 0, .fin 5], [.fin 0, .fin 5], [.fin 0, .fin 0], [.fin 0, .fin 0]] ∧
    cells (rasterize (idNumPy true) true ext ⟨[[⟨⟨1, 5, 1, 2⟩, false, .fin 5⟩]], none⟩ (like [2, 2, 2] [2])
      (args f64 (.num ⟨f64, .fin 0⟩) "first")) 6 2 =
      some [[.fin 0, .fin 0], [.fin 0, .fin 5], [.fin 0, .fin 5], [.fin 0, .fin 5], [.fin 0, .fin 5], [.fin 0, .fin 5]] := by
  constructor <;> decide +kernel

/-- **C33 fails** for rasters that have a chunk with a single row or column: nothing is rasterized. -/
theorem C33_single_row_chunk (np : NumPy) (s64 : Bool) (ext : Ext G) (t : Table G) (like : Like G) (a : Args)
    (invert crsDiffers aware : Bool) (null : Option NullArg) (h : ¬ TwoByTwo like) :
    (∃ e, rasterize np s64 ext t like a = .error e) ∧
    rasterizeMask np ext t like invert null crsDiffers aware = .error .oneDim := by
  have hb : hasBoxes like = false := by
    rw [Bool.eq_false_iff]
    exact fun h' => h ((hasBoxes_iff like).mp h')
  constructor
  · unfold rasterize
    split
    · exact ⟨_, rfl⟩
    · split
      · exact ⟨_, rfl⟩
      · split
        · exact ⟨_, rfl⟩
        · rw [hb]
          exact ⟨_, rfl⟩
  · unfold rasterizeMask
    rw [hb]
    rfl

example : ¬ TwoByTwo (like [4, 1] [4]) := by
  rintro ⟨h, _⟩
  exact absurd (h 1 (by simp [like])) (by decide)

/-- **C33 fails** for masks with the null value 1: all cells are null. -/
theorem C33_mask_null_value_one :
    nulls (rasterizeMask (idNumPy true) ext ⟨[[left (.fin 7)]], none⟩ (like [4] [3]) false (some (.int 1)) false false) 4 3 =
      some [[true, true, true], [true, true, true], [true, true, true], [true, true, true]] := by
  decide +kernel

end Verif.Rasterize
