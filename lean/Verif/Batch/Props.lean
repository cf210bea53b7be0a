import Verif.Batch.Model
import Verif.Stats.Model

/-! # C69: batch scripts -/

set_option linter.unusedSectionVars false

namespace Verif.Batch

open Verif Verif.Nulls

namespace Spec

/-- Blanks of ASCII. -/
def space (c : Char) : Bool := c == ' ' || c == '\n' || c == '\t' || c == '\r' || c == '\x0b' || c == '\x0c'

/-- Letters of ASCII. -/
def letter (c : Char) : Bool := c.isAlpha

/-- A name in a directory. -/
def path : Text → Text → Text
  | _, '/' :: n => '/' :: n
  | [], n => n
  | d, n => if d.getLastD '/' = '/' then d ++ n else d ++ '/' :: n

/-- Blanks. -/
def Spaces (s : Text) : Prop := ∀ c ∈ s, space c = true

/-- No blanks at the ends. -/
def Trim (s : Text) : Prop := ∀ c, s.head? = some c ∨ s.getLast? = some c → space c = false

/-- `s` is `t` with blanks around it. -/
def Padded (s t : Text) : Prop := Trim t ∧ ∃ p q, Spaces p ∧ Spaces q ∧ s = p ++ t ++ q

/-- Nothing or a comment. -/
def Comment (s : Text) : Prop := s = [] ∨ ∃ c, s = '#' :: c

/-- A line without a statement. -/
def Blank (line : Text) : Prop := ∃ s c, Spaces s ∧ Comment c ∧ line = s ++ c

/-- A line `name = func(args)`, with blanks and a comment. -/
def Statement (line name func args : Text) : Prop :=
  ∃ l r c, line = l ++ '=' :: r ++ c ∧ Comment c ∧ Padded l name ∧ Padded r (func ++ '(' :: args ++ [')']) ∧
    (∀ x ∈ l, x ≠ '#' ∧ x ≠ '=') ∧ func ≠ [] ∧ (∀ x ∈ func, letter x = true) ∧
    args ≠ [] ∧ ∀ x ∈ args, x ≠ '#' ∧ x ≠ '=' ∧ x ≠ '(' ∧ x ≠ ')'

/-- Parts between separators, with blanks around them. -/
inductive Parts (d : Char) : Text → List Text → Prop where
  | last {s t} : d ∉ s → Padded s t → Parts d s [t]
  | cons {s t rest l} : d ∉ s → Padded s t → Parts d rest l → Parts d (s ++ d :: rest) (t :: l)

/-- Parts between semicolons. -/
abbrev Fields := Parts ';'

variable {R : Type}

/-- A name is that of an earlier line, or else of a file, relative to the script. -/
def Refers (ops : Ops R) (loc : Text) (env : Text → Option R) (name : Text) (r : R) : Prop :=
  env name = some r ∨ env name = none ∧ ops.isFile (path loc name) = true ∧ ops.openRaster (path loc name) = some r

/-- The functions that work. -/
inductive Gives (ops : Ops R) (loc : Text) (env : Text → Option R) : Text → Text → R → Prop where
  | openRaster {args r} : Refers ops loc env args r → Gives ops loc env "OPENRASTER".toList args r
  | nullToValue {args name value v r r'} : Fields args [name, value] → ops.float value = some v → Refers ops loc env name r →
      ops.replaceNull r v = some r' → Gives ops loc env "NULLTOVALUE".toList args r'
  | composite {args names rs r'} : Fields args names → List.Forall₂ (Refers ops loc env) names rs → 2 ≤ rs.length →
      ops.stack rs = some r' → Gives ops loc env "COMPOSITE".toList args r'
  | save {args name out dir r r'} : Fields args [name, out, dir, "TIFF".toList] → Refers ops loc env name r →
      ops.save r (path dir out ++ ".tif".toList) (.fin 0) [] = some r' → Gives ops loc env "SAVEFUNCTIONRASTER".toList args r'
  | saveNull {args name out dir nodata v r r'} : Fields args [name, out, dir, "TIFF".toList, nodata] → ops.float nodata = some v →
      Refers ops loc env name r → ops.save r (path dir out ++ ".tif".toList) v [] = some r' →
      Gives ops loc env "SAVEFUNCTIONRASTER".toList args r'
  | saveWidth {args name out dir nodata width v w r r'} : Fields args [name, out, dir, "TIFF".toList, nodata, width] →
      ops.float nodata = some v → ops.int width = some w →
      Refers ops loc env name r → ops.save r (path dir out ++ ".tif".toList) v [w] = some r' →
      Gives ops loc env "SAVEFUNCTIONRASTER".toList args r'
  | saveBlock {args name out dir nodata width height v w h r r'} :
      Fields args [name, out, dir, "TIFF".toList, nodata, width, height] →
      ops.float nodata = some v → ops.int width = some w → ops.int height = some h →
      Refers ops loc env name r → ops.save r (path dir out ++ ".tif".toList) v [h, w] = some r' →
      Gives ops loc env "SAVEFUNCTIONRASTER".toList args r'

/-- IEEE `y <= x`. -/
def LessEq (y x : Num) : Prop := y ≠ .nan ∧ x ≠ .nan ∧ Stats.lt x y = false

/-- Minimum, maximum and new value, between colons. -/
def Range (ops : Ops R) (g : Text) : Prop :=
  ∃ a b c x y z, Parts ':' g [a, b, c] ∧ ops.float a = some x ∧ ops.float b = some y ∧ ops.float c = some z ∧ ¬ LessEq y x

/-- A number or a raster. -/
def IsOperand (ops : Ops R) (loc : Text) (env : Text → Option R) (s : Text) : Prop :=
  (∃ v, ops.float s = some v) ∨ ∃ r, Refers ops loc env s r

/-- Running the lines, from names and the name last set to those after it. -/
inductive Run (ops : Ops R) (loc : Text) : List Text → (Text → Option R) × Option Text → (Text → Option R) × Option Text → Prop where
  | done {s} : Run ops loc [] s s
  | blank {line lines s s'} : Blank line → Run ops loc lines s s' → Run ops loc (line :: lines) s s'
  | statement {line lines env last name func args r s'} : Statement line name func args → Gives ops loc env (func.map Char.toUpper) args r →
      Run ops loc lines (fun n => if n = name then some r else env n, some name) s' → Run ops loc (line :: lines) (env, last) s'

end Spec

open Spec

/-! ### Characters and paths -/

theorem isSpace_eq : isSpace = space := by
  funext c
  unfold isSpace space
  rw [Bool.eq_iff_iff]
  simp
  tauto

theorem isLetter_eq : isLetter = letter := by
  funext c
  simp only [isLetter, letter, Char.isAlpha, Char.isUpper, Char.isLower]
  rw [Bool.decide_and]
  rfl

theorem join_eq : join = path := by
  funext d n
  unfold join
  by_cases hn : ∃ n', n = '/' :: n'
  · obtain ⟨n', rfl⟩ := hn
    simp [path]
  · have h1 : n.head? ≠ some '/' := by
      intro h
      cases n with
      | nil => cases h
      | cons c n' =>
        cases h
        exact hn ⟨n', rfl⟩
    rw [if_neg h1]
    cases d with
    | nil =>
      rw [if_pos (by simp), path]
      · rfl
      · exact fun n' e => hn ⟨n', e⟩
    | cons a d =>
      rw [path]
      · have : ((a :: d).getLast? = some '/') ↔ (a :: d).getLastD '/' = '/' := by
          rw [List.getLastD_eq_getLast?, List.getLast?_eq_some_getLast (by simp), Option.getD_some, Option.some.injEq]
        by_cases h : (a :: d).getLastD '/' = '/'
        · rw [if_pos h, if_pos (by simp [this.2 h])]
        · have h2 := fun e => h (this.1 e)
          rw [if_neg h, if_neg (by simpa using h2)]
      · simp
      · exact fun n' e => hn ⟨n', e⟩

theorem strip_def (s : Text) : strip s = ((s.dropWhile space).reverse.dropWhile space).reverse := by
  rw [← isSpace_eq]
  rfl

/-! ### Splitting and stripping -/

theorem splitOn_ne_nil (d : Char) (s : Text) : splitOn d s ≠ [] := by
  cases s with
  | nil => simp [splitOn]
  | cons c s =>
    unfold splitOn
    split
    · simp
    · split <;> simp

theorem splitOn_cons_ne {d c : Char} (h : c ≠ d) (s : Text) : ∃ x l, splitOn d s = x :: l ∧ splitOn d (c :: s) = (c :: x) :: l := by
  cases hs : splitOn d s with
  | nil => exact absurd hs (splitOn_ne_nil d s)
  | cons x l =>
    refine ⟨x, l, rfl, ?_⟩
    rw [splitOn, if_neg h, hs]

theorem splitOn_none {d : Char} : ∀ {s : Text}, d ∉ s → splitOn d s = [s]
  | [], _ => rfl
  | c :: s, h => by
    rw [List.mem_cons, not_or] at h
    rw [splitOn, if_neg (Ne.symm h.1), splitOn_none h.2]

theorem splitOn_some {d : Char} (b : Text) : ∀ {a : Text}, d ∉ a → splitOn d (a ++ d :: b) = a :: splitOn d b
  | [], _ => by rw [List.nil_append, splitOn, if_pos rfl]
  | c :: a, h => by
    rw [List.mem_cons, not_or] at h
    rw [List.cons_append, splitOn, if_neg (Ne.symm h.1), splitOn_some b h.2]

theorem splitOn_cases (d : Char) : ∀ s : Text, d ∉ s ∧ splitOn d s = [s] ∨ ∃ a b, d ∉ a ∧ s = a ++ d :: b ∧ splitOn d s = a :: splitOn d b
  | [] => .inl ⟨by simp, rfl⟩
  | c :: s => by
    by_cases h : c = d
    · subst h
      exact .inr ⟨[], s, by simp, rfl, by rw [splitOn, if_pos rfl]⟩
    · rcases splitOn_cases d s with ⟨h1, h2⟩ | ⟨a, b, h1, rfl, h3⟩
      · exact .inl ⟨by simp [h1, Ne.symm h], by rw [splitOn, if_neg h, h2]⟩
      · exact .inr ⟨c :: a, b, by simp [h1, Ne.symm h], rfl, by rw [splitOn, if_neg h, h3]⟩

theorem dropWhile_spec (p : Char → Bool) : ∀ s : Text, ∃ a, (∀ c ∈ a, p c = true) ∧ s = a ++ s.dropWhile p ∧
    ∀ c, (s.dropWhile p).head? = some c → p c = false
  | [] => ⟨[], by simp, rfl, by simp⟩
  | c :: s => by
    by_cases h : p c = true
    · obtain ⟨a, h1, h2, h3⟩ := dropWhile_spec p s
      refine ⟨c :: a, by simpa [h] using h1, ?_, ?_⟩
      · rw [List.dropWhile_cons, if_pos h, List.cons_append, ← h2]
      · rw [List.dropWhile_cons, if_pos h]; exact h3
    · refine ⟨[], by simp, ?_, ?_⟩
      · rw [List.dropWhile_cons, if_neg h]; rfl
      · rw [List.dropWhile_cons, if_neg h]
        intro c' hc
        cases hc
        simpa using h

theorem dropWhile_append {p : Char → Bool} {a s : Text} (ha : ∀ c ∈ a, p c = true) (hs : ∀ c, s.head? = some c → p c = false) :
    (a ++ s).dropWhile p = s := by
  induction a with
  | nil =>
    rw [List.nil_append]
    cases s with
    | nil => rfl
    | cons c s =>
      have := hs c rfl
      simp [this]
  | cons c a ih =>
    rw [List.cons_append, List.dropWhile_cons, if_pos (ha c List.mem_cons_self)]
    exact ih fun c hc => ha c (List.mem_cons_of_mem _ hc)

theorem strip_padded (s : Text) : Padded s (strip s) := by
  obtain ⟨a, h1, h2, h3⟩ := dropWhile_spec space s
  obtain ⟨b, g1, g2, g3⟩ := dropWhile_spec space (s.dropWhile space).reverse
  have e : s.dropWhile space = strip s ++ b.reverse := by
    have := congrArg List.reverse g2
    rw [List.reverse_reverse, List.reverse_append] at this
    rw [strip_def]
    exact this
  refine ⟨?_, a, b.reverse, h1, fun c hc => g1 c (List.mem_reverse.1 hc), ?_⟩
  · intro c hc
    rcases hc with hc | hc
    · refine h3 c ?_
      rw [e, List.head?_append, hc]
      rfl
    · refine g3 c ?_
      rw [strip_def] at hc
      rw [List.getLast?_reverse] at hc
      exact hc
  · rw [List.append_assoc, ← e]
    exact h2

theorem strip_of_padded {s t : Text} (h : Padded s t) : strip s = t := by
  obtain ⟨ht, p, q, hp, hq, rfl⟩ := h
  by_cases hn : t = []
  · subst hn
    rw [List.append_nil]
    have : (p ++ q).dropWhile space = [] := by
      have := dropWhile_append (p := space) (a := p ++ q) (s := []) (fun c hc => by
        rcases List.mem_append.1 hc with hc | hc
        · exact hp c hc
        · exact hq c hc) (by simp)
      rwa [List.append_nil] at this
    rw [strip_def]
    rw [this]
    rfl
  · have e1 : (p ++ t ++ q).dropWhile space = t ++ q := by
      rw [List.append_assoc]
      refine dropWhile_append hp fun c hc => ht c (.inl ?_)
      cases t with
      | nil => exact absurd rfl hn
      | cons c' t => exact hc
    rw [strip_def]
    rw [e1, List.reverse_append, dropWhile_append, List.reverse_reverse]
    · intro c hc; exact hq c (List.mem_reverse.1 hc)
    · intro c hc
      refine ht c (.inr ?_)
      rw [List.head?_reverse] at hc
      exact hc

theorem strip_iff {s t : Text} : strip s = t ↔ Padded s t :=
  ⟨fun h => h ▸ strip_padded s, strip_of_padded⟩

theorem fields_iff {d : Char} {s : Text} {l : List Text} : splitStrip s d = l ↔ Parts d s l := by
  unfold splitStrip
  constructor
  · intro h
    induction hn : s.length using Nat.strong_induction_on generalizing s l with
    | _ n ih =>
      rcases splitOn_cases d s with ⟨h1, h2⟩ | ⟨a, b, h1, rfl, h3⟩
      · rw [h2] at h
        subst h
        exact .last h1 (strip_padded s)
      · rw [h3] at h
        subst h
        refine .cons h1 (strip_padded a) (ih b.length ?_ rfl rfl)
        rw [List.length_append, List.length_cons] at hn
        omega
  · intro h
    induction h with
    | last h1 h2 => rw [splitOn_none h1, List.map_cons, strip_of_padded h2]; rfl
    | cons h1 h2 _ ih => rw [splitOn_some _ h1, List.map_cons, strip_of_padded h2, ih]

/-! ### Functions -/

variable {R : Type} {ops : Ops R} {loc : Text} {env : Text → Option R}

theorem raise_ok {o : Option R} {r : R} : raise o = .ok r ↔ o = some r := by
  cases o <;> simp [raise]

theorem getRaster_ok {name : Text} {r : R} : getRaster ops loc env name = .ok r ↔ Refers ops loc env name r := by
  unfold getRaster Refers openFile
  rw [join_eq]
  cases env name with
  | some r' => simp
  | none =>
    by_cases h : ops.isFile (path loc name) = true
    · simp [h, raise_ok]
    · simp [h]

theorem getRasters_ok {names : List Text} {rs : List R} :
    getRasters ops loc env names = .ok rs ↔ List.Forall₂ (Refers ops loc env) names rs := by
  induction names generalizing rs with
  | nil =>
    simp only [getRasters, Except.ok.injEq, List.forall₂_nil_left_iff]
    exact eq_comm
  | cons n names ih =>
    rw [List.forall₂_cons_left_iff]
    unfold getRasters
    constructor
    · intro h
      split at h
      · cases h
      · next r hr =>
        split at h
        · cases h
        · next rs' hrs =>
          cases h
          exact ⟨r, rs', getRaster_ok.1 hr, ih.1 hrs, rfl⟩
    · rintro ⟨r, rs', hr, hrs, rfl⟩
      rw [getRaster_ok.2 hr]
      simp only
      rw [ih.2 hrs]

theorem arithmetic_fails (args : Text) (r : R) : parseArithmetic ops loc env args ≠ .ok r := by
  unfold parseArithmetic
  intro h
  split at h
  · split at h
    · cases h
    · split at h
      · cases h
      · split at h <;> cases h
  · cases h

theorem remap_fails (args : Text) (r : R) : parseRemap ops loc env args ≠ .ok r := by
  unfold parseRemap
  intro h
  split at h
  · split at h
    · cases h
    · split at h <;> cases h
  · cases h
  · cases h

theorem getRaster_not_type {name : Text} : getRaster ops loc env name ≠ .error .type ∧ getRaster ops loc env name ≠ .error .attribute := by
  unfold getRaster openFile raise
  cases env name with
  | some r' => simp
  | none =>
    by_cases h : ops.isFile (join loc name) = true
    · simp only [h, if_true]
      cases ops.openRaster (join loc name) <;> simp
    · simp [h]

theorem leq_iff (y x : Num) : leq y x = true ↔ LessEq y x := by
  unfold LessEq
  cases x <;> cases y <;> simp [leq, Stats.lt]

theorem remapGroup_iff {g : Text} : remapGroup ops g = true ↔ Spec.Range ops g := by
  unfold remapGroup
  constructor
  · intro h
    split at h
    · next x y z hs =>
      have hlen : (splitStrip g ':').length = 3 := by
        have := congrArg List.length hs
        rwa [List.length_map] at this
      obtain ⟨a, b, c, hl⟩ := List.length_eq_three.1 hlen
      rw [hl, List.map_cons, List.map_cons, List.map_cons, List.map_nil, List.cons.injEq, List.cons.injEq, List.cons.injEq] at hs
      refine ⟨a, b, c, x, y, z, fields_iff.1 hl, hs.1, hs.2.1, hs.2.2.1, fun hle => ?_⟩
      rw [leq_iff _ _ |>.2 hle] at h
      cases h
    · cases h
  · rintro ⟨a, b, c, x, y, z, h1, h2, h3, h4, h5⟩
    rw [fields_iff.2 h1, List.map_cons, List.map_cons, List.map_cons, List.map_nil, h2, h3, h4]
    simp only [Bool.not_eq_true']
    by_contra hcon
    rw [Bool.not_eq_false, leq_iff] at hcon
    exact h5 hcon

/-- **C69 is false for `REMAP`**: what is well formed is a TypeError. -/
theorem C69_remap (args : Text) : parseRemap ops loc env args = .error .type ↔
    ∃ name groups gs r, Fields args [name, groups] ∧ Parts ',' groups gs ∧ (∀ g ∈ gs, Spec.Range ops g) ∧ Refers ops loc env name r := by
  unfold parseRemap
  constructor
  · intro h
    split at h
    · next name groups hs =>
      split at h
      · cases h
      · next hg =>
        rw [Bool.not_eq_true, Bool.not_eq_false', List.all_eq_true] at hg
        split at h
        · next e he =>
          cases h
          exact absurd he getRaster_not_type.1
        · next r hr =>
          exact ⟨name, groups, _, r, fields_iff.1 hs, fields_iff.1 rfl, fun g hgm => remapGroup_iff.1 (hg g hgm), getRaster_ok.1 hr⟩
    · cases h
    · cases h
  · rintro ⟨name, groups, gs, r, h1, h2, h3, h4⟩
    rw [fields_iff.2 h1]
    simp only [fields_iff.2 h2]
    rw [if_neg, getRaster_ok.2 h4]
    rw [Bool.not_eq_true, Bool.not_eq_false', List.all_eq_true]
    exact fun g hg => remapGroup_iff.2 (h3 g hg)

theorem operand_iff {s : Text} : operand ops loc env s = .ok () ↔ IsOperand ops loc env s := by
  unfold operand IsOperand
  cases ops.float s with
  | some v => simp
  | none =>
    constructor
    · intro h
      simp only at h
      split at h
      · next r hr => exact .inr ⟨r, getRaster_ok.1 hr⟩
      · cases h
    · rintro (⟨v, h⟩ | ⟨r, h⟩)
      · cases h
      · rw [getRaster_ok.2 h]

theorem operand_not {s : Text} : operand ops loc env s ≠ .error .attribute := by
  unfold operand
  cases ops.float s with
  | some v => simp
  | none =>
    simp only
    intro h
    split at h
    · cases h
    · next e he =>
      cases h
      exact getRaster_not_type.2 he

/-- **C69 is false for `ARITHMETIC`**: what is well formed is an AttributeError. -/
theorem C69_arithmetic (args : Text) : parseArithmetic ops loc env args = .error .attribute ↔
    ∃ left right op, Fields args [left, right, op] ∧ IsOperand ops loc env left ∧ IsOperand ops loc env right ∧
      op ∈ ["+", "-", "*", "/", "%", "**", "esriRasterPlus", "esriRasterMinus", "esriRasterMultiply", "esriRasterDivide", "esriRasterMode",
        "esriRasterPower"].map (·.toList) := by
  have hk : ∀ op : Text, op ∈ knownOps ↔ op ∈ ["+", "-", "*", "/", "%", "**", "esriRasterPlus", "esriRasterMinus", "esriRasterMultiply",
      "esriRasterDivide", "esriRasterMode", "esriRasterPower"].map (·.toList) := by
    intro op
    have hp : knownOps.Perm (["+", "-", "*", "/", "%", "**", "esriRasterPlus", "esriRasterMinus", "esriRasterMultiply",
      "esriRasterDivide", "esriRasterMode", "esriRasterPower"].map (·.toList)) := by decide +kernel
    exact hp.mem_iff
  unfold parseArithmetic
  constructor
  · intro h
    split at h
    · next left right op hs =>
      split at h
      · cases h
      · next ho =>
        rw [not_not] at ho
        split at h
        · next e he =>
          cases h
          exact absurd he operand_not
        · next hl =>
          split at h
          · next e he =>
            cases h
            exact absurd he operand_not
          · next hr => exact ⟨left, right, op, fields_iff.1 hs, operand_iff.1 hl, operand_iff.1 hr, (hk op).1 ho⟩
    · cases h
  · rintro ⟨left, right, op, h1, h2, h3, h4⟩
    rw [fields_iff.2 h1]
    simp only [operand_iff.2 h2, operand_iff.2 h3]
    rw [if_neg (not_not.2 ((hk op).2 h4))]

theorem nullToValue_ok {args : Text} {r' : R} : parseNullToValue ops loc env args = .ok r' ↔
    ∃ name value v r, Fields args [name, value] ∧ ops.float value = some v ∧ Refers ops loc env name r ∧ ops.replaceNull r v = some r' := by
  unfold parseNullToValue
  constructor
  · intro h
    split at h
    · next name value hs =>
      split at h
      · cases h
      · next v hv =>
        split at h
        · cases h
        · next r hr => exact ⟨name, value, v, r, fields_iff.1 hs, hv, getRaster_ok.1 hr, raise_ok.1 h⟩
    · cases h
    · cases h
  · rintro ⟨name, value, v, r, h1, h2, h3, h4⟩
    rw [fields_iff.2 h1]
    simp only [h2, getRaster_ok.2 h3, raise_ok.2 h4]

theorem composite_ok {args : Text} {r' : R} : parseComposite ops loc env args = .ok r' ↔
    ∃ names rs, Fields args names ∧ List.Forall₂ (Refers ops loc env) names rs ∧ 2 ≤ rs.length ∧ ops.stack rs = some r' := by
  unfold parseComposite
  constructor
  · intro h
    split at h
    · cases h
    · next rs hrs =>
      split at h
      · cases h
      · exact ⟨_, rs, fields_iff.1 rfl, getRasters_ok.1 hrs, by omega, raise_ok.1 h⟩
  · rintro ⟨names, rs, h1, h2, h3, h4⟩
    rw [fields_iff.2 h1, getRasters_ok.2 h2]
    simp only
    rw [if_neg (by omega), raise_ok.2 h4]

theorem open_ok {args : Text} {r : R} : parseOpen ops loc env args = .ok r ↔ Refers ops loc env args r := by
  unfold parseOpen
  rw [← getRaster_ok]
  cases getRaster ops loc env args <;> simp

theorem save_ok {args : Text} {r' : R} : parseSave ops loc env args = .ok r' ↔
    ∃ name out dir extra nodata block r, Fields args (name :: out :: dir :: "TIFF".toList :: extra) ∧
      saveExtra ops extra = .ok (nodata, block) ∧ Refers ops loc env name r ∧
      ops.save r (path dir out ++ ".tif".toList) nodata block = some r' := by
  unfold parseSave
  simp only [join_eq]
  constructor
  · intro h
    split at h
    · next name out dir ftype extra hs =>
      split at h
      · cases h
      · next nodata block he =>
        split at h
        · cases h
        · next e hext =>
          split at h
          · cases h
          · next r hr =>
            unfold ext at hext
            split at hext
            · next hf =>
              cases hext
              subst hf
              exact ⟨name, out, dir, extra, nodata, block, r, fields_iff.1 hs, he, getRaster_ok.1 hr, raise_ok.1 h⟩
            · cases hext
    · cases h
  · rintro ⟨name, out, dir, extra, nodata, block, r, h1, h2, h3, h4⟩
    rw [fields_iff.2 h1]
    simp only [h2, getRaster_ok.2 h3]
    exact raise_ok.2 h4

theorem saveExtra_ok {extra : List Text} {nodata : Num} {block : List Int} : saveExtra ops extra = .ok (nodata, block) ↔
    (extra = [] ∧ nodata = .fin 0 ∧ block = []) ∨
    (∃ n, extra = [n] ∧ ops.float n = some nodata ∧ block = []) ∨
    (∃ n w w', extra = [n, w] ∧ ops.float n = some nodata ∧ ops.int w = some w' ∧ block = [w']) ∨
    ∃ n w h w' h', extra = [n, w, h] ∧ ops.float n = some nodata ∧ ops.int w = some w' ∧ ops.int h = some h' ∧ block = [h', w'] := by
  match extra with
  | [] =>
    simp only [saveExtra, Except.ok.injEq, Prod.mk.injEq]
    constructor
    · rintro ⟨rfl, rfl⟩; exact .inl ⟨trivial, rfl, rfl⟩
    · rintro (⟨-, rfl, rfl⟩ | ⟨_, h, -⟩ | ⟨_, _, _, h, -⟩ | ⟨_, _, _, _, _, h, -⟩)
      · exact ⟨rfl, rfl⟩
      all_goals cases h
  | [n] =>
    cases hn : ops.float n with
    | none => simp [saveExtra, hn]
    | some v =>
      simp only [saveExtra, hn, Except.ok.injEq, Prod.mk.injEq]
      constructor
      · rintro ⟨rfl, rfl⟩; exact .inr (.inl ⟨n, rfl, hn, rfl⟩)
      · rintro (⟨h, -⟩ | ⟨_, h, e, rfl⟩ | ⟨_, _, _, h, -⟩ | ⟨_, _, _, _, _, h, -⟩)
        · cases h
        · cases h
          rw [hn] at e
          exact ⟨Option.some.inj e, rfl⟩
        all_goals cases h
  | [n, w] =>
    cases hn : ops.float n with
    | none => simp [saveExtra, hn]
    | some v => cases hw : ops.int w with
      | none => simp [saveExtra, hn, hw]
      | some w' =>
        simp only [saveExtra, hn, hw, Except.ok.injEq, Prod.mk.injEq]
        constructor
        · rintro ⟨rfl, rfl⟩; exact .inr (.inr (.inl ⟨n, w, w', rfl, hn, hw, rfl⟩))
        · rintro (⟨h, -⟩ | ⟨_, h, -⟩ | ⟨_, _, _, h, e, e2, rfl⟩ | ⟨_, _, _, _, _, h, -⟩)
          · cases h
          · cases h
          · cases h
            rw [hn] at e
            rw [hw] at e2
            rw [Option.some.inj e2]
            exact ⟨Option.some.inj e, rfl⟩
          · cases h
  | [n, w, x] =>
    cases hn : ops.float n with
    | none => simp [saveExtra, hn]
    | some v => cases hw : ops.int w with
      | none => simp [saveExtra, hn, hw]
      | some w' => cases hx : ops.int x with
        | none => simp [saveExtra, hn, hw, hx]
        | some x' =>
          simp only [saveExtra, hn, hw, hx, Except.ok.injEq, Prod.mk.injEq]
          constructor
          · rintro ⟨rfl, rfl⟩; exact .inr (.inr (.inr ⟨n, w, x, w', x', rfl, hn, hw, hx, rfl⟩))
          · rintro (⟨h, -⟩ | ⟨_, h, -⟩ | ⟨_, _, _, h, -⟩ | ⟨_, _, _, _, _, h, e, e2, e3, rfl⟩)
            · cases h
            · cases h
            · cases h
            · cases h
              rw [hn] at e
              rw [hw] at e2
              rw [hx] at e3
              rw [Option.some.inj e2, Option.some.inj e3]
              exact ⟨Option.some.inj e, rfl⟩
  | n :: w :: x :: k :: l =>
    cases hn : ops.float n with
    | none => simp [saveExtra, hn]
    | some v => cases hw : ops.int w with
      | none => simp [saveExtra, hn, hw]
      | some w' => simp [saveExtra, hn, hw]

theorem gives_cases {func args : Text} {r' : R} : Gives ops loc env func args r' ↔
    (func = "OPENRASTER".toList ∧ parseOpen ops loc env args = .ok r') ∨
    (func = "NULLTOVALUE".toList ∧ parseNullToValue ops loc env args = .ok r') ∨
    (func = "COMPOSITE".toList ∧ parseComposite ops loc env args = .ok r') ∨
    (func = "SAVEFUNCTIONRASTER".toList ∧ parseSave ops loc env args = .ok r') := by
  rw [open_ok, nullToValue_ok, composite_ok, save_ok]
  constructor
  · intro h
    cases h with
    | openRaster h => exact .inl ⟨rfl, h⟩
    | nullToValue h1 h2 h3 h4 => exact .inr (.inl ⟨rfl, _, _, _, _, h1, h2, h3, h4⟩)
    | composite h1 h2 h3 h4 => exact .inr (.inr (.inl ⟨rfl, _, _, h1, h2, h3, h4⟩))
    | save h1 h2 h3 =>
      exact .inr (.inr (.inr ⟨rfl, _, _, _, _, _, _, _, h1, saveExtra_ok.2 (.inl ⟨rfl, rfl, rfl⟩), h2, h3⟩))
    | saveNull h1 h2 h3 h4 =>
      exact .inr (.inr (.inr ⟨rfl, _, _, _, _, _, _, _, h1, saveExtra_ok.2 (.inr (.inl ⟨_, rfl, h2, rfl⟩)), h3, h4⟩))
    | saveWidth h1 h2 h3 h4 h5 =>
      exact .inr (.inr (.inr ⟨rfl, _, _, _, _, _, _, _, h1, saveExtra_ok.2 (.inr (.inr (.inl ⟨_, _, _, rfl, h2, h3, rfl⟩))), h4, h5⟩))
    | saveBlock h1 h2 h3 h4 h5 h6 =>
      exact .inr (.inr (.inr ⟨rfl, _, _, _, _, _, _, _, h1,
        saveExtra_ok.2 (.inr (.inr (.inr ⟨_, _, _, _, _, rfl, h2, h3, h4, rfl⟩))), h5, h6⟩))
  · rintro (⟨rfl, h⟩ | ⟨rfl, _, _, _, _, h1, h2, h3, h4⟩ | ⟨rfl, _, _, h1, h2, h3, h4⟩ | ⟨rfl, _, _, _, _, _, _, _, h1, he, h2, h3⟩)
    · exact .openRaster h
    · exact .nullToValue h1 h2 h3 h4
    · exact .composite h1 h2 h3 h4
    · rcases saveExtra_ok.1 he with ⟨rfl, rfl, rfl⟩ | ⟨n, rfl, e1, rfl⟩ | ⟨n, w, w', rfl, e1, e2, rfl⟩ | ⟨n, w, h, w', h', rfl, e1, e2, e3, rfl⟩
      · exact .save h1 h2 h3
      · exact .saveNull h1 e1 h2 h3
      · exact .saveWidth h1 e1 e2 h2 h3
      · exact .saveBlock h1 e1 e2 e3 h2 h3

theorem call_ok {func args : Text} {r : R} : call ops loc env func args = .ok r ↔ Gives ops loc env (upper func) args r := by
  rw [gives_cases]
  unfold call
  generalize upper func = u
  split
  · next h => subst h; simp [arithmetic_fails]
  split
  · next h => subst h; simp
  split
  · next h => subst h; simp
  split
  · next h => subst h; simp
  split
  · next h => subst h; simp
  split
  · next h => subst h; simp [remap_fails]
  split
  · next h => subst h; simp
  split
  · next h => subst h; simp
  next h1 h2 h3 h4 h5 h6 h7 h8 =>
    constructor
    · intro h; cases h
    · rintro (⟨h, -⟩ | ⟨h, -⟩ | ⟨h, -⟩ | ⟨h, -⟩)
      · exact absurd h h5
      · exact absurd h h4
      · exact absurd h h2
      · exact absurd h h7

/-! ### Lines -/

theorem takeWhile_mem {p : Char → Bool} (s : Text) : ∀ x ∈ s.takeWhile p, p x = true := by
  induction s with
  | nil => intro x hx; cases hx
  | cons c s ih =>
    intro x hx
    rw [List.takeWhile_cons] at hx
    split at hx
    · next hc =>
      rcases List.mem_cons.1 hx with rfl | hx
      · exact hc
      · exact ih x hx
    · cases hx

theorem matchFunc_iff {s func args : Text} : matchFunc s = some (func, args) ↔
    s = func ++ '(' :: args ++ [')'] ∧ func ≠ [] ∧ (∀ x ∈ func, letter x = true) ∧ args ≠ [] ∧ ∀ x ∈ args, x ≠ '(' ∧ x ≠ ')' := by
  have br : ∀ t a, brackets t = some a ↔ t = '(' :: a ++ [')'] ∧ a ≠ [] ∧ ∀ x ∈ a, x ≠ '(' ∧ x ≠ ')' := by
    intro t a
    unfold brackets
    split
    · next s =>
      split
      · next b hb =>
        have es : s = b.reverse ++ [')'] := by
          have := congrArg List.reverse hb
          rwa [List.reverse_reverse, List.reverse_cons] at this
        have hbad : (b.isEmpty || b.any fun c => decide (c = '(') || decide (c = ')')) = true ↔ ¬(b ≠ [] ∧ ∀ x ∈ b, x ≠ '(' ∧ x ≠ ')') := by
          rw [Bool.or_eq_true, List.isEmpty_iff, List.any_eq_true]
          constructor
          · rintro (h | ⟨x, hx, h⟩) ⟨g1, g2⟩
            · exact g1 h
            · have := g2 x hx
              simp [this.1, this.2] at h
          · intro h
            by_contra hc
            apply h
            refine ⟨fun e => hc (.inl e), fun x hx => ?_⟩
            by_contra hx'
            apply hc
            refine .inr ⟨x, hx, ?_⟩
            by_cases e : x = '('
            · simp [e]
            · by_cases e' : x = ')'
              · simp [e']
              · exact absurd ⟨e, e'⟩ hx'
        split
        · next h =>
          rw [hbad] at h
          constructor
          · intro e; cases e
          · rintro ⟨e, g1, g2⟩
            exfalso
            apply h
            rw [List.cons_append, List.cons.injEq] at e
            have : b.reverse = a := by
              have := es.symm.trans e.2
              exact List.append_cancel_right this
            subst this
            exact ⟨by simpa using g1, fun x hx => g2 x (List.mem_reverse.2 hx)⟩
        · next h =>
          rw [hbad, not_not] at h
          constructor
          · intro e
            cases e
            exact ⟨by rw [es]; rfl, by simpa using h.1, fun x hx => h.2 x (List.mem_reverse.1 hx)⟩
          · rintro ⟨e, -, -⟩
            rw [List.cons_append, List.cons.injEq] at e
            rw [List.append_cancel_right (es.symm.trans e.2)]
      · next hb =>
        constructor
        · intro e; cases e
        · rintro ⟨e, -, -⟩
          rw [List.cons_append, List.cons.injEq] at e
          exact absurd (by rw [e.2, List.reverse_append]; rfl) (hb a.reverse)
    · next hb =>
      constructor
      · intro e; cases e
      · rintro ⟨e, -, -⟩
        exact absurd e (hb _)
  unfold matchFunc
  rw [isLetter_eq]
  split
  · next h =>
    constructor
    · intro e; cases e
    · rintro ⟨rfl, h1, h2, -, -⟩
      exfalso
      rw [List.isEmpty_iff] at h
      cases func with
      | nil => exact h1 rfl
      | cons c f =>
        rw [List.append_assoc, List.cons_append, List.takeWhile_cons, if_pos (h2 c List.mem_cons_self)] at h
        cases h
  · next h =>
    rw [Option.map_eq_some_iff]
    constructor
    · rintro ⟨a, ha, e⟩
      cases e
      obtain ⟨e1, e2, e3⟩ := (br _ _).1 ha
      refine ⟨?_, by simpa using h, ?_, e2, e3⟩
      · rw [List.append_assoc, ← e1, List.takeWhile_append_dropWhile]
      · intro x hx
        exact takeWhile_mem s x hx
    · rintro ⟨rfl, h1, h2, h3, h4⟩
      have e1 : (func ++ '(' :: args ++ [')']).dropWhile letter = '(' :: args ++ [')'] := by
        rw [List.append_assoc]
        refine dropWhile_append h2 fun c hc => ?_
        cases hc
        rfl
      have e2 : (func ++ '(' :: args ++ [')']).takeWhile letter = func := by
        have := List.takeWhile_append_dropWhile (p := letter) (l := func ++ '(' :: args ++ [')'])
        rw [e1] at this
        refine List.append_cancel_right (bs := '(' :: args ++ [')']) ?_
        rw [this, List.append_assoc]
      rw [e1, e2]
      exact ⟨args, (br _ _).2 ⟨rfl, h3, h4⟩, rfl⟩

theorem code_spec (line : Text) : ∃ a c, Comment c ∧ line = a ++ c ∧ '#' ∉ a ∧ (splitStrip line '#').headD [] = strip a := by
  unfold splitStrip
  rcases splitOn_cases '#' line with ⟨h1, h2⟩ | ⟨a, b, h1, h2, h3⟩
  · exact ⟨line, [], .inl rfl, by simp, h1, by rw [h2]; rfl⟩
  · exact ⟨a, '#' :: b, .inr ⟨b, rfl⟩, h2, h1, by rw [h3]; rfl⟩

theorem code_of {a c : Text} (hc : Comment c) (ha : '#' ∉ a) : (splitStrip (a ++ c) '#').headD [] = strip a := by
  unfold splitStrip
  rcases hc with rfl | ⟨b, rfl⟩
  · rw [List.append_nil, splitOn_none ha]; rfl
  · rw [splitOn_some b ha]; rfl

theorem spaces_not {s : Text} (h : Spaces s) {d : Char} (hd : space d = false) : d ∉ s := by
  intro hm
  rw [h d hm] at hd
  cases hd

theorem blank_iff {line : Text} : Blank line ↔ (splitStrip line '#').headD [] = [] := by
  constructor
  · rintro ⟨s, c, hs, hc, rfl⟩
    rw [code_of hc (spaces_not hs (by decide))]
    exact strip_of_padded ⟨by simp [Trim], s, [], hs, by simp [Spaces], by simp⟩
  · intro h
    obtain ⟨a, c, hc, rfl, ha, e⟩ := code_spec line
    rw [h] at e
    obtain ⟨-, p, q, hp, hq, rfl⟩ := strip_iff.1 e.symm
    refine ⟨p ++ [] ++ q, c, ?_, hc, rfl⟩
    intro x hx
    rw [List.append_nil, List.mem_append] at hx
    rcases hx with hx | hx
    · exact hp x hx
    · exact hq x hx

theorem padded_left {p s t : Text} (hp : Spaces p) (h : Padded s t) : Padded (p ++ s) t := by
  obtain ⟨ht, a, b, ha, hb, rfl⟩ := h
  refine ⟨ht, p ++ a, b, fun c hc => ?_, hb, by simp⟩
  rcases List.mem_append.1 hc with hc | hc
  · exact hp c hc
  · exact ha c hc

theorem padded_right {q s t : Text} (hq : Spaces q) (h : Padded s t) : Padded (s ++ q) t := by
  obtain ⟨ht, a, b, ha, hb, rfl⟩ := h
  refine ⟨ht, a, b ++ q, ha, fun c hc => ?_, by simp⟩
  rcases List.mem_append.1 hc with hc | hc
  · exact hb c hc
  · exact hq c hc

/-- Blanks at the ends of the whole are blanks at the ends of the parts. -/
theorem strip_around {d : Char} (hd : space d = false) (l r : Text) : ∃ l' r', strip (l ++ d :: r) = l' ++ d :: r' ∧
    strip l' = strip l ∧ strip r' = strip r ∧ (∀ x ∈ l', x ∈ l) ∧ ∀ x ∈ r', x ∈ r := by
  obtain ⟨a, h1, h2, h3⟩ := dropWhile_spec space l
  obtain ⟨b, g1, g2, g3⟩ := dropWhile_spec space r.reverse
  generalize l.dropWhile space = l' at *
  generalize r.reverse.dropWhile space = r' at *
  have er : r = r'.reverse ++ b.reverse := by
    have := congrArg List.reverse g2
    rwa [List.reverse_reverse, List.reverse_append] at this
  have hb : Spaces b.reverse := fun c hc => g1 c (List.mem_reverse.1 hc)
  refine ⟨l', r'.reverse, ?_, ?_, ?_, ?_, ?_⟩
  · subst h2
    rw [strip_def]
    rw [List.append_assoc, dropWhile_append h1, List.reverse_append, List.reverse_cons, g2, List.append_assoc, List.append_assoc,
      dropWhile_append g1]
    · simp
    · intro c hc
      cases r' with
      | nil =>
        cases hc
        exact hd
      | cons c' r' => exact g3 c hc
    · intro c hc
      cases l' with
      | nil =>
        cases hc
        exact hd
      | cons c' l' => exact h3 c hc
  · rw [h2]
    exact (strip_of_padded (padded_left h1 (strip_padded l'))).symm
  · rw [er]
    exact (strip_of_padded (padded_right hb (strip_padded r'.reverse))).symm
  · intro x hx
    rw [h2]
    exact List.mem_append_right _ hx
  · intro x hx
    rw [er]
    exact List.mem_append_left _ hx

theorem letter_not {x : Char} (h : letter x = true) : x ≠ '#' ∧ x ≠ '=' ∧ space x = false := by
  refine ⟨?_, ?_, ?_⟩
  · rintro rfl; exact absurd h (by decide)
  · rintro rfl; exact absurd h (by decide)
  · by_contra hc
    rw [Bool.not_eq_false] at hc
    unfold space at hc
    simp only [Bool.or_eq_true, beq_iff_eq] at hc
    rcases hc with ((((rfl | rfl) | rfl) | rfl) | rfl) | rfl <;> exact absurd h (by decide)

theorem statement_iff {line name func args : Text} : Statement line name func args ↔
    (splitStrip line '#').headD [] ≠ [] ∧ ∃ rh, splitStrip ((splitStrip line '#').headD []) '=' = [name, rh] ∧
      matchFunc rh = some (func, args) := by
  constructor
  · rintro ⟨l, r, c, rfl, hc, hl, hr, hln, hf1, hf2, ha1, ha2⟩
    have hrn : ∀ x ∈ r, x ≠ '#' ∧ x ≠ '=' := by
      obtain ⟨-, p, q, hp, hq, rfl⟩ := hr
      intro x hx
      simp only [List.mem_append, List.mem_cons, List.not_mem_nil, or_false] at hx
      have sp : space x = true → x ≠ '#' ∧ x ≠ '=' := by
        intro h
        constructor <;> rintro rfl <;> exact absurd h (by decide)
      rcases hx with (hx | (hx | rfl | hx) | rfl) | hx
      · exact sp (hp x hx)
      · exact ⟨(letter_not (hf2 x hx)).1, (letter_not (hf2 x hx)).2.1⟩
      · decide
      · exact ⟨(ha2 x hx).1, (ha2 x hx).2.1⟩
      · decide
      · exact sp (hq x hx)
    have hnot : '#' ∉ l ++ '=' :: r := by
      intro h
      rcases List.mem_append.1 h with h | h
      · exact (hln _ h).1 rfl
      · rcases List.mem_cons.1 h with h | h
        · exact absurd h (by decide)
        · exact (hrn _ h).1 rfl
    rw [code_of hc hnot]
    obtain ⟨l', r', e, e1, e2, m1, m2⟩ := strip_around (d := '=') (by decide) l r
    rw [e]
    refine ⟨by simp, func ++ '(' :: args ++ [')'], ?_, matchFunc_iff.2 ⟨rfl, hf1, hf2, ha1, fun x hx => (ha2 x hx).2.2⟩⟩
    unfold splitStrip
    rw [splitOn_some _ (fun h => (hln _ (m1 _ h)).2 rfl), splitOn_none (fun h => (hrn _ (m2 _ h)).2 rfl), List.map_cons, List.map_cons,
      e1, e2, strip_of_padded hl, strip_of_padded hr]
    rfl
  · rintro ⟨-, rh, h1, h2⟩
    obtain ⟨a, c, hc, rfl, ha, e⟩ := code_spec line
    rw [e] at h1
    obtain ⟨-, p, q, hp, hq, ea⟩ := strip_padded a
    unfold splitStrip at h1
    rcases splitOn_cases '=' (strip a) with ⟨-, h⟩ | ⟨x, y, hx, hxy, h⟩
    · rw [h] at h1; cases h1
    · rw [h] at h1
      rcases splitOn_cases '=' y with ⟨hy, h'⟩ | ⟨u, v, -, -, h'⟩
      · rw [h', List.map_cons, List.map_cons, List.map_nil, List.cons.injEq, List.cons.injEq] at h1
        obtain ⟨rfl, rfl, -⟩ := h1
        obtain ⟨m1, m2, m3, m4, m5⟩ := matchFunc_iff.1 h2
        have hr := padded_right hq (strip_padded y)
        have eline : a = p ++ x ++ '=' :: (y ++ q) := by
          rw [ea, hxy]; simp
        have hargs : ∀ z ∈ args, z ∈ y := by
          intro z hz
          obtain ⟨-, p', q', -, -, ey⟩ := strip_padded y
          rw [ey, m1]
          simp [hz]
        refine ⟨p ++ x, y ++ q, c, ?_, hc, padded_left hp (strip_padded x), m1 ▸ hr, ?_, m2, m3, m4, ?_⟩
        · rw [eline]
        · intro z hz
          constructor
          · rintro rfl
            apply ha
            rw [eline]
            exact List.mem_append_left _ hz
          · rintro rfl
            rcases List.mem_append.1 hz with hz | hz
            · exact absurd (hp _ hz) (by decide)
            · exact hx hz
        · intro z hz
          refine ⟨?_, ?_, m5 z hz⟩
          · rintro rfl
            apply ha
            rw [eline]
            simp [hargs _ hz]
          · rintro rfl
            exact hy (hargs _ hz)
      · rw [h'] at h1
        cases hv : splitOn '=' v with
        | nil => exact absurd hv (splitOn_ne_nil _ _)
        | cons z w => rw [hv] at h1; simp at h1

theorem loop_iff (lines : List Text) : ∀ (env : Text → Option R) (last : Option Text) (s' : (Text → Option R) × Option Text),
    loop ops loc lines env last = .ok s' ↔ Run ops loc lines (env, last) s' := by
  induction lines with
  | nil =>
    intro env last s'
    simp only [loop, Except.ok.injEq]
    constructor
    · rintro rfl; exact .done
    · intro h; cases h; rfl
  | cons line lines ih =>
    intro env last s'
    unfold loop
    simp only
    split
    · next hb =>
      rw [List.isEmpty_iff] at hb
      rw [ih]
      constructor
      · exact fun h => .blank (blank_iff.2 hb) h
      · intro h
        cases h with
        | blank _ h => exact h
        | statement hs _ _ => exact absurd hb (statement_iff.1 hs).1
    · next hb =>
      rw [List.isEmpty_iff] at hb
      constructor
      · intro h
        split at h
        · next lh rh hs =>
          split at h
          · cases h
          · next r hr =>
            unfold parseRaster at hr
            split at hr
            · cases hr
            · next func args hm =>
              exact .statement (statement_iff.2 ⟨hb, rh, hs, hm⟩) (call_ok.1 hr) ((ih _ _ _).1 h)
        · cases h
      · intro h
        cases h with
        | blank hb' _ => exact absurd (blank_iff.1 hb') hb
        | statement hs hg hr =>
          obtain ⟨-, rh, h1, h2⟩ := statement_iff.1 hs
          rw [h1]
          simp only [parseRaster, h2]
          rw [call_ok.2 hg]
          exact (ih _ _ _).2 hr

/-- **C69 in part.** A script gives a raster exactly if its lines are blank or statements whose function works; they are run in order, a
name stands for the raster last given to it, or else for a file, and the raster of the last statement is the result.  Only four of
the eight functions are among those that work. -/
theorem C69_script_partial (lines : List Text) (r : R) : parseScript ops loc lines = .ok r ↔
    ∃ env name, Run ops loc lines (fun _ => none, none) (env, some name) ∧ env name = some r := by
  unfold parseScript
  constructor
  · intro h
    split at h
    · cases h
    · next env last he =>
      cases last with
      | none => cases h
      | some name =>
        simp only [Option.bind_some] at h
        split at h
        · cases h
        · next r' hr =>
          cases h
          exact ⟨env, name, (loop_iff _ _ _ _).1 he, hr⟩
  · rintro ⟨env, name, h, hr⟩
    rw [(loop_iff _ _ _ _).2 h]
    simp only [Option.bind_some, hr]

/-! ### Errors -/

/-- The first line that fails decides the error. -/
theorem loop_fails {pre : List Text} {s s' : (Text → Option R) × Option Text} (h : Run ops loc pre s s') (rest : List Text) :
    loop ops loc (pre ++ rest) s.1 s.2 = loop ops loc rest s'.1 s'.2 := by
  induction h with
  | done => rfl
  | blank hb _ ih =>
    rw [List.cons_append, loop]
    simp only [blank_iff.1 hb, List.isEmpty_nil, if_true]
    exact ih
  | statement hs hg _ ih =>
    obtain ⟨h0, rh, h1, h2⟩ := statement_iff.1 hs
    rw [List.cons_append, loop]
    simp only [List.isEmpty_iff, h0, if_false, h1, parseRaster, h2, call_ok.2 hg]
    exact ih

theorem splitOn_length (d : Char) (s : Text) : (splitOn d s).length = s.count d + 1 := by
  induction s with
  | nil => rfl
  | cons c s ih =>
    by_cases h : c = d
    · subst h
      simp [splitOn, ih]
    · obtain ⟨x, l, h1, h2⟩ := splitOn_cons_ne h s
      rw [h2, List.count_cons_of_ne h, ← ih, h1]
      simp

theorem strip_count {d : Char} (hd : space d = false) (s : Text) : (strip s).count d = s.count d := by
  obtain ⟨-, p, q, hp, hq, e⟩ := strip_padded s
  have h1 := List.count_eq_zero.2 (spaces_not hp hd)
  have h2 := List.count_eq_zero.2 (spaces_not hq hd)
  conv_rhs => rw [e]
  rw [List.count_append, List.count_append, h1, h2]
  omega

/-- **C69.** A line with no equals sign, or with several, before its comment is a ValueError, if the lines before it run. -/
theorem C69_malformed {pre rest : List Text} {s : (Text → Option R) × Option Text} {a c : Text} (hr : Run ops loc pre (fun _ => none, none) s)
    (hb : ¬ Blank (a ++ c)) (hc : Comment c) (ha : '#' ∉ a) (hn : a.count '=' ≠ 1) :
    parseScript ops loc (pre ++ (a ++ c) :: rest) = .error .value := by
  have hl := loop_fails hr ((a ++ c) :: rest)
  unfold parseScript
  simp only at hl
  rw [hl, loop]
  have h0 := mt blank_iff.2 hb
  rw [code_of hc ha] at h0
  simp only [code_of hc ha, List.isEmpty_iff, h0, if_false]
  have hlen : (splitStrip (strip a) '=').length ≠ 2 := by
    unfold splitStrip
    rw [List.length_map, splitOn_length, strip_count (by decide)]
    omega
  split
  · next he =>
    split at he
    · next h2 => rw [h2] at hlen; exact absurd rfl hlen
    · cases he; rfl
  · next he =>
    split at he
    · next h2 => rw [h2] at hlen; exact absurd rfl hlen
    · cases he

/-- **C69.** A line with one equals sign that is no statement is a BatchScriptParseError, and so is one with an unknown function, if the
lines before it run. -/
theorem C69_not_a_call {pre rest : List Text} {s : (Text → Option R) × Option Text} {a c : Text}
    (hr : Run ops loc pre (fun _ => none, none) s)
    (hb : ¬ Blank (a ++ c)) (hc : Comment c) (ha : '#' ∉ a) (hn : a.count '=' = 1)
    (hs : ∀ name func args, Statement (a ++ c) name func args → func.map Char.toUpper ∉ ["ARITHMETIC".toList, "COMPOSITE".toList,
      "EXTRACTBAND".toList, "NULLTOVALUE".toList, "OPENRASTER".toList, "REMAP".toList, "SAVEFUNCTIONRASTER".toList, "SETNULL".toList]) :
    parseScript ops loc (pre ++ (a ++ c) :: rest) = .error .parse := by
  have hl := loop_fails hr ((a ++ c) :: rest)
  unfold parseScript
  simp only at hl
  have h0 := mt blank_iff.2 hb
  have hlen : (splitStrip (strip a) '=').length = 2 := by
    unfold splitStrip
    rw [List.length_map, splitOn_length, strip_count (by decide)]
    omega
  obtain ⟨x, y, hxy⟩ := List.length_eq_two.1 hlen
  have hp : parseRaster ops loc s.1 y = .error .parse := by
    unfold parseRaster
    cases hm : matchFunc y with
    | none => rfl
    | some fa =>
      obtain ⟨func, args⟩ := fa
      have hst := hs x func args (statement_iff.2 ⟨h0, y, by rw [code_of hc ha, hxy], hm⟩)
      simp only [List.mem_cons, List.not_mem_nil, or_false, not_or] at hst
      obtain ⟨n1, n2, n3, n4, n5, n6, n7, n8⟩ := hst
      simp only [call, upper, n1, n2, n3, n4, n5, n6, n7, n8, if_false]
  rw [code_of hc ha] at h0
  have : loop ops loc ((a ++ c) :: rest) s.1 s.2 = .error .parse := by
    rw [loop]
    simp only [code_of hc ha, List.isEmpty_iff, h0, if_false, hxy, hp]
  rw [hl, this]

/-- **C69.** A statement whose function fails gives its error, if the lines before it run. -/
theorem C69_call_fails {pre rest : List Text} {s : (Text → Option R) × Option Text} {line name func args : Text}
    (hr : Run ops loc pre (fun _ => none, none) s) (hs : Statement line name func args) {e : Fault}
    (he : call ops loc s.1 func args = .error e) : parseScript ops loc (pre ++ line :: rest) = .error e := by
  have hl := loop_fails hr (line :: rest)
  obtain ⟨h0, rh, h1, h2⟩ := statement_iff.1 hs
  have : loop ops loc (line :: rest) s.1 s.2 = .error e := by
    rw [loop]
    simp only [List.isEmpty_iff, h0, if_false, h1, parseRaster, h2, he]
  unfold parseScript
  simp only at hl
  rw [hl, this]

/-- **C69.** The errors of `SAVEFUNCTIONRASTER`: too few or too many arguments are a BatchScriptParseError, a null value, width or height
that is no number is a ValueError, then a type other than TIFF is a BatchScriptParseError. -/
theorem C69_save_errors (func args : Text) (hf : func.map Char.toUpper = "SAVEFUNCTIONRASTER".toList) {l : List Text}
    (hl : Fields args l) :
    (l.length < 4 → call ops loc env func args = .error .parse) ∧
    (∀ a b c d n m, l = a :: b :: c :: d :: n :: m → ops.float n = none → call ops loc env func args = .error .value) ∧
    (∀ a b c d n w m v, l = a :: b :: c :: d :: n :: w :: m → ops.float n = some v → ops.int w = none →
      call ops loc env func args = .error .value) ∧
    (∀ a b c d n w h v k, l = [a, b, c, d, n, w, h] → ops.float n = some v → ops.int w = some k → ops.int h = none →
      call ops loc env func args = .error .value) ∧
    (∀ a b c d n w v k, ∀ m : List Text, 2 ≤ m.length → l = a :: b :: c :: d :: n :: w :: m → ops.float n = some v → ops.int w = some k →
      call ops loc env func args = .error .parse) ∧
    (∀ a b c d, d ≠ "TIFF".toList → (l = [a, b, c, d] ∨ ∃ n v, ops.float n = some v ∧ l = [a, b, c, d, n]) →
      call ops loc env func args = .error .parse) := by
  have hc : call ops loc env func args = parseSave ops loc env args := by
    have n1 : ¬ "SAVEFUNCTIONRASTER".toList = "ARITHMETIC".toList := by decide +kernel
    have n2 : ¬ "SAVEFUNCTIONRASTER".toList = "COMPOSITE".toList := by decide +kernel
    have n3 : ¬ "SAVEFUNCTIONRASTER".toList = "EXTRACTBAND".toList := by decide +kernel
    have n4 : ¬ "SAVEFUNCTIONRASTER".toList = "NULLTOVALUE".toList := by decide +kernel
    have n5 : ¬ "SAVEFUNCTIONRASTER".toList = "OPENRASTER".toList := by decide +kernel
    have n6 : ¬ "SAVEFUNCTIONRASTER".toList = "REMAP".toList := by decide +kernel
    simp only [call, upper, hf, n1, n2, n3, n4, n5, n6, if_false, if_true]
  rw [hc]
  unfold parseSave
  rw [fields_iff.2 hl]
  refine ⟨?_, ?_, ?_, ?_, ?_, ?_⟩
  · intro h
    match l, h with
    | [], _ => rfl
    | [_], _ => rfl
    | [_, _], _ => rfl
    | [_, _, _], _ => rfl
  · rintro a b c d n m rfl h
    simp only [saveExtra, h]
  · rintro a b c d n w m v rfl h1 h2
    simp only [saveExtra, h1, h2]
  · rintro a b c d n w h v k rfl h1 h2 h3
    simp only [saveExtra, h1, h2, h3]
  · rintro a b c d n w v k m hm rfl h1 h2
    match m, hm with
    | [x, y], _ => simp only [saveExtra, h1, h2]
    | x :: y :: z :: m, _ => simp only [saveExtra, h1, h2]
  · rintro a b c d hd (rfl | ⟨n, v, h, rfl⟩)
    · simp only [saveExtra, ext, hd, if_false]
    · simp only [saveExtra, h, ext, hd, if_false]

/-- **C69.** The errors of `NULLTOVALUE`: one argument is an IndexError, more than two are a BatchScriptParseError, then a value that is no number is a
ValueError, then a name of nothing is a FileNotFoundError, and then the error of the raster is passed on. -/
theorem C69_null_errors (func args : Text) (hf : func.map Char.toUpper = "NULLTOVALUE".toList) {l : List Text} (hl : Fields args l) :
    (l.length = 1 → call ops loc env func args = .error .index) ∧
    (3 ≤ l.length → call ops loc env func args = .error .parse) ∧
    (∀ name value, l = [name, value] →
      (ops.float value = none → call ops loc env func args = .error .value) ∧
      (∀ v, ops.float value = some v →
        (env name = none → ops.isFile (path loc name) = false → call ops loc env func args = .error .missing) ∧
        (∀ r, Refers ops loc env name r → ops.replaceNull r v = none → call ops loc env func args = .error .raster))) := by
  have hc : call ops loc env func args = parseNullToValue ops loc env args := by
    have n1 : ¬ "NULLTOVALUE".toList = "ARITHMETIC".toList := by decide +kernel
    have n2 : ¬ "NULLTOVALUE".toList = "COMPOSITE".toList := by decide +kernel
    have n3 : ¬ "NULLTOVALUE".toList = "EXTRACTBAND".toList := by decide +kernel
    simp only [call, upper, hf, n1, n2, n3, if_false, if_true]
  rw [hc]
  unfold parseNullToValue
  rw [fields_iff.2 hl]
  refine ⟨?_, ?_, ?_⟩
  · intro h
    match l, h with
    | [_], _ => rfl
  · intro h
    match l, h with
    | _ :: _ :: _ :: _, _ => rfl
  · rintro name value rfl
    refine ⟨fun h => by simp only [h], fun v hv => ⟨fun h1 h2 => ?_, fun r hr h => ?_⟩⟩
    · have : getRaster ops loc env name = .error .missing := by
        unfold getRaster openFile
        rw [join_eq, h1]
        simp only [h2, Bool.false_eq_true, if_false]
      simp only [hv, this]
    · simp only [hv, getRaster_ok.2 hr, h, raise]

/-- **C69.** The errors of `COMPOSITE`, for names of rasters: a single one is a BatchScriptParseError, the error of stacking them is passed on. -/
theorem C69_composite_errors (func args : Text) (hf : func.map Char.toUpper = "COMPOSITE".toList) {names : List Text} {rs : List R}
    (hl : Fields args names) (hr : List.Forall₂ (Refers ops loc env) names rs) :
    (rs.length < 2 → call ops loc env func args = .error .parse) ∧
    (2 ≤ rs.length → ops.stack rs = none → call ops loc env func args = .error .raster) := by
  have hc : call ops loc env func args = parseComposite ops loc env args := by
    have n1 : ¬ "COMPOSITE".toList = "ARITHMETIC".toList := by decide +kernel
    simp only [call, upper, hf, n1, if_false, if_true]
  rw [hc]
  unfold parseComposite
  rw [fields_iff.2 hl, getRasters_ok.2 hr]
  refine ⟨fun h => by simp only [h, if_true], fun h h0 => ?_⟩
  have : ¬ rs.length < 2 := by omega
  simp only [this, if_false, h0, raise]

/-- **C69 is false for the other functions**: a script with a line that calls one of them, in whatever case, fails. -/
theorem C69_broken_functions {lines : List Text} {line name func args : Text} (hl : line ∈ lines)
    (hs : Statement line name func args)
    (hf : func.map Char.toUpper ∈ ["ARITHMETIC".toList, "EXTRACTBAND".toList, "REMAP".toList, "SETNULL".toList]) (r : R) :
    parseScript ops loc lines ≠ .ok r := by
  rw [Ne, C69_script_partial]
  rintro ⟨env, last, h, -⟩
  have bad : ∀ (env : Text → Option R) (r : R), ¬ Gives ops loc env (func.map Char.toUpper) args r := by
    intro env r h
    rw [gives_cases] at h
    rcases h with ⟨e, -⟩ | ⟨e, -⟩ | ⟨e, -⟩ | ⟨e, -⟩ <;> rw [e] at hf <;> exact absurd hf (by decide)
  generalize ((fun _ => none : Text → Option R), (none : Option Text)) = s at h
  generalize (env, some last) = s' at h
  induction h with
  | done => cases hl
  | blank hb _ ih =>
    rcases List.mem_cons.1 hl with rfl | hl
    · exact absurd (blank_iff.1 hb) (statement_iff.1 hs).1
    · exact ih hl
  | statement hs' hg _ ih =>
    rcases List.mem_cons.1 hl with rfl | hl
    · obtain ⟨-, rh, e1, e2⟩ := statement_iff.1 hs
      obtain ⟨-, rh', e1', e2'⟩ := statement_iff.1 hs'
      rw [e1] at e1'
      cases e1'
      rw [e2] at e2'
      cases e2'
      exact bad _ _ hg
    · exact ih hl

/-- **C69.** A script of blank lines only is a KeyError. -/
theorem C69_nothing {lines : List Text} (h : ∀ l ∈ lines, Blank l) : parseScript ops loc lines = .error .key := by
  have hr : ∀ ls : List Text, (∀ l ∈ ls, Blank l) → ∀ s : (Text → Option R) × Option Text, Run ops loc ls s s := by
    intro ls
    induction ls with
    | nil => exact fun _ _ => .done
    | cons l ls ih => exact fun hb s => .blank (hb l List.mem_cons_self) (ih (fun m hm => hb m (List.mem_cons_of_mem _ hm)) s)
  unfold parseScript
  rw [(loop_iff lines _ _ _).2 (hr lines h (fun _ => none, none))]
  rfl

/-- **C69 (one meaning).** A script has at most one result. -/
theorem C69_statement_unique {line n f a n' f' a' : Text} (h : Statement line n f a) (h' : Statement line n' f' a') :
    n = n' ∧ f = f' ∧ a = a' := by
  obtain ⟨-, rh, e1, e2⟩ := statement_iff.1 h
  obtain ⟨-, rh', e1', e2'⟩ := statement_iff.1 h'
  rw [e1] at e1'
  cases e1'
  rw [e2] at e2'
  cases e2'
  exact ⟨rfl, rfl, rfl⟩

/-! ### Examples -/

/-- Rasters are texts that say how they were made. -/
def toy : Ops Text where
  isFile := fun p => p = "/data/a.tif".toList || p = "/data/b.tif".toList
  openRaster := some
  stack := fun rs => some ("stack ".toList ++ rs.flatten)
  replaceNull := fun r _ => some ("filled ".toList ++ r)
  save := fun r p v b => if v = .fin 0 ∧ b = [] then some ("saved ".toList ++ r ++ p) else none
  float := fun s => if s = "1.5".toList then some (.fin (3 / 2)) else if s = "2".toList then some (.fin 2) else none
  int := fun _ => none

example : parseScript toy "/data".toList (["# a script\n", "x = OpenRaster(a.tif)\n", "\n", "x=NULLTOVALUE( x ;1.5) # comment = (\n",
    " y = composite(x; b.tif)\n"].map (·.toList)) = .ok "stack filled /data/a.tif/data/b.tif".toList := by decide +kernel

/-- Without a null value, 0 is used. -/
theorem C69_save_default : parseScript toy "/data".toList [["s = SAVEFUNCTIONRASTER(a.tif;o;/out;TIFF)"].map (·.toList) |>.flatten] =
    .ok "saved /data/a.tif/out/o.tif".toList := by decide +kernel

/-- The argument of `OPENRASTER` is not stripped. -/
theorem C69_open_blanks : parseScript toy "/data".toList ["x = OPENRASTER( a.tif )".toList] = .error .parse ∧
    parseScript toy "/data".toList ["x = OPENRASTER(a.tif)".toList] = .ok "/data/a.tif".toList := by decide +kernel

example : parseScript toy "/data".toList ["x = OPENRASTER(a.tif)".toList, "nothing # = 1".toList] = .error .value ∧
    parseScript toy "/data".toList ["x = OPENRASTER(a.tif)".toList, "y = x".toList] = .error .parse ∧
    parseScript toy "/data".toList ["x = NOTHING(a.tif)".toList] = .error .parse ∧
    parseScript toy "/data".toList ["s = SAVEFUNCTIONRASTER(a.tif;o;/out;TIFF;none)".toList] = .error .value ∧
    parseScript toy "/data".toList ["s = SAVEFUNCTIONRASTER(a.tif;o;/out;PNG)".toList] = .error .parse := by decide +kernel

example : parseScript toy "/data".toList ["x = ARITHMETIC(a.tif;b.tif;+)".toList] = .error .attribute := by decide +kernel
example : parseScript toy "/data".toList ["x = SETNULL(a.tif;1-2)".toList] = .error .attribute := by decide +kernel

example : parseScript toy "/data".toList ["x = REMAP(a.tif; 1.5:2:2, 1.5 : 2 : 1.5)".toList] = .error .type := by decide +kernel
example : parseScript toy "/data".toList ["x = REMAP(a.tif; 2:2:2)".toList] = .error .parse := by decide +kernel

example : parseScript toy "/data".toList ["# nothing\n".toList, " \n".toList] = .error .key := by decide +kernel

/-- The errors of `NULLTOVALUE` and `COMPOSITE`. -/
example : parseScript toy "/data".toList ["x = NULLTOVALUE(a.tif)".toList] = .error .index ∧
    parseScript toy "/data".toList ["x = NULLTOVALUE(a.tif;1.5;2)".toList] = .error .parse ∧
    parseScript toy "/data".toList ["x = NULLTOVALUE(a.tif;three)".toList] = .error .value ∧
    parseScript toy "/data".toList ["x = NULLTOVALUE(c.tif;2)".toList] = .error .missing ∧
    parseScript { toy with replaceNull := fun _ _ => none } "/data".toList ["x = NULLTOVALUE(a.tif;2)".toList] = .error .raster ∧
    parseScript toy "/data".toList ["x = COMPOSITE(a.tif)".toList] = .error .parse ∧
    parseScript { toy with stack := fun _ => none } "/data".toList ["x = COMPOSITE(a.tif;b.tif)".toList] = .error .raster := by decide +kernel

end Verif.Batch
