import Verif.RemapFile.Model
import Mathlib.Tactic.IntervalCases

set_option linter.unusedSectionVars false

/-!
# Properties of remap files
-/

namespace Verif.RemapFile

open Verif

/-! ### Specification -/

namespace Spec

/-- Blank characters of ASCII. -/
def Blank (w : Text) : Prop :=
  ∀ c ∈ w, c = ' ' ∨ c = '\t' ∨ c = '\n' ∨ c = '\r' ∨ c = '\x0b' ∨ c = '\x0c' ∨ c = '\x1c' ∨ c = '\x1d' ∨ c = '\x1e' ∨
    c = '\x1f'

/-- Decimal digits. -/
def Digits (w : Text) : Prop := ∀ c ∈ w, c.isDigit = true

/-- An optional sign: `some true` is a minus. -/
def signText : Option Bool → Text
  | none => []
  | some true => ['-']
  | some false => ['+']

/-- The factor of a sign. -/
def signOf : Option Bool → Int
  | some true => -1
  | _ => 1

/-- A decimal literal. -/
structure Literal where
  sign : Option Bool
  whole : Text
  /-- the digits after the point, if there is one -/
  point : Option Text
  /-- the letter, the sign and the digits of the exponent, if there is one -/
  exp : Option (Char × Option Bool × Text)

/-- How the literal is written. -/
def Literal.text (l : Literal) : Text :=
  signText l.sign ++ l.whole ++ (match l.point with | none => [] | some d => '.' :: d) ++
    (match l.exp with | none => [] | some (c, s, d) => c :: (signText s ++ d))

/-- The parts are digits, with a letter and at least one digit in the exponent. -/
def Literal.Shape (l : Literal) : Prop :=
  Digits l.whole ∧ (∀ d, l.point = some d → Digits d) ∧
    ∀ c s d, l.exp = some (c, s, d) → (c = 'e' ∨ c = 'E') ∧ Digits d ∧ d ≠ []

/-- A whole part without leading zeros, or digits after the point. -/
def Literal.Mantissa (l : Literal) : Prop :=
  l.whole = ['0'] ∨ (∃ c w, l.whole = c :: w ∧ c ≠ '0') ∨ (l.whole = [] ∧ ∃ d, l.point = some d ∧ d ≠ [])

/-- A number. -/
def Literal.Valid (l : Literal) : Prop := l.Shape ∧ l.Mantissa

/-- A sign, an exponent, both or nothing: no number. -/
def Literal.Bare (l : Literal) : Prop := l.Shape ∧ l.whole = [] ∧ l.point = none

/-- Value of digits. -/
def digitsValue (w : Text) : Nat := Nat.ofDigitChars 10 w 0

/-- The exact value of a literal. -/
def Literal.value (l : Literal) : Rat :=
  signOf l.sign *
    (digitsValue l.whole + (match l.point with | none => 0 | some d => (digitsValue d : Rat) / 10 ^ d.length)) *
    (10 : Rat) ^ (match l.exp with | none => (0 : Int) | some (_, s, d) => signOf s * digitsValue d)

/-- The Python number: an int if there is neither point nor exponent. -/
def Literal.number (fl : Rat → Num) (l : Literal) : Number :=
  if l.point = none ∧ l.exp = none then .int (signOf l.sign * digitsValue l.whole) else .float (fl l.value)

/-- A new value: a literal or `NoData`. -/
def targetText : Option Literal → Text
  | none => "NoData".toList
  | some l => l.text

/-- The line of an entry, with blanks around its parts. -/
def lineText (w₁ w₂ w₃ w₄ : Text) (k : Literal) (v : Option Literal) : Text :=
  w₁ ++ k.text ++ w₂ ++ ':' :: (w₃ ++ targetText v ++ w₄)

/-- What a line says: the line is written with these literals. -/
def Says (fl : Rat → Num) (line : Text) (e : Number × Option Number) : Prop :=
  ∃ w₁ w₂ w₃ w₄ k v, Blank w₁ ∧ Blank w₂ ∧ Blank w₃ ∧ Blank w₄ ∧ Literal.Valid k ∧ (∀ l, v = some l → Literal.Valid l) ∧
    line = lineText w₁ w₂ w₃ w₄ k v ∧ e = (k.number fl, v.map (Literal.number fl))

end Spec

/-! ### Patterns -/

/-- The pattern matches exactly the texts of a language. -/
def Matches (p : Pattern) (L : Text → Prop) : Prop := ∀ s c r, (c, r) ∈ p s ↔ s = c ++ r ∧ L c

theorem one_matches (q : Char → Bool) : Matches (one q) fun c => ∃ x, c = [x] ∧ q x = true := by
  intro s c r
  cases s with
  | nil =>
    constructor
    · intro h
      cases h
    · rintro ⟨h, x, rfl, -⟩
      cases h
  | cons a s =>
    simp only [one]
    by_cases h : q a = true
    · rw [if_pos h]
      constructor
      · intro hm
        simp only [List.mem_singleton, Prod.mk.injEq] at hm
        obtain ⟨rfl, rfl⟩ := hm
        exact ⟨rfl, a, rfl, h⟩
      · rintro ⟨h1, x, rfl, -⟩
        simp only [List.cons_append, List.nil_append, List.cons.injEq] at h1
        obtain ⟨rfl, rfl⟩ := h1
        exact List.mem_singleton.mpr rfl
    · rw [if_neg h]
      constructor
      · intro hm
        cases hm
      · rintro ⟨h1, x, rfl, hx⟩
        simp only [List.cons_append, List.nil_append, List.cons.injEq] at h1
        obtain ⟨rfl, rfl⟩ := h1
        exact absurd hx h

theorem many_matches (q : Char → Bool) : Matches (many q) fun c => ∀ x ∈ c, q x = true := by
  intro s
  induction s with
  | nil =>
    intro c r
    simp only [many, List.mem_singleton, Prod.mk.injEq]
    constructor
    · rintro ⟨rfl, rfl⟩
      exact ⟨rfl, fun x hx => by cases hx⟩
    · rintro ⟨h, -⟩
      exact List.append_eq_nil_iff.mp h.symm
  | cons a s ih =>
    intro c r
    simp only [many]
    by_cases h : q a = true
    · rw [if_pos h]
      simp only [List.mem_append, List.mem_map, List.mem_singleton, Prod.mk.injEq]
      constructor
      · rintro (⟨⟨c', r'⟩, hm, rfl, rfl⟩ | ⟨rfl, rfl⟩)
        · obtain ⟨h1, h2⟩ := (ih c' r').mp hm
          refine ⟨by rw [h1]; rfl, ?_⟩
          intro x hx
          rcases List.mem_cons.mp hx with rfl | hx
          · exact h
          · exact h2 x hx
        · exact ⟨rfl, fun x hx => by cases hx⟩
      · rintro ⟨h1, h2⟩
        cases c with
        | nil => exact Or.inr ⟨rfl, h1.symm⟩
        | cons b c =>
          simp only [List.cons_append, List.cons.injEq] at h1
          obtain ⟨rfl, h1⟩ := h1
          exact Or.inl ⟨(c, r), (ih c r).mpr ⟨h1, fun x hx => h2 x (List.mem_cons_of_mem _ hx)⟩, rfl, rfl⟩
    · rw [if_neg h]
      simp only [List.mem_singleton, Prod.mk.injEq]
      constructor
      · rintro ⟨rfl, rfl⟩
        exact ⟨rfl, fun x hx => by cases hx⟩
      · rintro ⟨h1, h2⟩
        cases c with
        | nil => exact ⟨rfl, h1.symm⟩
        | cons b c =>
          simp only [List.cons_append, List.cons.injEq] at h1
          obtain ⟨rfl, h1⟩ := h1
          exact absurd (h2 a (List.mem_cons_self ..)) h

theorem seq_matches {p r : Pattern} {L M : Text → Prop} (hp : Matches p L) (hr : Matches r M) :
    Matches (seq p r) fun c => ∃ a b, c = a ++ b ∧ L a ∧ M b := by
  intro s c t
  simp only [seq, List.mem_flatMap, List.mem_map, Prod.mk.injEq]
  constructor
  · rintro ⟨⟨a, s1⟩, ha, ⟨b, s2⟩, hb, rfl, rfl⟩
    obtain ⟨h1, h2⟩ := (hp _ _ _).mp ha
    obtain ⟨h3, h4⟩ := (hr _ _ _).mp hb
    simp only at h3
    exact ⟨by simp only [h1, h3, List.append_assoc], a, b, rfl, h2, h4⟩
  · rintro ⟨h, a, b, rfl, h1, h2⟩
    exact ⟨(a, b ++ t), (hp _ _ _).mpr ⟨by rw [h, List.append_assoc], h1⟩, (b, t), (hr _ _ _).mpr ⟨rfl, h2⟩, rfl, rfl⟩

theorem alt_matches {p r : Pattern} {L M : Text → Prop} (hp : Matches p L) (hr : Matches r M) :
    Matches (alt p r) fun c => L c ∨ M c := by
  intro s c t
  simp only [alt, List.mem_append, hp s c t, hr s c t]
  exact and_or_left.symm

theorem empty_matches : Matches (fun s => [([], s)]) fun c => c = [] := by
  intro s c r
  simp only [List.mem_singleton, Prod.mk.injEq]
  constructor
  · rintro ⟨rfl, rfl⟩
    exact ⟨rfl, rfl⟩
  · rintro ⟨h, rfl⟩
    exact ⟨rfl, h.symm⟩

theorem opt_matches {p : Pattern} {L : Text → Prop} (hp : Matches p L) : Matches (opt p) fun c => L c ∨ c = [] :=
  alt_matches hp empty_matches

theorem Matches.congr {p : Pattern} {L M : Text → Prop} (hp : Matches p L) (h : ∀ c, L c ↔ M c) : Matches p M := by
  intro s c r
  rw [hp s c r, h c]

theorem word_matches (w : Text) : Matches (word w) fun c => c = w := by
  induction w with
  | nil => exact empty_matches
  | cons a w ih =>
    refine (seq_matches (one_matches _) ih).congr ?_
    intro c
    constructor
    · rintro ⟨x, y, rfl, ⟨b, rfl, hb⟩, rfl⟩
      rw [beq_iff_eq] at hb
      rw [hb]
      rfl
    · rintro rfl
      exact ⟨[a], w, rfl, ⟨a, rfl, beq_self_eq_true a⟩, rfl⟩

open Spec

theorem sign_matches : Matches sign fun c => ∃ s, c = signText s := by
  refine (opt_matches (one_matches _)).congr ?_
  intro c
  constructor
  · rintro (⟨x, rfl, h⟩ | rfl)
    · rw [Bool.or_eq_true, beq_iff_eq, beq_iff_eq] at h
      rcases h with rfl | rfl
      · exact ⟨some true, rfl⟩
      · exact ⟨some false, rfl⟩
    · exact ⟨none, rfl⟩
  · rintro ⟨s, rfl⟩
    cases s with
    | none => exact Or.inr rfl
    | some b =>
      cases b with
      | true => exact Or.inl ⟨'-', rfl, rfl⟩
      | false => exact Or.inl ⟨'+', rfl, rfl⟩

theorem digits_nil : Digits [] := fun c hc => by cases hc

theorem noPoint_digits (d : Text) (h : (none : Option Text) = some d) : Digits d := by cases h

theorem digits_matches : Matches (seq (one isDigit) (many isDigit)) fun c => Digits c ∧ c ≠ [] := by
  refine (seq_matches (one_matches _) (many_matches _)).congr ?_
  intro c
  constructor
  · rintro ⟨a, b, rfl, ⟨x, rfl, hx⟩, hb⟩
    refine ⟨?_, by simp⟩
    intro y hy
    rcases List.mem_cons.mp hy with rfl | hy
    · exact hx
    · exact hb y hy
  · rintro ⟨h, hne⟩
    cases c with
    | nil => exact absurd rfl hne
    | cons x c => exact ⟨[x], c, rfl, ⟨x, rfl, h x (List.mem_cons_self ..)⟩, fun y hy => h y (List.mem_cons_of_mem _ hy)⟩

/-- The texts of exponents. -/
def ExpText (c : Text) : Prop := ∃ x s d, c = x :: (signText s ++ d) ∧ (x = 'e' ∨ x = 'E') ∧ Digits d ∧ d ≠ []

theorem exponent_matches : Matches exponent ExpText := by
  refine (seq_matches (one_matches _) (seq_matches sign_matches digits_matches)).congr ?_
  intro c
  constructor
  · rintro ⟨a, b, rfl, ⟨x, rfl, hx⟩, y, z, rfl, ⟨s, rfl⟩, hz, hne⟩
    rw [Bool.or_eq_true, beq_iff_eq, beq_iff_eq] at hx
    exact ⟨x, s, z, rfl, hx, hz, hne⟩
  · rintro ⟨x, s, d, rfl, hx, hd, hne⟩
    refine ⟨[x], _, rfl, ⟨x, rfl, ?_⟩, signText s, d, rfl, ⟨s, rfl⟩, hd, hne⟩
    rw [Bool.or_eq_true, beq_iff_eq, beq_iff_eq]
    exact hx

/-- The text of the digits after the point. -/
def pointText : Option Text → Text
  | none => []
  | some d => '.' :: d

/-- The text of the exponent. -/
def expText : Option (Char × Option Bool × Text) → Text
  | none => []
  | some (c, s, d) => c :: (signText s ++ d)

theorem text_eq (l : Literal) : l.text = signText l.sign ++ l.whole ++ pointText l.point ++ expText l.exp := by
  obtain ⟨s, w, p, e⟩ := l
  cases p <;> cases e <;> rfl

/-- The texts of mantissas. -/
def MantText (c : Text) : Prop :=
  ∃ w p, c = w ++ pointText p ∧ Digits w ∧ (∀ d, p = some d → Digits d) ∧
    (w = ['0'] ∨ (∃ c v, w = c :: v ∧ c ≠ '0') ∨ (w = [] ∧ ∃ d, p = some d ∧ d ≠ []))

theorem mantissa_matches : Matches mantissa MantText := by
  refine (alt_matches (seq_matches (alt_matches (one_matches _) (seq_matches (one_matches _) (many_matches _)))
    (opt_matches (seq_matches (one_matches _) (many_matches _)))) (seq_matches (one_matches _) digits_matches)).congr ?_
  intro c
  constructor
  · rintro (⟨a, b, rfl, ha, hb⟩ | ⟨a, b, rfl, ⟨x, rfl, hx⟩, hb, hne⟩)
    · have hb' : ∃ p, b = pointText p ∧ ∀ d, p = some d → Digits d := by
        rcases hb with ⟨y, z, rfl, ⟨x, rfl, hx⟩, hz⟩ | rfl
        · rw [beq_iff_eq] at hx
          refine ⟨some z, by rw [hx]; rfl, ?_⟩
          intro d hd
          rw [Option.some.injEq] at hd
          rw [← hd]
          exact hz
        · exact ⟨none, rfl, fun d hd => by cases hd⟩
      obtain ⟨p, rfl, hp⟩ := hb'
      refine ⟨a, p, rfl, ?_, hp, ?_⟩
      · rcases ha with ⟨x, rfl, hx⟩ | ⟨y, z, rfl, ⟨x, rfl, hx⟩, hz⟩
        · rw [beq_iff_eq] at hx
          rw [hx]
          intro c hc
          rw [List.mem_singleton] at hc
          rw [hc]
          decide
        · rw [Bool.and_eq_true] at hx
          intro c hc
          rcases List.mem_cons.mp hc with rfl | hc
          · exact hx.1
          · exact hz c hc
      · rcases ha with ⟨x, rfl, hx⟩ | ⟨y, z, rfl, ⟨x, rfl, hx⟩, hz⟩
        · rw [beq_iff_eq] at hx
          exact Or.inl (by rw [hx])
        · rw [Bool.and_eq_true, bne_iff_ne] at hx
          exact Or.inr (Or.inl ⟨x, z, rfl, hx.2⟩)
    · rw [beq_iff_eq] at hx
      refine ⟨[], some b, by rw [hx]; rfl, digits_nil, ?_, Or.inr (Or.inr ⟨rfl, b, rfl, hne⟩)⟩
      intro d hd
      rw [Option.some.injEq] at hd
      rw [← hd]
      exact hb
  · rintro ⟨w, p, rfl, hw, hp, hm⟩
    have hb : (∃ a b, pointText p = a ++ b ∧ (∃ x, a = [x] ∧ (x == '.') = true) ∧ ∀ x ∈ b, isDigit x = true) ∨
        pointText p = [] := by
      cases p with
      | none => exact Or.inr rfl
      | some d => exact Or.inl ⟨['.'], d, rfl, ⟨'.', rfl, rfl⟩, hp d rfl⟩
    rcases hm with rfl | ⟨c, v, rfl, hc⟩ | ⟨rfl, d, rfl, hne⟩
    · exact Or.inl ⟨['0'], _, rfl, Or.inl ⟨'0', rfl, rfl⟩, hb⟩
    · refine Or.inl ⟨c :: v, _, rfl, Or.inr ⟨[c], v, rfl, ⟨c, rfl, ?_⟩, fun x hx => hw x (List.mem_cons_of_mem _ hx)⟩, hb⟩
      rw [Bool.and_eq_true, bne_iff_ne]
      exact ⟨hw c (List.mem_cons_self ..), hc⟩
    · exact Or.inr ⟨['.'], d, rfl, ⟨'.', rfl, rfl⟩, hp d rfl, hne⟩

/-- The number pattern matches the numbers, and a sign or an exponent alone. -/
theorem number_matches : Matches number fun c => ∃ l : Literal, c = l.text ∧ (l.Valid ∨ l.Bare) := by
  refine (seq_matches (seq_matches sign_matches (opt_matches mantissa_matches)) (opt_matches exponent_matches)).congr ?_
  intro c
  constructor
  · rintro ⟨a, b, rfl, ⟨a1, a2, rfl, ⟨s, rfl⟩, h2⟩, hb⟩
    have hb' : ∃ e, b = expText e ∧ ∀ c s d, e = some (c, s, d) → (c = 'e' ∨ c = 'E') ∧ Digits d ∧ d ≠ [] := by
      rcases hb with ⟨x, s, d, rfl, hx, hd, hne⟩ | rfl
      · refine ⟨some (x, s, d), rfl, ?_⟩
        intro c' s' d' he
        simp only [Option.some.injEq, Prod.mk.injEq] at he
        obtain ⟨rfl, rfl, rfl⟩ := he
        exact ⟨hx, hd, hne⟩
      · exact ⟨none, rfl, fun c s d h => by cases h⟩
    obtain ⟨e, rfl, he⟩ := hb'
    rcases h2 with ⟨w, p, rfl, hw, hp, hm⟩ | rfl
    · refine ⟨⟨s, w, p, e⟩, ?_, Or.inl ⟨⟨hw, hp, he⟩, hm⟩⟩
      rw [text_eq]
      simp only [List.append_assoc]
    · refine ⟨⟨s, [], none, e⟩, ?_, Or.inr ⟨⟨digits_nil, noPoint_digits, he⟩, rfl, rfl⟩⟩
      rw [text_eq]
      simp only [pointText, List.append_assoc, List.nil_append]
  · rintro ⟨l, rfl, hl⟩
    rw [text_eq]
    have hsh : l.Shape := hl.elim (fun h => h.1) (fun h => h.1)
    refine ⟨signText l.sign ++ (l.whole ++ pointText l.point), expText l.exp, by simp only [List.append_assoc],
      ⟨_, _, rfl, ⟨_, rfl⟩, ?_⟩, ?_⟩
    · rcases hl with h | h
      · exact Or.inl ⟨_, _, rfl, hsh.1, hsh.2.1, h.2⟩
      · exact Or.inr (by rw [h.2.1, h.2.2]; rfl)
    · cases he : l.exp with
      | none => exact Or.inr rfl
      | some t =>
        obtain ⟨c, s, d⟩ := t
        obtain ⟨h1, h2, h3⟩ := hsh.2.2 c s d he
        exact Or.inl ⟨c, s, d, rfl, h1, h2, h3⟩

/-! ### Characters -/

theorem isSpace_iff (c : Char) : isSpace c = true ↔ Blank [c] := by
  simp only [isSpace, List.contains_iff_mem, Blank, List.mem_singleton, forall_eq, List.mem_cons, List.not_mem_nil,
    or_false]

theorem blank_iff (w : Text) : Blank w ↔ ∀ c ∈ w, isSpace c = true := by
  constructor
  · intro h c hc
    rw [isSpace_iff]
    intro d hd
    rw [List.mem_singleton] at hd
    rw [hd]
    exact h c hc
  · intro h c hc
    exact (isSpace_iff c).mp (h c hc) c (List.mem_singleton.mpr rfl)

/-- The characters of numbers. -/
def Plain (c : Char) : Prop := c.isDigit = true ∨ c = '.' ∨ c = 'e' ∨ c = 'E' ∨ c = '-' ∨ c = '+'

theorem digit_not_special {c : Char} (h : c.isDigit = true) : isSpace c = false ∧ c ≠ ':' := by
  constructor
  · cases hc : isSpace c with
    | false => rfl
    | true =>
      exfalso
      simp only [isSpace, List.contains_iff_mem, List.mem_cons, List.not_mem_nil, or_false] at hc
      rcases hc with rfl | rfl | rfl | rfl | rfl | rfl | rfl | rfl | rfl | rfl <;> revert h <;> decide
  · rintro rfl
    revert h
    decide

theorem plain_not_special {c : Char} (h : Plain c) : isSpace c = false ∧ c ≠ ':' := by
  rcases h with h | rfl | rfl | rfl | rfl | rfl
  · exact digit_not_special h
  all_goals decide

theorem sign_plain (s : Option Bool) : ∀ c ∈ signText s, c = '-' ∨ c = '+' := by
  intro c hc
  cases s with
  | none => cases hc
  | some b => cases b <;> simp only [signText, List.mem_singleton] at hc <;> simp [hc]

theorem text_plain {l : Literal} (h : l.Shape) : ∀ c ∈ l.text, Plain c := by
  intro c hc
  rw [text_eq] at hc
  simp only [List.mem_append] at hc
  rcases hc with ((hc | hc) | hc) | hc
  · rcases sign_plain _ c hc with rfl | rfl <;> simp [Plain]
  · exact Or.inl (h.1 c hc)
  · cases hp : l.point with
    | none =>
      rw [hp] at hc
      cases hc
    | some d =>
      rw [hp] at hc
      rcases List.mem_cons.mp hc with rfl | hc
      · exact Or.inr (Or.inl rfl)
      · exact Or.inl (h.2.1 d hp c hc)
  · cases he : l.exp with
    | none =>
      rw [he] at hc
      cases hc
    | some t =>
      obtain ⟨x, s, d⟩ := t
      rw [he] at hc
      obtain ⟨h1, h2, -⟩ := h.2.2 x s d he
      rcases List.mem_cons.mp hc with rfl | hc
      · rcases h1 with rfl | rfl <;> simp [Plain]
      · rcases List.mem_append.mp hc with hc | hc
        · rcases sign_plain _ c hc with rfl | rfl <;> simp [Plain]
        · exact Or.inl (h2 c hc)

/-! ### Values -/

theorem splitSign_text (s : Option Bool) (r : Text) (h : ∀ c r', r = c :: r' → c ≠ '-' ∧ c ≠ '+') :
    splitSign (signText s ++ r) = (decide (s = some true), r) := by
  cases s with
  | none =>
    cases r with
    | nil => rfl
    | cons c r =>
      obtain ⟨h1, h2⟩ := h c r rfl
      simp [signText, splitSign, h1, h2]
  | some b => cases b <;> simp [signText, splitSign]

theorem digit_not_sign {c : Char} (h : c.isDigit = true) : c ≠ '-' ∧ c ≠ '+' ∧ c ≠ '.' ∧ c ≠ 'e' ∧ c ≠ 'E' := by
  refine ⟨?_, ?_, ?_, ?_, ?_⟩ <;> rintro rfl <;> revert h <;> decide

theorem pyInt_text (s : Option Bool) (d : Text) (hd : Digits d) (hne : d ≠ []) :
    pyInt (signText s ++ d) = some (signOf s * digitsValue d) := by
  have hs := splitSign_text s d fun c r' h => by
    have := digit_not_sign (hd c (by rw [h]; exact List.mem_cons_self ..))
    exact ⟨this.1, this.2.1⟩
  simp only [pyInt, hs]
  have h1 : (d.isEmpty || !d.all isDigit) = false := by
    rw [Bool.or_eq_false_iff, Bool.not_eq_false', List.all_eq_true]
    refine ⟨?_, hd⟩
    cases d with
    | nil => exact absurd rfl hne
    | cons => rfl
  rw [if_neg (by rw [h1]; decide)]
  rcases s with - | b
  · simp [signOf, digitsValue]
  · cases b <;> simp [signOf, digitsValue]

theorem takeWhile_digits {d r : Text} (hd : Digits d) (hr : ∀ c r', r = c :: r' → c.isDigit = false) :
    (d ++ r).takeWhile isDigit = d ∧ (d ++ r).dropWhile isDigit = r := by
  induction d with
  | nil =>
    cases r with
    | nil => exact ⟨rfl, rfl⟩
    | cons c r =>
      have := hr c r rfl
      simp [isDigit, this]
  | cons a d ih =>
    obtain ⟨h1, h2⟩ := ih fun c hc => hd c (List.mem_cons_of_mem _ hc)
    have ha : isDigit a = true := hd a (List.mem_cons_self ..)
    simp [ha, h1, h2]

theorem expText_head {e : Option (Char × Option Bool × Text)}
    (he : ∀ c s d, e = some (c, s, d) → (c = 'e' ∨ c = 'E') ∧ Digits d ∧ d ≠ []) :
    ∀ c r, expText e = c :: r → c = 'e' ∨ c = 'E' := by
  intro c r h
  cases e with
  | none => cases h
  | some t =>
    obtain ⟨x, s, d⟩ := t
    simp only [expText, List.cons.injEq] at h
    rw [← h.1]
    exact (he x s d rfl).1

theorem letter_not_digit {c : Char} (h : c = 'e' ∨ c = 'E') : c.isDigit = false ∧ c ≠ '.' ∧ c ≠ '-' ∧ c ≠ '+' := by
  rcases h with rfl | rfl <;> decide

/-- The exponent of a literal. -/
def expValue : Option (Char × Option Bool × Text) → Int
  | none => 0
  | some (_, s, d) => signOf s * digitsValue d

theorem value_eq (l : Literal) :
    l.value = signOf l.sign * (digitsValue l.whole +
      (match l.point with | none => 0 | some d => (digitsValue d : Rat) / 10 ^ d.length)) * (10 : Rat) ^ expValue l.exp := by
  obtain ⟨s, w, p, e⟩ := l
  cases e <;> rfl

theorem pyExponent_text {e : Option (Char × Option Bool × Text)}
    (he : ∀ c s d, e = some (c, s, d) → (c = 'e' ∨ c = 'E') ∧ Digits d ∧ d ≠ []) :
    pyExponent (expText e) = some (expValue e) := by
  cases e with
  | none => rfl
  | some t =>
    obtain ⟨x, s, d⟩ := t
    obtain ⟨h1, h2, h3⟩ := he x s d rfl
    simp only [expText, pyExponent]
    rw [if_pos h1, pyInt_text s d h2 h3]
    rfl

theorem rest_head {l : Literal} (h : l.Shape) :
    ∀ c r, l.whole ++ (pointText l.point ++ expText l.exp) = c :: r → c ≠ '-' ∧ c ≠ '+' := by
  intro c r hc
  cases hw : l.whole with
  | cons a w =>
    rw [hw] at hc
    simp only [List.cons_append, List.cons.injEq] at hc
    have := digit_not_sign (h.1 a (by rw [hw]; exact List.mem_cons_self ..))
    rw [← hc.1]
    exact ⟨this.1, this.2.1⟩
  | nil =>
    rw [hw] at hc
    cases hp : l.point with
    | some d =>
      rw [hp] at hc
      simp only [pointText, List.nil_append, List.cons_append, List.cons.injEq] at hc
      rw [← hc.1]
      decide
    | none =>
      rw [hp] at hc
      simp only [pointText, List.nil_append] at hc
      exact (letter_not_digit (expText_head h.2.2 c r hc)).2.2

/-- The fraction of a literal. -/
theorem fraction_text {l : Literal} (h : l.Shape) :
    splitFraction (pointText l.point ++ expText l.exp) = (l.point.getD [], expText l.exp) := by
  cases hp : l.point with
  | none =>
    cases hx : expText l.exp with
    | nil => rfl
    | cons c r =>
      have := (letter_not_digit (expText_head h.2.2 c r hx)).2.1
      simp [pointText, splitFraction, this]
  | some d =>
    obtain ⟨h1, h2⟩ := takeWhile_digits (h.2.1 d hp) fun c r' hc =>
      (letter_not_digit (expText_head h.2.2 c r' hc)).1
    simp [pointText, splitFraction, h1, h2]

theorem afterWhole_head {l : Literal} (h : l.Shape) :
    ∀ c r, pointText l.point ++ expText l.exp = c :: r → c.isDigit = false := by
  intro c r hc
  cases hp : l.point with
  | some d =>
    rw [hp] at hc
    simp only [pointText, List.cons_append, List.cons.injEq] at hc
    rw [← hc.1]
    decide
  | none =>
    rw [hp] at hc
    exact (letter_not_digit (expText_head h.2.2 c r hc)).1

theorem pyFloat_text {l : Literal} (h : l.Shape) :
    pyFloat l.text = if l.whole.isEmpty && (l.point.getD []).isEmpty then none else some l.value := by
  have hs := splitSign_text l.sign _ (rest_head h)
  have ht : l.text = signText l.sign ++ (l.whole ++ (pointText l.point ++ expText l.exp)) := by
    rw [text_eq]
    simp only [List.append_assoc]
  obtain ⟨h1, h2⟩ := takeWhile_digits h.1 (afterWhole_head h)
  simp only [pyFloat, ht, hs, h1, h2, fraction_text h, pyExponent_text h.2.2]
  by_cases hc : (l.whole.isEmpty && (l.point.getD []).isEmpty) = true
  · rw [if_pos hc, if_pos hc]
  · rw [if_neg hc, if_neg hc]
    congr 1
    rw [value_eq]
    congr 1
    congr 1
    · rcases l.sign with - | b
      · simp [signOf]
      · cases b <;> simp [signOf]
    · cases l.point with
      | none => simp [digitsValue, Nat.ofDigitChars]
      | some d => simp [digitsValue]

theorem isFloat_text {l : Literal} (h : l.Shape) :
    (l.text.any fun c => c == '.' || c == 'e' || c == 'E') = decide (¬ (l.point = none ∧ l.exp = none)) := by
  rw [Bool.eq_iff_iff, List.any_eq_true, decide_eq_true_iff]
  constructor
  · rintro ⟨c, hc, hx⟩ ⟨hp, he⟩
    rw [text_eq, hp, he] at hc
    simp only [pointText, expText, List.append_nil, List.mem_append] at hc
    rcases hc with hc | hc
    · rcases sign_plain _ c hc with rfl | rfl <;> revert hx <;> decide
    · obtain ⟨-, -, h1, h2, h3⟩ := digit_not_sign (h.1 c hc)
      simp [h1, h2, h3] at hx
  · intro hn
    cases hp : l.point with
    | some d => exact ⟨'.', by rw [text_eq, hp]; simp [pointText], rfl⟩
    | none =>
      cases he : l.exp with
      | none => exact absurd ⟨hp, he⟩ hn
      | some t =>
        obtain ⟨x, s, d⟩ := t
        have hx := (h.2.2 x s d he).1
        refine ⟨x, by rw [text_eq, he]; simp [expText], ?_⟩
        rcases hx with rfl | rfl <;> rfl

theorem toNumber_valid (fl : Rat → Num) {l : Literal} (h : l.Valid) : toNumber fl l.text = .ok (l.number fl) := by
  simp only [toNumber, isFloat_text h.1, Literal.number, decide_eq_true_eq]
  by_cases hi : l.point = none ∧ l.exp = none
  · rw [if_neg (not_not.mpr hi), if_pos hi]
    have hne : l.whole ≠ [] := by
      rcases h.2 with h | ⟨c, w, h, -⟩ | ⟨-, d, h, -⟩
      · rw [h]
        simp
      · rw [h]
        simp
      · rw [hi.1] at h
        cases h
    have ht : l.text = signText l.sign ++ l.whole := by
      rw [text_eq, hi.1, hi.2]
      simp [pointText, expText]
    rw [ht, pyInt_text _ _ h.1.1 hne]
  · rw [if_pos hi, if_neg hi, pyFloat_text h.1, if_neg]
    rw [Bool.and_eq_true, List.isEmpty_iff, List.isEmpty_iff]
    rintro ⟨h1, h2⟩
    rcases h.2 with h | ⟨c, w, h, -⟩ | ⟨-, d, h, hd⟩
    · rw [h] at h1
      cases h1
    · rw [h] at h1
      cases h1
    · rw [h] at h2
      exact hd h2

/-- A sign or an exponent alone is no number. -/
theorem toNumber_bare (fl : Rat → Num) {l : Literal} (h : l.Bare) : toNumber fl l.text = .error .value := by
  simp only [toNumber, isFloat_text h.1, decide_eq_true_eq]
  by_cases hi : l.point = none ∧ l.exp = none
  · rw [if_neg (not_not.mpr hi)]
    have ht : l.text = signText l.sign ++ [] := by
      rw [text_eq, hi.1, hi.2, h.2.1]
      simp [pointText, expText]
    have hp : pyInt l.text = none := by
      rw [ht]
      rcases l.sign with - | b
      · decide
      · cases b <;> decide
    rw [hp]
  · rw [if_pos hi, pyFloat_text h.1, if_pos]
    rw [h.2.1, h.2.2]
    rfl

/-! ### Lines -/

/-- A text of the form of a line, with its groups. -/
def Form (s f t : Text) : Prop :=
  ∃ w₁ w₂ w₃ w₄, Blank w₁ ∧ Blank w₂ ∧ Blank w₃ ∧ Blank w₄ ∧ (∃ l : Literal, f = l.text ∧ (l.Valid ∨ l.Bare)) ∧
    ((∃ l : Literal, t = l.text ∧ (l.Valid ∨ l.Bare)) ∨ t = "NoData".toList) ∧ s = w₁ ++ f ++ w₂ ++ ':' :: (w₃ ++ t ++ w₄)

theorem spaces_matches : Matches (many isSpace) Blank :=
  (many_matches isSpace).congr fun c => (blank_iff c).symm

theorem target_matches :
    Matches (alt number (word ['N', 'o', 'D', 'a', 't', 'a']))
      fun t => (∃ l : Literal, t = l.text ∧ (l.Valid ∨ l.Bare)) ∨ t = "NoData".toList :=
  alt_matches number_matches (word_matches _)

theorem mem_linePattern (s : Text) (g : Groups) : g ∈ linePattern s ↔ Form s g.source g.target := by
  simp only [linePattern, List.mem_flatMap, List.mem_filterMap]
  constructor
  · rintro ⟨⟨w1, s1⟩, h1, ⟨f, s2⟩, h2, ⟨w2, s3⟩, h3, ⟨c, s4⟩, h4, ⟨w3, s5⟩, h5, ⟨t, s6⟩, h6, ⟨w4, s7⟩, h7, h8⟩
    simp only at h2 h3 h4 h5 h6 h7 h8
    obtain ⟨rfl, b1⟩ := (spaces_matches _ _ _).mp h1
    obtain ⟨rfl, b2⟩ := (number_matches _ _ _).mp h2
    obtain ⟨rfl, b3⟩ := (spaces_matches _ _ _).mp h3
    obtain ⟨rfl, x, rfl, hx⟩ := (one_matches _ _ _ _).mp h4
    obtain ⟨rfl, b5⟩ := (spaces_matches _ _ _).mp h5
    obtain ⟨rfl, b6⟩ := (target_matches _ _ _).mp h6
    obtain ⟨rfl, b7⟩ := (spaces_matches _ _ _).mp h7
    rw [beq_iff_eq] at hx
    by_cases he : s7 = []
    · rw [if_pos he, Option.some.injEq] at h8
      rw [← h8]
      refine ⟨w1, w2, w3, w4, b1, b3, b5, b7, b2, b6, ?_⟩
      rw [he, hx]
      simp only [List.append_assoc, List.append_nil, List.cons_append, List.nil_append]
    · rw [if_neg he] at h8
      cases h8
  · rintro ⟨w1, w2, w3, w4, b1, b2, b3, b4, hf, ht, rfl⟩
    refine ⟨(w1, g.source ++ (w2 ++ ':' :: (w3 ++ (g.target ++ w4)))),
      (spaces_matches _ _ _).mpr ⟨by simp only [List.append_assoc], b1⟩,
      (g.source, w2 ++ ':' :: (w3 ++ (g.target ++ w4))), (number_matches _ _ _).mpr ⟨rfl, hf⟩,
      (w2, ':' :: (w3 ++ (g.target ++ w4))), (spaces_matches _ _ _).mpr ⟨rfl, b2⟩,
      ([':'], w3 ++ (g.target ++ w4)), (one_matches _ _ _ _).mpr ⟨rfl, ':', rfl, rfl⟩,
      (w3, g.target ++ w4), (spaces_matches _ _ _).mpr ⟨rfl, b3⟩,
      (g.target, w4), (target_matches _ _ _).mpr ⟨rfl, ht⟩,
      (w4, []), (spaces_matches _ _ _).mpr ⟨by rw [List.append_nil], b4⟩, ?_⟩
    simp only [if_true]

theorem source_chars {f : Text} (h : ∃ l : Literal, f = l.text ∧ (l.Valid ∨ l.Bare)) :
    ∀ c ∈ f, isSpace c = false ∧ c ≠ ':' := by
  obtain ⟨l, rfl, hl⟩ := h
  have hsh : l.Shape := hl.elim (fun h => h.1) (fun h => h.1)
  exact fun c hc => plain_not_special (text_plain hsh c hc)

theorem target_chars {t : Text} (h : (∃ l : Literal, t = l.text ∧ (l.Valid ∨ l.Bare)) ∨ t = "NoData".toList) :
    ∀ c ∈ t, isSpace c = false := by
  rcases h with h | rfl
  · exact fun c hc => (source_chars h c hc).1
  · decide

theorem blank_no_colon {w : Text} (h : Blank w) : ∀ c ∈ w, c ≠ ':' := by
  intro c hc
  rcases h c hc with rfl | rfl | rfl | rfl | rfl | rfl | rfl | rfl | rfl | rfl <;> decide

theorem filter_blank {w : Text} (h : Blank w) : w.filter (fun c => !isSpace c) = [] := by
  rw [List.filter_eq_nil_iff]
  intro c hc
  rw [(blank_iff w).mp h c hc]
  decide

theorem filter_solid {w : Text} (h : ∀ c ∈ w, isSpace c = false) : w.filter (fun c => !isSpace c) = w := by
  rw [List.filter_eq_self]
  intro c hc
  rw [h c hc]
  rfl

theorem before_colon {a r : Text} (h : ∀ c ∈ a, c ≠ ':') :
    (a ++ ':' :: r).takeWhile (· != ':') = a ∧ (a ++ ':' :: r).dropWhile (· != ':') = ':' :: r := by
  induction a with
  | nil => exact ⟨rfl, rfl⟩
  | cons x a ih =>
    obtain ⟨h1, h2⟩ := ih fun c hc => h c (List.mem_cons_of_mem _ hc)
    have hx := h x (List.mem_cons_self ..)
    simp [hx, h1, h2]

/-- The groups are determined by the line. -/
theorem form_groups {s f t : Text} (h : Form s f t) :
    f = (s.takeWhile (· != ':')).filter (fun c => !isSpace c) ∧
      t = ((s.dropWhile (· != ':')).drop 1).filter (fun c => !isSpace c) := by
  obtain ⟨w1, w2, w3, w4, b1, b2, b3, b4, hf, ht, rfl⟩ := h
  have hc : ∀ c ∈ w1 ++ f ++ w2, c ≠ ':' := by
    intro c hc
    simp only [List.mem_append] at hc
    rcases hc with (hc | hc) | hc
    · exact blank_no_colon b1 c hc
    · exact (source_chars hf c hc).2
    · exact blank_no_colon b2 c hc
  obtain ⟨h1, h2⟩ := before_colon (r := w3 ++ t ++ w4) hc
  rw [h1, h2]
  simp only [List.drop_succ_cons, List.drop_zero, List.filter_append, filter_blank b1, filter_blank b2, filter_blank b3,
    filter_blank b4, filter_solid (fun c hc => (source_chars hf c hc).1), filter_solid (target_chars ht),
    List.nil_append, List.append_nil, and_self]

theorem head_of_form {s f t : Text} (h : Form s f t) : (linePattern s).head? = some ⟨f, t⟩ := by
  have hm : (⟨f, t⟩ : Groups) ∈ linePattern s := (mem_linePattern s ⟨f, t⟩).mpr h
  cases hl : linePattern s with
  | nil =>
    rw [hl] at hm
    cases hm
  | cons g gs =>
    have hg : Form s g.source g.target := (mem_linePattern s g).mp (by rw [hl]; exact List.mem_cons_self ..)
    obtain ⟨h1, h2⟩ := form_groups h
    obtain ⟨h3, h4⟩ := form_groups hg
    rw [List.head?_cons]
    obtain ⟨a, b⟩ := g
    simp only at h3 h4
    rw [h1, h2, h3, h4]

/-! ### Blanks around a line -/

theorem dropWhile_blank {w r : Text} (h : Blank w) : (w ++ r).dropWhile isSpace = r.dropWhile isSpace := by
  induction w with
  | nil => rfl
  | cons c w ih =>
    have hc := (blank_iff _).mp h c (List.mem_cons_self ..)
    rw [List.cons_append, List.dropWhile_cons_of_pos hc]
    exact ih fun d hd => h d (List.mem_cons_of_mem _ hd)

theorem split_blank (s : Text) : ∃ w, Blank w ∧ s = w ++ s.dropWhile isSpace := by
  refine ⟨s.takeWhile isSpace, ?_, List.takeWhile_append_dropWhile.symm⟩
  rw [blank_iff]
  intro c hc
  exact (List.all_eq_true.mp List.all_takeWhile) c hc

theorem strip_split (s : Text) : ∃ w w', Blank w ∧ Blank w' ∧ s = w ++ strip s ++ w' := by
  obtain ⟨w, hw, h1⟩ := split_blank s
  obtain ⟨v, hv, h2⟩ := split_blank (s.dropWhile isSpace).reverse
  refine ⟨w, v.reverse, hw, ?_, ?_⟩
  · intro c hc
    exact hv c (List.mem_reverse.mp hc)
  · have h3 : s.dropWhile isSpace = strip s ++ v.reverse := by
      have := congrArg List.reverse h2
      rw [List.reverse_reverse, List.reverse_append] at this
      exact this
    rw [List.append_assoc, ← h3]
    exact h1

theorem strip_blank {s : Text} (h : Blank s) : strip s = [] := by
  have h1 : s.dropWhile isSpace = [] := by
    have := dropWhile_blank (r := []) h
    rw [List.append_nil] at this
    rw [this]
    rfl
  simp only [strip, h1]
  rfl

theorem blank_append {a b : Text} (ha : Blank a) (hb : Blank b) : Blank (a ++ b) := by
  intro c hc
  rcases List.mem_append.mp hc with hc | hc
  · exact ha c hc
  · exact hb c hc

theorem dropWhile_solid {w r : Text} (h : ∀ c ∈ w, isSpace c = false) (hne : w ≠ []) :
    (w ++ r).dropWhile isSpace = w ++ r := by
  cases w with
  | nil => exact absurd rfl hne
  | cons c w =>
    rw [List.cons_append, List.dropWhile_cons_of_neg]
    rw [h c (List.mem_cons_self ..)]
    decide

theorem blank_nil : Blank [] := fun c hc => by cases hc

theorem form_strip {s f t : Text} (h : Form s f t) : Form (strip s) f t := by
  obtain ⟨w1, w2, w3, w4, b1, b2, b3, b4, hf, ht, rfl⟩ := h
  have hleft : ∃ v2, Blank v2 ∧ (w1 ++ f ++ w2 ++ ':' :: (w3 ++ t ++ w4)).dropWhile isSpace =
      f ++ v2 ++ ':' :: (w3 ++ t ++ w4) := by
    by_cases hne : f = []
    · refine ⟨[], blank_nil, ?_⟩
      rw [hne, List.append_nil, dropWhile_blank (blank_append b1 b2)]
      exact dropWhile_solid (w := [':']) (by decide) (by simp)
    · refine ⟨w2, b2, ?_⟩
      simp only [List.append_assoc]
      rw [dropWhile_blank b1, dropWhile_solid (fun c hc => (source_chars hf c hc).1) hne]
  obtain ⟨v2, c2, hl⟩ := hleft
  have hrev : ∀ w : Text, Blank w → Blank w.reverse := fun w hw c hc => hw c (List.mem_reverse.mp hc)
  have hright : ∃ v3, Blank v3 ∧ (f ++ v2 ++ ':' :: (w3 ++ t ++ w4)).reverse.dropWhile isSpace =
      (f ++ v2 ++ ':' :: (v3 ++ t)).reverse := by
    by_cases hne : t = []
    · refine ⟨[], blank_nil, ?_⟩
      rw [hne]
      simp only [List.append_nil, List.reverse_append, List.reverse_cons, List.append_assoc, List.nil_append,
        List.reverse_nil]
      rw [dropWhile_blank (hrev _ b4), dropWhile_blank (hrev _ b3)]
      exact dropWhile_solid (w := [':']) (by decide) (by simp)
    · refine ⟨w3, b3, ?_⟩
      simp only [List.reverse_append, List.reverse_cons, List.append_assoc]
      rw [dropWhile_blank (hrev _ b4), dropWhile_solid]
      · intro c hc
        exact target_chars ht c (List.mem_reverse.mp hc)
      · simpa using hne
  obtain ⟨v3, c3, hr⟩ := hright
  refine ⟨[], v2, v3, [], blank_nil, c2, c3, blank_nil, hf, ht, ?_⟩
  simp only [strip]
  rw [hl, hr, List.reverse_reverse]
  simp only [List.nil_append, List.append_nil]

theorem form_unstrip {s f t : Text} (h : Form (strip s) f t) : Form s f t := by
  obtain ⟨w, w', hw, hw', hs⟩ := strip_split s
  obtain ⟨w1, w2, w3, w4, b1, b2, b3, b4, hf, ht, he⟩ := h
  refine ⟨w ++ w1, w2, w3, w4 ++ w', blank_append hw b1, b2, b3, blank_append b4 hw', hf, ht, ?_⟩
  rw [he] at hs
  rw [hs]
  simp only [List.append_assoc, List.cons_append]

theorem strip_eq_nil_iff (s : Text) : strip s = [] ↔ Blank s := by
  constructor
  · intro h
    obtain ⟨w, w', hw, hw', hs⟩ := strip_split s
    rw [h, List.append_nil] at hs
    rw [hs]
    exact blank_append hw hw'
  · exact strip_blank

/-! ### C77: the entry of a line -/

theorem valid_ne_nil {l : Literal} (h : l.Valid) : l.text ≠ [] := by
  intro he
  rw [text_eq] at he
  simp only [List.append_eq_nil_iff] at he
  obtain ⟨⟨⟨-, h1⟩, h2⟩, -⟩ := he
  rcases h.2 with h | ⟨c, w, h, -⟩ | ⟨-, d, h, -⟩
  · rw [h] at h1
    cases h1
  · rw [h] at h1
    cases h1
  · rw [h] at h2
    cases h2

theorem text_not_noData {l : Literal} (h : l.Shape) : l.text ≠ ['N', 'o', 'D', 'a', 't', 'a'] := by
  intro he
  have : Plain 'N' := text_plain h 'N' (by rw [he]; exact List.mem_cons_self ..)
  revert this
  simp only [Plain]
  decide

theorem form_of_line {w₁ w₂ w₃ w₄ : Text} {k : Literal} {v : Option Literal} (b1 : Blank w₁) (b2 : Blank w₂) (b3 : Blank w₃)
    (b4 : Blank w₄) (hk : k.Valid) (hv : ∀ l, v = some l → l.Valid) :
    Form (lineText w₁ w₂ w₃ w₄ k v) k.text (targetText v) := by
  refine ⟨w₁, w₂, w₃, w₄, b1, b2, b3, b4, ⟨k, rfl, Or.inl hk⟩, ?_, rfl⟩
  cases v with
  | none => exact Or.inr rfl
  | some l => exact Or.inl ⟨l, rfl, Or.inl (hv l rfl)⟩

theorem toTarget_text (fl : Rat → Num) {v : Option Literal} (hv : ∀ l, v = some l → l.Valid) :
    toTarget fl (targetText v) = .ok (v.map (Literal.number fl)) := by
  cases v with
  | none => rfl
  | some l =>
    have hl := hv l rfl
    have ht : targetText (some l) = l.text := rfl
    rw [ht]
    simp only [toTarget]
    rw [if_neg (text_not_noData hl.1), toNumber_valid fl hl]
    rfl

theorem isEmpty_false {s : Text} (h : s ≠ []) : s.isEmpty = false := by
  cases s with
  | nil => exact absurd rfl h
  | cons => rfl

/-- **C77.** A line is read as an entry exactly if it consists of two numbers, or a number and `NoData`, with a colon between
them and blanks around them: the entry has these numbers. -/
theorem C77_line (fl : Rat → Num) (line : Text) (e : Number × Option Number) :
    parseLine fl line = .ok (some e) ↔ Says fl line e := by
  constructor
  · intro h
    simp only [parseLine] at h
    by_cases hs : strip line = []
    · rw [if_pos hs] at h
      cases h
    · rw [if_neg hs] at h
      simp only [parseStripped] at h
      cases hg : (linePattern (strip line)).head? with
      | none =>
        rw [hg] at h
        cases h
      | some g =>
        rw [hg] at h
        simp only at h
        have hf : Form line g.source g.target :=
          form_unstrip ((mem_linePattern _ g).mp (List.mem_of_mem_head? hg))
        by_cases hem : (g.source.isEmpty || g.target.isEmpty) = true
        · rw [if_pos hem] at h
          cases h
        · rw [if_neg hem] at h
          obtain ⟨w1, w2, w3, w4, b1, b2, b3, b4, ⟨k, hk, hk'⟩, ht, hl⟩ := hf
          rcases hk' with hk' | hk'
          · rw [hk, toNumber_valid fl hk'] at h
            simp only at h
            have hv : ∃ v : Option Literal, g.target = targetText v ∧ ∀ l, v = some l → l.Valid := by
              rcases ht with ⟨l, hl1, hl2⟩ | hl1
              · rcases hl2 with hl2 | hl2
                · refine ⟨some l, hl1, ?_⟩
                  intro l' h'
                  rw [Option.some.injEq] at h'
                  rw [← h']
                  exact hl2
                · rw [hl1] at h
                  simp only [toTarget] at h
                  rw [if_neg (text_not_noData hl2.1), toNumber_bare fl hl2] at h
                  cases h
              · exact ⟨none, hl1, fun l h => by cases h⟩
            obtain ⟨v, hv1, hv2⟩ := hv
            rw [hv1, toTarget_text fl hv2] at h
            refine ⟨w1, w2, w3, w4, k, v, b1, b2, b3, b4, hk', hv2, ?_, ?_⟩
            · rw [hl, hk, hv1]
              rfl
            · exact (Option.some.inj (Except.ok.inj h)).symm
          · rw [hk, toNumber_bare fl hk'] at h
            cases h
  · rintro ⟨w1, w2, w3, w4, k, v, b1, b2, b3, b4, hk, hv, rfl, rfl⟩
    have hf := form_of_line b1 b2 b3 b4 hk hv
    have hne : strip (lineText w1 w2 w3 w4 k v) ≠ [] := by
      intro h
      have hb := (strip_eq_nil_iff _).mp h
      have : (':' : Char) ∈ lineText w1 w2 w3 w4 k v := by simp [lineText]
      exact blank_no_colon hb ':' this rfl
    have ht : targetText v ≠ [] := by
      cases v with
      | none => decide
      | some l => exact valid_ne_nil (hv l rfl)
    simp only [parseLine, parseStripped]
    rw [if_neg hne, head_of_form (form_strip hf)]
    simp only [isEmpty_false (valid_ne_nil hk), isEmpty_false ht, toNumber_valid fl hk, toTarget_text fl hv]
    rfl

/-- **C77.** A line is skipped exactly if it is blank. -/
theorem C77_blank (fl : Rat → Num) (line : Text) : parseLine fl line = .ok none ↔ Blank line := by
  rw [← strip_eq_nil_iff]
  simp only [parseLine]
  constructor
  · intro h
    by_contra hs
    rw [if_neg hs] at h
    cases hp : parseStripped fl (strip line) with
    | error e =>
      rw [hp] at h
      cases h
    | ok e =>
      rw [hp] at h
      cases h
  · intro hs
    rw [if_pos hs]

/-- **C77.** What is raised for any other line: a ValueError if the line has the form of an entry with a sign or an exponent
alone in the place of a number, the error of the parser otherwise. -/
theorem C77_refused (fl : Rat → Num) (line : Text) (hb : ¬ Blank line) (hs : ¬ ∃ e, Says fl line e) :
    ((∃ f t, Form line f t ∧ f ≠ [] ∧ t ≠ []) → parseLine fl line = .error .value) ∧
      ((¬ ∃ f t, Form line f t ∧ f ≠ [] ∧ t ≠ []) → parseLine fl line = .error .parse) := by
  have hne : strip line ≠ [] := fun h => hb ((strip_eq_nil_iff line).mp h)
  constructor
  · rintro ⟨f, t, hf, h1, h2⟩
    cases hp : parseLine fl line with
    | ok o =>
      exfalso
      cases o with
      | none => exact hb ((C77_blank fl line).mp hp)
      | some e => exact hs ⟨e, (C77_line fl line e).mp hp⟩
    | error e =>
      simp only [parseLine, parseStripped] at hp
      rw [if_neg hne, head_of_form (form_strip hf)] at hp
      simp only [isEmpty_false h1, isEmpty_false h2] at hp
      obtain ⟨w1, w2, w3, w4, b1, b2, b3, b4, ⟨k, rfl, hk⟩, ht, hl⟩ := hf
      have hkn : toNumber fl k.text = .error .value ∨ ∃ n, toNumber fl k.text = .ok n := by
        rcases hk with hk | hk
        · exact Or.inr ⟨_, toNumber_valid fl hk⟩
        · exact Or.inl (toNumber_bare fl hk)
      have htn : toTarget fl t = .error .value ∨ ∃ n, toTarget fl t = .ok n := by
        rcases ht with ⟨l, rfl, hlt⟩ | rfl
        · have hnd : l.text ≠ ['N', 'o', 'D', 'a', 't', 'a'] := text_not_noData (hlt.elim (fun h => h.1) (fun h => h.1))
          simp only [toTarget]
          rw [if_neg hnd]
          rcases hlt with hlt | hlt
          · exact Or.inr ⟨some (l.number fl), by rw [toNumber_valid fl hlt]; rfl⟩
          · exact Or.inl (by rw [toNumber_bare fl hlt]; rfl)
        · exact Or.inr ⟨none, rfl⟩
      rcases hkn with hkn | ⟨n, hkn⟩
      · rw [hkn] at hp
        exact congrArg _ (Except.error.inj hp).symm
      · rw [hkn] at hp
        rcases htn with htn | ⟨m, htn⟩
        · rw [htn] at hp
          exact congrArg _ (Except.error.inj hp).symm
        · rw [htn] at hp
          cases hp
  · intro hf
    simp only [parseLine, parseStripped]
    rw [if_neg hne]
    cases hg : (linePattern (strip line)).head? with
    | none => rfl
    | some g =>
      have hg' : Form line g.source g.target := form_unstrip ((mem_linePattern _ g).mp (List.mem_of_mem_head? hg))
      simp only
      rw [if_pos]
      · rfl
      · by_contra hem
        rw [Bool.or_eq_true, List.isEmpty_iff, List.isEmpty_iff, not_or] at hem
        exact hf ⟨_, _, hg', hem.1, hem.2⟩

/-- **C77 is false of the code** where it says that a line that is neither blank nor an entry raises the error of the parser:
for a sign alone `int` raises a bare ValueError. -/
theorem C77_sign_alone (fl : Rat → Num) :
    parseLine fl "-:5".toList = .error .value ∧ ¬ Blank "-:5".toList ∧ ¬ ∃ e, Says fl "-:5".toList e := by
  have h : parseLine fl "-:5".toList = .error .value := by rfl
  refine ⟨h, ?_, ?_⟩
  · rw [← strip_eq_nil_iff]
    decide
  · rintro ⟨e, he⟩
    rw [(C77_line fl _ e).mpr he] at h
    cases h

/-! ### C77: files -/

/-- What a line adds to the mapping. -/
def Spec.Adds (fl : Rat → Num) (line : Text) : Option (Number × Option Number) → Prop
  | none => Blank line
  | some e => Says fl line e

theorem adds_iff (fl : Rat → Num) (line : Text) (o : Option (Number × Option Number)) :
    parseLine fl line = .ok o ↔ Spec.Adds fl line o := by
  cases o with
  | none => exact C77_blank fl line
  | some e => exact C77_line fl line e

/-- No two keys are equal as numbers. -/
def Spec.Distinct (m : List (Number × Option Number)) : Prop :=
  m.Pairwise fun a b => a.1.num.eq b.1.num = false

theorem parseFrom_iff (fl : Rat → Num) (lines : List Text) : ∀ m m' : List (Number × Option Number), Spec.Distinct m →
    (parseFrom fl m lines = .ok m' ↔ ∃ es, List.Forall₂ (Spec.Adds fl) lines es ∧ m' = m ++ es.filterMap id ∧
      Spec.Distinct m') := by
  induction lines with
  | nil =>
    intro m m' hd
    simp only [parseFrom]
    constructor
    · intro h
      have := Except.ok.inj h
      exact ⟨[], List.Forall₂.nil, by simp [this], by rw [← this]; exact hd⟩
    · rintro ⟨es, h1, h2, -⟩
      cases h1
      rw [h2]
      simp
  | cons line lines ih =>
    intro m m' hd
    simp only [parseFrom]
    cases hp : parseLine fl line with
    | error e =>
      constructor
      · intro h
        cases h
      · rintro ⟨es, h1, -, -⟩
        cases h1 with
        | cons h1 _ =>
          rw [(adds_iff fl line _).mpr h1] at hp
          cases hp
    | ok o =>
      have ho : ∀ o', Spec.Adds fl line o' ↔ o' = o := by
        intro o'
        rw [← adds_iff, hp]
        constructor
        · intro h
          exact (Except.ok.inj h).symm
        · rintro rfl
          rfl
      cases o with
      | none =>
        simp only
        rw [ih m m' hd]
        constructor
        · rintro ⟨es, h1, h2, h3⟩
          exact ⟨none :: es, List.Forall₂.cons ((ho none).mpr rfl) h1, by rw [h2]; rfl, h3⟩
        · rintro ⟨es, h1, h2, h3⟩
          cases h1 with
          | cons h4 h5 =>
            have := (ho _).mp h4
            subst this
            exact ⟨_, h5, by rw [h2]; rfl, h3⟩
      | some e =>
        simp only
        by_cases hk : (m.any fun d => d.1.num.eq e.1.num) = true
        · rw [if_pos hk]
          constructor
          · intro h
            cases h
          · rintro ⟨es, h1, h2, h3⟩
            exfalso
            cases h1 with
            | cons h4 h5 =>
              have := (ho _).mp h4
              subst this
              rw [List.any_eq_true] at hk
              obtain ⟨d, hd1, hd2⟩ := hk
              rw [h2] at h3
              have := (List.pairwise_append.mp h3).2.2 d hd1 e (by simp)
              rw [this] at hd2
              cases hd2
        · rw [if_neg hk]
          have hd' : Spec.Distinct (m ++ [e]) := by
            refine List.pairwise_append.mpr ⟨hd, List.pairwise_singleton _ _, ?_⟩
            intro a ha b hb
            rw [List.mem_singleton] at hb
            rw [hb]
            rw [Bool.not_eq_true, List.any_eq_false] at hk
            exact Bool.not_eq_true _ ▸ hk a ha
          rw [ih (m ++ [e]) m' hd']
          constructor
          · rintro ⟨es, h1, h2, h3⟩
            refine ⟨some e :: es, List.Forall₂.cons ((ho _).mpr rfl) h1, ?_, h3⟩
            rw [h2]
            simp
          · rintro ⟨es, h1, h2, h3⟩
            cases h1 with
            | cons h4 h5 =>
              have := (ho _).mp h4
              subst this
              refine ⟨_, h5, ?_, h3⟩
              rw [h2]
              simp

/-- **C77.** A file is read exactly if every line is blank or an entry and no two keys are equal as numbers; the mapping has
the entries of the lines, in their order. -/
theorem C77_file (fl : Rat → Num) (lines : List Text) (m : List (Number × Option Number)) :
    parseFile fl lines = .ok m ↔
      ∃ es, List.Forall₂ (Spec.Adds fl) lines es ∧ m = es.filterMap id ∧ Spec.Distinct m := by
  have := parseFrom_iff fl lines [] m List.Pairwise.nil
  simpa [parseFile] using this

/-- **C77.** The remapping of a path is the mapping of the file, which must have an entry; a dict is taken as it is. -/
theorem C77_get (fl : Rat → Num) (a : Arg) (m : List (Number × Option Number)) :
    getRemapping fl a = .ok m ↔
      (∃ lines, a = .path (some lines) ∧ parseFile fl lines = .ok m ∧ m ≠ []) ∨ a = .dict m := by
  constructor
  · intro h
    cases a with
    | path o =>
      cases o with
      | none => cases h
      | some lines =>
        simp only [getRemapping] at h
        cases hp : parseFile fl lines with
        | error e =>
          rw [hp] at h
          cases h
        | ok m' =>
          rw [hp] at h
          simp only at h
          by_cases he : m'.isEmpty = true
          · rw [if_pos he] at h
            cases h
          · rw [if_neg he] at h
            have := Except.ok.inj h
            subst this
            refine Or.inl ⟨lines, rfl, hp, ?_⟩
            intro hn
            rw [hn] at he
            exact he rfl
    | dict d => exact Or.inr (congrArg _ (Except.ok.inj h))
    | other => cases h
  · rintro (⟨lines, rfl, hp, hne⟩ | rfl)
    · simp only [getRemapping, hp]
      rw [if_neg]
      rw [List.isEmpty_iff]
      exact hne
    · rfl

/-! ### C77: writing and reading -/

/-- The literal of an integer. -/
def intLiteral (n : Int) : Literal where
  sign := if n < 0 then some true else none
  whole := Nat.toDigits 10 n.natAbs
  point := none
  exp := none

theorem toDigits_digits (n : Nat) : Digits (Nat.toDigits 10 n) := by
  intro c hc
  exact Nat.isDigit_of_mem_toDigits (b := 10) (by decide) (by decide) hc

theorem toDigits_lead (n : Nat) : Nat.toDigits 10 n = ['0'] ∨ ∃ c w, Nat.toDigits 10 n = c :: w ∧ c ≠ '0' := by
  induction n using Nat.strongRecOn with
  | ind n ih =>
    by_cases h : n < 10
    · interval_cases n
      · exact Or.inl rfl
      all_goals exact Or.inr ⟨_, [], rfl, by decide⟩
    · right
      rw [Nat.toDigits_eq_if (by decide), if_neg h]
      rcases ih (n / 10) (by omega) with h1 | ⟨c, w, h1, h2⟩
      · exfalso
        have := Nat.ofDigitChars_ten_toDigits (n := n / 10)
        rw [h1] at this
        simp [Nat.ofDigitChars] at this
        omega
      · exact ⟨c, w ++ [Nat.digitChar (n % 10)], by rw [h1]; rfl, h2⟩

theorem intLiteral_valid (n : Int) : (intLiteral n).Valid := by
  refine ⟨⟨toDigits_digits _, noPoint_digits, fun c s d h => by cases h⟩, ?_⟩
  rcases toDigits_lead n.natAbs with h | ⟨c, w, h, hc⟩
  · exact Or.inl h
  · exact Or.inr (Or.inl ⟨c, w, h, hc⟩)

theorem intLiteral_number (fl : Rat → Num) (n : Int) : (intLiteral n).number fl = .int n := by
  simp only [Literal.number, intLiteral, and_self, if_true, digitsValue, Nat.ofDigitChars_ten_toDigits]
  congr 1
  by_cases h : n < 0
  · rw [if_pos h]
    simp only [signOf]
    omega
  · rw [if_neg h]
    simp only [signOf]
    omega

theorem intLiteral_text (n : Int) : (intLiteral n).text = (toString n).toList := by
  rw [text_eq]
  simp only [intLiteral, pointText, expText, List.append_nil]
  by_cases h : n < 0
  · rw [if_pos h]
    cases n with
    | ofNat n =>
      exfalso
      rw [Int.ofNat_eq_natCast] at h
      omega
    | negSucc n =>
      show _ = (("-" : String) ++ Nat.repr (n + 1)).toList
      rw [String.toList_append, Nat.toList_repr]
      rfl
  · rw [if_neg h]
    cases n with
    | negSucc n => omega
    | ofNat n =>
      show _ = (Nat.repr n).toList
      rw [Nat.toList_repr]
      rfl

/-- How an entry is written: `key:value` with a line break. -/
def Spec.entryLine (e : Int × Option Int) : Text :=
  (toString e.1).toList ++ ':' :: ((match e.2 with | none => "NoData" | some n => toString n).toList ++ ['\n'])

/-- **C77.** The errors of the argument: an I/O error for a file that cannot be read, the file's own error, a value
error for a file without entries, a type error for anything that is neither a path nor a dict. -/
theorem C77_get_errors (fl : Rat → Num) :
    getRemapping fl (.path none) = .error .io ∧ getRemapping fl .other = .error .type ∧
    (∀ lines e, parseFile fl lines = .error e → getRemapping fl (.path (some lines)) = .error e) ∧
    (∀ lines, (∀ l ∈ lines, Blank l) → getRemapping fl (.path (some lines)) = .error .value) := by
  refine ⟨rfl, rfl, ?_, ?_⟩
  · intro lines e h
    simp only [getRemapping, h]
  · intro lines h
    have hf : parseFile fl lines = .ok [] := by
      rw [C77_file]
      refine ⟨lines.map fun _ => none, ?_, ?_, List.Pairwise.nil⟩
      · rw [List.forall₂_map_right_iff]
        refine List.forall₂_same.mpr ?_
        intro l hl
        exact h l hl
      · simp
    simp only [getRemapping, hf]
    rfl

/-- **C77.** A mapping of distinct integers to integers or no data that is written line by line is read back. -/
theorem C77_roundtrip (fl : Rat → Num) (m : List (Int × Option Int)) (hm : (m.map Prod.fst).Nodup) :
    parseFile fl (m.map Spec.entryLine) = .ok (m.map fun e => (.int e.1, e.2.map .int)) := by
  rw [C77_file]
  refine ⟨m.map fun e => some (.int e.1, e.2.map .int), ?_, ?_, ?_⟩
  · rw [List.forall₂_map_left_iff, List.forall₂_map_right_iff]
    refine List.forall₂_same.mpr ?_
    intro e _
    refine ⟨[], [], [], ['\n'], intLiteral e.1, e.2.map intLiteral, blank_nil, blank_nil, blank_nil, ?_, intLiteral_valid _,
      ?_, ?_, ?_⟩
    · intro c hc
      rw [List.mem_singleton] at hc
      exact Or.inr (Or.inr (Or.inl hc))
    · intro l hl
      cases h2 : e.2 with
      | none =>
        rw [h2] at hl
        cases hl
      | some n =>
        rw [h2] at hl
        rw [← Option.some.inj hl]
        exact intLiteral_valid n
    · obtain ⟨k, v⟩ := e
      cases v with
      | none => simp [Spec.entryLine, lineText, targetText, intLiteral_text]
      | some n => simp [Spec.entryLine, lineText, targetText, intLiteral_text]
    · obtain ⟨k, v⟩ := e
      cases v with
      | none => simp [intLiteral_number]
      | some n => simp [intLiteral_number]
  · rw [List.filterMap_map]
    simp
  · rw [Spec.Distinct, List.pairwise_map]
    rw [List.nodup_iff_pairwise_ne, List.pairwise_map] at hm
    refine hm.imp ?_
    intro a b hab
    simp only [Number.num]
    cases h : Num.eq (.fin (a.1 : Rat)) (.fin (b.1 : Rat)) with
    | false => rfl
    | true =>
      exfalso
      apply hab
      simp [Num.eq] at h
      exact_mod_cast h

/-- **C77.** Keys that are equal as numbers are refused, however they are written. -/
theorem C77_duplicate (fl : Rat → Num) (l₁ l₂ : Text) (mid : List Text) (e₁ e₂ : Number × Option Number)
    (h₁ : Says fl l₁ e₁) (h₂ : Says fl l₂ e₂) (hmid : ∀ l ∈ mid, ∃ o, Spec.Adds fl l o)
    (hk : e₁.1.num.eq e₂.1.num = true) : parseFile fl (l₁ :: mid ++ [l₂]) = .error .value := by
  have hgo : ∀ (mid : List Text) (m : List (Number × Option Number)), (∀ l ∈ mid, ∃ o, Spec.Adds fl l o) → e₁ ∈ m →
      parseFrom fl m (mid ++ [l₂]) = .error .value := by
    intro mid
    induction mid with
    | nil =>
      intro m _ he
      simp only [List.nil_append, parseFrom, (C77_line fl l₂ e₂).mpr h₂]
      rw [if_pos]
      rw [List.any_eq_true]
      exact ⟨e₁, he, hk⟩
    | cons l mid ih =>
      intro m hmid he
      obtain ⟨o, ho⟩ := hmid l (List.mem_cons_self ..)
      simp only [List.cons_append, parseFrom, (adds_iff fl l o).mpr ho]
      have hmid' : ∀ l ∈ mid, ∃ o, Spec.Adds fl l o := fun l hl => hmid l (List.mem_cons_of_mem _ hl)
      cases o with
      | none => exact ih m hmid' he
      | some e =>
        simp only
        by_cases hany : (m.any fun d => d.1.num.eq e.1.num) = true
        · rw [if_pos hany]
        · rw [if_neg hany]
          exact ih _ hmid' (List.mem_append_left _ he)
  simp only [parseFile, List.cons_append, parseFrom, (C77_line fl l₁ e₁).mpr h₁, List.any_nil]
  exact hgo mid [e₁] hmid (List.mem_singleton.mpr rfl)

/-! ### Examples -/

/-- A line with blanks, a float key and no data. -/
example : parseLine (fun r => .fin r) "  -1.50e+1 :\tNoData \n".toList = .ok (some (.float (.fin (-15)), none)) := by
  decide +kernel

/-- The keys 1 and 1.0 are equal, other spellings of numbers are refused. -/
example : parseFile (fun r => .fin r) ["1:2\n".toList, "\n".toList, "1.0:3\n".toList] = .error .value ∧
    parseFile (fun r => .fin r) ["007:2\n".toList] = .error .parse ∧ parseFile (fun r => .fin r) ["5:\n".toList] = .error .parse := by
  decide +kernel

/-- A file of blank lines. -/
example : (∀ l ∈ ["\n".toList, " \t\n".toList], Spec.Blank l) ∧
    getRemapping (fun r => .fin r) (.path (some ["\n".toList, " \t\n".toList])) = .error .value := by
  have h : ∀ l ∈ ["\n".toList, " \t\n".toList], Spec.Blank l := by simp [Spec.Blank]
  exact ⟨h, (C77_get_errors _).2.2.2 _ h⟩

/-- Writing and reading. -/
example : parseFile (fun r => .fin r) ([(-12, some 5), (0, none)].map Spec.entryLine) =
    .ok [(.int (-12), some (.int 5)), (.int 0, none)] := C77_roundtrip _ _ (by decide)

end Verif.RemapFile
