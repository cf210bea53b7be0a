import Verif.Nulls.RasterModel

/-!
# Model of remap files (`general.py`)

A file is the list of its lines, a line is a list of characters; only ASCII digits and blanks are known (Python's `\d` and
`\s` match others as well).  A regular expression is a function from a text to all ways to match its beginning, in the order
in which `re` tries them.  The limit of CPython on the number of digits of an int is left out.  Numbers are exact; `fl` rounds a decimal to a float, possibly to infinity.
-/

namespace Verif.RemapFile

open Verif

abbrev Text := List Char

/-- The blank characters of ASCII for `strip` and `\s`. -/
def isSpace (c : Char) : Bool := [' ', '\t', '\n', '\r', '\x0b', '\x0c', '\x1c', '\x1d', '\x1e', '\x1f'].contains c

/-! ### Regular expressions -/

/-- The ways to match the beginning of a text: what was matched, and the rest. -/
abbrev Pattern := Text → List (Text × Text)

/-- One character of a class. -/
def one (q : Char → Bool) : Pattern
  | [] => []
  | c :: s => if q c then [([c], s)] else []

/-- `q*`, the longest first. -/
def many (q : Char → Bool) : Pattern
  | [] => [([], [])]
  | c :: s => if q c then (many q s).map (fun e => (c :: e.1, e.2)) ++ [([], c :: s)] else [([], c :: s)]

/-- One after the other. -/
def seq (p r : Pattern) : Pattern := fun s => (p s).flatMap fun e => (r e.2).map fun f => (e.1 ++ f.1, f.2)

/-- `p|r`. -/
def alt (p r : Pattern) : Pattern := fun s => p s ++ r s

/-- `(?:p)?`. -/
def opt (p : Pattern) : Pattern := alt p fun s => [([], s)]

/-- A word. -/
def word : Text → Pattern
  | [] => fun s => [([], s)]
  | c :: w => seq (one (· == c)) (word w)

/-- `\d`. -/
def isDigit (c : Char) : Bool := c.isDigit

/-- `[-+]?`. -/
def sign : Pattern := opt (one fun c => c == '-' || c == '+')

/-- `(?:0|[1-9]\d*)(?:\.\d*)?|\.\d+`. -/
def mantissa : Pattern :=
  alt (seq (alt (one (· == '0')) (seq (one fun c => isDigit c && c != '0') (many isDigit)))
      (opt (seq (one (· == '.')) (many isDigit))))
    (seq (one (· == '.')) (seq (one isDigit) (many isDigit)))

/-- `[eE][-+]?\d+`. -/
def exponent : Pattern := seq (one fun c => c == 'e' || c == 'E') (seq sign (seq (one isDigit) (many isDigit)))

/-- `general.py:1284-1286` `_INT_OR_FLOAT_RE`. -/
def number : Pattern := seq (seq sign (opt mantissa)) (opt exponent)

/-- The groups `from` and `to`. -/
structure Groups where
  source : Text
  target : Text
deriving DecidableEq

/-- `general.py:1287-1290` `_REMAPPING_LINE_PATTERN`, all ways to match a line without a line break. -/
def linePattern (s : Text) : List Groups :=
  (many isSpace s).flatMap fun a => (number a.2).flatMap fun f => (many isSpace f.2).flatMap fun b =>
    (one (· == ':') b.2).flatMap fun c => (many isSpace c.2).flatMap fun d =>
      (alt number (word ['N', 'o', 'D', 'a', 't', 'a']) d.2).flatMap fun t => (many isSpace t.2).filterMap fun e =>
        if e.2 = [] then some ⟨f.1, t.1⟩ else none

/-! ### Numbers -/

/-- A Python number. -/
inductive Number where
  | int (n : Int)
  | float (v : Num)
deriving DecidableEq

/-- The value of a number; an int and a float with the same value are equal. -/
def Number.num : Number → Num
  | .int n => .fin n
  | .float v => v

/-- The sign, and the rest. -/
def splitSign : Text → Bool × Text
  | [] => (false, [])
  | c :: s => if c = '-' then (true, s) else if c = '+' then (false, s) else (false, c :: s)

/-- `int(s)`; `none` is a ValueError. -/
def pyInt (s : Text) : Option Int :=
  if (splitSign s).2.isEmpty || !(splitSign s).2.all isDigit then none
  else some (if (splitSign s).1 then -(Nat.ofDigitChars 10 (splitSign s).2 0 : Int) else Nat.ofDigitChars 10 (splitSign s).2 0)

/-- The digits after the point, and the rest. -/
def splitFraction : Text → Text × Text
  | [] => ([], [])
  | c :: s => if c = '.' then (s.takeWhile isDigit, s.dropWhile isDigit) else ([], c :: s)

/-- The exponent: nothing, or `e` and an int with at most one sign. -/
def pyExponent : Text → Option Int
  | [] => some 0
  | c :: s => if c = 'e' ∨ c = 'E' then pyInt s else none

/-- `float(s)` of a decimal number, without rounding; `none` is a ValueError. -/
def pyFloat (s : Text) : Option Rat :=
  let s1 := (splitSign s).2
  let whole := s1.takeWhile isDigit
  let fraction := splitFraction (s1.dropWhile isDigit)
  if whole.isEmpty && fraction.1.isEmpty then none
  else match pyExponent fraction.2 with
    | none => none
    | some e =>
      some ((if (splitSign s).1 then -1 else 1) *
        ((Nat.ofDigitChars 10 whole 0 : Rat) + (Nat.ofDigitChars 10 fraction.1 0 : Rat) / 10 ^ fraction.1.length) * 10 ^ e)

/-- What is raised: `FileParseError`, `ValueError`, `IOError`, `TypeError`. -/
inductive Failure where
  | parse
  | value
  | io
  | type
deriving DecidableEq

/-- `general.py:1293-1298` `_str_to_float_or_int`. -/
def toNumber (fl : Rat → Num) (s : Text) : Except Failure Number :=
  if s.any fun c => c == '.' || c == 'e' || c == 'E' then
    match pyFloat s with
    | none => .error .value
    | some v => .ok (.float (fl v))
  else
    match pyInt s with
    | none => .error .value
    | some n => .ok (.int n)

/-! ### Files -/

/-- `line.strip()`. -/
def strip (s : Text) : Text := ((s.dropWhile isSpace).reverse.dropWhile isSpace).reverse

/-- `general.py:1315` the new value: `None` for `NoData`. -/
def toTarget (fl : Rat → Num) (s : Text) : Except Failure (Option Number) :=
  if s = ['N', 'o', 'D', 'a', 't', 'a'] then .ok none else (toNumber fl s).map some

/-- `general.py:1307-1315` the entry of a line that was stripped. -/
def parseStripped (fl : Rat → Num) (s : Text) : Except Failure (Number × Option Number) :=
  match (linePattern s).head? with
  | none => .error .parse
  | some g =>
    if g.source.isEmpty || g.target.isEmpty then .error .parse
    else match toNumber fl g.source with
      | .error e => .error e
      | .ok k => match toTarget fl g.target with
        | .error e => .error e
        | .ok v => .ok (k, v)

/-- `general.py:1304-1315` a line: nothing if it is blank. -/
def parseLine (fl : Rat → Num) (line : Text) : Except Failure (Option (Number × Option Number)) :=
  if strip line = [] then .ok none else (parseStripped fl (strip line)).map some

/-- `general.py:1301-1319` `_parse_ascii_remap_file`, beginning with the entries `m`. -/
def parseFrom (fl : Rat → Num) (m : List (Number × Option Number)) :
    List Text → Except Failure (List (Number × Option Number))
  | [] => .ok m
  | line :: lines =>
    match parseLine fl line with
    | .error e => .error e
    | .ok none => parseFrom fl m lines
    | .ok (some e) => if m.any fun d => d.1.num.eq e.1.num then .error .value else parseFrom fl (m ++ [e]) lines

/-- `general.py:1301-1319` `_parse_ascii_remap_file`. -/
def parseFile (fl : Rat → Num) (lines : List Text) : Except Failure (List (Number × Option Number)) := parseFrom fl [] lines

/-- The `remapping` argument of `reclassify`: a path, with the lines of the file if it exists, a dict, or anything else. -/
inductive Arg where
  | path (lines : Option (List Text))
  | dict (m : List (Number × Option Number))
  | other

/-- `general.py:1322-1335` `_get_remapping`. -/
def getRemapping (fl : Rat → Num) : Arg → Except Failure (List (Number × Option Number))
  | .path none => .error .io
  | .path (some lines) =>
    match parseFile fl lines with
    | .error e => .error e
    | .ok m => if m.isEmpty then .error .value else .ok m
  | .dict m => .ok m
  | .other => .error .type

end Verif.RemapFile
