import Mathlib.Algebra.Field.Rat
import Mathlib.Algebra.Order.Ring.Unbundled.Rat
import Mathlib.Data.Rat.Cast.Defs
import Mathlib.Tactic.Lemma

/-!
# The limits of the kernels as Python reads them

`forcepho/kernel_limits.py` reads `src/kernel_limits.h` with a regular expression when it is imported; the compiler
reads the same file with its preprocessor (`src/header.hh:17`). The first part is the Python program: the regular
expression with its backtracking, `int` and `float` of a text, and the loop over the lines. The second part is what the
C standard says about the same text: joining of continued lines, removal of comments, `#define`.

Simplifications: characters are those of `Char`, where white space of Python is the ASCII part; a decimal fraction is
its exact value, where both languages round it to the nearest double; `-0.0` is `0`; conditional compilation, `#undef`
and the quotes of texts are not part of the C side; a line is given without its end, which is `\n`.
-/

set_option autoImplicit false

namespace Forcepho.Limits

/-- A number as Python holds it: an integer, a float (by its exact value), or one of the floats that are no number. -/
inductive Val where
  | int (n : Int)
  | dec (q : Rat)
  | special
  deriving DecidableEq

/-- `\d` of `re`, in ASCII. -/
def isDigit (c : Char) : Bool := 48 ≤ c.toNat && c.toNat ≤ 57

/-- `\s` of `re` and the white space that `int` and `float` strip, in ASCII. -/
def isSpace (c : Char) : Bool := c.toNat == 32 || (9 ≤ c.toNat && c.toNat ≤ 13) || (28 ≤ c.toNat && c.toNat ≤ 31)

/-- `\w` of `re`, in ASCII. -/
def isWord (c : Char) : Bool :=
  isDigit c || (65 ≤ c.toNat && c.toNat ≤ 90) || (97 ≤ c.toNat && c.toNat ≤ 122) || c.toNat == 95

/-- `.` of `re`. -/
def notNewline (c : Char) : Bool := c.toNat != 10

/-! ## The regular expression -/

/-- `p*` followed by `k`: as many characters as possible, one less whenever `k` fails on what is left. `k` gets the
characters taken. -/
def star {α : Type} (p : Char → Bool) (k : List Char → List Char → Option α) : List Char → List Char → Option α
  | acc, [] => k acc []
  | acc, c :: t => if p c then (star p k (acc ++ [c]) t).or (k acc (c :: t)) else k acc (c :: t)

/-- `p+` followed by `k`. -/
def plus {α : Type} (p : Char → Bool) (k : List Char → List Char → Option α) : List Char → Option α
  | [] => none
  | c :: t => if p c then star p k [c] t else none

/-- A text followed by `k`. -/
def lit {α : Type} (s : List Char) (k : List Char → Option α) (xs : List Char) : Option α :=
  if s.isPrefixOf xs then k (xs.drop s.length) else none

/-- `re.compile(r'^\s*#define\s+(?P<name>\w+)\s+(?P<value>.+)').match(line)` (kernel_limits.py:21, 25): the groups
`name` and `value`. -/
def regexp (line : List Char) : Option (List Char × List Char) :=
  star isSpace (fun _ r0 =>
    lit ['#', 'd', 'e', 'f', 'i', 'n', 'e'] (fun r1 =>
      plus isSpace (fun _ r2 =>
        plus isWord (fun name r3 =>
          plus isSpace (fun _ r4 =>
            plus notNewline (fun value _ => some (name, value)) r4) r3) r2) r1) r0) [] line

/-! ## `int` and `float` -/

/-- `str.strip()`. -/
def strip (xs : List Char) : List Char := ((xs.dropWhile isSpace).reverse.dropWhile isSpace).reverse

/-- Underscores are dropped if each has a digit on both sides; otherwise the text is no number. `prev` is whether the
character before is a digit. -/
def clean : Bool → List Char → Option (List Char)
  | _, [] => some []
  | prev, c :: t =>
    if c = '_' then
      if prev && (t.head?.map isDigit).getD false then clean false t else none
    else (clean (isDigit c) t).map (c :: ·)

/-- The number that decimal digits stand for. -/
def number (ds : List Char) : Nat := ds.foldl (fun a c => 10 * a + (c.toNat - 48)) 0

/-- A leading sign. -/
def sign : List Char → Int × List Char
  | '-' :: t => (-1, t)
  | '+' :: t => (1, t)
  | t => (1, t)

/-- `int(value)` (kernel_limits.py:31); none is `ValueError`. -/
def pyInt (value : List Char) : Option Int :=
  (clean false (strip value)).bind fun s =>
    if (sign s).2 ≠ [] ∧ (sign s).2.all isDigit then some ((sign s).1 * number (sign s).2) else none

/-- The exponent at the end of a float. -/
def exponent : List Char → Option Int
  | [] => some 0
  | c :: t =>
    if (c = 'e' ∨ c = 'E') ∧ (sign t).2 ≠ [] ∧ (sign t).2.all isDigit then some ((sign t).1 * number (sign t).2)
    else none

/-- The digits, the fraction and the exponent of a float. -/
def pyDecimal (xs : List Char) : Option Rat :=
  let a := xs.takeWhile isDigit
  match xs.dropWhile isDigit with
  | '.' :: r =>
    let b := r.takeWhile isDigit
    if a ++ b = [] then none
    else (exponent (r.dropWhile isDigit)).map fun e => (number (a ++ b) : Rat) * (10 : Rat) ^ (e - (b.length : Int))
  | r => if a = [] then none else (exponent r).map fun e => (number a : Rat) * (10 : Rat) ^ e

/-- `str.lower()` in ASCII. -/
def lower (c : Char) : Char := if 65 ≤ c.toNat && c.toNat ≤ 90 then Char.ofNat (c.toNat + 32) else c

/-- `float(value)` (kernel_limits.py:33); none is `ValueError`. -/
def pyFloat (value : List Char) : Option Val :=
  (clean false (strip value)).bind fun s =>
    let t := (sign s).2.map lower
    if t = ['i', 'n', 'f'] ∨ t = ['i', 'n', 'f', 'i', 'n', 'i', 't', 'y'] ∨ t = ['n', 'a', 'n'] then some .special
    else (pyDecimal (sign s).2).map fun q => .dec ((sign s).1 * q)

/-- The value of a macro (kernel_limits.py:30-33). -/
def pyValue (value : List Char) : Option Val :=
  match pyInt value with
  | some n => some (.int n)
  | none => pyFloat value

/-! ## The module -/

/-- A dictionary with texts as keys. -/
abbrev Dict (α : Type) : Type := List Char → Option α

/-- `d[name] = v`. -/
def Dict.set {α : Type} (d : Dict α) (name : List Char) (v : α) : Dict α := fun n => if n = name then some v else d n

/-- One line (kernel_limits.py:24-35); none is `ValueError`. -/
def pyLine (d : Dict Val) (line : List Char) : Option (Dict Val) :=
  match regexp (line ++ ['\n']) with
  | none => some d
  | some (name, value) => (pyValue value).map fun v => d.set name v

/-- `import forcepho.kernel_limits` (kernel_limits.py:18-38): the names it defines, for the lines of the header; none
when the import raises. -/
def pyImport (lines : List (List Char)) : Option (Dict Val) := lines.foldlM pyLine fun _ => none

/-! ## The preprocessor -/

/-- The text of a file. -/
def text (lines : List (List Char)) : List Char := lines.flatMap (· ++ ['\n'])

/-- Phase 2 of translation (C++11 [lex.phases]): a backslash before the end of a line joins it with the next. -/
def splice : List Char → List Char
  | [] => []
  | [c] => [c]
  | a :: b :: t => if a = '\\' ∧ b = '\n' then splice t else a :: splice (b :: t)

/-- Where in the text the removal of comments is. -/
inductive Mode where
  | code | line | block
  deriving DecidableEq

/-- Phase 3: each comment becomes a space ([lex.comment]). -/
def uncomment : Mode → List Char → List Char
  | _, [] => []
  | .code, [c] => [c]
  | .code, a :: b :: t =>
    if a = '/' ∧ b = '/' then ' ' :: uncomment .line t
    else if a = '/' ∧ b = '*' then ' ' :: uncomment .block t
    else a :: uncomment .code (b :: t)
  | .line, c :: t => if c = '\n' then '\n' :: uncomment .code t else uncomment .line t
  | .block, [_] => []
  | .block, a :: b :: t => if a = '*' ∧ b = '/' then uncomment .code t else uncomment .block (b :: t)
  termination_by _ l => l.length

/-- The lines of a text. -/
def splitLines : List Char → List (List Char)
  | [] => []
  | c :: t =>
    if c = '\n' then [] :: splitLines t
    else match splitLines t with
      | [] => [[c]]
      | l :: ls => (c :: l) :: ls

/-- White space within a directive ([cpp]): space and tab. -/
def isBlank (c : Char) : Bool := c == ' ' || c == '\t'

/-- The text without the blanks around it. -/
def trim (xs : List Char) : List Char := ((xs.dropWhile isBlank).reverse.dropWhile isBlank).reverse

/-- `# define name replacement` ([cpp.replace]): the name and the replacement of a macro without parameters. -/
def cDirective (line : List Char) : Option (List Char × List Char) :=
  match line.dropWhile isBlank with
  | '#' :: r =>
    let r := r.dropWhile isBlank
    if r.takeWhile isWord = ['d', 'e', 'f', 'i', 'n', 'e'] then
      let r := (r.dropWhile isWord).dropWhile isBlank
      let name := r.takeWhile isWord
      match name, r.dropWhile isWord with
      | [], _ => none
      | _, [] => some (name, [])
      | _, c :: t => if isBlank c then some (name, trim t) else none
    else none
  | _ => none

/-- The macros defined after the header is included (`header.hh:17`); the last definition counts. -/
def cMacros (lines : List (List Char)) : Dict (List Char) :=
  (splitLines (uncomment .code (splice (text lines)))).foldl (fun d l =>
    match cDirective l with
    | some (name, body) => d.set name body
    | none => d) fun _ => none

end Forcepho.Limits
