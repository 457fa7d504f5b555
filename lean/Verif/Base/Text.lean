import Verif.Base.Num
import Verif.Base.Time
import Mathlib.Algebra.Order.Floor.Semiring

/-!
# Text

Files are lists of characters.  The string methods and the parsers of numbers and timestamps used by melodist/data_io.py.
-/

set_option linter.unusedSectionVars false

namespace Melodist

/-- the content of a text file, or a part of it -/
abbrev Text := List Char

namespace Text

/-- the characters for which Python's `str.isspace` is true -/
def isSpace (c : Char) : Bool :=
  let n := c.toNat
  (9 ≤ n && n ≤ 13) || (28 ≤ n && n ≤ 32) || n == 0x85 || n == 0xa0 || n == 0x1680 || (0x2000 ≤ n && n ≤ 0x200a) || n == 0x2028 || n == 0x2029 ||
    n == 0x202f || n == 0x205f || n == 0x3000

/-- the separators of the pandas tokenizer for `sep=r'\s+'` -/
def isBlank (c : Char) : Bool := c == ' ' || c == '\t'

/-- split at every character with property `p` (the pieces may be empty) -/
def splitBy (p : Char → Bool) : Text → List Text
  | [] => [[]]
  | c :: cs =>
    if p c then [] :: splitBy p cs
    else
      match splitBy p cs with
      | [] => [[c]]
      | w :: ws => (c :: w) :: ws

/-- `str.split()`: the maximal runs of characters that are not whitespace -/
def words (t : Text) : List Text := (splitBy isSpace t).filter fun w => !w.isEmpty

/-- `' '.join(l)` -/
def spaced : List Text → Text
  | [] => []
  | [x] => x
  | x :: xs => x ++ ' ' :: spaced xs

/-- the fields of a line for `sep=r'\s+'` (leading and trailing blanks do not count) -/
def fields (t : Text) : List Text := (splitBy isBlank t).filter fun w => !w.isEmpty

/-- `str.strip()` -/
def strip (t : Text) : Text := ((t.dropWhile isSpace).reverse.dropWhile isSpace).reverse

/-- universal newlines: `\r\n` and `\r` are read as `\n` -/
def univ : Text → Text
  | '\r' :: '\n' :: cs => '\n' :: univ cs
  | '\r' :: cs => '\n' :: univ cs
  | c :: cs => c :: univ cs
  | [] => []

/-- `for line in f` (without the line ends): there is no line after the last line end -/
def lines (t : Text) : List Text :=
  let l := splitBy (· == '\n') t
  if l.getLast? = some [] then l.dropLast else l

/-- `skiprows=n` of the pandas tokenizer: line ends between quotation marks do not end a line -/
def skipRows : Text → Nat → Bool → Text
  | [], _, _ => []
  | c :: cs, 0, _ => c :: cs
  | c :: cs, n + 1, quoted =>
    if c = '"' then skipRows cs (n + 1) (!quoted)
    else if c = '\n' ∧ quoted = false then skipRows cs n false
    else skipRows cs (n + 1) quoted

/-- the digit of `n < 10` -/
def digit (n : Nat) : Char := Char.ofNat (48 + n)

/-- the number of a decimal digit -/
def digit? (c : Char) : Option Nat := if 48 ≤ c.toNat ∧ c.toNat ≤ 57 then some (c.toNat - 48) else none

/-- the decimal digits of `n` (`fuel` bounds the number of steps; `n` itself is enough) -/
def ofNatAux : Nat → Nat → Text
  | 0, n => [digit (n % 10)]
  | fuel + 1, n => if n < 10 then [digit n] else ofNatAux fuel (n / 10) ++ [digit (n % 10)]

/-- `str(n)` -/
def ofNat (n : Nat) : Text := ofNatAux n n

/-- a field of two digits (`%m`, `%d`, `%H`, `%M`, the decimals of `{:.2f}`) -/
def two (n : Nat) : Text := [digit (n / 10), digit (n % 10)]

/-- the number written by digits (at least one) -/
def toNatAux : Nat → Text → Option Nat
  | acc, [] => some acc
  | acc, c :: cs =>
    match digit? c with
    | none => none
    | some d => toNatAux (10 * acc + d) cs

/-- see `toNatAux` -/
def toNat? (t : Text) : Option Nat := if t = [] then none else toNatAux 0 t

section number
variable {K : Type} [Field K] [LinearOrder K]

/-- a number without sign: digits with or without decimals, or `inf` (exponents and other spellings are outside the model) -/
def unsigned? (t : Text) : Option (XF K) :=
  if t = ['i', 'n', 'f'] then some .pinf
  else
    match splitBy (· == '.') t with
    | [a] => (toNat? a).map fun n => .fin (n : K)
    | [a, b] =>
      match toNat? a, toNat? b with
      | some n, some m => some (.fin ((n : K) + (m : K) / (10 : K) ^ b.length))
      | _, _ => none
    | _ => none

/-- a number as read by `float(…)` and by the pandas parser -/
def number? (t : Text) : Option (XF K) :=
  match t with
  | '-' :: r => (unsigned? r).map fun x => -x
  | _ => if t = ['N', 'a', 'N'] then some .nan else unsigned? t

variable [FloorSemiring K]

/-- `x ≥ 0` rounded to the nearest integer, ties to the even one -/
def roundEven (x : K) : Nat :=
  if x - ⌊x⌋₊ < 1 / 2 then ⌊x⌋₊
  else if 1 / 2 < x - ⌊x⌋₊ then ⌊x⌋₊ + 1
  else if ⌊x⌋₊ % 2 = 0 then ⌊x⌋₊ else ⌊x⌋₊ + 1

/-- `'{:.2f}'.format(x)` for `x ≥ 0` -/
def hundredths (x : K) : Text :=
  let r := roundEven (x * 100)
  ofNat (r / 100) ++ '.' :: two (r % 100)

/-- `'{:.2f}'.format(x)`; a missing cell is printed by `to_string` as `NaN` -/
def fixed2 : XF K → Text
  | .nan => ['N', 'a', 'N']
  | .pinf => ['i', 'n', 'f']
  | .ninf => ['-', 'i', 'n', 'f']
  | .fin x => if x < 0 then '-' :: hundredths (-x) else hundredths x

end number

/-- `t.strftime('%Y-%m-%dT%H:%M')` (the year is not padded; pandas timestamps have four-digit years) -/
def stampHour (t : Time) : Text :=
  ofNat (yearOf t).toNat ++ '-' :: two (monthOf t).toNat ++ '-' :: two (domOf t).toNat ++ 'T' :: two (hourOf t).toNat ++
    ':' :: two (minuteOf t).toNat

/-- `t.strftime('%Y-%m-%dT00:00')` -/
def stampDay (t : Time) : Text :=
  ofNat (yearOf t).toNat ++ '-' :: two (monthOf t).toNat ++ '-' :: two (domOf t).toNat ++ ['T', '0', '0', ':', '0', '0']

/-- the timestamp written as `YYYY-MM-DDTHH:MM` (other spellings and dates that do not exist are outside the model) -/
def time? (t : Text) : Option Time :=
  match t with
  | [y1, y2, y3, y4, '-', m1, m2, '-', d1, d2, 'T', h1, h2, ':', n1, n2] =>
    match toNat? [y1, y2, y3, y4], toNat? [m1, m2], toNat? [d1, d2], toNat? [h1, h2], toNat? [n1, n2] with
    | some y, some m, some d, some h, some n =>
      let day := daysFromCivil y m d
      if civil day = ((y : Int), (m : Int), (d : Int)) ∧ h < 24 ∧ n < 60 then some (day * DAY + h * HOUR + n * MINUTE) else none
    | _, _, _, _, _ => none
  | _ => none

end Text
end Melodist
