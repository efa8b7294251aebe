import Verif.Py
/-
Text layer: `int()`, `str.split`, `os.path.splitext`, decimal formatting.
-/
namespace Verif

/-- Decimal digit value of a character (ASCII digits only; Python also accepts other
Unicode digits, which is not modelled). -/
def digitVal (c : Char) : Option Nat :=
  if '0' ≤ c ∧ c ≤ '9' then some (c.toNat - 48) else none

/-- Body of Python's `int(text)`: digits, single underscores allowed between digits.
`prev` tells whether the previous character was a digit. -/
def intDigits : Bool → Nat → Text → Option Nat
  | prev, acc, [] => if prev then some acc else none
  | prev, acc, c :: cs =>
    if c = '_' then (if prev then intDigits false acc cs else none)
    else match digitVal c with
      | some d => intDigits true (acc * 10 + d) cs
      | none => none

/-- Whitespace stripped by Python's `int()` (ASCII). -/
def isPySpace (c : Char) : Bool :=
  c = ' ' || ('\t' ≤ c && c ≤ '\r') || (Char.ofNat 28 ≤ c && c ≤ Char.ofNat 31)

/-- `text.strip()`. -/
def pyStrip (s : Text) : Text :=
  ((s.dropWhile isPySpace).reverse.dropWhile isPySpace).reverse

/-- Python's built-in `int(text)` in base 10; `ValueError` for malformed text. -/
def pyInt (s : Text) : Py Int :=
  match pyStrip s with
  | '-' :: cs => match intDigits false 0 cs with
      | some n => .ok (-(n : Int))
      | none => .error .valueError
  | '+' :: cs => match intDigits false 0 cs with
      | some n => .ok n
      | none => .error .valueError
  | cs => match intDigits false 0 cs with
      | some n => .ok n
      | none => .error .valueError

/-- The character of a decimal digit. -/
def digitChar (d : Nat) : Char := Char.ofNat (48 + d)

/-- `"%d" % n` for a natural number. -/
def natText (n : Nat) : Text :=
  if n < 10 then [digitChar n] else natText (n / 10) ++ [digitChar (n % 10)]
termination_by n

/-- `"%d" % n` for an int. -/
def intText (n : Int) : Text :=
  if n < 0 then '-' :: natText n.natAbs else natText n.natAbs

/-- `text.split(c)` for a one-character separator. -/
def splitChar (c : Char) : Text → List Text
  | [] => [[]]
  | x :: xs =>
    if x = c then [] :: splitChar c xs
    else match splitChar c xs with
      | [] => [[x]]
      | y :: ys => (x :: y) :: ys

/-- `text.split("__")` (configprocessor.py 44, `MUX_DIVIDER`). -/
def splitDivider : Text → List Text
  | [] => [[]]
  | '_' :: '_' :: xs => [] :: splitDivider xs
  | x :: xs =>
    match splitDivider xs with
    | [] => [[x]]
    | y :: ys => (x :: y) :: ys

/-- `text.split("_", 1)`: the part before the first underscore and, if there is one, the
part after it. -/
def splitFirst : Text → Text × Option Text
  | [] => ([], none)
  | x :: xs =>
    if x = '_' then ([], some xs)
    else let (k, v) := splitFirst xs; (x :: k, v)

/-- `os.path.splitext(name)` for a name without directory separators: split at the last
dot unless only dots precede it. -/
def splitext (s : Text) : Text × Text :=
  let tail := (s.reverse.takeWhile (· ≠ '.')).reverse
  let n := s.length - tail.length
  if n = 0 then (s, [])
  else
    let base := s.take (n - 1)
    if base.all (· = '.') then (s, []) else (base, s.drop (n - 1))

end Verif
