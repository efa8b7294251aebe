import Verif.Text
/-
What a timestamp in a manifest denotes (xs:dateTime in UTC), independent of the code that makes it.
-/
namespace Verif.Spec

/-- The number of leap days from the beginning of year 1 to the beginning of year `y`. -/
def leapDays (y : Int) : Int := (y - 1) / 4 - (y - 1) / 100 + (y - 1) / 400

/-- The days of a year before month `m`. -/
def daysBefore (leap : Bool) (m : Int) : Int :=
  if m ≤ 2 then 31 * (m - 1)
  else (153 * (m - 3) + 2) / 5 + (if leap then 60 else 59)

/-- The days from 1970-01-01 to a date. -/
def dateDays (y m d : Int) : Int :=
  365 * (y - 1970) + (leapDays y - leapDays 1970) +
    daysBefore (decide (y % 4 = 0 ∧ (y % 100 ≠ 0 ∨ y % 400 = 0))) m + (d - 1)

/-- The value of two digits. -/
def twoDigitValue (a b : Char) : Option Int :=
  match digitVal a, digitVal b with
  | some x, some y => some ((10 * x + y : Nat) : Int)
  | _, _ => none

/-- The text is a date and time `YYYY-MM-DDThh:mm:ssZ` with fields in range, and denotes `t`
seconds from 1970-01-01T00:00:00Z. -/
def StampDenotes (text : Text) (t : Int) : Prop :=
  ∃ (year : Text) (m1 m2 d1 d2 h1 h2 n1 n2 s1 s2 : Char) (y m d h n s : Int),
    text = year ++ ['-', m1, m2, '-', d1, d2, 'T', h1, h2, ':', n1, n2, ':', s1, s2, 'Z'] ∧
    pyInt year = .ok y ∧ twoDigitValue m1 m2 = some m ∧ twoDigitValue d1 d2 = some d ∧
    twoDigitValue h1 h2 = some h ∧ twoDigitValue n1 n2 = some n ∧ twoDigitValue s1 s2 = some s ∧
    1 ≤ m ∧ m ≤ 12 ∧ 1 ≤ d ∧ d ≤ 31 ∧
    -- the day exists in its month
    dateDays y m d < (if m = 12 then dateDays (y + 1) 1 1 else dateDays y (m + 1) 1) ∧
    h < 24 ∧ n < 60 ∧ s < 60 ∧
    t = dateDays y m d * 86400 + h * 3600 + n * 60 + s

end Verif.Spec
