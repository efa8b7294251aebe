import Verif.Text
/-
Model of `make_timestamp` of dashlib/timeformatconversions.py, with the part of Python's `time`
module that it uses.
-/
namespace Verif

/-- The leap years of the Gregorian calendar. -/
def leapYear (y : Int) : Bool := y % 4 = 0 && (y % 100 ≠ 0 || y % 400 = 0)

/-- The number of days of a year. -/
def yearLen (y : Int) : Int := if leapYear y then 366 else 365

/-- The lengths of the cal_months of a year. -/
def monthLens (y : Int) : List Int :=
  [31, if leapYear y then 29 else 28, 31, 30, 31, 30, 31, 31, 30, 31, 30, 31]

/-- `time.gmtime`, the year: forward from year `y` while the `days` from its start reach beyond
its end. -/
def yearUp : Nat → Int → Int → Int × Int
  | 0, y, days => (y, days)
  | n + 1, y, days => if days < yearLen y then (y, days) else yearUp n (y + 1) (days - yearLen y)

/-- `time.gmtime`, the year: back from year `y` while `days` is before its start. -/
def yearDown : Nat → Int → Int → Int × Int
  | 0, y, days => (y, days)
  | n + 1, y, days => if 0 ≤ days then (y, days) else yearDown n (y - 1) (days + yearLen (y - 1))

/-- `time.gmtime`: the year and the day in it (from 0) of a day counted from 1970-01-01. -/
def calYear (day : Int) : Int × Int :=
  if 0 ≤ day then yearUp (day.toNat / 365 + 1) 1970 day else yearDown day.natAbs 1970 day

/-- `time.gmtime`: the month, counted from `m`, and the day in it (from 0). -/
def calMonth : List Int → Int → Int → Int × Int
  | [], m, day => (m, day)
  | l :: ls, m, day => if day < l then (m, day) else calMonth ls (m + 1) (day - l)

/-- A calendar time, as in `time.struct_time`. -/
structure Calendar where
  year : Int
  month : Int
  day : Int
  hour : Int
  minute : Int
  second : Int
  deriving DecidableEq, Repr

/-- `time.gmtime(s)` for whole seconds. -/
def gmtime (s : Int) : Calendar :=
  let y := calYear (s / 86400)
  let m := calMonth (monthLens y.1) 1 y.2
  ⟨y.1, m.1, m.2 + 1, s % 86400 / 3600, s % 3600 / 60, s % 60⟩

/-- `%m` and the other two-digit fields of `strftime`. -/
def digits2 (n : Int) : Text := [digitChar (n / 10).toNat, digitChar (n % 10).toNat]

/-- timeformatconversions.py 75-77 `make_timestamp`.  `time.gmtime` rounds floats down.  The C
library writes years before 1000 without leading zeros, as is done here; years that Python's
`gmtime` does not accept (beyond 2^31) are not excluded. -/
def makeTimestamp (x : Rat) : Text :=
  let c := gmtime x.floor
  intText c.year ++ '-' :: digits2 c.month ++ '-' :: digits2 c.day ++ 'T' :: digits2 c.hour ++
    ':' :: digits2 c.minute ++ ':' :: digits2 c.second ++ "Z".toList

end Verif
