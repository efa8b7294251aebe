import Verif.Py
/-
Model of dashlib/ttml_timing_offset.py.
-/
namespace Verif

/-- `\d` in a bytes pattern. -/
def isDigitB (b : UInt8) : Bool := decide (48 ≤ b) && decide (b ≤ 57)

/-- `\w` in a bytes pattern. -/
def isWordB (b : UInt8) : Bool :=
  isDigitB b || (decide (65 ≤ b) && decide (b ≤ 90)) || (decide (97 ≤ b) && decide (b ≤ 122)) || decide (b = 95)

/-- `re.sub(pattern, f, x)` for a pattern that never matches the empty text: `m` gives the
replacement and the length of the match at the start of a text; the number is how many bytes of
the last match are still to be skipped. -/
def subAll (m : Bytes → Option (Bytes × Nat)) : Bytes → Nat → Bytes
  | [], _ => []
  | _ :: r, k + 1 => subAll m r k
  | b :: r, 0 =>
    match m (b :: r) with
    | none => b :: subAll m r 0
    | some (new, n) => new ++ subAll m r (n - 1)

/-- What is left of a text after a literal. -/
def stripLit : Bytes → Bytes → Option Bytes
  | [], x => some x
  | _ :: _, [] => none
  | p :: ps, b :: x => if p = b then stripLit ps x else none

/-- `\d\d` and `int` of it. -/
def twoDigits : Bytes → Option (Nat × Bytes)
  | a :: b :: r =>
    if isDigitB a && isDigitB b then some ((a.toNat - 48) * 10 + (b.toNat - 48), r) else none
  | _ => none

/-- `\d\d:\d\d:\d\d`: the seconds (ttml_timing_offset.py 47-50, 58-61) and the rest. -/
def clockAt (x : Bytes) : Option (Nat × Bytes) :=
  match twoDigits x with
  | none => none
  | some (h, x) =>
    match stripLit [58] x with
    | none => none
    | some x =>
      match twoDigits x with
      | none => none
      | some (m, x) =>
        match stripLit [58] x with
        | none => none
        | some x =>
          match twoDigits x with
          | none => none
          | some (s, x) => some (s + 60 * m + 3600 * h, x)

/-- Decimal digits of a number. -/
def decLoop : Nat → Nat → Bytes
  | 0, _ => []
  | f + 1, n =>
    if n < 10 then [UInt8.ofNat (48 + n)] else decLoop f (n / 10) ++ [UInt8.ofNat (48 + n % 10)]

/-- `b'%d' % n` for a natural number. -/
def decBytes (n : Nat) : Bytes := decLoop (n + 1) n

/-- `b'%d' % n`. -/
def decInt (n : Int) : Bytes := if n < 0 then 45 :: decBytes n.natAbs else decBytes n.natAbs

/-- `b'%02d' % n`. -/
def pad2 (n : Int) : Bytes := if 0 ≤ n ∧ n < 10 then 48 :: decInt n else decInt n

/-- ttml_timing_offset.py 50-53: the new time text. -/
def shiftedTime (total : Int) : Bytes :=
  let hours := Int.fdiv total 3600
  let rest := Int.fmod total 3600
  pad2 hours ++ [58] ++ pad2 (Int.fdiv rest 60) ++ [58] ++ pad2 (Int.fmod rest 60)

/-- One way of `TIME_PATTERN_S` with the replacement of ttml_timing_offset.py 43-53; `attr` is
`begin` or `end`. -/
def matchAttr (attr : Bytes) (offset : Int) (x : Bytes) : Option (Bytes × Nat) :=
  match stripLit (attr ++ [61, 34]) x with
  | none => none
  | some y =>
    match clockAt y with
    | none => none
    | some (total, _) => some (attr ++ [61, 34] ++ shiftedTime (total + offset), attr.length + 10)

/-- `TIME_PATTERN_S` (ttml_timing_offset.py 35). -/
def matchTime (offset : Int) (x : Bytes) : Option (Bytes × Nat) :=
  match matchAttr [98, 101, 103, 105, 110] offset x with
  | some r => some r
  | none => matchAttr [101, 110, 100] offset x

/-- Days in a month of a year. -/
def monthDays (leap : Bool) : List Nat := [31, if leap then 29 else 28, 31, 30, 31, 30, 31, 31, 30, 31, 30, 31]

/-- Gregorian leap years. -/
def isLeap (y : Nat) : Bool := decide (y % 4 = 0) && (decide (y % 100 ≠ 0) || decide (y % 400 = 0))

/-- Year and day of the year, from day `d` counted from the start of year `y`. -/
def yearOf : Nat → Nat → Nat → Nat × Nat
  | 0, y, d => (y, d)
  | f + 1, y, d =>
    let n := if isLeap y then 366 else 365
    if d < n then (y, d) else yearOf f (y + 1) (d - n)

/-- Month (from 1) and day of the month (from 1). -/
def monthOf : List Nat → Nat → Nat → Nat × Nat
  | [], k, d => (k, d + 1)
  | n :: rest, k, d => if d < n then (k, d + 1) else monthOf rest (k + 1) (d - n)

/-- `time.strftime("%Y-%m-%dT%H:%M:%SZ", time.gmtime(total))` (ttml_timing_offset.py 62).
Simplification: times before 1970 are taken as 1970-01-01T00:00:00. -/
def utcText (total : Int) : Bytes :=
  let t := total.toNat
  let (y, yd) := yearOf (t / 86400) 1970 (t / 86400)
  let (mo, d) := monthOf (monthDays (isLeap y)) 1 yd
  let s := t % 86400
  decBytes y ++ [45] ++ pad2 (mo : Nat) ++ [45] ++ pad2 (d : Nat) ++ [84] ++
    pad2 ((s / 3600 : Nat) : Int) ++ [58] ++ pad2 ((s / 60 % 60 : Nat) : Int) ++ [58] ++
    pad2 ((s % 60 : Nat) : Int) ++ [90]

/-- `(\.\d+)?`: length of what matches. -/
def fractionLen : Bytes → Nat
  | [] => 0
  | b :: r =>
    if b = 46 ∧ r.takeWhile isDigitB ≠ [] then (r.takeWhile isDigitB).length + 1 else 0

/-- `CONTENT_PATTERN_S` (ttml_timing_offset.py 36) with the replacement of lines 55-63.  What `\w+`
matches ends before a space, so it is always all word characters. -/
def matchContent (offset : Int) (x : Bytes) : Option (Bytes × Nat) :=
  let w := x.takeWhile isWordB
  if w = [] then none
  else
    match stripLit [32, 58, 32] (x.drop w.length) with
    | none => none
    | some y =>
      match clockAt y with
      | none => none
      | some (total, rest) =>
        some (w ++ [32, 58, 32, 85, 84, 67, 32, 61, 32] ++ utcText (total + offset),
          w.length + 11 + fractionLen rest)

/-- `Segment # `. -/
def segIntro : Bytes := [83, 101, 103, 109, 101, 110, 116, 32, 35, 32]

/-- `CONTENT_PATTERN_SEGMENT` (ttml_timing_offset.py 37) with the replacement of lines 65-68. -/
def matchSegment (segNr : Int) (x : Bytes) : Option (Bytes × Nat) :=
  match stripLit segIntro x with
  | none => none
  | some y =>
    if y.takeWhile isDigitB = [] then none
    else some (segIntro ++ decInt segNr, 10 + (y.takeWhile isDigitB).length)

/-- ttml_timing_offset.py 40-73 `adjust_ttml_content`.  The segment number is always given by the
server. -/
def adjustTtml (offset segNr : Int) (x : Bytes) : Bytes :=
  subAll (matchSegment segNr) (subAll (matchContent offset) (subAll (matchTime offset) x 0) 0) 0

end Verif
