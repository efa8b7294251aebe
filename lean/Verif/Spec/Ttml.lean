import Verif.Ttml
/-
What the times in a TTML text are, and what rewriting a text means.
-/
namespace Verif

/-- Value of decimal digits. -/
def decVal (ds : Bytes) : Nat := ds.foldl (fun a b => a * 10 + (b.toNat - 48)) 0

/-- Decimal digits. -/
def Digits (ds : Bytes) : Prop := ∀ b ∈ ds, 48 ≤ b ∧ b ≤ 57

instance (ds : Bytes) : Decidable (Digits ds) := by unfold Digits; infer_instance

/-- A text is rewritten from left to right: where a piece of it can be replaced, the first one is, and
the rest is rewritten after it; everything else stays. `m old rest new` says that `old`, when
followed by `rest`, is replaced by `new`. -/
inductive Rewrites (m : Bytes → Bytes → Bytes → Prop) : Bytes → Bytes → Prop
  | nil : Rewrites m [] []
  | keep (b : UInt8) (r r' : Bytes) (h : ∀ old rest new, b :: r = old ++ rest → ¬ m old rest new)
      (hr : Rewrites m r r') : Rewrites m (b :: r) (b :: r')
  | replace (old rest new rest' : Bytes) (h : m old rest new) (hr : Rewrites m rest rest') :
      Rewrites m (old ++ rest) (new ++ rest')

/-- `hh:mm:ss` with two digits each, and the seconds it stands for. -/
def IsClock (t : Bytes) (seconds : Nat) : Prop :=
  ∃ h m s, t = h ++ [58] ++ m ++ [58] ++ s ∧ Digits h ∧ Digits m ∧ Digits s ∧
    h.length = 2 ∧ m.length = 2 ∧ s.length = 2 ∧ seconds = decVal h * 3600 + decVal m * 60 + decVal s

/-- A normalised time: two or more digits for the hours (no more than needed), minutes and
seconds below 60. -/
def IsTime (t : Bytes) (seconds : Nat) : Prop :=
  ∃ h m s, t = h ++ [58] ++ m ++ [58] ++ s ∧ Digits h ∧ Digits m ∧ Digits s ∧
    (h.length = 2 ∨ 2 < h.length ∧ h.head? ≠ some 48) ∧ m.length = 2 ∧ s.length = 2 ∧
    decVal m < 60 ∧ decVal s < 60 ∧ seconds = decVal h * 3600 + decVal m * 60 + decVal s

/-- `begin="` or `end="`. -/
def IsAttr (a : Bytes) : Prop := a = [98, 101, 103, 105, 110, 61, 34] ∨ a = [101, 110, 100, 61, 34]

/-- A time attribute and the same one `offset` seconds later. -/
def TimeShift (offset : Nat) (old _rest new : Bytes) : Prop :=
  ∃ a t t' n, IsAttr a ∧ old = a ++ t ∧ new = a ++ t' ∧ IsClock t n ∧ IsTime t' (n + offset)

/-- Leap years of the Gregorian calendar. -/
def LeapYear (y : Nat) : Prop := 4 ∣ y ∧ (¬ 100 ∣ y ∨ 400 ∣ y)

instance (y : Nat) : Decidable (LeapYear y) := by unfold LeapYear; infer_instance

/-- Days before year `y` of the Gregorian calendar, counted from the start of year 1. -/
def daysBeforeYear (y : Nat) : Nat := 365 * (y - 1) + (y - 1) / 4 - (y - 1) / 100 + (y - 1) / 400

/-- Days in the year before month `m` (from 1; 13 for the whole year). -/
def daysBeforeMonth (y m : Nat) : Nat :=
  [0, 0, 31, 59, 90, 120, 151, 181, 212, 243, 273, 304, 334, 365].getD m 0 +
    (if LeapYear y ∧ 2 < m then 1 else 0)

/-- `yyyy-mm-ddThh:mm:ssZ`: a date that exists, with the seconds since 1970-01-01T00:00:00Z. -/
def IsDateTime (t : Bytes) (seconds : Nat) : Prop :=
  ∃ yt mt dt ht nt st : Bytes,
    t = yt ++ [45] ++ mt ++ [45] ++ dt ++ [84] ++ ht ++ [58] ++ nt ++ [58] ++ st ++ [90] ∧
    Digits yt ∧ Digits mt ∧ Digits dt ∧ Digits ht ∧ Digits nt ∧ Digits st ∧
    yt ≠ [] ∧ mt.length = 2 ∧ dt.length = 2 ∧ ht.length = 2 ∧ nt.length = 2 ∧ st.length = 2 ∧
    1970 ≤ decVal yt ∧ 1 ≤ decVal mt ∧ decVal mt ≤ 12 ∧ 1 ≤ decVal dt ∧
    daysBeforeMonth (decVal yt) (decVal mt) + decVal dt ≤ daysBeforeMonth (decVal yt) (decVal mt + 1) ∧
    decVal ht < 24 ∧ decVal nt < 60 ∧ decVal st < 60 ∧
    seconds + daysBeforeYear 1970 * 86400 =
      (daysBeforeYear (decVal yt) + daysBeforeMonth (decVal yt) (decVal mt) + (decVal dt - 1)) * 86400 +
        decVal ht * 3600 + decVal nt * 60 + decVal st

/-- A word, a colon and a time, and the same with date and time `offset` seconds later. -/
def ClockText (offset : Nat) (old rest new : Bytes) : Prop :=
  ∃ w t f n, (∀ b ∈ w, isWordB b = true) ∧ w ≠ [] ∧ IsClock t n ∧
    (f = [] ∧ (∀ d r, rest = 46 :: d :: r → ¬ Digits [d]) ∨
      (∃ ds, f = 46 :: ds ∧ Digits ds ∧ ds ≠ [] ∧ ∀ d r, rest = d :: r → ¬ Digits [d])) ∧
    old = w ++ [32, 58, 32] ++ t ++ f ∧
    ∃ date, new = w ++ [32, 58, 32, 85, 84, 67, 32, 61, 32] ++ date ∧ IsDateTime date (n + offset)

/-- `Segment # ` with a number, and with the number of the segment. -/
def SegmentText (segNr : Nat) (old rest new : Bytes) : Prop :=
  ∃ ds ds', Digits ds ∧ ds ≠ [] ∧ (∀ d r, rest = d :: r → ¬ Digits [d]) ∧
    old = segIntro ++ ds ∧ new = segIntro ++ ds' ∧ Digits ds' ∧ ds' ≠ [] ∧ decVal ds' = segNr

/-- `:mm:ss` at the start of a text, in seconds. -/
def minutesAt : Bytes → Option Nat
  | c :: m1 :: m2 :: d :: s1 :: s2 :: _ =>
    if c = 58 ∧ d = 58 ∧ Digits [m1, m2, s1, s2] then some (decVal [m1, m2] * 60 + decVal [s1, s2]) else none
  | _ => none

/-- A time with two or more digits for the hours at the start of a text: the number of these and
the seconds. -/
def timeAt (x : Bytes) : Option (Nat × Nat) :=
  match minutesAt (x.dropWhile isDigitB) with
  | none => none
  | some n =>
    let h := x.takeWhile isDigitB
    if 2 ≤ h.length then some (h.length, decVal h * 3600 + n) else none

/-- The time attribute at the start of a text: begin or end, number of hour digits, seconds. -/
def attrAt (x : Bytes) : Option (Bool × Nat × Nat) :=
  match stripLit [98, 101, 103, 105, 110, 61, 34] x, stripLit [101, 110, 100, 61, 34] x with
  | some y, _ => (timeAt y).map fun t => (true, t)
  | none, some y => (timeAt y).map fun t => (false, t)
  | none, none => none

/-- The time attributes of a text, in order. -/
def attrTimes : Bytes → List (Bool × Nat × Nat)
  | [] => []
  | b :: r => (attrAt (b :: r)).toList ++ attrTimes r

end Verif
