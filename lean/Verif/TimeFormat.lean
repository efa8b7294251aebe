import Verif.Text
/-
Model of dashlib/timeformatconversions.py: the duration strings of the manifest.
-/
namespace Verif

/-- One optional group `((\d+)U)?` of `RE_DURATION` (timeformatconversions.py 35) at the
start of the text: the value if the group matches, and the remaining text.  `\d` is taken as
the ASCII digits. -/
def isoField (unit : Char) (t : Text) : Option Nat × Text :=
  match t.dropWhile (fun c => (digitVal c).isSome) with
  | [] => (none, t)
  | c :: rest =>
    if c = unit then
      match intDigits false 0 (t.takeWhile (fun c => (digitVal c).isSome)) with
      | none => (none, t)
      | some n => (some n, rest)
    else (none, t)

/-- timeformatconversions.py 42-54 `iso_duration_to_seconds`; text not starting with `PT`
raises `TimeFormatConversionError` (here `valueError`).  The match is a prefix match, what
follows is ignored. -/
def isoToSeconds (t : Text) : Py Nat :=
  match t with
  | 'P' :: 'T' :: r0 =>
    let (h, r1) := isoField 'H' r0
    let (m, r2) := isoField 'M' r1
    let (s, _) := isoField 'S' r2
    .ok (h.getD 0 * 3600 + m.getD 0 * 60 + s.getD 0)
  | _ => .error .valueError

/-- timeformatconversions.py 57-72 `seconds_to_iso_duration`.  The argument may be an int or
a float (`modulo` sessions), hence `Rat`; `%d` truncates. -/
def secondsToIso (x : Rat) : Text :=
  let days := (x / 86400).floor
  let rest := x - days * 86400
  let hours := (rest / 3600).floor
  let rest2 := rest - hours * 3600
  let minutes := (rest2 / 60).floor
  let seconds := rest2 - minutes * 60
  let p1 := "P".toList ++ (if 0 < days then intText days ++ "D".toList else [])
  let p2 := p1 ++ "T".toList
  let p3 := p2 ++ (if 0 < hours then intText hours ++ "H".toList else [])
  let p4 := p3 ++ (if 0 < minutes then intText minutes ++ "M".toList else [])
  p4 ++ (if 0 < seconds ∨ p4 = "PT".toList then intText (pyTrunc seconds) ++ "S".toList else [])

end Verif
