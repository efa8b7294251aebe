import Verif.Py
/-
Model of dashlib/segtimeline.py.
-/
namespace Verif

/-- configprocessor.py 46-47 `SegTimeEntry`: unsigned numbers (`HHII`). -/
structure SegEntry where
  startNr : Nat
  repeats : Nat
  start : Nat
  dur : Nat
  deriving DecidableEq, Repr

/-- segtimeline.py 49-68, the fields of a `SegmentTimeLineGenerator`.  `interval_starts` are the
starts of the entries.  Reading the file is not modelled (C41 is about its content). -/
structure SegTable where
  entries : List SegEntry
  timescale : Nat
  wrapSeconds : Nat
  nrInLoop : Nat
  first : Nat
  deriving DecidableEq, Repr

/-- segtimeline.py 65 `wrap_duration`. -/
def SegTable.wrap (t : SegTable) : Nat := t.wrapSeconds * t.timescale

/-- The loop of Python's `bisect.bisect_right` between `lo` and `hi`. -/
def bisectLoop (l : List Nat) (x : Nat) : Nat → Nat → Nat → Nat
  | 0, lo, _ => lo
  | fuel + 1, lo, hi =>
    if lo < hi then
      if x < l[(lo + hi) / 2]?.getD 0 then bisectLoop l x fuel lo ((lo + hi) / 2)
      else bisectLoop l x fuel ((lo + hi) / 2 + 1) hi
    else lo

/-- Python `bisect.bisect(l, x)`. -/
def bisect (l : List Nat) (x : Nat) : Nat := bisectLoop l x l.length 0 l.length

/-- Python indexing of a list: negative indices count from the end. -/
def entryAt (l : List SegEntry) (i : Int) : Py SegEntry :=
  match l[(if i < 0 then i + l.length else i).toNat]? with
  | none => .error .indexError
  | some e => if i + l.length < 0 then .error .indexError else .ok e

/-- A segment of the looped track: which entry, which repeat of it, in which loop. -/
structure SegPos where
  index : Int
  repeats : Nat
  wraps : Int
  deriving DecidableEq, Repr

/-- segtimeline.py 172-174, the loop of `find_latest_starting_before`; `acc` is
`accumulated_end_time`. -/
def repeatLoop (dur rel : Nat) : Nat → Nat → Nat → Py Nat
  | 0, acc, repeats => if acc < rel then .error .hang else .ok repeats
  | fuel + 1, acc, repeats =>
    if acc < rel then repeatLoop dur rel fuel (acc + dur) (repeats + 1) else .ok repeats

/-- segtimeline.py 163-175 `find_latest_starting_before`; `none` stands for
`(None, None, None)`. -/
def findLatest (t : SegTable) (time : Int) : Py (Option SegPos) :=
  if t.wrap = 0 then .error .zeroDivision
  else if Int.fdiv time t.wrap < 0 then .ok none
  else
    let rel := (Int.fmod time t.wrap).toNat
    let index : Int := (bisect (t.entries.map SegEntry.start) rel : Int) - 1
    match entryAt t.entries index with
    | .error e => .error e
    | .ok e =>
      match repeatLoop e.dur rel rel (e.start + e.dur) 0 with
      | .error x => .error x
      | .ok r => .ok (some ⟨index, r, Int.fdiv time t.wrap⟩)

/-- segtimeline.py 184-195, the loop of `find_closest_start`: `left` repeats of the entry are
left, `start` is the start of repeat `repeats`.  `none` when no segment of the entry is near. -/
def closestLoop (dur rel : Nat) : Nat → Nat → Nat → Option Nat
  | left, start, repeats =>
    if ((rel : Int) - start).natAbs ≤ dur / 2 then some repeats
    else match left with
      | 0 => none
      | left + 1 => closestLoop dur rel left (start + dur) (repeats + 1)

/-- segtimeline.py 177-199 `find_closest_start`. -/
def findClosest (t : SegTable) (time : Int) : Py (Option SegPos) :=
  if t.wrap = 0 then .error .zeroDivision
  else if Int.fdiv time t.wrap < 0 then .ok none
  else
    let rel := (Int.fmod time t.wrap).toNat
    let index : Int := (bisect (t.entries.map SegEntry.start) rel : Int) - 1
    match entryAt t.entries index with
    | .error e => .error e
    | .ok e =>
      match closestLoop e.dur rel e.repeats e.start 0 with
      | some r => .ok (some ⟨index, r, Int.fdiv time t.wrap⟩)
      | none =>
        let next : Int × Int :=
          if (t.entries.length : Int) ≤ index + 1 then (0, Int.fdiv time t.wrap + 1)
          else (index + 1, Int.fdiv time t.wrap)
        match entryAt t.entries next.1 with
        | .error e => .error e
        | .ok e' => .ok (some ⟨next.1, e'.repeats, next.2⟩)

/-- segtimeline.py 147-150 `get_seg_starttime`. -/
def segStart (t : SegTable) (p : SegPos) : Py Int :=
  match entryAt t.entries p.index with
  | .error e => .error e
  | .ok e => .ok (p.wraps * t.wrap + e.start + p.repeats * e.dur)

/-- segtimeline.py 152-156 `get_seg_number`. -/
def segNumber (t : SegTable) (p : SegPos) : Py Int :=
  match entryAt t.entries p.index with
  | .error e => .error e
  | .ok e => .ok (p.wraps * t.nrInLoop + e.startNr + p.repeats - t.first)

/-- segtimeline.py 158-161 `get_seg_endtime`. -/
def segEnd (t : SegTable) (p : SegPos) : Py Int :=
  match entryAt t.entries p.index with
  | .error e => .error e
  | .ok e => .ok (p.wraps * t.wrap + e.start + (p.repeats + 1) * e.dur)

/-- segtimeline.py 89-98, one segment back; `none` before the first loop. -/
def backOne (t : SegTable) (p : SegPos) : Py (Option SegPos) :=
  if 0 < p.repeats then .ok (some { p with repeats := p.repeats - 1 })
  else if 0 < p.index then
    match entryAt t.entries (p.index - 1) with
    | .error e => .error e
    | .ok e => .ok (some ⟨p.index - 1, e.repeats, p.wraps⟩)
  else
    match entryAt t.entries ((t.entries.length : Int) - 1) with
    | .error e => .error e
    | .ok e =>
      if p.wraps - 1 < 0 then .ok none
      else .ok (some ⟨(t.entries.length : Int) - 1, e.repeats, p.wraps - 1⟩)

/-- segtimeline.py 85-99, the loop: back to the last segment that has ended at `stop`. -/
def backLoop (t : SegTable) (stop : Int) : Nat → SegPos → Py (Option SegPos)
  | fuel, p =>
    match segEnd t p with
    | .error e => .error e
    | .ok x =>
      if x ≤ stop then .ok (some p)
      else match fuel with
        | 0 => .error .hang
        | fuel + 1 =>
          match backOne t p with
          | .error e => .error e
          | .ok none => .ok none
          | .ok (some q) => backLoop t stop fuel q

/-- Number of segments in the table. -/
def SegTable.count (t : SegTable) : Nat := (t.entries.map fun e => e.repeats + 1).sum

/-- An S element; `r` is there when it is positive only. -/
structure SElem where
  t : Option Int
  d : Nat
  r : Option Nat
  deriving DecidableEq, Repr

/-- segtimeline.py 225-234 `generate_s_elem`. -/
def sElem (start : Option Int) (dur : Nat) (rep : Int) : SElem :=
  ⟨start, dur, if 0 < rep then some rep.toNat else none⟩

/-- segtimeline.py 117-129, the loop that puts in the S elements from the last one backwards;
`i` and `w` are `repeat_index` and `nr_wraps`.  It does not end unless it comes to the first. -/
def sLoop (t : SegTable) (last first : SegPos) : Nat → Int → Int → List SElem → Py (List SElem)
  | fuel, i, w, acc =>
    if i = first.index ∧ w = first.wraps then .ok acc
    else match fuel with
      | 0 => .error .hang
      | fuel + 1 =>
        match entryAt t.entries i with
        | .error e => .error e
        | .ok e =>
          let s := sElem none e.dur (if i = last.index then last.repeats else e.repeats)
          if i - 1 < 0 then sLoop t last first fuel ((t.entries.length : Int) - 1) (w - 1) (s :: acc)
          else sLoop t last first fuel (i - 1) w (s :: acc)

/-- segtimeline.py 133-139, the repeats of the first S element; `e` is its entry. -/
def firstRepeats (t : SegTable) (last first : SegPos) (e : SegEntry) : Int :=
  if first.index ≠ last.index then (e.repeats : Int) - first.repeats
  else if t.entries.length = 1 ∧ last.repeats < first.repeats then
    (e.repeats : Int) + last.repeats - first.repeats
  else (last.repeats : Int) - first.repeats

/-- segtimeline.py 108-144, with the first and last segment to list.  The elements, and the number
of the first segment unless there are none. -/
def listBetween (t : SegTable) (first last : SegPos) : Py (List SElem × Option Int) := do
  let a ← segStart t first
  let b ← segStart t last
  if b < a then return ([], none)
  let later ← sLoop t last first (last.wraps.toNat * t.entries.length + last.index.toNat)
    last.index last.wraps []
  let e ← entryAt t.entries first.index
  let nr ← segNumber t first
  return (sElem (some a) e.dur (firstRepeats t last first e) :: later, some nr)

/-- What `create_segtimeline` returns and leaves in `start_number`: `elems` is `none` for the
tuple of `None`s. -/
structure Timeline where
  elems : Option (List SElem)
  startNr : Option Int
  deriving DecidableEq, Repr

/-- segtimeline.py 70-145 `create_segtimeline` with window start and end in seconds; `before` is
what `start_number` is before the call. -/
def createTimeline (t : SegTable) (before : Option Int) (start stop : Int) (closest : Bool) :
    Py Timeline :=
  match findLatest t (stop * t.timescale) with
  | .error e => .error e
  | .ok none => .error .timelineError
  | .ok (some p) =>
    match backLoop t (stop * t.timescale) (p.repeats + (p.wraps.toNat + 1) * t.count) p with
    | .error e => .error e
    | .ok none => .ok ⟨none, before⟩
    | .ok (some last) =>
      match (if closest then findClosest t (start * t.timescale)
          else findLatest t (start * t.timescale)) with
      | .error e => .error e
      | .ok none => .error .typeError
      | .ok (some first) =>
        match listBetween t first last with
        | .error e => .error e
        | .ok (elems, nr) => .ok ⟨some elems, nr.or before⟩

/-- The window of mpdprocessor.py 372-386: times in seconds, `periodStart` and `periodDuration`
from the period data, with `use_closest`.  `stopTime` 0 is like none there. -/
def timelineWindow (now tsbd ast periodStart : Int) (periodDuration : Option Int)
    (startTime : Int) (stopTime : Option Int) (timeoffset : Int) : Int × Int × Bool :=
  match stopTime with
  | some s =>
    if s ≠ 0 ∧ timeoffset = 0 then (startTime, min now s, true)
    else plain
  | none => plain
where
  plain : Int × Int × Bool :=
    (max (ast + periodStart) (now - tsbd) - ast,
     (match periodDuration with
      | some d => min (ast + periodStart + d) now
      | none => now) - ast, false)

end Verif
