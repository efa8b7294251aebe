import Verif.SegTimeline
/-
Model of `checkAndUpdateMediaData` of vodanalyzer/dashanalyzer.py and of the file it writes.
-/
namespace Verif

/-- `k` bytes, least significant first. -/
def leBytes (k n : Nat) : Bytes := (beBytes k n).reverse

/-- Value of bytes, least significant first. -/
def leVal (s : Bytes) : Nat := beVal s.reverse

/-- configprocessor.py 46 `SEGTIMEFORMAT = 'HHII'` with `struct.pack` (dashanalyzer.py 154-157).
Simplification: native format, taken to be little endian without padding as on common machines. -/
def packSeg (nr repeats start dur : Int) : Py Bytes :=
  if 0 ≤ nr ∧ nr < 2 ^ 16 ∧ 0 ≤ repeats ∧ repeats < 2 ^ 16 ∧ 0 ≤ start ∧ start < 2 ^ 32 ∧
      0 ≤ dur ∧ dur < 2 ^ 32 then
    .ok (leBytes 2 nr.toNat ++ leBytes 2 repeats.toNat ++ leBytes 4 start.toNat ++ leBytes 4 dur.toNat)
  else .error .structError

/-- segtimeline.py 58-63: reading the file, twelve bytes at a time.  `fuel` bounds the number of
reads. -/
def readDatLoop : Nat → Bytes → Py (List SegEntry)
  | 0, d => if d = [] then .ok [] else .error .hang
  | fuel + 1, d =>
    if d = [] then .ok []
    else if d.length < 12 then .error .structError
    else
      match readDatLoop fuel (d.drop 12) with
      | .error e => .error e
      | .ok l => .ok (⟨leVal (slice d 0 2), leVal (slice d 2 4), leVal (slice d 4 8), leVal (slice d 8 12)⟩ :: l)

/-- segtimeline.py 57-63. -/
def readDat (d : Bytes) : Py (List SegEntry) := readDatLoop d.length d

/-- What the media segment filter says of a segment (dashanalyzer.py 200-204). -/
structure AnaSeg where
  tfdt : Nat
  dur : Nat
  deriving DecidableEq, Repr

/-- dashanalyzer.py 175-193, the variables of the loop over the segments of a representation.
`out` is what was written to the file. -/
structure AnaState where
  repeats : Int
  firstNr : Int
  firstStart : Int
  lastDur : Nat
  startTick : Option Nat
  endTick : Option Nat
  endNr : Option Nat
  out : Bytes
  deriving DecidableEq, Repr

/-- dashanalyzer.py 206-216, the run-length part of the loop body; `write` is `rep_nr == 0`. -/
def anaRun (write : Bool) (st : AnaState) (nr : Nat) (s : AnaSeg) : Py AnaState :=
  if s.dur = st.lastDur then .ok { st with repeats := st.repeats + 1 }
  else if st.lastDur ≠ 0 ∧ write = true then
    match packSeg st.firstNr st.repeats st.firstStart st.lastDur with
    | .error e => .error e
    | .ok b => .ok { st with repeats := 0, lastDur := s.dur, firstNr := nr, firstStart := s.tfdt, out := st.out ++ b }
  else .ok { st with repeats := 0, lastDur := s.dur, firstNr := nr, firstStart := s.tfdt }

/-- dashanalyzer.py 206-233, the loop body.  `int(track_timescale*0.1)` is taken to be a tenth
of the time scale rounded down (true below 2^50).  Printing is left out. -/
def anaStep (write : Bool) (first segDur ts : Nat) (st : AnaState) (nr : Nat) (s : AnaSeg) : Py AnaState :=
  match anaRun write st nr s with
  | .error e => .error e
  | .ok st =>
    let start := st.startTick.getD s.tfdt
    if ((((nr : Int) - first + 1) * ((segDur * ts : Nat) : Int) + start) - ((s.tfdt + s.dur : Nat) : Int)).natAbs
        < ts / 10 then
      .ok { st with startTick := some start, endTick := some (s.tfdt + s.dur), endNr := some nr }
    else .error .analyzerError

/-- dashanalyzer.py 191-235, the loop over the segments that exist, from `nr` on. -/
def anaLoop (write : Bool) (first segDur ts : Nat) : List AnaSeg → Nat → AnaState → Py AnaState
  | [], _, st => .ok st
  | s :: rest, nr, st =>
    match anaStep write first segDur ts st nr s with
    | .error e => .error e
    | .ok st => anaLoop write first segDur ts rest (nr + 1) st

/-- dashanalyzer.py 175-240: one representation.  The last entry is written with the duration of
the last segment; without segments that variable is not bound. -/
def anaRep (write : Bool) (first segDur ts : Nat) (segs : List AnaSeg) : Py AnaState :=
  match anaLoop write first segDur ts segs first ⟨-1, -1, -1, 0, none, none, none, []⟩ with
  | .error e => .error e
  | .ok st =>
    if write = true then
      match segs.getLast? with
      | none => .error .unbound
      | some s =>
        match packSeg st.firstNr st.repeats st.firstStart s.dur with
        | .error e => .error e
        | .ok b => .ok { st with out := st.out ++ b }
    else .ok st

/-- An adaptation set as `initMedia` (dashanalyzer.py 89-125) leaves it: time scale, segment
duration in whole seconds, start number, and for each representation the first number and the
segments that exist from there on. -/
structure AnaSet where
  timescale : Nat
  segDur : Nat
  startNumber : Nat
  reps : List (Nat × List AnaSeg)
  deriving DecidableEq, Repr

/-- The fields of the analyser that are set on the way (dashanalyzer.py 72-78). -/
structure AnaGlobal where
  segDur : Option Nat
  first : Option Nat
  startNr : Option Nat
  deriving DecidableEq, Repr

/-- `if x is unset: x = v else: assert x == v` (dashanalyzer.py 164-167, 177-184). -/
def setOrAssert (x : Option Nat) (v : Nat) : Py (Option Nat) :=
  match x with
  | none => .ok (some v)
  | some w => if w = v then .ok (some w) else .error .assertion

/-- dashanalyzer.py 175-240, the loop over representations; the result is the state of the first
one. -/
def anaReps (segDur ts startNr : Nat) (g : AnaGlobal) : List (Nat × List AnaSeg) → Bool → Py (AnaGlobal × Option AnaState)
  | [], _ => .ok (g, none)
  | (first, segs) :: rest, write =>
    match setOrAssert g.first first with
    | .error e => .error e
    | .ok f =>
      match setOrAssert g.startNr startNr with
      | .error e => .error e
      | .ok n =>
        match anaRep write first segDur ts segs with
        | .error e => .error e
        | .ok st =>
          match anaReps segDur ts startNr ⟨g.segDur, f, n⟩ rest false with
          | .error e => .error e
          | .ok (g', _) => .ok (g', if write = true then some st else none)

/-- dashanalyzer.py 160-240, the loop over the content types; for each the last segment, the
content of the file and the total duration in ticks. -/
def anaSets (g : AnaGlobal) : List AnaSet → Py (AnaGlobal × List (Nat × Bytes × Nat))
  | [] => .ok (g, [])
  | a :: rest =>
    match setOrAssert g.segDur a.segDur with
    | .error e => .error e
    | .ok d =>
      match anaReps a.segDur a.timescale a.startNumber ⟨d, g.first, g.startNr⟩ a.reps true with
      | .error e => .error e
      | .ok (g', st) =>
        match anaSets g' rest with
        | .error e => .error e
        | .ok (g'', l) =>
          match st with
          | none => .ok (g'', l)
          | some st => .ok (g'', (st.endNr.getD 0, st.out, st.endTick.getD 0 - st.startTick.getD 0) :: l)

/-- What the configuration says (dashanalyzer.py 241-245, 249-263). -/
structure AnaResult where
  first : Nat
  nrInLoop : Nat
  segDur : Nat
  files : List (Bytes × Nat)
  deriving DecidableEq, Repr

/-- dashanalyzer.py 148-247 `checkAndUpdateMediaData`. -/
def analyze (sets : List AnaSet) : Py AnaResult :=
  match anaSets ⟨none, none, none⟩ sets with
  | .error e => .error e
  | .ok (g, l) =>
    match l.map (fun x => x.1), g.first, g.segDur with
    | n :: ns, some f, some d => .ok ⟨f, (ns.foldl min n) - f + 1, d, l.map fun x => x.2⟩
    | _, _, _ => .error .valueError

end Verif
