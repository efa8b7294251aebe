import Verif.Analyzer
/-
What a duration table says of every segment, and what the analyser has seen.
-/
namespace Verif

/-- Number, start and duration of the segments of an entry. -/
def entrySegs (e : SegEntry) : List (Nat × Nat × Nat) :=
  (List.range (e.repeats + 1)).map fun i => (e.startNr + i, e.start + i * e.dur, e.dur)

/-- Number, start and duration of every segment of a table. -/
def tableSegs (l : List SegEntry) : List (Nat × Nat × Nat) := l.flatMap entrySegs

/-- Number, start and duration of every segment seen, the first one having number `nr`. -/
def seenSegs : Nat → List AnaSeg → List (Nat × Nat × Nat)
  | _, [] => []
  | nr, s :: rest => (nr, s.tfdt, s.dur) :: seenSegs (nr + 1) rest

/-- Every segment starts where the one before ends. -/
def NoGaps : List AnaSeg → Prop
  | s :: t :: rest => t.tfdt = s.tfdt + s.dur ∧ NoGaps (t :: rest)
  | _ => True

/-- Entries next to each other have different durations. -/
def RunsDiffer : List SegEntry → Prop
  | a :: b :: rest => a.dur ≠ b.dur ∧ RunsDiffer (b :: rest)
  | _ => True

end Verif
