import Verif.SegTimeline
import Verif.Spec.LoopTrack
/-
What a duration table says, and what a SegmentTimeline says.
-/
namespace Verif

/-- The durations of the segments, one by one. -/
def expandEntries (l : List SegEntry) : List Nat :=
  l.flatMap fun e => List.replicate (e.repeats + 1) e.dur

/-- The table describes one loop of a track with these durations: entry after entry without
gaps, from time 0 to the loop duration, from the first number on. -/
structure SegTable.Describes (t : SegTable) (durs : List Nat) : Prop where
  nonempty : t.entries ≠ []
  positive : ∀ e ∈ t.entries, 0 < e.dur
  expands : expandEntries t.entries = durs
  chain : ∀ i e, t.entries[i]? = some e →
    e.start = (expandEntries (t.entries.take i)).sum ∧
    e.startNr = t.first + (expandEntries (t.entries.take i)).length
  wrap : durs.sum = t.wrap
  count : durs.length = t.nrInLoop

/-- The segments (start, duration) that S elements list (ISO 23009-1 5.3.9.6): an element lists
`r + 1` segments of duration `d`, from `t` or else from the end of the element before. -/
def listedFrom (time : Int) : List SElem → List (Int × Nat)
  | [] => []
  | s :: rest =>
    (List.range (s.r.getD 0 + 1)).map (fun i => (s.t.getD time + (i * s.d : Nat), s.d)) ++
      listedFrom (s.t.getD time + ((s.r.getD 0 + 1) * s.d : Nat)) rest

/-- Segments listed by a SegmentTimeline. -/
def listed (l : List SElem) : List (Int × Nat) := listedFrom 0 l

/-- Which entry of the table segment `j` of a loop belongs to. -/
def entryOf : List SegEntry → Nat → Nat
  | [], _ => 0
  | e :: l, j => if j ≤ e.repeats then 0 else entryOf l (j - (e.repeats + 1)) + 1

/-- The number of the entry of segment `k` when the entries are counted on over the loops. -/
def SegTable.entryCount (t : SegTable) (k : Nat) : Nat :=
  k / t.nrInLoop * t.entries.length + entryOf t.entries (k % t.nrInLoop)

end Verif
