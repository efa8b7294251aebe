import Verif.Chunker
/-
Specification of sample sequences: samples that follow each other without gap, and chunks
that do.
-/
namespace Verif

/-- The samples start at decode time `t` and each starts where the one before it ends. -/
def ContiguousFrom : Nat → List Sample → Prop
  | _, [] => True
  | t, s :: rest => s.time = t ∧ ContiguousFrom (t + s.duration) rest

/-- Total duration of samples. -/
def totalDuration (l : List Sample) : Nat := (l.map Sample.duration).sum

/-- Non-empty groups of samples that follow each other without gap, the first starting at
decode time `t`. -/
def ChunksFrom : Nat → List (List Sample) → Prop
  | _, [] => True
  | t, p :: ps => p ≠ [] ∧ ContiguousFrom t p ∧ ChunksFrom (t + totalDuration p) ps

/-- The cell of the grid with the given origin and step in which a sample starts. -/
def gridCell (origin step : Nat) (s : Sample) : Nat := (s.time - origin) / step

end Verif
