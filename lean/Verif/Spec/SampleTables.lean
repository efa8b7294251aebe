import Verif.SampleTables
/-
What the sample tables of a file say (ISO 14496-12 8.6.1, 8.7.3, 8.7.4, 8.7.5), sample by sample.
-/
namespace Verif

/-- The values of runs (count, value), one for each sample. -/
def expandRuns (l : List (Nat × α)) : List α := l.flatMap fun p => List.replicate p.1 p.2

/-- Samples in a chunk: those of the last entry that starts at the chunk or before. -/
def samplesIn (entries : List StscEntry) (chunk : Nat) : Nat :=
  match (entries.filter fun e => decide (e.first ≤ chunk)).getLast? with
  | none => 0
  | some e => e.samples

/-- Samples in the chunks 1 to `chunk - 1`. -/
def samplesBefore (entries : List StscEntry) (chunk : Nat) : Nat :=
  ((List.range' 1 (chunk - 1)).map (samplesIn entries)).sum

/-- The table says for every chunk from 1 on how many samples it has, at least one. -/
structure StscValid (entries : List StscEntry) : Prop where
  start : ∃ e rest, entries = e :: rest ∧ e.first = 1
  sorted : entries.Pairwise fun a b => a.first < b.first
  positive : ∀ e ∈ entries, 0 < e.samples

/-- The words as they stand in the file. -/
def wordsBytes (w : Nat) (l : List Nat) : Bytes := l.flatMap (beBytes w)

/-- A signed number as it stands in the file (ctts version 1). -/
def signedWord (v : Nat) : Int := if v < 2 ^ 31 then v else (v : Int) - 2 ^ 32

end Verif
