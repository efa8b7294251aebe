import Verif.Props.ChunkFormat
/-
Segments of several movie fragments: ISO/IEC 14496-12 lets the fragments follow each other in the file, each with its own
boxes before and after it.
-/
namespace Verif.Spec

/-- The file with these fragments, one after the other. -/
def chainBytes (gs : List FragSegment) : Bytes := gs.flatMap FragSegment.bytes

/-- Where the samples of a fragment are in the file, if the boxes of the fragment start at `pos`: a base data offset counts
from the start of the file, without one the data offset counts from the movie fragment. -/
def dataPos (g : FragSegment) (pos : Nat) : Int :=
  (if bitSet g.head.f0 0 then g.head.base else pos + (boxesBytes g.front).length : Nat) +
    (if bitSet g.run.f0 0 then g.run.offset else 0)

/-- The samples a player reads from the file, fragment by fragment. -/
def readChain (file : Bytes) (x : Trex) : Nat → List FragSegment → List Sample
  | _, [] => []
  | pos, g :: gs =>
    runSamples g.head g.run x (sliceFrom file (dataPos g pos)) g.run.rows g.time 0 ++ readChain file x (pos + g.bytes.length) gs

/-- The samples of the file. -/
def chainSamples (x : Trex) (gs : List FragSegment) : List Sample := readChain (chainBytes gs) x 0 gs

end Verif.Spec
