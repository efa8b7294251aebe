import Verif.Spec.SampleRun
import Verif.Spec.Fragment
/-
Specification of a media segment with several tracks (ISO/IEC 14496-12 clause 8.8): one movie fragment with a track
fragment for each, and the media data of all of them.
-/
namespace Verif

/-- A track fragment with a header, a decode time and one run, with any other boxes between them. -/
structure TrackFragment where
  p1 : List (Bytes × Bytes)
  head : FragHeader
  p2 : List (Bytes × Bytes)
  wide : Bool
  f2 : UInt8
  f1 : UInt8
  f0 : UInt8
  time : Nat
  q1 : List (Bytes × Bytes)
  run : SampleRun
  q2 : List (Bytes × Bytes)

def TrackFragment.content (t : TrackFragment) : Bytes :=
  boxesBytes t.p1 ++ (boxBytes tyTfhd t.head.payload ++ (boxesBytes t.p2 ++
    (boxBytes tyTfdt (tfdtPayload t.wide t.f2 t.f1 t.f0 t.time) ++ (boxesBytes t.q1 ++
      (boxBytes tyTrun t.run.payload ++ boxesBytes t.q2)))))

/-- The samples of the track in a file, by the defaults of the track.  The header has no base data offset and the run has a
data offset, so that the data of the samples begins there, counted from `base`. -/
def TrackFragment.samples (t : TrackFragment) (x : Trex) (file : Bytes) (base : Nat) : List Sample :=
  runSamples t.head t.run x (file.drop ((base : Int) + t.run.offset).toNat) t.run.rows t.time 0

/-- Where the data of the samples of the track ends. -/
def TrackFragment.dataEnd (t : TrackFragment) (x : Trex) (base : Nat) : Nat :=
  ((base : Int) + t.run.offset).toNat + (t.run.rows.map (sampleSize t.head t.run x)).sum

/-- The samples of all track fragments of a movie fragment that starts at `moof` in the file, each with the defaults of its
track (clause 8.8.7): the offsets count from the start of the movie fragment when the header says so (flag 0x020000) and in
the first track fragment, otherwise from the end `prev` of the data of the track fragment before. -/
def readTracks (file : Bytes) (moof : Nat) : Nat → List (TrackFragment × Trex) → List (List Sample)
  | _, [] => []
  | prev, (t, x) :: l =>
    let base := if bitSet t.head.f2 1 then moof else prev
    t.samples x file base :: readTracks file moof (t.dataEnd x base) l

/-- A segment: the segment type, the fragment with number `n`, the media data. -/
def muxedBytes (styp vf : Bytes) (n : Nat) (ts : List TrackFragment) (media : Bytes) : Bytes :=
  boxBytes tyStyp styp ++ (boxBytes tyMoof (boxBytes tyMfhd (vf ++ beBytes 4 n) ++
    ts.flatMap fun t => boxBytes tyTraf t.content) ++ boxBytes tyMdat media)

/-- Where the fragment starts. -/
def muxedStart (styp : Bytes) : Nat := 8 + styp.length

end Verif
