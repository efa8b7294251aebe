import Verif.Spec.Run
import Verif.Spec.Samples
/-
Specification of the samples described by a track fragment (ISO/IEC 14496-12 clauses 8.8.7,
8.8.8, 8.8.12): which fields are present is told by flag bytes, missing ones come from the
header or from the initialisation segment.
-/
namespace Verif

/-- One sample of a run: duration, size, flags, composition offset. -/
structure RunRow where
  dur : Nat
  size : Nat
  flags : Nat
  off : Int
  deriving DecidableEq

/-- A run with version and flag bytes, data offset, first sample flags, samples.  Fields that
the flags do not announce are not written. -/
structure SampleRun where
  v : UInt8
  f2 : UInt8
  f1 : UInt8
  f0 : UInt8
  offset : Int
  first : Nat
  rows : List RunRow

/-- A field that is written when a bit is set. -/
def field (present : Bool) (b : Bytes) : Bytes := if present then b else []

def SampleRun.rowBytes (r : SampleRun) (x : RunRow) : Bytes :=
  field (bitSet r.f1 0) (beBytes 4 x.dur) ++ field (bitSet r.f1 1) (beBytes 4 x.size) ++
  field (bitSet r.f1 2) (beBytes 4 x.flags) ++ field (bitSet r.f1 3) (signedBytes x.off)

def SampleRun.payload (r : SampleRun) : Bytes :=
  [r.v, r.f2, r.f1, r.f0] ++ beBytes 4 r.rows.length ++
  field (bitSet r.f0 0) (signedBytes r.offset) ++ field (bitSet r.f0 2) (beBytes 4 r.first) ++
  r.rows.flatMap r.rowBytes

structure SampleRun.Ok (r : SampleRun) : Prop where
  count : r.rows.length < 2 ^ 32
  offset : -2 ^ 31 ≤ r.offset ∧ r.offset < 2 ^ 31
  first : r.first < 2 ^ 32
  rows : ∀ x ∈ r.rows, x.dur < 2 ^ 32 ∧ x.size < 2 ^ 32 ∧ x.flags < 2 ^ 32 ∧
    -2 ^ 31 ≤ x.off ∧ x.off < 2 ^ 31

/-- A track fragment header. -/
structure FragHeader where
  v : UInt8
  f2 : UInt8
  f1 : UInt8
  f0 : UInt8
  track : Nat
  base : Nat
  desc : Nat
  dur : Nat
  size : Nat
  flags : Nat
  rest : Bytes

def FragHeader.payload (t : FragHeader) : Bytes :=
  [t.v, t.f2, t.f1, t.f0] ++ beBytes 4 t.track ++ field (bitSet t.f0 0) (beBytes 8 t.base) ++
  field (bitSet t.f0 1) (beBytes 4 t.desc) ++ field (bitSet t.f0 3) (beBytes 4 t.dur) ++
  field (bitSet t.f0 4) (beBytes 4 t.size) ++ field (bitSet t.f0 5) (beBytes 4 t.flags) ++ t.rest

structure FragHeader.Ok (t : FragHeader) : Prop where
  track : t.track < 2 ^ 32
  base : t.base < 2 ^ 64
  desc : t.desc < 2 ^ 32
  dur : t.dur < 2 ^ 32
  size : t.size < 2 ^ 32
  flags : t.flags < 2 ^ 32

/-- The duration of a sample: its own, the header's, or the track's. -/
def sampleDur (t : FragHeader) (r : SampleRun) (x : Trex) (row : RunRow) : Nat :=
  if bitSet r.f1 0 then row.dur else if bitSet t.f0 3 then t.dur else x.dur

/-- The size of a sample: its own, the header's, or the track's. -/
def sampleSize (t : FragHeader) (r : SampleRun) (x : Trex) (row : RunRow) : Nat :=
  if bitSet r.f1 1 then row.size else if bitSet t.f0 4 then t.size else x.size

/-- Whether the decoder calls a sample a sync sample: whenever the run carries flags, else when
the default flags are not 0.  (This is what the code does, not what the flags mean.) -/
def sampleSync (t : FragHeader) (r : SampleRun) (x : Trex) : Bool :=
  if bitSet r.f1 2 then true else decide ((if bitSet t.f0 5 then t.flags else x.flags) ≠ 0)

/-- The samples of the run: each takes its bytes from `media` after the bytes of the samples
before it, and starts when the sample before it ends. -/
def runSamples (t : FragHeader) (r : SampleRun) (x : Trex) (media : Bytes) :
    List RunRow → Nat → Nat → List Sample
  | [], _, _ => []
  | row :: rows, time, start =>
    ⟨slice media start (start + sampleSize t r x row), time, sampleDur t r x row,
      sampleSync t r x, if bitSet r.f1 3 then row.off else 0⟩ ::
    runSamples t r x media rows (time + sampleDur t r x row) (start + sampleSize t r x row)

end Verif
