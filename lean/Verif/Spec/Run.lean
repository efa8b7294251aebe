import Verif.Spec.Fragment
/-
Specification of track runs and track fragment headers (ISO/IEC 14496-12 clauses 8.8.7 and
8.8.8), as far as sample durations go, and of the segment index (clause 8.16.3).
-/
namespace Verif

/-- Whether bit `k` of a byte is set. -/
def bitSet (b : UInt8) (k : Nat) : Bool := decide (b.toNat / 2 ^ k % 2 = 1)

/-- A track run: version, flags, the optional data offset and first sample flags, and for every
sample its duration field (meaningful when the flags announce durations) and its other fields. -/
structure Run where
  v : UInt8
  f2 : UInt8
  f1 : UInt8
  f0 : UInt8
  offset : Bytes
  first : Bytes
  rows : List (Nat × Bytes)

/-- The bytes of one sample. -/
def Run.rowBytes (r : Run) (x : Nat × Bytes) : Bytes :=
  (if bitSet r.f1 0 then beBytes 4 x.1 else []) ++ x.2

/-- The content of the run box. -/
def Run.payload (r : Run) : Bytes :=
  [r.v, r.f2, r.f1, r.f0] ++ beBytes 4 r.rows.length ++ r.offset ++ r.first ++
    r.rows.flatMap r.rowBytes

/-- The fields are present exactly when the flags say so. -/
structure Run.Ok (r : Run) : Prop where
  count : r.rows.length < 2 ^ 32
  offset : r.offset.length = if bitSet r.f0 0 then 4 else 0
  first : r.first.length = if bitSet r.f0 2 then 4 else 0
  rows : ∀ x ∈ r.rows, x.1 < 2 ^ 32 ∧ x.2.length = (if bitSet r.f1 1 then 4 else 0) +
    (if bitSet r.f1 2 then 4 else 0) + (if bitSet r.f1 3 then 4 else 0)

/-- The total duration of the run: its own durations, or the default for every sample. -/
def Run.total (r : Run) (dflt : Nat) : Nat :=
  if bitSet r.f1 0 then (r.rows.map Prod.fst).sum else r.rows.length * dflt

/-- A track fragment header without base data offset: version, flags, track, optional sample
description index, optional default duration (a field of the flags), remaining fields. -/
structure TrackHeader where
  v : UInt8
  f2 : UInt8
  f1 : UInt8
  f0 : UInt8
  track : Bytes
  desc : Bytes
  dur : Option Nat
  rest : Bytes

/-- The content of the header box. -/
def TrackHeader.payload (t : TrackHeader) : Bytes :=
  [t.v, t.f2, t.f1, t.f0] ++ t.track ++ t.desc ++
    (match t.dur with | some d => beBytes 4 d | none => []) ++ t.rest

structure TrackHeader.Ok (t : TrackHeader) : Prop where
  base : bitSet t.f0 0 = false
  track : t.track.length = 4
  desc : t.desc.length = if bitSet t.f0 1 then 4 else 0
  dur : t.dur.isSome = bitSet t.f0 3
  fits : ∀ d, t.dur = some d → d < 2 ^ 32

/-- A segment index with one reference: timescale, earliest presentation time, size and
duration of the referenced media; the reference starts with an access point of type 1. -/
def sidxOne (ts t size dur : Nat) : Bytes :=
  boxBytes tySidx ([1, 0, 0, 0] ++ beBytes 4 1 ++ beBytes 4 ts ++ beBytes 8 t ++ beBytes 8 0 ++
    beBytes 2 0 ++ beBytes 2 1 ++ beBytes 4 size ++ beBytes 4 dur ++ [0x90, 0, 0, 0])

end Verif
