import Verif.Captions
import Verif.Spec.Fragment
/-
Video samples made of NAL units, caption messages in them, and segments of one run, independent of
the inserter.
-/
namespace Verif

/-- A NAL unit with its four-byte size (ISO/IEC 14496-15). -/
def unitBytes (u : Bytes) : Bytes := beBytes 4 u.length ++ u

/-- `nal_unit_type` (ITU-T H.264 clause 7.3.1). -/
def unitType (u : Bytes) : Nat :=
  match u with
  | [] => 0
  | b :: _ => b.toNat % 32

/-- A unit with coded picture data: types 1 to 5 (ITU-T H.264 table 7-1). -/
def isPicture (u : Bytes) : Bool := decide (1 ≤ unitType u) && decide (unitType u ≤ 5)

/-- A sample as written in a run, with its NAL units. -/
structure VideoSample where
  duration : Nat
  flags : Nat
  comp : Nat
  units : List Bytes

/-- The bytes of a sample. -/
def VideoSample.bytes (s : VideoSample) : Bytes := s.units.flatMap unitBytes

/-- Fields in range, units of a type that is defined. -/
def VideoSample.Ok (s : VideoSample) : Prop :=
  s.duration < 2 ^ 32 ∧ s.flags < 2 ^ 32 ∧ s.comp < 2 ^ 32 ∧
    ∀ u ∈ s.units, u.length < 2 ^ 32 ∧ unitType u ≠ 0

/-- The sample with units placed before its first picture unit (at the end, if there is none). -/
def VideoSample.insert (s : VideoSample) (new : List Bytes) : VideoSample :=
  { s with units := s.units.takeWhile (fun u => !isPicture u) ++ new ++ s.units.dropWhile (fun u => !isPicture u) }

/-- `cc_data` triplets of one field (CEA-708 clause 4.3): the words, if all are valid and of the same
field. -/
def readTriplets : Nat → Bytes → Option (List (Nat × Nat) × Bytes)
  | 0, x => some ([], x)
  | n + 1, f :: a :: b :: x =>
    if f.toNat / 4 = 63 then
      match readTriplets n x with
      | none => none
      | some (ws, r) => some ((f.toNat % 4 + 1, a.toNat * 256 + b.toNat) :: ws, r)
    else none
  | _ + 1, _ => none

/-- A caption message (ANSI/SCTE 128): SEI unit with one message of type 4, country and provider
code, `GA94`, type 3, count in the lower five bits, triplets, marker; the message size counts from
the country code to the marker; then the trailing bits. -/
def readCaption (u : Bytes) : Option (List (Nat × Nat)) :=
  match u with
  | h :: 4 :: size :: 0xb5 :: 0x00 :: 0x31 :: 0x47 :: 0x41 :: 0x39 :: 0x34 :: 0x03 :: cc :: 0xff :: x =>
    if h.toNat % 32 = 6 ∧ u.length = 3 + size.toNat + 1 ∧ cc.toNat / 32 = 6 then
      match readTriplets (cc.toNat % 32) x with
      | some (ws, [0xff, 0x80]) => some ws
      | _ => none
    else none
  | _ => none

/-- The captions of a time interval, in ticks. -/
def captionsIn (caps : List Caption) (timescale start duration : Nat) : List Caption :=
  caps.filter fun c => decide ((start : Rat) ≤ c.start * timescale ∧ c.start * timescale < start + duration)

/-- New units for every sample of a run starting at a decode time: the captions of the sample, in
order, as caption messages. -/
inductive Captioned (field : Nat) (caps : List Caption) (timescale : Nat) :
    Nat → List VideoSample → List VideoSample → Prop
  | nil (t : Nat) : Captioned field caps timescale t [] []
  | cons (t : Nat) (s : VideoSample) (new : List Bytes) (ss ss' : List VideoSample)
      (hn : new.map readCaption =
        (captionsIn caps timescale t s.duration).map fun c => some (c.words.map fun w => (field, w)))
      (h : Captioned field caps timescale (t + s.duration) ss ss') :
      Captioned field caps timescale t (s :: ss) (s.insert new :: ss')

/-- Bytes of the samples with their captions: a caption of `n` words takes 19 bytes and three for
every word. -/
def captionedLength (caps : List Caption) (timescale : Nat) : Nat → List VideoSample → Nat
  | _, [] => 0
  | t, s :: ss =>
    s.bytes.length + ((captionsIn caps timescale t s.duration).map fun c => 19 + 3 * c.words.length).sum +
      captionedLength caps timescale (t + s.duration) ss

/-- A run entry; duration and size are there, flags and composition offset according to the bits. -/
def runEntry (f1 : UInt8) (s : VideoSample) : Bytes :=
  beBytes 4 s.duration ++ beBytes 4 s.bytes.length ++
    (if f1.toNat.testBit 2 then beBytes 4 s.flags else []) ++ (if f1.toNat.testBit 3 then beBytes 4 s.comp else [])

/-- Content of a run box with data offset. -/
def runContent (v f2 f1 f0 : UInt8) (offset : Nat) (ss : List VideoSample) : Bytes :=
  [v, f2, f1, f0] ++ beBytes 4 ss.length ++ beBytes 4 offset ++ ss.flatMap (runEntry f1)

/-- Boxes of no interest to the inserter, in a moof box or at the top level. -/
def PlainBoxes (l : List (Bytes × Bytes)) : Prop :=
  ∀ b ∈ l, b.1.length = 4 ∧ b.1 ∉ [tyMoof, tyTraf, tyMdat, tyTrun] ∧ utf8Valid b.1 = true ∧
    8 + b.2.length < 2 ^ 32

/-- The parts of a segment with one run. -/
structure RunSegment where
  front : List (Bytes × Bytes)
  mfhd : List (Bytes × Bytes)
  tfhd : List (Bytes × Bytes)
  after : List (Bytes × Bytes)
  last : List (Bytes × Bytes)
  mid : List (Bytes × Bytes)
  back : List (Bytes × Bytes)
  v : UInt8
  f2 : UInt8
  f1 : UInt8
  f0 : UInt8
  pre : Bytes
  post : Bytes

/-- The moof box. -/
def RunSegment.moof (g : RunSegment) (offset : Nat) (ss : List VideoSample) : Bytes :=
  boxBytes tyMoof (boxesBytes g.mfhd ++
    boxBytes tyTraf (boxesBytes g.tfhd ++ boxBytes tyTrun (runContent g.v g.f2 g.f1 g.f0 offset ss) ++
      boxesBytes g.after) ++ boxesBytes g.last)

/-- Where the samples are, from the start of the moof box. -/
def RunSegment.offset (g : RunSegment) (ss : List VideoSample) : Nat :=
  (g.moof 0 ss).length + (boxesBytes g.mid).length + 8 + g.pre.length

/-- The segment: boxes, moof, boxes, mdat with the samples, boxes. -/
def RunSegment.bytes (g : RunSegment) (ss : List VideoSample) : Bytes :=
  boxesBytes g.front ++ g.moof (g.offset ss) ss ++ boxesBytes g.mid ++
    boxBytes tyMdat (g.pre ++ ss.flatMap VideoSample.bytes ++ g.post) ++ boxesBytes g.back

/-- Data offset, durations and sizes present, no first-sample flags; other boxes plain. -/
def RunSegment.Ok (g : RunSegment) : Prop :=
  PlainBoxes g.front ∧ PlainBoxes g.mfhd ∧ PlainBoxes g.tfhd ∧ PlainBoxes g.after ∧ PlainBoxes g.last ∧
    PlainBoxes g.mid ∧ PlainBoxes g.back ∧ g.f0.toNat.testBit 0 = true ∧ g.f0.toNat.testBit 2 = false ∧
    g.f1.toNat.testBit 0 = true ∧ g.f1.toNat.testBit 1 = true

/-- No start code and no emulation prevention code in a unit (ITU-T H.264 clause 7.4.1): no three
bytes 0, 0 and at most 3. -/
def NoEmulation : Bytes → Prop
  | a :: b :: c :: x => ¬ (a = 0 ∧ b = 0 ∧ c.toNat ≤ 3) ∧ NoEmulation (b :: c :: x)
  | _ => True

end Verif
