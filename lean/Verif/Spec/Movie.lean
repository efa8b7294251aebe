import Verif.Spec.Init
/-
Specification of the movie box of a fragmented file with one track (ISO/IEC 14496-12 clauses
8.2.2, 8.3.2, 8.4.2, 8.4.3, 8.5.2, 8.8.3, 12.1.3, 12.2.3; ISO/IEC 14496-15 clause 5.3.3): the tree
of boxes, and which values stand at which places in their contents.
-/
namespace Verif

/-- The number in the `n` bytes at `pos` of the content of a box. -/
def fieldAt (p : Bytes) (pos n : Nat) : Nat := beVal (slice p pos (pos + n))

/-- The contents of the boxes of a movie with one track.  `mediaHeader` is type and content. -/
structure MovieBoxes where
  mvhd : Bytes
  tkhd : Bytes
  mdhd : Bytes
  hdlr : Bytes
  mediaHeader : Bytes × Bytes
  stsd : Bytes
  trex : Bytes

/-- The boxes in the sample table of a track without samples of its own. -/
def MovieBoxes.stbl (m : MovieBoxes) : Forest :=
  .leaf [115, 116, 115, 100] m.stsd <|
  .leaf [115, 116, 116, 115] (beBytes 4 0 ++ beBytes 4 0) <|
  .leaf [115, 116, 115, 99] (beBytes 4 0 ++ beBytes 4 0) <|
  .leaf [115, 116, 115, 122] (beBytes 4 0 ++ beBytes 4 0 ++ beBytes 4 0) <|
  .leaf [115, 116, 99, 111] (beBytes 4 0 ++ beBytes 4 0) .nil

/-- The boxes in the media information. -/
def MovieBoxes.minf (m : MovieBoxes) : Forest :=
  .leaf m.mediaHeader.1 m.mediaHeader.2 <|
  .node [100, 105, 110, 102]
    (.leaf [100, 114, 101, 102]
      (beBytes 4 0 ++ beBytes 4 1 ++ boxBytes [117, 114, 108, 32] (beBytes 4 1)) .nil) <|
  .node [115, 116, 98, 108] m.stbl .nil

/-- The boxes in the media box. -/
def MovieBoxes.mdia (m : MovieBoxes) : Forest :=
  .leaf [109, 100, 104, 100] m.mdhd <|
  .leaf [104, 100, 108, 114] m.hdlr <|
  .node [109, 105, 110, 102] m.minf .nil

/-- The boxes in the track box. -/
def MovieBoxes.trakKids (m : MovieBoxes) : Forest :=
  .leaf [116, 107, 104, 100] m.tkhd <|
  .node [109, 100, 105, 97] m.mdia .nil

/-- The track box. -/
def MovieBoxes.trak (m : MovieBoxes) (rest : Forest) : Forest :=
  .node [116, 114, 97, 107] m.trakKids rest

/-- The movie extends box. -/
def MovieBoxes.mvex (m : MovieBoxes) (rest : Forest) : Forest :=
  .node [109, 118, 101, 120] (.leaf [116, 114, 101, 120] m.trex .nil) rest

/-- The movie box, with the track before or after the movie extends box. -/
def MovieBoxes.forest (m : MovieBoxes) (trakFirst : Bool) : Forest :=
  .node [109, 111, 111, 118]
    (.leaf [109, 118, 104, 100] m.mvhd
      (if trakFirst then m.trak (m.mvex .nil) else m.mvex (m.trak .nil))) .nil

/-- What is known about a track. -/
structure TrackFacts where
  track : Nat
  timescale : Nat
  duration : Nat
  handler : Bytes
  /-- three letters -/
  language : List Char
  volume : Nat
  width : Nat
  height : Nat

/-- The packed language code of 8.4.2: three times five bits, each a letter less 0x60. -/
def packedLanguage (l : List Char) : Nat :=
  l.foldl (fun n c => n * 32 + (c.toNat - 0x60)) 0

/-- Three characters that fit into five bits each above 0x60; all lower-case letters do. -/
def Codable (lang : List Char) : Prop := lang.length = 3 ∧ ∀ c ∈ lang, 0x60 ≤ c.toNat ∧ c.toNat ≤ 0x7f

/-- The language a movie is written with: the given one if it can be coded, else "und". -/
def writtenLanguage (lang : List Char) : List Char :=
  if lang.length = 3 ∧ lang.all (fun c => decide (0x60 ≤ c.toNat ∧ c.toNat ≤ 0x7f)) then lang
  else ['u', 'n', 'd']

/-- The contents of the boxes say these things about the track: all headers of version 0, the
movie timescale 90000 and durations in it rounded down, the next free track number, no sample
defaults. -/
structure MovieBoxes.Says (m : MovieBoxes) (t : TrackFacts) : Prop where
  mvhdLen : m.mvhd.length = 100
  mvhdVersion : fieldAt m.mvhd 0 4 = 0
  movieScale : fieldAt m.mvhd 12 4 = 90000
  movieDuration : fieldAt m.mvhd 16 4 = t.duration * 90000 / t.timescale
  nextTrack : fieldAt m.mvhd 96 4 = t.track + 1
  tkhdLen : m.tkhd.length = 84
  tkhdVersion : fieldAt m.tkhd 0 1 = 0
  tkhdFlags : fieldAt m.tkhd 1 3 = 7
  track : fieldAt m.tkhd 12 4 = t.track
  trackDuration : fieldAt m.tkhd 20 4 = t.duration * 90000 / t.timescale
  volume : fieldAt m.tkhd 36 2 = t.volume
  width : fieldAt m.tkhd 76 4 = t.width * 2 ^ 16
  height : fieldAt m.tkhd 80 4 = t.height * 2 ^ 16
  mdhdLen : m.mdhd.length = 24
  mdhdVersion : fieldAt m.mdhd 0 4 = 0
  timescale : fieldAt m.mdhd 12 4 = t.timescale
  duration : fieldAt m.mdhd 16 4 = t.duration
  language : fieldAt m.mdhd 20 2 = packedLanguage t.language
  handler : slice m.hdlr 8 12 = t.handler
  trexLen : m.trex.length = 24
  extTrack : fieldAt m.trex 4 4 = t.track
  extIndex : fieldAt m.trex 8 4 = 1
  extDuration : fieldAt m.trex 12 4 = 0
  extSize : fieldAt m.trex 16 4 = 0
  extFlags : fieldAt m.trex 20 4 = 0

/-- A sample description with one entry. -/
def oneEntry (coding entry : Bytes) : Bytes := beBytes 4 0 ++ beBytes 4 1 ++ boxBytes coding entry

/-- An AVC decoder configuration with one SPS and one PPS, four-byte NAL lengths. -/
def avcConfig (profile compat level : Nat) (sps pps : Bytes) : Bytes :=
  beBytes 1 1 ++ beBytes 1 profile ++ beBytes 1 compat ++ beBytes 1 level ++
    beBytes 1 (63 * 4 + 3) ++ beBytes 1 (7 * 32 + 1) ++ beBytes 2 sps.length ++ sps ++
    beBytes 1 1 ++ beBytes 2 pps.length ++ pps

/-- Seeing less: containers outside `comp` as plain boxes. -/
def Forest.coarsen (comp : List Bytes) : Forest → Forest
  | .nil => .nil
  | .leaf ty p rest => .leaf ty p (rest.coarsen comp)
  | .node ty kids rest =>
    if ty ∈ comp then .node ty (kids.coarsen comp) (rest.coarsen comp)
    else .leaf ty kids.bytes (rest.coarsen comp)

end Verif
