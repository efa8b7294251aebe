import Verif.Mp4Filter
/-
Model of dashlib/segmentmuxer.py: two tracks in one init segment and in one media segment.
-/
namespace Verif

/-- segmentmuxer.py 37-49: the boxes kept from an init segment. -/
structure InitParts where
  ftyp : Option Bytes := none
  mvhd : Option Bytes := none
  trex : Option Bytes := none
  trak : Option Bytes := none
  deriving DecidableEq

/-- segmentmuxer.py 51-69, the methods of `InitSegmentStructure` (every box is kept unchanged in
the output). -/
def partsLeaf (ty : BoxType) (data : Bytes) (s : InitParts) : Py (Bytes × InitParts) :=
  if ty = [102, 116, 121, 112] then .ok (data, { s with ftyp := some data })        -- ftyp
  else if ty = [109, 118, 104, 100] then .ok (data, { s with mvhd := some data })   -- mvhd
  else if ty = [116, 114, 101, 120] then .ok (data, { s with trex := some data })   -- trex
  else if ty = [116, 114, 97, 107] then .ok (data, { s with trak := some data })    -- trak
  else if utf8Valid ty then .ok (data, s) else .error .unicodeError

/-- segmentmuxer.py 44-45. -/
def partsRules : FilterRules InitParts where
  top := [[102, 116, 121, 112], [109, 111, 111, 118]]
  composite := [[109, 111, 111, 118], [109, 118, 101, 120]]
  leaf := partsLeaf

/-- `InitSegmentStructure(data)` after `filter()`. -/
def initParts (data : Bytes) : Py InitParts :=
  match filterFile partsRules data {} with
  | .error e => .error e
  | .ok (_, s) => .ok s

/-- `len(x)` and `b"".join` on a box that may be missing. -/
def theBox : Option Bytes → Py Bytes
  | some b => .ok b
  | none => .error .typeError

/-- segmentmuxer.py 102-120 `MultiplexInits.construct_muxed`.  Simplified: a missing ftyp raises
here before the sizes are written, in the code after; the exception is the same type. -/
def constructMuxed (a b : InitParts) : Py Bytes := do
  let ftyp ← theBox a.ftyp
  let trex1 ← theBox a.trex
  let trex2 ← theBox b.trex
  let mvhd ← theBox a.mvhd
  let trak1 ← theBox a.trak
  let trak2 ← theBox b.trak
  let mvexSize := 8 + trex1.length + trex2.length
  let moovSize := 8 + mvhd.length + mvexSize + trak1.length + trak2.length
  let s1 ← uint32ToStr moovSize
  let s2 ← uint32ToStr mvexSize
  return ftyp ++ s1 ++ [109, 111, 111, 118] ++ mvhd ++ s2 ++ [109, 118, 101, 120] ++ trex1 ++
    trex2 ++ trak1 ++ trak2

/-- segmentmuxer.py 92-120: two init segments multiplexed. -/
def muxInits (data1 data2 : Bytes) : Py Bytes := do
  let a ← initParts data1
  let b ← initParts data2
  constructMuxed a b

/-- segmentmuxer.py 127-137: what is kept from a media segment. -/
structure MediaParts where
  styp : Option Bytes := none
  moof : Option Bytes := none
  mdat : Option Bytes := none
  mfhd : Option Bytes := none
  traf : Option Bytes := none
  trafStart : Option Nat := none
  runOffset : Option Nat := none
  runPos : Option Int := none
  deriving DecidableEq

/-- segmentmuxer.py 139-145 `parse_trun`.  A run outside any traf raises. -/
def parseTrun (data : Bytes) (pos : Nat) (s : MediaParts) : Py MediaParts :=
  match strToUint32 (slice data 8 12) with
  | .error e => .error e
  | .ok vf =>
    if vf % 2 = 1 then
      match strToUint32 (slice data 16 20) with
      | .error e => .error e
      | .ok off =>
        match s.trafStart with
        | none => .error .typeError
        | some t => .ok { s with runOffset := some off, runPos := some ((pos : Int) + 16 - t) }
    else .ok s

/-- segmentmuxer.py 149-161, the first part of `filter_box`. -/
def seeBox (ty : BoxType) (data : Bytes) (pos : Nat) (s : MediaParts) : Py MediaParts :=
  if ty = [115, 116, 121, 112] then .ok { s with styp := some data }
  else if ty = [109, 111, 111, 102] then .ok { s with moof := some data }
  else if ty = [109, 100, 97, 116] then .ok { s with mdat := some data }
  else if ty = [109, 102, 104, 100] then .ok { s with mfhd := some data }
  else if ty = [116, 114, 97, 102] then .ok { s with traf := some data, trafStart := some pos }
  else if ty = [116, 114, 117, 110] then parseTrun data pos s
  else .ok s

/-- segmentmuxer.py 167-175 and mp4filter.py 76-88, the loop over boxes one after another: `rest`
is the data not yet read, at file position `pos`, and `visit` what is done with a box.  The
output, which is always equal to the input so that positions in both agree, is left out. -/
def seeLoop (visit : BoxType → Bytes → Nat → MediaParts → Py MediaParts) :
    Nat → Bytes → Nat → MediaParts → Py MediaParts
  | _, [], _, s => .ok s
  | 0, _ :: _, _, _ => .error .hang
  | n + 1, b :: rest, pos, s =>
    match strToUint32 (((b :: rest).take 8).take 4) with
    | .error e => .error e
    | .ok size =>
      match visit (slice (b :: rest) 4 8) ((b :: rest).take size) pos s with
      | .error e => .error e
      | .ok s' => seeLoop visit n ((b :: rest).drop size) (pos + size) s'

/-- segmentmuxer.py 147-176 for a child of a moof: looked at, and entered when it is a traf (path
`moof.traf`). -/
def seeKid (ty : BoxType) (data : Bytes) (pos : Nat) (s : MediaParts) : Py MediaParts :=
  match seeBox ty data pos s with
  | .error e => .error e
  | .ok s' =>
    if ty = [116, 114, 97, 102] then seeLoop seeBox data.length (data.drop 8) (pos + 8) s' else .ok s'

/-- segmentmuxer.py 147-176 for a box at the top level: styp, moof and mdat are looked at (129),
moof is entered. -/
def seeTop (ty : BoxType) (data : Bytes) (pos : Nat) (s : MediaParts) : Py MediaParts :=
  if ty ∈ [[115, 116, 121, 112], [109, 111, 111, 102], [109, 100, 97, 116]] then
    match seeBox ty data pos s with
    | .error e => .error e
    | .ok s' =>
      if ty = [109, 111, 111, 102] then seeLoop seeKid data.length (data.drop 8) (pos + 8) s' else .ok s'
  else .ok s

/-- `MediaSegmentStructure(data)` after `filter()`. -/
def mediaParts (data : Bytes) : Py MediaParts := seeLoop seeTop data.length data 0 {}

/-- segmentmuxer.py 203-210 `get_traf_with_mod_offset`; the positions of runs inside a traf are
never negative. -/
def trafMoved (m : MediaParts) (traf : Bytes) (delta : Int) : Py Bytes :=
  match m.runOffset, m.runPos with
  | some off, some pos =>
    match uint32ToStr (off + delta) with
    | .error e => .error e
    | .ok b => .ok (traf.take pos.toNat ++ b ++ traf.drop (pos.toNat + 4))
  | _, _ => .ok traf

/-- segmentmuxer.py 200-232 `mux_on_sample_level`.  Simplified: a missing styp raises first, in
the code last; the exception is the same type. -/
def muxSamples (a b : MediaParts) : Py Bytes := do
  let styp ← theBox a.styp
  let traf2 ← theBox b.traf
  let traf1 ← theBox a.traf
  let mdat1 ← theBox a.mdat
  let t1 ← trafMoved a traf1 traf2.length
  let t2 ← trafMoved b traf2 ((traf1.length : Int) + mdat1.length - 8)
  let mfhd ← theBox a.mfhd
  let mdat2 ← theBox b.mdat
  let s1 ← uint32ToStr (8 + mfhd.length + traf1.length + traf2.length : Nat)
  let s2 ← uint32ToStr ((mdat1.length : Int) + mdat2.length - 8)
  return styp ++ s1 ++ [109, 111, 111, 102] ++ mfhd ++ t1 ++ t2 ++ s2 ++ [109, 100, 97, 116] ++
    mdat1.drop 8 ++ mdat2.drop 8

/-- segmentmuxer.py 190-198 `mux_on_fragment_level`. -/
def muxFragments (a b : MediaParts) : Py Bytes := do
  let styp ← theBox a.styp
  let moof1 ← theBox a.moof
  let mdat1 ← theBox a.mdat
  let moof2 ← theBox b.moof
  let mdat2 ← theBox b.mdat
  return styp ++ moof1 ++ mdat1 ++ moof2 ++ mdat2

/-- segmentmuxer.py 184-188 and 200-232: two media segments multiplexed as the server does
(dash_proxy.py 292-293). -/
def muxMedia (data1 data2 : Bytes) : Py Bytes := do
  let a ← mediaParts data1
  let b ← mediaParts data2
  muxSamples a b

end Verif
