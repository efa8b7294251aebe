import Verif.Mp4Filter
/-
Model of dashlib/initsegmentfilter.py: the two filters of initialisation segments.
-/
namespace Verif

/-- Python `data[i]` on bytes, `0 ≤ i`. -/
def byteAt (data : Bytes) (i : Nat) : Py UInt8 :=
  match data[i]? with
  | some b => .ok b
  | none => .error .indexError

/-- initsegmentfilter.py 108-110 and alike: `data[:a] + b'\x00' * (b - a) + data[b:]`. -/
def zeroSlice (data : Bytes) (a b : Nat) : Bytes :=
  data.take a ++ List.replicate (b - a) 0 ++ data.drop b

/-- initsegmentfilter.py 102-116 `InitLiveFilter.process_mvhd`; the state is
`movie_timescale`. -/
def processMvhd (data : Bytes) (_s : Int) : Py (Bytes × Int) :=
  match byteAt data 8 with
  | .error e => .error e
  | .ok version =>
    if version = 1 then
      match strToUint32 (slice data 28 32) with
      | .error e => .error e
      | .ok ts => .ok (zeroSlice data 32 40, ts)
    else
      match strToUint32 (slice data 20 24) with
      | .error e => .error e
      | .ok ts => .ok (zeroSlice data 24 28, ts)

/-- initsegmentfilter.py 118-130 `InitLiveFilter.process_tkhd`. -/
def processTkhdLive (data : Bytes) (s : Int) : Py (Bytes × Int) :=
  match byteAt data 8 with
  | .error e => .error e
  | .ok version =>
    if version = 1 then .ok (zeroSlice data 36 44, s) else .ok (zeroSlice data 28 32, s)

/-- initsegmentfilter.py 132-144 `InitLiveFilter.process_mdhd`. -/
def processMdhdLive (data : Bytes) (s : Int) : Py (Bytes × Int) :=
  match byteAt data 8 with
  | .error e => .error e
  | .ok version =>
    if version = 1 then .ok (zeroSlice data 32 40, s) else .ok (zeroSlice data 24 28, s)

/-- The method table of `InitLiveFilter` (mp4filter.py 121-126). -/
def initLiveLeaf (ty : BoxType) (data : Bytes) (s : Int) : Py (Bytes × Int) :=
  if ty = [109, 118, 104, 100] then processMvhd data s             -- mvhd
  else if ty = [116, 107, 104, 100] then processTkhdLive data s    -- tkhd
  else if ty = [109, 100, 104, 100] then processMdhdLive data s    -- mdhd
  else if utf8Valid ty then .ok (data, s) else .error .unicodeError

/-- initsegmentfilter.py 96-100: moov at the top; moov, trak, mdia, mvex are looked into. -/
def initLiveRules : FilterRules Int where
  top := [[109, 111, 111, 118]]
  composite := [[109, 111, 111, 118], [116, 114, 97, 107], [109, 100, 105, 97], [109, 118, 101, 120]]
  leaf := initLiveLeaf

/-- initsegmentfilter.py 91-144 `InitLiveFilter(data).filter()`: the live init segment. -/
def liveInit (data : Bytes) : Py Bytes :=
  match filterFile initLiveRules data (-1) with
  | .error e => .error e
  | .ok ((out, _), _) => .ok out

/-- The attributes of `InitFilter` (initsegmentfilter.py 39-45, 67-73). -/
structure InitInfo where
  timescale : Int := -1
  trackId : Option Nat := none
  handler : Option Bytes := none
  descIndex : Option Nat := none
  defDur : Option Nat := none
  defSize : Option Nat := none
  defFlags : Option Nat := none
  deriving DecidableEq

/-- initsegmentfilter.py 47-50 `process_hdlr`. -/
def processHdlr (data : Bytes) (s : InitInfo) : Py (Bytes × InitInfo) :=
  .ok (data, { s with handler := some (slice data 16 20) })

/-- initsegmentfilter.py 52-60 `process_tkhd`: a second track raises. -/
def processTkhd (data : Bytes) (s : InitInfo) : Py (Bytes × InitInfo) :=
  match s.trackId with
  | some _ => .error .assertion
  | none =>
    match byteAt data 8 with
    | .error e => .error e
    | .ok version =>
      if version = 0 then
        match strToUint32 (slice data 20 24) with
        | .error e => .error e
        | .ok t => .ok (data, { s with trackId := some t })
      else if version = 1 then
        match strToUint32 (slice data 28 32) with
        | .error e => .error e
        | .ok t => .ok (data, { s with trackId := some t })
      else .ok (data, s)

/-- initsegmentfilter.py 62-65 `process_mdhd`. -/
def processMdhd (data : Bytes) (s : InitInfo) : Py (Bytes × InitInfo) :=
  match strToUint32 (slice data 20 24) with
  | .error e => .error e
  | .ok t => .ok (data, { s with timescale := t })

/-- initsegmentfilter.py 67-73 `process_trex`. -/
def processTrex (data : Bytes) (s : InitInfo) : Py (Bytes × InitInfo) := do
  let i ← strToUint32 (slice data 16 20)
  let d ← strToUint32 (slice data 20 24)
  let z ← strToUint32 (slice data 24 28)
  let f ← strToUint32 (slice data 28 32)
  return (data, { s with descIndex := some i, defDur := some d, defSize := some z, defFlags := some f })

/-- The method table of `InitFilter` (mp4filter.py 121-126). -/
def initLeaf (ty : BoxType) (data : Bytes) (s : InitInfo) : Py (Bytes × InitInfo) :=
  if ty = [104, 100, 108, 114] then processHdlr data s          -- hdlr
  else if ty = [116, 107, 104, 100] then processTkhd data s     -- tkhd
  else if ty = [109, 100, 104, 100] then processMdhd data s     -- mdhd
  else if ty = [116, 114, 101, 120] then processTrex data s     -- trex
  else if utf8Valid ty then .ok (data, s) else .error .unicodeError

/-- initsegmentfilter.py 39-45. -/
def initRules : FilterRules InitInfo where
  top := [[109, 111, 111, 118]]
  composite := [[109, 111, 111, 118], [116, 114, 97, 107], [109, 100, 105, 97], [109, 118, 101, 120]]
  leaf := initLeaf

/-- initsegmentfilter.py 36-88 `InitFilter(data)` after `filter()`: what it read. -/
def initInfo (data : Bytes) : Py InitInfo :=
  match filterFile initRules data {} with
  | .error e => .error e
  | .ok (_, s) => .ok s

end Verif
