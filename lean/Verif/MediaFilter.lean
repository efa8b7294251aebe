import Verif.Mp4Filter
import Verif.Emsg
/-
Model of dashlib/mediasegmentfilter.py.
-/
namespace Verif

/-- The arguments of `MediaSegmentFilter.__init__` (mediasegmentfilter.py 52-77).  `emsgLast`
is the message text `make_timestamp(now)` when `emsg_last_seg` is set.  `ttml` is
`adjust_ttml_content(·, offset, seg_nr)` when `is_ttml` is set (modelled in `Ttml`). -/
structure MfCfg where
  segNr : Option Int
  segDur : Int
  offset : Int
  lmsg : Bool
  timescale : Option Int
  perMinute : Int
  insertSidx : Bool
  emsgLast : Option Text
  defaultDur : Option Nat

/-- The attributes of the filter object that change while filtering. -/
structure MfState where
  sizeChange : Int
  tfdt : Option Int
  duration : Option Int
  defaultDur : Option Nat
  ttmlSize : Option Nat
  newSaio : Option Int
  deriving DecidableEq

/-- mediasegmentfilter.py 58-77: the initial attributes. -/
def MfCfg.init (c : MfCfg) : MfState :=
  { sizeChange := 0, tfdt := none, duration := none, defaultDur := c.defaultDur,
    ttmlSize := none, newSaio := none }

/-- mediasegmentfilter.py 107-116: the brands of a styp box that are not `lmsg`: four bytes at
every position from 8 below the size field (with the Python slice, which may be short). -/
def keptBrands (data : Bytes) (size : Nat) : Nat → Nat → List Bytes
  | 0, _ => []
  | fuel + 1, pos =>
    if pos < size then
      let brand := slice data pos (pos + 4)
      if brand ≠ [108, 109, 115, 103] then brand :: keptBrands data size fuel (pos + 4)
      else keptBrands data size fuel (pos + 4)
    else []

/-- mediasegmentfilter.py 126-127 and 342-384 `create_scte35box`: what `process_styp` appends
after the box: the event message of the segment, if any.  Without a segment number the
multiplication in `Scte35` raises `TypeError` unless there are no messages. -/
def scteOfSegment (c : MfCfg) : Py Bytes :=
  match c.segNr with
  | none => if c.perMinute < 1 ∨ 8 < c.perMinute then .ok [] else .error .typeError
  | some nr => scteBox c.perMinute nr c.segDur

/-- mediasegmentfilter.py 112-120: the brands of the rewritten styp box. -/
def newBrands (c : MfCfg) (data : Bytes) (size : Nat) : List Bytes :=
  if c.lmsg then keptBrands data size size 8 ++ [[108, 109, 115, 103]]
  else keptBrands data size size 8

/-- mediasegmentfilter.py 107-128 `process_styp`. -/
def processStyp (c : MfCfg) (data : Bytes) : Py Bytes :=
  match strToUint32 (data.take 4) with
  | .error e => .error e
  | .ok size =>
    match uint32ToStr ((8 + 4 * (newBrands c data size).length : Nat) : Int) with
    | .error e => .error e
    | .ok s =>
      match scteOfSegment c with
      | .error e => .error e
      | .ok scte => .ok (s ++ [115, 116, 121, 112] ++ (newBrands c data size).flatten ++ scte)

/-- `x & mask` for a one-bit mask. -/
def hasFlag (flags k : Nat) : Bool := Nat.testBit flags k

/-- `if self.ttml_size:` in mediasegmentfilter.py 141, 144 and 152 treats size 0 like no size. -/
def MfState.ttmlActive (s : MfState) : Bool :=
  match s.ttmlSize with
  | none => false
  | some n => decide (n ≠ 0)

/-- mediasegmentfilter.py 130-156 `process_tfhd`. -/
def processTfhd (data : Bytes) (s : MfState) : Py (Bytes × MfState) :=
  match strToUint32 (slice data 8 12) with
  | .error e => .error e
  | .ok vf =>
    let flags := vf % 2 ^ 24
    let ttml := s.ttmlActive
    if hasFlag flags 0 then .error .filterError
    else
      let pos := if hasFlag flags 1 then 20 else 16
      match (if hasFlag flags 3 then
          match strToUint32 (slice data pos (pos + 4)) with
          | .error e => .error e
          | .ok d => .ok (pos + 4, some d)
        else if ttml then .error .filterError
        else .ok (pos, s.defaultDur) : Py (Nat × Option Nat)) with
      | .error e => .error e
      | .ok (pos, dur) =>
        let s' := { s with defaultDur := dur }
        if ttml then
          if hasFlag flags 4 then
            match uint32ToStr ((s.ttmlSize.getD 0 : Nat) : Int) with
            | .error e => .error e
            | .ok z => .ok (data.take pos ++ z ++ data.drop (pos + 4), s')
          else .error .filterError
        else .ok (data, s')

/-- mediasegmentfilter.py 158-163 `process_mfhd`. -/
def processMfhd (c : MfCfg) (data : Bytes) : Py Bytes :=
  match c.segNr with
  | none => .ok data
  | some nr =>
    match uint32ToStr nr with
    | .error e => .error e
    | .ok b => .ok (data.take 12 ++ b)

/-- mediasegmentfilter.py 181-193: the sum of the sample durations; `dur` tells whether the
run carries durations, `row` is the size of a run entry, `n` samples are left. -/
def trunDuration (data : Bytes) (dur : Bool) (dflt : Option Nat) (row : Nat) :
    Nat → Nat → Py Nat
  | 0, _ => .ok 0
  | n + 1, pos =>
    match (if dur then strToUint32 (slice data pos (pos + 4))
      else .ok (match dflt with | some d => d | none => 0) : Py Nat) with
    | .error e => .error e
    | .ok d =>
      match trunDuration data dur dflt row n (pos + row) with
      | .error e => .error e
      | .ok t => .ok (d + t)

/-- The size of a run entry (mediasegmentfilter.py 176-192): four bytes for each of duration,
size, flags, composition offset that is present. -/
def trunRow (flags : Nat) : Nat :=
  (if hasFlag flags 8 then 4 else 0) + (if hasFlag flags 9 then 4 else 0) +
  (if hasFlag flags 10 then 4 else 0) + (if hasFlag flags 11 then 4 else 0)

/-- mediasegmentfilter.py 165-204 `process_trun`. -/
def processTrun (data : Bytes) (s : MfState) : Py (Bytes × MfState) :=
  match strToUint32 (slice data 8 12) with
  | .error e => .error e
  | .ok vf =>
    let flags := vf % 2 ^ 24
    match strToUint32 (slice data 12 16) with
    | .error e => .error e
    | .ok count =>
      let pos := 16 + (if hasFlag flags 0 then 4 else 0) + (if hasFlag flags 2 then 4 else 0)
      match trunDuration data (hasFlag flags 8) s.defaultDur (trunRow flags) count pos with
      | .error e => .error e
      | .ok total =>
        let s' := { s with duration := some (total : Int) }
        if hasFlag flags 0 ∧ 0 < s.sizeChange then
          match strToSint32 (slice data 16 20) with
          | .error e => .error e
          | .ok off =>
            match sint32ToStr (off + s.sizeChange) with
            | .error e => .error e
            | .ok b => .ok (data.take 16 ++ b ++ data.drop 20, s')
        else .ok (data.take 16 ++ slice data 16 20 ++ data.drop 20, s')

/-- mediasegmentfilter.py 217-231: the offsets of a saio box, each increased by `delta`;
`w` is 4 or 8.  Returns the new bytes and the new offsets. -/
def saioEntries (data : Bytes) (w : Nat) (delta : Int) : Nat → Nat → Py (Bytes × List Int)
  | 0, _ => .ok ([], [])
  | n + 1, pos =>
    match (if w = 4 then strToUint32 (slice data pos (pos + 4))
      else strToUint64 (slice data pos (pos + 8))) with
    | .error e => .error e
    | .ok off =>
      match (if w = 4 then uint32ToStr (off + delta) else uint64ToStr (off + delta)) with
      | .error e => .error e
      | .ok b =>
        match saioEntries data w delta n (pos + w) with
        | .error e => .error e
        | .ok (bs, os) => .ok (b ++ bs, (off + delta) :: os)

/-- mediasegmentfilter.py 206-232 `process_saio`. -/
def processSaio (data : Bytes) (s : MfState) : Py (Bytes × MfState) :=
  match strToUint32 (slice data 8 12) with
  | .error e => .error e
  | .ok vf =>
    let version := vf / 2 ^ 24
    let pos := if hasFlag (vf % 2 ^ 24) 0 then 20 else 12
    match strToUint32 (slice data pos (pos + 4)) with
    | .error e => .error e
    | .ok count =>
      match saioEntries data (if version = 0 then 4 else 8) s.sizeChange count (pos + 4) with
      | .error e => .error e
      | .ok (bs, os) =>
        .ok (data.take (pos + 4) ++ bs,
          { s with newSaio := match os with | [] => s.newSaio | o :: _ => some o })

/-- mediasegmentfilter.py 302-332 `process_tfdt`. -/
def processTfdt (c : MfCfg) (data : Bytes) (s : MfState) : Py (Bytes × MfState) :=
  match data[8]? with
  | none => .error .indexError
  | some version =>
    let tfdtOffset := match c.timescale with | some ts => c.offset * ts | none => 0
    if version = 0 then
      match strToUint32 (slice data 12 16) with
      | .error e => .error e
      | .ok t =>
        let new := (t : Int) + tfdtOffset
        if new < 4294967296 then
          match uint32ToStr new with
          | .error e => .error e
          | .ok b => .ok (data.take 12 ++ b, { s with tfdt := some new })
        else
          match strToUint32 (data.take 4) with
          | .error e => .error e
          | .ok size =>
            match uint32ToStr (size + 4), uint64ToStr new with
            | .ok z, .ok b =>
              .ok (z ++ slice data 4 8 ++ [1] ++ slice data 9 12 ++ b,
                { s with tfdt := some new, sizeChange := 4 })
            | .error e, _ => .error e
            | _, .error e => .error e
    else
      match strToUint64 (slice data 12 20) with
      | .error e => .error e
      | .ok t =>
        let new := (t : Int) + tfdtOffset
        match uint64ToStr new with
        | .error e => .error e
        | .ok b => .ok (data.take 12 ++ b, { s with tfdt := some new })

/-- The methods `process_<type>` of `MediaSegmentFilter`, reached from mp4filter.py 121-126.
`process_sidx` returns nothing because `KEEP_SIDX` is `False` (mediasegmentfilter.py 40,
234-237). -/
def mediaLeaf (c : MfCfg) (ty : BoxType) (data : Bytes) (s : MfState) : Py (Bytes × MfState) :=
  if ty = [115, 116, 121, 112] then          -- styp
    match processStyp c data with
    | .error e => .error e
    | .ok b => .ok (b, s)
  else if ty = [115, 105, 100, 120] then .ok ([], s)   -- sidx
  else if ty = [116, 102, 104, 100] then processTfhd data s   -- tfhd
  else if ty = [109, 102, 104, 100] then     -- mfhd
    match processMfhd c data with
    | .error e => .error e
    | .ok b => .ok (b, s)
  else if ty = [116, 114, 117, 110] then processTrun data s   -- trun
  else if ty = [115, 97, 105, 111] then processSaio data s    -- saio
  else if ty = [116, 102, 100, 116] then processTfdt c data s -- tfdt
  else if utf8Valid ty then .ok (data, s) else .error .unicodeError

/-- mediasegmentfilter.py 55-56 with the method table. -/
def mediaRules (c : MfCfg) : FilterRules MfState where
  top := [[115, 116, 121, 112], [115, 105, 100, 120], [109, 111, 111, 102], [109, 100, 97, 116]]
  composite := [[109, 111, 111, 102], [116, 114, 97, 102]]
  leaf := mediaLeaf c

/-- mediasegmentfilter.py 264-279 `create_sidx`.  A missing timescale, decode time or duration
makes `pack` raise. -/
def createSidx (c : MfCfg) (s : MfState) (segSize : Nat) : Py Bytes :=
  match c.timescale, s.tfdt, s.duration with
  | some ts, some t, some d => do
    let b1 ← uint32ToStr 52
    let b2 ← uint32ToStr ts
    let b3 ← uint64ToStr t
    let b4 ← uint64ToStr 0
    let b5 ← uint32ToStr segSize
    let b6 ← uint32ToStr d
    return b1 ++ [115, 105, 100, 120, 1, 0, 0, 0] ++ [0, 0, 0, 1] ++ b2 ++ b3 ++ b4 ++
      [0, 0, 0, 1] ++ b5 ++ b6 ++ [0x90, 0, 0, 0]
  | _, _, _ => .error .structError

/-- mediasegmentfilter.py 80-90 and 95-99: the position of the last moof in the output and the
total size of all moof and mdat boxes; the arguments are the remaining top-level boxes, the
running position, and the values so far. -/
def moofScan : List (Nat × BoxType) → Nat → Nat → Nat → Nat × Nat
  | [], _, start, size => (start, size)
  | (n, ty) :: rest, pos, start, size =>
    if ty = [109, 111, 111, 102] then moofScan rest (pos + n) pos (size + n)
    else if ty = [109, 100, 97, 116] then moofScan rest (pos + n) start (size + n)
    else moofScan rest (pos + n) start size

/-- mediasegmentfilter.py 408-412 `create_emsg`. -/
def lastSegEmsg (message : Text) : Emsg :=
  { scheme := "urn:mpeg:dash:event:2012".toList, value := "1".toList, timescale := 1,
    delta := 2, duration := 0, id := 0, message := message }

/-- mediasegmentfilter.py 80-93: `finalize` inserts an index before the last fragment. -/
def insertIndex (c : MfCfg) (output : Bytes) (boxes : List (Nat × BoxType)) (s : MfState) :
    Py Bytes :=
  if c.insertSidx then
    match createSidx c s (moofScan boxes 0 0 0).2 with
    | .error e => .error e
    | .ok sidx => .ok (output.take (moofScan boxes 0 0 0).1 ++ sidx ++
        output.drop (moofScan boxes 0 0 0).1)
  else .ok output

/-- mediasegmentfilter.py 94-103: `finalize` inserts an event message at the position of the
last fragment (computed without the index). -/
def insertLast (c : MfCfg) (output : Bytes) (boxes : List (Nat × BoxType)) : Py Bytes :=
  match c.emsgLast with
  | none => .ok output
  | some msg =>
    match (lastSegEmsg msg).getBox with
    | .error e => .error e
    | .ok e => .ok (output.take (moofScan boxes 0 0 0).1 ++ e ++
        output.drop (moofScan boxes 0 0 0).1)

/-- mediasegmentfilter.py 79-103 `finalize`. -/
def mediaFinalize (c : MfCfg) (output : Bytes) (boxes : List (Nat × BoxType)) (s : MfState) :
    Py Bytes :=
  match insertIndex c output boxes s with
  | .error e => .error e
  | .ok out1 => insertLast c out1 boxes

/-- `MediaSegmentFilter(...).filter()` for content that is not TTML. -/
def filterMedia (c : MfCfg) (data : Bytes) : Py (Bytes × MfState) :=
  match filterFile (mediaRules c) data c.init with
  | .error e => .error e
  | .ok ((out, boxes), s) =>
    match mediaFinalize c out boxes s with
    | .error e => .error e
    | .ok final => .ok (final, s)

/-- mediasegmentfilter.py 386-398 `find_and_process_mdat`: the TTML payload of every mdat box
is rewritten with `ttml` and the box size adjusted; the size of the last payload is kept. -/
def processTtml (ttml : Bytes → Py Bytes) : Nat → Bytes → Option Nat → Py (Bytes × Option Nat)
  | _, [], z => .ok ([], z)
  | 0, _ :: _, _ => .error .hang
  | n + 1, b :: rest, z =>
    match strToUint32 ((b :: rest).take 4) with
    | .error e => .error e
    | .ok size =>
      match (if slice (b :: rest) 4 8 ≠ [109, 100, 97, 116] then
          .ok ((b :: rest).take size, z)
        else
          match ttml (((b :: rest).take size).drop 8) with
          | .error e => .error e
          | .ok out =>
            match uint32ToStr ((out.length + 8 : Nat) : Int) with
            | .error e => .error e
            | .ok h => .ok (h ++ [109, 100, 97, 116] ++ out, some out.length) :
          Py (Bytes × Option Nat)) with
      | .error e => .error e
      | .ok (o, z') =>
        match processTtml ttml n ((b :: rest).drop size) z' with
        | .error e => .error e
        | .ok (os, z'') => .ok (o ++ os, z'')

/-- `MediaSegmentFilter(..., is_ttml=True).filter()`. -/
def filterTtml (ttml : Bytes → Py Bytes) (c : MfCfg) (data : Bytes) : Py (Bytes × MfState) :=
  match processTtml ttml (2 * data.length + 1) data none with
  | .error e => .error e
  | .ok (data', z) =>
    match filterFile (mediaRules c) data' { c.init with ttmlSize := z } with
    | .error e => .error e
    | .ok ((out, boxes), s) =>
      match mediaFinalize c out boxes s with
      | .error e => .error e
      | .ok final => .ok (final, s)

end Verif
