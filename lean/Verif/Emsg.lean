import Verif.Py
import Verif.Text
/-
Model of dashlib/emsg.py, dashlib/scte35.py, the emsg reader of dashlib/mp4.py and
`MediaSegmentFilter.create_scte35box`.
-/
namespace Verif

/-- Python `str.encode("utf-8")` for text without surrogates. -/
def utf8 (t : Text) : Bytes := t.flatMap String.utf8EncodeChar

/-- emsg.py 53-64 `Emsg.__init__`: the attributes of the object.  `value` is already the
`str(value)`. -/
structure Emsg where
  scheme : Text
  value : Text
  timescale : Int
  delta : Int
  duration : Int
  id : Int
  message : Text
  deriving DecidableEq

/-- emsg.py 66-80 `Emsg.get_box`. -/
def Emsg.getBox (e : Emsg) : Py Bytes := do
  let size := 12 + 4 * 4 + e.scheme.length + 1 + e.value.length + 1 + e.message.length
  let p0 ← uint32ToStr size
  let p5 ← uint32ToStr e.timescale
  let p6 ← uint32ToStr e.delta
  let p7 ← uint32ToStr e.duration
  let p8 ← uint32ToStr e.id
  return p0 ++ [101, 109, 115, 103] ++ [0, 0, 0, 0] ++ (utf8 e.scheme ++ [0]) ++
    (utf8 e.value ++ [0]) ++ p5 ++ p6 ++ p7 ++ p8 ++ utf8 e.message

/-- mp4.py 2019-2025 `read_string`: bytes up to a zero byte; the generator raises
`StopIteration` at the end of the data (here `valueError`). -/
def readString : Bytes → Py (Text × Bytes)
  | [] => .error .valueError
  | b :: rest =>
    if b = 0 then .ok ([], rest)
    else match readString rest with
      | .error e => .error e
      | .ok (t, r) => .ok (Char.ofNat b.toNat :: t, r)

/-- `i.send('>I')` on the parse generator of mp4.py 84-91: four bytes, or an exception. -/
def readU32 (d : Bytes) : Py (Nat × Bytes) :=
  match strToUint32 (d.take 4) with
  | .error e => .error e
  | .ok v => .ok (v, d.drop 4)

/-- What mp4.py 2219-2252 `emsg_box` stores for a version 0 box. -/
structure EmsgRead where
  scheme : Text
  value : Text
  timescale : Nat
  delta : Nat
  duration : Nat
  id : Nat
  message : Bytes
  deriving DecidableEq

/-- mp4.py 2219-2252 `emsg_box.__init__` for a version 0 box; `box` is
`fmap[offset:offset+size]`.  Version 1 (never written by the simulator) is not modelled and
gives `assertion`. -/
def readEmsg (box : Bytes) : Py EmsgRead := do
  if box[8]? ≠ some 0 then .error .assertion
  let (scheme, d1) ← readString (box.drop 12)
  let (value, d2) ← readString d1
  let (ts, d3) ← readU32 d2
  let (delta, d4) ← readU32 d3
  let (dur, d5) ← readU32 d4
  let (id, d6) ← readU32 d5
  return ⟨scheme, value, ts, delta, dur, id, d6⟩

/-- scte35.py 37 `SCHEME_ID_URI`. -/
def scteScheme : Text := "urn:scte:scte35:2013:xml".toList

/-- scte35.py 53-83 `create_scte35_insert_message` for the arguments used in scte35.py
100-116: no cancel, no immediate flag, `auto_return` set, and a non-zero duration. -/
def insertMessage (spliceId ptsTime duration : Int) : Text :=
  "<SpliceInfoSection ptsAdjustment=\"0\" scte35:tier=\"4095\">\n".toList ++
  "<SpliceInsert spliceEventId=\"".toList ++ intText spliceId ++
  "\" spliceEventCancelIndicator=\"false\" outOfNetworkIndicator=\"false\" ".toList ++
  "uniqueProgramId=\"0\" availNum=\"0\" availsExpected=\"0\" spliceImmediateFlag=\"false\" >\n".toList ++
  "<Program><SpliceTime ptsTime=\"".toList ++ intText ptsTime ++ "\"/></Program>\n".toList ++
  (if duration = 0 then [] else
    "<BreakDuration autoReturn=\"true\" duration=\"".toList ++ intText duration ++ "\"/>\n".toList) ++
  "</SpliceInsert>\n</SpliceInfoSection>".toList

/-- scte35.py 86-110 `Scte35Emsg.__init__`. -/
def scte35Emsg (timescale ptOffset presentationTime duration messageId spliceId : Int) :
    Py Emsg :=
  if timescale ≠ 90000 then .error .scteError
  else
    let ptsTime := presentationTime % 2 ^ 33
    .ok
    { scheme := scteScheme, value := "999".toList, timescale := timescale,
      delta := presentationTime - ptOffset, duration := duration, id := messageId,
      message := insertMessage spliceId ptsTime duration }

/-- mediasegmentfilter.py 356-366: the splice times of the minute and the ad duration. -/
def spliceTimes (perMinute minute : Int) : List Int × Int :=
  if perMinute = 2 then ([minute + 10, minute + 40], 10)
  else if perMinute = 3 then ([minute + 10, minute + 36, minute + 46], 10)
  else if perMinute = 8 then ([minute + 10, minute + 30], 20)
  else ([minute + 10], 10)

/-- mediasegmentfilter.py 370-377: the first splice one of whose two warning times lies in
the closed segment interval. -/
def findSplice (start stop : Int) : List Int → Option Int
  | [] => none
  | t :: ts =>
    if (start ≤ t - 6 ∧ t - 6 ≤ stop) ∨ (start ≤ t - 8 ∧ t - 8 ≤ stop) then some t
    else findSplice start stop ts

/-- mediasegmentfilter.py 342-384 `create_scte35box`: the message of a segment, if any.
Segment durations are whole seconds.  The code marks "not found" by a negative number, so a
negative splice time also counts as not found. -/
def scteOf (perMinute segNr segDur : Int) : Py (Option Emsg) :=
  if perMinute < 1 ∨ 8 < perMinute then .ok none
  else
    let start := segNr * segDur
    let minute := start - start % 60
    let (times, ad) := spliceTimes perMinute minute
    match findSplice start (start + segDur) times with
    | none => .ok none
    | some t =>
      if t < 0 then .ok none
      else
        let id := Int.fdiv t 10
        match scte35Emsg 90000 (start * 90000) (t * 90000) (ad * 90000) id id with
        | .error e => .error e
        | .ok e => .ok (some e)

/-- mediasegmentfilter.py 342-384, the bytes. -/
def scteBox (perMinute segNr segDur : Int) : Py Bytes :=
  match scteOf perMinute segNr segDur with
  | .error e => .error e
  | .ok none => .ok []
  | .ok (some e) => e.getBox

end Verif
