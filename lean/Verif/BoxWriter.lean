import Verif.Boxes
import Verif.Chunker
/-
Model of the box classes of dashlib/boxes.py and of the functions that put them together.
-/
namespace Verif

/-- boxes.py 112-115 `Box`, as its users see it: the result of `size()` and what `__iter__`
yields, joined (`serialize()`), or the exception raised on the way. -/
structure BoxObj where
  size : Nat
  iter : Py Bytes
  deriving DecidableEq

/-- boxes.py 114-115 `b''.join(self)`: the first exception ends it. -/
def joinPy : List (Py Bytes) → Py Bytes
  | [] => .ok []
  | .error e :: _ => .error e
  | .ok b :: l =>
    match joinPy l with
    | .error e => .error e
    | .ok r => .ok (b ++ r)

/-- boxes.py 46-49 `serialize_name`: `struct` format `4s` cuts after four bytes and fills up
with zeros. -/
def serializeName (x : Bytes) : Bytes := x.take 4 ++ List.replicate (4 - x.length) 0

/-- boxes.py 58-61 `serialize_bytes`. -/
def serializeBytes (x : Int) (n : Nat) : Bytes := (List.replicate n (serializeU8 x)).flatten

/-- A yielded `serialize_u32(x)`. -/
def y32 (x : Int) : Py Bytes := .ok (serializeU32 x)
/-- A yielded `serialize_u16(x)`. -/
def y16 (x : Int) : Py Bytes := serializeU16 x
/-- A yielded `serialize_u8(x)`. -/
def y8 (x : Int) : Py Bytes := .ok (serializeU8 x)

/-- The first two yields of every `__iter__`, `serialize_u32(self.size())` and
`serialize_name(…)`, and the rest. -/
def boxObj (size : Nat) (name : Bytes) (rest : List (Py Bytes)) : BoxObj :=
  ⟨size, joinPy (.ok (serializeU32 size) :: .ok (serializeName name) :: rest)⟩

/-- boxes.py 118-128 `BoxSequence`. -/
def boxSequence (boxes : List BoxObj) : BoxObj :=
  ⟨(boxes.map BoxObj.size).sum, joinPy (boxes.map BoxObj.iter)⟩

/-- boxes.py 131-148 `BoxContainer` with the boxes added to it. -/
def boxContainer (name : Bytes) (boxes : List BoxObj) : BoxObj :=
  boxObj (8 + (boxes.map BoxObj.size).sum) name (boxes.map BoxObj.iter)

/-- boxes.py 151-170 `FTYPBox`. -/
def ftypObj (major : Bytes) (minor : Int) (brands : List Bytes) (styp : Bool) : BoxObj :=
  boxObj (16 + 4 * brands.length) (if styp then [115, 116, 121, 112] else [102, 116, 121, 112])
    (.ok (serializeName major) :: y32 minor :: brands.map (fun b => .ok (serializeName b)))

/-- boxes.py 182-225 `MVHDBox`. -/
def mvhdObj (timescale duration nextTrack : Int) : BoxObj :=
  boxObj 108 [109, 118, 104, 100]
    [y32 0, y32 0, y32 0, y32 timescale, y32 duration,
     y32 0x00010000, y16 0x0100, y16 0, y32 0, y32 0,
     y32 0x00010000, y32 0, y32 0, y32 0, y32 0x00010000, y32 0, y32 0, y32 0, y32 0x40000000,
     y32 0, y32 0, y32 0, y32 0, y32 0, y32 0, y32 nextTrack]

/-- boxes.py 276-294 `TREXBox`. -/
def trexObj (track : Int) : BoxObj :=
  boxObj 32 [116, 114, 101, 120] [y32 0, y32 track, y32 1, y32 0, y32 0, y32 0]

/-- boxes.py 297-341 `TKHDBox`. -/
def tkhdObj (track duration volume width height : Int) : BoxObj :=
  boxObj 92 [116, 107, 104, 100]
    [y32 7, y32 0, y32 0, y32 track, y32 0, y32 duration,
     serializeU64 0, y16 0, y16 0, y16 volume, y16 0,
     y32 0x00010000, y32 0, y32 0, y32 0, y32 0x00010000, y32 0, y32 0, y32 0, y32 0x40000000,
     y32 (width * 2 ^ 16), y32 (height * 2 ^ 16)]

/-- boxes.py 355-360 `make_bits_from_lang_char`. -/
def langBits (c : Char) : Py Int :=
  let bits := ((c.toNat : Int) - 0x60) % 32
  if bits + 0x60 ≠ c.toNat then .error .valueError else .ok bits

/-- boxes.py 372-381: the language code, "und" after a `ValueError`. -/
def langCode (lang : Text) : Int :=
  match (do
    match lang with
    | [a, b, c] =>
      let x ← langBits a
      let y ← langBits b
      let z ← langBits c
      return x * 2 ^ 10 + y * 2 ^ 5 + z
    | _ => Except.error PyErr.valueError : Py Int) with
  | .ok v => v
  | .error _ => 0x55c4

/-- boxes.py 344-387 `MDHDBox`. -/
def mdhdObj (timescale duration : Int) (lang : Text) : BoxObj :=
  boxObj 32 [109, 100, 104, 100]
    [y32 0, y32 0, y32 0, y32 timescale, y32 duration, y16 (langCode lang), y16 0]

/-- boxes.py 390-411 `HDLRBox`. -/
def hdlrObj (ty name : Bytes) : BoxObj :=
  boxObj (33 + name.length) [104, 100, 108, 114]
    [y32 0, y32 0, .ok ty, y32 0, y32 0, y32 0, .ok name, y8 0]

/-- boxes.py 414-421 `URLBox`. -/
def urlObj : BoxObj := boxObj 12 [117, 114, 108, 32] [y32 1]

/-- boxes.py 424-441 `DREFBox`. -/
def drefObj : BoxObj := boxObj (16 + urlObj.size) [100, 114, 101, 102] [y32 0, y32 1, urlObj.iter]

/-- boxes.py 444-461 `VMHDBox`. -/
def vmhdObj : BoxObj :=
  boxObj 20 [118, 109, 104, 100] [y32 0, y16 0, y8 0, y8 0, y8 0, y8 0, y8 0, y8 0]

/-- boxes.py 464-476 `SMHDBox`. -/
def smhdObj : BoxObj := boxObj 16 [115, 109, 104, 100] [y32 0, y16 0, y16 0]

/-- boxes.py 479-489 `NMHDBox`. -/
def nmhdObj : BoxObj := boxObj 12 [110, 109, 104, 100] [y32 0]

/-- boxes.py 492-530 `VisualSampleEntry`; the `pasp` argument is not written. -/
def visualObj (coding : Bytes) (width height : Int) (config : BoxObj) : BoxObj :=
  boxObj (86 + config.size) coding
    [.ok (serializeBytes 0 6), y16 1, y16 0, y16 0, .ok (serializeBytes 0 12),
     y16 width, y16 height, y32 0x00480000, y32 0x00480000,
     .ok (serializeBytes 0 4), y16 1, .ok (serializeBytes 0 32), y16 0x18, y16 0xffff, config.iter]

/-- boxes.py 533-561 `AudioSampleEntry`; `esds` is a byte string. -/
def audioObj (coding : Bytes) (channels sampleSize sampleRate : Int) (esds : Bytes) : BoxObj :=
  boxObj (36 + esds.length) coding
    [.ok (serializeBytes 0 6), y16 1, .ok (serializeBytes 0 8), y16 channels, y16 sampleSize,
     y16 0, y16 0, y32 (sampleRate * 2 ^ 16), .ok esds]

/-- boxes.py 583-596 `WVTTConfigBox`, its text encoded. -/
def vttConfigObj (text : Bytes) : BoxObj := boxObj (8 + text.length) [118, 116, 116, 67] [.ok text]

/-- boxes.py 564-580 `WVTTSampleEntryBox`; the configuration text is "WEBVTT". -/
def wvttObj : BoxObj :=
  let config := vttConfigObj [87, 69, 66, 86, 84, 84]
  boxObj (16 + config.size) [119, 118, 116, 116] [.ok (List.replicate 6 0), y16 1, config.iter]

/-- boxes.py 606-614 `VTTEBox`. -/
def vtteObj : BoxObj := boxObj 8 [118, 116, 116, 101] []

/-- boxes.py 617-629 `PAYLBox`, its text encoded. -/
def paylObj (text : Bytes) : BoxObj := boxObj (8 + text.length) [112, 97, 121, 108] [.ok text]

/-- boxes.py 632-653 `STSDBox` with the boxes added to it. -/
def stsdObj (boxes : List BoxObj) : BoxObj :=
  boxObj (16 + (boxes.map BoxObj.size).sum) [115, 116, 115, 100]
    (y32 0 :: y32 boxes.length :: boxes.map BoxObj.iter)

/-- boxes.py 656-689 `AVCCBox`. -/
def avccObj (profile compat level : Int) (sps pps : Bytes) : BoxObj :=
  boxObj (19 + sps.length + pps.length) [97, 118, 99, 67]
    [y8 1, y8 profile, y8 compat, y8 level, y8 0xff, y8 0xe1,
     y16 sps.length, .ok sps, y8 1, y16 pps.length, .ok pps]

/-- boxes.py 692-765 `HVCCBox`.  The module never imports `bitwriter` (line 706), so the third
step of `__iter__` raises `NameError`; the code after it is not modelled. -/
def hvccObj (vps sps pps : Bytes) : BoxObj :=
  boxObj (46 + vps.length + sps.length + pps.length) [104, 118, 99, 67] [.error .unbound]

/-- boxes.py 768-813 `ESDSBox`. -/
def esdsObj (config : Bytes) : BoxObj :=
  boxObj (37 + config.length) [101, 115, 100, 115]
    [y32 0, y8 3, y8 (23 + config.length), y16 1, y8 0,
     y8 4, y8 (15 + config.length), y8 0x40, y8 0x15, y8 0, y8 0, y8 0, y32 0, y32 0,
     y8 5, y8 config.length, .ok config, y8 6, y8 1, y8 2]

/-- boxes.py 816-828 `PASPBox`. -/
def paspObj : BoxObj := boxObj 16 [112, 97, 115, 112] [y32 1, y32 1]

/-- boxes.py 831-842 `STTSBox`. -/
def sttsObj : BoxObj := boxObj 16 [115, 116, 116, 115] [y32 0, y32 0]

/-- boxes.py 845-856 `STSCBox`. -/
def stscObj : BoxObj := boxObj 16 [115, 116, 115, 99] [y32 0, y32 0]

/-- boxes.py 859-871 `STSZBox`. -/
def stszObj : BoxObj := boxObj 20 [115, 116, 115, 122] [y32 0, y32 0, y32 0]

/-- boxes.py 874-885 `STCOBox`. -/
def stcoObj : BoxObj := boxObj 16 [115, 116, 99, 111] [y32 0, y32 0]

/-- boxes.py 904-920 `TFHDBox`. -/
def tfhdObj (track : Int) : BoxObj := boxObj 16 [116, 102, 104, 100] [y32 0x20000, y32 track]

/-- boxes.py 923-940 `TFDTBox`. -/
def tfdtObj (t : Int) : BoxObj := boxObj 20 [116, 102, 100, 116] [y32 0x01000000, serializeU64 t]

/-- boxes.py 943-998 `TRUNBox` with the samples added to it and its data offset. -/
def trunObj (samples : List Sample) (dataOffset : Int) : BoxObj :=
  boxObj (trunSize samples) [116, 114, 117, 110]
    (y32 (if useComp samples then 0xf01 else 0x701) :: y32 samples.length :: y32 dataOffset ::
      samples.map (fun s => .ok (trunEntry (useComp samples) s)))

/-- boxes.py 1001-1015 `MFHDBox`. -/
def mfhdObj (seq : Int) : BoxObj := boxObj 16 [109, 102, 104, 100] [y32 0, y32 seq]

/-- boxes.py 1018-1036 `MDATBox` with the data added to it. -/
def mdatObj (data : List Bytes) : BoxObj :=
  boxObj (8 + (data.map List.length).sum) [109, 100, 97, 116] (data.map .ok)

/-- boxes.py 1039-1063 `SAIZBox` with the sample sizes added to it. -/
def saizObj (default : Int) (samples : List Int) : BoxObj :=
  boxObj (17 + samples.length) [115, 97, 105, 122]
    (y32 0 :: y8 (if samples = [] then default else 0) :: y32 samples.length :: samples.map y8)

/-- boxes.py 1066-1081 `SAIOBox`. -/
def saioObj (offset : Int) : BoxObj :=
  boxObj 20 [115, 97, 105, 111] [y32 0, y32 1, y32 offset]

/-- boxes.py 1084-1107 `SBGPBox` with the groups added to it. -/
def sbgpObj (groups : List (Int × Int)) : BoxObj :=
  boxObj (16 + 8 * groups.length) [115, 98, 103, 112]
    (y32 0 :: y32 groups.length :: groups.flatMap (fun g => [y32 g.1, y32 g.2]))

/-- boxes.py 73 `SGPDGroup`. -/
structure SgpdGroup where
  encrypted : Bool
  ivSize : Int
  kid : Bytes

/-- boxes.py 1110-1138 `SGPDBox` with the groups added to it. -/
def sgpdObj (grouping : Int) (groups : List SgpdGroup) : BoxObj :=
  boxObj (20 + 20 * groups.length) [115, 103, 112, 100]
    (y32 0 :: y32 grouping :: y32 groups.length ::
      groups.flatMap (fun g => [y8 0, y8 0, y8 (if g.encrypted then 1 else 0), y8 g.ivSize, .ok g.kid]))

/-- boxes.py 76-79 `SENCSample` and its `SENCSubsample`s (clear and encrypted bytes).  A sample
without subsamples has the empty list here. -/
structure SencSample where
  iv : Int
  subsamples : List (Int × Int)
  deriving DecidableEq

/-- boxes.py 1144-1154, the fields of a `SENCBox`. -/
structure SencBox where
  ivSize : Nat
  flags : Int := 0
  samples : List SencSample := []
  sz : Nat := 16

/-- boxes.py 1156-1163 `SENCBox.add_sample`. -/
def SencBox.addSample (b : SencBox) (s : SencSample) : SencBox :=
  let b' := { b with samples := b.samples ++ [s], sz := b.sz + b.ivSize }
  if s.subsamples = [] then b'
  else { b' with flags := 2, sz := b'.sz + (2 + s.subsamples.length * 6) }

/-- boxes.py 1171-1178: one sample of a `senc`. -/
def sencEntry (flags : Int) (s : SencSample) : List (Py Bytes) :=
  serializeU64 s.iv ::
    (if flags = 2 then
      y16 s.subsamples.length :: s.subsamples.flatMap (fun u => [y16 u.1, y32 u.2])
     else [])

/-- boxes.py 1141-1181 `SENCBox`. -/
def SencBox.obj (b : SencBox) : BoxObj :=
  boxObj b.sz [115, 101, 110, 99]
    (y32 b.flags :: y32 b.samples.length :: b.samples.flatMap (sencEntry b.flags))

/-- A `SENCBox` with the samples added to it. -/
def sencObj (ivSize : Nat) (samples : List SencSample) : BoxObj :=
  (samples.foldl SencBox.addSample { ivSize := ivSize }).obj

/-- boxes.py 81-86 `SIDXReference`. -/
structure SidxRef where
  type : Int := 0
  size : Int
  duration : Int
  startsWithSap : Int := 1
  sapType : Int := 1
  sapDelta : Int := 0

/-- boxes.py 1184-1235 `SIDXBox` with the references added to it; `first_offset` is 0. -/
def sidxObj (refId timescale earliest : Int) (version : Nat) (refs : List SidxRef) : BoxObj :=
  boxObj (32 + 8 * version + 12 * refs.length) [115, 105, 100, 120]
    ([y8 version, y16 0, y8 0, y32 refId, y32 timescale] ++
     (if version = 0 then [y32 earliest, y32 0] else [serializeU64 earliest, serializeU64 0]) ++
     [y16 0, y16 refs.length] ++
     refs.flatMap (fun r =>
       [y32 (r.type * 2 ^ 31 + r.size), y32 r.duration,
        y32 (r.startsWithSap * 2 ^ 31 + r.sapType * 2 ^ 28 + r.sapDelta)]))

/-- boxes.py 1238-1244 `create_empty_sidx`. -/
def createEmptySidx (track timescale : Int) (n : Nat) : BoxObj :=
  sidxObj track timescale 0 1 (List.replicate n ⟨0, 0, 0, 1, 1, 0⟩)

/-- boxes.py 1247-1268 `create_stsd_h264`, `create_stsd_hevc`. -/
def createStsdVideo (coding : Bytes) (width height : Int) (config : BoxObj) : BoxObj :=
  stsdObj [visualObj coding width height config]

/-- boxes.py 1271-1305 `create_stsd_mp4a`, `create_stsd_ac3`. -/
def createStsdAudio (coding : Bytes) (channels sampleSize sampleRate : Int) (esds : Bytes) : BoxObj :=
  stsdObj [audioObj coding channels sampleSize sampleRate esds]

/-- boxes.py 1308-1313 `create_stsd_mp4s`. -/
def createStsdText : BoxObj := stsdObj [wvttObj]

/-- boxes.py 1316-1337 `create_minf_box`. -/
def createMinf (stsd mediaHeader : BoxObj) : BoxObj :=
  boxContainer [109, 105, 110, 102]
    [mediaHeader, boxContainer [100, 105, 110, 102] [drefObj],
     boxContainer [115, 116, 98, 108] [stsd, sttsObj, stscObj, stszObj, stcoObj]]

/-- boxes.py 1340-1362 `create_box_mdia`. -/
def createMdia (mediaType handler : Bytes) (timescale duration : Int) (lang : Text)
    (stsd mediaHeader : BoxObj) : BoxObj :=
  boxContainer [109, 100, 105, 97]
    [mdhdObj timescale duration lang, hdlrObj mediaType handler, createMinf stsd mediaHeader]

/-- boxes.py 12 `MOVIE_TIMESCALE`. -/
def movieTimescale : Nat := 90000

/-- boxes.py 1367-1369, 1640-1641 and alike: `int(duration * MOVIE_TIMESCALE / timescale)`.  The code
divides in floating point; the result is the one here as long as the product is below `2^53`. -/
def movieDuration (duration timescale : Nat) : Py Nat :=
  if timescale = 0 then .error .zeroDivision else .ok (duration * movieTimescale / timescale)

/-- boxes.py 1540-1545 `MediaInfo`. -/
structure TrackInfo where
  track : Nat
  timescale : Nat
  duration : Nat

/-- boxes.py 1365-1401 and alike, the track box: header and media. -/
def createTrak (info : TrackInfo) (volume width height : Int) (mdia : BoxObj) : Py BoxObj :=
  match movieDuration info.duration info.timescale with
  | .error e => .error e
  | .ok d => .ok (boxContainer [116, 114, 97, 107] [tkhdObj info.track d volume width height, mdia])

/-- boxes.py 1548-1561 `H264Info`. -/
structure H264Info extends TrackInfo where
  width : Nat
  height : Nat
  profile : Nat
  compat : Nat
  level : Nat
  sps : Bytes
  pps : Bytes

/-- "Edgeware Video Media Handler" (boxes.py 1393). -/
def videoHandlerName : Bytes :=
  [69, 100, 103, 101, 119, 97, 114, 101, 32, 86, 105, 100, 101, 111, 32, 77, 101, 100, 105, 97, 32,
   72, 97, 110, 100, 108, 101, 114]

/-- "Edgeware Audio Media Handler" (boxes.py 1463). -/
def audioHandlerName : Bytes :=
  [69, 100, 103, 101, 119, 97, 114, 101, 32, 65, 117, 100, 105, 111, 32, 77, 101, 100, 105, 97, 32,
   72, 97, 110, 100, 108, 101, 114]

/-- "Edgeware Subtitle Media Handler" (boxes.py 1529). -/
def textHandlerName : Bytes :=
  [69, 100, 103, 101, 119, 97, 114, 101, 32, 83, 117, 98, 116, 105, 116, 108, 101, 32, 77, 101, 100,
   105, 97, 32, 72, 97, 110, 100, 108, 101, 114]

/-- boxes.py 1365-1401 `create_box_trak_h264`. -/
def createTrakH264 (i : H264Info) : Py BoxObj :=
  createTrak i.toTrackInfo 0 i.width i.height
    (createMdia [118, 105, 100, 101] videoHandlerName i.timescale i.duration ['u', 'n', 'd']
      (createStsdVideo [97, 118, 99, 49] i.width i.height
        (avccObj i.profile i.compat i.level i.sps i.pps)) vmhdObj)

/-- boxes.py 1583-1595 `HEVCInfo`, without `hvcc_data` (never read, see `hvccObj`). -/
structure HevcInfo extends TrackInfo where
  width : Nat
  height : Nat
  vps : Bytes
  sps : Bytes
  pps : Bytes

/-- boxes.py 1404-1439 `create_box_trak_hevc`. -/
def createTrakHevc (i : HevcInfo) : Py BoxObj :=
  createTrak i.toTrackInfo 0 i.width i.height
    (createMdia [118, 105, 100, 101] videoHandlerName i.timescale i.duration ['u', 'n', 'd']
      (createStsdVideo [104, 101, 118, 49] i.width i.height (hvccObj i.vps i.sps i.pps)) vmhdObj)

/-- boxes.py 1598-1609 `MP4AInfo` (without `dec_cfg`, never read) and 1619-1632 `AC3Info` (whose
`specific_box` is `esds` here). -/
structure AudioInfo extends TrackInfo where
  channels : Nat
  sampleSize : Nat
  sampleRate : Nat
  esds : Bytes
  lang : Text

/-- boxes.py 1442-1471 `create_box_trak_mp4a`, and 1474-1510 `create_box_trak_ac3` after the
choice of `coding`. -/
def createTrakAudio (coding : Bytes) (i : AudioInfo) : Py BoxObj :=
  createTrak i.toTrackInfo 0x100 0 0
    (createMdia [115, 111, 117, 110] audioHandlerName i.timescale i.duration i.lang
      (createStsdAudio coding i.channels i.sampleSize i.sampleRate i.esds) smhdObj)

/-- boxes.py 1483-1488: the sample entry name of an AC-3 codec. -/
def ac3Coding (codec : Text) : Py Bytes :=
  if codec = ['a', 'c', '-', '3'] then .ok [97, 99, 45, 51]
  else if codec = ['e', 'c', '-', '3'] ∨ codec = ['e', 'c', '+', '3'] then .ok [101, 99, 45, 51]
  else .error .valueError

/-- boxes.py 1612-1616 `MP4SInfo`. -/
structure TextInfo extends TrackInfo where
  lang : Text

/-- boxes.py 1513-1537 `create_box_trak_mp4s`. -/
def createTrakText (i : TextInfo) : Py BoxObj :=
  createTrak i.toTrackInfo 0 0 0
    (createMdia [116, 101, 120, 116] textHandlerName i.timescale i.duration i.lang
      createStsdText nmhdObj)

/-- boxes.py 1638-1643 and alike: the movie header, `mvhd`. -/
def createMvhd (i : TrackInfo) : Py BoxObj :=
  match movieDuration i.duration i.timescale with
  | .error e => .error e
  | .ok d => .ok (mvhdObj movieTimescale d (i.track + 1 : Nat))

/-- boxes.py 1635-1678 `create_moov_h264`, `create_moov_hevc`: `mvhd`, `trak`,
`mvex`. -/
def createMoovVideo (i : TrackInfo) (trak : Py BoxObj) : Py BoxObj := do
  let mvhd ← createMvhd i
  let trak ← trak
  return boxContainer [109, 111, 111, 118]
    [mvhd, trak, boxContainer [109, 118, 101, 120] [trexObj i.track]]

/-- boxes.py 1681-1751 `create_moov_mp4a`, `create_moov_ac3`, `create_moov_mp4s`: `mvhd`,
`mvex`, `trak`. -/
def createMoovOther (i : TrackInfo) (trak : Py BoxObj) : Py BoxObj := do
  let mvhd ← createMvhd i
  let trak ← trak
  return boxContainer [109, 111, 111, 118]
    [mvhd, boxContainer [109, 118, 101, 120] [trexObj i.track], trak]

/-- boxes.py 1635-1655 `create_moov_h264`. -/
def createMoovH264 (i : H264Info) : Py BoxObj := createMoovVideo i.toTrackInfo (createTrakH264 i)

/-- boxes.py 1658-1678 `create_moov_hevc`. -/
def createMoovHevc (i : HevcInfo) : Py BoxObj := createMoovVideo i.toTrackInfo (createTrakHevc i)

/-- boxes.py 1681-1701 `create_moov_mp4a`. -/
def createMoovMp4a (i : AudioInfo) : Py BoxObj :=
  createMoovOther i.toTrackInfo (createTrakAudio [109, 112, 52, 97] i)

/-- boxes.py 1704-1724 `create_moov_ac3`. -/
def createMoovAc3 (codec : Text) (i : AudioInfo) : Py BoxObj :=
  createMoovOther i.toTrackInfo (do
    let coding ← ac3Coding codec
    createTrakAudio coding i)

/-- boxes.py 1727-1751 `create_moov_mp4s`. -/
def createMoovText (i : TextInfo) : Py BoxObj := createMoovOther i.toTrackInfo (createTrakText i)

/-- boxes.py 1754-1806 `create_moof`, with or without the auxiliary data that
`encryptor.encrypt(samples)` returned (the encryptor itself is not part of the repository).  In
the code `saio` is made from the size of the boxes added before it and the data offset of `trun`
is set afterwards; sizes do not depend on it. -/
def createMoofObj (seq track : Int) (samples : List Sample) (aux : Option (List SencSample)) :
    Py BoxObj :=
  match samples with
  | [] => .error .indexError
  | s :: _ =>
    let before := [tfhdObj track, tfdtObj s.time]
    let extra := match aux with
      | none => []
      | some l =>
        let saiz := saizObj 8 []
        let moof := boxContainer [109, 111, 111, 102]
          [mfhdObj seq, boxContainer [116, 114, 97, 102] (before ++ [saiz])]
        [saiz, saioObj (moof.size + 16 + 20), sencObj 8 l]
    let moof := fun (off : Int) => boxContainer [109, 111, 111, 102]
      [mfhdObj seq, boxContainer [116, 114, 97, 102] (before ++ extra ++ [trunObj samples off])]
    .ok (moof ((moof 0).size + 8))

/-- boxes.py 1809-1813 `create_mdat`. -/
def createMdatObj (samples : List Sample) : BoxObj := mdatObj (samples.map Sample.data)

/-- boxes.py 1816-1818 `create_ftyp`. -/
def createFtyp : BoxObj :=
  ftypObj [99, 109, 102, 99] 0 [[105, 115, 111, 57], [100, 97, 115, 104]] false

/-- boxes.py 1821-1823 `create_styp`. -/
def createStyp : BoxObj :=
  ftypObj [99, 109, 102, 115] 0 [[105, 115, 111, 57], [100, 97, 115, 104]] true

end Verif
