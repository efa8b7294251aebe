import Verif.Mp4Parser
import Verif.Boxes
/-
Model of dashlib/chunker.py and of the boxes it writes (dashlib/boxes.py).
-/
namespace Verif

/-- boxes.py 89-101 `Sample`.  `sync` is the truth value of the `sync` argument, all that
`TRUNBox` looks at. -/
structure Sample where
  data : Bytes
  time : Nat
  duration : Nat
  sync : Bool
  offset : Int
  deriving DecidableEq

/-- chunker.py 69-80, the loop of `partition`: `d0`, `d1` and `part` as in the code. -/
def partLoop (dur : Int) : List Sample → Int → Int → List Sample → List (List Sample)
  | [], _, _, part => if part = [] then [] else [part]
  | s :: rest, d0, d1, part =>
    if d1 ≤ d0 then part :: partLoop dur rest (d0 + s.duration) (d1 + dur) [s]
    else partLoop dur rest (d0 + s.duration) d1 (part ++ [s])

/-- chunker.py 69-80 `partition`. -/
def partition (samples : List Sample) (dur : Int) : List (List Sample) :=
  partLoop dur samples 0 dur []

/-- The defaults of the track (initsegmentfilter.py 67-73, the `trex` argument). -/
structure Trex where
  dur : Nat
  size : Nat
  flags : Nat

/-- Python slice `data[i:]` for an int `i` of any sign. -/
def sliceFrom (data : Bytes) (i : Int) : Bytes :=
  if 0 ≤ i then data.drop i.toNat else data.drop (data.length - (-i).toNat)

/-- chunker.py 58-66, the loop of `decode_fragment`: `n` entries are left, the next one is at
`pos`, the sample starts at decode time `t` and `begin` bytes into `media`.  A sample whose
flags stand in the run gets the text `0x…` as `sync`, which is always true; otherwise it gets
the default flags, true when they are not 0. -/
def decodeRows (fmap : Bytes) (tfhd : TfhdFields) (trun : TrunFields) (trex : Trex) (media : Bytes) :
    Nat → Nat → Nat → Nat → Py (List Sample)
  | 0, _, _, _ => .ok []
  | n + 1, pos, t, start =>
    match sampleEntry fmap trun.flags pos with
    | .error e => .error e
    | .ok en =>
      let dur := en.dur.getD (tfhd.dur.getD trex.dur)
      let size := en.size.getD (tfhd.size.getD trex.size)
      let sync := match en.flags with
        | some _ => true
        | none => decide (tfhd.flags.getD trex.flags ≠ 0)
      match decodeRows fmap tfhd trun trex media n (pos + trun.rowSize) (t + dur) (start + size) with
      | .error e => .error e
      | .ok rest =>
        .ok (⟨slice media start (start + size), t, dur, sync, en.offset.getD 0⟩ :: rest)

/-- The three boxes `decode_fragment` uses (chunker.py 41-44): inside the first moof of the
file, the first ones in a traf. -/
def fragmentBoxes (root : BoxTree) : Py (Found × Found × Found × Found) := do
  let moof ← needBox (root.find [[109, 111, 111, 102]])
  let tfhd ← needBox (moof.kids.find [[116, 114, 97, 102], [116, 102, 104, 100]])
  let tfdt ← needBox (moof.kids.find [[116, 114, 97, 102], [116, 102, 100, 116]])
  let trun ← needBox (moof.kids.find [[116, 114, 97, 102], [116, 114, 117, 110]])
  return (moof, tfhd, tfdt, trun)

/-- chunker.py 38-66 `decode_fragment`.  The code is a generator; here all samples are decoded
before the first is used, which only changes which of two exceptions comes first. -/
def decodeFragment (data : Bytes) (trex : Trex) : Py (List Sample) := do
  let root ← parseFile data
  let (moof, tfhd, tfdt, trun) ← fragmentBoxes root
  let hd ← readTfhd data tfhd.offset
  let t ← readTfdt data tfdt.offset tfdt.size
  let run ← readTrun data trun.offset
  let media := sliceFrom data ((hd.base.getD moof.offset : Nat) + run.dataOffset)
  decodeRows data hd run trex media run.count run.rows t 0

/-- boxes.py 143-148 `BoxContainer.__iter__`: size, name, content (sizes of the content are
exact, so the container size is 8 plus the length of the serialised content). -/
def container (ty content : Bytes) : Bytes := serializeU32 (8 + content.length : Nat) ++ ty ++ content

/-- boxes.py 1001-1015 `MFHDBox`. -/
def mfhdBox (seq : Int) : Bytes :=
  serializeU32 16 ++ [109, 102, 104, 100] ++ serializeU32 0 ++ serializeU32 seq

/-- boxes.py 904-920 `TFHDBox`. -/
def tfhdBox (track : Int) : Bytes :=
  serializeU32 16 ++ [116, 102, 104, 100] ++ serializeU32 0x20000 ++ serializeU32 track

/-- boxes.py 923-940 `TFDTBox`. -/
def tfdtBox (t : Int) : Py Bytes :=
  match serializeU64 t with
  | .error e => .error e
  | .ok b => .ok (serializeU32 20 ++ [116, 102, 100, 116] ++ serializeU32 0x01000000 ++ b)

/-- boxes.py 978-995: one sample in a run. -/
def trunEntry (comp : Bool) (s : Sample) : Bytes :=
  serializeU32 s.duration ++ serializeU32 s.data.length ++
    serializeU32 (if s.sync then 0x02000000 else 0x01010000) ++
    (if comp then serializeU32 s.offset else [])

/-- boxes.py 952-955 `use_comp_off`: some sample has a composition offset. -/
def useComp (samples : List Sample) : Bool := samples.any (fun s => decide (s.offset ≠ 0))

/-- boxes.py 997-998 `TRUNBox.size`. -/
def trunSize (samples : List Sample) : Nat :=
  20 + samples.length * (12 + if useComp samples then 4 else 0)

/-- boxes.py 943-998 `TRUNBox`. -/
def trunBox (samples : List Sample) (dataOffset : Int) : Bytes :=
  serializeU32 (trunSize samples) ++ [116, 114, 117, 110] ++
    serializeU32 (if useComp samples then 0xf01 else 0x701) ++
    serializeU32 samples.length ++ serializeU32 dataOffset ++
    samples.flatMap (trunEntry (useComp samples))

/-- boxes.py 1754-1806 `create_moof` without encryption, serialised.  No samples: `samples[0]`
raises.  Its size: 8 for moof, 16 mfhd, 8 traf, 16 tfhd, 20 tfdt, the run. -/
def createMoof (seq track : Int) (samples : List Sample) : Py Bytes :=
  match samples with
  | [] => .error .indexError
  | s :: _ =>
    match tfdtBox s.time with
    | .error e => .error e
    | .ok tfdt =>
      .ok (container [109, 111, 111, 102] (mfhdBox seq ++
        container [116, 114, 97, 102] (tfhdBox track ++ tfdt ++
          trunBox samples ((8 + 16 + 8 + 16 + 20 + trunSize samples : Nat) + 8))))

/-- boxes.py 1809-1813 `create_mdat`, serialised. -/
def createMdat (samples : List Sample) : Bytes :=
  container [109, 100, 97, 116] (samples.flatMap Sample.data)

/-- chunker.py 83-85 and 103: one chunk. -/
def encodeChunk (seq track : Int) (samples : List Sample) : Py Bytes :=
  match createMoof seq track samples with
  | .error e => .error e
  | .ok moof => .ok (moof ++ createMdat samples)

/-- chunker.py 83-85 and 97-103: all chunks. -/
def encodeChunks (seq track : Int) : List (List Sample) → Py (List Bytes)
  | [] => .ok []
  | p :: ps =>
    match encodeChunk seq track p with
    | .error e => .error e
    | .ok c =>
      match encodeChunks seq track ps with
      | .error e => .error e
      | .ok cs => .ok (c :: cs)

/-- chunker.py 88-104 `chunk`. -/
def chunk (data : Bytes) (dur : Int) (trex : Trex) : Py (List Bytes) := do
  let root ← parseFile data
  let mfhd ← needBox (root.find [[109, 111, 111, 102], [109, 102, 104, 100]])
  let tfhd ← needBox (root.find [[109, 111, 111, 102], [116, 114, 97, 102], [116, 102, 104, 100]])
  let seq ← u32At data (mfhd.offset + 12)
  let track ← u32At data (tfhd.offset + 12)
  let samples ← decodeFragment data trex
  encodeChunks seq track (partition samples dur)

end Verif
