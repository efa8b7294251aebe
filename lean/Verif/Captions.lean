import Verif.Mp4Filter
import Verif.MediaFilter
/-
Model of the caption inserter, cc_inserter/cc_inserter.py.
-/
namespace Verif

/-- An element of `scc_data` (cc_inserter.py 509-511): start time in seconds, and the words
`int(i, 16)` of `cea608`.  Simplification: times are exact numbers, not floats, and the words are
already read. -/
structure Caption where
  start : Rat
  words : List Nat

/-- cc_inserter.py 283-286 `chunks`. -/
def chunksOf (num : Nat) : Nat → List α → List (List α)
  | 0, _ => []
  | _ + 1, [] => []
  | f + 1, x :: l => (x :: l).take num :: chunksOf num f ((x :: l).drop num)

/-- cc_inserter.py 506-511 in `SCCParser.parse`: the captions of one line, 31 words each. -/
def lineCaptions (start : Rat) (words : List Nat) : List Caption :=
  (chunksOf 31 words.length words).map fun w => { start := start, words := w }

/-- cc_inserter.py 73-85: the three bytes of a word. -/
def wordBytes (field : Nat) (w : Nat) : Bytes :=
  [if field = 1 then 0xfc else 0xfd, UInt8.ofNat (w / 256), UInt8.ofNat w]

/-- cc_inserter.py 57-93, one round of `generate_data`: the NAL unit of a caption with its size
field.  `bytes` raises `ValueError` if an element is above 255. -/
def captionNal (field : Nat) (c : Caption) : Py Bytes :=
  let n := c.words.length
  if n ≠ 0 ∧ field ≠ 1 ∧ field ≠ 2 then .error .valueError
  else if 255 < 11 + n * 3 ∨ 255 < 0xc0 + n then .error .valueError
  else
    let nal : Bytes := [0x66, 0x04, UInt8.ofNat (11 + n * 3), 0xb5, 0x00, 0x31, 0x47, 0x41, 0x39, 0x34, 0x03,
      UInt8.ofNat (0xc0 + n), 0xff] ++ c.words.flatMap (wordBytes field) ++ [0xff, 0x80]
    .ok (beBytes 4 nal.length ++ nal)

/-- cc_inserter.py 51-93 `generate_data`. -/
def generateData (field : Nat) : List Caption → Py Bytes
  | [] => .ok []
  | c :: cs =>
    match captionNal field c with
    | .error e => .error e
    | .ok b =>
      match generateData field cs with
      | .error e => .error e
      | .ok bs => .ok (b ++ bs)

/-- cc_inserter.py 228-234 and 389-395 `get_scc_data`. -/
def sccData (caps : List Caption) (start stop : Rat) : List Caption :=
  caps.filter fun c => decide (start ≤ c.start ∧ c.start < stop)

/-- The arguments of `CCInsertFilter.__init__` (cc_inserter.py 97-107). -/
structure CcCfg where
  caps : List Caption
  timescale : Nat
  tfdt : Nat
  field : Nat

/-- An element of `scc_map` (cc_inserter.py 172-175). -/
structure CcEntry where
  pos : Nat
  size : Nat
  nalu : Bytes
  deriving DecidableEq

/-- The attributes of the filter object that change. -/
structure CcState where
  trunOffset : Nat
  map : List CcEntry
  deriving DecidableEq

/-- `str_to_uint32(data[pos:pos+4])` with the new position, if the field is there (cc_inserter.py
141-152). -/
def ccField (present : Bool) (data : Bytes) (pos : Nat) : Py (Nat × Nat) :=
  if present then
    match strToUint32 (slice data pos (pos + 4)) with
    | .error e => .error e
    | .ok v => .ok (v, pos + 4)
  else .ok (0, pos)

/-- `uint32_to_str(v)` if the field is there (cc_inserter.py 177-184). -/
def ccWrite (present : Bool) (v : Nat) : Py Bytes :=
  if present then uint32ToStr (v : Int) else .ok []

/-- cc_inserter.py 166-176: the new size of a sample with captions `caps`, and its element of
`scc_map`. -/
def ccEntry (field : Nat) (caps : List Caption) (size orig : Nat) : Py (Nat × List CcEntry) :=
  if caps.length ≠ 0 then
    match generateData field caps with
    | .error e => .error e
    | .ok d => .ok (size + d.length, [⟨orig, size, d⟩])
  else .ok (size, [])

/-- cc_inserter.py 135-186, the loop over the samples: `n` samples left, position in the box, decode
time and position of the sample; the result is the rest of the output and the new elements of
`scc_map`.  `fl` are the flags of the box. -/
def ccSamples (c : CcCfg) (data : Bytes) (fl : Nat) : Nat → Nat → Nat → Nat → Py (Bytes × List CcEntry)
  | 0, _, _, _ => .ok ([], [])
  | n + 1, pos, time, orig =>
    match ccField (hasFlag fl 8) data pos with
    | .error e => .error e
    | .ok (duration, pos) =>
      match ccField (hasFlag fl 9) data pos with
      | .error e => .error e
      | .ok (size, pos) =>
        match ccField (hasFlag fl 10) data pos with
        | .error e => .error e
        | .ok (flags, pos) =>
          match ccField (hasFlag fl 11) data pos with
          | .error e => .error e
          | .ok (comp, pos) =>
            if c.timescale = 0 then .error .zeroDivision
            else
              let caps := sccData c.caps ((time : Rat) / c.timescale) (((time + duration : Nat) : Rat) / c.timescale)
              match ccEntry c.field caps size orig with
              | .error e => .error e
              | .ok (outSize, entry) =>
                match ccWrite (hasFlag fl 8) duration with
                | .error e => .error e
                | .ok o1 =>
                  match ccWrite (hasFlag fl 9) outSize with
                  | .error e => .error e
                  | .ok o2 =>
                    match ccWrite (hasFlag fl 10) flags with
                    | .error e => .error e
                    | .ok o3 =>
                      match ccWrite (hasFlag fl 11) comp with
                      | .error e => .error e
                      | .ok o4 =>
                        match ccSamples c data fl n pos (time + duration) (orig + size) with
                        | .error e => .error e
                        | .ok (out, entries) => .ok (o1 ++ o2 ++ o3 ++ o4 ++ out, entry ++ entries)

/-- cc_inserter.py 109-187 `process_trun`. -/
def ccTrun (c : CcCfg) (data : Bytes) (s : CcState) : Py (Bytes × CcState) :=
  match strToUint32 (slice data 8 12) with
  | .error e => .error e
  | .ok vf =>
    match strToUint32 (slice data 12 16) with
    | .error e => .error e
    | .ok count =>
      let fl := vf % 2 ^ 24
      match (if hasFlag fl 0 then
          match strToUint32 (slice data 16 20) with
          | .error e => .error e
          | .ok off =>
            match uint32ToStr (off : Int) with
            | .error e => .error e
            | .ok o => .ok (off, o, 20)
        else .ok (s.trunOffset, [], 16) : Py (Nat × Bytes × Nat)) with
      | .error e => .error e
      | .ok (off, o, pos) =>
        let pos := if hasFlag fl 2 then pos + 4 else pos
        match ccSamples c data fl count pos c.tfdt 0 with
        | .error e => .error e
        | .ok (out, entries) => .ok (data.take 16 ++ o ++ out, { trunOffset := off, map := s.map ++ entries })

/-- Python index of a slice end. -/
def pyIdx (len : Nat) (i : Int) : Nat := if i < 0 then (i + len).toNat else i.toNat

/-- Python slice `data[a:b]`, with negative ends counted from the end. -/
def sliceAt (data : Bytes) (a b : Int) : Bytes := slice data (pyIdx data.length a) (pyIdx data.length b)

/-- Python `data[i]`. -/
def pyByte (data : Bytes) (i : Int) : Py UInt8 :=
  if i < -(data.length : Int) then .error .indexError
  else
    match data[pyIdx data.length i]? with
    | none => .error .indexError
    | some b => .ok b

/-- cc_inserter.py 211-216: position of the first video NAL unit, or the end.  The loop is run with
fuel; every round advances by four bytes or more. -/
def findVideo (data : Bytes) : Nat → Int → Int → Py Int
  | 0, _, _ => .error .hang
  | f + 1, pos, stop =>
    if pos < stop then
      match strToUint32 (sliceAt data pos (pos + 4)) with
      | .error e => .error e
      | .ok size =>
        match pyByte data (pos + 4) with
        | .error e => .error e
        | .ok b => if b.toNat % 32 < 6 then .ok pos else findVideo data f (pos + size + 4) stop
    else .ok pos

/-- cc_inserter.py 202-223, the loop over `scc_map`: `offset` is how far the data is copied, `base`
is `data_offset`. -/
def insertLoop (data : Bytes) (base : Int) : List CcEntry → Int → Py (Bytes × Int)
  | [], offset => .ok ([], offset)
  | e :: rest, offset =>
    let sccPos := (e.pos : Int) + base
    let (o1, offset) := if offset < sccPos then (sliceAt data offset sccPos, sccPos) else ([], offset)
    let stop := offset + e.size
    match findVideo data (e.size + 1) offset stop with
    | .error e => .error e
    | .ok pos =>
      let (o2, offset) := if offset < pos then (sliceAt data offset pos, pos) else ([], offset)
      match insertLoop data base rest stop with
      | .error e => .error e
      | .ok (out, final) => .ok (o1 ++ o2 ++ e.nalu ++ sliceAt data offset stop ++ out, final)

/-- cc_inserter.py 189-226 `process_mdat`; `distance` is `self.mdat_start - self.moof_start`. -/
def ccMdat (s : CcState) (distance : Int) (data : Bytes) : Py Bytes :=
  let offset := (s.trunOffset : Int) - distance
  let newSize := data.length + (s.map.map fun e => e.nalu.length).sum
  match uint32ToStr (newSize : Int) with
  | .error e => .error e
  | .ok h =>
    match insertLoop data offset s.map offset with
    | .error e => .error e
    | .ok (out, final) =>
      .ok (h ++ sliceAt data 4 offset ++ out ++
        (if final < data.length then data.drop (pyIdx data.length final) else []))

/-- The methods `process_<type>` of `CCInsertFilter` below moof.  Simplification: a mdat box inside a
moof box is not modelled. -/
def ccLeaf (c : CcCfg) (ty : BoxType) (data : Bytes) (s : CcState) : Py (Bytes × CcState) :=
  if ty = [116, 114, 117, 110] then ccTrun c data s   -- trun
  else if utf8Valid ty then .ok (data, s) else .error .unicodeError

/-- cc_inserter.py 99-100. -/
def ccRules (c : CcCfg) : FilterRules CcState where
  top := [[115, 116, 121, 112], [115, 105, 100, 120], [109, 111, 111, 102], [109, 100, 97, 116]]
  composite := [[109, 111, 111, 102], [116, 114, 97, 102]]
  leaf := ccLeaf c

/-- mp4filter.py 71-88 with `moof_start` (96-100): `pos` is the length of the output so far.  Before
the first moof the attribute `moof_start` is missing (`AttributeError`, here `unbound`). -/
def ccTop (c : CcCfg) : Nat → Bytes → Nat → Option Nat → CcState → Py Bytes
  | _, [], _, _, _ => .ok []
  | 0, _ :: _, _, _, _ => .error .hang
  | n + 1, b :: rest, pos, moof, s =>
    match strToUint32 (((b :: rest).take 8).take 4) with
    | .error e => .error e
    | .ok size =>
      let ty := slice (b :: rest) 4 8
      let boxdata := (b :: rest).take size
      let moof' := if ty = [109, 111, 111, 102] then some pos else moof
      match (if ty = [109, 100, 97, 116] then
          match moof' with
          | none => .error .unbound
          | some m =>
            match ccMdat s ((pos : Int) - m) boxdata with
            | .error e => .error e
            | .ok o => .ok (o, s)
        else if ty ∈ (ccRules c).top then filterBox (ccRules c) n ty boxdata s
        else .ok (boxdata, s) : Py (Bytes × CcState)) with
      | .error e => .error e
      | .ok (box, s') =>
        match ccTop c n ((b :: rest).drop size) (pos + box.length) moof' s' with
        | .error e => .error e
        | .ok others => .ok (box ++ others)

/-- `CCInsertFilter(...).filter()`. -/
def ccFilter (c : CcCfg) (data : Bytes) : Py Bytes :=
  ccTop c (2 * data.length + 1) data 0 none { trunOffset := 0, map := [] }

end Verif
