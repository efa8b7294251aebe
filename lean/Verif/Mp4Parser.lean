import Verif.Mp4Filter
/-
Model of the box parser of dashlib/mp4.py, as far as the chunker uses it.
-/
namespace Verif

/-- mp4.py 51-76 `CONTAINER_BOXES`. -/
def containerBoxes : List BoxType :=
  ["root", "moov", "moof", "trak", "traf", "tfad", "mvex", "mdia", "minf", "dinf", "stbl", "mfra",
   "udta", "stsd", "sinf", "schi", "encv", "enca", "avc1", "hev1", "hvc1", "mp4a", "ac_3", "ec_3",
   "vttc"].map (fun s => s.toList.map (fun c => UInt8.ofNat c.toNat))

/-- Box objects (mp4.py 120-127): type, size, offset, children, and the boxes after it in the
same container. -/
inductive BoxTree where
  | nil
  | cons (ty : BoxType) (size offset : Nat) (kids rest : BoxTree)
  deriving DecidableEq

/-- mp4.py 237-241: `ac-3` and `ec-3` are renamed. -/
def normType (ty : BoxType) : BoxType :=
  if ty = [97, 99, 45, 51] then [97, 99, 95, 51]
  else if ty = [101, 99, 45, 51] then [101, 99, 95, 51]
  else ty

/-- mp4.py 234-245: size and type at a position, with the extended size. -/
def boxHead (fmap : Bytes) (pos : Nat) : Py (Nat × BoxType) :=
  match strToUint32 (slice fmap pos (pos + 4)) with
  | .error e => .error e
  | .ok size =>
    if (slice fmap (pos + 4) (pos + 8)).length ≠ 4 then .error .structError
    else if size = 1 then
      match strToUint64 (slice fmap (pos + 8) (pos + 16)) with
      | .error e => .error e
      | .ok big => .ok (big, normType (slice fmap (pos + 4) (pos + 8)))
    else .ok (size, normType (slice fmap (pos + 4) (pos + 8)))

/-- mp4.py 222-274 `parse_children` (with `recurse=True`, no stops): children from `next` up to
`stop` of a container of size `psize`.  Simplified: the fields of a box are read when they are
used, not when the box object is made, so a malformed box that nobody asks for raises in the
code but not here; every container has its children 8 bytes after its start (true for the
containers of media segments; `stsd` and sample entries differ).  `hang` marks missing fuel
(`parseKids_fuel`: never reached with the fuel of `parseFile`). -/
def parseKids (fmap : Bytes) : Nat → Nat → Nat → Nat → Py BoxTree
  | 0, _, _, _ => .error .hang
  | n + 1, psize, next, stop =>
    match boxHead fmap next with
    | .error e => .error e
    | .ok (size, ty) =>
      if psize < size ∨ size < 8 then .ok .nil
      else if utf8Valid ty = false then .error .unicodeError
      else
        match (if ty ∈ containerBoxes then parseKids fmap n size (next + 8) (next + size)
          else .ok .nil) with
        | .error e => .error e
        | .ok kids =>
          if stop ≤ next + size then .ok (.cons ty size next kids .nil)
          else
            match parseKids fmap n psize (next + size) stop with
            | .error e => .error e
            | .ok rest => .ok (.cons ty size next kids rest)

/-- mp4.py 311-330 `mp4(data)`: the children of the root. -/
def parseFile (fmap : Bytes) : Py BoxTree :=
  parseKids fmap (fmap.length + 1) fmap.length 0 fmap.length

/-- What `find` returns: a box with offset, size and children. -/
structure Found where
  offset : Nat
  size : Nat
  kids : BoxTree
  deriving DecidableEq

/-- mp4.py 172-220 `find` for a path of four-character types: depth first, the first match.
`None` stands for the empty list that the code returns; using a field of it raises
`AttributeError`.  (Unparsed containers are parsed on demand by the code; here everything is
already parsed.) -/
def BoxTree.find : BoxTree → List BoxType → Option Found
  | .nil, _ => none
  | .cons _ _ _ _ _, [] => none
  | .cons ty size offset kids rest, [t] =>
    if ty = t then some ⟨offset, size, kids⟩ else rest.find [t]
  | .cons ty _ _ kids rest, t :: u :: us =>
    if ty = t then
      match kids.find (u :: us) with
      | some x => some x
      | none => rest.find (t :: u :: us)
    else rest.find (t :: u :: us)

/-- A box that must be there (`[].field` raises `AttributeError`, listed as `typeError`). -/
def needBox (x : Option Found) : Py Found :=
  match x with
  | some b => .ok b
  | none => .error .typeError

/-- `struct.unpack('>I', fmap[pos:pos+4])[0]`. -/
def u32At (fmap : Bytes) (pos : Nat) : Py Nat := strToUint32 (slice fmap pos (pos + 4))

/-- `struct.unpack('>i', fmap[pos:pos+4])[0]`. -/
def i32At (fmap : Bytes) (pos : Nat) : Py Int := strToSint32 (slice fmap pos (pos + 4))

/-- `struct.unpack('>Q', fmap[pos:pos+8])[0]`. -/
def u64At (fmap : Bytes) (pos : Nat) : Py Nat := strToUint64 (slice fmap pos (pos + 8))

/-- mp4.py 293-296: version and flags of a full box at `pos`, as one number. -/
def versionFlags (fmap : Bytes) (pos : Nat) : Py Nat := u32At fmap (pos + 8)

/-- An optional 32-bit field: value and position after it. -/
def optU32 (fmap : Bytes) (present : Bool) (pos : Nat) : Py (Option Nat × Nat) :=
  if present then
    match u32At fmap pos with
    | .error e => .error e
    | .ok v => .ok (some v, pos + 4)
  else .ok (none, pos)

/-- An optional 64-bit field: value and position after it. -/
def optU64 (fmap : Bytes) (present : Bool) (pos : Nat) : Py (Option Nat × Nat) :=
  if present then
    match u64At fmap pos with
    | .error e => .error e
    | .ok v => .ok (some v, pos + 8)
  else .ok (none, pos)

/-- Whether bit `k` is set (`flags & (1 << k)`). -/
def flagBit (flags k : Nat) : Bool := Nat.testBit flags k

/-- The fields of `tfhd_box` (mp4.py 1184-1235). -/
structure TfhdFields where
  base : Option Nat
  dur : Option Nat
  size : Option Nat
  flags : Option Nat

/-- mp4.py 1184-1230 `tfhd_box.__init__`. -/
def readTfhd (fmap : Bytes) (offset : Nat) : Py TfhdFields := do
  let vf ← versionFlags fmap offset
  let (base, p1) ← optU64 fmap (flagBit (vf % 2 ^ 24) 0) (offset + 16)
  let (_, p2) ← optU32 fmap (flagBit (vf % 2 ^ 24) 1) p1
  let (dur, p3) ← optU32 fmap (flagBit (vf % 2 ^ 24) 3) p2
  let (size, p4) ← optU32 fmap (flagBit (vf % 2 ^ 24) 4) p3
  let (flags, _) ← optU32 fmap (flagBit (vf % 2 ^ 24) 5) p4
  return ⟨base, dur, size, flags⟩

/-- mp4.py 1906-1913 `tfdt_box`: `unpack_from` at the start of the content; any version other
than 0 has 64 bits.  Content of a box of size ≤ 12 makes the generator stop (`StopIteration`,
listed as `valueError`). -/
def readTfdt (fmap : Bytes) (offset size : Nat) : Py Nat := do
  let vf ← versionFlags fmap offset
  let content := slice fmap (offset + 12) (offset + size)
  if content = [] then .error .valueError
  else if vf / 2 ^ 24 = 0 then strToUint32 (content.take 4)
  else strToUint64 (content.take 8)

/-- mp4.py 1238-1273: the fields of `trun_box` that do not depend on the sample. -/
structure TrunFields where
  flags : Nat
  dataOffset : Int
  rows : Nat          -- position of the first sample entry
  rowSize : Nat
  count : Nat

/-- mp4.py 1238-1273 and 1362-1365.  Simplified: `total_duration` and `first_cto`
(1275-1292), not used by the chunker, are not computed. -/
def readTrun (fmap : Bytes) (offset : Nat) : Py TrunFields := do
  let vf ← versionFlags fmap offset
  let flags := vf % 2 ^ 24
  let dataOffset ← (if flagBit flags 0 then i32At fmap (offset + 16) else .ok 0 : Py Int)
  let p1 := if flagBit flags 0 then offset + 20 else offset + 16
  let (_, p2) ← optU32 fmap (flagBit flags 2) p1
  let count ← u32At fmap (offset + 12)
  let rowSize := (if flagBit flags 8 then 4 else 0) + (if flagBit flags 9 then 4 else 0) +
    (if flagBit flags 10 then 4 else 0) + (if flagBit flags 11 then 4 else 0)
  return ⟨flags, dataOffset, p2, rowSize, count⟩

/-- One run entry: duration, size, flags, composition offset, each if present. -/
structure Entry where
  dur : Option Nat
  size : Option Nat
  flags : Option Nat
  offset : Option Int

/-- mp4.py 1367-1389 `sample_entry`; `pos` is the position of the entry.  The code returns the
flags as the text `0x…`; here they stay a number. -/
def sampleEntry (fmap : Bytes) (flags pos : Nat) : Py Entry := do
  let (dur, p1) ← optU32 fmap (flagBit flags 8) pos
  let (size, p2) ← optU32 fmap (flagBit flags 9) p1
  let (fl, p3) ← optU32 fmap (flagBit flags 10) p2
  let off ← (if flagBit flags 11 then
      match i32At fmap p3 with
      | .error e => .error e
      | .ok v => .ok (some v)
    else .ok none : Py (Option Int))
  return ⟨dur, size, fl, off⟩

end Verif
