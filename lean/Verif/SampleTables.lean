import Verif.Py
/-
Model of the sample tables of dashlib/mp4.py (stts, ctts, stss, stsz, stsc, stco, co64).
-/
namespace Verif

/-- `w` bytes each, big endian. -/
def wordsOf (w : Nat) : Nat → Bytes → List Nat
  | 0, _ => []
  | n + 1, d => beVal (d.take w) :: wordsOf w n (d.drop w)

/-- `struct.unpack` of `n` unsigned words of `w` bytes at `pos` (mp4.py 1558-1560 and alike): a
slice that is too short raises. -/
def unpackWords (fmap : Bytes) (w pos n : Nat) : Py (List Nat) :=
  if (slice fmap pos (pos + w * n)).length = w * n then .ok (wordsOf w n (slice fmap pos (pos + w * n)))
  else .error .structError

/-- `zip(data, data)` on one iterator. -/
def pairsOf : List Nat → List (Nat × Nat)
  | a :: b :: rest => (a, b) :: pairsOf rest
  | _ => []

/-- `zip(data, data, data)` on one iterator. -/
def triplesOf : List Nat → List (Nat × Nat × Nat)
  | a :: b :: c :: rest => (a, b, c) :: triplesOf rest
  | _ => []

/-- mp4.py 1549-1550 and alike: the 32-bit word at a position. -/
def wordAt (fmap : Bytes) (pos : Nat) : Py Nat := strToUint32 (slice fmap pos (pos + 4))

/-- Python indexing of a list: negative indices count from the end. -/
def pyGet (l : List α) (i : Int) : Py α :=
  if i + l.length < 0 then .error .indexError
  else match l[(if i < 0 then i + l.length else i).toNat]? with
    | none => .error .indexError
    | some a => .ok a

/-- The binary search of mp4.py 1578-1585, 1633-1640 and 1741-1748. -/
def searchLoop (lookup : List Int) (n : Int) : Nat → Nat → Nat → Nat
  | 0, lo, _ => lo
  | fuel + 1, lo, hi =>
    if lo < hi then
      if n < lookup[(lo + hi) / 2]?.getD 0 then searchLoop lookup n fuel lo ((lo + hi) / 2)
      else searchLoop lookup n fuel ((lo + hi) / 2 + 1) hi
    else lo

/-- mp4.py 1578-1586 and alike: `entry_index` at the end; `entry_count` is the length of the
table. -/
def tableIndex (lookup : List Int) (n : Int) : Int :=
  (searchLoop lookup n lookup.length 0 lookup.length : Int) - 1

/-- mp4.py 1540-1542 `STTSEntry`. -/
structure SttsEntry where
  count : Nat
  delta : Nat
  cumulative : Nat
  deriving DecidableEq, Repr

/-- A table and its lookup list. -/
structure Table (α : Type) where
  entries : List α
  lookup : List Int
  deriving DecidableEq, Repr

/-- mp4.py 1562-1573, the loop of `stts_box.__init__` with `last_entry`, `sample_index` and
`cumulative_delta`. -/
def sttsLoop : List (Nat × Nat) → Option SttsEntry → Int → Nat → Table SttsEntry
  | [], _, _, _ => ⟨[], []⟩
  | (c, d) :: rest, last, index, cum =>
    let index' := match last with | none => index | some e => index + e.count
    let cum' := match last with | none => cum | some e => cum + e.count * e.delta
    let t := sttsLoop rest (some ⟨c, d, cum'⟩) index' cum'
    ⟨⟨c, d, cum'⟩ :: t.entries, index' :: t.lookup⟩

/-- mp4.py 1545-1573 `stts_box.__init__`. -/
def readStts (fmap : Bytes) (offset : Nat) : Py (Table SttsEntry) :=
  match wordAt fmap (offset + 12) with
  | .error e => .error e
  | .ok n =>
    match unpackWords fmap 4 (offset + 16) (2 * n) with
    | .error e => .error e
    | .ok l => .ok (sttsLoop (pairsOf l) none 1 0)

/-- mp4.py 1575-1597 `sample_time_and_duration`. -/
def sampleTime (t : Table SttsEntry) (n : Int) : Py (Int × Nat) :=
  match pyGet t.lookup (tableIndex t.lookup n) with
  | .error e => .error e
  | .ok start =>
    match pyGet t.entries (tableIndex t.lookup n) with
    | .error e => .error e
    | .ok e => .ok (e.cumulative + (n - start) * e.delta, e.delta)

/-- mp4.py 1615-1628, the loop of `ctts_box.__init__` with the count of the last entry and
`sample_index`; entries are pairs of sample count and offset. -/
def cttsLoop : List (Nat × Nat) → Option Nat → Int → Table (Nat × Nat)
  | [], _, _ => ⟨[], []⟩
  | (c, o) :: rest, last, index =>
    let index' := match last with | none => index | some n => index + n
    let t := cttsLoop rest (some c) index'
    ⟨(c, o) :: t.entries, index' :: t.lookup⟩

/-- mp4.py 1603-1628 `ctts_box.__init__`: the offsets are read as unsigned numbers whatever the
version of the box. -/
def readCtts (fmap : Bytes) (offset : Nat) : Py (Table (Nat × Nat)) :=
  match wordAt fmap (offset + 12) with
  | .error e => .error e
  | .ok n =>
    match unpackWords fmap 4 (offset + 16) (2 * n) with
    | .error e => .error e
    | .ok l => .ok (cttsLoop (pairsOf l) none 1)

/-- mp4.py 1630-1643 `sample_offset`. -/
def sampleOffset (t : Table (Nat × Nat)) (n : Int) : Py Nat :=
  match pyGet t.entries (tableIndex t.lookup n) with
  | .error e => .error e
  | .ok e => .ok e.2

/-- mp4.py 1646-1659 `stss_box`: the entries. -/
def readStss (fmap : Bytes) (offset : Nat) : Py (List Nat) :=
  match wordAt fmap (offset + 12) with
  | .error e => .error e
  | .ok n => unpackWords fmap 4 (offset + 16) n

/-- mp4.py 1657-1658 `has_index`. -/
def hasIndex (entries : List Nat) (i : Nat) : Bool := entries.contains i

/-- mp4.py 1661-1687, the fields of `stsz_box`. -/
structure Stsz where
  size : Nat
  sizes : List Nat
  sums : List Nat
  deriving DecidableEq, Repr

/-- mp4.py 1677-1681 `accumulate`: the totals before each element. -/
def accumulate : Nat → List Nat → List Nat
  | _, [] => []
  | total, x :: rest => total :: accumulate (total + x) rest

/-- mp4.py 1661-1687 `stsz_box.__init__`. -/
def readStsz (fmap : Bytes) (offset : Nat) : Py Stsz :=
  match wordAt fmap (offset + 12), wordAt fmap (offset + 16) with
  | .ok size, .ok n =>
    if size = 0 then
      match unpackWords fmap 4 (offset + 20) n with
      | .error e => .error e
      | .ok l => .ok ⟨0, l, accumulate 0 l⟩
    else .ok ⟨size, [], []⟩
  | .error e, _ => .error e
  | _, .error e => .error e

/-- mp4.py 1689-1701 `sample_size_and_offset`: size and position in the file. -/
def sampleSizeOffset (t : Stsz) (n index chunkOffset : Int) : Py (Nat × Int) :=
  if t.size ≠ 0 then .ok (t.size, chunkOffset + t.size * index)
  else
    match pyGet t.sums (n - 1), pyGet t.sums (n - index - 1), pyGet t.sizes (n - 1) with
    | .ok a, .ok b, .ok s => .ok (s, chunkOffset + ((a : Int) - b))
    | .error e, _, _ => .error e
    | _, .error e, _ => .error e
    | _, _, .error e => .error e

/-- mp4.py 1704-1706 `STSCEntry`. -/
structure StscEntry where
  first : Nat
  samples : Nat
  desc : Nat
  deriving DecidableEq, Repr

/-- mp4.py 1725-1736, the loop of `stsc_box.__init__`. -/
def stscLoop : List StscEntry → Option StscEntry → Int → Table StscEntry
  | [], _, _ => ⟨[], []⟩
  | e :: rest, last, index =>
    let index' := match last with
      | none => index
      | some l => index + ((e.first : Int) - l.first) * l.samples
    let t := stscLoop rest (some e) index'
    ⟨e :: t.entries, index' :: t.lookup⟩

/-- mp4.py 1709-1736 `stsc_box.__init__`. -/
def readStsc (fmap : Bytes) (offset : Nat) : Py (Table StscEntry) :=
  match wordAt fmap (offset + 12) with
  | .error e => .error e
  | .ok n =>
    match unpackWords fmap 4 (offset + 16) (3 * n) with
    | .error e => .error e
    | .ok l => .ok (stscLoop ((triplesOf l).map fun x => ⟨x.1, x.2.1, x.2.2⟩) none 1)

/-- mp4.py 1738-1756 `chunk_and_index`. -/
def chunkAndIndex (t : Table StscEntry) (n : Int) : Py (Int × Int) :=
  match pyGet t.lookup (tableIndex t.lookup n) with
  | .error e => .error e
  | .ok start =>
    match pyGet t.entries (tableIndex t.lookup n) with
    | .error e => .error e
    | .ok e =>
      if e.samples = 0 then .error .zeroDivision
      else .ok (e.first + Int.fdiv (n - start) e.samples, Int.fmod (n - start) e.samples)

/-- mp4.py 1759-1768 and 1777-1786: the chunk offsets of an stco (`w` is 4) or co64 (8) box. -/
def readOffsets (w : Nat) (fmap : Bytes) (offset : Nat) : Py (List Nat) :=
  match wordAt fmap (offset + 12) with
  | .error e => .error e
  | .ok n => unpackWords fmap w (offset + 16) n

/-- mp4.py 1770-1774 and 1788-1792 `chunk_offset`: 0 for a chunk beyond the table. -/
def chunkOffset (entries : List Nat) (chunk : Int) : Nat :=
  match pyGet entries (chunk - 1) with
  | .error _ => 0
  | .ok o => o

/-- The four lookups as a caller combines them: where sample `n` is in the file. -/
def locateSample (sc : Table StscEntry) (offsets : List Nat) (sz : Stsz) (n : Int) : Py (Nat × Int) :=
  match chunkAndIndex sc n with
  | .error e => .error e
  | .ok (chunk, index) => sampleSizeOffset sz n index (chunkOffset offsets chunk)

end Verif
