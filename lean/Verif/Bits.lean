import Verif.Py
/-
Model of dashlib/bitwriter.py and dashlib/bitreader.py.
-/
namespace Verif

/-- bitwriter.py 12-15, the fields of a `Bitwriter`. -/
structure BitWriter where
  bytes : Bytes := []
  cur : Nat := 0
  inNew : Nat := 0
  deriving DecidableEq

/-- bitwriter.py 4, `LOWEST_BIT_MASKS[left]`: 34 masks. -/
def lowMask (left : Nat) : Py Nat := if left < 34 then .ok (2 ^ left - 1) else .error .indexError

/-- bitwriter.py 28-37, one pass of the loop of `add_bits` with `data` and `left` (`nr_bits_left`):
the byte is filled up (`bytearray.append` raises for a value over 255) and the bits that are
written are masked away.  Simplified: the byte already appended when the mask lookup raises is
lost with the state. -/
def BitWriter.fill (w : BitWriter) (data left : Nat) : Py (BitWriter × Nat × Nat) :=
  let ins := 8 - w.inNew
  let byte := (w.cur <<< ins) ||| (data >>> (left - ins))
  if 255 < byte then .error .valueError
  else match lowMask (left - ins) with
    | .error e => .error e
    | .ok m => .ok (⟨w.bytes ++ [UInt8.ofNat byte], 0, 0⟩, data &&& m, left - ins)

/-- bitwriter.py 39-42, the bits that do not fill a byte. -/
def BitWriter.keep (w : BitWriter) (data left : Nat) : Py BitWriter :=
  if 0 < left then
    match lowMask left with
    | .error e => .error e
    | .ok m => .ok { w with cur := (w.cur <<< left) ||| (data &&& m), inNew := w.inNew + left }
  else .ok w

/-- bitwriter.py 28-42, the loop; every pass takes a bit at least. -/
def BitWriter.addLoop : Nat → BitWriter → Nat → Nat → Py BitWriter
  | 0, w, data, left => if 8 ≤ left + w.inNew then .error .hang else w.keep data left
  | n + 1, w, data, left =>
    if 8 ≤ left + w.inNew then
      match w.fill data left with
      | .error e => .error e
      | .ok r => addLoop n r.1 r.2.1 r.2.2
    else w.keep data left

/-- bitwriter.py 22-42 `add_bits` for unsigned data. -/
def BitWriter.addBits (w : BitWriter) (data nr : Nat) : Py BitWriter := addLoop (nr + 1) w data nr

/-- bitwriter.py 44-45 `add_bytes`: bits that wait for their byte are passed over. -/
def BitWriter.addBytes (w : BitWriter) (l : Bytes) : BitWriter := { w with bytes := w.bytes ++ l }

/-- Calls of `add_bits` one after another, with pairs of data and number of bits. -/
def BitWriter.addAll (w : BitWriter) : List (Nat × Nat) → Py BitWriter
  | [] => .ok w
  | (v, n) :: rest =>
    match w.addBits v n with
    | .error e => .error e
    | .ok w' => w'.addAll rest

/-- bitreader.py 14-19, the fields of a `bitreader`. -/
structure BitReader where
  buffer : Bytes
  bitPos : Nat
  byte : Nat
  index : Nat
  bit : Nat
  deriving DecidableEq

/-- bitreader.py 14-19 `__init__`: an empty buffer has no first byte. -/
def BitReader.new : Bytes → Py BitReader
  | [] => .error .structError
  | b :: l => .ok ⟨b :: l, 7, b.toNat, 1, 0⟩

/-- bitreader.py 29-45, one pass of the loop of `get_bits`, with the number read so far and the
mask.  `bit_pos` is lowered and compared with zero afterwards; the model compares first. -/
def BitReader.step (r : BitReader) (num mask : Nat) : BitReader × Nat × Nat :=
  let num' := (num <<< 1) ||| (if r.byte &&& mask ≠ 0 then 1 else 0)
  if r.bitPos = 0 then
    ({ r with bitPos := 7, byte := (r.buffer[r.index]?.getD 0).toNat, index := r.index + 1, bit := r.bit + 1 },
      num', 1 <<< 7)
  else ({ r with bitPos := r.bitPos - 1, bit := r.bit + 1 }, num', mask >>> 1)

/-- bitreader.py 28-45, the loop. -/
def BitReader.getLoop : Nat → BitReader → Nat → Nat → Nat × BitReader
  | 0, r, num, _ => (num, r)
  | n + 1, r, num, mask => getLoop n (r.step num mask).1 (r.step num mask).2.1 (r.step num mask).2.2

/-- bitreader.py 21-47 `get_bits`. -/
def BitReader.getBits (r : BitReader) (n : Nat) : Nat × BitReader := getLoop n r 0 (1 <<< r.bitPos)

/-- Calls of `get_bits` one after another with the given numbers of bits. -/
def BitReader.getAll (r : BitReader) : List Nat → List Nat × BitReader
  | [] => ([], r)
  | n :: rest => ((r.getBits n).1 :: ((r.getBits n).2.getAll rest).1, ((r.getBits n).2.getAll rest).2)

/-- bitreader.py 49-56 `step_bytes`. -/
def BitReader.stepBytes (r : BitReader) (n : Nat) : Bytes × BitReader :=
  (slice r.buffer (r.index - 1) (r.index - 1 + n), (r.getAll (List.replicate n 8)).2)

/-- bitreader.py 68-70 `remaining_bits`; below zero when zeros past the end have been read. -/
def BitReader.remaining (r : BitReader) : Int := (r.buffer.length * 8 : Nat) - (r.bit : Int)

/-- bitreader.py 93-98, the loop of `ue` with the number of zeros counted before.  It ends with a
one bit only; `fuel` bounds the bits read. -/
def ueLoop : Nat → BitReader → Nat → Py (Nat × BitReader)
  | 0, _, _ => .error .hang
  | fuel + 1, r, zeros =>
    if (r.getBits 1).1 = 0 then ueLoop fuel (r.getBits 1).2 (zeros + 1)
    else .ok (zeros, (r.getBits 1).2)

/-- bitreader.py 87-98 `ue`.  Past the buffer there are zeros only, so that a loop that has not
ended within the buffer does not end. -/
def ue (r : BitReader) : Py (Nat × BitReader) :=
  match ueLoop (8 * r.buffer.length + 1) r 0 with
  | .error e => .error e
  | .ok (zeros, r') => .ok (2 ^ zeros - 1 + (r'.getBits zeros).1, (r'.getBits zeros).2)

end Verif
