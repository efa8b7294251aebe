import Verif.Py
/-
Model of the serialisers and boxes of dashlib/boxes.py used for chunks.
-/
namespace Verif

/-- boxes.py 22-25 `serialize_u8` (`PACK_U8(x & 0xff)`); `x & m` is `x mod (m+1)` for
masks of the form `2^k-1`, also for negative ints. -/
def serializeU8 (x : Int) : Bytes := beBytes 1 (x % 2^8).toNat

/-- boxes.py 28-31 `serialize_u16`: the mask is `0xfffff` (20 bits), so `struct.pack` may
raise. -/
def serializeU16 (x : Int) : Py Bytes :=
  let v := x % 2^20
  if v < 2^16 then .ok (beBytes 2 v.toNat) else .error .structError

/-- boxes.py 34-37 `serialize_u32` (`PACK_U32(x & 0xffffffff)`). -/
def serializeU32 (x : Int) : Bytes := beBytes 4 (x % 2^32).toNat

/-- boxes.py 40-43 `serialize_u64` (no mask; `struct.error` outside the range). -/
def serializeU64 (x : Int) : Py Bytes := uint64ToStr x

end Verif
