import Verif.Py
/-
Specification of MPEG-4 descriptors (ISO/IEC 14496-1 clauses 7.2.2.2 and 8.3.3): a tag, a length
in groups of seven bits with a continuation bit each, and as many bytes as the length says.
-/
namespace Verif

/-- The length at the start of some bytes, and the bytes after it; `none` at the end of data. -/
def readExpandable : Nat → Bytes → Option (Nat × Bytes)
  | _, [] => none
  | acc, b :: bs =>
    let acc := acc * 128 + b.toNat % 128
    if b.toNat < 128 then some (acc, bs) else readExpandable acc bs

/-- The bytes begin with a descriptor with this tag and content, `rest` follows. -/
def StartsDescriptor (tag : Nat) (content rest bs : Bytes) : Prop :=
  ∃ b tail, bs = b :: tail ∧ b.toNat = tag ∧ readExpandable 0 tail = some (content.length, content ++ rest)

end Verif
