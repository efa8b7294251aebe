import Verif.Py
/-
Bit strings, most significant bit first.
-/
namespace Verif

/-- The `n` low bits of `v`, most significant first. -/
def bitString : Nat → Nat → List Bool
  | 0, _ => []
  | n + 1, v => v.testBit n :: bitString n v

/-- The number that a bit string is written for. -/
def bitValue (l : List Bool) : Nat := l.foldl (fun a b => 2 * a + b.toNat) 0

/-- The bits of bytes. -/
def bytesBits (l : Bytes) : List Bool := l.flatMap fun b => bitString 8 b.toNat

/-- The bits of bytes followed by zeros for ever: bit `i`. -/
def bitAt (l : Bytes) (i : Nat) : Bool := ((bytesBits l)[i]?).getD false

/-- `n` bits from bit `k` on. -/
def bitsFrom (l : Bytes) : Nat → Nat → List Bool
  | _, 0 => []
  | k, n + 1 => bitAt l k :: bitsFrom l (k + 1) n

/-- The Exp-Golomb code word for `v` (ITU-T H.264 9.1): as many zeros as `v + 1` has bits after
its first one, then `v + 1` in binary. -/
def expGolomb (v : Nat) : List Bool :=
  List.replicate (Nat.log2 (v + 1)) false ++ bitString (Nat.log2 (v + 1) + 1) (v + 1)

/-- The bits of fields of given values and widths, one after another. -/
def fieldsBits (l : List (Nat × Nat)) : List Bool := l.flatMap fun f => bitString f.2 f.1

end Verif
