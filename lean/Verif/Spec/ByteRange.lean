/-
Byte ranges of RFC 7233, 2.1, for a representation of `n` bytes.
-/
namespace Verif.Spec

/-- A single byte-range-spec. -/
inductive ByteRange where
  | fromTo (first last : Nat)
  | from (first : Nat)
  | suffix (k : Nat)
  deriving DecidableEq, Repr

/-- First and last byte position denoted by a range, `none` if it is unsatisfiable (or, for
`first-last`, invalid). -/
def ByteRange.resolve (n : Nat) : ByteRange → Option (Nat × Nat)
  | .fromTo a b => if a ≤ b ∧ a < n then some (a, min b (n - 1)) else none
  | .from a => if a < n then some (a, n - 1) else none
  | .suffix k => if 0 < k ∧ 0 < n then some (n - min k n, n - 1) else none

end Verif.Spec
