import Verif.Text
/-
How a text of hexadecimal digits is read.
-/
namespace Verif.Spec

/-- The value of a hexadecimal digit. -/
def hexValue (c : Char) : Option Nat :=
  if '0' ≤ c ∧ c ≤ '9' then some (c.toNat - '0'.toNat)
  else if 'a' ≤ c ∧ c ≤ 'f' then some (c.toNat - 'a'.toNat + 10)
  else none

/-- The value of a text of hexadecimal digits. -/
def readHex (t : Text) : Option Nat := t.foldl (fun a c => do pure (16 * (← a) + (← hexValue c))) (some 0)

end Verif.Spec
