import Verif.Text
/-
Model of dashlib/sessionid.py.
-/
namespace Verif

/-- A digit of `%x`. -/
def hexDigit (d : Nat) : Char := if d < 10 then digitChar d else Char.ofNat (87 + d)

/-- sessionid.py 8-10 `generate_session_id` for the number that was drawn: `"%08x" % n`.  Simplified: the numbers that are drawn
are below 2^32 (line 5), so that there are always eight digits. -/
def sessionId (n : Nat) : Text := (List.range 8).map fun i => hexDigit (n / 16 ^ (7 - i) % 16)

end Verif
