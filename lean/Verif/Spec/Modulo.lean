import Mathlib.Algebra.Order.Field.Rat
/-
Independent description of a modulo session (doc comment of moduloperiod.py): time is cut in
slots of `60·m` seconds; a session is announced from 10 percent before its slot.
-/
namespace Verif.Spec

/-- Length of a slot in seconds. -/
def slotLen (m : Int) : Int := 60 * m

/-- Start of the slot with index `k`. -/
def slotStart (m k : Int) : Int := k * slotLen m

/-- The announced share of the slot, in percent, as a function of the position `p` (percent,
relative to the start of the session's slot; negative before it). -/
def share (p : Rat) : Rat :=
  if p < 10 then 20 else if p < 30 then 40 else if p < 50 then 60 else 80

/-- `now` belongs to the session of slot `k`: from 10 percent before the slot until
90 percent into it. -/
def InSession (m k : Int) (now : Int) : Prop :=
  (slotStart m k : Rat) - slotLen m / 10 ≤ now ∧ (now : Rat) < slotStart m k + slotLen m * 9 / 10

/-- Position of `now` in percent of the slot `k`. -/
def position (m k now : Int) : Rat := ((now : Rat) - slotStart m k) * 100 / slotLen m

end Verif.Spec
