import Verif.Text
/-
Independent description of ISO 8601 / xs:duration strings with day, hour, minute and second
components.
-/
namespace Verif.Spec

/-- An optional component `<n><unit>`. -/
def comp (unit : Char) : Option Nat → Text
  | none => []
  | some n => natText n ++ [unit]

/-- `t` is a valid duration string that denotes `secs` seconds: `P`, an optional day part,
and optionally `T` followed by at least one of the hour, minute, second parts; at least one
part in all. -/
def Denotes (t : Text) (secs : Nat) : Prop :=
  ∃ d h m s : Option Nat,
    secs = d.getD 0 * 86400 + h.getD 0 * 3600 + m.getD 0 * 60 + s.getD 0 ∧
    ((t = 'P' :: comp 'D' d ++ 'T' :: (comp 'H' h ++ comp 'M' m ++ comp 'S' s) ∧
        (h.isSome ∨ m.isSome ∨ s.isSome)) ∨
     (t = 'P' :: comp 'D' d ∧ d.isSome ∧ h = none ∧ m = none ∧ s = none))

end Verif.Spec
