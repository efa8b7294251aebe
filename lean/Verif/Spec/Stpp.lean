import Verif.Spec.Ttml
/-
Times with milliseconds in a TTML text.
-/
namespace Verif

/-- `hh:mm:ss.mmm`, and the milliseconds it stands for. -/
def IsMsTime (t : Bytes) (ms : Nat) : Prop :=
  ∃ c f n, t = c ++ [46] ++ f ∧ IsTime c n ∧ Digits f ∧ f.length = 3 ∧ ms = n * 1000 + decVal f

end Verif
