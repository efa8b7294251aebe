import Mathlib.Algebra.Order.Group.Abs
import Mathlib.Algebra.Order.Ring.Int
import Verif.Text
import Verif.Spec.LoopTrack
/-
What a DASH client does with a segment template and a timeline (ISO/IEC 23009-1, 5.3.9.4.4).
-/
namespace Verif.Spec

/-- The parts between dollar signs: text and identifiers in turn. -/
def fillParts (rep number time : Text) : List Text → Text
  | [] => []
  | [p] => p
  | p :: i :: r =>
    p ++ (if i = "RepresentationID".toList then rep
      else if i = "Number".toList then number
      else if i = "Time".toList then time
      else if i = [] then "$".toList
      else '$' :: i ++ "$".toList) ++ fillParts rep number time r

/-- The URL of a segment: the template with the values of its identifiers. -/
def fillTemplate (rep number time : Text) (m : Text) : Text := fillParts rep number time (splitChar '$' m)

/-- The segments of a looped track are less than a second, and less than half a segment, away from the
times at which they would be if all of them had the same duration (`segDur` seconds). -/
def NearNominal (segDur : Int) (scale : Nat) (durs : List Nat) : Prop :=
  ∀ j : Nat, |(loopStart durs j : Int) - j * (segDur * scale)| < scale ∧
    2 * |(loopStart durs j : Int) - j * (segDur * scale)| < segDur * scale

end Verif.Spec
