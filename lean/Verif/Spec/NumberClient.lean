import Verif.Spec.DashClient
import Verif.Spec.Manifest
/-
What a DASH client reads from the text of a manifest with `$Number$` templates (ISO/IEC 23009-1, 5.3.9.5.3 and
A.3).
-/
namespace Verif.Spec

/-- The element says this availability time offset, in seconds; an absent one is 0. -/
def AheadIs (x : Xml) (q : Rat) : Prop :=
  (x.get "availabilityTimeOffset".toList = none ∧ q = 0) ∨
    ∃ s n, x.get "availabilityTimeOffset".toList = some s ∧ DecimalDenotes s n ∧ q = (n : Rat) / 1000000

/-- The manifest `out` with the base URL `b` says this about the segments of the template `t` in the period `x`.  An absent start
number is 1, an absent offset is 0; the availability time offsets of base URL and template are added. -/
structure ReadsTemplate (out b x t : Xml) (a : Addressing) : Prop where
  ast : TimeAttr out "availabilityStartTime" (some a.ast)
  start : 0 ≤ a.periodStart ∧ ∃ s, x.get "start".toList = some s ∧ Denotes s a.periodStart.toNat
  scale : IntIs t "timescale" 1 1
  number : IntIs t "startNumber" 1 a.startNumber
  duration : IntAttr t "duration" (some a.duration)
  pto : OffsetIs t a.pto
  ato : ∃ p q, AheadIs b p ∧ AheadIs t q ∧ a.ato = some (p + q)

/-- The same with a time shift buffer of `depth` seconds. -/
structure ReadsNumbers (out b x t : Xml) (a : Addressing) (depth : Int) : Prop extends ReadsTemplate out b x t a where
  depth : 0 ≤ depth ∧ ∃ s, out.get "timeShiftBufferDepth".toList = some s ∧ Denotes s depth.toNat

/-- The same with a media presentation of `total` seconds. -/
structure ReadsEnding (out b x t : Xml) (a : Addressing) (total : Nat) : Prop extends ReadsTemplate out b x t a where
  total : ∃ s, out.get "mediaPresentationDuration".toList = some s ∧ Denotes s total

/-- Segment `n` belongs to the presentation of `total` seconds: it starts before its end. -/
def Addressing.within (a : Addressing) (total : Nat) (n : Int) : Prop :=
  a.startNumber ≤ n ∧ (n - a.startNumber) * a.duration + a.periodStart < total

end Verif.Spec
