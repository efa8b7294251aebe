import Verif.Spec.SampleRun
import Verif.Spec.Ttml
/-
What a player makes of subtitles: cues at times of the presentation, in samples with decode times.
-/
namespace Verif.Spec

/-- The text of the segment with number `nr`, played `offset` seconds later than stored: first the times of all cues are
moved, then the clock texts, then the segment number. -/
def TextLater (offset nr : Nat) (old new : Bytes) : Prop :=
  ∃ y z, Rewrites (TimeShift offset) old y ∧ Rewrites (ClockText offset) y z ∧ Rewrites (SegmentText nr) z new

/-- Where the begins and ends of the cues of a sample are, counted from its decode time in units of the timescale. -/
def cuePlaces (timescale : Int) (s : Sample) : List (Bool × Int) :=
  (attrTimes s.data).map fun a => (a.1, (a.2.2 : Int) * timescale - s.time)

end Verif.Spec
