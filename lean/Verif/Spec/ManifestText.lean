import Verif.Mpd
import Verif.Spec.Manifest
/-
What the text of a manifest says, as a manifest with numbers (`Mpd`), on which the properties of
what clients do are stated.
-/
namespace Verif.Spec

/-- The attributes of the root. -/
structure RootSays (x : Xml) (m : Mpd) : Prop where
  tag : x.tag = "MPD".toList
  type : x.get "type".toList = some (if m.static then "static".toList else "dynamic".toList)
  ast : TimeAttr x "availabilityStartTime" (some m.ast)
  aet : TimeAttr x "availabilityEndTime" (m.aet.map Rat.floor)
  tsbd : DurAttr x "timeShiftBufferDepth" (m.tsbd.map fun (n : Int) => (n : Rat))
  mup : match m.mup with
    | none => x.get "minimumUpdatePeriod".toList = none
    | some .years100 => x.get "minimumUpdatePeriod".toList = some "P100Y".toList
    | some (.secs s) => DurAttr x "minimumUpdatePeriod" (some s)
  maxSegDur : SecsAttr x "maxSegmentDuration" m.maxSegDur
  mpdDur : DurAttr x "mediaPresentationDuration" m.mpdDur
  spd : DurAttr x "suggestedPresentationDelay" (m.spd.map fun (n : Int) => (n : Rat))
  publishTime : TimeAttr x "publishTime" (some m.publishTime)

/-- A period and its segment templates with numbers; `atPeriod` tells that the presentation time
offset is in a SegmentBase element of the period. -/
structure PeriodSays (atPeriod : Bool) (segDur : Int) (ato : Option Rat) (x : Xml) (p : PeriodElem) : Prop where
  id : ∃ s, x.get "id".toList = some ('p' :: s) ∧ pyInt s = .ok p.id
  start : SecsAttr x "start" (some p.start)
  duration : SecsAttr x "duration" p.duration
  numbers : ∀ t ∈ templates x, IntAttr t "startNumber" p.startNumber ∧ IntAttr t "duration" (some segDur)
  offset : if atPeriod then
      ((p.pto = 0 ∧ named "SegmentBase" x = []) ∨ (∃ b, named "SegmentBase" x = [b] ∧ OffsetIs b p.pto)) ∧
        ∀ t ∈ templates x, t.get "presentationTimeOffset".toList = none
    else ∀ t ∈ templates x, OffsetIs t p.pto
  callback : (named "EventStream" x).length = if p.callback then 1 else 0
  ato : ∀ t ∈ templates x, match ato with
    | none => t.get "availabilityTimeOffset".toList = none
    | some a => t.get "availabilityTimeComplete".toList = some "false".toList ∧
      ∃ s n, t.get "availabilityTimeOffset".toList = some s ∧ DecimalDenotes s n ∧
        -(1 / 2 : Rat) ≤ a * 1000000 - n ∧ a * 1000000 - n ≤ 1 / 2

/-- A VoD manifest whose root has no attribute of its own that belongs to a live service. -/
structure VodRoot (vod : Xml) : Prop where
  tsbd : vod.get "timeShiftBufferDepth".toList = none
  mup : vod.get "minimumUpdatePeriod".toList = none
  aet : vod.get "availabilityEndTime".toList = none
  spd : vod.get "suggestedPresentationDelay".toList = none

/-- A VoD period with the duration of segments in seconds and without offsets and events. -/
structure VodPeriod (segDur : Int) (period : Xml) : Prop where
  duration : period.get "duration".toList = none
  base : named "SegmentBase" period = []
  events : named "EventStream" period = []
  scale : ∀ t ∈ templates period, IntIs t "timescale" 1 1
  pto : ∀ t ∈ templates period, t.get "presentationTimeOffset".toList = none
  segDur : ∀ t ∈ templates period, IntAttr t "duration" (some segDur)
  ato : ∀ t ∈ templates period, t.get "availabilityTimeOffset".toList = none

/-- The availability time offset of a BaseURL element. -/
def BaseSays (x : Xml) : AtoAttr → Prop
  | .absent => x.get "availabilityTimeOffset".toList = none
  | .inf => x.get "availabilityTimeOffset".toList = some "INF".toList
  | .value a => ∃ s n, x.get "availabilityTimeOffset".toList = some s ∧ DecimalDenotes s n ∧
      a * 1000000 = n

end Verif.Spec
