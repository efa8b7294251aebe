import Verif.Spec.ManifestText
import Verif.Spec.ManifestParts
import Verif.Spec.LoopTrack
/-
What the timelines of a live manifest say (ISO/IEC 23009-1, 5.3.9.6).
-/
namespace Verif.Spec

/-- The segments (start, duration) that S elements list: an element lists `r + 1` segments of
duration `d`, from `t` or else from the end of the element before. -/
inductive Lists : Int → List Xml → List (Int × Nat) → Prop
  | nil (time : Int) : Lists time [] []
  | cons {time start : Int} {d r : Nat} {x : Xml} {xs : List Xml} {segs : List (Int × Nat)} :
      x.tag = "S".toList → IntIs x "t" time start → IntAttr x "d" (some d) → IntIs x "r" 0 r →
      Lists (start + ((r + 1) * d : Nat)) xs segs →
      Lists time (x :: xs) ((List.range (r + 1)).map (fun i => (start + (i * d : Nat), d)) ++ segs)

/-- The template `b` made from the VoD template `a` lists these segments; with numbers, `first` is the
number of the first.  Names with time stand for names with numbers.  The presentation time offset is
`pto` seconds, unless it is said for the whole period. -/
structure TimelineSays (byTime atPeriod : Bool) (scale : Nat) (pto : Int) (segs : List (Int × Nat))
    (first : Option Int) (a b : Xml) : Prop where
  timescale : IntAttr b "timescale" (some scale)
  duration : b.get "duration".toList = none
  timeline : ∃ tl, named "SegmentTimeline" b = [tl] ∧ Lists 0 tl.kids segs
  number : if byTime then b.get "startNumber".toList = none else ∀ n ∈ first, IntAttr b "startNumber" (some n)
  media : ∃ m m', a.get "media".toList = some m ∧ b.get "media".toList = some m' ∧
    if byTime then Renamed "$Number$".toList "t$Time$".toList m m' else m' = m
  offset : atPeriod = false → OffsetIs b pto

/-- The segment templates of the adaptation sets of `b` stand where those of `a` do, and are so
related to them; the relation knows the content type of the adaptation set, which keeps its attributes. -/
def EachTemplate (rel : Option Text → Xml → Xml → Prop) (a b : Xml) : Prop :=
  AddedBefore ["SegmentBase".toList, "EventStream".toList]
    (OnlyTag "AdaptationSet".toList fun x y => SameBut [] x y ∧
      AddedBefore ["InbandEventStream".toList, "SupplementalProperty".toList, "ProducerReferenceTime".toList]
        (OnlyTag "SegmentTemplate".toList (rel (x.get "contentType".toList))) x.kids y.kids) a.kids b.kids

/-- Id, start and duration of a period. -/
structure PeriodHeadSays (x : Xml) (p : PeriodElem) : Prop where
  id : ∃ s, x.get "id".toList = some ('p' :: s) ∧ pyInt s = .ok p.id
  start : SecsAttr x "start" (some p.start)
  duration : SecsAttr x "duration" p.duration

/-- Periods with their ends, in seconds: by their duration, or else the start of the next; the last
may have none. -/
def spans : List PeriodElem → List (PeriodElem × Option Int)
  | [] => []
  | [p] => [(p, p.duration.map (p.start + ·))]
  | p :: q :: ps => (p, some (match p.duration with | some d => p.start + d | none => q.start)) :: spans (q :: ps)

/-- From `a` to `b` is the part of a period that is in the buffer now, in seconds from the start of the
availability; `total` is the duration of the presentation. -/
structure InBuffer (now ast tsbd : Int) (total : Option Rat) (span : PeriodElem × Option Int) (a b : Int) : Prop where
  start : a = max span.1.start (now - tsbd - ast)
  now_le : b ≤ now - ast
  span_le : ∀ e ∈ span.2, b ≤ e
  total_le : ∀ d ∈ total, (b : Rat) ≤ d
  most : b = now - ast ∨ some b = span.2 ∨ total.map Rat.floor = some b

/-- Time of the media for a time of the presentation: the start of the period has the presentation time
offset. -/
def mediaAt (p : PeriodElem) (time : Int) : Int := time - p.start + p.pto

end Verif.Spec
