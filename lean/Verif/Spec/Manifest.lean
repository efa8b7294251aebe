import Verif.Xml
import Verif.Spec.IsoDuration
import Verif.Spec.Timestamp
import Mathlib.Data.List.Forall2
/-
What a client may expect of a live manifest made from a VoD manifest: which parts of the VoD
manifest it keeps, and in which order its elements are (ISO/IEC 23009-1, XML schema).
-/
namespace Verif.Spec

/-! ### What is kept -/

/-- A VoD manifest of the usual shape: information, at most one BaseURL, one period, other
elements. -/
structure VodShape (kids infos : List Xml) (base : Option Xml) (period : Xml) (rest : List Xml) : Prop where
  eq : kids = infos ++ (base.toList ++ period :: rest)
  infos : ∀ x ∈ infos, x.tag = "ProgramInformation".toList
  base : ∀ x ∈ base, x.tag = "BaseURL".toList
  period : period.tag = "Period".toList
  rest : ∀ x ∈ rest, x.tag ≠ "Period".toList

/-- `b` has the name of `a` and its attributes, but for the attributes `keys`. -/
def SameBut (keys : List Text) (a b : Xml) : Prop :=
  b.tag = a.tag ∧ ∀ k, k ∉ keys → b.get k = a.get k

/-- Among the children `new` are the children `old`, each related to what it was, after added
elements with the names `tags`. -/
def AddedBefore (tags : List Text) (rel : Xml → Xml → Prop) (old new : List Xml) : Prop :=
  ∃ added kept, new = added ++ kept ∧ (∀ x ∈ added, x.tag ∈ tags) ∧ List.Forall₂ rel old kept

/-- Only elements with the name `tag` are changed. -/
def OnlyTag (tag : Text) (rel : Xml → Xml → Prop) (a b : Xml) : Prop :=
  (a.tag = tag → rel a b) ∧ (a.tag ≠ tag → b = a)

/-- A segment template: other numbers and availability only; with a timeline also another
timescale, media name, and the timeline as first child in place of the duration. -/
def TemplateKept (timeline : Bool) (a b : Xml) : Prop :=
  if timeline then
    SameBut ["startNumber".toList, "presentationTimeOffset".toList, "availabilityTimeOffset".toList,
      "availabilityTimeComplete".toList, "duration".toList, "timescale".toList, "media".toList] a b ∧
    ∃ tl, tl.tag = "SegmentTimeline".toList ∧ b.kids = tl :: a.kids
  else
    SameBut ["startNumber".toList, "presentationTimeOffset".toList, "availabilityTimeOffset".toList,
      "availabilityTimeComplete".toList] a b ∧ b.text = a.text ∧ b.kids = a.kids

/-- An adaptation set: all attributes, and all children (representations among them) but for the
segment templates and added descriptors. -/
def AdSetKept (timeline : Bool) (a b : Xml) : Prop :=
  SameBut [] a b ∧ b.text = a.text ∧
  AddedBefore ["InbandEventStream".toList, "SupplementalProperty".toList, "ProducerReferenceTime".toList]
    (OnlyTag "SegmentTemplate".toList (TemplateKept timeline)) a.kids b.kids

/-- A period: all children but for what is changed in adaptation sets and added elements. -/
def PeriodKept (timeline : Bool) (a b : Xml) : Prop :=
  SameBut ["id".toList, "start".toList, "duration".toList] a b ∧ b.text = a.text ∧
  AddedBefore ["SegmentBase".toList, "EventStream".toList]
    (OnlyTag "AdaptationSet".toList (AdSetKept timeline)) a.kids b.kids

/-- The attributes of the root that a live manifest has of its own. -/
def liveAttrs : List Text :=
  ["type".toList, "profiles".toList, "availabilityStartTime".toList, "availabilityEndTime".toList,
   "timeShiftBufferDepth".toList, "minimumUpdatePeriod".toList, "maxSegmentDuration".toList,
   "mediaPresentationDuration".toList, "suggestedPresentationDelay".toList, "publishTime".toList, "id".toList]

/-! ### Order of elements -/

/-- Children of MPD. -/
def mpdOrder : List Text :=
  ["ProgramInformation".toList, "BaseURL".toList, "Location".toList, "PatchLocation".toList,
   "ServiceDescription".toList, "InitializationSet".toList, "InitializationGroup".toList,
   "InitializationPresentation".toList, "ContentProtection".toList, "Period".toList, "Metrics".toList,
   "EssentialProperty".toList, "SupplementalProperty".toList, "UTCTiming".toList, "LeapSecondInformation".toList]

/-- Children of Period. -/
def periodOrder : List Text :=
  ["BaseURL".toList, "SegmentBase".toList, "SegmentList".toList, "SegmentTemplate".toList,
   "AssetIdentifier".toList, "EventStream".toList, "ServiceDescription".toList, "ContentProtection".toList,
   "AdaptationSet".toList, "Subset".toList, "SupplementalProperty".toList, "EmptyAdaptationSet".toList,
   "GroupLabel".toList, "Preselection".toList]

/-- Children of AdaptationSet. -/
def adSetOrder : List Text :=
  ["FramePacking".toList, "AudioChannelConfiguration".toList, "ContentProtection".toList,
   "OutputProtection".toList, "EssentialProperty".toList, "SupplementalProperty".toList,
   "InbandEventStream".toList, "Switching".toList, "RandomAccess".toList, "GroupLabel".toList, "Label".toList,
   "ProducerReferenceTime".toList, "ContentPopularityRate".toList, "Resync".toList,
   "Accessibility".toList, "Role".toList, "Rating".toList, "Viewpoint".toList, "ContentComponent".toList,
   "BaseURL".toList, "SegmentBase".toList, "SegmentList".toList, "SegmentTemplate".toList,
   "Representation".toList]

/-- The children are in the order of the schema (names that are not listed come last). -/
def InOrder (order : List Text) (kids : List Xml) : Prop :=
  kids.Pairwise (fun a b => order.idxOf a.tag ≤ order.idxOf b.tag)

instance (order : List Text) (kids : List Xml) : Decidable (InOrder order kids) := by
  unfold InOrder; infer_instance

/-! ### What attributes say -/

/-- The attribute is a point in time, or is not there. -/
def TimeAttr (x : Xml) (name : String) : Option Int → Prop
  | none => x.get name.toList = none
  | some t => ∃ s, x.get name.toList = some s ∧ StampDenotes s t

/-- The attribute is a duration of so many whole seconds, or is not there.  Nothing is said of the
value for a negative number of seconds and for whole days (C24). -/
def DurAttr (x : Xml) (name : String) : Option Rat → Prop
  | none => x.get name.toList = none
  | some r => ∃ s, x.get name.toList = some s ∧
      (0 ≤ r → (∀ k : Nat, 0 < k → r ≠ k * 86400) → Denotes s r.floor.toNat)

/-- The attribute is a duration of so many seconds, or is not there.  Nothing is said of negative
durations. -/
def SecsAttr (x : Xml) (name : String) : Option Int → Prop
  | none => x.get name.toList = none
  | some n => ∃ s, x.get name.toList = some s ∧ (0 ≤ n → Denotes s n.toNat)

/-- The attribute is a number, or is not there. -/
def IntAttr (x : Xml) (name : String) : Option Int → Prop
  | none => x.get name.toList = none
  | some n => ∃ s, x.get name.toList = some s ∧ pyInt s = .ok n

/-- The attribute has this value, which it also has when it is not there and the value is the
default. -/
def IntIs (x : Xml) (name : String) (dflt n : Int) : Prop :=
  IntAttr x name (some n) ∨ (x.get name.toList = none ∧ n = dflt)

/-- The presentation time offset is so many seconds: the attribute counts in units of the timescale
of the same element. -/
def OffsetIs (x : Xml) (secs : Int) : Prop :=
  ∃ v scale, IntIs x "presentationTimeOffset" 0 v ∧ IntIs x "timescale" 1 scale ∧ v = secs * scale

/-- A decimal number with six decimals: `n` millionths. -/
def DecimalDenotes (t : Text) (n : Int) : Prop :=
  ∃ (sign whole digits : Text) (w f : Nat), t = sign ++ whole ++ '.' :: digits ∧ digits.length = 6 ∧
    pyInt whole = .ok (w : Int) ∧ pyInt digits = .ok (f : Int) ∧
    ((sign = [] ∧ n = (w * 1000000 + f : Nat)) ∨ (sign = ['-'] ∧ n = -((w * 1000000 + f : Nat) : Int)))

/-- The children with a name. -/
def named (tag : String) (x : Xml) : List Xml := x.kids.filter (fun y => y.tag = tag.toList)

/-- All segment templates of the adaptation sets of a period. -/
def templates (x : Xml) : List Xml := (named "AdaptationSet" x).flatMap (named "SegmentTemplate")

end Verif.Spec
