import Verif.Spec.Manifest
/-
What the elements that a live manifest adds say: clocks, continuity of periods, profiles.
-/
namespace Verif.Spec

/-! ### Clocks -/

/-- The schemes of ISO/IEC 23009-1, 5.8.5.7 by the names of the URL option. -/
def utcSchemes : List (String × String) :=
  [("direct", "urn:mpeg:dash:utc:direct:2014"), ("head", "urn:mpeg:dash:utc:http-head:2014"),
   ("ntp", "urn:mpeg:dash:utc:ntp:2014"), ("sntp", "urn:mpeg:dash:utc:sntp:2014"),
   ("httpxsdate", "urn:mpeg:dash:utc:http-xsdate:2014"), ("httpiso", "urn:mpeg:dash:utc:http-iso:2014")]

/-- A clock of the method: its scheme, and as value the time itself, the address of the server for
HEAD requests, a host name, or an HTTP address. -/
def UtcSays (direct head : Text) (method : Text) (x : Xml) : Prop :=
  x.tag = "UTCTiming".toList ∧
  ∃ m ∈ utcSchemes, m.1.toList = method ∧ x.get "schemeIdUri".toList = some m.2.toList ∧
    ∃ v, x.get "value".toList = some v ∧
      (m.1 = "direct" → v = direct) ∧ (m.1 = "head" → v = head) ∧
      (m.1 = "ntp" ∨ m.1 = "sntp" → v ≠ [] ∧ '/' ∉ v ∧ ':' ∉ v) ∧
      (m.1 = "httpxsdate" ∨ m.1 = "httpiso" → "http://".toList <+: v)

/-! ### Continuity of periods -/

/-- The periods that an adaptation set says it continues. -/
def continues (a : Xml) : List (Option Text) :=
  ((named "SupplementalProperty" a).filter
    (fun y => y.get "schemeIdUri".toList = some "urn:mpeg:dash:period_continuity:2014".toList)).map
    (fun y => y.get "value".toList)

/-- The adaptation sets of each period say that they continue exactly the period before it;
`before` is the id of the period before the first, if there is one. -/
def Continuous : Option Text → List Xml → Prop
  | _, [] => True
  | before, x :: xs =>
    (∀ a ∈ named "AdaptationSet" x, continues a = (before.map some).toList) ∧
    Continuous (x.get "id".toList) xs

/-! ### Profiles -/

/-- The list of profiles with one more, unless it is there. -/
def withProfile (p : Text) (l : List Text) : List Text := if p ∈ l then l else l ++ [p]

/-- `q` is `p` with `new` for `old` at every place, from left to right. -/
inductive Renamed (old new : Text) : Text → Text → Prop
  | none {p : Text} : ¬old <:+: p → Renamed old new p p
  | more {a b c : Text} : (∀ a' b', a ++ old ++ b = a' ++ old ++ b' → a.length ≤ a'.length) →
      Renamed old new b c → Renamed old new (a ++ old ++ b) (a ++ new ++ c)

/-- The announced messages: scheme and value of every `InbandEventStream`. -/
def announced (x : Xml) : List (Option Text × Option Text) :=
  (named "InbandEventStream" x).map (fun y => (y.get "schemeIdUri".toList, y.get "value".toList))

end Verif.Spec
