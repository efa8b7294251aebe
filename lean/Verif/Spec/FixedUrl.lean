import Verif.Spec.Links
/-
Services that do not depend on the time of the request.
-/
namespace Verif.Spec

/-- A part of a URL that does not refer to the time of the request: no relative times, no sessions that the server starts
by itself, no list of durations. -/
def TimeFree (p : Text) : Prop :=
  (splitFirst p).1 ∉ ["startrel".toList, "stoprel".toList, "dur".toList, "tfdt".toList, "cont".toList, "modulo".toList]

instance (p : Text) : Decidable (TimeFree p) := by unfold TimeFree; infer_instance

/-- A request with these parts at `now` means the service `c` (whenever it was published). -/
def Means (pf : Text → Option Rat) (vodOf : Text → Py VodCfg) (parts : List Text) (now : Int) (c : Cfg) : Prop :=
  ∃ p, processUrl pf vodOf parts now = .ok { c with publishTime := p }

/-- The configuration without what tells one file of a presentation from another and without its publication. -/
def service (c : Cfg) : Cfg := { session c with publishTime := 0 }

end Verif.Spec
