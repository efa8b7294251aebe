import Mathlib.Algebra.Order.Field.Rat
/-
What a DASH client computes from a manifest with `$Number$` addressing (ISO/IEC 23009-1,
5.3.9.5.3 and A.3): all times in seconds, timescale 1.
-/
namespace Verif.Spec

/-- The addressing data of one representation in one period. `ato = none` is `INF`. -/
structure Addressing where
  ast : Int
  periodStart : Int
  startNumber : Int
  pto : Int
  duration : Int
  ato : Option Rat
  deriving DecidableEq, Repr

/-- Media time at which segment `n` starts. -/
def Addressing.mediaStart (a : Addressing) (n : Int) : Int :=
  a.pto + (n - a.startNumber) * a.duration

/-- Number of the segment that contains media time `t`. -/
def Addressing.number (a : Addressing) (t : Rat) : Int :=
  a.startNumber + ((t - a.pto) / a.duration).floor

/-- Wall-clock time from which segment `n` can be requested, for a finite offset. -/
def Addressing.availableFrom (a : Addressing) (n : Int) : Rat :=
  ((a.ast + a.periodStart + (n - a.startNumber + 1) * a.duration : Int) : Rat) - a.ato.getD 0

/-- The instant of the wall clock that belongs to the media time `m` of the period. -/
def Addressing.clock (a : Addressing) (m : Rat) : Rat :=
  ((a.ast + a.periodStart : Int) : Rat) + (m - a.pto)

end Verif.Spec
