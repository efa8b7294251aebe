/-
Independent specification of a live service as its user knows it from the documentation:
numbers `first, first+1, …`, each `segDur` seconds long, the first one starting at `ast`.
A segment is available when it has been produced completely (minus the advertised
`ato`), and stays so for one segment duration plus the time-shift buffer depth.
-/
namespace Verif.Spec

structure Service where
  ast : Int
  segDur : Int
  ato : Rat
  tsbd : Int
  first : Int

/-- Start of segment `n` on the wall clock. -/
def Service.startOf (s : Service) (n : Int) : Rat := s.ast + (n - s.first : Int) * s.segDur

/-- First instant at which segment `n` may be requested. -/
def Service.opens (s : Service) (n : Int) : Rat := s.startOf n + s.segDur - s.ato

/-- Last instant at which segment `n` may be requested. -/
def Service.closes (s : Service) (n : Int) : Rat := s.startOf n + 2 * s.segDur + s.tsbd

/-- Segment `n` may be requested at `now`. -/
def Service.Available (s : Service) (n : Int) (now : Rat) : Prop :=
  s.first ≤ n ∧ s.opens n ≤ now ∧ now ≤ s.closes n

end Verif.Spec
