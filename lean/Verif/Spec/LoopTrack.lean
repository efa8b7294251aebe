/-
A track that is looped for ever: segment 0, 1, 2, … of it, given the durations in one loop.
-/
namespace Verif

/-- Start of segment `k`. -/
def loopStart (durs : List Nat) (k : Nat) : Nat :=
  k / durs.length * durs.sum + (durs.take (k % durs.length)).sum

/-- Duration of segment `k`. -/
def loopDur (durs : List Nat) (k : Nat) : Nat := durs[k % durs.length]?.getD 0

/-- End of segment `k`. -/
def loopEnd (durs : List Nat) (k : Nat) : Nat := loopStart durs k + loopDur durs k

/-- Start and duration of the `n` segments from segment `a` on. -/
def loopSegments (durs : List Nat) (a n : Nat) : List (Int × Nat) :=
  (List.range' a n).map fun k => ((loopStart durs k : Int), loopDur durs k)

end Verif
