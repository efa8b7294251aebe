import Verif.Spec.Analyzer
/-
Where a list of segments has gaps or overlaps.
-/
namespace Verif

/-- For every segment that does not start where the one before ends: its start, and that end.
Segments are given by number, start and duration. -/
def jumps : List (Nat × Nat × Nat) → List (Nat × Nat)
  | a :: b :: rest =>
    if b.2.1 = a.2.1 + a.2.2 then jumps (b :: rest) else (b.2.1, a.2.1 + a.2.2) :: jumps (b :: rest)
  | _ => []

/-- Every segment starts where the one before ends. -/
def Gapless (l : List (Nat × Nat × Nat)) : Prop :=
  ∀ i a b, l[i]? = some a → l[i + 1]? = some b → b.2.1 = a.2.1 + a.2.2

end Verif
