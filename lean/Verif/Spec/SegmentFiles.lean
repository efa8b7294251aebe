import Verif.Text
/-
The files of a directory with the segments of a representation.
-/
namespace Verif.Spec

/-- The name of segment `n` in its directory. -/
def segmentName (n : Nat) : Text := natText n ++ ".m4s".toList

/-- The directory has no files that begin like a segment and are not one: no copies such as `2.m4s.bak`, no
numbers with zeros in front. -/
def OnlySegments (files : List Text) : Prop :=
  ∀ name ∈ files, ∀ ds rest : Text, ds ≠ [] → (∀ c ∈ ds, '0' ≤ c ∧ c ≤ '9') →
    name = ds ++ ".m4s".toList ++ rest → ∃ n, name = segmentName n

/-- No segment is missing between two that are there. -/
def NoGap (files : List Text) : Prop :=
  ∀ i j k, segmentName i ∈ files → segmentName j ∈ files → i ≤ k → k ≤ j → segmentName k ∈ files

end Verif.Spec
