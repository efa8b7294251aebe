import Verif.Config
/-
Where the URLs of a manifest lead.
-/
namespace Verif.Spec

/-- The URL `u` leads to the parts `l` of the service at `s`: this is what the server gets when it
splits the URL at its slashes. -/
def LeadsTo (s u : Text) (l : List Text) : Prop := splitChar '/' u = splitChar '/' s ++ l

/-- The configuration without what tells one file of a presentation from another. -/
def session (c : Cfg) : Cfg := { c with relPath := [], filename := [], ext := [], reps := [] }

/-- A part of a URL that sets a time relative to now, with a value of digits and minus signs. -/
def PlainRelative (p : Text) : Prop :=
  ∀ v, p = "startrel_".toList ++ v ∨ p = "stoprel_".toList ++ v → v ≠ [] ∧ ∀ x ∈ v, x ∈ "-0123456789".toList

end Verif.Spec
