import Verif.Spec.BoxTree
/-
Specification of the auxiliary information of encrypted samples (ISO/IEC 23001-7 clauses 7.1 and
7.2; ISO/IEC 14496-12 clauses 8.7.8 and 8.7.9).
-/
namespace Verif

/-- What a player needs to decrypt a sample: the initialisation vector, and pairs of numbers of
clear and encrypted bytes; no pairs if the whole sample is encrypted. -/
structure AuxSample where
  iv : Nat
  subsamples : List (Nat × Nat)

/-- The numbers fit their fields. -/
def AuxSample.Fits (a : AuxSample) : Prop :=
  a.iv < 2 ^ 64 ∧ a.subsamples.length < 2 ^ 16 ∧ ∀ u ∈ a.subsamples, u.1 < 2 ^ 16 ∧ u.2 < 2 ^ 32

/-- The pairs of a sample: their number and the numbers in them. -/
def pairBytes (l : List (Nat × Nat)) : Bytes :=
  beBytes 2 l.length ++ l.flatMap (fun u => beBytes 2 u.1 ++ beBytes 4 u.2)

/-- The auxiliary information of a sample: an 8-byte vector, and the pairs if there are any. -/
def AuxSample.bytes (a : AuxSample) : Bytes :=
  beBytes 8 a.iv ++ if a.subsamples = [] then [] else pairBytes a.subsamples

/-- All samples with pairs, or all without (one flag of the box says which). -/
def OneKind (l : List AuxSample) : Prop :=
  (∀ a ∈ l, a.subsamples ≠ []) ∨ (∀ a ∈ l, a.subsamples = [])

end Verif
