import Verif.Xml
import Mathlib.Data.List.Infix
/-
What a reader of the DASH standard takes from the manifest of stored content.
-/
namespace Verif.Spec

/-- An element of the given name, in whatever namespace. -/
def isNamed (n : Text) (x : Xml) : Bool :=
  decide (x.tag = n) || (x.tag.head? == some '{' && ('}' :: n).isSuffixOf x.tag)

/-- The adaptation sets of the manifest. -/
def adaptationSets (mpd : Xml) : List Xml :=
  (mpd.kids.filter (isNamed "Period".toList)).flatMap fun p => p.kids.filter (isNamed "AdaptationSet".toList)

/-- The representations of an adaptation set. -/
def representations (a : Xml) : List Xml := a.kids.filter (isNamed "Representation".toList)

/-- The file that the template `$RepresentationID$/$Number$.m4s` names. -/
def storedFile (id : Text) (nr : Nat) : Text := id ++ "/".toList ++ natText nr ++ ".m4s".toList

/-- Every template of the adaptation set names the segments in this way. -/
def NumberTemplate (a : Xml) : Prop :=
  ∀ t ∈ a.kids, isNamed "SegmentTemplate".toList t = true →
    t.get "media".toList = some "$RepresentationID$/$Number$.m4s".toList

/-- A name that the configuration file, the URL and the template can carry. -/
structure PlainId (id : Text) : Prop where
  nonempty : id ≠ []
  comma : ',' ∉ id
  line : '\n' ∉ id ∧ '\r' ∉ id
  strip : pyStrip id = id
  dollar : '$' ∉ id
  percent : '%' ∉ id
  single : ¬ "__".toList <:+: id

instance (id : Text) : Decidable (PlainId id) :=
  decidable_of_iff (id ≠ [] ∧ ',' ∉ id ∧ ('\n' ∉ id ∧ '\r' ∉ id) ∧ pyStrip id = id ∧ '$' ∉ id ∧ '%' ∉ id ∧
    ¬ "__".toList <:+: id)
    ⟨fun ⟨z, a, b, c, d, e, f⟩ => ⟨z, a, b, c, d, e, f⟩, fun ⟨z, a, b, c, d, e, f⟩ => ⟨z, a, b, c, d, e, f⟩⟩

/-- Every template of the adaptation set names the initialization segments `$RepresentationID$/file`. -/
def InitTemplate (a : Xml) (file : Text) : Prop :=
  ∀ t ∈ a.kids, isNamed "SegmentTemplate".toList t = true →
    t.get "initialization".toList = some ("$RepresentationID$/".toList ++ file)

/-- No two adaptation sets have a representation of the same name. -/
def UniqueIds (mpd : Xml) : Prop :=
  (adaptationSets mpd).Pairwise fun a b => ∀ x ∈ representations a, ∀ y ∈ representations b,
    x.get "id".toList ≠ y.get "id".toList

instance (mpd : Xml) : Decidable (UniqueIds mpd) := by unfold UniqueIds; exact inferInstance

end Verif.Spec
