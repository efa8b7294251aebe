import Verif.Spec.XmlReader
/-
Periods that are given by a link.
-/
namespace Verif.Spec

/-- The namespace of XLink. -/
def xlinkUri : Text := "http://www.w3.org/1999/xlink".toList

/-- What a reader should report for a period given by a link. -/
def linkEvents (dash url : Text) : List XmlEvent :=
  [XmlEvent.start (some dash) "Period".toList
    [((some xlinkUri, "href".toList), url), ((some xlinkUri, "actuate".toList), "onLoad".toList)], XmlEvent.stop]

/-- What a reader should report for a period given by a link that has the content of the element `k` in case the link
cannot be followed. -/
def defaultEvents (dash url : Text) (k : Xml) : List XmlEvent :=
  (linkEvents dash url).take 1 ++ XmlEvent.chars "\n".toList :: (treeEvents dash k).drop 1

/-- The asset identifier of the main content. -/
def assetEvents (dash : Text) : List XmlEvent :=
  [XmlEvent.chars "\n".toList, XmlEvent.start (some dash) "AssetIdentifier".toList
    [((none, "schemeIdUri".toList), "urn:org:dashif:asset-id:2013".toList),
     ((none, "value".toList), "md:cid:EIDR:10.5240%2f0EFB-02CD-126E-8092-1E49-W".toList)], XmlEvent.stop]

/-- An element with the asset identifier as its first child. -/
def assetPeriodEvents (dash : Text) (k : Xml) : List XmlEvent :=
  (treeEvents dash k).take 1 ++ assetEvents dash ++ (treeEvents dash k).drop 1

/-- A manifest whose children are replaced. -/
def rootEvents (dash : Text) : Xml → List XmlEvent → List XmlEvent
  | .elem t a x _, kids =>
    XmlEvent.start (manifestTag dash t).1 (manifestTag dash t).2 (a.map (fun p => (treeName p.1, p.2))) ::
      ((if x = [] then [] else [XmlEvent.chars x]) ++ kids ++ [XmlEvent.stop])

/-- The number of a period in its id: `p` and a decimal number. -/
def idNumber : Text → Int
  | 'p' :: '-' :: ds => -(ds.foldl (fun a c => a * 10 + (c.toNat - 48)) 0 : Nat)
  | 'p' :: ds => (ds.foldl (fun a c => a * 10 + (c.toNat - 48)) 0 : Nat)
  | _ => 0

/-- Whether an element is a period. -/
def isPeriod (dash : Text) (k : Xml) : Bool := manifestTag dash k.tag = (some dash, "Period".toList)

/-- The attribute `id`. -/
def idAttr (k : Xml) : Text := (k.get "id".toList).getD []

/-- The children of the manifest when the periods with these numbers are given by links. -/
def linkedKids (dash : Text) (linked : Int → Bool) (url : Text → Text) : List Xml → List XmlEvent
  | [] => []
  | k :: ks =>
    (if isPeriod dash k && linked (idNumber (idAttr k)) then linkEvents dash (url (idAttr k)) else treeEvents dash k) ++
      linkedKids dash linked url ks

/-- The children of the manifest with ads: periods of the main content have the asset identifier; the
first of the periods with these numbers is kept (`seen` tells whether it was met), the others become
ads. -/
def adKids (dash : Text) (linked : Int → Bool) (ad : Xml → List XmlEvent) : Bool → List Xml → List XmlEvent
  | _, [] => []
  | seen, k :: ks =>
    if isPeriod dash k then
      if linked (idNumber (idAttr k)) then
        (if seen then ad k else assetPeriodEvents dash k) ++ adKids dash linked ad true ks
      else assetPeriodEvents dash k ++ adKids dash linked ad seen ks
    else treeEvents dash k ++ adKids dash linked ad seen ks

/-- Texts that are the same inside and outside of attributes. -/
def SameInAttribute (t : Text) : Prop := '"' ∉ t ∧ '\n' ∉ t ∧ '\t' ∉ t

/-- Texts that need no references. -/
def NeedsNoReference (t : Text) : Prop :=
  (∀ c ∈ t, isXmlChar c = true) ∧ '&' ∉ t ∧ '<' ∉ t ∧ '>' ∉ t ∧ '"' ∉ t ∧ '\n' ∉ t ∧ '\t' ∉ t

/-- The one element `BaseURL` of a manifest, which has no attributes. -/
def OneBaseUrl (dash : Text) (x : Xml) (u : Text) : Prop :=
  ∃ A B, x.kids = A ++ .elem "BaseURL".toList [] u [] :: B ∧ u ≠ [] ∧ SameInAttribute u ∧
    EverywhereAll (fun t _ _ => manifestTag dash t ≠ (some dash, "BaseURL".toList)) A ∧
    EverywhereAll (fun t _ _ => manifestTag dash t ≠ (some dash, "BaseURL".toList)) B

/-- A period with its id as the first attribute, not empty, and without periods inside. -/
def PeriodOk (dash : Text) (k : Xml) : Prop :=
  k.tag = "Period".toList ∧ k.attrs.head? = some ("id".toList, idAttr k) ∧ ¬(k.text = [] ∧ k.kids = []) ∧
    idAttr k = 'p' :: intText (idNumber (idAttr k)) ∧
    EverywhereAll (fun t _ _ => manifestTag dash t ≠ (some dash, "Period".toList)) k.kids

/-- The start of a period with this id. -/
def periodStart (pid : Text) : Text := "<Period id=\"".toList ++ pid ++ "\"".toList

/-- In the text, the id is not mentioned before the start of its period, and there is no second such
period. -/
def MentionedFirst (t pid : Text) : Prop :=
  ∀ n ≤ t.length, periodStart pid <+: t.drop n →
    ¬pid <:+: t.take n ∧ ¬periodStart pid <:+: t.drop (n + (periodStart pid).length)

/-- The addresses of the ads. -/
def adUrl (ad : Int) : Text :=
  if ad = 4 then "http://vm1.dashif.org/dynamicxlink/invalidurl.php".toList
  else if ad = 3 then "http://vm1.dashif.org/dynamicxlink/ad.php?id=6_ad_twoperiods_withremote".toList
  else if ad = 2 then "http://vm1.dashif.org/dynamicxlink/ad.php?id=6_ad_twoperiods".toList
  else "http://vm1.dashif.org/dynamicxlink/ad.php?id=6_ad".toList

/-- What a reader should report for an ad in the place of the period `k`: a link, and with `insertad_5` the content of
the period. -/
def adEvents (dash : Text) (ad : Int) (k : Xml) : List XmlEvent :=
  if ad = 5 then defaultEvents dash (adUrl ad) k else linkEvents dash (adUrl ad)

/-- Names of the namespace of DASH, and attributes without namespace or with the one of XML. -/
def PlainNames (dash : Text) (t : Text) (a : List (Text × Text)) : Prop :=
  (manifestTag dash t).1 = some dash ∧ ∀ p ∈ a, (treeName p.1).1 = none ∨ (treeName p.1).1 = some "http://www.w3.org/XML/1998/namespace".toList

/-- No name of a namespace contains `xmlns=`. -/
def ModestNamespaces (t : Text) (a : List (Text × Text)) : Prop :=
  (∀ u ∈ (treeName t).1, ¬"xmlns=".toList <:+: u) ∧ ∀ p ∈ a, ∀ u ∈ (treeName p.1).1, ¬"xmlns=".toList <:+: u

end Verif.Spec
