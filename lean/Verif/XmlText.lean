import Verif.MpdTree
/-
The text of the manifest: `get_full_xml` of dashlib/mpdprocessor.py with the part of Python's
`xml.etree.ElementTree` (version 3.9 or later) that it uses.
-/
namespace Verif

/-- The namespace of the elements of a manifest (dash_namespace.py 33, without the braces). -/
def dashUri : Text := "urn:mpeg:dash:schema:mpd:2011".toList

/-- The namespace of `xml:lang` and `xml:space`. -/
def xmlUri : Text := "http://www.w3.org/XML/1998/namespace".toList

/-- `_namespace_map` of ElementTree: prefixes for known namespaces. -/
def knownPrefix (u : Text) : Option Text :=
  (([(xmlUri, "xml".toList), ("http://www.w3.org/1999/xhtml".toList, "html".toList),
     ("http://www.w3.org/1999/02/22-rdf-syntax-ns#".toList, "rdf".toList),
     ("http://schemas.xmlsoap.org/wsdl/".toList, "wsdl".toList),
     ("http://www.w3.org/2001/XMLSchema".toList, "xs".toList),
     ("http://www.w3.org/2001/XMLSchema-instance".toList, "xsi".toList),
     ("http://purl.org/dc/elements/1.1/".toList, "dc".toList)] : List (Text × Text)).find?
    (fun p => p.1 = u)).map (·.2)

/-- `qname[1:].rsplit("}", 1)`: a name `{uri}local` as namespace and local name.  (Names without
closing brace do not occur in parsed documents.) -/
def splitName (q : Text) : Text × Text :=
  let r := (q.drop 1).reverse
  (((r.dropWhile (· ≠ '}')).drop 1).reverse, (r.takeWhile (· ≠ '}')).reverse)

/-- Namespace and local name of a tag.  In the tree of this model the tags of the DASH namespace are
written without it. -/
def tagName (t : Text) : Text × Text := if t.head? = some '{' then splitName t else (dashUri, t)

/-- Namespace, if there is one, and local name of an attribute. -/
def attrName (k : Text) : Option Text × Text :=
  if k.head? = some '{' then (some (splitName k).1, (splitName k).2) else (none, k)

/-- `_namespaces`, `add_qname`: the prefix for one more namespace.  `ns` is the dictionary
`namespaces`. -/
def addUri (ns : List (Text × Text)) (u : Text) : List (Text × Text) :=
  if (dictGet ns u).isSome then ns
  else
    let p := (knownPrefix u).getD ("ns".toList ++ natText ns.length)
    if p = "xml".toList then ns else ns ++ [(u, p)]

mutual

/-- The namespaces of the names in the order in which `_namespaces` meets them: `iter()` visits an
element before its children; of an element, the tag comes before the attributes. -/
def nameUris : Xml → List Text
  | .elem t a _ ks => (tagName t).1 :: a.filterMap (fun p => (attrName p.1).1) ++ nameUrisAll ks

/-- The same for a list of elements. -/
def nameUrisAll : List Xml → List Text
  | [] => []
  | k :: ks => nameUris k ++ nameUrisAll ks

end

/-- `_namespaces`: the dictionary from namespaces to prefixes. -/
def namespacesOf (x : Xml) : List (Text × Text) := (nameUris x).foldl addUri []

/-- `qnames`: prefix and local name. -/
def qualified (ns : List (Text × Text)) (u l : Text) : Text :=
  ((dictGet ns u).or (knownPrefix u)).getD [] ++ ':' :: l

/-- `qnames[tag]`. -/
def tagText (ns : List (Text × Text)) (t : Text) : Text := qualified ns (tagName t).1 (tagName t).2

/-- `qnames[key]`. -/
def keyText (ns : List (Text × Text)) (k : Text) : Text :=
  match (attrName k).1 with
  | some u => qualified ns u (attrName k).2
  | none => (attrName k).2

/-- `_escape_cdata`, character by character.  (Python replaces one sort of characters after the
other, beginning with the ampersand.) -/
def escText (c : Char) : Text :=
  if c = '&' then "&amp;".toList else if c = '<' then "&lt;".toList else if c = '>' then "&gt;".toList else [c]

/-- `_escape_attrib`, character by character. -/
def escAttr (c : Char) : Text :=
  if c = '&' then "&amp;".toList else if c = '<' then "&lt;".toList else if c = '>' then "&gt;".toList
  else if c = '"' then "&quot;".toList else if c = '\r' then "&#13;".toList
  else if c = '\n' then "&#10;".toList else if c = '\t' then "&#09;".toList else [c]

/-- `" %s=\"%s\""`. -/
def attrText (name value : Text) : Text := ' ' :: name ++ '=' :: '"' :: value.flatMap escAttr ++ ['"']

/-- `_serialize_xml`: the attributes of an element; `qk` is the dictionary `qnames`. -/
def attrsText (qk : Text → Text) (a : List (Text × Text)) : Text :=
  a.flatMap (fun p => attrText (qk p.1) p.2)

mutual

/-- `_serialize_xml`; `qt` and `qk` are the dictionary `qnames` for tags and for attributes; `decls`
is the text for the namespaces, which only the root gets. -/
def elemText (qt qk : Text → Text) (decls : Text) : Xml → Text
  | .elem t a x ks =>
    '<' :: qt t ++ decls ++ attrsText qk a ++
      (if x = [] ∧ ks = [] then " />".toList
       else '>' :: x.flatMap escText ++ elemsText qt qk ks ++ '<' :: '/' :: qt t ++ ['>'])

/-- The same for a list of elements. -/
def elemsText (qt qk : Text → Text) : List Xml → Text
  | [] => []
  | k :: ks => elemText qt qk [] k ++ elemsText qt qk ks

end

/-- `sorted(namespaces.items(), key=lambda x: x[1])`: insertion into a sorted list. -/
def insertByPrefix (p : Text × Text) : List (Text × Text) → List (Text × Text)
  | [] => [p]
  | q :: qs => if p.2 < q.2 then p :: q :: qs else q :: insertByPrefix p qs

/-- `_serialize_xml`: the declarations of the namespaces. -/
def declsText (ns : List (Text × Text)) : Text :=
  (ns.foldl (fun l p => insertByPrefix p l) []).flatMap
    (fun p => attrText ("xmlns:".toList ++ p.2) p.1)

/-- `tree.write(ofh, encoding="unicode")`. -/
def treeText (x : Xml) : Text :=
  elemText (tagText (namespacesOf x)) (keyText (namespacesOf x)) (declsText (namespacesOf x)) x

/-- mpdprocessor.py 461. -/
def cleanText (t : Text) : Text :=
  let u := replaceText "ns0:".toList [] t.length t
  replaceText "xmlns:ns0=".toList "xmlns=".toList u.length u

/-- mpdprocessor.py 462. -/
def xmlIntro : Text := "<?xml version=\"1.0\" encoding=\"utf-8\"?>\n".toList

/-- mpdprocessor.py 455-463 `get_full_xml` with `clean=True`. -/
def fullXml (x : Xml) : Text := xmlIntro ++ cleanText (treeText x)

/-- mpd_proxy.py 62-115 `generate_dynamic_mpd`. -/
def generateText (c : Cfg) (e : MpdEnv) (now : Int) (vod : Xml) : Py Text := do
  return fullXml (← generateXml c e now vod)

end Verif
