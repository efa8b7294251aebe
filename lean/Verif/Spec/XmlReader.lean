import Verif.Xml
/-
What a reader of XML (https://www.w3.org/TR/xml/, https://www.w3.org/TR/xml-names/) gets from a
text.  The reader knows start tags, end tags, empty elements, attributes in double quotes, references
to characters, text, comments (which it leaves out), and one XML declaration at the start; it rejects everything else.  It checks that
end tags fit, that there is one root, that no attribute occurs twice, that characters are allowed, and
that prefixes are declared.
-/
namespace Verif.Spec

/-- White space. -/
def isXmlSpace (c : Char) : Bool := c = ' ' || c = '\t' || c = '\n' || c = '\r'

/-- Characters that a reader takes as they are.  (Carriage returns are allowed, but readers turn them
into line feeds, so they are left out here.) -/
def isXmlChar (c : Char) : Bool :=
  c = '\t' || c = '\n' || (32 ≤ c.toNat && c.toNat ≠ 0xFFFE && c.toNat ≠ 0xFFFF)

/-- Characters at the start of names (of those outside ASCII, all are taken). -/
def isNameStart (c : Char) : Bool := c.isAlpha || c = '_' || c = ':' || 0xC0 ≤ c.toNat

/-- Characters in names. -/
def isNameChar (c : Char) : Bool := isNameStart c || c.isDigit || c = '-' || c = '.' || c.toNat = 0xB7

/-- A name. -/
def isName (t : Text) : Bool := t.all isNameChar && (t.head?.any isNameStart)

/-- The character that a reference `&name;` or `&#number;` stands for. -/
def reference (r : Text) : Option Char :=
  if r = "amp".toList then some '&' else if r = "lt".toList then some '<'
  else if r = "gt".toList then some '>' else if r = "quot".toList then some '"'
  else if r = "apos".toList then some '\''
  else match r with
    | '#' :: ds =>
      if ds ≠ [] ∧ ds.all Char.isDigit then
        some (Char.ofNat (ds.foldl (fun a c => a * 10 + (c.toNat - 48)) 0))
      else none
    | _ => none

/-- The characters that a piece of text stands for; the second argument is the reference that is
being read. -/
def charData (norm : Char → Char) : Option Text → Text → Option Text
  | none, [] => some []
  | some _, [] => none
  | none, c :: cs =>
    if c = '&' then charData norm (some []) cs
    else if isXmlChar c ∧ c ≠ '<' then (charData norm none cs).map (norm c :: ·) else none
  | some r, c :: cs =>
    if c = ';' then
      match reference r with
      | some x => (charData norm none cs).map (x :: ·)
      | none => none
    else charData norm (some (r ++ [c])) cs

/-- White space in attributes counts as spaces. -/
def attrNorm (c : Char) : Char := if isXmlSpace c then ' ' else c

/-- The attributes and the end of a start tag: attributes, whether the element is empty, the rest. -/
def lexAttrs : Nat → Text → Option (List (Text × Text) × Bool × Text)
  | 0, _ => none
  | n + 1, t =>
    match t.dropWhile isXmlSpace with
    | '/' :: '>' :: r => some ([], true, r)
    | '>' :: r => some ([], false, r)
    | d =>
      if t.head?.any isXmlSpace && isName (d.takeWhile isNameChar) then
        match d.dropWhile isNameChar with
        | '=' :: '"' :: v =>
          match charData attrNorm none (v.takeWhile (· ≠ '"')), v.dropWhile (· ≠ '"') with
          | some val, '"' :: r =>
            (lexAttrs n r).map (fun x => ((d.takeWhile isNameChar, val) :: x.1, x.2))
          | _, _ => none
        | _ => none
      else none

/-- The pieces of an XML text. -/
inductive Token where
  | start (name : Text) (attrs : List (Text × Text))
  | stop (name : Text)
  | chars (t : Text)
deriving DecidableEq

/-- The text after a comment, of which this is the inside and the end; two hyphens are only at its end. -/
def afterComment : Text → Option Text
  | [] => none
  | '-' :: '-' :: cs => match cs with
    | '>' :: r => some r
    | _ => none
  | c :: cs => if isXmlChar c then afterComment cs else none

/-- The pieces of a text, after the XML declaration. -/
def lex : Nat → Text → Option (List Token)
  | 0, _ => none
  | _ + 1, [] => some []
  | n + 1, '<' :: '/' :: t =>
    if isName (t.takeWhile isNameChar) then
      match t.dropWhile isNameChar with
      | '>' :: r => (lex n r).map (Token.stop (t.takeWhile isNameChar) :: ·)
      | _ => none
    else none
  | n + 1, '<' :: '!' :: '-' :: '-' :: t =>
    match afterComment t with
    | some r => lex n r
    | none => none
  | n + 1, '<' :: t =>
    if isName (t.takeWhile isNameChar) then
      match lexAttrs n (t.dropWhile isNameChar) with
      | some (a, e, r) =>
        (lex n r).map (fun ts => Token.start (t.takeWhile isNameChar) a ::
          if e then Token.stop (t.takeWhile isNameChar) :: ts else ts)
      | none => none
    else none
  | n + 1, c :: cs =>
    match charData id none ((c :: cs).takeWhile (· ≠ '<')) with
    | some x => (lex n ((c :: cs).dropWhile (· ≠ '<'))).map (Token.chars x :: ·)
    | none => none

/-- What a reader with namespaces reports: elements and attributes with namespace and local name. -/
inductive XmlEvent where
  | start (uri : Option Text) (name : Text) (attrs : List ((Option Text × Text) × Text))
  | stop
  | chars (t : Text)
deriving DecidableEq

/-- A name as prefix, if there is one, and local name. -/
def splitPrefix (n : Text) : Option (Option Text × Text) :=
  match n.dropWhile (· ≠ ':') with
  | [] => some (none, n)
  | _ :: l => if n.takeWhile (· ≠ ':') ≠ [] ∧ l ≠ [] ∧ ':' ∉ l then some (some (n.takeWhile (· ≠ ':')), l) else none

/-- The namespace declarations among the attributes: prefix and namespace; the default namespace has
the empty prefix. -/
def declared (a : List (Text × Text)) : List (Text × Text) :=
  a.filterMap fun p =>
    if p.1 = "xmlns".toList then some ([], p.2)
    else match splitPrefix p.1 with
      | some (some q, l) => if q = "xmlns".toList then some (l, p.2) else none
      | _ => none

/-- Whether an attribute is a namespace declaration. -/
def isDecl (n : Text) : Bool :=
  n = "xmlns".toList || (match splitPrefix n with | some (some q, _) => q = "xmlns".toList | _ => false)

/-- The namespace of a prefix. -/
def uriOf (scope : List (Text × Text)) (p : Text) : Option Text := (scope.find? (fun q => q.1 = p)).map (·.2)

/-- The name of an element with its namespace. -/
def expandTag (scope : List (Text × Text)) (n : Text) : Option (Option Text × Text) :=
  match splitPrefix n with
  | some (some p, l) => (uriOf scope p).map (fun u => (some u, l))
  | some (none, l) => some (uriOf scope [], l)
  | none => none

/-- The name of an attribute with its namespace; without prefix there is none. -/
def expandAttr (scope : List (Text × Text)) (p : Text × Text) : Option ((Option Text × Text) × Text) :=
  match splitPrefix p.1 with
  | some (some q, l) => (uriOf scope q).map (fun u => ((some u, l), p.2))
  | some (none, l) => some ((none, l), p.2)
  | none => none

/-- Attributes with their namespaces; none may occur twice. -/
def expandAttrs (scope : List (Text × Text)) (a : List (Text × Text)) :
    Option (List ((Option Text × Text) × Text)) :=
  match (a.filter (fun p => !isDecl p.1)).mapM (expandAttr scope) with
  | some e => if (a.map (·.1)).Nodup ∧ (e.map (·.1)).Nodup then some e else none
  | none => none

/-- The prefix that is always declared. -/
def startScope : List (Text × Text) := [("xml".toList, "http://www.w3.org/XML/1998/namespace".toList)]

/-- The events of a list of pieces.  `stack` are the open elements with their namespaces; `seen` tells
whether there was a root. -/
def resolve : List (Text × List (Text × Text)) → Bool → List Token → Option (List XmlEvent)
  | [], true, [] => some []
  | [], false, [] => none
  | _ :: _, _, [] => none
  | [], seen, .chars t :: r => if t.all isXmlSpace then resolve [] seen r else none
  | f :: st, seen, .chars t :: r => (resolve (f :: st) seen r).map (XmlEvent.chars t :: ·)
  | [], _, .stop _ :: _ => none
  | f :: st, seen, .stop n :: r => if f.1 = n then (resolve st seen r).map (XmlEvent.stop :: ·) else none
  | [], seen, .start n a :: r =>
    if seen then none
    else
      match expandTag (declared a ++ startScope) n, expandAttrs (declared a ++ startScope) a with
      | some e, some as =>
        (resolve [(n, declared a ++ startScope)] true r).map (XmlEvent.start e.1 e.2 as :: ·)
      | _, _ => none
  | f :: st, seen, .start n a :: r =>
    match expandTag (declared a ++ f.2) n, expandAttrs (declared a ++ f.2) a with
    | some e, some as =>
      (resolve ((n, declared a ++ f.2) :: f :: st) seen r).map (XmlEvent.start e.1 e.2 as :: ·)
    | _, _ => none

/-- The text after the XML declaration. -/
def afterDecl (t : Text) : Text :=
  if "<?xml ".toList.isPrefixOf t then (t.dropWhile (· ≠ '>')).drop 1 else t

/-- What a reader gets from a document. -/
def readXml (t : Text) : Option (List XmlEvent) :=
  match lex ((afterDecl t).length + 1) (afterDecl t) with
  | some ts => resolve [] false ts
  | none => none

/-- The name that a name of an element tree stands for: `{namespace}local` or a name without
namespace. -/
def treeName (q : Text) : Option Text × Text :=
  match q with
  | '{' :: r => (some (r.takeWhile (· ≠ '}')), (r.dropWhile (· ≠ '}')).drop 1)
  | _ => (none, q)

/-- The name of an element of a manifest: names without namespace are in the namespace `dash`. -/
def manifestTag (dash : Text) (q : Text) : Option Text × Text :=
  match treeName q with
  | (none, l) => (some dash, l)
  | (some u, l) => (some u, l)

mutual

/-- What a reader should report for an element tree. -/
def treeEvents (dash : Text) : Xml → List XmlEvent
  | .elem t a x ks =>
    XmlEvent.start (manifestTag dash t).1 (manifestTag dash t).2 (a.map (fun p => (treeName p.1, p.2))) ::
      ((if x = [] then [] else [XmlEvent.chars x]) ++ treeEventsAll dash ks ++ [XmlEvent.stop])

/-- The same for a list of elements. -/
def treeEventsAll (dash : Text) : List Xml → List XmlEvent
  | [] => []
  | k :: ks => treeEvents dash k ++ treeEventsAll dash ks

end

/-! ### Trees that can be written -/

mutual

/-- Something holds for tag, attributes and text of all elements. -/
def Everywhere (P : Text → List (Text × Text) → Text → Prop) : Xml → Prop
  | .elem t a x ks => P t a x ∧ EverywhereAll P ks

/-- The same for a list of elements. -/
def EverywhereAll (P : Text → List (Text × Text) → Text → Prop) : List Xml → Prop
  | [] => True
  | k :: ks => Everywhere P k ∧ EverywhereAll P ks

end

/-- The text contains none of the two pieces of text that `get_full_xml` replaces. -/
def Untouched (t : Text) : Prop := ¬"ns0:".toList <:+: t ∧ ¬"xmlns:ns0=".toList <:+: t

/-- A text that a manifest can contain: its characters are characters of XML, and it has none of the pieces that
`get_full_xml` replaces. -/
def GoodText (t : Text) : Prop := (∀ c ∈ t, isXmlChar c = true) ∧ Untouched t

/-- A name without prefix. -/
def LocalName (l : Text) : Prop := isName l = true ∧ ':' ∉ l

/-- A name of the element tree. -/
def NameOk (q : Text) : Prop :=
  LocalName (treeName q).2 ∧ q ≠ "xmlns".toList ∧
    ∀ u ∈ (treeName q).1, u ≠ [] ∧ u.all isXmlChar = true ∧ Untouched u

/-- An element that can be written: names are names, no attribute occurs twice or is in the namespace
`dash`, the characters are characters of XML, and nothing contains the text that `get_full_xml`
replaces.  (Attributes may contain carriage returns.) -/
def NodeOk (dash : Text) (t : Text) (a : List (Text × Text)) (x : Text) : Prop :=
  NameOk t ∧ (∀ p ∈ a, NameOk p.1 ∧ (treeName p.1).1 ≠ some dash ∧ (∀ c ∈ p.2, isXmlChar c = true ∨ c = '\r') ∧ Untouched p.2) ∧
  (a.map (fun p => treeName p.1)).Nodup ∧ x.all isXmlChar = true ∧ Untouched x

/-- A tree that can be written. -/
def Writable (dash : Text) : Xml → Prop := Everywhere (NodeOk dash)

end Verif.Spec
