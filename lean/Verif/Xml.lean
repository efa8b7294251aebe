import Verif.Text
/-
The part of Python's `xml.etree.ElementTree` that dashlib/mpdprocessor.py uses.
-/
namespace Verif

/-- An element: tag, attributes in the order in which they were set, text, children.  Tags of the
DASH namespace are written without namespace (`add_ns` of dash_namespace.py adds it); the text
after an element (`tail`), which is white space in manifests, is left out. -/
inductive Xml where
  | elem (tag : Text) (attrs : List (Text × Text)) (text : Text) (kids : List Xml)

namespace Xml

/-- `e.tag`. -/
def tag : Xml → Text
  | .elem t _ _ _ => t

/-- `e.attrib`. -/
def attrs : Xml → List (Text × Text)
  | .elem _ a _ _ => a

/-- `e.text`. -/
def text : Xml → Text
  | .elem _ _ t _ => t

/-- `list(e)`. -/
def kids : Xml → List Xml
  | .elem _ _ _ k => k

/-- `e.get(k)`. -/
def get (x : Xml) (k : Text) : Option Text := (x.attrs.find? (fun p => p.1 = k)).map (·.2)

end Xml

/-- `d[k] = v` in a dictionary in insertion order. -/
def setAttr (k v : Text) : List (Text × Text) → List (Text × Text)
  | [] => [(k, v)]
  | (k', v') :: r => if k' = k then (k', v) :: r else (k', v') :: setAttr k v r

namespace Xml

/-- `e.set(k, v)`. -/
def set (k v : Text) : Xml → Xml
  | .elem t a x ks => .elem t (setAttr k v a) x ks

/-- `if k in e.attrib: del e.attrib[k]`. -/
def del (k : Text) : Xml → Xml
  | .elem t a x ks => .elem t (a.filter (fun p => p.1 ≠ k)) x ks

/-- `e.text = t`. -/
def setText (t : Text) : Xml → Xml
  | .elem g a _ ks => .elem g a t ks

/-- The element with other children. -/
def setKids (ks : List Xml) : Xml → Xml
  | .elem t a x _ => .elem t a x ks

/-- `e.insert(pos, child)`; positions after the end append. -/
def insert (x : Xml) (pos : Nat) (c : Xml) : Xml := x.setKids (x.kids.take pos ++ c :: x.kids.drop pos)

end Xml

mutual

/-- Equality of elements is decidable. -/
def decEqXml : (a b : Xml) → Decidable (a = b)
  | .elem t a x ks, .elem t' a' x' ks' =>
    if h : t = t' ∧ a = a' ∧ x = x' then
      match decEqXmls ks ks' with
      | isTrue hk => isTrue (by rw [h.1, h.2.1, h.2.2, hk])
      | isFalse hk => isFalse (fun e => by injection e; contradiction)
    else isFalse (fun e => by injection e with h1 h2 h3 _; exact h ⟨h1, h2, h3⟩)

/-- Equality of lists of elements is decidable. -/
def decEqXmls : (a b : List Xml) → Decidable (a = b)
  | [], [] => isTrue rfl
  | [], _ :: _ => isFalse (by simp)
  | _ :: _, [] => isFalse (by simp)
  | x :: xs, y :: ys =>
    match decEqXml x y, decEqXmls xs ys with
    | isTrue h, isTrue hs => isTrue (by rw [h, hs])
    | isFalse h, _ => isFalse (fun e => by injection e; contradiction)
    | _, isFalse h => isFalse (fun e => by injection e; contradiction)

end

instance : DecidableEq Xml := decEqXml

/-- `part in text` for texts (`text.find(part) >= 0`). -/
def hasPart (part : Text) : Text → Bool
  | [] => part.isPrefixOf []
  | c :: cs => part.isPrefixOf (c :: cs) || hasPart part cs

/-- `text.replace(old, new)` for a non-empty `old`; `fuel` bounds the number of steps by the length
of the text. -/
def replaceText (old new : Text) : Nat → Text → Text
  | 0, t => t
  | _ + 1, [] => []
  | n + 1, c :: cs =>
    if old.isPrefixOf (c :: cs) then new ++ replaceText old new n ((c :: cs).drop old.length)
    else c :: replaceText old new n cs

/-- `sep.join(parts)` for a one-character separator. -/
def joinWith (c : Char) : List Text → Text
  | [] => []
  | [p] => p
  | p :: q :: ps => p ++ c :: joinWith c (q :: ps)

end Verif
