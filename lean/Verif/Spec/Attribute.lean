import Verif.Text
/-
Reading attributes of an XML text.
-/
namespace Verif

/-- The value of the first attribute that ends with the given name, up to the closing quote. -/
def attrValue (name : Text) : Text → Option Text
  | [] => none
  | c :: cs =>
    if (name ++ "=\"".toList).isPrefixOf (c :: cs) then
      some (((c :: cs).drop (name.length + 2)).takeWhile (fun x => x ≠ '"'))
    else attrValue name cs

end Verif
