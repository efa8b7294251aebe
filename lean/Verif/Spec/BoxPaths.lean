import Verif.Py
/-
Specification of files of boxes with 32-bit and 64-bit sizes (ISO/IEC 14496-12, 4.2), and where
each of their boxes is.
-/
namespace Verif.Spec

/-- Boxes: plain ones, with a size of 32 or (`wide`) 64 bits, and containers. -/
inductive Boxes where
  | nil
  | leaf (wide : Bool) (ty payload : Bytes) (rest : Boxes)
  | node (ty : Bytes) (kids rest : Boxes)
  deriving DecidableEq

/-- Header of a box with a content of `n` bytes. -/
def header (wide : Bool) (ty : Bytes) (n : Nat) : Bytes :=
  if wide then beBytes 4 1 ++ ty ++ beBytes 8 (16 + n) else beBytes 4 (8 + n) ++ ty

/-- Its length. -/
def headerSize (wide : Bool) : Nat := if wide then 16 else 8

/-- The bytes of the file. -/
def Boxes.bytes : Boxes → Bytes
  | .nil => []
  | .leaf wide ty p rest => header wide ty p.length ++ p ++ rest.bytes
  | .node ty kids rest => header false ty kids.bytes.length ++ kids.bytes ++ rest.bytes

/-- All boxes in the order of the file, each with the types on its path, its position and its size;
`pre` is the path of the container, `pos` the position of the first. -/
def Boxes.list (pre : List Bytes) : Boxes → Nat → List (List Bytes × Nat × Nat)
  | .nil, _ => []
  | .leaf wide ty p rest, pos =>
    (pre ++ [ty], pos, headerSize wide + p.length) :: rest.list pre (pos + (headerSize wide + p.length))
  | .node ty kids rest, pos =>
    (pre ++ [ty], pos, 8 + kids.bytes.length) ::
      (kids.list (pre ++ [ty]) (pos + 8) ++ rest.list pre (pos + (8 + kids.bytes.length)))

/-- The places of the boxes with a path. -/
def Boxes.places (b : Boxes) (path : List Bytes) : List (Nat × Nat) :=
  ((b.list [] 0).filter (fun x => x.1 = path)).map (·.2)

end Verif.Spec
