import Verif.Py
/-
Specification of files made of boxes (ISO/IEC 14496-12 clause 4.2, 32-bit sizes only),
independent of the filter: well-formed byte strings, box forests and their serialisation,
and the places where a reader that advances by the size field stops advancing.
-/
namespace Verif

/-- A byte string that is a sequence of boxes, with the boxes whose type is in `comp` again
containing sequences of boxes. -/
inductive BoxSeq (comp : List Bytes) : Bytes → Prop where
  | nil : BoxSeq comp []
  | plain (size ty payload rest : Bytes) (hs : size.length = 4) (ht : ty.length = 4)
      (hv : beVal size = 8 + payload.length) (hc : ty ∉ comp) (hr : BoxSeq comp rest) :
      BoxSeq comp (size ++ ty ++ payload ++ rest)
  | container (size ty kids rest : Bytes) (hs : size.length = 4) (ht : ty.length = 4)
      (hv : beVal size = 8 + kids.length) (hc : ty ∈ comp) (hk : BoxSeq comp kids)
      (hr : BoxSeq comp rest) :
      BoxSeq comp (size ++ ty ++ kids ++ rest)

/-- A sequence of boxes as a tree: first box (a plain box with its payload, or a container
with its own sequence) and the boxes after it. -/
inductive Forest where
  | nil
  | leaf (ty payload : Bytes) (rest : Forest)
  | node (ty : Bytes) (kids rest : Forest)
  deriving DecidableEq

/-- One box: size, type, content. -/
def boxBytes (ty content : Bytes) : Bytes := beBytes 4 (8 + content.length) ++ ty ++ content

/-- The bytes of a forest. -/
def Forest.bytes : Forest → Bytes
  | .nil => []
  | .leaf ty p rest => boxBytes ty p ++ rest.bytes
  | .node ty kids rest => boxBytes ty kids.bytes ++ rest.bytes

/-- A forest that can be written with 32-bit sizes and read again by a reader that looks
inside exactly the types `comp`. -/
def Forest.Ok (comp : List Bytes) : Forest → Prop
  | .nil => True
  | .leaf ty p rest => ty.length = 4 ∧ ty ∉ comp ∧ 8 + p.length < 2 ^ 32 ∧ rest.Ok comp
  | .node ty kids rest =>
    ty.length = 4 ∧ ty ∈ comp ∧ 8 + kids.bytes.length < 2 ^ 32 ∧ kids.Ok comp ∧ rest.Ok comp

/-- Rewriting a forest box by box, in order, with a state: every plain box is replaced by what
`f` makes of it, every container gets the rewritten content and the size that fits it; a
container too long for a 32-bit size cannot be written. -/
def Forest.rewrite (f : Bytes → Bytes → σ → Py (Bytes × σ)) : Forest → σ → Py (Bytes × σ)
  | .nil, s => .ok ([], s)
  | .leaf ty p rest, s =>
    match f ty (boxBytes ty p) s with
    | .error e => .error e
    | .ok (o, s') =>
      match rest.rewrite f s' with
      | .error e => .error e
      | .ok (os, s'') => .ok (o ++ os, s'')
  | .node ty kids rest, s =>
    match kids.rewrite f s with
    | .error e => .error e
    | .ok (k, s') =>
      if 8 + k.length < 2 ^ 32 then
        match rest.rewrite f s' with
        | .error e => .error e
        | .ok (os, s'') => .ok (boxBytes ty k ++ os, s'')
      else .error .structError

/-- Rewriting only the top-level boxes of type `top`, all others copied: the list of
(type, new bytes), one per box of the file, in order. -/
def Forest.rewriteTop (f : Bytes → Bytes → σ → Py (Bytes × σ)) (top : List Bytes) :
    Forest → σ → Py (List (Bytes × Bytes) × σ)
  | .nil, s => .ok ([], s)
  | .leaf ty p rest, s =>
    match (if ty ∈ top then (Forest.leaf ty p .nil).rewrite f s else .ok (boxBytes ty p, s)) with
    | .error e => .error e
    | .ok (o, s') =>
      match rest.rewriteTop f top s' with
      | .error e => .error e
      | .ok (os, s'') => .ok ((ty, o) :: os, s'')
  | .node ty kids rest, s =>
    match (if ty ∈ top then (Forest.node ty kids .nil).rewrite f s
      else .ok (boxBytes ty kids.bytes, s)) with
    | .error e => .error e
    | .ok (o, s') =>
      match rest.rewriteTop f top s' with
      | .error e => .error e
      | .ok (os, s'') => .ok ((ty, o) :: os, s'')

/-- Following size fields through `data`, and into the types `comp`, reaches a size field 0. -/
inductive ZeroSize (comp : List Bytes) : Bytes → Prop where
  | here (data : Bytes) (h : 4 ≤ data.length) (hz : beVal (data.take 4) = 0) : ZeroSize comp data
  | inside (data : Bytes) (h : 4 ≤ data.length) (ht : slice data 4 8 ∈ comp)
      (hz : ZeroSize comp ((data.take (beVal (data.take 4))).drop 8)) : ZeroSize comp data
  | later (data : Bytes) (h : 4 ≤ data.length)
      (hz : ZeroSize comp (data.drop (beVal (data.take 4)))) : ZeroSize comp data

/-- The same from the top level of a file, looking only into the boxes of type `top`. -/
inductive ZeroSizeTop (top comp : List Bytes) : Bytes → Prop where
  | here (data : Bytes) (h : 4 ≤ data.length) (hz : beVal (data.take 4) = 0) :
      ZeroSizeTop top comp data
  | inside (data : Bytes) (h : 4 ≤ data.length) (ht : slice data 4 8 ∈ top)
      (hc : slice data 4 8 ∈ comp)
      (hz : ZeroSize comp ((data.take (beVal (data.take 4))).drop 8)) : ZeroSizeTop top comp data
  | later (data : Bytes) (h : 4 ≤ data.length)
      (hz : ZeroSizeTop top comp (data.drop (beVal (data.take 4)))) : ZeroSizeTop top comp data

end Verif
