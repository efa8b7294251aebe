import Verif.Spec.BoxTree
/-
Specification of initialisation segments (ISO/IEC 14496-12 clauses 8.2.2, 8.3.2, 8.4.2): where
the duration fields are, and the segment with these fields 0.
-/
namespace Verif

/-- The widths of the fields before the duration in the full box headers: creation and
modification time have the width of the duration, 8 bytes in version 1 and else 4; the movie and
media headers then have a timescale, the track header a track number and a reserved word.  The
offset is counted from the start of the content, which begins with version and flags. -/
def headerWords (ty : Bytes) : Option Nat :=
  if ty = [109, 118, 104, 100] ∨ ty = [109, 100, 104, 100] then some 1      -- mvhd, mdhd
  else if ty = [116, 107, 104, 100] then some 2                             -- tkhd
  else none

/-- Width of times in a full box with content `p`. -/
def timeWidth (p : Bytes) : Nat := if p.head? = some 1 then 8 else 4

/-- Position of the duration in the content of a header box. -/
def durationPos (words : Nat) (p : Bytes) : Nat := 4 + 2 * timeWidth p + 4 * words

/-- A header box is complete up to its duration. -/
def HeaderComplete (ty p : Bytes) : Prop :=
  ∀ w, headerWords ty = some w → durationPos w p + timeWidth p ≤ p.length

/-- The content of a box with the duration field, if it is one of the header boxes, set to 0. -/
def withoutDuration (ty p : Bytes) : Bytes :=
  match headerWords ty with
  | none => p
  | some w =>
    p.take (durationPos w p) ++ beBytes (timeWidth p) 0 ++ p.drop (durationPos w p + timeWidth p)

/-- The value of the duration field of a header box. -/
def durationOf (w : Nat) (p : Bytes) : Nat := beVal (slice p (durationPos w p) (durationPos w p + timeWidth p))

/-- Replacing the content of every plain box. -/
def Forest.mapLeaves (g : Bytes → Bytes → Bytes) : Forest → Forest
  | .nil => .nil
  | .leaf ty p rest => .leaf ty (g ty p) (rest.mapLeaves g)
  | .node ty kids rest => .node ty (kids.mapLeaves g) (rest.mapLeaves g)

/-- The same inside the top-level boxes of type `top` only. -/
def Forest.mapInside (g : Bytes → Bytes → Bytes) (top : Bytes) : Forest → Forest
  | .nil => .nil
  | .leaf ty p rest => .leaf ty (if ty = top then g ty p else p) (rest.mapInside g top)
  | .node ty kids rest =>
    .node ty (if ty = top then kids.mapLeaves g else kids) (rest.mapInside g top)

/-- A statement about every plain box. -/
def Forest.AllLeaves (P : Bytes → Bytes → Prop) : Forest → Prop
  | .nil => True
  | .leaf ty p rest => P ty p ∧ rest.AllLeaves P
  | .node _ kids rest => kids.AllLeaves P ∧ rest.AllLeaves P

/-- The same for the boxes inside the top-level boxes of type `top`. -/
def Forest.AllInside (P : Bytes → Bytes → Prop) (top : Bytes) : Forest → Prop
  | .nil => True
  | .leaf ty p rest => (ty = top → P ty p) ∧ rest.AllInside P top
  | .node ty kids rest => (ty = top → kids.AllLeaves P) ∧ rest.AllInside P top

/-- The init segment with all durations inside its movie box 0. -/
def Forest.liveInit (f : Forest) : Forest := f.mapInside withoutDuration [109, 111, 111, 118]

end Verif

namespace Verif

/-- The plain boxes of a forest, in file order. -/
def Forest.leaves : Forest → List (Bytes × Bytes)
  | .nil => []
  | .leaf ty p rest => (ty, p) :: rest.leaves
  | .node _ kids rest => kids.leaves ++ rest.leaves

/-- The plain boxes inside the top-level boxes of the types `top` (or which are themselves such
boxes), in file order. -/
def Forest.leavesInside (top : List Bytes) : Forest → List (Bytes × Bytes)
  | .nil => []
  | .leaf ty p rest => (if ty ∈ top then [(ty, p)] else []) ++ rest.leavesInside top
  | .node ty kids rest => (if ty ∈ top then kids.leaves else []) ++ rest.leavesInside top

/-- Among these boxes, `p` is the content of the only one of type `ty`. -/
def OnlyBox (l : List (Bytes × Bytes)) (ty p : Bytes) : Prop :=
  l.filter (fun x => decide (x.1 = ty)) = [(ty, p)]

/-- Content of a media header (8.4.2): version, flags, creation and modification time,
timescale, the rest.  Times are 8 bytes wide in version 1 and else 4. -/
def mdhdPayload (v1 : Bool) (flags : Bytes) (c m timescale : Nat) (rest : Bytes) : Bytes :=
  (if v1 then [1] else [0]) ++ flags ++ beBytes (if v1 then 8 else 4) c ++
    beBytes (if v1 then 8 else 4) m ++ beBytes 4 timescale ++ rest

/-- Content of a track header (8.3.2). -/
def tkhdPayload (v1 : Bool) (flags : Bytes) (c m track : Nat) (rest : Bytes) : Bytes :=
  (if v1 then [1] else [0]) ++ flags ++ beBytes (if v1 then 8 else 4) c ++
    beBytes (if v1 then 8 else 4) m ++ beBytes 4 track ++ rest

/-- Content of a handler box (8.4.3): version and flags, a reserved word, the handler type. -/
def hdlrPayload (vf : Bytes) (reserved : Nat) (handler rest : Bytes) : Bytes :=
  vf ++ beBytes 4 reserved ++ handler ++ rest

/-- Content of a track extends box (8.8.3): track and sample defaults. -/
def trexPayload (vf : Bytes) (track desc dur size flags : Nat) : Bytes :=
  vf ++ beBytes 4 track ++ beBytes 4 desc ++ beBytes 4 dur ++ beBytes 4 size ++ beBytes 4 flags

end Verif
