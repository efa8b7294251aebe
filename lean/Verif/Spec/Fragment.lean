import Verif.Spec.BoxTree
/-
Specification of the parts of a movie fragment (ISO/IEC 14496-12 clauses 8.8 and 8.7) that
depend on where the media data lies, independent of the filter.
-/
namespace Verif

abbrev tyStyp : Bytes := [115, 116, 121, 112]
abbrev tySidx : Bytes := [115, 105, 100, 120]
abbrev tyMoof : Bytes := [109, 111, 111, 102]
abbrev tyMdat : Bytes := [109, 100, 97, 116]
abbrev tyTraf : Bytes := [116, 114, 97, 102]
abbrev tyTfhd : Bytes := [116, 102, 104, 100]
abbrev tyMfhd : Bytes := [109, 102, 104, 100]
abbrev tyTrun : Bytes := [116, 114, 117, 110]
abbrev tySaio : Bytes := [115, 97, 105, 111]
abbrev tyTfdt : Bytes := [116, 102, 100, 116]

/-- Two's complement value of four bytes. -/
def signed32 (v : Nat) : Int := if v < 2 ^ 31 then v else (v : Int) - 2 ^ 32

/-- Four bytes of a number in the signed 32-bit range. -/
def signedBytes (x : Int) : Bytes := beBytes 4 (x % 2 ^ 32).toNat

/-- A box inside a track fragment, as far as data positions go: a run with a data offset, an
offset table for auxiliary information, or any other box. -/
inductive FragBox where
  /-- run with data offset: version, flags (bit 0 of the last byte set), sample count, offset,
  remaining bytes -/
  | run (version f2 f1 f0 : UInt8) (count : Bytes) (offset : Int) (rest : Bytes)
  /-- auxiliary offsets: version, flags, type info (8 bytes iff flag bit 0), offsets -/
  | offsets (version f2 f1 f0 : UInt8) (info : Bytes) (entries : List Nat)
  /-- anything else -/
  | other (ty payload : Bytes)

/-- Width of a saio entry. -/
def saioWidth (version : UInt8) : Nat := if version = 0 then 4 else 8

/-- Type and payload of such a box. -/
def FragBox.parts : FragBox → Bytes × Bytes
  | .run v f2 f1 f0 count offset rest =>
    (tyTrun, [v, f2, f1, f0] ++ count ++ signedBytes offset ++ rest)
  | .offsets v f2 f1 f0 info entries =>
    (tySaio, [v, f2, f1, f0] ++ info ++ beBytes 4 entries.length ++
      entries.flatMap (beBytes (saioWidth v)))
  | .other ty p => (ty, p)

/-- The bytes of such a box. -/
def FragBox.bytes (b : FragBox) : Bytes := boxBytes b.parts.1 b.parts.2

/-- The same box when the media data has moved `d` bytes away from the fragment start. -/
def FragBox.shift (d : Int) : FragBox → FragBox
  | .run v f2 f1 f0 count offset rest => .run v f2 f1 f0 count (offset + d) rest
  | .offsets v f2 f1 f0 info entries =>
    .offsets v f2 f1 f0 info (entries.map (fun e : Nat => ((e : Int) + d).toNat))
  | .other ty p => .other ty p

/-- Fields in range and in their places; a run without data offset is an `other`. -/
def FragBox.Ok : FragBox → Prop
  | .run _ _ _ f0 count offset _ =>
    f0.toNat % 2 = 1 ∧ count.length = 4 ∧ -2 ^ 31 ≤ offset ∧ offset < 2 ^ 31
  | .offsets v _ _ f0 info entries =>
    info.length = (if f0.toNat % 2 = 1 then 8 else 0) ∧ entries.length < 2 ^ 32 ∧
    ∀ e ∈ entries, e < 256 ^ saioWidth v
  | .other ty p => ty.length = 4 ∧
    ty ∉ [tyStyp, tySidx, tyMoof, tyTraf, tyMfhd, tySaio, tyTfdt] ∧
    (ty = tyTrun → ∀ b, p[3]? = some b → b.toNat % 2 = 0)

/-- Boxes placed before a forest. -/
def Forest.withLeaves : List FragBox → Forest → Forest
  | [], f => f
  | b :: bs, f => .leaf b.parts.1 b.parts.2 (Forest.withLeaves bs f)

/-- A movie fragment with one track fragment: sequence number box, other boxes, the track
fragment (boxes, decode time box, boxes), other boxes. -/
def fragment (mfhd : Bytes) (a pre : List FragBox) (tfdt : Bytes) (post b : List FragBox) :
    Forest :=
  .node tyMoof
    (.leaf tyMfhd mfhd (.withLeaves a
      (.node tyTraf (.withLeaves pre (.leaf tyTfdt tfdt (.withLeaves post .nil)))
        (.withLeaves b .nil)))) .nil

/-- The payload of a decode time box: version 0 with 32 bits or version 1 with 64 bits. -/
def tfdtPayload (wide : Bool) (f2 f1 f0 : UInt8) (t : Nat) : Bytes :=
  if wide then [1, f2, f1, f0] ++ beBytes 8 t else [0, f2, f1, f0] ++ beBytes 4 t

/-- Plain boxes placed before a forest. -/
def Forest.withBoxes : List (Bytes × Bytes) → Forest → Forest
  | [], f => f
  | b :: bs, f => .leaf b.1 b.2 (Forest.withBoxes bs f)

/-- A media segment with one movie fragment: boxes, the fragment, boxes (the media data). -/
def segmentOf (front : List (Bytes × Bytes)) (mfhd : Bytes) (a pre : List FragBox) (tfdt : Bytes)
    (post b : List FragBox) (back : List (Bytes × Bytes)) : Forest :=
  .withBoxes front (.node tyMoof
    (.leaf tyMfhd mfhd (.withLeaves a
      (.node tyTraf (.withLeaves pre (.leaf tyTfdt tfdt (.withLeaves post .nil)))
        (.withLeaves b .nil)))) (.withBoxes back .nil))

/-- The bytes of a list of plain boxes. -/
def boxesBytes (l : List (Bytes × Bytes)) : Bytes := l.flatMap (fun b => boxBytes b.1 b.2)

end Verif
