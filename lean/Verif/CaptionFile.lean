import Verif.Captions
import Verif.Text
/-
Model of the caption tool around the filter: reading of the caption file and the loop over the
segments, cc_inserter/cc_inserter.py.
-/
namespace Verif

/-- `text.rstrip()`. -/
def pyRstrip (s : Text) : Text := (s.reverse.dropWhile isPySpace).reverse

/-- `":".join(parts)`. -/
def joinColon : List Text → Text
  | [] => []
  | [p] => p
  | p :: ps => p ++ [':'] ++ joinColon ps

/-- `"%03d" % n`. -/
def pad3Text (n : Int) : Text :=
  if n < 0 then '-' :: (List.replicate (2 - (natText n.natAbs).length) '0' ++ natText n.natAbs)
  else List.replicate (3 - (natText n.natAbs).length) '0' ++ natText n.natAbs

/-- cc_inserter.py 248-254 `transform_time` of a text.  Simplification: `frame_nr*1000/29.97` is exact, not a float;
`int` of it is the same for all frame numbers below 30 (`frameMs_float`). -/
def transformTime (tim : Text) : Py Text :=
  let parts := splitChar ':' tim
  match pyInt (parts.getLast?.getD []) with
  | .error e => .error e
  | .ok frame =>
    let milis := min (pyTrunc (((frame * 1000 : Int) : Rat) / (2997 / 100))) 999
    .ok (joinColon parts.dropLast ++ ['.'] ++ pad3Text milis)

/-- cc_inserter.py 265-275 `transform_time_to_ms`. -/
def timeToMs (tim : Text) : Py Int :=
  let timems := splitChar '.' tim
  match splitChar ':' (timems.head?.getD []) with
  | p0 :: rest =>
    match pyInt p0 with
    | .error e => .error e
    | .ok h =>
      match rest with
      | [] => .error .indexError
      | p1 :: rest =>
        match pyInt p1 with
        | .error e => .error e
        | .ok m =>
          match rest with
          | [] => .error .indexError
          | p2 :: _ =>
            match pyInt p2 with
            | .error e => .error e
            | .ok s =>
              match timems with
              | _ :: ms :: _ =>
                match pyInt ms with
                | .error e => .error e
                | .ok n => .ok (h * 3600000 + m * 60000 + s * 1000 + n)
              | _ => .error .indexError
  | [] => .error .indexError

/-- cc_inserter.py 278-280 `convert_time`.  Simplification: the quotient is exact, not a float. -/
def convertTime (tim : Text) : Py Rat :=
  match transformTime tim with
  | .error e => .error e
  | .ok t =>
    match timeToMs t with
    | .error e => .error e
    | .ok n => .ok ((n : Rat) / 1000)

/-- An element of `scc_data` (cc_inserter.py 509-511), the words not yet read. -/
structure SccCap where
  start : Rat
  words : List Text
  deriving DecidableEq

/-- cc_inserter.py 504-511, one line in `SCCParser.parse`: only lines with a colon after the first character count. -/
def sccLine (line : Text) : Py (List SccCap) :=
  let line := pyRstrip line
  if line.length > 0 ∧ line.contains ':' = true ∧ line.head? ≠ some ':' then
    match splitChar ' ' line with
    | [] => .error .indexError
    | t :: words =>
      match convertTime t with
      | .error e => .error e
      | .ok start => .ok ((chunksOf 31 words.length words).map fun w => ⟨start, w⟩)
  else .ok []

/-- cc_inserter.py 498-511 `SCCParser.parse` for the lines of the file. -/
def sccParse : List Text → Py (List SccCap)
  | [] => .ok []
  | l :: ls =>
    match sccLine l with
    | .error e => .error e
    | .ok a =>
      match sccParse ls with
      | .error e => .error e
      | .ok b => .ok (a ++ b)

/-- Value of a hexadecimal digit. -/
def hexVal (c : Char) : Option Nat :=
  if '0' ≤ c ∧ c ≤ '9' then some (c.toNat - 48)
  else if 'a' ≤ c ∧ c ≤ 'f' then some (c.toNat - 87)
  else if 'A' ≤ c ∧ c ≤ 'F' then some (c.toNat - 55)
  else none

/-- `int(i, 16)` (cc_inserter.py 74-75).  Simplification: digits only; signs, underscores, spaces and `0x`, which `int`
accepts too, are taken for errors. -/
def hexWord (t : Text) : Py Nat :=
  if t = [] then .error .valueError
  else t.foldl (fun a c =>
    match a, hexVal c with
    | .ok n, some d => .ok (n * 16 + d)
    | .error e, _ => .error e
    | .ok _, none => .error .valueError) (.ok 0)

/-- The words of a caption, or of several, read one after the other. -/
def readWords : List Text → Py (List Nat)
  | [] => .ok []
  | t :: ts =>
    match hexWord t with
    | .error e => .error e
    | .ok n =>
      match readWords ts with
      | .error e => .error e
      | .ok ns => .ok (n :: ns)

/-- The captions with their words read.  Simplification: the code reads the words of a caption when it makes the
message (76-78), here all captions of the segment are read before. -/
def readCaps : List SccCap → Py (List Caption)
  | [] => .ok []
  | c :: cs =>
    match readWords c.words with
    | .error e => .error e
    | .ok ws =>
      match readCaps cs with
      | .error e => .error e
      | .ok r => .ok (⟨c.start, ws⟩ :: r)

/-- A stored segment: what the media segment filter says of it (cc_inserter.py 448-451) and its bytes. -/
structure CcSeg where
  tfdt : Nat
  dur : Nat
  bytes : Bytes

/-- cc_inserter.py 389-395 `get_scc_data` of `CCInserter`. -/
def sccSelect (caps : List SccCap) (start stop : Rat) : List SccCap :=
  caps.filter fun c => decide (start ≤ c.start ∧ c.start < stop)

/-- cc_inserter.py 439-487, the loop over the segments of a representation, from number `nr` on, with the files
written (by number) and how it ended.  The segments are those that exist from the first number on; `max` is
`max_nr_segments`.  Left out: printing, and the check of the drift, which only sets values that are printed.
Simplification: times are exact, not floats. -/
def ccLoop (timescale field : Nat) (caps : List SccCap) (first : Nat) (max : Int) :
    List CcSeg → Nat → List (Nat × Bytes) × Py Unit
  | [], _ => ([], .ok ())
  | s :: rest, nr =>
    if timescale = 0 then ([], .error .zeroDivision)
    else
      let sel := sccSelect caps ((s.tfdt : Rat) / timescale) ((s.tfdt : Rat) / timescale + (s.dur : Rat) / timescale)
      let written : Py (List (Nat × Bytes)) :=
        if sel.length ≠ 0 then
          match readCaps sel with
          | .error e => .error e
          | .ok cs =>
            match ccFilter ⟨cs, timescale, s.tfdt, field⟩ s.bytes with
            | .error e => .error e
            | .ok out => .ok [(nr, out)]
        else .ok []
      match written with
      | .error e => ([], .error e)
      | .ok w =>
        if ((nr + 1 : Nat) : Int) - first > max ∧ max > 0 then (w, .ok ())
        else
          let r := ccLoop timescale field caps first max rest (nr + 1)
          (w ++ r.1, r.2)

/-- cc_inserter.py 423-487, the loop over the representations of the video: number of the first segment and
segments.  All of them write to the same directory under the number alone, a later one over an earlier one. -/
def ccReps (timescale field : Nat) (caps : List SccCap) (max : Int) :
    Option Nat → List (Nat × List CcSeg) → List (Nat × Bytes) × Py Unit
  | _, [] => ([], .ok ())
  | known, (first, segs) :: rest =>
    if known.any (fun k => decide (k ≠ first)) then ([], .error .assertion)
    else
      let a := ccLoop timescale field caps first max segs first
      match a.2 with
      | .error e => (a.1, .error e)
      | .ok _ =>
        let b := ccReps timescale field caps max (some first) rest
        (a.1 ++ b.1, b.2)

/-- cc_inserter.py 397-487 for the video, from the lines of the caption file: the files as they are in the end. -/
def ccTool (timescale field : Nat) (max : Int) (lines : List Text) (reps : List (Nat × List CcSeg)) :
    (Nat → Option Bytes) × Py Unit :=
  match sccParse lines with
  | .error e => (fun _ => none, .error e)
  | .ok caps =>
    let r := ccReps timescale field caps max none reps
    (fun nr => (r.1.reverse.find? fun x => decide (x.1 = nr)).map Prod.snd, r.2)

end Verif
