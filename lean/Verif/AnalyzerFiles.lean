import Verif.MediaBody
import Verif.Analyzer
import Verif.VodConfig
import Verif.Xml
import Verif.TimeFormat
/-
Model of vodanalyzer/mpdprocessor.py (reading) and of `initMedia`, `getSegmentRange`, `write_config` and
`analyze` of vodanalyzer/dashanalyzer.py.
-/
namespace Verif

/-- vodanalyzer/mpdprocessor.py 39, 64-69: the tag without namespace, for tags without line break. -/
def localTag (t : Text) : Text :=
  match t with
  | '{' :: _ => if '}' ∈ t then (t.reverse.takeWhile (· ≠ '}')).reverse else t
  | _ => t

/-- A dictionary of attributes that may be `None`. -/
abbrev NodeAttrs := List (Text × Option Text)

/-- `attribs[k]`. -/
def NodeAttrs.look (a : NodeAttrs) (k : Text) : Option (Option Text) := (a.find? (fun p => p.1 = k)).map (·.2)

/-- vodanalyzer/mpdprocessor.py 76-83 `check_and_add_attributes`.  The newest entry comes first and hides older
ones. -/
def NodeAttrs.add (node : Xml) : List Text → NodeAttrs → NodeAttrs
  | [], a => a
  | k :: ks, a =>
    match node.get k with
    | some v => NodeAttrs.add node ks ((k, some v) :: a)
    | none =>
      match NodeAttrs.look a k with
      | some _ => NodeAttrs.add node ks a
      | none => NodeAttrs.add node ks ((k, none) :: a)

/-- An adaptation set after `parse`: its attributes and those of its representations. -/
structure AsNode where
  attribs : NodeAttrs
  reps : List NodeAttrs
  deriving DecidableEq, Repr

/-- vodanalyzer/mpdprocessor.py 178-188, the loop of `AdaptationSet.parse`. -/
def asKids : List Xml → AsNode → AsNode
  | [], s => s
  | x :: xs, s =>
    if localTag x.tag = "SegmentTemplate".toList then
      asKids xs { s with attribs := NodeAttrs.add x ["initialization".toList, "startNumber".toList, "media".toList,
        "duration".toList, "timescale".toList] s.attribs }
    else if localTag x.tag = "Representation".toList then
      asKids xs { s with reps := s.reps ++ [NodeAttrs.add x ["id".toList, "bandwidth".toList] []] }
    else asKids xs s

/-- vodanalyzer/mpdprocessor.py 178-188 `AdaptationSet.parse`. -/
def parseAs (x : Xml) : AsNode :=
  asKids x.kids ⟨NodeAttrs.add x ["contentType".toList, "mimeType".toList] [], []⟩

/-- vodanalyzer/mpdprocessor.py 250-265 `MpdProcessor.parse`: the adaptation sets of all periods. -/
def parseVodMpd (mpd : Xml) : Py (List AsNode) :=
  if localTag mpd.tag ≠ "MPD".toList then .error .assertion
  else
    let sets := ((mpd.kids.filter fun p => localTag p.tag = "Period".toList).flatMap fun p =>
      p.kids.filter fun a => localTag a.tag = "AdaptationSet".toList).map parseAs
    match mpd.get "mediaPresentationDuration".toList with
    | none => .ok sets
    | some d =>
      match isoToSeconds d with
      | .error e => .error e
      | .ok _ => .ok sets

/-- `attribs[k]` where the value is used as text: a missing key raises `KeyError`, `None` a `TypeError` (or an
`AttributeError`). -/
def NodeAttrs.need (a : NodeAttrs) (k : Text) : Py Text :=
  match NodeAttrs.look a k with
  | none => .error .keyError
  | some none => .error .typeError
  | some (some v) => .ok v

/-- `text.replace(old, new)`. -/
def pathReplace (old new t : Text) : Text := replaceText old new t.length t

/-- vodanalyzer/mpdprocessor.py 218-224 `get_initialization_path`. -/
def AsNode.initPath (s : AsNode) (rep : NodeAttrs) : Py Text := do
  let pattern ← s.attribs.need "initialization".toList
  let id ← rep.need "id".toList
  let bw ← rep.need "bandwidth".toList
  return pathReplace "$bandwidth$".toList bw (pathReplace "$RepresentationID$".toList id pattern)

/-- vodanalyzer/mpdprocessor.py 226-233 `get_media_path`. -/
def AsNode.mediaPath (s : AsNode) (rep : NodeAttrs) : Py Text := do
  let pattern ← s.attribs.need "media".toList
  let id ← rep.need "id".toList
  let bw ← rep.need "bandwidth".toList
  return pathReplace "$Number$".toList "%d".toList
    (pathReplace "$bandwidth$".toList bw (pathReplace "$RepresentationID$".toList id pattern))

/-- A natural number from an attribute.  Simplification: negative numbers are refused (`valueError`), the code
takes them. -/
def natAttr (t : Text) : Py Nat :=
  match pyInt t with
  | .error e => .error e
  | .ok n => if 0 ≤ n then .ok n.toNat else .error .valueError

/-- vodanalyzer/mpdprocessor.py 163-166 `start_number`. -/
def AsNode.startNumber (s : AsNode) : Py Nat := do
  let t ← s.attribs.need "startNumber".toList
  natAttr t

/-- vodanalyzer/mpdprocessor.py 168-171 `timescale`: 1 if missing (`None` or empty). -/
def AsNode.timescale (s : AsNode) : Py Nat :=
  match s.attribs.look "timescale".toList with
  | none => .error .keyError
  | some none => .ok 1
  | some (some t) => if t = [] then .ok 1 else natAttr t

/-- vodanalyzer/mpdprocessor.py 173-176 `duration`: whole seconds. -/
def AsNode.duration (s : AsNode) : Py Nat := do
  let t ← s.attribs.need "duration".toList
  let d ← natAttr t
  let ts ← s.timescale
  if ts = 0 then .error .zeroDivision else .ok (d / ts)

/-- The text before and after the first `%d`. -/
def cutFormat : Text → Option (Text × Text)
  | [] => none
  | c :: cs =>
    if "%d".toList.isPrefixOf (c :: cs) then some ([], (c :: cs).drop 2)
    else (cutFormat cs).map fun p => (c :: p.1, p.2)

/-- dashanalyzer.py 193 `path % segNr`.  A path without `%d`, or with another `%`, raises (simplification: `%%`
and other formats are refused too). -/
def formatNr (path : Text) (n : Nat) : Py Text :=
  match cutFormat path with
  | none => .error .typeError
  | some (a, b) => if '%' ∈ a ∨ '%' ∈ b then .error .typeError else .ok (a ++ natText n ++ b)

/-- `os.path.split(path)` for a path without trailing or double slashes. -/
def pathSplit (p : Text) : Text × Text :=
  (((p.reverse.dropWhile (· ≠ '/')).drop 1).reverse, (p.reverse.takeWhile (· ≠ '/')).reverse)

/-- The longest run of at most `k` digits at the start that is followed by `suf`: the value. -/
def digitsThen (suf t : Text) : Nat → Option Nat
  | 0 => none
  | k + 1 =>
    if suf.isPrefixOf (t.drop (k + 1)) then intDigits false 0 (t.take (k + 1))
    else digitsThen suf t k

/-- dashanalyzer.py 131-139: the number in a file name.  The expression is not anchored at the end.
Simplification: only `.` is taken literally in the code, here every character is; only ASCII digits. -/
def fileNumber (pre suf name : Text) : Option Nat :=
  if pre.isPrefixOf name then
    let r := name.drop pre.length
    digitsThen suf r (r.takeWhile fun c => (digitVal c).isSome).length
  else none

/-- Insertion into a sorted list. -/
def sortIn (n : Nat) : List Nat → List Nat
  | [] => [n]
  | m :: r => if n ≤ m then n :: m :: r else m :: sortIn n r

/-- `numbers.sort()`. -/
def sortNats (l : List Nat) : List Nat := l.foldr sortIn []

/-- dashanalyzer.py 141-143: consecutive numbers. -/
def consecutive : List Nat → Bool
  | a :: b :: r => decide (b = a + 1) && consecutive (b :: r)
  | _ => true

/-- dashanalyzer.py 127-146 `getSegmentRange`: first and last number. -/
def segmentRange (fs : Files) (path : Text) : Py (Nat × Nat) :=
  match fs.list (pathSplit path).1 with
  | none => .error .osError
  | some files =>
    match cutFormat (pathSplit path).2 with
    | none => .error .indexError
    | some (a, b) =>
      let numbers := sortNats (files.filterMap (fileNumber a b))
      if consecutive numbers then
        match numbers with
        | [] => .error .indexError
        | n :: r => .ok (n, (n :: r).getLast (by simp))
      else .error .analyzerError

/-- dashanalyzer.py 200-205: the filter of the analyser. -/
def analyzerFilter (defDur : Option Nat) : MfCfg :=
  { segNr := none, segDur := 1, offset := 0, lmsg := false, timescale := none, perMinute := 0, insertSidx := false,
    emsgLast := none, defaultDur := defDur }

/-- dashanalyzer.py 200-205: time and duration of a segment; `None` values raise a `TypeError` later. -/
def readSegment (defDur : Option Nat) (data : Bytes) : Py AnaSeg :=
  match filterMedia (analyzerFilter defDur) data with
  | .error e => .error e
  | .ok (_, st) =>
    match st.tfdt, st.duration with
    | some t, some d => .ok ⟨t.toNat, d.toNat⟩
    | _, _ => .error .typeError

/-- dashanalyzer.py 192-205: the segments that exist, from `nr` on.  `fuel` bounds the number of files; the
checks of the loop are in `anaLoop`. -/
def readSegments (fs : Files) (path : Text) (defDur : Option Nat) : Nat → Nat → Py (List AnaSeg)
  | fuel, nr =>
    match formatNr path nr with
    | .error e => .error e
    | .ok p =>
      match fs.file p with
      | none => .ok []
      | some data =>
        match fuel with
        | 0 => .error .hang
        | fuel + 1 =>
          match readSegment defDur data with
          | .error e => .error e
          | .ok s =>
            match readSegments fs path defDur fuel (nr + 1) with
            | .error e => .error e
            | .ok l => .ok (s :: l)

/-- What the analyser knows of a representation. -/
structure RepSeen where
  id : Text
  timescale : Nat
  first : Nat
  segs : List AnaSeg
  deriving DecidableEq, Repr

/-- dashanalyzer.py 102-117 and 192-205: one representation.  A negative time scale (no mdhd box) is refused;
in the code the check for drift fails. -/
def seeRep (fs : Files) (s : AsNode) (rep : NodeAttrs) : Py RepSeen := do
  let id ← rep.need "id".toList
  let ip ← s.initPath rep
  let init ← fs.read ip
  let info ← initInfo init
  let _ ← (match info.trackId with
    | none => .error .typeError
    | some t => .ok t : Py Nat)
  let path ← s.mediaPath rep
  let range ← segmentRange fs path
  let segs ← readSegments fs path info.defDur (range.2 + 1) range.1
  if info.timescale < 0 then .error .analyzerError
  else return ⟨id, info.timescale.toNat, range.1, segs⟩

/-- What the analyser knows of a content type. -/
structure SetSeen where
  kind : Text
  set : AnaSet
  ids : List Text
  deriving DecidableEq, Repr

/-- dashanalyzer.py 91-121 for one adaptation set, and the attributes that `checkAndUpdateMediaData` takes from
it.  `sys.exit` is given as `analyzerError`. -/
def seeSet (fs : Files) (s : AsNode) : Py SetSeen := do
  let kind ← (match s.attribs.look "contentType".toList with
    | some (some t) => .ok t
    | _ => .error .analyzerError : Py Text)
  let reps ← s.reps.mapM (seeRep fs s)
  match reps with
  | [] => .error .keyError
  | r :: rs =>
    if rs.all fun q => decide (q.timescale = r.timescale) then do
      let d ← s.duration
      let n ← s.startNumber
      return ⟨kind, ⟨r.timescale, d, n, reps.map fun q => (q.first, q.segs)⟩, reps.map (·.id)⟩
    else .error .analyzerError

/-- dashanalyzer.py 89-125 `initMedia`: all adaptation sets; a second one of a content type raises. -/
def seeMedia (fs : Files) (sets : List AsNode) : Py (List SetSeen) := do
  let l ← sets.mapM (seeSet fs)
  if (l.map (·.kind)).Nodup then return l else .error .analyzerError

/-- dashanalyzer.py 161: the name of the table of a content type. -/
def datName (base kind : Text) : Text := base ++ '_' :: kind ++ ".dat".toList

/-- The content types with what was found for them. -/
def seenEntries (base : Text) (l : List SetSeen) (r : AnaResult) : List (Text × MediaEntry) :=
  (l.zip r.files).map fun x => (x.1.kind,
    ⟨x.1.ids, x.1.set.timescale, some (x.2.2 : Int), some (datName base x.1.kind)⟩)

/-- dashanalyzer.py 249-261: the description handed to `VodConfig.write_config`. -/
def describe (base : Text) (l : List SetSeen) (r : AnaResult) : VodData :=
  { segDurS := some r.segDur, nrSegs := some r.nrInLoop, firstSeg := some r.first
    media := ["video".toList, "audio".toList].filterMap fun k =>
      (seenEntries base l r).find? fun y => decide (y.1 = k) }

/-- What the analyser leaves behind: the configuration file and the tables. -/
structure AnaOutput where
  config : Text
  tables : List (Text × Bytes)
  deriving DecidableEq

/-- dashanalyzer.py 64-87: the analysis of the manifest `mpd` in a directory named `base`. -/
def analyzeContent (base : Text) (fs : Files) (mpd : Xml) : Py AnaOutput := do
  let sets ← parseVodMpd mpd
  let l ← seeMedia fs sets
  let r ← analyze (l.map (·.set))
  let text ← writeConfig (describe base l r)
  return ⟨text, (l.zip r.files).map fun x => (datName base x.1.kind, x.2.1)⟩

end Verif
