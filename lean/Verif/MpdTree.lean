import Verif.Xml
import Verif.Mpd
import Verif.SegTimeline
import Verif.TimeFormat
import Verif.Timestamp
/-
Model of dashlib/mpdprocessor.py on the element tree of the VoD manifest, and of
`generate_dynamic_mpd` of dashlib/mpd_proxy.py that calls it.
-/
namespace Verif

/-- The entries of `mpd_data` that mpdprocessor.py reads.  `attrs` are the entries for the names
of `mpdKeys`; `ato` is the text of `availabilityTimeOffset` with its value; `ptoText` tells that
the `presentationTimeOffset` of the periods is a text (mpd_proxy.py 218, 225) and not a number
(243). -/
structure MpdData where
  static : Bool
  attrs : List (Text × Text)
  addProfiles : Option (List Text) := none
  baseUrl : Text
  urls : List Text := []
  ato : Option (Rat × Text) := none
  atc : Option Text := none
  offsetAtPeriod : Bool := false
  ptoText : Bool := false
  deriving DecidableEq, Repr

/-- The fields of an `MpdProcessor` (mpdprocessor.py 72-86) and of its configuration that are
read.  `direct` is the time that method `direct` of `insert_utc_timings` gives, `publish` is
`make_timestamp(now)`, `ll` the text of the availability time offset in `ll_data` (`none`: the
dictionary is empty), `video` and `audio` the segment tables of the media data. -/
structure ProcCfg where
  scte35 : Bool := false
  utc : List Text := []
  utcHead : Text := []
  direct : Text := []
  continuous : Bool := false
  tl : Bool := false
  tlNr : Bool := false
  loss : Bool := false
  emsgLast : Bool := false
  addLocation : Bool := false
  fullUrl : Text := []
  startTime : Option Int := none
  stopTime : Option Int := none
  timeoffset : Option Int := none
  publish : Text := []
  now : Int := 0
  tsbd : Int := 0
  ast : Int := 0
  ll : Option Text := none
  video : Option SegTable := none
  audio : Option SegTable := none
  deriving DecidableEq, Repr

/-- `d.get(k)`. -/
def dictGet (d : List (Text × Text)) (k : Text) : Option Text := (d.find? (fun p => p.1 = k)).map (·.2)

/-- mpdprocessor.py 56-60 `set_values_from_dict`. -/
def setFromDict (keys : List Text) (d : List (Text × Text)) (x : Xml) : Xml :=
  keys.foldl (fun x k => match dictGet d k with | some v => x.set k v | none => x) x

/-! ### The root element -/

/-- scte35.py 39 `PROFILE`. -/
def scteProfile : Text := "http://dashif.org/guidelines/adin/app".toList

/-- mpdprocessor.py 100-104. -/
def scteStep (p : ProcCfg) (mpd : Xml) : Py Xml :=
  if p.scte35 then
    match mpd.get "profiles".toList with
    | none => .error .attributeError
    | some old =>
      .ok (if hasPart scteProfile old then mpd else mpd.set "profiles".toList (old ++ ',' :: scteProfile))
  else .ok mpd

/-- mpdprocessor.py 105-109. -/
def lossStep (p : ProcCfg) (mpd : Xml) : Py Xml :=
  if p.loss then
    match mpd.get "profiles".toList with
    | none => .error .attributeError
    | some old =>
      .ok (if hasPart "dash-if-simple".toList old then
          mpd.set "profiles".toList (replaceText "dash-if-simple".toList "dash-if-main".toList old.length old)
        else mpd)
  else .ok mpd

/-- mpdprocessor.py 112-114. -/
def addProfs (have_ : List Text) (new : List Text) : List Text :=
  new.foldl (fun acc q => if q ∈ acc then acc else acc ++ [q]) have_

/-- mpdprocessor.py 110-115. -/
def profilesStep (d : MpdData) (mpd : Xml) : Py Xml :=
  match d.addProfiles with
  | none => .ok mpd
  | some new =>
    match mpd.get "profiles".toList with
    | none => .error .attributeError
    | some old => .ok (mpd.set "profiles".toList (joinWith ',' (addProfs (splitChar ',' old) new)))

/-- mpdprocessor.py 117-123 `key_list` after the removals. -/
def mpdKeys (d : MpdData) : List Text :=
  ["availabilityStartTime".toList, "availabilityEndTime".toList] ++
  (if d.static ∨ (dictGet d.attrs "mediaPresentationDuration".toList).isSome then []
    else ["timeShiftBufferDepth".toList]) ++
  (if d.static then [] else ["minimumUpdatePeriod".toList]) ++
  ["maxSegmentDuration".toList, "mediaPresentationDuration".toList, "suggestedPresentationDelay".toList]

/-- mpdprocessor.py 124-133. -/
def attrsStep (p : ProcCfg) (d : MpdData) (mpd : Xml) : Xml :=
  let mpd := setFromDict (mpdKeys d) d.attrs mpd
  let mpd := if (dictGet d.attrs "mediaPresentationDuration".toList).isNone then
      mpd.del "mediaPresentationDuration".toList else mpd
  let mpd := mpd.set "publishTime".toList p.publish
  let mpd := mpd.set "id".toList "Config part of url maybe?".toList
  if p.tl || p.tlNr then
    let mpd := mpd.del "maxSegmentDuration".toList
    if d.static then mpd else mpd.set "minimumUpdatePeriod".toList "PT0S".toList
  else mpd

/-- mpdprocessor.py 96-133 `process_mpd`. -/
def processRoot (p : ProcCfg) (d : MpdData) (mpd : Xml) : Py Xml :=
  if mpd.tag ≠ "MPD".toList then .error .assertion
  else do
    let mpd := mpd.set "type".toList (if d.static then "static".toList else "dynamic".toList)
    let mpd ← scteStep p mpd
    let mpd ← lossStep p mpd
    let mpd ← profilesStep d mpd
    return attrsStep p d mpd

/-! ### The children of the root element -/

/-- `list.insert(pos, c)` for `0 ≤ pos`. -/
def insertAt {α : Type} (pos : Nat) (c : α) (l : List α) : List α := l.take pos ++ c :: l.drop pos

/-- mpdprocessor.py 211-222 `insert_baseurl`, the new element. -/
def baseUrlElem (url : Text) (ato : Option (Rat × Text)) (atc : Option Text) : Xml :=
  let a : List (Text × Text) :=
    match ato with
    | none => []
    | some (v, t) =>
      if v = -1 then [("availabilityTimeOffset".toList, "INF".toList)]
      else if 0 < v then [("availabilityTimeOffset".toList, t)] else []
  let c : List (Text × Text) :=
    match atc with
    | none => []
    | some t =>
      if t = "False".toList ∨ t = "false".toList ∨ t = "0".toList then [("availabilityTimeComplete".toList, t)]
      else []
  .elem "BaseURL".toList (a ++ c) url []

/-- `text.split('//')`. -/
def splitSlashes : Text → List Text
  | [] => [[]]
  | '/' :: '/' :: xs => [] :: splitSlashes xs
  | x :: xs =>
    match splitSlashes xs with
    | [] => [[x]]
    | y :: ys => (x :: y) :: ys

/-- mpdprocessor.py 168-175, for one part of the URL: a part with the option key `baseurl` becomes
empty. -/
def dropBaseurl (part : Text) : Text :=
  match splitFirst part with
  | (key, some _) => if key = "baseurl".toList then [] else part
  | (_, none) => part

/-- `list.insert(-1, c)`. -/
def insertBeforeLast {α : Type} (c : α) (l : List α) : List α := insertAt (l.length - 1) c l

/-- mpdprocessor.py 165-181: the URLs of the BaseURL elements when there are several. -/
def multiUrls (baseUrl : Text) (urls : List Text) : Py (List Text) :=
  match splitSlashes baseUrl with
  | [header, body] =>
    let parts := (splitChar '/' body).map dropBaseurl
    .ok (urls.map fun u => header ++ "//".toList ++
      joinWith '/' (insertBeforeLast ("baseurl_".toList ++ u) parts) ++ "/".toList)
  | _ => .error .valueError

/-- mpdprocessor.py 148-152: the number of ProgramInformation elements at the start. -/
def infoCount : List Xml → Nat
  | [] => 0
  | x :: xs => if x.tag = "ProgramInformation".toList then infoCount xs + 1 else 0

/-- mpdprocessor.py 153-184: BaseURL elements; the children and the position after them. -/
def baseUrlStep (p : ProcCfg) (d : MpdData) (kids : List Xml) : Py (List Xml × Nat) :=
  let pos := infoCount kids
  match kids[pos]? with
  | none => .error .indexError
  | some next =>
    if next.tag = "BaseURL".toList then
      if p.addLocation then .ok (kids.eraseIdx pos, pos)
      else .ok (kids.set pos (next.setText d.baseUrl), pos + 1)
    else if p.addLocation then .ok (kids, pos)
    else if d.urls ≠ [] then do
      let urls ← multiUrls d.baseUrl d.urls
      let elems := urls.map fun u => baseUrlElem u d.ato d.atc
      return (kids.take pos ++ elems ++ kids.drop pos, pos + elems.length)
    else .ok (insertAt pos (baseUrlElem d.baseUrl d.ato d.atc) kids, pos + 1)

/-- The characters of `[-\d]` (ASCII digits). -/
def relChar (c : Char) : Bool := c = '-' || (digitVal c).isSome

/-- `re.sub(r"<key>[-\d]+", new, text)`; `fuel` is at least the length of the text. -/
def subRel (key new : Text) : Nat → Text → Text
  | 0, t => t
  | _ + 1, [] => []
  | n + 1, c :: cs =>
    if key.isPrefixOf (c :: cs) then
      match (c :: cs).drop key.length with
      | x :: rest =>
        if relChar x then new ++ subRel key new n (rest.dropWhile relChar)
        else c :: subRel key new n cs
      | [] => c :: subRel key new n cs
    else c :: subRel key new n cs

/-- mpdprocessor.py 186-189: the URL of the Location element; `"%d" % None` raises. -/
def locationUrl (p : ProcCfg) : Py Text :=
  match p.startTime, p.stopTime with
  | some a, some b =>
    let u := subRel "/startrel_".toList ("/start_".toList ++ intText a) p.fullUrl.length p.fullUrl
    .ok (subRel "/stoprel_".toList ("/stop_".toList ++ intText b) u.length u)
  | _, _ => .error .typeError

/-- mpdprocessor.py 185-191, with `insert_location` (232-236). -/
def locationStep (p : ProcCfg) (kids : List Xml) (pos : Nat) : Py (List Xml × Nat) :=
  if p.addLocation then do
    let u ← locationUrl p
    return (insertAt pos (.elem "Location".toList [] u []) kids, pos + 1)
  else .ok (kids, pos)

/-- mpdprocessor.py 238-255 `insert_service_description`, the element. -/
def serviceDescription : Xml :=
  .elem "ServiceDescription".toList [("id".toList, "0".toList)] "\n".toList
    [.elem "Latency".toList [("min".toList, "2000".toList), ("max".toList, "6000".toList),
       ("target".toList, "4000".toList), ("referenceId".toList, "0".toList)] [] [],
     .elem "PlaybackRate".toList [("min".toList, "0.96".toList), ("max".toList, "1.04".toList)] [] []]

/-- mpdprocessor.py 193-195. -/
def serviceStep (p : ProcCfg) (kids : List Xml) (pos : Nat) : List Xml × Nat :=
  if p.ll.isSome then (insertAt pos serviceDescription kids, pos + 1) else (kids, pos)

/-- mpdprocessor.py 205-207: `n` copies of `c` from position `pos` on. -/
def insertCopies (c : Xml) : Nat → Nat → List Xml → List Xml
  | _, 0, kids => kids
  | pos, n + 1, kids => insertCopies c (pos + 1) n (insertAt pos c kids)

/-- mpdprocessor.py 197-207: the first Period from position `pos` on is looked up, but the element
that is copied is the one at `pos`. -/
def copyPeriods (n : Nat) (kids : List Xml) (pos : Nat) : Py (List Xml × Nat) :=
  match (kids.drop pos).findIdx? (fun x => x.tag = "Period".toList), kids[pos]? with
  | some i, some period => .ok (insertCopies period (pos + i + 1) (n - 1) kids, pos + i)
  | _, _ => .error .mpdError

/-- mpdprocessor.py 409-422 `create_descriptor_elem` without an event (`value` empty: none). -/
def descriptor (name uri value : Text) : Xml :=
  .elem name (("schemeIdUri".toList, uri) :: (if value = [] then [] else [("value".toList, value)])) [] []

/-- mpdprocessor.py 45. -/
def ntpServer : Text := "1.de.pool.ntp.org".toList
/-- mpdprocessor.py 46. -/
def sntpServer : Text := "time.kfki.hu".toList
/-- mpdprocessor.py 47. -/
def httpTime : Text := "http://time.akamai.com/?iso".toList

/-- mpdprocessor.py 431-450: the element for one method. -/
def utcElem (p : ProcCfg) (method : Text) : Py Xml :=
  if method = "direct".toList then
    .ok (descriptor "UTCTiming".toList "urn:mpeg:dash:utc:direct:2014".toList p.direct)
  else if method = "head".toList then
    .ok (descriptor "UTCTiming".toList "urn:mpeg:dash:utc:http-head:2014".toList p.utcHead)
  else if method = "ntp".toList then
    .ok (descriptor "UTCTiming".toList "urn:mpeg:dash:utc:ntp:2014".toList ntpServer)
  else if method = "sntp".toList then
    .ok (descriptor "UTCTiming".toList "urn:mpeg:dash:utc:sntp:2014".toList sntpServer)
  else if method = "httpxsdate".toList then
    .ok (descriptor "UTCTiming".toList "urn:mpeg:dash:utc:http-xsdate:2014".toList httpTime)
  else if method = "httpiso".toList then
    .ok (descriptor "UTCTiming".toList "urn:mpeg:dash:utc:http-iso:2014".toList httpTime)
  else .error .mpdError

/-- mpdprocessor.py 424-453 `insert_utc_timings`. -/
def insertUtc (p : ProcCfg) : List Text → Nat → List Xml → Py (List Xml)
  | [], _, kids => .ok kids
  | m :: ms, pos, kids =>
    match utcElem p m with
    | .error e => .error e
    | .ok x => insertUtc p ms (pos + 1) (insertAt pos x kids)

/-! ### Periods -/

/-- A loop `for e in parent.findall(tag)` that changes the elements found, with a state. -/
def mapTag {σ : Type} (tag : Text) (f : σ → Xml → Py (Xml × σ)) : σ → List Xml → Py (List Xml × σ)
  | s, [] => .ok ([], s)
  | s, x :: xs =>
    if x.tag = tag then
      match f s x with
      | .error e => .error e
      | .ok (x', s') =>
        match mapTag tag f s' xs with
        | .error e => .error e
        | .ok (xs', s'') => .ok (x' :: xs', s'')
    else
      match mapTag tag f s xs with
      | .error e => .error e
      | .ok (xs', s') => .ok (x :: xs', s')

/-- `start_number` of the two timeline generators (mpdprocessor.py 312-315). -/
structure Gens where
  video : Option Int := none
  audio : Option Int := none
  deriving DecidableEq, Repr

/-- mpdprocessor.py 371 `segtimeline_generators[content_type]`: the table, the number so far, and
how to put in the number after the call. -/
def genOf (p : ProcCfg) (g : Gens) (ctype : Option Text) : Py (SegTable × Option Int × (Option Int → Gens)) :=
  if ctype = some "video".toList then
    match p.video with
    | some t => .ok (t, g.video, fun n => { g with video := n })
    | none => .error .keyError
  else if ctype = some "audio".toList then
    match p.audio with
    | some t => .ok (t, g.audio, fun n => { g with audio := n })
    | none => .error .keyError
  else .error .keyError

/-- segtimeline.py 225-234 `generate_s_elem`, the element. -/
def sXml (s : SElem) : Xml :=
  .elem "S".toList
    ((match s.t with | some t => [("t".toList, intText t)] | none => []) ++
     ("d".toList, natText s.d) ::
     (match s.r with | some r => [("r".toList, natText r)] | none => [])) [] []

/-- The text of the id of a period (mpd_proxy.py 217, 224, 242). -/
def periodId (pd : PeriodData) : Text := 'p' :: intText pd.id

/-- `'PT%dS' % n`. -/
def ptText (n : Int) : Text := "PT".toList ++ intText n ++ "S".toList

/-- mpdprocessor.py 369-406: the timeline of a segment template.  (`start_time` is not `None` when
`stop_time` is set; a `timeoffset` of `None` is not 0.) -/
def timelineStep (p : ProcCfg) (d : MpdData) (pd : PeriodData) (ctype : Option Text) (g : Gens) (t : Xml) :
    Py (Xml × Gens) :=
  match genOf p g ctype with
  | .error e => .error e
  | .ok (tab, before, put) =>
    let w := timelineWindow p.now p.tsbd p.ast pd.start pd.durS (p.startTime.getD 0) p.stopTime
      (p.timeoffset.getD 1)
    match createTimeline tab before w.1 w.2.1 w.2.2 with
    | .error e => .error e
    | .ok tl =>
      let t := (t.del "duration".toList).set "timescale".toList (natText tab.timescale)
      let t := if ¬(d.ptoText ∧ pd.pto = 0) ∧ ¬d.offsetAtPeriod then
          t.set "presentationTimeOffset".toList (intText (pd.pto * tab.timescale)) else t
      match t.get "media".toList with
      | none => .error .keyError
      | some media =>
        let t :=
          if p.tl then
            (t.del "startNumber".toList).set "media".toList
              (replaceText "$Number$".toList "t$Time$".toList media.length media)
          else (t.set "startNumber".toList (match tl.startNr with | some n => intText n | none => "None".toList)).set
            "media".toList media
        match tl.elems with
        | none => .error .typeError
        | some es =>
          .ok ((t.setText "\n".toList).insert 0 (.elem "SegmentTimeline".toList [] "\n".toList (es.map sXml)),
            put tl.startNr)

/-- mpdprocessor.py 360-406, one segment template.  (`del elem[key]` of line 280 is never reached:
the test is whether the name is a child of the element.) -/
def templateStep (p : ProcCfg) (d : MpdData) (pd : PeriodData) (ctype : Option Text) (g : Gens) (t : Xml) :
    Py (Xml × Gens) :=
  let t := t.set "startNumber".toList (intText pd.startNumber)
  let t := if (d.ptoText ∨ pd.pto ≠ 0) ∧ ¬d.offsetAtPeriod ∧ intText pd.pto ≠ "0".toList then
      t.set "presentationTimeOffset".toList (intText pd.pto) else t
  let t := match p.ll with
    | some ato => (t.set "availabilityTimeOffset".toList ato).set "availabilityTimeComplete".toList "false".toList
    | none => t
  let t := if intText pd.startNumber = "-1".toList then t.del "startNumber".toList else t
  if p.tl || p.tlNr then timelineStep p d pd ctype g t else .ok (t, g)

/-- mpdprocessor.py 257-268 `insert_producer_reference`, the element. -/
def producerReference : Xml :=
  .elem "ProducerReferenceTime".toList
    [("id".toList, "0".toList), ("type".toList, "encoder".toList),
     ("wallClockTime".toList, "1970-01-01T00:00:00".toList), ("presentationTime".toList, "0".toList)] "\n".toList
    [descriptor "UTCTiming".toList "urn:mpeg:dash:utc:http-iso:2014".toList httpTime]

/-- mpdprocessor.py 343-358: the descriptors put into an adaptation set. -/
def adSetKids (p : ProcCfg) (last : Option Text) (ctype : Option Text) (kids : List Xml) : List Xml :=
  let kids := if p.emsgLast then
      insertAt 0 (descriptor "InbandEventStream".toList "urn:mpeg:dash:event:2012".toList "1".toList) kids
    else kids
  let scte := ctype = some "video".toList ∧ p.scte35
  let kids := if scte then
      insertAt 0 (descriptor "InbandEventStream".toList "urn:scte:scte35:2013:xml".toList "999".toList) kids
    else kids
  let pos := if scte then 1 else 0
  let kids := match p.continuous, last with
    | true, some l =>
      insertAt pos (descriptor "SupplementalProperty".toList "urn:mpeg:dash:period_continuity:2014".toList l) kids
    | _, _ => kids
  if p.ll.isSome then insertAt pos producerReference kids else kids

/-- mpdprocessor.py 342-406, one adaptation set. -/
def adSetStep (p : ProcCfg) (d : MpdData) (pd : PeriodData) (last : Option Text) (g : Gens) (x : Xml) :
    Py (Xml × Gens) :=
  let ctype := x.get "contentType".toList
  match mapTag "SegmentTemplate".toList (templateStep p d pd ctype) g (adSetKids p last ctype x.kids) with
  | .error e => .error e
  | .ok (kids, g') => .ok (x.setKids kids, g')

/-- mpdprocessor.py 307-310 with 417-420: the EventStream element of a callback. -/
def callbackElem (url : Text) : Xml :=
  .elem "EventStream".toList
    [("schemeIdUri".toList, "urn:mpeg:dash:event:callback:2015".toList), ("value".toList, "1".toList)] []
    [.elem "Event".toList [("messageData".toList, url)] [] []]

/-- mpdprocessor.py 317-321: `BaseURLSegmented`, unbound without a BaseURL with enough parts. -/
def callbackUrl (kids : List Xml) : Option Text :=
  match kids.find? (fun x => x.tag = "BaseURL".toList) with
  | none => none
  | some b =>
    match splitChar '/' b.text with
    | a :: _ :: c :: d :: _ => some (a ++ "//".toList ++ c ++ '/' :: d ++ "/mpdcallback/".toList)
    | _ => none

/-- mpdprocessor.py 324-340: the attributes and first children of a period. -/
def periodHead (d : MpdData) (cb : Option Text) (pd : PeriodData) (x : Xml) : Py Xml :=
  let x := (x.set "id".toList (periodId pd)).set "start".toList (ptText pd.start)
  let x := match pd.etp with | some n => x.set "duration".toList (ptText n) | none => x
  let x := match pd.durAttr with | some n => x.set "duration".toList (ptText n) | none => x
  let x := if (d.ptoText ∨ pd.pto ≠ 0) ∧ d.offsetAtPeriod then
      x.insert 0 (.elem "SegmentBase".toList [("presentationTimeOffset".toList, intText pd.pto)] [] []) else x
  if pd.callback then
    match cb with
    | none => .error .unbound
    | some u => .ok (x.insert 0 (callbackElem u))
  else .ok x

/-- The state of the loop over the periods: the data of the periods still to come, the id of the
last period (`'-1'` at the start: none), the numbers of the generators. -/
structure PeriodState where
  rest : List PeriodData
  last : Option Text := none
  gens : Gens := {}
  deriving DecidableEq, Repr

/-- mpdprocessor.py 324-407, one period (`zip`: none without data). -/
def periodStep (p : ProcCfg) (d : MpdData) (cb : Option Text) (s : PeriodState) (x : Xml) :
    Py (Xml × PeriodState) :=
  match s.rest with
  | [] => .ok (x, s)
  | pd :: rest =>
    match periodHead d cb pd x with
    | .error e => .error e
    | .ok x =>
      match mapTag "AdaptationSet".toList (adSetStep p d pd s.last) s.gens x.kids with
      | .error e => .error e
      | .ok (kids, g) => .ok (x.setKids kids, ⟨rest, some (periodId pd), g⟩)

/-- mpdprocessor.py 270-407 `update_periods` on the children of the root.  The generators are made
for video and audio (311-315). -/
def updatePeriods (p : ProcCfg) (d : MpdData) (pds : List PeriodData) (kids : List Xml) : Py (List Xml) :=
  if (p.tl || p.tlNr) && (p.video.isNone || p.audio.isNone) then .error .keyError
  else
    match mapTag "Period".toList (periodStep p d (callbackUrl kids)) ⟨pds, none, {}⟩ kids with
    | .error e => .error e
    | .ok (kids, _) => .ok kids

/-- mpdprocessor.py 137-209 `process_mpd_children`. -/
def processKids (p : ProcCfg) (d : MpdData) (pds : List PeriodData) (kids : List Xml) : Py (List Xml) := do
  let (kids, pos) ← baseUrlStep p d kids
  let (kids, pos) ← locationStep p kids pos
  let (kids, pos) := serviceStep p kids pos
  let (kids, pos) ← copyPeriods pds.length kids pos
  let kids ← insertUtc p p.utc (pos + pds.length) kids
  updatePeriods p d pds kids

/-- mpdprocessor.py 88-94 `process`. -/
def processMpd (p : ProcCfg) (d : MpdData) (pds : List PeriodData) (vod : Xml) : Py Xml := do
  let mpd ← processRoot p d vod
  let kids ← processKids p d pds mpd.kids
  return mpd.setKids kids

/-! ### From the configuration -/

/-- The value of the six decimals that `'%f' % x` writes. -/
def fValue (x : Rat) : Rat := (pyRound (x * 1000000) : Rat) / 1000000

/-- `'%f' % x`.  (For a negative number that rounds to 0 Python writes a minus sign.) -/
def fText (x : Rat) : Text :=
  let n := pyRound (x * 1000000)
  (if n < 0 then "-".toList else []) ++ natText (n.natAbs / 1000000) ++ '.' ::
    ((List.range 6).map fun i => digitChar (n.natAbs / 10 ^ (5 - i) % 10))

/-- What `generate_dynamic_mpd` takes from the provider and its surroundings (dash_proxy.py
106-109): the URL before the options, the parts after it with the position of the content name, the
URL for the `head` method, the time for the `direct` method, and the segment tables. -/
structure MpdEnv where
  start : Text
  parts : List Text
  pos : Nat
  utcHead : Text := []
  direct : Text := []
  video : Option SegTable := none
  audio : Option SegTable := none

/-- configprocessor.py 125 `base_url` (with 107 of dash_proxy.py). -/
def MpdEnv.baseUrl (e : MpdEnv) : Text := e.start ++ joinSlash (e.parts.take (e.pos + 1)) ++ "/".toList

/-- mpd_proxy.py 110 `full_url`. -/
def MpdEnv.fullUrl (e : MpdEnv) : Text := e.start ++ joinSlash e.parts

/-- mpd_proxy.py 206-235: what `minimumUpdatePeriod` is in the end. -/
def mupText (c : Cfg) : Text :=
  let n := min c.periods 60
  if 0 < n then ptText (if c.segTimeline || c.segTimelineNr then c.segDur else 3600 / n / 2 - 5)
  else match c.mup with | some m => secondsToIso m | none => "P100Y".toList

/-- mpd_proxy.py 62-108 with configprocessor.py 356-382: the data for the processor. -/
def mpdDataOf (c : Cfg) (e : MpdEnv) (tsbd now : Int) : MpdData where
  static := match c.stopTime with | none => false | some s => decide (now > s)
  attrs :=
    [("availabilityStartTime".toList, makeTimestamp c.ast), ("minimumUpdatePeriod".toList, mupText c),
     ("timeShiftBufferDepth".toList, secondsToIso tsbd), ("maxSegmentDuration".toList, ptText c.segDur)] ++
    (match c.aet with
      | some a => if a = 0 then [] else [("availabilityEndTime".toList, makeTimestamp a)]
      | none => []) ++
    (match c.mpdDur with | some x => [("mediaPresentationDuration".toList, secondsToIso x)] | none => []) ++
    (match c.spd with | some x => [("suggestedPresentationDelay".toList, secondsToIso x)] | none => [])
  addProfiles := match c.chunkDur with
    | some x => if 0 < x then some ["http://www.dashif.org/guidelines/low-latency-live-v5".toList] else none
    | none => none
  baseUrl := e.baseUrl
  urls := c.multiUrl
  ato := if c.chunkDur.isNone then some (fValue c.ato, fText c.ato) else none
  atc := if c.chunkDur.isNone ∧ ¬c.atoComplete then some "false".toList else none
  offsetAtPeriod := decide (0 ≤ c.periodOffset)
  ptoText := decide (min c.periods 60 ≤ 0)

/-- mpd_proxy.py 90-108: the settings of the processor. -/
def procCfgOf (c : Cfg) (e : MpdEnv) (tsbd now : Int) : ProcCfg where
  scte35 := decide (0 < c.scte35)
  utc := match c.chunkDur with
    | some x => if 0 < x ∧ c.utc = [] then ["httpiso".toList] else c.utc
    | none => c.utc
  utcHead := e.utcHead
  direct := e.direct
  continuous := c.contMultiperiod
  tl := c.segTimeline
  tlNr := c.segTimelineNr
  loss := c.segtimelineloss
  emsgLast := c.emsgLastSeg
  addLocation := c.addLocation
  fullUrl := e.fullUrl
  startTime := c.startTime
  stopTime := c.stopTime
  timeoffset := c.timeoffset
  publish := makeTimestamp now
  now := now
  tsbd := tsbd
  ast := c.ast
  ll := if c.chunkDur.isNone then none else some (fText c.ato)
  video := e.video
  audio := e.audio

/-- mpd_proxy.py 62-115 `generate_dynamic_mpd`; `vod` is the parsed VoD manifest.  The text of the
result (`get_full_xml`) is in XmlText.lean. -/
def generateXml (c : Cfg) (e : MpdEnv) (now : Int) (vod : Xml) : Py Xml := do
  let tsbd ← (match c.tsbd with | none => .error .typeError | some t => pure t)
  let _ ← c.adjustedStartNumber
  let pds ← periodData c now
  processMpd (procCfgOf c e tsbd now) (mpdDataOf c e tsbd now) pds vod

end Verif
