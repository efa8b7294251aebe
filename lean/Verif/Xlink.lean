import Verif.XmlText
import Verif.Media
import Verif.Spec.XmlReader
/-
Model of `get_mpd` (mpd_proxy.py 10-59) on the text of the manifest: the option `segtimelineloss`
and periods that are replaced by links (`generate_response_with_xlink`, `insert_asset_identifier`).
-/
namespace Verif

/-! ### Python on texts -/

/-- A bound of a slice: negative numbers count from the end. -/
def pyIndex (n : Nat) (i : Int) : Nat := if i < 0 then (i + n).toNat else min i.toNat n

/-- The first place where `sub` occurs. -/
def findAt (sub : Text) : Text → Option Nat
  | [] => if sub.isPrefixOf [] then some 0 else none
  | c :: cs => if sub.isPrefixOf (c :: cs) then some 0 else (findAt sub cs).map (· + 1)

/-- `t.find(sub, start)` for a text `sub` that is not empty. -/
def pyFind (sub t : Text) (start : Int) : Int :=
  match findAt sub (t.drop (pyIndex t.length start)) with
  | some i => (pyIndex t.length start : Int) + i
  | none => -1

/-- `t[a:b]`. -/
def textSlice (a b : Int) (t : Text) : Text := (t.take (pyIndex t.length b)).drop (pyIndex t.length a)

/-- `t.replace(old, new)`; an empty `old` is found between all characters. -/
def pyReplace (old new t : Text) : Text :=
  if old = [] then new ++ t.flatMap (fun c => c :: new) else replaceText old new t.length t

/-- `t.replace(old, new, 1)` for a text `old` that is not empty. -/
def replaceOnce (old new : Text) : Text → Text
  | [] => []
  | c :: cs => if old.isPrefixOf (c :: cs) then new ++ (c :: cs).drop old.length else c :: replaceOnce old new cs

/-- The last place where `sub` occurs. -/
def lastAt (sub : Text) : Text → Option Nat
  | [] => none
  | c :: cs =>
    match lastAt sub cs with
    | some i => some (i + 1)
    | none => if sub.isPrefixOf (c :: cs) then some 0 else none

/-- mpd_proxy.py 136: the first element of `findall('<BaseURL>([^"]*)</BaseURL>', response)`.  (The
pattern takes as many characters as it can.) -/
def firstBaseUrl : Text → Option Text
  | [] => none
  | c :: cs =>
    if "<BaseURL>".toList.isPrefixOf (c :: cs) then
      match lastAt "</BaseURL>".toList (((c :: cs).drop 9).takeWhile (· ≠ '"')) with
      | some i => some ((((c :: cs).drop 9).takeWhile (· ≠ '"')).take i)
      | none => firstBaseUrl cs
    else firstBaseUrl cs

/-! ### Links -/

/-- mpd_proxy.py 129-130: the ids of the periods; the number is the depth.  (The elements are those
that the reader of Spec/XmlReader.lean reports.) -/
def idsFrom : Nat → List Spec.XmlEvent → Py (List Text)
  | _, [] => .ok []
  | d, .start u n a :: r =>
    if d = 1 ∧ u = some dashUri ∧ n = "Period".toList then
      match a.find? (fun p => p.1 = (none, "id".toList)) with
      | none => .error .keyError
      | some p =>
        match idsFrom (d + 1) r with
        | .error e => .error e
        | .ok ids => .ok (p.2 :: ids)
    else idsFrom (d + 1) r
  | d, .stop :: r => idsFrom (d - 1) r
  | d, .chars _ :: r => idsFrom d r

/-- mpd_proxy.py 127-130.  `ET.fromstring` is modelled by the reader of Spec/XmlReader.lean; a text
that it rejects raises (`ParseError`, here a `valueError`). -/
def periodIds (t : Text) : Py (List Text) :=
  match Spec.readXml t with
  | none => .error .valueError
  | some ev => idsFrom 0 ev

/-- mpd_proxy.py 134-135: the ids of periods that become links. -/
def xlinkIds (ratio : Int) : List Text → Py (List Text)
  | [] => .ok []
  | x :: xs =>
    match pyInt (x.drop 1) with
    | .error e => .error e
    | .ok n =>
      if ratio = 0 then .error .zeroDivision
      else
        match xlinkIds ratio xs with
        | .error e => .error e
        | .ok r => .ok (if Int.fmod n ratio = 0 then x :: r else r)

/-- The end of the start tag of a link. -/
def linkTail : Text := "\" xlink:actuate=\"onLoad\" xmlns:xlink=\"http://www.w3.org/1999/xlink\"></Period>".toList

/-- mpd_proxy.py 147-166: the element that replaces a period. -/
def xlinkPeriod (base : Option Text) (file : Text) (ad : Int) (pid : Text) : Py Text :=
  if ad = 4 then
    .ok ("<Period xlink:href=\"http://vm1.dashif.org/dynamicxlink/invalidurl.php".toList ++ linkTail)
  else if ad = 3 then
    .ok ("<Period xlink:href=\"http://vm1.dashif.org/dynamicxlink/ad.php?id=6_ad_twoperiods_withremote".toList ++ linkTail)
  else if ad = 2 then
    .ok ("<Period xlink:href=\"http://vm1.dashif.org/dynamicxlink/ad.php?id=6_ad_twoperiods".toList ++ linkTail)
  else if ad = 1 ∨ ad = 5 then
    .ok ("<Period xlink:href=\"http://vm1.dashif.org/dynamicxlink/ad.php?id=6_ad".toList ++ linkTail)
  else
    match base with
    | none => .error .indexError
    | some b => .ok ("<Period xlink:href=\"".toList ++ b ++ file ++ '+' :: pid ++ ".period".toList ++ linkTail)

/-- mpd_proxy.py 295-297. -/
def assetText : Text :=
  "\n<AssetIdentifier schemeIdUri=\"urn:org:dashif:asset-id:2013\" value=\"md:cid:EIDR:10.5240%2f0EFB-02CD-126E-8092-1E49-W\"></AssetIdentifier>".toList

/-- mpd_proxy.py 294-298 `insert_asset_identifier`. -/
def insertAsset (t : Text) (start : Int) : Text :=
  let pos := pyFind ">".toList t start + 1
  textSlice 0 pos t ++ assetText ++ t.drop (pyIndex t.length pos)

/-- mpd_proxy.py 172-174. -/
def defaultNote : Text := "\n<!--Default content that will be played if the xlink is not able to load.-->".toList

/-- mpd_proxy.py 140-180: one period; the state is the text and the number of links so far. -/
def linkStep (base : Option Text) (file : Text) (ad : Int) (links : List Text) (s : Text × Nat) (pid : Text) :
    Py (Text × Nat) :=
  let start := pyFind pid s.1 0 - 12
  let stop := pyFind "</Period>".toList s.1 start + 9
  if pid ∈ links then
    let orig := textSlice start stop s.1
    match xlinkPeriod base file ad pid with
    | .error e => .error e
    | .ok link =>
      if 0 < ad ∧ s.2 + 1 = 1 then .ok (insertAsset s.1 start, s.2 + 1)
      else
        let link :=
          if ad = 5 then
            link.take (link.length - 9) ++ defaultNote ++ orig.drop (pyIndex orig.length (pyFind ">".toList orig 0 + 1))
          else link
        .ok (pyReplace orig link s.1, s.2 + 1)
  else .ok (if 0 < ad then insertAsset s.1 start else s.1, s.2)

/-- mpd_proxy.py 140-180: the loop over the periods. -/
def linkLoop (base : Option Text) (file : Text) (ad : Int) (links : List Text) : List Text → Text × Nat → Py Text
  | [], s => .ok s.1
  | pid :: ps, s =>
    match linkStep base file ad links s pid with
    | .error e => .error e
    | .ok s' => linkLoop base file ad links ps s'

/-- mpd_proxy.py 127-180: `generate_response_with_xlink` for a manifest. -/
def linkManifestText (t file : Text) (n x ad : Int) : Py Text :=
  match periodIds t with
  | .error e => .error e
  | .ok ids =>
    match xlinkIds (Int.fdiv n x) ids with
    | .error e => .error e
    | .ok links => linkLoop (firstBaseUrl t) file ad links ids (t, 0)

/-- mpd_proxy.py 181-196: `generate_response_with_xlink` for a period. -/
def linkedPeriodText (t file : Text) : Py Text :=
  match splitChar '+' file with
  | _ :: name :: _ =>
    let startNs := pyFind "xmlns=".toList t 0
    let stopNs := pyFind "\"".toList t (startNs + 7) + 1
    let start := pyFind (textSlice 0 (-7) name) t 0 - 12
    let stop := pyFind "</Period>".toList t start + 9
    .ok (replaceOnce "\">".toList ("\" ".toList ++ textSlice startNs stopNs t ++ ">".toList) (textSlice start stop t))
  | _ => .error .indexError

/-! ### The reply -/

/-- mpd_proxy.py 13-19: the name of the manifest that is read. -/
def manifestName (c : Cfg) : Py Text :=
  if c.ext = ".period".toList then
    match splitChar '+' c.filename with
    | name :: _ => .ok name
    | [] => .error .indexError
  else if c.ext = ".mpd".toList then .ok c.filename
  else .error .valueError

/-- What the losses of the timeline ask for: nothing, the manifest of another time, or the announced
end. -/
inductive TimelineLoss where
  | plain
  | last (time : Int)
  | announce
  deriving DecidableEq, Repr

/-- mpd_proxy.py 44-53: the loop over `i = k, k+1, …` (`fuel` iterations left); `act` is what the
last manifest made is. -/
def lossLoop (dur1 total now m : Int) : Nat → Int → TimelineLoss → TimelineLoss
  | 0, _, act => act
  | fuel + 1, i, act =>
    if i * total + dur1 < m ∧ m ≤ (i + 1) * total then .last (now - m + (i * total + dur1))
    else lossLoop dur1 total now m fuel (i + 1) (if m = i * total + dur1 then .announce else act)

/-- mpd_proxy.py 36-43. -/
def timelineLoss (c : Cfg) (now : Int) : Py TimelineLoss :=
  match c.multiUrl with
  | [] => .ok .plain
  | u :: _ =>
    if c.segtimelineloss then do
      let (ca, d1, cb, d2) ← parseUpDown u
      if d1 + d2 = 0 then .error .zeroDivision
      else if ca = 'u' ∧ cb = 'd' then
        return lossLoop d1 (d1 + d2) now (Int.fmod now 60) ((60 : Rat) / (d1 + d2 : Int)).ceil.toNat 0 .plain
      else return .plain
    else .ok .plain

/-- mpd_proxy.py 34-53: the text of the manifest.  (The manifest of the time of the request is made
in any case; an exception in it is raised.) -/
def lossText (c : Cfg) (e : MpdEnv) (now : Int) (vod : Xml) : Py Text := do
  let t ← generateText c e now vod
  match ← timelineLoss c now with
  | .plain => return t
  | .last time => generateText c e time vod
  | .announce => generateText { c with emsgLastSeg := true } e now vod

/-- mpd_proxy.py 10-59 `get_mpd`; `files` gives the VoD manifests of the content by their names. -/
def getMpdText (c : Cfg) (e : MpdEnv) (now : Int) (files : Text → Py Xml) : Py Text := do
  let name ← manifestName c
  let _ ← checkXlink c
  let vod ← files name
  let t ← lossText c e now vod
  if 0 < min c.xlink 60 then
    if c.ext = ".mpd".toList then linkManifestText t c.filename (min c.periods 60) (min c.xlink 60) c.insertAd
    else linkedPeriodText t c.filename
  else return t

end Verif
