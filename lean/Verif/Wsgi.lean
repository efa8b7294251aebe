import Verif.Media
/-
Model of mod_wsgi/mod_dashlivesim.py: session gate, replies, byte ranges, chunk delivery; and of
the delivery loop of dashlib/chunker.py.
-/
namespace Verif

/-! ### Replies -/

/-- A Python dict with text keys and values, in insertion order. -/
abbrev Headers := List (Text × Text)

/-- `headers[k] = v`: overwrite in place or append. -/
def setHeader (h : Headers) (k v : Text) : Headers :=
  match h with
  | [] => [(k, v)]
  | (k', v') :: r => if k' = k then (k', v) :: r else (k', v') :: setHeader r k v

/-- `headers.get(k)`. -/
def getHeader (h : Headers) (k : Text) : Option Text := (h.find? (fun p => p.1 = k)).map (·.2)

/-- mod_dashlivesim.py 62-71: the headers of every reply; `agent` is `SERVER_AGENT`. -/
def defaultHeaders (agent : Text) : Headers :=
  [("Accept-Ranges".toList, "bytes".toList),
   ("Pragma".toList, "no-cache".toList),
   ("Cache-Control".toList, "no-cache".toList),
   ("Expires".toList, "-1".toList),
   ("DASH-Live-Simulator".toList, agent),
   ("Access-Control-Allow-Headers".toList, "origin,range,accept-encoding,referer".toList),
   ("Access-Control-Allow-Methods".toList, "GET,HEAD,OPTIONS".toList),
   ("Access-Control-Allow-Origin".toList, "*".toList),
   ("Access-Control-Expose-Headers".toList, "Server,range,Content-Length,Content-Range,Date".toList)]

/-- What is handed to the WSGI `start_response`: status code and header list. -/
structure Reply where
  status : Nat
  headers : Headers
  deriving DecidableEq, Repr

/-- mod_dashlivesim.py 58-79 `start_reply`: the dict after the updates.  The status text is
left out; the lookup in `status_string` does not fail for the codes used. -/
def replyHeaders (agent : Text) (h : Headers) (length : Int) : Headers :=
  let h := (defaultHeaders agent).foldl (fun h p => setHeader h p.1 p.2) h
  let h := if 0 ≤ length then setHeader h "Content-Length".toList (intText length) else h
  if (getHeader h "Content-Type".toList).isNone then setHeader h "Content-Type".toList "text/plain".toList
  else h

/-- mod_dashlivesim.py 58 `start_reply(status_code, response, length=-1, headers={})` with the
default dictionary as explicit state `dflt` (it is created once and shared by all calls that
give no headers). -/
def startReply (agent : Text) (dflt : Headers) (code : Nat) (length : Int) (h : Option Headers) :
    Reply × Headers :=
  match h with
  | some h => ({ status := code, headers := replyHeaders agent h length }, dflt)
  | none =>
    let d := replyHeaders agent dflt length
    ({ status := code, headers := d }, d)

/-! ### Byte ranges -/

/-- Python slice `data[a:b]` with arbitrary int bounds. -/
def pySlice (data : List α) (a b : Int) : List α :=
  let norm (i : Int) : Nat := if i < 0 then (i + data.length).toNat else i.toNat
  slice data (norm a) (norm b)

/-- The second component of the result of `handle_byte_range`: `None`, the empty string or a
header value. -/
inductive RangeOut where
  | multi
  | bad
  | range (first last total : Int)
  deriving DecidableEq, Repr

/-- mod_dashlivesim.py 270: the text of the header value (`None` for several ranges: the WSGI
server gets a header with value `None`). -/
def RangeOut.text : RangeOut → Option Text
  | .multi => none
  | .bad => some []
  | .range a b n => some ("bytes ".toList ++ intText a ++ '-' :: intText b ++ '/' :: intText n)

/-- mod_dashlivesim.py 242-271 `handle_byte_range`. -/
def handleByteRange (payload : Bytes) (line : Text) : Py (Bytes × RangeOut) :=
  let parts := (splitChar '=' line).getLastD []
  match splitChar ',' parts with
  | [interval] =>
    let length : Int := payload.length
    match splitChar '-' interval with
    | [s, e] =>
      if s = [] ∧ e = [] then .ok (payload, .bad)
      else do
        let (a, b) ← (if s = [] then do
            let n ← pyInt e
            pure (length - n, length - 1)
          else do
            let a ← pyInt s
            if e ≠ [] then do
              let b ← pyInt e
              pure (a, min b (length - 1))
            else pure (a, length - 1))
        if b < a then .ok (payload, .bad)
        else .ok (pySlice payload a (b + 1), .range a b length)
    | _ => .error .valueError
  | _ => .ok (payload, .multi)

/-! ### The application -/

/-- What `application` reads from the WSGI environment (mod_dashlivesim.py 92-100); `parts` is
the path split at the slashes. -/
structure Request where
  host : Text
  parts : List Text
  query : Text := []
  https : Bool := false
  range : Option Text := none
  deriving DecidableEq, Repr

/-- mod_dashlivesim.py 110-114: one iteration of the search for a start time. -/
def stsStep (acc : Option Int) (p : Text) : Option Int :=
  if "sts_".toList.isPrefixOf p then
    match pyInt (p.drop 4) with
    | .ok n => some n
    | .error _ => acc
  else acc

/-- mod_dashlivesim.py 109-114: the start time in the URL, from the last part `sts_<int>`. -/
def stsTime (parts : List Text) : Option Int := parts.foldl stsStep none

/-- `'/'.join(parts)`. -/
def joinParts : List Text → Text
  | [] => []
  | [p] => p
  | p :: ps => p ++ '/' :: joinParts ps

/-- mod_dashlivesim.py 120-122: the path of the redirection. -/
def redirectParts (parts : List Text) (now : Rat) (sid : Text) : List Text :=
  parts.take 2 ++ ["sts_".toList ++ intText (pyTrunc now)] ++ ["sid_".toList ++ sid] ++ parts.drop 2

/-- mod_dashlivesim.py 117-125. -/
def redirectUrl (r : Request) (now : Rat) (sid : Text) : Text :=
  (if r.https then "https://".toList else "http://".toList) ++ r.host ++
    joinParts (redirectParts r.parts now sid) ++ (if r.query = [] then [] else '?' :: r.query)

/-- What the session gate decides (mod_dashlivesim.py 106-137). -/
inductive Gate where
  | redirect
  | noStart
  | expired
  | future
  | pass
  deriving DecidableEq, Repr

/-- `ext = splitext(path_parts[-1])[1]` (line 98); `path_parts` is never empty. -/
def Request.ext (r : Request) : Text := (splitext (r.parts.getLastD [])).2

/-- mod_dashlivesim.py 106-137 for the limit `maxLen` (`MAX_SESSION_LENGTH`). -/
def gate (maxLen : Int) (r : Request) (now : Rat) : Gate :=
  if maxLen = 0 then .pass
  else match stsTime r.parts with
    | none => if r.ext = ".mpd".toList then .redirect else .noStart
    | some t =>
      if now > t + maxLen then .expired
      else if (t : Rat) > now + 5 then .future
      else .pass

/-- mod_dashlivesim.py 230-239 `get_mime_type`. -/
def mimeType (ext : Text) : Text :=
  if ext = ".mpd".toList then "application/dash+xml".toList
  else if ext = ".m4s".toList then "video/iso.segment".toList
  else if ext = ".mp4".toList then "video/mp4".toList
  else "text/plain".toList

/-- What the content side produces (mod_dashlivesim.py 152-187): data (`bytes`, or `str` encoded
to UTF-8), an error dictionary (`ok = False`; no code path makes one with `ok = True`), a
chunked segment, or an exception with its message text (encoded). -/
inductive Provided where
  | data (b : Bytes)
  | refused (msg : Bytes)
  | chunked (segStart chunkDur : Rat) (chunks : List Bytes)
  | raised (msg : Bytes)
  deriving DecidableEq, Repr

/-- The body of a reply: at once, or a chunk sequence to be delivered in time. -/
inductive Body where
  | whole (b : Bytes)
  | chunks (segStart chunkDur : Rat) (chunks : List Bytes)
  deriving DecidableEq, Repr

/-- mod_dashlivesim.py 188-193: payload of an unsuccessful request. -/
def errorPayload (notFound : Bytes) (b : Bytes) : Bytes := if b = [] then notFound else b

/-- mod_dashlivesim.py 141-213: the reply to a request that passes the gate.  `notFound` are the
bytes of "Not found (now)".  Exceptions here are outside the `try` of the code: they reach the
WSGI server and no reply is started. -/
def answer (agent : Text) (notFound : Bytes) (r : Request) (p : Provided) : Py (Reply × Body) :=
  let reply (code : Nat) (length : Int) (h : Headers) : Reply := (startReply agent [] code length (some h)).1
  let fail (b : Bytes) : Py (Reply × Body) :=
    let b := errorPayload notFound b
    .ok (reply 404 b.length [("Content-Type".toList, "text/plain".toList)], .whole b)
  match p with
  | .raised m => fail m
  | .refused m => fail m
  | .chunked s d cs =>
    .ok (reply 200 (-1) [("Content-Type".toList, mimeType r.ext)], .chunks s d cs)
  | .data b =>
    if b = [] then fail b
    else
      let h : Headers := [("Content-Type".toList, mimeType r.ext)]
      match r.range with
      | none => .ok (reply 200 b.length h, .whole b)
      | some line =>
        if line = [] then .ok (reply 200 b.length h, .whole b)
        else do
          let (out, ro) ← handleByteRange b line
          match ro with
          | .bad => .ok (reply 200 out.length h, .whole out)
          | ro => .ok (reply 206 out.length
              (setHeader h "Content-Range".toList (ro.text.getD "None".toList)), .whole out)

/-- The constant bodies of the gate (mod_dashlivesim.py 126-137), as bytes of the texts. -/
structure GateBodies where
  noStart : Bytes
  expired : Bytes
  future : Bytes

/-- mod_dashlivesim.py 89-213 `application` up to the delivery of the body. `provide` is the
content side; `dflt` the shared default dictionary of `start_reply`; the new value of that
dictionary is returned. -/
def application (agent : Text) (notFound : Bytes) (gb : GateBodies) (maxLen : Int) (sid : Text)
    (provide : Request → Rat → Provided) (dflt : Headers) (r : Request) (now : Rat) :
    Py (Reply × Body) × Headers :=
  let dfltReply (code : Nat) (b : Bytes) : Py (Reply × Body) × Headers :=
    let x := startReply agent dflt code b.length none
    (.ok (x.1, .whole b), x.2)
  match gate maxLen r now with
  | .redirect =>
    (.ok ((startReply agent dflt 302 0 (some [("Location".toList, redirectUrl r now sid)])).1, .whole []), dflt)
  | .noStart => dfltReply 404 gb.noStart
  | .expired => dfltReply 410 gb.expired
  | .future => dfltReply 404 gb.future
  | .pass => (answer agent notFound r (provide r now), dflt)

/-! ### Chunk delivery -/

/-- One iteration of a delivery loop: how much time passes before the clock is read (the client
takes its time), and by how much a sleep overshoots. -/
structure Step where
  idle : Rat
  over : Rat
  deriving DecidableEq, Repr

/-- A delivered chunk: when the clock was read and when the chunk left. -/
structure Delivery where
  chunk : Bytes
  read : Rat
  sent : Rat
  deriving DecidableEq, Repr

/-- mod_dashlivesim.py 214-227: the delivery loop from chunk number `i` on, at time `t`.  The
clock is an arbitrary non-decreasing one, given by the steps of the environment. -/
def deliver (segStart dur margin : Rat) : Nat → Rat → List Bytes → List Step → List Delivery
  | i, t, c :: cs, e :: es =>
    let now := t + e.idle
    let avail := segStart + i * dur - margin
    let wait := avail - now
    let t' := if wait > 0 then now + wait + e.over else now
    { chunk := c, read := now, sent := t' } :: deliver segStart dur margin (i + 1) t' cs es
  | _, _, _, _ => []

/-- chunker.py 107-121 `simulate_continuous_production`: the clock (`seen` is the last value
read) is only read again when the chunk does not seem available by the old value. -/
def produce (segStart dur : Rat) : Nat → Rat → Rat → List Bytes → List Step → List Delivery
  | i, t, seen, c :: cs, e :: es =>
    let avail := segStart + i * dur
    if avail - seen > 0 then
      let now := t + e.idle
      let wait := avail - now
      let t' := if wait > 0 then now + wait + e.over else now
      { chunk := c, read := now, sent := t' } :: produce segStart dur (i + 1) t' now cs es
    else
      { chunk := c, read := t + e.idle, sent := t + e.idle } ::
        produce segStart dur (i + 1) (t + e.idle) seen cs es
  | _, _, _, _, _ => []

end Verif
