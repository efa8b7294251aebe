import Verif.Wsgi
import Verif.Xlink
import Verif.MediaBody
/-
Model of the content side of a request: mod_wsgi/mod_dashlivesim.py 150-187 with dash_proxy.py 86-118
(`createProvider`), which connects URL processing, manifests, init segments, media segments and thumbnails to the
WSGI application.
-/
namespace Verif

/-- What a server has: the parser of floating point numbers, the configurations (by content name), the files and the
parsed VoD manifests of every content, the segment tables of every content (video, audio), and the texts of error
messages, which are not modelled. -/
structure Site where
  pf : Text → Option Rat
  vodOf : Text → Py VodCfg
  files : Text → Files
  manifest : Text → Text → Py Xml
  tables : Text → Option SegTable × Option SegTable := fun _ => (none, none)
  refusal : Request → Rat → Bytes := fun _ _ => []
  failure : Request → Rat → Bytes := fun _ _ => []

/-- dash_proxy.py 106: `is_https and "https" or "http"` with `://` and the host. -/
def Request.origin (r : Request) : Text :=
  (if r.https then "https".toList else "http".toList) ++ "://".toList ++ r.host

/-- configprocessor.py 397-400, 494: the position of the content name in the URL. -/
def contentPos (parts : List Text) : Nat := (parts.takeWhile fun p => (optKey (splitFirst p).1).isSome).length

/-- dash_proxy.py 106-109 for the URL parts `first :: parts`.  The time of the `direct` method is read when the manifest
is made; here it is the time of the request. -/
def mpdEnvOf (s : Site) (r : Request) (first : Text) (parts : List Text) (name : Text) (now : Int) : MpdEnv where
  start := r.origin ++ "/".toList ++ first ++ "/".toList
  parts := parts
  pos := contentPos parts
  utcHead := r.origin ++ "/".toList ++ "dash/time.txt".toList
  direct := makeTimestamp now
  video := (s.tables name).1
  audio := (s.tables name).2

/-- mod_dashlivesim.py 158-161 with dash_proxy.py 141-187: a media segment. -/
def provideMedia (s : Site) (r : Request) (c : Cfg) (now : Rat) : Provided :=
  match getMedia s.pf c now with
  | .error _ => .raised (s.failure r now)
  | .ok (.media w) =>
    match mediaBody (s.files c.contentName) c w (makeTimestamp (pyTrunc now)) with
    | .error _ => .raised (s.failure r now)
    | .ok (.whole b) => .data b
    | .ok (.chunked start l) => .chunked start (c.chunkDur.getD 0) l
  | .ok _ => .refused (s.refusal r now)

/-- mod_dashlivesim.py 168-169 with dash_proxy.py 326-383: a thumbnail. -/
def provideThumb (s : Site) (r : Request) (c : Cfg) (now : Rat) : Provided :=
  match getMedia s.pf c now with
  | .error _ => .raised (s.failure r now)
  | .ok (.thumb nr) =>
    match (s.files c.contentName).read (segmentFile c.relPath nr c.ext) with
    | .error _ => .raised (s.failure r now)
    | .ok b => .data b
  | .ok _ => .refused (s.refusal r now)

/-- mod_dashlivesim.py 166-167 with dash_proxy.py 129-138: an init segment. -/
def provideInit (s : Site) (r : Request) (c : Cfg) (now : Rat) : Provided :=
  match getInit c now with
  | .error _ => .raised (s.failure r now)
  | .ok .tooEarly => .refused (s.refusal r now)
  | .ok _ =>
    match initBody (s.files c.contentName) c with
    | .error _ => .raised (s.failure r now)
    | .ok none => .refused (s.refusal r now)
    | .ok (some b) => .data b

/-- mod_dashlivesim.py 164-165, 171-173: a manifest or a period, encoded. -/
def provideMpd (s : Site) (r : Request) (first : Text) (parts : List Text) (c : Cfg) (now : Rat) : Provided :=
  match getMpdText c (mpdEnvOf s r first parts c.contentName (pyTrunc now)) (pyTrunc now) (s.manifest c.contentName) with
  | .error _ => .raised (s.failure r now)
  | .ok t => .data (utf8 t)

/-- mod_dashlivesim.py 152-187: `createProvider` and the choice by the extension.  For another extension `response` is
not defined, which raises. -/
def provide (s : Site) (r : Request) (now : Rat) : Provided :=
  match r.parts.drop 1 with
  | [] => .raised (s.failure r now)
  | first :: parts =>
    match processUrl s.pf s.vodOf parts (pyTrunc now) with
    | .error _ => .raised (s.failure r now)
    | .ok c =>
      if c.ext = ".m4s".toList then provideMedia s r c now
      else if c.ext = ".mpd".toList ∨ c.ext = ".period".toList then provideMpd s r first parts c now
      else if c.ext = ".mp4".toList then provideInit s r c now
      else if c.ext = ".jpg".toList then provideThumb s r c now
      else .raised (s.failure r now)

/-- What is fixed when the server starts: `SERVER_AGENT`, the constant bodies, `MAX_SESSION_LENGTH`. -/
structure Setup where
  agent : Text
  notFound : Bytes
  gates : GateBodies
  maxLen : Int

/-- mod_dashlivesim.py 89-213: the reply of the server, up to the delivery of the body.  `sid` is the generated session
id, `dflt` the state of the shared default dictionary. -/
def serve (u : Setup) (s : Site) (sid : Text) (dflt : Headers) (r : Request) (now : Rat) : Py (Reply × Body) × Headers :=
  application u.agent u.notFound u.gates u.maxLen sid (provide s) dflt r now

end Verif
