import Verif.Media
import Verif.MediaFilter
import Verif.InitFilter
import Verif.Chunker
import Verif.Muxer
import Verif.Ttml
/-
Model of the part of dashlib/dash_proxy.py that turns a decision into bytes: `process_init_segment`,
the end of `process_media_segment`, `get_trex_data`, `filter_media_segment`.
-/
namespace Verif

/-- The files of a content directory: what a path relative to it holds, and the names in a directory. -/
structure Files where
  file : Text → Option Bytes
  list : Text → Option (List Text)

/-- `open(path, "rb").read()`. -/
def Files.read (fs : Files) (p : Text) : Py Bytes :=
  match fs.file p with
  | none => .error .osError
  | some b => .ok b

/-- dash_proxy.py 310: `join(content_dir, content_name, rel_path, "%d%s" % (vod_nr, seg_ext))`, relative to
the directory of the content. -/
def segmentFile (rel : Text) (nr : Int) (ext : Text) : Text :=
  (if rel = [] then [] else rel ++ ['/']) ++ intText nr ++ ext

/-- dash_proxy.py 311-321: the arguments of the filter.  `stamp` is `make_timestamp(now)`. -/
def segmentFilter (c : Cfg) (rep : Rep) (w : Served) (stamp : Text) (defDur : Option Nat) : MfCfg :=
  { segNr := some w.segNr, segDur := c.segDur, offset := w.offset, lmsg := w.lmsg, timescale := some rep.timescale,
    perMinute := if rep.contentType = "video".toList then c.scte35 else 0,
    insertSidx := c.insertSidx, emsgLast := if w.emsgLast then some stamp else none, defaultDur := defDur }

/-- dash_proxy.py 307-323 `filter_media_segment`. -/
def filterSegment (fs : Files) (c : Cfg) (rep : Rep) (rel : Text) (w : Served) (stamp : Text)
    (defDur : Option Nat) : Py (Bytes × MfState) :=
  match fs.read (segmentFile rel w.vodNr c.ext) with
  | .error e => .error e
  | .ok data =>
    if rep.contentType = "subtitles".toList then
      filterTtml (fun x => .ok (adjustTtml w.offset w.segNr x)) (segmentFilter c rep w stamp defDur) data
    else filterMedia (segmentFilter c rep w stamp defDur) data

/-- dash_proxy.py 297-303 `get_trex_data`. -/
def trexData (fs : Files) (rel : Text) : Py InitInfo :=
  match fs.read ((if rel = [] then [] else rel ++ ['/']) ++ "init.mp4".toList) with
  | .error e => .error e
  | .ok b => initInfo b

/-- `"/".join(rel_path.split("/")[:-1] + [id])` (dash_proxy.py 285-287). -/
def beside (rel id : Text) : Text := joinSlash ((splitChar '/' rel).dropLast ++ [id])

/-- The body of a media reply: at once, or in chunks with the start of production. -/
inductive MediaBody where
  | whole (b : Bytes)
  | chunked (segStart : Int) (chunks : List Bytes)
  deriving DecidableEq

/-- dash_proxy.py 277: `int(cfg.chunk_duration_in_s * cfg.reps[0]['timescale'])`; the product is exact here
(floating point in the code). -/
def chunkTicks (d : Rat) (ts : Int) : Int := pyTrunc (d * ts)

/-- dash_proxy.py 268-294, the end of `process_media_segment`; chunked as mod_dashlivesim.py 159-161 asks for it.
Simplification: without trex defaults chunking raises a `TypeError`, in the code only when one is needed. -/
def mediaBody (fs : Files) (c : Cfg) (w : Served) (stamp : Text) : Py MediaBody :=
  match c.reps with
  | [] => .error .indexError
  | [r] =>
    match c.chunkDur with
    | some d =>
      if 0 < d then
        match trexData fs c.relPath with
        | .error e => .error e
        | .ok info =>
          match filterSegment fs c r c.relPath w stamp info.defDur with
          | .error e => .error e
          | .ok (seg, _) =>
            match info.defDur, info.defSize, info.defFlags with
            | some a, some b, some f =>
              match chunk seg (chunkTicks d r.timescale) ⟨a, b, f⟩ with
              | .error e => .error e
              | .ok l => .ok (.chunked w.segTime l)
            | _, _, _ => .error .typeError
      else
        match filterSegment fs c r c.relPath w stamp none with
        | .error e => .error e
        | .ok (seg, _) => .ok (.whole seg)
    | none =>
      match filterSegment fs c r c.relPath w stamp none with
      | .error e => .error e
      | .ok (seg, _) => .ok (.whole seg)
  | r1 :: r2 :: _ =>
    match filterSegment fs c r1 (beside c.relPath r1.id) w stamp none with
    | .error e => .error e
    | .ok (seg1, _) =>
      match filterSegment fs c r2 (beside c.relPath r2.id) w stamp none with
      | .error e => .error e
      | .ok (seg2, _) =>
        match muxMedia seg1 seg2 with
        | .error e => .error e
        | .ok m => .ok (.whole m)

/-- dash_proxy.py 190-207 `process_init_segment`; `none` is the error reply. -/
def initBody (fs : Files) (c : Cfg) : Py (Option Bytes) :=
  match c.reps with
  | [_] =>
    match fs.read (c.relPath ++ '/' :: c.filename) with
    | .error e => .error e
    | .ok b => (liveInit b).map some
  | [r1, r2] =>
    match fs.read (beside c.relPath r1.id ++ '/' :: c.filename) with
    | .error e => .error e
    | .ok b1 =>
      match fs.read (beside c.relPath r2.id ++ '/' :: c.filename) with
      | .error e => .error e
      | .ok b2 => (muxInits b1 b2).map some
  | _ => .ok none

end Verif
