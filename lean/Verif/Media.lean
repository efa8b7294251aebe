import Verif.Config
/-
Model of the timing decisions of dashlib/dash_proxy.py: `get_init`, `get_media`,
`process_media_segment`, `process_thumbnail`.
-/
namespace Verif

/-- What is handed to `filter_media_segment` (dash_proxy.py 265-293): the VoD file number,
the live number, the time offset, the last-segment flag, the media time of the segment
(start of production of a chunked segment) and the emsg flag of the config. -/
structure Served where
  vodNr : Int
  segNr : Int
  offset : Int
  lmsg : Bool
  segTime : Int
  emsgLast : Bool
  deriving DecidableEq, Repr

/-- Outcome of a media request.  All constructors but `media` and `thumb` are error
responses (`{'ok': False, …}`, dash_proxy.py 122-126); the message text is reduced to its
kind and integer arguments. -/
inductive MediaOut where
  | beforeFirstAst
  | afterAet
  | serverDown
  | beforeFirst (nr start : Int)
  | beyondStop (stop : Int)
  | beyondLast (nr : Int) (last : Rat)
  | tooEarly
  | tooLate
  | media (s : Served)
  | thumb (vodNr : Int)
  deriving DecidableEq, Repr

/-- dash_proxy.py 217-225 `get_timescale`: the timescale of the representation whose id is
the relative path. -/
def Cfg.curTimescale (c : Cfg) : Option Int :=
  (c.reps.find? (fun r => r.id = c.relPath)).map (·.timescale)

/-- dash_proxy.py 229-235: the requested segment number.  `float(...)` on text is `pf`. -/
def Cfg.requestedNr (pf : Text → Option Rat) (c : Cfg) : Py Int :=
  match (splitext c.filename).1 with
  | [] => .error .indexError
  | ch :: rest =>
    if ch = 't' then
      match pf rest with
      | none => .error .valueError
      | some f =>
        if c.segDur = 0 then .error .zeroDivision
        else match c.curTimescale with
          | none => .error .typeError
          | some ts =>
            if ts = 0 then .error .zeroDivision
            else .ok (pyRound (f / c.segDur / ts))
    else pyInt (ch :: rest)

/-- dash_proxy.py 236 `cfg.start_nr == -1 and 1 or cfg.adjusted_start_number`. -/
def Cfg.segStartNr (c : Cfg) : Py Int :=
  if c.startNr = -1 then .ok 1 else c.adjustedStartNumber

/-- dash_proxy.py 262-266: position in the loop. -/
def loopPos (segTime segDur nrInLoop first : Int) : Py (Int × Int) := do
  let loopDur := segDur * nrInLoop
  let loops ← pyDiv segTime loopDur
  let timeInLoop ← pyMod segTime loopDur
  let nrIn ← pyDiv timeInLoop segDur
  let vodNr := nrIn + first
  if 0 ≤ vodNr - first ∧ vodNr - first < nrInLoop then
    return (vodNr, loops * loopDur)
  else .error .assertion

/-- dash_proxy.py 240 and 258: Python truth value of `stop_number` (`None` and `0` are
false). -/
def stopTruthy : Option Int → Bool
  | none => false
  | some n => n ≠ 0

/-- dash_proxy.py 242-245: the last-segment check, with the Python list indexing `[-1]`. -/
def beyondLastNr (lastNrs : List Rat) (nr : Int) : Option Rat :=
  match lastNrs.getLast? with
  | none => none
  | some l => if (nr : Rat) > l then some l else none

/-- dash_proxy.py 253-260: the timing check against the availability window.  `none` means
the request passes.  A missing time-shift buffer depth (never the case after `process_url`)
would raise `TypeError`. -/
def windowCheck (c : Cfg) (nowF : Rat) (segAst : Int) (stop : Option Int) :
    Py (Option MediaOut) :=
  if c.ato = -1 then .ok none
  else if nowF < segAst - c.ato then .ok (some .tooEarly)
  else match c.tsbd with
    | none => .error .typeError
    | some tsbd =>
      if nowF > segAst + c.segDur + tsbd ∧ ¬ stopTruthy stop then .ok (some .tooLate)
      else .ok none

/-- dash_proxy.py 210-294 `process_media_segment` for segment number `nr`, up to the point
where the VoD file is read and filtered (the content of the reply is modelled in
`MediaFilter`/`Chunker`/`Muxer`). -/
def processMediaNr (c : Cfg) (nowF : Rat) (nr : Int) : Py MediaOut := do
  let start ← c.segStartNr
  if nr < start then .ok (.beforeFirst nr start) else do
  let stop ← c.stopNumber
  if stopTruthy stop ∧ stop.getD 0 ≤ nr then .ok (.beyondStop (stop.getD 0)) else
  match beyondLastNr c.lastNrs nr with
  | some l => .ok (.beyondLast nr l)
  | none => do
    let lmsg := c.lastNrs.contains (nr : Rat)
    let mta := c.adjustedPto 0 1
    let segTime := (nr - start) * c.segDur + mta
    let segAst := (segTime + c.segDur - mta) + c.ast
    let w ← windowCheck c nowF segAst stop
    match w with
    | some out => .ok out
    | none => do
      let (vodNr, offset) ← loopPos segTime c.segDur c.vodNr c.vodFirst
      .ok (.media { vodNr, segNr := nr, offset, lmsg, segTime, emsgLast := c.emsgLastSeg })

/-- dash_proxy.py 210-294 `process_media_segment`. -/
def processMedia (pf : Text → Option Rat) (c : Cfg) (nowF : Rat) : Py MediaOut := do
  let nr ← c.requestedNr pf
  processMediaNr c nowF nr

/-- dash_proxy.py 326-383 `process_thumbnail` for thumbnail number `nr`.  The error
branches call `error_response` with one argument, which raises `TypeError`. -/
def processThumbNr (c : Cfg) (nowF : Rat) (nr : Int) : Py MediaOut :=
  let start : Int := if c.startNr = -1 then 1 else c.startNr
  if nr < start then .error .typeError else
  match beyondLastNr c.lastNrs nr with
  | some _ => .error .typeError
  | none => do
    let segTime := (nr - start) * c.segDur + c.ast
    let segAst := segTime + c.segDur
    let w ← windowCheck c nowF segAst none
    match w with
    | some _ => .error .typeError
    | none => do
      let (vodNr, _) ← loopPos (segTime - c.ast) c.segDur c.vodNr c.vodFirst
      .ok (.thumb vodNr)

/-- dash_proxy.py 326-383 `process_thumbnail`. -/
def processThumb (pf : Text → Option Rat) (c : Cfg) (nowF : Rat) : Py MediaOut := do
  let nr ← c.requestedNr pf
  processThumbNr c nowF nr

/-- dash_proxy.py 163-165: the two durations of a `uA_dB` / `dA_uB` base URL option with
the two leading letters. `a_var[0]` is evaluated after `int(a_var[1:])`; an empty part
fails in `int("")` already. -/
def parseUpDown (t : Text) : Py (Char × Int × Char × Int) :=
  match splitChar '_' t with
  | [a, b] => do
    let d1 ← pyInt (a.drop 1)
    let d2 ← pyInt (b.drop 1)
    match a, b with
    | ca :: _, cb :: _ => return (ca, d1, cb, d2)
    | _, _ => .error .indexError
  | _ => .error .valueError

/-- What the base-URL loss pattern asks for. -/
inductive LossAct where
  | down
  | emsg
  | plain
  deriving DecidableEq, Repr

/-- dash_proxy.py 169-177: the loop of the `u…_d…` pattern over `i = k, k+1, …`
(`fuel` iterations left).  `seen` tells whether a segment with emsg was already produced.
(A later iteration may still overwrite it by an error.) -/
def upDownLoop (dur1 total m : Int) : Nat → Int → Bool → LossAct
  | 0, _, seen => if seen then .emsg else .plain
  | fuel + 1, i, seen =>
    if i * total + dur1 < m ∧ m ≤ (i + 1) * total then .down
    else upDownLoop dur1 total m fuel (i + 1) (seen || m = i * total + dur1)

/-- dash_proxy.py 179-182: the loop of the `d…_u…` pattern. -/
def downUpLoop (dur1 total m : Int) : Nat → Int → LossAct
  | 0, _ => .plain
  | fuel + 1, i =>
    if i * total < m ∧ m ≤ i * total + dur1 then .down
    else downUpLoop dur1 total m fuel (i + 1)

/-- dash_proxy.py 161-182: the action of the loss pattern; `num_loop = ceil(60/total)`. -/
def lossAction (multiUrl : List Text) (now : Int) : Py LossAct :=
  match multiUrl with
  | [u] => do
    let (ca, d1, cb, d2) ← parseUpDown u
    let total := d1 + d2
    if total = 0 then .error .zeroDivision
    else
      let numLoop := ((60 : Rat) / total).ceil
      let m := Int.fmod now 60
      if ca = 'u' ∧ cb = 'd' then return upDownLoop d1 total m numLoop.toNat 0 false
      else if ca = 'd' ∧ cb = 'u' then return downUpLoop d1 total m numLoop.toNat 0
      else return .plain
  | _ => .ok .plain

/-- dash_proxy.py 141-187 `get_media`; `now = int(now_float)` (line 115).  In the emsg case
the code runs `process_media_segment` with `emsg_last_seg` set; if its result is `None`-free
(always) that is the response. A later `down` of the same loop would override the response;
that is `LossAct.down`.  (An exception raised by `process_media_segment` before such an
override is not distinguished.) -/
def getMedia (pf : Text → Option Rat) (c : Cfg) (nowF : Rat) : Py MediaOut :=
  if c.ext ≠ ".m4s".toList ∧ c.ext ≠ ".jpg".toList then .error .valueError
  else
  let now := pyTrunc nowF
  let firstAst : Rat := if c.ato = -1 then c.ast else c.ast + c.segDur - c.ato
  if nowF < firstAst then .ok .beforeFirstAst
  else if (c.aet.any (fun a => decide ((now : Rat) > a + 60))) then .ok .afterAet
  else if c.ext = ".m4s".toList then do
    let act ← lossAction c.multiUrl now
    match act with
    | .down => .ok .serverDown
    | .emsg => processMedia pf { c with emsgLastSeg := true } nowF
    | .plain => processMedia pf c nowF
  else processThumb pf c nowF

/-- Outcome of an init request: timing refused, or the number of representations decides
(dash_proxy.py 190-207). -/
inductive InitOut where
  | tooEarly
  | single
  | muxed
  | badReps
  deriving DecidableEq, Repr

/-- dash_proxy.py 129-138 `get_init` with 190-207 `process_init_segment` reduced to the
choice of the reply. -/
def getInit (c : Cfg) (nowF : Rat) : Py InitOut :=
  if c.ext ≠ ".mp4".toList then .error .valueError
  else if pyTrunc nowF < c.ast - c.initOff then .ok .tooEarly
  else match c.reps.length with
    | 1 => .ok .single
    | 2 => .ok .muxed
    | _ => .ok .badReps

end Verif
