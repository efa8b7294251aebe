import Verif.Text
import Verif.Modulo
/-
Model of dashlib/configprocessor.py: `Config`, `VodConfig` (as data), `process_url`.
-/
namespace Verif

/-- One entry of `cfg.reps` (configprocessor.py 131-140). -/
structure Rep where
  id : Text
  contentType : Text
  timescale : Int
  deriving DecidableEq, Repr

/-- configprocessor.py 253-264 and 266-301: what `read_config` yields.  The INI file
parser itself is not modelled; `media` lists (content type, timescale, representations)
in the order of `possible_media`. -/
structure VodCfg where
  firstSeg : Int
  nrSegs : Int
  segDurS : Int
  defaultTsbd : Int
  media : List (Text × Int × List Text)
  deriving DecidableEq, Repr

/-- configprocessor.py 64-115 `Config.__init__`.  Fields that only steer the textual MPD
(spd, utc, location, …) are kept; `vod_cfg_dir`, `media_data`, `base_url` and
`vod_default_tsbd_secs` are left out.  Float-valued fields are `Rat`. -/
structure Cfg where
  ast : Int := 0
  ato : Rat := 0
  atoComplete : Bool := true
  spd : Option Int := none
  aet : Option Rat := none
  mpdDur : Option Rat := none
  tsbd : Option Int := none
  mup : Option Rat := none
  chunkDur : Option Rat := none
  lastNrs : List Rat := []
  initOff : Int := 0
  tfdt32 : Bool := false
  periods : Int := -1
  xlink : Int := -1
  etp : Int := -1
  etpDuration : Int := -1
  insertAd : Int := -1
  mpdCallback : Int := -1
  contMultiperiod : Bool := false
  segTimeline : Bool := false
  segTimelineNr : Bool := false
  multiUrl : List Text := []
  periodOffset : Int := -1
  scte35 : Int := 0
  utc : List Text := []
  startNr : Int := 0
  contentName : Text := []
  relPath : Text := []
  filename : Text := []
  ext : Text := []
  reps : List Rep := []
  segDur : Int := 0
  vodFirst : Int := 0
  vodNr : Int := 0
  publishTime : Rat := 0
  addLocation : Bool := false
  startTime : Option Int := none
  stopTime : Option Int := none
  timeoffset : Option Int := none
  insertSidx : Bool := false
  segtimelineloss : Bool := false
  emsgLastSeg : Bool := false
  deriving DecidableEq, Repr

/-- configprocessor.py 230-236 property `adjusted_start_number`. -/
def Cfg.adjustedStartNumber (c : Cfg) : Py Int :=
  match c.timeoffset with
  | none => .ok c.startNr
  | some t => do
    let q ← pyDiv (c.ast - t) c.segDur
    return c.startNr + q

/-- configprocessor.py 238-243 `adjusted_pto(pto, timescale)`. -/
def Cfg.adjustedPto (c : Cfg) (pto timescale : Int) : Int :=
  match c.timeoffset with
  | none => pto
  | some t => pto + (c.ast - t) * timescale

/-- configprocessor.py 245-250 property `stop_number`.  `media_presentation_duration`
is `None` only when no stop time is set; then `//` would raise `TypeError`. -/
def Cfg.stopNumber (c : Cfg) : Py (Option Int) :=
  match c.stopTime with
  | none => .ok none
  | some _ => do
    let start ← c.adjustedStartNumber
    match c.mpdDur with
    | none => .error .typeError
    | some d =>
      if c.segDur = 0 then .error .zeroDivision
      else return some (start + (d / c.segDur).floor)

/-- configprocessor.py 152-157 `update_for_tfdt32`. -/
def Cfg.updateForTfdt32 (c : Cfg) (now : Int) : Py Cfg := do
  let a ← quantize now 10800
  return { c with ast := a, aet := some ((a : Rat) + 10800), mpdDur := some 10800,
                  mup := some 5400 }

/-- configprocessor.py 159-165 `update_for_cont_update`. -/
def Cfg.updateForCont (c : Cfg) (now : Int) : Py Cfg := do
  let a ← quantize (now - c.segDur) c.segDur
  return { c with ast := a, aet := some ((a : Rat) + 10800), mpdDur := some 10800,
                  mup := some 10800 }

/-- configprocessor.py 167-173 `update_with_modulo_period`. -/
def Cfg.updateWithModulo (c : Cfg) (m : Modulo) : Py Cfg := do
  let l ← m.lastSegmentNumber c.segDur
  return { c with mup := some m.mup, ast := m.ast, mpdDur := some m.mpd, aet := some m.aet,
                  lastNrs := c.lastNrs ++ [l] }

/-- configprocessor.py 181-185: the loop of `update_with_aet` over the reversed lists. -/
def aetLoop (now mup : Rat) : List (Int × Int) → Int → Option Int → Int × Option Int
  | [], e, d => (e, d)
  | (aet, dur) :: rest, e, d =>
    if now > aet - 2 * mup then (e, d) else aetLoop now mup rest aet (some dur)

/-- configprocessor.py 175-188 `update_with_aet`; `ends` pairs each availability end
time with its presentation duration, in URL order. -/
def Cfg.updateWithAet (c : Cfg) (now : Int) (mup : Rat) (ends : List (Int × Int)) : Cfg :=
  match ends.getLast? with
  | none => c
  | some (last, _) =>
    let r := aetLoop now mup ends.reverse last none
    { c with aet := some (r.1 : Rat), mpdDur := r.2.map (fun (d : Int) => (d : Rat)) }

/-- configprocessor.py 196-203: the cumulative (end time, total duration) list. -/
def durEnds (start segDur : Int) : Int → List Int → Py (List (Int × Int))
  | _, [] => .ok []
  | total, d :: ds => do
    let e ← quantize (start + (total + d)) segDur
    let rest ← durEnds start segDur (total + d) ds
    return (e, total + d) :: rest

/-- configprocessor.py 190-212 `process_start_time`. -/
def Cfg.processStartTime (c : Cfg) (start : Int) (durations : List Int) (now : Int)
    (stop : Option Int) : Py Cfg := do
  let a ← quantize start c.segDur
  let mup := c.mup.getD 10
  let c1 := { c with ast := a, startTime := some a, mup := some mup }
  let ends ← durEnds start c.segDur 0 durations
  let c2 ← (match ends.getLast? with
    | none => pure c1
    | some (e, _) => do
      let q ← pyDiv (e - a) c.segDur
      pure (Cfg.updateWithAet { c1 with lastNrs := c1.lastNrs ++ [((q - 1 : Int) : Rat)] }
        now mup ends))
  match stop with
  | none => return c2
  | some s => do
    let st ← quantize (pyTrunc ((s : Rat) + 999 / 1000 * c.segDur)) c.segDur
    return { c2 with stopTime := some st, mpdDur := some ((st - a : Int) : Rat),
                     tsbd := some (st - a) }

/-- configprocessor.py 218-225 `update_publish_time`; a missing minimum update period
would raise `TypeError`. -/
def Cfg.updatePublishTime (c : Cfg) (now : Int) : Py Cfg :=
  if c.ast ≠ 0 then
    match c.mup with
    | none => .error .typeError
    | some m =>
      if m = 0 then .error .zeroDivision
      else .ok { c with publishTime := (((now : Rat) / m).floor : Rat) * m }
  else .ok { c with publishTime := 0 }

/-- configprocessor.py 340-346 `url_cfg_keys`: the option names. -/
inductive OptKey where
  | start | ast | stop | startrel | stoprel | dur
  | timeoffset | init | tsbd | mup | modulo | tfdt
  | cont | periods | xlink | etp | etpDuration | insertad
  | mpdcallback | continuous | segtimeline | segtimelinenr | baseurl | peroff
  | scte35 | utc | snr | ato | spd | sidx
  | segtimelineloss | sts | sid | chunkdur
  deriving DecidableEq, Repr

/-- configprocessor.py 340-346 `url_cfg_keys` with the spelling in the URL. -/
def optKeys : List (String × OptKey) :=
  [("start", .start), ("ast", .ast), ("stop", .stop), ("startrel", .startrel),
   ("stoprel", .stoprel), ("dur", .dur), ("timeoffset", .timeoffset), ("init", .init),
   ("tsbd", .tsbd), ("mup", .mup), ("modulo", .modulo), ("tfdt", .tfdt),
   ("cont", .cont), ("periods", .periods), ("xlink", .xlink), ("etp", .etp),
   ("etpDuration", .etpDuration), ("insertad", .insertad), ("mpdcallback", .mpdcallback), ("continuous", .continuous),
   ("segtimeline", .segtimeline), ("segtimelinenr", .segtimelinenr), ("baseurl", .baseurl), ("peroff", .peroff),
   ("scte35", .scte35), ("utc", .utc), ("snr", .snr), ("ato", .ato),
   ("spd", .spd), ("sidx", .sidx), ("segtimelineloss", .segtimelineloss), ("sts", .sts),
   ("sid", .sid), ("chunkdur", .chunkdur)]

/-- configprocessor.py 399 `cfg_parts[0] not in self.url_cfg_keys`. -/
def optKey (t : Text) : Option OptKey :=
  (optKeys.find? (fun p => p.1.toList = t)).map (·.2)

/-- configprocessor.py 387-394: the local variables of `process_url` plus the config. -/
structure UrlState where
  cfg : Cfg := {}
  start : Option Int := none
  stop : Option Int := none
  durations : List Int := []
  timeoffset : Option Int := none
  cont : Bool := false
  modulo : Option Modulo := none
  addLocation : Bool := false
  deriving DecidableEq, Repr

/-- configprocessor.py 523-532 `interpret_start_nr`. -/
def interpretStartNr (value : Text) : Py Int :=
  match pyInt value with
  | .error _ => .error .configError
  | .ok n => if n < -1 then .error .configError else .ok n

/-- configprocessor.py 403-494: the effect of one option.  `pf` is Python's `float()` on
text (`none` = `ValueError`); infinities and NaN are not modelled.  The final
`else: raise` of the code is unreachable, as all keys are covered. -/
def applyOpt (pf : Text → Option Rat) (now : Int) (key : OptKey) (value : Text)
    (s : UrlState) : Py UrlState :=
  let c := s.cfg
  match key with
  | .sts => .ok s
  | .sid => .ok s
  | .start => do let v ← pyInt value; return { s with start := some v }
  | .ast => do let v ← pyInt value; return { s with start := some v }
  | .stop => do let v ← pyInt value; return { s with stop := some v }
  | .startrel => do
    let v ← pyInt value; return { s with start := some (now + v), addLocation := true }
  | .stoprel => do
    let v ← pyInt value; return { s with stop := some (now + v), addLocation := true }
  | .dur => do let v ← pyInt value; return { s with durations := s.durations ++ [v] }
  | .timeoffset => do let v ← pyInt value; return { s with timeoffset := some v }
  | .init => do let v ← pyInt value; return { s with cfg := { c with initOff := v } }
  | .tsbd => do let v ← pyInt value; return { s with cfg := { c with tsbd := some v } }
  | .mup => do let v ← pyInt value; return { s with cfg := { c with mup := some (v : Rat) } }
  | .modulo => do
    let v ← pyInt value; let m ← mkModulo v now; return { s with modulo := some m }
  | .tfdt => .ok { s with cfg := { c with tfdt32 := true } }
  | .cont => .ok { s with cont := true }
  | .periods => do let v ← pyInt value; return { s with cfg := { c with periods := v } }
  | .xlink => do let v ← pyInt value; return { s with cfg := { c with xlink := v } }
  | .etp => do let v ← pyInt value; return { s with cfg := { c with etp := v } }
  | .etpDuration => do let v ← pyInt value; return { s with cfg := { c with etpDuration := v } }
  | .insertad => do let v ← pyInt value; return { s with cfg := { c with insertAd := v } }
  | .mpdcallback => do let v ← pyInt value; return { s with cfg := { c with mpdCallback := v } }
  | .continuous => do
    let v ← pyInt value
    return if v = 1 then { s with cfg := { c with contMultiperiod := true } } else s
  | .segtimeline => do
    let v ← pyInt value
    return if v = 1 then { s with cfg := { c with segTimeline := true } } else s
  | .segtimelinenr => do
    let v ← pyInt value
    return if v = 1 then { s with cfg := { c with segTimelineNr := true } } else s
  | .baseurl => .ok { s with cfg := { c with multiUrl := c.multiUrl ++ [value] } }
  | .peroff => do let v ← pyInt value; return { s with cfg := { c with periodOffset := v } }
  | .scte35 => do let v ← pyInt value; return { s with cfg := { c with scte35 := v } }
  | .utc => .ok { s with cfg := { c with utc := splitChar '-' value } }
  | .snr => do let v ← interpretStartNr value; return { s with cfg := { c with startNr := v } }
  | .ato =>
    if value = "inf".toList then .ok { s with cfg := { c with ato := -1 } }
    else match pf value with
      | some f => .ok { s with cfg := { c with ato := max f 0 } }
      | none => .ok { s with cfg := { c with ato := 0 } }
  | .spd => do let v ← pyInt value; return { s with cfg := { c with spd := some v } }
  | .sidx => do
    let v ← pyInt value
    return if v = 1 then { s with cfg := { c with insertSidx := true } } else s
  | .segtimelineloss => do
    let v ← pyInt value
    return if v = 1 then { s with cfg := { c with segtimelineloss := true } } else s
  | .chunkdur =>
    match pf value with
    | some f =>
      if 0 < f then .ok { s with cfg := { c with chunkDur := some f, atoComplete := false } }
      else .ok s
    | none => .ok s

/-- configprocessor.py 397-495: the option loop.  Returns the state and the remaining
parts, the first of which is not an option. -/
def parseOpts (pf : Text → Option Rat) (now : Int) : List Text → UrlState →
    Py (UrlState × List Text)
  | [], s => .ok (s, [])
  | p :: ps, s =>
    let kv := splitFirst p
    match optKey kv.1 with
    | none => .ok (s, p :: ps)
    | some key =>
      match kv.2 with
      | none => .error .valueError          -- `key, value = cfg_parts` fails to unpack
      | some v => do
        let s' ← applyOpt pf now key v s
        parseOpts pf now ps s'

/-- configprocessor.py 328-334 `content_type_for_rep` with the lookup of line 138
(`media_data[None]` raises `KeyError`). -/
def VodCfg.repInfo (v : VodCfg) (rep : Text) : Py Rep :=
  match v.media.find? (fun m => m.2.2.contains rep) with
  | none => .error .keyError
  | some m => .ok { id := rep, contentType := m.1, timescale := m.2.1 }

/-- `"/".join(parts)`. -/
def joinSlash : List Text → Text
  | [] => []
  | [p] => p
  | p :: ps => p ++ '/' :: joinSlash ps

/-- configprocessor.py 122-150: `update_with_filedata`, `update_with_reps` and
`update_with_vodcfg`, where `rest` are the URL parts from the content name on. -/
def Cfg.updateFiles (c : Cfg) (vodOf : Text → Py VodCfg) (rest : List Text) : Py Cfg :=
  match rest with
  | [] => .error .indexError
  | name :: more => do
    let file := (name :: more).getLast (by simp)
    let v ← vodOf name
    let reps ← (if 2 ≤ more.length then
        (splitDivider (more.dropLast.getLastD [])).mapM v.repInfo
      else pure [])
    return { c with contentName := name, relPath := joinSlash more.dropLast,
                    filename := file, ext := (splitext file).2, reps := reps,
                    tsbd := some (c.tsbd.getD v.defaultTsbd),
                    vodFirst := v.firstSeg, vodNr := v.nrSegs, segDur := v.segDurS }

/-- configprocessor.py 384-519 `process_url`, the part after the option loop. -/
def finishUrl (vodOf : Text → Py VodCfg) (now : Int) (s : UrlState) (rest : List Text) :
    Py Cfg := do
  let c ← s.cfg.updateFiles vodOf rest
  let c ← (match s.start with
    | none => pure c
    | some st =>
      if s.modulo.isSome then .error .configError
      else c.processStartTime st s.durations now s.stop)
  let c ← (if c.tfdt32 then
      if s.cont then .error .configError else c.updateForTfdt32 now
    else pure c)
  let c ← (if s.cont then c.updateForCont now else pure c)
  let c ← (match s.modulo with
    | none => pure c
    | some m => c.updateWithModulo m)
  let c ← c.updatePublishTime now
  let c := if s.addLocation then { c with addLocation := true } else c
  return match s.timeoffset with
    | none => c
    | some t => { c with timeoffset := some t }

/-- configprocessor.py 384-519 `ConfigProcessor.process_url`. -/
def processUrl (pf : Text → Option Rat) (vodOf : Text → Py VodCfg) (parts : List Text)
    (now : Int) : Py Cfg := do
  let (s, rest) ← parseOpts pf now parts {}
  finishUrl vodOf now s rest

end Verif
