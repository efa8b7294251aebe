import Verif.Media
/-
Model of dashlib/mpd_proxy.py and of the attribute decisions of dashlib/mpdprocessor.py.
Manifests are values with numeric fields; the XML tree, the template manifest and the text
of attributes are not modelled (durations are written by `secondsToIso`, see `TimeFormat`).
-/
namespace Verif

/-- One entry of `period_data` (mpd_proxy.py 215-291).  `durAttr` is `periodDuration`,
`durS` is `period_duration_s`; the id is `p<id>`. -/
structure PeriodData where
  id : Int
  start : Int
  startNumber : Int
  pto : Int
  etp : Option Int := none
  callback : Bool := false
  durAttr : Option Int := none
  durS : Option Int := none
  deriving DecidableEq, Repr

/-- mpd_proxy.py 206: the accepted numbers of periods per hour. -/
def okPeriods : List Int := [-1, 0, 1, 2, 3, 4, 5, 6, 10, 12, 15, 20, 30, 60]

/-- mpd_proxy.py 251-253 and 270-275: `float(n)/k` must be a whole number (`k > 0`).
The float test is divisibility, as both numbers are at most 60. -/
def wholeRatio (n k : Int) : Py Int :=
  if n % k = 0 then .ok (n / k) else .error .proxyError

/-- mpd_proxy.py 240-279: the data of period `nr` before the durations are filled in. -/
def periodBase (c : Cfg) (n pd nr : Int) : Py PeriodData := do
  let sn ← pyDiv (nr * pd) c.segDur
  let p : PeriodData := { id := nr, start := nr * pd, startNumber := sn, pto := nr * pd }
  let p ← (if c.etp > 0 then do
      let ratio ← wholeRatio n (min c.etp 60)
      let dur := if c.etpDuration = -1 then pd / 2 else c.etpDuration
      if dur > pd then .error .proxyError
      else do
        let r ← pyMod nr ratio
        pure (if r = 0 then { p with etp := some dur, durS := some dur } else p)
    else pure p)
  if c.mpdCallback > 0 then do
    let ratio ← wholeRatio n (min c.mpdCallback 60)
    let r ← pyMod nr ratio
    pure (if r = 0 then { p with callback := true } else p)
  else pure p

/-- mpd_proxy.py 282-290: the durations of period `p` when period `next` follows it: the ad
rule writes the duration into the previous period, the final loop fills in the rest.  (The
code updates the list in place; here each period is finished when its successor is known.) -/
def finishPeriod (adFreq pd : Int) (p : PeriodData) (next : Int) : PeriodData :=
  let p := if adFreq > 0 ∧ Int.fmod next adFreq = 0 then { p with durAttr := some pd, durS := some pd }
    else p
  if p.durS.isNone then { p with durS := some pd } else p

/-- mpd_proxy.py 239-290: the loop over `k` consecutive period numbers from `nr`. -/
def periodLoop (c : Cfg) (n pd adFreq : Int) : Int → Nat → Py (List PeriodData)
  | _, 0 => .ok []
  | nr, k + 1 => do
    let p ← periodBase c n pd nr
    let rest ← periodLoop c n pd adFreq (nr + 1) k
    return (if k = 0 then p else finishPeriod adFreq pd p (nr + 1)) :: rest

/-- mpd_proxy.py 199-291 `generate_period_data`. -/
def periodData (c : Cfg) (now : Int) : Py (List PeriodData) :=
  let n := min c.periods 60
  if n ∉ okPeriods then .error .proxyError
  else do
    let adFreq ← (if c.insertAd > 0 then pyDiv n c.xlink else pure (-1))
    if n = -1 then do
      let first ← c.adjustedStartNumber
      let q ← pyDiv 0 c.segDur
      return [{ id := 0, start := 0, startNumber := first + q, pto := c.adjustedPto 0 1 }]
    else if n = 0 then do
      let sn ← pyDiv 3600000 c.segDur
      return [{ id := 0, start := 3600000, startNumber := sn, pto := 3600000 }]
    else do
      let pd := 3600 / n
      let half := pd / 2
      match c.tsbd with
      | none => .error .typeError
      | some tsbd =>
        let last := Int.fdiv (now + half) pd
        let first := Int.fdiv (now - tsbd - c.segDur) pd
        periodLoop c n pd adFreq first (last + 1 - first).toNat

/-- availabilityTimeOffset of a BaseURL (mpdprocessor.py 211-222). -/
inductive AtoAttr where
  | absent
  | inf
  | value (r : Rat)
  deriving DecidableEq, Repr

/-- minimumUpdatePeriod: `P100Y` (dash_proxy.py 76) or a number of seconds. -/
inductive MupAttr where
  | years100
  | secs (s : Rat)
  deriving DecidableEq, Repr

/-- A period element of the manifest with the attributes of its segment templates
(mpdprocessor.py 322-372, number based): `startNumber = none` means the attribute is
absent, which stands for 1 in DASH; an absent presentationTimeOffset stands for 0, and so is
0 here. -/
structure PeriodElem where
  id : Int
  start : Int
  duration : Option Int
  startNumber : Option Int
  pto : Int
  callback : Bool
  deriving DecidableEq, Repr

/-- The manifest attributes that the code sets (the template is assumed to carry none of
them). `templateAto` is the availabilityTimeOffset written to the segment templates in
low-latency mode. -/
structure Mpd where
  static : Bool
  ast : Int
  aet : Option Rat
  tsbd : Option Int
  mup : Option MupAttr
  maxSegDur : Option Int
  mpdDur : Option Rat
  spd : Option Int
  baseAto : AtoAttr
  templateAto : Option Rat
  segDur : Int
  periods : List PeriodElem
  publishTime : Int
  deriving DecidableEq, Repr

/-- mpdprocessor.py 326-372: attributes of one period; startNumber `-1` is removed. -/
def periodElem (p : PeriodData) : PeriodElem :=
  { id := p.id, start := p.start, duration := p.durAttr.or p.etp,
    startNumber := if p.startNumber = -1 then none else some p.startNumber,
    pto := p.pto, callback := p.callback }

/-- mpdprocessor.py 211-222 `insert_baseurl` for the offset `a`. -/
def atoAttr (a : Rat) : AtoAttr :=
  if a = -1 then .inf else if a > 0 then .value a else .absent

/-- mpd_proxy.py 62-115 `generate_dynamic_mpd` with mpdprocessor.py 96-133 `process_mpd` and
231-242 of mpd_proxy.py for the update period of multi-period services. The formatting with
`%f` (six decimals) of the offset is not modelled. -/
def generateMpd (c : Cfg) (now : Int) : Py Mpd := do
  let _ ← c.adjustedStartNumber
  let tsbd ← (match c.tsbd with | none => .error .typeError | some t => pure t)
  let ps ← periodData c now
  let static := match c.stopTime with | none => false | some s => decide (now > s)
  let n := min c.periods 60
  let tl := c.segTimeline || c.segTimelineNr
  let mup : MupAttr :=
    if n > 0 then .secs (if tl then (c.segDur : Rat) else ((3600 / n / 2 - 5 : Int) : Rat))
    else match c.mup with | some m => .secs m | none => .years100
  return {
    static := static
    ast := c.ast
    aet := match c.aet with | none => none | some a => if a = 0 then none else some a
    tsbd := if static || c.mpdDur.isSome then none else some tsbd
    mup := if static then none else if tl then some (.secs 0) else some mup
    maxSegDur := if tl then none else some c.segDur
    mpdDur := c.mpdDur
    spd := c.spd
    baseAto := if c.chunkDur.isNone then atoAttr c.ato else .absent
    templateAto := if c.chunkDur.isNone then none else some c.ato
    segDur := c.segDur
    periods := ps.map periodElem
    -- mpdprocessor.py 127: not the publish time of the configuration
    publishTime := now }

/-- mpd_proxy.py 21-35: the checks of `get_mpd` before the manifest is made. -/
def checkXlink (c : Cfg) : Py Unit :=
  let x := min c.xlink 60
  let n := min c.periods 60
  if x > 0 ∧ n = -1 then .error .proxyError
  else if x > 0 ∧ n % x ≠ 0 then .error .proxyError
  else if c.insertAd > 0 ∧ x < 0 then .error .proxyError
  else .ok ()

/-- mpd_proxy.py 126-180: the ids of the periods that are replaced by a link.  With ads the
first candidate of the manifest is kept (lines 163-167). The replacement itself is done on
the text of the manifest; it is modelled in Xlink.lean. -/
def linkedIds (c : Cfg) (ids : List Int) : Py (List Int) :=
  let x := min c.xlink 60
  let n := min c.periods 60
  if x > 0 then do
    let ratio := Int.fdiv n x
    if ratio = 0 then (if ids = [] then pure [] else .error .zeroDivision)
    else
      let cand := ids.filter (fun i => Int.fmod i ratio = 0)
      pure (if c.insertAd > 0 then cand.drop 1 else cand)
  else pure []

/-- mpd_proxy.py 10-59 `get_mpd` for an `.mpd` request, without the timeline-loss option:
the manifest and the ids of its linked periods. -/
def getMpd (c : Cfg) (now : Int) : Py (Mpd × List Int) := do
  let _ ← checkXlink c
  let m ← generateMpd c now
  let l ← linkedIds c (m.periods.map (·.id))
  return (m, l)

end Verif
