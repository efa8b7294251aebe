import Verif.Media
import Verif.Wsgi
import Verif.MediaBody
/-
The floating-point operations of the request path: IEEE 754 binary64 as Python uses it, and
the functions of `Verif.Media`, `Verif.MediaBody` and `Verif.Wsgi` in which the code computes
with floats, with every float operation rounded.
-/
namespace Verif

/-- `2 ^ k` for an integer `k`. -/
def pow2 : Int → Rat
  | .ofNat n => ((2 ^ n : Nat) : Rat)
  | .negSucc n => 1 / ((2 ^ (n + 1) : Nat) : Rat)

/-- The binary exponent of a positive rational: `2 ^ binExp x ≤ x < 2 ^ (binExp x + 1)`
(`binExp_spec`). -/
def binExp (x : Rat) : Int :=
  let k : Int := (Nat.log2 x.num.toNat : Int) - (Nat.log2 x.den : Int)
  if pow2 k ≤ x then k else k - 1

/-- A positive rational rounded to 53 significant bits, ties to even. -/
def flPos (x : Rat) : Rat :=
  let u := pow2 (binExp x - 52)
  (pyRound (x / u) : Rat) * u

/-- The result of a Python float operation with exact value `x` (binary64, round to nearest,
ties to even).  Simplification: the exponent range is not bounded, so neither overflow (`inf`,
`OverflowError`) nor gradual underflow occurs. -/
def fl (x : Rat) : Rat :=
  if 0 < x then flPos x else if x < 0 then - flPos (-x) else 0

/-- Python `a - b` for an integer `a` and a float `b`: the integer is converted first. -/
def intSubFloat (a : Int) (b : Rat) : Rat := fl (fl a - b)

/-- dash_proxy.py 229-235 (`Cfg.requestedNr`) with rounded divisions: `float(text)` is `pf`, `float / int` converts
the integer. -/
def Cfg.requestedNrF (pf : Text → Option Rat) (c : Cfg) : Py Int :=
  match (splitext c.filename).1 with
  | [] => .error .indexError
  | ch :: rest =>
    if ch = 't' then
      match pf rest with
      | none => .error .valueError
      | some f =>
        if c.segDur = 0 then .error .zeroDivision
        else match c.curTimescale with
          | none => .error .typeError
          | some ts =>
            if ts = 0 then .error .zeroDivision
            else .ok (pyRound (fl (fl (f / fl c.segDur) / fl ts)))
    else pyInt (ch :: rest)

/-- dash_proxy.py 253-260 (`windowCheck`) with the rounded difference of line 254.  Line 257 adds integers, and
comparisons of integers with floats are exact in Python. -/
def windowCheckF (c : Cfg) (nowF : Rat) (segAst : Int) (stop : Option Int) :
    Py (Option MediaOut) :=
  if c.ato = -1 then .ok none
  else if nowF < intSubFloat segAst c.ato then .ok (some .tooEarly)
  else match c.tsbd with
    | none => .error .typeError
    | some tsbd =>
      if nowF > segAst + c.segDur + tsbd ∧ ¬ stopTruthy stop then .ok (some .tooLate)
      else .ok none

/-- dash_proxy.py 210-294 (`processMediaNr`), with `windowCheckF`. -/
def processMediaNrF (c : Cfg) (nowF : Rat) (nr : Int) : Py MediaOut := do
  let start ← c.segStartNr
  if nr < start then .ok (.beforeFirst nr start) else do
  let stop ← c.stopNumber
  if stopTruthy stop ∧ stop.getD 0 ≤ nr then .ok (.beyondStop (stop.getD 0)) else
  match beyondLastNr c.lastNrs nr with
  | some l => .ok (.beyondLast nr l)
  | none => do
    let lmsg := c.lastNrs.contains (nr : Rat)
    let mta := c.adjustedPto 0 1
    let segTime := (nr - start) * c.segDur + mta
    let segAst := (segTime + c.segDur - mta) + c.ast
    let w ← windowCheckF c nowF segAst stop
    match w with
    | some out => .ok out
    | none => do
      let (vodNr, offset) ← loopPos segTime c.segDur c.vodNr c.vodFirst
      .ok (.media { vodNr, segNr := nr, offset, lmsg, segTime, emsgLast := c.emsgLastSeg })

/-- dash_proxy.py 210-294 (`processMedia`) with floats. -/
def processMediaF (pf : Text → Option Rat) (c : Cfg) (nowF : Rat) : Py MediaOut := do
  let nr ← c.requestedNrF pf
  processMediaNrF c nowF nr

/-- dash_proxy.py 326-383 (`processThumbNr`), with `windowCheckF`. -/
def processThumbNrF (c : Cfg) (nowF : Rat) (nr : Int) : Py MediaOut :=
  let start : Int := if c.startNr = -1 then 1 else c.startNr
  if nr < start then .error .typeError else
  match beyondLastNr c.lastNrs nr with
  | some _ => .error .typeError
  | none => do
    let segTime := (nr - start) * c.segDur + c.ast
    let segAst := segTime + c.segDur
    let w ← windowCheckF c nowF segAst none
    match w with
    | some _ => .error .typeError
    | none => do
      let (vodNr, _) ← loopPos (segTime - c.ast) c.segDur c.vodNr c.vodFirst
      .ok (.thumb vodNr)

/-- dash_proxy.py 326-383 (`processThumb`) with floats. -/
def processThumbF (pf : Text → Option Rat) (c : Cfg) (nowF : Rat) : Py MediaOut := do
  let nr ← c.requestedNrF pf
  processThumbNrF c nowF nr

/-- dash_proxy.py 161-182 (`lossAction`) with the rounded quotient of line 166. -/
def lossActionF (multiUrl : List Text) (now : Int) : Py LossAct :=
  match multiUrl with
  | [u] => do
    let (ca, d1, cb, d2) ← parseUpDown u
    let total := d1 + d2
    if total = 0 then .error .zeroDivision
    else
      let numLoop := (fl ((60 : Rat) / fl total)).ceil
      let m := Int.fmod now 60
      if ca = 'u' ∧ cb = 'd' then return upDownLoop d1 total m numLoop.toNat 0 false
      else if ca = 'd' ∧ cb = 'u' then return downUpLoop d1 total m numLoop.toNat 0
      else return .plain
  | _ => .ok .plain

/-- dash_proxy.py 141-187 (`getMedia`) with the rounded difference of lines 148-149.  The
clock value `nowF`, the time offset `c.ato` and the entries of `c.lastNrs` are the floats the
code holds. -/
def getMediaF (pf : Text → Option Rat) (c : Cfg) (nowF : Rat) : Py MediaOut :=
  if c.ext ≠ ".m4s".toList ∧ c.ext ≠ ".jpg".toList then .error .valueError
  else
  let now := pyTrunc nowF
  let firstAst : Rat := if c.ato = -1 then c.ast else intSubFloat (c.ast + c.segDur) c.ato
  if nowF < firstAst then .ok .beforeFirstAst
  else if (c.aet.any (fun a => decide ((now : Rat) > a + 60))) then .ok .afterAet
  else if c.ext = ".m4s".toList then do
    let act ← lossActionF c.multiUrl now
    match act with
    | .down => .ok .serverDown
    | .emsg => processMediaF pf { c with emsgLastSeg := true } nowF
    | .plain => processMediaF pf c nowF
  else processThumbF pf c nowF

/-- dash_proxy.py 277 (`chunkTicks`) with the rounded product. -/
def chunkTicksF (d : Rat) (ts : Int) : Int := pyTrunc (fl (d * fl ts))

/-- configprocessor.py 209: `stop_time + 0.999 * self.seg_duration` truncated (the argument of the `quantize` in
`Cfg.processStartTime`), with every operation rounded. -/
def stopSumF (stop segDur : Int) : Int := pyTrunc (fl (fl stop + fl (fl (999 / 1000) * fl segDur)))

/-- mpd_proxy.py 27-28, 251-252 and 272-273: `float(a) / b != int(float(a) / b)`, the test for an uneven split of the
periods of an hour. -/
def unevenF (a b : Int) : Bool := fl (fl a / fl b) ≠ (pyTrunc (fl (fl a / fl b)) : Rat)

/-- mod_dashlivesim.py 222: `seg_start + i * chunk_dur - margin` with every operation rounded;
`margin = 0.1` is the float nearest to 1/10 (line 218). -/
def chunkAvailF (segStart : Int) (d : Rat) (i : Nat) : Rat :=
  fl (fl (fl segStart + fl (fl i * d)) - fl (1 / 10))

/-- mod_dashlivesim.py 214-227 (`deliver`), the delivery loop with float arithmetic.  The clock values are those
`time()` returned; `sleep(s)` lasts at least the float `s` it is given. -/
def deliverF (segStart : Int) (d : Rat) : Nat → Rat → List Bytes → List Step → List Delivery
  | i, t, c :: cs, e :: es =>
    let now := t + e.idle
    let wait := fl (chunkAvailF segStart d i - now)
    let t' := if wait > 0 then now + wait + e.over else now
    { chunk := c, read := now, sent := t' } :: deliverF segStart d (i + 1) t' cs es
  | _, _, _, _ => []

end Verif
