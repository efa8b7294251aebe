import Verif.Py
/-
Model of dashlib/moduloperiod.py.
-/
namespace Verif

/-- moduloperiod.py 45-47 / configprocessor.py 55-57 `quantize(number, step)` for an
integer number and integer step. -/
def quantize (number step : Int) : Py Int := do
  let q ← pyDiv number step
  return q * step

/-- moduloperiod.py 50-62: the fields of a `ModuloPeriod` object. -/
structure Modulo where
  modSecs : Int
  now : Int
  percent : Rat
  ast : Int
  mup : Rat
  mpd : Rat
  aet : Rat
  deriving DecidableEq, Repr

/-- moduloperiod.py 83-86 `calc_percent` (true division). -/
def moduloPercent (modSecs now : Int) : Py Rat := do
  let seconds ← pyMod now modSecs
  return ((seconds * 100 : Int) : Rat) / modSecs

/-- moduloperiod.py 88-93 `calc_availability_start_time`. -/
def moduloAst (modSecs now : Int) (percent : Rat) : Py Int := do
  let start ← quantize now modSecs
  return if 90 ≤ percent then start + modSecs else start

/-- moduloperiod.py 95-107 `calc_media_pres_dur`. -/
def moduloMpd (modSecs : Int) (percent : Rat) : Rat :=
  if percent < 10 then 2 * modSecs / 10
  else if percent < 30 then 4 * modSecs / 10
  else if percent < 50 then 6 * modSecs / 10
  else if percent < 90 then 8 * modSecs / 10
  else 2 * modSecs / 10

/-- moduloperiod.py 53-62 `ModuloPeriod.__init__`. -/
def mkModulo (minutes now : Int) : Py Modulo := do
  let modSecs := 60 * minutes
  let percent ← moduloPercent modSecs now
  let ast ← moduloAst modSecs now percent
  let mup : Rat := (modSecs : Rat) / 20
  let mpd := moduloMpd modSecs percent
  return { modSecs, now, percent, ast, mup, mpd, aet := ast + mpd + mup }

/-- moduloperiod.py 113-119 `compare_with_last_segment`; segment duration 0 raises. -/
def Modulo.compareWithLast (m : Modulo) (nr segDur : Int) : Py Rat :=
  if segDur = 0 then .error .zeroDivision
  else .ok ((((nr + 1) * segDur : Int) - ((m.ast : Rat) + m.mpd)) / segDur)

/-- moduloperiod.py 121-125 `calc_last_segment_number` (true division, minus one). -/
def Modulo.lastSegmentNumber (m : Modulo) (segDur : Int) : Py Rat :=
  if segDur = 0 then .error .zeroDivision
  else .ok (((m.ast : Rat) + m.mpd) / segDur - 1)

end Verif
