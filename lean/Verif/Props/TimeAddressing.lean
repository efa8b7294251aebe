import Verif.Props.Availability
/-
C30: `$Time$` requests.
-/
namespace Verif

/-- The configuration of a request for the segment file `t<T>.m4s`. -/
def Cfg.forTime (c : Cfg) (T : Nat) : Cfg :=
  { c with filename := 't' :: natText T ++ ".m4s".toList, ext := ".m4s".toList }

/-- Rounding to the nearest integer when strictly closer than one half. -/
theorem pyRound_near {x : Rat} {k : Int} (h1 : (k : Rat) - 1/2 < x) (h2 : x < k + 1/2) :
    pyRound x = k := by
  have hl := Rat.floor_le x
  have hu := Rat.lt_floor_add_one x
  push_cast at hu
  unfold pyRound
  by_cases hk : (k : Rat) ≤ x
  · have hf : x.floor = k := by
      apply le_antisymm
      · have : (x.floor : Rat) < (k + 1 : Int) := by push_cast; linarith
        have := Rat.intCast_lt_intCast.mp this
        omega
      · exact Rat.le_floor_iff.mpr hk
    simp only [hf]
    rw [if_pos (by linarith)]
  · have hk' : x < k := not_le.mp hk
    have hf : x.floor = k - 1 := by
      apply le_antisymm
      · have : (x.floor : Rat) < (k : Int) := by linarith
        have := Rat.intCast_lt_intCast.mp this
        omega
      · rw [Rat.le_floor_iff]; push_cast; linarith
    simp only [hf]
    push_cast
    rw [if_neg (by linarith), if_pos (by linarith)]
    omega

theorem requestedNr_forTime {pf : Text → Option Rat} (hpf : ∀ n : Nat, pf (natText n) = some (n : Rat))
    {c : Cfg} (hd : 0 < c.segDur) {ts : Int} (hts : c.curTimescale = some ts) (h0 : 0 < ts)
    {T : Nat} {k : Int} (h : 2 * |(T : Int) - k * (c.segDur * ts)| < c.segDur * ts) :
    (c.forTime T).requestedNr pf = .ok k := by
  have hsplit : splitext ('t' :: natText T ++ ".m4s".toList) = ('t' :: natText T, ".m4s".toList) := by
    have : (".m4s".toList : Text) = '.' :: "m4s".toList := rfl
    rw [this]
    exact splitext_dot (by decide) ⟨'t', by simp, by decide⟩
  have hcur : (c.forTime T).curTimescale = some ts := hts
  have hseg : (c.forTime T).segDur = c.segDur := rfl
  have hfn : (c.forTime T).filename = 't' :: natText T ++ ".m4s".toList := rfl
  unfold Cfg.requestedNr
  simp only [hfn, hsplit]
  rw [if_pos trivial]
  simp only [hpf, hcur, hseg]
  rw [if_neg (by omega), if_neg (by omega)]
  simp only [Except.ok.injEq]
  have hdq : (0 : Rat) < c.segDur := by exact_mod_cast hd
  have htq : (0 : Rat) < ts := by exact_mod_cast h0
  have hp : (0 : Rat) < c.segDur * ts := mul_pos hdq htq
  have hq : 2 * |(T : Rat) - k * (c.segDur * ts)| < c.segDur * ts := by exact_mod_cast h
  rw [div_div]
  have habs := abs_lt.mp (show |(T : Rat) - k * (c.segDur * ts)| < c.segDur * ts / 2 by linarith)
  apply pyRound_near
  · rw [lt_div_iff₀ hp]; linarith [habs.1]
  · rw [div_lt_iff₀ hp]; linarith [habs.2]

/-- **C30 (start number 0).** A request by start time `T` (ticks) is answered exactly as the
request by number `n` whenever `T` is less than half a segment from the nominal media time of
`n`, for services that number from 0 and whose media timeline is on the segment grid.
Missing for the full property: start numbers other than 0 (see `C30_snr_violation`). -/
theorem C30_time_number_partial {pf : Text → Option Rat} (hpf : ∀ n : Nat, pf (natText n) = some (n : Rat))
    {c : Cfg} (hd : 0 < c.segDur) {ts : Int} (hts : c.curTimescale = some ts) (h0 : 0 < ts)
    (hs : c.startNr = 0) (hgrid : ∀ t ∈ c.timeoffset, c.segDur ∣ c.ast - t)
    {T : Nat} {n : Int} (h : 2 * |(T : Int) - mediaTime c n * ts| < c.segDur * ts) (now : Rat) :
    getMedia pf (c.forTime T) now = getMedia pf (c.forNr n) now := by
  have hm : mediaTime c n = n * c.segDur := by
    unfold mediaTime firstNumber
    rw [hs]
    cases ho : c.timeoffset with
    | none => simp
    | some t =>
      have := Int.ediv_mul_cancel (hgrid t (by simp [ho]))
      simp only [zero_add]
      rw [if_neg (by decide), Int.sub_mul, this]
      omega
  have h' : 2 * |(T : Int) - n * (c.segDur * ts)| < c.segDur * ts := by
    rw [hm] at h
    rwa [← mul_assoc]
  have hr := requestedNr_forTime hpf hd hts h0 h'
  have hr2 := requestedNr_forNr pf c n
  have he : ({ c.forTime T with emsgLastSeg := true } : Cfg).requestedNr pf = (c.forTime T).requestedNr pf := rfl
  have he2 : ({ c.forNr n with emsgLastSeg := true } : Cfg).requestedNr pf = (c.forNr n).requestedNr pf := rfl
  have hq1 : processMedia pf (c.forTime T) now = processMedia pf (c.forNr n) now := by
    unfold processMedia
    rw [hr, hr2]; rfl
  have hq2 : processMedia pf { c.forTime T with emsgLastSeg := true } now
      = processMedia pf { c.forNr n with emsgLastSeg := true } now := by
    unfold processMedia
    rw [he, he2, hr, hr2]; rfl
  unfold getMedia
  rw [hq1, hq2]
  rfl

/-- A service of 2 s segments with timescale 90000 and one representation; time 3599500 is
within half a segment of number 20. -/
def timeCfg : Cfg :=
  { ast := 1000, segDur := 2, vodFirst := 1, vodNr := 30, tsbd := some 300,
    relPath := "V1".toList, reps := [{ id := "V1".toList, contentType := "video".toList, timescale := 90000 }] }

example : timeCfg.curTimescale = some 90000 ∧ mediaTime timeCfg 20 = 40 ∧
    2 * |(3599500 : Int) - mediaTime timeCfg 20 * 90000| < timeCfg.segDur * 90000 := by
  decide +kernel

/-- A `float()` that understands what the examples need. -/
def examplePf (t : Text) : Option Rat := (intDigits false 0 t).map (fun n => (n : Rat))

theorem examplePf_nat (n : Nat) : examplePf (natText n) = some (n : Rat) := by
  simp [examplePf, intDigits_natText]

/-- **C30 (violation).** With start number 1 the time request for media time 40 s is taken as
number 20, while the segment with media time 40 s has number 21: the reply is the segment
before the requested one. -/
theorem C30_snr_violation :
    let c := { timeCfg with startNr := 1 }
    mediaTime c 21 = 40 ∧
    getMedia examplePf (c.forNr 21) 1100 = .ok (.media
      { vodNr := 21, segNr := 21, offset := 0, lmsg := false, segTime := 40, emsgLast := false }) ∧
    getMedia examplePf (c.forTime 3600000) 1100 = .ok (.media
      { vodNr := 20, segNr := 20, offset := 0, lmsg := false, segTime := 38, emsgLast := false }) := by
  decide +kernel

end Verif
