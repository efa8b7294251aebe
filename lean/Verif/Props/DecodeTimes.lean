import Verif.Props.MediaFilter
/-
C05: decode times of consecutive live segments.
-/
namespace Verif

/-- A VoD track: decode time and duration (in ticks) of every file of the loop, gapless, and as
long as the loop.  Files are numbered from `first`, there are `count` of them, the loop lasts
`loop` seconds. -/
structure GaplessTrack (first count loop ts : Int) where
  time : Int → Nat
  dur : Int → Nat
  next : ∀ f, first ≤ f → f + 1 < first + count → time (f + 1) = time f + dur f
  wrap : (time (first + count - 1) : Int) + dur (first + count - 1) = time first + loop * ts

/-- The filter for a served segment. -/
def filterFor (c : Cfg) (v : Served) (ts : Int) : MfCfg :=
  { segNr := some v.segNr, segDur := c.segDur, offset := v.offset, lmsg := v.lmsg,
    timescale := some ts, perMinute := 0, insertSidx := false, emsgLast := none,
    defaultDur := none }

/-- **C05.** For every well-formed configuration, every gapless VoD track whose total duration
is the loop duration, and any two consecutive live numbers that are served (each at any time):
if both decode time boxes can be written then the time a client reads from segment `n+1` is
the time it reads from segment `n` plus the duration of the media of segment `n`.  This
includes the step from the last file of the loop to the first, and the step from 32-bit to
64-bit times. -/
theorem C05_gapless (pf : Text → Option Rat) {c : Cfg} (h : WellFormed c) {ts : Int}
    (track : GaplessTrack c.vodFirst c.vodNr (c.segDur * c.vodNr) ts) {n : Int} {t u : Rat}
    {v w : Served} (hv : getMedia pf (c.forNr n) t = .ok (.media v))
    (hw : getMedia pf (c.forNr (n + 1)) u = .ok (.media w))
    (wide1 wide2 : Bool) (a2 a1 a0 b2 b1 b0 : UInt8)
    (h1 : track.time v.vodNr < (if wide1 then 2 ^ 64 else 2 ^ 32))
    (h2 : track.time w.vodNr < (if wide2 then 2 ^ 64 else 2 ^ 32))
    {s1 s2 s1' s2' : MfState} {out1 out2 : Bytes}
    (ho1 : processTfdt (filterFor c v ts)
      (boxBytes tyTfdt (tfdtPayload wide1 a2 a1 a0 (track.time v.vodNr))) s1 = .ok (out1, s1'))
    (ho2 : processTfdt (filterFor c w ts)
      (boxBytes tyTfdt (tfdtPayload wide2 b2 b1 b0 (track.time w.vodNr))) s2 = .ok (out2, s2')) :
    ∃ x, decodeTimeOf out1 = some x ∧ decodeTimeOf out2 = some (x + track.dur v.vodNr) := by
  have hd := h.segDur
  have hn := h.vodNr
  have read : ∀ (v : Served) (wide : Bool) (f2 f1 f0 : UInt8) (x : Nat) (s s' : MfState)
      (out : Bytes), x < (if wide then 2 ^ 64 else 2 ^ 32) →
      processTfdt (filterFor c v ts) (boxBytes tyTfdt (tfdtPayload wide f2 f1 f0 x)) s
        = .ok (out, s') →
      0 ≤ (x : Int) + v.offset * ts ∧ decodeTimeOf out = some ((x : Int) + v.offset * ts).toNat := by
    intro v wide f2 f1 f0 x s s' out hx hp
    have := C10_exact (filterFor c v ts) ts rfl wide f2 f1 f0 x hx s
    have off : (filterFor c v ts).offset = v.offset := rfl
    simp only [off] at this
    by_cases hr : (x : Int) + v.offset * ts < 0 ∨ 2 ^ 64 ≤ (x : Int) + v.offset * ts
    · rw [this.2 hr] at hp; cases hp
    · obtain ⟨o, s2, e1, e2, -⟩ := this.1 (by omega) (by omega)
      rw [e1] at hp
      simp only [Except.ok.injEq, Prod.mk.injEq] at hp
      obtain ⟨rfl, -⟩ := hp
      exact ⟨by omega, e2⟩
  obtain ⟨p1, q1⟩ := read v wide1 a2 a1 a0 _ s1 s1' out1 h1 ho1
  obtain ⟨p2, q2⟩ := read w wide2 b2 b1 b0 _ s2 s2' out2 h2 ho2
  refine ⟨_, q1, ?_⟩
  rw [q2]
  congr 1
  have key : (track.time w.vodNr : Int) + w.offset * ts
      = (track.time v.vodNr : Int) + v.offset * ts + track.dur v.vodNr := by
    have v' := served_eq h hv
    have w' := served_eq h hw
    have vn : v.vodNr = mediaTime c n / c.segDur % c.vodNr + c.vodFirst := by rw [v']
    have wn : w.vodNr = mediaTime c (n + 1) / c.segDur % c.vodNr + c.vodFirst := by rw [w']
    have vo : v.offset = mediaTime c n / (c.segDur * c.vodNr) * (c.segDur * c.vodNr) := by rw [v']
    have wo : w.offset = mediaTime c (n + 1) / (c.segDur * c.vodNr) * (c.segDur * c.vodNr) := by
      rw [w']
    rw [← Int.ediv_ediv_of_nonneg (by omega : 0 ≤ c.segDur)] at vo wo
    have hm : mediaTime c (n + 1) / c.segDur = mediaTime c n / c.segDur + 1 := by
      rw [mediaTime_div hd, mediaTime_div hd]; omega
    rw [hm] at wn wo
    generalize mediaTime c n / c.segDur = q at *
    have e1 := Int.emod_add_mul_ediv q c.vodNr
    have e2 := Int.emod_nonneg q (by omega : c.vodNr ≠ 0)
    have e3 := Int.emod_lt_of_pos q hn
    by_cases hwrap : q % c.vodNr + 1 < c.vodNr
    · have hq : (q + 1) / c.vodNr = q / c.vodNr := by
        rw [show q + 1 = (q % c.vodNr + 1) + c.vodNr * (q / c.vodNr) by omega,
          Int.add_mul_ediv_left _ _ (by omega), Int.ediv_eq_zero_of_lt (by omega) hwrap]
        omega
      have hr : (q + 1) % c.vodNr = q % c.vodNr + 1 := by
        rw [show q + 1 = (q % c.vodNr + 1) + c.vodNr * (q / c.vodNr) by omega,
          Int.add_mul_emod_self_left, Int.emod_eq_of_lt (by omega) hwrap]
      have := track.next v.vodNr (by omega) (by omega)
      have hwv : w.vodNr = v.vodNr + 1 := by rw [wn, vn, hr]; omega
      rw [hwv, this, wo, vo, hq]
      push_cast
      ring
    · have hlast : q % c.vodNr = c.vodNr - 1 := by omega
      have hq : (q + 1) / c.vodNr = q / c.vodNr + 1 := by
        rw [show q + 1 = c.vodNr * (q / c.vodNr + 1) by rw [mul_add]; omega,
          Int.mul_ediv_cancel_left _ (by omega)]
      have hr : (q + 1) % c.vodNr = 0 := by
        rw [show q + 1 = c.vodNr * (q / c.vodNr + 1) by rw [mul_add]; omega,
          Int.mul_emod_right]
      have hv1 : v.vodNr = c.vodFirst + c.vodNr - 1 := by omega
      have hw1 : w.vodNr = c.vodFirst := by rw [wn, hr]; omega
      have := track.wrap
      rw [hw1, hv1, wo, vo, hq]
      have e : (q / c.vodNr + 1) * (c.segDur * c.vodNr) * ts
          = q / c.vodNr * (c.segDur * c.vodNr) * ts + c.segDur * c.vodNr * ts := by ring
      rw [e]
      linarith
  omega

/-- A loop of 30 segments of 2 s in 90 kHz, starting at decode time 1000. -/
def exampleTrack : GaplessTrack exampleCfg.vodFirst exampleCfg.vodNr
    (exampleCfg.segDur * exampleCfg.vodNr) 90000 where
  time f := 1000 + (f - 1).toNat * 180000
  dur _ := 180000
  next := by
    intro f h1 h2
    simp only [exampleCfg] at h1 h2
    have : (f + 1 - 1).toNat = (f - 1).toNat + 1 := by omega
    rw [this]; omega
  wrap := by decide +kernel

/-- Segments 34 and 35 of the example service are the last file of the first loop and the first
file of the second loop; both are served at second 1070. -/
example : WellFormed exampleCfg ∧
    (∃ v w, getMedia (fun _ => none) (exampleCfg.forNr 34) 1070 = .ok (.media v) ∧
      getMedia (fun _ => none) (exampleCfg.forNr 35) 1070 = .ok (.media w) ∧
      v.vodNr = 30 ∧ w.vodNr = 1 ∧ v.offset = 0 ∧ w.offset = 60 ∧
      exampleTrack.time 30 + 180000 = exampleTrack.time 1 + 60 * 90000) :=
  ⟨⟨by decide, by decide, by decide, rfl, by decide⟩,
    ⟨30, 34, 0, false, 58, false⟩, ⟨1, 35, 60, false, 60, false⟩,
    by decide +kernel, by decide +kernel, rfl, rfl, rfl, rfl, by decide +kernel⟩

end Verif
