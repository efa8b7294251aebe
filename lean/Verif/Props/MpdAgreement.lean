import Verif.Props.StartStop
import Verif.Spec.DashClient
/-
C06: the manifest and the segment server agree.
-/
namespace Verif
open Spec

/-- Value of an availabilityTimeOffset attribute. -/
def AtoAttr.val : AtoAttr → Option Rat
  | .absent => some 0
  | .inf => none
  | .value r => some r

/-- What a client reads from the manifest for one period: an absent startNumber is 1, the
offset of the segment template overrides the one of the base URL. -/
def clientView (m : Mpd) (p : PeriodElem) : Addressing :=
  { ast := m.ast, periodStart := p.start, startNumber := p.startNumber.getD 1, pto := p.pto,
    duration := m.segDur, ato := match m.templateAto with | some r => some r | none => m.baseAto.val }

/-- The manifest of a single-period service exists and has this one period. -/
theorem generateMpd_single {c : Cfg} (hp : c.periods = -1) (hi : c.insertAd ≤ 0)
    (hd : 0 < c.segDur) (ht : c.tsbd.isSome) (now : Int) {first : Int}
    (hf : c.adjustedStartNumber = .ok first) :
    ∃ m, generateMpd c now = .ok m ∧
      m.periods = [{ id := 0, start := 0, duration := none,
                     startNumber := if first = -1 then none else some first,
                     pto := c.adjustedPto 0 1, callback := false }] ∧
      m.ast = c.ast ∧ m.segDur = c.segDur ∧
      m.baseAto = (if c.chunkDur.isNone then atoAttr c.ato else .absent) ∧
      m.templateAto = (if c.chunkDur.isNone then none else some c.ato) := by
  obtain ⟨t, ht⟩ := Option.isSome_iff_exists.mp ht
  have hps : periodData c now = .ok
      [{ id := 0, start := 0, startNumber := first + 0, pto := c.adjustedPto 0 1 }] := by
    unfold periodData
    have h1 : ¬ c.insertAd > 0 := by omega
    have h2 : min c.periods 60 = -1 := by omega
    simp only [h2, h1, if_false, if_true, hf, pyDiv_pos hd, bind, Except.bind, pure, Except.pure]
    rw [if_neg (by decide)]
    simp
  unfold generateMpd
  simp only [hf, ht, hps, bind, Except.bind, pure, Except.pure]
  refine ⟨_, rfl, ?_, rfl, rfl, rfl, rfl⟩
  simp [periodElem]

/-- **C06.** Single-period number-based service without low-latency chunks: what a client
computes from the manifest is what the server does.  Every segment number has the media time
the server uses, media time `t` is found in the segment number the client computes, and the
segment is served exactly from the instant the client computes (to the end of the buffer).
A start number omitted from the manifest (`snr_-1`) is served as 1.
Missing: `snr_-1` together with a time offset and first numbers that come out as -1
(`C06_snr_violation`); low-latency chunks with infinite offset (`C06_ll_inf_violation`). -/
theorem C06_agree_partial (pf : Text → Option Rat) {c : Cfg} (h : Plain c) (hp : c.periods = -1)
    (hi : c.insertAd ≤ 0) (hch : c.chunkDur = none)
    (hsn : c.startNr = -1 → c.timeoffset = none) (hfn : firstNumber c ≠ -1) (now0 : Int) :
    ∃ m p, generateMpd c now0 = .ok m ∧ m.periods = [p] ∧
      let v := clientView m p
      (∀ n, v.mediaStart n = mediaTime c n) ∧
      (∀ (t : Rat) n, v.number t = n ↔ (mediaTime c n : Rat) ≤ t ∧ t < mediaTime c n + c.segDur) ∧
      (∀ n now, IsServed pf c n now ↔ v.startNumber ≤ n ∧ v.availableFrom n ≤ now ∧
        now ≤ v.availableFrom n + c.ato + c.segDur + c.tsbd.getD 0) := by
  have hd := h.segDur
  have hdq : (0 : Rat) < c.segDur := by exact_mod_cast hd
  obtain ⟨first, hf, hf2⟩ : ∃ first, c.adjustedStartNumber = .ok first ∧
      (if first = -1 then none else some first : Option Int).getD 1 = firstNumber c := by
    by_cases hm : c.startNr = -1
    · refine ⟨-1, ?_, ?_⟩
      · unfold Cfg.adjustedStartNumber; rw [hsn hm, hm]
      · simp [firstNumber, hm]
    · refine ⟨firstNumber c, ?_, ?_⟩
      · rw [← segStartNr_eq hd]; unfold Cfg.segStartNr; rw [if_neg hm]
      · rw [if_neg hfn]; rfl
  obtain ⟨m, hm, hps, ha, hs, hb, ht⟩ := generateMpd_single hp hi hd h.tsbd now0 hf
  refine ⟨m, _, hm, hps, ?_⟩
  have hato : c.ato ≠ -1 := by have := h.ato; intro hc; rw [hc] at this; linarith
  have hav : clientView m
      { id := 0, start := 0, duration := none,
        startNumber := if first = -1 then none else some first, pto := c.adjustedPto 0 1,
        callback := false } =
      { ast := c.ast, periodStart := 0, startNumber := firstNumber c, pto := c.adjustedPto 0 1,
        duration := c.segDur, ato := some c.ato } := by
    unfold clientView
    rw [ht, hb, ha, hs, hch]
    simp only [hf2, Option.isNone_none, if_true]
    congr 1
    unfold atoAttr
    rw [if_neg hato]
    split
    · rfl
    · rename_i hn
      have := h.ato
      simp only [AtoAttr.val, Option.some.injEq]
      linarith [not_lt.mp hn]
  rw [hav]
  have hpto := adjustedPto_eq c
  have hmt : ∀ n, Addressing.mediaStart
      { ast := c.ast, periodStart := 0, startNumber := firstNumber c, pto := c.adjustedPto 0 1,
        duration := c.segDur, ato := some c.ato } n = mediaTime c n := by
    intro n
    simp only [Addressing.mediaStart, mediaTime, hpto]
    ring
  refine ⟨hmt, ?_, ?_⟩
  · intro t n
    have e : ((mediaTime c n : Int) : Rat) = c.adjustedPto 0 1 + (n - firstNumber c) * c.segDur := by
      rw [← hmt n]; simp only [Addressing.mediaStart]; push_cast; ring
    simp only [Addressing.number]
    rw [e]
    have h1 := le_floor_div (x := t - c.adjustedPto 0 1) hdq (n - firstNumber c)
    have h2 := le_floor_div (x := t - c.adjustedPto 0 1) hdq (n - firstNumber c + 1)
    push_cast at h1 h2
    constructor
    · intro hn
      have g1 := h1.mp (by omega)
      have g2 : ¬ (((n : Rat) - firstNumber c + 1) * c.segDur ≤ t - c.adjustedPto 0 1) :=
        fun hc => by have := h2.mpr hc; omega
      constructor <;> linarith
    · rintro ⟨g1, g2⟩
      have k1 := h1.mpr (by linarith)
      have k2 : ¬ (n - firstNumber c + 1 ≤ ((t - c.adjustedPto 0 1) / c.segDur).floor) := by
        intro hc; have := h2.mp hc; linarith
      omega
  · intro n now
    rw [isServed_plain pf h]
    simp only [Spec.Service.Available, Spec.Service.opens, Spec.Service.closes,
      Spec.Service.startOf, serviceOf, Addressing.availableFrom, Option.getD_some]
    push_cast
    constructor
    · rintro ⟨g1, g2, g3⟩
      exact ⟨g1, by linarith, by linarith⟩
    · rintro ⟨g1, g2, g3⟩
      exact ⟨g1, by linarith, by linarith⟩

/-- A service with time offset that satisfies the hypotheses: start number 3 at time 1000,
epoch of the media timeline at 400. -/
example : Plain { exampleCfg with startNr := 3, timeoffset := some 400, ato := 1/2 } ∧
    firstNumber { exampleCfg with startNr := 3, timeoffset := some 400 } = 303 :=
  ⟨⟨by decide, by decide, by decide +kernel, rfl, rfl, rfl, by decide, rfl⟩, by decide +kernel⟩

/-- **C06 (violation).** `snr_-1` with a time offset: the manifest announces 299 as the number
of media time 600 (the first segment), which the server calls 1. -/
theorem C06_snr_violation :
    let c := { exampleCfg with startNr := -1, timeoffset := some 400 }
    (generateMpd c 1100).toOption.map (fun m => m.periods.map (fun p => (clientView m p).number 600))
      = some [299] ∧ firstNumber c = 1 ∧ mediaTime c 1 = 600 ∧
    getMedia (fun _ => none) (c.forNr 299) 1100 = .ok .tooEarly := by
  decide +kernel

/-- **C06 (violation).** Low-latency service with infinite offset: the manifest writes the
internal value -1 as availabilityTimeOffset of the segment templates, so a client waits until
one second after the end of the segment, while the server serves it at any time. -/
theorem C06_ll_inf_violation :
    let c := { exampleCfg with ato := -1, chunkDur := some 1 }
    (generateMpd c 1100).toOption.map (fun m => m.periods.map (fun p => (clientView m p).availableFrom 10))
      = some [1013] ∧
    (getMedia (fun _ => none) (c.forNr 10) 1001).toOption.map (fun r => r matches .media _) = some true := by
  decide +kernel

end Verif
