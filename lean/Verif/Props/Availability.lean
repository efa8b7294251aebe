import Verif.Lemmas.Media
import Verif.Spec.Availability
/-
C01–C04, C50: when is which segment served, and from which VoD file.
-/
namespace Verif

/-- A plain live service: finite availability time offset, no end, no loss pattern,
positive durations.  (The state `process_url` leaves for URLs without stop, dur, modulo,
tfdt, cont and with zero or several base URLs.) -/
structure Plain (c : Cfg) : Prop where
  segDur : 0 < c.segDur
  vodNr : 0 < c.vodNr
  ato : 0 ≤ c.ato
  stop : c.stopTime = none
  last : c.lastNrs = []
  aet : c.aet = none
  urls : c.multiUrl.length ≠ 1
  tsbd : c.tsbd.isSome

/-- First segment number of a configuration, as documented: `snr`, where -1 stands for an
implicit 1, advanced by the number of whole segments between the time offset and the
start. -/
def firstNumber (c : Cfg) : Int :=
  if c.startNr = -1 then 1
  else match c.timeoffset with
    | none => c.startNr
    | some t => c.startNr + (c.ast - t) / c.segDur

/-- The service a plain configuration describes. -/
def serviceOf (c : Cfg) : Spec.Service :=
  { ast := c.ast, segDur := c.segDur, ato := c.ato, tsbd := c.tsbd.getD 0,
    first := firstNumber c }

/-- Media time (seconds) of segment `n` as the server sees it. -/
def mediaTime (c : Cfg) (n : Int) : Int :=
  (n - firstNumber c) * c.segDur + (match c.timeoffset with | none => 0 | some t => c.ast - t)

theorem segStartNr_eq {c : Cfg} (h : 0 < c.segDur) : c.segStartNr = .ok (firstNumber c) := by
  unfold Cfg.segStartNr firstNumber Cfg.adjustedStartNumber
  split
  · rfl
  · cases c.timeoffset with
    | none => rfl
    | some t => simp [pyDiv_pos h, bind, Except.bind, pure, Except.pure]

theorem adjustedPto_eq (c : Cfg) :
    c.adjustedPto 0 1 = (match c.timeoffset with | none => 0 | some t => c.ast - t) := by
  unfold Cfg.adjustedPto
  split <;> simp_all

theorem lossAction_plain {c : Cfg} (h : c.multiUrl.length ≠ 1) (now : Int) :
    lossAction c.multiUrl now = .ok .plain := by
  unfold lossAction
  split
  · rename_i heq; simp [heq] at h
  · rfl

theorem processMediaNr_plain {c : Cfg} (h : Plain c) (nowF : Rat) (n : Int) :
    processMediaNr c nowF n =
      if n < firstNumber c then .ok (.beforeFirst n (firstNumber c))
      else if nowF < (serviceOf c).opens n then .ok .tooEarly
      else if (serviceOf c).closes n < nowF then .ok .tooLate
      else .ok (.media
        { vodNr := mediaTime c n / c.segDur % c.vodNr + c.vodFirst
          segNr := n
          offset := mediaTime c n / (c.segDur * c.vodNr) * (c.segDur * c.vodNr)
          lmsg := false
          segTime := mediaTime c n
          emsgLast := c.emsgLastSeg }) := by
  obtain ⟨t, ht⟩ := Option.isSome_iff_exists.mp h.tsbd
  have hato : c.ato ≠ -1 := by have := h.ato; intro e; rw [e] at this; exact absurd this (by decide)
  unfold processMediaNr
  simp only [segStartNr_eq h.segDur, bind, Except.bind, Cfg.stopNumber, h.stop, h.last,
    beyondLastNr, windowCheck, hato, ht, stopTruthy, adjustedPto_eq, List.getLast?_nil]
  have hopen : ∀ mta : Int, (((n - firstNumber c) * c.segDur + mta + c.segDur - mta + c.ast : Int) : Rat)
      - c.ato = (serviceOf c).opens n := by
    intro mta
    simp only [Spec.Service.opens, Spec.Service.startOf, serviceOf]
    push_cast
    ring
  have hclose : ∀ mta : Int, (((n - firstNumber c) * c.segDur + mta + c.segDur - mta + c.ast : Int) : Rat)
      + c.segDur + t = (serviceOf c).closes n := by
    intro mta
    simp only [Spec.Service.closes, Spec.Service.startOf, serviceOf, ht, Option.getD]
    push_cast
    ring
  simp only [hopen, hclose]
  by_cases h1 : n < firstNumber c
  · simp [h1]
  · by_cases h2 : nowF < (serviceOf c).opens n
    · simp [h1, h2]
    · by_cases h3 : (serviceOf c).closes n < nowF
      · simp [h1, h2, h3]
      · simp only [h1, h2, h3, loopPos_eq h.segDur h.vodNr]
        simp [mediaTime]

theorem getMedia_plain (pf : Text → Option Rat) {c : Cfg} (h : Plain c) (nowF : Rat) (n : Int) :
    getMedia pf (c.forNr n) nowF =
      if nowF < c.ast + c.segDur - c.ato then .ok .beforeFirstAst
      else processMediaNr c nowF n := by
  have hato : c.ato ≠ -1 := by have := h.ato; intro e; rw [e] at this; exact absurd this (by decide)
  have hx : (c.forNr n).ext = ".m4s".toList := rfl
  have e1 : (c.forNr n).ato = c.ato := rfl
  have e2 : (c.forNr n).ast = c.ast := rfl
  have e3 : (c.forNr n).segDur = c.segDur := rfl
  have e4 : (c.forNr n).aet = none := h.aet
  have e5 : (c.forNr n).multiUrl = c.multiUrl := rfl
  unfold getMedia processMedia
  simp only [hx, e1, e2, e3, e4, e5, requestedNr_forNr, lossAction_plain h.urls]
  simp only [hato, if_false, bind, Except.bind]
  by_cases hg : nowF < c.ast + c.segDur - c.ato
  · simp [hg]
  · simp [hg]
    rfl

/-- **C01.** Exact availability window of segment `n` of a plain service: all outcomes.
Before the very first segment opens every request gets `beforeFirstAst`; otherwise numbers
below the first are refused as such, and number `n` is too early strictly before
`opens n`, too late strictly after `closes n`, and served with the right live number in
between (both ends included). -/
theorem C01_window (pf : Text → Option Rat) {c : Cfg} (h : Plain c) (n : Int) (now : Rat) :
    let s := serviceOf c
    ((∃ v, getMedia pf (c.forNr n) now = .ok (.media v) ∧ v.segNr = n) ↔ s.Available n now) ∧
    (getMedia pf (c.forNr n) now = .ok .beforeFirstAst ↔ now < s.opens s.first) ∧
    (getMedia pf (c.forNr n) now = .ok (.beforeFirst n s.first) ↔
      s.opens s.first ≤ now ∧ n < s.first) ∧
    (getMedia pf (c.forNr n) now = .ok .tooEarly ↔
      s.opens s.first ≤ now ∧ s.first ≤ n ∧ now < s.opens n) ∧
    (getMedia pf (c.forNr n) now = .ok .tooLate ↔
      s.first ≤ n ∧ s.opens n ≤ now ∧ s.closes n < now) := by
  intro s
  have hd : (0 : Rat) < c.segDur := by exact_mod_cast h.segDur
  have hs : s = serviceOf c := rfl
  have hfirst : s.first = firstNumber c := rfl
  have hgate : s.opens s.first = c.ast + c.segDur - c.ato := by
    simp [hs, Spec.Service.opens, Spec.Service.startOf, serviceOf]
  have hmono : s.first ≤ n → s.opens s.first ≤ s.opens n := by
    intro hle
    have hle' : (0 : Rat) ≤ ((n - s.first : Int) : Rat) := by exact_mod_cast (by omega : 0 ≤ n - s.first)
    have := mul_nonneg hle' hd.le
    simp only [Spec.Service.opens, Spec.Service.startOf]
    have e : s.segDur = c.segDur := rfl
    rw [e]
    simp only [Int.sub_self, Int.cast_zero, zero_mul]
    linarith
  rw [getMedia_plain pf h, processMediaNr_plain h]
  simp only [Spec.Service.Available, ← hs, ← hfirst, ← hgate]
  by_cases hg : now < s.opens s.first
  · have hn : ¬ s.opens s.first ≤ now := not_le.mpr hg
    have hn' : s.first ≤ n → ¬ s.opens n ≤ now := fun h1 h2 => hn (le_trans (hmono h1) h2)
    simp only [hg, if_true]
    grind
  · have hn : s.opens s.first ≤ now := not_lt.mp hg
    by_cases h1 : n < s.first
    · simp only [hg, h1, if_true, if_false]
      grind
    · by_cases h2 : now < s.opens n
      · simp only [hg, h1, h2, if_true, if_false]
        grind
      · by_cases h3 : s.closes n < now
        · simp only [hg, h1, h2, h3, if_true, if_false]
          grind
        · simp only [hg, h1, h2, h3, if_false]
          grind

/-- A configuration used in the examples: 2 s segments, 30 of them in the loop starting with
file 1, started at second 1000, time-shift buffer 300 s, first number 5. -/
def exampleCfg : Cfg :=
  { ast := 1000, segDur := 2, vodFirst := 1, vodNr := 30, tsbd := some 300, startNr := 5 }

theorem exampleCfg_plain : Plain exampleCfg :=
  ⟨by decide, by decide, by decide, rfl, rfl, rfl, by decide, rfl⟩

/-- Segment 15 starts at 1020 and is served from 1022 on, for 302 s. -/
example : (serviceOf exampleCfg).opens 15 = 1022 ∧ (serviceOf exampleCfg).closes 15 = 1324 ∧
    (serviceOf exampleCfg).Available 15 1022 ∧ ¬ (serviceOf exampleCfg).Available 15 (2043/2) ∧
    getMedia (fun _ => none) (exampleCfg.forNr 15) 1022 = .ok (.media
      { vodNr := 11, segNr := 15, offset := 0, lmsg := false, segTime := 20, emsgLast := false }) := by
  refine ⟨by decide +kernel, by decide +kernel, ?_, ?_, by decide +kernel⟩
  · unfold Spec.Service.Available; decide +kernel
  · unfold Spec.Service.Available; decide +kernel

/-- A segment request that is answered with media. -/
def IsServed (pf : Text → Option Rat) (c : Cfg) (n : Int) (now : Rat) : Prop :=
  ∃ v, getMedia pf (c.forNr n) now = .ok (.media v)

theorem isServed_plain (pf : Text → Option Rat) {c : Cfg} (h : Plain c) (n : Int) (now : Rat) :
    IsServed pf c n now ↔ (serviceOf c).Available n now := by
  have := (C01_window pf h n now).1
  rw [← this]
  constructor
  · rintro ⟨v, hv⟩
    refine ⟨v, hv, ?_⟩
    rw [getMedia_plain pf h, processMediaNr_plain h] at hv
    grind
  · rintro ⟨v, hv, _⟩; exact ⟨v, hv⟩

theorem le_floor_div {x d : Rat} (hd : 0 < d) (n : Int) : n ≤ (x / d).floor ↔ n * d ≤ x := by
  rw [Rat.le_floor_iff, le_div_iff₀ hd]

theorem ceil_div_le {x d : Rat} (hd : 0 < d) (n : Int) : (x / d).ceil ≤ n ↔ x ≤ n * d := by
  rw [Rat.ceil_le_iff, div_le_iff₀ hd]

/-- The newest number available at `now` (documented live edge). -/
def liveEdge (s : Spec.Service) (now : Rat) : Int :=
  s.first + ((now - s.ast + s.ato) / s.segDur).floor - 1

/-- The oldest number available at `now`. -/
def oldest (s : Spec.Service) (now : Rat) : Int :=
  max s.first (s.first + ((now - s.ast - s.tsbd) / s.segDur).ceil - 2)

/-- **C02.** At any instant the served numbers are exactly those from `oldest` to
`liveEdge`; once the service is open the live edge is not below the first number, and it is
itself served if the time-shift buffer depth is not negative. -/
theorem C02_range (pf : Text → Option Rat) {c : Cfg} (h : Plain c) (now : Rat) :
    let s := serviceOf c
    (∀ n, IsServed pf c n now ↔ oldest s now ≤ n ∧ n ≤ liveEdge s now) ∧
    (s.opens s.first ≤ now → s.first ≤ liveEdge s now) ∧
    (s.opens s.first ≤ now → 0 ≤ s.tsbd → IsServed pf c (liveEdge s now) now) := by
  intro s
  have hd : (0 : Rat) < s.segDur := by
    have : s.segDur = c.segDur := rfl
    rw [this]; exact_mod_cast h.segDur
  have hdi : (0 : Int) < s.segDur := h.segDur
  have key : ∀ n, (serviceOf c).Available n now ↔ oldest s now ≤ n ∧ n ≤ liveEdge s now := by
    intro n
    have h1 := le_floor_div (x := now - s.ast + s.ato) hd (n - s.first + 1)
    have h2 := ceil_div_le (x := now - s.ast - s.tsbd) hd (n - s.first + 2)
    push_cast at h1 h2
    have e1 : s.opens n ≤ now ↔ ((n : Rat) - s.first + 1) * s.segDur ≤ now - s.ast + s.ato := by
      simp only [Spec.Service.opens, Spec.Service.startOf]
      push_cast
      constructor <;> intro hh <;> linarith
    have e2 : now ≤ s.closes n ↔ now - s.ast - s.tsbd ≤ ((n : Rat) - s.first + 2) * s.segDur := by
      simp only [Spec.Service.closes, Spec.Service.startOf]
      push_cast
      constructor <;> intro hh <;> linarith
    have es : serviceOf c = s := rfl
    rw [Spec.Service.Available, es, e1, ← h1, e2, ← h2]
    simp only [oldest, liveEdge]
    omega
  have hfirst : s.opens s.first ≤ now → s.first ≤ liveEdge s now := by
    intro hg
    have h1 := le_floor_div (x := now - s.ast + s.ato) hd 1
    have : ((1 : Int) : Rat) * s.segDur ≤ now - s.ast + s.ato := by
      simp only [Spec.Service.opens, Spec.Service.startOf] at hg
      push_cast at hg ⊢
      simp only [sub_self, zero_mul] at hg
      linarith
    have := h1.mpr this
    simp only [liveEdge]
    omega
  refine ⟨fun n => (isServed_plain pf h n now).trans (key n), hfirst, ?_⟩
  intro hg ht
  rw [isServed_plain pf h, key]
  refine ⟨?_, le_refl _⟩
  have hf := hfirst hg
  simp only [oldest]
  rw [max_le_iff]
  refine ⟨hf, ?_⟩
  have h2 := ceil_div_le (x := now - s.ast - s.tsbd) hd (((now - s.ast + s.ato) / s.segDur).floor + 1)
  have hlt := Rat.lt_floor_add_one ((now - s.ast + s.ato) / s.segDur)
  rw [div_lt_iff₀ hd] at hlt
  have hato : (0 : Rat) ≤ s.ato := h.ato
  have htq : (0 : Rat) ≤ (s.tsbd : Rat) := by exact_mod_cast ht
  have := h2.mpr (by linarith)
  simp only [liveEdge]
  omega

example : liveEdge (serviceOf exampleCfg) 1400 = 204 ∧ oldest (serviceOf exampleCfg) 1400 = 53 ∧
    (serviceOf exampleCfg).opens (serviceOf exampleCfg).first ≤ 1400 := by decide +kernel

/-! ### General configurations -/

/-- A configuration that `process_url` can leave behind (without loss pattern): positive
durations, a buffer depth, and a presentation duration whenever there is a stop time. -/
structure WellFormed (c : Cfg) : Prop where
  segDur : 0 < c.segDur
  vodNr : 0 < c.vodNr
  urls : c.multiUrl.length ≠ 1
  tsbd : c.tsbd.isSome
  stop : c.stopTime.isSome → c.mpdDur.isSome

/-- The number at which a service with stop time ends, as the server computes it; `none`
without stop time or when the number is 0. -/
def effectiveStop (c : Cfg) : Option Int :=
  match c.stopTime, c.mpdDur with
  | some _, some d =>
    let n := c.startNr + (match c.timeoffset with | none => 0 | some t => (c.ast - t) / c.segDur)
      + (d / c.segDur).floor
    if n = 0 then none else some n
  | _, _ => none

/-- The instant from which the service answers at all: the start for an infinite
availability time offset, else the opening of the first segment. -/
def gateTime (c : Cfg) : Rat := if c.ato = -1 then c.ast else c.ast + c.segDur - c.ato

/-- **C01 (general form).** Decision for every well-formed configuration: with end time,
stop time, last segment numbers, and infinite availability time offset (`ato = -1`). -/
theorem C01_general (pf : Text → Option Rat) {c : Cfg} (h : WellFormed c) (n : Int) (now : Rat) :
    IsServed pf c n now ↔
      gateTime c ≤ now ∧
      (∀ a ∈ c.aet, (pyTrunc now : Rat) ≤ a + 60) ∧
      (serviceOf c).first ≤ n ∧
      (∀ e ∈ effectiveStop c, n < e) ∧
      (∀ l ∈ c.lastNrs.getLast?, (n : Rat) ≤ l) ∧
      (c.ato ≠ -1 → (serviceOf c).opens n ≤ now ∧
        (effectiveStop c = none → now ≤ (serviceOf c).closes n)) := by
  generalize hs : serviceOf c = s
  obtain ⟨t, ht⟩ := Option.isSome_iff_exists.mp h.tsbd
  have hx : (c.forNr n).ext = ".m4s".toList := rfl
  have e1 : (c.forNr n).ato = c.ato := rfl
  have e2 : (c.forNr n).ast = c.ast := rfl
  have e3 : (c.forNr n).segDur = c.segDur := rfl
  have e4 : (c.forNr n).aet = c.aet := rfl
  have e5 : (c.forNr n).multiUrl = c.multiUrl := rfl
  have hproc : processMediaNr (c.forNr n) now n = processMediaNr c now n := rfl
  have hstop : ∃ st, c.stopNumber = .ok st ∧
      (stopTruthy st = true ↔ effectiveStop c = some (st.getD 0)) ∧
      (stopTruthy st = false ↔ effectiveStop c = none) := by
    unfold Cfg.stopNumber effectiveStop
    cases hs : c.stopTime with
    | none => exact ⟨none, rfl, by simp [stopTruthy], by simp [stopTruthy]⟩
    | some x =>
      obtain ⟨d, hd⟩ := Option.isSome_iff_exists.mp (h.stop (by simp [hs]))
      have hne : c.segDur ≠ 0 := by have := h.segDur; omega
      cases ho : c.timeoffset with
      | none =>
        refine ⟨some (c.startNr + (d / c.segDur).floor), ?_, ?_, ?_⟩
        · simp [Cfg.adjustedStartNumber, ho, hd, hne, bind, Except.bind, pure, Except.pure]
        · simp [stopTruthy, hd]
        · simp [stopTruthy, hd]
      | some o =>
        refine ⟨some (c.startNr + (c.ast - o) / c.segDur + (d / c.segDur).floor), ?_, ?_, ?_⟩
        · simp [Cfg.adjustedStartNumber, ho, hd, hne, bind, Except.bind, pure, Except.pure,
            pyDiv_pos h.segDur]
        · simp [stopTruthy, hd]
        · simp [stopTruthy, hd]
  obtain ⟨st, hst, hst1, hst2⟩ := hstop
  have hopen : ∀ mta : Int, (((n - firstNumber c) * c.segDur + mta + c.segDur - mta + c.ast : Int) : Rat)
      - c.ato = s.opens n := by
    intro mta
    simp only [← hs, Spec.Service.opens, Spec.Service.startOf, serviceOf]
    push_cast
    ring
  have hclose : ∀ mta : Int, (((n - firstNumber c) * c.segDur + mta + c.segDur - mta + c.ast : Int) : Rat)
      + c.segDur + t = s.closes n := by
    intro mta
    simp only [← hs, Spec.Service.closes, Spec.Service.startOf, serviceOf, ht, Option.getD]
    push_cast
    ring
  have hlast : beyondLastNr c.lastNrs n = none ↔ ∀ l ∈ c.lastNrs.getLast?, (n : Rat) ≤ l := by
    unfold beyondLastNr
    cases c.lastNrs.getLast? with
    | none => simp
    | some l => simp
  have haet : (c.aet.any fun a => decide ((pyTrunc now : Rat) > a + 60)) = true ↔
      ¬ ∀ a ∈ c.aet, (pyTrunc now : Rat) ≤ a + 60 := by
    cases c.aet with
    | none => simp
    | some a => simp
  have hfirst : s.first = firstNumber c := by rw [← hs]; rfl
  have hget : getMedia pf (c.forNr n) now =
      if now < gateTime c then .ok .beforeFirstAst
      else if ¬ ∀ a ∈ c.aet, (pyTrunc now : Rat) ≤ a + 60 then .ok .afterAet
      else processMediaNr c now n := by
    unfold getMedia processMedia
    simp only [hx, e1, e2, e3, e4, e5, requestedNr_forNr, lossAction_plain h.urls, hproc,
      bind, Except.bind, haet]
    simp [gateTime]
  have hprocEq : processMediaNr c now n =
      if n < firstNumber c then .ok (.beforeFirst n (firstNumber c))
      else if stopTruthy st ∧ st.getD 0 ≤ n then .ok (.beyondStop (st.getD 0))
      else match beyondLastNr c.lastNrs n with
        | some l => .ok (.beyondLast n l)
        | none =>
          if c.ato ≠ -1 ∧ now < s.opens n then .ok .tooEarly
          else if c.ato ≠ -1 ∧ s.closes n < now ∧ ¬ stopTruthy st then .ok .tooLate
          else .ok (.media
            { vodNr := mediaTime c n / c.segDur % c.vodNr + c.vodFirst
              segNr := n
              offset := mediaTime c n / (c.segDur * c.vodNr) * (c.segDur * c.vodNr)
              lmsg := c.lastNrs.contains (n : Rat)
              segTime := mediaTime c n
              emsgLast := c.emsgLastSeg }) := by
    unfold processMediaNr
    simp only [segStartNr_eq h.segDur, bind, Except.bind, hst, windowCheck, ht, adjustedPto_eq,
      hopen, hclose, loopPos_eq h.segDur h.vodNr]
    split
    · rfl
    split
    · rfl
    cases beyondLastNr c.lastNrs n with
    | some l => rfl
    | none =>
      simp only
      by_cases ha : c.ato = -1
      · simp only [ha, if_true, ne_eq, not_true_eq_false, false_and, if_false]
        rfl
      · by_cases ho : now < s.opens n
        · simp only [ha, ho, if_false, if_true, ne_eq, not_false_eq_true, true_and]
        · by_cases hc : now > s.closes n ∧ ¬ stopTruthy st
          · simp [ha, ho, hc]
          · simp only [ha, ho, hc, if_false, ne_eq, not_false_eq_true, true_and]
            rfl
  have hst3 : ∀ e ∈ effectiveStop c, stopTruthy st = true ∧ st.getD 0 = e := by
    intro e he
    have he' : effectiveStop c = some e := he
    cases hb : stopTruthy st with
    | true => have := hst1.mp hb; rw [this] at he'; exact ⟨rfl, by simpa using he'⟩
    | false => have := hst2.mp hb; rw [this] at he'; simp at he'
  unfold IsServed
  rw [hget, hprocEq]
  constructor
  · rintro ⟨v, hv⟩
    split at hv
    · simp at hv
    rename_i hg
    split at hv
    · simp at hv
    rename_i ha
    split at hv
    · simp at hv
    rename_i h1
    split at hv
    · simp at hv
    rename_i h2
    split at hv
    · simp at hv
    rename_i hb
    split at hv
    · simp at hv
    rename_i ho
    split at hv
    · simp at hv
    rename_i hc
    refine ⟨not_lt.mp hg, by simpa using ha, by omega, ?_, hlast.mp hb, ?_⟩
    · intro e he
      obtain ⟨hs1, hs2⟩ := hst3 e he
      by_contra hcon
      exact h2 ⟨hs1, by omega⟩
    · intro hato
      refine ⟨not_lt.mp (fun hlt => ho ⟨hato, hlt⟩), ?_⟩
      intro he
      have hf := hst2.mpr he
      exact not_lt.mp (fun hlt => hc ⟨hato, hlt, by simp [hf]⟩)
  · rintro ⟨hg, ha, h1, h2, hl, hw⟩
    rw [if_neg (not_lt.mpr hg), if_neg (by simpa using ha), if_neg (by omega), if_neg ?_,
      hlast.mpr hl]
    · simp only
      rw [if_neg ?_, if_neg ?_]
      · exact ⟨_, rfl⟩
      · rintro ⟨hato, hlt, hs⟩
        have := (hw hato).2 (hst2.mp (by simpa using hs))
        exact absurd hlt (not_lt.mpr this)
      · rintro ⟨hato, hlt⟩
        exact absurd hlt (not_lt.mpr (hw hato).1)
    · rintro ⟨hs, hle⟩
      have := h2 _ (hst1.mp hs)
      omega

/-- **C03.** For a fixed configuration the service of a segment never flickers: if it is
served at two instants it is served at every instant in between; so once it has expired it
is never served again. -/
theorem C03_no_flicker (pf : Text → Option Rat) {c : Cfg} (h : WellFormed c) (n : Int)
    {t1 t2 t3 : Rat} (h12 : t1 ≤ t2) (h23 : t2 ≤ t3)
    (s1 : IsServed pf c n t1) (s3 : IsServed pf c n t3) : IsServed pf c n t2 := by
  rw [C01_general pf h] at s1 s3 ⊢
  obtain ⟨g1, _, f1, st1, l1, w1⟩ := s1
  obtain ⟨_, a3, _, _, _, w3⟩ := s3
  refine ⟨le_trans g1 h12, ?_, f1, st1, l1, ?_⟩
  · intro a ha
    have := a3 a ha
    have hm : pyTrunc t2 ≤ pyTrunc t3 := by
      have hceil : ∀ {x y : Rat}, x ≤ y → x.ceil ≤ y.ceil := by
        intro x y hxy
        rw [Rat.ceil_le_iff]
        exact le_trans hxy Rat.le_ceil
      unfold pyTrunc
      split <;> split
      · exact Rat.floor_monotone h23
      · grind
      · rename_i h0 h0'
        have c1 : t2.ceil ≤ 0 := by
          rw [Rat.ceil_le_iff]; push_cast; linarith
        have c2 : (0 : Int) ≤ t3.floor := by
          rw [Rat.le_floor_iff]; push_cast; exact h0'
        omega
      · exact hceil h23
    have hm' : (pyTrunc t2 : Rat) ≤ pyTrunc t3 := by exact_mod_cast hm
    linarith
  · intro hato
    obtain ⟨o1, _⟩ := w1 hato
    obtain ⟨_, c3⟩ := w3 hato
    exact ⟨le_trans o1 h12, fun he => le_trans h23 (c3 he)⟩

/-- A stopped service with AET: a non-plain configuration that satisfies the hypothesis. -/
example : WellFormed { exampleCfg with stopTime := some 1100, mpdDur := some 100, aet := some 1200 } :=
  ⟨by decide, by decide, by decide, rfl, fun _ => rfl⟩

theorem processMediaNr_media {c : Cfg} (hd : 0 < c.segDur) (hn : 0 < c.vodNr) {now : Rat} {n : Int}
    {v : Served} (hp : processMediaNr c now n = .ok (.media v)) :
    v = { vodNr := mediaTime c n / c.segDur % c.vodNr + c.vodFirst
          segNr := n
          offset := mediaTime c n / (c.segDur * c.vodNr) * (c.segDur * c.vodNr)
          lmsg := c.lastNrs.contains (n : Rat)
          segTime := mediaTime c n
          emsgLast := c.emsgLastSeg } := by
  unfold processMediaNr at hp
  simp only [segStartNr_eq hd, bind, Except.bind, adjustedPto_eq, loopPos_eq hd hn] at hp
  split at hp
  · simp at hp
  split at hp
  · simp at hp
  split at hp
  · simp at hp
  split at hp
  · simp at hp
  split at hp
  · simp at hp
  rename_i w hw
  cases w with
  | some out =>
    simp only [Except.ok.injEq] at hp
    unfold windowCheck at hw
    grind
  | none =>
    simp only [Except.ok.injEq, MediaOut.media.injEq] at hp
    rw [← hp]
    rfl

theorem served_eq {pf : Text → Option Rat} {c : Cfg} (h : WellFormed c) {n : Int} {now : Rat}
    {v : Served} (hv : getMedia pf (c.forNr n) now = .ok (.media v)) :
    v = { vodNr := mediaTime c n / c.segDur % c.vodNr + c.vodFirst
          segNr := n
          offset := mediaTime c n / (c.segDur * c.vodNr) * (c.segDur * c.vodNr)
          lmsg := c.lastNrs.contains (n : Rat)
          segTime := mediaTime c n
          emsgLast := c.emsgLastSeg } := by
  have hproc : processMediaNr (c.forNr n) now n = processMediaNr c now n := rfl
  have e5 : (c.forNr n).multiUrl = c.multiUrl := rfl
  have hx : (c.forNr n).ext = ".m4s".toList := rfl
  unfold getMedia processMedia at hv
  simp only [e5, hx, requestedNr_forNr, lossAction_plain h.urls, hproc, bind, Except.bind] at hv
  generalize (if (c.forNr n).ato = -1 then ((c.forNr n).ast : Rat)
    else (c.forNr n).ast + (c.forNr n).segDur - (c.forNr n).ato) = g at hv
  split at hv
  · simp at hv
  split at hv
  · simp at hv
  split at hv
  · simp at hv
  simp only [if_true] at hv
  exact processMediaNr_media h.segDur h.vodNr hv

/-- **C04.** Loop mapping of every served segment: the file number is inside the loop, the
offset is a whole number of loops, and offset plus position of the file in the loop is the
segment's position on the media timeline (rounded down to the segment grid). -/
theorem C04_loop (pf : Text → Option Rat) {c : Cfg} (h : WellFormed c) (n : Int) (now : Rat)
    {v : Served} (hv : getMedia pf (c.forNr n) now = .ok (.media v)) :
    c.vodFirst ≤ v.vodNr ∧ v.vodNr < c.vodFirst + c.vodNr ∧
    v.segNr = n ∧ v.segTime = mediaTime c n ∧
    (∃ k, v.offset = k * (c.segDur * c.vodNr)) ∧
    v.offset + (v.vodNr - c.vodFirst) * c.segDur ≤ v.segTime ∧
    v.segTime < v.offset + (v.vodNr - c.vodFirst + 1) * c.segDur := by
  have hv' := served_eq h hv
  have h1 : v.vodNr = mediaTime c n / c.segDur % c.vodNr + c.vodFirst := by rw [hv']
  have h2 : v.segNr = n := by rw [hv']
  have h3 : v.offset = mediaTime c n / (c.segDur * c.vodNr) * (c.segDur * c.vodNr) := by rw [hv']
  have h4 : v.segTime = mediaTime c n := by rw [hv']
  have hd := h.segDur
  have hn := h.vodNr
  have a1 := Int.emod_nonneg (mediaTime c n / c.segDur) (by omega : c.vodNr ≠ 0)
  have a2 := Int.emod_lt_of_pos (mediaTime c n / c.segDur) hn
  have key : mediaTime c n / (c.segDur * c.vodNr) * (c.segDur * c.vodNr)
      + (mediaTime c n / c.segDur % c.vodNr) * c.segDur = mediaTime c n / c.segDur * c.segDur := by
    rw [← Int.ediv_ediv_of_nonneg (by omega : 0 ≤ c.segDur)]
    have := Int.emod_add_mul_ediv (mediaTime c n / c.segDur) c.vodNr
    calc _ = (mediaTime c n / c.segDur % c.vodNr + c.vodNr * (mediaTime c n / c.segDur / c.vodNr)) * c.segDur := by ring
      _ = _ := by rw [this]
  have b1 := Int.emod_add_mul_ediv (mediaTime c n) c.segDur
  have b2 := Int.emod_nonneg (mediaTime c n) (by omega : c.segDur ≠ 0)
  have b3 := Int.emod_lt_of_pos (mediaTime c n) hd
  refine ⟨by omega, by omega, h2, h4, ⟨_, h3⟩, ?_, ?_⟩
  · rw [h3, h4, h1]
    linarith
  · rw [h3, h4, h1]
    linarith

/-- Media time of the first segment, in whole segments. -/
def baseSegments (c : Cfg) : Int :=
  match c.timeoffset with | none => 0 | some t => (c.ast - t) / c.segDur

theorem mediaTime_div {c : Cfg} (h : 0 < c.segDur) (n : Int) :
    mediaTime c n / c.segDur = n - firstNumber c + baseSegments c := by
  unfold mediaTime baseSegments
  cases c.timeoffset with
  | none => simp [Int.mul_ediv_cancel _ (by omega : c.segDur ≠ 0)]
  | some t =>
    simp only
    rw [Int.add_comm, Int.add_mul_ediv_right _ _ (by omega : c.segDur ≠ 0)]
    omega

/-- **C04 (cyclic order).** Two served numbers read the same file iff they differ by a
multiple of the loop length; the number after `n` reads the next file, wrapping from the
last file of the loop to the first; and the offset changes exactly at the wrap, by one loop
duration.  (Both may be served at different times.) -/
theorem C04_cyclic (pf : Text → Option Rat) {c : Cfg} (h : WellFormed c) {n m : Int} {t u : Rat}
    {v w : Served} (hv : getMedia pf (c.forNr n) t = .ok (.media v))
    (hw : getMedia pf (c.forNr m) u = .ok (.media w)) :
    (w.vodNr = v.vodNr ↔ c.vodNr ∣ m - n) ∧
    (m = n + 1 → w.vodNr = (if v.vodNr = c.vodFirst + c.vodNr - 1 then c.vodFirst else v.vodNr + 1) ∧
      w.offset = v.offset + (if v.vodNr = c.vodFirst + c.vodNr - 1 then c.segDur * c.vodNr else 0)) := by
  have hd := h.segDur
  have hn := h.vodNr
  have hv' := served_eq h hv
  have hw' := served_eq h hw
  have h1 : v.vodNr = mediaTime c n / c.segDur % c.vodNr + c.vodFirst := by rw [hv']
  have h2 : w.vodNr = mediaTime c m / c.segDur % c.vodNr + c.vodFirst := by rw [hw']
  have h3 : v.offset = mediaTime c n / (c.segDur * c.vodNr) * (c.segDur * c.vodNr) := by rw [hv']
  have h4 : w.offset = mediaTime c m / (c.segDur * c.vodNr) * (c.segDur * c.vodNr) := by rw [hw']
  rw [← Int.ediv_ediv_of_nonneg (by omega : 0 ≤ c.segDur)] at h3 h4
  rw [mediaTime_div hd] at h1 h2 h3 h4
  constructor
  · rw [h1, h2, Int.add_left_inj, Int.emod_eq_emod_iff_emod_sub_eq_zero,
      ← Int.dvd_iff_emod_eq_zero]
    have : m - firstNumber c + baseSegments c - (n - firstNumber c + baseSegments c) = m - n := by omega
    rw [this]
  · rintro rfl
    generalize hq : n - firstNumber c + baseSegments c = q at *
    have e : n + 1 - firstNumber c + baseSegments c = q + 1 := by omega
    rw [e] at h2 h4
    have a1 := Int.emod_nonneg q (by omega : c.vodNr ≠ 0)
    have a2 := Int.emod_lt_of_pos q hn
    have a3 := Int.emod_add_mul_ediv q c.vodNr
    by_cases hlast : q % c.vodNr = c.vodNr - 1
    · have hd1 : (q + 1) / c.vodNr = q / c.vodNr + 1 := by
        have : q + 1 = c.vodNr * (q / c.vodNr + 1) := by rw [Int.mul_add]; omega
        rw [this, Int.mul_ediv_cancel_left _ (by omega)]
      have hm1 : (q + 1) % c.vodNr = 0 := by
        have : q + 1 = c.vodNr * (q / c.vodNr + 1) := by rw [Int.mul_add]; omega
        rw [this, Int.mul_emod_right]
      have hv1 : v.vodNr = c.vodFirst + c.vodNr - 1 := by omega
      rw [if_pos hv1, if_pos hv1]
      refine ⟨by omega, ?_⟩
      rw [h3, h4, hd1]
      ring
    · have hs : q + 1 = (q % c.vodNr + 1) + c.vodNr * (q / c.vodNr) := by omega
      have hd1 : (q + 1) / c.vodNr = q / c.vodNr := by
        rw [hs, Int.add_mul_ediv_left _ _ (by omega : c.vodNr ≠ 0),
          Int.ediv_eq_zero_of_lt (by omega) (by omega), Int.zero_add]
      have hm1 : (q + 1) % c.vodNr = q % c.vodNr + 1 := by
        have := Int.emod_add_mul_ediv (q + 1) c.vodNr
        rw [hd1] at this
        omega
      have hv1 : ¬ v.vodNr = c.vodFirst + c.vodNr - 1 := by omega
      rw [if_neg hv1, if_neg hv1]
      refine ⟨by omega, ?_⟩
      rw [h3, h4, hd1]
      omega

/-- Numbers 34 and 35 of the example service are at the loop wrap (files 30 and 1). -/
example :
    getMedia (fun _ => none) (exampleCfg.forNr 34) 1100 = .ok (.media
      { vodNr := 30, segNr := 34, offset := 0, lmsg := false, segTime := 58, emsgLast := false }) ∧
    getMedia (fun _ => none) (exampleCfg.forNr 35) 1100 = .ok (.media
      { vodNr := 1, segNr := 35, offset := 60, lmsg := false, segTime := 60, emsgLast := false }) := by
  decide +kernel

example : WellFormed exampleCfg := ⟨by decide, by decide, by decide, rfl, by decide⟩

/-- **C50.** An init request is refused for timing exactly while the whole-second clock is
before AST minus the init offset, at any later instant it is not; else the number of
representations decides. -/
theorem C50_init {c : Cfg} (hx : c.ext = ".mp4".toList) (now : Rat) :
    (getInit c now = .ok .tooEarly ↔ pyTrunc now < c.ast - c.initOff) ∧
    (0 ≤ now → (pyTrunc now < c.ast - c.initOff ↔ now < (c.ast - c.initOff : Int))) ∧
    (¬ pyTrunc now < c.ast - c.initOff →
      getInit c now = .ok (if c.reps.length = 1 then .single
        else if c.reps.length = 2 then .muxed else .badReps)) := by
  refine ⟨?_, ?_, ?_⟩
  · unfold getInit
    simp only [hx, ne_eq, not_true_eq_false, if_false]
    split
    · simp [*]
    · split <;> simp [*]
  · intro h0
    unfold pyTrunc
    rw [if_pos h0]
    exact Rat.floor_lt_iff
  · intro hn
    unfold getInit
    simp only [hx, ne_eq, not_true_eq_false, if_false, hn]
    split <;> simp_all

example : getInit { exampleCfg with ext := ".mp4".toList, initOff := 10, reps := [⟨[], [], 1⟩] } 990 = .ok .single ∧
    getInit { exampleCfg with ext := ".mp4".toList, initOff := 10, reps := [⟨[], [], 1⟩] } (9899/10) = .ok .tooEarly := by
  decide +kernel

end Verif
