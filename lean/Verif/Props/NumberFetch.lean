import Verif.Props.TimelineFetch
import Verif.Props.MpdRefine
import Verif.Props.MpdAgreement
import Verif.Props.Periods
import Verif.Spec.NumberClient
import Verif.Lemmas.FixedUrl
/-
C75: the segments that a manifest with numbers announces can be fetched when it says so.
-/
namespace Verif
open Spec

/-- A service for which the numbers, starts and offsets of the periods agree: one period, or periods on the
grid of the segments. -/
def OnGrid (c : Cfg) : Prop :=
  (∀ t ∈ c.timeoffset, c.segDur ∣ c.ast - t) ∧
  ((c.periods = -1 ∧ c.insertAd ≤ 0 ∧ (c.startNr = -1 → c.timeoffset = none) ∧ firstNumber c ≠ -1) ∨
    (0 < c.periods ∧ c.segDur ∣ periodLen c ∧ c.startNr = 0 ∧ c.timeoffset = none))

/-- Start, number and offset of a period belong together. -/
structure PeriodFits (c : Cfg) (p : PeriodElem) : Prop where
  start : p.start = (p.startNumber.getD 1 - firstNumber c) * c.segDur
  nonneg : 0 ≤ p.start
  pto : ∀ n, p.pto + (n - p.startNumber.getD 1) * c.segDur = mediaTime c n
  single : c.periods = -1 → p.start = 0

theorem OnGrid.fits {c : Cfg} (h : OnGrid c) (hd : 0 < c.segDur) {now tsbd : Int} (ht : c.tsbd = some tsbd)
    (hnow : 0 < c.periods → tsbd + c.segDur ≤ now) {pds : List PeriodData} (hp : periodData c now = .ok pds) :
    ∀ p ∈ pds.map periodElem, PeriodFits c p := by
  obtain ⟨-, ⟨h1, h2, h3, h4⟩ | ⟨h1, h2, h3, h4⟩⟩ := h
  · obtain ⟨first, hf, hf2⟩ : ∃ first, c.adjustedStartNumber = .ok first ∧
        (if first = -1 then none else some first : Option Int).getD 1 = firstNumber c := by
      by_cases hm : c.startNr = -1
      · refine ⟨-1, ?_, ?_⟩
        · unfold Cfg.adjustedStartNumber; rw [h3 hm, hm]
        · simp [firstNumber, hm]
      · refine ⟨firstNumber c, ?_, ?_⟩
        · rw [← segStartNr_eq hd]; unfold Cfg.segStartNr; rw [if_neg hm]
        · rw [if_neg h4]; rfl
    have hps : periodData c now = .ok
        [{ id := 0, start := 0, startNumber := first + 0, pto := c.adjustedPto 0 1 }] := by
      unfold periodData
      have h1 : ¬ c.insertAd > 0 := by omega
      have h2 : min c.periods 60 = -1 := by omega
      simp only [h2, h1, if_false, if_true, hf, pyDiv_pos hd, bind, Except.bind, pure, Except.pure]
      rw [if_neg (by decide)]
      simp
    rw [hp] at hps
    cases hps
    intro p hpm
    simp only [List.map_cons, List.map_nil, List.mem_singleton] at hpm
    subst hpm
    have e : ((periodElem { id := 0, start := 0, startNumber := first + 0, pto := c.adjustedPto 0 1 }).startNumber.getD 1)
        = firstNumber c := by
      unfold periodElem
      simp only [add_zero]
      exact hf2
    refine ⟨?_, le_refl _, ?_, fun _ => rfl⟩
    · rw [e]; show (0 : Int) = _; simp
    · intro n
      rw [e]
      show c.adjustedPto 0 1 + _ = _
      rw [adjustedPto_eq]
      unfold mediaTime
      ring
  · have hnow := hnow h1
    intro p hpm
    obtain ⟨pd, hpd, rfl⟩ := List.mem_map.1 hpm
    obtain ⟨e1, e2, -⟩ := C27_start_number_partial h1 hd ht h2 h3 h4 hp pd hpd
    have hf : firstNumber c = 0 := by unfold firstNumber; rw [h4, h3, if_neg (by decide)]
    have hm : ∀ s, mediaTime c s = s * c.segDur := by
      intro s; simp [mediaTime, firstNumber, h3, h4]
    have hnn : 0 ≤ pd.start := by
      obtain ⟨-, hall⟩ := periodData_ok h1 hd ht hp
      obtain ⟨i, hi, rfl⟩ := List.getElem_of_mem hpd
      obtain ⟨f, -⟩ := hall i hi
      rw [f.start]
      have hpos := periodLen_pos h1
      have : 0 ≤ (now - tsbd - c.segDur) / periodLen c := Int.ediv_nonneg (by omega) (by omega)
      exact mul_nonneg (by omega) (by omega)
    have hs : 0 ≤ pd.startNumber := by
      by_contra hc
      rw [hm] at e1
      have : pd.startNumber * c.segDur < 0 := mul_neg_of_neg_of_pos (by omega) hd
      omega
    have e : (periodElem pd).startNumber.getD 1 = pd.startNumber := by
      unfold periodElem
      dsimp only
      rw [if_neg (by omega)]
      rfl
    refine ⟨?_, hnn, ?_, fun hc => by omega⟩
    · rw [e, hf]
      show pd.start = _
      rw [← e2, ← e1, hm]
      ring
    · intro n
      rw [e]
      show pd.pto + _ = _
      rw [← e1, hm, hm]
      ring

/-- The decode time of a served segment of content with equal durations is its media time. -/
theorem served_media_time {pf : Text → Option Rat} {c : Cfg} (h : WellFormed c)
    (hg : ∀ t ∈ c.timeoffset, c.segDur ∣ c.ast - t) {ts : Int} {times : Int → Nat}
    (htimes : ∀ i : Int, 0 ≤ i → i < c.vodNr → (times (c.vodFirst + i) : Int) = i * (c.segDur * ts)) {n : Int} {now : Rat}
    {v : Served} (hv : getMedia pf (c.forNr n) now = .ok (.media v)) :
    (times v.vodNr : Int) + v.offset * ts = mediaTime c n * ts := by
  have hd := h.segDur
  have hn := h.vodNr
  have hdiv : c.segDur ∣ mediaTime c n := by
    unfold mediaTime
    refine Int.dvd_add (Dvd.intro_left _ rfl) ?_
    cases ho : c.timeoffset with
    | none => exact Int.dvd_zero _
    | some t => exact hg t (by simp [ho])
  obtain ⟨k, hk⟩ := hdiv
  have hv' := served_eq h hv
  rw [hv']
  simp only
  rw [hk, Int.mul_ediv_cancel_left _ (by omega), add_comm (k % c.vodNr) c.vodFirst, htimes _ (Int.emod_nonneg _ (by omega)) (Int.emod_lt_of_pos _ hn),
    ← Int.ediv_ediv_of_nonneg (by omega : 0 ≤ c.segDur), Int.mul_ediv_cancel_left _ (by omega)]
  have := Int.emod_add_mul_ediv k c.vodNr
  calc _ = (k % c.vodNr + c.vodNr * (k / c.vodNr)) * (c.segDur * ts) := by ring
    _ = _ := by rw [this]; ring

/-- The reply to the request for the segment `n`, at any time of the second `now`: it is a media segment exactly at the
times `when`; the segment has the number `n` and the media time `T`, and for content with segments of equal durations
its decode time is `T` seconds. -/
def FetchedNr (pf : Text → Option Rat) (vodOf : Text → Py VodCfg) (c : Cfg) (now : Int) (s url : Text)
    (parts : List Text) (n : Int) (when : Rat → Prop) (T : Int) : Prop :=
  ∃ c', LeadsTo s url parts ∧ processUrl pf vodOf parts now = .ok c' ∧ service c' = service c ∧
    ∀ time : Rat, now ≤ time → time < now + 1 →
      ((∃ w, getMedia pf c' time = .ok (.media w)) ↔ when time) ∧
      ∀ w, getMedia pf c' time = .ok (.media w) → w.segNr = n ∧ w.segTime = T ∧
        ∀ (ts : Int) (times : Int → Nat),
          (∀ i : Int, 0 ≤ i → i < c.vodNr → (times (c.vodFirst + i) : Int) = i * (c.segDur * ts)) →
          ∀ (wide : Bool) (f2 f1 f0 : UInt8) (st st' : MfState) (out : Bytes),
            times w.vodNr < (if wide then 2 ^ 64 else 2 ^ 32) →
            processTfdt (filterFor c' w ts) (boxBytes tyTfdt (tfdtPayload wide f2 f1 f0 (times w.vodNr))) st =
              .ok (out, st') →
            0 ≤ T * ts ∧ decodeTimeOf out = some (T * ts).toNat

theorem isServed_file {pf : Text → Option Rat} {c : Cfg} (h : WellFormed c) (rel file ext : Text) (reps : List Rep) (p : Rat)
    (n : Int) (time : Rat) :
    IsServed pf (withFile rel file ext reps { c with publishTime := p }) n time ↔ IsServed pf c n time := by
  have hw : WellFormed (withFile rel file ext reps { c with publishTime := p }) :=
    ⟨h.segDur, h.vodNr, h.urls, h.tsbd, h.stop⟩
  exact (C01_general pf hw n time).trans (C01_general pf h n time).symm

theorem number_fetched {pf : Text → Option Rat} {vodOf : Text → Py VodCfg} {c : Cfg} (h : WellFormed c)
    (hg : ∀ t ∈ c.timeoffset, c.segDur ∣ c.ast - t) {now : Int} {n : Int} {when : Rat → Prop}
    (hwhen : ∀ time, IsServed pf c n time ↔ when time)
    {opts more : List Text} {name s : Text} (ho : ∀ p ∈ opts, (partSlot p).isSome) (hname : partSlot name = none)
    (hslash : ∀ p ∈ opts ++ [name], '/' ∉ p) (hu : Means pf vodOf (opts ++ name :: more) now c)
    {v : VodCfg} (hv : vodOf name = .ok v) {rep : Text} {r : Rep} (hrep : '/' ∉ rep) (hdiv : splitDivider rep = [rep])
    (hr : v.repInfo rep = .ok r) :
    FetchedNr pf vodOf c now s (s ++ '/' :: joinSlash (opts ++ [name]) ++ "/".toList ++
      (rep ++ '/' :: intText n ++ ".m4s".toList)) (opts ++ [name, rep, intText n ++ ".m4s".toList]) n when
      (mediaTime c n) := by
  obtain ⟨pub, hu⟩ := hu
  have hmap : (splitDivider rep).mapM v.repInfo = .ok [r] := by rw [hdiv]; simp [hr, bind, Except.bind, pure, Except.pure]
  have hfile : '/' ∉ intText n ++ ".m4s".toList := by
    have e1 : '/' ∉ ".m4s".toList := by decide
    have e2 : '/' ∉ intText n := by
      unfold intText
      split
      · intro hc
        rcases List.mem_cons.1 hc with hc | hc
        · exact absurd hc (by decide)
        · exact natText_slash _ hc
      · exact natText_slash _
    intro hc
    rcases List.mem_append.1 hc with hc | hc
    · exact e2 hc
    · exact e1 hc
  have hpu := processUrl_more ho hname hu hv [] rep (intText n ++ ".m4s".toList) hmap
  rw [intText_splitext] at hpu
  let c0 : Cfg := withFile rep (intText n ++ ".m4s".toList) ".m4s".toList [r] { c with publishTime := pub }
  refine ⟨c0, ?_, ?_, rfl, ?_⟩
  · have := leadsTo_path (s := s) (name := name) (opts := opts) (path := [rep, intText n ++ ".m4s".toList]) (by simp)
      hslash (by
      intro p hp
      simp only [List.mem_cons, List.not_mem_nil, or_false] at hp
      rcases hp with rfl | rfl
      · exact hrep
      · exact hfile)
    have e : joinSlash [rep, intText n ++ ".m4s".toList] = rep ++ '/' :: intText n ++ ".m4s".toList := by
      show rep ++ '/' :: (intText n ++ ".m4s".toList) = _
      simp
    rw [← e]
    simpa using this
  · exact hpu
  · intro time t1 t2
    have hw0 : WellFormed c0 := ⟨h.segDur, h.vodNr, h.urls, h.tsbd, h.stop⟩
    have e : c0 = c0.forNr n := rfl
    have hav : IsServed pf c0 n time ↔ when time :=
      Iff.trans (isServed_file h rep (intText n ++ ".m4s".toList) ".m4s".toList [r] pub n time) (hwhen time)
    refine ⟨hav, ?_⟩
    · intro w hw
      rw [e] at hw
      refine ⟨by rw [served_eq hw0 hw], by rw [served_eq hw0 hw]; rfl, ?_⟩
      intro ts times htimes wide f2 f1 f0 st st' out hx hp
      have e := served_media_time hw0 hg (ts := ts) htimes hw
      have := C10_exact (filterFor c0 w ts) ts rfl wide f2 f1 f0 _ hx st
      have off : (filterFor c0 w ts).offset = w.offset := rfl
      have e2 : mediaTime c0 n = mediaTime c n := rfl
      simp only [off, e, e2] at this
      by_cases hr : mediaTime c n * ts < 0 ∨ 2 ^ 64 ≤ mediaTime c n * ts
      · rw [this.2 hr] at hp; cases hp
      · obtain ⟨o, s2, e1, e2, -⟩ := this.1 (by omega) (by omega)
        rw [e1] at hp
        simp only [Except.ok.injEq, Prod.mk.injEq] at hp
        obtain ⟨rfl, -⟩ := hp
        exact ⟨by omega, e2⟩

/-! ### The manifest -/

theorem PeriodKept.old {tl : Bool} {a b : Xml} (h : PeriodKept tl a b) {y t' : Xml}
    (hy : y ∈ named "AdaptationSet" b) (ht : t' ∈ named "SegmentTemplate" y) :
    ∃ t ∈ templates a, TemplateKept tl t t' := by
  obtain ⟨x, hx, -, -, hk⟩ := AddedBefore.old (by decide +kernel) h.2.2 hy
  obtain ⟨t, ht, hr⟩ := AddedBefore.old (by decide +kernel) hk ht
  exact ⟨t, List.mem_flatMap.2 ⟨x, hx, ht⟩, hr⟩

/-- What a client reads about the segments of each template. -/
theorem template_read {c : Cfg} {e : MpdEnv} {now tsbd : Int}
    {vod out : Xml} {infos rest : List Xml} {period : Xml}
    (hs : VodShape vod.kids infos none period rest) (hrb : ∀ x ∈ rest, x.tag ≠ "BaseURL".toList) (hr : VodRoot vod)
    (hv : VodPeriod c.segDur period)
    (hmedia : ∀ t ∈ templates period, t.get "media".toList = some "$RepresentationID$/$Number$.m4s".toList)
    {opts more : List Text} {name s : Text} (hparts : e.parts = opts ++ name :: more)
    (hpos : e.pos = opts.length) (hstart : e.start = s ++ "/".toList)
    (hd : 0 < c.segDur) (hato1 : 0 ≤ c.ato) (htl : (c.segTimeline || c.segTimelineNr) = false) (hl : c.addLocation = false)
    (hm : c.multiUrl = []) (hgrid : OnGrid c) (hpo : c.periodOffset < 0)
    (hato : fValue c.ato = c.ato) (ht : c.tsbd = some tsbd) (hb : 0 ≤ tsbd)
    (hnow : 0 < c.periods → tsbd + c.segDur ≤ now) (hg : generateXml c e now vod = .ok out) :
    ∃ b M, named "BaseURL" out = [b] ∧ b.text = s ++ '/' :: joinSlash (opts ++ [name]) ++ "/".toList ∧
      RootSays out M ∧ M.static = (match c.stopTime with | none => false | some s => decide (now > s)) ∧
      M.tsbd = (if M.static || c.mpdDur.isSome then none else some tsbd) ∧ M.mpdDur = c.mpdDur ∧
      ∀ x ∈ named "Period" out, ∀ y ∈ named "AdaptationSet" x, ∀ t ∈ named "SegmentTemplate" y,
        ∃ p, PeriodFits c p ∧ firstNumber c ≤ p.startNumber.getD 1 ∧ t.get "media".toList = some vodMedia ∧
          ReadsTemplate out b x t ⟨c.ast, p.start, p.startNumber.getD 1, p.pto, c.segDur, some c.ato⟩ ∧
          (c.chunkDur ≠ none → t.get "availabilityTimeComplete".toList = some "false".toList) := by
  have hb' : ∀ t ∈ c.tsbd, 0 ≤ t := by rw [ht]; intro t h; cases h; exact hb
  obtain ⟨b, hb1, hb2⟩ := base_text hs hrb hd.le hb' hparts hpos hstart hl hm hg
  obtain ⟨M, hM, hroot, hper⟩ := C63_says_partial hs hd.le hb' hr hv htl hg
  obtain ⟨M1, hM1, -, hbase⟩ := C63_base_partial hs hrb hd.le hb' hl hato hg
  rw [hM] at hM1
  cases hM1
  obtain ⟨mp⟩ := generateXml_parts hs hd.le hb' hg
  obtain ⟨M1, hM1, -, hpds, hba, hta, hsd⟩ := mp.rootSays hr
  rw [hM] at hM1
  cases hM1
  obtain ⟨M1, hM1, hstat, hMa, -, hMt, -, -, hMd, -⟩ := mp.generateMpd
  rw [hM] at hM1
  cases hM1
  have htb : mp.tsbd = tsbd := Option.some.inj (mp.htsbd.symm.trans ht)
  rw [htb] at hMt
  refine ⟨b, M, hb1, hb2, hroot, hstat, hMt, hMd, ?_⟩
  have hkept := mp.hps.kept.2
  rw [← mp.periods hs] at hkept
  intro x hx y hy t ht'
  have hk : PeriodKept false period x := by
    have := hkept x hx
    have e : ((procCfgOf c e mp.tsbd now).tl || (procCfgOf c e mp.tsbd now).tlNr) = false := htl
    rwa [e] at this
  obtain ⟨t0, ht0, hk1, -⟩ := PeriodKept.old hk hy ht'
  have htm : t ∈ templates x := List.mem_flatMap.2 ⟨y, hy, ht'⟩
  obtain ⟨i, hi, rfl⟩ := List.getElem_of_mem hx
  have hi1 : i < M.periods.length := by rw [← hper.length_eq]; exact hi
  have hsays := hper.get hi hi1
  simp only [List.get_eq_getElem] at hsays
  have hfit : PeriodFits c M.periods[i] := by
    refine hgrid.fits hd ht hnow mp.hpds _ ?_
    rw [← hpds]
    exact List.getElem_mem hi1
  generalize M.periods[i] = p at *
  have hato2 : ¬c.ato = -1 := by intro hc; rw [hc] at hato1; linarith
  rw [hsd] at hsays
  have hoff : ¬(0 ≤ c.periodOffset) := by omega
  obtain ⟨-, s2, -, s4, s5, -, s7⟩ := hsays
  obtain ⟨n1, n2⟩ := s4 t htm
  simp only [hoff, decide_false, Bool.false_eq_true, if_false] at s5
  have hread : ReadsTemplate out b (named "Period" out)[i] t
      ⟨c.ast, p.start, p.startNumber.getD 1, p.pto, c.segDur, some c.ato⟩ := by
    refine ⟨hMa ▸ hroot.ast, ⟨hfit.nonneg, ?_⟩, ?_, ?_, n2, s5 t htm, ?_⟩
    · obtain ⟨z, hz1, hz2⟩ := s2
      exact ⟨z, hz1, hz2 hfit.nonneg⟩
    · have := hv.scale t0 ht0
      unfold IntIs IntAttr at this ⊢
      rw [hk1.2 _ (by decide +kernel)]
      exact this
    · cases hsn : p.startNumber with
      | none => rw [hsn] at n1; exact Or.inr ⟨n1, rfl⟩
      | some k => rw [hsn] at n1; exact Or.inl n1
    · have hbs := hbase b (by rw [hb1]; exact List.mem_singleton.2 rfl)
      have hts := s7 t htm
      cases hc : c.chunkDur with
      | none =>
        rw [hc] at hba hta
        have hba : M.baseAto = atoAttr c.ato := hba
        have hta : M.templateAto = none := hta
        rw [hta] at hts
        rw [hba, atoAttr, if_neg hato2] at hbs
        refine ⟨c.ato, 0, ?_, Or.inl ⟨hts, rfl⟩, by rw [add_zero]⟩
        split at hbs
        · obtain ⟨z, k, hz1, hz2, hz3⟩ := hbs
          refine Or.inr ⟨z, k, hz1, hz2, ?_⟩
          rw [← hz3]
          simp
        · rename_i hc
          exact Or.inl ⟨hbs, le_antisymm (not_lt.1 hc) hato1⟩
      | some d =>
        rw [hc] at hba hta
        have hba : M.baseAto = .absent := hba
        have hta : M.templateAto = some c.ato := hta
        rw [hta] at hts
        rw [hba] at hbs
        obtain ⟨-, z, k, hz1, hz2, hz3, hz4⟩ := hts
        refine ⟨0, c.ato, Or.inl ⟨hbs, rfl⟩, Or.inr ⟨z, k, hz1, hz2, ?_⟩, by rw [zero_add]⟩
        have e : c.ato * 1000000 = (pyRound (c.ato * 1000000) : Rat) := by
          conv_lhs => rw [← hato, fValue]
          simp
        rw [e] at hz3 hz4
        have : pyRound (c.ato * 1000000) = k := by
          have h1 : (-1 : Rat) < ((pyRound (c.ato * 1000000) - k : Int) : Rat) := by push_cast; linarith
          have h2 : ((pyRound (c.ato * 1000000) - k : Int) : Rat) < 1 := by push_cast; linarith
          have h1 : (-1 : Int) < pyRound (c.ato * 1000000) - k := by exact_mod_cast h1
          have h2 : pyRound (c.ato * 1000000) - k < (1 : Int) := by exact_mod_cast h2
          omega
        rw [this] at e
        rw [← e]
        simp
  refine ⟨p, hfit, ?_, ?_, hread, ?_⟩
  · have h1 := hfit.start
    have h2 := hfit.nonneg
    by_contra hc
    have : (p.startNumber.getD 1 - firstNumber c) * c.segDur < 0 := mul_neg_of_neg_of_pos (by omega) hd
    omega
  · rw [hk1.2 _ (by decide +kernel), hmedia t0 ht0]
    rfl
  · intro hc
    obtain ⟨d, hc⟩ := Option.ne_none_iff_exists'.mp hc
    rw [hc] at hta
    have hta : M.templateAto = some c.ato := hta
    have := s7 t htm
    rw [hta] at this
    exact this.1

theorem Plain.wellFormed {c : Cfg} (h : Plain c) : WellFormed c :=
  ⟨h.segDur, h.vodNr, h.urls, h.tsbd, fun hc => by rw [h.stop] at hc; cases hc⟩

/-- **C75.** What a client reads from the text of a manifest with numbers is what the server does.  For every
template of every period: the URL of the segment `n` leads to the server, which answers with the segment exactly
from the instant at which the manifest says that it is available, until the segment leaves the announced time
shift buffer (with one segment more); the decode time of the reply is the media time that the manifest gives the segment.
The service may be asked at any later time at which its options mean the same, up to the publish time: with options that are not relative to the request time at all times (`C94_any_time`).
With a chunk duration the template says that segments are not complete when they become available.
Missing: several BaseURLs, periods off the grid of the segments (`C27_grid_violation`), offsets with more than
six decimals (`C63_base_partial`), VoD manifests with other timescales (`C63_timescale_violation`), buffers of whole days
(`C63_day_violation`), ends of the service (C94). -/
theorem C75_numbers_partial {pf : Text → Option Rat}
    {vodOf : Text → Py VodCfg} {c : Cfg} {e : MpdEnv} {now tsbd : Int}
    {vod out : Xml} {infos rest : List Xml} {period : Xml}
    -- the VoD manifest
    (hs : VodShape vod.kids infos none period rest) (hrb : ∀ x ∈ rest, x.tag ≠ "BaseURL".toList) (hr : VodRoot vod)
    (hv : VodPeriod c.segDur period)
    (hmedia : ∀ t ∈ templates period, t.get "media".toList = some "$RepresentationID$/$Number$.m4s".toList)
    -- the URL
    {opts more : List Text} {name s : Text} {v : VodCfg} (ho : ∀ p ∈ opts, (partSlot p).isSome)
    (hn : partSlot name = none) (hslash : ∀ p ∈ opts ++ [name], '/' ∉ p) (hparts : e.parts = opts ++ name :: more)
    (hpos : e.pos = opts.length) (hstart : e.start = s ++ "/".toList) (hvod : vodOf name = .ok v)
    -- the service
    (h : Plain c) (htl : (c.segTimeline || c.segTimelineNr) = false) (hl : c.addLocation = false)
    (hm : c.multiUrl = []) (hdur : c.mpdDur = none) (hgrid : OnGrid c) (hpo : c.periodOffset < 0)
    (hato : fValue c.ato = c.ato) (ht : c.tsbd = some tsbd) (hb : 0 ≤ tsbd) (hday : ∀ k : Nat, 0 < k → tsbd ≠ k * 86400)
    (hnow : 0 < c.periods → tsbd + c.segDur ≤ now) (hg : generateXml c e now vod = .ok out) :
    ∃ b, named "BaseURL" out = [b] ∧
      ∀ x ∈ named "Period" out, ∀ y ∈ named "AdaptationSet" x, ∀ t ∈ named "SegmentTemplate" y,
        ∃ m a depth, t.get "media".toList = some m ∧ ReadsNumbers out b x t a depth ∧
          (c.chunkDur ≠ none → t.get "availabilityTimeComplete".toList = some "false".toList) ∧
          ∀ n : Int, a.startNumber ≤ n →
          ∀ later : Int, Means pf vodOf (opts ++ name :: more) later c →
          ∀ (rep time : Text) (r : Rep), '/' ∉ rep → splitDivider rep = [rep] → v.repInfo rep = .ok r →
            FetchedNr pf vodOf c later s (b.text ++ fillTemplate rep (intText n) time m)
              (opts ++ [name, rep, intText n ++ ".m4s".toList]) n
              (fun time => a.availableFrom n ≤ time ∧ time ≤ a.availableFrom n + a.ato.getD 0 + a.duration + depth) (a.mediaStart n) := by
  obtain ⟨b, M, hb1, hb2, hroot, hstat, hMt, -, hall⟩ := template_read hs hrb hr hv hmedia hparts hpos hstart h.segDur h.ato
    htl hl hm hgrid hpo hato ht hb hnow hg
  refine ⟨b, hb1, ?_⟩
  have hd := h.segDur
  rw [h.stop] at hstat
  rw [hstat, hdur] at hMt
  have hMt : M.tsbd = some tsbd := hMt
  intro x hx y hy t ht'
  obtain ⟨p, hfit, hle, hmed, hread, hcomp⟩ := hall x hx y hy t ht'
  refine ⟨vodMedia, _, tsbd, hmed, ⟨hread, hb, ?_⟩, hcomp, ?_⟩
  · have := hroot.tsbd
    rw [hMt] at this
    obtain ⟨z, hz1, hz2⟩ := this
    refine ⟨z, hz1, ?_⟩
    have h1 : (0 : Rat) ≤ tsbd := by exact_mod_cast hb
    have := hz2 h1 (by
      intro k hk hc
      have hc : (tsbd : Rat) = k * 86400 := hc
      exact hday k hk (by exact_mod_cast hc))
    rwa [show ((tsbd : Rat)).floor = tsbd from Rat.floor_intCast _] at this
  intro n hnn later hlater rep time r hrep hdiv hri
  rw [fill_number, hb2]
  have hnn : p.startNumber.getD 1 ≤ n := hnn
  have e1 : (serviceOf c).opens n = (Addressing.availableFrom
      ⟨c.ast, p.start, p.startNumber.getD 1, p.pto, c.segDur, some c.ato⟩ n) := by
    unfold Spec.Service.opens Spec.Service.startOf Addressing.availableFrom
    show (c.ast + ((n - firstNumber c : Int) : Rat) * c.segDur) + c.segDur - c.ato = _
    rw [hfit.start]
    push_cast
    simp only [Option.getD_some]
    ring
  have e2 : (serviceOf c).closes n = (Addressing.availableFrom
      ⟨c.ast, p.start, p.startNumber.getD 1, p.pto, c.segDur, some c.ato⟩ n) + c.ato + c.segDur + tsbd := by
    rw [← e1]
    unfold Spec.Service.opens Spec.Service.closes
    have e3 : (serviceOf c).segDur = c.segDur := rfl
    have e4 : (serviceOf c).ato = c.ato := rfl
    have e5 : (serviceOf c).tsbd = tsbd := by show c.tsbd.getD 0 = tsbd; rw [ht]; rfl
    rw [e3, e4, e5]
    ring
  have e3 : mediaTime c n = (Addressing.mediaStart
      ⟨c.ast, p.start, p.startNumber.getD 1, p.pto, c.segDur, some c.ato⟩ n) := (hfit.pto n).symm
  have e4 : (serviceOf c).first ≤ n := by show firstNumber c ≤ n; omega
  have := number_fetched (s := s) (n := n) (pf := pf) h.wellFormed hgrid.1 (fun time => (isServed_plain pf h n time).trans
    ⟨fun hx => hx.2, fun hx => ⟨e4, hx⟩⟩) ho hn hslash hlater hvod hrep hdiv hri
  rw [e1, e2, e3] at this
  exact this

/-! ### Init segments -/

/-- The names of init segments in the VoD manifests. -/
def vodInit : Text := "$RepresentationID$/init.mp4".toList

theorem fill_init (rep number time : Text) : fillTemplate rep number time vodInit = rep ++ '/' :: "init.mp4".toList := by
  have e : splitChar '$' vodInit = [[], "RepresentationID".toList, "/init.mp4".toList] := by
    decide +kernel
  unfold fillTemplate
  rw [e, fillParts, fillParts, if_pos rfl]
  simp

/-- **C75.** The URL that a client makes from the BaseURL and the initialization name of a template, with numbers or with
a timeline, leads to the init segment of the representation, exactly from the announced start of the service less the
configured offset on.
Missing: services with Location or several BaseURLs. -/
theorem C75_init_partial {pf : Text → Option Rat}
    {vodOf : Text → Py VodCfg} {c : Cfg} {e : MpdEnv} {now : Int}
    {vod out : Xml} {infos rest : List Xml} {base : Option Xml} {period : Xml}
    -- the VoD manifest
    (hs : VodShape vod.kids infos base period rest) (hrb : ∀ x ∈ rest, x.tag ≠ "BaseURL".toList) (hr : VodRoot vod)
    (hinit : ∀ t ∈ templates period, t.get "initialization".toList = some "$RepresentationID$/init.mp4".toList)
    -- the URL
    {opts more : List Text} {name s : Text} {v : VodCfg} (ho : ∀ p ∈ opts, (partSlot p).isSome)
    (hn : partSlot name = none) (hslash : ∀ p ∈ opts ++ [name], '/' ∉ p) (hparts : e.parts = opts ++ name :: more)
    (hpos : e.pos = opts.length) (hstart : e.start = s ++ "/".toList) (hvod : vodOf name = .ok v)
    -- the service
    (hd : 0 ≤ c.segDur) (hb : ∀ t ∈ c.tsbd, 0 ≤ t) (hl : c.addLocation = false) (hm : c.multiUrl = [])
    (hg : generateXml c e now vod = .ok out) :
    ∃ b ast, named "BaseURL" out = [b] ∧ TimeAttr out "availabilityStartTime" (some ast) ∧
      ∀ x ∈ named "Period" out, ∀ y ∈ named "AdaptationSet" x, ∀ t ∈ named "SegmentTemplate" y,
        ∃ m, t.get "initialization".toList = some m ∧
          ∀ later : Int, Means pf vodOf (opts ++ name :: more) later c →
          ∀ (rep number time : Text) (r : Rep), '/' ∉ rep → splitDivider rep = [rep] → v.repInfo rep = .ok r →
            ∃ c', LeadsTo s (b.text ++ fillTemplate rep number time m) (opts ++ [name, rep, "init.mp4".toList]) ∧
              processUrl pf vodOf (opts ++ [name, rep, "init.mp4".toList]) later = .ok c' ∧ service c' = service c ∧ c'.reps = [r] ∧
              ∀ time : Rat, 0 ≤ time →
                getInit c' time = .ok (if ((ast - c.initOff : Int) : Rat) ≤ time then .single else .tooEarly) := by
  obtain ⟨b, hb1, hb2⟩ := base_text hs hrb hd hb hparts hpos hstart hl hm hg
  obtain ⟨mp⟩ := generateXml_parts hs hd hb hg
  obtain ⟨M, hM, hroot, -⟩ := mp.rootSays hr
  obtain ⟨M1, hM1, -, hMa, -⟩ := mp.generateMpd
  rw [hM] at hM1
  cases hM1
  refine ⟨b, c.ast, hb1, hMa ▸ hroot.ast, ?_⟩
  have hkept := mp.hps.kept.2
  rw [← mp.periods hs] at hkept
  intro x hx y hy t ht'
  obtain ⟨t0, ht0, hk⟩ := PeriodKept.old (hkept x hx) hy ht'
  have hget : t.get "initialization".toList = t0.get "initialization".toList := by
    unfold TemplateKept at hk
    split at hk
    · exact hk.1.2 _ (by decide +kernel)
    · exact hk.1.2 _ (by decide +kernel)
  refine ⟨vodInit, hget.trans (hinit t0 ht0), ?_⟩
  intro later ⟨pub, hu⟩ rep number time r hrep hdiv hri
  have hmap : (splitDivider rep).mapM v.repInfo = .ok [r] := by rw [hdiv]; simp [hri, bind, Except.bind, pure, Except.pure]
  have hpu := processUrl_more ho hn hu hvod [] rep "init.mp4".toList hmap
  have hext : splitext "init.mp4".toList = ("init".toList, ".mp4".toList) := by decide +kernel
  rw [hext] at hpu
  refine ⟨withFile rep "init.mp4".toList ".mp4".toList [r] { c with publishTime := pub }, ?_, ?_, rfl, rfl, ?_⟩
  · have := leadsTo_path (s := s) (name := name) (opts := opts) (path := [rep, "init.mp4".toList]) (by simp)
      hslash (by
      intro p hp
      simp only [List.mem_cons, List.not_mem_nil, or_false] at hp
      rcases hp with rfl | rfl
      · exact hrep
      · decide)
    rw [fill_init, hb2]
    have e : joinSlash [rep, "init.mp4".toList] = rep ++ '/' :: "init.mp4".toList := rfl
    rw [← e]
    simpa using this
  · exact hpu
  · intro time h0
    have hi := C50_init (c := withFile rep "init.mp4".toList ".mp4".toList [r] { c with publishTime := pub }) rfl time
    have e1 : (withFile rep "init.mp4".toList ".mp4".toList [r] { c with publishTime := pub }).ast = c.ast := rfl
    have e2 : (withFile rep "init.mp4".toList ".mp4".toList [r] { c with publishTime := pub }).initOff = c.initOff := rfl
    have e3 : (withFile rep "init.mp4".toList ".mp4".toList [r] { c with publishTime := pub }).reps.length = 1 := rfl
    rw [e1, e2] at hi
    by_cases hc : ((c.ast - c.initOff : Int) : Rat) ≤ time
    · rw [if_pos hc]
      have := hi.2.2 (fun hx => absurd ((hi.2.1 h0).1 hx) (not_lt.2 hc))
      rw [this, e3]
      rfl
    · rw [if_neg hc]
      exact hi.1.2 ((hi.2.1 h0).2 (not_le.1 hc))

/-! ### Example -/

/-- The URL of a service with periods of one minute. -/
def numberParts : List Text := ["periods_60".toList, "tsbd_60".toList] ++ "testpic".toList :: ["Manifest.mpd".toList]

/-- Its configuration. -/
def numberCfg (now : Int) : Cfg := (processUrl (fun _ => none) vod6 numberParts now).toOption.getD {}

/-- The theorem applies to the manifest of this service at 1000000 s; the service is the same a minute later. -/
example {out : Xml} (hout : generateXml (numberCfg 1000000) { sampleEnv with parts := numberParts, pos := 2 } 1000000
      (sampleVod [samplePeriod]) = .ok out) :
    (∃ b, named "BaseURL" out = [b]) ∧
    processUrl (fun _ => none) vod6 numberParts 1000060 = .ok (numberCfg 1000000) := by
  have ht : ∀ t ∈ templates samplePeriod, t = sampleTemplate := by decide +kernel
  have hsd : (numberCfg 1000000).segDur = 6 := by decide +kernel
  have hp : VodPeriod (numberCfg 1000000).segDur samplePeriod := by
    rw [hsd]
    refine ⟨by decide +kernel, by decide +kernel, by decide +kernel, ?_, ?_, ?_, ?_⟩
    · intro t h; rw [ht t h]; exact Or.inr ⟨by decide +kernel, rfl⟩
    · intro t h; rw [ht t h]; decide +kernel
    · intro t h; rw [ht t h]; exact ⟨"6".toList, by decide +kernel, by decide +kernel⟩
    · intro t h; rw [ht t h]; decide +kernel
  have hgrid : OnGrid (numberCfg 1000000) := by
    have e : (numberCfg 1000000).timeoffset = none := by decide +kernel
    refine ⟨?_, Or.inr ⟨by decide +kernel, by decide +kernel, by decide +kernel, e⟩⟩
    rw [e]; simp
  obtain ⟨b, hb, -⟩ := C75_numbers_partial (pf := fun _ => none) (vodOf := vod6) (s := "http://h/livesim".toList)
    (tsbd := 60)
    (infos := []) (rest := []) (period := samplePeriod) (vod := sampleVod [samplePeriod])
    (v := ⟨1, 600, 6, 300, [("video".toList, 90000, ["V1".toList])]⟩)
    ⟨rfl, by simp, by simp, by decide +kernel, by simp⟩ (by simp)
    ⟨by decide +kernel, by decide +kernel, by decide +kernel, by decide +kernel⟩ hp (by decide +kernel)
    (opts := ["periods_60".toList, "tsbd_60".toList]) (more := ["Manifest.mpd".toList]) (name := "testpic".toList)
    (by decide +kernel) (by decide +kernel) (by decide +kernel) rfl rfl (by decide +kernel) (by decide +kernel)
    ⟨by decide +kernel, by decide +kernel, by decide +kernel, by decide +kernel, by decide +kernel, by decide +kernel,
      by decide +kernel, by decide +kernel⟩
    (by decide +kernel) (by decide +kernel) (by decide +kernel) (by decide +kernel) hgrid
    (by decide +kernel) (by decide +kernel) (by decide +kernel) (by decide)
    (by intro k hk; omega) (by decide +kernel) hout
  exact ⟨⟨b, hb⟩, by decide +kernel⟩

/-- Its periods (start, start number) at this time. -/
example : (match processUrl (fun _ => none) vod6 numberParts 1000000 with
    | .error _ => none
    | .ok c => (generateXml c { sampleEnv with parts := numberParts, pos := 2 } 1000000
        (sampleVod [samplePeriod])).toOption.map fun x => (named "Period" x).map fun p => (attrOf "start" p,
          ((templates p).take 1).map (attrOf "startNumber"))) =
    some [(some "PT999900S", [some "166650"]), (some "PT999960S", [some "166660"]),
      (some "PT1000020S", [some "166670"])] := by
  decide +kernel

/-- An init segment of the service: at the start of a service at 1000002 s less the offset of 10 s, and one second
before. -/
example : (match processUrl (fun _ => none) vod6 ["init_10".toList, "start_1000002".toList, "testpic".toList, "V1".toList,
      "init.mp4".toList] 1000000 with
    | .error _ => none
    | .ok c => some (c.ast, c.initOff, (getInit c (c.ast - c.initOff)).toOption, (getInit c (c.ast - c.initOff - 1)).toOption)) =
    some (1000002, 10, some .single, some .tooEarly) := by
  decide +kernel

end Verif
