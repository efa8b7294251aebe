import Verif.Props.LowLatencyServer
import Verif.Props.StartStop
/-
C94: a presentation with a start and a stop, fetched over HTTP.
-/
namespace Verif
open Spec

/-- A service with a stop serves the segments that start before it, from their ends (less the offset) on, for ever. -/
theorem isServed_ending (pf : Text → Option Rat) {c : Cfg} (h : WellFormed c) (ha : c.aet = none) (hl : c.lastNrs = [])
    (h0 : 0 ≤ c.ato) (hs : 0 ≤ c.startNr) (hf : 0 ≤ firstNumber c) {z : Int} (hz : c.stopTime = some z) (hlt : c.ast < z)
    (hd1 : c.segDur ∣ z - c.ast) (hdur : c.mpdDur = some ((z - c.ast : Int) : Rat)) (n : Int) (time : Rat) :
    IsServed pf c n time ↔
      firstNumber c ≤ n ∧ (n - firstNumber c) * c.segDur < z - c.ast ∧ (serviceOf c).opens n ≤ time := by
  have hd := h.segDur
  obtain ⟨q, hq⟩ := hd1
  have hq0 : 0 < q := by
    by_contra hc
    have : c.segDur * q ≤ 0 := Int.mul_nonpos_of_nonneg_of_nonpos hd.le (by omega)
    omega
  have hstop : effectiveStop c = some (firstNumber c + q) := by
    have e : (((z - c.ast : Int) : Rat) / c.segDur).floor = q := by
      rw [hq]
      push_cast
      rw [mul_div_cancel_left₀ _ (by exact_mod_cast hd.ne'), Rat.floor_intCast]
    have hn : ¬ c.startNr = -1 := by omega
    unfold firstNumber at hf
    unfold effectiveStop firstNumber
    rw [if_neg hn] at hf ⊢
    rw [hz, hdur]
    dsimp only
    rw [e]
    cases hto : c.timeoffset with
    | none =>
      rw [hto] at hf
      dsimp only at hf ⊢
      rw [if_neg (by omega), Int.add_zero]
    | some t =>
      rw [hto] at hf
      dsimp only at hf ⊢
      rw [if_neg (by omega)]
  have hopen : (serviceOf c).opens n = (c.ast + ((n - firstNumber c : Int) : Rat) * c.segDur) + c.segDur - c.ato := rfl
  rw [C01_general pf h, ha, hl, hstop]
  have e1 : (serviceOf c).first = firstNumber c := rfl
  have hsd : (0 : Rat) < c.segDur := by exact_mod_cast hd
  constructor
  · rintro ⟨-, -, h3, h4, -, h6⟩
    rw [e1] at h3
    have h4 : n < firstNumber c + q := h4 _ rfl
    refine ⟨h3, ?_, (h6 (by linarith)).1⟩
    rw [hq, mul_comm c.segDur]
    exact Int.mul_lt_mul_of_pos_right (by omega) hd
  · rintro ⟨h3, h4, h5⟩
    rw [hq, mul_comm c.segDur] at h4
    have h4 := lt_of_mul_lt_mul_right h4 hd.le
    refine ⟨?_, by simp, h3, ?_, by simp, fun _ => ⟨h5, fun hc => by cases hc⟩⟩
    · rw [hopen] at h5
      unfold gateTime
      rw [if_neg (by linarith)]
      have : (0 : Rat) ≤ ((n - firstNumber c : Int) : Rat) * c.segDur :=
        mul_nonneg (by exact_mod_cast (by omega : 0 ≤ n - firstNumber c)) hsd.le
      linarith
    · intro e he
      cases he
      omega

/-- **C94, any time.** Without options that are relative to the time of the request, what the URL of a manifest means does not depend on the
time at which it is asked for, except for the publish time. -/
theorem C94_any_time {pf : Text → Option Rat} {vodOf : Text → Py VodCfg} {opts more : List Text} {name : Text}
    (ho : ∀ p ∈ opts, (partSlot p).isSome) (hn : partSlot name = none) (hf : ∀ p ∈ opts, TimeFree p) {now : Int} {c : Cfg}
    (h : processUrl pf vodOf (opts ++ name :: more) now = .ok c) (now' : Int) :
    ∃ p, processUrl pf vodOf (opts ++ name :: more) now' = .ok { c with publishTime := p } :=
  processUrl_fixed ho hn hf h now'

/-- **C94.** Content that the analyser accepted, served over HTTP with a start and a stop: a client that got a manifest, at
any time, reads in it the duration of the presentation and where its segments are; the manifest is static exactly after the stop.
Whatever segment of the representation it asks for by the URL that the manifest gives, at any time at all: if the segment
starts within the duration, then from the instant on at which the manifest makes it available, without an end, the server answers
200 with the complete segment, moved as in C80; every other request is answered 404.  When the manifest is static, all segments of
the presentation are available, and with one period they are the presentation from its start to its end.
No option is relative to the time of the request (`TimeFree`).
Missing: negative first numbers (`C32_snr_violation`), presentations of whole days (`C63_day_violation`), in the last sentence several periods
(`C94_periods_violation`); what C80 leaves out. -/
theorem C94_ending_partial {u : Setup} {s : Site} {base name : Text} {vod a : Xml} {ifile : Text} {x : Xml} {id : Text}
    {seg : Nat → TimedFragment} {v : VodCfg} {rp : Rep} {init : Bytes} {info : InitInfo}
    -- the content, as the analyser left it
    (hS : StoredRep base (s.files name) vod s.vodOf name a ifile x id seg) (hslash : '/' ∉ id)
    (hvod : s.vodOf name = .ok v) (hvd : 0 < v.segDurS) (hvn : 0 < v.nrSegs) (hrp : v.repInfo id = .ok rp)
    (hinit : (s.files name).file (id ++ '/' :: ifile) = some init) (hinfo : initInfo init = .ok info)
    (hroom : ∀ k : Nat, v.firstSeg ≤ k → (k : Int) < v.firstSeg + v.nrSegs → (seg k).Room)
    -- its manifest
    {file : Text} (hman : s.manifest name file = .ok vod) {infos rest : List Xml} {period : Xml}
    (hs : VodShape vod.kids infos none period rest) (hrb : ∀ x ∈ rest, x.tag ≠ "BaseURL".toList) (hr : VodRoot vod)
    (hv : VodPeriod v.segDurS period)
    (hmedia : ∀ t ∈ templates period, t.get "media".toList = some "$RepresentationID$/$Number$.m4s".toList)
    -- the client
    {first : Text} {opts : List Text} {r0 : Request} {t0 : Rat} {c : Cfg} {text : Bytes}
    (hO : Opened u s first opts name file r0 t0 c text) (ht0 : 0 ≤ t0)
    -- the service
    (hfree : ∀ p ∈ opts, TimeFree p) {z : Int} (hz : c.stopTime = some z) (hlt : c.ast < z)
    (hsn : 0 ≤ c.startNr) (hfirst : 0 ≤ firstNumber c) (hato0 : 0 ≤ c.ato)
    (htl : (c.segTimeline || c.segTimelineNr) = false) (hm : c.multiUrl = []) (hch : c.chunkDur = none) (hx : c.xlink ≤ 0)
    (had : c.insertAd ≤ 0) (hgrid : OnGrid c) (hpo : c.periodOffset < 0) (hato : fValue c.ato = c.ato)
    {total : Nat} (htotal : (total : Int) = z - c.ast) (hday : ∀ k : Nat, 0 < k → total ≠ k * 86400)
    (hnow : 0 < c.periods → total + v.segDurS ≤ pyTrunc t0) :
    ∃ out b, ReadsAs c vod r0 text out ∧ named "BaseURL" out = [b] ∧
      out.get "type".toList = some (if z < pyTrunc t0 then "static".toList else "dynamic".toList) ∧
      ∀ x ∈ named "Period" out, ∀ y ∈ named "AdaptationSet" x, ∀ t ∈ named "SegmentTemplate" y,
        ∃ m a, t.get "media".toList = some m ∧ ReadsEnding out b x t a total ∧
          (c.periods = -1 → a.periodStart = 0 ∧ a.duration ∣ total) ∧
          (z < pyTrunc t0 → ∀ n, a.within total n → a.availableFrom n ≤ t0) ∧
          ∀ n : Int, a.startNumber ≤ n →
          ∀ (r : Request) (time : Text), Asks r (b.text ++ fillTemplate id (intText n) time m) →
          ∀ (now : Rat), 0 ≤ now → gate u.maxLen r now = .pass → ∀ (sid : Text) (dflt : Headers),
            (¬(a.within total n ∧ a.availableFrom n ≤ now) → Refuses (serve u s sid dflt r now).1) ∧
            (a.within total n ∧ a.availableFrom n ≤ now →
              n < 2 ^ 32 → 0 ≤ a.mediaStart n → (0 < c.scte35 → n * c.segDur < 2 ^ 32) →
              ∀ k : Nat, (k : Int) = v.firstSeg + a.mediaStart n / v.segDurS % v.nrSegs →
              ∀ loops : Int, loops = a.mediaStart n / (v.segDurS * v.nrSegs) →
              ∀ T : Int, T = (seg k).time + loops * (v.segDurS * v.nrSegs) * info.timescale → T < 2 ^ 64 →
                (∃ head d, Delivers (serve u s sid dflt r now).1 "video/iso.segment".toList
                  (head ++ ((seg k).g.moved n T d).moof ++ boxesBytes (seg k).g.back)) ∧
                10 * |((seg v.firstSeg.toNat).time + (a.mediaStart n / v.segDurS + 1) * v.segDurS * info.timescale) -
                  (T + (seg k).duration info.defDur)| < info.timescale) := by
  obtain ⟨e, out, hg, -, e1, e2, e3, -, -, hreads⟩ := hO.made hman hx had hm
  obtain ⟨-, -, s3⟩ := hO.slash
  obtain ⟨v', hv', -, -, -, c1, c2, c3⟩ := processUrl_manifest hO.options hO.content hO.means
  rw [hvod] at hv'
  cases hv'
  rw [← c3] at hv
  have hd : 0 < c.segDur := by rw [c3]; exact hvd
  obtain ⟨haet, hlast, hloc, htsb, -, hstop⟩ := processUrl_stop hO.options hO.content hfree hO.means
  obtain ⟨g1, g2, hdur, ht⟩ := hstop z hz
  have hdz : c.segDur ∣ z - c.ast := Int.dvd_sub g1 g2
  have hwf : WellFormed c := ⟨hd, by rw [c2]; exact hvn, by rw [hm]; decide, htsb, fun _ => by rw [hdur]; rfl⟩
  obtain ⟨b, M, hb1, hb2, hroot, hstat, -, hMd, hall⟩ := template_read hs hrb hr hv hmedia e1 e2 e3 hd hato0 htl hloc hm hgrid hpo
    hato ht (by omega) (fun hp => by have := hnow hp; rw [c3]; omega) hg
  have hplain := hS.analysed.ids a hS.set x hS.rep id hS.named
  refine ⟨out, b, hreads, hb1, ?_, ?_⟩
  · rw [hroot.type, hstat, hz]
    by_cases hc : z < pyTrunc t0 <;> simp [hc]
  intro x hx y hy t ht'
  obtain ⟨p, hfit, hle, hmed, hread, -⟩ := hall x hx y hy t ht'
  let A : Addressing := ⟨c.ast, p.start, p.startNumber.getD 1, p.pto, c.segDur, some c.ato⟩
  have hwithin : ∀ n, A.within total n ↔ p.startNumber.getD 1 ≤ n ∧ (n - firstNumber c) * c.segDur < z - c.ast := by
    intro n
    show (p.startNumber.getD 1 ≤ n ∧ (n - p.startNumber.getD 1) * c.segDur + p.start < total) ↔ _
    rw [hfit.start, htotal]
    have : (n - p.startNumber.getD 1) * c.segDur + (p.startNumber.getD 1 - firstNumber c) * c.segDur =
        (n - firstNumber c) * c.segDur := by ring
    rw [this]
  have havail : ∀ n, (serviceOf c).opens n = A.availableFrom n := by
    intro n
    unfold Spec.Service.opens Spec.Service.startOf Addressing.availableFrom
    show (c.ast + ((n - firstNumber c : Int) : Rat) * c.segDur) + c.segDur - c.ato = _
    show _ = ((c.ast + p.start + (n - p.startNumber.getD 1 + 1) * c.segDur : Int) : Rat) - (some c.ato).getD 0
    rw [hfit.start]
    push_cast
    simp only [Option.getD_some]
    ring
  refine ⟨vodMedia, A, hmed, ⟨hread, ?_⟩, ?_, ?_, ?_⟩
  · have := hroot.mpdDur
    rw [hMd, hdur] at this
    obtain ⟨w, hw1, hw2⟩ := this
    refine ⟨w, hw1, ?_⟩
    have := hw2 (by exact_mod_cast (by omega : 0 ≤ z - c.ast)) (by
      intro k hk hc
      have hc : z - c.ast = k * 86400 := by exact_mod_cast hc
      exact hday k hk (by omega))
    rw [show ((z - c.ast : Int) : Rat).floor = z - c.ast from Rat.floor_intCast _] at this
    rwa [show (z - c.ast).toNat = total by omega] at this
  · intro hp
    exact ⟨hfit.single hp, by rw [htotal]; exact hdz⟩
  · intro hst n hn
    rw [← havail]
    obtain ⟨-, h2⟩ := (hwithin n).mp hn
    obtain ⟨q, hq⟩ := hdz
    have h3 : n - firstNumber c + 1 ≤ q := by
      rw [hq, mul_comm c.segDur] at h2
      have := lt_of_mul_lt_mul_right h2 hd.le
      omega
    have h4 : (n - firstNumber c + 1) * c.segDur ≤ z - c.ast := by
      rw [hq, mul_comm c.segDur]
      exact mul_le_mul_of_nonneg_right h3 hd.le
    have h5 : (serviceOf c).opens n = (c.ast + ((n - firstNumber c : Int) : Rat) * c.segDur) + c.segDur - c.ato := rfl
    have h6 : (((n - firstNumber c + 1) * c.segDur : Int) : Rat) ≤ ((z - c.ast : Int) : Rat) := by exact_mod_cast h4
    have h7 : ((pyTrunc t0 : Int) : Rat) ≤ t0 := (pyTrunc_bounds ht0).1
    have h8 : (z : Rat) ≤ pyTrunc t0 := by exact_mod_cast hst.le
    rw [h5]
    push_cast at h6 ⊢
    linarith
  · intro n hn r time ha now h0 hgate sid dflt
    have hn : p.startNumber.getD 1 ≤ n := hn
    have hmeans := processUrl_fixed hO.options hO.content hfree hO.means (pyTrunc now)
    have hwhen : ∀ time, IsServed s.pf c n time ↔ A.within total n ∧ A.availableFrom n ≤ time := by
      intro time
      rw [isServed_ending s.pf hwf haet hlast hato0 hsn hfirst hz hlt hdz hdur, hwithin, havail, and_assoc]
      exact ⟨fun h => ⟨hn, h.2⟩, fun h => ⟨by omega, h.2⟩⟩
    have hfet := number_fetched (s := servicePlace r0 first) hwf hgrid.1 hwhen hO.options hO.content s3 hmeans hvod hslash
      (splitDivider_single hplain.single) hrp
    rw [fill_number, hb2] at ha
    obtain ⟨c', hpu, hses, hparts, hext, hserve, hno, hyes⟩ := hO.followed hwf h0 hfet ha hgate sid dflt
    refine ⟨hno, ?_⟩
    rw [hserve]
    intro hin n1 T0 hsc k hk loops hloops T hT hT64
    obtain ⟨w, hgm, w1, w2, hem⟩ := hyes hin
    have hmt : mediaTime c n = A.mediaStart n := (hfit.pto n).symm
    rw [hmt] at w2
    exact hO.delivered hS hvod hinit hinfo hroom hch ha.2.1 hext hses hpu hgm w1 w2 hem (by omega) n1 T0 hsc hk hloops hT hT64

/-! ### Cases -/

def endOpts : List Text := ["start_1000".toList, "stop_1040".toList]

def endManifest : Request := tinyGet ["livesim", "start_1000", "stop_1040", "tiny", "Manifest.mpd"]

/-- What the options mean after the stop. -/
def endCfg : Cfg := (processUrl examplePf tinyVod (endOpts ++ ["tiny".toList, "Manifest.mpd".toList]) 2020).toOption.getD {}

theorem end_opened : ∃ text, Opened tinySetup tinySite "livesim".toList endOpts "tiny".toList "Manifest.mpd".toList endManifest
    2020 endCfg text := by
  have h : (got tinySite endManifest 2020).map (fun x => (x.1, x.2.1)) = some (200, some "application/dash+xml".toList) := by
    decide +kernel
  obtain ⟨⟨n, ty, b⟩, hg, hx⟩ := Option.map_eq_some_iff.mp h
  cases hx
  obtain ⟨rep, h1, h2⟩ := got_ok hg
  refine ⟨b, ⟨"http://h/livesim/start_1000/stop_1040/tiny/Manifest.mpd".toList, ?_⟩, rfl, by decide +kernel, by decide +kernel,
    by decide +kernel, by decide +kernel, [], [], rep, h1, h2⟩
  exact ⟨by decide +kernel, rfl, "livesim/start_1000/stop_1040/tiny/Manifest.mpd".toList, by decide +kernel, by decide +kernel⟩

theorem end_values :
    [endCfg.segDur, endCfg.vodNr, endCfg.periods, endCfg.insertAd, endCfg.xlink, endCfg.periodOffset, firstNumber endCfg,
      endCfg.startNr, endCfg.ast] = [2, 3, -1, -1, -1, -1, 0, 0, 1000] ∧
    (endCfg.ato = 0 ∧ endCfg.stopTime = some 1040 ∧ endCfg.multiUrl = [] ∧ endCfg.timeoffset = none) ∧
    (endCfg.segTimeline || endCfg.segTimelineNr) = false ∧ endCfg.chunkDur = none ∧ tinyTable.segDurS = 2 ∧ tinyTable.nrSegs = 3 ∧
    tinyTable.repInfo "V1".toList = .ok ⟨"V1".toList, "video".toList, 90000⟩ := by
  decide +kernel

/-- `C94_any_time` for these options: only the publish time differs. -/
example : (∀ p ∈ endOpts, TimeFree p) ∧ endCfg.publishTime = 2020 ∧
    processUrl examplePf tinyVod (endOpts ++ ["tiny".toList, "Manifest.mpd".toList]) 1020 =
      .ok { endCfg with publishTime := 1020 } := by
  refine ⟨?_, ?_, ?_⟩ <;> decide +kernel

/-- `C94_ending_partial` applies to a client that gets the manifest after the stop. -/
example : ∃ text out b, Opened tinySetup tinySite "livesim".toList endOpts "tiny".toList "Manifest.mpd".toList endManifest 2020
      endCfg text ∧ named "BaseURL" out = [b] ∧ out.get "type".toList = some "static".toList := by
  obtain ⟨text, hO⟩ := end_opened
  obtain ⟨info, hinfo⟩ := tiny_info
  obtain ⟨v1, v2, v3, v4, v5, v6, hrp⟩ := end_values
  simp only [List.cons.injEq, and_true] at v1
  obtain ⟨a1, a2, a3, a4, a5, a6, a7, a8, a9⟩ := v1
  obtain ⟨b1, b2, b3, b4⟩ := v2
  have hgrid : OnGrid endCfg := ⟨by rw [b4]; simp, Or.inl ⟨a3, by omega, fun _ => b4, by omega⟩⟩
  have hato : fValue endCfg.ato = endCfg.ato := by rw [b1]; decide +kernel
  have h12 : ∀ t ∈ templates tinyPeriod, t.get "media".toList = some "$RepresentationID$/$Number$.m4s".toList := by
    decide +kernel
  obtain ⟨out, b, -, g2, g3, -⟩ := C94_ending_partial tiny_site_stored (by decide +kernel) tiny_table (by omega) (by omega) hrp tiny_init
    hinfo (fun k _ _ => tinyTimed_room (by decide)) tiny_manifest tiny_shape (by simp) tiny_root tiny_period h12 hO (by decide)
    (by decide +kernel) b2 (by omega) (by omega) (by omega) (by rw [b1]) v3 b3 v4 (by omega) (by omega) hgrid (by omega) hato
    (total := 40) (by omega) (by intro k hk; omega) (by intro hc; omega)
  rw [if_pos (by decide +kernel)] at g3
  exact ⟨text, out, b, hO, g2, g3⟩

/-- What a manifest says about its presentation: its type, its duration, and of each period the start and the start numbers. -/
def extent (x : Xml) : Option String × Option String × List (Option String × List (Option String)) :=
  (attrOf "type" x, attrOf "mediaPresentationDuration" x,
    (named "Period" x).map fun p => (attrOf "start" p, (templates p).map (attrOf "startNumber")))

/-- The manifest of these options, as a client of this server gets it. -/
def endExtent (opts : List String) (now : Int) :
    Option (Option String × Option String × List (Option String × List (Option String))) :=
  let parts := opts.map String.toList ++ ["tiny".toList, "Manifest.mpd".toList]
  match processUrl examplePf tinyVod parts now with
  | .ok c => (generateXml c (mpdEnvOf tinySite (tinyGet ("livesim" :: opts ++ ["tiny", "Manifest.mpd"])) "livesim".toList parts
      "tiny".toList now) now tinyContent).toOption.map extent
  | .error _ => none

/-- The manifest is dynamic during the presentation and static after it.  Segment 0 is there at 1002 s and for ever, segment 19 is
the last one. -/
example : endExtent ["start_1000", "stop_1040"] 1020 =
      some (some "dynamic", some "PT40S", [(some "PT0S", [some "0", some "0"])]) ∧
    endExtent ["start_1000", "stop_1040"] 2020 =
      some (some "static", some "PT40S", [(some "PT0S", [some "0", some "0"])]) ∧
    (got tinySite (tinyGet ["livesim", "start_1000", "stop_1040", "tiny", "V1", "0.m4s"]) 1001).map (·.1) = some 404 ∧
    (got tinySite (tinyGet ["livesim", "start_1000", "stop_1040", "tiny", "V1", "0.m4s"]) 1002).map (·.1) = some 200 ∧
    (got tinySite (tinyGet ["livesim", "start_1000", "stop_1040", "tiny", "V1", "0.m4s"]) 500000).map (·.1) = some 200 ∧
    got tinySite (tinyGet ["livesim", "start_1000", "stop_1040", "tiny", "V1", "19.m4s"]) 500000 =
      some (200, some "video/iso.segment".toList, tinySegment 19 3420000 180000) ∧
    (got tinySite (tinyGet ["livesim", "start_1000", "stop_1040", "tiny", "V1", "20.m4s"]) 500000).map (·.1) = some 404 := by
  refine ⟨?_, ?_, ?_, ?_, ?_, ?_, ?_⟩ <;> decide +kernel

/-- **C94 fails for several periods.** The presentation of 40 s from 1000 s on, with a period each minute: after its end the static manifest
announces a presentation of 40 s, whose periods start at 960 s, 1020 s and 1080 s of it, the first with segment 480.  The server has
segments 0 to 19 only. -/
theorem C94_periods_violation :
    endExtent ["start_1000", "stop_1040", "periods_60"] 1050 = some (some "static", some "PT40S",
      [(some "PT960S", [some "480", some "480"]), (some "PT1020S", [some "510", some "510"]),
        (some "PT1080S", [some "540", some "540"])]) ∧
    (got tinySite (tinyGet ["livesim", "start_1000", "stop_1040", "periods_60", "tiny", "V1", "19.m4s"]) 1050).map (·.1) = some 200 ∧
    (got tinySite (tinyGet ["livesim", "start_1000", "stop_1040", "periods_60", "tiny", "V1", "480.m4s"]) 1050).map (·.1) = some 404 ∧
    (got tinySite (tinyGet ["livesim", "start_1000", "stop_1040", "periods_60", "tiny", "V1", "480.m4s"]) 500000).map (·.1) =
      some 404 := by
  refine ⟨?_, ?_, ?_, ?_⟩ <;> decide +kernel

end Verif
