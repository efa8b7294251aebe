import Verif.Props.LowLatency
/-
C92: what a low-latency client gets when it follows the manifest.
-/
namespace Verif
open Spec

/-- **C92.** Content that the analyser accepted, served over HTTP with a chunk duration: a client that got a manifest reads in
it from when on segments can be asked for, and that they are not complete then.  Whatever segment of the representation it
asks for by the URL that the manifest gives, at a time at which the options still mean the same (`C94_any_time`): outside the announced time
the server answers 404; within it 200 with a stream of chunks, each a complete fragment with this number, which together hold
the samples of the stored segment, in order, each once, moved by whole loops.  If no sample is longer than a chunk and the media
timeline of the manifest starts at the epoch, then no sample leaves more than a tenth of a second before the instant
at which the manifest presents it, and, with exact sleeping and a chunk duration of whole ticks, not later than a chunk duration
after it less a tenth of a second, unless the client was late.
Missing: timelines that start elsewhere (`C92_start_violation`); what C80 and C82 leave out (timelines, several BaseURLs, periods
off the grid, ends of the service, segments with several fragments; other names of initialization segments, chunks of less than
a tick). -/
theorem C92_stream_partial {u : Setup} {s : Site} {base name : Text} {vod a : Xml} {x : Xml} {id : Text}
    {seg : Nat → LiveFragment} {v : VodCfg} {rp : Rep} {init : Bytes} {info : InitInfo} {trex : Trex}
    -- the content, as the analyser left it
    (hS : StoredRep base (s.files name) vod s.vodOf name a "init.mp4".toList x id fun k => (seg k).timed) (hslash : '/' ∉ id)
    (hvod : s.vodOf name = .ok v) (hrp : v.repInfo id = .ok rp)
    (hinit : (s.files name).file (id ++ '/' :: "init.mp4".toList) = some init) (hinfo : initInfo init = .ok info)
    (q1 : info.defDur = some trex.dur) (q2 : info.defSize = some trex.size) (q3 : info.defFlags = some trex.flags)
    (hok : ∀ k : Nat, v.firstSeg ≤ k → (k : Int) < v.firstSeg + v.nrSegs → (seg k).Ok)
    -- its manifest
    {file : Text} (hman : s.manifest name file = .ok vod) {infos rest : List Xml} {period : Xml}
    (hs : VodShape vod.kids infos none period rest) (hrb : ∀ x ∈ rest, x.tag ≠ "BaseURL".toList) (hr : VodRoot vod)
    (hv : VodPeriod v.segDurS period)
    (hmedia : ∀ t ∈ templates period, t.get "media".toList = some "$RepresentationID$/$Number$.m4s".toList)
    -- the client
    {first : Text} {opts : List Text} {r0 : Request} {t0 : Rat} {c : Cfg} {text : Bytes}
    (hO : Opened u s first opts name file r0 t0 c text)
    -- the service
    (h : Plain c) (htl : (c.segTimeline || c.segTimelineNr) = false) (hl : c.addLocation = false)
    (hm : c.multiUrl = []) (hdur : c.mpdDur = none) (hx : c.xlink ≤ 0) (had : c.insertAd ≤ 0)
    (hgrid : OnGrid c) (hpo : c.periodOffset < 0)
    (hato : fValue c.ato = c.ato) {tsbd : Int} (ht : c.tsbd = some tsbd) (hb : 0 ≤ tsbd)
    (hday : ∀ k : Nat, 0 < k → tsbd ≠ k * 86400) (hnow : 0 < c.periods → tsbd + v.segDurS ≤ pyTrunc t0)
    {d : Rat} (hchunk : c.chunkDur = some d) (hd : 0 < d) (hticks : 0 < chunkTicks d info.timescale) :
    ∃ out b, ReadsAs c vod r0 text out ∧ named "BaseURL" out = [b] ∧
      ∀ x ∈ named "Period" out, ∀ y ∈ named "AdaptationSet" x, ∀ t ∈ named "SegmentTemplate" y,
        ∃ m a depth, t.get "media".toList = some m ∧ ReadsNumbers out b x t a depth ∧
          t.get "availabilityTimeComplete".toList = some "false".toList ∧
          ∀ n : Int, a.startNumber ≤ n →
          ∀ (r : Request) (time : Text), Asks r (b.text ++ fillTemplate id (intText n) time m) →
          ∀ (now : Rat), 0 ≤ now → Means s.pf s.vodOf (opts ++ [name, file]) (pyTrunc now) c →
          gate u.maxLen r now = .pass → ∀ (sid : Text) (dflt : Headers),
            (¬(a.availableFrom n ≤ now ∧ now ≤ a.availableFrom n + a.ato.getD 0 + a.duration + depth) →
              Refuses (serve u s sid dflt r now).1) ∧
            (a.availableFrom n ≤ now ∧ now ≤ a.availableFrom n + a.ato.getD 0 + a.duration + depth →
              0 ≤ n → n < 2 ^ 32 → 0 ≤ a.mediaStart n → (0 < c.scte35 → n * c.segDur < 2 ^ 32) →
              ∀ k : Nat, (k : Int) = v.firstSeg + a.mediaStart n / v.segDurS % v.nrSegs →
              ∀ later : Int, later = a.mediaStart n / (v.segDurS * v.nrSegs) * (v.segDurS * v.nrSegs) * info.timescale →
              ∀ T : Int, T = (seg k).time + later → T < 2 ^ 64 → (seg k).Chunkable trex later →
                ∃ (rep : Reply) (start : Rat) (cs : List Bytes) (parts : List (List Sample)),
                  (serve u s sid dflt r now).1 = .ok (rep, .chunks start d cs) ∧ rep.status = 200 ∧
                  getHeader rep.headers "Content-Type".toList = some "video/iso.segment".toList ∧
                  parts.flatten = (seg k).seg.samples trex ∧ cs.length = parts.length ∧
                  ∀ es : List Step, cs.length ≤ es.length → (∀ e ∈ es, 0 ≤ e.idle ∧ 0 ≤ e.over) →
                    (stream start d now cs es).map (·.chunk) = cs ∧
                    ∀ (i : Nat) (g : Delivery), (stream start d now cs es)[i]? = some g →
                      ∃ p, parts[i]? = some p ∧ p ≠ [] ∧ IsChunk n (seg k).head.track (p.map (Sample.later later)) g.chunk ∧
                        ((∀ z ∈ (seg k).seg.samples trex, (z.duration : Int) ≤ chunkTicks d info.timescale) →
                          a.ast + a.periodStart = a.pto →
                          ∀ z ∈ p.map (Sample.later later),
                            a.clock (a.mediaStart n + ((z.time : Rat) - T) / info.timescale) - 1 / 10 < g.sent ∧
                            (d * info.timescale = chunkTicks d info.timescale → (∀ e ∈ es, e.over = 0) →
                              g.sent ≤ max g.read
                                (a.clock (a.mediaStart n + ((z.time : Rat) - T) / info.timescale) + d - 1 / 10)))) := by
  obtain ⟨e, out, hg, -, e1, e2, e3, -, -, hreads⟩ := hO.made hman hx had hm
  obtain ⟨-, -, s3⟩ := hO.slash
  obtain ⟨v', hv', -, -, -, c1, c2, c3⟩ := processUrl_manifest hO.options hO.content hO.means
  rw [hvod] at hv'
  cases hv'
  rw [← c3] at hv hnow
  obtain ⟨b, hb1, hall⟩ := C75_numbers_partial (pf := s.pf) (vodOf := s.vodOf) hs hrb hr hv hmedia hO.options hO.content s3 e1 e2 e3
    hvod h htl hl hm hdur hgrid hpo hato ht hb hday hnow hg
  have hplain := hS.analysed.ids a hS.set x hS.rep id hS.named
  refine ⟨out, b, hreads, hb1, ?_⟩
  intro x hx y hy t ht
  obtain ⟨m, a', depth, g1, g2, g4, g3⟩ := hall x hx y hy t ht
  refine ⟨m, a', depth, g1, g2, g4 (by rw [hchunk]; exact fun hc => by cases hc), ?_⟩
  intro n hn r time ha now h0 hu hgate sid dflt
  obtain ⟨c', hpu, hses, hparts, hext, hserve, hno, hyes⟩ := hO.followed h.wellFormed h0
    (g3 n hn (pyTrunc now) hu id time rp hslash (splitDivider_single hplain.single) hrp) ha hgate sid dflt
  obtain ⟨v', reps, hv', -, d1, -, d6, d2, -, d3, d4, d5⟩ := processUrl_files hO.options hO.content hpu
  rw [hvod] at hv'
  cases hv'
  refine ⟨hno, ?_⟩
  intro hin n0 n1 T0 hsc k hk later hlater T hT hT64 hfit
  obtain ⟨w, hgm, w1, w2, hem⟩ := hyes hin
  have hq : ∀ {α : Type} (f : Cfg → α), (f (service c') = f (service c)) := fun f => by rw [hses]
  have p1 : c'.chunkDur = some d := by rw [show c'.chunkDur = c.chunkDur from hq Cfg.chunkDur, hchunk]
  have p2 : c'.scte35 = c.scte35 := hq Cfg.scte35
  have p3 : c'.segDur = c.segDur := hq Cfg.segDur
  obtain ⟨init', info', k', rp', z, l1, l2, l3, -, -, -, l7, -, l9, l10, l11, l12, l13, -⟩ :=
    live_decision hS ⟨opts, _, hO.options, hpu⟩ hgm
  rw [hinit] at l1
  cases l1
  rw [hinfo] at l2
  cases l2
  rw [w2, d3, d4, d5] at l12
  rw [w2, d4, d5] at l13
  rw [d5] at l10
  rw [d4] at l11
  have hkk : k' = k := by omega
  subst hkk
  have hts : 0 < info.timescale := by
    have := abs_nonneg (((seg c'.vodFirst.toNat).timed.time + (w.segTime / c'.segDur + 1) * c'.segDur * info.timescale) -
      (((seg k').timed.time + w.offset * info.timescale) + (seg k').timed.duration info.defDur) : Int)
    omega
  have hoff : 0 ≤ w.offset := by
    rw [l13]
    have : 0 < v.segDurS * v.nrSegs := Int.mul_pos l10 l11
    exact Int.mul_nonneg (Int.ediv_nonneg T0 this.le) this.le
  have hlat : w.offset * info.timescale = later := by rw [hlater, l13]
  have hT0 : 0 ≤ T := by
    have := Int.mul_nonneg hoff hts.le
    omega
  have hkn : w.vodNr.toNat = k' := by omega
  obtain ⟨rep, cs, parts, r1, r2, r3, r4, r5, r6⟩ := C82_stream_partial (u := u) hS hparts hO.options
    (by rw [intText_splitext]) hpu hgm hgate (by
      intro k a1 a2
      rw [d3] at a1 a2
      rw [d4] at a2
      exact hok k a1 a2) p1 hd (by rw [p2, p3, w1]; exact hsc) (by rw [hem]; intro hc; cases hc) hinit hinfo q1 q2 q3 hticks
    (by rw [w1]; exact n0) (by rw [w1]; exact n1) (start := T) (by rw [hkn, hlat]; exact hT) hT0 hT64
    (by rw [hkn, hlat]; exact hfit) sid dflt
  rw [hkn] at r4 r6
  rw [hlat, w1] at r6
  refine ⟨rep, w.segTime, cs, parts, r1, r2, r3, r4, r5, ?_⟩
  intro es hl he
  obtain ⟨r7, r8⟩ := r6 es hl he
  refine ⟨r7, ?_⟩
  intro i g hg
  obtain ⟨p, r9, r10, r11, r12⟩ := r8 i g hg
  refine ⟨p, r9, r10, r11, ?_⟩
  intro hz hzero z hzp
  have hclock : ∀ q : Rat, a'.clock (a'.mediaStart n + q) = w.segTime + q := by
    intro q
    unfold Addressing.clock
    rw [hzero, w2]
    ring
  rw [hclock]
  exact r12 hz z hzp

/-! ### Cases -/

def lowPeriod : Xml :=
  .elem "Period".toList [] [] [tinySet "video" "$RepresentationID$/$Number$.m4s" fromOne ["V1"]]

/-- The content with the profile that a live service adds its own to. -/
def lowContent : Xml :=
  .elem "MPD".toList [("profiles".toList, "urn:mpeg:dash:profile:isoff-live:2011".toList)] [] [lowPeriod]

def lowVod : Text → Py VodCfg := vodAfter "tiny".toList quarterFiles lowContent

theorem low_stored : StoredRep "tiny".toList quarterFiles lowContent lowVod "tiny".toList
    (tinySet "video" "$RepresentationID$/$Number$.m4s" fromOne ["V1"]) "init.mp4".toList
    (.elem "Representation".toList [("id".toList, "V1".toList), ("bandwidth".toList, "9".toList)] [] []) "V1".toList
    fun k => (quarterSeg k).timed where
  analysed := analysed_after (by decide +kernel) (by decide +kernel) (by decide +kernel)
  unique := by decide +kernel
  set := by
    have : (adaptationSets lowContent)[0]? = some (tinySet "video" "$RepresentationID$/$Number$.m4s" fromOne ["V1"]) := rfl
    exact List.mem_of_getElem? this
  media := by unfold NumberTemplate; decide +kernel
  init := by unfold InitTemplate; decide +kernel
  ifile := by decide +kernel
  rep := by
    have : (representations (tinySet "video" "$RepresentationID$/$Number$.m4s" fromOne ["V1"]))[0]? =
      some (.elem "Representation".toList [("id".toList, "V1".toList), ("bandwidth".toList, "9".toList)] [] []) := rfl
    exact List.mem_of_getElem? this
  named := by decide +kernel
  slot := by decide +kernel
  loop := by
    intro v hv k h1 h2
    have e : (lowVod "tiny".toList).toOption.map (fun v => (v.firstSeg, v.nrSegs)) = some (1, 3) := by decide +kernel
    rw [hv] at e
    have e' : (v.firstSeg, v.nrSegs) = (1, 3) := Option.some.inj e
    have e1 : v.firstSeg = 1 := congrArg Prod.fst e'
    have e2 : v.nrSegs = 3 := congrArg Prod.snd e'
    have : k = 1 ∨ k = 2 ∨ k = 3 := by omega
    rcases this with rfl | rfl | rfl <;>
      exact ⟨by decide +kernel, (quarter_ok (by decide)).timed⟩

def lowSite : Site := { quarterSite with
  vodOf := lowVod
  manifest := fun _ f => if f = "Manifest.mpd".toList then .ok lowContent else .error .osError }

def lowOpts : List Text := ["ato_2".toList, "chunkdur_1".toList, "tsbd_40".toList]

def lowManifest : Request := tinyGet ["livesim", "ato_2", "chunkdur_1", "tsbd_40", "tiny", "Manifest.mpd"]

def lowCfg : Cfg :=
  (processUrl examplePf lowVod (lowOpts ++ ["tiny".toList, "Manifest.mpd".toList]) 100).toOption.getD {}

def lowTable : VodCfg := (lowVod "tiny".toList).toOption.getD ⟨0, 0, 0, 0, []⟩

theorem low_opened : ∃ text, Opened tinySetup lowSite "livesim".toList lowOpts "tiny".toList
    "Manifest.mpd".toList lowManifest 100 lowCfg text := by
  have h : (got lowSite lowManifest 100).map (fun x => (x.1, x.2.1)) =
      some (200, some "application/dash+xml".toList) := by decide +kernel
  obtain ⟨⟨n, ty, b⟩, hg, hx⟩ := Option.map_eq_some_iff.mp h
  cases hx
  obtain ⟨rep, h1, h2⟩ := got_ok hg
  refine ⟨b, ⟨"http://h/livesim/ato_2/chunkdur_1/tsbd_40/tiny/Manifest.mpd".toList, ?_⟩, rfl, by decide +kernel,
    by decide +kernel, by decide +kernel, by decide +kernel, [], [], rep, h1, h2⟩
  exact ⟨by decide +kernel, rfl, "livesim/ato_2/chunkdur_1/tsbd_40/tiny/Manifest.mpd".toList, by decide +kernel,
    by decide +kernel⟩

theorem low_values :
    [lowCfg.segDur, lowCfg.vodNr, lowCfg.periods, lowCfg.insertAd, lowCfg.xlink, lowCfg.periodOffset,
      firstNumber lowCfg] = [2, 3, -1, -1, -1, -1, 0] ∧
    (lowCfg.ato = 2 ∧ lowCfg.stopTime = none ∧ lowCfg.lastNrs = [] ∧ lowCfg.aet = none ∧
      lowCfg.multiUrl = [] ∧ lowCfg.tsbd = some 40 ∧ lowCfg.timeoffset = none) ∧
    ((lowCfg.segTimeline || lowCfg.segTimelineNr) = false ∧ lowCfg.addLocation = false) ∧
    lowCfg.mpdDur = none ∧ lowCfg.chunkDur = some 1 ∧ lowTable.segDurS = 2 ∧
    lowTable.firstSeg = 1 ∧ lowTable.nrSegs = 3 ∧
    lowTable.repInfo "V1".toList = .ok ⟨"V1".toList, "video".toList, 90000⟩ := by
  decide +kernel

theorem low_period : VodPeriod lowTable.segDurS lowPeriod := by
  rw [low_values.2.2.2.2.2.1]
  refine ⟨by decide +kernel, by decide +kernel, by decide +kernel, ?_, by decide +kernel, ?_, by decide +kernel⟩
  · have : ∀ t ∈ templates lowPeriod, t.get "timescale".toList = none := by decide +kernel
    intro t ht
    exact Or.inr ⟨this t ht, rfl⟩
  · have : ∀ t ∈ templates lowPeriod, t.get "duration".toList = some "2".toList := by decide +kernel
    intro t ht
    exact ⟨"2".toList, this t ht, by decide +kernel⟩

theorem low_table : lowSite.vodOf "tiny".toList = .ok lowTable := by
  show lowVod "tiny".toList = _
  decide +kernel

theorem low_manifest : lowSite.manifest "tiny".toList "Manifest.mpd".toList = .ok lowContent := by
  show (if "Manifest.mpd".toList = "Manifest.mpd".toList then (.ok lowContent : Py Xml) else .error .osError) = .ok lowContent
  exact if_pos rfl

theorem low_info : ∃ info, initInfo (infoInit false).bytes = .ok info ∧ info.defDur = some 1800 ∧ info.defSize = some 0 ∧
    info.defFlags = some 65536 ∧ info.timescale = 90000 := by
  have hi : (initInfo (infoInit false).bytes).toOption.map (fun i => ((i.defDur, i.defSize, i.defFlags), i.timescale)) =
      some ((some 1800, some 0, some 65536), 90000) := by decide +kernel
  cases hin : initInfo (infoInit false).bytes with
  | error e => rw [hin] at hi; cases hi
  | ok info =>
    rw [hin] at hi
    have hi := Option.some.inj hi
    simp only [Prod.mk.injEq] at hi
    exact ⟨info, rfl, hi.1.1, hi.1.2.1, hi.1.2.2, hi.2⟩

/-- `C92_stream_partial` applies to a client of this server. -/
example : ∃ text out b, Opened tinySetup lowSite "livesim".toList lowOpts "tiny".toList
      "Manifest.mpd".toList lowManifest 100 lowCfg text ∧
      (∃ t, text = utf8 t ∧ readXml t = some (treeEvents dashUri out)) ∧ named "BaseURL" out = [b] := by
  obtain ⟨text, hO⟩ := low_opened
  obtain ⟨info, hinfo, i1, i2, i3, i4⟩ := low_info
  obtain ⟨v1, v2, v3, v4, v5, v6, v7, v8, hrp⟩ := low_values
  simp only [List.cons.injEq, and_true] at v1
  obtain ⟨a1, a2, a3, a4, a5, a6, a7⟩ := v1
  obtain ⟨b1, b2, b3, b4, b5, b6, b7⟩ := v2
  obtain ⟨c1, c3⟩ := v3
  have hplain : Plain lowCfg := ⟨by omega, by omega, by rw [b1]; decide, b2, b3, b4, by rw [b5]; decide, by rw [b6]; rfl⟩
  have hgrid : OnGrid lowCfg := ⟨by rw [b7]; simp, Or.inl ⟨a3, by omega, fun _ => b7, by omega⟩⟩
  have hato : fValue lowCfg.ato = lowCfg.ato := by rw [b1]; decide +kernel
  have h11 : 40 + lowTable.segDurS ≤ pyTrunc 100 := by rw [v6]; decide +kernel
  have h12 : ∀ t ∈ templates lowPeriod, t.get "media".toList = some "$RepresentationID$/$Number$.m4s".toList := by
    decide +kernel
  have hready : Readable lowCfg lowContent lowManifest :=
    ⟨by decide +kernel, by decide +kernel, by decide +kernel, by decide +kernel⟩
  obtain ⟨out, b, ⟨t, ht, hread⟩, g2, -⟩ := C92_stream_partial (trex := ⟨1800, 0, 65536⟩) (s := lowSite) low_stored
    (by decide +kernel) low_table hrp (init := (infoInit false).bytes) (by show quarterFiles.file _ = _; decide +kernel) hinfo i1 i2 i3
    (fun k h1 h2 => quarter_ok (by omega)) low_manifest (infos := []) (period := lowPeriod) (rest := [])
    ⟨rfl, by simp, by simp, by decide +kernel, by simp⟩ (by simp)
    ⟨by decide +kernel, by decide +kernel, by decide +kernel, by decide +kernel⟩ low_period h12 hO hplain
    c1 c3 b5 v4 (by omega) (by omega) hgrid (by omega) hato b6 (by decide) (by intro k hk; omega) (fun _ => h11) v5 (by decide)
    (by rw [i4]; decide +kernel)
  exact ⟨text, out, b, hO, ⟨t, ht, hread hready⟩, g2⟩

/-- What the manifest of a service says: its availability start time, and of the period and of the template the attributes
that place a segment. -/
def placed (x : Xml) : Option String × List (Option String × List (List (Option String))) :=
  (attrOf "availabilityStartTime" x, (named "Period" x).map fun p => (attrOf "start" p, (templates p).map fun t =>
    ["startNumber", "presentationTimeOffset", "duration", "availabilityTimeOffset"].map (attrOf · t)))

/-- The manifest of these options, as a client of this server gets it. -/
def lowPlaced (opts : List String) (now : Int) : Option (Option String × List (Option String × List (List (Option String)))) :=
  let parts := opts.map String.toList ++ ["tiny".toList, "Manifest.mpd".toList]
  match processUrl examplePf lowVod parts now with
  | .ok c => (generateXml c (mpdEnvOf lowSite (tinyGet ("livesim" :: opts ++ ["tiny", "Manifest.mpd"])) "livesim".toList parts
      "tiny".toList now) now lowContent).toOption.map placed
  | .error _ => none

/-- What these manifests say about the segments. -/
def lowAddressing (ast : Int) : Addressing := ⟨ast, 0, 0, 0, 2, some 2⟩

/-- At 100 s the manifest says: segment 50 is media time 100 s, presented at 100 s, available 2 s before its end.  The client
asks at once: two chunks with two samples each, which leave a tenth of a second before their ends. -/
example : lowPlaced ["ato_2", "chunkdur_1", "tsbd_40"] 100 = some (some "1970-01-01T00:00:00Z",
      [(some "PT0S", [[some "0", none, some "2", some "2.000000"]])]) ∧
    ((lowAddressing 0).mediaStart 50 = 100 ∧ (lowAddressing 0).clock 100 = 100 ∧ (lowAddressing 0).availableFrom 50 = 100) ∧
    processUrl examplePf lowVod (lowOpts ++ ["tiny".toList, "Manifest.mpd".toList]) 1000 = .ok lowCfg ∧
    (streamed lowSite quarterAsk 100).map (fun x => (x.status, x.start, x.dur)) = some (200, 100, 1) ∧
    (streamed lowSite quarterAsk 100).map (fun x => x.chunks.map chunkContent) = some (
      [[(9000000, [10]), (9045000, [20, 21])], [(9090000, [30]), (9135000, [40, 41, 42])]]) ∧
    (got lowSite quarterAsk 99).map (·.1) = some 404 ∧
    (stream 100 1 100 [[1], [2]] [⟨0, 0⟩, ⟨0, 0⟩]).map (·.sent) = [1009 / 10, 1019 / 10] := by
  refine ⟨?_, ?_, ?_, ?_, ?_, ?_, ?_⟩ <;> decide +kernel

def lateAsk : Request := tinyGet ["livesim", "start_1000", "ato_2", "chunkdur_1", "tsbd_40", "tiny", "V1", "50.m4s"]

/-- **C92 fails for services that start later.** The manifest of a service that starts at 1000 s says that segment 50, with
media times from 100 s to 102 s, is presented from 1100 s on and can be asked for then.  The server takes 100 s as its
start on the clock: both chunks leave at 1100 s, the last sample (media time 101.5 s) 1.5 s before the manifest presents it. -/
theorem C92_start_violation :
    lowPlaced ["start_1000", "ato_2", "chunkdur_1", "tsbd_40"] 1100 = some (some "1970-01-01T00:16:40Z",
      [(some "PT0S", [[some "0", none, some "2", some "2.000000"]])]) ∧
    ((lowAddressing 1000).mediaStart 50 = 100 ∧ (lowAddressing 1000).clock 100 = 1100 ∧
      (lowAddressing 1000).availableFrom 50 = 1100 ∧ (lowAddressing 1000).clock (203 / 2) = 2203 / 2) ∧
    (streamed lowSite lateAsk 1100).map (fun x => (x.status, x.start, x.dur)) = some (200, 100, 1) ∧
    (streamed lowSite lateAsk 1100).map (fun x => x.chunks.map chunkContent) = some (
        [[(9000000, [10]), (9045000, [20, 21])], [(9090000, [30]), (9135000, [40, 41, 42])]]) ∧ 9135000 = 90000 * (203 / 2 : Rat) ∧
    (stream 100 1 1100 [[1], [2]] [⟨0, 0⟩, ⟨0, 0⟩]).map (·.sent) = [1100, 1100] := by
  refine ⟨?_, ?_, ?_, ?_, ?_, ?_⟩ <;> decide +kernel

end Verif
