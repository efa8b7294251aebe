import Verif.Lemmas.Server
import Verif.Props.Delivered
import Verif.Props.NumberFetch
import Verif.Props.ManifestText
/-
C80: what a client that has got a manifest gets when it follows the manifest.
-/
namespace Verif
open Spec

/-- A client has got a manifest: the request `r0` for the file `file` of the content `name` with the options `opts` was
answered at `t0` with a success and the body `text`.  `c` is what the options mean at that time. -/
structure Opened (u : Setup) (s : Site) (first : Text) (opts : List Text) (name file : Text) (r0 : Request) (t0 : Rat)
    (c : Cfg) (text : Bytes) : Prop where
  asks : ∃ url, Asks r0 url
  parts : r0.parts = [] :: first :: (opts ++ [name, file])
  options : ∀ p ∈ opts, (partSlot p).isSome
  content : partSlot name = none
  ext : (splitext file).2 = ".mpd".toList
  means : processUrl s.pf s.vodOf (opts ++ [name, file]) (pyTrunc t0) = .ok c
  reply : ∃ sid dflt rep, (serve u s sid dflt r0 t0).1 = .ok (rep, .whole text) ∧ rep.status = 200

/-- The VoD manifest and the address of the request have only texts that a manifest can contain (C70). -/
structure Readable (c : Cfg) (vod : Xml) (r : Request) : Prop where
  vod : Writable dashUri vod
  host : GoodText r.host
  parts : ∀ p ∈ r.parts, GoodText p
  loss : c.segtimelineloss = false

/-- What a client reads in a body: its bytes are the UTF-8 text of an XML document with this tree. -/
def ReadsAs (c : Cfg) (vod : Xml) (r : Request) (body : Bytes) (out : Xml) : Prop :=
  ∃ t, body = utf8 t ∧ (Readable c vod r → readXml t = some (treeEvents dashUri out))

theorem good_origin {r : Request} (h : GoodText r.host) : GoodText r.origin := by
  unfold Request.origin
  have e : "://".toList = ":/".toList ++ ['/'] := by decide +kernel
  rw [e]
  have hx : ∀ s : Text, GoodText (s ++ ":/".toList) → GoodText (s ++ (":/".toList ++ ['/']) ++ r.host) := by
    intro s hs
    have := hs.slash h
    simpa using this
  split
  · exact hx _ (by decide +kernel)
  · exact hx _ (by decide +kernel)

/-- What the body of a manifest reply is. -/
theorem Opened.made_env {u : Setup} {s : Site} {first : Text} {opts : List Text} {name file : Text} {r0 : Request} {t0 : Rat}
    {c : Cfg} {text : Bytes} (h : Opened u s first opts name file r0 t0 c text) {vod : Xml}
    (hman : s.manifest name file = .ok vod) (hx : c.xlink ≤ 0) (had : c.insertAd ≤ 0) (hm : c.multiUrl = []) :
    ∃ out, generateXml c (mpdEnvOf s r0 first (opts ++ [name, file]) name (pyTrunc t0)) (pyTrunc t0) vod = .ok out ∧
      text = utf8 (fullXml out) := by
  obtain ⟨⟨url, h1, h2, -⟩, hp, ho, hn, hext, hu, sid, dflt, rep, hr, hs⟩ := h
  obtain ⟨-, hpr⟩ := serve_success h2 hr hs
  obtain ⟨v, -, hcn, hcf, hce, -⟩ := processUrl_manifest ho hn hu
  rw [hext] at hce
  unfold provide at hpr
  rw [hp] at hpr
  simp only [List.drop_succ_cons, List.drop_zero, hu] at hpr
  rw [if_neg (by rw [hce]; decide +kernel), if_pos (Or.inl hce)] at hpr
  unfold provideMpd at hpr
  rw [hcn, getMpdText_plain hce (by rw [hcf]; exact hman) hx had] at hpr
  cases hg : generateXml c (mpdEnvOf s r0 first (opts ++ [name, file]) name (pyTrunc t0)) (pyTrunc t0) vod with
  | error e =>
    have : lossText c (mpdEnvOf s r0 first (opts ++ [name, file]) name (pyTrunc t0)) (pyTrunc t0) vod = .error e := by
      unfold lossText timelineLoss
      rw [hm]
      unfold generateText
      rw [hg]
      rfl
    rw [this] at hpr
    cases hpr
  | ok out =>
    rw [lossText_plain hm (generateText_eq hg)] at hpr
    simp only [Provided.data.injEq] at hpr
    exact ⟨out, rfl, hpr.symm⟩

/-- The same, with what is used of the surroundings. -/
theorem Opened.made {u : Setup} {s : Site} {first : Text} {opts : List Text} {name file : Text} {r0 : Request} {t0 : Rat}
    {c : Cfg} {text : Bytes} (h : Opened u s first opts name file r0 t0 c text) {vod : Xml}
    (hman : s.manifest name file = .ok vod) (hx : c.xlink ≤ 0) (had : c.insertAd ≤ 0) (hm : c.multiUrl = []) :
    ∃ e out, generateXml c e (pyTrunc t0) vod = .ok out ∧ text = utf8 (fullXml out) ∧
      e.parts = opts ++ [name, file] ∧ e.pos = opts.length ∧ e.start = servicePlace r0 first ++ "/".toList ∧
      e.video = (s.tables name).1 ∧ e.audio = (s.tables name).2 ∧ ReadsAs c vod r0 text out := by
  obtain ⟨out, hg, ht⟩ := h.made_env hman hx had hm
  have e1 : "/".toList = ['/'] := by decide +kernel
  refine ⟨_, out, hg, ht, rfl, ?_, ?_, rfl, rfl, _, ht, ?_⟩
  rotate_left 2
  · intro hr
    have ho := good_origin hr.host
    have hf : GoodText first := hr.parts _ (by rw [h.parts]; simp)
    have hparts : ∀ q ∈ opts ++ [name, file], GoodText q := fun q hq =>
      hr.parts _ (by rw [h.parts]; exact List.mem_cons_of_mem _ (List.mem_cons_of_mem _ hq))
    refine C70_inputs_partial hg (generateText_eq hg) hr.vod hr.loss ?_ ?_ hparts ?_ (calm_good (calm_makeTimestamp _))
      (by rw [hm]; simp)
    · show GoodText (r0.origin ++ "/".toList ++ first ++ "/".toList)
      have := (ho.slash hf).slash goodText_nil
      rw [e1]; simpa using this
    · show (r0.origin ++ "/".toList ++ first ++ "/".toList).getLast? = some '/'
      rw [e1]; exact List.getLast?_concat
    · show GoodText (r0.origin ++ "/".toList ++ "dash/time.txt".toList)
      have := ho.slash (b := "dash/time.txt".toList) (by decide +kernel)
      rw [e1]; simpa using this
  · exact contentPos_eq (more := [file]) h.options h.content
  · show r0.origin ++ "/".toList ++ first ++ "/".toList = (r0.origin ++ '/' :: first) ++ "/".toList
    simp

theorem Opened.slash {u : Setup} {s : Site} {first : Text} {opts : List Text} {name file : Text} {r0 : Request} {t0 : Rat}
    {c : Cfg} {text : Bytes} (h : Opened u s first opts name file r0 t0 c text) :
    '/' ∉ r0.host ∧ '/' ∉ first ∧ ∀ p ∈ opts ++ [name], '/' ∉ p := by
  obtain ⟨url, ha⟩ := h.asks
  have := asks_slash ha
  rw [h.parts] at this
  refine ⟨ha.1, this _ (by simp), ?_⟩
  intro p hp
  apply this
  simp only [List.mem_append, List.mem_cons, List.not_mem_nil, or_false] at hp ⊢
  tauto

theorem moof_ne_nil (g : OneFragment) (a b : Bytes) : a ++ g.moof ++ b ≠ [] := by
  intro h
  have h1 : g.moof = [] := by
    have := (List.append_eq_nil_iff.mp h).1
    exact (List.append_eq_nil_iff.mp this).2
  have := congrArg List.length h1
  simp only [OneFragment.moof, fragment, Forest.bytes, List.length_append, boxBytes_length, List.length_nil] at this
  omega

/-- The request for a segment by the URL that the manifest gives: outside the given time it is refused, within it the
server decides to send the segment. -/
theorem Opened.followed {u : Setup} {s : Site} {first : Text} {opts : List Text} {name file : Text} {r0 : Request} {t0 : Rat}
    {c : Cfg} {text : Bytes} (hO : Opened u s first opts name file r0 t0 c text) (h : WellFormed c) {url id : Text} {n : Int}
    {now : Rat} {when : Rat → Prop} {start : Int} (h0 : 0 ≤ now)
    (hf : FetchedNr s.pf s.vodOf c (pyTrunc now) (servicePlace r0 first) url
      (opts ++ [name, id, intText n ++ ".m4s".toList]) n when start)
    {r : Request} (ha : Asks r url) (hgate : gate u.maxLen r now = .pass) (sid : Text) (dflt : Headers) :
    ∃ c', processUrl s.pf s.vodOf (opts ++ [name, id, intText n ++ ".m4s".toList]) (pyTrunc now) = .ok c' ∧
      service c' = service c ∧ r.parts = [] :: first :: (opts ++ [name, id, intText n ++ ".m4s".toList]) ∧
      r.ext = ".m4s".toList ∧ (serve u s sid dflt r now).1 = (answer u.agent u.notFound r (provideMedia s r c' now)) ∧
      (¬when now → Refuses (serve u s sid dflt r now).1) ∧
      (when now → ∃ w, getMedia s.pf c' now = .ok (.media w) ∧ w.segNr = n ∧ w.segTime = start ∧
        w.emsgLast = false) := by
  obtain ⟨s1, s2, s3⟩ := hO.slash
  obtain ⟨c', hlead, hpu, hses, hw⟩ := hf
  have hparts := asks_parts s1 s2 hlead ha
  obtain ⟨v', reps, -, -, d1, -, d6, d2, -⟩ := processUrl_files hO.options hO.content hpu
  rw [intText_splitext] at d2
  have d2 : c'.ext = ".m4s".toList := d2
  have hext : r.ext = ".m4s".toList := by
    unfold Request.ext
    rw [hparts]
    have : ([] :: first :: (opts ++ [name, id, intText n ++ ".m4s".toList]) : List Text).getLastD [] =
        intText n ++ ".m4s".toList := by
      rw [show ([] :: first :: (opts ++ [name, id, intText n ++ ".m4s".toList]) : List Text) =
        ([] :: first :: (opts ++ [name, id])) ++ [intText n ++ ".m4s".toList] by simp, List.getLastD_concat]
    rw [this, intText_splitext]
  have hprov : provide s r now = provideMedia s r c' now := by
    unfold provide
    rw [hparts]
    simp only [List.drop_succ_cons, List.drop_zero, hpu]
    rw [if_pos d2]
  obtain ⟨t1, t2⟩ := pyTrunc_bounds h0
  obtain ⟨hiff, hserved⟩ := hw now t1 t2
  have hserve := serve_pass (u := u) (s := s) (sid := sid) (dflt := dflt) hgate
  rw [hprov] at hserve
  refine ⟨c', hpu, hses, hparts, hext, hserve, ?_, ?_⟩
  · intro hout
    rw [hserve]
    have hno := fun hc => hout (hiff.mp hc)
    unfold provideMedia
    cases hgm : getMedia s.pf c' now with
    | error e => exact (answer_refused _ _ _ _).2
    | ok o =>
      cases o with
      | media w => exact absurd ⟨w, hgm⟩ hno
      | _ => exact (answer_refused _ _ _ _).1
  · intro hin
    obtain ⟨w, hgm⟩ := hiff.mpr hin
    obtain ⟨w1, w2, -⟩ := hserved w hgm
    refine ⟨w, hgm, w1, w2, ?_⟩
    have hq : ∀ {α : Type} (f : Cfg → α), (f (service c') = f (service c)) := fun f => by rw [hses]
    have hwf : WellFormed c' := ⟨by rw [show c'.segDur = c.segDur from hq Cfg.segDur]; exact h.segDur,
      by rw [show c'.vodNr = c.vodNr from hq Cfg.vodNr]; exact h.vodNr,
      by rw [show c'.multiUrl = c.multiUrl from hq Cfg.multiUrl]; exact h.urls,
      by rw [show c'.tsbd = c.tsbd from hq Cfg.tsbd]; exact h.tsbd, by
        rw [show c'.stopTime = c.stopTime from hq Cfg.stopTime, show c'.mpdDur = c.mpdDur from hq Cfg.mpdDur]; exact h.stop⟩
    have hfor : c'.forNr n = c' := by
      unfold Cfg.forNr
      rw [← d6, ← d2]
    have hgm' : getMedia s.pf (c'.forNr n) now = .ok (.media w) := by rw [hfor]; exact hgm
    rw [served_eq hwf hgm']
    exact processUrl_emsg hpu

/-- What is sent once the server has decided to send the segment `n`. -/
theorem Opened.delivered {u : Setup} {s : Site} {base name : Text} {vod a : Xml} {ifile : Text} {x : Xml} {id : Text}
    {seg : Nat → TimedFragment} {v : VodCfg} {init : Bytes} {info : InitInfo} {first : Text} {opts : List Text} {file : Text}
    {r0 : Request} {t0 : Rat} {c : Cfg} {text : Bytes} (hO : Opened u s first opts name file r0 t0 c text)
    (hS : StoredRep base (s.files name) vod s.vodOf name a ifile x id seg) (hvod : s.vodOf name = .ok v)
    (hinit : (s.files name).file (id ++ '/' :: ifile) = some init) (hinfo : initInfo init = .ok info)
    (hroom : ∀ k : Nat, v.firstSeg ≤ k → (k : Int) < v.firstSeg + v.nrSegs → (seg k).Room) (hch : c.chunkDur = none)
    {r : Request} {n start : Int} {now : Rat} {c' : Cfg} {w : Served} (hget : r.range = none) (hext : r.ext = ".m4s".toList)
    (hses : service c' = service c)
    (hpu : processUrl s.pf s.vodOf (opts ++ [name, id, intText n ++ ".m4s".toList]) (pyTrunc now) = .ok c')
    (hgm : getMedia s.pf c' now = .ok (.media w)) (w1 : w.segNr = n) (w2 : w.segTime = start) (hem : w.emsgLast = false)
    (n0 : 0 ≤ n) (n1 : n < 2 ^ 32) (T0 : 0 ≤ start) (hsc : 0 < c.scte35 → n * c.segDur < 2 ^ 32)
    {k : Nat} (hk : (k : Int) = v.firstSeg + start / v.segDurS % v.nrSegs)
    {loops : Int} (hloops : loops = start / (v.segDurS * v.nrSegs))
    {T : Int} (hT : T = (seg k).time + loops * (v.segDurS * v.nrSegs) * info.timescale) (hT64 : T < 2 ^ 64) :
    (∃ head d, Delivers (answer u.agent u.notFound r (provideMedia s r c' now)) "video/iso.segment".toList
      (head ++ ((seg k).g.moved n T d).moof ++ boxesBytes (seg k).g.back)) ∧
    10 * |((seg v.firstSeg.toNat).time + (start / v.segDurS + 1) * v.segDurS * info.timescale) -
      (T + (seg k).duration info.defDur)| < info.timescale := by
  obtain ⟨v', reps, hv', -, d1, -, d6, d2, -, d3, d4, d5⟩ := processUrl_files hO.options hO.content hpu
  rw [hvod] at hv'
  cases hv'
  have hurl : ∃ opts file, (∀ p ∈ opts, (partSlot p).isSome) ∧
      processUrl s.pf s.vodOf (opts ++ [name, id, file]) (pyTrunc now) = .ok c' := ⟨opts, _, hO.options, hpu⟩
  have hq : ∀ {α : Type} (f : Cfg → α), (f (service c') = f (service c)) := fun f => by rw [hses]
  have q1 : c'.chunkDur = c.chunkDur := hq Cfg.chunkDur
  have q2 : c'.scte35 = c.scte35 := hq Cfg.scte35
  have q3 : c'.segDur = c.segDur := hq Cfg.segDur
  obtain ⟨init', info', f1, f2, f3⟩ := C79_sent_partial hS hurl hgm (by
      intro k a1 a2
      rw [d3] at a1 a2
      rw [d4] at a2
      exact hroom k a1 a2) (by rw [q1]; exact hch) (by rw [q2, q3, w1]; exact hsc)
      (stamp := makeTimestamp (pyTrunc now)) (by rw [hem]; intro hc; cases hc)
  rw [hinit] at f1
  cases f1
  rw [hinfo] at f2
  cases f2
  obtain ⟨init', info', k', rp', z, l1, l2, l3, -, -, -, l7, -, l9, l10, l11, l12, l13, -⟩ := live_decision hS hurl hgm
  rw [hinit] at l1
  cases l1
  rw [hinfo] at l2
  cases l2
  rw [w2, d3, d4, d5] at l12
  rw [w2, d4, d5] at l13
  rw [d5] at l10
  rw [d4] at l11
  have hkk : k' = k := by omega
  subst hkk
  have hTT : T = (seg k').time + w.offset * info.timescale := by rw [hT, l13, hloops]
  have hts : 0 < info.timescale := by
    have := abs_nonneg (((seg c'.vodFirst.toNat).time + (w.segTime / c'.segDur + 1) * c'.segDur * info.timescale) -
      (((seg k').time + w.offset * info.timescale) + (seg k').duration info.defDur) : Int)
    omega
  have hoff : 0 ≤ w.offset := by
    rw [l13]
    have : 0 < v.segDurS * v.nrSegs := Int.mul_pos l10 l11
    exact Int.mul_nonneg (Int.ediv_nonneg T0 this.le) this.le
  have hT0 : 0 ≤ T := by
    rw [hTT]
    have := Int.mul_nonneg hoff hts.le
    omega
  have hkn : w.vodNr.toNat = k' := by omega
  obtain ⟨body, hbody⟩ := f3.mpr (by
    rw [w1, hkn, ← hTT]
    exact ⟨n0, n1, hT0, hT64⟩)
  obtain ⟨init', info', k2, d, head, m1, m2, m3, -, -, -, m7, -⟩ := live_reply hS ⟨hurl, hgm, _, hbody⟩
  rw [hinit] at m1
  cases m1
  rw [hinfo] at m2
  cases m2
  have hk2 : k2 = k' := by omega
  subst hk2
  rw [w1, ← hTT] at m7
  refine ⟨⟨head, d, ?_⟩, ?_⟩
  · have hp : provideMedia s r c' now = .data body := by
      unfold provideMedia
      rw [hgm]
      dsimp only
      rw [d1, hbody]
    rw [hp, ← m7]
    have := answer_data u.agent u.notFound hget (b := body) (by rw [m7]; exact moof_ne_nil _ _ _)
    rw [hext] at this
    exact this
  · rw [w2, d3, d5, ← hTT] at l7
    exact l7

/-- **C80.** Content that the analyser accepted, served over HTTP: a client that got a manifest reads in it where the
segments are and when they are available.  Whatever segment of the representation it asks for by the URL that the manifest
gives, at a time at which the options still mean the same (always, if none is relative to the request time: `C94_any_time`): within the announced time the server answers 200 with a complete
media segment with this number, whose decode time is the one of the stored segment moved by whole loops, and which ends
within a tenth of a second of where the manifest says; outside the announced time it answers 404.
Missing: what C75, C78 and C79 leave out (timelines: C81, low latency: C92, ends of the service: C94, several BaseURLs, periods off
the grid, segments with several fragments); sessions with a limited length after their end (C93). -/
theorem C80_media_partial {u : Setup} {s : Site} {base name : Text} {vod a : Xml} {ifile : Text} {x : Xml} {id : Text}
    {seg : Nat → TimedFragment} {v : VodCfg} {rp : Rep} {init : Bytes} {info : InitInfo}
    -- the content, as the analyser left it
    (hS : StoredRep base (s.files name) vod s.vodOf name a ifile x id seg) (hslash : '/' ∉ id)
    (hvod : s.vodOf name = .ok v) (hrp : v.repInfo id = .ok rp)
    (hinit : (s.files name).file (id ++ '/' :: ifile) = some init) (hinfo : initInfo init = .ok info)
    (hroom : ∀ k : Nat, v.firstSeg ≤ k → (k : Int) < v.firstSeg + v.nrSegs → (seg k).Room)
    -- its manifest
    {file : Text} (hman : s.manifest name file = .ok vod) {infos rest : List Xml} {period : Xml}
    (hs : VodShape vod.kids infos none period rest) (hrb : ∀ x ∈ rest, x.tag ≠ "BaseURL".toList) (hr : VodRoot vod)
    (hv : VodPeriod v.segDurS period)
    (hmedia : ∀ t ∈ templates period, t.get "media".toList = some "$RepresentationID$/$Number$.m4s".toList)
    -- the client
    {first : Text} {opts : List Text} {r0 : Request} {t0 : Rat} {c : Cfg} {text : Bytes}
    (hO : Opened u s first opts name file r0 t0 c text)
    -- the service
    (h : Plain c) (htl : (c.segTimeline || c.segTimelineNr) = false) (hl : c.addLocation = false)
    (hm : c.multiUrl = []) (hdur : c.mpdDur = none) (hch : c.chunkDur = none) (hx : c.xlink ≤ 0) (had : c.insertAd ≤ 0)
    (hgrid : OnGrid c) (hpo : c.periodOffset < 0)
    (hato : fValue c.ato = c.ato) {tsbd : Int} (ht : c.tsbd = some tsbd) (hb : 0 ≤ tsbd)
    (hday : ∀ k : Nat, 0 < k → tsbd ≠ k * 86400) (hnow : 0 < c.periods → tsbd + v.segDurS ≤ pyTrunc t0) :
    ∃ out b, ReadsAs c vod r0 text out ∧ named "BaseURL" out = [b] ∧
      ∀ x ∈ named "Period" out, ∀ y ∈ named "AdaptationSet" x, ∀ t ∈ named "SegmentTemplate" y,
        ∃ m a depth, t.get "media".toList = some m ∧ ReadsNumbers out b x t a depth ∧
          ∀ n : Int, a.startNumber ≤ n →
          ∀ (r : Request) (time : Text), Asks r (b.text ++ fillTemplate id (intText n) time m) →
          ∀ (now : Rat), 0 ≤ now → Means s.pf s.vodOf (opts ++ [name, file]) (pyTrunc now) c →
          gate u.maxLen r now = .pass → ∀ (sid : Text) (dflt : Headers),
            (¬(a.availableFrom n ≤ now ∧ now ≤ a.availableFrom n + a.ato.getD 0 + a.duration + depth) →
              Refuses (serve u s sid dflt r now).1) ∧
            (a.availableFrom n ≤ now ∧ now ≤ a.availableFrom n + a.ato.getD 0 + a.duration + depth →
              0 ≤ n → n < 2 ^ 32 → 0 ≤ a.mediaStart n → (0 < c.scte35 → n * c.segDur < 2 ^ 32) →
              ∀ k : Nat, (k : Int) = v.firstSeg + a.mediaStart n / v.segDurS % v.nrSegs →
              ∀ loops : Int, loops = a.mediaStart n / (v.segDurS * v.nrSegs) →
              ∀ T : Int, T = (seg k).time + loops * (v.segDurS * v.nrSegs) * info.timescale → T < 2 ^ 64 →
                (∃ head d, Delivers (serve u s sid dflt r now).1 "video/iso.segment".toList
                  (head ++ ((seg k).g.moved n T d).moof ++ boxesBytes (seg k).g.back)) ∧
                10 * |((seg v.firstSeg.toNat).time + (a.mediaStart n / v.segDurS + 1) * v.segDurS * info.timescale) -
                  (T + (seg k).duration info.defDur)| < info.timescale) := by
  obtain ⟨e, out, hg, -, e1, e2, e3, -, -, hreads⟩ := hO.made hman hx had hm
  obtain ⟨-, -, s3⟩ := hO.slash
  obtain ⟨v', hv', -, -, -, c1, c2, c3⟩ := processUrl_manifest hO.options hO.content hO.means
  rw [hvod] at hv'
  cases hv'
  rw [← c3] at hv hnow
  obtain ⟨b, hb1, hall⟩ := C75_numbers_partial (pf := s.pf) (vodOf := s.vodOf) hs hrb hr hv hmedia hO.options hO.content s3 e1 e2 e3
    hvod h htl hl hm hdur hgrid hpo hato ht hb hday hnow hg
  have hplain := hS.analysed.ids a hS.set x hS.rep id hS.named
  refine ⟨out, b, hreads, hb1, ?_⟩
  intro x hx y hy t ht
  obtain ⟨m, a', depth, g1, g2, -, g3⟩ := hall x hx y hy t ht
  refine ⟨m, a', depth, g1, g2, ?_⟩
  intro n hn r time ha now h0 hu hgate sid dflt
  obtain ⟨c', hpu, hses, hparts, hext, hserve, hno, hyes⟩ := hO.followed h.wellFormed h0
    (g3 n hn (pyTrunc now) hu id time rp hslash (splitDivider_single hplain.single) hrp) ha hgate sid dflt
  obtain ⟨v', reps, hv', -, d1, -, d6, d2, -, d3, d4, d5⟩ := processUrl_files hO.options hO.content hpu
  rw [hvod] at hv'
  cases hv'
  refine ⟨hno, ?_⟩
  rw [hserve]
  · intro hin n0 n1 T0 hsc k hk loops hloops T hT hT64
    obtain ⟨w, hgm, w1, w2, hem⟩ := hyes hin
    exact hO.delivered hS hvod hinit hinfo hroom hch ha.2.1 hext hses hpu hgm w1 w2 hem n0 n1 T0 hsc hk hloops hT hT64

theorem mp4_ext : splitext "init.mp4".toList = ("init".toList, ".mp4".toList) := by decide +kernel

theorem liveInit_ne_nil {f : Forest} (h : f ≠ .nil) : f.liveInit.bytes ≠ [] := by
  unfold Forest.liveInit
  cases f with
  | nil => exact absurd rfl h
  | leaf ty p rest =>
    intro hc
    have := congrArg List.length hc
    simp only [Forest.mapInside, Forest.bytes, List.length_append, boxBytes_length, List.length_nil] at this
    omega
  | node ty kids rest =>
    intro hc
    have := congrArg List.length hc
    simp only [Forest.mapInside, Forest.bytes, List.length_append, boxBytes_length, List.length_nil] at this
    omega

/-- **C80, init.** The same client asks for the initialization segment by the URL that the manifest gives: from the
announced start of the service less the configured offset on the server answers 200 with the stored one in which the
durations are 0, before that 404.  The stored one is a sequence of boxes with complete headers. -/
theorem C80_init_partial {u : Setup} {s : Site} {base name : Text} {vod a : Xml} {x : Xml} {id : Text}
    {v : VodCfg} {rp : Rep} {f : Forest}
    -- the content, as the analyser left it
    (hA : Analysed base (s.files name) vod s.vodOf name) (ha : a ∈ adaptationSets vod)
    (hT : InitTemplate a "init.mp4".toList) (hx : x ∈ representations a) (hid : x.get "id".toList = some id)
    (hslash : '/' ∉ id) (hvod : s.vodOf name = .ok v) (hrp : v.repInfo id = .ok rp)
    (hfile : (s.files name).file (id ++ '/' :: "init.mp4".toList) = some f.bytes) (hok : InitOk f) (hne : f ≠ .nil)
    -- its manifest
    {file : Text} (hman : s.manifest name file = .ok vod) {infos rest : List Xml} {ownBase : Option Xml} {period : Xml}
    (hs : VodShape vod.kids infos ownBase period rest) (hrb : ∀ x ∈ rest, x.tag ≠ "BaseURL".toList) (hr : VodRoot vod)
    (hinit : ∀ t ∈ templates period, t.get "initialization".toList = some "$RepresentationID$/init.mp4".toList)
    -- the client
    {first : Text} {opts : List Text} {r0 : Request} {t0 : Rat} {c : Cfg} {text : Bytes}
    (hO : Opened u s first opts name file r0 t0 c text)
    -- the service
    (hd : 0 ≤ v.segDurS) (hb : ∀ t ∈ c.tsbd, 0 ≤ t) (hl : c.addLocation = false) (hm : c.multiUrl = [])
    (hxl : c.xlink ≤ 0) (had : c.insertAd ≤ 0) :
    ∃ out b ast, ReadsAs c vod r0 text out ∧ named "BaseURL" out = [b] ∧ TimeAttr out "availabilityStartTime" (some ast) ∧
      ∀ x ∈ named "Period" out, ∀ y ∈ named "AdaptationSet" x, ∀ t ∈ named "SegmentTemplate" y,
        ∃ m, t.get "initialization".toList = some m ∧
          ∀ (r : Request) (number time : Text), Asks r (b.text ++ fillTemplate id number time m) →
          ∀ (now : Rat), 0 ≤ now → Means s.pf s.vodOf (opts ++ [name, file]) (pyTrunc now) c →
          gate u.maxLen r now = .pass → ∀ (sid : Text) (dflt : Headers),
            (((ast - c.initOff : Int) : Rat) ≤ now →
              Delivers (serve u s sid dflt r now).1 "video/mp4".toList f.liveInit.bytes) ∧
            (now < ((ast - c.initOff : Int) : Rat) → Refuses (serve u s sid dflt r now).1) := by
  obtain ⟨e, out, hg, -, e1, e2, e3, -, -, hreads⟩ := hO.made hman hxl had hm
  obtain ⟨s1, s2, s3⟩ := hO.slash
  obtain ⟨v', hv', -, -, -, c1, c2, c3⟩ := processUrl_manifest hO.options hO.content hO.means
  rw [hvod] at hv'
  cases hv'
  obtain ⟨b, ast, hb1, hast, hall⟩ := C75_init_partial (pf := s.pf) (vodOf := s.vodOf) hs hrb hr hinit hO.options hO.content s3
    e1 e2 e3 hvod (by rw [c3]; exact hd) hb hl hm hg
  refine ⟨out, b, ast, hreads, hb1, hast, ?_⟩
  intro p hp y hy t ht
  obtain ⟨m, g1, g2⟩ := hall p hp y hy t ht
  refine ⟨m, g1, ?_⟩
  intro r number time hask now h0 hu hgate sid dflt
  have hplain := hA.ids a ha x hx id hid
  obtain ⟨c', hlead, hpu, -, -, hget⟩ := g2 (pyTrunc now) hu id number time rp hslash (splitDivider_single hplain.single) hrp
  have hparts := asks_parts s1 s2 hlead hask
  obtain ⟨v', reps, hv', -, d1, -, -, d2, -⟩ := processUrl_files hO.options hO.content hpu
  rw [mp4_ext] at d2
  have d2 : c'.ext = ".mp4".toList := d2
  have hext : r.ext = ".mp4".toList := by
    unfold Request.ext
    rw [hparts, show ([] :: first :: (opts ++ [name, id, "init.mp4".toList]) : List Text) =
      ([] :: first :: (opts ++ [name, id])) ++ ["init.mp4".toList] by simp, List.getLastD_concat, mp4_ext]
  have hprov : provide s r now = provideInit s r c' now := by
    unfold provide
    rw [hparts]
    simp only [List.drop_succ_cons, List.drop_zero, hpu]
    rw [if_neg (by rw [d2]; decide +kernel), if_neg (by rw [d2]; decide +kernel), if_pos d2]
  have hbody := C79_init_partial hA ha hT (by decide) hx hid hO.options hO.content hpu hfile hok
  rw [serve_pass hgate, hprov]
  unfold provideInit
  rw [hget now h0]
  constructor
  · intro hle
    rw [if_pos hle]
    dsimp only
    rw [d1, hbody]
    have := answer_data u.agent u.notFound hask.2.1 (b := f.liveInit.bytes) (liveInit_ne_nil hne)
    rw [hext] at this
    exact this
  · intro hlt
    rw [if_neg (not_le.mpr hlt)]
    exact (answer_refused _ _ _ _).1

/-! ### Case -/

/-- A server with `tinyContent`, without a limit for sessions. -/
def tinySite : Site where
  pf := examplePf
  vodOf := tinyVod
  files := fun _ => tinyFiles
  manifest := fun _ f => if f = "Manifest.mpd".toList then .ok tinyContent else .error .osError

def tinySetup : Setup := ⟨"agent".toList, [110], ⟨[1], [2], [3]⟩, 0⟩

def tinyGet (path : List String) : Request := { host := "h".toList, parts := [] :: path.map String.toList }

/-- Status, type and body of a reply. -/
def got (s : Site) (r : Request) (now : Rat) : Option (Nat × Option Text × Bytes) :=
  match (serve tinySetup s [] [] r now).1 with
  | .ok (rep, .whole b) => some (rep.status, getHeader rep.headers "Content-Type".toList, b)
  | _ => none

def tinyManifest : Request := tinyGet ["livesim", "tsbd_40", "tiny", "Manifest.mpd"]

/-- What the options of the manifest mean. -/
def tinyCfg : Cfg := (processUrl examplePf tinyVod ["tsbd_40".toList, "tiny".toList, "Manifest.mpd".toList] 100).toOption.getD {}

theorem got_ok {s : Site} {r : Request} {now : Rat} {x : Nat × Option Text × Bytes} (h : got s r now = some x) :
    ∃ rep, (serve tinySetup s [] [] r now).1 = .ok (rep, .whole x.2.2) ∧ rep.status = x.1 := by
  unfold got at h
  split at h
  · rename_i rep b hs
    cases h
    exact ⟨rep, hs, rfl⟩
  · cases h

theorem tiny_opened : ∃ text, Opened tinySetup tinySite "livesim".toList ["tsbd_40".toList] "tiny".toList
    "Manifest.mpd".toList tinyManifest 100 tinyCfg text := by
  have h : (got tinySite tinyManifest 100).map (fun x => (x.1, x.2.1)) = some (200, some "application/dash+xml".toList) := by
    decide +kernel
  obtain ⟨⟨n, ty, b⟩, hg, hx⟩ := Option.map_eq_some_iff.mp h
  cases hx
  obtain ⟨rep, h1, h2⟩ := got_ok hg
  refine ⟨b, ⟨"http://h/livesim/tsbd_40/tiny/Manifest.mpd".toList, ?_⟩, rfl, by decide +kernel, by decide +kernel,
    by decide +kernel, by decide +kernel, [], [], rep, h1, h2⟩
  exact ⟨by decide +kernel, rfl, "livesim/tsbd_40/tiny/Manifest.mpd".toList, by decide +kernel, by decide +kernel⟩

def tinyPeriod : Xml := .elem "Period".toList [] [] [tinySet "video" "$RepresentationID$/$Number$.m4s" fromOne ["V1"],
  tinySet "audio" "$RepresentationID$/$Number$.m4s" fromOne ["A1"]]

def tinyTable : VodCfg := (tinyVod "tiny".toList).toOption.getD ⟨0, 0, 0, 0, []⟩

theorem tiny_site_stored : StoredRep "tiny".toList (tinySite.files "tiny".toList) tinyContent tinySite.vodOf "tiny".toList
    (tinySet "video" "$RepresentationID$/$Number$.m4s" fromOne ["V1"]) "init.mp4".toList
    (.elem "Representation".toList [("id".toList, "V1".toList), ("bandwidth".toList, "9".toList)] [] []) "V1".toList tinySeg :=
  tiny_stored

theorem tiny_table : tinySite.vodOf "tiny".toList = .ok tinyTable := by
  show tinyVod "tiny".toList = _
  decide +kernel

/-- The values that the hypotheses are about. -/
theorem tiny_values :
    [tinyCfg.segDur, tinyCfg.vodNr, tinyCfg.periods, tinyCfg.insertAd, tinyCfg.xlink, tinyCfg.periodOffset,
      firstNumber tinyCfg] = [2, 3, -1, -1, -1, -1, 0] ∧
    (tinyCfg.ato = 0 ∧ tinyCfg.stopTime = none ∧ tinyCfg.lastNrs = [] ∧ tinyCfg.aet = none ∧ tinyCfg.multiUrl = [] ∧
      tinyCfg.tsbd = some 40 ∧ tinyCfg.timeoffset = none) ∧
    ((tinyCfg.segTimeline || tinyCfg.segTimelineNr) = false ∧ tinyCfg.addLocation = false) ∧ tinyCfg.mpdDur = none ∧
    tinyCfg.chunkDur = none ∧ tinyTable.segDurS = 2 ∧
    tinyTable.repInfo "V1".toList = .ok ⟨"V1".toList, "video".toList, 90000⟩ := by
  decide +kernel

theorem tiny_period : VodPeriod tinyTable.segDurS tinyPeriod := by
  have hd : tinyTable.segDurS = 2 := tiny_values.2.2.2.2.2.1
  rw [hd]
  refine ⟨by decide +kernel, by decide +kernel, by decide +kernel, ?_, by decide +kernel, ?_, by decide +kernel⟩
  · have : ∀ t ∈ templates tinyPeriod, t.get "timescale".toList = none := by decide +kernel
    intro t ht
    exact Or.inr ⟨this t ht, rfl⟩
  · have : ∀ t ∈ templates tinyPeriod, t.get "duration".toList = some "2".toList := by decide +kernel
    intro t ht
    exact ⟨"2".toList, this t ht, by decide +kernel⟩

theorem tiny_info : ∃ info, initInfo (infoInit false).bytes = .ok info := by
  have : (initInfo (infoInit false).bytes).isOk = true := by decide +kernel
  cases h : initInfo (infoInit false).bytes with
  | error e => rw [h] at this; cases this
  | ok i => exact ⟨i, rfl⟩

theorem tiny_shape : VodShape tinyContent.kids [] none tinyPeriod [] := ⟨rfl, by simp, by simp, by decide +kernel, by simp⟩

theorem tiny_root : VodRoot tinyContent := ⟨by decide +kernel, by decide +kernel, by decide +kernel, by decide +kernel⟩

theorem tiny_readable : Readable tinyCfg tinyContent tinyManifest :=
  ⟨by decide +kernel, by decide +kernel, by decide +kernel, by decide +kernel⟩

theorem tiny_manifest : tinySite.manifest "tiny".toList "Manifest.mpd".toList = .ok tinyContent := by
  show (if "Manifest.mpd".toList = "Manifest.mpd".toList then (.ok tinyContent : Py Xml) else .error .osError) = .ok tinyContent
  exact if_pos rfl

theorem tiny_init : (tinySite.files "tiny".toList).file ("V1".toList ++ '/' :: "init.mp4".toList) =
    some (infoInit false).bytes := by
  show tinyFiles.file _ = _
  decide +kernel

/-- `C80_media_partial` applies to a client of this server. -/
example : ∃ text out b, Opened tinySetup tinySite "livesim".toList ["tsbd_40".toList] "tiny".toList
      "Manifest.mpd".toList tinyManifest 100 tinyCfg text ∧
      (∃ t, text = utf8 t ∧ readXml t = some (treeEvents dashUri out)) ∧ named "BaseURL" out = [b] := by
  obtain ⟨text, hO⟩ := tiny_opened
  obtain ⟨info, hinfo⟩ := tiny_info
  obtain ⟨v1, v2, v3, v4, v5, v6⟩ := tiny_values
  simp only [List.cons.injEq, and_true] at v1
  obtain ⟨a1, a2, a3, a4, a5, a6, a7⟩ := v1
  obtain ⟨b1, b2, b3, b4, b5, b6, b7⟩ := v2
  obtain ⟨c1, c3⟩ := v3
  obtain ⟨d1, hrp⟩ := v6
  have hplain : Plain tinyCfg := ⟨by omega, by omega, by rw [b1], b2, b3, b4, by rw [b5]; decide, by rw [b6]; rfl⟩
  have hgrid : OnGrid tinyCfg := ⟨by rw [b7]; simp, Or.inl ⟨a3, by omega, fun _ => b7, by omega⟩⟩
  have hato : fValue tinyCfg.ato = tinyCfg.ato := by rw [b1]; decide +kernel
  have h11 : 40 + tinyTable.segDurS ≤ pyTrunc 100 := by rw [d1]; decide +kernel
  have h12 : ∀ t ∈ templates tinyPeriod, t.get "media".toList = some "$RepresentationID$/$Number$.m4s".toList := by
    decide +kernel
  obtain ⟨out, b, g1, g2, -⟩ := C80_media_partial tiny_site_stored (by decide +kernel) tiny_table hrp tiny_init hinfo
    (fun k _ _ => tinyTimed_room (by decide)) tiny_manifest tiny_shape (by simp) tiny_root tiny_period h12 hO hplain
    c1 c3 b5 v4 v5 (by omega) (by omega) hgrid (by omega) hato b6 (by decide) (by intro k hk; omega) (fun _ => h11)
  obtain ⟨t, ht, hread⟩ := g1
  exact ⟨text, out, b, hO, ⟨t, ht, hread tiny_readable⟩, g2⟩

/-- Its options mean the same a quarter of an hour later. -/
example : processUrl examplePf tinyVod ["tsbd_40".toList, "tiny".toList, "Manifest.mpd".toList] 1000 = .ok tinyCfg := by
  decide +kernel

/-- Segment 47 is sent at 100 s, segment 50 is not there yet, segment 10 is no longer. -/
example : got tinySite (tinyGet ["livesim", "tsbd_40", "tiny", "V1", "47.m4s"]) 100 =
      some (200, some "video/iso.segment".toList, tinySegment 47 8460000 180000) ∧
    (got tinySite (tinyGet ["livesim", "tsbd_40", "tiny", "V1", "50.m4s"]) 100).map (·.1) = some 404 ∧
    (got tinySite (tinyGet ["livesim", "tsbd_40", "tiny", "V1", "10.m4s"]) 100).map (·.1) = some 404 := by
  decide +kernel

/-- A server with content whose initialization segment has complete headers (`wholeInit`, which meets the hypotheses of
`C80_init_partial`, see the example at `C79_init_partial`). -/
def wholeSite : Site := { tinySite with
  files := fun _ => wholeFiles
  vodOf := vodAfter "tiny".toList wholeFiles shortContent
  manifest := fun _ f => if f = "Manifest.mpd".toList then .ok shortContent else .error .osError }

/-- A client of a service that starts at 200 s and gives out initialization segments 10 s before: the manifest is there at
150 s, the initialization segment at 190 s, not at 189 s, and not as it is stored. -/
example : (got wholeSite (tinyGet ["livesim", "start_200", "init_10", "tiny", "Manifest.mpd"]) 150).map (·.1) = some 200 ∧
    got wholeSite (tinyGet ["livesim", "start_200", "init_10", "tiny", "V1", "init.mp4"]) 190 =
      some (200, some "video/mp4".toList, wholeInit.liveInit.bytes) ∧
    (got wholeSite (tinyGet ["livesim", "start_200", "init_10", "tiny", "V1", "init.mp4"]) 189).map (·.1) = some 404 ∧
    wholeInit.liveInit.bytes ≠ wholeInit.bytes := by
  decide +kernel

end Verif
