import Verif.Props.MpdClock
import Verif.Props.MpdLinks
import Verif.Props.Periods
/-
C73: the messages that the manifest announces.
-/
namespace Verif
open Spec

theorem announced_append (x : Xml) (a b : List Xml) :
    announced (x.setKids (a ++ b)) = announced (x.setKids a) ++ announced (x.setKids b) := by
  unfold announced
  rw [named_append, List.map_append]

theorem announced_nil (x : Xml) {a : List Xml} (h : ∀ y ∈ a, y.tag ≠ "InbandEventStream".toList) :
    announced (x.setKids a) = [] := by
  unfold announced
  rw [named_nil x h]
  rfl

theorem announced_one (x : Xml) (uri : Text) {value : Text} (hv : value ≠ []) :
    announced (x.setKids [descriptor "InbandEventStream".toList uri value]) = [(some uri, some value)] := by
  obtain ⟨h1, h2⟩ := descriptor_get "InbandEventStream".toList uri hv
  unfold announced
  rw [named_all]
  · rw [List.map_cons, h1, h2]; rfl
  · intro y hy
    rw [List.mem_singleton.1 hy]
    rfl

/-- The announcements the service asks for. -/
def specAnnounced (scte last : Bool) (ctype : Option Text) : List (Option Text × Option Text) :=
  (if ctype = some "video".toList ∧ scte = true then
    [(some "urn:scte:scte35:2013:xml".toList, some "999".toList)] else []) ++
  (if last = true then [(some "urn:mpeg:dash:event:2012".toList, some "1".toList)] else [])

theorem announced_new (p : ProcCfg) (last : Option Text) (ctype : Option Text) (x : Xml) :
    announced (x.setKids (adSetNew p last ctype)) = specAnnounced p.scte35 p.emsgLast ctype := by
  unfold adSetNew
  dsimp only
  have k1 : announced (x.setKids (if p.ll.isSome then [producerReference] else [])) = [] := by
    apply announced_nil
    intro y hy
    split at hy
    · rw [List.mem_singleton.1 hy]; decide +kernel
    · cases hy
  have k2 : ∀ l, announced (x.setKids [descriptor "SupplementalProperty".toList
      "urn:mpeg:dash:period_continuity:2014".toList l]) = [] := by
    intro l
    apply announced_nil
    intro y hy
    rw [List.mem_singleton.1 hy]
    show "SupplementalProperty".toList ≠ _
    decide +kernel
  have k3 : announced (x.setKids []) = [] := announced_nil _ (fun y hy => by cases hy)
  rw [announced_append, announced_append, announced_append, k1]
  have k4 : ∀ A B : List (Option Text × Option Text), A ++ [] ++ [] ++ B = A ++ B := by simp
  have k5 : announced (x.setKids (if ctype = some "video".toList ∧ p.scte35 = true then
      [descriptor "InbandEventStream".toList "urn:scte:scte35:2013:xml".toList "999".toList] else [])) ++
      announced (x.setKids (if p.emsgLast then
        [descriptor "InbandEventStream".toList "urn:mpeg:dash:event:2012".toList "1".toList] else [])) =
      specAnnounced p.scte35 p.emsgLast ctype := by
    unfold specAnnounced
    congr 1
    · split
      · exact announced_one _ _ (by decide +kernel)
      · exact k3
    · split
      · exact announced_one _ _ (by decide +kernel)
      · exact k3
  cases p.continuous <;> cases last <;> simp only [k2, k3, k4] <;> exact k5

theorem adSetStep_announced {p : ProcCfg} {d : MpdData} {pd : PeriodData} {last : Option Text} {g g' : Gens}
    {x x' : Xml} (h : adSetStep p d pd last g x = .ok (x', g')) (hx : announced x = []) :
    announced x' = specAnnounced p.scte35 p.emsgLast (x'.get "contentType".toList) := by
  obtain ⟨kids, rfl, hm⟩ := adSetStep_shape h
  have e : announced (x.setKids kids) = [] := by
    unfold announced at hx ⊢
    rw [hm.named_ne (t := "InbandEventStream") (by decide +kernel)
      (fun s x x' s' h => templateKept_tag _ _ _ (templateStep_kept h)), Xml.setKids_kids]
    exact hx
  rw [announced_append, announced_new, e, List.append_nil, Xml.get_setKids]

theorem PeriodRun.announced {p : ProcCfg} {d : MpdData} {cb : Option Text} {period : Xml} {last : Option Text}
    {g : Gens} {pds : List PeriodData} {ps : List Xml}
    (hp : ∀ a ∈ named "AdaptationSet" period, Spec.announced a = [])
    (h : PeriodRun p d cb period last g pds ps) :
    ∀ x ∈ ps, ∀ a ∈ named "AdaptationSet" x,
      Spec.announced a = specAnnounced p.scte35 p.emsgLast (a.get "contentType".toList) := by
  induction h with
  | nil => intro x hx; cases hx
  | @cons last g g' pd rest x xs h _ ih =>
    obtain ⟨new, kids, g', hn, rfl, -, hm⟩ := periodStep_shape h
    intro x hx
    rcases List.mem_cons.1 hx with rfl | hx
    · intro a ha
      have hat := mem_named ha
      have ha := (List.mem_filter.1 ha).1
      rw [Xml.kids_setKids, List.mem_append] at ha
      rcases ha with ha | ha
      · have := periodNew_tag hn a ha
        rw [hat] at this
        exact absurd this (by decide +kernel)
      · rcases hm.mem a ha with ⟨-, hne⟩ | ⟨b, hb, htb, s1, s2, hf⟩
        · exact absurd hat hne
        · exact adSetStep_announced hf (hp b (named_mem hb htb))
    · exact ih x hx

/-- **C73.** Every adaptation set of the live manifest announces exactly the messages that its segments can have: splice
information in the video of a service with `scte35_`, and the end of the service when it is announced.
(The VoD manifest announces no messages.) -/
theorem C73_announced {c : Cfg} {e : MpdEnv} {now : Int} {vod out : Xml} {infos rest : List Xml}
    {base : Option Xml} {period : Xml} (hs : VodShape vod.kids infos base period rest)
    (hp : ∀ a ∈ named "AdaptationSet" period, announced a = []) (hd : 0 ≤ c.segDur)
    (hb : ∀ t ∈ c.tsbd, 0 ≤ t) (h : generateXml c e now vod = .ok out) :
    ∀ x ∈ named "Period" out, ∀ a ∈ named "AdaptationSet" x,
      announced a = specAnnounced (decide (0 < c.scte35)) c.emsgLastSeg (a.get "contentType".toList) := by
  obtain ⟨m⟩ := generateXml_parts hs hd hb h
  rw [m.periods hs]
  exact m.hps.announced hp

/-- C73: the live manifest of a service with splice information announces it in the video and not in the audio. -/
example : VodShape (sampleVod [samplePeriod]).kids [] none samplePeriod [] ∧
    (∀ a ∈ named "AdaptationSet" samplePeriod, announced a = []) ∧
    (generateXml { sampleCfg with scte35 := 1 } sampleEnv 1000000 (sampleVod [samplePeriod])).toOption.map
      (fun x => ((named "Period" x).take 1).flatMap fun p => (named "AdaptationSet" p).map announced) =
      some [[], [(some "urn:scte:scte35:2013:xml".toList, some "999".toList)]] := by
  refine ⟨⟨rfl, ?_, ?_, rfl, ?_⟩, by decide +kernel, by decide +kernel⟩ <;> intro x hx <;> cases hx

/-! ### Callbacks -/

theorem periodNew_stream {d : MpdData} {u : Text} {cb : Option Text} {pd : PeriodData} {new : List Xml}
    (hcb : cb = some u) (h : periodNew d cb pd = .ok new) :
    new.filter (fun z => z.tag = "EventStream".toList) = if pd.callback then [callbackElem u] else [] := by
  have n1 : ¬"SegmentBase".toList = "EventStream".toList := by decide +kernel
  subst hcb
  unfold periodNew at h
  dsimp only at h
  by_cases hq : (d.ptoText ∨ pd.pto ≠ 0) ∧ d.offsetAtPeriod
  · rw [if_pos hq] at h
    cases hc : pd.callback with
    | false =>
      rw [hc, if_neg (by decide)] at h; cases h
      simp only [List.filter_cons, Xml.tag, n1, List.filter_nil]; simp
    | true =>
      rw [hc, if_pos rfl] at h
      cases h; simp only [callbackElem, List.filter_cons, Xml.tag, n1, List.filter_nil]; simp
  · rw [if_neg hq] at h
    cases hc : pd.callback with
    | false => rw [hc, if_neg (by decide)] at h; cases h; rfl
    | true =>
      rw [hc, if_pos rfl] at h
      cases h; simp only [callbackElem, List.filter_cons, Xml.tag, List.filter_nil]; simp

theorem split_first {a b : Text} (ha : '/' ∉ a) : splitChar '/' (a ++ '/' :: b) = a :: splitChar '/' b := by
  rw [splitChar_append, splitChar_noSep (fun x hx e => ha (by rw [← e]; exact hx))]
  rfl

theorem MpdParts.callback {c : Cfg} {e : MpdEnv} {now : Int} {vod out : Xml} {infos rest : List Xml}
    {base : Option Xml} {period : Xml} (hs : VodShape vod.kids infos base period rest)
    (hr : ∀ x ∈ rest, x.tag ≠ "BaseURL".toList)
    (m : MpdParts c e now vod infos base period rest out) {b : Xml} (hb : named "BaseURL" out = [b]) :
    m.cb = callbackUrl [b] := by
  have ht : b.tag = "BaseURL".toList := mem_named (tag := "BaseURL") (x := out) (by rw [hb]; exact List.mem_singleton.2 rfl)
  rw [m.bases hs hr] at hb
  rw [m.hcb, hb]
  unfold callbackUrl
  rw [List.find?_append, List.find?_eq_none.2 (fun y hy => ?_)]
  · simp [ht]
  · rw [hs.infos y hy]; decide +kernel

/-- **C73.** A service with several periods on `proto//host/dir/`: a period has a callback exactly when `mpdcallback_` asks for
it, that is in every `n`-th period, so that there are as many callbacks in an hour as asked for; it is an event with the URL
`proto//host/dir/mpdcallback/`.
Missing: services with a Location (`C65_callback_violation`) or with several BaseURLs, and that the server answers the URL
(`C73_handler_violation`). -/
theorem C73_callbacks_partial {c : Cfg} {e : MpdEnv} {now : Int} {vod out : Xml} {infos rest : List Xml}
    {base : Option Xml} {period : Xml} (hs : VodShape vod.kids infos base period rest)
    (hr : ∀ x ∈ rest, x.tag ≠ "BaseURL".toList) (hp : named "EventStream" period = [])
    (hn : 0 < c.periods) (hd : 0 < c.segDur) (hb : ∀ t ∈ c.tsbd, 0 ≤ t) {opts more : List Text} {name : Text}
    (hparts : e.parts = opts ++ name :: more) (hpos : e.pos = opts.length) {proto host dir : Text}
    (h1 : '/' ∉ proto) (h2 : '/' ∉ host) (h3 : '/' ∉ dir)
    (hstart : e.start = proto ++ "//".toList ++ host ++ '/' :: dir ++ "/".toList)
    (hl : c.addLocation = false) (hm : c.multiUrl = []) (h : generateXml c e now vod = .ok out) :
    ∀ x ∈ named "Period" out, ∃ nr : Int, x.get "id".toList = some ('p' :: intText nr) ∧
      if 0 < c.mpdCallback ∧ min c.periods 60 / min c.mpdCallback 60 ∣ nr then
        ∃ y v, named "EventStream" x = [y] ∧ y.get "schemeIdUri".toList = some "urn:mpeg:dash:event:callback:2015".toList ∧
          y.kids = [v] ∧ v.tag = "Event".toList ∧
          v.get "messageData".toList = some (proto ++ "//".toList ++ host ++ '/' :: dir ++ "/mpdcallback/".toList)
      else named "EventStream" x = [] := by
  obtain ⟨b, hb1, hb2⟩ := base_text hs hr hd.le hb hparts hpos hstart hl hm h
  obtain ⟨m⟩ := generateXml_parts hs hd.le hb h
  have hcb : m.cb = some (proto ++ "//".toList ++ host ++ '/' :: dir ++ "/mpdcallback/".toList) := by
    rw [m.callback hs hr hb1]
    have ht : b.tag = "BaseURL".toList := mem_named (tag := "BaseURL") (x := out) (by rw [hb1]; exact List.mem_singleton.2 rfl)
    have hsplit : splitChar '/' b.text = proto :: [] :: host :: dir :: splitChar '/' (joinSlash (opts ++ [name]) ++ "/".toList) := by
      rw [hb2, ← split_first h3, ← split_first h2, ← split_first (a := []) (by simp), ← split_first h1]
      simp
    unfold callbackUrl
    rw [List.find?_cons_of_pos (by simpa using ht)]
    dsimp only
    rw [hsplit]
  intro x hx
  rw [m.periods hs] at hx
  obtain ⟨pd, hpd, rst, last, g, s', hstep⟩ := m.hps.all x hx
  obtain ⟨new, kids, g', hnew, rfl, -, hmap⟩ := periodStep_shape hstep
  obtain ⟨i, hi, rfl⟩ := List.getElem_of_mem hpd
  obtain ⟨-, hall⟩ := periodData_ok hn hd m.htsbd m.hpds
  obtain ⟨f, -⟩ := hall i hi
  refine ⟨(now - m.tsbd - c.segDur) / periodLen c + i, ?_, ?_⟩
  · rw [Xml.get_setKids, periodAttrs_id]
    unfold periodId
    rw [f.id]
  · have hk : named "EventStream" ((periodAttrs m.pds[i] period).setKids (new ++ kids)) =
        if m.pds[i].callback then [callbackElem (proto ++ "//".toList ++ host ++ '/' :: dir ++ "/mpdcallback/".toList)]
        else [] := by
      rw [named_append]
      have e2 : named "EventStream" ((periodAttrs m.pds[i] period).setKids kids) = [] := by
        rw [hmap.named_ne (t := "EventStream") (by decide +kernel)
          (fun s x x' s' h => by obtain ⟨k, rfl, -⟩ := adSetStep_shape h; exact Xml.tag_setKids _ _)]
        unfold named at hp ⊢
        rw [Xml.kids_setKids]
        exact hp
      rw [e2, List.append_nil, ← periodNew_stream hcb hnew]
      unfold named
      rw [Xml.kids_setKids]
    rw [hk, f.callback]
    by_cases hc : 0 < c.mpdCallback ∧ min c.periods 60 / min c.mpdCallback 60 ∣
        (now - m.tsbd - c.segDur) / periodLen c + i
    · rw [if_pos hc, if_pos (by simpa using hc)]
      refine ⟨_, _, rfl, ?_, rfl, rfl, ?_⟩ <;> rfl
    · rw [if_neg hc, if_neg (by simpa using hc)]

/-- C73: a service with periods of one minute and a callback in every second one. -/
example : VodShape (sampleVod [samplePeriod]).kids [] none samplePeriod [] ∧ named "EventStream" samplePeriod = [] ∧
    sampleEnv.parts = ["periods_60".toList] ++ "testpic".toList :: ["Manifest.mpd".toList] ∧ sampleEnv.pos = 1 ∧
    sampleEnv.start = "http:".toList ++ "//".toList ++ "h".toList ++ '/' :: "livesim".toList ++ "/".toList ∧
    (generateXml { sampleCfg with mpdCallback := 30 } sampleEnv 1000000 (sampleVod [samplePeriod])).toOption.map
      (fun x => (named "Period" x).map fun p => (p.get "id".toList, (named "EventStream" p).flatMap fun y => y.kids.map
        fun v => v.get "messageData".toList)) =
      some [(some "p16661".toList, []), (some "p16662".toList, [some "http://h/livesim/mpdcallback/".toList]),
        (some "p16663".toList, []), (some "p16664".toList, [some "http://h/livesim/mpdcallback/".toList]),
        (some "p16665".toList, []), (some "p16666".toList, [some "http://h/livesim/mpdcallback/".toList]),
        (some "p16667".toList, [])] := by
  refine ⟨⟨rfl, ?_, ?_, rfl, ?_⟩, by decide +kernel, rfl, rfl, by decide +kernel, by decide +kernel⟩ <;>
    intro x hx <;> cases hx

end Verif
