import Verif.Props.MpdRefine
import Verif.Spec.ManifestParts
/-
C64: the clocks of the manifest; C66: continuity of its periods.
-/
namespace Verif
open Spec

theorem descriptor_get (name uri : Text) {value : Text} (hv : value ≠ []) :
    (descriptor name uri value).get "schemeIdUri".toList = some uri ∧
    (descriptor name uri value).get "value".toList = some value := by
  have n1 : ¬"schemeIdUri".toList = "value".toList := by decide +kernel
  unfold descriptor Xml.get Xml.attrs
  rw [if_neg hv]
  simp only [List.find?_cons, n1]
  simp

theorem utcElem_says {p : ProcCfg} {m : Text} {u : Xml} (hd : p.direct ≠ []) (hh : p.utcHead ≠ [])
    (h : utcElem p m = .ok u) : UtcSays p.direct p.utcHead m u := by
  refine ⟨utcElem_tag h, ?_⟩
  unfold utcElem at h
  split at h
  · rename_i e; cases h; subst e
    obtain ⟨h1, h2⟩ := descriptor_get "UTCTiming".toList "urn:mpeg:dash:utc:direct:2014".toList hd
    exact ⟨("direct", "urn:mpeg:dash:utc:direct:2014"), by decide +kernel, rfl, h1, _, h2, by simp, by simp,
      by simp, by simp⟩
  · split at h
    · rename_i e; cases h; subst e
      obtain ⟨h1, h2⟩ := descriptor_get "UTCTiming".toList "urn:mpeg:dash:utc:http-head:2014".toList hh
      exact ⟨("head", "urn:mpeg:dash:utc:http-head:2014"), by decide +kernel, rfl, h1, _, h2, by simp, by simp,
        by simp, by simp⟩
    · split at h
      · rename_i e; cases h; subst e
        obtain ⟨h1, h2⟩ := descriptor_get "UTCTiming".toList "urn:mpeg:dash:utc:ntp:2014".toList
          (value := ntpServer) (by decide +kernel)
        exact ⟨("ntp", "urn:mpeg:dash:utc:ntp:2014"), by decide +kernel, rfl, h1, _, h2, by simp, by simp,
          fun _ => by decide +kernel, by simp⟩
      · split at h
        · rename_i e; cases h; subst e
          obtain ⟨h1, h2⟩ := descriptor_get "UTCTiming".toList "urn:mpeg:dash:utc:sntp:2014".toList
            (value := sntpServer) (by decide +kernel)
          exact ⟨("sntp", "urn:mpeg:dash:utc:sntp:2014"), by decide +kernel, rfl, h1, _, h2, by simp, by simp,
            fun _ => by decide +kernel, by simp⟩
        · split at h
          · rename_i e; cases h; subst e
            obtain ⟨h1, h2⟩ := descriptor_get "UTCTiming".toList "urn:mpeg:dash:utc:http-xsdate:2014".toList
              (value := httpTime) (by decide +kernel)
            exact ⟨("httpxsdate", "urn:mpeg:dash:utc:http-xsdate:2014"), by decide +kernel, rfl, h1, _, h2,
              by simp, by simp, by simp, fun _ => by decide +kernel⟩
          · split at h
            · rename_i e; cases h; subst e
              obtain ⟨h1, h2⟩ := descriptor_get "UTCTiming".toList "urn:mpeg:dash:utc:http-iso:2014".toList
                (value := httpTime) (by decide +kernel)
              exact ⟨("httpiso", "urn:mpeg:dash:utc:http-iso:2014"), by decide +kernel, rfl, h1, _, h2,
                by simp, by simp, by simp, fun _ => by decide +kernel⟩
            · cases h

/-- The UTCTiming elements of the manifest. -/
theorem MpdParts.clocks {c : Cfg} {e : MpdEnv} {now : Int} {vod out : Xml} {infos rest : List Xml}
    {base : Option Xml} {period : Xml} (hs : VodShape vod.kids infos base period rest)
    (hr : ∀ x ∈ rest, x.tag ≠ "UTCTiming".toList)
    (m : MpdParts c e now vod infos base period rest out) : named "UTCTiming" out = m.us := by
  refine (congrArg (named "UTCTiming") m.hout).trans ?_
  rw [named_append, named_append, named_append, named_append, named_append, named_append,
    named_nil _ (fun y hy => by rw [hs.infos y hy]; decide +kernel),
    named_nil _ (fun y hy => by rw [newBases_tag hs.base m.hbs y hy]; decide +kernel),
    named_nil _ (fun y hy => by rw [newLocs_tag m.hls y hy]; decide +kernel),
    named_nil _ (fun y hy => by rw [newServices_tag _ y hy]; decide +kernel),
    named_nil _ (fun y hy => by rw [m.hps.tags y hy, hs.period]; decide +kernel),
    named_all _ (fun y hy => utc_tags m.hus y hy),
    named_nil _ hr]
  simp

/-- **C64.** The manifest has exactly the clocks that the URL asks for, in that order; in a
low-latency service that asks for none it has one, with HTTP in ISO format.  A request for an
unknown method gets no manifest. -/
theorem C64_clocks {c : Cfg} {e : MpdEnv} {now : Int} {vod out : Xml} {infos rest : List Xml}
    {base : Option Xml} {period : Xml} (hs : VodShape vod.kids infos base period rest)
    (hr : ∀ x ∈ rest, x.tag ≠ "UTCTiming".toList) (hd : 0 ≤ c.segDur) (hb : ∀ t ∈ c.tsbd, 0 ≤ t)
    (he : e.direct ≠ []) (hh : e.utcHead ≠ []) (h : generateXml c e now vod = .ok out) :
    List.Forall₂ (UtcSays e.direct e.utcHead)
      (if c.utc = [] ∧ (∃ x, c.chunkDur = some x ∧ 0 < x) then ["httpiso".toList] else c.utc)
      (named "UTCTiming" out) := by
  obtain ⟨m⟩ := generateXml_parts hs hd hb h
  rw [m.clocks hs hr]
  have hu : (procCfgOf c e m.tsbd now).utc =
      if c.utc = [] ∧ (∃ x, c.chunkDur = some x ∧ 0 < x) then ["httpiso".toList] else c.utc := by
    show (match c.chunkDur with
      | some x => if 0 < x ∧ c.utc = [] then ["httpiso".toList] else c.utc
      | none => c.utc) = _
    cases hc : c.chunkDur with
    | none => rw [if_neg (fun h => by obtain ⟨-, x, h, -⟩ := h; cases h)]
    | some x =>
      dsimp only
      by_cases hq : 0 < x ∧ c.utc = []
      · rw [if_pos hq, if_pos ⟨hq.2, x, rfl, hq.1⟩]
      · rw [if_neg hq, if_neg]
        rintro ⟨h1, y, h2, h3⟩
        cases h2
        exact hq ⟨h3, h1⟩
  rw [← hu]
  exact List.Forall₂.imp (fun a b h => utcElem_says he hh h) m.hus

/-- **C64.** A request with an unknown clock gets no manifest. -/
theorem C64_unknown {c : Cfg} {e : MpdEnv} {now : Int} {vod : Xml} {infos rest : List Xml}
    {base : Option Xml} {period : Xml} (hs : VodShape vod.kids infos base period rest)
    (hd : 0 ≤ c.segDur) (hb : ∀ t ∈ c.tsbd, 0 ≤ t) {u : Text} (hu : u ∈ c.utc)
    (hn : ∀ m ∈ utcSchemes, m.1.toList ≠ u) : ∀ out, generateXml c e now vod ≠ .ok out := by
  intro out h
  obtain ⟨m⟩ := generateXml_parts hs hd hb h
  have hm : u ∈ (procCfgOf c e m.tsbd now).utc := by
    show u ∈ (match c.chunkDur with
      | some x => if 0 < x ∧ c.utc = [] then ["httpiso".toList] else c.utc
      | none => c.utc)
    cases c.chunkDur with
    | none => exact hu
    | some x =>
      dsimp only
      rw [if_neg (fun h => by rw [h.2] at hu; cases hu)]
      exact hu
  have : ∃ y, utcElem (procCfgOf c e m.tsbd now) u = .ok y := by
    have h2 := m.hus
    generalize m.us = us at h2
    generalize (procCfgOf c e m.tsbd now).utc = us' at h2 hm
    induction h2 with
    | nil => cases hm
    | cons h0 _ ih =>
      rcases List.mem_cons.1 hm with rfl | hm
      · exact ⟨_, h0⟩
      · exact ih hm
  obtain ⟨y, hy⟩ := this
  have k : ∀ s : String, s ∈ utcSchemes.map (·.1) → u ≠ s.toList := by
    intro s hs' e
    obtain ⟨m, hm, rfl⟩ := List.mem_map.1 hs'
    exact hn m hm e.symm
  unfold utcElem at hy
  rw [if_neg (k "direct" (by decide +kernel)), if_neg (k "head" (by decide +kernel)),
    if_neg (k "ntp" (by decide +kernel)), if_neg (k "sntp" (by decide +kernel)),
    if_neg (k "httpxsdate" (by decide +kernel)), if_neg (k "httpiso" (by decide +kernel))] at hy
  cases hy

/-- C64: two clocks. -/
example : ((generateXml { sampleCfg with utc := ["head".toList, "ntp".toList] }
      { sampleEnv with utcHead := "http://h/dash/time.txt".toList } 1000000 (sampleVod [samplePeriod])).toOption.map
    fun x => (named "UTCTiming" x).map (·.attrs)) =
    some [[("schemeIdUri".toList, "urn:mpeg:dash:utc:http-head:2014".toList),
        ("value".toList, "http://h/dash/time.txt".toList)],
      [("schemeIdUri".toList, "urn:mpeg:dash:utc:ntp:2014".toList), ("value".toList, "1.de.pool.ntp.org".toList)]] := by
  decide +kernel

/-! ### Continuity -/

theorem continues_append (x : Xml) (a b : List Xml) :
    continues (x.setKids (a ++ b)) = continues (x.setKids a) ++ continues (x.setKids b) := by
  unfold continues
  rw [named_append, List.filter_append, List.map_append]

theorem continues_nil (x : Xml) {a : List Xml} (h : ∀ y ∈ a, y.tag ≠ "SupplementalProperty".toList) :
    continues (x.setKids a) = [] := by
  unfold continues
  rw [named_nil x h]
  rfl

theorem continues_new (p : ProcCfg) (last : Option Text) (ctype : Option Text) (x : Xml)
    (hl : ∀ l ∈ last, l ≠ []) :
    continues (x.setKids (adSetNew p last ctype)) = if p.continuous then (last.map some).toList else [] := by
  unfold adSetNew
  dsimp only
  have k1 : ∀ (b : Bool) (y : Xml), y.tag ≠ "SupplementalProperty".toList →
      continues (x.setKids (if b then [y] else [])) = [] := by
    intro b y hy
    apply continues_nil
    intro z hz
    cases b with
    | false => cases hz
    | true => rw [List.mem_singleton.1 hz]; exact hy
  have k2 : ∀ (b : Prop) [Decidable b] (y : Xml), y.tag ≠ "SupplementalProperty".toList →
      continues (x.setKids (if b then [y] else [])) = [] := by
    intro b _ y hy
    have := k1 (decide b) y hy
    simpa using this
  rw [continues_append, continues_append, continues_append, k2 _ _ (by decide +kernel),
    k1 _ _ (by decide +kernel), k1 _ _ (by decide +kernel)]
  simp only [List.nil_append, List.append_nil]
  cases hc : p.continuous with
  | false => exact continues_nil _ (fun y hy => by cases hy)
  | true =>
    cases last with
    | none => exact continues_nil _ (fun y hy => by cases hy)
    | some l =>
      obtain ⟨h1, h2⟩ := descriptor_get "SupplementalProperty".toList
        "urn:mpeg:dash:period_continuity:2014".toList (hl l rfl)
      unfold continues
      rw [named_all]
      · dsimp only
        rw [List.filter_cons_of_pos (by rw [h1]; exact decide_eq_true rfl), List.filter_nil, List.map_cons, h2]
        rfl
      · intro y hy
        rw [List.mem_singleton.1 hy]
        rfl

/-- A loop over the elements with one tag keeps those with another. -/
theorem MapTag.named_ne {σ : Type} {tag : Text} {f : σ → Xml → Py (Xml × σ)} {s s' : σ} {xs ys : List Xml}
    {t : String} (h : MapTag tag f s xs ys s') (ht : tag ≠ t.toList)
    (hf : ∀ s x x' s', f s x = .ok (x', s') → x'.tag = x.tag) (a : Xml) :
    named t (a.setKids ys) = named t (a.setKids xs) := by
  unfold named
  rw [Xml.kids_setKids, Xml.kids_setKids]
  induction h with
  | nil => rfl
  | hit hx he _ ih =>
    rw [List.filter_cons_of_neg, List.filter_cons_of_neg, ih]
    · simpa [hx] using ht
    · simpa [hf _ _ _ _ he, hx] using ht
  | skip hn _ ih => rw [List.filter_cons, List.filter_cons, ih]

theorem adSetStep_continues {p : ProcCfg} {d : MpdData} {pd : PeriodData} {last : Option Text} {g g' : Gens}
    {x x' : Xml} (h : adSetStep p d pd last g x = .ok (x', g')) (hx : continues x = [])
    (hl : ∀ l ∈ last, l ≠ []) : continues x' = if p.continuous then (last.map some).toList else [] := by
  obtain ⟨kids, rfl, hm⟩ := adSetStep_shape h
  have e : continues (x.setKids kids) = [] := by
    unfold continues at hx ⊢
    rw [hm.named_ne (t := "SupplementalProperty") (by decide +kernel)
      (fun s x x' s' h => templateKept_tag _ _ _ (templateStep_kept h)), Xml.setKids_kids]
    exact hx
  rw [continues_append, continues_new p last _ x hl, e, List.append_nil]

theorem PeriodRun.continuity {p : ProcCfg} {d : MpdData} {cb : Option Text} {period : Xml} {last : Option Text}
    {g : Gens} {pds : List PeriodData} {ps : List Xml}
    (hp : ∀ a ∈ named "AdaptationSet" period, continues a = [])
    (h : PeriodRun p d cb period last g pds ps) (hl : ∀ l ∈ last, l ≠ []) :
    (p.continuous = true → Continuous last ps) ∧
    (p.continuous = false → ∀ x ∈ ps, ∀ a ∈ named "AdaptationSet" x, continues a = []) := by
  induction h with
  | nil => exact ⟨fun _ => trivial, fun _ x hx => by cases hx⟩
  | @cons last g g' pd rest x xs h _ ih =>
    obtain ⟨i1, i2⟩ := ih (fun l hl => by cases hl; exact List.cons_ne_nil _ _)
    obtain ⟨new, kids, g', hn, rfl, -, hm⟩ := periodStep_shape h
    have key : ∀ a ∈ named "AdaptationSet" ((periodAttrs pd period).setKids (new ++ kids)),
        continues a = if p.continuous then (last.map some).toList else [] := by
      intro a ha
      have hat := mem_named ha
      have ha := (List.mem_filter.1 ha).1
      rw [Xml.kids_setKids, List.mem_append] at ha
      rcases ha with ha | ha
      · have := periodNew_tag hn a ha
        rw [hat] at this
        exact absurd this (by decide +kernel)
      · rcases hm.mem a ha with ⟨-, hne⟩ | ⟨b, hb, htb, s1, s2, hf⟩
        · exact absurd hat hne
        · exact adSetStep_continues hf (hp b (named_mem hb htb)) hl
    refine ⟨fun hc => ⟨fun a ha => ?_, ?_⟩, fun hc x hx => ?_⟩
    · rw [key a ha, hc]; rfl
    · rw [Xml.get_setKids, periodAttrs_id]; exact i1 hc
    · rcases List.mem_cons.1 hx with rfl | hx
      · intro a ha; rw [key a ha, hc]; rfl
      · exact i2 hc x hx

/-- **C66.** In a service with continuous periods every adaptation set says that it continues the
period before, by the id that this period has in the manifest, and those of the first period say
nothing; in other services no adaptation set says that it continues a period.  (The VoD manifest
says nothing about continuity.) -/
theorem C66_continuity {c : Cfg} {e : MpdEnv} {now : Int} {vod out : Xml} {infos rest : List Xml}
    {base : Option Xml} {period : Xml} (hs : VodShape vod.kids infos base period rest)
    (hp : ∀ a ∈ named "AdaptationSet" period, continues a = []) (hd : 0 ≤ c.segDur)
    (hb : ∀ t ∈ c.tsbd, 0 ≤ t) (h : generateXml c e now vod = .ok out) :
    (c.contMultiperiod = true → Continuous none (named "Period" out)) ∧
    (c.contMultiperiod = false → ∀ x ∈ named "Period" out, ∀ a ∈ named "AdaptationSet" x, continues a = []) := by
  obtain ⟨m⟩ := generateXml_parts hs hd hb h
  rw [m.periods hs]
  exact m.hps.continuity hp (fun l hl => by cases hl)

/-- C66: the periods of the sample. -/
example : ((generateXml sampleCfg sampleEnv 1000000 (sampleVod [samplePeriod])).toOption.map fun x =>
      ((named "Period" x).take 3).map fun y => (y.get "id".toList, (named "AdaptationSet" y).map continues)) =
    some [(some "p16661".toList, [[], []]),
      (some "p16662".toList, [[some "p16661".toList], [some "p16661".toList]]),
      (some "p16663".toList, [[some "p16662".toList], [some "p16662".toList]])] := by
  decide +kernel

end Verif
