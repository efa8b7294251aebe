import Verif.Lemmas.MpdGenerate
/-
C61: what of the VoD manifest is in the live manifest; C62: the order of its elements.
-/
namespace Verif
open Spec

/-! ### A VoD manifest for the examples -/

/-- An element without text. -/
def sampleElem (tag : String) (attrs : List (String × String)) (kids : List Xml) : Xml :=
  .elem tag.toList (attrs.map fun p => (p.1.toList, p.2.toList)) [] kids

/-- A segment template. -/
def sampleTemplate : Xml := sampleElem "SegmentTemplate" [("initialization", "$RepresentationID$/init.mp4"),
  ("media", "$RepresentationID$/$Number$.m4s"), ("duration", "6"), ("startNumber", "1")] []

/-- A period with audio and video. -/
def samplePeriod : Xml := sampleElem "Period" [("id", "precambrian")] [
  sampleElem "AdaptationSet" [("contentType", "audio")] [sampleTemplate, sampleElem "Representation" [("id", "A1")] []],
  sampleElem "AdaptationSet" [("contentType", "video")] [sampleTemplate, sampleElem "Representation" [("id", "V1")] []]]

/-- A VoD manifest with the children `kids`. -/
def sampleVod (kids : List Xml) : Xml := sampleElem "MPD" [("profiles", "urn:mpeg:dash:profile:isoff-live:2011"),
  ("type", "static"), ("mediaPresentationDuration", "PT1H5M")] kids

/-- A configuration with several periods. -/
def sampleCfg : Cfg := { tsbd := some 300, segDur := 6, vodNr := 600, periods := 60, contMultiperiod := true }

/-- The surroundings of a request. -/
def sampleEnv : MpdEnv where
  start := "http://h/livesim/".toList
  parts := ["periods_60".toList, "testpic".toList, "Manifest.mpd".toList]
  pos := 1

/-! ### Content -/

theorem PeriodRun.kept {p : ProcCfg} {d : MpdData} {cb : Option Text} {period : Xml} {last : Option Text}
    {g : Gens} {pds : List PeriodData} {ps : List Xml} (h : PeriodRun p d cb period last g pds ps) :
    ps.length = pds.length ∧ ∀ x ∈ ps, PeriodKept (p.tl || p.tlNr) period x := by
  induction h with
  | nil => exact ⟨rfl, fun x hx => absurd hx (List.not_mem_nil)⟩
  | cons h _ ih =>
    refine ⟨by simp [ih.1], fun x hx => ?_⟩
    rcases List.mem_cons.1 hx with rfl | hx
    · exact periodStep_kept h
    · exact ih.2 x hx

/-- **C61.** The live manifest made from a VoD manifest with one period (program information and a
BaseURL before it, other elements after it): the root keeps all attributes but those of a live
manifest; its children are the information, added BaseURL, Location and ServiceDescription elements,
one copy of the period for every live period, UTCTiming elements, and the other elements; every
copy has all attributes and children of the VoD period but for id, start, duration and what is
changed in the segment templates.
Missing: VoD manifests with other elements before the period or several periods
(`C61_element_violation`). -/
theorem C61_content_partial {c : Cfg} {e : MpdEnv} {now : Int} {vod out : Xml} {infos rest : List Xml}
    {base : Option Xml} {period : Xml} (hs : VodShape vod.kids infos base period rest)
    (hd : 0 ≤ c.segDur) (hb : ∀ t ∈ c.tsbd, 0 ≤ t) (h : generateXml c e now vod = .ok out) :
    SameBut liveAttrs vod out ∧ out.text = vod.text ∧
    ∃ pds new ps us, periodData c now = .ok pds ∧ out.kids = infos ++ new ++ ps ++ us ++ rest ∧
      ps.length = pds.length ∧
      (∀ x ∈ new, x.tag ∈ ["BaseURL".toList, "Location".toList, "ServiceDescription".toList]) ∧
      (∀ x ∈ us, x.tag = "UTCTiming".toList) ∧
      (∀ x ∈ ps, PeriodKept (c.segTimeline || c.segTimelineNr) period x) := by
  obtain ⟨m⟩ := generateXml_parts hs hd hb h
  have hk := processRoot_kept m.hroot
  rw [m.hout]
  refine ⟨hk.1.setKids _, by rw [Xml.text_setKids, hk.2.1], m.pds,
    m.bs ++ (m.ls ++ newServices (procCfgOf c e m.tsbd now)), m.ps, m.us, m.hpds, ?_, m.hps.kept.1, ?_, utc_tags m.hus,
    m.hps.kept.2⟩
  · rw [Xml.kids_setKids]; simp only [List.append_assoc]
  · intro x hx
    rw [List.mem_append, List.mem_append] at hx
    rcases hx with hx | hx | hx
    · rw [newBases_tag hs.base m.hbs x hx]; exact List.mem_cons_self ..
    · rw [newLocs_tag m.hls x hx]; exact List.mem_cons_of_mem _ (List.mem_cons_self ..)
    · rw [newServices_tag _ x hx]; exact List.mem_cons_of_mem _ (List.mem_cons_of_mem _ (List.mem_cons_self ..))

theorem OnlyTag.tag {tag : Text} {rel : Xml → Xml → Prop} (hr : ∀ a b, rel a b → b.tag = a.tag) {a b : Xml}
    (h : OnlyTag tag rel a b) : b.tag = a.tag := by
  by_cases ht : a.tag = tag
  · exact hr a b (h.1 ht)
  · rw [h.2 ht]

theorem named_kept {tag tag' : String} {tags : List Text} {rel : Xml → Xml → Prop} {a b : Xml}
    (hr : ∀ a b, rel a b → b.tag = a.tag) (hn : tag.toList ∉ tags)
    (h : AddedBefore tags (OnlyTag tag'.toList rel) a.kids b.kids) :
    List.Forall₂ (OnlyTag tag'.toList rel) (named tag a) (named tag b) := by
  obtain ⟨added, kept, e, ht, hf⟩ := h
  unfold named
  rw [e, List.filter_append]
  have h0 : added.filter (fun y => y.tag = tag.toList) = [] := by
    rw [List.filter_eq_nil_iff]
    intro x hx
    simp only [decide_eq_true_eq]
    intro hxt
    exact hn (hxt ▸ ht x hx)
  rw [h0, List.nil_append]
  clear e h0
  generalize a.kids = l at hf
  induction hf with
  | nil => exact .nil
  | cons h1 _ ih =>
    have ht' := OnlyTag.tag hr h1
    simp only [List.filter_cons, ht']
    split
    · exact .cons h1 ih
    · exact ih

theorem mem_named {tag : String} {x y : Xml} (h : y ∈ named tag x) : y.tag = tag.toList := by
  simpa using (List.mem_filter.1 h).2

theorem adSetKept_tag (tl : Bool) (a b : Xml) (h : AdSetKept tl a b) : b.tag = a.tag := h.1.1

theorem templateKept_tag (tl : Bool) (a b : Xml) (h : TemplateKept tl a b) : b.tag = a.tag := by
  unfold TemplateKept at h
  split at h
  · exact h.1.1
  · exact h.1.1

/-- **C61.** Every live period has the adaptation sets of the VoD period, with their attributes, in
the same order; each has the same representations, unchanged, and the same segment templates with
the same initialization URL. -/
theorem C61_representations_partial {tl : Bool} {period x : Xml} (h : PeriodKept tl period x) :
    List.Forall₂ (fun a b => (∀ k, b.get k = a.get k) ∧ named "Representation" b = named "Representation" a ∧
        List.Forall₂ (fun s t => t.get "initialization".toList = s.get "initialization".toList)
          (named "SegmentTemplate" a) (named "SegmentTemplate" b))
      (named "AdaptationSet" period) (named "AdaptationSet" x) := by
  have h1 := named_kept (tag := "AdaptationSet") (adSetKept_tag tl) (by decide +kernel) h.2.2
  have hm : ∀ y ∈ named "AdaptationSet" period, y.tag = "AdaptationSet".toList :=
    fun y hy => mem_named hy
  generalize named "AdaptationSet" period = l at h1 hm
  generalize named "AdaptationSet" x = l' at h1
  induction h1 with
  | nil => exact .nil
  | @cons a b l1 l2 ho _ ih =>
    refine .cons ?_ (ih (fun y hy => hm y (List.mem_cons_of_mem _ hy)))
    have hk := ho.1 (hm a (List.mem_cons_self ..))
    refine ⟨fun k => hk.1.2 k (List.not_mem_nil), ?_, ?_⟩
    · have h2 := named_kept (tag := "Representation") (templateKept_tag tl) (by decide +kernel) hk.2.2
      have hm2 : ∀ y ∈ named "Representation" a, y.tag ≠ "SegmentTemplate".toList := by
        intro y hy
        rw [mem_named hy]; decide +kernel
      generalize named "Representation" a = l at h2 hm2
      generalize named "Representation" b = l' at h2
      induction h2 with
      | nil => rfl
      | cons ho' _ ih' =>
        rw [ho'.2 (hm2 _ (List.mem_cons_self ..)), ih' (fun y hy => hm2 y (List.mem_cons_of_mem _ hy))]
    · have h2 := named_kept (tag := "SegmentTemplate") (templateKept_tag tl) (by decide +kernel) hk.2.2
      have hm2 : ∀ y ∈ named "SegmentTemplate" a, y.tag = "SegmentTemplate".toList :=
        fun y hy => mem_named hy
      generalize named "SegmentTemplate" a = l at h2 hm2
      generalize named "SegmentTemplate" b = l' at h2
      induction h2 with
      | nil => exact .nil
      | @cons s t _ _ ho' _ ih' =>
        refine .cons ?_ (ih' (fun y hy => hm2 y (List.mem_cons_of_mem _ hy)))
        have ht := ho'.1 (hm2 s (List.mem_cons_self ..))
        unfold TemplateKept at ht
        split at ht
        · exact ht.1.2 _ (by decide +kernel)
        · exact ht.1.2 _ (by decide +kernel)

/-- The hypotheses of C61 are met: a manifest with six periods. -/
example : VodShape (sampleVod [sampleElem "ProgramInformation" [] [], samplePeriod]).kids
      [sampleElem "ProgramInformation" [] []] none samplePeriod [] ∧
    ((generateXml sampleCfg sampleEnv 1000000
      (sampleVod [sampleElem "ProgramInformation" [] [], samplePeriod])).toOption.map
        fun x => (named "Period" x).length) = some 7 := by
  refine ⟨⟨rfl, ?_, ?_, rfl, ?_⟩, by decide +kernel⟩
  · intro x hx; rw [List.mem_singleton.1 hx]; rfl
  · intro x hx; cases hx
  · intro x hx; cases hx

/-- **C61 fails** when another element stands between BaseURL and the period (mpdprocessor.py
197-207 finds the period but copies the element at the position before): with a
ServiceDescription in the VoD manifest, a service with seven periods has one period and six more
copies of the ServiceDescription. -/
theorem C61_element_violation :
    ((periodData sampleCfg 1000000).toOption.map List.length) = some 7 ∧
    ((generateXml sampleCfg sampleEnv 1000000
      (sampleVod [sampleElem "ServiceDescription" [] [], samplePeriod])).toOption.map
        fun x => ((named "Period" x).length, (named "ServiceDescription" x).length)) = some (1, 7) := by
  decide +kernel

end Verif
