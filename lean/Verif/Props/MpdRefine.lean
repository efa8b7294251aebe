import Verif.Props.MpdRoot
/-
C63: the live manifest as an element tree says what the manifest with numbers says.
-/
namespace Verif
open Spec

/-- Where an element of the result of a loop comes from. -/
theorem MapTag.mem {σ : Type} {tag : Text} {f : σ → Xml → Py (Xml × σ)} {s s' : σ} {xs ys : List Xml}
    (h : MapTag tag f s xs ys s') : ∀ y ∈ ys, (y ∈ xs ∧ y.tag ≠ tag) ∨
      ∃ x ∈ xs, x.tag = tag ∧ ∃ s s', f s x = .ok (y, s') := by
  induction h with
  | nil => intro y hy; cases hy
  | hit ht hf _ ih =>
    intro y hy
    rcases List.mem_cons.1 hy with rfl | hy
    · exact Or.inr ⟨_, List.mem_cons_self .., ht, _, _, hf⟩
    · rcases ih y hy with h | ⟨x, hx, h⟩
      · exact Or.inl ⟨List.mem_cons_of_mem _ h.1, h.2⟩
      · exact Or.inr ⟨x, List.mem_cons_of_mem _ hx, h⟩
  | skip ht _ ih =>
    intro y hy
    rcases List.mem_cons.1 hy with rfl | hy
    · exact Or.inl ⟨List.mem_cons_self .., ht⟩
    · rcases ih y hy with h | ⟨x, hx, h⟩
      · exact Or.inl ⟨List.mem_cons_of_mem _ h.1, h.2⟩
      · exact Or.inr ⟨x, List.mem_cons_of_mem _ hx, h⟩

theorem named_mem {tag : String} {x y : Xml} (hy : y ∈ x.kids) (ht : y.tag = tag.toList) : y ∈ named tag x := by
  unfold named; rw [List.mem_filter]; exact ⟨hy, by simpa using ht⟩

/-- The segment templates of a period come from those of the VoD period. -/
theorem templates_from {p : ProcCfg} {d : MpdData} {cb : Option Text} {pd : PeriodData} {rest : List PeriodData}
    {last : Option Text} {g : Gens} {s' : PeriodState} {x x' : Xml}
    (h : periodStep p d cb ⟨pd :: rest, last, g⟩ x = .ok (x', s')) :
    ∀ t' ∈ templates x', ∃ t ∈ templates x, ∃ ctype g g', templateStep p d pd ctype g t = .ok (t', g') := by
  obtain ⟨new, kids, g', hn, rfl, -, hm⟩ := periodStep_shape h
  intro t' ht'
  obtain ⟨a', ha', ht'⟩ := List.mem_flatMap.1 ht'
  have hat := mem_named ha'
  have ha' := (List.mem_filter.1 ha').1
  rw [Xml.kids_setKids, List.mem_append] at ha'
  rcases ha' with ha' | ha'
  · have := periodNew_tag hn a' ha'
    rw [hat] at this
    exact absurd this (by decide +kernel)
  · rcases hm.mem a' ha' with ⟨-, hne⟩ | ⟨a, ha, hta, s1, s2, hf⟩
    · exact absurd hat hne
    · obtain ⟨ks, rfl, hk⟩ := adSetStep_shape hf
      have htt := mem_named ht'
      have ht' := (List.mem_filter.1 ht').1
      rw [Xml.kids_setKids, List.mem_append] at ht'
      rcases ht' with ht' | ht'
      · have := adSetNew_tag p last _ t' ht'
        rw [htt] at this
        exact absurd this (by decide +kernel)
      · rcases hk.mem t' ht' with ⟨-, hne⟩ | ⟨t, ht, htg, s3, s4, hg⟩
        · exact absurd htt hne
        · exact ⟨t, List.mem_flatMap.2 ⟨a, named_mem ha hta, named_mem ht htg⟩, _, _, _, hg⟩

/-- Elements with other names in a period are those that are put in, when the VoD period has none. -/
theorem period_named {p : ProcCfg} {d : MpdData} {pd : PeriodData} {last : Option Text}
    {g g' : Gens} {x y : Xml} {kids new : List Xml} {tag : String}
    (hm : MapTag "AdaptationSet".toList (adSetStep p d pd last) g x.kids kids g')
    (ht : tag.toList ≠ "AdaptationSet".toList) (hx : named tag x = []) :
    named tag (y.setKids (new ++ kids)) = new.filter (fun z => z.tag = tag.toList) := by
  rw [named_append, named_nil (a := kids), List.append_nil]
  · unfold named; rw [Xml.kids_setKids]
  · intro z hz e
    rcases hm.mem z hz with ⟨hz', -⟩ | ⟨a, ha, hta, s1, s2, hf⟩
    · have := named_mem hz' e
      rw [hx] at this
      cases this
    · have := (adSetStep_kept hf).1.1
      rw [e, hta] at this
      exact ht this

theorem intText_zero {n : Int} : intText n = "0".toList ↔ n = 0 := by
  constructor
  · intro h
    have h1 := pyInt_intText n
    rw [h] at h1
    have h2 : pyInt "0".toList = .ok 0 := by decide +kernel
    rw [h2] at h1
    injection h1 with h1
    exact h1.symm
  · rintro rfl; decide +kernel

theorem intText_neg_one {n : Int} : intText n = "-1".toList ↔ n = -1 := by
  constructor
  · intro h
    have h1 := pyInt_intText n
    rw [h] at h1
    have h2 : pyInt "-1".toList = .ok (-1) := by decide +kernel
    rw [h2] at h1
    injection h1 with h1
    exact h1.symm
  · rintro rfl; decide +kernel

section
variable (p : ProcCfg) (d : MpdData) (pd : PeriodData) (t : Xml)

theorem numbers_startNumber : (templateNumbers p d pd t).get "startNumber".toList =
    if pd.startNumber = -1 then none else some (intText pd.startNumber) := by
  have n1 : "startNumber".toList ≠ "presentationTimeOffset".toList := by decide +kernel
  have n2 : "startNumber".toList ≠ "availabilityTimeOffset".toList := by decide +kernel
  have n3 : "startNumber".toList ≠ "availabilityTimeComplete".toList := by decide +kernel
  unfold templateNumbers
  dsimp only
  by_cases h : pd.startNumber = -1
  · rw [if_pos (intText_neg_one.2 h), if_pos h, Xml.get_del_same]
  · rw [if_neg (fun e => h (intText_neg_one.1 e)), if_neg h]
    split <;> split <;> simp only [Xml.get_set_same, Xml.get_set_ne n1, Xml.get_set_ne n2, Xml.get_set_ne n3]

theorem numbers_pto : (templateNumbers p d pd t).get "presentationTimeOffset".toList =
    if (d.ptoText ∨ pd.pto ≠ 0) ∧ ¬d.offsetAtPeriod ∧ intText pd.pto ≠ "0".toList then some (intText pd.pto)
    else t.get "presentationTimeOffset".toList := by
  have n1 : "presentationTimeOffset".toList ≠ "startNumber".toList := by decide +kernel
  have n2 : "presentationTimeOffset".toList ≠ "availabilityTimeOffset".toList := by decide +kernel
  have n3 : "presentationTimeOffset".toList ≠ "availabilityTimeComplete".toList := by decide +kernel
  unfold templateNumbers
  dsimp only
  by_cases h : (d.ptoText ∨ pd.pto ≠ 0) ∧ ¬d.offsetAtPeriod ∧ intText pd.pto ≠ "0".toList
  · simp only [if_pos h]
    split <;> split <;> simp only [Xml.get_set_same, Xml.get_set_ne n2, Xml.get_set_ne n3, Xml.get_del_ne n1]
  · simp only [if_neg h]
    split <;> split <;>
      simp only [Xml.get_set_ne n1, Xml.get_set_ne n2, Xml.get_set_ne n3, Xml.get_del_ne n1]

theorem numbers_ato : (templateNumbers p d pd t).get "availabilityTimeOffset".toList =
    p.ll.or (t.get "availabilityTimeOffset".toList) := by
  have n1 : "availabilityTimeOffset".toList ≠ "startNumber".toList := by decide +kernel
  have n2 : "availabilityTimeOffset".toList ≠ "presentationTimeOffset".toList := by decide +kernel
  have n3 : "availabilityTimeOffset".toList ≠ "availabilityTimeComplete".toList := by decide +kernel
  unfold templateNumbers
  dsimp only
  by_cases h1 : (d.ptoText ∨ pd.pto ≠ 0) ∧ ¬d.offsetAtPeriod ∧ intText pd.pto ≠ "0".toList <;>
    by_cases h2 : intText pd.startNumber = "-1".toList <;> cases p.ll <;>
    (first | rw [if_pos h2] | rw [if_neg h2]) <;> (first | rw [if_pos h1] | rw [if_neg h1]) <;>
    simp only [Xml.get_set_same, Xml.get_set_ne n1, Xml.get_set_ne n2, Xml.get_set_ne n3, Xml.get_del_ne n1,
      Option.some_or, Option.none_or]

theorem numbers_atc {s : Text} (h : p.ll = some s) :
    (templateNumbers p d pd t).get "availabilityTimeComplete".toList = some "false".toList := by
  have n1 : "availabilityTimeComplete".toList ≠ "startNumber".toList := by decide +kernel
  unfold templateNumbers
  dsimp only
  rw [h]
  split <;> simp only [Xml.get_set_same, Xml.get_del_ne n1]

end

theorem periodAttrs_id (pd : PeriodData) (x : Xml) : (periodAttrs pd x).get "id".toList = some (periodId pd) := by
  have n1 : "id".toList ≠ "start".toList := by decide +kernel
  have n2 : "id".toList ≠ "duration".toList := by decide +kernel
  unfold periodAttrs
  dsimp only
  split <;> simp only [Xml.get_set_same, Xml.get_set_ne n1, Xml.get_set_ne n2]

theorem periodAttrs_start (pd : PeriodData) (x : Xml) :
    (periodAttrs pd x).get "start".toList = some (ptText pd.start) := by
  have n2 : "start".toList ≠ "duration".toList := by decide +kernel
  unfold periodAttrs
  dsimp only
  split <;> simp only [Xml.get_set_same, Xml.get_set_ne n2]

theorem periodAttrs_duration (pd : PeriodData) (x : Xml) :
    (periodAttrs pd x).get "duration".toList =
      ((pd.durAttr.or pd.etp).map ptText).or (x.get "duration".toList) := by
  have n1 : "duration".toList ≠ "start".toList := by decide +kernel
  have n2 : "duration".toList ≠ "id".toList := by decide +kernel
  unfold periodAttrs
  dsimp only
  split
  · rename_i h; rw [h]; simp only [Xml.get_set_same, Option.map_some, Option.some_or]
  · rename_i h; rw [h]; simp only [Xml.get_set_ne n1, Xml.get_set_ne n2, Option.map_none, Option.none_or]

/-- The elements put into a period, by name. -/
theorem periodNew_base {d : MpdData} {cb : Option Text} {pd : PeriodData} {new : List Xml}
    (h : periodNew d cb pd = .ok new) : new.filter (fun z => z.tag = "SegmentBase".toList) =
      if (d.ptoText ∨ pd.pto ≠ 0) ∧ d.offsetAtPeriod then
        [.elem "SegmentBase".toList [("presentationTimeOffset".toList, intText pd.pto)] [] []] else [] := by
  have n1 : ¬"EventStream".toList = "SegmentBase".toList := by decide +kernel
  unfold periodNew at h
  dsimp only at h
  by_cases hq : (d.ptoText ∨ pd.pto ≠ 0) ∧ d.offsetAtPeriod
  · rw [if_pos hq] at h ⊢
    cases hc : pd.callback with
    | false => rw [hc, if_neg (by decide)] at h; cases h; simp [Xml.tag]
    | true =>
      rw [hc, if_pos rfl] at h
      cases cb with
      | none => cases h
      | some u => cases h; simp only [callbackElem, List.filter_cons, Xml.tag, n1, List.filter_nil]; simp
  · rw [if_neg hq] at h ⊢
    cases hc : pd.callback with
    | false => rw [hc, if_neg (by decide)] at h; cases h; rfl
    | true =>
      rw [hc, if_pos rfl] at h
      cases cb with
      | none => cases h
      | some u => cases h; simp only [callbackElem, List.filter_cons, Xml.tag, n1, List.filter_nil]; simp

theorem periodNew_event {d : MpdData} {cb : Option Text} {pd : PeriodData} {new : List Xml}
    (h : periodNew d cb pd = .ok new) : (new.filter (fun z => z.tag = "EventStream".toList)).length =
      if pd.callback then 1 else 0 := by
  have n1 : ¬"SegmentBase".toList = "EventStream".toList := by decide +kernel
  unfold periodNew at h
  dsimp only at h
  by_cases hq : (d.ptoText ∨ pd.pto ≠ 0) ∧ d.offsetAtPeriod
  · rw [if_pos hq] at h
    cases hc : pd.callback with
    | false =>
      rw [hc, if_neg (by decide)] at h; cases h
      simp only [List.filter_cons, Xml.tag, n1, List.filter_nil]; simp
    | true =>
      rw [hc, if_pos rfl] at h
      cases cb with
      | none => cases h
      | some u => cases h; simp only [callbackElem, List.filter_cons, Xml.tag, n1, List.filter_nil]; simp
  · rw [if_neg hq] at h
    cases hc : pd.callback with
    | false => rw [hc, if_neg (by decide)] at h; cases h; rfl
    | true =>
      rw [hc, if_pos rfl] at h
      cases cb with
      | none => cases h
      | some u => cases h; simp only [callbackElem, List.filter_cons, Xml.tag, List.filter_nil]; simp

/-- One period. -/
theorem periodSays {p : ProcCfg} {d : MpdData} {cb : Option Text} {pd : PeriodData} {rest : List PeriodData}
    {last : Option Text} {g : Gens} {s' : PeriodState} {x x' : Xml} {segDur : Int} {ato : Option Rat}
    (hv : VodPeriod segDur x) (htl : (p.tl || p.tlNr) = false) (hll : p.ll = ato.map fText)
    (h : periodStep p d cb ⟨pd :: rest, last, g⟩ x = .ok (x', s')) :
    PeriodSays d.offsetAtPeriod segDur ato x' (periodElem pd) := by
  have ht : ∀ t' ∈ templates x', ∃ t ∈ templates x, t' = templateNumbers p d pd t := by
    intro t' ht'
    obtain ⟨t, ht, ctype, g1, g2, he⟩ := templates_from h t' ht'
    rw [templateStep_eq, if_neg (by rw [htl]; decide)] at he
    cases he
    exact ⟨t, ht, rfl⟩
  have htp : ∀ t' ∈ templates x', t'.get "presentationTimeOffset".toList =
      if (d.ptoText ∨ pd.pto ≠ 0) ∧ ¬d.offsetAtPeriod ∧ intText pd.pto ≠ "0".toList then some (intText pd.pto)
      else none := by
    intro t' ht'
    obtain ⟨t, h1, rfl⟩ := ht t' ht'
    rw [numbers_pto, hv.pto t h1]
  obtain ⟨new, kids, g', hn, rfl, -, hm⟩ := periodStep_shape h
  refine ⟨?_, ?_, ?_, ?_, ?_, ?_, ?_⟩
  · exact ⟨intText pd.id, by rw [Xml.get_setKids, periodAttrs_id]; rfl, pyInt_intText _⟩
  · exact secsAttr_pt (by rw [Xml.get_setKids, periodAttrs_start]; rfl)
  · have hd : ((periodAttrs pd x).setKids (new ++ kids)).get "duration".toList =
        (pd.durAttr.or pd.etp).map ptText := by
      rw [Xml.get_setKids, periodAttrs_duration, hv.duration, Option.or_none]
    show SecsAttr _ _ (pd.durAttr.or pd.etp)
    cases he : pd.durAttr.or pd.etp with
    | none => rw [he] at hd; exact hd
    | some n => rw [he] at hd; exact secsAttr_pt hd
  · intro t' ht'
    obtain ⟨t, h1, rfl⟩ := ht t' ht'
    constructor
    · show IntAttr _ _ (if pd.startNumber = -1 then none else some pd.startNumber)
      have hs := numbers_startNumber p d pd t
      by_cases hq : pd.startNumber = -1
      · rw [if_pos hq] at hs ⊢; exact hs
      · rw [if_neg hq] at hs ⊢; exact ⟨_, hs, pyInt_intText _⟩
    · obtain ⟨s, hs, hi⟩ := hv.segDur t h1
      refine ⟨s, ?_, hi⟩
      rw [(templateNumbers_kept p d pd t).1.2 _ (by decide +kernel)]
      exact hs
  · by_cases ho : d.offsetAtPeriod = true
    · rw [if_pos ho]
      constructor
      · rw [period_named hm (by decide +kernel) hv.base, periodNew_base hn]
        by_cases hq : d.ptoText = true ∨ pd.pto ≠ 0
        · rw [if_pos ⟨hq, ho⟩]
          refine Or.inr ⟨_, rfl, pd.pto, 1, Or.inl ⟨intText pd.pto, ?_, pyInt_intText _⟩, Or.inr ⟨?_, rfl⟩, ?_⟩
          · rfl
          · have n1 : ¬"presentationTimeOffset".toList = "timescale".toList := by decide +kernel
            simp only [Xml.get, Xml.attrs, List.find?_cons, n1, List.find?_nil]
            simp
          · show pd.pto = pd.pto * 1
            omega
        · rw [if_neg (fun h => hq h.1)]
          refine Or.inl ⟨?_, rfl⟩
          show pd.pto = 0
          by_contra hc
          exact hq (Or.inr hc)
      · intro t' ht'
        rw [htp t' ht', if_neg (fun h => h.2.1 ho)]
    · rw [if_neg ho]
      intro t' ht'
      have hs := htp t' ht'
      have hsc : IntIs t' "timescale" 1 1 := by
        obtain ⟨t, h1, rfl⟩ := ht t' ht'
        have hk := (templateNumbers_kept p d pd t).1.2 "timescale".toList (by decide +kernel)
        rcases hv.scale t h1 with ⟨s, hs, hi⟩ | ⟨h, he⟩
        · exact Or.inl ⟨s, by rw [hk]; exact hs, hi⟩
        · exact Or.inr ⟨by rw [hk]; exact h, he⟩
      refine ⟨pd.pto, 1, ?_, hsc, by show pd.pto = pd.pto * 1; omega⟩
      by_cases h0 : pd.pto = 0
      · rw [if_neg (fun h => h.2.2 (intText_zero.2 h0))] at hs
        exact Or.inr ⟨hs, h0⟩
      · rw [if_pos ⟨Or.inr h0, ho, fun h => h0 (intText_zero.1 h)⟩] at hs
        exact Or.inl ⟨_, hs, pyInt_intText _⟩
  · rw [period_named hm (by decide +kernel) hv.events, periodNew_event hn]
    rfl
  · intro t' ht'
    obtain ⟨t, h1, rfl⟩ := ht t' ht'
    have ha := numbers_ato p d pd t
    rw [hv.ato t h1, Option.or_none, hll] at ha
    cases hc : ato with
    | none => rw [hc] at ha; exact ha
    | some a =>
      rw [hc] at ha
      refine ⟨numbers_atc p d pd t (by rw [hll, hc]; rfl), _, _, ha, fText_denotes a, ?_, ?_⟩
      · exact (pyRound_half _).1
      · exact (pyRound_half _).2

/-- **C63.** The live manifest of a service with segment numbers says what the manifest with
numbers (`generateMpd`) says: the attributes of the root, and for every period id, start, duration,
start number, presentation time offset, callback and availability time offset of its templates.
Missing: timelines (C68), VoD manifests with live attributes or offsets of their own or with another
timescale (see the violations), negative values and whole days (C24). -/
theorem C63_says_partial {c : Cfg} {e : MpdEnv} {now : Int} {vod out : Xml} {infos rest : List Xml}
    {base : Option Xml} {period : Xml} (hs : VodShape vod.kids infos base period rest)
    (hd : 0 ≤ c.segDur) (hb : ∀ t ∈ c.tsbd, 0 ≤ t) (hr : VodRoot vod) (hp : VodPeriod c.segDur period)
    (htl : (c.segTimeline || c.segTimelineNr) = false) (h : generateXml c e now vod = .ok out) :
    ∃ M, generateMpd c now = .ok M ∧ RootSays out M ∧
      List.Forall₂ (PeriodSays (decide (0 ≤ c.periodOffset)) M.segDur M.templateAto) (named "Period" out)
        M.periods := by
  obtain ⟨m⟩ := generateXml_parts hs hd hb h
  obtain ⟨M, hM, h1, h2, h3, h4, h5⟩ := m.rootSays hr
  refine ⟨M, hM, h1, ?_⟩
  rw [m.periods hs, h2, h4, h5, List.forall₂_map_right_iff]
  refine (List.Forall₂.imp ?_ m.hps.forall₂).flip
  rintro pd x ⟨rest, last, g, s', hx⟩
  refine periodSays hp htl ?_ hx
  show (if c.chunkDur.isNone = true then none else some (fText c.ato)) = _
  by_cases hc : c.chunkDur.isNone = true
  · rw [if_pos hc, if_pos hc]; rfl
  · rw [if_neg hc, if_neg hc]; rfl

/-- The BaseURL elements of the manifest. -/
theorem MpdParts.bases {c : Cfg} {e : MpdEnv} {now : Int} {vod out : Xml} {infos rest : List Xml}
    {base : Option Xml} {period : Xml} (hs : VodShape vod.kids infos base period rest)
    (hr : ∀ x ∈ rest, x.tag ≠ "BaseURL".toList)
    (m : MpdParts c e now vod infos base period rest out) : named "BaseURL" out = m.bs := by
  refine (congrArg (named "BaseURL") m.hout).trans ?_
  rw [named_append, named_append, named_append, named_append, named_append, named_append,
    named_nil _ (fun y hy => by rw [hs.infos y hy]; decide +kernel),
    named_all _ (fun y hy => newBases_tag hs.base m.hbs y hy),
    named_nil _ (fun y hy => by rw [newLocs_tag m.hls y hy]; decide +kernel),
    named_nil _ (fun y hy => by rw [newServices_tag _ y hy]; decide +kernel),
    named_nil _ (fun y hy => by rw [m.hps.tags y hy, hs.period]; decide +kernel),
    named_nil _ (fun y hy => by rw [utc_tags m.hus y hy]; decide +kernel),
    named_nil _ hr]
  simp

theorem baseUrlElem_says (u : Text) (a : Rat) (atc : Option Text) (ha : fValue a = a) :
    BaseSays (baseUrlElem u (some (fValue a, fText a)) atc) (atoAttr a) := by
  have n1 : ¬"availabilityTimeComplete".toList = "availabilityTimeOffset".toList := by decide +kernel
  have hc : ∀ (l : List (Text × Text)), (l ++ (match atc with
      | none => []
      | some t =>
        if t = "False".toList ∨ t = "false".toList ∨ t = "0".toList then [("availabilityTimeComplete".toList, t)]
        else [])).find? (fun p => p.1 = "availabilityTimeOffset".toList) =
      l.find? (fun p => p.1 = "availabilityTimeOffset".toList) := by
    intro l
    rw [List.find?_append]
    cases atc with
    | none => simp
    | some t =>
      dsimp only
      split
      · simp only [List.find?_cons, n1, List.find?_nil]; simp
      · simp
  rw [ha]
  unfold baseUrlElem atoAttr BaseSays
  dsimp only
  by_cases h1 : a = -1
  · rw [if_pos h1, if_pos h1]
    unfold Xml.get Xml.attrs
    refine (congrArg (Option.map (·.2)) (hc [("availabilityTimeOffset".toList, "INF".toList)])).trans ?_
    simp
  · rw [if_neg h1, if_neg h1]
    by_cases h2 : 0 < a
    · rw [if_pos h2, if_pos h2]
      dsimp only
      refine ⟨fText a, pyRound (a * 1000000), ?_, fText_denotes a, ?_⟩
      · unfold Xml.get Xml.attrs
        refine (congrArg (Option.map (·.2)) (hc [("availabilityTimeOffset".toList, fText a)])).trans ?_
        simp
      · have : (pyRound (a * 1000000) : Rat) / 1000000 = a := ha
        linarith
    · rw [if_neg h2, if_neg h2]
      unfold Xml.get Xml.attrs
      refine (congrArg (Option.map (·.2)) (hc [])).trans ?_
      simp

/-- **C63.** The BaseURL elements say the availability time offset of the manifest with numbers.
Missing: offsets with more than six decimals, which are rounded; services with a Location and VoD
manifests with a BaseURL (`C63_base_violation`). -/
theorem C63_base_partial {c : Cfg} {e : MpdEnv} {now : Int} {vod out : Xml} {infos rest : List Xml}
    {period : Xml} (hs : VodShape vod.kids infos none period rest)
    (hr : ∀ x ∈ rest, x.tag ≠ "BaseURL".toList)
    (hd : 0 ≤ c.segDur) (hb : ∀ t ∈ c.tsbd, 0 ≤ t) (hl : c.addLocation = false)
    (ha : fValue c.ato = c.ato) (h : generateXml c e now vod = .ok out) :
    ∃ M, generateMpd c now = .ok M ∧ (named "BaseURL" out).length = max 1 c.multiUrl.length ∧
      ∀ b ∈ named "BaseURL" out, BaseSays b M.baseAto := by
  obtain ⟨m⟩ := generateXml_parts hs hd hb h
  obtain ⟨M, hM, -, -, -, -, -, -, -, -, h9, -⟩ := m.generateMpd
  refine ⟨M, hM, ?_⟩
  rw [m.bases hs hr, h9]
  have hbs := m.hbs
  unfold newBases at hbs
  have e1 : (procCfgOf c e m.tsbd now).addLocation = c.addLocation := rfl
  have e2 : (mpdDataOf c e m.tsbd now).urls = c.multiUrl := rfl
  have e3 : (mpdDataOf c e m.tsbd now).ato = if c.chunkDur.isNone then some (fValue c.ato, fText c.ato) else none :=
    rfl
  rw [e1, hl, if_neg (by decide)] at hbs
  dsimp only at hbs
  rw [e2, e3] at hbs
  have hsays : ∀ u, BaseSays (baseUrlElem u (if c.chunkDur.isNone = true then some (fValue c.ato, fText c.ato)
      else none) (mpdDataOf c e m.tsbd now).atc) (if c.chunkDur.isNone = true then atoAttr c.ato else .absent) := by
    intro u
    by_cases hc : c.chunkDur.isNone = true
    · rw [if_pos hc, if_pos hc]; exact baseUrlElem_says u _ _ ha
    · have e4 : (mpdDataOf c e m.tsbd now).atc = none := by
        show (if c.chunkDur.isNone = true ∧ ¬c.atoComplete = true then some "false".toList else none) = none
        rw [if_neg (fun h => hc h.1)]
      rw [if_neg hc, if_neg hc, e4]
      rfl
  by_cases hu : c.multiUrl ≠ []
  · rw [if_pos hu] at hbs
    cases hm : multiUrls (mpdDataOf c e m.tsbd now).baseUrl c.multiUrl with
    | error x => rw [hm] at hbs; cases hbs
    | ok us =>
      rw [hm] at hbs
      have hbs : us.map _ = m.bs := Except.ok.inj hbs
      rw [← hbs]
      constructor
      · rw [List.length_map]
        have hlen : us.length = c.multiUrl.length := by
          unfold multiUrls at hm
          split at hm
          · cases hm; simp
          · cases hm
        have : 0 < c.multiUrl.length := List.length_pos_iff.2 hu
        omega
      · intro b hb
        obtain ⟨u, -, rfl⟩ := List.mem_map.1 hb
        exact hsays u
  · rw [if_neg hu] at hbs
    have hbs : [_] = m.bs := Except.ok.inj hbs
    rw [← hbs]
    constructor
    · have : c.multiUrl = [] := by simpa using hu
      rw [this]; rfl
    · intro b hb
      rw [List.mem_singleton.1 hb]
      exact hsays _

/-- C63: the sample manifest meets the hypotheses; the attributes of the root, of its second period
and of a template of it. -/
example : (∃ out, generateXml sampleCfg sampleEnv 1000000 (sampleVod [samplePeriod]) = .ok out ∧
    (∃ M, generateMpd sampleCfg 1000000 = .ok M ∧ RootSays out M ∧
      List.Forall₂ (PeriodSays false 6 none) (named "Period" out) M.periods)) := by
  have hs : VodShape (sampleVod [samplePeriod]).kids [] none samplePeriod [] :=
    ⟨rfl, fun _ h => (by cases h), fun _ h => (by cases h), rfl, fun _ h => (by cases h)⟩
  have hr : VodRoot (sampleVod [samplePeriod]) := ⟨by decide +kernel, by decide +kernel, by decide +kernel,
    by decide +kernel⟩
  have ht : ∀ t ∈ templates samplePeriod, t = sampleTemplate := by decide +kernel
  have hp : VodPeriod sampleCfg.segDur samplePeriod := by
    refine ⟨by decide +kernel, by decide +kernel, by decide +kernel, ?_, ?_, ?_, ?_⟩
    · intro t h; rw [ht t h]; exact Or.inr ⟨by decide +kernel, rfl⟩
    · intro t h; rw [ht t h]; decide +kernel
    · intro t h; rw [ht t h]; exact ⟨"6".toList, by decide +kernel, by decide +kernel⟩
    · intro t h; rw [ht t h]; decide +kernel
  have hok : ((generateXml sampleCfg sampleEnv 1000000 (sampleVod [samplePeriod])).toOption).isSome = true := by
    decide +kernel
  cases hx : generateXml sampleCfg sampleEnv 1000000 (sampleVod [samplePeriod]) with
  | error x => rw [hx] at hok; cases hok
  | ok out =>
    refine ⟨out, rfl, ?_⟩
    obtain ⟨M, hM, h1, h2⟩ := C63_says_partial hs (by decide) (by intro t h; cases h; decide) hr hp rfl hx
    refine ⟨M, hM, h1, ?_⟩
    have e1 : M.segDur = 6 ∧ M.templateAto = none := by
      have : ((generateMpd sampleCfg 1000000).toOption.map fun M => (M.segDur, M.templateAto)) = some (6, none) := by
        decide +kernel
      rw [hM] at this
      simpa [Except.toOption] using this
    rw [e1.1, e1.2] at h2
    exact h2

/-! ### Where the text says something else -/

/-- A VoD manifest whose templates have these attributes. -/
def vodWith (period : List (String × String)) (attrs : List (String × String)) : Xml :=
  sampleVod [sampleElem "Period" period [sampleElem "AdaptationSet" [("contentType", "video")]
    [sampleElem "SegmentTemplate" attrs []]]]

/-- The attributes of the templates of a manifest. -/
def templateAttrs (name : String) (x : Xml) : List (Option Text) :=
  ((named "Period" x).flatMap templates).map fun t => t.get name.toList

/-- **C63 fails** for templates with a timescale: with 90000 units per second the presentation time
offset is written in seconds.  The first period of the manifest starts at 999660 s and its offset
is 999660 units, 11 seconds. -/
theorem C63_timescale_violation :
    ((generateXml sampleCfg sampleEnv 1000000
        (vodWith [] [("timescale", "90000"), ("duration", "540000"), ("media", "$Number$")])).toOption.map
      fun x => ((named "Period" x).map (·.get "start".toList)).take 1 ++
        (templateAttrs "presentationTimeOffset" x).take 1 ++ (templateAttrs "timescale" x).take 1) =
      some [some "PT999660S".toList, some "999660".toList, some "90000".toList] := by
  decide +kernel

/-- **C63 fails** for a template with an offset of its own in a service with one period: the offset
is to be removed, but `key in elem` (mpdprocessor.py 280) looks for a child, and it stays. -/
theorem C63_own_offset_violation :
    ((generateMpd { sampleCfg with periods := -1 } 1000000).toOption.map fun M => M.periods.map (·.pto)) =
      some [0] ∧
    ((generateXml { sampleCfg with periods := -1 } sampleEnv 1000000
        (vodWith [] [("presentationTimeOffset", "120"), ("duration", "6"), ("media", "$Number$")])).toOption.map
      (templateAttrs "presentationTimeOffset")) = some [some "120".toList] := by
  decide +kernel

/-- **C63 fails** for a VoD period with a duration: all periods but those with a duration of their
own say they are as long as the VoD content. -/
theorem C63_own_duration_violation :
    ((generateMpd sampleCfg 1000000).toOption.map fun M => M.periods.map (·.duration)) =
      some (List.replicate 7 none) ∧
    ((generateXml sampleCfg sampleEnv 1000000
        (vodWith [("duration", "PT1H")] [("duration", "6"), ("media", "$Number$")])).toOption.map
      fun x => (named "Period" x).map (·.get "duration".toList)) =
      some (List.replicate 7 (some "PT1H".toList)) := by
  decide +kernel

/-- **C63 fails** for templates in Representation elements: they are copied with the start number
of the VoD content, and without offset, into every period. -/
theorem C63_representation_violation :
    ((generateMpd sampleCfg 1000000).toOption.map fun M => M.periods.map (·.startNumber)) =
      some [some 166610, some 166620, some 166630, some 166640, some 166650, some 166660, some 166670] ∧
    ((generateXml sampleCfg sampleEnv 1000000
        (sampleVod [sampleElem "Period" [] [sampleElem "AdaptationSet" []
          [sampleElem "Representation" [] [sampleTemplate]]]])).toOption.map
      fun x => ((named "Period" x).flatMap fun y => (named "AdaptationSet" y).flatMap fun a =>
        (named "Representation" a).flatMap fun r => (named "SegmentTemplate" r).map fun t =>
          (t.get "startNumber".toList, t.get "presentationTimeOffset".toList))) =
      some (List.replicate 7 (some "1".toList, none)) := by
  decide +kernel

/-- **C63 fails** for a buffer of a day: the text of the depth is not a duration. -/
theorem C63_day_violation :
    ((generateXml { sampleCfg with periods := -1, tsbd := some 86400 } sampleEnv 1000000
        (sampleVod [samplePeriod])).toOption.map
      fun x => x.get "timeShiftBufferDepth".toList) = some (some "P1DT".toList) ∧
    ∀ n, ¬ Denotes "P1DT".toList n := by
  refine ⟨by decide +kernel, fun n => not_denotes_P1DT n⟩

/-- **C63 fails** for a negative buffer depth in a service with periods: there is no period data,
and the VoD period is sent as it is, without start. -/
theorem C63_negative_depth_violation :
    ((generateMpd { sampleCfg with tsbd := some (-7200) } 1000000).toOption.map fun M => M.periods) = some [] ∧
    ((generateXml { sampleCfg with tsbd := some (-7200) } sampleEnv 1000000
        (sampleVod [samplePeriod])).toOption.map fun x => named "Period" x) = some [samplePeriod] := by
  decide +kernel

/-- **C63 fails** for the availability time offset when the VoD manifest has a BaseURL, and in a
service with a Location: the manifest does not say that segments are available 5 s early. -/
theorem C63_base_violation :
    ((generateMpd { sampleCfg with ato := 5 } 1000000).toOption.map (·.baseAto)) = some (.value 5) ∧
    ((generateXml { sampleCfg with ato := 5 } sampleEnv 1000000
        (sampleVod [sampleElem "BaseURL" [] [], samplePeriod])).toOption.map
      fun x => (named "BaseURL" x).map (·.get "availabilityTimeOffset".toList)) = some [none] ∧
    ((generateXml { sampleCfg with ato := 5, addLocation := true, startTime := some 0, stopTime := some 2000000 }
        sampleEnv 1000000 (sampleVod [samplePeriod])).toOption.map
      fun x => named "BaseURL" x) = some [] := by
  decide +kernel

end Verif
