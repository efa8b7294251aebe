import Verif.Props.MpdContent
/-
C62: the elements of the live manifest are in the order of the schema.
-/
namespace Verif
open Spec

theorem inOrder_tags (order : List Text) (kids : List Xml) :
    InOrder order kids ↔ (kids.map Xml.tag).Pairwise (fun a b => order.idxOf a ≤ order.idxOf b) := by
  unfold InOrder; rw [List.pairwise_map]

theorem inOrder_append {order : List Text} {a b : List Xml} {n : Nat} (ha : InOrder order a) (hb : InOrder order b)
    (h1 : ∀ x ∈ a, order.idxOf x.tag ≤ n) (h2 : ∀ x ∈ b, n ≤ order.idxOf x.tag) : InOrder order (a ++ b) := by
  unfold InOrder at *
  rw [List.pairwise_append]
  exact ⟨ha, hb, fun x hx y hy => (h1 x hx).trans (h2 y hy)⟩

theorem inOrder_same {order : List Text} {a : List Xml} {t : Text} (h : ∀ x ∈ a, x.tag = t) : InOrder order a := by
  unfold InOrder
  rw [List.pairwise_iff_forall_sublist]
  intro x y hxy
  rw [h x (hxy.subset (by simp)), h y (hxy.subset (by simp))]

/-- Elements of one name before elements that do not belong before that name. -/
theorem inOrder_cons_block {order : List Text} {a b : List Xml} {t : Text} (ha : ∀ x ∈ a, x.tag = t)
    (hb : InOrder order b) (h : ∀ x ∈ b, order.idxOf t ≤ order.idxOf x.tag) : InOrder order (a ++ b) :=
  inOrder_append (inOrder_same ha) hb (fun x hx => by rw [ha x hx]) h

theorem le_mem_append {order : List Text} {a b : List Xml} {t : Text} {n : Nat} (ha : ∀ x ∈ a, x.tag = t)
    (hn : n ≤ order.idxOf t) (hb : ∀ x ∈ b, n ≤ order.idxOf x.tag) :
    ∀ x ∈ a ++ b, n ≤ order.idxOf x.tag := by
  intro x hx
  rcases List.mem_append.1 hx with hx | hx
  · rw [ha x hx]; exact hn
  · exact hb x hx

theorem PeriodRun.tags {p : ProcCfg} {d : MpdData} {cb : Option Text} {period : Xml} {last : Option Text}
    {g : Gens} {pds : List PeriodData} {ps : List Xml} (h : PeriodRun p d cb period last g pds ps) :
    ∀ x ∈ ps, x.tag = period.tag := fun x hx => (h.kept.2 x hx).1.1

/-- **C62.** The children of the live MPD element are in the order of the schema when the elements
after the VoD period are in order and, in a service with UTCTiming elements, belong after these.
Missing: elements like Metrics after the period in a service with UTCTiming (`C62_metrics_violation`). -/
theorem C62_mpd_partial {c : Cfg} {e : MpdEnv} {now : Int} {vod out : Xml} {infos rest : List Xml}
    {base : Option Xml} {period : Xml} (hs : VodShape vod.kids infos base period rest)
    (hd : 0 ≤ c.segDur) (hb : ∀ t ∈ c.tsbd, 0 ≤ t) (hr : InOrder mpdOrder rest)
    (hr1 : ∀ x ∈ rest, mpdOrder.idxOf "Period".toList ≤ mpdOrder.idxOf x.tag)
    (hr2 : (c.utc = [] ∧ c.chunkDur = none) ∨
      ∀ x ∈ rest, mpdOrder.idxOf "UTCTiming".toList ≤ mpdOrder.idxOf x.tag)
    (h : generateXml c e now vod = .ok out) : InOrder mpdOrder out.kids := by
  obtain ⟨m⟩ := generateXml_parts hs hd hb h
  rw [m.hout, Xml.kids_setKids]
  have tb := newBases_tag hs.base m.hbs
  have tl := newLocs_tag m.hls
  have ts := newServices_tag (procCfgOf c e m.tsbd now)
  have tp : ∀ x ∈ m.ps, x.tag = "Period".toList := fun x hx => (m.hps.tags x hx).trans hs.period
  have tu := utc_tags m.hus
  have i1 : mpdOrder.idxOf "ProgramInformation".toList = 0 := by decide +kernel
  have i2 : mpdOrder.idxOf "BaseURL".toList = 1 := by decide +kernel
  have i3 : mpdOrder.idxOf "Location".toList = 2 := by decide +kernel
  have i4 : mpdOrder.idxOf "ServiceDescription".toList = 4 := by decide +kernel
  have i5 : mpdOrder.idxOf "Period".toList = 9 := by decide +kernel
  have i6 : mpdOrder.idxOf "UTCTiming".toList = 13 := by decide +kernel
  have hu : InOrder mpdOrder (m.us ++ rest) := by
    rcases hr2 with ⟨h1, h2⟩ | h1
    · have : m.us = [] := by
        have h3 := m.hus
        rw [show (procCfgOf c e m.tsbd now).utc = [] by simp [procCfgOf, h1, h2]] at h3
        exact List.forall₂_nil_left_iff.1 h3
      rw [this]; exact hr
    · exact inOrder_cons_block tu hr h1
  have lu : ∀ x ∈ m.us ++ rest, 9 ≤ mpdOrder.idxOf x.tag :=
    le_mem_append tu (by omega) (by rw [← i5]; exact hr1)
  have hp := inOrder_cons_block tp hu (by rw [i5]; exact lu)
  have lp : ∀ x ∈ m.ps ++ (m.us ++ rest), 9 ≤ mpdOrder.idxOf x.tag := le_mem_append tp (by omega) lu
  have hsv := inOrder_cons_block ts hp (by intro x hx; have := lp x hx; omega)
  have lsv : ∀ x ∈ newServices (procCfgOf c e m.tsbd now) ++ (m.ps ++ (m.us ++ rest)),
      4 ≤ mpdOrder.idxOf x.tag := le_mem_append ts (by omega) (fun x hx => by have := lp x hx; omega)
  have hl := inOrder_cons_block tl hsv (by intro x hx; have := lsv x hx; omega)
  have ll := le_mem_append (order := mpdOrder) (n := 2) tl (by omega) (fun x hx => by have := lsv x hx; omega)
  have hbb := inOrder_cons_block tb hl (by intro x hx; have := ll x hx; omega)
  exact inOrder_cons_block hs.infos hbb (by intro x hx; rw [i1]; omega)

/-! ### Periods and adaptation sets -/

theorem forall₂_tags {tag : Text} {rel : Xml → Xml → Prop} (hr : ∀ a b, rel a b → b.tag = a.tag)
    {a b : List Xml} (h : List.Forall₂ (OnlyTag tag rel) a b) : b.map Xml.tag = a.map Xml.tag := by
  induction h with
  | nil => rfl
  | cons h1 _ ih => simp only [List.map_cons, ih, OnlyTag.tag hr h1]

theorem inOrder_of_tags {order : List Text} {a b : List Xml} (h : b.map Xml.tag = a.map Xml.tag)
    (ha : InOrder order a) : InOrder order b := by
  rw [inOrder_tags] at *; rw [h]; exact ha

theorem le_of_tags {order : List Text} {a b : List Xml} {n : Nat} (h : b.map Xml.tag = a.map Xml.tag)
    (ha : ∀ x ∈ a, n ≤ order.idxOf x.tag) : ∀ x ∈ b, n ≤ order.idxOf x.tag := by
  intro x hx
  have : x.tag ∈ a.map Xml.tag := by rw [← h]; exact List.mem_map_of_mem hx
  obtain ⟨y, hy, e⟩ := List.mem_map.1 this
  rw [← e]; exact ha y hy

/-- The descriptors put into an adaptation set are in order unless there are certain two of them. -/
theorem adSetNew_order {p : ProcCfg} (last ctype : Option Text)
    (h1 : ¬(p.continuous = true ∧ (p.scte35 = true ∨ p.ll.isSome = true)))
    (h2 : ¬(p.ll.isSome = true ∧ p.emsgLast = true)) :
    InOrder adSetOrder (adSetNew p last ctype) ∧
    ∀ x ∈ adSetNew p last ctype, adSetOrder.idxOf x.tag ≤ adSetOrder.idxOf "ProducerReferenceTime".toList := by
  have ht : ∀ s : Bool, ((ctype = some "video".toList ∧ p.scte35 = true) ↔ s = true) →
      (adSetNew p last ctype).map Xml.tag =
        (if s then ["InbandEventStream".toList] else []) ++
        (if p.ll.isSome then ["ProducerReferenceTime".toList] else []) ++
        (if p.continuous && last.isSome then ["SupplementalProperty".toList] else []) ++
        (if p.emsgLast then ["InbandEventStream".toList] else []) := by
    intro s hs
    unfold adSetNew
    dsimp only
    cases s with
    | true =>
      rw [if_pos (hs.2 rfl)]
      cases p.emsgLast <;> cases p.continuous <;> cases last <;> cases p.ll.isSome <;> rfl
    | false =>
      rw [if_neg (fun h => by simpa using hs.1 h)]
      cases p.emsgLast <;> cases p.continuous <;> cases last <;> cases p.ll.isSome <;> rfl
  have key : ∀ s l c o n : Bool, ¬(c = true ∧ (s = true ∨ l = true)) → ¬(l = true ∧ n = true) →
      ((if s then ["InbandEventStream".toList] else []) ++
        (if l then ["ProducerReferenceTime".toList] else []) ++
        (if c && o then ["SupplementalProperty".toList] else []) ++
        (if n then ["InbandEventStream".toList] else []) : List Text).Pairwise
          (fun a b => adSetOrder.idxOf a ≤ adSetOrder.idxOf b) ∧
      ∀ t ∈ ((if s then ["InbandEventStream".toList] else []) ++
        (if l then ["ProducerReferenceTime".toList] else []) ++
        (if c && o then ["SupplementalProperty".toList] else []) ++
        (if n then ["InbandEventStream".toList] else []) : List Text),
        adSetOrder.idxOf t ≤ adSetOrder.idxOf "ProducerReferenceTime".toList := by
    decide +kernel
  have e := ht (decide (ctype = some "video".toList ∧ p.scte35 = true)) (by simp)
  have k := key (decide (ctype = some "video".toList ∧ p.scte35 = true)) p.ll.isSome p.continuous last.isSome
    p.emsgLast (by
      rintro ⟨a, b⟩
      refine h1 ⟨a, b.imp (fun hb => ?_) id⟩
      simp only [decide_eq_true_eq] at hb
      exact hb.2) h2
  rw [inOrder_tags, e]
  refine ⟨k.1, fun x hx => k.2 _ ?_⟩
  rw [← e]
  exact List.mem_map_of_mem hx

theorem adSetStep_order {p : ProcCfg} {d : MpdData} {pd : PeriodData} {last : Option Text} {g g' : Gens}
    {x x' : Xml} (h : adSetStep p d pd last g x = .ok (x', g'))
    (h1 : ¬(p.continuous = true ∧ (p.scte35 = true ∨ p.ll.isSome = true)))
    (h2 : ¬(p.ll.isSome = true ∧ p.emsgLast = true)) (ho : InOrder adSetOrder x.kids)
    (hl : ∀ y ∈ x.kids, adSetOrder.idxOf "ProducerReferenceTime".toList ≤ adSetOrder.idxOf y.tag) :
    InOrder adSetOrder x'.kids := by
  obtain ⟨kids, rfl, hm⟩ := adSetStep_shape h
  rw [Xml.kids_setKids]
  have ht := forall₂_tags (templateKept_tag (p.tl || p.tlNr)) (hm.forall₂ (fun _ _ _ _ _ => templateStep_kept))
  obtain ⟨o1, o2⟩ := adSetNew_order last (x.get "contentType".toList) h1 h2
  exact inOrder_append o1 (inOrder_of_tags ht ho) o2 (le_of_tags ht hl)

theorem periodBase_callback {c : Cfg} {n pd nr : Int} {p : PeriodData} (h : periodBase c n pd nr = .ok p)
    (hc : p.callback = true) : 0 < c.mpdCallback := by
  by_contra hn
  unfold periodBase at h
  simp only [bind, Except.bind, pure, Except.pure] at h
  split at h
  · cases h
  · split at h
    · cases h
    · rename_i q hq
      rw [if_neg hn] at h
      cases h
      repeat' (split at hq)
      all_goals cases hq
      all_goals simp at hc

theorem periodLoop_callback {c : Cfg} {n pd a : Int} : ∀ (k : Nat) (nr : Int) {ps : List PeriodData},
    periodLoop c n pd a nr k = .ok ps → ∀ p ∈ ps, p.callback = true → 0 < c.mpdCallback := by
  intro k
  induction k with
  | zero => intro nr ps h; simp [periodLoop] at h; subst h; intro p hp; cases hp
  | succ k ih =>
    intro nr ps h
    unfold periodLoop at h
    cases hb : periodBase c n pd nr with
    | error e => simp [hb, bind, Except.bind] at h
    | ok p =>
      cases hl : periodLoop c n pd a (nr + 1) k with
      | error e => simp [hb, hl, bind, Except.bind] at h
      | ok rest =>
        simp only [hb, hl, bind, Except.bind, pure, Except.pure, Except.ok.injEq] at h
        subst h
        intro q hq hc
        rcases List.mem_cons.1 hq with rfl | hq
        · refine periodBase_callback hb ?_
          split at hc
          · exact hc
          · unfold finishPeriod at hc
            dsimp only at hc
            split at hc <;> split at hc <;> exact hc
        · exact ih (nr + 1) hl q hq hc

/-- Callbacks are in the periods of a service with callbacks only. -/
theorem periodData_callback {c : Cfg} {now : Int} {ps : List PeriodData} (h : periodData c now = .ok ps) :
    ∀ p ∈ ps, p.callback = true → 0 < c.mpdCallback := by
  unfold periodData at h
  dsimp only at h
  split at h
  · cases h
  · simp only [bind, Except.bind] at h
    split at h
    · cases h
    · split at h
      · split at h
        · cases h
        · split at h
          · cases h
          · cases h
            intro p hp hc; rw [List.mem_singleton.1 hp] at hc; simp at hc
      · split at h
        · split at h
          · cases h
          · cases h
            intro p hp hc; rw [List.mem_singleton.1 hp] at hc; simp at hc
        · split at h
          · cases h
          · exact periodLoop_callback _ _ h

/-- What holds of every period, with its data. -/
theorem PeriodRun.all {p : ProcCfg} {d : MpdData} {cb : Option Text} {period : Xml} {last : Option Text}
    {g : Gens} {pds : List PeriodData} {ps : List Xml} (h : PeriodRun p d cb period last g pds ps) :
    ∀ x ∈ ps, ∃ pd ∈ pds, ∃ rest last g s', periodStep p d cb ⟨pd :: rest, last, g⟩ period = .ok (x, s') := by
  induction h with
  | nil => intro x hx; cases hx
  | cons h _ ih =>
    intro x hx
    rcases List.mem_cons.1 hx with rfl | hx
    · exact ⟨_, List.mem_cons_self .., _, _, _, _, h⟩
    · obtain ⟨pd, hpd, r⟩ := ih x hx
      exact ⟨pd, List.mem_cons_of_mem _ hpd, r⟩

theorem named_append (tag : String) (x : Xml) (a b : List Xml) :
    named tag (x.setKids (a ++ b)) = named tag (x.setKids a) ++ named tag (x.setKids b) := by
  unfold named; rw [Xml.kids_setKids, Xml.kids_setKids, Xml.kids_setKids, List.filter_append]

theorem named_nil {tag : String} {a : List Xml} (x : Xml) (h : ∀ y ∈ a, y.tag ≠ tag.toList) :
    named tag (x.setKids a) = [] := by
  unfold named
  rw [Xml.kids_setKids, List.filter_eq_nil_iff]
  intro y hy
  simpa using h y hy

theorem named_all {tag : String} {a : List Xml} (x : Xml) (h : ∀ y ∈ a, y.tag = tag.toList) :
    named tag (x.setKids a) = a := by
  unfold named
  rw [Xml.kids_setKids, List.filter_eq_self]
  intro y hy
  simpa using h y hy

/-- The periods of the manifest. -/
theorem MpdParts.periods {c : Cfg} {e : MpdEnv} {now : Int} {vod out : Xml} {infos rest : List Xml}
    {base : Option Xml} {period : Xml} (hs : VodShape vod.kids infos base period rest)
    (m : MpdParts c e now vod infos base period rest out) : named "Period" out = m.ps := by
  refine (congrArg (named "Period") m.hout).trans ?_
  rw [named_append, named_append, named_append, named_append, named_append, named_append,
    named_nil _ (fun y hy => by rw [hs.infos y hy]; decide +kernel),
    named_nil _ (fun y hy => by rw [newBases_tag hs.base m.hbs y hy]; decide +kernel),
    named_nil _ (fun y hy => by rw [newLocs_tag m.hls y hy]; decide +kernel),
    named_nil _ (fun y hy => by rw [newServices_tag _ y hy]; decide +kernel),
    named_all _ (fun y hy => (m.hps.tags y hy).trans hs.period),
    named_nil _ (fun y hy => by rw [utc_tags m.hus y hy]; decide +kernel),
    named_nil _ hs.rest]
  simp

theorem ll_isSome {c : Cfg} {e : MpdEnv} {t now : Int} (h : (procCfgOf c e t now).ll.isSome = true) :
    c.chunkDur ≠ none := by
  intro hc
  have : (if c.chunkDur.isNone then (none : Option Text) else some (fText c.ato)).isSome = true := h
  rw [hc] at this
  cases this

theorem periodNew_order {d : MpdData} {cb : Option Text} {pd : PeriodData} {new : List Xml}
    (h : periodNew d cb pd = .ok new) (h0 : ¬(d.offsetAtPeriod = true ∧ pd.callback = true)) :
    InOrder periodOrder new ∧ ∀ x ∈ new, periodOrder.idxOf x.tag ≤ periodOrder.idxOf "EventStream".toList := by
  constructor
  · unfold periodNew at h
    dsimp only at h
    split at h
    · rename_i hc
      rw [if_neg (fun hq => h0 ⟨hq.2, hc⟩)] at h
      split at h
      · cases h
      · cases h; exact List.pairwise_singleton ..
    · cases h
      split
      · exact List.pairwise_singleton ..
      · exact List.Pairwise.nil
  · intro x hx
    have := periodNew_tag h x hx
    rcases List.mem_cons.1 this with e | e
    · rw [e]; decide +kernel
    · rw [List.mem_singleton.1 e]

/-- **C62.** The children of every live period and of its adaptation sets are in the order of the
schema when those of the VoD period are and come after the added elements, the period offset option
is not used together with callbacks, period continuity not with SCTE-35 or low latency, and an
event stream for the last segment not with low latency.
Missing: these combinations (`C62_period_violation`, `C62_adaptation_set_violation`). -/
theorem C62_period_partial {c : Cfg} {e : MpdEnv} {now : Int} {vod out : Xml} {infos rest : List Xml}
    {base : Option Xml} {period : Xml} (hs : VodShape vod.kids infos base period rest)
    (hd : 0 ≤ c.segDur) (hb : ∀ t ∈ c.tsbd, 0 ≤ t) (ho : InOrder periodOrder period.kids)
    (hl : ∀ y ∈ period.kids, periodOrder.idxOf "EventStream".toList ≤ periodOrder.idxOf y.tag)
    (hao : ∀ a ∈ named "AdaptationSet" period, InOrder adSetOrder a.kids ∧
      ∀ y ∈ a.kids, adSetOrder.idxOf "ProducerReferenceTime".toList ≤ adSetOrder.idxOf y.tag)
    (h0 : ¬(0 ≤ c.periodOffset ∧ 0 < c.mpdCallback))
    (h1 : ¬(c.contMultiperiod = true ∧ (0 < c.scte35 ∨ c.chunkDur ≠ none)))
    (h2 : ¬(c.chunkDur ≠ none ∧ c.emsgLastSeg = true))
    (h : generateXml c e now vod = .ok out) :
    ∀ x ∈ named "Period" out, InOrder periodOrder x.kids ∧
      ∀ a ∈ named "AdaptationSet" x, InOrder adSetOrder a.kids := by
  obtain ⟨m⟩ := generateXml_parts hs hd hb h
  rw [m.periods hs]
  intro x hx
  obtain ⟨pd, hpd, rest', last, g, s', hstep⟩ := m.hps.all x hx
  obtain ⟨new, kids, g', hn, rfl, -, hm⟩ := periodStep_shape hstep
  have hcall := periodData_callback m.hpds pd hpd
  have ht := forall₂_tags (adSetKept_tag (c.segTimeline || c.segTimelineNr))
    (hm.forall₂ (fun _ _ _ _ _ => adSetStep_kept))
  obtain ⟨o1, o2⟩ := periodNew_order hn (fun hq => h0 ⟨of_decide_eq_true hq.1, hcall hq.2⟩)
  constructor
  · rw [Xml.kids_setKids]
    exact inOrder_append o1 (inOrder_of_tags ht ho) o2 (le_of_tags ht hl)
  · intro a ha
    rw [named_append, named_nil _ (fun y hy => by
      have := periodNew_tag hn y hy
      intro e
      rw [e] at this
      revert this
      decide +kernel), List.nil_append] at ha
    obtain ⟨hak, hat⟩ := List.mem_filter.1 ha
    rw [Xml.kids_setKids] at hak
    have hr := hm.forall₂ (rel := fun x x' => InOrder adSetOrder x.kids →
      (∀ y ∈ x.kids, adSetOrder.idxOf "ProducerReferenceTime".toList ≤ adSetOrder.idxOf y.tag) →
      x'.tag = x.tag ∧ InOrder adSetOrder x'.kids) (fun g y y' g' _ hy o1 o2 =>
        ⟨(adSetStep_kept hy).1.1, adSetStep_order hy
          (by
            rintro ⟨q1, q2⟩
            refine h1 ⟨q1, ?_⟩
            rcases q2 with q2 | q2
            · exact .inl (of_decide_eq_true q2)
            · exact .inr (ll_isSome q2))
          (by
            rintro ⟨q1, q2⟩
            exact h2 ⟨ll_isSome q1, q2⟩)
          o1 o2⟩)
    have hao' : ∀ y ∈ period.kids, y.tag = "AdaptationSet".toList → InOrder adSetOrder y.kids ∧
        ∀ z ∈ y.kids, adSetOrder.idxOf "ProducerReferenceTime".toList ≤ adSetOrder.idxOf z.tag := by
      intro y hy hyt
      exact hao y (List.mem_filter.2 ⟨hy, by rw [hyt]; decide +kernel⟩)
    have hat' := mem_named ha
    clear hm ht hao ha hat ho hl hx hstep
    generalize period.kids = l at hr hao'
    induction hr with
    | nil => cases hak
    | @cons y y' l1 l2 hy _ ih =>
      rcases List.mem_cons.1 hak with rfl | hak
      · by_cases hyt : y.tag = "AdaptationSet".toList
        · obtain ⟨q1, q2⟩ := hao' y (List.mem_cons_self ..) hyt
          exact (hy.1 hyt q1 q2).2
        · have e := hy.2 hyt
          rw [e] at hat'
          exact absurd hat' hyt
      · exact ih hak (fun z hz => hao' z (List.mem_cons_of_mem _ hz))

/-- The hypotheses of C62 are met by the VoD manifest of the other examples. -/
example : InOrder periodOrder samplePeriod.kids ∧
    (∀ y ∈ samplePeriod.kids, periodOrder.idxOf "EventStream".toList ≤ periodOrder.idxOf y.tag) ∧
    (∀ a ∈ named "AdaptationSet" samplePeriod, InOrder adSetOrder a.kids ∧
      ∀ y ∈ a.kids, adSetOrder.idxOf "ProducerReferenceTime".toList ≤ adSetOrder.idxOf y.tag) ∧
    InOrder mpdOrder ([] : List Xml) ∧
    (generateXml { sampleCfg with utc := ["head".toList, "ntp".toList], scte35 := 1, contMultiperiod := false }
      sampleEnv 1000000 (sampleVod [samplePeriod])).toOption.isSome = true := by
  decide +kernel

/-- **C62 fails** for a VoD manifest with Metrics after the period in a service with UTCTiming
elements: these are put directly after the periods (mpdprocessor.py 208), the schema wants them
after Metrics. -/
theorem C62_metrics_violation :
    InOrder mpdOrder (sampleVod [samplePeriod, sampleElem "Metrics" [] []]).kids ∧
    (generateXml { sampleCfg with utc := ["httpiso".toList] } sampleEnv 1000000
      (sampleVod [samplePeriod, sampleElem "Metrics" [] []])).toOption.map
        (fun x => decide (InOrder mpdOrder x.kids)) = some false := by
  decide +kernel

/-- **C62 fails** for a VoD manifest with two periods: the second is left as it is, after the
UTCTiming elements and without a start. -/
theorem C62_two_periods_violation :
    InOrder mpdOrder (sampleVod [samplePeriod, samplePeriod]).kids ∧
    (generateXml { sampleCfg with periods := -1, utc := ["httpiso".toList] } sampleEnv 1000000
      (sampleVod [samplePeriod, samplePeriod])).toOption.map
        (fun x => (x.kids.map Xml.tag, (named "Period" x).map (·.get "start".toList))) =
      some (["BaseURL".toList, "Period".toList, "UTCTiming".toList, "Period".toList],
        [some "PT0S".toList, none]) := by
  decide +kernel

/-- **C62 fails** for periods with a callback and the offset at period level: the EventStream is put
before the SegmentBase (mpdprocessor.py 332-339). -/
theorem C62_period_violation :
    (generateXml { sampleCfg with periodOffset := 0, mpdCallback := 60 } sampleEnv 1000000
      (sampleVod [samplePeriod])).toOption.map
        (fun x => ((named "Period" x).map fun y => (y.kids.map Xml.tag, decide (InOrder periodOrder y.kids))).head?) =
      some (some (["EventStream".toList, "SegmentBase".toList, "AdaptationSet".toList, "AdaptationSet".toList],
        false)) := by
  decide +kernel

/-- **C62 fails** for a VoD period with a BaseURL and the offset at period level: the SegmentBase is
put before the BaseURL (mpdprocessor.py 294-299). -/
theorem C62_baseurl_violation :
    InOrder periodOrder [sampleElem "BaseURL" [] [], sampleElem "AdaptationSet" [] []] ∧
    (generateXml { sampleCfg with periodOffset := 0 } sampleEnv 1000000
      (sampleVod [sampleElem "Period" [] [sampleElem "BaseURL" [] [], sampleElem "AdaptationSet" [] []]])).toOption.map
        (fun x => ((named "Period" x).map fun y => (y.kids.map Xml.tag, decide (InOrder periodOrder y.kids))).head?) =
      some (some (["SegmentBase".toList, "BaseURL".toList, "AdaptationSet".toList], false)) := by
  decide +kernel

/-- **C62 fails** for the adaptation sets of continuous periods in a low-latency service: the
ProducerReferenceTime is put before the SupplementalProperty (mpdprocessor.py 352-358).  With
SCTE-35 the InbandEventStream is before it too. -/
theorem C62_adaptation_set_violation :
    (generateXml { sampleCfg with chunkDur := some 1, ato := 5, scte35 := 1 } sampleEnv 1000000
      (sampleVod [samplePeriod])).toOption.map
        (fun x => (((named "Period" x).drop 1).flatMap fun y => (named "AdaptationSet" y).map fun a =>
          (a.kids.map Xml.tag, decide (InOrder adSetOrder a.kids))).take 2) =
      some [(["ProducerReferenceTime".toList, "SupplementalProperty".toList, "SegmentTemplate".toList,
          "Representation".toList], false),
        (["InbandEventStream".toList, "ProducerReferenceTime".toList, "SupplementalProperty".toList,
          "SegmentTemplate".toList, "Representation".toList], false)] := by
  decide +kernel

/-- **C62 fails** for a protected adaptation set in a service with SCTE-35: the InbandEventStream is
put before ContentProtection (mpdprocessor.py 349). -/
theorem C62_protection_violation :
    InOrder adSetOrder [sampleElem "ContentProtection" [] [], sampleTemplate] ∧
    (generateXml { sampleCfg with scte35 := 1 } sampleEnv 1000000
      (sampleVod [sampleElem "Period" [] [sampleElem "AdaptationSet" [("contentType", "video")]
        [sampleElem "ContentProtection" [] [], sampleTemplate]]])).toOption.map
        (fun x => ((named "Period" x).flatMap fun y => (named "AdaptationSet" y).map fun a =>
          (a.kids.map Xml.tag, decide (InOrder adSetOrder a.kids))).head?) =
      some (some (["InbandEventStream".toList, "ContentProtection".toList, "SegmentTemplate".toList], false)) := by
  decide +kernel

end Verif
