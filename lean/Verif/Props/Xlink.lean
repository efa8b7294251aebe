import Verif.Lemmas.XlinkTarget
import Verif.Xlink
/-
C71: periods that are given by links.
-/
namespace Verif
open Spec

/-! ### The manifest -/

theorem checkXlink_divides {c : Cfg} (hp : 0 < c.periods) (hx : 0 < c.xlink) (hd : min c.xlink 60 ∣ min c.periods 60) :
    checkXlink c = .ok () ∧ Int.fdiv (min c.periods 60) (min c.xlink 60) = min c.periods 60 / min c.xlink 60 ∧
      min c.periods 60 / min c.xlink 60 ≠ 0 := by
  have h1 : 0 < min c.periods 60 := by omega
  have h2 : 0 < min c.xlink 60 := by omega
  refine ⟨?_, Int.fdiv_eq_ediv_of_nonneg _ (by omega), ?_⟩
  · unfold checkXlink
    dsimp only
    rw [if_neg (by omega), if_neg, if_neg (by omega)]
    rintro ⟨_, h⟩
    exact h (Int.emod_eq_zero_of_dvd hd)
  · exact (Int.ediv_pos_of_pos_of_dvd h1 (by omega) hd).ne'

theorem lossText_plain {c : Cfg} {e : MpdEnv} {now : Int} {vod : Xml} {t : Text} (hm : c.multiUrl = [])
    (ht : generateText c e now vod = .ok t) : lossText c e now vod = .ok t := by
  unfold lossText timelineLoss
  rw [ht, hm]
  rfl

theorem generateText_eq {c : Cfg} {e : MpdEnv} {now : Int} {vod x : Xml}
    (hx : generateXml c e now vod = .ok x) : generateText c e now vod = .ok (fullXml x) := by
  unfold generateText
  rw [hx]
  rfl

/-- The children of a manifest whose links are made from its text. -/
structure Linkable (x : Xml) (t u : Text) : Prop where
  writable : Writable dashUri x
  base : OneBaseUrl dashUri x u
  period : ∀ k ∈ x.kids, isPeriod dashUri k = true → PeriodOk dashUri k
  first : ∀ k ∈ x.kids, isPeriod dashUri k = true → MentionedFirst t (idAttr k)

theorem Linkable.ready {x : Xml} {u : Text} (h : Linkable x (fullXml x) u) (ht : x.tag = "MPD".toList) :
    ∃ a y ks, x = .elem "MPD".toList a y ks ∧ LinkReady a y ks u := by
  obtain ⟨t, a, y, ks⟩ := x
  have ht : t = "MPD".toList := ht
  subst ht
  exact ⟨a, y, ks, rfl, h.writable, h.base, h.period, h.first⟩

/-- **C71.** With links (`xlink_`) and without ads, a reader of the reply to the request for the manifest gets the
manifest with those periods given by links whose number is a multiple of the number of periods for one
link; all else is the same.  The link of a period is the text of `BaseURL`, the name of the manifest,
`+`, the id of the period, and `.period`.
Missing: manifests whose text cannot be cut with the code's simple rules.  There must be one
`BaseURL` without attributes (`C71_base_violation`), periods must have their id as the first attribute
(`C71_attribute_violation`), the id must not be mentioned before its period (`C71_mention_violation`), and the name of the manifest must need no
references (`C71_name_violation`). -/
theorem C71_links_partial {c : Cfg} {e : MpdEnv} {now : Int} {files : Text → Py Xml} {vod x : Xml} {t u : Text}
    (hext : c.ext = ".mpd".toList) (hv : files c.filename = .ok vod)
    (hx : generateXml c e now vod = .ok x) (ht : generateText c e now vod = .ok t)
    (hm : c.multiUrl = []) (hp : 0 < c.periods) (hl : 0 < c.xlink) (hd : min c.xlink 60 ∣ min c.periods 60)
    (had : c.insertAd ≤ 0) (hk : Linkable x t u) (hf : NeedsNoReference c.filename)
    (hfresh : x.kids.Pairwise (fun k k' => isPeriod dashUri k = true → isPeriod dashUri k' = true →
      ¬idAttr k' <:+: u ++ c.filename ++ "+".toList ++ idAttr k ++ ".period".toList)) :
    ∃ reply, getMpdText c e now files = .ok reply ∧
      readXml reply = some (rootEvents dashUri x (linkedKids dashUri
        (fun i => decide (min c.periods 60 / min c.xlink 60 ∣ i))
        (fun pid => u ++ c.filename ++ "+".toList ++ pid ++ ".period".toList) x.kids)) := by
  obtain ⟨h1, h2, h3⟩ := checkXlink_divides hp hl hd
  have ht' := lossText_plain hm ht
  rw [generateText_eq hx] at ht
  cases ht
  obtain ⟨a, y, ks, rfl, hr⟩ := hk.ready (generateXml_tag hx)
  obtain ⟨reply, e1, e2⟩ := linkManifest_links hr (n := min c.periods 60) (x := min c.xlink 60) had
    (by rw [h2]; exact h3) hf
    (fun k k' hs => List.pairwise_iff_forall_sublist.mp hfresh hs)
  rw [h2] at e2
  refine ⟨reply, ?_, e2⟩
  have hne : ¬c.ext = ".period".toList := by rw [hext]; decide +kernel
  unfold getMpdText manifestName
  rw [if_neg hne, if_pos hext, h1]
  simp only [bind, Except.bind]
  rw [hv]
  simp only
  rw [ht']
  simp only
  rw [if_pos (by omega), if_pos hext]
  exact e1

/-- **C71.** With ads, a reader of the reply to the request for the manifest gets the manifest with
the asset identifier of the main content in every period that stays; among the periods
whose number is a multiple of the number of periods for one link, all but the first are links to the ad, which with
`insertad_5` have the content of the period in case the ad cannot be had.
Missing: as for `C71_links_partial`. -/
theorem C71_ads_partial {c : Cfg} {e : MpdEnv} {now : Int} {files : Text → Py Xml} {vod x : Xml} {t u : Text}
    (hext : c.ext = ".mpd".toList) (hv : files c.filename = .ok vod)
    (hx : generateXml c e now vod = .ok x) (ht : generateText c e now vod = .ok t)
    (hm : c.multiUrl = []) (hp : 0 < c.periods) (hl : 0 < c.xlink) (hd : min c.xlink 60 ∣ min c.periods 60)
    (had : c.insertAd = 1 ∨ c.insertAd = 2 ∨ c.insertAd = 3 ∨ c.insertAd = 4 ∨ c.insertAd = 5) (hk : Linkable x t u) :
    ∃ reply, getMpdText c e now files = .ok reply ∧
      readXml reply = some (rootEvents dashUri x (adKids dashUri
        (fun i => decide (min c.periods 60 / min c.xlink 60 ∣ i)) (adEvents dashUri c.insertAd) false x.kids)) := by
  obtain ⟨h1, h2, h3⟩ := checkXlink_divides hp hl hd
  have ht' := lossText_plain hm ht
  rw [generateText_eq hx] at ht
  cases ht
  obtain ⟨a, y, ks, rfl, hr⟩ := hk.ready (generateXml_tag hx)
  obtain ⟨reply, e1, e2⟩ := linkManifest_ads hr (n := min c.periods 60) (x := min c.xlink 60) had
    (by rw [h2]; exact h3) c.filename
  rw [h2] at e2
  refine ⟨reply, ?_, e2⟩
  have hne : ¬c.ext = ".period".toList := by rw [hext]; decide +kernel
  unfold getMpdText manifestName
  rw [if_neg hne, if_pos hext, h1]
  simp only [bind, Except.bind]
  rw [hv]
  simp only
  rw [ht']
  simp only
  rw [if_pos (by omega), if_pos hext]
  exact e1

/-! ### The period -/

theorem locationStep_other {p : ProcCfg} (h : p.addLocation = false) (f : Text) (ks : List Xml) (n : Nat) :
    locationStep { p with fullUrl := f } ks n = locationStep p ks n := by
  unfold locationStep
  rw [if_neg (by simpa using h), if_neg (by simpa using h)]

theorem insertUtc_other (p : ProcCfg) (f : Text) (u : List Text) (ks : List Xml) (n : Nat) :
    insertUtc { p with fullUrl := f } u n ks = insertUtc p u n ks := by
  induction u generalizing ks n with
  | nil => rfl
  | cons a u ih => unfold insertUtc; simp only [ih]; rfl

theorem processMpd_other {p : ProcCfg} (h : p.addLocation = false) (d : MpdData) (f : Text) (pds : List PeriodData)
    (vod : Xml) : processMpd { p with fullUrl := f } d pds vod = processMpd p d pds vod := by
  have o1 : ∀ ks, baseUrlStep { p with fullUrl := f } d ks = baseUrlStep p d ks := fun _ => rfl
  have o2 : ∀ ks n, serviceStep { p with fullUrl := f } ks n = serviceStep p ks n := fun _ _ => rfl
  have o4 : ∀ ks, updatePeriods { p with fullUrl := f } d pds ks = updatePeriods p d pds ks := fun _ => rfl
  have o5 : processRoot { p with fullUrl := f } d vod = processRoot p d vod := rfl
  unfold processMpd processKids
  simp only [locationStep_other h, insertUtc_other, o1, o2, o4, o5]

theorem periodLoop_file (rel file ext : Text) (reps : List Rep) (c : Cfg) (n pd ad : Int) : ∀ (k : Nat) (nr : Int),
    periodLoop (withFile rel file ext reps c) n pd ad nr k = periodLoop c n pd ad nr k := by
  have e : ∀ nr, periodBase (withFile rel file ext reps c) n pd nr = periodBase c n pd nr := fun _ => rfl
  intro k
  induction k with
  | zero => intro nr; rfl
  | succ k ih => intro nr; unfold periodLoop; simp only [ih, e]

theorem periodData_file (rel file ext : Text) (reps : List Rep) (c : Cfg) (now : Int) :
    periodData (withFile rel file ext reps c) now = periodData c now := by
  unfold periodData
  simp only [periodLoop_file]
  rfl

/-- The manifest does not depend on the file that is asked for. -/
theorem generateXml_file {c : Cfg} (hl : c.addLocation = false) (rel file ext : Text) (reps : List Rep)
    (e : MpdEnv) {parts : List Text} (hparts : parts.take (e.pos + 1) = e.parts.take (e.pos + 1)) (now : Int) (vod : Xml) :
    generateXml (withFile rel file ext reps c) { e with parts := parts } now vod = generateXml c e now vod := by
  have hb : MpdEnv.baseUrl { e with parts := parts } = e.baseUrl := by
    unfold MpdEnv.baseUrl
    rw [hparts]
  unfold generateXml
  have e1 : (withFile rel file ext reps c).tsbd = c.tsbd := rfl
  have e2 : (withFile rel file ext reps c).adjustedStartNumber = c.adjustedStartNumber := rfl
  have e3 : periodData (withFile rel file ext reps c) now = periodData c now := periodData_file ..
  have e4 : ∀ tsbd, procCfgOf (withFile rel file ext reps c) { e with parts := parts } tsbd now =
      { procCfgOf c e tsbd now with fullUrl := MpdEnv.fullUrl { e with parts := parts } } := fun _ => rfl
  have e5 : ∀ tsbd, mpdDataOf (withFile rel file ext reps c) { e with parts := parts } tsbd now =
      mpdDataOf c e tsbd now := by
    intro tsbd
    have : mpdDataOf (withFile rel file ext reps c) { e with parts := parts } tsbd now =
      { mpdDataOf c e tsbd now with baseUrl := MpdEnv.baseUrl { e with parts := parts } } := rfl
    rw [this, hb]
    rfl
  have e6 : ∀ tsbd pds, processMpd { procCfgOf c e tsbd now with fullUrl := MpdEnv.fullUrl { e with parts := parts } }
      (mpdDataOf c e tsbd now) pds vod = processMpd (procCfgOf c e tsbd now) (mpdDataOf c e tsbd now) pds vod :=
    fun tsbd pds => processMpd_other hl _ _ _ _
  rw [e1, e2, e3]
  simp only [e4, e5, e6]

theorem splitext_period {b : Text} (hb : ¬b.all (· = '.')) : (splitext (b ++ ".period".toList)).2 = ".period".toList := by
  have e1 : ".period".toList = '.' :: "period".toList := by decide +kernel
  have e2 : ((b ++ ".period".toList).reverse.takeWhile (· ≠ '.')).reverse = "period".toList := by
    rw [e1, List.reverse_append, List.reverse_cons, List.append_assoc, List.takeWhile_append_of_pos]
    · simp
    · decide +kernel
  have hl : "period".toList.length = 6 := by decide +kernel
  have hl2 : ".period".toList.length = 7 := by decide +kernel
  unfold splitext
  dsimp only
  rw [e2, List.length_append, hl, hl2, if_neg (by omega)]
  have e3 : b.length + 7 - 6 - 1 = b.length := by omega
  rw [e3, List.take_left, if_neg hb, List.drop_left]

theorem modest_namespaces {x : Xml} (hw : Writable dashUri x)
    (hx : Everywhere (fun t a _ => ModestNamespaces t a) x) : ∀ q ∈ namespacesOf x, ¬"xmlns=".toList <:+: q.1 := by
  intro q hq
  rcases foldUri_keys _ _ q hq with h | h
  · simp at h
  · refine everywhere_uriOk (S := fun u => ¬"xmlns=".toList <:+: u) (by decide +kernel) x ?_ q.1 h
    exact everywhere_mono (fun t a x h => ⟨⟨h.1.1, h.2.1⟩, fun p hp => ⟨(h.1.2.1 p hp).1, h.2.2 p hp⟩⟩)
      (everywhere_and x hw hx)

/-- **C71.** The link of a period leads back to the server, with the URL parts of the request for the
manifest.  The reply to that request at the same time is the period of the manifest: a reader gets
exactly that element.
Missing: as for `C71_links_partial`; periods with elements or attributes of other namespaces
(`C71_namespace_violation`), and requests after the period has left the manifest (`C71_late_violation`). -/
theorem C71_target_partial {pf : Text → Option Rat} {vodOf : Text → Py VodCfg} {c : Cfg} {e : MpdEnv} {now : Int}
    {files : Text → Py Xml} {vod x : Xml} {t u : Text} {infos rest : List Xml} {base : Option Xml} {period : Xml}
    (hs : VodShape vod.kids infos base period rest) (hrb : ∀ x ∈ rest, x.tag ≠ "BaseURL".toList)
    (hsd : 0 ≤ c.segDur) (htb : ∀ t ∈ c.tsbd, 0 ≤ t) {opts : List Text} {name s : Text}
    (ho : ∀ p ∈ opts, (partSlot p).isSome) (hn : partSlot name = none)
    (hslash : ∀ p ∈ opts ++ [name, c.filename], '/' ∉ p) (hplus : '+' ∉ c.filename)
    (hparts : e.parts = opts ++ [name, c.filename])
    (hpos : e.pos = opts.length) (hstart : e.start = s ++ "/".toList)
    (hu : processUrl pf vodOf (opts ++ [name, c.filename]) now = .ok c) (hl : c.addLocation = false)
    (hv : files c.filename = .ok vod)
    (hx : generateXml c e now vod = .ok x) (ht : generateText c e now vod = .ok t)
    (hm : c.multiUrl = []) (hp : 0 < c.periods) (hxl : 0 < c.xlink) (hd : min c.xlink 60 ∣ min c.periods 60)
    (hk : Linkable x t u) (hns : Everywhere (fun t a _ => ModestNamespaces t a) x)
    {k : Xml} (hkm : k ∈ x.kids) (hkp : isPeriod dashUri k = true)
    (hpl : Everywhere (fun t a _ => PlainNames dashUri t a) k) :
    LeadsTo s (u ++ (c.filename ++ "+".toList ++ idAttr k ++ ".period".toList))
        (opts ++ [name, c.filename ++ "+".toList ++ idAttr k ++ ".period".toList]) ∧
      ∃ c', processUrl pf vodOf (opts ++ [name, c.filename ++ "+".toList ++ idAttr k ++ ".period".toList]) now = .ok c' ∧
        ∃ reply, getMpdText c'
          { e with parts := opts ++ [name, c.filename ++ "+".toList ++ idAttr k ++ ".period".toList] } now files = .ok reply ∧
          readXml reply = some (treeEvents dashUri k) := by
  obtain ⟨h1, h2, h3⟩ := checkXlink_divides hp hxl hd
  obtain ⟨b, hb1, hb2⟩ := base_text hs hrb hsd htb hparts hpos hstart hl hm hx
  have hub : u = b.text := by
    obtain ⟨A, B, hAB, _⟩ := hk.base
    have : Xml.elem "BaseURL".toList [] u [] ∈ named "BaseURL" x := by
      unfold named
      rw [hAB]
      exact List.mem_filter.mpr ⟨by simp, by simp [Xml.tag]⟩
    rw [hb1, List.mem_singleton] at this
    rw [← this]
    rfl
  have hpo := hk.period k hkm hkp
  have hid : IsId (idAttr k) := ⟨_, hpo.2.2.2.1⟩
  generalize hf' : c.filename ++ "+".toList ++ idAttr k ++ ".period".toList = file'
  have hno : '/' ∉ file' := by
    rw [← hf']
    intro hmem
    simp only [List.mem_append] at hmem
    rcases hmem with ((hmem | hmem) | hmem) | hmem
    · exact hslash c.filename (by simp) hmem
    · exact absurd hmem (by decide +kernel)
    · exact hid.not_mem (by decide) (by decide) (by decide) hmem
    · exact absurd hmem (by decide +kernel)
  obtain ⟨hu', -, -⟩ := processUrl_beside ho hn hu file'
  have hext : (splitext file').2 = ".period".toList := by
    rw [← hf']
    refine splitext_period (fun hall => ?_)
    have := List.all_eq_true.mp hall '+' (List.mem_append_left _ (List.mem_append_right _ (by decide +kernel)))
    exact absurd this (by decide)
  rw [hext] at hu'
  refine ⟨?_, _, hu', ?_⟩
  · rw [hub, hb2]
    refine leadsTo_path (path := [file']) (by simp) (fun p hp => hslash p ?_) (by simpa using hno)
    rcases List.mem_append.mp hp with hp | hp
    · exact List.mem_append_left _ hp
    · exact List.mem_append_right _ (List.mem_cons.mpr (.inl (by simpa using hp)))
  · have hgx : generateXml (withFile [] file' ".period".toList [] c) { e with parts := opts ++ [name, file'] } now vod = .ok x := by
      rw [generateXml_file hl, hx]
      rw [hparts, hpos]
      simp [List.take_append]
    rw [generateText_eq hx] at ht
    cases ht
    obtain ⟨a, y, ks, rfl, hr⟩ := hk.ready (generateXml_tag hx)
    obtain ⟨reply, e1, e2⟩ := linkedPeriod_reads hr (modest_namespaces hk.writable hns) hkm hkp hpl hplus
    rw [hf'] at e1
    refine ⟨reply, ?_, e2⟩
    have hname : manifestName (withFile [] file' ".period".toList [] c) = .ok c.filename := by
      have e3 : file' = c.filename ++ '+' :: (idAttr k ++ ".period".toList) := by
        have e1 : "+".toList = ['+'] := by decide +kernel
        rw [← hf', e1]; simp
      have hn' : ∀ x ∈ c.filename, x ≠ '+' := by
        rintro x hx rfl
        exact hplus hx
      unfold manifestName
      rw [if_pos (by rfl)]
      show (match splitChar '+' file' with
        | name :: _ => Except.ok name
        | [] => Except.error PyErr.indexError) = _
      rw [e3, splitChar_sep hn']
    have ht' := lossText_plain (c := withFile [] file' ".period".toList [] c) hm (generateText_eq hgx)
    have hck : checkXlink (withFile [] file' ".period".toList [] c) = .ok () := h1
    unfold getMpdText
    rw [hname, hck]
    simp only [bind, Except.bind]
    rw [hv]
    simp only
    rw [ht']
    simp only
    have g1 : 0 < min (withFile [] file' ".period".toList [] c).xlink 60 := by
      show 0 < min c.xlink 60
      omega
    have g2 : ¬(withFile [] file' ".period".toList [] c).ext = ".mpd".toList := by
      show ¬".period".toList = ".mpd".toList
      decide +kernel
    rw [if_pos g1, if_neg g2]
    exact e1

/-! ### Examples and violations -/

theorem findAt_none {sub : Text} : ∀ {t : Text}, findAt sub t = none → ¬sub <:+: t
  | [], h, hi => by
    rw [List.infix_nil] at hi
    subst hi
    simp [findAt] at h
  | c :: cs, h, hi => by
    rw [findAt] at h
    split at h
    · cases h
    · rename_i hp
      rw [Option.map_eq_none_iff] at h
      rcases List.infix_cons_iff.mp hi with hi | hi
      · exact hp (List.isPrefixOf_iff_prefix.mpr hi)
      · exact findAt_none h hi

theorem findAt_first {sub : Text} : ∀ {t : Text} {i : Nat}, findAt sub t = some i → ∀ j < i, ¬sub <+: t.drop j
  | [], i, h, j, hj, hp => by
    unfold findAt at h
    split at h
    · cases h; omega
    · cases h
  | c :: cs, i, h, j, hj, hp => by
    rw [findAt] at h
    split at h
    · cases h; omega
    · rename_i hp'
      rw [Option.map_eq_some_iff] at h
      obtain ⟨i', hi', rfl⟩ := h
      cases j with
      | zero => exact hp' (List.isPrefixOf_iff_prefix.mpr hp)
      | succ j => exact findAt_first hi' j (by omega) hp

/-- The first mention of an id is in the start of its period, and there is no second such start. -/
def mentionCheck (t pid : Text) : Bool :=
  match findAt pid t with
  | some n => 12 ≤ n && (periodStart pid).isPrefixOf (t.drop (n - 12)) && (findAt (periodStart pid) (t.drop (n - 11))).isNone
  | none => false

theorem mentionCheck_ok {t pid : Text} (h : mentionCheck t pid = true) : MentionedFirst t pid := by
  unfold mentionCheck at h
  cases hf : findAt pid t with
  | none => rw [hf] at h; cases h
  | some n =>
    rw [hf] at h
    simp only [Bool.and_eq_true, decide_eq_true_eq, Option.isNone_iff_eq_none] at h
    obtain ⟨⟨h12, hp⟩, hnone⟩ := h
    obtain ⟨m, rfl⟩ : ∃ m, n = m + 12 := ⟨n - 12, by omega⟩
    rw [show m + 12 - 11 = m + 1 by omega] at hnone
    have hnone := findAt_none hnone
    have hl : "<Period id=\"".toList.length = 12 := by decide +kernel
    have hlen : (periodStart pid).length = 12 + pid.length + 1 := by
      unfold periodStart
      rw [List.length_append, List.length_append, hl]
      rfl
    intro i _ hi
    have him : i = m := by
      rcases Nat.lt_trichotomy i m with hlt | heq | hgt
      · exfalso
        refine findAt_first hf (i + 12) (by omega) ?_
        have e : periodStart pid = "<Period id=\"".toList ++ (pid ++ "\"".toList) := by unfold periodStart; simp
        rw [e] at hi
        obtain ⟨r, hr⟩ := hi
        rw [← List.drop_drop, ← hr, List.append_assoc, ← hl, List.drop_left]
        exact (List.prefix_append pid "\"".toList).trans (List.prefix_append _ _)
      · exact heq
      · exfalso
        refine hnone ?_
        have e : t.drop i = (t.drop (m + 1)).drop (i - (m + 1)) := by
          rw [List.drop_drop]; congr 1; omega
        rw [e] at hi
        exact hi.isInfix.trans (List.drop_suffix _ _).isInfix
    subst him
    refine ⟨?_, ?_⟩
    · rintro ⟨a, b, hab⟩
      refine findAt_first hf a.length ?_ ?_
      · have := congrArg List.length hab
        simp only [List.length_append, List.length_take] at this
        omega
      · rw [← List.take_append_drop i t, ← hab]
        simp only [List.append_assoc, List.drop_left]
        exact List.prefix_append _ _
    · intro hinf
      refine hnone (hinf.trans ?_)
      have e : t.drop (i + (periodStart pid).length) = (t.drop (i + 1)).drop (12 + pid.length) := by
        rw [List.drop_drop, hlen]; congr 1; omega
      rw [e]
      exact (List.drop_suffix _ _).isInfix

mutual

/-- Whether something holds everywhere. -/
def decEverywhere {P : Text → List (Text × Text) → Text → Prop} (d : ∀ t a x, Decidable (P t a x)) :
    (x : Xml) → Decidable (Everywhere P x)
  | .elem t a x ks =>
    have := d t a x
    have := decEverywhereAll d ks
    inferInstanceAs (Decidable (P t a x ∧ EverywhereAll P ks))

/-- The same for a list of trees. -/
def decEverywhereAll {P : Text → List (Text × Text) → Text → Prop} (d : ∀ t a x, Decidable (P t a x)) :
    (ks : List Xml) → Decidable (EverywhereAll P ks)
  | [] => .isTrue trivial
  | k :: ks =>
    have := decEverywhere d k
    have := decEverywhereAll d ks
    inferInstanceAs (Decidable (Everywhere P k ∧ EverywhereAll P ks))

end

instance {P : Text → List (Text × Text) → Text → Prop} [d : ∀ t a x, Decidable (P t a x)] (x : Xml) :
    Decidable (Everywhere P x) := decEverywhere d x
instance {P : Text → List (Text × Text) → Text → Prop} [d : ∀ t a x, Decidable (P t a x)] (ks : List Xml) :
    Decidable (EverywhereAll P ks) := decEverywhereAll d ks
instance (d : Text) (k : Xml) : Decidable (PeriodOk d k) := inferInstanceAs (Decidable (_ ∧ _))
instance (t : Text) : Decidable (SameInAttribute t) := inferInstanceAs (Decidable (_ ∧ _))
instance (t : Text) : Decidable (NeedsNoReference t) := inferInstanceAs (Decidable (_ ∧ _))
instance (d t : Text) (a : List (Text × Text)) : Decidable (PlainNames d t a) := inferInstanceAs (Decidable (_ ∧ _))
instance (t : Text) (a : List (Text × Text)) : Decidable (ModestNamespaces t a) := inferInstanceAs (Decidable (_ ∧ _))

/-- A test for manifests whose first child is their BaseURL. -/
def linkableCheck (x : Xml) (t u : Text) : Bool :=
  decide (Writable dashUri x ∧ x.kids.head? = some (.elem "BaseURL".toList [] u []) ∧ u ≠ [] ∧ SameInAttribute u ∧
    EverywhereAll (fun t _ _ => manifestTag dashUri t ≠ (some dashUri, "BaseURL".toList)) (x.kids.drop 1) ∧
    ∀ k ∈ x.kids, isPeriod dashUri k = true → PeriodOk dashUri k ∧ mentionCheck t (idAttr k) = true)

theorem linkableCheck_ok {x : Xml} {t u : Text} (h : linkableCheck x t u = true) : Linkable x t u := by
  obtain ⟨h1, h2, h3, h4, h5, h6⟩ := of_decide_eq_true h
  refine ⟨h1, ⟨[], x.kids.drop 1, ?_, h3, h4, trivial, h5⟩, fun k hm h => (h6 k hm h).1,
    fun k hm h => mentionCheck_ok (h6 k hm h).2⟩
  cases hk : x.kids with
  | nil => rw [hk] at h2; cases h2
  | cons k ks =>
    rw [hk] at h2
    cases h2
    rfl

/-- Content with one manifest. -/
def oneFile (vod : Xml) (name : Text) : Py Xml := if name = "Manifest.mpd".toList then .ok vod else .error .configError

/-- The reply for a URL with manifests. -/
def linkReply (start : String) (parts : List String) (pos : Nat) (now : Int) (vod : Xml) : Py Text :=
  match processUrl (fun _ => none) vod6 (parts.map String.toList) now with
  | .error e => .error e
  | .ok c => getMpdText c { sampleEnv with start := start.toList, parts := parts.map String.toList, pos := pos } now
      (oneFile vod)

/-- The options of the examples: every second period of one minute is a link. -/
def linkParts (file : String) : List String := ["tsbd_30", "periods_60", "xlink_30", "testpic", file]

/-- The configuration, tree and text of the manifest for a URL. -/
def linkCase (parts : List String) (pos : Nat) (now : Int) (P : Cfg → Xml → Text → Bool) : Bool :=
  match processUrl (fun _ => none) vod6 (parts.map String.toList) now with
  | .error _ => false
  | .ok c =>
    match generateXml c { sampleEnv with parts := parts.map String.toList, pos := pos } now (sampleVod [samplePeriod]) with
    | .error _ => false
    | .ok x =>
      match generateText c { sampleEnv with parts := parts.map String.toList, pos := pos } now (sampleVod [samplePeriod]) with
      | .error _ => false
      | .ok t => P c x t

theorem linkCase_ok {parts : List String} {pos : Nat} {now : Int} {P : Cfg → Xml → Text → Bool}
    (h : linkCase parts pos now P = true) : ∃ c x t,
      processUrl (fun _ => none) vod6 (parts.map String.toList) now = .ok c ∧
      generateXml c { sampleEnv with parts := parts.map String.toList, pos := pos } now (sampleVod [samplePeriod]) = .ok x ∧
      generateText c { sampleEnv with parts := parts.map String.toList, pos := pos } now (sampleVod [samplePeriod]) = .ok t ∧
      P c x t = true := by
  unfold linkCase at h
  split at h
  · cases h
  · rename_i c hc
    split at h
    · cases h
    · rename_i x hx
      split at h
      · cases h
      · rename_i t ht
        exact ⟨c, x, t, hc, hx, ht, h⟩

/-- C71: a service to which the theorems about links apply, with two periods and one link. -/
example : ∃ c x t, processUrl (fun _ => none) vod6 ((linkParts "Manifest.mpd").map String.toList) 1000000 = .ok c ∧
    generateXml c { sampleEnv with parts := (linkParts "Manifest.mpd").map String.toList, pos := 3 } 1000000
      (sampleVod [samplePeriod]) = .ok x ∧
    generateText c { sampleEnv with parts := (linkParts "Manifest.mpd").map String.toList, pos := 3 } 1000000
      (sampleVod [samplePeriod]) = .ok t ∧
    Linkable x t "http://h/livesim/tsbd_30/periods_60/xlink_30/testpic/".toList ∧
    c.ext = ".mpd".toList ∧ c.filename = "Manifest.mpd".toList ∧
    c.multiUrl = [] ∧ 0 < c.periods ∧ 0 < c.xlink ∧ min c.xlink 60 ∣ min c.periods 60 ∧ c.insertAd ≤ 0 ∧
    c.addLocation = false ∧ NeedsNoReference c.filename ∧
    x.kids.Pairwise (fun k k' => isPeriod dashUri k = true → isPeriod dashUri k' = true →
      ¬idAttr k' <:+: "http://h/livesim/tsbd_30/periods_60/xlink_30/testpic/".toList ++ c.filename ++ "+".toList ++
        idAttr k ++ ".period".toList) ∧
    Everywhere (fun t a _ => ModestNamespaces t a) x ∧
    (x.kids.filter (isPeriod dashUri)).map idAttr = ["p16666".toList, "p16667".toList] ∧
    ∀ k ∈ x.kids, isPeriod dashUri k = true → Everywhere (fun t a _ => PlainNames dashUri t a) k := by
  obtain ⟨c, x, t, h1, h2, h3, h⟩ := linkCase_ok (parts := linkParts "Manifest.mpd") (pos := 3) (now := 1000000)
    (P := fun c x t => linkableCheck x t "http://h/livesim/tsbd_30/periods_60/xlink_30/testpic/".toList &&
      decide (c.ext = ".mpd".toList ∧ c.filename = "Manifest.mpd".toList ∧
    c.multiUrl = [] ∧ 0 < c.periods ∧ 0 < c.xlink ∧ min c.xlink 60 ∣ min c.periods 60 ∧ c.insertAd ≤ 0 ∧
    c.addLocation = false ∧ NeedsNoReference c.filename ∧
    x.kids.Pairwise (fun k k' => isPeriod dashUri k = true → isPeriod dashUri k' = true →
      ¬idAttr k' <:+: "http://h/livesim/tsbd_30/periods_60/xlink_30/testpic/".toList ++ c.filename ++ "+".toList ++
        idAttr k ++ ".period".toList) ∧
    Everywhere (fun t a _ => ModestNamespaces t a) x ∧
    (x.kids.filter (isPeriod dashUri)).map idAttr = ["p16666".toList, "p16667".toList] ∧
    ∀ k ∈ x.kids, isPeriod dashUri k = true → Everywhere (fun t a _ => PlainNames dashUri t a) k))
    (by decide +kernel)
  rw [Bool.and_eq_true] at h
  exact ⟨c, x, t, h1, h2, h3, linkableCheck_ok h.1, of_decide_eq_true h.2⟩

/-- C71: the links of that service, and the reply to the link. -/
example : ((linkReply "http://h/livesim/" (linkParts "Manifest.mpd") 3 1000000 (sampleVod [samplePeriod])).toOption.map
      (fun t => decide ("<Period xlink:href=\"http://h/livesim/tsbd_30/periods_60/xlink_30/testpic/Manifest.mpd+p16666.period\"".toList
        <:+: t)),
    (linkReply "http://h/livesim/" (linkParts "Manifest.mpd+p16666.period") 3 1000000 (sampleVod [samplePeriod])).toOption.map
      (fun t => String.ofList (t.take 78))) =
    (some true, some "<Period id=\"p16666\" start=\"PT999960S\" xmlns=\"urn:mpeg:dash:schema:mpd:2011\"><A") := by
  decide +kernel

/-- The options of the example with ads. -/
def adParts : List String := ["tsbd_30", "periods_60", "xlink_60", "insertad_1", "testpic", "Manifest.mpd"]

/-- C71: a service with ads. -/
example : ∃ c x t, processUrl (fun _ => none) vod6 (adParts.map String.toList) 1000000 = .ok c ∧
    generateXml c { sampleEnv with parts := adParts.map String.toList, pos := 4 } 1000000
      (sampleVod [samplePeriod]) = .ok x ∧
    generateText c { sampleEnv with parts := adParts.map String.toList, pos := 4 } 1000000
      (sampleVod [samplePeriod]) = .ok t ∧
    Linkable x t "http://h/livesim/tsbd_30/periods_60/xlink_60/insertad_1/testpic/".toList ∧
    c.ext = ".mpd".toList ∧ c.filename = "Manifest.mpd".toList ∧
    c.multiUrl = [] ∧ 0 < c.periods ∧ 0 < c.xlink ∧ min c.xlink 60 ∣ min c.periods 60 ∧ c.insertAd = 1 := by
  obtain ⟨c, x, t, h1, h2, h3, h⟩ := linkCase_ok (parts := adParts) (pos := 4) (now := 1000000)
    (P := fun c x t => linkableCheck x t "http://h/livesim/tsbd_30/periods_60/xlink_60/insertad_1/testpic/".toList &&
      decide (c.ext = ".mpd".toList ∧ c.filename = "Manifest.mpd".toList ∧
    c.multiUrl = [] ∧ 0 < c.periods ∧ 0 < c.xlink ∧ min c.xlink 60 ∣ min c.periods 60 ∧ c.insertAd = 1))
    (by decide +kernel)
  rw [Bool.and_eq_true] at h
  exact ⟨c, x, t, h1, h2, h3, linkableCheck_ok h.1, of_decide_eq_true h.2⟩

/-- The same with default content. -/
def defaultParts : List String := ["tsbd_30", "periods_60", "xlink_60", "insertad_5", "testpic", "Manifest.mpd"]

/-- C71: a service with ads that have default content. -/
example : ∃ c x t, processUrl (fun _ => none) vod6 (defaultParts.map String.toList) 1000000 = .ok c ∧
    generateXml c { sampleEnv with parts := defaultParts.map String.toList, pos := 4 } 1000000
      (sampleVod [samplePeriod]) = .ok x ∧
    generateText c { sampleEnv with parts := defaultParts.map String.toList, pos := 4 } 1000000
      (sampleVod [samplePeriod]) = .ok t ∧
    Linkable x t "http://h/livesim/tsbd_30/periods_60/xlink_60/insertad_5/testpic/".toList ∧
    c.ext = ".mpd".toList ∧ c.filename = "Manifest.mpd".toList ∧
    c.multiUrl = [] ∧ 0 < c.periods ∧ 0 < c.xlink ∧ min c.xlink 60 ∣ min c.periods 60 ∧ c.insertAd = 5 := by
  obtain ⟨c, x, t, h1, h2, h3, h⟩ := linkCase_ok (parts := defaultParts) (pos := 4) (now := 1000000)
    (P := fun c x t => linkableCheck x t "http://h/livesim/tsbd_30/periods_60/xlink_60/insertad_5/testpic/".toList &&
      decide (c.ext = ".mpd".toList ∧ c.filename = "Manifest.mpd".toList ∧
    c.multiUrl = [] ∧ 0 < c.periods ∧ 0 < c.xlink ∧ min c.xlink 60 ∣ min c.periods 60 ∧ c.insertAd = 5))
    (by decide +kernel)
  rw [Bool.and_eq_true] at h
  exact ⟨c, x, t, h1, h2, h3, linkableCheck_ok h.1, of_decide_eq_true h.2⟩

/-- C71: the second period of that service is a link with the content of the period. -/
example : (linkReply "http://h/livesim/" defaultParts 4 1000000 (sampleVod [samplePeriod])).toOption.map
      (fun t => decide ("<Period xlink:href=\"http://vm1.dashif.org/dynamicxlink/ad.php?id=6_ad\" xlink:actuate=\"onLoad\" xmlns:xlink=\"http://www.w3.org/1999/xlink\">\n<!--Default content that will be played if the xlink is not able to load.--><AdaptationSet".toList
        <:+: t)) = some true := by
  decide +kernel

/-- **C71 fails** when `BaseURL` is left out (with relative times) or has attributes (with an availability time offset): the code does
not find it, and the request is answered with an internal error instead of a manifest. -/
theorem C71_base_violation :
    linkReply "http://h/livesim/" ["tsbd_30", "periods_60", "xlink_30", "startrel_-20", "stoprel_40", "testpic",
      "Manifest.mpd"] 5 1000000 (sampleVod [samplePeriod]) = .error .indexError ∧
    linkReply "http://h/livesim/" ["tsbd_30", "periods_60", "xlink_30", "ato_inf", "testpic",
      "Manifest.mpd"] 4 1000000 (sampleVod [samplePeriod]) = .error .indexError := by
  decide +kernel

/-- **C71 fails** when the period of the VoD manifest has another attribute before its id: the code counts the
characters of `<Period id="` back from the id and cuts the attribute in two; a reader rejects the reply. -/
theorem C71_attribute_violation :
    (linkReply "http://h/livesim/" (linkParts "Manifest.mpd") 3 1000000
      (sampleVod [.elem "Period".toList (("start".toList, "PT0S".toList) :: samplePeriod.attrs) [] samplePeriod.kids])).toOption.map
      (fun t => (readXml t).isSome) = some false := by
  decide +kernel

/-- **C71 fails** when the id of a period is mentioned before the period, here in the name of the server: the code
cuts the manifest at that place, and a reader rejects the reply. -/
theorem C71_mention_violation :
    (linkReply "http://hp16666/livesim/" (linkParts "Manifest.mpd") 3 1000000
      (sampleVod [samplePeriod])).toOption.map (fun t => (readXml t).isSome) = some false := by
  decide +kernel

/-- **C71 fails** when the period has an element of another namespace: its prefix is declared in the
manifest, not in the period, and a reader rejects the reply to the link. -/
theorem C71_namespace_violation :
    (linkReply "http://h/livesim/" (linkParts "Manifest.mpd+p16666.period") 3 1000000
      (sampleVod [.elem "Period".toList samplePeriod.attrs []
        (samplePeriod.kids ++ [.elem "{urn:mpeg:cenc:2013}pssh".toList [] "AAAA".toList []])])).toOption.map
      (fun t => (readXml t).isSome) = some false := by
  decide +kernel

/-- **C71 fails** for a link that is followed after its period has left the manifest: the reply is not a
period and no error, but text from elsewhere, here nothing at all. -/
theorem C71_late_violation :
    linkReply "http://h/livesim/" (linkParts "Manifest.mpd+p16666.period") 3 1000200 (sampleVod [samplePeriod]) = .ok [] := by
  decide +kernel

/-- **C71 fails** when the name of the manifest has an ampersand: it is written to the link without a
reference, and a reader rejects the reply. -/
theorem C71_name_violation :
    (match processUrl (fun _ => none) vod6 ((linkParts "a&b.mpd").map String.toList) 1000000 with
      | .error _ => none
      | .ok c => (getMpdText c { sampleEnv with parts := (linkParts "a&b.mpd").map String.toList, pos := 3 } 1000000
          (fun _ => .ok (sampleVod [samplePeriod]))).toOption.map (fun t => (readXml t).isSome)) = some false := by
  decide +kernel

end Verif
