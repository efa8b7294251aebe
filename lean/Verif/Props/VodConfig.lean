import Verif.Lemmas.Ini
import Verif.Props.MpdProfiles
import Verif.Media
/-
C76: what the analyser writes into the configuration file of the content is what the server reads.
-/
namespace Verif

theorem find_of_nodup {α : Type} {l : List (Text × α)} (h : (l.map (·.1)).Nodup) {a b : Text × α} (ha : a ∈ l) (hb : b ∈ l)
    (e : a.1 = b.1) : a = b := by
  induction l with
  | nil => cases ha
  | cons x xs ih =>
    rw [List.map_cons, List.nodup_cons] at h
    have key : ∀ c ∈ xs, c.1 ≠ x.1 := fun c hc e => h.1 (List.mem_map.mpr ⟨c, hc, e⟩)
    rcases List.mem_cons.mp ha with ha' | ha'
    · rcases List.mem_cons.mp hb with hb' | hb'
      · rw [ha', hb']
      · exact absurd (by rw [← e, ha']) (key b hb')
    · rcases List.mem_cons.mp hb with hb' | hb'
      · exact absurd (by rw [e, hb']) (key a ha')
      · exact ih h.2 ha' hb'

theorem strip_joined {c : Char} (hc : isPySpace c = false) {a b : Text} (ha : pyStrip a = a) (hb : pyStrip b = b) :
    pyStrip (a ++ c :: b) = a ++ c :: b := by
  rw [pyStrip_eq]
  have e : (a ++ c :: b).dropWhile isPySpace = a ++ c :: b := by
    cases a with
    | nil => show (c :: b).dropWhile isPySpace = _; rw [List.dropWhile_cons, if_neg (by simp [hc])]; rfl
    | cons x xs =>
      have h := stripped_left ha
      rw [List.dropWhile_cons] at h
      split at h
      · have := dropWhile_length_le (p := isPySpace) xs
        rw [h] at this
        simp at this
      · rename_i hx
        show (x :: (xs ++ c :: b)).dropWhile isPySpace = _
        rw [List.dropWhile_cons, if_neg hx]
        rfl
  rw [e, rstrip_mid _ _ hc, stripped_right hb]

theorem joined_ok {c : Char} (hc : isPySpace c = false) : ∀ {l : List Text}, (∀ t ∈ l, ValueOk t) →
    ValueOk (joinWith c l) := by
  have hl : OneLine [c] := by
    constructor
    · intro h; simp at h; subst h; revert hc; decide
    · intro h; simp at h; subst h; revert hc; decide
  intro l
  induction l with
  | nil => intro _; exact ⟨(by decide : OneLine []), rfl⟩
  | cons a r ih =>
    intro h
    cases r with
    | nil => exact h a List.mem_cons_self
    | cons b r =>
      have h1 := h a List.mem_cons_self
      have h2 := ih (fun t ht => h t (List.mem_cons_of_mem _ ht))
      refine ⟨?_, strip_joined hc h1.2 h2.2⟩
      show OneLine (a ++ ([c] ++ joinWith c (b :: r)))
      exact h1.1.append (hl.append h2.1)

theorem map_strip {l : List Text} (h : ∀ t ∈ l, pyStrip t = t) : l.map pyStrip = l := by
  rw [List.map_congr_left h, List.map_id']

/-- The content types that can be written. -/
def writtenTypes : List Text := ["video".toList, "audio".toList, "subtitles".toList]

/-- An entry of a content type that is read as written: at least one representation, identities
without comma, line break and space at the ends, the total duration known and a name of the table
without line break and space at the ends. -/
structure EntryOk (y : MediaEntry) : Prop where
  some_rep : y.reps ≠ []
  ids : ∀ r ∈ y.reps, ',' ∉ r ∧ OneLine r ∧ pyStrip r = r
  total : ∃ n, y.total = some n
  dat : ∃ t, y.dat = some t ∧ OneLine t ∧ pyStrip t = t

/-- The section of an entry. -/
def entrySection (m : Text) (y : MediaEntry) : Text × List (Text × Text) :=
  (m, [("representations".toList, joinWith ',' y.reps), ("timescale".toList, intText y.timescale),
      ("total_duration".toList, intText (y.total.getD 0)), ("dat_file".toList, y.dat.getD [])])

theorem mediaSections_eq {media : List (Text × MediaEntry)} (h : ∀ y ∈ media, EntryOk y.2) (ts : List Text) :
    mediaSections media ts = .ok (ts.filterMap fun m =>
      (media.find? fun y => decide (y.1 = m)).map fun y => entrySection m y.2) := by
  induction ts with
  | nil => rfl
  | cons m ms ih =>
    unfold mediaSections
    cases hf : media.find? fun y => decide (y.1 = m) with
    | none => simp only []; rw [ih, List.filterMap_cons, hf]; rfl
    | some y =>
      have hy := h y (List.mem_of_find?_eq_some hf)
      obtain ⟨n, hn⟩ := hy.total
      obtain ⟨t, ht, _⟩ := hy.dat
      simp only []
      have e : mediaSection m y.2 = .ok (entrySection m y.2) := by
        unfold mediaSection entrySection
        rw [hn, ht]
        rfl
      rw [e, ih, List.filterMap_cons, hf]
      rfl

theorem intText_ok (n : Int) : ValueOk (intText n) := by
  have hd : ∀ c ∈ intText n, c = '-' ∨ IsDigit c := by
    intro c hc
    unfold intText at hc
    split at hc
    · rcases List.mem_cons.mp hc with h | h
      · exact Or.inl h
      · exact Or.inr (natText_digits _ c h)
    · exact Or.inr (natText_digits _ c hc)
  have hs : ∀ c ∈ intText n, isPySpace c = false := by
    intro c hc
    rcases hd c hc with h | h
    · subst h; decide
    · exact h.not_space
  refine ⟨⟨fun h => ?_, fun h => ?_⟩, pyStrip_of_noSpace hs⟩
  · exact absurd (hs _ h) (by decide)
  · exact absurd (hs _ h) (by decide)

theorem keys_ok : ∀ k ∈ ["representations".toList, "timescale".toList, "total_duration".toList, "dat_file".toList,
    "default_tsbd_secs".toList, "segment_duration_s".toList, "nr_segments_in_loop".toList,
    "first_segment_in_loop".toList, "version".toList], KeyOk k := by decide +kernel

theorem entrySection_ok {m : Text} {y : MediaEntry} (h : EntryOk y) :
    ∀ z ∈ (entrySection m y).2, KeyOk z.1 ∧ ValueOk z.2 := by
  intro z hz
  obtain ⟨t, ht, h1, h2⟩ := h.dat
  unfold entrySection at hz
  simp only [List.mem_cons, List.not_mem_nil, or_false] at hz
  rcases hz with rfl | rfl | rfl | rfl
  · exact ⟨keys_ok _ (by simp), joined_ok (by decide) (fun r hr => ⟨(h.ids r hr).2.1, (h.ids r hr).2.2⟩)⟩
  · exact ⟨keys_ok _ (by simp), intText_ok _⟩
  · exact ⟨keys_ok _ (by simp), intText_ok _⟩
  · exact ⟨keys_ok _ (by simp), by rw [ht]; exact ⟨h1, h2⟩⟩

/-- The two sections that are always there. -/
def headIni (d : VodData) (f : Int) : Ini :=
  [("General".toList, [("version".toList, "1.1".toList)]),
    ("Setup".toList, [("default_tsbd_secs".toList, intText (d.tsbd.getD 300)),
        ("segment_duration_s".toList, intText (d.segDurS.getD 0)),
        ("nr_segments_in_loop".toList, intText (d.nrSegs.getD 0)),
        ("first_segment_in_loop".toList, intText f)])]

/-- The sections of the content types. -/
def tailIni (media : List (Text × MediaEntry)) : Ini :=
  writtenTypes.filterMap fun m => (media.find? fun y => decide (y.1 = m)).map fun y => entrySection m y.2

theorem configIni_eq {d : VodData} {f : Int} (hf : d.firstSeg = some f) (h : ∀ y ∈ d.media, EntryOk y.2) :
    configIni d = .ok (headIni d f ++ tailIni d.media) := by
  unfold configIni
  rw [mediaSections_eq h, hf]
  rfl

theorem tailIni_names (media : List (Text × MediaEntry)) : ((tailIni media).map (·.1)).Sublist writtenTypes := by
  unfold tailIni
  have : ∀ ts : List Text, ((ts.filterMap fun m =>
      (media.find? fun y => decide (y.1 = m)).map fun y => entrySection m y.2).map (·.1)).Sublist ts := by
    intro ts
    induction ts with
    | nil => exact List.Sublist.refl _
    | cons m ms ih =>
      rw [List.filterMap_cons]
      cases media.find? fun y => decide (y.1 = m) with
      | none => exact ih.cons _
      | some y => exact ih.cons_cons _
  exact this _

theorem iniOk_config (d : VodData) (f : Int) (h : ∀ y ∈ d.media, EntryOk y.2) :
    IniOk (headIni d f ++ tailIni d.media) := by
  have hsub := tailIni_names d.media
  have hmem : ∀ s ∈ tailIni d.media, ∃ m ∈ writtenTypes, ∃ y ∈ d.media, s = entrySection m y.2 := by
    intro s hs
    obtain ⟨m, hm, e⟩ := List.mem_filterMap.mp hs
    cases hf : d.media.find? fun y => decide (y.1 = m) with
    | none => rw [hf] at e; cases e
    | some y => rw [hf] at e; cases e; exact ⟨m, hm, y, List.mem_of_find?_eq_some hf, rfl⟩
  refine ⟨?_, ?_, ?_, ?_⟩
  · rw [List.map_append]
    apply List.Nodup.sublist (l₂ := (headIni d f).map (·.1) ++ writtenTypes) (hsub.append_left _)
    show (["General".toList, "Setup".toList] ++ writtenTypes).Nodup
    decide +kernel
  · intro s hs
    rcases List.mem_append.mp hs with hs | hs
    · simp only [headIni, List.mem_cons, List.not_mem_nil, or_false] at hs
      have hw : ∀ m ∈ ["General".toList, "Setup".toList], m ≠ [] ∧ OneLine m := by decide +kernel
      rcases hs with rfl | rfl
      · exact hw "General".toList (by simp)
      · exact hw "Setup".toList (by simp)
    · obtain ⟨m, hm, y, _, rfl⟩ := hmem s hs
      have : ∀ m ∈ writtenTypes, m ≠ [] ∧ OneLine m := by decide +kernel
      exact this m hm
  · intro s hs
    rcases List.mem_append.mp hs with hs | hs
    · simp only [headIni, List.mem_cons, List.not_mem_nil, or_false] at hs
      rcases hs with rfl | rfl
      · show ["version".toList].Nodup; decide +kernel
      · show ["default_tsbd_secs".toList, "segment_duration_s".toList, "nr_segments_in_loop".toList,
          "first_segment_in_loop".toList].Nodup
        decide +kernel
    · obtain ⟨m, hm, y, _, rfl⟩ := hmem s hs
      show ["representations".toList, "timescale".toList, "total_duration".toList, "dat_file".toList].Nodup
      decide +kernel
  · intro s hs
    rcases List.mem_append.mp hs with hs | hs
    · simp only [headIni, List.mem_cons, List.not_mem_nil, or_false] at hs
      rcases hs with rfl | rfl
      · intro z hz
        simp only [List.mem_cons, List.not_mem_nil, or_false] at hz
        subst hz
        exact ⟨by decide +kernel, by decide +kernel⟩
      · intro z hz
        simp only [List.mem_cons, List.not_mem_nil, or_false] at hz
        rcases hz with rfl | rfl | rfl | rfl <;> exact ⟨keys_ok _ (by simp), intText_ok _⟩
    · obtain ⟨m, hm, y, hy, rfl⟩ := hmem s hs
      exact entrySection_ok (h y hy)

theorem find_tail {media : List (Text × MediaEntry)} {m : Text} (hm : m ∈ writtenTypes) :
    ((tailIni media).find? fun s => decide (s.1 = m)) =
      (media.find? fun y => decide (y.1 = m)).map fun y => entrySection m y.2 := by
  have : ∀ ts : List Text, ts.Nodup → m ∈ ts → (((ts.filterMap fun m =>
      (media.find? fun y => decide (y.1 = m)).map fun y => entrySection m y.2)).find? fun s => decide (s.1 = m)) =
      (media.find? fun y => decide (y.1 = m)).map fun y => entrySection m y.2 := by
    intro ts hnd hmt
    induction ts with
    | nil => cases hmt
    | cons t ts ih =>
      rw [List.nodup_cons] at hnd
      rw [List.filterMap_cons]
      by_cases e : t = m
      · subst e
        cases hf : media.find? fun y => decide (y.1 = t) with
        | none =>
          simp only [Option.map_none]
          rw [List.find?_eq_none]
          intro s hs
          obtain ⟨u, hu, he⟩ := List.mem_filterMap.mp hs
          cases hg : media.find? fun y => decide (y.1 = u) with
          | none => rw [hg] at he; cases he
          | some y =>
            rw [hg] at he
            cases he
            simp only [decide_eq_true_iff]
            intro e
            have e : u = t := e
            exact hnd.1 (e ▸ hu)
        | some y =>
          simp only [Option.map_some]
          rw [List.find?_cons_of_pos]
          exact decide_eq_true rfl
      · have hmt' : m ∈ ts := by
          rcases List.mem_cons.mp hmt with h | h
          · exact absurd h.symm e
          · exact h
        cases hf : media.find? fun y => decide (y.1 = t) with
        | none => simp only [Option.map_none]; exact ih hnd.2 hmt'
        | some y =>
          simp only [Option.map_some]
          rw [List.find?_cons_of_neg]
          · exact ih hnd.2 hmt'
          · simp only [decide_eq_true_iff]; exact e
  exact this _ (by decide +kernel) hm

theorem find_tail_none {media : List (Text × MediaEntry)} {m : Text} (hm : m ∉ writtenTypes) :
    ((tailIni media).find? fun s => decide (s.1 = m)) = none := by
  rw [List.find?_eq_none]
  intro s hs e
  apply hm
  have := (tailIni_names media).subset (List.mem_map.mpr ⟨s, hs, rfl⟩)
  rw [decide_eq_true_iff] at e
  rw [← e]
  exact this

theorem get_head (d : VodData) (f : Int) (t : Ini) (m o : Text)
    (h1 : m ≠ "General".toList) (h2 : m ≠ "Setup".toList) (s : Text × List (Text × Text))
    (hs : (t.find? fun s => decide (s.1 = m)) = some s) (v : Text × Text)
    (hv : (s.2.find? fun z => decide (z.1 = o)) = some v) : Ini.get (headIni d f ++ t) m o = some v.2 := by
  unfold Ini.get
  have e : ((headIni d f ++ t).find? fun y => decide (y.1 = m)) = some s := by
    show ((("General".toList, _) :: ("Setup".toList, _) :: t).find? fun y => decide (y.1 = m)) = some s
    rw [List.find?_cons_of_neg, List.find?_cons_of_neg, hs]
    · simp only [decide_eq_true_iff]; exact fun e => h2 e.symm
    · simp only [decide_eq_true_iff]; exact fun e => h1 e.symm
  rw [e]
  simp only []
  rw [hv]

theorem get_none (d : VodData) (f : Int) (t : Ini) (m o : Text)
    (h1 : m ≠ "General".toList) (h2 : m ≠ "Setup".toList)
    (hs : (t.find? fun s => decide (s.1 = m)) = none) : Ini.get (headIni d f ++ t) m o = none := by
  unfold Ini.get
  have e : ((headIni d f ++ t).find? fun y => decide (y.1 = m)) = none := by
    show ((("General".toList, _) :: ("Setup".toList, _) :: t).find? fun y => decide (y.1 = m)) = none
    rw [List.find?_cons_of_neg, List.find?_cons_of_neg, hs]
    · simp only [decide_eq_true_iff]; exact fun e => h2 e.symm
    · simp only [decide_eq_true_iff]; exact fun e => h1 e.symm
  rw [e]

theorem readMedia_written {d : VodData} {f : Int} (h : ∀ y ∈ d.media, EntryOk y.2) {m : Text} (hm : m ∈ possibleMedia) :
    readMedia (headIni d f ++ tailIni d.media) true m =
      .ok (if m ∈ writtenTypes then (d.media.find? fun y => decide (y.1 = m)).map (·.2) else none) := by
  have hg : ∀ m ∈ possibleMedia, m ≠ "General".toList ∧ m ≠ "Setup".toList := by decide +kernel
  obtain ⟨h1, h2⟩ := hg m hm
  by_cases hw : m ∈ writtenTypes
  · rw [if_pos hw]
    cases hf : d.media.find? fun y => decide (y.1 = m) with
    | none =>
      have ht : ((tailIni d.media).find? fun s => decide (s.1 = m)) = none := by rw [find_tail hw, hf]; rfl
      unfold readMedia
      rw [get_none d f _ _ _ h1 h2 ht]
      rfl
    | some y =>
      have hy := h y (List.mem_of_find?_eq_some hf)
      have ht : ((tailIni d.media).find? fun s => decide (s.1 = m)) = some (entrySection m y.2) := by
        rw [find_tail hw, hf]; rfl
      obtain ⟨n, hn⟩ := hy.total
      obtain ⟨t, ht', _⟩ := hy.dat
      unfold readMedia
      rw [get_head d f _ _ _ h1 h2 _ ht ("representations".toList, joinWith ',' y.2.reps) rfl,
        get_head d f _ _ _ h1 h2 _ ht ("timescale".toList, intText y.2.timescale) rfl,
        get_head d f _ _ _ h1 h2 _ ht ("total_duration".toList, intText (y.2.total.getD 0)) rfl,
        get_head d f _ _ _ h1 h2 _ ht ("dat_file".toList, y.2.dat.getD []) rfl]
      simp only []
      rw [pyInt_intText, pyInt_intText]
      simp only [if_true]
      rw [splitChar_joinWith hy.some_rep (fun r hr => (hy.ids r hr).1), map_strip (fun r hr => (hy.ids r hr).2.2)]
      rw [hn, ht']
      simp only [Option.getD_some, Option.map_some]
      congr 2
      show MediaEntry.mk y.2.reps y.2.timescale (some n) (some t) = y.2
      rw [← hn, ← ht']
  · rw [if_neg hw]
    unfold readMedia
    rw [get_none d f _ _ _ h1 h2 (find_tail_none hw)]

/-- The entry of a content type, if there is one. -/
def entryList (media : List (Text × MediaEntry)) (m : Text) : List (Text × MediaEntry) :=
  ((media.find? fun y => decide (y.1 = m)).map fun y => (m, y.2)).toList

theorem readMedias_written {d : VodData} {f : Int} (h : ∀ y ∈ d.media, EntryOk y.2) (ts : List Text)
    (hts : ∀ m ∈ ts, m ∈ possibleMedia) :
    readMedias (headIni d f ++ tailIni d.media) true ts =
      .ok (ts.flatMap fun m => if m ∈ writtenTypes then entryList d.media m else []) := by
  induction ts with
  | nil => rfl
  | cons m ms ih =>
    unfold readMedias
    rw [readMedia_written h (hts m List.mem_cons_self), ih (fun k hk => hts k (List.mem_cons_of_mem _ hk))]
    simp only []
    rw [List.flatMap_cons]
    by_cases hw : m ∈ writtenTypes
    · rw [if_pos hw, if_pos hw]
      unfold entryList
      cases d.media.find? fun y => decide (y.1 = m) with
      | none => rfl
      | some y => rfl
    · rw [if_neg hw, if_neg hw]
      rfl

/-- What the file says when it is read. -/
def readBack (d : VodData) (f : Int) : VodFile :=
  { firstSeg := f, nrSegs := d.nrSegs.getD 0, segDurS := d.segDurS.getD 0, segDurMs := 0,
    tsbd := d.tsbd.getD 300, media := writtenTypes.flatMap (entryList d.media) }

theorem readConfig_written {d : VodData} {f : Int} (hf : d.firstSeg = some f) (hd : d.segDurS.getD 0 ≠ 0)
    (h : ∀ y ∈ d.media, EntryOk y.2) :
    ∃ text, writeConfig d = .ok text ∧ readConfig (some text) = .ok (readBack d f) := by
  refine ⟨writeIni (headIni d f ++ tailIni d.media), ?_, ?_⟩
  · unfold writeConfig
    rw [configIni_eq hf h]
  · unfold readConfig
    rw [Option.getD_some, readIni_writeIni (iniOk_config d f h)]
    show (do
      let version ← (match Ini.get (headIni d f ++ tailIni d.media) "General".toList "version".toList with
        | none => Except.error PyErr.keyError
        | some v => .ok v)
      _ : Py VodFile) = _
    have e1 : Ini.get (headIni d f ++ tailIni d.media) "General".toList "version".toList = some "1.1".toList := rfl
    rw [e1]
    show (if "1.1".toList ≠ "1.0".toList ∧ "1.1".toList ≠ "1.1".toList then (Except.error PyErr.configError : Py VodFile) else _) = _
    rw [if_neg (by decide)]
    have e2 : Ini.getInt (headIni d f ++ tailIni d.media) "Setup".toList "first_segment_in_loop".toList = .ok f :=
      (show _ = pyInt (intText f) from rfl).trans (pyInt_intText _)
    have e3 : Ini.getInt (headIni d f ++ tailIni d.media) "Setup".toList "nr_segments_in_loop".toList =
        .ok (d.nrSegs.getD 0) :=
      (show _ = pyInt (intText (d.nrSegs.getD 0)) from rfl).trans (pyInt_intText _)
    have e4 : Ini.getInt (headIni d f ++ tailIni d.media) "Setup".toList "default_tsbd_secs".toList =
        .ok (d.tsbd.getD 300) :=
      (show _ = pyInt (intText (d.tsbd.getD 300)) from rfl).trans (pyInt_intText _)
    have e5 : readDurations (headIni d f ++ tailIni d.media) = .ok (d.segDurS.getD 0, 0) := by
      unfold readDurations
      have a1 : Ini.get (headIni d f ++ tailIni d.media) "Setup".toList "segment_duration_s".toList =
          some (intText (d.segDurS.getD 0)) := rfl
      have a2 : Ini.get (headIni d f ++ tailIni d.media) "Setup".toList "segment_duration_ms".toList = none := by
        show (((headIni d f ++ tailIni d.media).find? fun y => decide (y.1 = "DEFAULT".toList)).bind
          fun d => d.2.find? fun z => decide (z.1 = "segment_duration_ms".toList)).map (·.2) = none
        have : ((headIni d f ++ tailIni d.media).find? fun y => decide (y.1 = "DEFAULT".toList)) = none :=
          find_tail_none (media := d.media) (m := "DEFAULT".toList) (by decide +kernel)
        rw [this]
        rfl
      rw [a1]
      simp only []
      rw [pyInt_intText, a2]
      simp only []
      rw [if_neg hd]
    rw [e2, e5, e3, e4]
    show (do
      let media ← readMedias (headIni d f ++ tailIni d.media) true possibleMedia
      return _ : Py VodFile) = _
    rw [readMedias_written h _ (fun _ hm => hm)]
    rfl

/-- **C76, round trip.** For every content description whose entries are of the written types and
can be read as written (`EntryOk`), with a first segment and a duration that is not 0: `write_config`
succeeds, and `read_config` of the written text gives the same first segment, number of segments,
duration, buffer depth and the same entry for every content type.  What is missing from the full
claim: descriptions outside these hypotheses, for which the claim is false (violations below). -/
theorem C76_roundtrip_partial (d : VodData) (f : Int) (hf : d.firstSeg = some f) (hd : d.segDurS.getD 0 ≠ 0)
    (hnd : (d.media.map (·.1)).Nodup) (hm : ∀ y ∈ d.media, y.1 ∈ writtenTypes ∧ EntryOk y.2) :
    ∃ text r, writeConfig d = .ok text ∧ readConfig (some text) = .ok r ∧
      r.firstSeg = f ∧ r.nrSegs = d.nrSegs.getD 0 ∧ r.segDurS = d.segDurS.getD 0 ∧ r.segDurMs = 0 ∧
      r.tsbd = d.tsbd.getD 300 ∧ (r.media.map (·.1)).Nodup ∧ ∀ m y, (m, y) ∈ r.media ↔ (m, y) ∈ d.media := by
  obtain ⟨text, h1, h2⟩ := readConfig_written hf hd (fun y hy => (hm y hy).2)
  refine ⟨text, readBack d f, h1, h2, rfl, rfl, rfl, rfl, rfl, ?_, ?_⟩
  · have : ∀ ts : List Text, ((ts.flatMap (entryList d.media)).map (·.1)).Sublist ts := by
      intro ts
      induction ts with
      | nil => exact List.Sublist.refl _
      | cons t ts ih =>
        rw [List.flatMap_cons]
        unfold entryList
        cases d.media.find? fun y => decide (y.1 = t) with
        | none => exact ih.cons _
        | some y => exact ih.cons_cons _
    exact (this writtenTypes).nodup (by decide +kernel)
  · intro m y
    show (m, y) ∈ writtenTypes.flatMap (entryList d.media) ↔ _
    rw [List.mem_flatMap]
    constructor
    · rintro ⟨t, _, h⟩
      unfold entryList at h
      cases hfd : d.media.find? fun y => decide (y.1 = t) with
      | none => rw [hfd] at h; cases h
      | some z =>
        rw [hfd] at h
        simp only [Option.map_some, Option.toList_some, List.mem_singleton, Prod.mk.injEq] at h
        have hz := List.find?_some hfd
        rw [decide_eq_true_iff] at hz
        obtain ⟨rfl, rfl⟩ := h
        rw [← hz]
        exact List.mem_of_find?_eq_some hfd
    · intro h
      refine ⟨m, (hm _ h).1, ?_⟩
      unfold entryList
      cases hfd : d.media.find? fun y => decide (y.1 = m) with
      | none =>
        have := List.find?_eq_none.mp hfd _ h
        simp at this
      | some z =>
        have hz := List.find?_some hfd
        rw [decide_eq_true_iff] at hz
        have hmem := List.mem_of_find?_eq_some hfd
        have : z = (m, y) := find_of_nodup hnd hmem h hz
        rw [this]
        simp

/-- **C76, representations.** In addition every representation whose identity is used for one content
type only is known to the server with the content type and the time scale of the description. -/
theorem C76_known_partial (d : VodData) (f : Int) (hf : d.firstSeg = some f) (hd : d.segDurS.getD 0 ≠ 0)
    (hnd : (d.media.map (·.1)).Nodup) (hm : ∀ y ∈ d.media, y.1 ∈ writtenTypes ∧ EntryOk y.2)
    (text : Text) (ht : writeConfig d = .ok text) (m : Text) (y : MediaEntry) (hy : (m, y) ∈ d.media)
    (id : Text) (hid : id ∈ y.reps) (huniq : ∀ z ∈ d.media, id ∈ z.2.reps → z.1 = m) :
    ∃ r, readConfig (some text) = .ok r ∧
      r.toCfg.repInfo id = .ok { id := id, contentType := m, timescale := y.timescale } := by
  obtain ⟨text', r, h1, h2, _, _, _, _, _, hn, hmem⟩ := C76_roundtrip_partial d f hf hd hnd hm
  rw [ht] at h1
  cases h1
  refine ⟨r, h2, ?_⟩
  unfold VodCfg.repInfo VodFile.toCfg
  simp only []
  cases hfd : (r.media.map fun m => (m.1, m.2.timescale, m.2.reps)).find? fun m => m.2.2.contains id with
  | none =>
    have h3 : (m, y.timescale, y.reps) ∈ r.media.map fun m => (m.1, m.2.timescale, m.2.reps) :=
      List.mem_map.mpr ⟨(m, y), (hmem m y).mpr hy, rfl⟩
    have h4 := List.find?_eq_none.mp hfd _ h3
    simp only [List.contains_iff_mem] at h4
    exact absurd hid h4
  | some z =>
    obtain ⟨w, hw, rfl⟩ := List.mem_map.mp (List.mem_of_find?_eq_some hfd)
    have hc := List.find?_some hfd
    simp only [List.contains_iff_mem] at hc
    have hwd := (hmem w.1 w.2).mp hw
    have e1 : w.1 = m := huniq _ hwd hc
    have e2 : w.2 = y := by
      have hin : (m, w.2) ∈ d.media := by rw [← e1]; exact hwd
      have := find_of_nodup hnd hin hy rfl
      injection this
    simp only [e1, e2]

/-- A description with two content types. -/
def sampleData : VodData :=
  { segDurS := some 2, nrSegs := some 3, firstSeg := some 1,
    media := [("audio".toList, ⟨["A48".toList], 48000, some 288000, some "test_audio.dat".toList⟩),
      ("video".toList, ⟨["V300".toList, "V600".toList], 90000, some 540000, some "test_video.dat".toList⟩)] }

/-- Non-trivial: the description meets the hypotheses, and this is the file. -/
example : (∀ y ∈ sampleData.media, y.1 ∈ writtenTypes ∧ y.2.reps ≠ [] ∧
      (∀ r ∈ y.2.reps, ',' ∉ r ∧ OneLine r ∧ pyStrip r = r) ∧ y.2.total.isSome ∧
      y.2.dat.any fun t => decide (OneLine t ∧ pyStrip t = t)) ∧
    writeConfig sampleData = .ok ("[General]\nversion = 1.1\n\n[Setup]\ndefault_tsbd_secs = 300\n".toList ++
      "segment_duration_s = 2\nnr_segments_in_loop = 3\nfirst_segment_in_loop = 1\n\n".toList ++
      "[video]\nrepresentations = V300,V600\ntimescale = 90000\ntotal_duration = 540000\n".toList ++
      "dat_file = test_video.dat\n\n[audio]\nrepresentations = A48\ntimescale = 48000\n".toList ++
      "total_duration = 288000\ndat_file = test_audio.dat\n\n".toList) :=
  ⟨by decide +kernel, by decide +kernel⟩

/-- A description of one content type. -/
def oneType (m : Text) (reps : List Text) : VodData :=
  { segDurS := some 2, nrSegs := some 3, firstSeg := some 1,
    media := [(m, ⟨reps, 90000, some 540000, some "t.dat".toList⟩)] }

/-- The representations that are read from the written file, by content type. -/
def repsRead (d : VodData) : Py (List (Text × List Text)) :=
  match writeConfig d with
  | .error e => .error e
  | .ok t =>
    match readConfig (some t) with
    | .error e => .error e
    | .ok r => .ok (r.media.map fun x => (x.1, x.2.reps))

/-- **C76 fails** for identities with commas: one representation is read as two. -/
theorem C76_comma_violation : repsRead (oneType "video".toList ["avc1,300k".toList]) =
    .ok [("video".toList, ["avc1".toList, "300k".toList])] := by decide +kernel

/-- **C76 fails** for identities with spaces at the ends: the server does not know them. -/
theorem C76_space_violation : repsRead (oneType "video".toList ["V300 ".toList]) =
    .ok [("video".toList, ["V300".toList])] := by decide +kernel

/-- **C76 fails** for identities with a carriage return, which `write_config` copies into the file:
the server cannot read the file. -/
theorem C76_return_violation : repsRead (oneType "video".toList ["a\rb".toList]) = .error .valueError := by
  decide +kernel

/-- **C76 fails** for a content type without representations: it is read with one, of empty name. -/
theorem C76_empty_violation : repsRead (oneType "video".toList []) = .ok [("video".toList, [[]])] := by
  decide +kernel

/-- **C76 fails** for thumbnails: the type `image` is read but never written. -/
theorem C76_image_violation : repsRead (oneType "image".toList ["thumbs".toList]) = .ok [] := by
  decide +kernel

/-- **C76 fails** for a duration of 0 (segments shorter than a second): the file is written and
cannot be read. -/
theorem C76_zero_violation : repsRead { oneType "video".toList ["V300".toList] with segDurS := some 0 } =
    .error .configError := by decide +kernel

/-- **C76 fails** for durations in milliseconds: every file that gives one and can be read is read
with a duration of 0 seconds, and with that no media segment is ever served. -/
theorem C76_ms_violation (t : Text) (x : Ini) (hx : readIni t = .ok x)
    (hms : (x.get "Setup".toList "segment_duration_ms".toList).isSome) (r : VodFile)
    (hr : readConfig (some t) = .ok r) :
    r.segDurS = 0 ∧ ∀ (c : Cfg) (now : Rat) (nr : Int) (s : Served), c.segDur = r.segDurS →
      processMediaNr c now nr ≠ .ok (.media s) := by
  have h0 : r.segDurS = 0 := by
    unfold readConfig at hr
    rw [Option.getD_some, hx] at hr
    simp only [bind, Except.bind] at hr
    split at hr
    · cases hr
    · split at hr
      · cases hr
      · split at hr
        · cases hr
        · split at hr
          · cases hr
          · rename_i p hp
            have hp0 : p.1 = 0 := by
              unfold readDurations at hp
              obtain ⟨u, hu⟩ := Option.isSome_iff_exists.mp hms
              rw [hu] at hp
              simp only [] at hp
              repeat' split at hp
              all_goals first | (cases hp; rfl) | cases hp
            split at hr
            · cases hr
            · split at hr
              · cases hr
              · split at hr
                · cases hr
                · cases hr
                  exact hp0
  refine ⟨h0, ?_⟩
  intro c now nr s hc hm
  rw [h0] at hc
  unfold processMediaNr loopPos at hm
  rw [hc] at hm
  simp only [bind, Except.bind, pyDiv, Int.zero_mul, if_true] at hm
  repeat' split at hm
  all_goals first | (cases hm; done) | skip
  rename_i hw
  cases hm
  unfold windowCheck at hw
  repeat' split at hw
  all_goals cases hw

/-- A file with a duration in milliseconds. -/
def msFile : Text := "[General]\nversion: 1.0\n# segments of 1.5 s\n[Setup]\nfirst_segment_in_loop=1\n".toList ++
  "segment_duration_ms = 1500\nnr_segments_in_loop=10\ndefault_tsbd_secs=60\n".toList ++
  "[video]\nrepresentations = V1, V2\ntimescale = 90000\n".toList

/-- Non-trivial: it is read, the hypothesis is met. -/
example : readConfig (some msFile) = .ok ⟨1, 10, 0, 1500, 60,
      [("video".toList, ⟨["V1".toList, "V2".toList], 90000, none, none⟩)]⟩ ∧
    (match readIni msFile with
      | .ok x => (x.get "Setup".toList "segment_duration_ms".toList).isSome
      | .error _ => false) = true :=
  ⟨by decide +kernel, by decide +kernel⟩

end Verif
