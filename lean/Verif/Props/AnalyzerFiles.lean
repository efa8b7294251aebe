import Verif.Lemmas.AnalyzerFiles
import Verif.Lemmas.UrlFiles
import Verif.Props.Analyzer
import Verif.Props.VodConfig
import Verif.Props.InitInfo
import Verif.Props.TimeAddressing
/-
C77: content that the analyser accepts can be served: the files that the server opens exist.
-/
namespace Verif
open Spec

/-! ### The written configuration -/

/-- A description with a duration of 0 is written, and what is written cannot be read. -/
theorem readConfig_zero {d : VodData} {f : Int} (hf : d.firstSeg = some f) (hd : d.segDurS.getD 0 = 0)
    (h : ∀ y ∈ d.media, EntryOk y.2) {text : Text} (hw : writeConfig d = .ok text) :
    readConfig (some text) = .error .configError := by
  have ht : text = writeIni (headIni d f ++ tailIni d.media) := by
    unfold writeConfig at hw
    rw [configIni_eq hf h] at hw
    cases hw
    rfl
  subst ht
  unfold readConfig
  rw [Option.getD_some, readIni_writeIni (iniOk_config d f h)]
  show (do
    let version ← (match Ini.get (headIni d f ++ tailIni d.media) "General".toList "version".toList with
      | none => Except.error PyErr.keyError
      | some v => .ok v)
    _ : Py VodFile) = _
  have e1 : Ini.get (headIni d f ++ tailIni d.media) "General".toList "version".toList = some "1.1".toList := rfl
  rw [e1]
  show (if "1.1".toList ≠ "1.0".toList ∧ "1.1".toList ≠ "1.1".toList then (Except.error PyErr.configError : Py VodFile) else _) = _
  rw [if_neg (by decide)]
  have e2 : Ini.getInt (headIni d f ++ tailIni d.media) "Setup".toList "first_segment_in_loop".toList = .ok f :=
    (show _ = pyInt (intText f) from rfl).trans (pyInt_intText _)
  have e5 : readDurations (headIni d f ++ tailIni d.media) = .error .configError := by
    unfold readDurations
    have a1 : Ini.get (headIni d f ++ tailIni d.media) "Setup".toList "segment_duration_s".toList =
        some (intText (d.segDurS.getD 0)) := rfl
    have a2 : Ini.get (headIni d f ++ tailIni d.media) "Setup".toList "segment_duration_ms".toList = none := by
      show (((headIni d f ++ tailIni d.media).find? fun y => decide (y.1 = "DEFAULT".toList)).bind
        fun d => d.2.find? fun z => decide (z.1 = "segment_duration_ms".toList)).map (·.2) = none
      have : ((headIni d f ++ tailIni d.media).find? fun y => decide (y.1 = "DEFAULT".toList)) = none :=
        find_tail_none (media := d.media) (m := "DEFAULT".toList) (by decide +kernel)
      rw [this]
      rfl
    rw [a1]
    simp only []
    rw [pyInt_intText, a2]
    simp only []
    rw [if_pos hd]
  rw [e2, e5]
  rfl

/-- A description that is written and read is read as written. -/
theorem readConfig_back {d : VodData} {f : Int} (hf : d.firstSeg = some f) (h : ∀ y ∈ d.media, EntryOk y.2) {text : Text}
    (hw : writeConfig d = .ok text) {r : VodFile} (hr : readConfig (some text) = .ok r) :
    r = readBack d f ∧ d.segDurS.getD 0 ≠ 0 := by
  by_cases hd : d.segDurS.getD 0 = 0
  · rw [readConfig_zero hf hd h hw] at hr
    cases hr
  · obtain ⟨t, h1, h2⟩ := readConfig_written hf hd h
    rw [hw] at h1
    cases h1
    rw [hr] at h2
    cases h2
    exact ⟨rfl, hd⟩

/-! ### The paths of the templates -/

theorem replaceText_skip {old new : Text} {c : Char} {cs : Text} (ho : old = c :: cs) {a : Text} (ha : c ∉ a) (n : Nat)
    (b : Text) : replaceText old new (a.length + n) (a ++ b) = a ++ replaceText old new n b := by
  induction a with
  | nil => simp
  | cons x xs ih =>
    have hx : ¬ c = x := fun h => ha (by rw [h]; exact List.mem_cons_self)
    have : (x :: xs).length + n = (xs.length + n) + 1 := by simp only [List.length_cons]; omega
    rw [this, List.cons_append, replaceText, if_neg (by
      rw [ho, List.isPrefixOf_cons_cons]
      simp [hx]), ih (fun h => ha (List.mem_cons_of_mem _ h))]
    rfl

theorem pathReplace_skip {old new : Text} {c : Char} {cs : Text} (ho : old = c :: cs) {a : Text} (ha : c ∉ a) (b : Text) :
    pathReplace old new (a ++ b) = a ++ pathReplace old new b := by
  unfold pathReplace
  rw [List.length_append, replaceText_skip ho ha]

theorem mediaPath_number {s : AsNode} {rep : NodeAttrs} {path id : Text}
    (hm : ∀ m, s.attribs.need "media".toList = .ok m → m = "$RepresentationID$/$Number$.m4s".toList)
    (hid : rep.need "id".toList = .ok id) (hd : '$' ∉ id) (h : s.mediaPath rep = .ok path) :
    path = id ++ "/%d.m4s".toList := by
  unfold AsNode.mediaPath at h
  simp only [Py.bind_ok, Py.pure_ok] at h
  obtain ⟨m, h1, i, h2, bw, -, rfl⟩ := h
  rw [hid] at h2
  cases h2
  rw [hm m h1]
  have e1 : pathReplace "$RepresentationID$".toList id "$RepresentationID$/$Number$.m4s".toList =
      id ++ "/$Number$.m4s".toList := rfl
  rw [e1, pathReplace_skip (old := "$bandwidth$".toList) (c := '$') (cs := "bandwidth$".toList) rfl hd]
  have e2 : pathReplace "$bandwidth$".toList bw "/$Number$.m4s".toList = "/$Number$.m4s".toList := rfl
  rw [e2, pathReplace_skip (old := "$Number$".toList) (c := '$') (cs := "Number$".toList) rfl hd]
  rfl

theorem cutFormat_front {a b : Text} (ha : '%' ∉ a) {p : Text × Text} (hb : cutFormat b = some p) :
    cutFormat (a ++ b) = some (a ++ p.1, p.2) := by
  induction a with
  | nil => simpa using hb
  | cons x xs ih =>
    have hx : ¬ '%' = x := fun h => ha (by rw [h]; exact List.mem_cons_self)
    rw [List.cons_append, cutFormat, if_neg (by
      show ¬ (['%', 'd'].isPrefixOf (x :: (xs ++ b)) = true)
      rw [List.isPrefixOf_cons_cons]
      simp [hx]), ih (fun h => ha (List.mem_cons_of_mem _ h))]
    rfl

theorem formatNr_number {id : Text} (hp : '%' ∉ id) (n : Nat) :
    formatNr (id ++ "/%d.m4s".toList) n = .ok (storedFile id n) := by
  unfold formatNr
  rw [cutFormat_front hp (p := ("/".toList, ".m4s".toList)) rfl]
  dsimp only
  rw [if_neg (by
    rintro (h | h)
    · rcases List.mem_append.mp h with h | h
      · exact hp h
      · exact absurd h (by decide)
    · exact absurd h (by decide))]
  rfl

/-! ### What the server does with analysed content -/

/-- The content `name` was analysed, the configuration file written then is the one the server reads, and the
representations have ordinary names. -/
structure Analysed (base : Text) (fs : Files) (mpd : Xml) (vodOf : Text → Py VodCfg) (name : Text) : Prop where
  run : ∃ out f, analyzeContent base fs mpd = .ok out ∧ readConfig (some out.config) = .ok f ∧
    vodOf name = .ok f.toCfg
  base : ValueOk base
  ids : ∀ a ∈ adaptationSets mpd, ∀ x ∈ representations a, ∀ id, x.get "id".toList = some id → PlainId id

theorem getMedia_range {pf : Text → Option Rat} {c : Cfg} {t : Rat} {w : Served}
    (h : getMedia pf c t = .ok (.media w)) :
    c.vodFirst ≤ w.vodNr ∧ w.vodNr < c.vodFirst + c.vodNr ∧ c.ext = ".m4s".toList := by
  have hnr : ∀ (c : Cfg) n, processMediaNr c t n = .ok (.media w) →
      c.vodFirst ≤ w.vodNr ∧ w.vodNr < c.vodFirst + c.vodNr := by
    intro c n hp
    unfold processMediaNr at hp
    simp only [Py.bind_ok] at hp
    obtain ⟨st, -, hp⟩ := hp
    split at hp
    · cases hp
    · simp only [Py.bind_ok] at hp
      obtain ⟨sp, -, hp⟩ := hp
      split at hp
      · cases hp
      · split at hp
        · cases hp
        · simp only [Py.bind_ok] at hp
          obtain ⟨o, ho, hp⟩ := hp
          split at hp
          · rename_i out
            cases hp
            exfalso
            unfold windowCheck at ho
            split at ho
            · cases ho
            · split at ho
              · cases ho
              · split at ho
                · cases ho
                · split at ho <;> cases ho
          · simp only [Py.bind_ok] at hp
            obtain ⟨q, hq, hp⟩ := hp
            obtain ⟨a, b⟩ := q
            cases hp
            unfold loopPos at hq
            simp only [Py.bind_ok] at hq
            obtain ⟨_, -, _, -, k, -, hq⟩ := hq
            split at hq
            · rename_i hk
              cases hq
              dsimp only
              omega
            · cases hq
  have hm : ∀ c : Cfg, processMedia pf c t = .ok (.media w) →
      c.vodFirst ≤ w.vodNr ∧ w.vodNr < c.vodFirst + c.vodNr := by
    intro c hp
    unfold processMedia at hp
    simp only [Py.bind_ok] at hp
    obtain ⟨n, -, hp⟩ := hp
    exact hnr c n hp
  have hth : processThumb pf c t ≠ .ok (.media w) := by
    intro hp
    unfold processThumb at hp
    simp only [Py.bind_ok] at hp
    obtain ⟨n, -, hp⟩ := hp
    unfold processThumbNr at hp
    dsimp only at hp
    generalize (if c.startNr = -1 then 1 else c.startNr) = st at hp
    split at hp
    · cases hp
    · split at hp
      · cases hp
      · simp only [Py.bind_ok] at hp
        obtain ⟨o, -, hp⟩ := hp
        split at hp
        · cases hp
        · simp only [Py.bind_ok] at hp
          obtain ⟨q, -, hp⟩ := hp
          cases hp
  unfold getMedia at h
  split at h
  · cases h
  · dsimp only at h
    generalize (if c.ato = -1 then (c.ast : Rat) else c.ast + c.segDur - c.ato) = g at h
    split at h
    · cases h
    · split at h
      · cases h
      · split at h
        · rename_i hx
          simp only [Py.bind_ok] at h
          obtain ⟨act, -, h⟩ := h
          cases act with
          | down => cases h
          | emsg => exact ⟨(hm _ h).1, (hm _ h).2, hx⟩
          | plain => exact ⟨(hm _ h).1, (hm _ h).2, hx⟩
        · exact absurd h hth

theorem forall2_get {α β : Type} {R : α → β → Prop} {l : List α} {m : List β} (h : List.Forall₂ R l m) {i : Nat} {a : α}
    (ha : l[i]? = some a) : ∃ b, m[i]? = some b ∧ R a b := by
  induction h generalizing i with
  | nil => cases ha
  | cons hr _ ih =>
    cases i with
    | zero =>
      simp only [List.getElem?_cons_zero, Option.some.injEq] at ha
      subst ha
      exact ⟨_, rfl, hr⟩
    | succ i => exact ih ha

theorem forall2_get' {α β : Type} {R : α → β → Prop} {l : List α} {m : List β} (h : List.Forall₂ R l m) {i : Nat} {b : β}
    (hb : m[i]? = some b) : ∃ a, l[i]? = some a ∧ R a b := by
  induction h generalizing i with
  | nil => cases hb
  | cons hr _ ih =>
    cases i with
    | zero =>
      simp only [List.getElem?_cons_zero, Option.some.injEq] at hb
      subst hb
      exact ⟨_, rfl, hr⟩
    | succ i => exact ih hb

/-- The description that the analyser writes can be read. -/
theorem describe_ok {base : Text} {fs : Files} {mpd : Xml} {l : List SetSeen} {r : AnaResult} (hb : ValueOk base)
    (hids : ∀ a ∈ adaptationSets mpd, ∀ x ∈ representations a, ∀ id, x.get "id".toList = some id → PlainId id)
    (hl : List.Forall₂ (fun a b => seeSet fs a = .ok b) ((adaptationSets mpd).map parseAs) l) :
    ∀ y ∈ (describe base l r).media, EntryOk y.2 := by
  intro y hy
  obtain ⟨k, hk, hy⟩ := List.mem_filterMap.mp hy
  have hkind : y.1 = k := by simpa using List.find?_some hy
  have hmem := List.mem_of_find?_eq_some hy
  unfold seenEntries at hmem
  obtain ⟨x, hx, rfl⟩ := List.mem_map.mp hmem
  have hx1 : x.1 ∈ l := (List.of_mem_zip hx).1
  obtain ⟨i, hi⟩ := List.mem_iff_getElem?.mp hx1
  obtain ⟨s, hs, hsee⟩ := forall2_get' hl hi
  obtain ⟨q, qs, -, hreps, -, -, hid, -, -⟩ := seeSet_ok hsee
  rw [List.getElem?_map] at hs
  obtain ⟨a, ha, rfl⟩ := Option.map_eq_some_iff.mp hs
  have ha' : a ∈ adaptationSets mpd := List.mem_iff_getElem?.mpr ⟨i, ha⟩
  dsimp only at hkind ⊢
  refine ⟨?_, ?_, ⟨_, rfl⟩, ⟨_, rfl, ?_⟩⟩
  · dsimp only
    rw [hid]
    simp
  · dsimp only
    intro id hm
    rw [hid] at hm
    obtain ⟨q', hq', rfl⟩ := List.mem_map.mp hm
    obtain ⟨j, hj⟩ := List.mem_iff_getElem?.mp hq'
    obtain ⟨rep, hrep, hseen⟩ := forall2_get' hreps hj
    obtain ⟨-, -, -, -, -, h1, -⟩ := seeRep_ok hseen
    rw [parseAs_reps, List.getElem?_map] at hrep
    obtain ⟨z, hz, rfl⟩ := Option.map_eq_some_iff.mp hrep
    have := hids a ha' z (List.mem_iff_getElem?.mpr ⟨j, hz⟩) _ (repNode_id h1)
    exact ⟨this.comma, this.line, this.strip⟩
  · have hk' : OneLine ('_' :: k ++ ".dat".toList) ∧ ∃ m c, '_' :: k ++ ".dat".toList = m ++ [c] ∧ isPySpace c = false := by
      have : ∀ k ∈ ["video".toList, "audio".toList], OneLine ('_' :: k ++ ".dat".toList) ∧
          '_' :: k ++ ".dat".toList = ('_' :: k ++ ".da".toList) ++ ['t'] := by decide +kernel
      exact ⟨(this k hk).1, _, 't', (this k hk).2, by decide +kernel⟩
    unfold datName
    rw [hkind, List.append_assoc]
    refine ⟨hb.1.append hk'.1, ?_⟩
    obtain ⟨-, m, c, e, hc⟩ := hk'
    have hstart : ∀ ch rest, base ++ ('_' :: k ++ ".dat".toList) = ch :: rest → isPySpace ch = false := by
      intro ch rest he
      cases base with
      | nil =>
        simp only [List.nil_append, List.cons_append, List.cons.injEq] at he
        rw [← he.1]
        decide +kernel
      | cons b bs =>
        simp only [List.cons_append, List.cons.injEq] at he
        rw [← he.1]
        cases hsp : isPySpace b with
        | false => rfl
        | true =>
          exfalso
          have h2 := hb.2
          unfold pyStrip at h2
          rw [List.dropWhile_cons_of_pos hsp] at h2
          have h3 := congrArg List.length h2
          rw [List.length_reverse] at h3
          have h4 := (List.dropWhile_sublist (l := ((bs.dropWhile isPySpace).reverse)) isPySpace).length_le
          have h5 := (List.dropWhile_sublist (l := bs) isPySpace).length_le
          rw [List.length_reverse] at h4
          simp only [List.length_cons] at h3
          omega
    unfold pyStrip
    have e1 : (base ++ ('_' :: k ++ ".dat".toList)).dropWhile isPySpace = base ++ ('_' :: k ++ ".dat".toList) := by
      cases hf : base ++ ('_' :: k ++ ".dat".toList) with
      | nil => rfl
      | cons ch rest => rw [List.dropWhile_cons_of_neg (by rw [hstart ch rest hf]; exact Bool.false_ne_true)]
    rw [e1, e, ← List.append_assoc, List.reverse_append]
    rw [List.reverse_singleton, List.singleton_append, List.dropWhile_cons_of_neg (by rw [hc]; exact Bool.false_ne_true)]
    simp

/-- What the server knows of analysed content. -/
theorem Analysed.known {base : Text} {fs : Files} {mpd : Xml} {vodOf : Text → Py VodCfg} {name : Text}
    (h : Analysed base fs mpd vodOf name) :
    ∃ l r v, List.Forall₂ (fun a b => seeSet fs a = .ok b) ((adaptationSets mpd).map parseAs) l ∧
      (l.map (·.kind)).Nodup ∧ analyze (l.map (·.set)) = .ok r ∧ vodOf name = .ok v ∧
      v = (readBack (describe base l r) r.first).toCfg ∧ r.segDur ≠ 0 := by
  obtain ⟨out, f, h1, h2, h3⟩ := h.run
  obtain ⟨sets, l, r, g1, g2, g3, g4, g5, -⟩ := analyzeContent_ok h1
  rw [parseVodMpd_ok g1] at g2
  have hok := describe_ok (r := r) h.base h.ids g2
  obtain ⟨e1, e2⟩ := readConfig_back (f := r.first) (d := describe base l r) rfl hok g5 h2
  refine ⟨l, r, f.toCfg, g2, g3, g4, h3, by rw [e1], ?_⟩
  intro h0
  apply e2
  show ((some (r.segDur : Int)).getD 0) = 0
  rw [h0]
  rfl

/-- Every adaptation set of analysed content has its representations, and the first of them all segments of the
loop. -/
theorem analysed_first {fs : Files} {mpd : Xml} {l : List SetSeen} {r : AnaResult}
    (hl : List.Forall₂ (fun a b => seeSet fs a = .ok b) ((adaptationSets mpd).map parseAs) l)
    (hr : analyze (l.map (·.set)) = .ok r) {a : Xml} (ha : a ∈ adaptationSets mpd) :
    ∃ x q qs, x ∈ l ∧ seeSet fs (parseAs a) = .ok x ∧
      List.Forall₂ (fun y b => seeRep fs (parseAs a) y = .ok b) (parseAs a).reps (q :: qs) ∧
      (∀ p ∈ q :: qs, p.timescale = x.set.timescale) ∧ x.set.segDur = r.segDur ∧
      x.set.reps = (q :: qs).map (fun q => (q.first, q.segs)) ∧ x.ids = (q :: qs).map (·.id) ∧
      (∀ p ∈ q :: qs, p.first = r.first) ∧ r.nrInLoop ≤ q.segs.length := by
  obtain ⟨i, hi⟩ := List.mem_iff_getElem?.mp ha
  obtain ⟨x, hx, hsee⟩ := forall2_get hl (i := i) (a := parseAs a) (by rw [List.getElem?_map, hi]; rfl)
  have hxl : x ∈ l := List.mem_iff_getElem?.mpr ⟨i, hx⟩
  obtain ⟨q, qs, -, h2, h3, h4, h5, -, -⟩ := seeSet_ok hsee
  have hne : ∀ b ∈ l.map (·.set), b.reps ≠ [] := by
    intro b hb
    obtain ⟨y, hy, rfl⟩ := List.mem_map.mp hb
    obtain ⟨j, hj⟩ := List.mem_iff_getElem?.mp hy
    obtain ⟨s, -, hs⟩ := forall2_get' hl hj
    obtain ⟨q', qs', -, -, -, e, -, -, -⟩ := seeSet_ok hs
    rw [e]
    simp
  obtain ⟨-, k⟩ := analyze_file _ r hr hne
  obtain ⟨k1, k2, s, segs, rest, st, k3, -, -, k5⟩ := k i x.set (by rw [List.getElem?_map, hx]; rfl)
  refine ⟨x, q, qs, hxl, hsee, h2, h3, k1, h4, h5, ?_, ?_⟩
  · intro p hp
    refine (k2 p.first p.segs ?_).1
    rw [h4]
    exact List.mem_map.mpr ⟨p, hp, rfl⟩
  · rw [h4, List.map_cons] at k3
    simp only [List.cons.injEq, Prod.mk.injEq] at k3
    rw [k3.1.2]
    exact k5

theorem splitDivider_single : ∀ {t : Text}, ¬ ['_', '_'] <:+: t → splitDivider t = [t] := by
  intro t
  induction t with
  | nil => intro _; rfl
  | cons x xs ih =>
    intro h
    have hxs : ¬ ['_', '_'] <:+: xs := fun hi => h (hi.trans (List.infix_cons (List.infix_refl xs)))
    unfold splitDivider
    split
    · rename_i heq; cases heq
    · rename_i ys heq
      cases heq
      exact absurd ⟨[], ys, rfl⟩ h
    · rename_i y ys _ heq
      cases heq
      rw [ih hxs]

/-- A request for a representation with an ordinary name is for this representation alone. -/
theorem single_rep {v : VodCfg} {id : Text} {reps : List Rep} (h : PlainId id)
    (hr : (splitDivider id).mapM v.repInfo = .ok reps) : ∃ r, reps = [r] ∧ r.id = id ∧ v.repInfo id = .ok r := by
  rw [splitDivider_single h.single] at hr
  simp only [List.mapM_cons, List.mapM_nil, Py.bind_ok, Py.pure_ok] at hr
  obtain ⟨r, hr, _, rfl, rfl⟩ := hr
  refine ⟨r, rfl, ?_, hr⟩
  unfold VodCfg.repInfo at hr
  split at hr
  · cases hr
  · cases hr; rfl

/-- The analyser's configuration lists video and audio alone. -/
theorem known_kind {base : Text} {l : List SetSeen} {r : AnaResult} {f : Int} {id : Text} {rp : Rep}
    (hr : (readBack (describe base l r) f).toCfg.repInfo id = .ok rp) :
    rp.contentType = "video".toList ∨ rp.contentType = "audio".toList := by
  unfold VodCfg.repInfo at hr
  split at hr
  · cases hr
  · rename_i m hm
    cases hr
    obtain ⟨e, he, rfl⟩ := List.mem_map.mp (List.mem_of_find?_eq_some hm)
    obtain ⟨k, hk, he⟩ := List.mem_flatMap.mp he
    unfold entryList at he
    simp only [Option.mem_toList] at he
    obtain ⟨e', he', rfl⟩ := Option.map_eq_some_iff.mp he
    obtain ⟨k', hk', h2⟩ := List.mem_filterMap.mp (List.mem_of_find?_eq_some he')
    have a1 : e'.1 = k := by
      have := List.find?_some he'
      exact of_decide_eq_true this
    have a2 : e'.1 = k' := by
      have := List.find?_some h2
      exact of_decide_eq_true this
    dsimp only
    rw [← a1, a2]
    rcases List.mem_cons.mp hk' with h | h
    · exact Or.inl h
    · exact Or.inr (List.mem_singleton.mp h)

/-- **C77, media.** For content that the analyser accepted, with ordinary representation names and the template
`$RepresentationID$/$Number$.m4s`: whatever options a request has and whenever it comes, if the server decides to
send a media segment of the first representation of an adaptation set, the file it opens for that exists, it is
the one the template names, and the reply is what the filter makes of its bytes, sent whole or cut into chunks.
What is missing from the full
claim: the other representations and other templates, for which it is false (violations below). -/
theorem C77_media_partial {pf : Text → Option Rat} {base : Text} {fs : Files} {mpd : Xml} {vodOf : Text → Py VodCfg}
    {name : Text} (h : Analysed base fs mpd vodOf name) {a : Xml} (ha : a ∈ adaptationSets mpd) (ht : NumberTemplate a)
    {x : Xml} {rest : List Xml} (hx : representations a = x :: rest) {id : Text} (hid : x.get "id".toList = some id)
    {opts : List Text} (ho : ∀ p ∈ opts, (partSlot p).isSome) (hn : partSlot name = none) {file : Text} {now : Int}
    {c : Cfg} (hu : processUrl pf vodOf (opts ++ [name, id, file]) now = .ok c) {t : Rat} {w : Served}
    (hw : getMedia pf c t = .ok (.media w)) :
    ∃ (k : Nat) (data : Bytes) (r : Rep), w.vodNr = k ∧ fs.file (storedFile id k) = some data ∧ c.reps = [r] ∧
      r.id = id ∧ (∀ stamp, (∀ d, c.chunkDur = some d → d ≤ 0) →
        mediaBody fs c w stamp = (filterMedia (segmentFilter c r w stamp none) data).map fun b => .whole b.1) ∧
      ∀ stamp d b, c.chunkDur = some d → 0 < d → mediaBody fs c w stamp = .ok b →
        ∃ dd seg defs l, filterMedia (segmentFilter c r w stamp dd) data = .ok seg ∧
          chunk seg.1 (chunkTicks d r.timescale) defs = .ok l ∧ b = .chunked w.segTime l := by
  obtain ⟨l, r, v, hl, -, hr, hv, rfl, -⟩ := h.known
  obtain ⟨v', reps, e1, e6, -, e2, -, e3, e7, e4, e5, -⟩ := processUrl_files ho hn hu
  rw [hv] at e1
  cases e1
  have e4' : c.vodFirst = r.first := e4
  have e5' : c.vodNr = r.nrInLoop := e5
  obtain ⟨g1, g2, g3⟩ := getMedia_range hw
  obtain ⟨y, q, qs, -, -, h1, -, -, -, -, h2, h3⟩ := analysed_first hl hr ha
  rw [parseAs_reps, hx, List.map_cons, List.forall₂_cons] at h1
  obtain ⟨ip, init, info, path, fuel, f1, -, -, -, f2, -, -, f3⟩ := seeRep_ok h1.1
  have hidq : q.id = id := by
    have := repNode_id f1
    rw [hid] at this
    cases this
    rfl
  have hplain := h.ids a ha x (by rw [hx]; exact List.mem_cons_self) id hid
  obtain ⟨rp, e8, e9, e10⟩ := single_rep hplain e6
  rw [hidq] at f1
  have hp := mediaPath_number (fun m hm => parseAs_media ht hm) f1 hplain.dollar f2
  obtain ⟨i, hi⟩ : ∃ i : Nat, w.vodNr = ((r.first + i : Nat) : Int) := ⟨(w.vodNr - r.first).toNat, by push_cast; omega⟩
  have hil : i < q.segs.length := by omega
  obtain ⟨p, data, d1, d2, -⟩ := readSegments_ok f3 i q.segs[i] (by rw [List.getElem?_eq_getElem hil])
  rw [hp, formatNr_number hplain.percent, h2 q List.mem_cons_self] at d1
  cases d1
  refine ⟨r.first + i, data, rp, hi, d2, by rw [e7, e8], e9, ?_⟩
  have hfile : segmentFile c.relPath w.vodNr c.ext = storedFile id (r.first + i) := by
    unfold segmentFile storedFile
    rw [e2, g3, hi, if_neg hplain.nonempty]
    rfl
  have hread : fs.read (segmentFile c.relPath w.vodNr c.ext) = .ok data := by
    unfold Files.read
    rw [hfile, d2]
  have hkind : rp.contentType ≠ "subtitles".toList := by
    rcases known_kind e10 with h | h <;> rw [h] <;> decide +kernel
  have hfilter : ∀ stamp dd, filterSegment fs c rp c.relPath w stamp dd =
      filterMedia (segmentFilter c rp w stamp dd) data := by
    intro stamp dd
    unfold filterSegment
    rw [hread]
    dsimp only
    rw [if_neg hkind]
  refine ⟨?_, ?_⟩
  · intro stamp hcd
    unfold mediaBody
    rw [e7, e8]
    dsimp only
    cases hc : c.chunkDur with
    | none =>
      dsimp only
      rw [hfilter]
      cases filterMedia (segmentFilter c rp w stamp none) data <;> rfl
    | some d =>
      dsimp only
      rw [if_neg (not_lt.mpr (hcd d hc)), hfilter]
      cases filterMedia (segmentFilter c rp w stamp none) data <;> rfl
  · intro stamp d b hc hd hb
    unfold mediaBody at hb
    rw [e7, e8] at hb
    dsimp only at hb
    rw [hc] at hb
    dsimp only at hb
    rw [if_pos hd] at hb
    split at hb
    · cases hb
    · rename_i info _
      rw [hfilter] at hb
      split at hb
      · cases hb
      · rename_i seg n hf
        split at hb
        · rename_i v1 v2 v3 _ _ _
          split at hb
          · cases hb
          · rename_i l hl'
            cases hb
            exact ⟨info.defDur, (seg, n), _, l, hf, hl', rfl⟩
        · cases hb

theorem initPath_file {s : AsNode} {rep : NodeAttrs} {path id f : Text}
    (hm : ∀ m, s.attribs.need "initialization".toList = .ok m → m = "$RepresentationID$/".toList ++ f)
    (hid : rep.need "id".toList = .ok id) (hd : '$' ∉ id) (hf : '$' ∉ f) (h : s.initPath rep = .ok path) :
    path = id ++ '/' :: f := by
  unfold AsNode.initPath at h
  simp only [Py.bind_ok, Py.pure_ok] at h
  obtain ⟨m, h1, i, h2, bw, -, rfl⟩ := h
  rw [hid] at h2
  cases h2
  rw [hm m h1]
  have hnil : ∀ (old new t : Text) (cs : Text), old = '$' :: cs → '$' ∉ t → pathReplace old new t = t := by
    intro old new t cs ho ht
    have := pathReplace_skip (new := new) ho ht []
    rw [List.append_nil] at this
    rw [this]
    show t ++ replaceText old new 0 [] = t
    rw [replaceText, List.append_nil]
  have hf' : '$' ∉ '/' :: f := by
    intro hm
    rcases List.mem_cons.mp hm with h | h
    · exact absurd h (by decide)
    · exact hf h
  have e1 : pathReplace "$RepresentationID$".toList id ("$RepresentationID$/".toList ++ f) = id ++ '/' :: f := by
    have : pathReplace "$RepresentationID$".toList id ("$RepresentationID$/".toList ++ f) =
        id ++ replaceText "$RepresentationID$".toList id (f.length + 18) ('/' :: f) := by
      unfold pathReplace
      rw [List.length_append, Nat.add_comm]
      rfl
    have h2 := replaceText_skip (old := "$RepresentationID$".toList) (new := id) (c := '$')
      (cs := "RepresentationID$".toList) rfl hf' 17 []
    rw [this]
    rw [List.append_nil, List.length_cons] at h2
    rw [show f.length + 18 = f.length + 1 + 17 from rfl, h2]
    show id ++ ('/' :: f ++ []) = _
    rw [List.append_nil]
  rw [e1]
  refine hnil _ _ _ "bandwidth$".toList rfl ?_
  intro hm
  rcases List.mem_append.mp hm with h | h
  · exact hd h
  · exact hf' h

/-- **C77, init.** Under the same conditions, for every representation of every adaptation set: the initialization
segment that the template `$RepresentationID$/file` names exists, and a request for it is answered with what the
filter makes of it. -/
theorem C77_init {pf : Text → Option Rat} {base : Text} {fs : Files} {mpd : Xml} {vodOf : Text → Py VodCfg}
    {name : Text} (h : Analysed base fs mpd vodOf name) {a : Xml} (ha : a ∈ adaptationSets mpd) {file : Text}
    (ht : InitTemplate a file) (hf : '$' ∉ file) {x : Xml} (hx : x ∈ representations a) {id : Text}
    (hid : x.get "id".toList = some id)
    {opts : List Text} (ho : ∀ p ∈ opts, (partSlot p).isSome) (hn : partSlot name = none) {now : Int}
    {c : Cfg} (hu : processUrl pf vodOf (opts ++ [name, id, file]) now = .ok c) :
    ∃ data, fs.file (id ++ '/' :: file) = some data ∧ (initInfo data).isOk ∧
      initBody fs c = (liveInit data).map some := by
  obtain ⟨l, r, v, hl, -, hr, hv, rfl, -⟩ := h.known
  obtain ⟨v', reps, e1, e6, -, e2, e2', e3, e7, e4, e5, -⟩ := processUrl_files ho hn hu
  obtain ⟨y, q, qs, -, -, h1, -, -, -, -, -, -⟩ := analysed_first hl hr ha
  obtain ⟨j, hj⟩ := List.mem_iff_getElem?.mp hx
  obtain ⟨b, -, hsee⟩ := forall2_get h1 (i := j) (by rw [parseAs_reps, List.getElem?_map, hj]; rfl)
  obtain ⟨ip, init, info, path, fuel, f1, f2, f3, f4, -⟩ := seeRep_ok hsee
  have hidq : b.id = id := by
    have := repNode_id f1
    rw [hid] at this
    cases this
    rfl
  rw [hidq] at f1
  have hplain := h.ids a ha x hx id hid
  obtain ⟨rp, e8, e9, -⟩ := single_rep hplain e6
  have := initPath_file (fun m hm => parseAs_init ht hm) f1 hplain.dollar hf f2
  subst this
  refine ⟨init, f3, by rw [f4]; rfl, ?_⟩
  unfold initBody
  rw [e7, e8, e2, e2']
  dsimp only
  unfold Files.read
  rw [f3]

/-! ### A small content -/

/-- A segment with one sample. -/
def tinySegment (nr time dur : Nat) : Bytes :=
  boxBytes tyMoof
    (boxBytes tyMfhd ([0, 0, 0, 0] ++ beBytes 4 nr) ++
      boxBytes tyTraf
        (boxBytes tyTfhd ([0, 2, 0, 0] ++ beBytes 4 2) ++
          boxBytes tyTfdt ([1, 0, 0, 0] ++ beBytes 8 time) ++
          boxBytes tyTrun ([0, 0, 1, 1] ++ beBytes 4 1 ++ beBytes 4 96 ++ beBytes 4 dur))) ++
  boxBytes tyMdat [1, 2, 3]

/-- Directories with files. -/
def filesOf (l : List (Text × List (Text × Bytes))) : Files :=
  { file := fun p => ((l.flatMap fun d => d.2.map fun f => (d.1 ++ '/' :: f.1, f.2)).find? fun f => decide (f.1 = p)).map (·.2)
    list := fun d => (l.find? fun x => decide (x.1 = d)).map fun x => x.2.map (·.1) }

/-- A directory with an initialization segment and segments of two seconds. -/
def tinyDir (id : String) (seg : Text → Text) (n : Nat) : Text × List (Text × Bytes) :=
  (id.toList, ("init.mp4".toList, (infoInit false).bytes) ::
    (List.range n).map fun k => (seg (natText (k + 1)), tinySegment (k + 1) (k * 180000) 180000))

/-- An adaptation set of the manifest. -/
def tinySet (kind media : String) (start : List (Text × Text)) (ids : List String) : Xml :=
  .elem "AdaptationSet".toList [("contentType".toList, kind.toList)] []
    (.elem "SegmentTemplate".toList ([("media".toList, media.toList),
      ("initialization".toList, "$RepresentationID$/init.mp4".toList), ("duration".toList, "2".toList)] ++ start) [] [] ::
     ids.map fun id => .elem "Representation".toList [("id".toList, id.toList), ("bandwidth".toList, "9".toList)] [] [])

def tinyMpd (sets : List Xml) : Xml :=
  .elem "MPD".toList [] [] [.elem "Period".toList [] [] sets]

def fromOne : List (Text × Text) := [("startNumber".toList, "1".toList)]

/-- The configuration that the analyser writes is the one the server reads. -/
def vodAfter (base : Text) (fs : Files) (mpd : Xml) : Text → Py VodCfg := fun n =>
  if n = base then do
    let out ← analyzeContent base fs mpd
    let f ← readConfig (some out.config)
    return f.toCfg
  else .error .osError

/-- The representations have ordinary names. -/
def plainIds (mpd : Xml) : Bool :=
  (adaptationSets mpd).all fun a => (representations a).all fun x =>
    match x.get "id".toList with
    | none => true
    | some id => decide (PlainId id)

theorem analysed_after {base : Text} {fs : Files} {mpd : Xml} (hb : ValueOk base) (hp : plainIds mpd = true)
    (h : (vodAfter base fs mpd base).isOk = true) : Analysed base fs mpd (vodAfter base fs mpd) base where
  run := by
    unfold vodAfter at h ⊢
    rw [if_pos rfl] at h ⊢
    cases h1 : analyzeContent base fs mpd with
    | error e => rw [h1] at h; cases h
    | ok out =>
      rw [h1] at h
      cases h2 : readConfig (some out.config) with
      | error e =>
        simp only [bind, Except.bind, h2] at h
        cases h
      | ok f => exact ⟨out, f, rfl, h2, by simp only [bind, Except.bind, h2]; rfl⟩
  base := hb
  ids := by
    intro a ha x hx id hid
    have h1 := List.all_eq_true.mp (List.all_eq_true.mp hp a ha) x hx
    rw [hid] at h1
    exact of_decide_eq_true h1

def m4s (n : Text) : Text := n ++ ".m4s".toList
def tinyFiles : Files := filesOf [tinyDir "V1" m4s 3, tinyDir "A1" m4s 3]
def tinyContent : Xml := tinyMpd [tinySet "video" "$RepresentationID$/$Number$.m4s" fromOne ["V1"],
  tinySet "audio" "$RepresentationID$/$Number$.m4s" fromOne ["A1"]]

/-- The body of the reply to a request for a media segment at the time `now`; `none` when the server decides not to
send one. -/
def replyBody (fs : Files) (vodOf : Text → Py VodCfg) (parts : List Text) (now : Int) : Py (Option MediaBody) := do
  let c ← processUrl examplePf vodOf parts now
  match ← getMedia examplePf c now with
  | .media w => return some (← mediaBody fs c w [])
  | _ => return none

def shorterFiles : Files := filesOf [tinyDir "V1" m4s 3, tinyDir "V2" m4s 2]
def shorterContent : Xml := tinyMpd [tinySet "video" "$RepresentationID$/$Number$.m4s" fromOne ["V1", "V2"]]
def prefixFiles : Files := filesOf [tinyDir "V1" (fun n => "seg_".toList ++ m4s n) 3]
def prefixContent : Xml := tinyMpd [tinySet "video" "$RepresentationID$/seg_$Number$.m4s" fromOne ["V1"]]
def textFiles : Files := filesOf [tinyDir "V1" m4s 3, tinyDir "T1" m4s 3]
def textContent : Xml := tinyMpd [tinySet "video" "$RepresentationID$/$Number$.m4s" fromOne ["V1"],
  tinySet "text" "$RepresentationID$/$Number$.m4s" fromOne ["T1"]]
def defaultContent : Xml := tinyMpd [tinySet "video" "$RepresentationID$/$Number$.m4s" [] ["V1"]]

/-- The requests of the cases below. -/
def tinyAsk (id file : String) : List Text := ["tsbd_40".toList, "tiny".toList, id.toList, file.toList]

/-- The hypotheses of `C77_media_partial` and `C77_init` hold for `tinyContent`, and segment 7, which is the first of
the third loop, is sent at 20 s with decode time 14 s. -/
example : Analysed "tiny".toList tinyFiles tinyContent (vodAfter "tiny".toList tinyFiles tinyContent) "tiny".toList ∧
    (∀ a ∈ adaptationSets tinyContent, NumberTemplate a ∧ InitTemplate a "init.mp4".toList) ∧
    (adaptationSets tinyContent).map (fun a => (representations a).map fun x => x.get "id".toList) =
      [[some "V1".toList], [some "A1".toList]] ∧
    partSlot "tiny".toList = none ∧ (partSlot "tsbd_40".toList).isSome = true ∧
    replyBody tinyFiles (vodAfter "tiny".toList tinyFiles tinyContent) (tinyAsk "V1" "7.m4s") 20 =
      .ok (some (.whole (tinySegment 7 1260000 180000))) :=
  ⟨analysed_after (by decide +kernel) (by decide +kernel) (by decide +kernel),
    by unfold NumberTemplate InitTemplate; decide +kernel, by decide +kernel, by decide +kernel, by decide +kernel,
    by decide +kernel⟩

/-- Asked for in chunks, the same segment comes in chunks with the time at which it starts. -/
example : (match replyBody tinyFiles (vodAfter "tiny".toList tinyFiles tinyContent)
      ("chunkdur_1".toList :: tinyAsk "V1" "7.m4s") 20 with
    | .ok (some (.chunked t l)) => decide (t = 14 ∧ l.length = 1)
    | _ => false) = true := by decide +kernel

/-- **C77 fails** for representations after the first of their adaptation set: the analyser does not compare the
numbers of segments.  `V2` has two segments, the loop three; the third segment of a loop is announced and available,
and opening its file raises. -/
theorem C77_other_violation :
    Analysed "tiny".toList shorterFiles shorterContent (vodAfter "tiny".toList shorterFiles shorterContent) "tiny".toList ∧
    (∀ a ∈ adaptationSets shorterContent, NumberTemplate a) ∧
    (adaptationSets shorterContent).map (fun a => (representations a).map fun x => x.get "id".toList) =
      [[some "V1".toList, some "V2".toList]] ∧
    (replyBody shorterFiles (vodAfter "tiny".toList shorterFiles shorterContent) (tinyAsk "V1" "8.m4s") 20).isOk = true ∧
    replyBody shorterFiles (vodAfter "tiny".toList shorterFiles shorterContent) (tinyAsk "V2" "8.m4s") 20 =
      .error .osError :=
  ⟨analysed_after (by decide +kernel) (by decide +kernel) (by decide +kernel),
    by unfold NumberTemplate; decide +kernel, by decide +kernel, by decide +kernel, by decide +kernel⟩

/-- **C77 fails** for templates with text beside the number: the analyser accepts `$RepresentationID$/seg_$Number$.m4s`,
and the server, which takes the whole file name for the number, raises for every segment. -/
theorem C77_template_violation :
    Analysed "tiny".toList prefixFiles prefixContent (vodAfter "tiny".toList prefixFiles prefixContent) "tiny".toList ∧
    replyBody prefixFiles (vodAfter "tiny".toList prefixFiles prefixContent) (tinyAsk "V1" "seg_7.m4s") 20 =
      .error .valueError :=
  ⟨analysed_after (by decide +kernel) (by decide +kernel) (by decide +kernel), by decide +kernel⟩

/-- **C77 fails** for content types other than video and audio: the analyser accepts the adaptation set and checks its
segments, and leaves it out of the configuration, so that every request for it raises. -/
theorem C77_kind_violation :
    Analysed "tiny".toList textFiles textContent (vodAfter "tiny".toList textFiles textContent) "tiny".toList ∧
    (∀ a ∈ adaptationSets textContent, NumberTemplate a) ∧
    replyBody textFiles (vodAfter "tiny".toList textFiles textContent) (tinyAsk "T1" "7.m4s") 20 = .error .keyError :=
  ⟨analysed_after (by decide +kernel) (by decide +kernel) (by decide +kernel),
    by unfold NumberTemplate; decide +kernel, by decide +kernel⟩

/-- **C77 fails** for manifests that leave `startNumber` to its default 1: the files are those of accepted content, and
the analyser raises. -/
theorem C77_default_violation :
    (analyzeContent "tiny".toList tinyFiles tinyContent).isOk = true ∧
    (∀ a ∈ adaptationSets defaultContent, NumberTemplate a ∧ InitTemplate a "init.mp4".toList) ∧
    analyzeContent "tiny".toList tinyFiles defaultContent = .error .typeError :=
  ⟨by decide +kernel, by unfold NumberTemplate InitTemplate; decide +kernel, by decide +kernel⟩

end Verif
