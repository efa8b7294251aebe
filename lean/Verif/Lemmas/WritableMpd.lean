import Verif.Lemmas.Writable
import Verif.Lemmas.MpdGenerate
/-
A manifest made from texts that can be written can be written.
-/
namespace Verif
open Spec

theorem goodValue_calm {t : Text} (h : t.all calm = true) : GoodValue t := (calm_good h).value

/-- What the processor puts into the manifest can be written. -/
structure GoodProc (p : ProcCfg) (d : MpdData) : Prop where
  loss : p.loss = false
  attrs : ∀ q ∈ d.attrs, GoodValue q.2
  profiles : ∀ l ∈ d.addProfiles, ∀ q ∈ l, GoodValue q
  baseUrl : GoodText d.baseUrl
  urls : ∀ u ∈ d.urls, GoodText u
  ato : ∀ a ∈ d.ato, GoodValue a.2
  utcHead : GoodValue p.utcHead
  direct : GoodValue p.direct
  fullUrl : GoodText p.fullUrl
  publish : GoodValue p.publish
  ll : ∀ a ∈ p.ll, GoodValue a

variable {p : ProcCfg} {d : MpdData} {x x' : Xml} {ks ks' : List Xml}

theorem goodKey_of {k : Text} (h : decide (GoodKey k) = true) : GoodKey k := of_decide_eq_true h

theorem writable_setFromDict {keys : List Text} (hk : ∀ k ∈ keys, GoodKey k) {a : List (Text × Text)}
    (ha : ∀ q ∈ a, GoodValue q.2) : ∀ {x : Xml}, Writable dashUri x → Writable dashUri (setFromDict keys a x) := by
  unfold setFromDict
  induction keys with
  | nil => exact id
  | cons k ks ih =>
    intro x hx
    rw [List.foldl_cons]
    refine ih (fun k hm => hk k (List.mem_cons_of_mem _ hm)) ?_
    split
    · rename_i v hv
      refine hx.set (hk k (by simp)) ?_
      unfold dictGet at hv
      obtain ⟨q, hq, rfl⟩ := Option.map_eq_some_iff.mp hv
      exact ha q (List.mem_of_find?_eq_some hq)
    · exact hx

theorem addProfs_mem {a b : List Text} {q : Text} (h : q ∈ addProfs a b) : q ∈ a ∨ q ∈ b := by
  unfold addProfs at h
  induction b generalizing a with
  | nil => exact .inl h
  | cons y ys ih =>
    rw [List.foldl_cons] at h
    rcases ih h with h | h
    · split at h
      · exact .inl h
      · rcases List.mem_append.mp h with h | h
        · exact .inl h
        · exact .inr (by rw [List.mem_singleton.mp h]; simp)
    · exact .inr (List.mem_cons_of_mem _ h)

theorem mpdKeys_good (d : MpdData) : ∀ k ∈ mpdKeys d, GoodKey k := by
  intro k hk
  unfold mpdKeys at hk
  rcases List.mem_append.mp hk with hk | hk
  · rcases List.mem_append.mp hk with hk | hk
    · rcases List.mem_append.mp hk with hk | hk
      · exact (by decide +kernel : ∀ k ∈ ["availabilityStartTime".toList, "availabilityEndTime".toList], GoodKey k) k hk
      · split at hk
        · cases hk
        · exact (by decide +kernel : ∀ k ∈ ["timeShiftBufferDepth".toList], GoodKey k) k hk
    · split at hk
      · cases hk
      · exact (by decide +kernel : ∀ k ∈ ["minimumUpdatePeriod".toList], GoodKey k) k hk
  · exact (by decide +kernel : ∀ k ∈ ["maxSegmentDuration".toList, "mediaPresentationDuration".toList,
      "suggestedPresentationDelay".toList], GoodKey k) k hk

theorem writable_processRoot (g : GoodProc p d) (hx : Writable dashUri x) (h : processRoot p d x = .ok x') :
    Writable dashUri x' := by
  obtain ⟨-, a, b, c, ha, hb, hc, rfl⟩ := processRoot_eq h
  have h1 : Writable dashUri (x.set "type".toList (if d.static then "static".toList else "dynamic".toList)) := by
    refine hx.set (by decide +kernel) ?_
    split <;> decide +kernel
  have h2 : Writable dashUri a := by
    unfold scteStep at ha
    split at ha
    · split at ha
      · cases ha
      · rename_i old ho
        simp only [Except.ok.injEq] at ha
        rw [← ha]
        split
        · exact h1
        · exact h1.set (by decide +kernel) ((h1.get ho).join divides_comma (by decide +kernel) (by decide +kernel))
    · cases ha; exact h1
  have h3 : Writable dashUri b := by
    unfold lossStep at hb
    rw [g.loss] at hb
    simp only [Bool.false_eq_true, if_false, Except.ok.injEq] at hb
    rw [← hb]; exact h2
  have h4 : Writable dashUri c := by
    unfold profilesStep at hc
    split at hc
    · cases hc; exact h3
    · rename_i new hn
      split at hc
      · cases hc
      · rename_i old ho
        simp only [Except.ok.injEq] at hc
        rw [← hc]
        refine h3.set (by decide +kernel) (goodValue_joinWith ?_)
        intro q hq
        rcases addProfs_mem hq with hq | hq
        · exact (h3.get ho).infix (splitChar_infix _ _ q hq)
        · exact g.profiles new (by rw [hn]; simp) q hq
  unfold attrsStep
  dsimp only
  have h5 := writable_setFromDict (mpdKeys_good d) g.attrs h4
  have h6 : Writable dashUri (if (dictGet d.attrs "mediaPresentationDuration".toList).isNone = true then
      (setFromDict (mpdKeys d) d.attrs c).del "mediaPresentationDuration".toList else setFromDict (mpdKeys d) d.attrs c) := by
    split
    · exact h5.del _
    · exact h5
  have h7 := (h6.set (k := "publishTime".toList) (by decide +kernel) g.publish).set (k := "id".toList)
    (v := "Config part of url maybe?".toList) (by decide +kernel) (by decide +kernel)
  split
  · split
    · exact h7.del _
    · exact (h7.del _).set (by decide +kernel) (by decide +kernel)
  · exact h7

/-! ### The children of the root element -/

theorem writable_baseUrlElem {url : Text} (hu : GoodText url) (g : GoodProc p d) :
    Writable dashUri (baseUrlElem url d.ato d.atc) := by
  have ka : GoodKey "availabilityTimeOffset".toList := by decide +kernel
  have kc : GoodKey "availabilityTimeComplete".toList := by decide +kernel
  have hA : ∀ o : Option (Rat × Text), (∀ a ∈ o, GoodValue a.2) → ∃ l : List Text, (∀ v ∈ l, GoodValue v) ∧ l.length ≤ 1 ∧
      (match o with
        | none => []
        | some (v, t) =>
          if v = -1 then [("availabilityTimeOffset".toList, "INF".toList)]
          else if 0 < v then [("availabilityTimeOffset".toList, t)] else []) =
        l.map (fun v => ("availabilityTimeOffset".toList, v)) := by
    rintro (_ | ⟨v, t⟩) ho
    · exact ⟨[], by simp, by simp, rfl⟩
    · dsimp only
      split
      · refine ⟨["INF".toList], ?_, by simp, rfl⟩
        intro v hv
        rw [List.mem_singleton.mp hv]; decide +kernel
      · split
        · exact ⟨[t], by simpa using ho (v, t) rfl, by simp, rfl⟩
        · exact ⟨[], by simp, by simp, rfl⟩
  have hC : ∀ o : Option Text, ∃ l : List Text, (∀ v ∈ l, GoodValue v) ∧ l.length ≤ 1 ∧
      (match o with
        | none => []
        | some t =>
          if t = "False".toList ∨ t = "false".toList ∨ t = "0".toList then [("availabilityTimeComplete".toList, t)]
          else []) = l.map (fun v => ("availabilityTimeComplete".toList, v)) := by
    rintro (_ | t)
    · exact ⟨[], by simp, by simp, rfl⟩
    · dsimp only
      split
      · rename_i h
        refine ⟨[t], ?_, by simp, rfl⟩
        intro v hv
        rw [List.mem_singleton.mp hv]
        rcases h with rfl | rfl | rfl <;> decide +kernel
      · exact ⟨[], by simp, by simp, rfl⟩
  obtain ⟨l1, g1, n1, e1⟩ := hA d.ato g.ato
  obtain ⟨l2, g2, n2, e2⟩ := hC d.atc
  have ne : treeName "availabilityTimeOffset".toList ≠ treeName "availabilityTimeComplete".toList := by decide +kernel
  have e : baseUrlElem url d.ato d.atc = .elem "BaseURL".toList
      (l1.map (fun v => ("availabilityTimeOffset".toList, v)) ++ l2.map (fun v => ("availabilityTimeComplete".toList, v))) url [] := by
    rw [← e1, ← e2]
    unfold baseUrlElem
    cases d.ato <;> cases d.atc <;> rfl
  rw [e]
  refine writable_leaf (by decide +kernel) ?_ ?_ hu (by simp)
  · intro q hq
    rcases List.mem_append.mp hq with hq | hq
    · obtain ⟨v, hv, rfl⟩ := List.mem_map.mp hq
      exact ⟨ka, g1 v hv⟩
    · obtain ⟨v, hv, rfl⟩ := List.mem_map.mp hq
      exact ⟨kc, g2 v hv⟩
  · match l1, l2, n1, n2 with
    | [], [], _, _ => simp
    | [_], [], _, _ => simp
    | [], [_], _, _ => simp
    | [_], [_], _, _ =>
      show [treeName "availabilityTimeOffset".toList, treeName "availabilityTimeComplete".toList].Nodup
      simp only [List.nodup_cons, List.mem_singleton, List.not_mem_nil, not_false_eq_true, List.nodup_nil, and_true]
      exact ne

theorem good_multiUrls {base : Text} (hb : GoodText base) {urls us : List Text} (hu : ∀ u ∈ urls, GoodText u)
    (h : multiUrls base urls = .ok us) : ∀ u ∈ us, GoodText u := by
  unfold multiUrls at h
  split at h
  · rename_i header body hs
    have i1 : GoodText header := hb.infix (splitSlashes_infix _ _ (by rw [hs]; simp))
    have i2 : GoodText body := hb.infix (splitSlashes_infix _ _ (by rw [hs]; simp))
    simp only [Except.ok.injEq] at h
    rw [← h]
    intro u hm
    obtain ⟨v, hv, rfl⟩ := List.mem_map.mp hm
    have hj : GoodText (joinWith '/' (insertBeforeLast ("baseurl_".toList ++ v) ((splitChar '/' body).map dropBaseurl))) := by
      refine goodText_joinWith ?_
      intro q hq
      have hq' : q = "baseurl_".toList ++ v ∨ q ∈ (splitChar '/' body).map dropBaseurl := by
        unfold insertBeforeLast insertAt at hq
        rcases List.mem_append.mp hq with hq | hq
        · exact .inr (List.mem_of_mem_take hq)
        · rcases List.mem_cons.mp hq with hq | hq
          · exact .inl hq
          · exact .inr (List.mem_of_mem_drop hq)
      rcases hq' with rfl | hq
      · have := GoodText.join (d := '_') (by decide +kernel) (by decide +kernel) (a := "baseurl".toList) (by decide +kernel) (hu v hv)
        have e : "baseurl_".toList ++ v = "baseurl".toList ++ '_' :: v := by
          have : "baseurl_".toList = "baseurl".toList ++ ['_'] := by decide +kernel
          rw [this]; simp
        rw [e]; exact this
      · obtain ⟨q', hq', rfl⟩ := List.mem_map.mp hq
        have hg := i2.infix (splitChar_infix _ _ q' hq')
        unfold dropBaseurl
        split
        · split
          · exact goodText_nil
          · exact hg
        · exact hg
    have h2 := i1.slash (goodText_nil.slash hj)
    have h3 := h2.slash goodText_nil
    have e2 : "//".toList = ['/', '/'] := by decide +kernel
    have e1 : "/".toList = ['/'] := by decide +kernel
    rw [e2, e1]
    simpa using h3
  · cases h

theorem writable_baseUrlStep (g : GoodProc p d) (hk : ∀ k ∈ ks, Writable dashUri k) {pos : Nat}
    (h : baseUrlStep p d ks = .ok (ks', pos)) : ∀ k ∈ ks', Writable dashUri k := by
  unfold baseUrlStep at h
  dsimp only at h
  split at h
  · cases h
  · rename_i next hn
    have hw := hk next (List.mem_of_getElem? hn)
    split at h
    · split at h
      · simp only [Except.ok.injEq, Prod.mk.injEq] at h
        rw [← h.1]
        exact fun k hm => hk k (List.mem_of_mem_eraseIdx hm)
      · simp only [Except.ok.injEq, Prod.mk.injEq] at h
        rw [← h.1]
        intro k hm
        rcases List.mem_or_eq_of_mem_set hm with hm | rfl
        · exact hk k hm
        · exact hw.setText g.baseUrl
    · split at h
      · simp only [Except.ok.injEq, Prod.mk.injEq] at h
        rw [← h.1]; exact hk
      · split at h
        · cases hu : multiUrls d.baseUrl d.urls with
          | error e => rw [hu] at h; cases h
          | ok us =>
            rw [hu] at h
            have hus := good_multiUrls g.baseUrl g.urls hu
            change Except.ok _ = Except.ok _ at h
            simp only [Except.ok.injEq, Prod.mk.injEq] at h
            rw [← h.1]
            intro k hm
            rcases List.mem_append.mp hm with hm | hm
            · rcases List.mem_append.mp hm with hm | hm
              · exact hk k (List.mem_of_mem_take hm)
              · obtain ⟨u, hu, rfl⟩ := List.mem_map.mp hm
                exact writable_baseUrlElem (hus u hu) g
            · exact hk k (List.mem_of_mem_drop hm)
        · simp only [Except.ok.injEq, Prod.mk.injEq] at h
          rw [← h.1]
          exact writable_insertAt hk (writable_baseUrlElem g.baseUrl g) _

theorem good_subRel {key w t : Text} {d : Char} (hd : Divides d) (h1 : 'n' ∉ w) (h2 : 'x' ∉ w)
    (hx : ∀ c ∈ d :: w, isXmlChar c = true) (n : Nat) (h : GoodText t) : GoodText (subRel key (d :: w) n t) := by
  refine ⟨?_, by simpa using untouched_subRel hd h1 h2 (key := key) n t [] h.2⟩
  intro c hc
  rcases subRel_mem n t c hc with hc | hc
  · exact hx c hc
  · exact h.1 c hc

theorem calm_xml {t : Text} (h : t.all calm = true) : ∀ c ∈ t, isXmlChar c = true := (calm_good h).1

theorem calm_not {t : Text} (h : t.all calm = true) : 'n' ∉ t ∧ 'x' ∉ t := by
  rw [List.all_eq_true] at h
  exact ⟨fun hm => absurd (h _ hm) (by decide), fun hm => absurd (h _ hm) (by decide)⟩

theorem good_locationUrl (g : GoodProc p d) {u : Text} (h : locationUrl p = .ok u) : GoodText u := by
  unfold locationUrl at h
  split at h
  · rename_i a b _ _
    simp only [Except.ok.injEq] at h
    rw [← h]
    have ea : "/start_".toList ++ intText a = '/' :: ("start_".toList ++ intText a) := by
      have : "/start_".toList = '/' :: "start_".toList := by decide +kernel
      rw [this]; rfl
    have eb : "/stop_".toList ++ intText b = '/' :: ("stop_".toList ++ intText b) := by
      have : "/stop_".toList = '/' :: "stop_".toList := by decide +kernel
      rw [this]; rfl
    have ca : ("start_".toList ++ intText a).all calm = true := calm_append (by decide +kernel) (calm_intText _)
    have cb : ("stop_".toList ++ intText b).all calm = true := calm_append (by decide +kernel) (calm_intText _)
    rw [ea, eb]
    refine good_subRel divides_slash (calm_not cb).1 (calm_not cb).2 (calm_xml (calm_cons (by decide) cb)) _ ?_
    exact good_subRel divides_slash (calm_not ca).1 (calm_not ca).2 (calm_xml (calm_cons (by decide) ca)) _ g.fullUrl
  · cases h

theorem writable_locationStep (g : GoodProc p d) (hk : ∀ k ∈ ks, Writable dashUri k) {pos pos' : Nat}
    (h : locationStep p ks pos = .ok (ks', pos')) : ∀ k ∈ ks', Writable dashUri k := by
  unfold locationStep at h
  split at h
  · cases hu : locationUrl p with
    | error e => rw [hu] at h; cases h
    | ok u =>
      rw [hu] at h
      change Except.ok _ = Except.ok _ at h
      simp only [Except.ok.injEq, Prod.mk.injEq] at h
      rw [← h.1]
      exact writable_insertAt hk (writable_leaf (by decide +kernel) (by simp) (by simp) (good_locationUrl g hu) (by simp)) _
  · simp only [Except.ok.injEq, Prod.mk.injEq] at h
    rw [← h.1]; exact hk

theorem writable_serviceStep (hk : ∀ k ∈ ks, Writable dashUri k) (pos : Nat) :
    ∀ k ∈ (serviceStep p ks pos).1, Writable dashUri k := by
  unfold serviceStep
  split
  · exact writable_insertAt hk (by decide +kernel) _
  · exact hk

theorem writable_insertCopies {c : Xml} (hc : Writable dashUri c) :
    ∀ (n pos : Nat) (ks : List Xml), (∀ k ∈ ks, Writable dashUri k) → ∀ k ∈ insertCopies c pos n ks, Writable dashUri k
  | 0, _, _, h => by unfold insertCopies; exact h
  | n + 1, pos, ks, h => by
    unfold insertCopies
    exact writable_insertCopies hc n _ _ (writable_insertAt h hc _)

theorem writable_copyPeriods (hk : ∀ k ∈ ks, Writable dashUri k) {n pos pos' : Nat}
    (h : copyPeriods n ks pos = .ok (ks', pos')) : ∀ k ∈ ks', Writable dashUri k := by
  unfold copyPeriods at h
  split at h
  · rename_i i period _ hp
    simp only [Except.ok.injEq, Prod.mk.injEq] at h
    rw [← h.1]
    exact writable_insertCopies (hk _ (List.mem_of_getElem? hp)) _ _ _ hk
  · cases h

theorem writable_descriptor {name uri value : Text} (hn : NameOk name) (hu : GoodValue uri) (hv : GoodValue value) :
    Writable dashUri (descriptor name uri value) := by
  unfold descriptor
  have k1 : GoodKey "schemeIdUri".toList := by decide +kernel
  have k2 : GoodKey "value".toList := by decide +kernel
  refine writable_leaf hn ?_ ?_ goodText_nil (by simp)
  · intro q hq
    rcases List.mem_cons.mp hq with rfl | hq
    · exact ⟨k1, hu⟩
    · split at hq
      · cases hq
      · rw [List.mem_singleton.mp hq]; exact ⟨k2, hv⟩
  · split
    · simp
    · show [treeName "schemeIdUri".toList, treeName "value".toList].Nodup
      decide +kernel

theorem writable_utcElem (g : GoodProc p d) {m : Text} (h : utcElem p m = .ok x) : Writable dashUri x := by
  unfold utcElem at h
  have hn : NameOk "UTCTiming".toList := by decide +kernel
  split at h
  · cases h; exact writable_descriptor hn (by decide +kernel) g.direct
  split at h
  · cases h; exact writable_descriptor hn (by decide +kernel) g.utcHead
  split at h
  · cases h; exact writable_descriptor hn (by decide +kernel) (by decide +kernel)
  split at h
  · cases h; exact writable_descriptor hn (by decide +kernel) (by decide +kernel)
  split at h
  · cases h; exact writable_descriptor hn (by decide +kernel) (by decide +kernel)
  split at h
  · cases h; exact writable_descriptor hn (by decide +kernel) (by decide +kernel)
  · cases h

theorem writable_insertUtc (g : GoodProc p d) : ∀ {ms : List Text} {pos : Nat} {ks ks' : List Xml},
    (∀ k ∈ ks, Writable dashUri k) → insertUtc p ms pos ks = .ok ks' → ∀ k ∈ ks', Writable dashUri k
  | [], _, _, _, hk, h => by cases h; exact hk
  | m :: ms, pos, ks, ks', hk, h => by
    unfold insertUtc at h
    split at h
    · cases h
    · rename_i x hx
      exact writable_insertUtc g (writable_insertAt hk (writable_utcElem g hx) _) h

/-! ### Periods -/

theorem writable_sXml (s : SElem) : Writable dashUri (sXml s) := by
  unfold sXml
  have kt : GoodKey "t".toList := by decide +kernel
  have kd : GoodKey "d".toList := by decide +kernel
  have kr : GoodKey "r".toList := by decide +kernel
  have vi : ∀ n : Int, GoodValue (intText n) := fun n => goodValue_calm (calm_intText n)
  have vn : ∀ n : Nat, GoodValue (natText n) := fun n => goodValue_calm (calm_natText n)
  have hn : [treeName "t".toList, treeName "d".toList, treeName "r".toList].Nodup := by decide +kernel
  obtain ⟨t, dd, r⟩ := s
  cases t <;> cases r <;> dsimp only
  · refine writable_leaf (by decide +kernel) ?_ ?_ goodText_nil (by simp)
    · simp only [List.nil_append, List.mem_singleton, forall_eq]; exact ⟨kd, vn _⟩
    · simp
  · refine writable_leaf (by decide +kernel) ?_ ?_ goodText_nil (by simp)
    · simp only [List.nil_append, List.mem_cons, List.not_mem_nil, or_false, forall_eq_or_imp, forall_eq]
      exact ⟨⟨kd, vn _⟩, kr, vn _⟩
    · exact hn.sublist (List.sublist_cons_self _ _)
  · refine writable_leaf (by decide +kernel) ?_ ?_ goodText_nil (by simp)
    · simp only [List.cons_append, List.nil_append, List.mem_cons, List.not_mem_nil, or_false, forall_eq_or_imp, forall_eq]
      exact ⟨⟨kt, vi _⟩, kd, vn _⟩
    · show [treeName "t".toList, treeName "d".toList].Nodup
      decide +kernel
  · refine writable_leaf (by decide +kernel) ?_ ?_ goodText_nil (by simp)
    · simp only [List.cons_append, List.nil_append, List.mem_cons, List.not_mem_nil, or_false, forall_eq_or_imp, forall_eq]
      exact ⟨⟨kt, vi _⟩, ⟨kd, vn _⟩, kr, vn _⟩
    · exact hn

theorem good_timeMedia {m : Text} (h : GoodValue m) (n : Nat) :
    GoodValue (replaceText "$Number$".toList "t$Time$".toList n m) := by
  have e : "t$Time$".toList = 't' :: "$Time$".toList := by decide +kernel
  refine ⟨?_, ?_⟩
  · intro c hc
    rcases replaceText_mem n m c hc with hc | hc
    · exact (by decide +kernel : GoodValue "t$Time$".toList).1 c hc
    · exact h.1 c hc
  · rw [e]
    have := untouched_replace (old := "$Number$".toList) (d := 't') (w := "$Time$".toList) (by decide +kernel)
      (by decide +kernel) (by decide +kernel) n m [] h.2
    simpa using this

theorem writable_timelineStep {pd : PeriodData} {ctype : Option Text} {gs gs' : Gens} (hx : Writable dashUri x)
    (h : timelineStep p d pd ctype gs x = .ok (x', gs')) : Writable dashUri x' := by
  unfold timelineStep at h
  split at h
  · cases h
  dsimp only at h
  split at h
  · cases h
  rename_i tab _ _ _ _ tl _
  have h1 : Writable dashUri ((x.del "duration".toList).set "timescale".toList (natText tab.timescale)) :=
    (hx.del _).set (by decide +kernel) (goodValue_calm (calm_natText _))
  have h2 : Writable dashUri (if ¬(d.ptoText = true ∧ pd.pto = 0) ∧ ¬d.offsetAtPeriod = true then
      ((x.del "duration".toList).set "timescale".toList (natText tab.timescale)).set "presentationTimeOffset".toList
        (intText (pd.pto * tab.timescale)) else ((x.del "duration".toList).set "timescale".toList (natText tab.timescale))) := by
    split
    · exact h1.set (by decide +kernel) (goodValue_calm (calm_intText _))
    · exact h1
  split at h
  · cases h
  rename_i media hm
  have hmv := h2.get hm
  split at h
  · cases h
  rename_i es _
  simp only [Except.ok.injEq, Prod.mk.injEq] at h
  rw [← h.1]
  have hs : Writable dashUri (.elem "SegmentTimeline".toList [] "\n".toList (es.map sXml)) := by
    refine writable_leaf (by decide +kernel) (by simp) (by simp) (by decide +kernel) ?_
    intro k hk
    obtain ⟨s, _, rfl⟩ := List.mem_map.mp hk
    exact writable_sXml s
  refine Spec.Writable.insert (Spec.Writable.setText ?_ (by decide +kernel)) 0 hs
  split
  · exact (h2.del _).set (by decide +kernel) (good_timeMedia hmv _)
  · refine (h2.set (by decide +kernel) ?_).set (by decide +kernel) hmv
    split
    · exact goodValue_calm (calm_intText _)
    · decide +kernel

theorem writable_templateStep (g : GoodProc p d) {pd : PeriodData} {ctype : Option Text} {gs gs' : Gens}
    (hx : Writable dashUri x) (h : templateStep p d pd ctype gs x = .ok (x', gs')) : Writable dashUri x' := by
  unfold templateStep at h
  dsimp only at h
  have vi : ∀ n : Int, GoodValue (intText n) := fun n => goodValue_calm (calm_intText n)
  have h1 : Writable dashUri (x.set "startNumber".toList (intText pd.startNumber)) := hx.set (by decide +kernel) (vi _)
  have h2 : Writable dashUri (if (d.ptoText = true ∨ pd.pto ≠ 0) ∧ ¬d.offsetAtPeriod = true ∧ intText pd.pto ≠ "0".toList then
      (x.set "startNumber".toList (intText pd.startNumber)).set "presentationTimeOffset".toList (intText pd.pto)
      else x.set "startNumber".toList (intText pd.startNumber)) := by
    split
    · exact h1.set (by decide +kernel) (vi _)
    · exact h1
  generalize (if (d.ptoText = true ∨ pd.pto ≠ 0) ∧ ¬d.offsetAtPeriod = true ∧ intText pd.pto ≠ "0".toList then
      (x.set "startNumber".toList (intText pd.startNumber)).set "presentationTimeOffset".toList (intText pd.pto)
      else x.set "startNumber".toList (intText pd.startNumber)) = y at h h2
  have fin : ∀ z : Xml, Writable dashUri z →
      (if (p.tl || p.tlNr) = true then timelineStep p d pd ctype gs
          (if intText pd.startNumber = "-1".toList then z.del "startNumber".toList else z)
        else Except.ok (if intText pd.startNumber = "-1".toList then z.del "startNumber".toList else z, gs)) = .ok (x', gs') →
      Writable dashUri x' := by
    intro z hz h
    have h4 : Writable dashUri (if intText pd.startNumber = "-1".toList then z.del "startNumber".toList else z) := by
      split
      · exact hz.del _
      · exact hz
    split at h
    · exact writable_timelineStep h4 h
    · simp only [Except.ok.injEq, Prod.mk.injEq] at h
      rw [← h.1]; exact h4
  cases hll : p.ll with
  | none => rw [hll] at h; exact fin y h2 h
  | some a =>
    rw [hll] at h
    exact fin _ ((h2.set (by decide +kernel) (g.ll a (by rw [hll]; rfl))).set (by decide +kernel) (by decide +kernel)) h

theorem good_periodId (pd : PeriodData) : GoodValue (periodId pd) :=
  goodValue_calm (calm_cons (by decide) (calm_intText _))

theorem writable_adSetKids {last : Option Text} (hl : ∀ l ∈ last, GoodValue l) (ctype : Option Text)
    (hk : ∀ k ∈ ks, Writable dashUri k) : ∀ k ∈ adSetKids p last ctype ks, Writable dashUri k := by
  unfold adSetKids
  dsimp only
  have h1 : ∀ k ∈ (if p.emsgLast = true then
      insertAt 0 (descriptor "InbandEventStream".toList "urn:mpeg:dash:event:2012".toList "1".toList) ks else ks),
      Writable dashUri k := by
    split
    · exact writable_insertAt hk (by decide +kernel) _
    · exact hk
  generalize (if p.emsgLast = true then
      insertAt 0 (descriptor "InbandEventStream".toList "urn:mpeg:dash:event:2012".toList "1".toList) ks else ks) = k1 at h1 ⊢
  have h2 : ∀ k ∈ (if ctype = some "video".toList ∧ p.scte35 = true then
      insertAt 0 (descriptor "InbandEventStream".toList "urn:scte:scte35:2013:xml".toList "999".toList) k1 else k1),
      Writable dashUri k := by
    split
    · exact writable_insertAt h1 (by decide +kernel) _
    · exact h1
  generalize (if ctype = some "video".toList ∧ p.scte35 = true then
      insertAt 0 (descriptor "InbandEventStream".toList "urn:scte:scte35:2013:xml".toList "999".toList) k1 else k1) = k2 at h2 ⊢
  generalize (if ctype = some "video".toList ∧ p.scte35 = true then 1 else 0) = pos
  have fin : ∀ k3 : List Xml, (∀ k ∈ k3, Writable dashUri k) →
      ∀ k ∈ (if p.ll.isSome = true then insertAt pos producerReference k3 else k3), Writable dashUri k := by
    intro k3 h3
    split
    · exact writable_insertAt h3 (by decide +kernel) _
    · exact h3
  cases p.continuous <;> cases last
  · exact fin _ h2
  · exact fin _ h2
  · exact fin _ h2
  · rename_i l
    exact fin _ (writable_insertAt h2 (writable_descriptor (by decide +kernel) (by decide +kernel) (hl l rfl)) _)

theorem writable_adSetStep (g : GoodProc p d) {pd : PeriodData} {last : Option Text} (hl : ∀ l ∈ last, GoodValue l)
    {gs gs' : Gens} (hx : Writable dashUri x) (h : adSetStep p d pd last gs x = .ok (x', gs')) : Writable dashUri x' := by
  unfold adSetStep at h
  dsimp only at h
  split at h
  · cases h
  · rename_i kids g' hm
    simp only [Except.ok.injEq, Prod.mk.injEq] at h
    rw [← h.1]
    exact hx.setKids (writable_mapTag (fun s y y' s' hy hs => writable_templateStep g hy hs)
      (writable_adSetKids hl _ hx.kids) hm)

theorem good_callbackUrl (hk : ∀ k ∈ ks, Writable dashUri k) : ∀ u ∈ callbackUrl ks, GoodText u := by
  intro u hu
  unfold callbackUrl at hu
  split at hu
  · cases hu
  · rename_i b hb
    have hg := (hk b (List.mem_of_find?_eq_some hb)).text
    split at hu
    · rename_i a a' c e r hs
      have i : ∀ q ∈ splitChar '/' b.text, GoodText q := fun q hq => hg.infix (splitChar_infix _ _ q hq)
      rw [hs] at i
      have ia := i a (by simp)
      have ic := i c (by simp)
      have ie := i e (by simp)
      simp only [Option.mem_def, Option.some.injEq] at hu
      rw [← hu]
      have := ia.slash (goodText_nil.slash (ic.slash (ie.slash (b := "mpdcallback/".toList) (by decide +kernel))))
      have e2 : "//".toList = ['/', '/'] := by decide +kernel
      have e3 : "/mpdcallback/".toList = '/' :: "mpdcallback/".toList := by decide +kernel
      rw [e2, e3]
      simpa using this
    · cases hu

theorem writable_callbackElem {u : Text} (hu : GoodText u) : Writable dashUri (callbackElem u) := by
  unfold callbackElem
  refine writable_leaf (by decide +kernel) (by decide +kernel) (by decide +kernel) goodText_nil ?_
  intro k hk
  rw [List.mem_singleton.mp hk]
  refine writable_leaf (by decide +kernel) ?_ (by simp) goodText_nil (by simp)
  intro q hq
  rw [List.mem_singleton.mp hq]
  exact ⟨(by decide +kernel : GoodKey "messageData".toList), hu.value⟩

theorem writable_periodHead {cb : Option Text} (hcb : ∀ u ∈ cb, GoodText u) {pd : PeriodData}
    (hx : Writable dashUri x) (h : periodHead d cb pd x = .ok x') : Writable dashUri x' := by
  unfold periodHead at h
  dsimp only at h
  have h1 : Writable dashUri ((x.set "id".toList (periodId pd)).set "start".toList (ptText pd.start)) :=
    (hx.set (by decide +kernel) (good_periodId pd)).set (by decide +kernel) (goodValue_calm (calm_ptText _))
  have hd : ∀ {y : Xml} (n : Int), Writable dashUri y → Writable dashUri (y.set "duration".toList (ptText n)) :=
    fun n hy => hy.set (by decide +kernel) (goodValue_calm (calm_ptText n))
  have fin : ∀ z : Xml, Writable dashUri z →
      (if pd.callback = true then
        match cb with
        | none => Except.error PyErr.unbound
        | some u => Except.ok ((if (d.ptoText = true ∨ pd.pto ≠ 0) ∧ d.offsetAtPeriod = true then
            z.insert 0 (.elem "SegmentBase".toList [("presentationTimeOffset".toList, intText pd.pto)] [] []) else z).insert 0
              (callbackElem u))
      else Except.ok (if (d.ptoText = true ∨ pd.pto ≠ 0) ∧ d.offsetAtPeriod = true then
            z.insert 0 (.elem "SegmentBase".toList [("presentationTimeOffset".toList, intText pd.pto)] [] []) else z)) =
        .ok x' → Writable dashUri x' := by
    intro z hz h
    have h2 : Writable dashUri (if (d.ptoText = true ∨ pd.pto ≠ 0) ∧ d.offsetAtPeriod = true then
        z.insert 0 (.elem "SegmentBase".toList [("presentationTimeOffset".toList, intText pd.pto)] [] []) else z) := by
      split
      · refine hz.insert 0 (writable_leaf (by decide +kernel) ?_ (by simp) goodText_nil (by simp))
        intro q hq
        rw [List.mem_singleton.mp hq]
        exact ⟨(by decide +kernel : GoodKey "presentationTimeOffset".toList), goodValue_calm (calm_intText _)⟩
      · exact hz
    split at h
    · split at h
      · cases h
      · rename_i u _
        simp only [Except.ok.injEq] at h
        rw [← h]
        exact h2.insert 0 (writable_callbackElem (hcb u rfl))
    · simp only [Except.ok.injEq] at h
      rw [← h]; exact h2
  cases he : pd.etp <;> cases ha : pd.durAttr <;> rw [he, ha] at h
  · exact fin _ h1 h
  · exact fin _ (hd _ h1) h
  · exact fin _ (hd _ h1) h
  · exact fin _ (hd _ (hd _ h1)) h

/-- The loop over the periods, whose state has the id of the period before. -/
theorem writable_periods (g : GoodProc p d) {cb : Option Text} (hcb : ∀ u ∈ cb, GoodText u) {tag : Text} :
    ∀ {ks : List Xml} {s : PeriodState} {ks' : List Xml} {s' : PeriodState}, (∀ l ∈ s.last, GoodValue l) →
      (∀ k ∈ ks, Writable dashUri k) → mapTag tag (periodStep p d cb) s ks = .ok (ks', s') →
      ∀ k ∈ ks', Writable dashUri k
  | [], s, ks', s', _, _, h => by simp only [mapTag, Except.ok.injEq, Prod.mk.injEq] at h; simp [← h.1]
  | y :: ys, s, ks', s', hl, hk, h => by
    have ih := fun {s : PeriodState} {ks' : List Xml} {s' : PeriodState} (hl : ∀ l ∈ s.last, GoodValue l) =>
      writable_periods (tag := tag) g hcb (ks := ys) (s := s) (ks' := ks') (s' := s') hl
      (fun k hm => hk k (List.mem_cons_of_mem _ hm))
    unfold mapTag at h
    split at h
    · split at h
      · cases h
      · rename_i y' s1 hy
        have hy2 : Writable dashUri y' ∧ ∀ l ∈ s1.last, GoodValue l := by
          unfold periodStep at hy
          split at hy
          · simp only [Except.ok.injEq, Prod.mk.injEq] at hy
            rw [← hy.1, ← hy.2]
            exact ⟨hk y (by simp), hl⟩
          · rename_i pd rest _
            split at hy
            · cases hy
            · rename_i z hz
              have hzw := writable_periodHead hcb (hk y (by simp)) hz
              split at hy
              · cases hy
              · rename_i kids gs hm
                simp only [Except.ok.injEq, Prod.mk.injEq] at hy
                rw [← hy.1, ← hy.2]
                refine ⟨hzw.setKids (writable_mapTag (fun s y y' s' hy hs => writable_adSetStep g hl hy hs) hzw.kids hm), ?_⟩
                intro l hl
                simp only [Option.mem_def, Option.some.injEq] at hl
                rw [← hl]; exact good_periodId pd
        split at h
        · cases h
        · rename_i ys' s2 hys
          simp only [Except.ok.injEq, Prod.mk.injEq] at h
          rw [← h.1]
          intro k hm
          rcases List.mem_cons.mp hm with rfl | hm
          · exact hy2.1
          · exact ih hy2.2 hys k hm
    · split at h
      · cases h
      · rename_i ys' s2 hys
        simp only [Except.ok.injEq, Prod.mk.injEq] at h
        rw [← h.1]
        intro k hm
        rcases List.mem_cons.mp hm with rfl | hm
        · exact hk _ (by simp)
        · exact ih hl hys k hm

theorem writable_updatePeriods (g : GoodProc p d) {pds : List PeriodData} (hk : ∀ k ∈ ks, Writable dashUri k)
    (h : updatePeriods p d pds ks = .ok ks') : ∀ k ∈ ks', Writable dashUri k := by
  unfold updatePeriods at h
  split at h
  · cases h
  · split at h
    · cases h
    · rename_i kids s hm
      simp only [Except.ok.injEq] at h
      rw [← h]
      exact writable_periods g (good_callbackUrl hk) (by simp) hk hm

theorem writable_processKids (g : GoodProc p d) {pds : List PeriodData} (hk : ∀ k ∈ ks, Writable dashUri k)
    (h : processKids p d pds ks = .ok ks') : ∀ k ∈ ks', Writable dashUri k := by
  unfold processKids at h
  simp only [Py.bind_ok, Py.pure_ok] at h
  obtain ⟨⟨k1, p1⟩, h1, ⟨k2, p2⟩, h2, ⟨k3, p3⟩, h3, k4, h4, h5⟩ := h
  have w1 := writable_baseUrlStep g hk h1
  have w2 := writable_locationStep g w1 h2
  have w3 := writable_copyPeriods (writable_serviceStep (p := p) w2 p2) h3
  have w4 := writable_insertUtc g w3 h4
  exact writable_updatePeriods g w4 h5

theorem writable_processMpd (g : GoodProc p d) {pds : List PeriodData} (hx : Writable dashUri x)
    (h : processMpd p d pds x = .ok x') : Writable dashUri x' := by
  unfold processMpd at h
  simp only [Py.bind_ok, Py.pure_ok] at h
  obtain ⟨root, h1, kids, h2, rfl⟩ := h
  have w := writable_processRoot g hx h1
  exact w.setKids (writable_processKids g w.kids h2)

end Verif
