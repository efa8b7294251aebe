import Verif.Lemmas.MpdTree
import Verif.Spec.Manifest
/-
What the loops over periods, adaptation sets and segment templates do to one element.
-/
namespace Verif
open Spec

theorem Spec.SameBut.refl (keys : List Text) (a : Xml) : SameBut keys a a := ⟨rfl, fun _ _ => rfl⟩

theorem Spec.SameBut.trans {keys : List Text} {a b c : Xml} (h : SameBut keys a b) (h' : SameBut keys b c) :
    SameBut keys a c := ⟨h'.1.trans h.1, fun k hk => (h'.2 k hk).trans (h.2 k hk)⟩

theorem Spec.SameBut.set {keys : List Text} {a b : Xml} (h : SameBut keys a b) {k : Text} (hk : k ∈ keys) (v : Text) :
    SameBut keys a (b.set k v) :=
  ⟨by rw [Xml.tag_set]; exact h.1, fun k' hk' => by
    rw [Xml.get_set_ne (fun e => hk' (by rw [e]; exact hk))]; exact h.2 k' hk'⟩

theorem Spec.SameBut.del {keys : List Text} {a b : Xml} (h : SameBut keys a b) {k : Text} (hk : k ∈ keys) :
    SameBut keys a (b.del k) :=
  ⟨by rw [Xml.tag_del]; exact h.1, fun k' hk' => by
    rw [Xml.get_del_ne (fun e => hk' (by rw [e]; exact hk))]; exact h.2 k' hk'⟩

theorem Spec.SameBut.setText {keys : List Text} {a b : Xml} (h : SameBut keys a b) (t : Text) :
    SameBut keys a (b.setText t) :=
  ⟨by rw [Xml.tag_setText]; exact h.1, fun k' hk' => by rw [Xml.get_setText]; exact h.2 k' hk'⟩

theorem Spec.SameBut.insert {keys : List Text} {a b : Xml} (h : SameBut keys a b) (n : Nat) (c : Xml) :
    SameBut keys a (b.insert n c) :=
  ⟨by rw [Xml.tag_insert]; exact h.1, fun k' hk' => by rw [Xml.get_insert]; exact h.2 k' hk'⟩

theorem Spec.SameBut.setKids {keys : List Text} {a b : Xml} (h : SameBut keys a b) (ks : List Xml) :
    SameBut keys a (b.setKids ks) :=
  ⟨by rw [Xml.tag_setKids]; exact h.1, fun k' hk' => by rw [Xml.get_setKids]; exact h.2 k' hk'⟩

theorem Spec.SameBut.mono {keys keys' : List Text} {a b : Xml} (h : SameBut keys a b) (hs : ∀ k ∈ keys, k ∈ keys') :
    SameBut keys' a b := ⟨h.1, fun k hk => h.2 k (fun hk' => hk (hs k hk'))⟩

/-- A loop over the elements with a tag, as a relation of the lists of elements. -/
theorem MapTag.forall₂ {σ : Type} {tag : Text} {f : σ → Xml → Py (Xml × σ)} {s s' : σ} {xs ys : List Xml}
    {rel : Xml → Xml → Prop} (h : MapTag tag f s xs ys s')
    (hf : ∀ s x x' s', x ∈ xs → f s x = .ok (x', s') → rel x x') : List.Forall₂ (OnlyTag tag rel) xs ys := by
  induction h with
  | nil => exact .nil
  | hit ht he _ ih =>
    refine .cons ⟨fun _ => hf _ _ _ _ (List.mem_cons_self ..) he, fun hn => absurd ht hn⟩ (ih ?_)
    exact fun s x x' s' hx => hf s x x' s' (List.mem_cons_of_mem _ hx)
  | skip hn _ ih =>
    refine .cons ⟨fun ht => absurd ht hn, fun _ => rfl⟩ (ih ?_)
    exact fun s x x' s' hx => hf s x x' s' (List.mem_cons_of_mem _ hx)

/-! ### Segment templates -/

/-- The part of `templateStep` before the timeline. -/
def templateNumbers (p : ProcCfg) (d : MpdData) (pd : PeriodData) (t : Xml) : Xml :=
  let t := t.set "startNumber".toList (intText pd.startNumber)
  let t := if (d.ptoText ∨ pd.pto ≠ 0) ∧ ¬d.offsetAtPeriod ∧ intText pd.pto ≠ "0".toList then
      t.set "presentationTimeOffset".toList (intText pd.pto) else t
  let t := match p.ll with
    | some ato => (t.set "availabilityTimeOffset".toList ato).set "availabilityTimeComplete".toList "false".toList
    | none => t
  if intText pd.startNumber = "-1".toList then t.del "startNumber".toList else t

theorem templateStep_eq (p : ProcCfg) (d : MpdData) (pd : PeriodData) (ctype : Option Text) (g : Gens) (t : Xml) :
    templateStep p d pd ctype g t =
      if p.tl || p.tlNr then timelineStep p d pd ctype g (templateNumbers p d pd t)
      else .ok (templateNumbers p d pd t, g) := rfl

/-- `SameBut`, with the same text and children. -/
def Edited (keys : List Text) (a b : Xml) : Prop := SameBut keys a b ∧ b.text = a.text ∧ b.kids = a.kids

theorem Edited.refl (keys : List Text) (a : Xml) : Edited keys a a := ⟨.refl _ _, rfl, rfl⟩

theorem Edited.set {keys : List Text} {a b : Xml} (h : Edited keys a b) {k : Text} (hk : k ∈ keys) (v : Text) :
    Edited keys a (b.set k v) := ⟨h.1.set hk v, by rw [Xml.text_set, h.2.1], by rw [Xml.kids_set, h.2.2]⟩

theorem Edited.del {keys : List Text} {a b : Xml} (h : Edited keys a b) {k : Text} (hk : k ∈ keys) :
    Edited keys a (b.del k) := ⟨h.1.del hk, by rw [Xml.text_del, h.2.1], by rw [Xml.kids_del, h.2.2]⟩

theorem Edited.mono {keys keys' : List Text} {a b : Xml} (h : Edited keys a b) (hs : ∀ k ∈ keys, k ∈ keys') :
    Edited keys' a b := ⟨h.1.mono hs, h.2⟩

theorem templateNumbers_kept (p : ProcCfg) (d : MpdData) (pd : PeriodData) (t : Xml) :
    Edited ["startNumber".toList, "presentationTimeOffset".toList, "availabilityTimeOffset".toList,
      "availabilityTimeComplete".toList] t (templateNumbers p d pd t) := by
  unfold templateNumbers
  dsimp only
  split <;> split <;> split <;>
    repeat (first | exact Edited.refl _ _ | refine Edited.set ?_ (by decide +kernel) _ | refine Edited.del ?_ (by decide +kernel))

theorem timelineStep_kept {p : ProcCfg} {d : MpdData} {pd : PeriodData} {ctype : Option Text} {g g' : Gens}
    {t t' : Xml} (h : timelineStep p d pd ctype g t = .ok (t', g')) :
    SameBut ["startNumber".toList, "presentationTimeOffset".toList, "duration".toList, "timescale".toList,
      "media".toList] t t' ∧ ∃ tl, tl.tag = "SegmentTimeline".toList ∧ t'.kids = tl :: t.kids := by
  unfold timelineStep at h
  cases hg : genOf p g ctype with
  | error e => rw [hg] at h; cases h
  | ok r =>
    obtain ⟨tab, before, put⟩ := r
    rw [hg] at h
    dsimp only at h
    generalize timelineWindow p.now p.tsbd p.ast pd.start pd.durS (p.startTime.getD 0) p.stopTime
      (p.timeoffset.getD 1) = w at h
    cases hc : createTimeline tab before w.1 w.2.1 w.2.2 with
    | error e => rw [hc] at h; cases h
    | ok tl =>
      rw [hc] at h
      dsimp only at h
      have hx : Edited ["startNumber".toList, "presentationTimeOffset".toList, "duration".toList,
          "timescale".toList, "media".toList] t
          (if ¬(d.ptoText ∧ pd.pto = 0) ∧ ¬d.offsetAtPeriod then
            ((t.del "duration".toList).set "timescale".toList (natText tab.timescale)).set
              "presentationTimeOffset".toList (intText (pd.pto * tab.timescale))
            else (t.del "duration".toList).set "timescale".toList (natText tab.timescale)) := by
        have h1 := ((Edited.refl _ t).del (keys := ["startNumber".toList, "presentationTimeOffset".toList,
          "duration".toList, "timescale".toList, "media".toList]) (k := "duration".toList)
          (by decide +kernel)).set (k := "timescale".toList) (by decide +kernel) (natText tab.timescale)
        split
        · exact h1.set (by decide +kernel) _
        · exact h1
      generalize (if ¬(d.ptoText ∧ pd.pto = 0) ∧ ¬d.offsetAtPeriod then
            ((t.del "duration".toList).set "timescale".toList (natText tab.timescale)).set
              "presentationTimeOffset".toList (intText (pd.pto * tab.timescale))
            else (t.del "duration".toList).set "timescale".toList (natText tab.timescale)) = x at h hx
      cases hm : x.get "media".toList with
      | none => rw [hm] at h; cases h
      | some media =>
        rw [hm] at h
        dsimp only at h
        cases he : tl.elems with
        | none => rw [he] at h; cases h
        | some es =>
          rw [he] at h
          simp only [Except.ok.injEq, Prod.mk.injEq] at h
          obtain ⟨rfl, -⟩ := h
          have hy : Edited ["startNumber".toList, "presentationTimeOffset".toList, "duration".toList,
              "timescale".toList, "media".toList] t
              (if p.tl = true then
                (x.del "startNumber".toList).set "media".toList
                  (replaceText "$Number$".toList "t$Time$".toList media.length media)
              else (x.set "startNumber".toList
                (match tl.startNr with | some n => intText n | none => "None".toList)).set
                "media".toList media) := by
            split
            · exact (hx.del (by decide +kernel)).set (by decide +kernel) _
            · exact (hx.set (by decide +kernel) _).set (by decide +kernel) _
          generalize (if p.tl = true then
                (x.del "startNumber".toList).set "media".toList
                  (replaceText "$Number$".toList "t$Time$".toList media.length media)
              else (x.set "startNumber".toList
                (match tl.startNr with | some n => intText n | none => "None".toList)).set
                "media".toList media) = y at hy
          refine ⟨SameBut.insert (SameBut.setText hy.1 _) _ _,
            .elem "SegmentTimeline".toList [] "\n".toList (es.map sXml), rfl, ?_⟩
          rw [Xml.kids_insert, Xml.kids_setText, hy.2.2]
          rfl

theorem templateStep_kept {p : ProcCfg} {d : MpdData} {pd : PeriodData} {ctype : Option Text} {g g' : Gens}
    {t t' : Xml} (h : templateStep p d pd ctype g t = .ok (t', g')) : TemplateKept (p.tl || p.tlNr) t t' := by
  rw [templateStep_eq] at h
  have hk := templateNumbers_kept p d pd t
  unfold TemplateKept
  split at h
  · rename_i hb
    rw [if_pos hb]
    obtain ⟨h1, tl, h2, h3⟩ := timelineStep_kept h
    refine ⟨(hk.1.mono ?_).trans (h1.mono ?_), tl, h2, by rw [h3, hk.2.2]⟩
    · decide +kernel
    · decide +kernel
  · rename_i hb
    rw [if_neg hb]
    cases h
    exact hk

/-! ### Adaptation sets -/

/-- The elements that `adSetKids` puts before the others. -/
def adSetNew (p : ProcCfg) (last : Option Text) (ctype : Option Text) : List Xml :=
  let scte := ctype = some "video".toList ∧ p.scte35
  (if scte then [descriptor "InbandEventStream".toList "urn:scte:scte35:2013:xml".toList "999".toList] else []) ++
  (if p.ll.isSome then [producerReference] else []) ++
  (match p.continuous, last with
    | true, some l => [descriptor "SupplementalProperty".toList "urn:mpeg:dash:period_continuity:2014".toList l]
    | _, _ => []) ++
  (if p.emsgLast then [descriptor "InbandEventStream".toList "urn:mpeg:dash:event:2012".toList "1".toList] else [])

theorem adSetKids_eq (p : ProcCfg) (last : Option Text) (ctype : Option Text) (kids : List Xml) :
    adSetKids p last ctype kids = adSetNew p last ctype ++ kids := by
  unfold adSetKids adSetNew insertAt
  dsimp only
  by_cases hs : ctype = some "video".toList ∧ p.scte35 <;> simp only [hs, if_false] <;>
    cases p.emsgLast <;> cases p.continuous <;> cases last <;> cases p.ll <;> rfl

theorem adSetNew_tag (p : ProcCfg) (last : Option Text) (ctype : Option Text) :
    ∀ x ∈ adSetNew p last ctype,
      x.tag ∈ ["InbandEventStream".toList, "SupplementalProperty".toList, "ProducerReferenceTime".toList] := by
  unfold adSetNew
  dsimp only
  intro x hx
  rw [List.mem_append, List.mem_append, List.mem_append] at hx
  rcases hx with ((hx | hx) | hx) | hx
  · split at hx
    · rw [List.mem_singleton.1 hx]; exact List.mem_cons_self ..
    · cases hx
  · split at hx
    · rw [List.mem_singleton.1 hx]; exact List.mem_cons_of_mem _ (List.mem_cons_of_mem _ (List.mem_cons_self ..))
    · cases hx
  · split at hx
    · rw [List.mem_singleton.1 hx]; exact List.mem_cons_of_mem _ (List.mem_cons_self ..)
    · cases hx
  · split at hx
    · rw [List.mem_singleton.1 hx]; exact List.mem_cons_self ..
    · cases hx

/-- An adaptation set: what is added, and the templates. -/
theorem adSetStep_shape {p : ProcCfg} {d : MpdData} {pd : PeriodData} {last : Option Text} {g g' : Gens}
    {x x' : Xml} (h : adSetStep p d pd last g x = .ok (x', g')) :
    ∃ kids, x' = x.setKids (adSetNew p last (x.get "contentType".toList) ++ kids) ∧
      MapTag "SegmentTemplate".toList (templateStep p d pd (x.get "contentType".toList)) g x.kids kids g' := by
  unfold adSetStep at h
  dsimp only at h
  split at h
  · cases h
  · rename_i ks g1 hm
    simp only [Except.ok.injEq, Prod.mk.injEq] at h
    obtain ⟨rfl, rfl⟩ := h
    rw [adSetKids_eq] at hm
    obtain ⟨as, bs, s1, rfl, h1, h2⟩ := (mapTag_rel hm).split
    obtain ⟨rfl, rfl⟩ := h1.skips (fun y hy => by
      have := adSetNew_tag p last (x.get "contentType".toList) y hy
      intro e
      rw [e] at this
      revert this
      decide +kernel)
    exact ⟨bs, rfl, h2⟩

theorem adSetStep_kept {p : ProcCfg} {d : MpdData} {pd : PeriodData} {last : Option Text} {g g' : Gens}
    {x x' : Xml} (h : adSetStep p d pd last g x = .ok (x', g')) : AdSetKept (p.tl || p.tlNr) x x' := by
  obtain ⟨kids, rfl, hm⟩ := adSetStep_shape h
  refine ⟨(SameBut.refl _ _).setKids _, Xml.text_setKids _ _, ?_⟩
  rw [Xml.kids_setKids]
  exact ⟨_, kids, rfl, adSetNew_tag p last _, hm.forall₂ (fun _ _ _ _ _ => templateStep_kept)⟩

/-! ### Periods -/

/-- The elements that `periodHead` puts before the others. -/
def periodNew (d : MpdData) (cb : Option Text) (pd : PeriodData) : Py (List Xml) :=
  let base : List Xml := if (d.ptoText ∨ pd.pto ≠ 0) ∧ d.offsetAtPeriod then
      [.elem "SegmentBase".toList [("presentationTimeOffset".toList, intText pd.pto)] [] []] else []
  if pd.callback then
    match cb with
    | none => .error .unbound
    | some u => .ok (callbackElem u :: base)
  else .ok base

/-- The attributes of a period. -/
def periodAttrs (pd : PeriodData) (x : Xml) : Xml :=
  let x := (x.set "id".toList (periodId pd)).set "start".toList (ptText pd.start)
  match pd.durAttr.or pd.etp with
  | some n => x.set "duration".toList (ptText n)
  | none => x

theorem setAttr_twice (k v w : Text) (l : List (Text × Text)) : setAttr k w (setAttr k v l) = setAttr k w l := by
  induction l with
  | nil => simp [setAttr]
  | cons a r ih =>
    obtain ⟨k', v'⟩ := a
    by_cases e : k' = k <;> simp [setAttr, e, ih]

theorem Xml.set_twice (k v w : Text) (x : Xml) : (x.set k v).set k w = x.set k w := by
  cases x; simp only [Xml.set, setAttr_twice]

theorem Xml.setKids_kids (x : Xml) : x.setKids x.kids = x := by cases x; rfl
theorem Xml.setKids_twice (x : Xml) (a b : List Xml) : (x.setKids a).setKids b = x.setKids b := by cases x; rfl

theorem periodHead_tail {x y : Xml} (hk : y.kids = x.kids) (d : MpdData) (cb : Option Text) (pd : PeriodData) :
    (let y := if (d.ptoText ∨ pd.pto ≠ 0) ∧ d.offsetAtPeriod then
        y.insert 0 (.elem "SegmentBase".toList [("presentationTimeOffset".toList, intText pd.pto)] [] []) else y
      if pd.callback then
        match cb with
        | none => Except.error PyErr.unbound
        | some u => .ok (y.insert 0 (callbackElem u))
      else .ok y) = (periodNew d cb pd).map (fun new => y.setKids (new ++ x.kids)) := by
  unfold periodNew
  dsimp only
  by_cases hq : (d.ptoText ∨ pd.pto ≠ 0) ∧ d.offsetAtPeriod
  · simp only [if_pos hq]
    cases pd.callback with
    | false => simp [Except.map, Xml.insert, hk]
    | true =>
      cases cb with
      | none => simp [Except.map]
      | some u => simp [Except.map, Xml.insert, Xml.setKids_twice, hk]
  · simp only [if_neg hq]
    cases pd.callback with
    | false => simp [Except.map, ← hk, Xml.setKids_kids]
    | true =>
      cases cb with
      | none => simp [Except.map]
      | some u => simp [Except.map, Xml.insert, hk]

theorem periodHead_eq (d : MpdData) (cb : Option Text) (pd : PeriodData) (x : Xml) :
    periodHead d cb pd x = (periodNew d cb pd).map (fun new => (periodAttrs pd x).setKids (new ++ x.kids)) := by
  have h0 : ((x.set "id".toList (periodId pd)).set "start".toList (ptText pd.start)).kids = x.kids := by
    rw [Xml.kids_set, Xml.kids_set]
  have h1 : ∀ n, (((x.set "id".toList (periodId pd)).set "start".toList (ptText pd.start)).set
      "duration".toList (ptText n)).kids = x.kids := by
    intro n; rw [Xml.kids_set, h0]
  unfold periodHead periodAttrs
  cases he : pd.etp with
  | none =>
    cases hd : pd.durAttr with
    | none => exact periodHead_tail h0 d cb pd
    | some n => exact periodHead_tail (h1 n) d cb pd
  | some m =>
    cases hd : pd.durAttr with
    | none => exact periodHead_tail (h1 m) d cb pd
    | some n => dsimp only [Option.some_or]; rw [Xml.set_twice]; exact periodHead_tail (h1 n) d cb pd

theorem periodAttrs_kept (pd : PeriodData) (x : Xml) :
    Edited ["id".toList, "start".toList, "duration".toList] x (periodAttrs pd x) := by
  unfold periodAttrs
  dsimp only
  split <;>
    repeat (first | exact Edited.refl _ _ | refine Edited.set ?_ (by decide +kernel) _)

theorem periodNew_tag {d : MpdData} {cb : Option Text} {pd : PeriodData} {new : List Xml}
    (h : periodNew d cb pd = .ok new) : ∀ x ∈ new, x.tag ∈ ["SegmentBase".toList, "EventStream".toList] := by
  have hb : ∀ x ∈ (if (d.ptoText ∨ pd.pto ≠ 0) ∧ d.offsetAtPeriod then
      [Xml.elem "SegmentBase".toList [("presentationTimeOffset".toList, intText pd.pto)] [] []] else []),
      x.tag ∈ ["SegmentBase".toList, "EventStream".toList] := by
    intro x hx
    split at hx
    · rw [List.mem_singleton.1 hx]; exact List.mem_cons_self ..
    · cases hx
  unfold periodNew at h
  dsimp only at h
  split at h
  · split at h
    · cases h
    · cases h
      intro x hx
      rcases List.mem_cons.1 hx with rfl | hx
      · exact List.mem_cons_of_mem _ (List.mem_cons_self ..)
      · exact hb x hx
  · cases h; exact hb

/-- One period: its attributes, what is added, and the adaptation sets. -/
theorem periodStep_shape {p : ProcCfg} {d : MpdData} {cb : Option Text} {pd : PeriodData} {rest : List PeriodData}
    {last : Option Text} {g : Gens} {s' : PeriodState} {x x' : Xml}
    (h : periodStep p d cb ⟨pd :: rest, last, g⟩ x = .ok (x', s')) :
    ∃ new kids g', periodNew d cb pd = .ok new ∧ x' = (periodAttrs pd x).setKids (new ++ kids) ∧
      s' = ⟨rest, some (periodId pd), g'⟩ ∧
      MapTag "AdaptationSet".toList (adSetStep p d pd last) g x.kids kids g' := by
  unfold periodStep at h
  dsimp only at h
  rw [periodHead_eq] at h
  cases hn : periodNew d cb pd with
  | error e => rw [hn] at h; cases h
  | ok new =>
    rw [hn] at h
    simp only [Except.map] at h
    split at h
    · cases h
    · rename_i ks g1 hm
      simp only [Except.ok.injEq, Prod.mk.injEq] at h
      obtain ⟨rfl, rfl⟩ := h
      rw [Xml.kids_setKids] at hm
      obtain ⟨as, bs, s1, rfl, h1, h2⟩ := (mapTag_rel hm).split
      obtain ⟨rfl, rfl⟩ := h1.skips (fun y hy => by
        have := periodNew_tag hn y hy
        intro e
        rw [e] at this
        revert this
        decide +kernel)
      exact ⟨as, bs, g1, rfl, by rw [Xml.setKids_twice], rfl, h2⟩

theorem periodStep_kept {p : ProcCfg} {d : MpdData} {cb : Option Text} {pd : PeriodData} {rest : List PeriodData}
    {last : Option Text} {g : Gens} {s' : PeriodState} {x x' : Xml}
    (h : periodStep p d cb ⟨pd :: rest, last, g⟩ x = .ok (x', s')) : PeriodKept (p.tl || p.tlNr) x x' := by
  obtain ⟨new, kids, g', hn, rfl, -, hm⟩ := periodStep_shape h
  have hk := periodAttrs_kept pd x
  refine ⟨hk.1.setKids _, by rw [Xml.text_setKids, hk.2.1], ?_⟩
  rw [Xml.kids_setKids]
  exact ⟨new, kids, rfl, periodNew_tag hn, hm.forall₂ (fun _ _ _ _ _ => adSetStep_kept)⟩

/-- The periods of the manifest, one after the other; `last` is the id of the one before. -/
inductive PeriodRun (p : ProcCfg) (d : MpdData) (cb : Option Text) (period : Xml) :
    Option Text → Gens → List PeriodData → List Xml → Prop
  | nil (last : Option Text) (g : Gens) : PeriodRun p d cb period last g [] []
  | cons {last : Option Text} {g g' : Gens} {pd : PeriodData} {rest : List PeriodData} {x : Xml} {xs : List Xml} :
      periodStep p d cb ⟨pd :: rest, last, g⟩ period = .ok (x, ⟨rest, some (periodId pd), g'⟩) →
      PeriodRun p d cb period (some (periodId pd)) g' rest xs → PeriodRun p d cb period last g (pd :: rest) (x :: xs)

theorem periodRun {p : ProcCfg} {d : MpdData} {cb : Option Text} {period : Xml}
    (hp : period.tag = "Period".toList) : ∀ {pds : List PeriodData} {last : Option Text} {g : Gens}
    {ps : List Xml} {s' : PeriodState},
    MapTag "Period".toList (periodStep p d cb) ⟨pds, last, g⟩ (List.replicate pds.length period) ps s' →
    PeriodRun p d cb period last g pds ps := by
  intro pds
  induction pds with
  | nil => intro last g ps s' h; cases h; exact .nil _ _
  | cons pd rest ih =>
    intro last g ps s' h
    rw [List.length_cons, List.replicate_succ] at h
    cases h with
    | skip hn _ => exact absurd hp hn
    | hit _ hf hr =>
      obtain ⟨new, kids, g', -, -, rfl, -⟩ := periodStep_shape hf
      exact .cons hf (ih hr)

/-- What holds of every period. -/
theorem PeriodRun.forall₂ {p : ProcCfg} {d : MpdData} {cb : Option Text} {period : Xml} {last : Option Text}
    {g : Gens} {pds : List PeriodData} {ps : List Xml} (h : PeriodRun p d cb period last g pds ps) :
    List.Forall₂ (fun pd x => ∃ rest last g s', periodStep p d cb ⟨pd :: rest, last, g⟩ period = .ok (x, s'))
      pds ps := by
  induction h with
  | nil => exact .nil
  | cons h _ ih => exact .cons ⟨_, _, _, _, h⟩ ih

end Verif
