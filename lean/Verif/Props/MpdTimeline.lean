import Verif.Props.MpdRefine
import Verif.Props.MpdLinks
import Verif.Props.MpdProfiles
import Verif.Props.SegTimeline
import Verif.Spec.ManifestTimeline
/-
C68: the timelines of the live manifest.
-/
namespace Verif
open Spec

/-! ### S elements -/

theorem sXml_t (s : SElem) (time : Int) : IntIs (sXml s) "t" time (s.t.getD time) := by
  have n1 : ¬"d".toList = "t".toList := by decide +kernel
  have n2 : ¬"r".toList = "t".toList := by decide +kernel
  unfold sXml IntIs IntAttr Xml.get Xml.attrs
  cases ht : s.t with
  | none =>
    refine Or.inr ⟨?_, rfl⟩
    cases s.r <;> simp only [List.nil_append, List.find?_cons, n1, n2, List.find?_nil] <;> rfl
  | some v =>
    refine Or.inl ⟨intText v, ?_, pyInt_intText v⟩
    simp

theorem sXml_d (s : SElem) : IntAttr (sXml s) "d" (some s.d) := by
  have n1 : ¬"t".toList = "d".toList := by decide +kernel
  unfold sXml IntAttr Xml.get Xml.attrs
  refine ⟨natText s.d, ?_, pyInt_natText s.d⟩
  cases ht : s.t with
  | none => simp
  | some v => simp only [List.cons_append, List.nil_append, List.find?_cons, n1]; simp

theorem sXml_r (s : SElem) : IntIs (sXml s) "r" 0 (s.r.getD 0 : Nat) := by
  have n1 : ¬"t".toList = "r".toList := by decide +kernel
  have n2 : ¬"d".toList = "r".toList := by decide +kernel
  unfold sXml IntIs IntAttr Xml.get Xml.attrs
  cases hr : s.r with
  | none =>
    refine Or.inr ⟨?_, rfl⟩
    cases s.t <;> simp only [List.nil_append, List.cons_append, List.find?_cons, n1, n2, List.find?_nil] <;> rfl
  | some v =>
    refine Or.inl ⟨natText v, ?_, pyInt_natText v⟩
    cases s.t <;> simp only [List.nil_append, List.cons_append, List.find?_cons, n1, n2] <;> simp

theorem sXml_lists (es : List SElem) (time : Int) : Lists time (es.map sXml) (listedFrom time es) := by
  induction es generalizing time with
  | nil => exact .nil time
  | cons s rest ih => exact .cons rfl (sXml_t s time) (sXml_d s) (sXml_r s) (ih _)

/-! ### One template -/

theorem genOf_ok {p : ProcCfg} {g : Gens} {ctype : Option Text} {tab : SegTable} {before : Option Int}
    {put : Option Int → Gens} (h : genOf p g ctype = .ok (tab, before, put)) :
    (ctype = some "video".toList ∧ p.video = some tab) ∨ (ctype = some "audio".toList ∧ p.audio = some tab) := by
  unfold genOf at h
  by_cases h1 : ctype = some "video".toList
  · rw [if_pos h1] at h
    cases hv : p.video with
    | none => rw [hv] at h; cases h
    | some t => rw [hv] at h; cases h; exact Or.inl ⟨h1, rfl⟩
  · rw [if_neg h1] at h
    by_cases h2 : ctype = some "audio".toList
    · rw [if_pos h2] at h
      cases hv : p.audio with
      | none => rw [hv] at h; cases h
      | some t => rw [hv] at h; cases h; exact Or.inr ⟨h2, rfl⟩
    · rw [if_neg h2] at h; cases h

theorem replaceText_renamed {k n : Text} (h0 : k ≠ []) : ∀ (fuel : Nat) (t : Text), t.length ≤ fuel →
    Renamed k n t (replaceText k n fuel t) := by
  have hnil : Renamed k n [] [] := .none (fun h => h0 (List.eq_nil_of_infix_nil h))
  intro fuel
  induction fuel with
  | zero => intro t ht; rw [List.length_eq_zero_iff.1 (Nat.le_zero.1 ht)]; exact hnil
  | succ m ih =>
    intro t ht
    cases t with
    | nil => exact hnil
    | cons x xs =>
      unfold replaceText
      by_cases hp : k.isPrefixOf (x :: xs) = true
      · rw [if_pos hp]
        obtain ⟨r, hr⟩ := List.isPrefixOf_iff_prefix.1 hp
        rw [← hr, List.drop_left]
        have hlen : r.length ≤ m := by
          have : (k ++ r).length = (x :: xs).length := by rw [hr]
          have hk0 : 0 < k.length := List.length_pos_iff.2 h0
          rw [List.length_append, List.length_cons] at this
          rw [List.length_cons] at ht
          omega
        exact Renamed.more (a := []) (fun a' b' _ => Nat.zero_le _) (ih r hlen)
      · rw [if_neg hp]
        have hi := ih xs (by rw [List.length_cons] at ht; omega)
        have hnp : ¬k <+: x :: xs := fun h => hp (List.isPrefixOf_iff_prefix.2 h)
        generalize replaceText k n m xs = ys at hi
        cases hi with
        | none h =>
          refine .none (fun h' => ?_)
          rcases List.infix_cons_iff.1 h' with h' | h'
          · exact hnp h'
          · exact h h'
        | more h hr =>
          rename_i a b c'
          refine Renamed.more (a := x :: a) ?_ hr
          intro a' b' he
          cases a' with
          | nil => exact absurd ⟨b', he.symm⟩ hnp
          | cons w ws =>
            rw [List.cons_append, List.cons_append, List.cons_append, List.cons_append, List.cons.injEq] at he
            exact Nat.succ_le_succ (h ws b' he.2)

theorem named_insert_timeline {tl : Xml} (s : Text) (y : Xml) (ht : tl.tag = "SegmentTimeline".toList)
    (hy : y.kids.filter (fun z => z.tag = "SegmentTimeline".toList) = []) :
    named "SegmentTimeline" ((Xml.setText s y).insert 0 tl) = [tl] := by
  unfold named
  rw [Xml.kids_insert, Xml.kids_setText, List.take_zero, List.drop_zero, List.nil_append, List.filter_cons, hy,
    if_pos (decide_eq_true ht)]

/-- The window of a template. -/
def windowFor (p : ProcCfg) (pd : PeriodData) : Int × Int × Bool :=
  timelineWindow p.now p.tsbd p.ast pd.start pd.durS (p.startTime.getD 0) p.stopTime (p.timeoffset.getD 1)

theorem timelineStep_says {p : ProcCfg} {d : MpdData} {pd : PeriodData} {ctype : Option Text} {g g' : Gens}
    {t0 t t' : Xml} (hm0 : t.get "media".toList = t0.get "media".toList)
    (hp0 : d.offsetAtPeriod = false → t.get "presentationTimeOffset".toList = none ∨ ¬pd.pto = 0)
    (hk : named "SegmentTimeline" t = [])
    (h : timelineStep p d pd ctype g t = .ok (t', g')) :
    ∃ tab before put es nr, genOf p g ctype = .ok (tab, before, put) ∧
      createTimeline tab before (windowFor p pd).1 (windowFor p pd).2.1 (windowFor p pd).2.2 = .ok ⟨some es, nr⟩ ∧
      TimelineSays p.tl d.offsetAtPeriod tab.timescale pd.pto (listed es) nr t0 t' := by
  unfold timelineStep at h
  cases hg : genOf p g ctype with
  | error e => rw [hg] at h; cases h
  | ok r =>
    obtain ⟨tab, before, put⟩ := r
    rw [hg] at h
    dsimp only at h
    change (match createTimeline tab before (windowFor p pd).1 (windowFor p pd).2.1 (windowFor p pd).2.2 with
      | .error e => _ | .ok tl => _) = _ at h
    cases hc : createTimeline tab before (windowFor p pd).1 (windowFor p pd).2.1 (windowFor p pd).2.2 with
    | error e => rw [hc] at h; cases h
    | ok tl =>
      rw [hc] at h
      dsimp only at h
      generalize hx : (if ¬(d.ptoText ∧ pd.pto = 0) ∧ ¬d.offsetAtPeriod then
            ((t.del "duration".toList).set "timescale".toList (natText tab.timescale)).set
              "presentationTimeOffset".toList (intText (pd.pto * tab.timescale))
            else (t.del "duration".toList).set "timescale".toList (natText tab.timescale)) = x at h
      have a1 : "timescale".toList ≠ "presentationTimeOffset".toList := by decide +kernel
      have a2 : "duration".toList ≠ "presentationTimeOffset".toList := by decide +kernel
      have a3 : "duration".toList ≠ "timescale".toList := by decide +kernel
      have a4 : "media".toList ≠ "presentationTimeOffset".toList := by decide +kernel
      have a5 : "media".toList ≠ "timescale".toList := by decide +kernel
      have a6 : "media".toList ≠ "duration".toList := by decide +kernel
      have a7 : "presentationTimeOffset".toList ≠ "timescale".toList := by decide +kernel
      have a8 : "presentationTimeOffset".toList ≠ "duration".toList := by decide +kernel
      have xs : x.get "timescale".toList = some (natText tab.timescale) := by
        rw [← hx]; split
        · rw [Xml.get_set_ne a1, Xml.get_set_same]
        · rw [Xml.get_set_same]
      have xd : x.get "duration".toList = none := by
        rw [← hx]; split
        · rw [Xml.get_set_ne a2, Xml.get_set_ne a3, Xml.get_del_same]
        · rw [Xml.get_set_ne a3, Xml.get_del_same]
      have xm : x.get "media".toList = t0.get "media".toList := by
        rw [← hx, ← hm0]; split
        · rw [Xml.get_set_ne a4, Xml.get_set_ne a5, Xml.get_del_ne a6]
        · rw [Xml.get_set_ne a5, Xml.get_del_ne a6]
      have xp : d.offsetAtPeriod = false →
          IntIs x "presentationTimeOffset" 0 (pd.pto * tab.timescale) := by
        intro ho
        rw [← hx]
        by_cases hq : ¬(d.ptoText ∧ pd.pto = 0) ∧ ¬d.offsetAtPeriod
        · rw [if_pos hq]
          exact Or.inl ⟨_, Xml.get_set_same .., pyInt_intText _⟩
        · rw [if_neg hq]
          have hz : pd.pto = 0 := by
            by_contra hz
            exact hq ⟨fun h => hz h.2, by rw [ho]; decide⟩
          refine Or.inr ⟨?_, by rw [hz]; omega⟩
          rw [Xml.get_set_ne a7, Xml.get_del_ne a8]
          exact (hp0 ho).resolve_right (fun h => h hz)
      have xk : x.kids = t.kids := by
        rw [← hx]; split <;> simp only [Xml.kids_set, Xml.kids_del]
      cases hm : x.get "media".toList with
      | none => rw [hm] at h; cases h
      | some media =>
        rw [hm] at h
        dsimp only at h
        obtain ⟨es?, nr⟩ := tl
        dsimp only at h
        cases es? with
        | none => cases h
        | some es =>
          simp only [Except.ok.injEq, Prod.mk.injEq] at h
          obtain ⟨rfl, -⟩ := h
          refine ⟨tab, before, put, es, nr, rfl, hc, ?_⟩
          have b1 : "timescale".toList ≠ "media".toList := by decide +kernel
          have b2 : "timescale".toList ≠ "startNumber".toList := by decide +kernel
          have b3 : "duration".toList ≠ "media".toList := by decide +kernel
          have b4 : "duration".toList ≠ "startNumber".toList := by decide +kernel
          have b5 : "startNumber".toList ≠ "media".toList := by decide +kernel
          have b6 : "presentationTimeOffset".toList ≠ "media".toList := by decide +kernel
          have b7 : "presentationTimeOffset".toList ≠ "startNumber".toList := by decide +kernel
          have hget : ∀ k, k ≠ "media".toList → k ≠ "startNumber".toList →
              ((Xml.setText "\n".toList (if p.tl = true then
                (x.del "startNumber".toList).set "media".toList
                  (replaceText "$Number$".toList "t$Time$".toList media.length media)
              else (x.set "startNumber".toList
                (match (generalizing := false) nr with | some n => intText n | none => "None".toList)).set
                "media".toList media)).insert 0 (.elem "SegmentTimeline".toList [] "\n".toList (es.map sXml))).get k =
              x.get k := by
            intro k h1 h2
            rw [Xml.get_insert, Xml.get_setText]
            split
            · rw [Xml.get_set_ne h1, Xml.get_del_ne h2]
            · rw [Xml.get_set_ne h1, Xml.get_set_ne h2]
          refine ⟨⟨_, (hget _ b1 b2).trans xs, pyInt_natText _⟩, (hget _ b3 b4).trans xd, ?_, ?_, ?_, ?_⟩
          · refine ⟨.elem "SegmentTimeline".toList [] "\n".toList (es.map sXml), ?_, sXml_lists es 0⟩
            refine named_insert_timeline _ _ rfl ?_
            unfold named at hk
            split <;> simp only [Xml.kids_set, Xml.kids_del, xk] <;> exact hk
          · by_cases hp : p.tl = true
            · rw [if_pos hp, Xml.get_insert, Xml.get_setText, if_pos hp, Xml.get_set_ne b5, Xml.get_del_same]
            · rw [if_neg hp]
              intro n hn
              refine ⟨intText n, ?_, pyInt_intText n⟩
              rw [Xml.get_insert, Xml.get_setText, if_neg hp, Xml.get_set_ne b5, Xml.get_set_same]
              rw [Option.mem_def.1 hn]
          · by_cases hp : p.tl = true
            · refine ⟨media, _, by rw [← xm, hm], by rw [Xml.get_insert, Xml.get_setText, if_pos hp, Xml.get_set_same], ?_⟩
              rw [if_pos hp]
              exact replaceText_renamed (by decide +kernel) _ _ (Nat.le_refl _)
            · refine ⟨media, _, by rw [← xm, hm], by rw [Xml.get_insert, Xml.get_setText, if_neg hp, Xml.get_set_same], ?_⟩
              rw [if_neg hp]
          · intro ho
            refine ⟨_, tab.timescale, ?_, Or.inl ⟨_, (hget _ b1 b2).trans xs, pyInt_natText _⟩, rfl⟩
            rcases xp ho with ⟨v, hv, hi⟩ | ⟨hn, hz⟩
            · exact Or.inl ⟨v, (hget _ b6 b7).trans hv, hi⟩
            · exact Or.inr ⟨(hget _ b6 b7).trans hn, hz⟩

/-- A segment template with the window of its period. -/
def TemplateOf (p : ProcCfg) (d : MpdData) (pd : PeriodData) (ctype : Option Text) (t t' : Xml) : Prop :=
  ∃ tab before es nr,
    ((ctype = some "video".toList ∧ p.video = some tab) ∨ (ctype = some "audio".toList ∧ p.audio = some tab)) ∧
    createTimeline tab before (windowFor p pd).1 (windowFor p pd).2.1 (windowFor p pd).2.2 = .ok ⟨some es, nr⟩ ∧
    TimelineSays p.tl d.offsetAtPeriod tab.timescale pd.pto (listed es) nr t t'

/-- A VoD period whose templates have no offset and no timeline. -/
structure VodTemplates (period : Xml) : Prop where
  pto : ∀ t ∈ templates period, t.get "presentationTimeOffset".toList = none
  timeline : ∀ t ∈ templates period, named "SegmentTimeline" t = []

theorem templateStep_timeline {p : ProcCfg} {d : MpdData} {pd : PeriodData} {ctype : Option Text} {g g' : Gens}
    {t t' : Xml} (htl : (p.tl || p.tlNr) = true) (hp : t.get "presentationTimeOffset".toList = none)
    (hk : named "SegmentTimeline" t = []) (h : templateStep p d pd ctype g t = .ok (t', g')) :
    TemplateOf p d pd ctype t t' := by
  rw [templateStep_eq, if_pos htl] at h
  have hkept := templateNumbers_kept p d pd t
  obtain ⟨tab, before, put, es, nr, hg, hc, hs⟩ := timelineStep_says (t0 := t)
    (hkept.1.2 _ (by decide +kernel)) (fun ho => by
      rw [numbers_pto]
      by_cases hz : pd.pto = 0
      · rw [if_neg (fun h => h.2.2 (intText_zero.2 hz))]
        exact Or.inl hp
      · exact Or.inr hz) (by unfold named at hk ⊢; rw [hkept.2.2]; exact hk) h
  exact ⟨tab, before, es, nr, genOf_ok hg, hc, hs⟩

theorem MapTag.onlyTag {σ : Type} {tag : Text} {f : σ → Xml → Py (Xml × σ)} {s s' : σ} {xs ys : List Xml}
    {rel : Xml → Xml → Prop} (h : MapTag tag f s xs ys s')
    (hf : ∀ x ∈ xs, x.tag = tag → ∀ s s' y, f s x = .ok (y, s') → rel x y) :
    List.Forall₂ (OnlyTag tag rel) xs ys := by
  induction h with
  | nil => exact .nil
  | hit ht he _ ih =>
    refine .cons ⟨fun _ => hf _ (List.mem_cons_self ..) ht _ _ _ he, fun hn => absurd ht hn⟩
      (ih (fun x hx => hf x (List.mem_cons_of_mem _ hx)))
  | skip hn _ ih =>
    exact .cons ⟨fun ht => absurd ht hn, fun _ => rfl⟩ (ih (fun x hx => hf x (List.mem_cons_of_mem _ hx)))

theorem periodStep_timeline {p : ProcCfg} {d : MpdData} {cb : Option Text} {pd : PeriodData} {rest : List PeriodData}
    {last : Option Text} {g : Gens} {s' : PeriodState} {x x' : Xml} (htl : (p.tl || p.tlNr) = true)
    (hv : VodTemplates x) (hd : x.get "duration".toList = none)
    (h : periodStep p d cb ⟨pd :: rest, last, g⟩ x = .ok (x', s')) :
    PeriodHeadSays x' (periodElem pd) ∧ EachTemplate (TemplateOf p d pd) x x' := by
  obtain ⟨new, kids, g', hn, rfl, -, hm⟩ := periodStep_shape h
  refine ⟨⟨?_, ?_, ?_⟩, ?_⟩
  · exact ⟨intText pd.id, by rw [Xml.get_setKids, periodAttrs_id]; rfl, pyInt_intText _⟩
  · exact secsAttr_pt (by rw [Xml.get_setKids, periodAttrs_start]; rfl)
  · have hd : ((periodAttrs pd x).setKids (new ++ kids)).get "duration".toList =
        (pd.durAttr.or pd.etp).map ptText := by
      rw [Xml.get_setKids, periodAttrs_duration, hd, Option.or_none]
    show SecsAttr _ _ (pd.durAttr.or pd.etp)
    cases he : pd.durAttr.or pd.etp with
    | none => rw [he] at hd; exact hd
    | some n => rw [he] at hd; exact secsAttr_pt hd
  · unfold EachTemplate
    rw [Xml.kids_setKids]
    refine ⟨new, kids, rfl, periodNew_tag hn, hm.onlyTag ?_⟩
    intro a ha hta s1 s2 b hb
    obtain ⟨kids2, rfl, hm2⟩ := adSetStep_shape hb
    refine ⟨(SameBut.refl _ _).setKids _, ?_⟩
    rw [Xml.kids_setKids]
    refine ⟨_, kids2, rfl, adSetNew_tag p last _, hm2.onlyTag ?_⟩
    intro t ht htt s3 s4 t' ht'
    have hin : t ∈ templates x := by
      unfold templates
      exact List.mem_flatMap.2 ⟨a, named_mem ha hta, named_mem ht htt⟩
    exact templateStep_timeline htl (hv.pto t hin) (hv.timeline t hin) ht'

/-! ### The ends of periods -/

/-- A period with its end: by its own duration or the start of the next period. -/
def SpanOf (pd : PeriodData) (q : PeriodElem × Option Int) : Prop :=
  q.1 = periodElem pd ∧ q.2 = pd.durS.map (pd.start + ·)

theorem periodBase_durS {c : Cfg} {n pd nr : Int} {p : PeriodData} (h : periodBase c n pd nr = .ok p) :
    p.durS = p.etp ∧ p.durAttr = none ∧ p.start = nr * pd := by
  unfold periodBase at h
  cases hs : pyDiv (nr * pd) c.segDur with
  | error e => rw [hs] at h; cases h
  | ok sn =>
    rw [hs] at h
    simp only [bind, Except.bind] at h
    split at h
    · cases h
    · rename_i q hq
      have hq : q.durS = q.etp ∧ q.durAttr = none ∧ q.start = nr * pd := by
        by_cases he : c.etp > 0
        · rw [if_pos he] at hq
          cases hw : wholeRatio n (min c.etp 60) with
          | error e => rw [hw] at hq; cases hq
          | ok ratio =>
            rw [hw] at hq
            dsimp only at hq
            generalize (if c.etpDuration = -1 then pd / 2 else c.etpDuration) = dur at hq
            by_cases hd : dur > pd
            · rw [if_pos hd] at hq; cases hq
            · rw [if_neg hd] at hq
              cases hm : pyMod nr ratio with
              | error e => rw [hm] at hq; cases hq
              | ok r =>
                rw [hm] at hq
                cases hq
                split <;> exact ⟨rfl, rfl, rfl⟩
        · rw [if_neg he] at hq; cases hq; exact ⟨rfl, rfl, rfl⟩
      by_cases hc : c.mpdCallback > 0
      · rw [if_pos hc] at h
        cases hw : wholeRatio n (min c.mpdCallback 60) with
        | error e => rw [hw] at h; cases h
        | ok ratio =>
          rw [hw] at h
          dsimp only at h
          cases hm : pyMod nr ratio with
          | error e => rw [hm] at h; cases h
          | ok r =>
            rw [hm] at h
            cases h
            split <;> exact hq
      · rw [if_neg hc] at h; cases h; exact hq

theorem periodLoop_spans {c : Cfg} {n pd adFreq : Int} : ∀ {k : Nat} {nr : Int} {pds : List PeriodData},
    periodLoop c n pd adFreq nr k = .ok pds →
      List.Forall₂ SpanOf pds (spans (pds.map periodElem)) ∧ ∀ p ∈ pds.head?, p.start = nr * pd
  | 0, nr, pds, h => by cases h; exact ⟨.nil, by simp⟩
  | k + 1, nr, pds, h => by
    unfold periodLoop at h
    cases hb : periodBase c n pd nr with
    | error e => rw [hb] at h; cases h
    | ok p =>
      rw [hb] at h
      cases hl : periodLoop c n pd adFreq (nr + 1) k with
      | error e => rw [hl] at h; cases h
      | ok rest =>
        rw [hl] at h
        simp only [bind, Except.bind, pure, Except.pure, Except.ok.injEq] at h
        obtain ⟨h1, h2, h3⟩ := periodBase_durS hb
        obtain ⟨i1, i2⟩ := periodLoop_spans hl
        subst h
        by_cases hk : k = 0
        · subst hk
          cases hl
          refine ⟨.cons ⟨rfl, ?_⟩ .nil, by simpa using h3⟩
          show (p.durAttr.or p.etp).map (p.start + ·) = p.durS.map (p.start + ·)
          rw [h1, h2, Option.none_or]
        · rw [if_neg hk]
          have hst : (finishPeriod adFreq pd p (nr + 1)).start = nr * pd := by
            unfold finishPeriod
            dsimp only
            split <;> split <;> exact h3
          refine ⟨?_, by simpa using hst⟩
          cases rest with
          | nil =>
            exfalso
            cases k with
            | zero => exact hk rfl
            | succ k =>
              unfold periodLoop at hl
              cases hb' : periodBase c n pd (nr + 1) with
              | error e => rw [hb'] at hl; cases hl
              | ok p' =>
                rw [hb'] at hl
                cases hl' : periodLoop c n pd adFreq (nr + 1 + 1) k with
                | error e => rw [hl'] at hl; cases hl
                | ok rest' => rw [hl'] at hl; cases hl
          | cons q qs =>
            refine .cons ⟨rfl, ?_⟩ i1
            have hq : q.start = (nr + 1) * pd := i2 q rfl
            show some (match (finishPeriod adFreq pd p (nr + 1)).durAttr.or (finishPeriod adFreq pd p (nr + 1)).etp with
              | some d => (finishPeriod adFreq pd p (nr + 1)).start + d
              | none => q.start) = _
            rw [hst, hq]
            unfold finishPeriod
            dsimp only
            by_cases ha : adFreq > 0 ∧ Int.fmod (nr + 1) adFreq = 0
            · simp only [if_pos ha]
              rfl
            · simp only [if_neg ha]
              cases he : p.etp with
              | none =>
                rw [he] at h1
                simp only [h1, Option.isNone_none, if_true, h2, Option.none_or, Option.map_some]
                congr 1
                ring
              | some z =>
                rw [he] at h1
                simp only [h1, Option.isNone_some, Bool.false_eq_true, if_false, h2, he, Option.none_or, Option.map_some]

theorem periodData_spans {c : Cfg} {now : Int} {pds : List PeriodData} (h : periodData c now = .ok pds) :
    List.Forall₂ SpanOf pds (spans (pds.map periodElem)) := by
  unfold periodData at h
  dsimp only at h
  split at h
  · cases h
  · simp only [bind, Except.bind] at h
    split at h
    · cases h
    · split at h
      · split at h
        · cases h
        · split at h
          · cases h
          · cases h; exact .cons ⟨rfl, rfl⟩ .nil
      · split at h
        · split at h
          · cases h
          · cases h; exact .cons ⟨rfl, rfl⟩ .nil
        · split at h
          · cases h
          · exact (periodLoop_spans h).1

/-- Without a time offset in the URL the media time is the presentation time. -/
theorem periodData_pto {c : Cfg} {now : Int} {pds : List PeriodData} (hto : c.timeoffset = none)
    (h : periodData c now = .ok pds) : ∀ pd ∈ pds, pd.pto = pd.start := by
  have hbase : ∀ {n d nr : Int} {p : PeriodData}, periodBase c n d nr = .ok p → p.pto = p.start := by
    intro n d nr p h
    unfold periodBase at h
    cases hs : pyDiv (nr * d) c.segDur with
    | error e => rw [hs] at h; cases h
    | ok sn =>
      rw [hs] at h
      simp only [bind, Except.bind] at h
      split at h
      · cases h
      · rename_i q hq
        have hq : q.pto = q.start := by
          by_cases he : c.etp > 0
          · rw [if_pos he] at hq
            cases hw : wholeRatio n (min c.etp 60) with
            | error e => rw [hw] at hq; cases hq
            | ok ratio =>
              rw [hw] at hq
              dsimp only at hq
              generalize (if c.etpDuration = -1 then d / 2 else c.etpDuration) = dur at hq
              by_cases hd : dur > d
              · rw [if_pos hd] at hq; cases hq
              · rw [if_neg hd] at hq
                cases hm : pyMod nr ratio with
                | error e => rw [hm] at hq; cases hq
                | ok r =>
                  rw [hm] at hq
                  cases hq
                  split <;> rfl
          · rw [if_neg he] at hq; cases hq; rfl
        by_cases hc : c.mpdCallback > 0
        · rw [if_pos hc] at h
          cases hw : wholeRatio n (min c.mpdCallback 60) with
          | error e => rw [hw] at h; cases h
          | ok ratio =>
            rw [hw] at h
            dsimp only at h
            cases hm : pyMod nr ratio with
            | error e => rw [hm] at h; cases h
            | ok r =>
              rw [hm] at h
              cases h
              split <;> exact hq
        · rw [if_neg hc] at h; cases h; exact hq
  have hloop : ∀ {n d ad : Int} {k : Nat} {nr : Int} {pds : List PeriodData},
      periodLoop c n d ad nr k = .ok pds → ∀ pd ∈ pds, pd.pto = pd.start := by
    intro n d ad k
    induction k with
    | zero => intro nr pds h; cases h; simp
    | succ k ih =>
      intro nr pds h
      unfold periodLoop at h
      cases hb : periodBase c n d nr with
      | error e => rw [hb] at h; cases h
      | ok p =>
        rw [hb] at h
        cases hl : periodLoop c n d ad (nr + 1) k with
        | error e => rw [hl] at h; cases h
        | ok rest =>
          rw [hl] at h
          simp only [bind, Except.bind, pure, Except.pure, Except.ok.injEq] at h
          subst h
          intro pd hpd
          rcases List.mem_cons.1 hpd with rfl | hpd
          · split
            · exact hbase hb
            · unfold finishPeriod
              dsimp only
              have := hbase hb
              split <;> split <;> exact this
          · exact ih hl pd hpd
  unfold periodData at h
  dsimp only at h
  split at h
  · cases h
  · simp only [bind, Except.bind] at h
    split at h
    · cases h
    · split at h
      · split at h
        · cases h
        · split at h
          · cases h
          · cases h
            intro pd hpd
            rw [List.mem_singleton.1 hpd]
            show c.adjustedPto 0 1 = 0
            unfold Cfg.adjustedPto
            rw [hto]
      · split at h
        · split at h
          · cases h
          · cases h
            intro pd hpd
            rw [List.mem_singleton.1 hpd]
        · split at h
          · cases h
          · exact hloop h

theorem forall₂_join {α β γ : Type} {r : α → β → Prop} {s : α → γ → Prop} {t : β → γ → Prop} {as : List α}
    {bs : List β} {cs : List γ} (h1 : List.Forall₂ r as bs) (h2 : List.Forall₂ s as cs)
    (h : ∀ a ∈ as, ∀ b c, r a b → s a c → t b c) : List.Forall₂ t bs cs := by
  induction h1 generalizing cs with
  | nil => cases h2; exact .nil
  | cons hr _ ih =>
    cases h2 with
    | cons hs h2 =>
      exact .cons (h _ (List.mem_cons_self ..) _ _ hr hs) (ih h2 (fun a ha => h a (List.mem_cons_of_mem _ ha)))

theorem OnlyTag.imp {tag : Text} {r s : Xml → Xml → Prop} {x y : Xml} (h : ∀ x y, r x y → s x y)
    (ho : OnlyTag tag r x y) : OnlyTag tag s x y := ⟨fun ht => h _ _ (ho.1 ht), ho.2⟩

theorem AddedBefore.imp {tags : List Text} {r s : Xml → Xml → Prop} {x y : List Xml} (h : ∀ x y, r x y → s x y)
    (ha : AddedBefore tags r x y) : AddedBefore tags s x y := by
  obtain ⟨new, kids, h1, h2, h3⟩ := ha
  exact ⟨new, kids, h1, h2, h3.imp (fun _ _ => h _ _)⟩

theorem EachTemplate.imp {r s : Option Text → Xml → Xml → Prop} {x y : Xml} (h : ∀ c x y, r c x y → s c x y)
    (he : EachTemplate r x y) : EachTemplate s x y :=
  AddedBefore.imp (fun _ _ => OnlyTag.imp (fun _ _ h' => ⟨h'.1, AddedBefore.imp (fun _ _ => OnlyTag.imp (h _)) h'.2⟩)) he

/-- **C68.** In a service with timelines every period of the manifest has in each of its segment
templates the timeline of the track of its content type: read from the text of the S elements, it
lists the segments of the looped track from the one at the start of the part of the period that is in
the buffer to the last one that has ended there; the template says the timescale of the track, the
offset of the period, for names with numbers the number of the first segment, and for names with
times names with times.
Missing: services with a time offset in the URL (`C68_timeoffset_violation`) or after their end
(`C68_stop_violation`), periods whose part in the buffer is empty or ends before the first segment
(`C68_empty_violation`), and windows in which an entry of the table occurs twice (C28). -/
theorem C68_timeline_partial {c : Cfg} {e : MpdEnv} {now tsbd : Int} {vod out : Xml} {infos rest : List Xml}
    {base : Option Xml} {period : Xml} (hs : VodShape vod.kids infos base period rest)
    (hd : 0 ≤ c.segDur) (ht : c.tsbd = some tsbd) (hb : 0 ≤ tsbd) (hr : VodRoot vod) (hv : VodTemplates period)
    (hpd : period.get "duration".toList = none) (htl : (c.segTimeline || c.segTimelineNr) = true)
    (hto : c.timeoffset = none) (hend : ∀ d ∈ c.mpdDur, ((now - c.ast : Int) : Rat) ≤ d)
    {tv ta : SegTable} {dv da : List Nat} (hev : e.video = some tv) (hea : e.audio = some ta)
    (hdv : tv.Describes dv) (hda : ta.Describes da) (h : generateXml c e now vod = .ok out) :
    ∃ M, generateMpd c now = .ok M ∧ RootSays out M ∧
      List.Forall₂ (fun x span => PeriodHeadSays x span.1 ∧ ∃ a b, InBuffer now c.ast tsbd M.mpdDur span a b ∧
        EachTemplate (fun ctype t t' => ∃ tab durs,
          ((ctype = some "video".toList ∧ tab = tv ∧ durs = dv) ∨ (ctype = some "audio".toList ∧ tab = ta ∧ durs = da)) ∧
          (0 ≤ a → 0 ≤ b →
            tab.Near durs (mediaAt span.1 a * tab.timescale) (mediaAt span.1 b * tab.timescale) →
            ∃ k l, Holds durs (mediaAt span.1 a * tab.timescale) k ∧
              LastEnded durs (mediaAt span.1 b * tab.timescale) l ∧
              TimelineSays c.segTimeline (decide (0 ≤ c.periodOffset)) tab.timescale span.1.pto
                (loopSegments durs k (l + 1 - k)) (if k ≤ l then some (k : Int) else none) t t')) period x)
        (named "Period" out) (spans M.periods) := by
  obtain ⟨m⟩ := generateXml_parts hs hd (by rw [ht]; intro t h; cases h; exact hb) h
  obtain ⟨M, hM, h1, h2, -⟩ := m.rootSays hr
  obtain ⟨M', hM', -, -, -, -, -, -, hmd, -⟩ := m.generateMpd
  rw [hM] at hM'
  cases hM'
  refine ⟨M, hM, h1, ?_⟩
  rw [m.periods hs, h2]
  have hts : m.tsbd = tsbd := by have := m.htsbd; rw [ht] at this; cases this; rfl
  have hspan := periodData_spans m.hpds
  have hpto := periodData_pto hto m.hpds
  have hps := m.hps.forall₂
  refine forall₂_join hps hspan ?_
  rintro pd hpdm x ⟨q, stop⟩ ⟨rest', last, g, s', hstep⟩ ⟨rfl, hq⟩
  obtain ⟨hhead, heach⟩ := periodStep_timeline (p := procCfgOf c e m.tsbd now) htl hv hpd hstep
  refine ⟨hhead, max pd.start (now - tsbd - c.ast), (match pd.durS with
    | some d => min (pd.start + d) (now - c.ast) | none => now - c.ast), ?_, ?_⟩
  · refine ⟨rfl, ?_, ?_, ?_, ?_⟩
    · split
      · exact Int.min_le_right _ _
      · exact Int.le_refl _
    · intro k hk
      rw [hq] at hk
      cases hd : pd.durS with
      | none => rw [hd] at hk; cases hk
      | some n => rw [hd] at hk; cases hk; exact Int.min_le_left _ _
    · intro k hk
      rw [hmd] at hk
      refine le_trans ?_ (hend k hk)
      refine Int.cast_le.2 ?_
      split
      · exact Int.min_le_right _ _
      · exact Int.le_refl _
    · cases hd : pd.durS with
      | none => exact Or.inl rfl
      | some n =>
        rcases Int.le_total (pd.start + n) (now - c.ast) with hle | hle
        · refine Or.inr (Or.inl ?_)
          rw [hq, hd]
          exact congrArg some (Int.min_eq_left hle)
        · exact Or.inl (Int.min_eq_right hle)
  · have hmt : ∀ t, mediaAt (periodElem pd) t = t := fun t => by
      have := hpto pd hpdm
      show t - pd.start + pd.pto = t
      omega
    have hw : windowFor (procCfgOf c e m.tsbd now) pd = (max pd.start (now - tsbd - c.ast), (match pd.durS with
        | some d => min (pd.start + d) (now - c.ast) | none => now - c.ast), false) := by
      have hp : timelineWindow.plain now m.tsbd c.ast pd.start pd.durS =
          (max pd.start (now - tsbd - c.ast), (match pd.durS with
            | some d => min (pd.start + d) (now - c.ast) | none => now - c.ast), false) := by
        unfold timelineWindow.plain
        rw [hts]
        refine Prod.ext ?_ (Prod.ext ?_ rfl)
        · show max (c.ast + pd.start) (now - tsbd) - c.ast = max pd.start (now - tsbd - c.ast)
          omega
        · cases pd.durS with
          | none => rfl
          | some n =>
            show min (c.ast + pd.start + n) now - c.ast = min (pd.start + n) (now - c.ast)
            omega
      refine Eq.trans ?_ hp
      show timelineWindow now m.tsbd c.ast pd.start pd.durS (c.startTime.getD 0) c.stopTime (c.timeoffset.getD 1) = _
      rw [hto]
      unfold timelineWindow
      split
      · rw [if_neg (by rintro ⟨-, h⟩; cases h)]
      · rfl
    refine EachTemplate.imp ?_ heach
    rintro ctype t t' ⟨tab, before, es, nr, hct, hc, hsays⟩
    rw [hw] at hc
    have hfin : ∀ durs, tab.Describes durs → (0 ≤ max pd.start (now - tsbd - c.ast) →
        (0 : Int) ≤ (match pd.durS with | some d => min (pd.start + d) (now - c.ast) | none => now - c.ast) →
        tab.Near durs (mediaAt (periodElem pd) (max pd.start (now - tsbd - c.ast)) * tab.timescale)
          (mediaAt (periodElem pd) (match pd.durS with
            | some d => min (pd.start + d) (now - c.ast) | none => now - c.ast) * tab.timescale) →
        ∃ k l, Holds durs (mediaAt (periodElem pd) (max pd.start (now - tsbd - c.ast)) * tab.timescale) k ∧
          LastEnded durs (mediaAt (periodElem pd) (match pd.durS with
            | some d => min (pd.start + d) (now - c.ast) | none => now - c.ast) * tab.timescale) l ∧
          TimelineSays c.segTimeline (decide (0 ≤ c.periodOffset)) tab.timescale (periodElem pd).pto
            (loopSegments durs k (l + 1 - k)) (if k ≤ l then some (k : Int) else none) t t') := by
      intro durs hdurs h0 h1 hn
      rw [hmt, hmt] at hn ⊢
      rcases C28_window_partial tab durs hdurs before _ _ h0 h1 hn with ⟨-, hx⟩ | ⟨k, l, hk, hl, hx, hy⟩
      · rw [hx] at hc; cases hc
      · refine ⟨k, l, hk, hl, ?_⟩
        by_cases hkl : k ≤ l
        · obtain ⟨elems, he, hlist⟩ := hy hkl
          rw [he] at hc
          cases hc
          rw [if_pos hkl, ← hlist]
          exact hsays
        · rw [hx (by omega)] at hc
          cases hc
          rw [if_neg hkl, show l + 1 - k = 0 by omega]
          obtain ⟨s1, s2, s3, s4, s5, s6⟩ := hsays
          refine ⟨s1, s2, s3, ?_, s5, s6⟩
          by_cases hb : c.segTimeline = true
          · rw [if_pos hb]; exact (if_pos hb ▸ s4 : _)
          · rw [if_neg hb]; intro n hn; cases hn
    rcases hct with ⟨hct, ht⟩ | ⟨hct, ht⟩
    · have : tv = tab := Option.some.inj (hev.symm.trans ht)
      subst this
      exact ⟨_, dv, Or.inl ⟨hct, rfl, rfl⟩, hfin dv hdv⟩
    · have : ta = tab := Option.some.inj (hea.symm.trans ht)
      subst this
      exact ⟨_, da, Or.inr ⟨hct, rfl, rfl⟩, hfin da hda⟩

/-- **C68 (sessions).** In a session from the start of the availability to a stop time, with the media
time of the epoch (`timeoffset_0`), the one period lists the segments of the looped track from one that
starts within half its duration of the start of the session to the last that has ended now, or at the
stop time.
Missing: as for `C28_closest_partial`. -/
theorem C68_session_partial {c : Cfg} {e : MpdEnv} {now stop : Int} {vod out : Xml} {infos rest : List Xml}
    {base : Option Xml} {period : Xml} (hs : VodShape vod.kids infos base period rest)
    (hd : 0 ≤ c.segDur) (hb : ∀ t ∈ c.tsbd, 0 ≤ t) (hr : VodRoot vod) (hv : VodTemplates period)
    (hpd : period.get "duration".toList = none) (htl : (c.segTimeline || c.segTimelineNr) = true)
    (hn : c.periods = -1) (hto : c.timeoffset = some 0) (hstop : c.stopTime = some stop) (h0 : 0 < stop)
    (hst : c.startTime = some c.ast) (hast : 0 ≤ c.ast) (hnow : c.ast ≤ now)
    {tv ta : SegTable} {dv da : List Nat} (hev : e.video = some tv) (hea : e.audio = some ta)
    (hdv : tv.Describes dv) (hda : ta.Describes da) (h : generateXml c e now vod = .ok out) :
    ∃ M x p, generateMpd c now = .ok M ∧ RootSays out M ∧ named "Period" out = [x] ∧ M.periods = [p] ∧
      PeriodHeadSays x p ∧
      EachTemplate (fun ctype t t' => ∃ tab durs,
        ((ctype = some "video".toList ∧ tab = tv ∧ durs = dv) ∨ (ctype = some "audio".toList ∧ tab = ta ∧ durs = da)) ∧
        (tab.Near durs (mediaAt p 0 * tab.timescale) (mediaAt p (min now stop - c.ast) * tab.timescale) →
          (∀ a, (loopStart durs a : Int) ≤ mediaAt p 0 * tab.timescale →
            mediaAt p 0 * tab.timescale < loopEnd durs a →
            2 * (mediaAt p 0 * tab.timescale - loopStart durs a) ≤ loopDur durs a ∨
              tab.entryCount (a + 1) = tab.entryCount a) →
          ∃ k l, 2 * (mediaAt p 0 * tab.timescale - loopStart durs k).natAbs ≤ loopDur durs k ∧
            LastEnded durs (mediaAt p (min now stop - c.ast) * tab.timescale) l ∧
            TimelineSays c.segTimeline (decide (0 ≤ c.periodOffset)) tab.timescale p.pto
              (loopSegments durs k (l + 1 - k)) (if k ≤ l then some (k : Int) else none) t t')) period x := by
  obtain ⟨m⟩ := generateXml_parts hs hd hb h
  obtain ⟨M, hM, h1, h2, -⟩ := m.rootSays hr
  obtain ⟨pd, hpds, hst0, hpto⟩ : ∃ pd, m.pds = [pd] ∧ pd.start = 0 ∧ pd.pto = c.ast := by
    have hp := m.hpds
    unfold periodData at hp
    dsimp only at hp
    rw [hn] at hp
    rw [if_neg (by decide)] at hp
    simp only [bind, Except.bind] at hp
    split at hp
    · cases hp
    · rw [if_pos (by decide)] at hp
      cases hf : c.adjustedStartNumber with
      | error e => rw [hf] at hp; cases hp
      | ok first =>
        rw [hf] at hp
        cases hq : pyDiv 0 c.segDur with
        | error e => rw [hq] at hp; cases hp
        | ok q =>
          rw [hq] at hp
          refine ⟨_, (Except.ok.inj hp).symm, rfl, ?_⟩
          show c.adjustedPto 0 1 = c.ast
          unfold Cfg.adjustedPto
          rw [hto]
          show 0 + (c.ast - 0) * 1 = c.ast
          omega
  have hps := m.hps.forall₂
  have hperiods := m.periods hs
  rw [hpds] at hps h2
  obtain ⟨x, hx⟩ : ∃ x, m.ps = [x] := by
    generalize m.ps = ps at hps
    cases hps with
    | cons _ h => cases h; exact ⟨_, rfl⟩
  rw [hx] at hps hperiods
  obtain ⟨rest', last, g, s', hstep⟩ := (List.forall₂_cons.1 hps).1
  obtain ⟨hhead, heach⟩ := periodStep_timeline (p := procCfgOf c e m.tsbd now) htl hv hpd hstep
  refine ⟨M, x, periodElem pd, hM, h1, hperiods, h2, hhead, ?_⟩
  have hm0 : mediaAt (periodElem pd) 0 = c.ast := by
    show 0 - pd.start + pd.pto = c.ast
    omega
  have hm1 : mediaAt (periodElem pd) (min now stop - c.ast) = min now stop := by
    show min now stop - c.ast - pd.start + pd.pto = min now stop
    omega
  rw [hm0, hm1]
  have hw : windowFor (procCfgOf c e m.tsbd now) pd = (c.ast, min now stop, true) := by
    show timelineWindow now m.tsbd c.ast pd.start pd.durS (c.startTime.getD 0) c.stopTime (c.timeoffset.getD 1) = _
    rw [hto, hst, hstop]
    unfold timelineWindow
    exact if_pos ⟨by omega, rfl⟩
  refine EachTemplate.imp ?_ heach
  rintro ctype t t' ⟨tab, before, es, nr, hct, hc, hsays⟩
  rw [hw] at hc
  have hfin : ∀ durs, tab.Describes durs → (tab.Near durs (c.ast * tab.timescale) (min now stop * tab.timescale) →
      (∀ a, (loopStart durs a : Int) ≤ c.ast * tab.timescale → c.ast * tab.timescale < loopEnd durs a →
        2 * (c.ast * tab.timescale - loopStart durs a) ≤ loopDur durs a ∨
          tab.entryCount (a + 1) = tab.entryCount a) →
      ∃ k l, 2 * (c.ast * tab.timescale - loopStart durs k).natAbs ≤ loopDur durs k ∧
        LastEnded durs (min now stop * tab.timescale) l ∧
        TimelineSays c.segTimeline (decide (0 ≤ c.periodOffset)) tab.timescale (periodElem pd).pto
          (loopSegments durs k (l + 1 - k)) (if k ≤ l then some (k : Int) else none) t t') := by
    intro durs hdurs hn hhalf
    rcases C28_closest_partial tab durs hdurs before _ _ hast (by omega) hn hhalf with ⟨-, hx⟩ | ⟨k, l, hk, hl, hx, hy⟩
    · rw [hx] at hc; cases hc
    · refine ⟨k, l, hk, hl, ?_⟩
      by_cases hkl : k ≤ l
      · obtain ⟨elems, he, hlist⟩ := hy hkl
        rw [he] at hc
        cases hc
        rw [if_pos hkl, ← hlist]
        exact hsays
      · rw [hx (by omega)] at hc
        cases hc
        rw [if_neg hkl, show l + 1 - k = 0 by omega]
        obtain ⟨s1, s2, s3, s4, s5, s6⟩ := hsays
        refine ⟨s1, s2, s3, ?_, s5, s6⟩
        by_cases hb : c.segTimeline = true
        · rw [if_pos hb]; exact (if_pos hb ▸ s4 : _)
        · rw [if_neg hb]; intro n hn; cases hn
  rcases hct with ⟨hct, ht⟩ | ⟨hct, ht⟩
  · have : tv = tab := Option.some.inj (hev.symm.trans ht)
    subst this
    exact ⟨_, dv, Or.inl ⟨hct, rfl, rfl⟩, hfin dv hdv⟩
  · have : ta = tab := Option.some.inj (hea.symm.trans ht)
    subst this
    exact ⟨_, da, Or.inr ⟨hct, rfl, rfl⟩, hfin da hda⟩

/-! ### Examples -/

/-- The live manifest for a URL of the test content, with timelines of 6 s segments. -/
def tlManifest (parts : List String) (pos : Nat) (now : Int) : Py Xml :=
  match processUrl (fun _ => none) vod6 (parts.map String.toList) now with
  | .error e => .error e
  | .ok c => generateXml c { sampleEnv with
      parts := parts.map String.toList
      pos := pos
      video := some testTable
      audio := some testTable } now (sampleVod [samplePeriod])

/-- An attribute. -/
def attrOf (k : String) (x : Xml) : Option String := (x.get k.toList).map String.ofList

/-- The texts of a period with one template looked at: start, then start number and offset of the template,
and t, d and r of its S elements. -/
structure TlText where
  start : Option String
  number : Option String
  offset : Option String
  s : List (List (Option String))
  deriving DecidableEq, Repr

/-- The texts of every period with its last template. -/
def tlTexts (x : Py Xml) : Option (List TlText) :=
  x.toOption.map fun x => (named "Period" x).flatMap fun p => ((templates p).drop 1).map fun t =>
    ⟨attrOf "start" p, attrOf "startNumber" t, attrOf "presentationTimeOffset" t,
      (named "SegmentTimeline" t).flatMap fun tl => tl.kids.map fun s => [attrOf "t" s, attrOf "d" s, attrOf "r" s]⟩

/-- The error, if any. -/
def errOf (x : Py Xml) : Option PyErr := match x with | .error e => some e | .ok _ => none

/-- Two periods in the buffer, and one to come. -/
example : tlTexts (tlManifest ["segtimelinenr_1", "periods_60", "tsbd_60", "testpic", "Manifest.mpd"] 3 1000012) =
    some [⟨some "PT999900S", some "166658", some "999900", [[some "999948", some "6", some "1"]]⟩,
      ⟨some "PT999960S", some "166659", some "999960", [[some "999954", some "6", some "8"]]⟩,
      ⟨some "PT1000020S", some "166659", some "1000020", []⟩] := by
  decide +kernel

/-- One period, with names by time. -/
example : tlTexts (tlManifest ["segtimeline_1", "tsbd_60", "testpic", "Manifest.mpd"] 2 1000000) =
    some [⟨some "PT0S", none, none, [[some "999936", some "6", some "9"]]⟩] := by
  decide +kernel

/-- The hypotheses of `C68_timeline_partial`. -/
example : VodTemplates samplePeriod ∧ samplePeriod.get "duration".toList = none ∧
    twoEntryTable.Near [40, 40, 60, 60] (1000000 * 10) (1000008 * 10) := by
  refine ⟨⟨by decide +kernel, by decide +kernel⟩, by decide +kernel, ?_⟩
  apply near_of_short _ _ twoEntryTable_describes
  decide

/-- A session. -/
example : tlTexts (tlManifest ["segtimeline_1", "timeoffset_0", "start_999960", "stop_999990", "testpic",
    "Manifest.mpd"] 4 1000020) =
    some [⟨some "PT0S", none, some "999960", [[some "999960", some "6", some "4"]]⟩] := by
  decide +kernel

/-- **C68 fails** for a service with `timeoffset_0` and a start but no stop: a minute after the start the
template says that the period starts at the media time 999960, but lists segments from the media time 0. -/
theorem C68_timeoffset_violation :
    tlTexts (tlManifest ["segtimeline_1", "timeoffset_0", "start_999960", "testpic", "Manifest.mpd"] 3 1000020) =
      some [⟨some "PT0S", none, some "999960", [[some "0", some "6", some "9"]]⟩] := by
  decide +kernel

/-- **C68 fails** after the end of a session without time offset: half a minute after the end of a session of
30 s its static manifest lists the segments from 24 s to 60 s. -/
theorem C68_stop_violation :
    (tlManifest ["segtimeline_1", "start_999960", "stop_999990", "testpic", "Manifest.mpd"] 3 1000020).toOption.map
        (fun x => (attrOf "type" x, attrOf "mediaPresentationDuration" x)) = some (some "static", some "PT30S") ∧
    tlTexts (tlManifest ["segtimeline_1", "start_999960", "stop_999990", "testpic", "Manifest.mpd"] 3 1000020) =
      some [⟨some "PT0S", none, none, [[some "24", some "6", some "5"]]⟩] := by
  decide +kernel

/-- **C68 fails** for a period of which nothing is in the buffer: its template has no segments and the start
number "None", which is no number; and until the first segment of a service has ended there is no manifest at all. -/
theorem C68_empty_violation :
    tlTexts (tlManifest ["segtimelinenr_1", "periods_60", "tsbd_60", "testpic", "Manifest.mpd"] 3 1000022) =
      some [⟨some "PT999900S", some "None", some "999900", []⟩,
        ⟨some "PT999960S", some "166660", some "999960", [[some "999960", some "6", some "9"]]⟩,
        ⟨some "PT1000020S", some "166669", some "1000020", [[some "1000014", some "6", none]]⟩] ∧
    errOf (tlManifest ["segtimeline_1", "start_999960", "testpic", "Manifest.mpd"] 2 999963) = some .typeError := by
  decide +kernel

/-- **C68 fails** at the start of every period but the first in the buffer: the segment that ends where the
period starts, the last of the period before, is listed there again (segment 166669 of the third period, 6 s
before its start). -/
theorem C68_before_violation :
    tlTexts (tlManifest ["segtimelinenr_1", "periods_60", "tsbd_60", "testpic", "Manifest.mpd"] 3 1000022) =
      some [⟨some "PT999900S", some "None", some "999900", []⟩,
        ⟨some "PT999960S", some "166660", some "999960", [[some "999960", some "6", some "9"]]⟩,
        ⟨some "PT1000020S", some "166669", some "1000020", [[some "1000014", some "6", none]]⟩] := by
  decide +kernel

/-- **C68 fails** for a session in several periods: each of them lists the segments of the whole session. -/
theorem C68_session_periods_violation :
    tlTexts (tlManifest ["segtimeline_1", "timeoffset_0", "start_999900", "stop_999990", "periods_60", "testpic",
      "Manifest.mpd"] 5 1000020) =
      some [⟨some "PT999900S", none, some "999900", [[some "999900", some "6", some "14"]]⟩,
        ⟨some "PT999960S", none, some "999960", [[some "999900", some "6", some "14"]]⟩,
        ⟨some "PT1000020S", none, some "1000020", [[some "999900", some "6", some "14"]]⟩] := by
  decide +kernel

/-- **C68 fails** for content with subtitles: there are timelines for video and audio alone, and a third
content type gives an error instead of a manifest. -/
theorem C68_subtitle_violation :
    errOf (generateXml { sampleCfg with segTimeline := true } { sampleEnv with
      video := some testTable
      audio := some testTable } 1000000 (sampleVod [sampleElem "Period" [("id", "p")] [
        sampleElem "AdaptationSet" [("contentType", "text")] [sampleTemplate]]])) = some .keyError := by
  decide +kernel

end Verif
