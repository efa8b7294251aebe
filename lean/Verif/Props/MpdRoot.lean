import Verif.Lemmas.MpdText
import Verif.Props.MpdOrder
/-
C63, first part: what the attributes of the root element of the live manifest say.
-/
namespace Verif
open Spec

/-- The text of the availability end time. -/
def aetText (c : Cfg) : Option Text :=
  match c.aet with
  | some a => if a = 0 then none else some (makeTimestamp a)
  | none => none

theorem mpdDataOf_attrs (c : Cfg) (e : MpdEnv) (t now : Int) :
    (mpdDataOf c e t now).attrs =
      ("availabilityStartTime".toList, makeTimestamp c.ast) :: ("minimumUpdatePeriod".toList, mupText c) ::
      ("timeShiftBufferDepth".toList, secondsToIso t) :: ("maxSegmentDuration".toList, ptText c.segDur) ::
      ((aetText c).toList.map (fun v => ("availabilityEndTime".toList, v)) ++
       ((c.mpdDur.map secondsToIso).toList.map (fun v => ("mediaPresentationDuration".toList, v)) ++
        (c.spd.map fun (n : Int) => secondsToIso n).toList.map (fun v => ("suggestedPresentationDelay".toList, v)))) := by
  unfold aetText
  show _ ++ _ ++ _ ++ _ = _
  cases c.aet with
  | none => cases c.mpdDur <;> cases c.spd <;> rfl
  | some a => dsimp only; split <;> cases c.mpdDur <;> cases c.spd <;> rfl

section
variable (c : Cfg) (e : MpdEnv) (t now : Int)

theorem attrs_ast : dictGet (mpdDataOf c e t now).attrs "availabilityStartTime".toList =
    some (makeTimestamp c.ast) := by
  rw [mpdDataOf_attrs, dictGet_same]

theorem attrs_mup : dictGet (mpdDataOf c e t now).attrs "minimumUpdatePeriod".toList = some (mupText c) := by
  rw [mpdDataOf_attrs, dictGet_ne (by decide +kernel), dictGet_same]

theorem attrs_tsbd : dictGet (mpdDataOf c e t now).attrs "timeShiftBufferDepth".toList =
    some (secondsToIso t) := by
  rw [mpdDataOf_attrs, dictGet_ne (by decide +kernel), dictGet_ne (by decide +kernel), dictGet_same]

theorem attrs_maxSegDur : dictGet (mpdDataOf c e t now).attrs "maxSegmentDuration".toList =
    some (ptText c.segDur) := by
  rw [mpdDataOf_attrs, dictGet_ne (by decide +kernel), dictGet_ne (by decide +kernel),
    dictGet_ne (by decide +kernel), dictGet_same]

theorem attrs_aet : dictGet (mpdDataOf c e t now).attrs "availabilityEndTime".toList = aetText c := by
  rw [mpdDataOf_attrs, dictGet_ne (by decide +kernel), dictGet_ne (by decide +kernel),
    dictGet_ne (by decide +kernel), dictGet_ne (by decide +kernel), dictGet_append, dictGet_opt_same,
    dictGet_append, dictGet_opt_ne (by decide +kernel), dictGet_opt_ne (by decide +kernel)]
  simp

theorem attrs_mpdDur : dictGet (mpdDataOf c e t now).attrs "mediaPresentationDuration".toList =
    c.mpdDur.map secondsToIso := by
  rw [mpdDataOf_attrs, dictGet_ne (by decide +kernel), dictGet_ne (by decide +kernel),
    dictGet_ne (by decide +kernel), dictGet_ne (by decide +kernel), dictGet_append,
    dictGet_opt_ne (by decide +kernel), dictGet_append, dictGet_opt_same, dictGet_opt_ne (by decide +kernel)]
  simp

theorem attrs_spd : dictGet (mpdDataOf c e t now).attrs "suggestedPresentationDelay".toList =
    c.spd.map fun (n : Int) => secondsToIso n := by
  rw [mpdDataOf_attrs, dictGet_ne (by decide +kernel), dictGet_ne (by decide +kernel),
    dictGet_ne (by decide +kernel), dictGet_ne (by decide +kernel), dictGet_append,
    dictGet_opt_ne (by decide +kernel), dictGet_append, dictGet_opt_ne (by decide +kernel), dictGet_opt_same]
  simp
end

/-- An attribute that is set from the data only. -/
theorem attrsStep_get {p : ProcCfg} {d : MpdData} {x : Xml} {k : Text}
    (hk : k ∉ ["mediaPresentationDuration".toList, "publishTime".toList, "id".toList, "maxSegmentDuration".toList,
      "minimumUpdatePeriod".toList]) :
    (attrsStep p d x).get k = (setFromDict (mpdKeys d) d.attrs x).get k := by
  simp only [List.mem_cons, List.not_mem_nil, or_false, not_or] at hk
  obtain ⟨h1, h2, h3, h4, h5⟩ := hk
  unfold attrsStep
  dsimp only
  split <;> split <;> (try split) <;>
    simp only [Xml.get_set_ne h5, Xml.get_del_ne h4, Xml.get_set_ne h3, Xml.get_set_ne h2, Xml.get_del_ne h1]

theorem mem_mpdKeys_tsbd (d : MpdData) : "timeShiftBufferDepth".toList ∈ mpdKeys d ↔
    ¬(d.static = true ∨ (dictGet d.attrs "mediaPresentationDuration".toList).isSome = true) := by
  unfold mpdKeys
  generalize d.static = s
  generalize (dictGet d.attrs "mediaPresentationDuration".toList).isSome = t
  revert s t
  decide +kernel

theorem mem_mpdKeys_mup (d : MpdData) : "minimumUpdatePeriod".toList ∈ mpdKeys d ↔ ¬d.static = true := by
  unfold mpdKeys
  generalize d.static = s
  generalize (dictGet d.attrs "mediaPresentationDuration".toList).isSome = t
  revert s t
  decide +kernel

theorem mem_mpdKeys_type (d : MpdData) : "type".toList ∉ mpdKeys d := by
  unfold mpdKeys
  generalize d.static = s
  generalize (dictGet d.attrs "mediaPresentationDuration".toList).isSome = t
  revert s t
  decide +kernel

theorem mem_mpdKeys_all (d : MpdData) : ∀ k ∈ ["availabilityStartTime".toList, "availabilityEndTime".toList,
    "maxSegmentDuration".toList, "mediaPresentationDuration".toList, "suggestedPresentationDelay".toList],
    k ∈ mpdKeys d := by
  unfold mpdKeys
  split <;> split <;> decide +kernel

/-- The attributes that `attrsStep` sets last. -/
theorem attrsStep_mup (p : ProcCfg) (d : MpdData) (x : Xml) :
    (attrsStep p d x).get "minimumUpdatePeriod".toList =
      if (p.tl || p.tlNr) = true ∧ ¬d.static = true then some "PT0S".toList
      else (setFromDict (mpdKeys d) d.attrs x).get "minimumUpdatePeriod".toList := by
  have n1 : "minimumUpdatePeriod".toList ≠ "mediaPresentationDuration".toList := by decide +kernel
  have n2 : "minimumUpdatePeriod".toList ≠ "publishTime".toList := by decide +kernel
  have n3 : "minimumUpdatePeriod".toList ≠ "id".toList := by decide +kernel
  have n4 : "minimumUpdatePeriod".toList ≠ "maxSegmentDuration".toList := by decide +kernel
  unfold attrsStep
  dsimp only
  by_cases h1 : (dictGet d.attrs "mediaPresentationDuration".toList).isNone = true <;>
    by_cases h2 : (p.tl || p.tlNr) = true <;> by_cases h3 : d.static = true <;>
    simp only [h1, h2, h3, if_true, if_false, not_true, not_false_iff, and_true, and_false,
      Xml.get_set_same, Xml.get_set_ne n3, Xml.get_set_ne n2, Xml.get_del_ne n1, Xml.get_del_ne n4,
      Bool.false_eq_true]

theorem attrsStep_maxSegDur (p : ProcCfg) (d : MpdData) (x : Xml) :
    (attrsStep p d x).get "maxSegmentDuration".toList =
      if (p.tl || p.tlNr) = true then none
      else (setFromDict (mpdKeys d) d.attrs x).get "maxSegmentDuration".toList := by
  have n1 : "maxSegmentDuration".toList ≠ "mediaPresentationDuration".toList := by decide +kernel
  have n2 : "maxSegmentDuration".toList ≠ "publishTime".toList := by decide +kernel
  have n3 : "maxSegmentDuration".toList ≠ "id".toList := by decide +kernel
  have n4 : "maxSegmentDuration".toList ≠ "minimumUpdatePeriod".toList := by decide +kernel
  unfold attrsStep
  dsimp only
  by_cases h1 : (dictGet d.attrs "mediaPresentationDuration".toList).isNone = true <;>
    by_cases h2 : (p.tl || p.tlNr) = true <;> by_cases h3 : d.static = true <;>
    simp only [h1, h2, h3, if_true, if_false, Xml.get_del_same, Xml.get_set_ne n3, Xml.get_set_ne n2,
      Xml.get_del_ne n1, Xml.get_set_ne n4, Bool.false_eq_true]

theorem attrsStep_mpdDur (p : ProcCfg) (d : MpdData) (x : Xml) :
    (attrsStep p d x).get "mediaPresentationDuration".toList =
      if (dictGet d.attrs "mediaPresentationDuration".toList).isNone = true then none
      else (setFromDict (mpdKeys d) d.attrs x).get "mediaPresentationDuration".toList := by
  have n1 : "mediaPresentationDuration".toList ≠ "maxSegmentDuration".toList := by decide +kernel
  have n2 : "mediaPresentationDuration".toList ≠ "publishTime".toList := by decide +kernel
  have n3 : "mediaPresentationDuration".toList ≠ "id".toList := by decide +kernel
  have n4 : "mediaPresentationDuration".toList ≠ "minimumUpdatePeriod".toList := by decide +kernel
  unfold attrsStep
  dsimp only
  by_cases h1 : (dictGet d.attrs "mediaPresentationDuration".toList).isNone = true <;>
    by_cases h2 : (p.tl || p.tlNr) = true <;> by_cases h3 : d.static = true <;>
    simp only [h1, h2, h3, if_true, if_false, Xml.get_del_same, Xml.get_set_ne n3, Xml.get_set_ne n2,
      Xml.get_del_ne n1, Xml.get_set_ne n4, Bool.false_eq_true]

theorem attrsStep_publish (p : ProcCfg) (d : MpdData) (x : Xml) :
    (attrsStep p d x).get "publishTime".toList = some p.publish := by
  have n1 : "publishTime".toList ≠ "maxSegmentDuration".toList := by decide +kernel
  have n3 : "publishTime".toList ≠ "id".toList := by decide +kernel
  have n4 : "publishTime".toList ≠ "minimumUpdatePeriod".toList := by decide +kernel
  unfold attrsStep
  dsimp only
  by_cases h2 : (p.tl || p.tlNr) = true <;> by_cases h3 : d.static = true <;>
    simp only [h2, h3, if_true, if_false, Xml.get_set_same, Xml.get_set_ne n3,
      Xml.get_del_ne n1, Xml.get_set_ne n4, Bool.false_eq_true]

/-- The root before `attrsStep`. -/
theorem root_before {p : ProcCfg} {d : MpdData} {vod root : Xml} (h : processRoot p d vod = .ok root) :
    ∃ x, root = attrsStep p d x ∧ x.get "type".toList = some (if d.static then "static".toList else "dynamic".toList) ∧
      ∀ k, k ∉ ["type".toList, "profiles".toList] → x.get k = vod.get k := by
  obtain ⟨-, a, b, c, ha, hb, hc, rfl⟩ := processRoot_eq h
  have hk := ((scteStep_kept ha).trans (lossStep_kept hb)).trans (profilesStep_kept hc)
  refine ⟨c, rfl, ?_, fun k hk' => ?_⟩
  · rw [hk.1.2 _ (by decide +kernel), Xml.get_set_same]
  · simp only [List.mem_cons, List.not_mem_nil, or_false, not_or] at hk'
    rw [hk.1.2 _ (by simpa using hk'.2), Xml.get_set_ne hk'.1]

/-- `generateMpd` for the parts of the manifest. -/
theorem MpdParts.generateMpd {c : Cfg} {e : MpdEnv} {now : Int} {vod out : Xml} {infos rest : List Xml}
    {base : Option Xml} {period : Xml} (m : MpdParts c e now vod infos base period rest out) :
    ∃ M, Verif.generateMpd c now = .ok M ∧
      M.static = (mpdDataOf c e m.tsbd now).static ∧ M.ast = c.ast ∧
      M.aet = (match c.aet with | none => none | some a => if a = 0 then none else some a) ∧
      M.tsbd = (if M.static || c.mpdDur.isSome then none else some m.tsbd) ∧
      M.mup = (if M.static then none else if c.segTimeline || c.segTimelineNr then some (.secs 0) else
        some (if min c.periods 60 > 0 then .secs (if c.segTimeline || c.segTimelineNr then (c.segDur : Rat)
            else ((3600 / min c.periods 60 / 2 - 5 : Int) : Rat))
          else match c.mup with | some m => .secs m | none => .years100)) ∧
      M.maxSegDur = (if c.segTimeline || c.segTimelineNr then none else some c.segDur) ∧
      M.mpdDur = c.mpdDur ∧ M.spd = c.spd ∧
      M.baseAto = (if c.chunkDur.isNone then atoAttr c.ato else .absent) ∧
      M.templateAto = (if c.chunkDur.isNone then none else some c.ato) ∧ M.segDur = c.segDur ∧
      M.periods = m.pds.map periodElem ∧ M.publishTime = now := by
  unfold Verif.generateMpd
  simp only [m.hfirst, m.htsbd, m.hpds, bind, Except.bind, pure, Except.pure]
  exact ⟨_, rfl, rfl, rfl, rfl, rfl, rfl, rfl, rfl, rfl, rfl, rfl, rfl, rfl, rfl⟩

theorem durAttr_iso {x : Xml} {k : String} {o : Option Rat} (h : x.get k.toList = o.map secondsToIso) :
    DurAttr x k o := by
  cases o with
  | none => exact h
  | some r => exact ⟨_, h, fun h0 h1 => C24_denotes_partial h0 h1⟩

theorem durAttr_pt {x : Xml} {k : String} {n : Int} (h : x.get k.toList = some (ptText n)) :
    DurAttr x k (some (n : Rat)) := by
  refine ⟨_, h, fun h0 _ => ?_⟩
  rw [Rat.floor_intCast]
  exact ptText_denotes (by exact_mod_cast h0)

theorem secsAttr_pt {x : Xml} {k : String} {n : Int} (h : x.get k.toList = some (ptText n)) :
    SecsAttr x k (some n) := ⟨_, h, ptText_denotes⟩

/-- C63, the root: its attributes say what the manifest with numbers says. -/
theorem MpdParts.rootSays {c : Cfg} {e : MpdEnv} {now : Int} {vod out : Xml} {infos rest : List Xml}
    {base : Option Xml} {period : Xml} (m : MpdParts c e now vod infos base period rest out) (hv : VodRoot vod) :
    ∃ M, Verif.generateMpd c now = .ok M ∧ RootSays out M ∧ M.periods = m.pds.map periodElem ∧
      M.baseAto = (if c.chunkDur.isNone then atoAttr c.ato else .absent) ∧
      M.templateAto = (if c.chunkDur.isNone then none else some c.ato) ∧ M.segDur = c.segDur := by
  obtain ⟨M, hM, h1, h2, h3, h4, h5, h6, h7, h8, h9, h10, h11, h12, h13⟩ := m.generateMpd
  refine ⟨M, hM, ?_, h12, h9, h10, h11⟩
  obtain ⟨x, hx, htype, hget⟩ := root_before m.hroot
  have hg : ∀ k, out.get k = (attrsStep (procCfgOf c e m.tsbd now) (mpdDataOf c e m.tsbd now) x).get k := by
    intro k
    refine (congrArg (fun y => y.get k) m.hout).trans ?_
    rw [Xml.get_setKids, hx]
  have hd := attrs_mpdDur c e m.tsbd now
  have hsimple : ∀ k, k ∈ ["availabilityStartTime".toList, "availabilityEndTime".toList,
      "suggestedPresentationDelay".toList] →
      out.get k = (dictGet (mpdDataOf c e m.tsbd now).attrs k).or (vod.get k) := by
    intro k hk
    have ha : k ∈ mpdKeys (mpdDataOf c e m.tsbd now) := by
      apply mem_mpdKeys_all
      revert k
      decide +kernel
    rw [hg, attrsStep_get (by clear ha; revert k; decide +kernel), get_setFromDict, if_pos ha,
      hget k (by clear ha; revert k; decide +kernel)]
  refine ⟨?_, ?_, ?_, ?_, ?_, ?_, ?_, ?_, ?_, ?_⟩
  · rw [m.hout, Xml.tag_setKids, (processRoot_kept m.hroot).1.1]
    exact (processRoot_eq m.hroot).1
  · rw [hg, attrsStep_get (by decide +kernel), get_setFromDict, if_neg, htype, h1]
    exact mem_mpdKeys_type _
  · refine ⟨makeTimestamp c.ast, ?_, ?_⟩
    · rw [hsimple _ (by decide +kernel), attrs_ast]; rfl
    · have := C60_timestamp c.ast
      rw [Rat.floor_intCast] at this
      rw [h2]; exact this
  · have hs : out.get "availabilityEndTime".toList = aetText c := by
      rw [hsimple _ (by decide +kernel), attrs_aet, hv.aet, Option.or_none]
    rw [h3]
    unfold aetText at hs
    cases hc : c.aet with
    | none => rw [hc] at hs; exact hs
    | some a =>
      rw [hc] at hs
      dsimp only at hs ⊢
      by_cases h0 : a = 0
      · rw [if_pos h0] at hs ⊢; exact hs
      · rw [if_neg h0] at hs ⊢; exact ⟨_, hs, C60_timestamp a⟩
  · rw [h4]
    have hs : out.get "timeShiftBufferDepth".toList =
        if "timeShiftBufferDepth".toList ∈ mpdKeys (mpdDataOf c e m.tsbd now) then
          some (secondsToIso m.tsbd) else none := by
      rw [hg, attrsStep_get (by decide +kernel), get_setFromDict, hget _ (by decide +kernel), hv.tsbd,
        attrs_tsbd, Option.or_none]
    have hi : "timeShiftBufferDepth".toList ∈ mpdKeys (mpdDataOf c e m.tsbd now) ↔
        ¬((M.static || c.mpdDur.isSome) = true) := by
      rw [mem_mpdKeys_tsbd, hd, h1, Option.isSome_map, Bool.or_eq_true]
    by_cases hq : (M.static || c.mpdDur.isSome) = true
    · rw [if_pos hq]
      rw [if_neg (fun h => hi.1 h hq)] at hs
      exact hs
    · rw [if_neg hq]
      rw [if_pos (hi.2 hq)] at hs
      exact ⟨_, hs, fun h0 h1 => C24_denotes_partial h0 h1⟩
  · have hs : out.get "minimumUpdatePeriod".toList =
        if (c.segTimeline || c.segTimelineNr) = true ∧ ¬M.static = true then some "PT0S".toList
        else if M.static = true then none else some (mupText c) := by
      rw [hg, attrsStep_mup, get_setFromDict, hget _ (by decide +kernel), hv.mup, attrs_mup, Option.or_none, h1]
      congr 1
      by_cases hq : (mpdDataOf c e m.tsbd now).static = true
      · rw [if_pos hq, if_neg (fun h => (mem_mpdKeys_mup _).1 h hq)]
      · rw [if_neg hq, if_pos ((mem_mpdKeys_mup _).2 hq)]
    rw [h5]
    by_cases hq : M.static = true
    · rw [if_pos hq]
      rw [if_neg (fun h => h.2 hq), if_pos hq] at hs
      exact hs
    · rw [if_neg hq]
      by_cases ht : (c.segTimeline || c.segTimelineNr) = true
      · rw [if_pos ht]
        rw [if_pos ⟨ht, hq⟩] at hs
        have h0 : "PT0S".toList = ptText 0 := by decide +kernel
        rw [h0] at hs
        exact durAttr_pt (n := 0) hs
      · rw [if_neg ht]
        rw [if_neg (fun h => ht h.1), if_neg hq] at hs
        unfold mupText at hs
        dsimp only at hs
        by_cases hn : min c.periods 60 > 0
        · rw [if_pos hn, if_neg ht]
          rw [if_pos hn, if_neg ht] at hs
          exact durAttr_pt hs
        · rw [if_neg hn]
          rw [if_neg hn] at hs
          cases hm : c.mup with
          | none => rw [hm] at hs; exact hs
          | some r => rw [hm] at hs; exact durAttr_iso (o := some r) hs
  · have hs : out.get "maxSegmentDuration".toList =
        if (c.segTimeline || c.segTimelineNr) = true then none else some (ptText c.segDur) := by
      rw [hg, attrsStep_maxSegDur, get_setFromDict, if_pos (mem_mpdKeys_all _ _ (by decide +kernel)),
        attrs_maxSegDur]
      rfl
    rw [h6]
    by_cases ht : (c.segTimeline || c.segTimelineNr) = true
    · rw [if_pos ht]; rw [if_pos ht] at hs; exact hs
    · rw [if_neg ht]; rw [if_neg ht] at hs; exact secsAttr_pt hs
  · have hs : out.get "mediaPresentationDuration".toList = c.mpdDur.map secondsToIso := by
      rw [hg, attrsStep_mpdDur, get_setFromDict, if_pos (mem_mpdKeys_all _ _ (by decide +kernel)), hd]
      cases c.mpdDur <;> rfl
    rw [h7]
    exact durAttr_iso hs
  · rw [h8]
    have hs := hsimple "suggestedPresentationDelay".toList (by decide +kernel)
    rw [attrs_spd, hv.spd, Option.or_none] at hs
    refine durAttr_iso ?_
    rw [hs]
    cases c.spd <;> rfl
  · rw [h13]
    refine ⟨makeTimestamp now, by rw [hg, attrsStep_publish]; rfl, ?_⟩
    have := C60_timestamp now
    rwa [Rat.floor_intCast] at this

end Verif
