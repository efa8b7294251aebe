import Verif.Lemmas.Xml
import Verif.Spec.Manifest
/-
The shape of the manifest that `process_mpd_children` makes.
-/
namespace Verif
open Spec

/-- The BaseURL elements of the result. -/
def newBases (p : ProcCfg) (d : MpdData) (base : Option Xml) : Py (List Xml) :=
  if p.addLocation then .ok []
  else match base with
    | some b => .ok [b.setText d.baseUrl]
    | none =>
      if d.urls ≠ [] then (multiUrls d.baseUrl d.urls).map (·.map fun u => baseUrlElem u d.ato d.atc)
      else .ok [baseUrlElem d.baseUrl d.ato d.atc]

theorem getElem?_length {α : Type} (a : List α) (x : α) (b : List α) : (a ++ x :: b)[a.length]? = some x := by
  simp

theorem baseUrlStep_eq {p : ProcCfg} {d : MpdData} {kids infos rest : List Xml} {base : Option Xml}
    {period : Xml} (h : VodShape kids infos base period rest) :
    baseUrlStep p d kids = (newBases p d base).map
      (fun bs => (infos ++ (bs ++ period :: rest), infos.length + bs.length)) := by
  obtain ⟨rfl, hi, hb, hp, -⟩ := h
  unfold baseUrlStep newBases
  have n1 : "Period".toList ≠ "ProgramInformation".toList := by decide
  have n2 : "BaseURL".toList ≠ "ProgramInformation".toList := by decide
  have n3 : "Period".toList ≠ "BaseURL".toList := by decide
  cases base with
  | none =>
    have hn : period.tag ≠ "BaseURL".toList := by rw [hp]; exact n3
    simp only [Option.toList_none, List.nil_append]
    rw [infoCount_eq infos hi period (by rw [hp]; exact n1) rest, getElem?_length]
    simp only
    rw [if_neg hn]
    cases p.addLocation with
    | true => rw [if_pos rfl, if_pos rfl]; simp [Except.map]
    | false =>
      simp only [Bool.false_eq_true, if_false]
      by_cases hu : d.urls ≠ []
      · rw [if_pos hu, if_pos hu]
        cases hm : multiUrls d.baseUrl d.urls with
        | error e => rfl
        | ok us => simp [Except.map, bind, Except.bind, pure, Except.pure]
      · rw [if_neg hu, if_neg hu, insertAt_length]
        simp [Except.map]
  | some b =>
    have hbt : b.tag = "BaseURL".toList := hb b rfl
    simp only [Option.toList_some, List.singleton_append]
    rw [infoCount_eq infos hi b (by rw [hbt]; exact n2) (period :: rest), getElem?_length]
    simp only
    rw [if_pos hbt]
    cases p.addLocation with
    | true =>
      rw [if_pos rfl, if_pos rfl]
      simp [Except.map, List.eraseIdx_append_of_length_le]
    | false =>
      rw [if_neg (by simp), if_neg (by simp)]
      simp [Except.map, List.set_append_right]

/-- The Location elements of the result. -/
def newLocs (p : ProcCfg) : Py (List Xml) :=
  if p.addLocation then (locationUrl p).map fun u => [.elem "Location".toList [] u []] else .ok []

theorem locationStep_eq (p : ProcCfg) (a b : List Xml) :
    locationStep p (a ++ b) a.length = (newLocs p).map (fun ls => (a ++ (ls ++ b), a.length + ls.length)) := by
  unfold locationStep newLocs
  cases p.addLocation with
  | false => simp [Except.map]
  | true =>
    rw [if_pos rfl, if_pos rfl]
    cases locationUrl p with
    | error e => rfl
    | ok u =>
      simp only [bind, Except.bind, pure, Except.pure, Except.map]
      rw [insertAt_length]
      simp

/-- The ServiceDescription elements of the result. -/
def newServices (p : ProcCfg) : List Xml := if p.ll.isSome then [serviceDescription] else []

theorem serviceStep_eq (p : ProcCfg) (a b : List Xml) :
    serviceStep p (a ++ b) a.length = (a ++ (newServices p ++ b), a.length + (newServices p).length) := by
  unfold serviceStep newServices
  cases p.ll.isSome with
  | false => simp
  | true => simp [insertAt_length]

theorem copyPeriods_eq {a rest : List Xml} {period : Xml} (hp : period.tag = "Period".toList) (n : Nat) :
    copyPeriods n (a ++ period :: rest) a.length =
      .ok (a ++ (period :: (List.replicate (n - 1) period ++ rest)), a.length) := by
  unfold copyPeriods
  rw [List.drop_left, getElem?_length, List.findIdx?_cons, if_pos (by simpa using hp)]
  simp only
  have e : a.length + 0 + 1 = (a ++ [period]).length := by simp
  rw [e, show a ++ period :: rest = (a ++ [period]) ++ rest by simp, insertCopies_eq]
  simp

theorem utcElem_tag {p : ProcCfg} {m : Text} {u : Xml} (h : utcElem p m = .ok u) : u.tag = "UTCTiming".toList := by
  unfold utcElem at h
  repeat' split at h
  all_goals cases h
  all_goals rfl

theorem newBases_tag {p : ProcCfg} {d : MpdData} {base : Option Xml} {bs : List Xml}
    (hb : ∀ x ∈ base, x.tag = "BaseURL".toList) (h : newBases p d base = .ok bs) :
    ∀ x ∈ bs, x.tag = "BaseURL".toList := by
  unfold newBases at h
  split at h
  · injection h with h; subst h; exact fun x hx => absurd hx (List.not_mem_nil)
  · split at h
    · rename_i b
      injection h with h; subst h
      intro x hx
      rw [List.mem_singleton] at hx; subst hx
      rw [Xml.tag_setText]; exact hb b rfl
    · split at h
      · cases hm : multiUrls d.baseUrl d.urls with
        | error e => rw [hm] at h; exact absurd h (by simp [Except.map])
        | ok us =>
          rw [hm] at h
          simp only [Except.map, Except.ok.injEq] at h
          subst h
          intro x hx
          obtain ⟨u, -, rfl⟩ := List.mem_map.1 hx
          rfl
      · injection h with h; subst h
        intro x hx
        rw [List.mem_singleton] at hx; subst hx; rfl

theorem newLocs_tag {p : ProcCfg} {ls : List Xml} (h : newLocs p = .ok ls) :
    ∀ x ∈ ls, x.tag = "Location".toList := by
  unfold newLocs at h
  split at h
  · cases hm : locationUrl p with
    | error e => rw [hm] at h; exact absurd h (by simp [Except.map])
    | ok u =>
      rw [hm] at h
      simp only [Except.map, Except.ok.injEq] at h
      subst h
      intro x hx
      rw [List.mem_singleton] at hx; subst hx; rfl
  · injection h with h; subst h; exact fun x hx => absurd hx (List.not_mem_nil)

theorem newServices_tag (p : ProcCfg) : ∀ x ∈ newServices p, x.tag = "ServiceDescription".toList := by
  unfold newServices
  split
  · intro x hx
    rw [List.mem_singleton] at hx; subst hx; rfl
  · exact fun x hx => absurd hx (List.not_mem_nil)

theorem utc_tags {p : ProcCfg} {ms : List Text} {us : List Xml}
    (h : List.Forall₂ (fun m u => utcElem p m = .ok u) ms us) : ∀ x ∈ us, x.tag = "UTCTiming".toList := by
  induction h with
  | nil => exact fun x hx => absurd hx (List.not_mem_nil)
  | cons h _ ih =>
    intro x hx
    rcases List.mem_cons.1 hx with rfl | hx
    · exact utcElem_tag h
    · exact ih x hx

/-- The children of the manifest, before the periods are filled in and after. -/
theorem processKids_shape {p : ProcCfg} {d : MpdData} {pds : List PeriodData} {kids infos rest out : List Xml}
    {base : Option Xml} {period : Xml} (hs : VodShape kids infos base period rest) (hn : pds ≠ [])
    (h : processKids p d pds kids = .ok out) :
    ∃ bs ls us ps s', newBases p d base = .ok bs ∧ newLocs p = .ok ls ∧
      List.Forall₂ (fun m u => utcElem p m = .ok u) p.utc us ∧
      MapTag "Period".toList
        (periodStep p d (callbackUrl (infos ++ (bs ++ (ls ++ (newServices p ++
          (List.replicate pds.length period ++ (us ++ rest))))))))
        ⟨pds, none, {}⟩ (List.replicate pds.length period) ps s' ∧
      out = infos ++ (bs ++ (ls ++ (newServices p ++ (ps ++ (us ++ rest))))) ∧
      ¬((p.tl || p.tlNr) = true ∧ (p.video = none ∨ p.audio = none)) := by
  have hp := hs.period
  have hrest := hs.rest
  have hinfo := hs.infos
  have hbase := hs.base
  unfold processKids at h
  rw [baseUrlStep_eq hs] at h
  cases hb : newBases p d base with
  | error e => rw [hb] at h; exact absurd h (by simp [Except.map, bind, Except.bind])
  | ok bs =>
    rw [hb] at h
    simp only [Except.map, bind, Except.bind] at h
    have e1 : infos ++ (bs ++ period :: rest) = (infos ++ bs) ++ period :: rest := by simp
    have l1 : infos.length + bs.length = (infos ++ bs).length := by simp
    rw [e1, l1, locationStep_eq] at h
    cases hl : newLocs p with
    | error e => rw [hl] at h; exact absurd h (by simp [Except.map])
    | ok ls =>
      rw [hl] at h
      simp only [Except.map] at h
      have e2 : (infos ++ bs) ++ (ls ++ period :: rest) = (infos ++ bs ++ ls) ++ period :: rest := by simp
      have l2 : (infos ++ bs).length + ls.length = (infos ++ bs ++ ls).length := by simp [Nat.add_assoc]
      rw [e2, l2, serviceStep_eq] at h
      simp only at h
      have e3 : (infos ++ bs ++ ls) ++ (newServices p ++ period :: rest) =
          (infos ++ bs ++ ls ++ newServices p) ++ period :: rest := by simp
      have l3 : (infos ++ bs ++ ls).length + (newServices p).length =
          (infos ++ bs ++ ls ++ newServices p).length := by simp [Nat.add_assoc]
      rw [e3, l3, copyPeriods_eq hp] at h
      simp only at h
      have hlen : pds.length = (pds.length - 1) + 1 := by
        cases pds with
        | nil => exact absurd rfl hn
        | cons _ _ => simp
      have e4 : (infos ++ bs ++ ls ++ newServices p) ++
            (period :: (List.replicate (pds.length - 1) period ++ rest)) =
          (infos ++ bs ++ ls ++ newServices p ++ List.replicate pds.length period) ++ rest := by
        conv_rhs => rw [hlen, List.replicate_succ]
        simp
      have l4 : (infos ++ bs ++ ls ++ newServices p).length + pds.length =
          (infos ++ bs ++ ls ++ newServices p ++ List.replicate pds.length period).length := by simp [Nat.add_assoc]
      rw [e4, l4] at h
      cases hu : insertUtc p p.utc
          (infos ++ bs ++ ls ++ newServices p ++ List.replicate pds.length period).length
          ((infos ++ bs ++ ls ++ newServices p ++ List.replicate pds.length period) ++ rest) with
      | error e => rw [hu] at h; exact absurd h (by simp)
      | ok k =>
        rw [hu] at h
        obtain ⟨us, hus, rfl⟩ := insertUtc_eq p p.utc hu
        simp only at h
        unfold updatePeriods at h
        split at h
        · exact absurd h (by simp)
        · rename_i hvid
          split at h
          · exact absurd h (by simp)
          · rename_i k' s' hm
            injection h with h
            subst h
            have hcb : (infos ++ bs ++ ls ++ newServices p ++ List.replicate pds.length period) ++ (us ++ rest) =
                infos ++ (bs ++ (ls ++ (newServices p ++ (List.replicate pds.length period ++ (us ++ rest))))) := by
              simp
            rw [hcb] at hm
            have hpre : ∀ x ∈ infos ++ (bs ++ (ls ++ newServices p)), x.tag ≠ "Period".toList := by
              intro x hx
              rw [List.mem_append, List.mem_append, List.mem_append] at hx
              rcases hx with hx | hx | hx | hx
              · rw [hinfo x hx]; decide
              · rw [newBases_tag hbase hb x hx]; decide
              · rw [newLocs_tag hl x hx]; decide
              · rw [newServices_tag p x hx]; decide
            have hpost : ∀ x ∈ us ++ rest, x.tag ≠ "Period".toList := by
              intro x hx
              rw [List.mem_append] at hx
              rcases hx with hx | hx
              · rw [utc_tags hus x hx]; decide
              · exact hrest x hx
            have r := mapTag_rel hm
            rw [show ∀ z : List Xml, infos ++ (bs ++ (ls ++ (newServices p ++ z))) =
              (infos ++ (bs ++ (ls ++ newServices p))) ++ z by simp] at r
            obtain ⟨as, cs, s1, rfl, ra, rc⟩ := r.split
            obtain ⟨rfl, rfl⟩ := ra.skips hpre
            obtain ⟨ps, ds, s2, rfl, rp, rd⟩ := rc.split
            obtain ⟨rfl, rfl⟩ := rd.skips hpost
            refine ⟨bs, ls, us, ps, s', rfl, rfl, hus, ?_, by simp, ?_⟩
            · simpa using rp
            · rintro ⟨h1, h2⟩
              apply hvid
              rw [h1]
              rcases h2 with h2 | h2 <;> simp [h2]

end Verif
