import Verif.Lemmas.MpdSteps
import Verif.Props.Periods
/-
The manifest made by `generate_dynamic_mpd`, in parts.
-/
namespace Verif
open Spec

theorem periodLoop_length {c : Cfg} {n pd a : Int} : ∀ (k : Nat) (nr : Int) {ps : List PeriodData},
    periodLoop c n pd a nr k = .ok ps → ps.length = k := by
  intro k
  induction k with
  | zero => intro nr ps h; simp [periodLoop] at h; subst h; rfl
  | succ k ih =>
    intro nr ps h
    unfold periodLoop at h
    cases hb : periodBase c n pd nr with
    | error e => simp [hb, bind, Except.bind] at h
    | ok p =>
      cases hl : periodLoop c n pd a (nr + 1) k with
      | error e => simp [hb, hl, bind, Except.bind] at h
      | ok rest =>
        simp only [hb, hl, bind, Except.bind, pure, Except.pure, Except.ok.injEq] at h
        subst h
        simp [ih (nr + 1) hl]

/-- With a time shift buffer there is a period. -/
theorem periodData_ne {c : Cfg} {now t : Int} (hd : 0 ≤ c.segDur) (ht : c.tsbd = some t) (h0 : 0 ≤ t)
    {ps : List PeriodData} (h : periodData c now = .ok ps) : ps ≠ [] := by
  unfold periodData at h
  dsimp only at h
  split at h
  · cases h
  · rename_i hok
    simp only [bind, Except.bind] at h
    split at h
    · cases h
    · split at h
      · split at h
        · cases h
        · split at h
          · cases h
          · cases h; exact List.cons_ne_nil _ _
      · split at h
        · split at h
          · cases h
          · cases h; exact List.cons_ne_nil _ _
        · rename_i h1 h2
          simp only [ht] at h
          have hn : 0 < min c.periods 60 := by
            have : min c.periods 60 ∈ okPeriods := by simpa using hok
            simp only [okPeriods, List.mem_cons, List.not_mem_nil, or_false] at this
            omega
          have hp : 60 ≤ periodLen c := periodLen_pos (by omega)
          have e1 := fun x => Int.fdiv_eq_ediv_of_nonneg x (show 0 ≤ 3600 / min c.periods 60 by
            have : 3600 / min c.periods 60 = periodLen c := rfl
            omega)
          rw [e1, e1] at h
          have hl := periodLoop_length _ _ h
          have : (now - t - c.segDur) / (3600 / min c.periods 60) ≤
              (now + 3600 / min c.periods 60 / 2) / (3600 / min c.periods 60) := by
            apply Int.ediv_le_ediv
            · have : 3600 / min c.periods 60 = periodLen c := rfl
              omega
            · have : 3600 / min c.periods 60 = periodLen c := rfl
              rw [this]; omega
          intro e
          rw [e, List.length_nil] at hl
          omega

theorem scteStep_kept {p : ProcCfg} {a b : Xml} (h : scteStep p a = .ok b) :
    Edited ["profiles".toList] a b := by
  unfold scteStep at h
  split at h
  · split at h
    · cases h
    · cases h
      split
      · exact .refl _ _
      · exact (Edited.refl _ _).set (List.mem_cons_self ..) _
  · cases h; exact .refl _ _

theorem lossStep_kept {p : ProcCfg} {a b : Xml} (h : lossStep p a = .ok b) : Edited ["profiles".toList] a b := by
  unfold lossStep at h
  split at h
  · split at h
    · cases h
    · cases h
      split
      · exact (Edited.refl _ _).set (List.mem_cons_self ..) _
      · exact .refl _ _
  · cases h; exact .refl _ _

theorem profilesStep_kept {d : MpdData} {a b : Xml} (h : profilesStep d a = .ok b) :
    Edited ["profiles".toList] a b := by
  unfold profilesStep at h
  split at h
  · cases h; exact .refl _ _
  · split at h
    · cases h
    · cases h; exact (Edited.refl _ _).set (List.mem_cons_self ..) _

theorem Edited.trans {keys : List Text} {a b c : Xml} (h : Edited keys a b) (h' : Edited keys b c) :
    Edited keys a c := ⟨h.1.trans h'.1, h'.2.1.trans h.2.1, h'.2.2.trans h.2.2⟩

theorem Edited.setFromDict {keys : List Text} {a b : Xml} (h : Edited keys a b) (d : List (Text × Text)) :
    ∀ {ks : List Text}, (∀ k ∈ ks, k ∈ keys) → Edited keys a (setFromDict ks d b) := by
  intro ks
  unfold Verif.setFromDict
  induction ks generalizing b with
  | nil => intro _; exact h
  | cons k r ih =>
    intro hk
    rw [List.foldl_cons]
    refine ih ?_ (fun x hx => hk x (List.mem_cons_of_mem _ hx))
    split
    · exact h.set (hk k (List.mem_cons_self ..)) _
    · exact h

theorem mpdKeys_sub (d : MpdData) : ∀ k ∈ mpdKeys d, k ∈ liveAttrs := by
  unfold mpdKeys
  split <;> split <;> decide +kernel

theorem attrsStep_kept (p : ProcCfg) (d : MpdData) (x : Xml) : Edited liveAttrs x (attrsStep p d x) := by
  unfold attrsStep
  dsimp only
  have h1 := (Edited.refl liveAttrs x).setFromDict d.attrs (mpdKeys_sub d)
  split <;> split <;> (try split) <;>
    repeat (first | exact h1 | refine Edited.set ?_ (by decide +kernel) _ | refine Edited.del ?_ (by decide +kernel))

/-- The root element, before and after the step for the profiles. -/
theorem processRoot_eq {p : ProcCfg} {d : MpdData} {vod root : Xml} (h : processRoot p d vod = .ok root) :
    vod.tag = "MPD".toList ∧ ∃ a b c,
      scteStep p (vod.set "type".toList (if d.static then "static".toList else "dynamic".toList)) = .ok a ∧
      lossStep p a = .ok b ∧ profilesStep d b = .ok c ∧ root = attrsStep p d c := by
  unfold processRoot at h
  split at h
  · cases h
  · rename_i ht
    refine ⟨by simpa using ht, ?_⟩
    simp only [bind, Except.bind] at h
    split at h
    · cases h
    · rename_i a ha
      split at h
      · cases h
      · rename_i b hb
        split at h
        · cases h
        · rename_i c hc
          cases h
          exact ⟨a, b, c, ha, hb, hc, rfl⟩

theorem processRoot_kept {p : ProcCfg} {d : MpdData} {vod root : Xml} (h : processRoot p d vod = .ok root) :
    Edited liveAttrs vod root := by
  obtain ⟨-, a, b, c, ha, hb, hc, rfl⟩ := processRoot_eq h
  have m : ∀ k ∈ ["profiles".toList], k ∈ liveAttrs := by decide +kernel
  exact (((((Edited.refl liveAttrs vod).set (by decide +kernel) _).trans ((scteStep_kept ha).mono m)).trans
    ((lossStep_kept hb).mono m)).trans ((profilesStep_kept hc).mono m)).trans (attrsStep_kept p d c)

/-- The parts of a manifest. -/
structure MpdParts (c : Cfg) (e : MpdEnv) (now : Int) (vod : Xml) (infos : List Xml) (base : Option Xml)
    (period : Xml) (rest : List Xml) (out : Xml) where
  tsbd : Int
  first : Int
  pds : List PeriodData
  root : Xml
  bs : List Xml
  ls : List Xml
  us : List Xml
  ps : List Xml
  cb : Option Text
  htsbd : c.tsbd = some tsbd
  hfirst : c.adjustedStartNumber = .ok first
  hpds : periodData c now = .ok pds
  hroot : processRoot (procCfgOf c e tsbd now) (mpdDataOf c e tsbd now) vod = .ok root
  hbs : newBases (procCfgOf c e tsbd now) (mpdDataOf c e tsbd now) base = .ok bs
  hls : newLocs (procCfgOf c e tsbd now) = .ok ls
  hus : List.Forall₂ (fun m u => utcElem (procCfgOf c e tsbd now) m = .ok u) (procCfgOf c e tsbd now).utc us
  hps : PeriodRun (procCfgOf c e tsbd now) (mpdDataOf c e tsbd now) cb period none {} pds ps
  hcb : cb = callbackUrl (infos ++ (bs ++ (ls ++ (newServices (procCfgOf c e tsbd now) ++
    (List.replicate pds.length period ++ (us ++ rest))))))
  hout : out = root.setKids
    (infos ++ (bs ++ (ls ++ (newServices (procCfgOf c e tsbd now) ++ (ps ++ (us ++ rest))))))
  htl : ¬((c.segTimeline || c.segTimelineNr) = true ∧ (e.video = none ∨ e.audio = none))

theorem generateXml_parts {c : Cfg} {e : MpdEnv} {now : Int} {vod out : Xml} {infos rest : List Xml}
    {base : Option Xml} {period : Xml} (hs : VodShape vod.kids infos base period rest)
    (hd : 0 ≤ c.segDur) (hb : ∀ t ∈ c.tsbd, 0 ≤ t) (h : generateXml c e now vod = .ok out) :
    Nonempty (MpdParts c e now vod infos base period rest out) := by
  unfold generateXml at h
  cases ht : c.tsbd with
  | none => rw [ht] at h; simp [bind, Except.bind] at h
  | some tsbd =>
    rw [ht] at h
    simp only [bind, Except.bind, pure, Except.pure] at h
    cases hf : c.adjustedStartNumber with
    | error x => rw [hf] at h; cases h
    | ok first =>
      rw [hf] at h
      dsimp only at h
      cases hp : periodData c now with
      | error x => rw [hp] at h; cases h
      | ok pds =>
        rw [hp] at h
        dsimp only at h
        have hn := periodData_ne hd ht (hb tsbd ht) hp
        unfold processMpd at h
        simp only [bind, Except.bind, pure, Except.pure] at h
        cases hr : processRoot (procCfgOf c e tsbd now) (mpdDataOf c e tsbd now) vod with
        | error x => rw [hr] at h; cases h
        | ok root =>
          rw [hr] at h
          dsimp only at h
          rw [(processRoot_kept hr).2.2] at h
          cases hk : processKids (procCfgOf c e tsbd now) (mpdDataOf c e tsbd now) pds vod.kids with
          | error x => rw [hk] at h; cases h
          | ok kids =>
            rw [hk] at h
            cases h
            obtain ⟨bs, ls, us, ps, s', h1, h2, h3, h4, rfl, h5⟩ := processKids_shape hs hn hk
            exact ⟨⟨tsbd, first, pds, root, bs, ls, us, ps, _, ht, hf, hp, hr, h1, h2, h3,
              periodRun hs.period h4, rfl, rfl, h5⟩⟩

end Verif
