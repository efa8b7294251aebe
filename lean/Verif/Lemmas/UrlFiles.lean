import Verif.Props.MpdLinks
/- What a request says about the files: the steps after reading the options do not change it. -/
namespace Verif

/-- The fields of a configuration that name the file and describe the content. -/
def Cfg.fileData (c : Cfg) : Text × Text × Text × Text × List Rep × Int × Int × Int :=
  (c.contentName, c.relPath, c.filename, c.ext, c.reps, c.vodFirst, c.vodNr, c.segDur)

theorem fileData_aet (c : Cfg) (now : Int) (mup : Rat) (ends : List (Int × Int)) :
    (c.updateWithAet now mup ends).fileData = c.fileData := by
  unfold Cfg.updateWithAet
  split <;> rfl

theorem fileData_start {c c' : Cfg} {s now : Int} {ds : List Int} {stop : Option Int}
    (h : c.processStartTime s ds now stop = .ok c') : c'.fileData = c.fileData := by
  unfold Cfg.processStartTime at h
  simp only [Py.bind_ok] at h
  obtain ⟨a, -, ends, -, c2, hc2, h⟩ := h
  have h2 : c2.fileData = c.fileData := by
    cases hl : ends.getLast? with
    | none =>
      rw [hl] at hc2
      rw [← Py.pure_ok.mp hc2]
      rfl
    | some e =>
      rw [hl] at hc2
      simp only [Py.bind_ok, Py.pure_ok] at hc2
      obtain ⟨q, -, hc2⟩ := hc2
      rw [← hc2, fileData_aet]
      rfl
  cases stop with
  | none =>
    rw [← Py.pure_ok.mp h]
    exact h2
  | some x =>
    simp only [Py.bind_ok, Py.pure_ok] at h
    obtain ⟨z, -, h⟩ := h
    rw [← h]
    exact h2

theorem finishUrl_files {vodOf : Text → Py VodCfg} {now : Int} {s : UrlState} {rest : List Text} {c : Cfg}
    (h : finishUrl vodOf now s rest = .ok c) :
    ∃ c1, s.cfg.updateFiles vodOf rest = .ok c1 ∧ c.fileData = c1.fileData := by
  obtain ⟨c1, c2, c3, c4, c5, c6, g1, g2, g3, g4, g5, g6, rfl⟩ := finishUrl_steps.mp h
  refine ⟨c1, g1, ?_⟩
  have e2 : c2.fileData = c1.fileData := by
    unfold startStep at g2
    cases hs : s.start with
    | none => rw [hs] at g2; cases g2; rfl
    | some st =>
      rw [hs] at g2
      dsimp only at g2
      split at g2
      · cases g2
      · exact fileData_start g2
  have e3 : c3.fileData = c2.fileData := by
    unfold tfdtStep at g3
    split at g3
    · split at g3
      · cases g3
      · unfold Cfg.updateForTfdt32 at g3
        simp only [Py.bind_ok, Py.pure_ok] at g3
        obtain ⟨_, -, g3⟩ := g3
        rw [← g3]; rfl
    · cases g3; rfl
  have e4 : c4.fileData = c3.fileData := by
    unfold contStep at g4
    split at g4
    · unfold Cfg.updateForCont at g4
      simp only [Py.bind_ok, Py.pure_ok] at g4
      obtain ⟨_, -, g4⟩ := g4
      rw [← g4]; rfl
    · cases g4; rfl
  have e5 : c5.fileData = c4.fileData := by
    unfold modStep at g5
    cases hs : s.modulo with
    | none => rw [hs] at g5; cases g5; rfl
    | some m =>
      rw [hs] at g5
      unfold Cfg.updateWithModulo at g5
      simp only [Py.bind_ok, Py.pure_ok] at g5
      obtain ⟨_, -, g5⟩ := g5
      rw [← g5]; rfl
  obtain ⟨p, e6⟩ := updatePublishTime_ok g6
  obtain ⟨b, o, e7, -⟩ := finalStep_eq s c6
  rw [e7, e6, ← e2, ← e3, ← e4, ← e5]
  rfl

/-- A request for a file in a directory of a content: where it leads. -/
theorem processUrl_files {pf : Text → Option Rat} {vodOf : Text → Py VodCfg} {now : Int} {opts : List Text}
    {name rep file : Text} {c : Cfg} (ho : ∀ p ∈ opts, (partSlot p).isSome) (hn : partSlot name = none)
    (h : processUrl pf vodOf (opts ++ [name, rep, file]) now = .ok c) :
    ∃ v reps, vodOf name = .ok v ∧ (splitDivider rep).mapM v.repInfo = .ok reps ∧
      c.contentName = name ∧ c.relPath = rep ∧ c.filename = file ∧ c.ext = (splitext file).2 ∧ c.reps = reps ∧
      c.vodFirst = v.firstSeg ∧ c.vodNr = v.nrSegs ∧ c.segDur = v.segDurS := by
  unfold processUrl at h
  rcases parseOpts_prefix pf now hn ho {} with ⟨s', hp⟩ | ⟨e, hp⟩
  · rw [hp] at h
    simp only [bind, Except.bind] at h
    obtain ⟨c1, h1, h2⟩ := finishUrl_files h
    unfold Cfg.updateFiles at h1
    simp only [Py.bind_ok, Py.pure_ok] at h1
    obtain ⟨v, hv, reps, hr, hc⟩ := h1
    rw [if_pos (by simp)] at hr
    rw [← hc] at h2
    unfold Cfg.fileData at h2
    simp only [Prod.mk.injEq] at h2
    obtain ⟨a1, a2, a3, a4, a5, a6, a7, a8⟩ := h2
    exact ⟨v, reps, hv, hr, a1, a2, a3, a4, a5, a6, a7, a8⟩
  · rw [hp] at h
    cases h

end Verif
