import Verif.Lemmas.Media
/- Decomposition of `process_url`. -/
namespace Verif

theorem Py.bind_ok {α β : Type} {x : Py α} {f : α → Py β} {b : β} :
    (x >>= f) = .ok b ↔ ∃ a, x = .ok a ∧ f a = .ok b := by
  cases x with
  | error e => simp [bind, Except.bind]
  | ok a => simp [bind, Except.bind]

theorem Py.pure_ok {α : Type} {a b : α} : (pure a : Py α) = .ok b ↔ a = b := by
  simp [pure, Except.pure]

/-- configprocessor.py 500-503. -/
def startStep (s : UrlState) (now : Int) (c : Cfg) : Py Cfg :=
  match s.start with
  | none => pure c
  | some st =>
    if s.modulo.isSome then .error .configError
    else c.processStartTime st s.durations now s.stop

/-- configprocessor.py 504-507. -/
def tfdtStep (s : UrlState) (now : Int) (c : Cfg) : Py Cfg :=
  if c.tfdt32 then if s.cont then .error .configError else c.updateForTfdt32 now else pure c

/-- configprocessor.py 508-509. -/
def contStep (s : UrlState) (now : Int) (c : Cfg) : Py Cfg :=
  if s.cont then c.updateForCont now else pure c

/-- configprocessor.py 510-511. -/
def modStep (s : UrlState) (c : Cfg) : Py Cfg :=
  match s.modulo with
  | none => pure c
  | some m => c.updateWithModulo m

/-- configprocessor.py 513-519. -/
def finalStep (s : UrlState) (c : Cfg) : Cfg :=
  let c := if s.addLocation then { c with addLocation := true } else c
  match s.timeoffset with
  | none => c
  | some t => { c with timeoffset := some t }

theorem finishUrl_steps {vodOf : Text → Py VodCfg} {now : Int} {s : UrlState} {rest : List Text}
    {c : Cfg} : finishUrl vodOf now s rest = .ok c ↔ ∃ c1 c2 c3 c4 c5 c6,
      s.cfg.updateFiles vodOf rest = .ok c1 ∧ startStep s now c1 = .ok c2 ∧
      tfdtStep s now c2 = .ok c3 ∧ contStep s now c3 = .ok c4 ∧ modStep s c4 = .ok c5 ∧
      c5.updatePublishTime now = .ok c6 ∧ c = finalStep s c6 := by
  have : finishUrl vodOf now s rest = (do
      let c ← s.cfg.updateFiles vodOf rest
      let c ← startStep s now c
      let c ← tfdtStep s now c
      let c ← contStep s now c
      let c ← modStep s c
      let c ← c.updatePublishTime now
      pure (finalStep s c)) := rfl
  rw [this]
  simp only [Py.bind_ok, Py.pure_ok]
  constructor
  · rintro ⟨c1, h1, c2, h2, c3, h3, c4, h4, c5, h5, c6, h6, h7⟩
    exact ⟨c1, c2, c3, c4, c5, c6, h1, h2, h3, h4, h5, h6, h7.symm⟩
  · rintro ⟨c1, c2, c3, c4, c5, c6, h1, h2, h3, h4, h5, h6, h7⟩
    exact ⟨c1, h1, c2, h2, c3, h3, c4, h4, c5, h5, c6, h6, h7.symm⟩

/-- `updateFiles` sets the content fields and a default buffer depth, nothing else. -/
theorem updateFiles_ok {c c' : Cfg} {vodOf : Text → Py VodCfg} {rest : List Text}
    (h : c.updateFiles vodOf rest = .ok c') :
    ∃ name v reps rel file, rest.head? = some name ∧ vodOf name = .ok v ∧
      c' = { c with contentName := name, relPath := rel, filename := file,
                    ext := (splitext file).2, reps := reps,
                    tsbd := some (c.tsbd.getD v.defaultTsbd),
                    vodFirst := v.firstSeg, vodNr := v.nrSegs, segDur := v.segDurS } := by
  unfold Cfg.updateFiles at h
  split at h
  · simp at h
  · rename_i name more
    simp only [Py.bind_ok, Py.pure_ok] at h
    obtain ⟨v, hv, reps, -, hc⟩ := h
    exact ⟨name, v, reps, _, _, rfl, hv, hc.symm⟩

theorem updatePublishTime_ok {c c' : Cfg} {now : Int} (h : c.updatePublishTime now = .ok c') :
    ∃ p, c' = { c with publishTime := p } := by
  unfold Cfg.updatePublishTime at h
  split at h
  · split at h
    · simp at h
    · split at h
      · simp at h
      · exact ⟨_, by simpa using h.symm⟩
  · exact ⟨_, by simpa using h.symm⟩

theorem quantize_pos {x d : Int} (h : 0 < d) : quantize x d = .ok (x / d * d) := by
  unfold quantize
  rw [pyDiv_pos h]; rfl

/-- What `process_start_time` yields for a positive segment duration. -/
theorem processStartTime_ok {c c' : Cfg} {s now : Int} {ds : List Int} {stop : Option Int}
    (hd : 0 < c.segDur) (h : c.processStartTime s ds now stop = .ok c') :
    ∃ ends, durEnds s c.segDur 0 ds = .ok ends ∧ ∃ c1 c2 : Cfg,
      c1 = { c with ast := s / c.segDur * c.segDur, startTime := some (s / c.segDur * c.segDur),
                    mup := some (c.mup.getD 10) } ∧
      (ends.getLast? = none → c2 = c1) ∧
      (∀ e t, ends.getLast? = some (e, t) → c2 = Cfg.updateWithAet { c1 with
            lastNrs := c1.lastNrs ++ [(((e - s / c.segDur * c.segDur) / c.segDur - 1 : Int) : Rat)] }
            now (c.mup.getD 10) ends) ∧
      (stop = none → c' = c2) ∧
      (∀ x, stop = some x → c' = { c2 with
            stopTime := some (pyTrunc ((x : Rat) + 999 / 1000 * c.segDur) / c.segDur * c.segDur)
            mpdDur := some ((pyTrunc ((x : Rat) + 999 / 1000 * c.segDur) / c.segDur * c.segDur
              - s / c.segDur * c.segDur : Int) : Rat)
            tsbd := some (pyTrunc ((x : Rat) + 999 / 1000 * c.segDur) / c.segDur * c.segDur
              - s / c.segDur * c.segDur) }) := by
  unfold Cfg.processStartTime at h
  simp only [quantize_pos hd, Py.bind_ok, pyDiv_pos hd] at h
  obtain ⟨a, ha, ends, he, c2, hc2, h⟩ := h
  cases ha
  refine ⟨ends, he, _, c2, rfl, ?_, ?_, ?_, ?_⟩
  · intro hl
    rw [hl] at hc2
    exact (Py.pure_ok.mp hc2).symm
  · intro e t hl
    rw [hl] at hc2
    simp only [Py.bind_ok, Py.pure_ok] at hc2
    obtain ⟨q, hq, hc2⟩ := hc2
    cases hq
    exact hc2.symm
  · rintro rfl
    exact (Py.pure_ok.mp h).symm
  · rintro x rfl
    simp only [Py.bind_ok, Py.pure_ok] at h
    obtain ⟨z, hz, h⟩ := h
    cases hz
    exact h.symm

/-- The final step only touches the location flag and the time offset. -/
theorem finalStep_eq (s : UrlState) (c : Cfg) :
    ∃ b o, finalStep s c = { c with addLocation := b, timeoffset := o } ∧
      o = (match s.timeoffset with | none => c.timeoffset | some t => some t) := by
  unfold finalStep
  cases s.addLocation <;> cases s.timeoffset <;> exact ⟨_, _, rfl, rfl⟩

end Verif
