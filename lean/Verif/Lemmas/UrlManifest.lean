import Verif.Lemmas.UrlFiles
import Verif.Server
/- What a request for a manifest says, and a field that no option sets. -/
namespace Verif

theorem emsg_run (e : Eff) (s : UrlState) : (e.run s).cfg.emsgLastSeg = s.cfg.emsgLastSeg := by
  cases e <;> rfl

theorem emsg_parse (pf : Text → Option Rat) (now : Int) : ∀ (parts : List Text) (s s' : UrlState) (rest : List Text),
    parseOpts pf now parts s = .ok (s', rest) → s'.cfg.emsgLastSeg = s.cfg.emsgLastSeg := by
  intro parts
  induction parts with
  | nil => intro s s' rest h; unfold parseOpts at h; cases h; rfl
  | cons p ps ih =>
    intro s s' rest h
    cases hp : partSlot p with
    | none =>
      have hk : optKey (splitFirst p).1 = none := by
        unfold partSlot at hp
        cases hk : optKey (splitFirst p).1 with
        | none => rfl
        | some k => rw [hk] at hp; cases hp
      unfold parseOpts at h
      simp only [hk] at h
      cases h
      rfl
    | some k =>
      rcases parseOpts_cons pf now (p := p) (by rw [hp]; rfl) with ⟨e, he⟩ | ⟨e, -, he⟩
      · rw [he] at h; cases h
      · rw [he] at h
        rw [ih _ _ _ h, emsg_run]

theorem emsg_aet (c : Cfg) (now : Int) (mup : Rat) (ends : List (Int × Int)) :
    (c.updateWithAet now mup ends).emsgLastSeg = c.emsgLastSeg := by
  unfold Cfg.updateWithAet
  split <;> rfl

theorem emsg_start {c c' : Cfg} {s now : Int} {ds : List Int} {stop : Option Int}
    (h : c.processStartTime s ds now stop = .ok c') : c'.emsgLastSeg = c.emsgLastSeg := by
  unfold Cfg.processStartTime at h
  simp only [Py.bind_ok] at h
  obtain ⟨a, -, ends, -, c2, hc2, h⟩ := h
  have h2 : c2.emsgLastSeg = c.emsgLastSeg := by
    cases hl : ends.getLast? with
    | none =>
      rw [hl] at hc2
      rw [← Py.pure_ok.mp hc2]
    | some e =>
      rw [hl] at hc2
      simp only [Py.bind_ok, Py.pure_ok] at hc2
      obtain ⟨q, -, hc2⟩ := hc2
      rw [← hc2, emsg_aet]
  cases stop with
  | none =>
    rw [← Py.pure_ok.mp h]
    exact h2
  | some x =>
    simp only [Py.bind_ok, Py.pure_ok] at h
    obtain ⟨z, -, h⟩ := h
    rw [← h]
    exact h2

/-- No option asks for the events about the last segment. -/
theorem processUrl_emsg {pf : Text → Option Rat} {vodOf : Text → Py VodCfg} {parts : List Text} {now : Int} {c : Cfg}
    (h : processUrl pf vodOf parts now = .ok c) : c.emsgLastSeg = false := by
  unfold processUrl at h
  simp only [Py.bind_ok] at h
  obtain ⟨⟨s, rest⟩, hp, h⟩ := h
  have e0 : s.cfg.emsgLastSeg = false := emsg_parse pf now parts {} s rest hp
  dsimp only at h
  obtain ⟨c1, c2, c3, c4, c5, c6, g1, g2, g3, g4, g5, g6, rfl⟩ := finishUrl_steps.mp h
  have e1 : c1.emsgLastSeg = s.cfg.emsgLastSeg := by
    unfold Cfg.updateFiles at g1
    split at g1
    · cases g1
    · simp only [Py.bind_ok, Py.pure_ok] at g1
      obtain ⟨v, -, reps, -, hc⟩ := g1
      rw [← hc]
  have e2 : c2.emsgLastSeg = c1.emsgLastSeg := by
    unfold startStep at g2
    cases hs : s.start with
    | none => rw [hs] at g2; cases g2; rfl
    | some st =>
      rw [hs] at g2
      dsimp only at g2
      split at g2
      · cases g2
      · exact emsg_start g2
  have e3 : c3.emsgLastSeg = c2.emsgLastSeg := by
    unfold tfdtStep at g3
    split at g3
    · split at g3
      · cases g3
      · unfold Cfg.updateForTfdt32 at g3
        simp only [Py.bind_ok, Py.pure_ok] at g3
        obtain ⟨_, -, g3⟩ := g3
        rw [← g3]
    · cases g3; rfl
  have e4 : c4.emsgLastSeg = c3.emsgLastSeg := by
    unfold contStep at g4
    split at g4
    · unfold Cfg.updateForCont at g4
      simp only [Py.bind_ok, Py.pure_ok] at g4
      obtain ⟨_, -, g4⟩ := g4
      rw [← g4]
    · cases g4; rfl
  have e5 : c5.emsgLastSeg = c4.emsgLastSeg := by
    unfold modStep at g5
    cases hs : s.modulo with
    | none => rw [hs] at g5; cases g5; rfl
    | some m =>
      rw [hs] at g5
      unfold Cfg.updateWithModulo at g5
      simp only [Py.bind_ok, Py.pure_ok] at g5
      obtain ⟨_, -, g5⟩ := g5
      rw [← g5]
  obtain ⟨p, e6⟩ := updatePublishTime_ok g6
  obtain ⟨b, o, e7, -⟩ := finalStep_eq s c6
  rw [e7, e6]
  show c5.emsgLastSeg = false
  rw [e5, e4, e3, e2, e1, e0]

/-- A request for a file of a content: where it leads. -/
theorem processUrl_manifest {pf : Text → Option Rat} {vodOf : Text → Py VodCfg} {now : Int} {opts : List Text}
    {name file : Text} {c : Cfg} (ho : ∀ p ∈ opts, (partSlot p).isSome) (hn : partSlot name = none)
    (h : processUrl pf vodOf (opts ++ [name, file]) now = .ok c) :
    ∃ v, vodOf name = .ok v ∧ c.contentName = name ∧ c.filename = file ∧ c.ext = (splitext file).2 ∧
      c.vodFirst = v.firstSeg ∧ c.vodNr = v.nrSegs ∧ c.segDur = v.segDurS := by
  unfold processUrl at h
  rcases parseOpts_prefix pf now hn ho {} with ⟨s', hp⟩ | ⟨e, hp⟩
  · rw [hp] at h
    simp only [bind, Except.bind] at h
    obtain ⟨c1, h1, h2⟩ := finishUrl_files h
    unfold Cfg.updateFiles at h1
    simp only [Py.bind_ok, Py.pure_ok] at h1
    obtain ⟨v, hv, reps, hr, hc⟩ := h1
    rw [← hc] at h2
    unfold Cfg.fileData at h2
    simp only [Prod.mk.injEq] at h2
    obtain ⟨a1, a2, a3, a4, a5, a6, a7, a8⟩ := h2
    exact ⟨v, hv, a1, a3, a4, a6, a7, a8⟩
  · rw [hp] at h
    cases h

theorem contentPos_eq {opts more : List Text} {name : Text} (ho : ∀ p ∈ opts, (partSlot p).isSome)
    (hn : partSlot name = none) : contentPos (opts ++ name :: more) = opts.length := by
  have hs : ∀ p, (optKey (splitFirst p).1).isSome = (partSlot p).isSome := by
    intro p
    unfold partSlot
    cases optKey (splitFirst p).1 <;> rfl
  unfold contentPos
  induction opts with
  | nil => rw [List.nil_append, List.takeWhile_cons, hs, hn]; rfl
  | cons p ps ih =>
    rw [List.cons_append, List.takeWhile_cons, hs, ho p (by simp)]
    simp only [if_true, List.length_cons]
    rw [ih (fun q hq => ho q (List.mem_cons_of_mem _ hq))]

end Verif
