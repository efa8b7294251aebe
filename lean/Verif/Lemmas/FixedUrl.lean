import Verif.Spec.FixedUrl
import Verif.Props.MpdLinks
/-
URLs without options that refer to the time of the request.
-/
namespace Verif
open Spec

/-- What holds in the option loop when no option refers to the time of the request. -/
structure FixedState (s : UrlState) : Prop where
  durations : s.durations = []
  cont : s.cont = false
  modulo : s.modulo = none
  loc : s.addLocation = false
  tfdt : s.cfg.tfdt32 = false
  begin_ : s.cfg.startTime = none
  end_ : s.cfg.stopTime = none
  mpdDur : s.cfg.mpdDur = none
  aet : s.cfg.aet = none
  last : s.cfg.lastNrs = []
  ast : s.cfg.ast = 0
  flag : s.cfg.addLocation = false
  offset : s.cfg.timeoffset = none

theorem applyOpt_fixed {pf : Text → Option Rat} {now now' : Int} {s s1 : UrlState} {key : OptKey}
    {v : Text} (hk : key ∉ [.startrel, .stoprel, .dur, .tfdt, .cont, .modulo]) (hs : FixedState s)
    (h : applyOpt pf now key v s = .ok s1) : applyOpt pf now' key v s = .ok s1 ∧ FixedState s1 := by
  have e : applyOpt pf now' key v s = applyOpt pf now key v s := by
    cases key <;> first | rfl | exact absurd hk (by decide)
  refine ⟨e.trans h, ?_⟩
  clear e
  have pint : ∀ {f : Int → UrlState}, (do let v ← pyInt v; return f v) = Except.ok s1 →
      (∀ x, FixedState (f x)) → FixedState s1 := by
    intro f h hf
    cases hp : pyInt v with
    | error e => rw [hp] at h; cases h
    | ok n => rw [hp] at h; cases h; exact hf n
  have pif : ∀ {f : UrlState} {n : Int}, FixedState f → FixedState (if n = 1 then f else s) := by
    intro f n hf
    split
    · exact hf
    · exact hs
  obtain ⟨h1, h2, h3, h4, h5, h6, h7, h8, h9, h10, h11, h12, h13⟩ := hs
  cases key with
  | startrel | stoprel | dur | tfdt | cont | modulo => exact absurd hk (by decide)
  | sts | sid => cases h; exact ⟨h1, h2, h3, h4, h5, h6, h7, h8, h9, h10, h11, h12, h13⟩
  | start | ast | stop | timeoffset | init | tsbd | mup | periods | xlink | etp | etpDuration | insertad | mpdcallback | peroff |
    scte35 | spd => exact pint h fun x => ⟨h1, h2, h3, h4, h5, h6, h7, h8, h9, h10, h11, h12, h13⟩
  | continuous | segtimeline | segtimelinenr | sidx | segtimelineloss =>
    exact pint h fun x => pif ⟨h1, h2, h3, h4, h5, h6, h7, h8, h9, h10, h11, h12, h13⟩
  | baseurl | utc => cases h; exact ⟨h1, h2, h3, h4, h5, h6, h7, h8, h9, h10, h11, h12, h13⟩
  | snr =>
    unfold applyOpt at h
    dsimp only at h
    cases hi : interpretStartNr v with
    | error e => rw [hi] at h; cases h
    | ok n => rw [hi] at h; cases h; exact ⟨h1, h2, h3, h4, h5, h6, h7, h8, h9, h10, h11, h12, h13⟩
  | ato =>
    unfold applyOpt at h
    dsimp only at h
    split at h
    · cases h; exact ⟨h1, h2, h3, h4, h5, h6, h7, h8, h9, h10, h11, h12, h13⟩
    · split at h <;> cases h <;> exact ⟨h1, h2, h3, h4, h5, h6, h7, h8, h9, h10, h11, h12, h13⟩
  | chunkdur =>
    unfold applyOpt at h
    dsimp only at h
    split at h
    · split at h <;> cases h <;> exact ⟨h1, h2, h3, h4, h5, h6, h7, h8, h9, h10, h11, h12, h13⟩
    · cases h; exact ⟨h1, h2, h3, h4, h5, h6, h7, h8, h9, h10, h11, h12, h13⟩

theorem timeFree_key {p : Text} (h : TimeFree p) {key : OptKey} (hk : optKey (splitFirst p).1 = some key) :
    key ∉ [.startrel, .stoprel, .dur, .tfdt, .cont, .modulo] := by
  obtain ⟨k, hk, e⟩ := optKey_text hk
  unfold TimeFree at h
  rw [e] at h
  have : ∀ q ∈ optKeys, q.1.toList ∉ ["startrel".toList, "stoprel".toList, "dur".toList, "tfdt".toList, "cont".toList,
      "modulo".toList] → q.2 ∉ [.startrel, .stoprel, .dur, .tfdt, .cont, .modulo] := by decide +kernel
  exact this _ hk h

theorem parseOpts_fixed {pf : Text → Option Rat} {now now' : Int} {name : Text} {more : List Text}
    (hn : partSlot name = none) : ∀ {opts : List Text}, (∀ p ∈ opts, (partSlot p).isSome) → (∀ p ∈ opts, TimeFree p) →
    ∀ {s s' : UrlState} {r : List Text}, FixedState s → parseOpts pf now (opts ++ name :: more) s = .ok (s', r) →
    parseOpts pf now' (opts ++ name :: more) s = .ok (s', r) ∧ FixedState s' := by
  intro opts
  induction opts with
  | nil =>
    intro _ _ s s' r hs h
    have hk : optKey (splitFirst name).1 = none := by simpa [partSlot] using hn
    rw [List.nil_append, parseOpts] at h ⊢
    simp only [hk, Except.ok.injEq, Prod.mk.injEq] at h ⊢
    exact ⟨h, h.1 ▸ hs⟩
  | cons p ps ih =>
    intro ho hx s s' r hs h
    have ih' := @ih (fun q hq => ho q (List.mem_cons_of_mem _ hq)) (fun q hq => hx q (List.mem_cons_of_mem _ hq))
    have ho1 := ho p (List.mem_cons_self ..)
    have hx1 := hx p (List.mem_cons_self ..)
    cases hk : optKey (splitFirst p).1 with
    | none => simp [partSlot, hk] at ho1
    | some key =>
      rw [List.cons_append, parseOpts] at h ⊢
      simp only [hk] at h ⊢
      cases hv : (splitFirst p).2 with
      | none => rw [hv] at h; cases h
      | some v =>
        rw [hv] at h
        simp only [bind, Except.bind] at h ⊢
        cases ha : applyOpt pf now key v s with
        | error e => rw [ha] at h; cases h
        | ok s1 =>
          rw [ha] at h
          obtain ⟨g1, g2⟩ := applyOpt_fixed (now' := now') (timeFree_key hx1 hk) hs ha
          rw [g1]
          exact ih' g2 h

theorem startStep_fixed {s : UrlState} (hs : FixedState s) (now now' : Int) (c : Cfg) :
    startStep s now' c = startStep s now c := by
  unfold startStep
  cases s.start with
  | none => rfl
  | some st =>
    rw [hs.durations]
    rfl

/-- What `process_start_time` sets without a list of durations. -/
theorem processStartTime_no_dur {c c' : Cfg} {st now : Int} {stop : Option Int}
    (h : c.processStartTime st [] now stop = .ok c') : ∃ a, quantize st c.segDur = .ok a ∧
      ((stop = none ∧ c' = { c with ast := a, startTime := some a, mup := some (c.mup.getD 10) }) ∨
        ∃ x z, stop = some x ∧ quantize (pyTrunc ((x : Rat) + 999 / 1000 * c.segDur)) c.segDur = .ok z ∧
          c' = { c with ast := a, startTime := some a, mup := some (c.mup.getD 10), stopTime := some z,
                        mpdDur := some ((z - a : Int) : Rat), tsbd := some (z - a) }) := by
  unfold Cfg.processStartTime at h
  cases hq : quantize st c.segDur with
  | error e => rw [hq] at h; cases h
  | ok a =>
    rw [hq] at h
    refine ⟨a, rfl, ?_⟩
    cases stop with
    | none => cases h; exact Or.inl ⟨rfl, rfl⟩
    | some x =>
      cases hz : quantize (pyTrunc ((x : Rat) + 999 / 1000 * c.segDur)) c.segDur with
      | error e =>
        have h : (quantize (pyTrunc ((x : Rat) + 999 / 1000 * c.segDur)) c.segDur).bind _ = Except.ok c' := h
        rw [hz] at h; cases h
      | ok z =>
        have h : (quantize (pyTrunc ((x : Rat) + 999 / 1000 * c.segDur)) c.segDur).bind _ = Except.ok c' := h
        rw [hz] at h; cases h
        exact Or.inr ⟨x, z, rfl, hz, rfl⟩

/-- **The service of a URL without options that refer to the time of the request is the same at all times.** -/
theorem processUrl_fixed {pf : Text → Option Rat} {vodOf : Text → Py VodCfg} {opts more : List Text} {name : Text}
    (ho : ∀ p ∈ opts, (partSlot p).isSome) (hn : partSlot name = none) (hf : ∀ p ∈ opts, TimeFree p) {now : Int} {c : Cfg}
    (h : processUrl pf vodOf (opts ++ name :: more) now = .ok c) (now' : Int) :
    Means pf vodOf (opts ++ name :: more) now' c := by
  unfold Means processUrl
  unfold processUrl at h
  simp only [Py.bind_ok] at h
  obtain ⟨⟨s, r⟩, h1, h2⟩ := h
  obtain ⟨g1, hs⟩ := parseOpts_fixed (now' := now') hn ho hf (s := {})
    ⟨rfl, rfl, rfl, rfl, rfl, rfl, rfl, rfl, rfl, rfl, rfl, rfl, rfl⟩ h1
  rw [g1]
  show ∃ p, finishUrl vodOf now' s r = _
  have h2 : finishUrl vodOf now s r = .ok c := h2
  obtain ⟨c1, c2, c3, c4, c5, c6, f1, f2, f3, f4, f5, f6, rfl⟩ := finishUrl_steps.mp h2
  obtain ⟨x, hx⟩ := publish_any f6 now'
  refine ⟨x, finishUrl_steps.mpr ⟨c1, c2, c3, c4, c5, { c6 with publishTime := x }, f1, ?_, ?_, ?_, f5, hx, ?_⟩⟩
  · rw [startStep_fixed hs now]; exact f2
  · have ht : c2.tfdt32 = false := by
      obtain ⟨_, v, reps, rel, file, -, -, hc1⟩ := updateFiles_ok f1
      have e1 : c1.tfdt32 = false := by rw [hc1]; exact hs.tfdt
      unfold startStep at f2
      cases hst : s.start with
      | none => rw [hst] at f2; cases f2; exact e1
      | some st =>
        rw [hst] at f2
        simp only [hs.modulo, Option.isSome_none, Bool.false_eq_true, if_false, hs.durations] at f2
        obtain ⟨a, -, ⟨-, rfl⟩ | ⟨x, z, -, -, rfl⟩⟩ := processStartTime_no_dur f2 <;> exact e1
    unfold tfdtStep at f3 ⊢
    rw [ht] at f3 ⊢
    exact f3
  · unfold contStep at f4 ⊢
    rw [hs.cont] at f4 ⊢
    exact f4
  · unfold finalStep
    rw [hs.loc]
    cases s.timeoffset <;> rfl

/-- What a stop time means for a service that does not depend on the time of the request. -/
theorem processUrl_stop {pf : Text → Option Rat} {vodOf : Text → Py VodCfg} {opts more : List Text} {name : Text}
    (ho : ∀ p ∈ opts, (partSlot p).isSome) (hn : partSlot name = none) (hf : ∀ p ∈ opts, TimeFree p) {now : Int} {c : Cfg}
    (h : processUrl pf vodOf (opts ++ name :: more) now = .ok c) :
    c.aet = none ∧ c.lastNrs = [] ∧ c.addLocation = false ∧ c.tsbd.isSome ∧
      (c.stopTime = none → c.mpdDur = none) ∧
      ∀ z, c.stopTime = some z → c.segDur ∣ z ∧ c.segDur ∣ c.ast ∧ c.mpdDur = some ((z - c.ast : Int) : Rat) ∧
        c.tsbd = some (z - c.ast) := by
  unfold processUrl at h
  simp only [Py.bind_ok] at h
  obtain ⟨⟨s, r⟩, h1, h2⟩ := h
  obtain ⟨-, hs⟩ := parseOpts_fixed (now' := now) hn ho hf (s := {})
    ⟨rfl, rfl, rfl, rfl, rfl, rfl, rfl, rfl, rfl, rfl, rfl, rfl, rfl⟩ h1
  have h2 : finishUrl vodOf now s r = .ok c := h2
  obtain ⟨c1, c2, c3, c4, c5, c6, f1, f2, f3, f4, f5, f6, rfl⟩ := finishUrl_steps.mp h2
  obtain ⟨_, v, reps, rel, file, -, -, hc1⟩ := updateFiles_ok f1
  have qd : ∀ {x d y : Int}, quantize x d = .ok y → d ∣ y := by
    intro x d y hq
    unfold quantize at hq
    simp only [Py.bind_ok, Py.pure_ok] at hq
    obtain ⟨k, -, rfl⟩ := hq
    exact Dvd.intro_left _ rfl
  have key : c2.aet = none ∧ c2.lastNrs = [] ∧ c2.addLocation = false ∧ c2.tsbd.isSome ∧
      (c2.stopTime = none → c2.mpdDur = none) ∧ c2.tfdt32 = false ∧
      ∀ z, c2.stopTime = some z → c2.segDur ∣ z ∧ c2.segDur ∣ c2.ast ∧ c2.mpdDur = some ((z - c2.ast : Int) : Rat) ∧
        c2.tsbd = some (z - c2.ast) := by
    have k1 : c1.aet = none := by rw [hc1]; exact hs.aet
    have k2 : c1.lastNrs = [] := by rw [hc1]; exact hs.last
    have k3 : c1.addLocation = false := by rw [hc1]; exact hs.flag
    have k4 : c1.tsbd.isSome := by rw [hc1]; rfl
    have k5 : c1.mpdDur = none := by rw [hc1]; exact hs.mpdDur
    have k6 : c1.tfdt32 = false := by rw [hc1]; exact hs.tfdt
    have k7 : c1.stopTime = none := by rw [hc1]; exact hs.end_
    unfold startStep at f2
    cases hst : s.start with
    | none =>
      rw [hst] at f2; cases f2
      exact ⟨k1, k2, k3, k4, fun _ => k5, k6, fun z hz => by rw [k7] at hz; cases hz⟩
    | some st =>
      rw [hst] at f2
      simp only [hs.modulo, Option.isSome_none, Bool.false_eq_true, if_false, hs.durations] at f2
      obtain ⟨a, ha, ⟨-, rfl⟩ | ⟨x, z, -, hz, rfl⟩⟩ := processStartTime_no_dur f2
      · exact ⟨k1, k2, k3, k4, fun _ => k5, k6, fun z hz => by
          have hz : c1.stopTime = some z := hz
          rw [k7] at hz; cases hz⟩
      · exact ⟨k1, k2, k3, rfl, (fun hc => by cases hc), k6, fun z' hz' => by
          cases hz'
          exact ⟨qd hz, qd ha, rfl, rfl⟩⟩
  obtain ⟨j1, j2, j3, j4, j5, j6, j7⟩ := key
  unfold tfdtStep at f3
  rw [j6] at f3
  cases f3
  unfold contStep at f4
  rw [hs.cont] at f4
  cases f4
  unfold modStep at f5
  rw [hs.modulo] at f5
  cases f5
  obtain ⟨p, rfl⟩ := updatePublishTime_ok f6
  unfold finalStep
  rw [hs.loc]
  cases s.timeoffset <;> exact ⟨j1, j2, j3, j4, j5, j7⟩

end Verif
