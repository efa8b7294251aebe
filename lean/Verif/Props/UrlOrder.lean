import Verif.Props.Sessions
/-
C31: the order of the URL options does not matter.
-/
namespace Verif

/-- The effect of a well-formed option value: what it assigns. -/
inductive Eff where
  | nop
  | start (v : Int) | startrel (v : Int) | stop (v : Int) | stoprel (v : Int) | dur (v : Int)
  | timeoffset (v : Int) | init (v : Int) | tsbd (v : Int) | mup (v : Int) | modulo (m : Modulo)
  | tfdt | cont | periods (v : Int) | xlink (v : Int) | etp (v : Int) | etpDuration (v : Int)
  | insertad (v : Int) | mpdcallback (v : Int) | continuous | segtimeline | segtimelinenr
  | baseurl (t : Text) | peroff (v : Int) | scte35 (v : Int) | utc (l : List Text)
  | snr (v : Int) | ato (r : Rat) | spd (v : Int) | sidx | segtimelineloss | chunkdur (r : Rat)

/-- Apply an effect. -/
def Eff.run : Eff → UrlState → UrlState
  | .nop, s => s
  | .start v, s => { s with start := some v }
  | .startrel v, s => { s with start := some v, addLocation := true }
  | .stop v, s => { s with stop := some v }
  | .stoprel v, s => { s with stop := some v, addLocation := true }
  | .dur v, s => { s with durations := s.durations ++ [v] }
  | .timeoffset v, s => { s with timeoffset := some v }
  | .init v, s => { s with cfg := { s.cfg with initOff := v } }
  | .tsbd v, s => { s with cfg := { s.cfg with tsbd := some v } }
  | .mup v, s => { s with cfg := { s.cfg with mup := some (v : Rat) } }
  | .modulo m, s => { s with modulo := some m }
  | .tfdt, s => { s with cfg := { s.cfg with tfdt32 := true } }
  | .cont, s => { s with cont := true }
  | .periods v, s => { s with cfg := { s.cfg with periods := v } }
  | .xlink v, s => { s with cfg := { s.cfg with xlink := v } }
  | .etp v, s => { s with cfg := { s.cfg with etp := v } }
  | .etpDuration v, s => { s with cfg := { s.cfg with etpDuration := v } }
  | .insertad v, s => { s with cfg := { s.cfg with insertAd := v } }
  | .mpdcallback v, s => { s with cfg := { s.cfg with mpdCallback := v } }
  | .continuous, s => { s with cfg := { s.cfg with contMultiperiod := true } }
  | .segtimeline, s => { s with cfg := { s.cfg with segTimeline := true } }
  | .segtimelinenr, s => { s with cfg := { s.cfg with segTimelineNr := true } }
  | .baseurl t, s => { s with cfg := { s.cfg with multiUrl := s.cfg.multiUrl ++ [t] } }
  | .peroff v, s => { s with cfg := { s.cfg with periodOffset := v } }
  | .scte35 v, s => { s with cfg := { s.cfg with scte35 := v } }
  | .utc l, s => { s with cfg := { s.cfg with utc := l } }
  | .snr v, s => { s with cfg := { s.cfg with startNr := v } }
  | .ato r, s => { s with cfg := { s.cfg with ato := r } }
  | .spd v, s => { s with cfg := { s.cfg with spd := some v } }
  | .sidx, s => { s with cfg := { s.cfg with insertSidx := true } }
  | .segtimelineloss, s => { s with cfg := { s.cfg with segtimelineloss := true } }
  | .chunkdur r, s => { s with cfg := { s.cfg with chunkDur := some r, atoComplete := false } }

/-- The setting that an option belongs to: `start`, `ast` and `startrel` all set the start,
`stop` and `stoprel` the stop; every other option has its own. -/
def OptKey.slot : OptKey → OptKey
  | .ast => .start
  | .startrel => .start
  | .stoprel => .stop
  | k => k

/-- The setting an effect belongs to. -/
def Eff.slot : Eff → Option OptKey
  | .nop => none
  | .start _ => some .start | .startrel _ => some .start | .stop _ => some .stop
  | .stoprel _ => some .stop | .dur _ => some .dur | .timeoffset _ => some .timeoffset
  | .init _ => some .init | .tsbd _ => some .tsbd | .mup _ => some .mup | .modulo _ => some .modulo
  | .tfdt => some .tfdt | .cont => some .cont | .periods _ => some .periods
  | .xlink _ => some .xlink | .etp _ => some .etp | .etpDuration _ => some .etpDuration
  | .insertad _ => some .insertad | .mpdcallback _ => some .mpdcallback
  | .continuous => some .continuous | .segtimeline => some .segtimeline
  | .segtimelinenr => some .segtimelinenr | .baseurl _ => some .baseurl
  | .peroff _ => some .peroff | .scte35 _ => some .scte35 | .utc _ => some .utc
  | .snr _ => some .snr | .ato _ => some .ato | .spd _ => some .spd | .sidx => some .sidx
  | .segtimelineloss => some .segtimelineloss | .chunkdur _ => some .chunkdur

set_option maxHeartbeats 1000000 in
theorem Eff.comm (a b : Eff) (h : a.slot = none ∨ a.slot ≠ b.slot) (s : UrlState) :
    a.run (b.run s) = b.run (a.run s) := by
  cases a <;> cases b <;> first | rfl | (exfalso; simp [Eff.slot] at h)

/-- Every option either fails or has an effect that does not depend on the state. -/
theorem applyOpt_eff (pf : Text → Option Rat) (now : Int) (k : OptKey) (v : Text) :
    (∃ e, ∀ s, applyOpt pf now k v s = .error e) ∨
    (∃ e : Eff, (e.slot = none ∨ e.slot = some k.slot) ∧ ∀ s, applyOpt pf now k v s = .ok (e.run s)) := by
  have hi : ∀ (f : Int → UrlState → UrlState) (g : Int → Eff),
      (∀ x, (g x).slot = none ∨ (g x).slot = some k.slot) →
      (∀ x s, f x s = (g x).run s) →
      (∀ s, applyOpt pf now k v s = (do let x ← pyInt v; return f x s)) →
      (∃ e, ∀ s, applyOpt pf now k v s = .error e) ∨
      (∃ e : Eff, (e.slot = none ∨ e.slot = some k.slot) ∧ ∀ s, applyOpt pf now k v s = .ok (e.run s)) := by
    intro f g hg hfg h
    cases hp : pyInt v with
    | error e => left; exact ⟨e, fun s => by rw [h, hp]; rfl⟩
    | ok x => right; exact ⟨g x, hg x, fun s => by rw [h, hp, ← hfg]; rfl⟩
  have hif : ∀ (x : Int) (e : Eff) (s : UrlState),
      (if x = 1 then e.run s else s) = (if x = 1 then e else Eff.nop).run s := by
    intro x e s; split <;> rfl
  have hsl : ∀ (x : Int) (e : Eff), e.slot = some k.slot →
      (if x = 1 then e else Eff.nop).slot = none ∨ (if x = 1 then e else Eff.nop).slot = some k.slot := by
    intro x e h; split
    · exact Or.inr h
    · exact Or.inl rfl
  cases k
  case sts => exact Or.inr ⟨.nop, Or.inl rfl, fun _ => rfl⟩
  case sid => exact Or.inr ⟨.nop, Or.inl rfl, fun _ => rfl⟩
  case start => exact hi _ .start (fun _ => Or.inr rfl) (fun _ _ => rfl) (fun _ => rfl)
  case ast => exact hi _ .start (fun _ => Or.inr rfl) (fun _ _ => rfl) (fun _ => rfl)
  case stop => exact hi _ .stop (fun _ => Or.inr rfl) (fun _ _ => rfl) (fun _ => rfl)
  case startrel => exact hi _ (fun x => .startrel (now + x)) (fun _ => Or.inr rfl) (fun _ _ => rfl) (fun _ => rfl)
  case stoprel => exact hi _ (fun x => .stoprel (now + x)) (fun _ => Or.inr rfl) (fun _ _ => rfl) (fun _ => rfl)
  case dur => exact hi _ .dur (fun _ => Or.inr rfl) (fun _ _ => rfl) (fun _ => rfl)
  case timeoffset => exact hi _ .timeoffset (fun _ => Or.inr rfl) (fun _ _ => rfl) (fun _ => rfl)
  case init => exact hi _ .init (fun _ => Or.inr rfl) (fun _ _ => rfl) (fun _ => rfl)
  case tsbd => exact hi _ .tsbd (fun _ => Or.inr rfl) (fun _ _ => rfl) (fun _ => rfl)
  case mup => exact hi _ .mup (fun _ => Or.inr rfl) (fun _ _ => rfl) (fun _ => rfl)
  case modulo =>
    cases hp : pyInt v with
    | error e => left; exact ⟨e, fun s => by simp [applyOpt, hp, bind, Except.bind]⟩
    | ok x =>
      cases hm : mkModulo x now with
      | error e => left; exact ⟨e, fun s => by simp [applyOpt, hp, hm, bind, Except.bind]⟩
      | ok m =>
        right
        exact ⟨.modulo m, Or.inr rfl, fun s => by
          simp [applyOpt, hp, hm, bind, Except.bind, pure, Except.pure, Eff.run]⟩
  case tfdt => exact Or.inr ⟨.tfdt, Or.inr rfl, fun _ => rfl⟩
  case cont => exact Or.inr ⟨.cont, Or.inr rfl, fun _ => rfl⟩
  case periods => exact hi _ .periods (fun _ => Or.inr rfl) (fun _ _ => rfl) (fun _ => rfl)
  case xlink => exact hi _ .xlink (fun _ => Or.inr rfl) (fun _ _ => rfl) (fun _ => rfl)
  case etp => exact hi _ .etp (fun _ => Or.inr rfl) (fun _ _ => rfl) (fun _ => rfl)
  case etpDuration => exact hi _ .etpDuration (fun _ => Or.inr rfl) (fun _ _ => rfl) (fun _ => rfl)
  case insertad => exact hi _ .insertad (fun _ => Or.inr rfl) (fun _ _ => rfl) (fun _ => rfl)
  case mpdcallback => exact hi _ .mpdcallback (fun _ => Or.inr rfl) (fun _ _ => rfl) (fun _ => rfl)
  case continuous => exact hi _ _ (fun x => hsl x .continuous rfl) (fun x s => hif x .continuous s) (fun _ => rfl)
  case segtimeline => exact hi _ _ (fun x => hsl x .segtimeline rfl) (fun x s => hif x .segtimeline s) (fun _ => rfl)
  case segtimelinenr =>
    exact hi _ _ (fun x => hsl x .segtimelinenr rfl) (fun x s => hif x .segtimelinenr s) (fun _ => rfl)
  case baseurl => exact Or.inr ⟨.baseurl v, Or.inr rfl, fun _ => rfl⟩
  case peroff => exact hi _ .peroff (fun _ => Or.inr rfl) (fun _ _ => rfl) (fun _ => rfl)
  case scte35 => exact hi _ .scte35 (fun _ => Or.inr rfl) (fun _ _ => rfl) (fun _ => rfl)
  case utc => exact Or.inr ⟨.utc (splitChar '-' v), Or.inr rfl, fun _ => rfl⟩
  case snr =>
    cases hp : interpretStartNr v with
    | error e => left; exact ⟨e, fun s => by simp [applyOpt, hp, bind, Except.bind]⟩
    | ok x =>
      right
      exact ⟨.snr x, Or.inr rfl, fun s => by
        simp [applyOpt, hp, bind, Except.bind, pure, Except.pure, Eff.run]⟩
  case ato =>
    right
    by_cases hinf : v = "inf".toList
    · exact ⟨.ato (-1), Or.inr rfl, fun s => by simp only [applyOpt, if_pos hinf]; rfl⟩
    · cases hp : pf v with
      | none => exact ⟨.ato 0, Or.inr rfl, fun s => by simp only [applyOpt, if_neg hinf, hp]; rfl⟩
      | some f => exact ⟨.ato (max f 0), Or.inr rfl, fun s => by simp only [applyOpt, if_neg hinf, hp]; rfl⟩
  case spd => exact hi _ .spd (fun _ => Or.inr rfl) (fun _ _ => rfl) (fun _ => rfl)
  case sidx => exact hi _ _ (fun x => hsl x .sidx rfl) (fun x s => hif x .sidx s) (fun _ => rfl)
  case segtimelineloss =>
    exact hi _ _ (fun x => hsl x .segtimelineloss rfl) (fun x s => hif x .segtimelineloss s) (fun _ => rfl)
  case chunkdur =>
    right
    cases hp : pf v with
    | none => exact ⟨.nop, Or.inl rfl, fun s => by simp only [applyOpt, hp]; rfl⟩
    | some f =>
      by_cases hf : 0 < f
      · exact ⟨.chunkdur f, Or.inr rfl, fun s => by simp only [applyOpt, hp, if_pos hf]; rfl⟩
      · exact ⟨.nop, Or.inl rfl, fun s => by simp only [applyOpt, hp, if_neg hf]; rfl⟩

/-- The setting a URL part belongs to; `none` if it is not an option. -/
def partSlot (p : Text) : Option OptKey := (optKey (splitFirst p).1).map OptKey.slot

/-- Reorderings of options: exchanges of neighbouring options that belong to different
settings, repeated. Options of the same setting keep their relative order. -/
inductive Reorder : List Text → List Text → Prop where
  | nil : Reorder [] []
  | cons (p : Text) {a b : List Text} : (partSlot p).isSome → Reorder a b → Reorder (p :: a) (p :: b)
  | swap (p q : Text) {a : List Text} : (partSlot p).isSome → (partSlot q).isSome →
      partSlot p ≠ partSlot q → Reorder a a → Reorder (p :: q :: a) (q :: p :: a)
  | trans {a b c : List Text} : Reorder a b → Reorder b c → Reorder a c

theorem Reorder.refl : ∀ {a : List Text}, (∀ p ∈ a, (partSlot p).isSome) → Reorder a a
  | [], _ => .nil
  | p :: _, h => .cons p (h p (by simp)) (Reorder.refl (fun q hq => h q (by simp [hq])))

/-- Options of pairwise different settings can be permuted at will. -/
theorem Reorder.of_perm {a b : List Text} (hp : a.Perm b) (ho : ∀ p ∈ a, (partSlot p).isSome)
    (hd : a.Pairwise (fun p q => partSlot p ≠ partSlot q)) : Reorder a b := by
  induction hp with
  | nil => exact .nil
  | cons x _ ih =>
    exact .cons x (ho x (by simp)) (ih (fun p hp => ho p (by simp [hp])) (List.pairwise_cons.mp hd).2)
  | swap x y l =>
    refine .swap y x (ho y (by simp)) (ho x (by simp)) ?_ (.refl fun p hp => ho p (by simp [hp]))
    exact (List.pairwise_cons.mp hd).1 x (by simp)
  | trans h1 _ ih1 ih2 =>
    exact .trans (ih1 ho hd) (ih2 (fun p hp => ho p (h1.mem_iff.mpr hp))
      ((h1.pairwise_iff (fun hne => Ne.symm hne)).mp hd))

/-- One part: not an option (`none`), or what the loop body does with it. -/
theorem parseOpts_cons (pf : Text → Option Rat) (now : Int) {p : Text} (h : (partSlot p).isSome) :
    (∃ e, ∀ ps s, parseOpts pf now (p :: ps) s = .error e) ∨
    (∃ e : Eff, (e.slot = none ∨ e.slot = partSlot p) ∧
      ∀ ps s, parseOpts pf now (p :: ps) s = parseOpts pf now ps (e.run s)) := by
  unfold partSlot at h ⊢
  cases hk : optKey (splitFirst p).1 with
  | none => simp [hk] at h
  | some k =>
    cases hv : (splitFirst p).2 with
    | none => left; exact ⟨.valueError, fun ps s => by simp [parseOpts, hk, hv]⟩
    | some v =>
      rcases applyOpt_eff pf now k v with ⟨e, he⟩ | ⟨e, hs, he⟩
      · left; exact ⟨e, fun ps s => by simp [parseOpts, hk, hv, he, bind, Except.bind]⟩
      · right; exact ⟨e, by simpa using hs, fun ps s => by simp [parseOpts, hk, hv, he, bind, Except.bind]⟩

theorem parseOpts_reorder (pf : Text → Option Rat) (now : Int) {a b : List Text} (h : Reorder a b) :
    ∀ (r : List Text) (s : UrlState),
      (parseOpts pf now (a ++ r) s).toOption = (parseOpts pf now (b ++ r) s).toOption := by
  induction h with
  | nil => intro r s; rfl
  | cons p hp _ ih =>
    intro r s
    rcases parseOpts_cons pf now hp with ⟨e, he⟩ | ⟨e, -, he⟩
    · simp only [List.cons_append, he]
    · simp only [List.cons_append, he, ih]
  | swap p q hp hq hne _ _ =>
    intro r s
    rcases parseOpts_cons pf now hp with ⟨e, he⟩ | ⟨e, hs, he⟩
    · rcases parseOpts_cons pf now hq with ⟨f, hf⟩ | ⟨f, hfs, hf⟩
      · simp only [List.cons_append, he, hf]; rfl
      · simp only [List.cons_append, he, hf]
    · rcases parseOpts_cons pf now hq with ⟨f, hf⟩ | ⟨f, hfs, hf⟩
      · simp only [List.cons_append, he, hf]
      · simp only [List.cons_append, he, hf]
        have : f.run (e.run s) = e.run (f.run s) := by
          apply Eff.comm
          rcases hfs with hfs | hfs
          · exact Or.inl hfs
          · right
            rw [hfs]
            rcases hs with hs | hs
            · rw [hs]; intro hc; rw [hc] at hq; simp at hq
            · rw [hs]; exact hne.symm
        rw [this]
  | trans _ _ ih1 ih2 => intro r s; rw [ih1, ih2]

/-- **C31.** Reordering the options of a URL gives the same configuration, or fails in both
orders (possibly for different reasons), whatever follows the options and at any time. -/
theorem C31_reorder (pf : Text → Option Rat) (vodOf : Text → Py VodCfg) (now : Int)
    {opts opts' : List Text} (h : Reorder opts opts') (rest : List Text) :
    (processUrl pf vodOf (opts ++ rest) now).toOption =
      (processUrl pf vodOf (opts' ++ rest) now).toOption := by
  have := parseOpts_reorder pf now h rest {}
  unfold processUrl
  cases h1 : parseOpts pf now (opts ++ rest) {} with
  | error e =>
    cases h2 : parseOpts pf now (opts' ++ rest) {} with
    | error e' => rfl
    | ok x => rw [h1, h2] at this; simp [Except.toOption] at this
  | ok y =>
    cases h2 : parseOpts pf now (opts' ++ rest) {} with
    | error e' => rw [h1, h2] at this; simp [Except.toOption] at this
    | ok x =>
      rw [h1, h2] at this
      simp only [Except.toOption, Option.some.injEq] at this
      rw [this]

/-- **C31 (permutations).** In particular any permutation of options that belong to pairwise
different settings. -/
theorem C31_permutation (pf : Text → Option Rat) (vodOf : Text → Py VodCfg) (now : Int)
    {opts opts' : List Text} (hp : opts.Perm opts') (ho : ∀ p ∈ opts, (partSlot p).isSome)
    (hd : opts.Pairwise (fun p q => partSlot p ≠ partSlot q)) (rest : List Text) :
    (processUrl pf vodOf (opts ++ rest) now).toOption =
      (processUrl pf vodOf (opts' ++ rest) now).toOption :=
  C31_reorder pf vodOf now (.of_perm hp ho hd) rest

example : let opts := ["start_1003".toList, "tsbd_60".toList, "snr_5".toList]
    (∀ p ∈ opts, (partSlot p).isSome) ∧ opts.Pairwise (fun p q => partSlot p ≠ partSlot q) ∧
    (processUrl (fun _ => none) vod8 (opts ++ ["x".toList, "a.mpd".toList]) 1100).toOption.map
      (fun c => ((c.ast, c.tsbd), (c.startNr, c.contentName))) = some ((1000, some 60), (5, "x".toList)) := by
  decide +kernel

/-- Options of one setting do depend on the order: the last start wins. -/
example :
    (processUrl (fun _ => none) vod8 (["start_1000".toList, "ast_2000".toList] ++ ["x".toList, "a.mpd".toList]) 1100).toOption.map (·.ast)
      = some 2000 ∧
    (processUrl (fun _ => none) vod8 (["ast_2000".toList, "start_1000".toList] ++ ["x".toList, "a.mpd".toList]) 1100).toOption.map (·.ast)
      = some 1000 := by
  decide +kernel

theorem parseOpts_rest (pf : Text → Option Rat) (now : Int) : ∀ (parts : List Text) (s : UrlState)
    {s' : UrlState} {rest : List Text}, parseOpts pf now parts s = .ok (s', rest) →
    ∃ opts, parts = opts ++ rest ∧ (∀ p ∈ opts, (partSlot p).isSome) ∧
      (∀ p ∈ rest.head?, partSlot p = none)
  | [], s, s', rest, h => by
    simp only [parseOpts, Except.ok.injEq, Prod.mk.injEq] at h
    rw [← h.2]
    exact ⟨[], rfl, by simp, by simp⟩
  | p :: ps, s, s', rest, h => by
    cases hk : partSlot p with
    | none =>
      have hk' : optKey (splitFirst p).1 = none := by simpa [partSlot] using hk
      simp only [parseOpts, hk', Except.ok.injEq, Prod.mk.injEq] at h
      rw [← h.2]
      exact ⟨[], rfl, by simp, by simp [hk]⟩
    | some k =>
      rcases parseOpts_cons pf now (p := p) (by rw [hk]; rfl) with ⟨e, he⟩ | ⟨e, -, he⟩
      · rw [he] at h; simp at h
      · rw [he] at h
        obtain ⟨opts, h1, h2, h3⟩ := parseOpts_rest pf now ps _ h
        refine ⟨p :: opts, by rw [h1]; rfl, ?_, h3⟩
        intro q hq
        rcases List.mem_cons.mp hq with rfl | hq
        · rw [hk]; rfl
        · exact h2 q hq

/-- **C31 (content).** Whenever a URL is accepted, it consists of options, then the content name,
which is the first part that is not an option. -/
theorem C31_content (pf : Text → Option Rat) (vodOf : Text → Py VodCfg) (now : Int)
    {parts : List Text} {c : Cfg} (h : processUrl pf vodOf parts now = .ok c) :
    ∃ opts rest, parts = opts ++ c.contentName :: rest ∧ (∀ p ∈ opts, (partSlot p).isSome) ∧
      partSlot c.contentName = none := by
  unfold processUrl at h
  obtain ⟨⟨s, rest⟩, h1, h2⟩ := Py.bind_ok.mp h
  obtain ⟨opts, e, ho, hr⟩ := parseOpts_rest pf now _ _ h1
  have hn : ∃ more, rest = c.contentName :: more := by
    obtain ⟨c1, c2, c3, c4, c5, c6, g1, g2, g3, g4, g5, g6, g7⟩ := finishUrl_steps.mp h2
    obtain ⟨name, v, reps, rel, file, hh, hvod, e1⟩ := updateFiles_ok g1
    have hc : c.contentName = c1.contentName := by
      obtain ⟨b, o, e7, -⟩ := finalStep_eq s c6
      obtain ⟨p, e6⟩ := updatePublishTime_ok g6
      have e5 : c5.contentName = c4.contentName := by
        unfold modStep at g5
        split at g5
        · rw [Py.pure_ok.mp g5]
        · unfold Cfg.updateWithModulo at g5
          simp only [Py.bind_ok, Py.pure_ok] at g5
          obtain ⟨l, -, rfl⟩ := g5; rfl
      have e4 : c4.contentName = c3.contentName := by
        unfold contStep at g4
        split at g4
        · unfold Cfg.updateForCont at g4
          simp only [Py.bind_ok, Py.pure_ok] at g4
          obtain ⟨l, -, rfl⟩ := g4; rfl
        · rw [Py.pure_ok.mp g4]
      have e3 : c3.contentName = c2.contentName := by
        unfold tfdtStep at g3
        split at g3
        · split at g3
          · simp at g3
          · unfold Cfg.updateForTfdt32 at g3
            simp only [Py.bind_ok, Py.pure_ok] at g3
            obtain ⟨l, -, rfl⟩ := g3; rfl
        · rw [Py.pure_ok.mp g3]
      have e2 : c2.contentName = c1.contentName := by
        unfold startStep at g2
        split at g2
        · rw [Py.pure_ok.mp g2]
        · split at g2
          · simp at g2
          · unfold Cfg.processStartTime at g2
            simp only [Py.bind_ok] at g2
            obtain ⟨a, -, ends, -, c2', g, g2⟩ := g2
            have hx : c2'.contentName = c1.contentName := by
              split at g
              · rw [← Py.pure_ok.mp g]
              · simp only [Py.bind_ok, Py.pure_ok] at g
                obtain ⟨q, -, rfl⟩ := g
                unfold Cfg.updateWithAet
                split <;> rfl
            split at g2
            · rw [← Py.pure_ok.mp g2]; exact hx
            · simp only [Py.bind_ok, Py.pure_ok] at g2
              obtain ⟨z, -, rfl⟩ := g2
              exact hx
      rw [g7, e7, e6]
      simp only [e5, e4, e3, e2]
    rw [hc, e1]
    simp only
    cases rest with
    | nil => simp at hh
    | cons x more => simp only [List.head?_cons, Option.some.injEq] at hh; exact ⟨more, by rw [hh]⟩
  obtain ⟨more, hm⟩ := hn
  refine ⟨opts, more, by rw [e, hm], ho, ?_⟩
  apply hr
  rw [hm]; rfl

example : (processUrl (fun _ => none) vod8 ["tsbd_60".toList, "x".toList, "tsbd_70".toList] 1100).toOption.map
    (fun c => (c.contentName, c.tsbd)) = some ("x".toList, some 60) := by decide +kernel

end Verif
