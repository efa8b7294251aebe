import Verif.Lemmas.Links
import Verif.Props.MpdRefine
import Verif.Spec.Links
/-
C65: the BaseURL and Location elements of the manifest.
-/
namespace Verif
open Spec

/-- The Location elements of the manifest. -/
theorem MpdParts.locations {c : Cfg} {e : MpdEnv} {now : Int} {vod out : Xml} {infos rest : List Xml}
    {base : Option Xml} {period : Xml} (hs : VodShape vod.kids infos base period rest)
    (hr : ∀ x ∈ rest, x.tag ≠ "Location".toList)
    (m : MpdParts c e now vod infos base period rest out) : named "Location" out = m.ls := by
  refine (congrArg (named "Location") m.hout).trans ?_
  rw [named_append, named_append, named_append, named_append, named_append, named_append,
    named_nil _ (fun y hy => by rw [hs.infos y hy]; decide +kernel),
    named_nil _ (fun y hy => by rw [newBases_tag hs.base m.hbs y hy]; decide +kernel),
    named_all _ (fun y hy => newLocs_tag m.hls y hy),
    named_nil _ (fun y hy => by rw [newServices_tag _ y hy]; decide +kernel),
    named_nil _ (fun y hy => by rw [m.hps.tags y hy, hs.period]; decide +kernel),
    named_nil _ (fun y hy => by rw [utc_tags m.hus y hy]; decide +kernel),
    named_nil _ hr]
  simp

/-! ### The options of a URL do not depend on what follows them -/

theorem parseOpts_prefix (pf : Text → Option Rat) (now : Int) {name : Text} (hn : partSlot name = none) :
    ∀ {opts : List Text}, (∀ p ∈ opts, (partSlot p).isSome) → ∀ (s : UrlState),
    (∃ s', ∀ more, parseOpts pf now (opts ++ name :: more) s = .ok (s', name :: more)) ∨
    (∃ e, ∀ more, parseOpts pf now (opts ++ name :: more) s = .error e) := by
  intro opts
  induction opts with
  | nil =>
    intro _ s
    left
    have hk : optKey (splitFirst name).1 = none := by simpa [partSlot] using hn
    exact ⟨s, fun more => by rw [List.nil_append, parseOpts]; simp only [hk]⟩
  | cons p ps ih =>
    intro h s
    rcases parseOpts_cons pf now (h p (List.mem_cons_self ..)) with ⟨e, he⟩ | ⟨e, -, he⟩
    · right; exact ⟨e, fun more => by rw [List.cons_append, he]⟩
    · rcases ih (fun q hq => h q (List.mem_cons_of_mem _ hq)) (e.run s) with ⟨s', h'⟩ | ⟨e', h'⟩
      · left; exact ⟨s', fun more => by rw [List.cons_append, he, h']⟩
      · right; exact ⟨e', fun more => by rw [List.cons_append, he, h']⟩

/-- Another path, file and representations. -/
def withFile (rel file ext : Text) (reps : List Rep) (c : Cfg) : Cfg :=
  { c with relPath := rel, filename := file, ext := ext, reps := reps }

theorem session_withFile (rel file ext : Text) (reps : List Rep) (c : Cfg) :
    session (withFile rel file ext reps c) = session c := rfl

theorem bind_map_comm {f : Cfg → Cfg} {a b : Cfg → Py Cfg} {x : Py Cfg} (hab : ∀ c, b (f c) = (a c).map f) :
    (x.map f).bind b = (x.bind a).map f := by
  cases x with
  | error e => rfl
  | ok c => exact hab c

theorem processStartTime_file (rel file ext : Text) (reps : List Rep) (c : Cfg) (st : Int) (ds : List Int)
    (now : Int) (stop : Option Int) :
    (withFile rel file ext reps c).processStartTime st ds now stop =
      (c.processStartTime st ds now stop).map (withFile rel file ext reps) := by
  unfold Cfg.processStartTime
  have e1 : (withFile rel file ext reps c).segDur = c.segDur := rfl
  have e2 : (withFile rel file ext reps c).mup = c.mup := rfl
  rw [e1, e2]
  simp only [bind, Except.bind, pure, Except.pure]
  cases quantize st c.segDur with
  | error e => rfl
  | ok a =>
    dsimp only
    cases durEnds st c.segDur 0 ds with
    | error e => rfl
    | ok ends =>
      dsimp only
      cases hl : ends.getLast? with
      | none =>
        cases stop with
        | none => rfl
        | some s =>
          dsimp only
          cases quantize (pyTrunc ((s : Rat) + 999 / 1000 * c.segDur)) c.segDur <;> rfl
      | some e =>
        dsimp only
        cases pyDiv (e.1 - a) c.segDur with
        | error e => rfl
        | ok q =>
          dsimp only
          unfold Cfg.updateWithAet
          rw [hl]
          cases stop with
          | none => rfl
          | some s =>
            dsimp only
            cases quantize (pyTrunc ((s : Rat) + 999 / 1000 * c.segDur)) c.segDur <;> rfl

theorem updateWithModulo_file (rel file ext : Text) (reps : List Rep) (c : Cfg) (m : Modulo) :
    (withFile rel file ext reps c).updateWithModulo m = (c.updateWithModulo m).map (withFile rel file ext reps) := by
  unfold Cfg.updateWithModulo
  have e1 : (withFile rel file ext reps c).segDur = c.segDur := rfl
  rw [e1]
  simp only [bind, Except.bind, pure, Except.pure]
  cases m.lastSegmentNumber c.segDur <;> rfl

theorem updateForCont_file (rel file ext : Text) (reps : List Rep) (c : Cfg) (now : Int) :
    (withFile rel file ext reps c).updateForCont now = (c.updateForCont now).map (withFile rel file ext reps) := by
  unfold Cfg.updateForCont
  have e1 : (withFile rel file ext reps c).segDur = c.segDur := rfl
  rw [e1]
  simp only [bind, Except.bind, pure, Except.pure]
  cases quantize (now - c.segDur) c.segDur <;> rfl

theorem updateForTfdt32_file (rel file ext : Text) (reps : List Rep) (c : Cfg) (now : Int) :
    (withFile rel file ext reps c).updateForTfdt32 now =
      (c.updateForTfdt32 now).map (withFile rel file ext reps) := by
  unfold Cfg.updateForTfdt32
  simp only [bind, Except.bind, pure, Except.pure]
  cases quantize now 10800 <;> rfl

theorem updatePublishTime_file (rel file ext : Text) (reps : List Rep) (c : Cfg) (now : Int) :
    (withFile rel file ext reps c).updatePublishTime now =
      (c.updatePublishTime now).map (withFile rel file ext reps) := by
  unfold Cfg.updatePublishTime
  have e1 : (withFile rel file ext reps c).ast = c.ast := rfl
  have e2 : (withFile rel file ext reps c).mup = c.mup := rfl
  rw [e1, e2]
  by_cases h : c.ast ≠ 0
  · rw [if_pos h, if_pos h]
    cases c.mup with
    | none => rfl
    | some m =>
      dsimp only
      by_cases h0 : m = 0
      · rw [if_pos h0, if_pos h0]; rfl
      · rw [if_neg h0, if_neg h0]; rfl
  · rw [if_neg h, if_neg h]; rfl

/-- `finish_url` after the names of content and files. -/
def finishRest (now : Int) (s : UrlState) (c : Cfg) : Py Cfg :=
  Except.bind (match s.start with
    | none => pure c
    | some st => if s.modulo.isSome then .error .configError else c.processStartTime st s.durations now s.stop)
  fun c => Except.bind (if c.tfdt32 then
      if s.cont then .error .configError else c.updateForTfdt32 now
    else pure c)
  fun c => Except.bind (if s.cont then c.updateForCont now else pure c)
  fun c => Except.bind (match s.modulo with
    | none => pure c
    | some m => c.updateWithModulo m)
  fun c => Except.bind (c.updatePublishTime now)
  fun c => .ok (finalStep s c)

theorem finishUrl_rest (vodOf : Text → Py VodCfg) (now : Int) (s : UrlState) (rest : List Text) :
    finishUrl vodOf now s rest = (s.cfg.updateFiles vodOf rest).bind (finishRest now s) := rfl

theorem finishRest_file (rel file ext : Text) (reps : List Rep) (now : Int) (s : UrlState) (c : Cfg) :
    finishRest now s (withFile rel file ext reps c) = (finishRest now s c).map (withFile rel file ext reps) := by
  unfold finishRest
  have h1 : (match s.start with
      | none => pure (withFile rel file ext reps c)
      | some st => if s.modulo.isSome then (.error .configError : Py Cfg)
        else (withFile rel file ext reps c).processStartTime st s.durations now s.stop) =
      (match s.start with
      | none => (pure c : Py Cfg)
      | some st => if s.modulo.isSome then .error .configError
        else c.processStartTime st s.durations now s.stop).map (withFile rel file ext reps) := by
    cases s.start with
    | none => rfl
    | some st =>
      dsimp only
      cases s.modulo.isSome with
      | true => rfl
      | false => simpa using processStartTime_file rel file ext reps c st s.durations now s.stop
  rw [h1]
  refine bind_map_comm fun c => ?_
  have h2 : (if (withFile rel file ext reps c).tfdt32 then
        if s.cont then (.error .configError : Py Cfg) else (withFile rel file ext reps c).updateForTfdt32 now
      else pure (withFile rel file ext reps c)) =
      (if c.tfdt32 then if s.cont then (.error .configError : Py Cfg) else c.updateForTfdt32 now
        else pure c).map (withFile rel file ext reps) := by
    show (if c.tfdt32 then _ else _) = _
    cases c.tfdt32 with
    | false => rfl
    | true =>
      cases s.cont with
      | true => rfl
      | false => simpa using updateForTfdt32_file rel file ext reps c now
  rw [h2]
  refine bind_map_comm fun c => ?_
  have h3 : (if s.cont then (withFile rel file ext reps c).updateForCont now
      else pure (withFile rel file ext reps c)) =
      (if s.cont then c.updateForCont now else pure c).map (withFile rel file ext reps) := by
    cases s.cont with
    | false => rfl
    | true => simpa using updateForCont_file rel file ext reps c now
  rw [h3]
  refine bind_map_comm fun c => ?_
  have h4 : (match s.modulo with
      | none => pure (withFile rel file ext reps c)
      | some m => (withFile rel file ext reps c).updateWithModulo m) =
      (match s.modulo with
      | none => (pure c : Py Cfg)
      | some m => c.updateWithModulo m).map (withFile rel file ext reps) := by
    cases s.modulo with
    | none => rfl
    | some m => exact updateWithModulo_file rel file ext reps c m
  rw [h4]
  refine bind_map_comm fun c => ?_
  rw [updatePublishTime_file]
  refine bind_map_comm fun c => ?_
  unfold finalStep
  cases s.addLocation <;> cases s.timeoffset <;> rfl

theorem updateFiles_more {c c1 : Cfg} {vodOf : Text → Py VodCfg} {name : Text} {more : List Text} {v : VodCfg}
    (hv : vodOf name = .ok v) (h : c.updateFiles vodOf (name :: more) = .ok c1) (dirs : List Text)
    (rep file : Text) {reps : List Rep} (hr : (splitDivider rep).mapM v.repInfo = .ok reps) :
    c.updateFiles vodOf (name :: (dirs ++ [rep, file])) =
      .ok (withFile (joinSlash (dirs ++ [rep])) file (splitext file).2 reps c1) := by
  have e1 : (dirs ++ [rep, file]).dropLast = dirs ++ [rep] := by
    rw [show dirs ++ [rep, file] = (dirs ++ [rep]) ++ [file] by simp, List.dropLast_concat]
  have e2 : (dirs ++ [rep]).getLastD [] = rep := by simp
  have e3 : (name :: (dirs ++ [rep, file])).getLast (by simp) = file := by simp
  unfold Cfg.updateFiles at h ⊢
  dsimp only at h ⊢
  rw [hv] at h ⊢
  simp only [bind, Except.bind, pure, Except.pure] at h ⊢
  rw [if_pos (by simp), e1, e2, hr, e3]
  dsimp only
  split at h
  · cases h
  · cases h
    rfl

/-- Another file of the same content has the same session. -/
theorem processUrl_more {pf : Text → Option Rat} {vodOf : Text → Py VodCfg} {now : Int} {opts more : List Text}
    {name : Text} {c : Cfg} {v : VodCfg} (ho : ∀ p ∈ opts, (partSlot p).isSome) (hn : partSlot name = none)
    (h : processUrl pf vodOf (opts ++ name :: more) now = .ok c) (hv : vodOf name = .ok v) (dirs : List Text)
    (rep file : Text) {reps : List Rep} (hr : (splitDivider rep).mapM v.repInfo = .ok reps) :
    processUrl pf vodOf (opts ++ name :: (dirs ++ [rep, file])) now =
      .ok (withFile (joinSlash (dirs ++ [rep])) file (splitext file).2 reps c) := by
  unfold processUrl at h ⊢
  rcases parseOpts_prefix pf now hn ho {} with ⟨s', hp⟩ | ⟨e, hp⟩
  · rw [hp] at h ⊢
    simp only [bind, Except.bind] at h ⊢
    rw [finishUrl_rest] at h ⊢
    cases hf : s'.cfg.updateFiles vodOf (name :: more) with
    | error e => rw [hf] at h; cases h
    | ok c1 =>
      rw [hf] at h
      rw [updateFiles_more hv hf dirs rep file hr]
      simp only [Except.bind] at h ⊢
      rw [finishRest_file, h]
      rfl
  · rw [hp] at h
    cases h

/-- Another file beside the manifest has the same session. -/
theorem processUrl_beside {pf : Text → Option Rat} {vodOf : Text → Py VodCfg} {now : Int} {opts : List Text}
    {name file : Text} {c : Cfg} (ho : ∀ p ∈ opts, (partSlot p).isSome) (hn : partSlot name = none)
    (h : processUrl pf vodOf (opts ++ [name, file]) now = .ok c) (file' : Text) :
    processUrl pf vodOf (opts ++ [name, file']) now = .ok (withFile [] file' (splitext file').2 [] c) ∧
      c.filename = file ∧ c.ext = (splitext file).2 := by
  unfold processUrl at h ⊢
  rcases parseOpts_prefix pf now hn ho {} with ⟨s', hp⟩ | ⟨e, hp⟩
  · rw [hp] at h ⊢
    simp only [bind, Except.bind] at h ⊢
    rw [finishUrl_rest] at h ⊢
    cases hf : s'.cfg.updateFiles vodOf [name, file] with
    | error e => rw [hf] at h; cases h
    | ok c1 =>
      have h2 : ∀ f, s'.cfg.updateFiles vodOf [name, f] = .ok (withFile [] f (splitext f).2 [] c1) := by
        intro f
        unfold Cfg.updateFiles at hf ⊢
        dsimp only at hf ⊢
        cases hv : vodOf name with
        | error e => rw [hv] at hf; cases hf
        | ok v =>
          rw [hv] at hf
          simp only [bind, Except.bind, pure, Except.pure] at hf ⊢
          rw [if_neg (by simp)] at hf ⊢
          cases hf
          rfl
      rw [h2 file']
      rw [h2 file] at h
      simp only [Except.bind] at h ⊢
      rw [finishRest_file] at h ⊢
      cases hr : finishRest now s' c1 with
      | error e => rw [hr] at h; cases h
      | ok c2 =>
        rw [hr] at h
        cases h
        exact ⟨rfl, rfl, rfl⟩
  · rw [hp] at h
    cases h

/-- The one BaseURL. -/
theorem base_text {c : Cfg} {e : MpdEnv} {now : Int}
    {vod out : Xml} {infos rest : List Xml} {base : Option Xml} {period : Xml}
    (hs : VodShape vod.kids infos base period rest) (hrb : ∀ x ∈ rest, x.tag ≠ "BaseURL".toList)
    (hd : 0 ≤ c.segDur) (hb : ∀ t ∈ c.tsbd, 0 ≤ t) {opts more : List Text} {name s : Text}
    (hparts : e.parts = opts ++ name :: more) (hpos : e.pos = opts.length) (hstart : e.start = s ++ "/".toList)
    (hl : c.addLocation = false) (hm : c.multiUrl = []) (h : generateXml c e now vod = .ok out) :
    ∃ b, named "BaseURL" out = [b] ∧ b.text = s ++ '/' :: joinSlash (opts ++ [name]) ++ "/".toList := by
  obtain ⟨m⟩ := generateXml_parts hs hd hb h
  rw [m.bases hs hrb]
  have hbs := m.hbs
  unfold newBases at hbs
  have e1 : (procCfgOf c e m.tsbd now).addLocation = false := hl
  have e2 : (mpdDataOf c e m.tsbd now).urls = [] := hm
  have e3 : (mpdDataOf c e m.tsbd now).baseUrl = s ++ '/' :: joinSlash (opts ++ [name]) ++ "/".toList := by
    show e.start ++ joinSlash (e.parts.take (e.pos + 1)) ++ "/".toList = _
    rw [hstart, hparts, hpos, List.take_append, List.take_of_length_le (by omega),
      show opts.length + 1 - opts.length = 1 by omega]
    simp
  rw [e1] at hbs
  rw [e2, e3] at hbs
  simp only [Bool.false_eq_true, if_false, ne_eq, not_true_eq_false] at hbs
  cases base with
  | none =>
    cases hbs' : m.bs with
    | nil => rw [hbs'] at hbs; cases hbs
    | cons b bs =>
      rw [hbs'] at hbs
      simp only [Except.ok.injEq, List.cons.injEq] at hbs
      obtain ⟨rfl, rfl⟩ := hbs
      exact ⟨_, rfl, rfl⟩
  | some x =>
    cases hbs' : m.bs with
    | nil => rw [hbs'] at hbs; cases hbs
    | cons b bs =>
      rw [hbs'] at hbs
      simp only [Except.ok.injEq, List.cons.injEq] at hbs
      obtain ⟨rfl, rfl⟩ := hbs
      refine ⟨_, rfl, ?_⟩
      cases x; rfl

theorem leadsTo_path {s name : Text} {opts path : List Text} (hp : path ≠ []) (hslash : ∀ p ∈ opts ++ [name], '/' ∉ p)
    (hsl : ∀ p ∈ path, '/' ∉ p) :
    LeadsTo s (s ++ '/' :: joinSlash (opts ++ [name]) ++ "/".toList ++ joinSlash path) (opts ++ name :: path) := by
  unfold LeadsTo
  have : s ++ '/' :: joinSlash (opts ++ [name]) ++ "/".toList ++ joinSlash path =
      s ++ '/' :: joinSlash ((opts ++ [name]) ++ path) := by
    rw [joinSlash_append (a := opts ++ [name]) (b := path) (by simp) hp]; simp
  rw [this, splitChar_join s (by simp)]
  · simp
  · intro p hp
    rcases List.mem_append.1 hp with hp | hp
    · exact hslash p hp
    · exact hsl p hp

/-- **C65.** A service without relative times has a BaseURL and no Location.  If it is asked for one
BaseURL only, every path to a file of a known representation that is appended to it leads back to
the server, with the URL parts of the request for the manifest up to the content name; and the
request for that file has the configuration of the request for the manifest, but for the file.
Missing: several BaseURLs (`C65_multi_violation`). -/
theorem C65_base_partial {pf : Text → Option Rat} {vodOf : Text → Py VodCfg} {c : Cfg} {e : MpdEnv} {now : Int}
    {vod out : Xml} {infos rest : List Xml} {base : Option Xml} {period : Xml}
    (hs : VodShape vod.kids infos base period rest)
    (hrl : ∀ x ∈ rest, x.tag ≠ "Location".toList) (hrb : ∀ x ∈ rest, x.tag ≠ "BaseURL".toList)
    (hd : 0 ≤ c.segDur) (hb : ∀ t ∈ c.tsbd, 0 ≤ t) {opts more : List Text} {name s : Text}
    (ho : ∀ p ∈ opts, (partSlot p).isSome) (hn : partSlot name = none)
    (hslash : ∀ p ∈ opts ++ [name], '/' ∉ p) (hparts : e.parts = opts ++ name :: more)
    (hpos : e.pos = opts.length) (hstart : e.start = s ++ "/".toList)
    (hu : processUrl pf vodOf (opts ++ name :: more) now = .ok c) (hl : c.addLocation = false)
    (hm : c.multiUrl = []) (h : generateXml c e now vod = .ok out) :
    named "Location" out = [] ∧ ∃ b, named "BaseURL" out = [b] ∧
      ∀ (dirs : List Text) (rep file : Text) (v : VodCfg) (reps : List Rep),
        (∀ p ∈ dirs ++ [rep, file], '/' ∉ p) → vodOf name = .ok v →
        (splitDivider rep).mapM v.repInfo = .ok reps →
        LeadsTo s (b.text ++ joinSlash (dirs ++ [rep, file])) (opts ++ name :: (dirs ++ [rep, file])) ∧
        ∃ c', processUrl pf vodOf (opts ++ name :: (dirs ++ [rep, file])) now = .ok c' ∧
          session c' = session c ∧ c'.filename = file ∧ c'.reps = reps := by
  obtain ⟨b, hb1, hb2⟩ := base_text hs hrb hd hb hparts hpos hstart hl hm h
  obtain ⟨m⟩ := generateXml_parts hs hd hb h
  have hls := m.hls
  unfold newLocs at hls
  have e1 : (procCfgOf c e m.tsbd now).addLocation = false := hl
  rw [e1] at hls
  simp only [Bool.false_eq_true, if_false] at hls
  have hl1 : m.ls = [] := by
    cases hls' : m.ls with
    | nil => rfl
    | cons y ys => rw [hls'] at hls; cases hls
  refine ⟨(m.locations hs hrl).trans hl1, b, hb1, ?_⟩
  intro dirs rep file v reps hsl hv hr
  refine ⟨?_, _, processUrl_more ho hn hu hv dirs rep file hr, session_withFile .., rfl, rfl⟩
  rw [hb2]
  exact leadsTo_path (by simp) hslash hsl

/-! ### Location -/

/-- One part of the URL in the Location element. -/
def locPart (a b : Int) (p : Text) : Text :=
  relPart "stoprel_".toList ("stop_".toList ++ intText b)
    (relPart "startrel_".toList ("start_".toList ++ intText a) p)

/-- The states of the option loop for the request and for the request at its Location. -/
structure LocState (a b : Int) (s t : UrlState) : Prop where
  cfg : t.cfg = s.cfg
  sdur : s.durations = []
  tdur : t.durations = []
  timeoffset : t.timeoffset = s.timeoffset
  scont : s.cont = false
  tcont : t.cont = false
  smod : s.modulo = none
  tmod : t.modulo = none
  loc : t.addLocation = false
  tfdt : s.cfg.tfdt32 = false
  begin_ : s.cfg.startTime = none
  end_ : s.cfg.stopTime = none
  flag : s.cfg.addLocation = false
  start : t.start = s.start ∨ (s.start.isSome ∧ t.start = some a)
  stop : t.stop = s.stop ∨ (s.stop.isSome ∧ t.stop = some b)

theorem applyOpt_loc {pf : Text → Option Rat} {now now' : Int} {a b : Int} {s t s1 : UrlState} {key : OptKey}
    {v : Text} (hk : key ∉ [.startrel, .stoprel, .dur, .tfdt, .cont, .modulo]) (hl : LocState a b s t)
    (h : applyOpt pf now key v s = .ok s1) :
    ∃ t1, applyOpt pf now' key v t = .ok t1 ∧ LocState a b s1 t1 := by
  obtain ⟨h1, h2, h3, h4, h5, h6, h7, h8, h9, h10, h11, h12, h13, h14, h15⟩ := hl
  have hc := h1
  have pint : ∀ {f g : Int → UrlState}, (do let v ← pyInt v; return f v) = Except.ok s1 →
      (∀ x, LocState a b (f x) (g x)) →
      ∃ t1, (do let v ← pyInt v; return g v) = Except.ok t1 ∧ LocState a b s1 t1 := by
    intro f g h hfg
    cases hp : pyInt v with
    | error e => rw [hp] at h; cases h
    | ok n => rw [hp] at h; cases h; exact ⟨g n, rfl, hfg n⟩
  have pif : ∀ {f g : UrlState} {n : Int}, LocState a b f g →
      LocState a b (if n = 1 then f else s) (if n = 1 then g else t) := by
    intro f g n hfg
    split
    · exact hfg
    · exact ⟨h1, h2, h3, h4, h5, h6, h7, h8, h9, h10, h11, h12, h13, h14, h15⟩
  have st : LocState a b s t := ⟨h1, h2, h3, h4, h5, h6, h7, h8, h9, h10, h11, h12, h13, h14, h15⟩
  have wc : ∀ f : Cfg → Cfg, (f s.cfg).tfdt32 = s.cfg.tfdt32 → (f s.cfg).startTime = s.cfg.startTime →
      (f s.cfg).stopTime = s.cfg.stopTime → (f s.cfg).addLocation = s.cfg.addLocation →
      LocState a b { s with cfg := f s.cfg } { t with cfg := f t.cfg } := by
    intro f f1 f2 f3 f4
    exact ⟨congrArg f h1, h2, h3, h4, h5, h6, h7, h8, h9, f1.trans h10, f2.trans h11, f3.trans h12,
      f4.trans h13, h14, h15⟩
  cases key with
  | sts => cases h; exact ⟨t, rfl, st⟩
  | sid => cases h; exact ⟨t, rfl, st⟩
  | start => exact pint h fun x => ⟨h1, h2, h3, h4, h5, h6, h7, h8, h9, h10, h11, h12, h13, Or.inl rfl, h15⟩
  | ast => exact pint h fun x => ⟨h1, h2, h3, h4, h5, h6, h7, h8, h9, h10, h11, h12, h13, Or.inl rfl, h15⟩
  | stop => exact pint h fun x => ⟨h1, h2, h3, h4, h5, h6, h7, h8, h9, h10, h11, h12, h13, h14, Or.inl rfl⟩
  | startrel => exact absurd hk (by decide)
  | stoprel => exact absurd hk (by decide)
  | dur => exact absurd hk (by decide)
  | tfdt => exact absurd hk (by decide)
  | cont => exact absurd hk (by decide)
  | modulo => exact absurd hk (by decide)
  | timeoffset => exact pint h fun x => ⟨h1, h2, h3, rfl, h5, h6, h7, h8, h9, h10, h11, h12, h13, h14, h15⟩
  | init => exact pint h fun x => wc (fun c => { c with initOff := x }) rfl rfl rfl rfl
  | tsbd => exact pint h fun x => wc (fun c => { c with tsbd := some x }) rfl rfl rfl rfl
  | mup => exact pint h fun x => wc (fun c => { c with mup := some (x : Rat) }) rfl rfl rfl rfl
  | periods => exact pint h fun x => wc (fun c => { c with periods := x }) rfl rfl rfl rfl
  | xlink => exact pint h fun x => wc (fun c => { c with xlink := x }) rfl rfl rfl rfl
  | etp => exact pint h fun x => wc (fun c => { c with etp := x }) rfl rfl rfl rfl
  | etpDuration => exact pint h fun x => wc (fun c => { c with etpDuration := x }) rfl rfl rfl rfl
  | insertad => exact pint h fun x => wc (fun c => { c with insertAd := x }) rfl rfl rfl rfl
  | mpdcallback => exact pint h fun x => wc (fun c => { c with mpdCallback := x }) rfl rfl rfl rfl
  | continuous => exact pint h fun x => pif (wc (fun c => { c with contMultiperiod := true }) rfl rfl rfl rfl)
  | segtimeline => exact pint h fun x => pif (wc (fun c => { c with segTimeline := true }) rfl rfl rfl rfl)
  | segtimelinenr => exact pint h fun x => pif (wc (fun c => { c with segTimelineNr := true }) rfl rfl rfl rfl)
  | baseurl => cases h; exact ⟨_, rfl, wc (fun c => { c with multiUrl := c.multiUrl ++ [v] }) rfl rfl rfl rfl⟩
  | peroff => exact pint h fun x => wc (fun c => { c with periodOffset := x }) rfl rfl rfl rfl
  | scte35 => exact pint h fun x => wc (fun c => { c with scte35 := x }) rfl rfl rfl rfl
  | utc => cases h; exact ⟨_, rfl, wc (fun c => { c with utc := splitChar '-' v }) rfl rfl rfl rfl⟩
  | snr =>
    unfold applyOpt at h ⊢
    dsimp only at h ⊢
    cases hp : interpretStartNr v with
    | error e => rw [hp] at h; cases h
    | ok n => rw [hp] at h; cases h; exact ⟨_, rfl, wc (fun c => { c with startNr := n }) rfl rfl rfl rfl⟩
  | ato =>
    unfold applyOpt at h ⊢
    dsimp only at h ⊢
    by_cases hi : v = "inf".toList
    · rw [if_pos hi] at h ⊢; cases h; exact ⟨_, rfl, wc (fun c => { c with ato := -1 }) rfl rfl rfl rfl⟩
    · rw [if_neg hi] at h ⊢
      cases hp : pf v with
      | none => rw [hp] at h; cases h; exact ⟨_, rfl, wc (fun c => { c with ato := 0 }) rfl rfl rfl rfl⟩
      | some f => rw [hp] at h; cases h; exact ⟨_, rfl, wc (fun c => { c with ato := max f 0 }) rfl rfl rfl rfl⟩
  | spd => exact pint h fun x => wc (fun c => { c with spd := some x }) rfl rfl rfl rfl
  | sidx => exact pint h fun x => pif (wc (fun c => { c with insertSidx := true }) rfl rfl rfl rfl)
  | segtimelineloss => exact pint h fun x => pif (wc (fun c => { c with segtimelineloss := true }) rfl rfl rfl rfl)
  | chunkdur =>
    unfold applyOpt at h ⊢
    dsimp only at h ⊢
    cases hp : pf v with
    | none => rw [hp] at h; cases h; exact ⟨_, rfl, st⟩
    | some f =>
      rw [hp] at h
      dsimp only at h ⊢
      by_cases hf : 0 < f
      · rw [if_pos hf] at h ⊢; cases h
        exact ⟨_, rfl, wc (fun c => { c with chunkDur := some f, atoComplete := false }) rfl rfl rfl rfl⟩
      · rw [if_neg hf] at h ⊢; cases h; exact ⟨_, rfl, st⟩

theorem splitFirst_app {k : Text} (hk : '_' ∉ k) (v : Text) : splitFirst (k ++ '_' :: v) = (k, some v) := by
  induction k with
  | nil => simp [splitFirst]
  | cons c k ih =>
    rw [List.mem_cons, not_or] at hk
    rw [List.cons_append, splitFirst, if_neg (Ne.symm hk.1), ih hk.2]

theorem splitFirst_eq {p k v : Text} (h : splitFirst p = (k, some v)) : p = k ++ '_' :: v := by
  induction p generalizing k with
  | nil => simp [splitFirst] at h
  | cons c p ih =>
    rw [splitFirst] at h
    by_cases hc : c = '_'
    · rw [if_pos hc] at h; cases h; rw [hc]; rfl
    · rw [if_neg hc] at h
      cases hp : splitFirst p with
      | mk k' v' =>
        rw [hp] at h
        simp only [Prod.mk.injEq] at h
        obtain ⟨rfl, rfl⟩ := h
        rw [ih hp]; rfl

theorem not_rel {p : Text} {key : OptKey} (hk : optKey (splitFirst p).1 = some key)
    (hn : key ∉ [.startrel, .stoprel]) : ¬"startrel_".toList <+: p ∧ ¬"stoprel_".toList <+: p := by
  constructor
  · rintro ⟨v, rfl⟩
    have e : splitFirst ("startrel_".toList ++ v) = ("startrel".toList, some v) :=
      splitFirst_app (k := "startrel".toList) (by decide +kernel) v
    rw [e] at hk
    have : optKey "startrel".toList = some .startrel := by decide +kernel
    rw [this] at hk
    cases hk
    exact hn (by decide)
  · rintro ⟨v, rfl⟩
    have e : splitFirst ("stoprel_".toList ++ v) = ("stoprel".toList, some v) :=
      splitFirst_app (k := "stoprel".toList) (by decide +kernel) v
    rw [e] at hk
    have : optKey "stoprel".toList = some .stoprel := by decide +kernel
    rw [this] at hk
    cases hk
    exact hn (by decide)

theorem not_rel_name {p : Text} (hk : partSlot p = none) :
    ¬"startrel_".toList <+: p ∧ ¬"stoprel_".toList <+: p := by
  have hk : optKey (splitFirst p).1 = none := by simpa [partSlot] using hk
  constructor
  · rintro ⟨v, rfl⟩
    have e : splitFirst ("startrel_".toList ++ v) = ("startrel".toList, some v) :=
      splitFirst_app (k := "startrel".toList) (by decide +kernel) v
    rw [e] at hk
    clear e
    dsimp only at hk
    revert hk
    decide +kernel
  · rintro ⟨v, rfl⟩
    have e : splitFirst ("stoprel_".toList ++ v) = ("stoprel".toList, some v) :=
      splitFirst_app (k := "stoprel".toList) (by decide +kernel) v
    rw [e] at hk
    clear e
    dsimp only at hk
    revert hk
    decide +kernel

theorem locPart_other (a b : Int) {p : Text} (h : ¬"startrel_".toList <+: p ∧ ¬"stoprel_".toList <+: p) :
    locPart a b p = p := by
  unfold locPart
  rw [relPart_other h.1, relPart_other h.2]

theorem relPart_all {k new v : Text} (hv : v ≠ [] ∧ ∀ x ∈ v, x ∈ "-0123456789".toList) :
    relPart k new (k ++ v) = new := by
  have hd : ∀ x ∈ "-0123456789".toList, relChar x = true := by decide +kernel
  unfold relPart
  rw [if_pos (List.isPrefixOf_iff_prefix.2 (List.prefix_append ..)), List.drop_left]
  cases v with
  | nil => exact absurd rfl hv.1
  | cons x r =>
    dsimp only
    rw [if_pos (hd x (hv.2 x (List.mem_cons_self ..)))]
    have : ∀ r : Text, (∀ y ∈ r, relChar y = true) → r.dropWhile relChar = [] := by
      intro r
      induction r with
      | nil => intro _; rfl
      | cons y ys ih =>
        intro h
        rw [List.dropWhile_cons, if_pos (h y (List.mem_cons_self ..)), ih (fun z hz => h z (List.mem_cons_of_mem _ hz))]
    have := this r (fun y hy => hd y (hv.2 y (List.mem_cons_of_mem _ hy)))
    rw [this, List.append_nil]

theorem locPart_start (a b : Int) {v : Text} (hv : v ≠ [] ∧ ∀ x ∈ v, x ∈ "-0123456789".toList) :
    locPart a b ("startrel_".toList ++ v) = "start".toList ++ '_' :: intText a := by
  unfold locPart
  rw [relPart_all hv, relPart_other]
  · rfl
  · intro h
    have := List.isPrefixOf_iff_prefix.2 h
    rw [show "start_".toList = 's' :: 't' :: 'a' :: "rt_".toList by decide +kernel,
      show "stoprel_".toList = 's' :: 't' :: 'o' :: "prel_".toList by decide +kernel] at this
    simp [List.isPrefixOf] at this

theorem locPart_stop (a b : Int) {v : Text} (hv : v ≠ [] ∧ ∀ x ∈ v, x ∈ "-0123456789".toList) :
    locPart a b ("stoprel_".toList ++ v) = "stop".toList ++ '_' :: intText b := by
  unfold locPart
  rw [relPart_other (p := "stoprel_".toList ++ v), relPart_all hv]
  · rfl
  · intro h
    have := List.isPrefixOf_iff_prefix.2 h
    rw [show "startrel_".toList = 's' :: 't' :: 'a' :: "rtrel_".toList by decide +kernel,
      show "stoprel_".toList = 's' :: 't' :: 'o' :: "prel_".toList by decide +kernel] at this
    simp [List.isPrefixOf] at this

theorem optKey_text {t : Text} {key : OptKey} (h : optKey t = some key) : ∃ k, (k, key) ∈ optKeys ∧ t = k.toList := by
  unfold optKey at h
  cases hf : optKeys.find? (fun p => p.1.toList = t) with
  | none => rw [hf] at h; cases h
  | some q =>
    rw [hf] at h
    cases h
    exact ⟨q.1, List.mem_of_find?_eq_some hf, by have := List.find?_some hf; simp at this; exact this.symm⟩

theorem optKey_startrel {t : Text} (h : optKey t = some .startrel) : t = "startrel".toList := by
  obtain ⟨k, hk, rfl⟩ := optKey_text h
  have : ∀ q ∈ optKeys, q.2 = .startrel → q.1 = "startrel" := by decide +kernel
  exact congrArg String.toList (this _ hk rfl)

theorem optKey_stoprel {t : Text} (h : optKey t = some .stoprel) : t = "stoprel".toList := by
  obtain ⟨k, hk, rfl⟩ := optKey_text h
  have : ∀ q ∈ optKeys, q.2 = .stoprel → q.1 = "stoprel" := by decide +kernel
  exact congrArg String.toList (this _ hk rfl)

/-- The option loop on the URL of the Location element. -/
theorem parseOpts_loc {pf : Text → Option Rat} {now now' : Int} {a b : Int} {name : Text} {more : List Text}
    (hn : partSlot name = none) : ∀ {opts : List Text}, (∀ p ∈ opts, (partSlot p).isSome) →
    (∀ p ∈ opts, PlainRelative p) →
    (∀ p ∈ opts, ∀ key ∈ optKey (splitFirst p).1, key ∉ [.dur, .tfdt, .cont, .modulo]) →
    ∀ {s t s' : UrlState} {r : List Text}, LocState a b s t →
    parseOpts pf now (opts ++ name :: more) s = .ok (s', r) →
    r = name :: more ∧ ∃ t', parseOpts pf now' (opts.map (locPart a b) ++ name :: more) t = .ok (t', name :: more) ∧
      LocState a b s' t' := by
  intro opts
  induction opts with
  | nil =>
    intro _ _ _ s t s' r hl h
    have hk : optKey (splitFirst name).1 = none := by simpa [partSlot] using hn
    rw [List.nil_append, parseOpts] at h
    simp only [hk, Except.ok.injEq, Prod.mk.injEq] at h
    obtain ⟨rfl, rfl⟩ := h
    exact ⟨rfl, t, by rw [List.map_nil, List.nil_append, parseOpts]; simp only [hk], hl⟩
  | cons p ps ih =>
    intro ho hp hx s t s' r hl h
    have ih' := @ih (fun q hq => ho q (List.mem_cons_of_mem _ hq)) (fun q hq => hp q (List.mem_cons_of_mem _ hq))
      (fun q hq => hx q (List.mem_cons_of_mem _ hq))
    have ho1 := ho p (List.mem_cons_self ..)
    have hp1 := hp p (List.mem_cons_self ..)
    have hx1 := hx p (List.mem_cons_self ..)
    cases hk : optKey (splitFirst p).1 with
    | none => simp [partSlot, hk] at ho1
    | some key =>
      have hx1 := hx1 key hk
      rw [List.cons_append, parseOpts] at h
      simp only [hk] at h
      cases hv : (splitFirst p).2 with
      | none => rw [hv] at h; cases h
      | some v =>
        rw [hv] at h
        simp only [bind, Except.bind] at h
        cases ha : applyOpt pf now key v s with
        | error e => rw [ha] at h; cases h
        | ok s1 =>
          rw [ha] at h
          dsimp only at h
          have hsp : splitFirst p = ((splitFirst p).1, some v) := by rw [← hv]
          have hpe := splitFirst_eq hsp
          have step : ∀ {key' v' p'}, locPart a b p = p' → splitFirst p' = (key', some v') →
              ∀ {kk : OptKey} {t1 : UrlState}, optKey key' = some kk → applyOpt pf now' kk v' t = .ok t1 →
              LocState a b s1 t1 → r = name :: more ∧ ∃ t',
                parseOpts pf now' ((p :: ps).map (locPart a b) ++ name :: more) t = .ok (t', name :: more) ∧
                LocState a b s' t' := by
            intro key' v' p' e1 e2 kk t1 e3 e4 hl1
            obtain ⟨hr, t', ht, hl'⟩ := ih' hl1 h
            refine ⟨hr, t', ?_, hl'⟩
            rw [List.map_cons, List.cons_append, parseOpts, e1]
            simp only [e2, e3, bind, Except.bind, e4]
            exact ht
          by_cases hrel : key ∈ [.startrel, .stoprel]
          · rw [List.mem_cons, List.mem_singleton] at hrel
            rcases hrel with rfl | rfl
            · have hkt := optKey_startrel hk
              rw [hkt] at hpe
              have hpe' : p = "startrel_".toList ++ v := hpe
              have hpl := hp1 v (Or.inl hpe')
              unfold applyOpt at ha
              dsimp only at ha
              cases hi : pyInt v with
              | error e => rw [hi] at ha; cases ha
              | ok n =>
                rw [hi] at ha
                cases ha
                refine step (by rw [hpe']; exact locPart_start a b hpl)
                  (splitFirst_app (by decide +kernel) _) (kk := .start)
                  (t1 := { t with start := some a }) (by decide +kernel) ?_ ?_
                · unfold applyOpt; dsimp only; rw [pyInt_intText]; rfl
                · exact { hl with start := Or.inr ⟨rfl, rfl⟩ }
            · have hkt := optKey_stoprel hk
              rw [hkt] at hpe
              have hpe' : p = "stoprel_".toList ++ v := hpe
              have hpl := hp1 v (Or.inr hpe')
              unfold applyOpt at ha
              dsimp only at ha
              cases hi : pyInt v with
              | error e => rw [hi] at ha; cases ha
              | ok n =>
                rw [hi] at ha
                cases ha
                refine step (by rw [hpe']; exact locPart_stop a b hpl)
                  (splitFirst_app (by decide +kernel) _) (kk := .stop)
                  (t1 := { t with stop := some b }) (by decide +kernel) ?_ ?_
                · unfold applyOpt; dsimp only; rw [pyInt_intText]; rfl
                · exact { hl with stop := Or.inr ⟨rfl, rfl⟩ }
          · obtain ⟨t1, ht1, hl1⟩ := applyOpt_loc (now' := now') (by
              intro hmem
              simp only [List.mem_cons, List.not_mem_nil, or_false] at hmem hrel hx1
              tauto) hl ha
            exact step (locPart_other a b (not_rel hk hrel)) hsp hk ht1 hl1

/-- The stop time after `process_start_time`. -/
def stopOf (d x : Int) : Int := pyTrunc ((x : Rat) + 999 / 1000 * d) / d * d

theorem stopOf_stable {d x : Int} (hd : 0 < d) (h0 : 0 ≤ stopOf d x) : stopOf d (stopOf d x) = stopOf d x := by
  generalize hq : stopOf d x = b at h0
  have hdvd : b = b / d * d := by
    rw [← hq]; unfold stopOf; rw [Int.mul_ediv_cancel _ (by omega)]
  have hd' : (0 : Rat) < d := by exact_mod_cast hd
  have hb' : (0 : Rat) ≤ b := by exact_mod_cast h0
  unfold stopOf
  have hp : pyTrunc ((b : Rat) + 999 / 1000 * d) = ((b : Rat) + 999 / 1000 * d).floor := by
    unfold pyTrunc; rw [if_pos (by linarith)]
  have l1 : b ≤ ((b : Rat) + 999 / 1000 * d).floor := by
    rw [Rat.le_floor_iff]; linarith
  have l2 : ((b : Rat) + 999 / 1000 * d).floor < b + d := by
    rw [Rat.floor_lt_iff]; push_cast; linarith
  rw [hp]
  have : ((b : Rat) + 999 / 1000 * d).floor / d = b / d := by
    generalize ((b : Rat) + 999 / 1000 * d).floor = f at l1 l2
    have h1 : b / d ≤ f / d := Int.ediv_le_ediv hd l1
    have h2 : f / d < b / d + 1 := by
      apply Int.ediv_lt_of_lt_mul hd
      rw [add_mul, one_mul, ← hdvd]; exact l2
    omega
  rw [this, ← hdvd]

theorem processStartTime_nil {c : Cfg} {st now sp : Int} (hd : 0 < c.segDur) :
    c.processStartTime st [] now (some sp) = .ok { c with
      ast := st / c.segDur * c.segDur, startTime := some (st / c.segDur * c.segDur),
      mup := some (c.mup.getD 10), stopTime := some (stopOf c.segDur sp),
      mpdDur := some ((stopOf c.segDur sp - st / c.segDur * c.segDur : Int) : Rat),
      tsbd := some (stopOf c.segDur sp - st / c.segDur * c.segDur) } := by
  unfold Cfg.processStartTime
  simp only [quantize_pos hd, durEnds, bind, Except.bind, pure, Except.pure, List.getLast?_nil]
  rfl

theorem publish_any {c c1 : Cfg} {now : Int} (h : c.updatePublishTime now = .ok c1) (now' : Int) :
    ∃ x, c.updatePublishTime now' = .ok { c1 with publishTime := x } := by
  unfold Cfg.updatePublishTime at h ⊢
  by_cases ha : c.ast ≠ 0
  · rw [if_pos ha] at h ⊢
    cases hm : c.mup with
    | none => rw [hm] at h; cases h
    | some m =>
      rw [hm] at h
      dsimp only at h ⊢
      by_cases h0 : m = 0
      · rw [if_pos h0] at h; cases h
      · rw [if_neg h0] at h ⊢; cases h; exact ⟨_, rfl⟩
  · rw [if_neg ha] at h ⊢; cases h; exact ⟨_, rfl⟩

theorem final_loc {s t : UrlState} {c : Cfg} {p x : Rat} (hc : c.addLocation = false) (ht : t.addLocation = false)
    (ho : t.timeoffset = s.timeoffset) :
    { finalStep s { c with publishTime := p } with publishTime := x, addLocation := false } =
      finalStep t { c with publishTime := x } := by
  have e : c = { c with addLocation := false } := by rw [← hc]
  unfold finalStep
  rw [ht, ho, e]
  cases s.addLocation <;> cases s.timeoffset <;> rfl

/-- The request at the Location, at any time, has the configuration of the request. -/
theorem finishUrl_loc {vodOf : Text → Py VodCfg} {now : Int} {a b : Int} {s t : UrlState}
    {rest : List Text} {c : Cfg} (hl : LocState a b s t) (h : finishUrl vodOf now s rest = .ok c)
    (hd : 0 < c.segDur) (ha : c.startTime = some a) (hb : c.stopTime = some b) (hb0 : 0 ≤ b) (now' : Int) :
    ∃ x, finishUrl vodOf now' t rest = .ok { c with publishTime := x, addLocation := false } := by
  obtain ⟨c1, c2, c3, c4, c5, c6, g1, g2, g3, g4, g5, g6, rfl⟩ := finishUrl_steps.mp h
  obtain ⟨name, v, reps, rel, file, -, -, hc1⟩ := updateFiles_ok g1
  have f1 : c1.tfdt32 = false := by rw [hc1]; exact hl.tfdt
  have f2 : c1.startTime = none := by rw [hc1]; exact hl.begin_
  have f3 : c1.stopTime = none := by rw [hc1]; exact hl.end_
  have f4 : c1.addLocation = false := by rw [hc1]; exact hl.flag
  have cont : ∀ {c' : Cfg} {u : UrlState} {n : Int}, u.cont = false → contStep u n c' = .ok c' := by
    intro c' u n hu; unfold contStep; rw [hu]; rfl
  have mod : ∀ {c' : Cfg} {u : UrlState}, u.modulo = none → modStep u c' = .ok c' := by
    intro c' u hu; unfold modStep; rw [hu]; rfl
  have tf : ∀ {c' : Cfg} {u : UrlState} {n : Int}, c'.tfdt32 = false → tfdtStep u n c' = .ok c' := by
    intro c' u n hu; unfold tfdtStep; rw [hu]; rfl
  rw [cont hl.scont] at g4
  rw [mod hl.smod] at g5
  cases g5
  cases g4
  obtain ⟨pub, rfl⟩ := updatePublishTime_ok g6
  have fin : ∀ {u : UrlState} {x : Cfg}, (finalStep u x).startTime = x.startTime ∧
      (finalStep u x).stopTime = x.stopTime ∧ (finalStep u x).segDur = x.segDur := by
    intro u x; unfold finalStep; cases u.addLocation <;> cases u.timeoffset <;> exact ⟨rfl, rfl, rfl⟩
  rw [fin.1] at ha
  rw [fin.2.1] at hb
  rw [fin.2.2] at hd
  have ha : c3.startTime = some a := ha
  have hb : c3.stopTime = some b := hb
  have hd : 0 < c3.segDur := hd
  unfold startStep at g2
  cases hst : s.start with
  | none =>
    rw [hst] at g2
    cases g2
    rw [tf f1] at g3
    cases g3
    rw [f2] at ha; cases ha
  | some st =>
    rw [hst] at g2
    simp only [hl.smod, Option.isSome_none, Bool.false_eq_true, if_false, hl.sdur] at g2
    cases hsp : s.stop with
    | none =>
      exfalso
      have hd1 : c3.segDur = c1.segDur ∧ c3.stopTime = none := by
        rw [hsp] at g2
        unfold Cfg.processStartTime at g2
        cases hq : quantize st c1.segDur with
        | error e => rw [hq] at g2; cases g2
        | ok q =>
          rw [hq] at g2
          have g2 : Except.ok { c1 with ast := q, startTime := some q, mup := some (c1.mup.getD 10) } =
            Except.ok c2 := g2
          cases g2
          rw [tf (by exact f1)] at g3
          cases g3
          exact ⟨rfl, f3⟩
      rw [hd1.2] at hb; cases hb
    | some sp =>
      rw [hsp] at g2
      have hd1 : 0 < c1.segDur := by
        by_contra hneg
        unfold Cfg.processStartTime at g2
        cases hq : quantize st c1.segDur with
        | error e => rw [hq] at g2; cases g2
        | ok q =>
          cases hq2 : quantize (pyTrunc ((sp : Rat) + 999 / 1000 * c1.segDur)) c1.segDur with
          | error e =>
            rw [hq] at g2
            have g2 : (quantize (pyTrunc ((sp : Rat) + 999 / 1000 * c1.segDur)) c1.segDur).bind _ =
              Except.ok c2 := g2
            rw [hq2] at g2; cases g2
          | ok q2 =>
            rw [hq] at g2
            have g2 : (quantize (pyTrunc ((sp : Rat) + 999 / 1000 * c1.segDur)) c1.segDur).bind _ =
              Except.ok c2 := g2
            rw [hq2] at g2
            cases g2
            rw [tf (by exact f1)] at g3
            cases g3
            exact hneg hd
      rw [processStartTime_nil hd1] at g2
      cases g2
      rw [tf (by exact f1)] at g3
      cases g3
      have ha : some (st / c1.segDur * c1.segDur) = some a := ha
      have hb : some (stopOf c1.segDur sp) = some b := hb
      cases ha
      cases hb
      have hts : ∃ st', t.start = some st' ∧ st' / c1.segDur * c1.segDur = st / c1.segDur * c1.segDur := by
        rcases hl.start with h' | ⟨-, h'⟩
        · exact ⟨st, by rw [h', hst], rfl⟩
        · exact ⟨_, h', by rw [Int.mul_ediv_cancel _ (by omega)]⟩
      have htp : ∃ sp', t.stop = some sp' ∧ stopOf c1.segDur sp' = stopOf c1.segDur sp := by
        rcases hl.stop with h' | ⟨-, h'⟩
        · exact ⟨sp, by rw [h', hsp], rfl⟩
        · exact ⟨_, h', stopOf_stable hd1 hb0⟩
      obtain ⟨st', ht1, ht2⟩ := hts
      obtain ⟨sp', hp1, hp2⟩ := htp
      obtain ⟨x, hx⟩ := publish_any g6 now'
      refine ⟨x, finishUrl_steps.mpr ⟨c1, _, _, _, _, _, by rw [hl.cfg]; exact g1, ?_, tf (by exact f1),
        cont hl.tcont, mod hl.tmod, hx, ?_⟩⟩
      · unfold startStep
        rw [ht1]
        simp only [hl.tmod, Option.isSome_none, Bool.false_eq_true, if_false, hl.tdur]
        rw [hp1, processStartTime_nil hd1, ht2, hp2]
      · exact final_loc (by exact f4) hl.loc hl.timeoffset

theorem intText_no_slash (n : Int) : '/' ∉ intText n := by
  have hd : ∀ k, '/' ∉ natText k := fun k hc => by
    obtain ⟨d, hd, he⟩ := natText_digits k '/' hc
    have : ∀ d < 10, '/' ≠ digitChar d := by decide
    exact this d hd he
  unfold intText
  split
  · exact fun h => (List.mem_cons.1 h).elim (by decide) (hd _)
  · exact hd _

/-- **C65.** A service with times relative to the request has a Location and no BaseURL.  The URL of
the Location leads to the same server with no relative time in it, and a request there, whenever it
is made, has the configuration of this request, but for the time of publication and the wish for a
Location: start and stop stay where they are.
Missing: relative times with other characters (`C65_plus_violation`), services without start or
without stop (`C65_start_only_violation`), and the options `dur`, `tfdt`, `cont` and `modulo`, which
depend on the time of the request by themselves. -/
theorem C65_location_partial {pf : Text → Option Rat} {vodOf : Text → Py VodCfg} {c : Cfg} {e : MpdEnv} {now : Int}
    {vod out : Xml} {infos rest : List Xml} {base : Option Xml} {period : Xml}
    (hs : VodShape vod.kids infos base period rest)
    (hrl : ∀ x ∈ rest, x.tag ≠ "Location".toList) (hrb : ∀ x ∈ rest, x.tag ≠ "BaseURL".toList)
    (hd : 0 < c.segDur) (hb : ∀ t ∈ c.tsbd, 0 ≤ t) {opts more : List Text} {name s : Text}
    (ho : ∀ p ∈ opts, (partSlot p).isSome) (hn : partSlot name = none)
    (hslash : ∀ p ∈ opts ++ name :: more, '/' ∉ p) (hparts : e.parts = opts ++ name :: more)
    (hstart : e.start = s ++ "/".toList)
    (hplain : ∀ p ∈ opts, PlainRelative p)
    (hrest : ∀ p ∈ splitChar '/' s ++ more, ¬"startrel_".toList <+: p ∧ ¬"stoprel_".toList <+: p)
    (hx : ∀ p ∈ opts, (splitFirst p).1 ∉ ["dur".toList, "tfdt".toList, "cont".toList, "modulo".toList])
    (hu : processUrl pf vodOf (opts ++ name :: more) now = .ok c) (hl : c.addLocation = true)
    (hstop : ∀ t ∈ c.stopTime, 0 ≤ t) (h : generateXml c e now vod = .ok out) :
    named "BaseURL" out = [] ∧ ∃ l parts, named "Location" out = [l] ∧ LeadsTo s l.text parts ∧
      (∀ p ∈ parts, ¬"startrel_".toList <+: p ∧ ¬"stoprel_".toList <+: p) ∧
      ∀ now', ∃ x, processUrl pf vodOf parts now' = .ok { c with publishTime := x, addLocation := false } := by
  obtain ⟨m⟩ := generateXml_parts hs (Int.le_of_lt hd) hb h
  rw [m.locations hs hrl, m.bases hs hrb]
  have hls := m.hls
  have hbs := m.hbs
  unfold newLocs at hls
  unfold newBases at hbs
  have e1 : (procCfgOf c e m.tsbd now).addLocation = true := hl
  rw [e1, if_pos rfl] at hls hbs
  have hb1 : m.bs = [] := by
    cases hbs' : m.bs with
    | nil => rfl
    | cons y ys => rw [hbs'] at hbs; cases hbs
  refine ⟨hb1, ?_⟩
  unfold locationUrl at hls
  have e2 : (procCfgOf c e m.tsbd now).startTime = c.startTime := rfl
  have e3 : (procCfgOf c e m.tsbd now).stopTime = c.stopTime := rfl
  have e4 : (procCfgOf c e m.tsbd now).fullUrl = s ++ (opts ++ name :: more).flatMap ('/' :: ·) := by
    show e.start ++ joinSlash e.parts = _
    rw [hstart, hparts]
    cases opts with
    | nil => rw [List.nil_append, joinSlash_flat]; simp
    | cons p ps => rw [List.cons_append, joinSlash_flat]; simp
  rw [e2, e3, e4] at hls
  obtain ⟨a, ha⟩ : ∃ a, c.startTime = some a := by
    cases ha : c.startTime with
    | none => rw [ha] at hls; cases hls
    | some a => exact ⟨a, rfl⟩
  obtain ⟨b, hb⟩ : ∃ b, c.stopTime = some b := by
    cases hb : c.stopTime with
    | none => rw [ha, hb] at hls; cases hls
    | some b => exact ⟨b, rfl⟩
  rw [ha, hb] at hls
  dsimp only at hls
  have hsa : '/' ∉ "start_".toList ++ intText a := by
    rw [List.mem_append, not_or]; exact ⟨by decide +kernel, intText_no_slash a⟩
  have hsb : '/' ∉ "stop_".toList ++ intText b := by
    rw [List.mem_append, not_or]; exact ⟨by decide +kernel, intText_no_slash b⟩
  have u1 := subRel_url (k := "startrel_".toList) (new := "start_".toList ++ intText a) (by decide +kernel) s
    (fun p hp => (hrest p (List.mem_append_left _ hp)).1) hslash
  have u2 := subRel_url (k := "stoprel_".toList) (new := "stop_".toList ++ intText b) (by decide +kernel) s
    (fun p hp => (hrest p (List.mem_append_left _ hp)).2)
    (l := (opts ++ name :: more).map (relPart "startrel_".toList ("start_".toList ++ intText a)))
    (fun p hp => by
      obtain ⟨q, hq, rfl⟩ := List.mem_map.1 hp
      exact relPart_slash hsa (hslash q hq))
  have k1 : "/startrel_".toList = '/' :: "startrel_".toList := by decide +kernel
  have k2 : "/start_".toList ++ intText a = '/' :: ("start_".toList ++ intText a) := rfl
  have k3 : "/stoprel_".toList = '/' :: "stoprel_".toList := by decide +kernel
  have k4 : "/stop_".toList ++ intText b = '/' :: ("stop_".toList ++ intText b) := rfl
  rw [k1, k2, k3, k4, u1, u2, List.map_map] at hls
  have hmap : (opts ++ name :: more).map
      (relPart "stoprel_".toList ("stop_".toList ++ intText b) ∘
        relPart "startrel_".toList ("start_".toList ++ intText a)) =
      opts.map (locPart a b) ++ name :: more := by
    have hmore : more.map (locPart a b) = more := by
      conv_rhs => rw [← List.map_id more]
      apply List.map_congr_left
      intro q hq
      exact locPart_other a b (hrest q (List.mem_append_right _ hq))
    show (opts ++ name :: more).map (locPart a b) = _
    rw [List.map_append, List.map_cons, locPart_other a b (not_rel_name hn), hmore]
  rw [hmap] at hls
  have hl1 : m.ls = [.elem "Location".toList []
      (s ++ (opts.map (locPart a b) ++ name :: more).flatMap ('/' :: ·)) []] := by
    cases hls' : m.ls with
    | nil => rw [hls'] at hls; cases hls
    | cons y ys => rw [hls'] at hls; cases hls; rfl
  have hsl' : ∀ q ∈ opts.map (locPart a b) ++ name :: more, '/' ∉ q := by
    rw [← hmap]
    intro q hq
    obtain ⟨p, hp, rfl⟩ := List.mem_map.1 hq
    exact relPart_slash hsb (relPart_slash hsa (hslash p hp))
  have hkeys : ∀ p ∈ opts, ∀ key ∈ optKey (splitFirst p).1, key ∉ [OptKey.dur, .tfdt, .cont, .modulo] := by
    intro p hp key hk hmem
    obtain ⟨k, hk1, hk2⟩ := optKey_text hk
    have : ∀ q ∈ optKeys, q.2 ∈ [OptKey.dur, .tfdt, .cont, .modulo] → q.1.toList ∈
      ["dur".toList, "tfdt".toList, "cont".toList, "modulo".toList] := by decide +kernel
    have h2 := hx p hp
    rw [hk2] at h2
    exact h2 (this _ hk1 hmem)
  refine ⟨_, opts.map (locPart a b) ++ name :: more, hl1, ?_, ?_, ?_⟩
  · show splitChar '/' (s ++ _) = _
    cases hq : opts.map (locPart a b) ++ name :: more with
    | nil => simp at hq
    | cons q qs =>
      rw [hq] at hsl'
      rw [List.flatMap_cons, List.cons_append, splitChar_append,
        splitChar_flat (hsl' q (List.mem_cons_self ..)) (fun r hr => hsl' r (List.mem_cons_of_mem _ hr))]
  · intro q hq
    rcases List.mem_append.1 hq with hq | hq
    · obtain ⟨p, hp, rfl⟩ := List.mem_map.1 hq
      by_cases hr1 : "startrel_".toList <+: p
      · obtain ⟨v, rfl⟩ := hr1
        rw [locPart_start a b (hplain _ hp v (Or.inl rfl))]
        refine not_rel (key := .start) ?_ (by decide)
        rw [splitFirst_app (by decide +kernel)]; dsimp only; decide +kernel
      · by_cases hr2 : "stoprel_".toList <+: p
        · obtain ⟨v, rfl⟩ := hr2
          rw [locPart_stop a b (hplain _ hp v (Or.inr rfl))]
          refine not_rel (key := .stop) ?_ (by decide)
          rw [splitFirst_app (by decide +kernel)]; dsimp only; decide +kernel
        · rw [locPart_other a b ⟨hr1, hr2⟩]; exact ⟨hr1, hr2⟩
    · rcases List.mem_cons.1 hq with rfl | hq
      · exact not_rel_name hn
      · exact hrest q (List.mem_append_right _ hq)
  · intro now'
    unfold processUrl at hu ⊢
    cases hp : parseOpts pf now (opts ++ name :: more) {} with
    | error e => rw [hp] at hu; cases hu
    | ok r =>
      obtain ⟨s', r⟩ := r
      rw [hp] at hu
      have hu : finishUrl vodOf now s' r = .ok c := hu
      obtain ⟨rfl, t', ht, hls'⟩ := parseOpts_loc (now' := now') (a := a) (b := b) hn ho hplain hkeys
        (s := {}) (t := {}) ⟨rfl, rfl, rfl, rfl, rfl, rfl, rfl, rfl, rfl, rfl, rfl, rfl, rfl, Or.inl rfl,
          Or.inl rfl⟩ hp
      rw [ht]
      exact finishUrl_loc hls' hu hd ha hb (hstop b hb) now'

/-! ### Examples and violations -/

/-- Content with segments of 6 seconds. -/
def vod6 (name : Text) : Py VodCfg :=
  if name = "testpic".toList then .ok ⟨1, 600, 6, 300, [("video".toList, 90000, ["V1".toList])]⟩
  else .error .configError

/-- The manifest for a URL. -/
def linkManifest (parts : List String) (pos : Nat) (now : Int) : Py Xml :=
  match processUrl (fun _ => none) vod6 (parts.map String.toList) now with
  | .error e => .error e
  | .ok c => generateXml c { sampleEnv with parts := parts.map String.toList, pos := pos } now
      (sampleVod [samplePeriod])

/-- The texts of the elements with a tag. -/
def textsOf (tag : String) (x : Py Xml) : Option (List String) :=
  x.toOption.map fun x => (named tag x).map fun y => String.ofList y.text

/-- C65: a BaseURL, and the file it leads to. -/
example : textsOf "BaseURL" (linkManifest ["tsbd_60", "testpic", "Manifest.mpd"] 1 1000000) =
      some ["http://h/livesim/tsbd_60/testpic/"] ∧
    (processUrl (fun _ => none) vod6 ["tsbd_60".toList, "testpic".toList, "V1".toList, "7.m4s".toList]
      1000000).toOption.map (fun c => (c.tsbd, c.reps.map (·.id))) = some (some 60, ["V1".toList]) := by
  decide +kernel

/-- C65: a Location. -/
example : textsOf "Location" (linkManifest ["startrel_-20", "stoprel_40", "testpic", "Manifest.mpd"] 2 1000000) =
      some ["http://h/livesim/start_999978/stop_1000044/testpic/Manifest.mpd"] ∧
    textsOf "BaseURL" (linkManifest ["startrel_-20", "stoprel_40", "testpic", "Manifest.mpd"] 2 1000000) =
      some [] := by
  decide +kernel

/-- **C65 fails** for a service that is asked for several BaseURLs: the option is put after the name
of the content, in front of which empty parts stay, and the server finds no content at any of the
BaseURLs. -/
theorem C65_multi_violation :
    textsOf "BaseURL" (linkManifest ["baseurl_u40_d20", "baseurl_d40_u20", "testpic", "Manifest.mpd"] 2 1000000) =
      some ["http://h/livesim///testpic/baseurl_u40_d20//", "http://h/livesim///testpic/baseurl_d40_u20//"] ∧
    LeadsTo "http://h/livesim".toList "http://h/livesim///testpic/baseurl_u40_d20//V1/7.m4s".toList
      (["", "", "testpic", "baseurl_u40_d20", "", "V1", "7.m4s"].map String.toList) ∧
    processUrl (fun _ => none) vod6 (["", "", "testpic", "baseurl_u40_d20", "", "V1", "7.m4s"].map String.toList)
      1000000 = .error .configError := by
  unfold LeadsTo
  decide +kernel

/-- **C65 fails** for a service with a relative start and no stop (or the other way round): there is
no manifest, as the missing time cannot be written into the Location. -/
theorem C65_start_only_violation :
    linkManifest ["startrel_-20", "testpic", "Manifest.mpd"] 1 1000000 = .error .typeError ∧
    linkManifest ["stoprel_20", "testpic", "Manifest.mpd"] 1 1000000 = .error .typeError ∧
    (processUrl (fun _ => none) vod6 ["startrel_-20".toList, "testpic".toList, "Manifest.mpd".toList]
      1000000).toOption.map (·.startTime) = some (some 999978) := by
  decide +kernel

/-- **C65 fails** for values that `int()` reads but the pattern for the replacement does not match: with a
plus sign the Location keeps the relative time, and with a digit separator the start moves. -/
theorem C65_plus_violation :
    textsOf "Location" (linkManifest ["startrel_-20", "stoprel_+40", "testpic", "Manifest.mpd"] 2 1000000) =
      some ["http://h/livesim/start_999978/stoprel_+40/testpic/Manifest.mpd"] ∧
    textsOf "Location" (linkManifest ["startrel_-2_0", "stoprel_40", "testpic", "Manifest.mpd"] 2 1000000) =
      some ["http://h/livesim/start_999978_0/stop_1000044/testpic/Manifest.mpd"] ∧
    (processUrl (fun _ => none) vod6 (["start_999978_0", "stop_1000044", "testpic", "Manifest.mpd"].map String.toList)
      1000000).toOption.map (·.startTime) = some (some 9999780) := by
  decide +kernel

/-- **C65 fails** for a callback in a service with a Location: there is no BaseURL to make the URL
of the callback from, and no manifest. -/
theorem C65_callback_violation :
    linkManifest ["startrel_-20", "stoprel_40", "periods_60", "mpdcallback_30", "testpic", "Manifest.mpd"] 4 1000000 =
      .error .unbound := by
  decide +kernel

end Verif
