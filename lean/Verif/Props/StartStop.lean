import Verif.Props.Availability
import Verif.Lemmas.Config
import Verif.Mpd
/-
C32, C47: start and stop times.
-/
namespace Verif

/-- `a` is the last grid point (multiple of `d`) at or before `x`. -/
def IsGridBefore (d x a : Int) : Prop := d ∣ a ∧ a ≤ x ∧ x < a + d

/-- `e` is the first grid point at or after `x`. -/
def IsGridAfter (d x e : Int) : Prop := d ∣ e ∧ x ≤ e ∧ e < x + d

theorem gridBefore {x d : Int} (h : 0 < d) : IsGridBefore d x (x / d * d) := by
  refine ⟨Dvd.intro_left _ rfl, Int.ediv_mul_le x (by omega), ?_⟩
  have := Int.lt_ediv_add_one_mul_self x h
  have e : (x / d + 1) * d = x / d * d + d := by ring
  omega

/-- The rounding used for the stop time: up to the next grid point for segment durations of
at most 1000 s. -/
theorem stopRound {s d : Int} (h0 : 0 ≤ s) (h1 : 0 < d) (h2 : d ≤ 1000) :
    pyTrunc ((s : Rat) + 999 / 1000 * d) = s + d - 1 := by
  have hd : (0 : Rat) < d := by exact_mod_cast h1
  have hd2 : (d : Rat) ≤ 1000 := by exact_mod_cast h2
  have hs : (0 : Rat) ≤ s := by exact_mod_cast h0
  unfold pyTrunc
  rw [if_pos (by linarith)]
  apply le_antisymm
  · have hf := Rat.floor_le ((s : Rat) + 999 / 1000 * d)
    have : (((s : Rat) + 999 / 1000 * d).floor : Rat) < ((s + d : Int) : Rat) := by
      push_cast; linarith
    have := Rat.intCast_lt_intCast.mp this
    omega
  · rw [Rat.le_floor_iff]; push_cast; linarith

theorem gridAfter {s d : Int} (h0 : 0 ≤ s) (h1 : 0 < d) (h2 : d ≤ 1000) :
    IsGridAfter d s (pyTrunc ((s : Rat) + 999 / 1000 * d) / d * d) := by
  rw [stopRound h0 h1 h2]
  obtain ⟨g1, g2, g3⟩ := gridBefore (x := s + d - 1) h1
  exact ⟨g1, by omega, by omega⟩

/-- Every readable content has positive segment duration and length. -/
def GoodVod (vodOf : Text → Py VodCfg) : Prop :=
  ∀ name v, vodOf name = .ok v → 0 < v.segDurS ∧ 0 < v.nrSegs

/-- What `process_url` yields for a URL with a start time (and possibly a stop time) but no
duration list and no other session option. -/
theorem finishUrl_start {vodOf : Text → Py VodCfg} {now : Int} {st : UrlState} {rest : List Text}
    {c : Cfg} {s : Int} (hs : st.start = some s) (hm : st.modulo = none) (hc : st.cont = false)
    (ht : st.cfg.tfdt32 = false) (hdur : st.durations = []) (hl : st.cfg.lastNrs = [])
    (ha : st.cfg.aet = none) (hst : st.cfg.stopTime = none) (hto : st.cfg.timeoffset = none)
    (hv : GoodVod vodOf) (h : finishUrl vodOf now st rest = .ok c) :
    0 < c.segDur ∧ 0 < c.vodNr ∧
    c.ast = s / c.segDur * c.segDur ∧ c.startTime = some c.ast ∧ c.lastNrs = [] ∧ c.aet = none ∧
    c.startNr = st.cfg.startNr ∧ c.ato = st.cfg.ato ∧ c.multiUrl = st.cfg.multiUrl ∧
    c.timeoffset = st.timeoffset ∧ c.tsbd.isSome ∧
    (st.stop = none → c.stopTime = none ∧ c.mpdDur = st.cfg.mpdDur) ∧
    (∀ e, st.stop = some e →
      c.stopTime = some (pyTrunc ((e : Rat) + 999 / 1000 * c.segDur) / c.segDur * c.segDur) ∧
      c.mpdDur = c.stopTime.map (fun x => ((x - c.ast : Int) : Rat)) ∧
      c.tsbd = c.stopTime.map (fun x => x - c.ast)) := by
  obtain ⟨c1, c2, c3, c4, c5, c6, h1, h2, h3, h4, h5, h6, h7⟩ := finishUrl_steps.mp h
  obtain ⟨name, v, reps, rel, file, -, hvod, e1⟩ := updateFiles_ok h1
  obtain ⟨hd, hvn⟩ := hv _ _ hvod
  have h2' : c1.processStartTime s [] now st.stop = .ok c2 := by
    unfold startStep at h2
    simpa only [hs, hm, Option.isSome_none, Bool.false_eq_true, if_false, hdur] using h2
  obtain ⟨b, o, e7, ho⟩ := finalStep_eq st c6
  obtain ⟨p, e6⟩ := updatePublishTime_ok h6
  -- the options not given change nothing
  have e45 : c5 = c4 := by
    unfold modStep at h5; rw [hm] at h5; exact (Py.pure_ok.mp h5).symm
  have e34 : c4 = c3 := by
    unfold contStep at h4; rw [hc] at h4; exact (Py.pure_ok.mp h4).symm
  have hd1 : 0 < c1.segDur := by rw [e1]; exact hd
  obtain ⟨ends, hends, c11, c12, e11, e12, -, e13, e14⟩ := processStartTime_ok hd1 h2'
  simp only [durEnds, Except.ok.injEq] at hends
  subst hends
  have e12 := e12 rfl
  subst e12
  have key : c2.tfdt32 = false := by
    have : c1.tfdt32 = false := by rw [e1]; exact ht
    cases hsp : st.stop with
    | none => rw [e13 hsp, e11]; exact this
    | some x => rw [e14 x hsp, e11]; exact this
  have e23 : c3 = c2 := by
    unfold tfdtStep at h3; rw [key] at h3; exact (Py.pure_ok.mp h3).symm
  have hcs : c = { c2 with publishTime := p, addLocation := b, timeoffset := o } := by
    rw [h7, e7, e6, e45, e34, e23]
  have ho' : o = st.timeoffset := by
    rw [ho, e6, e45, e34, e23]
    cases st.timeoffset with
    | some t => rfl
    | none =>
      dsimp only
      have : c1.timeoffset = none := by rw [e1]; exact hto
      cases hsp : st.stop with
      | none => rw [e13 hsp, e11]; exact this
      | some x => rw [e14 x hsp, e11]; exact this
  subst ho'
  cases hsp : st.stop with
  | none =>
    have e13 := e13 hsp
    clear e14
    subst e13 e11 e1 hcs
    exact ⟨hd, hvn, rfl, rfl, hl, ha, rfl, rfl, rfl, rfl, rfl, fun _ => ⟨hst, rfl⟩, by simp⟩
  | some x =>
    have e13 := e14 x hsp
    clear e14
    subst e13 e11 e1 hcs
    refine ⟨hd, hvn, rfl, rfl, hl, ha, rfl, rfl, rfl, rfl, rfl, by simp, ?_⟩
    intro e he
    simp only [Option.some.injEq] at he
    subst he
    exact ⟨rfl, rfl, rfl⟩

/-- **C32 (grid).** For a URL with start time `s` and stop time `e` (and no duration list, cont,
modulo or 32-bit session), segment duration at most 1000 s: the availability start is the last
grid point at or before `s`, the stop time the first grid point at or after `e`, and duration
and buffer depth are their distance.
Missing: segment durations above 1000 s (`C32_long_segment_violation`). -/
theorem C32_grid_partial {vodOf : Text → Py VodCfg} {now : Int} {st : UrlState} {rest : List Text}
    {c : Cfg} {s e : Int} (hs : st.start = some s) (he : st.stop = some e) (h0 : 0 ≤ e)
    (hm : st.modulo = none) (hc : st.cont = false)
    (ht : st.cfg.tfdt32 = false) (hdur : st.durations = []) (hl : st.cfg.lastNrs = [])
    (ha : st.cfg.aet = none) (hst : st.cfg.stopTime = none) (hto : st.cfg.timeoffset = none)
    (hv : GoodVod vodOf) (h : finishUrl vodOf now st rest = .ok c) (hd : c.segDur ≤ 1000) :
    IsGridBefore c.segDur s c.ast ∧
    ∃ z, c.stopTime = some z ∧ IsGridAfter c.segDur e z ∧
      c.mpdDur = some ((z - c.ast : Int) : Rat) ∧ c.tsbd = some (z - c.ast) := by
  obtain ⟨hp, -, h1, -, -, -, -, -, -, -, -, -, h2⟩ :=
    finishUrl_start hs hm hc ht hdur hl ha hst hto hv h
  obtain ⟨h3, h4, h5⟩ := h2 e he
  refine ⟨by rw [h1]; exact gridBefore hp, _, h3, gridAfter h0 hp hd, ?_, ?_⟩
  · rw [h4, h3]; rfl
  · rw [h5, h3]; rfl

/-- **C32 (start only).** Without a stop time the start is quantised in the same way and
nothing ends the session. -/
theorem C32_start {vodOf : Text → Py VodCfg} {now : Int} {st : UrlState} {rest : List Text}
    {c : Cfg} {s : Int} (hs : st.start = some s) (he : st.stop = none)
    (hm : st.modulo = none) (hc : st.cont = false)
    (ht : st.cfg.tfdt32 = false) (hdur : st.durations = []) (hl : st.cfg.lastNrs = [])
    (ha : st.cfg.aet = none) (hst : st.cfg.stopTime = none) (hto : st.cfg.timeoffset = none)
    (hv : GoodVod vodOf) (h : finishUrl vodOf now st rest = .ok c) :
    IsGridBefore c.segDur s c.ast ∧ c.stopTime = none ∧ c.aet = none ∧ c.lastNrs = [] := by
  obtain ⟨hp, -, h1, -, h5, h6, -, -, -, -, -, h2, -⟩ :=
    finishUrl_start hs hm hc ht hdur hl ha hst hto hv h
  exact ⟨by rw [h1]; exact gridBefore hp, (h2 he).1, h6, h5⟩

/-- **C32 (segments).** With start and stop time, an explicit start number and no time offset,
the numbers that are ever served are exactly the `(stop - start)/segDur` numbers from the first
one, for a non-empty presentation.
Missing: start number -1 (`C32_snr_violation`). -/
theorem C32_segments_partial (pf : Text → Option Rat) {vodOf : Text → Py VodCfg} {now : Int}
    {st : UrlState} {rest : List Text} {c : Cfg} {s e : Int} (hs : st.start = some s)
    (he : st.stop = some e) (hm : st.modulo = none) (hc : st.cont = false)
    (ht : st.cfg.tfdt32 = false) (hdur : st.durations = []) (hl : st.cfg.lastNrs = [])
    (ha : st.cfg.aet = none) (hst : st.cfg.stopTime = none) (hto : st.cfg.timeoffset = none)
    (hv : GoodVod vodOf) (h : finishUrl vodOf now st rest = .ok c)
    (hu : c.multiUrl.length ≠ 1) (hn : 0 ≤ c.startNr) (ho : st.timeoffset = none)
    {z : Int} (hz : c.stopTime = some z) (hne : c.ast < z) (n : Int) :
    (∃ t, IsServed pf c n t) ↔ c.startNr ≤ n ∧ n < c.startNr + (z - c.ast) / c.segDur := by
  obtain ⟨hp, hvn, h1, -, hln, hae, -, -, -, hof, htb, -, h2⟩ :=
    finishUrl_start hs hm hc ht hdur hl ha hst hto hv h
  obtain ⟨h3, h4, -⟩ := h2 e he
  rw [hz] at h4
  have hgz : c.segDur ∣ z := by
    rw [hz] at h3; simp only [Option.some.injEq] at h3
    exact ⟨_, by rw [h3]; exact Int.mul_comm _ _⟩
  have hga : c.segDur ∣ c.ast := ⟨_, by rw [h1]; exact Int.mul_comm _ _⟩
  have hw : WellFormed c := ⟨hp, hvn, hu, htb, fun _ => by rw [h4]; rfl⟩
  have hdq : (0 : Rat) < c.segDur := by exact_mod_cast hp
  have hfl : (((z - c.ast : Int) : Rat) / c.segDur).floor = (z - c.ast) / c.segDur := by
    obtain ⟨k, hk⟩ := Int.dvd_sub hgz hga
    rw [hk, Int.mul_ediv_cancel_left _ (by omega)]
    have : ((c.segDur * k : Int) : Rat) / c.segDur = (k : Int) := by
      rw [Int.cast_mul]; exact mul_div_cancel_left₀ _ hdq.ne'
    rw [this, Rat.floor_intCast]
  have hcount : 0 < (z - c.ast) / c.segDur := by
    obtain ⟨k, hk⟩ := Int.dvd_sub hgz hga
    rw [hk, Int.mul_ediv_cancel_left _ (by omega)]
    have : 0 < c.segDur * k := by omega
    exact (pos_iff_pos_of_mul_pos this).mp hp
  have hes : effectiveStop c = some (c.startNr + (z - c.ast) / c.segDur) := by
    unfold effectiveStop
    rw [hz, h4, hof, ho]
    simp only [Option.map_some, add_zero, hfl]
    rw [if_neg (by omega)]
  have hfirst : (serviceOf c).first = c.startNr := by
    show firstNumber c = _
    unfold firstNumber
    rw [if_neg (by omega), hof, ho]
  simp only [C01_general pf hw, hae, hln, hes, hfirst]
  simp only [Option.mem_def, reduceCtorEq, false_implies, implies_true, true_and,
    List.getLast?_nil, Option.some.injEq, forall_eq']
  constructor
  · rintro ⟨t, -, h1, h2, -⟩; exact ⟨h1, h2⟩
  · rintro ⟨h1, h2⟩
    refine ⟨max (gateTime c) ((serviceOf c).opens n), le_max_left _ _, h1, h2, fun _ => ⟨le_max_right _ _, ?_⟩⟩
    simp

/-- start_1003/stop_1052 on 8 s segments. -/
def startStopState : UrlState := { start := some 1003, stop := some 1052 }

/-- 8 s segments. -/
def vod8 (_ : Text) : Py VodCfg :=
  .ok { firstSeg := 1, nrSegs := 30, segDurS := 8, defaultTsbd := 300,
        media := [("video".toList, 90000, ["V1".toList])] }

theorem vod8_good : GoodVod vod8 := by
  intro name v h
  simp only [vod8, Except.ok.injEq] at h
  subst h; decide

example : ((finishUrl vod8 1010 startStopState ["c".toList, "V1".toList, "7.m4s".toList]).toOption.map
    (fun c => ((c.ast, c.stopTime), (c.mpdDur, c.tsbd), (c.multiUrl.length, c.startNr))))
    = some ((1000, some 1056), (some 56, some 56), (0, 0)) := by decide +kernel

/-- **C32 (violation).** For 2000 s segments the stop time 1 is rounded down to 0: the
presentation ends before the stop time and is empty. -/
theorem C32_long_segment_violation :
    (Cfg.processStartTime { segDur := 2000 } 0 [] 0 (some 1)).toOption.map
      (fun c => (c.ast, c.stopTime, c.mpdDur)) = some (0, some 0, some 0) := by decide +kernel

/-- What the service with start 1000, stop 1056 and `snr_-1` (an omitted start number, which
DASH reads as 1) answers. -/
def snrRequest (snr n now : Int) : Py MediaOut := do
  let c ← finishUrl vod8 1000 { startStopState with cfg := { startNr := snr } }
    ["c".toList, "V1".toList, "7.m4s".toList]
  getMedia (fun _ => none) (c.forNr n) now

/-- **C32 (violation).** The presentation from 1000 to 1056 has 7 segments of 8 s.  With
`snr_-1` numbering starts at 1, but the number 6 is already refused as beyond the stop. -/
theorem C32_snr_violation :
    (snrRequest (-1) 1 2000).toOption.map (fun r => r matches .media _) = some true ∧
    (snrRequest (-1) 5 2000).toOption.map (fun r => r matches .media _) = some true ∧
    (snrRequest (-1) 6 2000) = .ok (.beyondStop 6) ∧
    (snrRequest 1 7 2000).toOption.map (fun r => r matches .media _) = some true := by
  decide +kernel

/-! ### C47 -/

/-- **C47 (type).** The manifest is static exactly when there is a stop time that has passed; a
static manifest has no minimumUpdatePeriod and no timeShiftBufferDepth, a dynamic one has a
minimumUpdatePeriod; once static it stays static. -/
theorem C47_static {c : Cfg} {now : Int} {m : Mpd} (h : generateMpd c now = .ok m) :
    (m.static = true ↔ ∃ z, c.stopTime = some z ∧ z < now) ∧
    (m.static = true → m.mup = none ∧ m.tsbd = none) ∧
    (m.static = false → m.mup.isSome) ∧
    (∀ now' m', now ≤ now' → generateMpd c now' = .ok m' → m.static = true → m'.static = true) := by
  have key : ∀ {now : Int} {m : Mpd}, generateMpd c now = .ok m →
      (m.static = true ↔ ∃ z, c.stopTime = some z ∧ z < now) ∧
      (m.static = true → m.mup = none ∧ m.tsbd = none) ∧ (m.static = false → m.mup.isSome) := by
    intro now m h
    unfold generateMpd at h
    simp only [Py.bind_ok, Py.pure_ok] at h
    obtain ⟨-, -, t, -, ps, -, h⟩ := h
    subst h
    refine ⟨?_, ?_, ?_⟩
    · cases c.stopTime <;> simp
    · intro hs
      dsimp only at hs ⊢
      rw [hs]
      simp
    · intro hs
      dsimp only at hs ⊢
      rw [hs]
      simp only [Bool.false_eq_true, if_false]
      split <;> rfl
  obtain ⟨k1, k2, k3⟩ := key h
  refine ⟨k1, k2, k3, ?_⟩
  intro now' m' hle h' hs
  obtain ⟨z, hz, hlt⟩ := k1.mp hs
  exact (key h').1.mpr ⟨z, hz, by omega⟩

example :
    let c : Cfg := { segDur := 8, tsbd := some 56, stopTime := some 1056, ast := 1000, mpdDur := some 56,
                     mup := some 10 }
    (generateMpd c 1056).toOption.map (fun m => (m.static, m.mup)) = some (false, some (.secs 10)) ∧
    (generateMpd c 1057).toOption.map (fun m => (m.static, m.mup)) = some (true, none) := by
  decide +kernel

/-- **C47 (for ever).** With a stop time (and no availability end time) a segment before the
stop, once available, is served at every later instant. -/
theorem C47_available_forever (pf : Text → Option Rat) {c : Cfg} (hw : WellFormed c)
    (ha : c.aet = none) (hs : (effectiveStop c).isSome) {n : Int} {t t' : Rat} (hle : t ≤ t')
    (h : IsServed pf c n t) : IsServed pf c n t' := by
  obtain ⟨e, he⟩ := Option.isSome_iff_exists.mp hs
  rw [C01_general pf hw] at h ⊢
  obtain ⟨h1, h2, h3, h4, h5, h6⟩ := h
  refine ⟨le_trans h1 hle, by simp [ha], h3, h4, h5, fun hh => ⟨le_trans (h6 hh).1 hle, ?_⟩⟩
  simp [he]

example :
    let c := { exampleCfg with stopTime := some 1100, mpdDur := some 100 }
    effectiveStop c = some 55 ∧ c.aet = none ∧
    (getMedia (fun _ => none) (c.forNr 54) 999999).toOption.map (fun r => r matches .media _) = some true := by
  decide +kernel

end Verif
