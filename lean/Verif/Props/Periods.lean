import Verif.Mpd
import Verif.Props.Availability
/-
C25, C26, C27, C49: multi-period manifests.
-/
namespace Verif

/-- The data of a period that does not depend on its neighbours, as documented: number
`nr` of periods of `pd` seconds starts at `nr·pd`; every `etpRatio`-th period terminates
early and every `cbRatio`-th period has a callback. -/
structure PeriodFacts (c : Cfg) (n pd nr : Int) (p : PeriodData) : Prop where
  id : p.id = nr
  start : p.start = nr * pd
  startNumber : p.startNumber = nr * pd / c.segDur
  pto : p.pto = nr * pd
  etp : p.etp = if c.etp > 0 ∧ n / min c.etp 60 ∣ nr then
      some (if c.etpDuration = -1 then pd / 2 else c.etpDuration) else none
  callback : p.callback = decide (c.mpdCallback > 0 ∧ n / min c.mpdCallback 60 ∣ nr)
  etpLe : ∀ d ∈ p.etp, d ≤ pd

theorem wholeRatio_ok {n k r : Int} (h : wholeRatio n k = .ok r) : k ∣ n ∧ r = n / k := by
  unfold wholeRatio at h
  split at h
  · rename_i hh
    exact ⟨Int.dvd_of_emod_eq_zero hh, by simpa using h.symm⟩
  · simp at h

theorem ratio_pos {n k : Int} (hn : 0 < n) (hk : 0 < k) (hd : k ∣ n) : 0 < n / k :=
  Int.ediv_pos_of_pos_of_dvd hn hk.le hd

/-- What `periodBase` yields. -/
theorem periodBase_ok {c : Cfg} {n pd nr : Int} (hn : 0 < n) (hd : 0 < c.segDur)
    {p : PeriodData} (h : periodBase c n pd nr = .ok p) :
    PeriodFacts c n pd nr p ∧ p.durAttr = none ∧ p.durS = p.etp := by
  unfold periodBase at h
  rw [pyDiv_pos hd] at h
  simp only [bind, Except.bind] at h
  -- the early-termination step
  have step : ∃ q : PeriodData,
      (q.id = nr ∧ q.start = nr * pd ∧ q.startNumber = nr * pd / c.segDur ∧ q.pto = nr * pd ∧
        q.callback = false ∧ q.durAttr = none ∧ q.durS = q.etp ∧
        (q.etp = if c.etp > 0 ∧ n / min c.etp 60 ∣ nr then
          some (if c.etpDuration = -1 then pd / 2 else c.etpDuration) else none) ∧
        (∀ d ∈ q.etp, d ≤ pd)) ∧
      (if c.mpdCallback > 0 then do
          let ratio ← wholeRatio n (min c.mpdCallback 60)
          let r ← pyMod nr ratio
          pure (if r = 0 then { q with callback := true } else q)
        else pure q : Py PeriodData) = .ok p := by
    by_cases he : c.etp > 0
    · simp only [he, if_true] at h
      cases hw : wholeRatio n (min c.etp 60) with
      | error e => simp [hw] at h
      | ok r =>
        obtain ⟨hdv, hr⟩ := wholeRatio_ok hw
        have hrp : 0 < r := by rw [hr]; exact ratio_pos hn (by omega) hdv
        simp only [hw] at h
        by_cases hdur : (if c.etpDuration = -1 then pd / 2 else c.etpDuration) > pd
        · simp [hdur] at h
        · simp only [hdur, if_false, pyMod_pos hrp] at h
          by_cases hz : nr % r = 0
          · simp only [hz, if_true] at h
            refine ⟨_, ⟨?_, ?_, ?_, ?_, ?_, ?_, ?_, ?_, ?_⟩, h⟩
            · rfl
            · rfl
            · rfl
            · rfl
            · rfl
            · rfl
            · rfl
            · have : n / min c.etp 60 ∣ nr := by rw [← hr]; exact Int.dvd_of_emod_eq_zero hz
              simp [he, this]
            · intro d hd
              simp at hd
              omega
          · simp only [hz, if_false] at h
            refine ⟨_, ⟨?_, ?_, ?_, ?_, ?_, ?_, ?_, ?_, ?_⟩, h⟩
            · rfl
            · rfl
            · rfl
            · rfl
            · rfl
            · rfl
            · rfl
            · have : ¬ n / min c.etp 60 ∣ nr := by
                rw [← hr]; exact fun hc => hz (Int.emod_eq_zero_of_dvd hc)
              simp [this]
            · simp
    · simp only [he, if_false] at h
      exact ⟨_, ⟨rfl, rfl, rfl, rfl, rfl, rfl, rfl, by simp [he], by simp⟩, h⟩
  obtain ⟨q, ⟨q1, q2, q3, q4, q5, q6, q7, q8, q9⟩, hq⟩ := step
  by_cases hcb : c.mpdCallback > 0
  · simp only [hcb, if_true, bind, Except.bind] at hq
    cases hw : wholeRatio n (min c.mpdCallback 60) with
    | error e => simp [hw] at hq
    | ok r =>
      obtain ⟨hdv, hr⟩ := wholeRatio_ok hw
      have hrp : 0 < r := by rw [hr]; exact ratio_pos hn (by omega) hdv
      simp only [hw, pyMod_pos hrp, pure, Except.pure] at hq
      by_cases hz : nr % r = 0
      · have hdvd : n / min c.mpdCallback 60 ∣ nr := by rw [← hr]; exact Int.dvd_of_emod_eq_zero hz
        simp only [hz, if_true, Except.ok.injEq] at hq
        subst hq
        exact ⟨⟨q1, q2, q3, q4, q8, by simp [hcb, hdvd], q9⟩, q6, q7⟩
      · have hdvd : ¬ n / min c.mpdCallback 60 ∣ nr := by
          rw [← hr]; exact fun hc => hz (Int.emod_eq_zero_of_dvd hc)
        simp only [hz, if_false, Except.ok.injEq] at hq
        subst hq
        exact ⟨⟨q1, q2, q3, q4, q8, by simp [hdvd, q5], q9⟩, q6, q7⟩
  · simp only [hcb, if_false, pure, Except.pure, Except.ok.injEq] at hq
    subst hq
    exact ⟨⟨q1, q2, q3, q4, q8, by simp [hcb, q5], q9⟩, q6, q7⟩

theorem finishPeriod_facts {c : Cfg} {n pd nr : Int} {p : PeriodData}
    (h : PeriodFacts c n pd nr p) (a next : Int) :
    PeriodFacts c n pd nr (finishPeriod a pd p next) := by
  obtain ⟨h1, h2, h3, h4, h5, h6, h7⟩ := h
  unfold finishPeriod
  dsimp only
  split <;> split <;> exact ⟨h1, h2, h3, h4, h5, h6, h7⟩

/-- The loop lists consecutive numbers. -/
theorem periodLoop_ok {c : Cfg} {n pd a : Int} (hn : 0 < n) (hd : 0 < c.segDur) :
    ∀ (k : Nat) (nr : Int) {ps : List PeriodData}, periodLoop c n pd a nr k = .ok ps →
      ps.length = k ∧ ∀ i (hi : i < ps.length), PeriodFacts c n pd (nr + i) ps[i] ∧
        (i + 1 < ps.length → ps[i].durS = some pd ∨ (ps[i].durS = ps[i].etp ∧ ps[i].etp.isSome)) := by
  intro k
  induction k with
  | zero => intro nr ps h; simp [periodLoop] at h; subst h; simp
  | succ k ih =>
    intro nr ps h
    unfold periodLoop at h
    cases hb : periodBase c n pd nr with
    | error e => simp [hb, bind, Except.bind] at h
    | ok p =>
      cases hl : periodLoop c n pd a (nr + 1) k with
      | error e => simp [hb, hl, bind, Except.bind] at h
      | ok rest =>
        simp only [hb, hl, bind, Except.bind, pure, Except.pure, Except.ok.injEq] at h
        obtain ⟨e1, e2⟩ := ih (nr + 1) hl
        obtain ⟨f, f1, f2⟩ := periodBase_ok hn hd hb
        subst h
        refine ⟨by simp [e1], ?_⟩
        intro i hi
        cases i with
        | zero =>
          simp only [Nat.cast_zero, add_zero, List.getElem_cons_zero]
          refine ⟨?_, ?_⟩
          · split
            · exact f
            · exact finishPeriod_facts f _ _
          · intro hk
            rw [if_neg (by simp at hk; omega)]
            unfold finishPeriod
            dsimp only
            split
            · simp
            · cases he : p.etp with
              | none => simp [f2, he]
              | some d => simp [f2, he]
        | succ i =>
          have := e2 i (by simpa using hi)
          simp only [List.getElem_cons_succ]
          push_cast
          have e : nr + (i + 1 : Int) = nr + 1 + i := by omega
          rw [e]
          refine ⟨this.1, fun hk => this.2 (by simpa using hk)⟩

/-- Period length in seconds for `n` periods per hour. -/
def periodLen (c : Cfg) : Int := 3600 / min c.periods 60

theorem periodLen_pos {c : Cfg} (hn : 0 < c.periods) : 60 ≤ periodLen c := by
  unfold periodLen
  have h1 : min c.periods 60 ≤ 60 := by omega
  have h2 : 0 < min c.periods 60 := by omega
  exact Int.le_ediv_of_mul_le h2 (by omega)

/-- The number range and the facts of all periods of a multi-period manifest. -/
theorem periodData_ok {c : Cfg} {now t : Int} (hn : 0 < c.periods) (hd : 0 < c.segDur)
    (ht : c.tsbd = some t) {ps : List PeriodData} (h : periodData c now = .ok ps) :
    let pd := periodLen c
    let first := (now - t - c.segDur) / pd
    let last := (now + pd / 2) / pd
    ps.length = (last + 1 - first).toNat ∧
      ∀ i (hi : i < ps.length), PeriodFacts c (min c.periods 60) pd (first + i) ps[i] ∧
        (i + 1 < ps.length → ps[i].durS = some pd ∨ (ps[i].durS = ps[i].etp ∧ ps[i].etp.isSome)) := by
  have hn' : 0 < min c.periods 60 := by omega
  have hp := periodLen_pos hn
  unfold periodData at h
  dsimp only at h
  split at h
  · simp at h
  · simp only [bind, Except.bind] at h
    split at h
    · simp at h
    · rename_i adFreq _
      rw [if_neg (by omega), if_neg (by omega)] at h
      simp only [ht] at h
      have e1 := fun x => Int.fdiv_eq_ediv_of_nonneg x (show 0 ≤ 3600 / min c.periods 60 by
        have : 3600 / min c.periods 60 = periodLen c := rfl
        omega)
      rw [e1, e1] at h
      exact periodLoop_ok hn' hd _ _ h

/-- **C25.** A multi-period manifest (service starting at the epoch): the periods have
consecutive numbers and each starts one period length after the previous one; the first
starts no later than the oldest addressable instant; the current period is listed; every
period that overlaps the window is listed from half a period before its start; every period
but the last has an explicit end which is its successor's start unless it is an
early-terminated one, which ends no later.
Missing: services with another start time (`C25_ast_violation`). -/
theorem C25_tiles_partial {c : Cfg} {now t : Int} (hn : 0 < c.periods) (hd : 0 < c.segDur)
    (ht : c.tsbd = some t) (h0 : 0 ≤ t) (hast : c.ast = 0)
    {ps : List PeriodData} (h : periodData c now = .ok ps) :
    (∀ i (hi : i + 1 < ps.length), ps[i + 1].id = ps[i].id + 1 ∧
      ps[i + 1].start = ps[i].start + periodLen c ∧
      ((ps[i].durS = some (periodLen c)) ∨
        (ps[i].etp.isSome ∧ ps[i].durS = ps[i].etp ∧ ∀ d ∈ ps[i].durS, d ≤ periodLen c))) ∧
    (∃ p ∈ ps.head?, c.ast + p.start ≤ now - t - c.segDur) ∧
    (∃ p ∈ ps, c.ast + p.start ≤ now ∧ now < c.ast + p.start + periodLen c) ∧
    (∀ k, c.ast + k * periodLen c - periodLen c / 2 ≤ now →
      now - t - c.segDur < c.ast + (k + 1) * periodLen c →
      ∃ p ∈ ps, p.id = k ∧ p.start = k * periodLen c) := by
  have hp := periodLen_pos hn
  obtain ⟨hl, hf⟩ := periodData_ok hn hd ht h
  generalize hpd : periodLen c = pd at *
  rw [hast]
  have hfl : (now - t - c.segDur) / pd ≤ (now + pd / 2) / pd :=
    Int.ediv_le_ediv (by omega) (by omega)
  have mem : ∀ k, (now - t - c.segDur) / pd ≤ k → k ≤ (now + pd / 2) / pd →
      ∃ p ∈ ps, p.id = k ∧ p.start = k * pd := by
    intro k h1 h2
    have hi : (k - (now - t - c.segDur) / pd).toNat < ps.length := by rw [hl]; omega
    obtain ⟨f, -⟩ := hf _ hi
    have e : (now - t - c.segDur) / pd + ((k - (now - t - c.segDur) / pd).toNat : Int) = k := by omega
    rw [e] at f
    exact ⟨_, List.getElem_mem hi, f.id, f.start⟩
  refine ⟨?_, ?_, ?_, ?_⟩
  · intro i hi
    obtain ⟨f, g⟩ := hf i (by omega)
    obtain ⟨f', -⟩ := hf (i + 1) hi
    refine ⟨by rw [f.id, f'.id]; push_cast; omega, ?_, ?_⟩
    · rw [f.start, f'.start]; push_cast; ring
    · rcases g hi with g | ⟨g1, g2⟩
      · exact Or.inl g
      · exact Or.inr ⟨g2, g1, by rw [g1]; exact f.etpLe⟩
  · have h0' : 0 < ps.length := by rw [hl]; omega
    obtain ⟨f, -⟩ := hf 0 h0'
    refine ⟨ps[0], ?_, ?_⟩
    · rw [List.head?_eq_getElem?, List.getElem?_eq_getElem h0']; rfl
    · rw [f.start]
      have := Int.ediv_mul_le (now - t - c.segDur) (show pd ≠ 0 by omega)
      push_cast
      simp only [add_zero, zero_add]
      exact this
  · obtain ⟨p, hp1, -, hp3⟩ := mem (now / pd) (Int.ediv_le_ediv (by omega) (by omega))
      (Int.ediv_le_ediv (by omega) (by omega))
    have h1 := Int.ediv_mul_le now (show pd ≠ 0 by omega)
    have h2 := Int.lt_ediv_add_one_mul_self now (show 0 < pd by omega)
    refine ⟨p, hp1, by rw [hp3]; omega, ?_⟩
    rw [hp3]
    have : (now / pd + 1) * pd = now / pd * pd + pd := by ring
    omega
  · intro k h1 h2
    refine mem k ?_ ?_
    · have h3 : (now - t - c.segDur) / pd < k + 1 := Int.ediv_lt_of_lt_mul (by omega) (by omega)
      omega
    · exact Int.le_ediv_of_mul_le (by omega) (by omega)

/-- 30 periods per hour, 200 s buffer, every second period terminating early. -/
def periodCfg : Cfg :=
  { segDur := 2, vodFirst := 1, vodNr := 30, tsbd := some 200, periods := 30, etp := 15 }

example : (periodData periodCfg 100000).toOption.map (fun ps => ps.map (fun p => (p.id, p.start, p.durS)))
    = some [(831, 99720, some 120), (832, 99840, some 60), (833, 99960, none)] := by decide +kernel

/-- **C25 (violation).** Period numbers count from the epoch while period starts are relative
to the availability start: for a service that starts at 90000 no period of the manifest at
100000 contains the current instant. -/
theorem C25_ast_violation :
    let c := { periodCfg with ast := 90000 }
    ∃ ps, periodData c 100000 = .ok ps ∧
      ∀ p ∈ ps, ¬ (c.ast + p.start ≤ 100000) := by
  refine ⟨_, rfl, ?_⟩
  decide +kernel

/-- **C26.** In two manifests of one service, whenever generated, a period listed in both has
the same start, start number, presentation time offset, early-termination duration and
callback mark. -/
theorem C26_stable {c : Cfg} {now now' : Int} (hn : 0 < c.periods) (hd : 0 < c.segDur)
    (ht : c.tsbd.isSome) {ps ps' : List PeriodData} (h : periodData c now = .ok ps)
    (h' : periodData c now' = .ok ps') {p p' : PeriodData} (hp : p ∈ ps) (hp' : p' ∈ ps')
    (hid : p.id = p'.id) :
    p.start = p'.start ∧ p.startNumber = p'.startNumber ∧ p.pto = p'.pto ∧ p.etp = p'.etp ∧
      p.callback = p'.callback := by
  obtain ⟨t, ht⟩ := Option.isSome_iff_exists.mp ht
  obtain ⟨-, hf⟩ := periodData_ok hn hd ht h
  obtain ⟨-, hf'⟩ := periodData_ok hn hd ht h'
  obtain ⟨i, hi, rfl⟩ := List.getElem_of_mem hp
  obtain ⟨j, hj, rfl⟩ := List.getElem_of_mem hp'
  obtain ⟨f, -⟩ := hf i hi
  obtain ⟨f', -⟩ := hf' j hj
  have e := hid
  rw [f.id, f'.id] at e
  rw [e] at f
  exact ⟨by rw [f.start, f'.start], by rw [f.startNumber, f'.startNumber], by rw [f.pto, f'.pto],
    by rw [f.etp, f'.etp], by rw [f.callback, f'.callback]⟩

example : ((periodData periodCfg 100000).toOption.map (·.length),
    (periodData periodCfg 100050).toOption.map (·.length)) = (some 3, some 3) := by decide +kernel

/-- The one-period services never change their period data. -/
theorem C26_single {c : Cfg} (hn : min c.periods 60 = -1 ∨ min c.periods 60 = 0) (now now' : Int) :
    periodData c now = periodData c now' := by
  unfold periodData
  dsimp only
  rcases hn with hn | hn <;> simp [hn]

/-- **C27.** In a manifest with periods the start number of every period is the number of the
segment whose media time on the server is the presentation time offset, which is the period
start, if the segment duration divides the period length, numbers start at 0 and there is no
time offset.
Missing: other segment durations and start numbers (`C27_grid_violation`). -/
theorem C27_start_number_partial {c : Cfg} {now t : Int} (hn : 0 < c.periods) (hd : 0 < c.segDur)
    (ht : c.tsbd = some t) (hdiv : c.segDur ∣ periodLen c) (hs : c.startNr = 0)
    (ho : c.timeoffset = none) {ps : List PeriodData} (h : periodData c now = .ok ps) :
    ∀ p ∈ ps, mediaTime c p.startNumber = p.pto ∧ p.pto = p.start ∧
      ∀ s, p.startNumber = s ↔ mediaTime c s = p.pto := by
  intro p hp
  obtain ⟨-, hf⟩ := periodData_ok hn hd ht h
  obtain ⟨i, hi, rfl⟩ := List.getElem_of_mem hp
  obtain ⟨f, -⟩ := hf i hi
  generalize ps[i] = p at *
  have hm : ∀ s, mediaTime c s = s * c.segDur := by
    intro s; simp [mediaTime, firstNumber, hs, ho]
  have hdv : c.segDur ∣ ((now - t - c.segDur) / periodLen c + i) * periodLen c := Dvd.dvd.mul_left hdiv _
  have key : p.startNumber * c.segDur = p.pto := by
    rw [f.startNumber, f.pto]
    exact Int.ediv_mul_cancel hdv
  refine ⟨by rw [hm, key], by rw [f.pto, f.start], ?_⟩
  intro s
  rw [hm, ← key]
  constructor
  · intro e; rw [e]
  · intro e; exact (Int.eq_of_mul_eq_mul_right (by omega) e).symm

example : periodCfg.segDur ∣ periodLen periodCfg ∧ periodCfg.startNr = 0 ∧
    (periodData periodCfg 100000).toOption.map (fun ps => ps.map (fun p => (p.startNumber, p.pto)))
    = some [(49860, 99720), (49920, 99840), (49980, 99960)] := by decide +kernel

/-- **C27 (one period starting at 1000 h).** For `periods_0` the start number and the offset
agree if the segment duration divides 3600000. -/
theorem C27_old_period {c : Cfg} {now : Int} (hp : c.periods = 0) (hd : 0 < c.segDur)
    (hdiv : c.segDur ∣ 3600000) (hs : c.startNr = 0) (ho : c.timeoffset = none) (hi : c.insertAd ≤ 0) :
    ∃ p, periodData c now = .ok [p] ∧ mediaTime c p.startNumber = p.pto ∧ p.pto = p.start := by
  have hm : ∀ s, mediaTime c s = s * c.segDur := by
    intro s; simp [mediaTime, firstNumber, hs, ho]
  refine ⟨{ id := 0, start := 3600000, startNumber := 3600000 / c.segDur, pto := 3600000 }, ?_, ?_, rfl⟩
  · unfold periodData
    have : ¬ c.insertAd > 0 := by omega
    simp [hp, okPeriods, this, pyDiv_pos hd, bind, Except.bind, pure, Except.pure]
  · rw [hm]; exact Int.ediv_mul_cancel hdiv

example : ({ segDur := 8 } : Cfg).segDur ∣ 3600000 := by decide

/-- **C27 (violation).** With 7 s segments and 120 s periods the period start 120 is not a
segment boundary: the start number 17 belongs to media time 119; and with start number 1 the
server's number 60 is at media time 118, not at the period start 120. -/
theorem C27_grid_violation :
    let c : Cfg := { segDur := 7, tsbd := some 0, periods := 30 }
    let c' : Cfg := { segDur := 2, tsbd := some 0, periods := 30, startNr := 1 }
    (∃ p, periodData c 130 = .ok [p] ∧ p.start = 120 ∧ p.pto = 120 ∧ mediaTime c p.startNumber = 119) ∧
    (∃ p, periodData c' 130 = .ok [p] ∧ p.start = 120 ∧ p.pto = 120 ∧ mediaTime c' p.startNumber = 118) := by
  refine ⟨⟨_, rfl, ?_⟩, ⟨_, rfl, ?_⟩⟩ <;> decide +kernel

/-- **C49 (acceptance).** With `x` link periods per hour the manifest is refused unless the
number of periods is a multiple of `x`. -/
theorem C49_accept {c : Cfg} {now : Int} (hx : 0 < c.xlink) {r : Mpd × List Int}
    (h : getMpd c now = .ok r) : min c.xlink 60 ∣ min c.periods 60 ∧ min c.periods 60 ≠ -1 := by
  unfold getMpd checkXlink at h
  have hx' : min c.xlink 60 > 0 := by omega
  simp only [hx', true_and] at h
  split at h
  · simp [bind, Except.bind] at h
  · split at h
    · simp [bind, Except.bind] at h
    · rename_i h1 h2
      exact ⟨Int.dvd_of_emod_eq_zero (by simpa using h2), h1⟩

/-- **C49 (selection, no ads).** When accepted, exactly the listed periods whose number is a
multiple of periods/links are replaced by links, so a period keeps its role in every manifest
that lists it.
Missing: with ads the first candidate is kept (`C49_ad_violation`). -/
theorem C49_selection_partial {c : Cfg} {now : Int} (hx : 0 < c.xlink) (hn : 0 < c.periods)
    (ha : c.insertAd ≤ 0) {m : Mpd} {l : List Int} (h : getMpd c now = .ok (m, l)) (i : Int) :
    i ∈ l ↔ (∃ p ∈ m.periods, p.id = i) ∧ (min c.periods 60 / min c.xlink 60) ∣ i := by
  obtain ⟨hdv, -⟩ := C49_accept hx h
  have hx' : min c.xlink 60 > 0 := by omega
  have hr : 0 < min c.periods 60 / min c.xlink 60 := ratio_pos (by omega) hx' hdv
  unfold getMpd at h
  simp only [bind, Except.bind] at h
  split at h
  · simp at h
  split at h
  · simp at h
  rename_i mm hm
  unfold linkedIds at h
  simp only [hx', if_true] at h
  rw [Int.fdiv_eq_ediv_of_nonneg _ (by omega), if_neg (by omega)] at h
  rw [if_neg (by omega)] at h
  simp only [pure, Except.pure, Except.ok.injEq, Prod.mk.injEq] at h
  obtain ⟨h1, h2⟩ := h
  subst h1
  rw [← h2]
  simp only [List.mem_filter, List.mem_map, decide_eq_true_eq]
  rw [Int.fmod_eq_emod_of_nonneg _ (by omega), ← Int.dvd_iff_emod_eq_zero]

/-- Six periods per hour, two of them links. -/
def xlinkCfg : Cfg := { segDur := 2, tsbd := some 1500, periods := 6, xlink := 2 }

example : (getMpd xlinkCfg 100000).toOption.map (fun r => (r.1.periods.map (·.id), r.2))
    = some ([164, 165, 166, 167], [165]) := by decide +kernel

/-- **C49 (role over time).** Without ads a period listed in two manifests of the service is a
link in both or in neither. -/
theorem C49_role_partial {c : Cfg} {now now' : Int} (hx : 0 < c.xlink) (hn : 0 < c.periods)
    (ha : c.insertAd ≤ 0) {m m' : Mpd} {l l' : List Int} (h : getMpd c now = .ok (m, l))
    (h' : getMpd c now' = .ok (m', l')) {i : Int} (hi : i ∈ m.periods.map (·.id))
    (hi' : i ∈ m'.periods.map (·.id)) : i ∈ l ↔ i ∈ l' := by
  rw [C49_selection_partial hx hn ha h, C49_selection_partial hx hn ha h']
  simp only [List.mem_map] at hi hi'
  simp [hi, hi']

/-- **C49 (violation).** With ads the role of a period changes while it is listed: period 168
is a link at 101100 and no longer one at 102000. -/
theorem C49_ad_violation :
    let c := { xlinkCfg with insertAd := 1 }
    (getMpd c 101100).toOption.map (fun r => (r.1.periods.map (·.id), r.2)) =
      some ([165, 166, 167, 168, 169], [168]) ∧
    (getMpd c 102000).toOption.map (fun r => (r.1.periods.map (·.id), r.2)) =
      some ([167, 168, 169, 170], []) := by
  decide +kernel

end Verif
