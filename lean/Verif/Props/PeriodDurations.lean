import Verif.Props.Periods
/-
C56: announced period durations.
-/
namespace Verif

theorem finishPeriod_dur {a pd next : Int} {p : PeriodData} (hp : p.durAttr = none) :
    (finishPeriod a pd p next).durAttr = if a > 0 ∧ a ∣ next then some pd else none := by
  have e : (a > 0 ∧ Int.fmod next a = 0) ↔ (a > 0 ∧ a ∣ next) := by
    constructor
    · rintro ⟨ha, h⟩
      rw [Int.fmod_eq_emod_of_nonneg _ (by omega)] at h
      exact ⟨ha, Int.dvd_of_emod_eq_zero h⟩
    · rintro ⟨ha, h⟩
      rw [Int.fmod_eq_emod_of_nonneg _ (by omega)]
      exact ⟨ha, Int.emod_eq_zero_of_dvd h⟩
  unfold finishPeriod
  dsimp only
  by_cases hc : a > 0 ∧ a ∣ next
  · rw [if_pos hc, if_pos (e.2 hc)]
    rfl
  · rw [if_neg hc, if_neg (fun h => hc (e.1 h))]
    split <;> simp [hp]

theorem periodLoop_dur {c : Cfg} {n pd a : Int} (hn : 0 < n) (hd : 0 < c.segDur) :
    ∀ (k : Nat) (nr : Int) {ps : List PeriodData}, periodLoop c n pd a nr k = .ok ps →
      ∀ i (hi : i < ps.length), ps[i].durAttr =
        if i + 1 < ps.length ∧ a > 0 ∧ a ∣ nr + i + 1 then some pd else none := by
  intro k
  induction k with
  | zero => intro nr ps h; simp [periodLoop] at h; subst h; simp
  | succ k ih =>
    intro nr ps h
    unfold periodLoop at h
    cases hb : periodBase c n pd nr with
    | error e => simp [hb, bind, Except.bind] at h
    | ok p =>
      cases hl : periodLoop c n pd a (nr + 1) k with
      | error e => simp [hb, hl, bind, Except.bind] at h
      | ok rest =>
        simp only [hb, hl, bind, Except.bind, pure, Except.pure, Except.ok.injEq] at h
        obtain ⟨e1, _⟩ := periodLoop_ok hn hd k (nr + 1) hl
        have e2 := ih (nr + 1) hl
        obtain ⟨f, f1, f2⟩ := periodBase_ok hn hd hb
        subst h
        intro i hi
        cases i with
        | zero =>
          simp only [List.getElem_cons_zero, List.length_cons, e1]
          by_cases hk : k = 0
          · rw [if_pos hk, if_neg (by omega), f1]
          · rw [if_neg hk, finishPeriod_dur f1]
            have : 0 + 1 < k + 1 := by omega
            simp only [this, true_and]
            push_cast
            simp
        | succ i =>
          simp only [List.getElem_cons_succ, List.length_cons]
          rw [e2 i (by simpa using hi)]
          push_cast
          have e : nr + 1 + (i : Int) + 1 = nr + (i + 1) + 1 := by ring
          rw [e]
          have : i + 1 < rest.length ↔ i + 1 + 1 < rest.length + 1 := by omega
          simp only [this]

/-- Distance of ad periods, in periods: 0 or less means no ads. -/
def adDistance (c : Cfg) : Int := if c.insertAd > 0 then Int.fdiv (min c.periods 60) c.xlink else -1

theorem periodData_dur {c : Cfg} {now t : Int} (hn : 0 < c.periods) (hd : 0 < c.segDur)
    (ht : c.tsbd = some t) {ps : List PeriodData} (h : periodData c now = .ok ps) (i : Nat) (hi : i < ps.length) :
    ps[i].durAttr = if i + 1 < ps.length ∧ adDistance c > 0 ∧ adDistance c ∣ ps[i].id + 1
      then some (periodLen c) else none := by
  have hn' : 0 < min c.periods 60 := by omega
  have hp := periodLen_pos hn
  obtain ⟨_, hf⟩ := periodData_ok hn hd ht h
  rw [(hf i hi).1.id]
  unfold periodData at h
  dsimp only at h
  split at h
  · simp at h
  · simp only [bind, Except.bind] at h
    split at h
    · simp at h
    · rename_i adFreq hadf
      have hadd : adFreq = adDistance c := by
        unfold adDistance
        split at hadf
        · rename_i ha
          rw [if_pos ha]
          unfold pyDiv at hadf
          split at hadf
          · cases hadf
          · cases hadf; rfl
        · rename_i ha
          rw [if_neg ha]
          cases hadf; rfl
      rw [if_neg (by omega), if_neg (by omega)] at h
      simp only [ht] at h
      have e1 := fun x => Int.fdiv_eq_ediv_of_nonneg x (show 0 ≤ 3600 / min c.periods 60 by
        have : 3600 / min c.periods 60 = periodLen c := rfl
        omega)
      rw [e1, e1] at h
      rw [periodLoop_dur hn' hd _ _ h i hi, hadd]
      rfl

/-- The period data behind a manifest. -/
theorem getMpd_periods {c : Cfg} {now : Int} {m : Mpd} {l : List Int} (h : getMpd c now = .ok (m, l)) :
    ∃ ps, periodData c now = .ok ps ∧ m.periods = ps.map periodElem ∧ linkedIds c (m.periods.map (·.id)) = .ok l := by
  unfold getMpd at h
  simp only [bind, Except.bind] at h
  split at h
  · cases h
  split at h
  · cases h
  rename_i mm hm
  split at h
  · cases h
  rename_i ll hl
  simp only [pure, Except.pure, Except.ok.injEq, Prod.mk.injEq] at h
  obtain ⟨rfl, rfl⟩ := h
  unfold generateMpd at hm
  simp only [bind, Except.bind] at hm
  split at hm
  · cases hm
  split at hm
  · cases hm
  split at hm
  · cases hm
  rename_i ps hps
  simp only [pure, Except.pure, Except.ok.injEq] at hm
  refine ⟨ps, hps, by rw [← hm], hl⟩

/-- **C56.** Of two neighbouring periods `p`, `q` in a manifest, `p` announces a duration exactly if
it is an early-terminated one or `q` is an ad period; it ends at the start of `q` if `q` is an ad
period, and never after it. -/
theorem C56_durations {c : Cfg} {now t : Int} (hn : 0 < c.periods) (hd : 0 < c.segDur)
    (ht : c.tsbd = some t) {m : Mpd} {l : List Int} (h : getMpd c now = .ok (m, l)) (i : Nat)
    (hi : i + 1 < m.periods.length) :
    m.periods[i + 1].id = m.periods[i].id + 1 ∧
    (adDistance c > 0 ∧ adDistance c ∣ m.periods[i + 1].id →
      m.periods[i].duration = some (m.periods[i + 1].start - m.periods[i].start)) ∧
    (¬ (adDistance c > 0 ∧ adDistance c ∣ m.periods[i + 1].id) → m.periods[i].duration =
      if c.etp > 0 ∧ min c.periods 60 / min c.etp 60 ∣ m.periods[i].id then
        some (if c.etpDuration = -1 then (m.periods[i + 1].start - m.periods[i].start) / 2 else c.etpDuration)
      else none) ∧
    (∀ d ∈ m.periods[i].duration, m.periods[i].start + d ≤ m.periods[i + 1].start) := by
  obtain ⟨ps, h1, h2, _⟩ := getMpd_periods h
  obtain ⟨_, hf⟩ := periodData_ok hn hd ht h1
  have hlen : m.periods.length = ps.length := by rw [h2]; simp
  obtain ⟨f, _⟩ := hf i (by omega)
  obtain ⟨f', _⟩ := hf (i + 1) (by omega)
  have hdur := periodData_dur hn hd ht h1 i (by omega)
  have g : ∀ j (hj : j < ps.length), m.periods[j]'(by omega) = periodElem ps[j] := by
    intro j hj
    simp only [h2, List.getElem_map]
  rw [g i (by omega), g (i + 1) (by omega)]
  have hid : (periodElem ps[i + 1]).id = (periodElem ps[i]).id + 1 := by
    show ps[i + 1].id = ps[i].id + 1
    rw [f.id, f'.id]; push_cast; ring
  have hst : (periodElem ps[i + 1]).start - (periodElem ps[i]).start = periodLen c := by
    show ps[i + 1].start - ps[i].start = _
    rw [f.start, f'.start]; push_cast; ring
  have hid' : (periodElem ps[i]).id = ps[i].id := rfl
  have hpd : (periodElem ps[i]).duration = ps[i].durAttr.or ps[i].etp := rfl
  have hlt : i + 1 < ps.length := by omega
  rw [hid, hid', hst, hpd, hdur]
  simp only [hlt, true_and]
  have he := f.etp
  rw [← f.id] at he
  refine ⟨fun hc => by simp [hc], fun hc => ?_, ?_⟩
  · rw [if_neg hc, he]; rfl
  · intro d hdd
    have hle : d ≤ periodLen c := by
      split at hdd
      · simp at hdd; omega
      · exact f.etpLe d (by simpa using hdd)
    omega

/-- **C56 (links).** With ads, the period before every link in the manifest has an explicit duration
and ends where the linked period starts. -/
theorem C56_before_link {c : Cfg} {now t : Int} (hn : 0 < c.periods) (hd : 0 < c.segDur)
    (ht : c.tsbd = some t) (hx : 0 < c.xlink) (hx' : c.xlink ≤ 60) (ha : 0 < c.insertAd)
    {m : Mpd} {l : List Int} (h : getMpd c now = .ok (m, l)) (i : Nat) (hi : i + 1 < m.periods.length)
    (hl : m.periods[i + 1].id ∈ l) :
    m.periods[i].duration = some (m.periods[i + 1].start - m.periods[i].start) := by
  obtain ⟨_, h2, _⟩ := C56_durations hn hd ht h i hi
  apply h2
  obtain ⟨hdv, -⟩ := C49_accept hx h
  have hmin : min c.xlink 60 = c.xlink := by omega
  rw [hmin] at hdv
  have hr : 0 < min c.periods 60 / c.xlink := ratio_pos (by omega) hx hdv
  obtain ⟨_, _, _, h3⟩ := getMpd_periods h
  unfold adDistance
  rw [if_pos ha, Int.fdiv_eq_ediv_of_nonneg _ (by omega)]
  refine ⟨hr, ?_⟩
  unfold linkedIds at h3
  simp only [hmin] at h3
  rw [if_pos hx, Int.fdiv_eq_ediv_of_nonneg _ (by omega)] at h3
  rw [if_neg (by omega), if_pos ha] at h3
  simp only [pure, Except.pure, Except.ok.injEq] at h3
  rw [← h3] at hl
  have := List.mem_of_mem_drop hl
  simp only [List.mem_filter, decide_eq_true_eq] at this
  rw [Int.fmod_eq_emod_of_nonneg _ (by omega)] at this
  exact Int.dvd_of_emod_eq_zero this.2

/-- Six periods per hour, two links, ads: period 167 ends at the start of the linked period 168. -/
example : (getMpd { xlinkCfg with insertAd := 1 } 101100).toOption.map
    (fun r => (r.1.periods.map (fun p => (p.id, p.start, p.duration)), r.2)) =
    some ([(165, 99000, none), (166, 99600, none), (167, 100200, some 600), (168, 100800, none),
      (169, 101400, none)], [168]) := by decide +kernel

/-- **C56 (violation).** A period announced to terminate early (after half its length, as long as it
is the last one of the manifest) is announced with its full length later, when an ad period
follows. -/
theorem C56_early_violation :
    let c := { xlinkCfg with insertAd := 1, etp := 6 }
    ((getMpd c 100000).toOption.map (fun r => r.1.periods.map (fun p => (p.id, p.duration)))).getD [] =
        [(164, some 600), (165, some 300), (166, some 300), (167, some 300)] ∧
      ((getMpd c 100600).toOption.map (fun r => r.1.periods.map (fun p => (p.id, p.duration)))).getD [] =
        [(165, some 300), (166, some 300), (167, some 600), (168, some 300)] := by
  decide +kernel

end Verif
