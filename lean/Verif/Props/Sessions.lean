import Verif.Props.StartStop
/-
C33: announced end times of a duration list; C34: 32-bit sessions.
-/
namespace Verif

/-- End of the first `k` durations of a list, counted from `start`, on the segment grid. -/
def prefixEnd (start d : Int) (ds : List Int) (k : Nat) : Int := (start + (ds.take k).sum) / d * d

theorem durEnds_eq {s d : Int} (hd : 0 < d) : ∀ (ds : List Int) (total : Int),
    durEnds s d total ds = .ok ((List.range ds.length).map fun k =>
      ((s + (total + (ds.take (k + 1)).sum)) / d * d, total + (ds.take (k + 1)).sum))
  | [], _ => rfl
  | x :: xs, total => by
    simp only [durEnds, quantize_pos hd, durEnds_eq hd xs, bind, Except.bind, pure, Except.pure,
      List.length_cons, List.range_succ_eq_map, List.map_cons, List.map_map, List.take_succ_cons,
      List.sum_cons, List.take_zero, List.sum_nil, Int.add_zero]
    congr 2
    apply List.map_congr_left
    intro k _
    simp only [Function.comp, Int.add_assoc]

theorem aetLoop_split (now mup : Rat) : ∀ (M : List (Int × Int)) (e : Int) (d : Option Int),
    ∃ P Q, M = P ++ Q ∧ (∀ x ∈ P, now + 2 * mup ≤ x.1) ∧ (∀ x ∈ Q.head?, (x.1 : Rat) < now + 2 * mup) ∧
      aetLoop now mup M e d = (match P.getLast? with | none => (e, d) | some x => (x.1, some x.2))
  | [], e, d => ⟨[], [], rfl, by simp, by simp, rfl⟩
  | (a, t) :: M, e, d => by
    unfold aetLoop
    by_cases h : now > a - 2 * mup
    · refine ⟨[], (a, t) :: M, rfl, by simp, ?_, by rw [if_pos h]; rfl⟩
      intro x hx
      simp only [List.head?_cons, Option.mem_def, Option.some.injEq] at hx
      subst hx
      linarith
    · obtain ⟨P, Q, h1, h2, h3, h4⟩ := aetLoop_split now mup M a (some t)
      refine ⟨(a, t) :: P, Q, by rw [h1]; rfl, ?_, h3, ?_⟩
      · intro x hx
        rcases List.mem_cons.mp hx with rfl | hx
        · have := not_lt.mp h; simp only; linarith
        · exact h2 x hx
      · rw [if_neg h, h4]
        cases hP : P.getLast? with
        | none =>
          have := List.getLast?_eq_none_iff.mp hP
          subst this
          rfl
        | some x =>
          have : P ≠ [] := by rintro rfl; simp at hP
          rw [List.getLast?_cons, hP]; rfl

/-- The loop of `update_with_aet` by index: the entries from `k` on are far enough in the
future and the one before `k` is not. -/
theorem aetLoop_index (now mup : Rat) (L : List (Int × Int)) (e : Int) (d : Option Int) :
    ∃ k, k ≤ L.length ∧ (∀ i (h : i < L.length), k ≤ i → now + 2 * mup ≤ (L[i].1 : Rat)) ∧
      (∀ i (h : i < L.length), i + 1 = k → (L[i].1 : Rat) < now + 2 * mup) ∧
      aetLoop now mup L.reverse e d = (match L[k]? with | none => (e, d) | some x => (x.1, some x.2)) := by
  obtain ⟨P, Q, h1, h2, h3, h4⟩ := aetLoop_split now mup L.reverse e d
  have hL : L = Q.reverse ++ P.reverse := by
    rw [← List.reverse_append, ← h1, List.reverse_reverse]
  refine ⟨Q.length, by simp [hL], ?_, ?_, ?_⟩
  · intro i hi hk
    apply h2
    have : L[i] = (P.reverse)[i - Q.length]'(by simp [hL] at hi ⊢; omega) := by
      simp only [hL]
      rw [List.getElem_append_right (by simpa using hk)]
      simp
    rw [this, ← List.mem_reverse]
    exact List.getElem_mem _
  · intro i hi hk
    apply h3
    have hq : i < Q.reverse.length := by simp; omega
    have : L[i] = (Q.reverse)[i] := by
      simp only [hL]
      rw [List.getElem_append_left hq]
    rw [this, List.getElem_reverse]
    have : Q.length - 1 - i = 0 := by omega
    simp only [this]
    cases Q with
    | nil => simp at hq
    | cons q Q => simp
  · rw [h4, hL, List.getElem?_append_right (by simp)]
    simp [List.getLast?_eq_head?_reverse, List.head?_eq_getElem?]

theorem take_sum_mono {ds : List Int} (h : ∀ x ∈ ds, 0 ≤ x) : ∀ {i j : Nat}, i ≤ j →
    (ds.take i).sum ≤ (ds.take j).sum := by
  induction ds with
  | nil => intro i j _; simp
  | cons x xs ih =>
    intro i j hij
    have hx : 0 ≤ x := h x (by simp)
    have hxs : ∀ y ∈ xs, 0 ≤ y := fun y hy => h y (by simp [hy])
    cases i with
    | zero =>
      cases j with
      | zero => simp
      | succ j =>
        have := @ih hxs 0 j (by omega)
        simp only [List.take_zero, List.sum_nil] at this
        simp only [List.take_zero, List.sum_nil, List.take_succ_cons, List.sum_cons]
        omega
    | succ i =>
      cases j with
      | zero => omega
      | succ j =>
        have := @ih hxs i j (by omega)
        simp only [List.take_succ_cons, List.sum_cons]
        omega

theorem prefixEnd_mono {s d : Int} {ds : List Int} (hd : 0 < d) (h : ∀ x ∈ ds, 0 ≤ x) {i j : Nat}
    (hij : i ≤ j) : prefixEnd s d ds i ≤ prefixEnd s d ds j := by
  unfold prefixEnd
  apply Int.mul_le_mul_of_nonneg_right _ (by omega)
  apply Int.ediv_le_ediv hd
  have := take_sum_mono h hij
  omega

/-- Specification of the announced end: `k` durations are announced at time `now` with update
period `mup`, which is the smallest number (at least one) whose end is at least two update
periods away, or all of them if there is none. -/
def Announced (start d : Int) (ds : List Int) (now mup : Rat) (k : Nat) : Prop :=
  1 ≤ k ∧ k ≤ ds.length ∧
  (∀ j, 1 ≤ j → j < k → (prefixEnd start d ds j : Rat) < now + 2 * mup) ∧
  (now + 2 * mup ≤ prefixEnd start d ds k ∨ k = ds.length)

theorem announced_unique {s d : Int} {ds : List Int} {now mup : Rat} {k k' : Nat}
    (h : Announced s d ds now mup k) (h' : Announced s d ds now mup k') : k = k' := by
  obtain ⟨a1, a2, a3, a4⟩ := h
  obtain ⟨b1, b2, b3, b4⟩ := h'
  rcases Nat.lt_trichotomy k k' with hlt | rfl | hlt
  · have := b3 k a1 hlt
    rcases a4 with a4 | a4
    · linarith
    · omega
  · rfl
  · have := a3 k' b1 hlt
    rcases b4 with b4 | b4
    · linarith
    · omega

/-- What `process_url` yields for a URL with a start time and a duration list and no other
session option. -/
theorem finishUrl_durs {vodOf : Text → Py VodCfg} {now : Int} {st : UrlState} {rest : List Text}
    {c : Cfg} {s : Int} (hs : st.start = some s) (hm : st.modulo = none) (hc : st.cont = false)
    (ht : st.cfg.tfdt32 = false) (hsp : st.stop = none) (hdur : st.durations ≠ [])
    (hv : GoodVod vodOf) (h : finishUrl vodOf now st rest = .ok c) :
    0 < c.segDur ∧ c.ast = s / c.segDur * c.segDur ∧ c.mup = some (st.cfg.mup.getD 10) ∧
    c.startNr = st.cfg.startNr ∧
    c.lastNrs = st.cfg.lastNrs ++
      [(((prefixEnd s c.segDur st.durations st.durations.length - c.ast) / c.segDur - 1 : Int) : Rat)] ∧
    (∃ k, k ≤ st.durations.length ∧
      (∀ i, i < st.durations.length → k ≤ i →
        (now : Rat) + 2 * st.cfg.mup.getD 10 ≤ prefixEnd s c.segDur st.durations (i + 1)) ∧
      (∀ i, i < st.durations.length → i + 1 = k →
        (prefixEnd s c.segDur st.durations (i + 1) : Rat) < now + 2 * st.cfg.mup.getD 10) ∧
      (k < st.durations.length → c.aet = some (prefixEnd s c.segDur st.durations (k + 1) : Rat) ∧
        c.mpdDur = some (((st.durations.take (k + 1)).sum : Int) : Rat)) ∧
      (k = st.durations.length →
        c.aet = some (prefixEnd s c.segDur st.durations st.durations.length : Rat) ∧
        c.mpdDur = none)) := by
  obtain ⟨c1, c2, c3, c4, c5, c6, h1, h2, h3, h4, h5, h6, h7⟩ := finishUrl_steps.mp h
  obtain ⟨name, v, reps, rel, file, -, hvod, e1⟩ := updateFiles_ok h1
  obtain ⟨hd, hvn⟩ := hv _ _ hvod
  have h2' : c1.processStartTime s st.durations now none = .ok c2 := by
    unfold startStep at h2
    simpa only [hs, hm, hsp, Option.isSome_none, Bool.false_eq_true, if_false] using h2
  obtain ⟨b, o, e7, ho⟩ := finalStep_eq st c6
  obtain ⟨p, e6⟩ := updatePublishTime_ok h6
  have e45 : c5 = c4 := by
    unfold modStep at h5; rw [hm] at h5; exact (Py.pure_ok.mp h5).symm
  have e34 : c4 = c3 := by
    unfold contStep at h4; rw [hc] at h4; exact (Py.pure_ok.mp h4).symm
  have hd1 : 0 < c1.segDur := by rw [e1]; exact hd
  obtain ⟨ends, hends, c11, c12, e11, -, e12, e13, -⟩ := processStartTime_ok hd1 h2'
  rw [durEnds_eq hd1] at hends
  simp only [Except.ok.injEq, Int.zero_add] at hends
  have hlen : ends.length = st.durations.length := by rw [← hends]; simp
  have hpos : 0 < st.durations.length := List.length_pos_iff.mpr hdur
  have hget : ∀ i, i < st.durations.length → ends[i]? =
      some (prefixEnd s c1.segDur st.durations (i + 1), (st.durations.take (i + 1)).sum) := by
    intro i hi
    rw [← hends, List.getElem?_map, List.getElem?_range hi]; rfl
  have hlast : ends.getLast? = some (prefixEnd s c1.segDur st.durations st.durations.length,
      (st.durations.take st.durations.length).sum) := by
    rw [List.getLast?_eq_getElem?, hlen, hget _ (by omega)]
    have : st.durations.length - 1 + 1 = st.durations.length := by omega
    rw [this]
  have e12 := e12 _ _ hlast
  have e13 := e13 rfl
  subst e13
  have hmup : c1.mup = st.cfg.mup := by rw [e1]
  obtain ⟨k, k1, k2, k3, k4⟩ := aetLoop_index now (c1.mup.getD 10) ends
    (prefixEnd s c1.segDur st.durations st.durations.length) none
  have hupd : ∀ x : Cfg, Cfg.updateWithAet x now (c1.mup.getD 10) ends =
      { x with aet := some (match ends[k]? with
                | none => (prefixEnd s c1.segDur st.durations st.durations.length : Rat)
                | some y => (y.1 : Rat)),
               mpdDur := (ends[k]?).map (fun y => ((y.2 : Int) : Rat)) } := by
    intro x
    unfold Cfg.updateWithAet
    rw [hlast]
    simp only [k4]
    cases ends[k]? <;> rfl
  rw [hupd] at e12
  have key : c2.tfdt32 = false := by
    rw [e12, e11, e1]; exact ht
  have e23 : c3 = c2 := by
    unfold tfdtStep at h3; rw [key] at h3; exact (Py.pure_ok.mp h3).symm
  have hcs : c = { c2 with publishTime := p, addLocation := b, timeoffset := o } := by
    rw [h7, e7, e6, e45, e34, e23]
  have hsd : c.segDur = c1.segDur := by rw [hcs, e12, e11]
  rw [hsd]
  refine ⟨hd1, by rw [hcs, e12, e11], by rw [hcs, e12, e11]; simp only [hmup],
    by rw [hcs, e12, e11, e1], by rw [hcs, e12, e11, e1], k, by omega, ?_, ?_, ?_, ?_⟩
  · intro i hi hki
    have := k2 i (by omega) hki
    have hg := hget i hi
    rw [List.getElem?_eq_getElem (by omega), Option.some.injEq] at hg
    rw [hg, hmup] at this
    exact this
  · intro i hi hki
    have := k3 i (by omega) hki
    have hg := hget i hi
    rw [List.getElem?_eq_getElem (by omega), Option.some.injEq] at hg
    rw [hg, hmup] at this
    exact this
  · intro hk
    have hg := hget k hk
    constructor
    · rw [hcs, e12]; simp only [hg]
    · rw [hcs, e12]; simp only [hg, Option.map_some]
  · intro hk
    have hg : ends[k]? = none := by rw [List.getElem?_eq_none_iff]; omega
    constructor
    · rw [hcs, e12]; simp only [hg]
    · rw [hcs, e12]; simp only [hg, Option.map_none]

/-- **C33.** With start time and a non-empty list of non-negative durations the announced end
is the end of the specified prefix of the list; while that end is at least two update periods
away the announced duration is that of the same prefix.
Missing: the announced duration once the last end is near (`C33_duration_violation`). -/
theorem C33_announced_partial {vodOf : Text → Py VodCfg} {now : Int} {st : UrlState}
    {rest : List Text} {c : Cfg} {s : Int} (hs : st.start = some s) (hm : st.modulo = none)
    (hc : st.cont = false) (ht : st.cfg.tfdt32 = false) (hsp : st.stop = none)
    (hdur : st.durations ≠ []) (hnn : ∀ x ∈ st.durations, 0 ≤ x)
    (hv : GoodVod vodOf) (h : finishUrl vodOf now st rest = .ok c) :
    ∃ k, Announced s c.segDur st.durations now (st.cfg.mup.getD 10) k ∧
      c.aet = some (prefixEnd s c.segDur st.durations k : Rat) ∧
      (now + 2 * st.cfg.mup.getD 10 ≤ prefixEnd s c.segDur st.durations k →
        c.mpdDur = some (((st.durations.take k).sum : Int) : Rat)) := by
  obtain ⟨hd, -, -, -, -, k, k1, k2, k3, k4, k5⟩ := finishUrl_durs hs hm hc ht hsp hdur hv h
  have hpos : 0 < st.durations.length := List.length_pos_iff.mpr hdur
  have hmono := fun i j => @prefixEnd_mono s c.segDur st.durations hd hnn i j
  have hbefore : ∀ j, 1 ≤ j → j ≤ k →
      (prefixEnd s c.segDur st.durations j : Rat) < now + 2 * st.cfg.mup.getD 10 := by
    intro j j1 j2
    have h1 := k3 (k - 1) (by omega) (by omega)
    have h2 := hmono j k j2
    have e : k - 1 + 1 = k := by omega
    rw [e] at h1
    have : (prefixEnd s c.segDur st.durations j : Rat) ≤ prefixEnd s c.segDur st.durations k := by
      exact_mod_cast h2
    linarith
  by_cases hk : k = st.durations.length
  · refine ⟨st.durations.length, ⟨hpos, le_refl _, ?_, Or.inr rfl⟩, (k5 hk).1, ?_⟩
    · intro j j1 j2; exact hbefore j j1 (by omega)
    · intro hcon
      have := hbefore st.durations.length hpos (by omega)
      linarith
  · have hk' : k < st.durations.length := by omega
    refine ⟨k + 1, ⟨by omega, by omega, ?_, Or.inl (k2 k hk' (le_refl _))⟩, (k4 hk').1, fun _ => (k4 hk').2⟩
    intro j j1 j2; exact hbefore j j1 (by omega)

/-- **C33 (monotone).** The announced end never moves back: for the same URL at a later time it
is the same or later. -/
theorem C33_monotone {vodOf : Text → Py VodCfg} {now now' : Int} {st : UrlState}
    {rest : List Text} {c c' : Cfg} {s : Int} (hs : st.start = some s) (hm : st.modulo = none)
    (hc : st.cont = false) (ht : st.cfg.tfdt32 = false) (hsp : st.stop = none)
    (hdur : st.durations ≠ []) (hnn : ∀ x ∈ st.durations, 0 ≤ x)
    (hv : GoodVod vodOf) (h : finishUrl vodOf now st rest = .ok c)
    (h' : finishUrl vodOf now' st rest = .ok c') (hnow : now ≤ now') :
    ∃ a a' : Rat, c.aet = some a ∧ c'.aet = some a' ∧ a ≤ a' := by
  obtain ⟨k, ⟨a1, a2, a3, a4⟩, ha, -⟩ := C33_announced_partial hs hm hc ht hsp hdur hnn hv h
  obtain ⟨k', ⟨b1, b2, b3, b4⟩, hb, -⟩ := C33_announced_partial hs hm hc ht hsp hdur hnn hv h'
  refine ⟨_, _, ha, hb, ?_⟩
  have hd : 0 < c.segDur := (finishUrl_durs hs hm hc ht hsp hdur hv h).1
  have hsd : c'.segDur = c.segDur := by
    obtain ⟨c1, c2, c3, c4, c5, c6, h1, h2, h3, h4, h5, h6, h7⟩ := finishUrl_steps.mp h
    obtain ⟨d1, d2, d3, d4, d5, d6, g1, g2, g3, g4, g5, g6, g7⟩ := finishUrl_steps.mp h'
    have hseg : ∀ {now : Int} {c1 c2 c3 c4 c5 c6 c : Cfg}, 0 < c1.segDur → startStep st now c1 = .ok c2 →
        tfdtStep st now c2 = .ok c3 → contStep st now c3 = .ok c4 → modStep st c4 = .ok c5 →
        c5.updatePublishTime now = .ok c6 → c = finalStep st c6 → c.segDur = c1.segDur := by
      intro now c1 c2 c3 c4 c5 c6 c hp h2 h3 h4 h5 h6 h7
      obtain ⟨b, o, e7, -⟩ := finalStep_eq st c6
      obtain ⟨p, e6⟩ := updatePublishTime_ok h6
      have e45 : c5 = c4 := by
        unfold modStep at h5; rw [hm] at h5; exact (Py.pure_ok.mp h5).symm
      have e34 : c4 = c3 := by
        unfold contStep at h4; rw [hc] at h4; exact (Py.pure_ok.mp h4).symm
      have e23 : c3.segDur = c2.segDur := by
        unfold tfdtStep at h3
        split at h3
        · rw [hc] at h3
          simp only [Bool.false_eq_true, if_false, Cfg.updateForTfdt32, quantize_pos (by decide : (0:Int) < 10800),
            bind, Except.bind, pure, Except.pure, Except.ok.injEq] at h3
          rw [← h3]
        · rw [Py.pure_ok.mp h3]
      have e12 : c2.segDur = c1.segDur := by
        unfold startStep at h2
        rw [hs, hm] at h2
        simp only [Option.isSome_none, Bool.false_eq_true, if_false] at h2
        obtain ⟨ends, -, c11, c12, e11, x1, x2, x3, x4⟩ := processStartTime_ok hp h2
        rw [hsp] at x3
        rw [x3 rfl]
        cases hl : ends.getLast? with
        | none => rw [x1 hl, e11]
        | some y =>
          rw [x2 y.1 y.2 hl, e11]
          unfold Cfg.updateWithAet
          rw [hl]
      rw [h7, e7, e6, e45, e34]
      simp only [e23, e12]
    obtain ⟨name, v, reps, rel, file, -, hvod, e1⟩ := updateFiles_ok h1
    have hp1 : 0 < c1.segDur := by rw [e1]; exact (hv _ _ hvod).1
    have hcd : d1 = c1 := by rw [h1] at g1; exact (Except.ok.inj g1).symm
    subst hcd
    rw [hseg hp1 h2 h3 h4 h5 h6 h7, hseg hp1 g2 g3 g4 g5 g6 g7]
  rw [hsd] at b3 b4 ⊢
  have hq : (now : Rat) ≤ now' := by exact_mod_cast hnow
  by_cases hkk : k ≤ k'
  · exact_mod_cast @prefixEnd_mono s c.segDur st.durations hd hnn k k' hkk
  · have h1 := a3 k' b1 (by omega)
    rcases b4 with b4 | b4
    · linarith
    · omega

/-- Durations 60, 120 and 60 s from second 1003, update period 10 s, 8 s segments: the three
ends are 1056, 1176 and 1240. -/
def dursState : UrlState := { start := some 1003, durations := [60, 120, 60] }

example : (finishUrl vod8 1020 dursState ["x".toList, "1.m4s".toList]).toOption.map (fun c => (c.aet, c.mpdDur))
      = some (some 1056, some 60) ∧
    (finishUrl vod8 1050 dursState ["x".toList, "1.m4s".toList]).toOption.map (fun c => (c.aet, c.mpdDur))
      = some (some 1176, some 180) := by
  decide +kernel

/-- **C33 (violation).** In the last two update periods (and afterwards) the manifest announces
an end but no presentation duration any more. -/
theorem C33_duration_violation :
    (finishUrl vod8 1220 dursState ["x".toList, "1.m4s".toList]).toOption.map (fun c => (c.aet, c.mpdDur))
      = some (some 1240, some 240) ∧
    (finishUrl vod8 1221 dursState ["x".toList, "1.m4s".toList]).toOption.map (fun c => (c.aet, c.mpdDur))
      = some (some 1240, none) := by
  decide +kernel

/-! ### 32-bit sessions -/

/-- **C34 (session).** With `tfdt_32` the service is cut into three-hour sessions: the
availability start is the multiple of 10800 s at or before now, so now is inside the session,
whatever start time the URL gives. -/
theorem C34_session {vodOf : Text → Py VodCfg} {now : Int} {st : UrlState} {rest : List Text}
    {c : Cfg} (ht : st.cfg.tfdt32 = true) (hm : st.modulo = none) (hv : GoodVod vodOf)
    (h : finishUrl vodOf now st rest = .ok c) :
    st.cont = false ∧ 0 < c.segDur ∧ 0 < c.vodNr ∧
    (∃ k, c.ast = k * 10800) ∧ c.ast ≤ now ∧ now < c.ast + 10800 ∧
    c.aet = some ((c.ast : Rat) + 10800) ∧ c.mpdDur = some 10800 ∧ c.mup = some 5400 := by
  obtain ⟨c1, c2, c3, c4, c5, c6, h1, h2, h3, h4, h5, h6, h7⟩ := finishUrl_steps.mp h
  obtain ⟨name, v, reps, rel, file, -, hvod, e1⟩ := updateFiles_ok h1
  obtain ⟨hd, hvn⟩ := hv _ _ hvod
  have hc : c2.tfdt32 = true ∧ 0 < c2.segDur ∧ 0 < c2.vodNr := by
    have hc1 : c1.tfdt32 = true ∧ 0 < c1.segDur ∧ 0 < c1.vodNr := by
      rw [e1]; exact ⟨ht, hd, hvn⟩
    unfold startStep at h2
    split at h2
    · rw [← Py.pure_ok.mp h2]; exact hc1
    · rw [hm] at h2
      simp only [Option.isSome_none, Bool.false_eq_true, if_false] at h2
      obtain ⟨ends, -, c11, c12, e11, x1, x2, x3, x4⟩ := processStartTime_ok hc1.2.1 h2
      have hc12 : c12.tfdt32 = true ∧ 0 < c12.segDur ∧ 0 < c12.vodNr := by
        cases hl : ends.getLast? with
        | none => rw [x1 hl, e11]; exact hc1
        | some y =>
          rw [x2 y.1 y.2 hl, e11]
          unfold Cfg.updateWithAet
          rw [hl]; exact hc1
      cases hsp : st.stop with
      | none => rw [x3 hsp]; exact hc12
      | some x => rw [x4 x hsp]; exact hc12
  obtain ⟨hc2, hd2, hn2⟩ := hc
  have hcont : st.cont = false := by
    unfold tfdtStep at h3
    rw [hc2] at h3
    cases hcc : st.cont with
    | false => rfl
    | true => rw [hcc] at h3; simp at h3
  have e23 : c3 = { c2 with ast := now / 10800 * 10800,
                            aet := some ((now / 10800 * 10800 : Int) + 10800 : Rat),
                            mpdDur := some 10800, mup := some 5400 } := by
    unfold tfdtStep at h3
    rw [hc2, hcont] at h3
    simp only [Bool.false_eq_true, if_false, if_true, Cfg.updateForTfdt32,
      quantize_pos (by decide : (0:Int) < 10800),
      bind, Except.bind, pure, Except.pure, Except.ok.injEq] at h3
    exact h3.symm
  have e45 : c5 = c4 := by
    unfold modStep at h5; rw [hm] at h5; exact (Py.pure_ok.mp h5).symm
  have e34 : c4 = c3 := by
    unfold contStep at h4; rw [hcont] at h4; exact (Py.pure_ok.mp h4).symm
  obtain ⟨b, o, e7, -⟩ := finalStep_eq st c6
  obtain ⟨p, e6⟩ := updatePublishTime_ok h6
  have hcs : c = { c3 with publishTime := p, addLocation := b, timeoffset := o } := by
    rw [h7, e7, e6, e45, e34]
  have hast : c.ast = now / 10800 * 10800 := by rw [hcs, e23]
  refine ⟨hcont, by rw [hcs, e23]; exact hd2, by rw [hcs, e23]; exact hn2, ⟨_, hast⟩, by omega, by omega,
    ?_, by rw [hcs, e23], by rw [hcs, e23]⟩
  rw [hast, hcs, e23]

/-- **C34 (decode times).** Inside such a session, without time offset and with a finite
availability time offset of at most one segment, every served segment has a media time within
the three hours, so in any timescale up to 2^32/10800 both the start and every instant before
10800 s fit in 32 bits.
Missing: services with time offset or larger offsets (`C34_timeoffset_violation`). -/
theorem C34_decode_partial (pf : Text → Option Rat) {vodOf : Text → Py VodCfg} {now : Int}
    {st : UrlState} {rest : List Text} {c : Cfg} (ht : st.cfg.tfdt32 = true)
    (hm : st.modulo = none) (hv : GoodVod vodOf) (h : finishUrl vodOf now st rest = .ok c)
    (hw : WellFormed c) (hto : c.timeoffset = none) (ha0 : 0 ≤ c.ato) (ha : c.ato ≤ c.segDur)
    {nowF : Rat} (h0 : 0 ≤ nowF) (hnow : pyTrunc nowF = now) {n : Int} {v : Served}
    (hs : getMedia pf (c.forNr n) nowF = .ok (.media v)) {ts : Nat} (hts : ts * 10800 ≤ 2 ^ 32) :
    0 ≤ v.segTime ∧ v.segTime < 10800 ∧ (0 < ts → v.segTime * ts < 2 ^ 32) ∧
    0 ≤ v.offset ∧ v.offset ≤ v.segTime := by
  obtain ⟨-, hd, hvn, -, h1, h2, -⟩ := C34_session ht hm hv h
  obtain ⟨-, -, hf, -, -, hwin⟩ := (C01_general pf hw n nowF).mp ⟨v, hs⟩
  have hato : c.ato ≠ -1 := by intro e; rw [e] at ha0; linarith
  obtain ⟨hopen, -⟩ := hwin hato
  have hlt : nowF < ((c.ast + 10800 : Int) : Rat) := by
    unfold pyTrunc at hnow
    rw [if_pos h0] at hnow
    rw [← Rat.floor_lt_iff, hnow]; exact h2
  have hv' := served_eq hw hs
  have hst : v.segTime = (n - firstNumber c) * c.segDur := by
    rw [hv']; simp only [mediaTime, hto, Int.add_zero]
  have hfn : firstNumber c ≤ n := hf
  have hnn : 0 ≤ v.segTime := by
    rw [hst]; exact Int.mul_nonneg (by omega) (by omega)
  have hlt2 : v.segTime < 10800 := by
    have : (v.segTime : Rat) < 10800 := by
      rw [hst]
      simp only [Spec.Service.opens, Spec.Service.startOf, serviceOf] at hopen
      push_cast at hopen hlt ⊢
      linarith
    exact_mod_cast this
  have hoff : v.offset = v.segTime / (c.segDur * c.vodNr) * (c.segDur * c.vodNr) := by rw [hv']
  have hpos : 0 < c.segDur * c.vodNr := Int.mul_pos hd hvn
  refine ⟨hnn, hlt2, ?_, ?_, ?_⟩
  · intro hp
    have : v.segTime * ts < 10800 * ts := Int.mul_lt_mul_of_pos_right hlt2 (by exact_mod_cast hp)
    have : (10800 * ts : Int) ≤ 2 ^ 32 := by exact_mod_cast (by omega : 10800 * ts ≤ 2 ^ 32)
    omega
  · rw [hoff]; exact Int.mul_nonneg (Int.ediv_nonneg hnn (by omega)) (by omega)
  · rw [hoff]; exact Int.ediv_mul_le _ (by omega)

/-- A 32-bit session in 2023: it starts at a multiple of 10800 and a segment near its end has a
media time below 10800 s. -/
def tfdtState : UrlState := { cfg := { tfdt32 := true } }

example : (finishUrl vod8 1700010799 tfdtState ["x".toList, "1.m4s".toList]).toOption.map
      (fun c => (c.ast, c.aet, c.timeoffset)) = some (1700006400, some 1700017200, none) ∧
    (finishUrl vod8 1700010799 tfdtState ["x".toList, "1.m4s".toList]).toOption.map
      (fun c => (getMedia (fun _ => none) (c.forNr 540) 1700010799).toOption.map (fun
        | .media v => some v.segTime
        | _ => none)) = some (some (some 4320)) := by
  decide +kernel

/-- **C34 (violation).** With a time offset the media timeline is counted from the offset, not
from the session start, so decode times need 64 bits in spite of `tfdt_32`. -/
theorem C34_timeoffset_violation :
    (finishUrl vod8 1700010799 { tfdtState with timeoffset := some 0 } ["x".toList, "1.m4s".toList]).toOption.map
      (fun c => (getMedia (fun _ => none) (c.forNr 212501348) 1700010799).toOption.map (fun
        | .media v => some (decide (v.segTime * 90000 < 2 ^ 32))
        | _ => none)) = some (some (some false)) := by
  decide +kernel

end Verif
