import Verif.Lemmas.Analyzer
import Verif.Lemmas.SegTimeline
/-
C41: the duration table written by the analyser is lossless.
C54: content that the analyser accepts fits the loop.
-/
namespace Verif

/-- The first representation of each content type of an accepted input, and its file. -/
theorem analyze_file (sets : List AnaSet) (r : AnaResult) (h : analyze sets = .ok r)
    (hne : ∀ a ∈ sets, a.reps ≠ []) :
    r.files.length = sets.length ∧
    ∀ (i : Nat) a, sets[i]? = some a → a.segDur = r.segDur ∧
      (∀ f segs, (f, segs) ∈ a.reps → f = r.first ∧ ∃ w st, anaRep w r.first r.segDur a.timescale segs = .ok st) ∧
      ∃ s segs rest st, a.reps = (r.first, s :: segs) :: rest ∧
        anaRep true r.first r.segDur a.timescale (s :: segs) = .ok st ∧
        r.files[i]? = some (st.out, st.endTick.getD 0 - st.startTick.getD 0) ∧
        r.nrInLoop ≤ segs.length + 1 := by
  unfold analyze at h
  cases h1 : anaSets ⟨none, none, none⟩ sets with
  | error e => rw [h1] at h; cases h
  | ok q =>
    obtain ⟨g, l⟩ := q
    rw [h1] at h
    simp only at h
    obtain ⟨_, _, k3, k4⟩ := anaSets_ok _ _ _ _ h1 hne
    split at h
    · rename_i n ns f d hl hf hd
      cases h
      refine ⟨by simp [k3], ?_⟩
      intro i a ha
      obtain ⟨m1, m2, f2, segs, rest, st, m3, m4, m5⟩ := k4 i a ha
      rw [hd] at m1
      cases m1
      have hff : f2 = f := by
        have := (m2 f2 segs (by rw [m3]; simp)).1
        rw [hf] at this
        cases this; rfl
      subst hff
      refine ⟨rfl, ?_, ?_⟩
      · intro f3 s3 hm
        obtain ⟨e1, w, st3, e2⟩ := m2 f3 s3 hm
        rw [hf] at e1
        cases e1
        exact ⟨rfl, w, st3, e2⟩
      · cases segs with
        | nil => simp [anaRep, anaLoop] at m4
        | cons s segs =>
          refine ⟨s, segs, rest, st, m3, m4, ?_, ?_⟩
          · simp only
            rw [List.getElem?_map, m5]
            rfl
          · obtain ⟨_, _, t3, _⟩ := anaRep_ticks _ _ _ _ _ _ _ m4
            simp only
            have hmem : st.endNr.getD 0 ∈ n :: ns := by
              rw [← hl]
              exact List.mem_map.mpr ⟨_, List.mem_of_getElem? m5, rfl⟩
            rw [t3] at hmem
            simp only [Option.getD_some] at hmem
            obtain ⟨b1, b2, _⟩ := foldl_min_le n ns
            rcases List.mem_cons.mp hmem with hm | hm
            · omega
            · have := b2 _ hm; omega
    · cases h

/-- **C41, numbers and durations.** For every content type of an accepted input, the file can be
read back and gives the number and the duration of every segment of the first representation,
in order, whatever the start times; entries next to each other have different durations. -/
theorem C41_durations_partial (sets : List AnaSet) (r : AnaResult) (h : analyze sets = .ok r)
    (hne : ∀ a ∈ sets, a.reps ≠ []) (i : Nat) (a : AnaSet) (ha : sets[i]? = some a)
    (f : Nat) (segs : List AnaSeg) (rest : List (Nat × List AnaSeg)) (hr : a.reps = (f, segs) :: rest)
    (hpos : ∀ s ∈ segs, 0 < s.dur) :
    ∃ bytes ticks es, r.files[i]? = some (bytes, ticks) ∧ readDat bytes = .ok es ∧
      (tableSegs es).map (fun x => (x.1, x.2.2)) = (seenSegs r.first segs).map (fun x => (x.1, x.2.2)) ∧
      RunsDiffer es := by
  obtain ⟨_, k⟩ := analyze_file sets r h hne
  obtain ⟨_, _, s, segs', rest', st, h1, h2, h3, _⟩ := k i a ha
  rw [hr] at h1
  obtain ⟨hp, rfl⟩ := List.cons.inj h1
  obtain ⟨rfl, rfl⟩ := Prod.mk.inj hp
  obtain ⟨o1, o2⟩ := anaRep_out _ _ _ _ _ _ hpos h2
  refine ⟨_, _, _, h3, by rw [o1]; exact readDat_entries _ o2, ?_, anaEntries_differ _ _ _⟩
  rw [anaEntries_view _ _ _ (by simp)]
  simp [entrySegs, seenSegs]

/-- **C41, lossless.** Where every segment starts at the end of the one before, the start times are
there as well. -/
theorem C41_lossless_partial (sets : List AnaSet) (r : AnaResult) (h : analyze sets = .ok r)
    (hne : ∀ a ∈ sets, a.reps ≠ []) (i : Nat) (a : AnaSet) (ha : sets[i]? = some a)
    (f : Nat) (segs : List AnaSeg) (rest : List (Nat × List AnaSeg)) (hr : a.reps = (f, segs) :: rest)
    (hpos : ∀ s ∈ segs, 0 < s.dur) (hg : NoGaps segs) :
    ∃ bytes ticks es, r.files[i]? = some (bytes, ticks) ∧ readDat bytes = .ok es ∧
      tableSegs es = seenSegs r.first segs ∧ RunsDiffer es ∧
      ticks = (segs.map AnaSeg.dur).sum := by
  obtain ⟨_, k⟩ := analyze_file sets r h hne
  obtain ⟨_, _, s, segs', rest', st, h1, h2, h3, _⟩ := k i a ha
  rw [hr] at h1
  obtain ⟨hp, rfl⟩ := List.cons.inj h1
  obtain ⟨rfl, rfl⟩ := Prod.mk.inj hp
  obtain ⟨o1, o2⟩ := anaRep_out _ _ _ _ _ _ hpos h2
  obtain ⟨t1, t2, _, _⟩ := anaRep_ticks _ _ _ _ _ _ _ h2
  refine ⟨_, _, _, h3, by rw [o1]; exact readDat_entries _ o2, ?_, anaEntries_differ _ _ _, ?_⟩
  · rw [anaEntries_segs _ _ _ (by simp) ?_ ?_]
    · simp [entrySegs, seenSegs]
    · cases segs' with
      | nil => trivial
      | cons b c => exact hg.2
    · intro z hz
      cases segs' with
      | nil => cases hz
      | cons b c => cases hz; simp [hg.1]
  · obtain ⟨z, hz⟩ : ∃ z, (s :: segs').getLast? = some z := ⟨_, List.getLast?_eq_some_getLast (by simp)⟩
    rw [t1, t2 z hz]
    simp only [Option.getD_some]
    have : ∀ (segs' : List AnaSeg) (s z : AnaSeg), NoGaps (s :: segs') → (s :: segs').getLast? = some z →
        z.tfdt + z.dur = s.tfdt + ((s :: segs').map AnaSeg.dur).sum := by
      intro l
      induction l with
      | nil => intro s z _ hz; simp at hz; subst hz; simp
      | cons b c ih =>
        intro s z hg hz
        rw [List.getLast?_cons_cons] at hz
        rw [ih b z hg.2 hz, hg.1]
        simp only [List.map_cons, List.sum_cons]
        omega
    rw [this segs' s z hg hz]
    omega

/-- Two content types with different time scales, the audio with two durations. -/
def testSets : List AnaSet :=
  [⟨90, 2, 1, [(1, [⟨0, 180⟩, ⟨180, 180⟩, ⟨360, 180⟩]), (1, [⟨0, 180⟩, ⟨180, 180⟩, ⟨360, 180⟩])]⟩,
   ⟨48, 2, 1, [(1, [⟨0, 97⟩, ⟨97, 97⟩, ⟨194, 94⟩, ⟨288, 96⟩])]⟩]

/-- What the analyser makes of it. -/
def testResult : AnaResult :=
  ⟨1, 3, 2, [([1, 0, 2, 0, 0, 0, 0, 0, 180, 0, 0, 0], 540),
    ([1, 0, 1, 0, 0, 0, 0, 0, 97, 0, 0, 0, 3, 0, 0, 0, 194, 0, 0, 0, 94, 0, 0, 0, 4, 0, 0, 0, 32, 1, 0, 0, 96, 0, 0, 0], 384)]⟩

/-- Non-trivial: the input is accepted, the files have 12 and 36 bytes. -/
example : analyze testSets = .ok testResult ∧
    testResult.files.map (fun x => x.1.length) = [12, 36] ∧
    NoGaps [⟨0, 97⟩, ⟨97, 97⟩, ⟨194, 94⟩, ⟨288, 96⟩] ∧
    readDat (testResult.files[1]?.map (fun x => x.1) |>.getD []) =
      .ok [⟨1, 1, 0, 97⟩, ⟨3, 0, 194, 94⟩, ⟨4, 0, 288, 96⟩] :=
  ⟨by decide +kernel, by decide +kernel, by simp [NoGaps], by decide +kernel⟩

/-- A gap inside a run of equal durations is lost: the third segment starts at 365, the table says
360. -/
theorem C41_gap_violation :
    ∃ bytes ticks, analyze [⟨90, 2, 1, [(1, [⟨0, 180⟩, ⟨180, 180⟩, ⟨365, 180⟩])]⟩] =
        .ok ⟨1, 3, 2, [(bytes, ticks)]⟩ ∧ readDat bytes = .ok [⟨1, 2, 0, 180⟩] ∧
      tableSegs [⟨1, 2, 0, 180⟩] = [(1, 0, 180), (2, 180, 180), (3, 360, 180)] :=
  ⟨[1, 0, 2, 0, 0, 0, 0, 0, 180, 0, 0, 0], 545, by decide +kernel, by decide +kernel, by decide +kernel⟩

/-- A segment without samples (duration 0) is missing from the table. -/
theorem C41_zero_violation :
    ∃ bytes ticks, analyze [⟨90, 0, 1, [(1, [⟨0, 4⟩, ⟨4, 0⟩, ⟨4, 3⟩])]⟩] =
        .ok ⟨1, 3, 0, [(bytes, ticks)]⟩ ∧ readDat bytes = .ok [⟨1, 0, 0, 4⟩, ⟨3, 0, 4, 3⟩] :=
  ⟨[1, 0, 0, 0, 0, 0, 0, 0, 4, 0, 0, 0, 3, 0, 0, 0, 4, 0, 0, 0, 3, 0, 0, 0], 7, by decide +kernel,
    by decide +kernel⟩

theorem tableSegs_durs (es : List SegEntry) : (tableSegs es).map (fun x => x.2.2) = expandEntries es := by
  unfold tableSegs expandEntries
  rw [List.map_flatMap]
  congr 1
  funext e
  unfold entrySegs
  rw [List.map_map]
  simp [List.eq_replicate_iff]

theorem seenSegs_durs (nr : Nat) (segs : List AnaSeg) :
    (seenSegs nr segs).map (fun x => x.2.2) = segs.map AnaSeg.dur := by
  induction segs generalizing nr with
  | nil => rfl
  | cons s l ih => simp [seenSegs, ih]

theorem seenSegs_at (nr : Nat) (segs : List AnaSeg) (hg : NoGaps segs) (t0 : Nat)
    (h0 : ∀ s, segs.head? = some s → s.tfdt = t0) (k : Nat) (x : Nat × Nat × Nat)
    (h : (seenSegs nr segs)[k]? = some x) :
    x.1 = nr + k ∧ x.2.1 = t0 + ((segs.map AnaSeg.dur).take k).sum := by
  induction segs generalizing nr t0 k with
  | nil => simp [seenSegs] at h
  | cons s l ih =>
    unfold seenSegs at h
    cases k with
    | zero => simp at h; subst h; simp [h0 s rfl]
    | succ k =>
      rw [List.getElem?_cons_succ] at h
      have hg' : NoGaps l := by
        cases l with
        | nil => trivial
        | cons a r => exact hg.2
      obtain ⟨h1, h2⟩ := ih (nr + 1) hg' (t0 + s.dur) (by
        intro a ha
        cases l with
        | nil => cases ha
        | cons b r => cases ha; rw [hg.1, h0 s rfl]) k h
      refine ⟨by omega, ?_⟩
      rw [h2]
      simp only [List.map_cons, List.take_succ_cons, List.sum_cons]
      omega

theorem tableSegs_at (es : List SegEntry) (i : Nat) (e : SegEntry) (h : es[i]? = some e) :
    (tableSegs es)[(expandEntries (es.take i)).length]? = some (e.startNr, e.start, e.dur) ∧
    expandEntries (es.take i) = (expandEntries es).take (expandEntries (es.take i)).length := by
  obtain ⟨hi, he⟩ := List.getElem?_eq_some_iff.mp h
  have hs : es = es.take i ++ e :: es.drop (i + 1) := by
    rw [← he, List.getElem_cons_drop hi, List.take_append_drop]
  have hl : (expandEntries (es.take i)).length = (tableSegs (es.take i)).length := by
    rw [← tableSegs_durs, List.length_map]
  constructor
  · rw [hl]
    conv => lhs; arg 1; rw [hs]
    rw [show tableSegs (es.take i ++ e :: es.drop (i + 1)) =
      tableSegs (es.take i) ++ (entrySegs e ++ tableSegs (es.drop (i + 1))) by simp [tableSegs],
      List.getElem?_append_right (Nat.le_refl _), Nat.sub_self]
    unfold entrySegs
    rw [List.range_succ_eq_map]
    simp
  · conv => rhs; arg 2; rw [hs]
    rw [show expandEntries (es.take i ++ e :: es.drop (i + 1)) =
      expandEntries (es.take i) ++ expandEntries (e :: es.drop (i + 1)) by simp [expandEntries],
      List.take_left]

/-- **C41, the table serves the timeline.** For a content type whose segments are without gaps from
time 0, that has as many segments as the loop, and whose durations add up to the loop, the table
and the configuration describe the segments (which C28 and C29 ask for). -/
theorem C41_describes_partial (sets : List AnaSet) (r : AnaResult) (h : analyze sets = .ok r)
    (hne : ∀ a ∈ sets, a.reps ≠ []) (i : Nat) (a : AnaSet) (ha : sets[i]? = some a)
    (f : Nat) (segs : List AnaSeg) (rest : List (Nat × List AnaSeg)) (hr : a.reps = (f, segs) :: rest)
    (hpos : ∀ s ∈ segs, 0 < s.dur) (hg : NoGaps segs) (h0 : ∀ s, segs.head? = some s → s.tfdt = 0)
    (hn : segs.length = r.nrInLoop)
    (hsum : (segs.map AnaSeg.dur).sum = r.nrInLoop * r.segDur * a.timescale) :
    ∃ bytes ticks es, r.files[i]? = some (bytes, ticks) ∧ readDat bytes = .ok es ∧
      SegTable.Describes ⟨es, a.timescale, r.nrInLoop * r.segDur, r.nrInLoop, r.first⟩
        (segs.map AnaSeg.dur) := by
  obtain ⟨bytes, ticks, es, h1, h2, h3, _, _⟩ :=
    C41_lossless_partial sets r h hne i a ha f segs rest hr hpos hg
  have hex : expandEntries es = segs.map AnaSeg.dur := by
    rw [← tableSegs_durs, h3, seenSegs_durs]
  refine ⟨bytes, ticks, es, h1, h2, ?_, ?_, hex, ?_, ?_, ?_⟩
  · intro hc
    simp only at hc
    obtain ⟨_, k⟩ := analyze_file sets r h hne
    obtain ⟨_, _, s, segs', rest', st, q1, _⟩ := k i a ha
    rw [hr] at q1
    cases q1
    rw [hc] at hex
    simp [expandEntries] at hex
  · intro e he
    have hm : e.dur ∈ expandEntries es := List.mem_flatMap.mpr ⟨e, he, List.mem_replicate.mpr ⟨by omega, rfl⟩⟩
    rw [hex] at hm
    obtain ⟨s, hs, hd⟩ := List.mem_map.mp hm
    rw [← hd]
    exact hpos s hs
  · intro k e he
    obtain ⟨t1, t2⟩ := tableSegs_at es k e he
    rw [h3] at t1
    obtain ⟨u1, u2⟩ := seenSegs_at r.first segs hg 0 h0 _ _ t1
    simp only at u1 u2 ⊢
    rw [Nat.zero_add, ← hex, ← t2] at u2
    exact ⟨u2, u1⟩
  · exact hsum
  · simpa using hn

/-- Non-trivial: the video of the test input. -/
example : analyze testSets = .ok testResult ∧ NoGaps [⟨0, 180⟩, ⟨180, 180⟩, ⟨360, 180⟩] ∧
    ([⟨0, 180⟩, ⟨180, 180⟩, ⟨360, 180⟩].map AnaSeg.dur).sum =
      testResult.nrInLoop * testResult.segDur * 90 :=
  ⟨by decide +kernel, by simp [NoGaps], by decide +kernel⟩

/-- The other content type has more segments than the loop: its table describes four segments, the
loop has three. -/
theorem C41_longer_violation :
    ∃ bytes ticks es, analyze testSets = .ok testResult ∧ testResult.files[1]? = some (bytes, ticks) ∧
      readDat bytes = .ok es ∧
      ∀ durs, ¬ SegTable.Describes ⟨es, 48, testResult.nrInLoop * testResult.segDur,
        testResult.nrInLoop, testResult.first⟩ durs := by
  refine ⟨_, _, [⟨1, 1, 0, 97⟩, ⟨3, 0, 194, 94⟩, ⟨4, 0, 288, 96⟩], by decide +kernel, rfl, by decide +kernel, ?_⟩
  intro durs hd
  have h1 := hd.expands
  have h2 := hd.count
  rw [← h1] at h2
  revert h2
  decide +kernel

/-- **C54, drift.** In accepted content every representation starts at the same number and every one
of its segments ends within a tenth of a second of where a segment of exactly the nominal duration
would end. -/
theorem C54_drift (sets : List AnaSet) (r : AnaResult) (h : analyze sets = .ok r)
    (hne : ∀ a ∈ sets, a.reps ≠ []) (a : AnaSet) (ha : a ∈ sets) (f : Nat) (s : AnaSeg) (segs : List AnaSeg)
    (hr : (f, s :: segs) ∈ a.reps) :
    f = r.first ∧ a.segDur = r.segDur ∧
      ∀ (i : Nat) z, (s :: segs)[i]? = some z →
        10 * |((s.tfdt : Int) + (i + 1) * (r.segDur * a.timescale)) - (z.tfdt + z.dur)| < a.timescale := by
  obtain ⟨_, k⟩ := analyze_file sets r h hne
  obtain ⟨j, hj⟩ := List.mem_iff_getElem?.mp ha
  obtain ⟨k1, k2, _⟩ := k j a hj
  obtain ⟨e1, w, st, e2⟩ := k2 f (s :: segs) hr
  refine ⟨e1, k1, ?_⟩
  intro i z hz
  obtain ⟨_, _, _, t4⟩ := anaRep_ticks _ _ _ _ _ _ _ e2
  have := t4 i z hz
  unfold WithinTolerance at this
  have e : (((r.first + i : Nat) : Int) - r.first + 1) * ((r.segDur * a.timescale : Nat) : Int) + (s.tfdt : Nat) -
      ((z.tfdt + z.dur : Nat) : Int) = ((s.tfdt : Int) + (i + 1) * (r.segDur * a.timescale)) - (z.tfdt + z.dur) := by
    push_cast
    ring
  rw [e] at this
  rw [Int.abs_eq_natAbs]
  omega

/-- **C54, enough segments.** The first representation of every content type has all segments of the
loop, and that of one of them no more. -/
theorem C54_segments_partial (sets : List AnaSet) (r : AnaResult) (h : analyze sets = .ok r)
    (hne : ∀ a ∈ sets, a.reps ≠ []) :
    (∀ a ∈ sets, ∃ segs rest, a.reps = (r.first, segs) :: rest ∧ r.nrInLoop ≤ segs.length) ∧
    (∃ a ∈ sets, ∃ segs rest, a.reps = (r.first, segs) :: rest ∧ segs.length = r.nrInLoop) := by
  constructor
  · intro a ha
    obtain ⟨_, k⟩ := analyze_file sets r h hne
    obtain ⟨j, hj⟩ := List.mem_iff_getElem?.mp ha
    obtain ⟨_, _, s, segs, rest, st, h1, _, _, h4⟩ := k j a hj
    exact ⟨_, _, h1, by simpa using h4⟩
  · obtain ⟨_, k⟩ := analyze_file sets r h hne
    unfold analyze at h
    cases h1 : anaSets ⟨none, none, none⟩ sets with
    | error e => rw [h1] at h; cases h
    | ok q =>
      obtain ⟨g, l⟩ := q
      rw [h1] at h
      simp only at h
      obtain ⟨_, _, k3, k4⟩ := anaSets_ok _ _ _ _ h1 hne
      split at h
      · rename_i n ns f d hl hf hd
        cases h
        obtain ⟨_, _, b3⟩ := foldl_min_le n ns
        have hm : ns.foldl min n ∈ l.map (fun x => x.1) := by
          rw [hl]
          rcases b3 with b3 | b3
          · rw [b3]; simp
          · simp [b3]
        obtain ⟨x, hx, hxe⟩ := List.mem_map.mp hm
        obtain ⟨j, hj⟩ := List.mem_iff_getElem?.mp hx
        have hjl : j < sets.length := by
          rw [← k3]; exact (List.getElem?_eq_some_iff.mp hj).1
        have hs : sets[j]? = some sets[j] := List.getElem?_eq_getElem hjl
        obtain ⟨_, _, s, segs, rest, st, q1, q2, q3, q4⟩ := k j sets[j] hs
        obtain ⟨_, _, f2, segs2, rest2, st2, m3, m4, m5⟩ := k4 j sets[j] hs
        rw [q1] at m3
        cases m3
        obtain ⟨_, _, t3, _⟩ := anaRep_ticks _ _ _ _ _ _ _ m4
        rw [hj] at m5
        cases m5
        rw [t3] at hxe
        simp only [Option.getD_some] at hxe
        refine ⟨sets[j], List.getElem_mem hjl, _, _, q1, ?_⟩
        simp only [List.length_cons]
        rw [← hxe]
        omega
      · cases h

/-- **C54, the end of the loop.** The last segment of the loop ends within a tenth of a second of the
end of the loop, counted from the start of the first one, in the first representation of every
content type: at each wrap a client sees at most that gap or overlap. -/
theorem C54_wrap_partial (sets : List AnaSet) (r : AnaResult) (h : analyze sets = .ok r)
    (hne : ∀ a ∈ sets, a.reps ≠ []) (a : AnaSet) (ha : a ∈ sets) :
    ∃ s segs rest z, a.reps = (r.first, s :: segs) :: rest ∧ (s :: segs)[r.nrInLoop - 1]? = some z ∧
      10 * |((s.tfdt : Int) + (r.nrInLoop * r.segDur * a.timescale : Nat)) - (z.tfdt + z.dur)| < a.timescale := by
  obtain ⟨segs, rest, h1, h2⟩ := (C54_segments_partial sets r h hne).1 a ha
  have hpos : 0 < r.nrInLoop := by
    unfold analyze at h
    split at h
    · cases h
    · split at h
      · cases h; simp only; omega
      · cases h
  cases segs with
  | nil => simp at h2; omega
  | cons s segs =>
    have hlt : r.nrInLoop - 1 < (s :: segs).length := by omega
    refine ⟨s, segs, rest, _, h1, List.getElem?_eq_getElem hlt, ?_⟩
    obtain ⟨_, _, k⟩ := C54_drift sets r h hne a ha r.first s segs (by rw [h1]; simp)
    have := k (r.nrInLoop - 1) _ (List.getElem?_eq_getElem hlt)
    have e : ((r.nrInLoop - 1 : Nat) : Int) + 1 = r.nrInLoop := by omega
    rw [e] at this
    push_cast
    rw [mul_assoc]
    exact this

/-- Non-trivial: the audio of the test input ends its third segment at 288 = 3 * 2 * 48. -/
example : analyze testSets = .ok testResult ∧ 3 * 2 * 48 = 288 := ⟨by decide +kernel, rfl⟩

/-- Only the first representation counts: the second one has a single segment, and the loop three. -/
theorem C54_other_violation :
    ∃ bytes ticks, analyze [⟨90, 2, 1, [(1, [⟨0, 180⟩, ⟨180, 180⟩, ⟨360, 180⟩]), (1, [⟨0, 180⟩])]⟩] =
        .ok ⟨1, 3, 2, [(bytes, ticks)]⟩ :=
  ⟨[1, 0, 2, 0, 0, 0, 0, 0, 180, 0, 0, 0], 540, by decide +kernel⟩

end Verif
