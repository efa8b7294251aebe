import Verif.Lemmas.SegTimeline
/-
C28: the window listed by a SegmentTimeline.  C29: SegmentTimelines generated at different times.
-/
namespace Verif

/-- Segment `b` is the last one that has ended at `time`. -/
def LastEnded (durs : List Nat) (time : Int) (b : Nat) : Prop :=
  (loopEnd durs b : Int) ≤ time ∧ time < loopEnd durs (b + 1)

/-- Segment `a` contains `time` or ends at it. -/
def Holds (durs : List Nat) (time : Int) (a : Nat) : Prop :=
  (loopStart durs a : Int) ≤ time ∧ time ≤ loopEnd durs a

theorem listBetween_empty {t : SegTable} {durs : List Nat} (hd : t.Describes durs) {p q : SegPos}
    {i w j v : Nat} {e e' : SegEntry} (hp : t.At p i e w) (hq : t.At q j e' v)
    (h : t.seg q j v < t.seg p i w) : listBetween t p q = .ok ([], none) := by
  unfold listBetween
  rw [segStart_at hd hp, segStart_at hd hq, py_bind_ok, py_bind_ok,
    if_pos (by have := loopStart_lt durs (durs_ne hd) (durs_pos hd) h; omega)]
  rfl

/-- The segments that are listed first and last. -/
theorem create_ends {t : SegTable} {durs : List Nat} (hd : t.Describes durs) (before : Option Int)
    (start stop : Int) (closest : Bool) (hstop : 0 ≤ stop) {p : SegPos}
    (hf : (if closest then findClosest t (start * t.timescale) else findLatest t (start * t.timescale)) =
      .ok (some p)) :
    (stop * t.timescale < loopEnd durs 0 ∧ createTimeline t before start stop closest = .ok ⟨none, before⟩) ∨
    ∃ q j e' v, t.At q j e' v ∧ LastEnded durs (stop * t.timescale) (t.seg q j v) ∧
      createTimeline t before start stop closest = (match listBetween t p q with
        | .error x => .error x
        | .ok (elems, nr) => .ok ⟨some elems, nr.or before⟩) := by
  obtain ⟨r, i1, e1, w1, er, hr, hlo, hhi⟩ := findLatest_at hd (stop * t.timescale)
    (Int.mul_nonneg hstop (by omega))
  have hfuel : t.seg r i1 w1 < r.repeats + (r.wraps.toNat + 1) * t.count := by
    have := seg_lt hd hr
    rw [count_eq hd, hr.wraps, Int.toNat_natCast]
    omega
  unfold createTimeline
  rw [er]
  simp only
  have hbeyond : stop * t.timescale < loopEnd durs (t.seg r i1 w1 + 1) := by
    have := loopDur_pos durs (durs_ne hd) (durs_pos hd) (t.seg r i1 w1 + 1)
    have h2 := loopStart_succ durs (durs_ne hd) (t.seg r i1 w1)
    unfold loopEnd at *
    omega
  rcases backLoop_at hd (stop * t.timescale) _ hr hfuel with ⟨eb, hall⟩ | ⟨q, j, e', v, eb, hq, hle, hend, hall⟩
  · rw [eb]
    exact Or.inl ⟨hall 0 (Nat.zero_le _), rfl⟩
  · rw [eb]
    refine Or.inr ⟨q, j, e', v, hq, ⟨hend, ?_⟩, ?_⟩
    · rcases Nat.lt_or_eq_of_le hle with h | h
      · exact hall _ (by omega) (by omega)
      · rw [h]; exact hbeyond
    · simp only
      rw [hf]
      simp only
      cases hlb : listBetween t p q with
      | error x => rfl
      | ok x => rfl

/-- No entry of the duration table occurs a second time between a segment at the window start and
one that has ended at the window end.  (For a table with one entry: both are in the same loop.) -/
def SegTable.Near (t : SegTable) (durs : List Nat) (start stop : Int) : Prop :=
  ∀ a b, Holds durs start a → LastEnded durs stop b → t.entryCount b < t.entryCount a + t.entries.length

/-- **C28 (window).** For every duration table and every window: if no segment has ended at the
window end there is no timeline; else there are a segment `a` that the window start lies in (or
at the end of) and the last segment `b` that has ended at the window end.  If `b` is before `a`,
the timeline is empty; else the start number is `a` and the segments listed are exactly `a` to
`b` of the looped track, with their times and durations.

Missing for the full claim: windows in which an entry of the table occurs twice, for which
`C28_one_entry_violation` and `C28_whole_loop_violation` show it false. -/
theorem C28_window_partial (t : SegTable) (durs : List Nat) (hd : t.Describes durs)
    (before : Option Int) (start stop : Int) (hstart : 0 ≤ start) (hstop : 0 ≤ stop)
    (hnear : t.Near durs (start * t.timescale) (stop * t.timescale)) :
    (stop * t.timescale < loopEnd durs 0 ∧ createTimeline t before start stop false = .ok ⟨none, before⟩) ∨
    ∃ a b, Holds durs (start * t.timescale) a ∧ LastEnded durs (stop * t.timescale) b ∧
      (b < a → createTimeline t before start stop false = .ok ⟨some [], before⟩) ∧
      (a ≤ b → ∃ elems, createTimeline t before start stop false = .ok ⟨some elems, some (a : Int)⟩ ∧
        listed elems = loopSegments durs a (b + 1 - a)) := by
  obtain ⟨p, i, e, w, ep, hp, hlo, hhi⟩ := findLatest_at hd (start * t.timescale)
    (Int.mul_nonneg hstart (by omega))
  rcases create_ends hd before start stop false hstop ep with h | ⟨q, j, e', v, hq, hlast, er⟩
  · exact Or.inl h
  · refine Or.inr ⟨t.seg p i w, t.seg q j v, ⟨hlo, hhi⟩, hlast, ?_, ?_⟩
    · intro hlt
      rw [er, listBetween_empty hd hp hq hlt]
      rfl
    · intro hle
      have hn := hnear _ _ ⟨hlo, hhi⟩ hlast
      rw [entryCount_at hd hp, entryCount_at hd hq] at hn
      obtain ⟨elems, el, hlist⟩ := listBetween_at hd hp hq hle hn
      refine ⟨elems, ?_, hlist⟩
      rw [er, el]
      rfl

/-- The position of the segment after a segment. -/
theorem at_next {t : SegTable} {durs : List Nat} (hd : t.Describes durs) {p : SegPos} {i w : Nat}
    {e : SegEntry} (hp : t.At p i e w) :
    ∃ q j e' v, t.At q j e' v ∧ t.seg q j v = t.seg p i w + 1 ∧
      v * t.entries.length + j =
        w * t.entries.length + i + (if p.repeats < e.repeats then 0 else 1) := by
  have hm : 0 < t.entries.length := List.length_pos_iff.mpr hd.nonempty
  by_cases hr : p.repeats < e.repeats
  · refine ⟨{ p with repeats := p.repeats + 1 }, i, e, w, ⟨hp.entry, hp.index, hp.wraps, hr⟩, ?_, ?_⟩
    · unfold SegTable.seg; simp only; omega
    · rw [if_pos hr]; rfl
  · have hre := hp.repeats
    have hcs := cnt_succ hp.entry
    obtain ⟨hi, _⟩ := List.getElem?_eq_some_iff.mp hp.entry
    rw [if_neg hr]
    by_cases hl : i + 1 < t.entries.length
    · refine ⟨⟨((i + 1 : Nat) : Int), 0, w⟩, i + 1, t.entries[i + 1], w,
        ⟨List.getElem?_eq_getElem hl, rfl, rfl, Nat.zero_le _⟩, ?_, rfl⟩
      unfold SegTable.seg; simp only; omega
    · refine ⟨⟨((0 : Nat) : Int), 0, ((w + 1 : Nat) : Int)⟩, 0, t.entries[0], w + 1,
        ⟨List.getElem?_eq_getElem hm, rfl, rfl, Nat.zero_le _⟩, ?_, ?_⟩
      · have : i + 1 = t.entries.length := by omega
        rw [this, cnt_end hd] at hcs
        unfold SegTable.seg; simp only [cnt_zero]; rw [Nat.add_mul]; omega
      · rw [Nat.add_mul]; omega

/-- A window is near when it is shorter than the loop by the longest run of equal durations. -/
theorem near_of_short (t : SegTable) (durs : List Nat) (hd : t.Describes durs) (start stop : Int)
    (h : ∀ e ∈ t.entries, stop - start + (e.repeats + 1) * e.dur ≤ t.wrap) :
    t.Near durs start stop := by
  intro a b ha hb
  by_contra hc
  have hm : 0 < t.entries.length := List.length_pos_iff.mpr hd.nonempty
  have hn : 0 < t.nrInLoop := by
    rw [← hd.count]; exact List.length_pos_iff.mpr (durs_ne hd)
  -- the position of a segment
  have pos : ∀ k, ∃ p i e w, t.At p i e w ∧ t.seg p i w = k := by
    intro k
    obtain ⟨p, i, e, w, _, hp, h1, h2⟩ := findLatest_at hd (loopStart durs k : Int) (by omega)
    have hk1 : t.seg p i w ≤ k :=
      (loopStart_le_iff durs (durs_ne hd) (durs_pos hd) _ _).mp (by omega)
    rw [← loopStart_succ _ (durs_ne hd)] at h2
    have hk2 : k ≤ t.seg p i w + 1 :=
      (loopStart_le_iff durs (durs_ne hd) (durs_pos hd) _ _).mp (by omega)
    rcases Nat.lt_or_eq_of_le hk1 with hlt | heq
    · obtain ⟨q, j, e', v, hq, hs, _⟩ := at_next hd hp
      exact ⟨q, j, e', v, hq, by omega⟩
    · exact ⟨p, i, e, w, hp, heq⟩
  obtain ⟨p, i, e, w, hp, rfl⟩ := pos a
  obtain ⟨q, j, e', v, hq, rfl⟩ := pos b
  rw [entryCount_at hd hp, entryCount_at hd hq] at hc
  obtain ⟨hi, _⟩ := List.getElem?_eq_some_iff.mp hp.entry
  obtain ⟨hj, _⟩ := List.getElem?_eq_some_iff.mp hq.entry
  -- the entry of `a` in the next loop has begun when `b` begins
  have hb1 : t.firstOf ((w + 1) * t.entries.length + i) ≤ t.firstOf (v * t.entries.length + j) :=
    firstOf_mono hd (by rw [Nat.add_mul]; omega)
  rw [firstOf_lin hi, firstOf_lin hj] at hb1
  have hat0 : t.At ⟨(i : Int), 0, ((w + 1 : Nat) : Int)⟩ i e (w + 1) :=
    ⟨hp.entry, rfl, rfl, Nat.zero_le _⟩
  have hs0 := start_at hd hat0
  have hle : loopStart durs (t.seg ⟨(i : Int), 0, ((w + 1 : Nat) : Int)⟩ i (w + 1)) ≤
      loopStart durs (t.seg q j v) := by
    apply (loopStart_le_iff durs (durs_ne hd) (durs_pos hd) _ _).mpr
    unfold SegTable.seg
    simp only
    omega
  have hend : loopEnd durs (t.seg p i w) ≤ w * t.wrap + e.start + (e.repeats + 1) * e.dur := by
    unfold loopEnd
    rw [start_at hd hp, dur_at hd hp]
    have : (p.repeats + 1) * e.dur ≤ (e.repeats + 1) * e.dur :=
      Nat.mul_le_mul_right _ (by have := hp.repeats; omega)
    rw [Nat.add_mul] at this
    omega
  have hbpos := loopDur_pos durs (durs_ne hd) (durs_pos hd) (t.seg q j v)
  have h1 := h e (List.mem_of_getElem? hp.entry)
  have h2 := ha.2
  have h3 := hb.1
  rw [hs0] at hle
  unfold loopEnd at h3
  have h4 : (w + 1) * t.wrap = w * t.wrap + t.wrap := by ring
  have h5 : (((e.repeats + 1) * e.dur : Nat) : Int) = ((e.repeats : Int) + 1) * e.dur := by push_cast; ring
  simp only [Nat.zero_mul, Nat.add_zero] at hle
  rw [h4] at hle
  omega

/-- **C28 (start).** For every duration table and window, near or not: when the timeline is not
empty, it starts with a segment that the window start lies in (or at the end of), and the start
number is the number of that segment. -/
theorem C28_start (t : SegTable) (durs : List Nat) (hd : t.Describes durs)
    (before : Option Int) (start stop : Int) (hstart : 0 ≤ start) (hstop : 0 ≤ stop)
    (s : SElem) (elems : List SElem) (nr : Option Int)
    (h : createTimeline t before start stop false = .ok ⟨some (s :: elems), nr⟩) :
    ∃ a, Holds durs (start * t.timescale) a ∧ s.t = some (loopStart durs a : Int) ∧
      s.d = loopDur durs a ∧ nr = some (a : Int) := by
  obtain ⟨p, i, e, w, ep, hp, hlo, hhi⟩ := findLatest_at hd (start * t.timescale)
    (Int.mul_nonneg hstart (by omega))
  rcases create_ends hd before start stop false hstop ep with ⟨_, h'⟩ | ⟨q, j, e', v, hq, hlast, er⟩
  · rw [h'] at h; cases h
  · refine ⟨t.seg p i w, ⟨hlo, hhi⟩, ?_⟩
    rw [er] at h
    have hent : entryAt t.entries p.index = .ok e := by rw [hp.index]; exact entryAt_nat hp.entry
    unfold listBetween at h
    rw [segStart_at hd hp, segStart_at hd hq, py_bind_ok, py_bind_ok, hent, segNumber_at hd hp] at h
    split at h
    · cases h
    · rename_i x hx
      split at hx
      · cases hx
        cases h
      · cases hs : sLoop t q p (q.wraps.toNat * t.entries.length + q.index.toNat) q.index q.wraps [] with
        | error z => rw [hs] at hx; cases hx
        | ok l =>
          rw [hs] at hx
          cases hx
          cases h
          exact ⟨rfl, (dur_at hd hp).symm, rfl⟩

/-- **C28.** A window that ends before time 0 is refused. -/
theorem C28_before_zero (t : SegTable) (hw : 0 < t.wrap) (before : Option Int)
    (start stop : Int) (closest : Bool) (h : stop < 0) (hts : 0 < t.timescale) :
    createTimeline t before start stop closest = .error .timelineError := by
  have h1 : stop * t.timescale < 0 := Int.mul_neg_of_neg_of_pos h (by omega)
  have h2 : Int.fdiv (stop * t.timescale) t.wrap < 0 := by
    rw [Int.fdiv_eq_ediv_of_nonneg _ (by omega)]
    exact Int.ediv_neg_of_neg_of_pos h1 (by omega)
  unfold createTimeline findLatest
  rw [if_neg (by omega), if_pos h2]

/-- A table of two entries and a loop of 20 s: durations 4, 4, 6, 6 with timescale 10. -/
def twoEntryTable : SegTable := ⟨[⟨1, 1, 0, 40⟩, ⟨3, 1, 80, 60⟩], 10, 20, 4, 1⟩

theorem twoEntryTable_describes : twoEntryTable.Describes [40, 40, 60, 60] where
  nonempty := by decide
  positive := by decide
  expands := by decide
  chain := by
    intro i e h
    match i with
    | 0 => simp only [twoEntryTable, List.getElem?_cons_zero, Option.some.injEq] at h; subst h; decide
    | 1 =>
      simp only [twoEntryTable, List.getElem?_cons_succ, List.getElem?_cons_zero, Option.some.injEq] at h
      subst h; decide
    | i + 2 => simp [twoEntryTable] at h
  wrap := by decide
  count := by decide

/-- The video of the test content of /repo (configuration of 6 s segments, an hour of them). -/
def testTable : SegTable := ⟨[⟨1, 599, 0, 6⟩], 1, 3600, 600, 1⟩

theorem testTable_describes : testTable.Describes (List.replicate 600 6) where
  nonempty := by decide
  positive := by decide
  expands := by
    simp only [testTable, expandEntries, List.flatMap_cons, List.flatMap_nil, List.append_nil]
  chain := by
    intro i e h
    match i with
    | 0 => simp only [testTable, List.getElem?_cons_zero, Option.some.injEq] at h; subst h; decide
    | i + 1 => simp [testTable] at h
  wrap := by rw [sum_replicate_nat]; rfl
  count := List.length_replicate

/-- A window over the end of the loop: segment 3 and, of the next loop, 4. -/
example : twoEntryTable.Near [40, 40, 60, 60] (16 * 10) (24 * 10) ∧
    createTimeline twoEntryTable none 16 24 false =
      .ok ⟨some [⟨some 140, 60, none⟩, ⟨none, 40, none⟩], some 3⟩ ∧
    listed [⟨some 140, 60, none⟩, ⟨none, 40, none⟩] = loopSegments [40, 40, 60, 60] 3 2 := by
  refine ⟨?_, by decide +kernel, by decide +kernel⟩
  apply near_of_short _ _ twoEntryTable_describes
  decide

example : createTimeline twoEntryTable none 0 3 false = .ok ⟨none, none⟩ := by decide
example : createTimeline twoEntryTable none (-4) (-1) false = .error .timelineError := by decide

/-- **C28 violation.** With one entry in the table, as for the test content, a window over the end
of the loop lists segments that have not begun: at 3630 s with a buffer of 60 s the segments 594
to 604 have to be listed, but 594 to 608 are, the last of which ends at 3654 s. -/
theorem C28_one_entry_violation :
    testTable.Describes (List.replicate 600 6) ∧
    Holds (List.replicate 600 6) (3570 * 1) 594 ∧ LastEnded (List.replicate 600 6) (3630 * 1) 604 ∧
    createTimeline testTable none 3570 3630 false =
      .ok ⟨some [⟨some 3564, 6, some 9⟩, ⟨none, 6, some 4⟩], some 594⟩ ∧
    listed [⟨some 3564, 6, some 9⟩, ⟨none, 6, some 4⟩] =
      loopSegments (List.replicate 600 6) 594 15 := by
  refine ⟨testTable_describes, ⟨by decide +kernel, by decide +kernel⟩,
    ⟨by decide +kernel, by decide +kernel⟩, by decide +kernel, by decide +kernel⟩

/-- **C28 violation.** A window as long as the loop: the segments 0 to 4 have to be listed, but the
entry that they begin in is listed with the repeats of the end: segment 1 is missing and all that
follow are listed 40 too early. -/
theorem C28_whole_loop_violation :
    twoEntryTable.Describes [40, 40, 60, 60] ∧
    Holds [40, 40, 60, 60] (3 * 10) 0 ∧ LastEnded [40, 40, 60, 60] (25 * 10) 4 ∧
    createTimeline twoEntryTable none 3 25 false =
      .ok ⟨some [⟨some 0, 40, none⟩, ⟨none, 60, some 1⟩, ⟨none, 40, none⟩], some 0⟩ ∧
    listed [⟨some 0, 40, none⟩, ⟨none, 60, some 1⟩, ⟨none, 40, none⟩] =
      [(0, 40), (40, 60), (100, 60), (160, 40)] ∧
    loopSegments [40, 40, 60, 60] 0 5 = [(0, 40), (40, 40), (80, 60), (140, 60), (200, 40)] := by
  refine ⟨twoEntryTable_describes, ⟨by decide, by decide⟩, ⟨by decide, by decide⟩,
    by decide +kernel, by decide +kernel, by decide +kernel⟩

/-- **C28 violation.** When no segment has ended since the start of the window, the start number
is what it was before: none (the MPD then says startNumber="None"), or that of the period
before. -/
theorem C28_empty_number_violation :
    createTimeline testTable none 7 8 false = .ok ⟨some [], none⟩ ∧
    createTimeline testTable (some 590) 3600 3602 false = .ok ⟨some [], some 590⟩ := by
  refine ⟨by decide +kernel, by decide +kernel⟩


theorem closestLoop_some (dur rel start : Nat) (left repeats r : Nat)
    (h : closestLoop dur rel left (start + repeats * dur) repeats = some r) :
    r ≤ repeats + left ∧ ((rel : Int) - (start + r * dur : Nat)).natAbs ≤ dur / 2 := by
  induction left generalizing repeats with
  | zero =>
    unfold closestLoop at h
    split at h
    · cases h
      exact ⟨Nat.le_refl _, by assumption⟩
    · cases h
  | succ left ih =>
    unfold closestLoop at h
    split at h
    · cases h
      exact ⟨by omega, by assumption⟩
    · simp only at h
      rw [show start + repeats * dur + dur = start + (repeats + 1) * dur by ring] at h
      obtain ⟨h1, h2⟩ := ih _ h
      exact ⟨by omega, h2⟩

theorem closestLoop_none (dur rel start : Nat) (left repeats : Nat)
    (h : closestLoop dur rel left (start + repeats * dur) repeats = none) (r : Nat)
    (h1 : repeats ≤ r) (h2 : r ≤ repeats + left) :
    dur / 2 < ((rel : Int) - (start + r * dur : Nat)).natAbs := by
  induction left generalizing repeats with
  | zero =>
    have : r = repeats := by omega
    subst this
    unfold closestLoop at h
    split at h
    · cases h
    · omega
  | succ left ih =>
    unfold closestLoop at h
    split at h
    · cases h
    · simp only at h
      rw [show start + repeats * dur + dur = start + (repeats + 1) * dur by ring] at h
      by_cases hr : r = repeats
      · subst hr; omega
      · exact ih _ h (by omega) (by omega)

/-- **C28 (window with start and stop).** With `use_closest` (a session with a stop time) the first
segment listed is one that starts within half its duration of the window start; all else is as in
`C28_window_partial`.

Missing: window starts in the second half of the last segment of an entry of the table, for which
`C28_closest_violation` shows the claim false, and windows in which an entry occurs twice. -/
theorem C28_closest_partial (t : SegTable) (durs : List Nat) (hd : t.Describes durs)
    (before : Option Int) (start stop : Int) (hstart : 0 ≤ start) (hstop : 0 ≤ stop)
    (hnear : t.Near durs (start * t.timescale) (stop * t.timescale))
    (hhalf : ∀ a, (loopStart durs a : Int) ≤ start * t.timescale →
      start * t.timescale < loopEnd durs a →
      2 * (start * t.timescale - loopStart durs a) ≤ loopDur durs a ∨
        t.entryCount (a + 1) = t.entryCount a) :
    (stop * t.timescale < loopEnd durs 0 ∧ createTimeline t before start stop true = .ok ⟨none, before⟩) ∨
    ∃ a b, 2 * (start * t.timescale - loopStart durs a).natAbs ≤ loopDur durs a ∧
      LastEnded durs (stop * t.timescale) b ∧
      (b < a → createTimeline t before start stop true = .ok ⟨some [], before⟩) ∧
      (a ≤ b → ∃ elems, createTimeline t before start stop true = .ok ⟨some elems, some (a : Int)⟩ ∧
        listed elems = loopSegments durs a (b + 1 - a)) := by
  obtain ⟨S, hS⟩ : ∃ S, S = start * t.timescale := ⟨_, rfl⟩
  obtain ⟨w, rel, hrel, hdiv, hmod, htime, hw0⟩ := time_split hd S
    (by rw [hS]; exact Int.mul_nonneg hstart (by omega))
  obtain ⟨i, e, he, hb, h1, h2⟩ := entry_found hd rel hrel
  have hdpos := hd.positive e (List.mem_of_getElem? he)
  -- the segment that the window start lies in
  obtain ⟨r0, o, ho, hro⟩ : ∃ r0 o, o < e.dur ∧ rel = e.start + r0 * e.dur + o :=
    ⟨(rel - e.start) / e.dur, (rel - e.start) % e.dur, Nat.mod_lt _ hdpos, by
      have := Nat.div_add_mod (rel - e.start) e.dur
      rw [Nat.mul_comm] at this
      omega⟩
  have hr0 : r0 ≤ e.repeats := by
    by_contra hc
    have : (e.repeats + 1) * e.dur ≤ r0 * e.dur := Nat.mul_le_mul_right _ (by omega)
    omega
  have hat0 : t.At ⟨i, r0, w⟩ i e w := ⟨he, rfl, rfl, hr0⟩
  have hst0 := start_at hd hat0
  have hdu0 := dur_at hd hat0
  simp only at hst0
  have hin1 : (loopStart durs (t.seg ⟨i, r0, w⟩ i w) : Int) ≤ S := by rw [hst0, htime]; omega
  have hin2 : S < loopEnd durs (t.seg ⟨i, r0, w⟩ i w) := by
    unfold loopEnd; rw [hst0, hdu0, htime]; omega
  -- a segment of this entry is close
  have hsome : ∃ r, closestLoop e.dur rel e.repeats e.start 0 = some r := by
    cases hc : closestLoop e.dur rel e.repeats e.start 0 with
    | some r => exact ⟨r, rfl⟩
    | none =>
      exfalso
      have hn := closestLoop_none e.dur rel e.start e.repeats 0 (by rw [Nat.zero_mul]; exact hc)
      have hlt := hn r0 (Nat.zero_le _) (by omega)
      rcases hhalf _ (by rw [← hS]; exact hin1) (by rw [← hS]; exact hin2) with hh | hh
      · rw [← hS, hst0, hdu0, htime] at hh
        omega
      · obtain ⟨q, j, e', v, hq, hs, hlin⟩ := at_next hd hat0
        rw [← hs, entryCount_at hd hq, entryCount_at hd hat0, hlin] at hh
        split at hh
        · rename_i hlt'
          simp only at hlt'
          have := hn (r0 + 1) (Nat.zero_le _) (by omega)
          rw [Nat.add_mul] at this
          omega
        · omega
  obtain ⟨r, hr⟩ := hsome
  obtain ⟨hrle, habs⟩ := closestLoop_some e.dur rel e.start e.repeats 0 r (by rw [Nat.zero_mul]; exact hr)
  have hat : t.At ⟨i, r, w⟩ i e w := ⟨he, rfl, rfl, by simp only; omega⟩
  have ep : findClosest t (start * t.timescale) = .ok (some ⟨i, r, w⟩) := by
    unfold findClosest
    rw [← hS, if_neg hw0, if_neg (by rw [hdiv]; omega), hmod, hdiv]
    simp only
    rw [hb, entryAt_nat he]
    simp only
    rw [hr]
  rcases create_ends hd before start stop true hstop ep with h | ⟨q, j, e', v, hq, hlast, er⟩
  · exact Or.inl h
  · refine Or.inr ⟨t.seg ⟨i, r, w⟩ i w, t.seg q j v, ?_, hlast, ?_, ?_⟩
    · rw [start_at hd hat, dur_at hd hat, ← hS, htime]
      simp only
      omega
    · intro hlt
      rw [er, listBetween_empty hd hat hq hlt]
      rfl
    · intro hle
      have hn := hnear _ _ ⟨by rw [← hS]; exact hin1, by rw [← hS]; omega⟩ hlast
      rw [entryCount_at hd hat0, entryCount_at hd hq] at hn
      obtain ⟨elems, el, hlist⟩ := listBetween_at hd hat hq hle hn
      refine ⟨elems, ?_, hlist⟩
      rw [er, el]
      rfl

/-- A window that starts near the end of segment 0 of an entry of two: segments 1 and 2. -/
example : createTimeline twoEntryTable none 3 14 true =
      .ok ⟨some [⟨some 40, 40, none⟩, ⟨none, 60, none⟩], some 1⟩ ∧
    listed [⟨some 40, 40, none⟩, ⟨none, 60, none⟩] = loopSegments [40, 40, 60, 60] 1 2 := by
  refine ⟨by decide +kernel, by decide +kernel⟩

/-- **C28 violation.** A session started at 3598 s: the segment that starts nearest is the first of
the next loop (number 600, start 3600), but the last of that loop (number 1199, start 7194) is
taken: for an hour nothing is listed, and then segment 1199 alone. -/
theorem C28_closest_violation :
    testTable.Describes (List.replicate 600 6) ∧
    2 * (3598 * 1 - (loopStart (List.replicate 600 6) 600 : Int)).natAbs ≤
      loopDur (List.replicate 600 6) 600 ∧
    findClosest testTable 3598 = .ok (some ⟨0, 599, 1⟩) ∧
    createTimeline testTable none 3598 7000 true = .ok ⟨some [], none⟩ ∧
    createTimeline testTable none 3598 7200 true = .ok ⟨some [⟨some 7194, 6, none⟩], some 1199⟩ := by
  refine ⟨testTable_describes, by decide +kernel, by decide +kernel, by decide +kernel,
    by decide +kernel⟩

/-! ### C29 -/

theorem loopSegments_get (durs : List Nat) (a n i : Nat) (x : Int × Nat)
    (h : (loopSegments durs a n)[i]? = some x) :
    i < n ∧ x = ((loopStart durs (a + i) : Int), loopDur durs (a + i)) := by
  unfold loopSegments at h
  rw [List.getElem?_map] at h
  obtain ⟨k, hk, rfl⟩ := Option.map_eq_some_iff.mp h
  obtain ⟨hi, hk⟩ := List.getElem?_eq_some_iff.mp hk
  rw [List.length_range'] at hi
  rw [List.getElem_range'] at hk
  refine ⟨hi, ?_⟩
  rw [← hk, Nat.one_mul]

/-- What a timeline that is not empty lists. -/
theorem listed_window (t : SegTable) (durs : List Nat) (hd : t.Describes durs)
    (before : Option Int) (start stop : Int) (hstart : 0 ≤ start) (hstop : 0 ≤ stop)
    (hnear : t.Near durs (start * t.timescale) (stop * t.timescale))
    (elems : List SElem) (hne : elems ≠ []) (n : Option Int)
    (h : createTimeline t before start stop false = .ok ⟨some elems, n⟩) :
    ∃ a b : Nat, a ≤ b ∧ n = some (a : Int) ∧ Holds durs (start * t.timescale) a ∧
      LastEnded durs (stop * t.timescale) b ∧ listed elems = loopSegments durs a (b + 1 - a) := by
  rcases C28_window_partial t durs hd before start stop hstart hstop hnear with
    ⟨_, h'⟩ | ⟨a, b, ha, hb, hlt, hle⟩
  · rw [h'] at h; cases h
  · by_cases hab : a ≤ b
    · obtain ⟨l, el, hl⟩ := hle hab
      rw [el] at h
      cases h
      exact ⟨a, b, hab, rfl, ha, hb, hl⟩
    · rw [hlt (by omega)] at h
      cases h
      exact absurd rfl hne

/-- The start number is that of the segment found for the window start. -/
theorem startNr_of_start (t : SegTable) (before : Option Int) (start stop : Int)
    (elems : List SElem) (hne : elems ≠ []) (n : Option Int)
    (h : createTimeline t before start stop false = .ok ⟨some elems, n⟩) :
    ∃ p v, findLatest t (start * t.timescale) = .ok (some p) ∧ segNumber t p = .ok v ∧ n = some v := by
  unfold createTimeline at h
  split at h
  · cases h
  · cases h
  · split at h
    · cases h
    · cases h
    · rename_i last _
      rw [if_neg (by decide)] at h
      cases hf : findLatest t (start * t.timescale) with
      | error x => rw [hf] at h; cases h
      | ok o =>
        rw [hf] at h
        cases o with
        | none => cases h
        | some p =>
          simp only at h
          cases hl : listBetween t p last with
          | error x => rw [hl] at h; cases h
          | ok x =>
            rw [hl] at h
            refine ⟨p, ?_⟩
            unfold listBetween at hl
            cases h1 : segStart t p with
            | error z => rw [h1] at hl; cases hl
            | ok a =>
              cases h2 : segStart t last with
              | error z => rw [h1, h2] at hl; cases hl
              | ok b =>
                rw [h1, h2, py_bind_ok, py_bind_ok] at hl
                split at hl
                · cases hl
                  cases h
                  exact absurd rfl hne
                · cases h3 : sLoop t last p (last.wraps.toNat * t.entries.length + last.index.toNat)
                      last.index last.wraps [] with
                  | error z => rw [h3] at hl; cases hl
                  | ok l =>
                    cases h4 : entryAt t.entries p.index with
                    | error z => rw [h3, h4] at hl; cases hl
                    | ok e =>
                      cases h5 : segNumber t p with
                      | error z => rw [h3, h4, h5] at hl; cases hl
                      | ok v =>
                        rw [h3, h4, h5] at hl
                        cases hl
                        cases h
                        exact ⟨v, rfl, rfl, rfl⟩

/-- **C29.** Two timelines made at any two times from the same duration table: a segment number
that is in both has the same start and duration in both; and if the second window neither starts
nor ends earlier than the first, it lists no segment number below the first one of the first,
and it ends with the last segment of the first or one after it.

Missing: the windows of `C28_one_entry_violation` and `C28_whole_loop_violation`, for which it is
false (`C29_consistent_violation`). -/
theorem C29_consistent_partial (t : SegTable) (durs : List Nat) (hd : t.Describes durs)
    (b1 b2 : Option Int) (start1 stop1 start2 stop2 : Int)
    (hs1 : 0 ≤ start1) (he1 : 0 ≤ stop1) (hs2 : 0 ≤ start2) (he2 : 0 ≤ stop2)
    (hn1 : t.Near durs (start1 * t.timescale) (stop1 * t.timescale))
    (hn2 : t.Near durs (start2 * t.timescale) (stop2 * t.timescale))
    (l1 l2 : List SElem) (hl1 : l1 ≠ []) (hl2 : l2 ≠ []) (n1 n2 : Option Int)
    (h1 : createTimeline t b1 start1 stop1 false = .ok ⟨some l1, n1⟩)
    (h2 : createTimeline t b2 start2 stop2 false = .ok ⟨some l2, n2⟩) :
    ∃ a1 a2 : Nat, n1 = some (a1 : Int) ∧ n2 = some (a2 : Int) ∧
      (∀ i j x y, a1 + i = a2 + j → (listed l1)[i]? = some x → (listed l2)[j]? = some y → x = y) ∧
      (start1 ≤ start2 → stop1 ≤ stop2 →
        a1 ≤ a2 ∧ a1 + (listed l1).length ≤ a2 + (listed l2).length) := by
  obtain ⟨a1, c1, hac1, rfl, ha1, hc1, e1⟩ := listed_window t durs hd b1 start1 stop1 hs1 he1 hn1 l1 hl1 n1 h1
  obtain ⟨a2, c2, hac2, rfl, ha2, hc2, e2⟩ := listed_window t durs hd b2 start2 stop2 hs2 he2 hn2 l2 hl2 n2 h2
  refine ⟨a1, a2, rfl, rfl, ?_, ?_⟩
  · intro i j x y hij hx hy
    rw [e1] at hx
    rw [e2] at hy
    rw [(loopSegments_get _ _ _ _ _ hx).2, (loopSegments_get _ _ _ _ _ hy).2, hij]
  · intro hs he
    have hse := Int.mul_le_mul_of_nonneg_right he (by omega : (0 : Int) ≤ t.timescale)
    have hss := Int.mul_le_mul_of_nonneg_right hs (by omega : (0 : Int) ≤ t.timescale)
    have hcc : c1 ≤ c2 := by
      have h3 := hc1.1
      have h4 := hc2.2
      rw [← loopStart_succ _ (durs_ne hd)] at h3
      rw [← loopStart_succ _ (durs_ne hd)] at h4
      by_contra hc
      have : loopStart durs (c2 + 1 + 1) ≤ loopStart durs (c1 + 1) :=
        (loopStart_le_iff durs (durs_ne hd) (durs_pos hd) _ _).mpr (by omega)
      omega
    have haa : a1 ≤ a2 := by
      by_cases hstarts : start1 * t.timescale = start2 * t.timescale
      · -- the first segment is a function of the window start
        obtain ⟨p1, v1, f1, g1, k1⟩ := startNr_of_start t b1 start1 stop1 l1 hl1 _ h1
        obtain ⟨p2, v2, f2, g2, k2⟩ := startNr_of_start t b2 start2 stop2 l2 hl2 _ h2
        rw [hstarts, f2] at f1
        cases f1
        rw [g2] at g1
        cases g1
        cases k1
        have := Option.some.inj k2
        omega
      · have h3 := ha1.1
        have h4 := ha2.2
        rw [← loopStart_succ _ (durs_ne hd)] at h4
        by_contra hc
        have : loopStart durs (a2 + 1) ≤ loopStart durs a1 :=
          (loopStart_le_iff durs (durs_ne hd) (durs_pos hd) _ _).mpr (by omega)
        omega
    refine ⟨haa, ?_⟩
    rw [e1, e2]
    unfold loopSegments
    simp only [List.length_map, List.length_range']
    omega

/-- Two windows at 18 s and 24 s. -/
example : createTimeline twoEntryTable none 10 18 false =
      .ok ⟨some [⟨some 80, 60, none⟩], some 2⟩ ∧
    createTimeline twoEntryTable none 12 24 false =
      .ok ⟨some [⟨some 80, 60, some 1⟩, ⟨none, 40, none⟩], some 2⟩ := by
  refine ⟨by decide +kernel, by decide +kernel⟩

/-- **C29 violation.** The test content again, with a buffer of 60 s: the timeline of 3654 s lists
the segments 598 to 616, that of 3663 s the segments 600 to 609 only. -/
theorem C29_consistent_violation :
    testTable.Describes (List.replicate 600 6) ∧
    ∃ l1 l2 n1 n2, createTimeline testTable none 3594 3654 false = .ok ⟨some l1, some n1⟩ ∧
      createTimeline testTable none 3603 3663 false = .ok ⟨some l2, some n2⟩ ∧
      n1 = 598 ∧ (listed l1).length = 19 ∧ n2 = 600 ∧ (listed l2).length = 10 := by
  refine ⟨testTable_describes, [⟨some 3588, 6, some 9⟩, ⟨none, 6, some 8⟩], [⟨some 3600, 6, some 9⟩], 598, 600,
    by decide +kernel, by decide +kernel, rfl, by decide +kernel, rfl, by decide +kernel⟩

end Verif
