import Verif.TableCheck
import Verif.Spec.TableCheck
import Verif.Props.Analyzer
/-
C87: the checker of the duration tables.
-/
namespace Verif

theorem jumps_nil_iff (l : List (Nat × Nat × Nat)) : jumps l = [] ↔ Gapless l := by
  induction l with
  | nil => simp [jumps, Gapless]
  | cons a t ih =>
    cases t with
    | nil => simp [jumps, Gapless]
    | cons b rest =>
      unfold jumps
      split
      · rename_i h
        rw [ih]
        constructor
        · intro g i x y hx hy
          cases i with
          | zero => simp only [List.getElem?_cons_zero, Option.some.injEq, List.getElem?_cons_succ] at hx hy
                    subst hx hy; exact h
          | succ i => exact g i x y (by simpa using hx) (by simpa using hy)
        · intro g i x y hx hy
          exact g (i + 1) x y (by simpa using hx) (by simpa using hy)
      · rename_i h
        constructor
        · intro e; cases e
        · intro g; exact absurd (g 0 a b rfl rfl) h

/-- The segments of one run have no jumps, and a jump can only be at the seam. -/
theorem jumps_run (nr start dur n : Nat) (rest : List (Nat × Nat × Nat)) :
    jumps ((List.range (n + 1)).map (fun i => (nr + i, start + i * dur, dur)) ++ rest) =
      jumps ((nr + n, start + n * dur, dur) :: rest) := by
  induction n generalizing nr start with
  | zero => simp
  | succ n ih =>
    rw [List.range_succ_eq_map, List.map_cons, List.map_map]
    have e : (List.range (n + 1)).map ((fun i => (nr + i, start + i * dur, dur)) ∘ Nat.succ) =
        (List.range (n + 1)).map (fun i => (nr + 1 + i, start + dur + i * dur, dur)) := by
      apply List.map_congr_left
      intro i _
      simp only [Function.comp, Prod.mk.injEq, and_true]
      constructor
      · omega
      · rw [Nat.succ_mul]; omega
    rw [e]
    have key := ih (nr + 1) (start + dur)
    have e2 : (nr + 1 + n, start + dur + n * dur, dur) = (nr + (n + 1), start + (n + 1) * dur, dur) := by
      rw [Nat.succ_mul]; congr 1
      · omega
      · congr 1; omega
    rw [e2] at key
    rw [← key]
    rw [List.range_succ_eq_map, List.map_cons, List.cons_append, List.cons_append]
    rw [jumps]
    simp

/-- Lines about jumps. -/
def jumpLines (l : List (Nat × Nat)) : List DatLine := l.map fun x => .mismatch x.1 x.2

/-- The last segment of an entry. -/
def lastSeg (e : SegEntry) : Nat × Nat × Nat := (e.startNr + e.repeats, e.start + e.repeats * e.dur, e.dur)

theorem jumps_table (e : SegEntry) (es : List SegEntry) :
    jumps (tableSegs (e :: es)) = jumps (lastSeg e :: tableSegs es) := by
  unfold tableSegs
  rw [List.flatMap_cons, entrySegs, jumps_run]
  rfl

theorem jumps_seam (l e : SegEntry) (es : List SegEntry) :
    jumpLines (jumps (lastSeg l :: tableSegs (e :: es))) =
      datMismatch (some l) e ++ jumpLines (jumps (tableSegs (e :: es))) := by
  have e1 : tableSegs (e :: es) = (e.startNr, e.start, e.dur) ::
      ((List.range e.repeats).map (fun i => (e.startNr + (i + 1), e.start + (i + 1) * e.dur, e.dur)) ++ tableSegs es) := by
    unfold tableSegs
    rw [List.flatMap_cons, entrySegs, List.range_succ_eq_map, List.map_cons, List.map_map]
    simp [Function.comp]
  rw [e1, jumps]
  unfold datMismatch lastSeg
  dsimp only
  have e3 : l.start + l.dur * (l.repeats + 1) = l.start + l.repeats * l.dur + l.dur := by ring
  rw [e3]
  by_cases h : e.start = l.start + l.repeats * l.dur + l.dur
  · rw [if_pos h, if_neg (by simp [h])]; rfl
  · rw [if_neg h, if_pos (by intro x; exact h x.symm)]; rfl

theorem parseDatLoop_spec (fuel : Nat) (last : Option SegEntry) (d : Bytes) (hf : d.length ≤ fuel)
    (hm : d.length % 12 = 0) :
    ∃ es, readDatLoop fuel d = .ok es ∧ 12 * es.length = d.length ∧
      parseDatLoop 0 fuel last d =
        (match last with
          | none => jumpLines (jumps (tableSegs es))
          | some l => jumpLines (jumps (lastSeg l :: tableSegs es)), .ok ()) ∧
      ∀ v, (parseDatLoop (v + 1) fuel last d).2 = .ok () ∧
        (parseDatLoop (v + 1) fuel last d).1.filter (fun x => match x with | .entry _ => true | _ => false) =
          es.map .entry ∧
        (parseDatLoop (v + 1) fuel last d).1.filter (fun x => match x with | .entry _ => false | _ => true) =
          (parseDatLoop 0 fuel last d).1 := by
  induction fuel generalizing last d with
  | zero =>
    have : d = [] := by cases d with
      | nil => rfl
      | cons _ _ => simp at hf
    subst this
    refine ⟨[], rfl, rfl, ?_, ?_⟩
    · cases last <;> rfl
    · intro v; exact ⟨rfl, rfl, rfl⟩
  | succ fuel ih =>
    by_cases hd : d = []
    · subst hd
      refine ⟨[], rfl, rfl, ?_, ?_⟩
      · cases last <;> rfl
      · intro v; exact ⟨rfl, rfl, rfl⟩
    · have hpos : 0 < d.length := List.length_pos_iff.mpr hd
      have h12 : ¬ d.length < 12 := by omega
      let e : SegEntry :=
        ⟨leVal (slice d 0 2), leVal (slice d 2 4), leVal (slice d 4 8), leVal (slice d 8 12)⟩
      obtain ⟨es, r1, r2, r3, r4⟩ := ih (some e) (d.drop 12) (by rw [List.length_drop]; omega)
        (by rw [List.length_drop]; omega)
      rw [List.length_drop] at r2
      have p0 : ∀ v, parseDatLoop v (fuel + 1) last d =
          (datMismatch last e ++ (if v > 0 then [.entry e] else []) ++
            (parseDatLoop v fuel (some e) (d.drop 12)).1, (parseDatLoop v fuel (some e) (d.drop 12)).2) := by
        intro v
        rw [parseDatLoop, if_neg hd, if_neg h12]
      have hmm : (datMismatch last e).filter (fun x => match x with | .entry _ => true | _ => false) = [] ∧
          (datMismatch last e).filter (fun x => match x with | .entry _ => false | _ => true) =
            datMismatch last e := by
        unfold datMismatch
        cases last with
        | none => exact ⟨rfl, rfl⟩
        | some l =>
          dsimp only
          split
          · exact ⟨rfl, rfl⟩
          · exact ⟨rfl, rfl⟩
      refine ⟨e :: es, ?_, ?_, ?_, ?_⟩
      · rw [readDatLoop, if_neg hd, if_neg h12, r1]
      · rw [List.length_cons]; omega
      · rw [p0, r3]
        simp only [gt_iff_lt, Nat.lt_irrefl, if_false, List.append_nil]
        cases last with
        | none => rw [jumps_table]; simp [datMismatch]
        | some l => dsimp only; rw [jumps_seam, jumps_table]
      · intro v
        obtain ⟨s1, s2, s3⟩ := r4 v
        rw [p0, p0]
        refine ⟨s1, ?_, ?_⟩
        · rw [List.filter_append, List.filter_append, hmm.1, s2]; rfl
        · rw [List.filter_append, List.filter_append, hmm.2, s3]
          simp

theorem parseDatLoop_short (v fuel : Nat) (last : Option SegEntry) (d : Bytes) (hf : d.length ≤ fuel)
    (hm : d.length % 12 ≠ 0) :
    parseDatLoop v fuel last d =
        ((parseDatLoop v fuel last (d.take (d.length / 12 * 12))).1, .error .structError) ∧
      readDatLoop fuel d = .error .structError := by
  induction fuel generalizing last d with
  | zero => exfalso; apply hm; have : d.length = 0 := by omega
            rw [this]
  | succ fuel ih =>
    have hd : d ≠ [] := by intro h; subst h; simp at hm
    by_cases h12 : d.length < 12
    · have : d.length / 12 * 12 = 0 := by omega
      rw [this, List.take_zero]
      constructor
      · rw [parseDatLoop, if_neg hd, if_pos h12, parseDatLoop, if_pos rfl]
      · rw [readDatLoop, if_neg hd, if_pos h12]
    · have hl : (d.drop 12).length = d.length - 12 := List.length_drop
      obtain ⟨r1, r2⟩ := ih (some ⟨leVal (slice d 0 2), leVal (slice d 2 4), leVal (slice d 4 8), leVal (slice d 8 12)⟩)
        (d.drop 12) (by omega) (by omega)
      have hk : 12 ≤ d.length / 12 * 12 := by omega
      have ht : (d.take (d.length / 12 * 12)).length = d.length / 12 * 12 := by
        rw [List.length_take]; omega
      have htd : (d.take (d.length / 12 * 12)).drop 12 = (d.drop 12).take ((d.drop 12).length / 12 * 12) := by
        rw [List.drop_take, hl]; congr 1; omega
      have hs : ∀ a b, b ≤ 12 → slice (d.take (d.length / 12 * 12)) a b = slice d a b := by
        intro a b hb
        unfold slice
        rw [List.drop_take, List.take_take, Nat.min_eq_left (by omega)]
      constructor
      · rw [parseDatLoop, if_neg hd, if_neg h12, parseDatLoop,
          if_neg (by intro h; rw [h] at ht; simp at ht; omega), if_neg (by omega), htd,
          hs 0 2 (by omega), hs 2 4 (by omega), hs 4 8 (by omega), hs 8 12 (by omega)]
        dsimp only
        rw [r1]
      · rw [readDatLoop, if_neg hd, if_neg h12, r2]

/-- **C87, what is reported.** For every file of whole entries, the checker reports exactly the places
where a segment of the table does not start where the segment before ends, in order and with both times;
with more output, it also prints every entry, and it ends normally. -/
theorem C87_exact (d : Bytes) (hm : d.length % 12 = 0) :
    ∃ es, readDat d = .ok es ∧ parseDat d 0 = (jumpLines (jumps (tableSegs es)), .ok ()) ∧
      ∀ v, (parseDat d (v + 1)).2 = .ok () ∧
        (parseDat d (v + 1)).1.filter (fun x => match x with | .entry _ => true | _ => false) = es.map .entry ∧
        (parseDat d (v + 1)).1.filter (fun x => match x with | .entry _ => false | _ => true) =
          (parseDat d 0).1 := by
  obtain ⟨es, h1, _, h3, h4⟩ := parseDatLoop_spec d.length none d (le_refl _) hm
  exact ⟨es, h1, h3, h4⟩

/-- **C87, files that were cut.** A file that ends within an entry is neither read by the server nor
accepted by the checker, which first reports on the entries before. -/
theorem C87_cut (d : Bytes) (v : Nat) (hm : d.length % 12 ≠ 0) :
    readDat d = .error .structError ∧
      parseDat d v = ((parseDat (d.take (d.length / 12 * 12)) v).1, .error .structError) := by
  obtain ⟨h1, h2⟩ := parseDatLoop_short v d.length none d (le_refl _) hm
  refine ⟨h2, ?_⟩
  unfold parseDat
  rw [h1]
  congr 1
  have : ∀ (f g : Nat) (last : Option SegEntry) (t : Bytes), t.length ≤ f → t.length ≤ g →
      parseDatLoop v f last t = parseDatLoop v g last t := by
    intro f
    induction f with
    | zero =>
      intro g last t hf _
      have : t = [] := List.length_eq_zero_iff.mp (by omega)
      subst this
      cases g <;> simp [parseDatLoop]
    | succ f ih =>
      intro g last t hf hg
      cases g with
      | zero =>
        have : t = [] := List.length_eq_zero_iff.mp (by omega)
        subst this
        simp [parseDatLoop]
      | succ g =>
        unfold parseDatLoop
        split
        · rfl
        · split
          · rfl
          · dsimp only
            rw [ih g _ (t.drop 12) (by rw [List.length_drop]; omega) (by rw [List.length_drop]; omega)]
  rw [this d.length (d.take (d.length / 12 * 12)).length none _
    (by rw [List.length_take]; omega) (le_refl _)]

/-- **C87, silence.** The checker says nothing about a file and ends normally exactly when the server can
read it and every segment of the table starts where the one before ends. -/
theorem C87_silent (d : Bytes) :
    parseDat d 0 = ([], .ok ()) ↔ ∃ es, readDat d = .ok es ∧ Gapless (tableSegs es) := by
  by_cases hm : d.length % 12 = 0
  · obtain ⟨es, h1, h2, _⟩ := C87_exact d hm
    constructor
    · intro h
      refine ⟨es, h1, (jumps_nil_iff _).mp ?_⟩
      rw [h2] at h
      have := (Prod.mk.inj h).1
      unfold jumpLines at this
      exact List.map_eq_nil_iff.mp this
    · rintro ⟨es', h3, h4⟩
      rw [h1] at h3
      cases h3
      rw [h2, (jumps_nil_iff _).mpr h4]
      rfl
  · obtain ⟨h1, h2⟩ := C87_cut d 0 hm
    constructor
    · intro h; rw [h2] at h; cases (Prod.mk.inj h).2
    · rintro ⟨es, h3, _⟩; rw [h1] at h3; cases h3

theorem gapless_seen (nr : Nat) (segs : List AnaSeg) (hg : NoGaps segs) : Gapless (seenSegs nr segs) := by
  induction segs generalizing nr with
  | nil => intro i a b h; simp [seenSegs] at h
  | cons s t ih =>
    intro i a b ha hb
    cases i with
    | zero =>
      cases t with
      | nil => simp [seenSegs] at hb
      | cons u r =>
        simp only [seenSegs, List.getElem?_cons_zero, Option.some.injEq, List.getElem?_cons_succ] at ha hb
        subst ha hb
        exact hg.1
    | succ i =>
      have hg' : NoGaps t := by
        cases t with
        | nil => trivial
        | cons u r => exact hg.2
      exact ih (nr + 1) hg' i a b (by simpa [seenSegs] using ha) (by simpa [seenSegs] using hb)

/-- **C87, tables of the analyser.** The checker has nothing to say about the tables that the analyser
writes for content without gaps.  Missing: that it reports the gaps of other content
(`C87_hidden_violation`). -/
theorem C87_content_partial (sets : List AnaSet) (r : AnaResult) (h : analyze sets = .ok r)
    (hne : ∀ a ∈ sets, a.reps ≠ []) (i : Nat) (a : AnaSet) (ha : sets[i]? = some a)
    (f : Nat) (segs : List AnaSeg) (rest : List (Nat × List AnaSeg)) (hr : a.reps = (f, segs) :: rest)
    (hpos : ∀ s ∈ segs, 0 < s.dur) (hg : NoGaps segs) :
    ∃ bytes ticks, r.files[i]? = some (bytes, ticks) ∧ parseDat bytes 0 = ([], .ok ()) := by
  obtain ⟨bytes, ticks, es, h1, h2, h3, _⟩ := C41_lossless_partial sets r h hne i a ha f segs rest hr hpos hg
  refine ⟨bytes, ticks, h1, (C87_silent bytes).mpr ⟨es, h2, ?_⟩⟩
  rw [h3]
  exact gapless_seen _ _ hg

/-- The hypotheses are met by content with two kinds of media. -/
example : analyze testSets = .ok testResult ∧ NoGaps [⟨0, 180⟩, ⟨180, 180⟩, ⟨360, 180⟩] ∧
    (testResult.files.map fun x => parseDat x.1 0) = [([], .ok ()), ([], .ok ())] :=
  ⟨by decide +kernel, by simp [NoGaps], by decide +kernel⟩

/-- A table of two runs with a gap of five ticks between them. -/
example : parseDat [1, 0, 1, 0, 0, 0, 0, 0, 180, 0, 0, 0, 3, 0, 0, 0, 0x6d, 1, 0, 0, 90, 0, 0, 0] 0 =
    ([.mismatch 365 360], .ok ()) ∧
    readDat [1, 0, 1, 0, 0, 0, 0, 0, 180, 0, 0, 0, 3, 0, 0, 0, 0x6d, 1, 0, 0, 90, 0, 0, 0] =
      .ok [⟨1, 1, 0, 180⟩, ⟨3, 0, 365, 90⟩] ∧
    parseDat [1, 0, 1, 0, 0, 0, 0, 0, 180, 0, 0, 0, 3, 0, 0, 0, 0x6d] 0 = ([], .error .structError) :=
  ⟨by decide +kernel, by decide +kernel, by decide +kernel⟩

/-- **C87 fails** for gaps between segments of the same duration: the analyser writes one run for them,
and the checker finds nothing wrong with its table. -/
theorem C87_hidden_violation :
    ∃ bytes ticks, analyze [⟨90, 2, 1, [(1, [⟨0, 180⟩, ⟨180, 180⟩, ⟨365, 180⟩])]⟩] =
        .ok ⟨1, 3, 2, [(bytes, ticks)]⟩ ∧ ¬ NoGaps [⟨0, 180⟩, ⟨180, 180⟩, ⟨365, 180⟩] ∧
      parseDat bytes 0 = ([], .ok ()) :=
  ⟨[1, 0, 2, 0, 0, 0, 0, 0, 180, 0, 0, 0], 545, by decide +kernel, by simp [NoGaps], by decide +kernel⟩

/-- **C87 fails** for the numbers of the segments: the checker does not look at them, so a table that
goes on with another number than the next one (here 1, 2, 4) passes. -/
theorem C87_numbers_violation :
    ∃ d es, readDat d = .ok es ∧ parseDat d 0 = ([], .ok ()) ∧
      (tableSegs es).map (fun x => x.1) = [1, 2, 4] :=
  ⟨[1, 0, 1, 0, 0, 0, 0, 0, 180, 0, 0, 0, 4, 0, 0, 0, 0x68, 1, 0, 0, 90, 0, 0, 0],
    [⟨1, 1, 0, 180⟩, ⟨4, 0, 360, 90⟩], by decide +kernel, by decide +kernel, by decide +kernel⟩

/-- **C87 fails** for the seam of the loop: a table that does not start at 0 (here at 7) passes, though the
server takes every loop to start at a multiple of its duration. -/
theorem C87_start_violation :
    ∃ d es, readDat d = .ok es ∧ parseDat d 0 = ([], .ok ()) ∧
      (tableSegs es).map (fun x => x.2.1) = [7, 187] :=
  ⟨[1, 0, 1, 0, 7, 0, 0, 0, 180, 0, 0, 0], [⟨1, 1, 7, 180⟩], by decide +kernel, by decide +kernel,
    by decide +kernel⟩

end Verif
