import Verif.Props.ChunkFormat
/-
C51: sync marks of samples in chunks.  C52: boxes beside the fragment in chunked delivery.
-/
namespace Verif

/-- A segment with two samples, the second of which depends on the first: a `styp` box with the
brand `lmsg`, then the fragment with a run of two rows, then the media data. -/
def twoSampleSegment : FragSegment :=
  { front := [([115, 116, 121, 112], [108, 109, 115, 103, 0, 0, 0, 0, 108, 109, 115, 103])]
    vf := [0, 0, 0, 0], seq := 7, a := [], p1 := [], head := ⟨0, 2, 0, 0, 1, 0, 0, 0, 0, 0, []⟩
    p2 := [], wide := false, f2 := 0, f1 := 0, f0 := 0, time := 9000, q1 := []
    run := { v := 0, f2 := 0, f1 := 7, f0 := 1, offset := 116, first := 0
             rows := [⟨1800, 3, 0x02000000, 0⟩, ⟨1800, 2, 0x01010000, 0⟩] }
    q2 := [], b := [], back := [(tyMdat, [1, 2, 3, 4, 5])] }

theorem twoSampleSegment_ok : twoSampleSegment.Ok where
  vf := rfl
  seq := by decide
  head := ⟨by decide, by decide, by decide, by decide, by decide, by decide⟩
  run := ⟨by decide, by decide, by decide, by decide⟩
  time := by decide
  front := by
    intro x hx
    simp only [twoSampleSegment, List.mem_singleton] at hx
    subst hx
    exact ⟨⟨rfl, by decide +kernel, by decide +kernel, by decide +kernel⟩, by decide⟩
  a := by intro x hx; cases hx
  b := by intro x hx; cases hx
  p1 := by intro x hx; cases hx
  p2 := by intro x hx; cases hx
  q1 := by intro x hx; cases hx
  q2 := by intro x hx; cases hx
  back := by
    intro x hx
    simp only [twoSampleSegment, List.mem_singleton] at hx
    subst hx
    exact ⟨plain_known (by simp), by decide⟩
  size := by decide +kernel

theorem twoSampleSegment_samples : twoSampleSegment.samples ⟨0, 0, 0⟩ =
    [⟨[1, 2, 3], 9000, 1800, true, 0⟩, ⟨[4, 5], 10800, 1800, true, 0⟩] := by decide +kernel

/-- The hypotheses of `C19_chunks` hold for a segment with two samples. -/
example : twoSampleSegment.Ok ∧ FitSegment (twoSampleSegment.samples ⟨0, 0, 0⟩) := by
  refine ⟨twoSampleSegment_ok, ?_⟩
  rw [twoSampleSegment_samples]
  exact ⟨by intro s hs; simp at hs; rcases hs with rfl | rfl <;> exact ⟨by decide, by decide⟩,
    by decide, by decide, by decide⟩

/-- The hypotheses of `C19_layout` and `C19_roundtrip` hold for two samples with composition
offsets. -/
example : FitChunk [⟨[1, 2, 3], 9000, 1800, true, 3600⟩, ⟨[4, 5], 10800, 1800, false, -1800⟩] ∧
    ContiguousFrom 9000 [⟨[1, 2, 3], 9000, 1800, true, 3600⟩, ⟨[4, 5], 10800, 1800, false, -1800⟩] := by
  refine ⟨⟨?_, by decide, by decide, by decide⟩, rfl, rfl, trivial⟩
  intro s hs
  simp at hs
  rcases hs with rfl | rfl <;> exact ⟨by decide, by decide⟩

/-! ### C51 -/

/-- Whether a sample is a sync sample according to the flags in the run, the flags for the first
sample, the header or the track (ISO/IEC 14496-12 clause 8.8.3.1: bit 16 is
`sample_is_non_sync_sample`). -/
def trueSync (t : FragHeader) (r : SampleRun) (x : Trex) (i : Nat) (row : RunRow) : Bool :=
  let flags := if i = 0 ∧ bitSet r.f0 2 then r.first else
    if bitSet r.f1 2 then row.flags else if bitSet t.f0 5 then t.flags else x.flags
  flags / 2 ^ 16 % 2 = 0

/-- The sync marks of all samples of a run. -/
def trueSyncs (t : FragHeader) (r : SampleRun) (x : Trex) (rows : List RunRow) : List Bool :=
  rows.mapIdx (trueSync t r x)

theorem runSamples_sync (t : FragHeader) (r : SampleRun) (x : Trex) (media : Bytes)
    (rows : List RunRow) : ∀ time start, ∀ s ∈ runSamples t r x media rows time start,
    s.sync = sampleSync t r x := by
  induction rows with
  | nil => intro _ _ s hs; cases hs
  | cons row rows ih =>
    intro time start s hs
    rcases List.mem_cons.1 hs with rfl | hs
    · rfl
    · exact ih _ _ s hs

theorem runSamples_length (t : FragHeader) (r : SampleRun) (x : Trex) (media : Bytes)
    (rows : List RunRow) : ∀ time start,
    (runSamples t r x media rows time start).length = rows.length := by
  induction rows with
  | nil => intro _ _; rfl
  | cons row rows ih => intro time start; rw [runSamples, List.length_cons, ih, List.length_cons]

/-- **C51 (what holds).** When every sample of the segment is a sync sample and the run lists
sample flags, the marks in the chunks, in order, are the marks of the segment.  Missing for the
full claim: segments with samples that are not sync samples, and default flags. -/
theorem C51_all_sync_partial (g : FragSegment) (trex : Trex)
    (hflags : bitSet g.run.f1 2 = true)
    (hsync : ∀ b ∈ trueSyncs g.head g.run trex g.run.rows, b = true) (dur : Int) :
    (partition (g.samples trex) dur).flatten.map (fun s => decide (s.row.flags / 2 ^ 16 % 2 = 0))
      = trueSyncs g.head g.run trex g.run.rows := by
  rw [C16_lossless]
  have h1 : (g.samples trex).map (fun s => decide (s.row.flags / 2 ^ 16 % 2 = 0))
      = List.replicate (g.samples trex).length true := by
    rw [List.eq_replicate_iff]
    refine ⟨by simp, fun b hb => ?_⟩
    obtain ⟨s, hs, rfl⟩ := List.mem_map.1 hb
    have := runSamples_sync _ _ _ _ _ _ _ s hs
    rw [sampleSync, if_pos hflags] at this
    simp [Sample.row, this]
  rw [h1]
  symm
  rw [List.eq_replicate_iff]
  refine ⟨?_, hsync⟩
  rw [trueSyncs, List.length_mapIdx, FragSegment.samples, runSamples_length]

/-- **C51 fails, in general.** Whenever the run of the segment lists sample flags, every sample
of every chunk is marked as a sync sample, whatever the flags say. -/
theorem C51_flags_ignored_violation (g : FragSegment) (trex : Trex)
    (hflags : bitSet g.run.f1 2 = true) (dur : Int) :
    ∀ p ∈ partition (g.samples trex) dur, ∀ s ∈ p, s.row.flags = 0x02000000 := by
  intro p hp s hs
  have hm : s ∈ g.samples trex := by
    rw [← C16_lossless (g.samples trex) dur]
    exact List.mem_flatten.2 ⟨p, hp, hs⟩
  have := runSamples_sync _ _ _ _ _ _ _ s hm
  rw [sampleSync, if_pos hflags] at this
  simp [Sample.row, this]

/-- **C51 fails: a witness.** The second sample of the segment is not a sync sample, but the
chunks mark both as sync samples. -/
theorem C51_marks_violation :
    trueSyncs twoSampleSegment.head twoSampleSegment.run ⟨0, 0, 0⟩ twoSampleSegment.run.rows
      = [true, false] ∧
    (partition (twoSampleSegment.samples ⟨0, 0, 0⟩) 1800).map (List.map (fun s => s.row.flags))
      = [[0x02000000], [0x02000000]] := by decide +kernel

/-- **C51 fails: default flags.** Default flags of the track are read as a truth value: a track
whose samples are not sync samples by default (flags 0x00010000) gets all samples marked as sync
samples, and one with default flags 0, that is sync samples, gets none marked. -/
theorem C51_default_flags_violation :
    let run : SampleRun := { twoSampleSegment.run with f1 := 3 }
    trueSyncs twoSampleSegment.head run ⟨0, 0, 0x00010000⟩ run.rows = [false, false] ∧
    sampleSync twoSampleSegment.head run ⟨0, 0, 0x00010000⟩ = true ∧
    trueSyncs twoSampleSegment.head run ⟨0, 0, 0⟩ run.rows = [true, true] ∧
    sampleSync twoSampleSegment.head run ⟨0, 0, 0⟩ = false := by decide +kernel

/-! ### C52 -/

theorem slice_shift (pre data : Bytes) (a b : Nat) :
    slice (pre ++ data) (pre.length + a) (pre.length + b) = slice data a b := by
  unfold slice
  rw [← List.drop_drop, List.drop_left]
  congr 1
  omega

/-- **C52 fails, in general.** What stands before the movie fragment of a segment (styp with the
last segment brand, sidx, emsg boxes) leaves no trace in chunked delivery: the chunks are the
same as for the segment without these boxes. -/
theorem C52_front_dropped_violation (g : FragSegment) (hg : g.Ok)
    (hbase : bitSet g.head.f0 0 = false) (hoff : bitSet g.run.f0 0 = true → 0 ≤ g.run.offset)
    (dur : Int) (hd : 0 < dur) (trex : Trex) (hfit : FitSegment (g.samples trex)) :
    ∃ cs, chunk g.bytes dur trex = .ok cs ∧
      chunk ({ g with front := [] } : FragSegment).bytes dur trex = .ok cs := by
  have hok : ({ g with front := [] } : FragSegment).Ok :=
    ⟨hg.vf, hg.seq, hg.head, hg.run, hg.time, by simp, hg.a, hg.b, hg.p1, hg.p2, hg.q1, hg.q2,
      hg.back, hg.size⟩
  have hs : ({ g with front := [] } : FragSegment).samples trex = g.samples trex := by
    unfold FragSegment.samples
    congr 1
    unfold FragSegment.mediaPos
    simp only
    rw [hbase]
    have e : g.bytes = boxesBytes g.front ++ ({ g with front := [] } : FragSegment).bytes := by
      simp [FragSegment.bytes, FragSegment.forest, withBoxes_bytes, FragSegment.moof,
        FragSegment.traf, boxesBytes]
    have h0 : 0 ≤ (if bitSet g.run.f0 0 then g.run.offset else 0) := by
      split
      · exact hoff (by assumption)
      · omega
    generalize (if bitSet g.run.f0 0 then g.run.offset else 0) = o at h0 ⊢
    have z : ({ g with front := [] } : FragSegment).moofPos = 0 := rfl
    unfold sliceFrom
    rw [z]
    simp only [Bool.false_eq_true, if_false]
    rw [if_pos (by omega), if_pos (by omega), e]
    have e2 : ((g.moofPos : Int) + o).toNat = (boxesBytes g.front).length + o.toNat := by
      unfold FragSegment.moofPos
      omega
    rw [e2, ← List.drop_drop, List.drop_left]
    congr 1
    omega
  obtain ⟨cs, ps, h1, h2, h3, -, h5⟩ := C19_chunks g hg dur hd trex hfit
  obtain ⟨cs', ps', h1', h2', h3', -, h5'⟩ := C19_chunks _ hok dur hd trex (by rw [hs]; exact hfit)
  refine ⟨cs, h1, ?_⟩
  rw [h1']
  congr 1
  rw [hs, ← h3] at h3'
  subst h3'
  apply List.ext_getElem?
  intro i
  cases hp : ps'[i]? with
  | none =>
    rw [List.getElem?_eq_none_iff] at hp
    rw [List.getElem?_eq_none (by omega), List.getElem?_eq_none (by omega)]
  | some p =>
    obtain ⟨c, s, rest, hc, he, hen, -⟩ := h5 i p hp
    obtain ⟨c', s', rest', hc', he', hen', -⟩ := h5' i p hp
    rw [hc, hc']
    rw [he] at he'
    cases he'
    rw [hen] at hen'
    cases hen'
    rfl

/-- The hypotheses of the theorem hold for a last segment that carries the brand `lmsg`. -/
example : twoSampleSegment.Ok ∧ bitSet twoSampleSegment.head.f0 0 = false ∧
    twoSampleSegment.front ≠ [] := ⟨twoSampleSegment_ok, by decide, by decide⟩

/-- **C52 fails: a witness.** A segment announced as the last one loses the announcement. -/
theorem C52_last_segment_violation :
    ∃ cs, chunk twoSampleSegment.bytes 1800 ⟨0, 0, 0⟩ = .ok cs ∧ cs.length = 2 ∧
      ∀ c ∈ cs, slice c 4 8 = tyMoof ∧ ¬ [108, 109, 115, 103] <:+: c := by
  refine ⟨[(chunkSegment 7 1 9000 [⟨[1, 2, 3], 9000, 1800, true, 0⟩]).bytes,
    (chunkSegment 7 1 10800 [⟨[4, 5], 10800, 1800, true, 0⟩]).bytes], ?_, by decide, ?_⟩
  · decide +kernel
  · intro c hc
    simp only [List.mem_cons, List.not_mem_nil, or_false] at hc
    rcases hc with rfl | rfl
    · refine ⟨by decide +kernel, by decide +kernel⟩
    · refine ⟨by decide +kernel, by decide +kernel⟩

end Verif
