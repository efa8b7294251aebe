import Verif.Lemmas.DecodeSegment
import Verif.Props.Chunks
/-
C19: every chunk is a movie fragment followed by its media data, and decoding it gives back
the samples it was made of.
-/
namespace Verif

/-- The fields of a sample fit the boxes. -/
structure Sample.Fits (s : Sample) : Prop where
  dur : s.duration < 2 ^ 32
  offset : -2 ^ 31 ≤ s.offset ∧ s.offset < 2 ^ 31

/-- The samples fit one fragment: fields, decode time of the first sample, sizes. -/
structure FitChunk (samples : List Sample) : Prop where
  fits : ∀ s ∈ samples, s.Fits
  time : ∀ s ∈ samples.head?, s.time < 2 ^ 64
  count : 96 + 16 * samples.length < 2 ^ 31
  data : 8 + (samples.flatMap Sample.data).length < 2 ^ 32

/-- What a run says of a sample. -/
def Sample.row (s : Sample) : RunRow :=
  ⟨s.duration, s.data.length, if s.sync then 0x02000000 else 0x01010000, s.offset⟩

/-- Some sample has a composition offset. -/
def HasOffset (samples : List Sample) : Prop := ∃ s ∈ samples, s.offset ≠ 0

theorem useComp_iff (samples : List Sample) : useComp samples = true ↔ HasOffset samples := by
  simp [useComp, HasOffset]

/-- The run of a chunk: duration, size and flags of each sample, composition offsets when a
sample has one, data right after the 8 byte header of the mdat box that follows. -/
def chunkRun (samples : List Sample) : SampleRun :=
  { v := 0, f2 := 0, f1 := if useComp samples then 15 else 7, f0 := 1
    offset := (96 + samples.length * (12 + if useComp samples then 4 else 0) : Nat)
    first := 0, rows := samples.map Sample.row }

/-- A track fragment header without defaults, base of offsets the fragment. -/
def chunkHead (track : Nat) : FragHeader :=
  ⟨0, 2, 0, 0, track, 0, 0, 0, 0, 0, []⟩

/-- The chunk as boxes. -/
def chunkSegment (seq track : Nat) (t : Nat) (samples : List Sample) : FragSegment :=
  { front := [], vf := [0, 0, 0, 0], seq := seq, a := [], p1 := [], head := chunkHead track
    p2 := [], wide := true, f2 := 0, f1 := 0, f0 := 0, time := t, q1 := []
    run := chunkRun samples, q2 := [], b := []
    back := [(tyMdat, samples.flatMap Sample.data)] }

theorem serializeU32_nat {n : Nat} (h : n < 2 ^ 32) : serializeU32 (n : Int) = beBytes 4 n := by
  unfold serializeU32
  congr 1
  omega

theorem container_eq (ty c : Bytes) (h : 8 + c.length < 2 ^ 32) : container ty c = boxBytes ty c := by
  unfold container boxBytes
  rw [serializeU32_nat h]

theorem trunEntry_eq (samples : List Sample) (s : Sample) (h : s.Fits) (hl : s.data.length < 2 ^ 32) :
    trunEntry (useComp samples) s = (chunkRun samples).rowBytes s.row := by
  unfold trunEntry SampleRun.rowBytes chunkRun Sample.row
  simp only
  rw [serializeU32_nat h.dur, serializeU32_nat hl]
  have e : serializeU32 (if s.sync = true then 0x02000000 else 0x01010000) =
      beBytes 4 (if s.sync = true then 0x02000000 else 0x01010000) := by
    cases s.sync <;> rfl
  rw [e]
  cases useComp samples
  · simp [bitSet, field]
  · simp [bitSet, field, serializeU32, signedBytes]

theorem rows_length (samples : List Sample) (l : List Sample) :
    ((l.map Sample.row).flatMap (chunkRun samples).rowBytes).length =
      l.length * (12 + if useComp samples then 4 else 0) := by
  induction l with
  | nil => simp
  | cons s l ih =>
    rw [List.map_cons, List.flatMap_cons, List.length_append, ih, List.length_cons, Nat.add_mul,
      Nat.one_mul, Nat.add_comm]
    congr 1
    unfold SampleRun.rowBytes chunkRun
    cases useComp samples <;> simp [bitSet, field, signedBytes]

theorem chunkRun_length (samples : List Sample) :
    (chunkRun samples).payload.length =
      12 + samples.length * (12 + if useComp samples then 4 else 0) := by
  unfold SampleRun.payload
  simp only [List.length_append]
  have h := rows_length samples samples
  have e : (chunkRun samples).rows = samples.map Sample.row := rfl
  rw [e, h]
  simp [chunkRun, field, bitSet, signedBytes]

theorem data_length_le {samples : List Sample} {s : Sample} (h : s ∈ samples) :
    s.data.length ≤ (samples.flatMap Sample.data).length := by
  induction samples with
  | nil => cases h
  | cons x l ih =>
    rw [List.flatMap_cons, List.length_append]
    rcases List.mem_cons.1 h with rfl | h
    · omega
    · have := ih h; omega

theorem flatMap_congr' {α β : Type} (f g : α → List β) (l : List α) (h : ∀ x ∈ l, f x = g x) :
    l.flatMap f = l.flatMap g := by
  induction l with
  | nil => rfl
  | cons x l ih =>
    rw [List.flatMap_cons, List.flatMap_cons, h x (by simp), ih (fun y hy => h y (by simp [hy]))]

theorem flatMap_map' {α β γ : Type} (f : α → β) (g : β → List γ) (l : List α) :
    (l.map f).flatMap g = l.flatMap (fun x => g (f x)) := by
  induction l with
  | nil => rfl
  | cons x l ih => simp [ih]

theorem rowWidth_le (samples : List Sample) :
    samples.length * (12 + if useComp samples then 4 else 0) ≤ 16 * samples.length := by
  cases useComp samples <;> simp <;> omega

theorem trunBox_eq (samples : List Sample) (h : FitChunk samples) :
    trunBox samples ((8 + 16 + 8 + 16 + 20 + trunSize samples : Nat) + 8) =
      boxBytes tyTrun (chunkRun samples).payload := by
  have hw := rowWidth_le samples
  have hc := h.count
  have hl := chunkRun_length samples
  unfold trunBox boxBytes
  rw [hl]
  have e1 : serializeU32 (trunSize samples : Nat) =
      beBytes 4 (8 + (12 + samples.length * (12 + if useComp samples then 4 else 0))) := by
    rw [serializeU32_nat (by unfold trunSize; omega)]
    congr 1
    unfold trunSize
    omega
  have e2 : samples.flatMap (trunEntry (useComp samples)) =
      (samples.map Sample.row).flatMap (chunkRun samples).rowBytes := by
    rw [flatMap_map']
    refine flatMap_congr' _ _ _ (fun s hs => trunEntry_eq samples s (h.fits s hs) ?_)
    have := data_length_le hs
    have := h.data
    omega
  have e3 : serializeU32 ((8 + 16 + 8 + 16 + 20 + trunSize samples : Nat) + 8) =
      signedBytes (96 + samples.length * (12 + if useComp samples then 4 else 0) : Nat) := by
    unfold serializeU32 signedBytes trunSize
    congr 3
    omega
  have e4 : serializeU32 (if useComp samples = true then 0xf01 else 0x701) =
      [0, 0, if useComp samples then 15 else 7, 1] := by
    cases useComp samples <;> decide +kernel
  rw [e1, e2, e3, e4, serializeU32_nat (by omega)]
  unfold SampleRun.payload
  have e5 : (chunkRun samples).rows = samples.map Sample.row := rfl
  rw [e5, List.length_map]
  simp [chunkRun, field, bitSet, tyTrun]

theorem chunkSegment_bytes (seq track t : Nat) (samples : List Sample) :
    (chunkSegment seq track t samples).bytes =
      boxBytes tyMoof (boxBytes tyMfhd ([0, 0, 0, 0] ++ beBytes 4 seq) ++
        boxBytes tyTraf (boxBytes tyTfhd ([0, 2, 0, 0] ++ beBytes 4 track) ++
          boxBytes tyTfdt ([1, 0, 0, 0] ++ beBytes 8 t) ++
          boxBytes tyTrun (chunkRun samples).payload)) ++
      boxBytes tyMdat (samples.flatMap Sample.data) := by
  simp [FragSegment.bytes, FragSegment.forest, FragSegment.moof, FragSegment.traf, chunkSegment,
    Forest.withBoxes, Forest.bytes, FragHeader.payload, chunkHead, bitSet, field, tfdtPayload]

theorem encodeChunk_eq (seq track : Nat) (s : Sample) (rest : List Sample)
    (hseq : seq < 2 ^ 32) (htrack : track < 2 ^ 32) (h : FitChunk (s :: rest)) :
    encodeChunk seq track (s :: rest) = .ok (chunkSegment seq track s.time (s :: rest)).bytes := by
  have ht : s.time < 2 ^ 64 := h.time s (by simp)
  have hw := rowWidth_le (s :: rest)
  have hc := h.count
  have hl := chunkRun_length (s :: rest)
  have e1 : tfdtBox s.time = .ok (boxBytes tyTfdt ([1, 0, 0, 0] ++ beBytes 8 s.time)) := by
    unfold tfdtBox serializeU64 uint64ToStr
    rw [if_pos ⟨by omega, by omega⟩]
    simp only
    congr 1
  have e2 : tfhdBox track = boxBytes tyTfhd ([0, 2, 0, 0] ++ beBytes 4 track) := by
    unfold tfhdBox
    rw [serializeU32_nat htrack]
    rfl
  have e3 : mfhdBox seq = boxBytes tyMfhd ([0, 0, 0, 0] ++ beBytes 4 seq) := by
    unfold mfhdBox
    rw [serializeU32_nat hseq]
    rfl
  have l1 := boxBytes_len (ty := tyTrun) rfl (chunkRun (s :: rest)).payload
  have l2 := boxBytes_len (ty := tyTfhd) rfl ([0, 2, 0, 0] ++ beBytes 4 track)
  have l3 := boxBytes_len (ty := tyTfdt) rfl ([1, 0, 0, 0] ++ beBytes 8 s.time)
  have l4 := boxBytes_len (ty := tyMfhd) rfl ([0, 0, 0, 0] ++ beBytes 4 seq)
  simp only [List.length_append, beBytes_length, List.length_cons, List.length_nil] at l2 l3 l4 hc hl hw
  have e4 : container tyTraf (boxBytes tyTfhd ([0, 2, 0, 0] ++ beBytes 4 track) ++
          boxBytes tyTfdt ([1, 0, 0, 0] ++ beBytes 8 s.time) ++
          boxBytes tyTrun (chunkRun (s :: rest)).payload) = boxBytes tyTraf _ :=
    container_eq _ _ (by simp only [List.length_append]; omega)
  have l5 := boxBytes_len (ty := tyTraf) rfl (boxBytes tyTfhd ([0, 2, 0, 0] ++ beBytes 4 track) ++
          boxBytes tyTfdt ([1, 0, 0, 0] ++ beBytes 8 s.time) ++
          boxBytes tyTrun (chunkRun (s :: rest)).payload)
  simp only [List.length_append] at l5
  unfold encodeChunk createMoof
  simp only
  rw [e1]
  simp only
  rw [e2, e3, trunBox_eq _ h, chunkSegment_bytes]
  change Except.ok (container tyMoof (_ ++ container tyTraf _) ++ createMdat _) = _
  rw [e4, container_eq tyMoof _ (by simp only [List.length_append]; omega)]
  have e6 : createMdat (s :: rest) = boxBytes tyMdat ((s :: rest).flatMap Sample.data) :=
    container_eq _ _ h.data
  rw [e6]

/-- **C19 (layout).** For every non-empty list of samples that fits, the chunk is a moof box and
an mdat box.  The moof holds the sequence number and track of the segment, as decode time that
of the first sample, and a run; the mdat holds the bytes of the samples in order.  All sizes are
exact. -/
theorem C19_layout (seq track : Nat) (s : Sample) (rest : List Sample)
    (hseq : seq < 2 ^ 32) (htrack : track < 2 ^ 32) (h : FitChunk (s :: rest)) :
    ∃ run : SampleRun,
      encodeChunk seq track (s :: rest) = .ok (
        boxBytes tyMoof (boxBytes tyMfhd ([0, 0, 0, 0] ++ beBytes 4 seq) ++
          boxBytes tyTraf (boxBytes tyTfhd ([0, 2, 0, 0] ++ beBytes 4 track) ++
            boxBytes tyTfdt ([1, 0, 0, 0] ++ beBytes 8 s.time) ++
            boxBytes tyTrun run.payload)) ++
        boxBytes tyMdat ((s :: rest).flatMap Sample.data)) ∧
      run.rows = (s :: rest).map Sample.row ∧
      (bitSet run.f0 0 = true ∧ bitSet run.f1 0 = true ∧ bitSet run.f1 1 = true ∧
        bitSet run.f1 2 = true ∧ (bitSet run.f1 3 = true ↔ HasOffset (s :: rest))) ∧
      run.offset = 8 + (boxBytes tyMoof (boxBytes tyMfhd ([0, 0, 0, 0] ++ beBytes 4 seq) ++
          boxBytes tyTraf (boxBytes tyTfhd ([0, 2, 0, 0] ++ beBytes 4 track) ++
            boxBytes tyTfdt ([1, 0, 0, 0] ++ beBytes 8 s.time) ++
            boxBytes tyTrun run.payload))).length := by
  refine ⟨chunkRun (s :: rest), ?_, rfl, ?_, ?_⟩
  · rw [encodeChunk_eq seq track s rest hseq htrack h, chunkSegment_bytes]
  · rw [← useComp_iff]
    refine ⟨by show bitSet 1 0 = true; decide, ?_⟩
    simp only [chunkRun]
    cases useComp (s :: rest) <;> decide
  · rw [boxBytes_len rfl]
    simp only [List.length_append, boxBytes_len (ty := tyMfhd) rfl, boxBytes_len (ty := tyTraf) rfl,
      boxBytes_len (ty := tyTfhd) rfl, boxBytes_len (ty := tyTfdt) rfl,
      boxBytes_len (ty := tyTrun) rfl, chunkRun_length, beBytes_length]
    simp only [chunkRun, List.length_cons, List.length_nil]
    omega

/-- The sample with its sync mark set: all that decoding a chunk changes. -/
def Sample.synced (s : Sample) : Sample := { s with sync := true }

theorem runSamples_chunk (samples : List Sample) (track : Nat) (trex : Trex) (media : Bytes) :
    ∀ (l : List Sample) (t start : Nat), (∀ s ∈ l, s ∈ samples) → ContiguousFrom t l →
    At media start (l.flatMap Sample.data) →
    runSamples (chunkHead track) (chunkRun samples) trex media (l.map Sample.row) t start =
      l.map Sample.synced := by
  intro l
  induction l with
  | nil => intro t start _ _ _; rfl
  | cons s l ih =>
    intro t start hm hc ha
    rw [List.flatMap_cons] at ha
    have b0 : bitSet (chunkRun samples).f1 0 = true := by
      simp only [chunkRun]; cases useComp samples <;> decide
    have b1 : bitSet (chunkRun samples).f1 1 = true := by
      simp only [chunkRun]; cases useComp samples <;> decide
    have b2 : bitSet (chunkRun samples).f1 2 = true := by
      simp only [chunkRun]; cases useComp samples <;> decide
    have b3 : bitSet (chunkRun samples).f1 3 = useComp samples := by
      simp only [chunkRun]; cases useComp samples <;> decide
    have d0 : sampleDur (chunkHead track) (chunkRun samples) trex s.row = s.duration := by
      simp [sampleDur, b0, Sample.row]
    have d1 : sampleSize (chunkHead track) (chunkRun samples) trex s.row = s.data.length := by
      simp [sampleSize, b1, Sample.row]
    have d2 : sampleSync (chunkHead track) (chunkRun samples) trex = true := by
      simp [sampleSync, b2]
    have d3 : (if bitSet (chunkRun samples).f1 3 then s.row.off else 0) = s.offset := by
      rw [b3]
      by_cases hu : useComp samples = true
      · rw [if_pos hu]; rfl
      · rw [if_neg hu]
        rw [useComp_iff] at hu
        by_cases h0 : s.offset = 0
        · exact h0.symm
        · exact absurd ⟨s, hm s (by simp), h0⟩ hu
    rw [List.map_cons, runSamples, d0, d1, d2, d3, ih _ _ (fun x hx => hm x (by simp [hx])) hc.2 ha.right,
      List.map_cons]
    have hd : slice media start (start + s.data.length) = s.data := ha.left
    rw [hd, ← hc.1]
    rfl

theorem chunkSegment_ok (seq track : Nat) (s : Sample) (rest : List Sample)
    (hseq : seq < 2 ^ 32) (htrack : track < 2 ^ 32) (h : FitChunk (s :: rest)) :
    (chunkSegment seq track s.time (s :: rest)).Ok := by
  have hw := rowWidth_le (s :: rest)
  have hc := h.count
  have hl := chunkRun_length (s :: rest)
  refine ⟨rfl, hseq, ⟨htrack, (by decide : 0 < 2 ^ 64),
    (by decide : 0 < 2 ^ 32), (by decide : 0 < 2 ^ 32), (by decide : 0 < 2 ^ 32),
    (by decide : 0 < 2 ^ 32)⟩, ?_, ?_,
    by simp [chunkSegment], by simp [chunkSegment], by simp [chunkSegment], by simp [chunkSegment],
    by simp [chunkSegment], by simp [chunkSegment], by simp [chunkSegment], ?_, ?_⟩
  · refine ⟨?_, ?_, (by decide : 0 < 2 ^ 32), ?_⟩
    · show ((s :: rest).map Sample.row).length < 2 ^ 32
      rw [List.length_map]; omega
    · show -2 ^ 31 ≤ ((96 + (s :: rest).length * (12 + if useComp (s :: rest) then 4 else 0) : Nat) : Int) ∧ _ < _
      refine ⟨by omega, ?_⟩
      show ((96 + (s :: rest).length * (12 + if useComp (s :: rest) then 4 else 0) : Nat) : Int) < _
      omega
    · intro x hx
      obtain ⟨y, hy, rfl⟩ := List.mem_map.1 hx
      have hf := h.fits y hy
      have hd := data_length_le hy
      have hdd := h.data
      refine ⟨hf.dur, ?_, ?_, hf.offset⟩
      · show y.data.length < _; omega
      · show (if y.sync then 0x02000000 else 0x01010000) < 2 ^ 32
        cases y.sync <;> decide
  · exact h.time s (by simp)
  · intro x hx
    have : x = (tyMdat, (s :: rest).flatMap Sample.data) := by simpa [chunkSegment] using hx
    rw [this]
    exact ⟨plain_known (by simp), h.data⟩
  · have e : (chunkSegment seq track s.time (s :: rest)).moof.bytes =
      boxBytes tyMfhd ([0, 0, 0, 0] ++ beBytes 4 seq) ++
        boxBytes tyTraf (boxBytes tyTfhd ([0, 2, 0, 0] ++ beBytes 4 track) ++
          boxBytes tyTfdt ([1, 0, 0, 0] ++ beBytes 8 s.time) ++
          boxBytes tyTrun (chunkRun (s :: rest)).payload) := by
      simp [FragSegment.moof, FragSegment.traf, chunkSegment,
        Forest.withBoxes, Forest.bytes, FragHeader.payload, chunkHead, bitSet, field, tfdtPayload]
    rw [e]
    simp only [List.length_append, boxBytes_len (ty := tyMfhd) rfl, boxBytes_len (ty := tyTraf) rfl,
      boxBytes_len (ty := tyTfhd) rfl, boxBytes_len (ty := tyTfdt) rfl,
      boxBytes_len (ty := tyTrun) rfl, hl, beBytes_length]
    simp only [List.length_cons, List.length_nil] at *
    omega

theorem moofLen (seq track t : Nat) (samples : List Sample) :
    (boxBytes tyMoof (chunkSegment seq track t samples).moof.bytes).length =
      88 + samples.length * (12 + if useComp samples then 4 else 0) := by
  have e : (chunkSegment seq track t samples).moof.bytes =
      boxBytes tyMfhd ([0, 0, 0, 0] ++ beBytes 4 seq) ++
        boxBytes tyTraf (boxBytes tyTfhd ([0, 2, 0, 0] ++ beBytes 4 track) ++
          boxBytes tyTfdt ([1, 0, 0, 0] ++ beBytes 8 t) ++
          boxBytes tyTrun (chunkRun samples).payload) := by
    simp [FragSegment.moof, FragSegment.traf, chunkSegment,
      Forest.withBoxes, Forest.bytes, FragHeader.payload, chunkHead, bitSet, field, tfdtPayload]
  rw [boxBytes_len rfl, e]
  simp only [List.length_append, boxBytes_len (ty := tyMfhd) rfl, boxBytes_len (ty := tyTraf) rfl,
    boxBytes_len (ty := tyTfhd) rfl, boxBytes_len (ty := tyTfdt) rfl,
    boxBytes_len (ty := tyTrun) rfl, chunkRun_length, beBytes_length]
  simp only [List.length_cons, List.length_nil]
  omega

/-- **C19 (round trip).** For every non-empty list of samples that follow each other without gap
and fit, decoding the chunk made of them gives back the same samples in order: bytes, decode
time, duration and composition offset, whatever the defaults of the track.  (All of them come
back marked as sync samples, see C51.) -/
theorem C19_roundtrip (seq track : Nat) (s : Sample) (rest : List Sample)
    (hseq : seq < 2 ^ 32) (htrack : track < 2 ^ 32) (h : FitChunk (s :: rest))
    (hc : ContiguousFrom s.time (s :: rest)) (trex : Trex) :
    ∃ c, encodeChunk seq track (s :: rest) = .ok c ∧
      decodeFragment c trex = .ok ((s :: rest).map Sample.synced) := by
  refine ⟨_, encodeChunk_eq seq track s rest hseq htrack h, ?_⟩
  rw [FragSegment.decode _ (chunkSegment_ok seq track s rest hseq htrack h) trex]
  congr 1
  apply runSamples_chunk (s :: rest) track trex _ (s :: rest) s.time 0 (fun x hx => hx) hc
  have e1 : (chunkSegment seq track s.time (s :: rest)).mediaPos =
      ((8 + (boxBytes tyMoof (chunkSegment seq track s.time (s :: rest)).moof.bytes).length : Nat) : Int) := by
    rw [moofLen]
    have z : (chunkSegment seq track s.time (s :: rest)).moofPos = 0 := rfl
    unfold FragSegment.mediaPos
    rw [z]
    have b1 : bitSet (chunkSegment seq track s.time (s :: rest)).head.f0 0 = false := by
      show bitSet 0 0 = false; decide
    have b2 : bitSet (chunkSegment seq track s.time (s :: rest)).run.f0 0 = true := by
      show bitSet 1 0 = true; decide
    rw [b1, b2]
    simp only [chunkSegment, chunkRun]
    simp
    omega
  have e2 : (chunkSegment seq track s.time (s :: rest)).bytes =
      boxBytes tyMoof (chunkSegment seq track s.time (s :: rest)).moof.bytes ++
        ((beBytes 4 (8 + ((s :: rest).flatMap Sample.data).length) ++ tyMdat) ++
          (s :: rest).flatMap Sample.data) := by
    simp [FragSegment.bytes, FragSegment.forest, chunkSegment, Forest.withBoxes, Forest.bytes, boxBytes]
  rw [e1, sliceFrom, if_pos (by omega), Int.toNat_natCast, e2, Nat.add_comm, ← List.drop_drop,
    List.drop_left, List.drop_left' (by simp [tyMdat])]
  unfold At slice
  rw [List.drop_zero, Nat.zero_add, Nat.sub_zero, List.take_length]

/-- The samples of a segment fit chunks: fields, decode times, sizes. -/
structure FitSegment (samples : List Sample) : Prop where
  fits : ∀ s ∈ samples, s.Fits
  time : ∀ s ∈ samples, s.time < 2 ^ 64
  count : 96 + 16 * samples.length < 2 ^ 31
  data : 8 + (samples.flatMap Sample.data).length < 2 ^ 32

theorem flatMap_length_sublist {l1 l2 : List Sample} (h : l1.Sublist l2) :
    (l1.flatMap Sample.data).length ≤ (l2.flatMap Sample.data).length := by
  induction h with
  | slnil => simp
  | cons a _ ih => simp only [List.flatMap_cons, List.length_append]; omega
  | cons_cons a _ ih => simp only [List.flatMap_cons, List.length_append]; omega

theorem FitSegment.part {samples : List Sample} (h : FitSegment samples) {p : List Sample}
    (hp : p.Sublist samples) : FitChunk p := by
  have hl := hp.length_le
  have hd := flatMap_length_sublist hp
  have hc := h.count
  have hdd := h.data
  refine ⟨fun s hs => h.fits s (hp.subset hs), fun s hs => h.time s (hp.subset ?_), by omega, by omega⟩
  exact List.mem_of_mem_head? hs

theorem encodeChunks_ok (seq track : Int) (f : List Sample → Bytes) (ps : List (List Sample))
    (h : ∀ p ∈ ps, encodeChunk seq track p = .ok (f p)) :
    encodeChunks seq track ps = .ok (ps.map f) := by
  induction ps with
  | nil => rfl
  | cons p ps ih =>
    rw [encodeChunks, h p (by simp)]
    simp only
    rw [ih (fun q hq => h q (by simp [hq]))]
    rfl

/-- The samples a segment describes, by the specification. -/
def FragSegment.samples (g : FragSegment) (trex : Trex) : List Sample :=
  runSamples g.head g.run trex (sliceFrom g.bytes g.mediaPos) g.run.rows g.time 0

theorem runSamples_contiguous (t : FragHeader) (r : SampleRun) (x : Trex) (media : Bytes)
    (rows : List RunRow) : ∀ time start, ContiguousFrom time (runSamples t r x media rows time start) := by
  induction rows with
  | nil => intro _ _; trivial
  | cons row rows ih => intro time start; exact ⟨rfl, ih _ _⟩

theorem chunksFrom_mem (ps : List (List Sample)) : ∀ t, ChunksFrom t ps → ∀ p ∈ ps,
    ∃ s rest, p = s :: rest ∧ ContiguousFrom s.time (s :: rest) := by
  induction ps with
  | nil => intro t _ p hp; cases hp
  | cons q ps ih =>
    intro t h p hp
    rcases List.mem_cons.1 hp with rfl | hp
    · obtain ⟨h1, h2, -⟩ := h
      cases p with
      | nil => exact absurd rfl h1
      | cons s rest =>
        refine ⟨s, rest, rfl, ?_⟩
        have := h2.1
        rw [this]; exact h2
    · exact ih _ h.2.2 p hp

/-- The chunk of a part. -/
def partChunk (seq track : Nat) (p : List Sample) : Bytes :=
  (chunkSegment seq track (p.head?.elim 0 Sample.time) p).bytes

/-- **C19 (whole segment).** For every segment with one movie fragment whose samples fit, and
every positive chunk duration, `chunk` succeeds and returns one chunk per part of the
partition.  Every chunk carries the sequence number and track of the segment and decodes to the
samples of its part (marked as sync samples), and all chunks together hold exactly the samples
the segment describes. -/
theorem C19_chunks (g : FragSegment) (hg : g.Ok) (dur : Int) (hd : 0 < dur) (trex : Trex)
    (hfit : FitSegment (g.samples trex)) :
    ∃ cs parts, chunk g.bytes dur trex = .ok cs ∧ cs.length = parts.length ∧
      parts = partition (g.samples trex) dur ∧ parts.flatten = g.samples trex ∧
      ∀ (i : Nat) p, parts[i]? = some p → ∃ c s rest, cs[i]? = some c ∧ p = s :: rest ∧
        encodeChunk g.seq g.head.track (s :: rest) = .ok c ∧
        ∀ trex', decodeFragment c trex' = .ok ((s :: rest).map Sample.synced) := by
  have hcont : ContiguousFrom g.time (g.samples trex) := runSamples_contiguous _ _ _ _ _ _ _
  have hch := C16_times _ dur hd _ hcont
  have hflat := C16_lossless (g.samples trex) dur
  have hpart : ∀ p ∈ partition (g.samples trex) dur, ∃ s rest, p = s :: rest ∧
      ContiguousFrom s.time (s :: rest) ∧ FitChunk (s :: rest) := by
    intro p hp
    obtain ⟨s, rest, rfl, hc⟩ := chunksFrom_mem _ _ hch p hp
    refine ⟨s, rest, rfl, hc, hfit.part ?_⟩
    rw [← hflat]
    exact List.sublist_flatten_of_mem hp
  have henc : encodeChunks g.seq g.head.track (partition (g.samples trex) dur) =
      .ok ((partition (g.samples trex) dur).map (partChunk g.seq g.head.track)) := by
    apply encodeChunks_ok
    intro p hp
    obtain ⟨s, rest, rfl, hc, hf⟩ := hpart p hp
    exact encodeChunk_eq _ _ s rest hg.seq hg.head.track hf
  refine ⟨(partition (g.samples trex) dur).map (partChunk g.seq g.head.track),
    partition (g.samples trex) dur, ?_, by simp, rfl, hflat, ?_⟩
  · have h1 := g.find_in_moof hg g.find_mfhd
    have h2 := g.find_in_moof hg (g.find_in_traf hg (g.find_tfhd hg))
    have a1 : At g.bytes (g.moofPos + 8 + 12) (beBytes 4 g.seq) := by
      have := (g.at_mfhd.box rfl).right
      rw [hg.vf] at this
      exact this
    have a2 : At g.bytes (g.tfhdPos + 12) (beBytes 4 g.head.track) := by
      have h := g.at_boxes.1.box rfl
      rw [FragHeader.payload] at h
      exact h.left.left.left.left.left.left.right
    unfold chunk
    rw [g.parse hg, py_step]
    rw [h1, needBox, py_step, h2, needBox, py_step]
    rw [a1.u32 hg.seq, py_step, a2.u32 hg.head.track, py_step, g.decode hg trex, py_step]
    exact henc
  · intro i p hp
    have hm := List.mem_of_getElem? hp
    obtain ⟨s, rest, rfl, hc, hf⟩ := hpart p hm
    refine ⟨partChunk g.seq g.head.track (s :: rest), s, rest, by simp [hp], rfl,
      encodeChunk_eq _ _ s rest hg.seq hg.head.track hf, fun trex' => ?_⟩
    obtain ⟨c, hc1, hc2⟩ := C19_roundtrip g.seq g.head.track s rest hg.seq hg.head.track hf hc trex'
    rw [encodeChunk_eq _ _ s rest hg.seq hg.head.track hf] at hc1
    cases hc1
    exact hc2

end Verif
