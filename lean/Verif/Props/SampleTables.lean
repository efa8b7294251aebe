import Verif.Lemmas.SampleTables
/-
C42: the sample table lookups agree with the tables written out sample by sample.
-/
namespace Verif

/-- A full box with a table of 32-bit words, between other bytes: size, type, version and flags are
the twelve bytes of `hd`. -/
def tableBox (pre hd : Bytes) (words : List Nat) (w : Nat) (body : List Nat) (post : Bytes) : Bytes :=
  pre ++ hd ++ wordsBytes 4 words ++ wordsBytes w body ++ post

theorem tableBox_word (pre hd post : Bytes) (a : List Nat) (v : Nat) (b : List Nat) (w : Nat)
    (body : List Nat) (hh : hd.length = 12) (hv : v < 2 ^ 32) (pos : Nat)
    (hp : pos = pre.length + 12 + 4 * a.length) :
    wordAt (tableBox pre hd (a ++ v :: b) w body post) pos = .ok v := by
  have e : tableBox pre hd (a ++ v :: b) w body post =
      (pre ++ hd ++ wordsBytes 4 a) ++ beBytes 4 v ++ (wordsBytes 4 b ++ wordsBytes w body ++ post) := by
    simp [tableBox, wordsBytes, List.append_assoc]
  rw [e]
  exact wordAt_bytes _ _ _ _ (by simp [wordsBytes_length, hh]; omega) hv

theorem tableBox_count (pre hd post : Bytes) (v w : Nat) (body : List Nat) (hh : hd.length = 12)
    (hv : v < 2 ^ 32) : wordAt (tableBox pre hd [v] w body post) (pre.length + 12) = .ok v :=
  tableBox_word pre hd post [] v [] w body hh hv _ rfl

theorem tableBox_body (pre hd post : Bytes) (words : List Nat) (w : Nat) (body : List Nat)
    (hh : hd.length = 12) (hv : ∀ v ∈ body, v < 256 ^ w) (pos n : Nat)
    (hp : pos = pre.length + 12 + 4 * words.length) (hn : n = body.length) :
    unpackWords (tableBox pre hd words w body post) w pos n = .ok body := by
  unfold tableBox
  exact unpackWords_bytes w _ post body pos n (by simp [wordsBytes_length, hh]; omega) hn hv

theorem flat2_length (l : List (Nat × Nat)) : (l.flatMap fun p => [p.1, p.2]).length = 2 * l.length := by
  induction l with
  | nil => rfl
  | cons p l ih => simp only [List.flatMap_cons, List.length_append, ih, List.length_cons, List.length_nil]; omega

theorem flat3_length (l : List StscEntry) :
    (l.flatMap fun e => [e.first, e.samples, e.desc]).length = 3 * l.length := by
  induction l with
  | nil => rfl
  | cons p l ih => simp only [List.flatMap_cons, List.length_append, ih, List.length_cons, List.length_nil]; omega

/-- **C42, decode times.** Reading an `stts` box anywhere in a file gives a table that for every
sample, counted from 1, says the sum of the durations of the samples before it and its own. -/
theorem C42_time (pre hd post : Bytes) (runs : List (Nat × Nat)) (hh : hd.length = 12)
    (hl : runs.length < 2 ^ 32) (hv : ∀ p ∈ runs, p.1 < 2 ^ 32 ∧ p.2 < 2 ^ 32) :
    ∃ t, readStts (tableBox pre hd [runs.length] 4 (runs.flatMap fun p => [p.1, p.2]) post) pre.length
        = .ok t ∧
      ∀ (n d : Nat), (expandRuns runs)[n]? = some d →
        sampleTime t (n + 1) = .ok ((((expandRuns runs).take n).sum : Nat), d) := by
  refine ⟨sttsLoop runs none 1 0, ?_, ?_⟩
  · unfold readStts
    rw [tableBox_count pre hd post _ 4 _ hh hl]
    simp only
    rw [tableBox_body pre hd post [runs.length] 4 _ hh ?_ _ _ (by simp) (flat2_length runs).symm]
    · simp only
      rw [pairsOf_flat]
    · intro v hm
      obtain ⟨p, hp, hm⟩ := List.mem_flatMap.mp hm
      have := hv p hp
      simp at hm
      rcases hm with rfl | rfl <;> omega
  · intro n d hd
    have hn : n < (expandRuns runs).length := (List.getElem?_eq_some_iff.mp hd).1
    rw [expandRuns_length] at hn
    obtain ⟨i, c, r, h1, h2, h3, h4⟩ := tableIndex_run (runs.map Prod.fst) (n + 1) (by omega) (by omega)
    have hlk := sttsLoop_lookup runs none 1 0
    simp only at hlk
    rw [List.getElem?_map] at h2
    obtain ⟨⟨c', d'⟩, hp, hc⟩ := Option.map_eq_some_iff.mp h2
    simp only at hc
    subst hc
    obtain ⟨hg, ht⟩ := expandRuns_at runs i r c' d' hp h3
    have hn' : ((runs.map Prod.fst).take i).sum + r = n := by omega
    rw [hn'] at hg ht
    rw [hg] at hd
    cases hd
    have hi : i < (runs.map Prod.fst).length := by
      rw [List.length_map]; exact (List.getElem?_eq_some_iff.mp hp).1
    unfold sampleTime
    rw [hlk, show ((n : Int) + 1) = ((n + 1 : Nat) : Int) by push_cast; rfl, h1,
      pyGet_nat (runStarts_at 1 _ i hi)]
    simp only
    rw [pyGet_nat (sttsLoop_entries runs none 1 0 i c' d hp)]
    simp only
    rw [ht, List.sum_append, sum_replicate']
    congr 2
    push_cast [← hn']
    ring


/-- Non-trivial: three samples of 10, two of 20, one of 5; the sample after the first four starts
at 50. -/
example : sampleTime (sttsLoop [(3, 10), (2, 20), (1, 5)] none 1 0) 5 = .ok (50, 20) ∧
    expandRuns [(3, 10), (2, 20), (1, 5)] = [10, 10, 10, 20, 20, 5] := by decide +kernel

/-- Composition offsets as unsigned numbers. -/
theorem ctts_read (pre hd post : Bytes) (runs : List (Nat × Nat)) (hh : hd.length = 12)
    (hl : runs.length < 2 ^ 32) (hv : ∀ p ∈ runs, p.1 < 2 ^ 32 ∧ p.2 < 2 ^ 32) :
    ∃ t, readCtts (tableBox pre hd [runs.length] 4 (runs.flatMap fun p => [p.1, p.2]) post) pre.length
        = .ok t ∧
      ∀ (n o : Nat), (expandRuns runs)[n]? = some o → sampleOffset t (n + 1) = .ok o := by
  refine ⟨cttsLoop runs none 1, ?_, ?_⟩
  · unfold readCtts
    rw [tableBox_count pre hd post _ 4 _ hh hl]
    simp only
    rw [tableBox_body pre hd post [runs.length] 4 _ hh ?_ _ _ (by simp) (flat2_length runs).symm]
    · simp only
      rw [pairsOf_flat]
    · intro v hm
      obtain ⟨p, hp, hm⟩ := List.mem_flatMap.mp hm
      have := hv p hp
      simp at hm
      rcases hm with rfl | rfl <;> omega
  · intro n d hd
    have hn : n < (expandRuns runs).length := (List.getElem?_eq_some_iff.mp hd).1
    rw [expandRuns_length] at hn
    obtain ⟨i, c, r, h1, h2, h3, h4⟩ := tableIndex_run (runs.map Prod.fst) (n + 1) (by omega) (by omega)
    have hlk := cttsLoop_lookup runs none 1
    simp only at hlk
    rw [List.getElem?_map] at h2
    obtain ⟨⟨c', d'⟩, hp, hc⟩ := Option.map_eq_some_iff.mp h2
    simp only at hc
    subst hc
    obtain ⟨hg, ht⟩ := expandRuns_at runs i r c' d' hp h3
    have hn' : ((runs.map Prod.fst).take i).sum + r = n := by omega
    rw [hn'] at hg ht
    rw [hg] at hd
    cases hd
    unfold sampleOffset
    rw [hlk, show ((n : Int) + 1) = ((n + 1 : Nat) : Int) by push_cast; rfl, h1, cttsLoop_entries,
      pyGet_nat hp]

/-- **C42, composition offsets.** As long as no offset is negative (version 0 boxes, and version 1
boxes below 2^31), every sample gets the offset the table says. -/
theorem C42_offset_partial (pre hd post : Bytes) (runs : List (Nat × Nat)) (hh : hd.length = 12)
    (hl : runs.length < 2 ^ 32) (hv : ∀ p ∈ runs, p.1 < 2 ^ 32 ∧ p.2 < 2 ^ 31) :
    ∃ t, readCtts (tableBox pre hd [runs.length] 4 (runs.flatMap fun p => [p.1, p.2]) post) pre.length
        = .ok t ∧
      ∀ (n o : Nat), (expandRuns runs)[n]? = some o →
        ∃ v, sampleOffset t (n + 1) = .ok v ∧ v = o ∧ (v : Int) = signedWord o := by
  obtain ⟨t, ht, h⟩ := ctts_read pre hd post runs hh hl (fun p hp => by have := hv p hp; omega)
  refine ⟨t, ht, fun n o ho => ⟨o, h n o ho, rfl, ?_⟩⟩
  obtain ⟨p, hp, hm⟩ := List.mem_flatMap.mp (List.mem_of_getElem? ho)
  have h1 := (List.mem_replicate.mp hm).2
  have h2 := (hv p hp).2
  unfold signedWord
  rw [if_pos (by omega)]

/-- The offsets of version 1 boxes are signed. A box of version 1 with the offset -1024 is read as
4294966272. -/
theorem C42_offset_violation :
    (∃ t, readCtts (tableBox [] [0, 0, 0, 24, 99, 116, 116, 115, 1, 0, 0, 0] [1] 4 [1, 4294966272] []) 0
      = .ok t ∧ sampleOffset t 1 = .ok 4294966272) ∧ signedWord 4294966272 = -1024 := by
  refine ⟨⟨⟨[(1, 4294966272)], [1]⟩, ?_⟩, ?_⟩ <;> decide +kernel

/-- Sync samples: the numbers listed and no others. -/
theorem C42_sync (pre hd post : Bytes) (l : List Nat) (hh : hd.length = 12) (hl : l.length < 2 ^ 32)
    (hv : ∀ v ∈ l, v < 2 ^ 32) :
    ∃ t, readStss (tableBox pre hd [l.length] 4 l post) pre.length = .ok t ∧
      ∀ n, hasIndex t n = true ↔ n ∈ l := by
  refine ⟨l, ?_, fun n => by simp [hasIndex]⟩
  unfold readStss
  rw [tableBox_count pre hd post _ 4 _ hh hl]
  exact tableBox_body pre hd post [l.length] 4 l hh (fun v hm => by have := hv v hm; omega) _ _
    (by simp) rfl

example : ∃ t, readStss (tableBox [7] (List.replicate 12 0) [2] 4 [1, 49] [9]) 1 = .ok t ∧
    hasIndex t 49 = true ∧ hasIndex t 2 = false := ⟨[1, 49], by decide +kernel⟩

/-- The samples of a chunk follow those of the chunks before it. -/
theorem samplesBefore_succ (l : List StscEntry) (c : Nat) (hc : 1 ≤ c) :
    samplesBefore l (c + 1) = samplesBefore l c + samplesIn l c := by
  have := samplesBefore_add l c 1 (samplesIn l c) hc (fun d h1 h2 => by
    rw [show d = c by omega])
  rw [this]; omega

theorem samplesBefore_mono (l : List StscEntry) {a b : Nat} (ha : 1 ≤ a) (h : a ≤ b) :
    samplesBefore l a ≤ samplesBefore l b := by
  induction b, h using Nat.le_induction with
  | base => exact Nat.le_refl _
  | succ b hb ih => rw [samplesBefore_succ l b (by omega)]; omega

/-- A sample is in one chunk at one place. -/
theorem chunk_unique (l : List StscEntry) {c d i k : Nat} (hc : 1 ≤ c) (hd : 1 ≤ d)
    (hi : i < samplesIn l c) (hk : k < samplesIn l d)
    (h : samplesBefore l c + i = samplesBefore l d + k) : c = d ∧ i = k := by
  have hcd : c = d := by
    rcases Nat.lt_trichotomy c d with hlt | heq | hgt
    · have h1 := samplesBefore_mono l (show 1 ≤ c + 1 by omega) (show c + 1 ≤ d by omega)
      rw [samplesBefore_succ l c hc] at h1
      omega
    · exact heq
    · have h1 := samplesBefore_mono l (show 1 ≤ d + 1 by omega) (show d + 1 ≤ c by omega)
      rw [samplesBefore_succ l d hd] at h1
      omega
  subst hcd
  exact ⟨rfl, by omega⟩

theorem chunkAndIndex_exists (l : List StscEntry) (hv : StscValid l) (n : Nat) :
    ∃ c i, chunkAndIndex (stscLoop l none 1) (n + 1) = .ok ((c : Nat), (i : Nat)) ∧ 1 ≤ c ∧
      i < samplesIn l c ∧ n = samplesBefore l c + i := by
  have hlk := stscLoop_lookup (n + 1) l none 1 hv.sorted
  simp only at hlk
  have hsum : n + 1 ≤ (stscCounts (n + 1) l).sum := by
    have : ∀ l : List StscEntry, l ≠ [] → n + 1 ≤ (stscCounts (n + 1) l).sum := by
      intro l
      induction l with
      | nil => intro h; exact absurd rfl h
      | cons e l ih =>
        intro _
        cases l with
        | nil => simp [stscCounts]
        | cons f r =>
          have := ih (by simp)
          simp only [stscCounts, List.sum_cons]
          omega
    apply this
    obtain ⟨e, r, he, _⟩ := hv.start
    rw [he]; simp
  obtain ⟨i, c, r, h1, h2, h3, h4⟩ := tableIndex_run (stscCounts (n + 1) l) (n + 1) (by omega) hsum
  have hi : i < l.length := by
    rw [← stscCounts_length (n + 1) l]; exact (List.getElem?_eq_some_iff.mp h2).1
  have hg : l[i]? = some l[i] := List.getElem?_eq_getElem hi
  obtain ⟨hf, hb⟩ := samplesBefore_entry (n + 1) l hv i l[i] hg
  have hp : 0 < l[i].samples := hv.positive _ (List.getElem_mem hi)
  have hr : n = ((stscCounts (n + 1) l).take i).sum + r := by omega
  have hrun : ∀ k, k ≤ r / l[i].samples → samplesIn l (l[i].first + k) = l[i].samples := by
    intro k hk
    refine samplesIn_run l hv.sorted i l[i] hg _ (by omega) ?_
    intro f hf'
    have hc := stscCounts_at (n + 1) l i l[i] f hg hf'
    rw [h2] at hc
    have hc' : c = (f.first - l[i].first) * l[i].samples := by simpa using hc
    have h5 : r / l[i].samples < f.first - l[i].first := by
      rw [Nat.div_lt_iff_lt_mul hp, ← hc']
      exact h3
    omega
  refine ⟨l[i].first + r / l[i].samples, r % l[i].samples, ?_, Nat.le_trans hf (Nat.le_add_right _ _), ?_, ?_⟩
  · unfold chunkAndIndex
    rw [hlk, show ((n : Int) + 1) = ((n + 1 : Nat) : Int) by push_cast; rfl, h1, stscLoop_entries,
      pyGet_nat (runStarts_at 1 _ i (by rw [stscCounts_length]; exact hi))]
    simp only
    rw [pyGet_nat hg]
    simp only
    rw [if_neg (by omega)]
    have e : ((n + 1 : Nat) : Int) - (1 + ((((stscCounts (n + 1) l).take i).sum : Nat) : Int)) = (r : Int) := by
      omega
    rw [e, Int.fdiv_eq_ediv_of_nonneg _ (by omega), Int.fmod_eq_emod_of_nonneg _ (by omega)]
    push_cast
    rfl
  · rw [hrun _ (Nat.le_refl _)]
    exact Nat.mod_lt _ hp
  · have := samplesBefore_add l l[i].first (r / l[i].samples) l[i].samples hf (by
      intro c h5 h6
      have := hrun (c - l[i].first) (by omega)
      rwa [show l[i].first + (c - l[i].first) = c by omega] at this)
    rw [this, hb]
    have := Nat.div_add_mod' r l[i].samples
    omega

/-- **C42, chunks.** For a table as the standard has it, sample number `i` (from 0) of chunk `c` gets
that chunk and that number, whatever the chunk; and every sample is in one chunk. -/
theorem C42_chunk (pre hd post : Bytes) (l : List StscEntry) (hh : hd.length = 12)
    (hl : l.length < 2 ^ 32) (hw : ∀ e ∈ l, e.first < 2 ^ 32 ∧ e.samples < 2 ^ 32 ∧ e.desc < 2 ^ 32)
    (hv : StscValid l) :
    ∃ t, readStsc (tableBox pre hd [l.length] 4 (l.flatMap fun e => [e.first, e.samples, e.desc]) post)
        pre.length = .ok t ∧
      (∀ c i : Nat, 1 ≤ c → i < samplesIn l c →
        chunkAndIndex t ((samplesBefore l c + i : Nat) + 1) = .ok ((c : Nat), (i : Nat))) ∧
      (∀ n : Nat, ∃ c i, 1 ≤ c ∧ i < samplesIn l c ∧ n = samplesBefore l c + i) := by
  refine ⟨stscLoop l none 1, ?_, ?_, ?_⟩
  · unfold readStsc
    rw [tableBox_count pre hd post _ 4 _ hh hl]
    simp only
    rw [tableBox_body pre hd post [l.length] 4 _ hh ?_ _ _ (by simp) (flat3_length l).symm]
    · simp only
      rw [triplesOf_flat]
    · intro v hm
      obtain ⟨p, hp, hm⟩ := List.mem_flatMap.mp hm
      have := hw p hp
      simp at hm
      rcases hm with rfl | rfl | rfl <;> omega
  · intro c i hc hi
    obtain ⟨c', i', h1, h2, h3, h4⟩ := chunkAndIndex_exists l hv (samplesBefore l c + i)
    obtain ⟨rfl, rfl⟩ := chunk_unique l hc h2 hi h3 h4
    exact h1
  · intro n
    obtain ⟨c, i, _, h⟩ := chunkAndIndex_exists l hv n
    exact ⟨c, i, h⟩

/-- Non-trivial: two chunks of three samples, then chunks of two. -/
example : StscValid [⟨1, 3, 1⟩, ⟨3, 2, 1⟩] ∧
    samplesBefore [⟨1, 3, 1⟩, ⟨3, 2, 1⟩] 4 = 8 ∧
    chunkAndIndex (stscLoop [⟨1, 3, 1⟩, ⟨3, 2, 1⟩] none 1) 10 = .ok (4, 1) :=
  ⟨⟨⟨_, _, rfl, rfl⟩, by simp, by simp⟩, by decide +kernel, by decide +kernel⟩

/-- **C42, sizes and positions.** With a table of sizes, sample `i` of a chunk that starts at sample
`b` gets its size, and lies after the earlier samples of the chunk. -/
theorem C42_position (pre hd post : Bytes) (sizes : List Nat) (hh : hd.length = 12)
    (hl : sizes.length < 2 ^ 32) (hw : ∀ s ∈ sizes, s < 2 ^ 32) :
    ∃ t, readStsz (tableBox pre hd [0, sizes.length] 4 sizes post) pre.length = .ok t ∧
      ∀ (b i s : Nat) (chunk : Int), sizes[b + i]? = some s →
        sampleSizeOffset t ((b + i : Nat) + 1) i chunk =
          .ok (s, chunk + (((sizes.drop b).take i).sum : Nat)) := by
  refine ⟨⟨0, sizes, accumulate 0 sizes⟩, ?_, ?_⟩
  · unfold readStsz
    rw [show [0, sizes.length] = [] ++ 0 :: [sizes.length] from rfl,
      tableBox_word pre hd post [] 0 [sizes.length] 4 _ hh (by omega) (pre.length + 12) (by simp),
      show [] ++ 0 :: [sizes.length] = [0] ++ sizes.length :: [] from rfl,
      tableBox_word pre hd post [0] sizes.length [] 4 _ hh hl (pre.length + 16) (by simp)]
    simp only [if_pos]
    rw [tableBox_body pre hd post _ 4 _ hh (fun v hm => by have := hw v hm; omega) _ _ (by simp) rfl]
  · intro b i s chunk hs
    obtain ⟨hlt, he⟩ := List.getElem?_eq_some_iff.mp hs
    unfold sampleSizeOffset
    rw [if_neg (by simp)]
    simp only
    rw [show ((b + i : Nat) : Int) + 1 - 1 = ((b + i : Nat) : Int) by omega,
      show ((b + i : Nat) : Int) + 1 - (i : Int) - 1 = ((b : Nat) : Int) by push_cast; ring,
      pyGet_nat (accumulate_at 0 sizes (b + i) hlt), pyGet_nat (accumulate_at 0 sizes b (by omega)),
      pyGet_nat hs]
    simp only
    congr 2
    have : sizes.take (b + i) = sizes.take b ++ (sizes.drop b).take i := List.take_add
    rw [this, List.sum_append]
    push_cast
    ring

/-- The same when all samples have one size: no table is read. -/
theorem C42_position_fixed (pre hd post : Bytes) (size n : Nat) (hh : hd.length = 12)
    (h0 : 0 < size) (hs : size < 2 ^ 32) (hl : n < 2 ^ 32) :
    ∃ t, readStsz (tableBox pre hd [size, n] 4 [] post) pre.length = .ok t ∧
      ∀ (b i : Nat) (chunk : Int),
        sampleSizeOffset t ((b + i : Nat) + 1) i chunk =
          .ok (size, chunk + ((List.replicate i size).sum : Nat)) := by
  refine ⟨⟨size, [], []⟩, ?_, ?_⟩
  · unfold readStsz
    rw [show [size, n] = [] ++ size :: [n] from rfl,
      tableBox_word pre hd post [] size [n] 4 _ hh hs (pre.length + 12) (by simp),
      show [] ++ size :: [n] = [size] ++ n :: [] from rfl,
      tableBox_word pre hd post [size] n [] 4 _ hh hl (pre.length + 16) (by simp)]
    simp only
    rw [if_neg (by omega)]
  · intro b i chunk
    unfold sampleSizeOffset
    rw [if_pos (by simp; omega), sum_replicate']
    simp only
    congr 2
    push_cast
    ring

/-- **C42, chunk offsets.** Boxes with 32-bit and 64-bit offsets; 0 for a chunk that is not there. -/
theorem C42_chunk_offset (w : Nat) (pre hd post : Bytes) (offsets : List Nat) (hh : hd.length = 12)
    (hl : offsets.length < 2 ^ 32) (hw : ∀ o ∈ offsets, o < 256 ^ w) :
    readOffsets w (tableBox pre hd [offsets.length] w offsets post) pre.length = .ok offsets ∧
      (∀ c : Nat, chunkOffset offsets (c + 1) = offsets[c]?.getD 0) := by
  constructor
  · unfold readOffsets
    rw [tableBox_count pre hd post _ w _ hh hl]
    exact tableBox_body pre hd post [offsets.length] w offsets hh hw _ _ (by simp) rfl
  · intro c
    unfold chunkOffset
    rw [show (c : Int) + 1 - 1 = c by omega]
    cases h : offsets[c]? with
    | some o => rw [pyGet_nat h]; rfl
    | none =>
      unfold pyGet
      rw [if_neg (by omega), if_neg (by omega), Int.toNat_natCast, h]
      rfl

/-- **C42, where a sample is.** The four tables together: sample `i` of chunk `c` is found at the
offset of the chunk plus the sizes of the samples of the chunk before it. -/
theorem C42_locate (scPre scHd scPost szPre szHd szPost : Bytes) (l : List StscEntry)
    (sizes offsets : List Nat) (hscHd : scHd.length = 12) (hszHd : szHd.length = 12)
    (hl : l.length < 2 ^ 32) (hw : ∀ e ∈ l, e.first < 2 ^ 32 ∧ e.samples < 2 ^ 32 ∧ e.desc < 2 ^ 32)
    (hsl : sizes.length < 2 ^ 32) (hsw : ∀ s ∈ sizes, s < 2 ^ 32) (hv : StscValid l) :
    ∃ sc sz,
      readStsc (tableBox scPre scHd [l.length] 4 (l.flatMap fun e => [e.first, e.samples, e.desc]) scPost)
        scPre.length = .ok sc ∧
      readStsz (tableBox szPre szHd [0, sizes.length] 4 sizes szPost) szPre.length = .ok sz ∧
      ∀ c i s o : Nat, i < samplesIn l (c + 1) → offsets[c]? = some o →
        sizes[samplesBefore l (c + 1) + i]? = some s →
        locateSample sc offsets sz ((samplesBefore l (c + 1) + i : Nat) + 1) =
          .ok (s, ((o + ((sizes.drop (samplesBefore l (c + 1))).take i).sum : Nat) : Int)) := by
  obtain ⟨sc, h1, h2, _⟩ := C42_chunk scPre scHd scPost l hscHd hl hw hv
  obtain ⟨sz, h3, h4⟩ := C42_position szPre szHd szPost sizes hszHd hsl hsw
  refine ⟨sc, sz, h1, h3, ?_⟩
  intro c i s o hi ho hs
  unfold locateSample
  rw [h2 (c + 1) i (by omega) hi]
  simp only
  have hco : chunkOffset offsets ((c + 1 : Nat) : Int) = o := by
    unfold chunkOffset
    rw [show ((c + 1 : Nat) : Int) - 1 = (c : Int) by omega, pyGet_nat ho]
  rw [hco, h4 _ _ _ _ hs]
  push_cast
  rfl

/-- Non-trivial: chunks of two samples at 100 and 500; the fourth sample has 7 bytes at 530. -/
example : locateSample (stscLoop [⟨1, 2, 1⟩] none 1) [100, 500] ⟨0, [10, 20, 30, 7], [0, 10, 30, 60]⟩ 4
    = .ok (7, 530) := by decide +kernel

/-- No table covers sample 0: the lookups then answer with the last entry. -/
theorem C42_zero : sampleTime (sttsLoop [(3, 10), (1, 5)] none 1 0) 0 = .ok (10, 5) := by
  decide +kernel

end Verif
