import Verif.Lemmas.Deliver
import Verif.Props.InitSegment
/-
C79: what the server decides to send, it sends.
-/
namespace Verif
open Spec

/-- A stored segment with room for what the server adds: four bytes in the fragment, one brand, sizes and durations
within 32 bits. -/
structure TimedFragment.Room (f : TimedFragment) : Prop where
  frag : f.g.Room
  size : f.g.moof.length + 4 + (boxesBytes f.g.back).length < 2 ^ 32
  dur : f.duration none < 2 ^ 32

/-- The filter makes a segment of what the analyser could read. -/
theorem filter_sent {c : Cfg} {w : Served} {rp : Rep} {f : TimedFragment} (hok : f.Ok) {dd0 : Option Nat} {z : AnaSeg}
    (hread : readSegment dd0 f.bytes = .ok z) (hfrag : f.g.Room)
    (hsize : f.g.moof.length + 4 + (boxesBytes f.g.back).length < 2 ^ 32) {dd : Option Nat} (hdur : f.duration dd < 2 ^ 32)
    (hsd : 0 ≤ c.segDur) (ts0 : 0 ≤ rp.timescale) (ts1 : rp.timescale < 2 ^ 32)
    (hscte : 0 < c.scte35 → w.segNr * c.segDur < 2 ^ 32) {stamp : Text} (hstamp : w.emsgLast = true → stamp.length < 2 ^ 30)
    (n0 : 0 ≤ w.segNr) (n1 : w.segNr < 2 ^ 32) (t0 : 0 ≤ f.time + w.offset * rp.timescale)
    (t1 : f.time + w.offset * rp.timescale < 2 ^ 64) :
    ∃ y, filterMedia (segmentFilter c rp w stamp dd) f.bytes = .ok y := by
  have hbase : ∃ y, filterMedia (analyzerFilter dd0) f.g.bytes = .ok y := by
    unfold readSegment at hread
    cases hf : filterMedia (analyzerFilter dd0) f.bytes with
    | error e => rw [hf] at hread; cases hread
    | ok y => exact ⟨y, hf⟩
  obtain ⟨y0, hbase⟩ := hbase
  have hsc : ∃ b, scteOfSegment (segmentFilter c rp w stamp dd) = .ok b := by
    show ∃ b, scteBox (if rp.contentType = "video".toList then c.scte35 else 0) w.segNr c.segDur = .ok b
    by_cases hp : 0 < c.scte35
    · exact scteBox_of (Int.mul_nonneg n0 (by omega)) (hscte hp)
    · refine ⟨[], ?_⟩
      unfold scteBox scteOf
      rw [if_pos (Or.inl (by split <;> omega))]
  obtain ⟨sb, hsc⟩ := hsc
  obtain ⟨lb, hlb⟩ := lastBox_of (segmentFilter c rp w stamp dd) (by
    intro m hm
    have hm : (if w.emsgLast then some stamp else none) = some m := hm
    split at hm
    · rename_i he; cases hm; exact hstamp he
    · cases hm)
  refine filterMedia_transfer (analyzerFilter dd0) (segmentFilter c rp w stamp dd) w.segNr
    rp.timescale rfl rfl rfl n0 n1 f.g hok.frag hfrag t0 t1
    hsc hlb (by
      intro s size hs hrun hsz
      unfold indexBox
      split
      · obtain ⟨o, hrun⟩ := hrun
        rw [hok.pre, hok.post] at hrun
        have un : ∀ l, (∀ b ∈ l, b ∈ f.g.a ++ f.p1 ++ f.p2 ++ f.q1 ++ f.q2 ++ f.g.b) →
          Untimed l := fun l hl b hb => hok.others b (hl b hb)
        have hd := fragment_duration _ _ _ f.g.a f.p1 f.p2 f.q1 f.q2 f.g.b
          (un _ fun b hb => by simp [hb]) (un _ fun b hb => by simp [hb])
          (un _ fun b hb => by simp [hb]) (un _ fun b hb => by simp [hb])
          (un _ fun b hb => by simp [hb]) (un _ fun b hb => by simp [hb])
          f.hdr hok.hdr f.run hok.run f.x f.y hok.x hok.y _ _ _ hrun
        have hd : s.duration = some (f.duration dd : Int) := hd
        unfold createSidx
        rw [hs, hd]
        show ∃ e, (do
          let b1 ← uint32ToStr 52
          let b2 ← uint32ToStr rp.timescale
          let b3 ← uint64ToStr ((f.g.t : Int) + w.offset * rp.timescale)
          let b4 ← uint64ToStr 0
          let b5 ← uint32ToStr size
          let b6 ← uint32ToStr (f.duration dd : Int)
          return b1 ++ [115, 105, 100, 120, 1, 0, 0, 0] ++ [0, 0, 0, 1] ++ b2 ++ b3 ++ b4 ++
            [0, 0, 0, 1] ++ b5 ++ b6 ++ [0x90, 0, 0, 0] : Py Bytes) = .ok e
        obtain ⟨b1, e1⟩ := uint32ToStr_of (v := 52) (by decide) (by decide)
        obtain ⟨b2, e2⟩ := uint32ToStr_of (v := rp.timescale) (by omega) (by omega)
        obtain ⟨b3, e3⟩ := uint64ToStr_of (v := (f.g.t : Int) + w.offset * rp.timescale) t0 t1
        obtain ⟨b4, e4⟩ := uint64ToStr_of (v := 0) (by decide) (by decide)
        obtain ⟨b5, e5⟩ := uint32ToStr_of (v := (size : Int)) (by omega) (by omega)
        obtain ⟨b6, e6⟩ := uint32ToStr_of (v := (f.duration dd : Int)) (by omega) (by omega)
        rw [e1, e2, e3, e4, e5, e6]
        exact ⟨_, rfl⟩
      · exact ⟨_, rfl⟩) hbase

/-- **C79.** For content that the analyser accepted, whose stored segments have room for the additions: whatever the
options of a request are (except chunked delivery), if the server decides to send a media segment then it sends one, and
no exception is raised, provided that the number and the decode time fit their fields.  The bounds on number and decode
time are also necessary.  Missing: replies in chunks (see C82); segments with several fragments or runs. -/
theorem C79_sent_partial {pf : Text → Option Rat} {base : Text} {fs : Files} {mpd : Xml} {vodOf : Text → Py VodCfg}
    {name : Text} {a : Xml} {ifile : Text} {x : Xml} {id : Text} {seg : Nat → TimedFragment}
    (hS : StoredRep base fs mpd vodOf name a ifile x id seg)
    {now : Int} {t : Rat} {c : Cfg} {w : Served}
    (hurl : ∃ opts file, (∀ p ∈ opts, (partSlot p).isSome) ∧ processUrl pf vodOf (opts ++ [name, id, file]) now = .ok c)
    (hw : getMedia pf c t = .ok (.media w))
    (hroom : ∀ k : Nat, c.vodFirst ≤ k → (k : Int) < c.vodFirst + c.vodNr → (seg k).Room) (hchunk : c.chunkDur = none) (hscte : 0 < c.scte35 → w.segNr * c.segDur < 2 ^ 32)
    {stamp : Text} (hstamp : w.emsgLast = true → stamp.length < 2 ^ 30) :
    ∃ (init : Bytes) (info : InitInfo), fs.file (id ++ '/' :: ifile) = some init ∧ initInfo init = .ok info ∧
      ((∃ out, mediaBody fs c w stamp = .ok (.whole out)) ↔
        (0 ≤ w.segNr ∧ w.segNr < 2 ^ 32 ∧ 0 ≤ (seg w.vodNr.toNat).time + w.offset * info.timescale ∧
          (seg w.vodNr.toNat).time + w.offset * info.timescale < 2 ^ 64)) := by
  obtain ⟨init, info, k, rp, z, h1, h2, h3, h4, h5, h6, h7, h8, h9, h10, h11, h12, h13, hreps, hts, hok, hread, hfs⟩ :=
    live_decision hS hurl hw
  refine ⟨init, info, h1, h2, ?_⟩
  have hk : w.vodNr.toNat = k := by omega
  rw [hk]
  have hroom : (seg k).Room := by
    have l1 := Int.emod_nonneg (w.segTime / c.segDur) (b := c.vodNr) (by omega)
    have l2 := Int.emod_lt_of_pos (w.segTime / c.segDur) h11
    exact hroom k (by omega) (by omega)
  have hbody : mediaBody fs c w stamp =
      (filterMedia (segmentFilter c rp w stamp none) (seg k).bytes).map fun b => .whole b.1 := by
    unfold mediaBody
    rw [hreps]
    dsimp only
    rw [hchunk]
    dsimp only
    rw [hfs]
    cases filterMedia (segmentFilter c rp w stamp none) (seg k).bytes with
    | error e => rfl
    | ok y => rfl
  have hoff : (segmentFilter c rp w stamp none).offset * rp.timescale = w.offset * info.timescale := by
    rw [hts]; rfl
  rw [hbody]
  constructor
  · rintro ⟨out, ho⟩
    cases hf : filterMedia (segmentFilter c rp w stamp none) (seg k).bytes with
    | error e => rw [hf] at ho; cases ho
    | ok y =>
      obtain ⟨p1, p2, p3, p4, -⟩ :=
        C11_segment (segmentFilter c rp w stamp none) w.segNr rp.timescale rfl rfl (seg k).g hok.frag y.1 y.2 hf
      rw [hoff] at p3 p4
      exact ⟨p1, p2, p3, p4⟩
  · rintro ⟨n0, n1, t0, t1⟩
    have r3 := initInfo_timescale h2
    have r4 : 0 < info.timescale := by
      have := abs_nonneg (((seg c.vodFirst.toNat).time + (w.segTime / c.segDur + 1) * c.segDur * info.timescale) -
        (((seg k).time + w.offset * info.timescale) + (seg k).duration info.defDur))
      omega
    obtain ⟨y, hy⟩ := filter_sent (c := c) (w := w) (rp := rp) hok hread hroom.frag hroom.size hroom.dur h10.le
      (by omega) (by omega) hscte hstamp n0 n1 (by rw [hts]; exact t0) (by rw [hts]; exact t1)
    refine ⟨y.1, ?_⟩
    have : filterMedia (segmentFilter c rp w stamp none) (seg k).bytes = .ok y := hy
    rw [this]
    rfl

/-- **C79, init.** For content that the analyser accepted: a request for the initialization segment of a representation
is answered with the stored one in which the durations of the movie, track and media headers are 0, provided that the
stored one is a sequence of boxes with complete headers. -/
theorem C79_init_partial {pf : Text → Option Rat} {base : Text} {fs : Files} {mpd : Xml} {vodOf : Text → Py VodCfg}
    {name : Text} (h : Analysed base fs mpd vodOf name) {a : Xml} (ha : a ∈ adaptationSets mpd) {file : Text}
    (ht : InitTemplate a file) (hf : '$' ∉ file) {x : Xml} (hx : x ∈ representations a) {id : Text}
    (hid : x.get "id".toList = some id)
    {opts : List Text} (ho : ∀ p ∈ opts, (partSlot p).isSome) (hn : partSlot name = none) {now : Int}
    {c : Cfg} (hu : processUrl pf vodOf (opts ++ [name, id, file]) now = .ok c)
    {f : Forest} (hfile : fs.file (id ++ '/' :: file) = some f.bytes) (hok : InitOk f) :
    initBody fs c = .ok (some f.liveInit.bytes) := by
  obtain ⟨data, h1, -, h2⟩ := C77_init h ha ht hf hx hid ho hn hu
  rw [hfile] at h1
  cases h1
  rw [h2, C13_only_durations f hok]
  rfl

/-! ### Cases -/

theorem tinyTimed_room {nr time dur : Nat} (hd : dur < 2 ^ 32) : (tinyTimed nr time dur).Room := by
  have h4 : ∀ n, (beBytes 4 n).length = 4 := fun n => beBytes_length 4 n
  have h8 : ∀ n, (beBytes 8 n).length = 8 := fun n => beBytes_length 8 n
  have hs : (signedBytes 96).length = 4 := by decide +kernel
  have hm : (tinyTimed nr time dur).g.moof.length = 92 := by
    simp only [tinyTimed, OneFragment.moof, fragment, Forest.withLeaves, FragBox.parts,
      tfdtPayload, if_true, Forest.bytes, List.length_append, boxBytes_length, h4, h8, hs, List.length_cons, List.length_nil]
  have hb : (boxesBytes (tinyTimed nr time dur).g.back).length = 11 := by
    show (boxesBytes [(tyMdat, [1, 2, 3])]).length = 11
    decide +kernel
  refine ⟨⟨?_, ?_, ?_⟩, ?_, ?_⟩
  · intro x hx
    simp only [tinyTimed, List.nil_append, List.append_nil, List.cons_append, List.mem_cons, List.not_mem_nil, or_false] at hx
    rcases hx with rfl | rfl
    · trivial
    · show (96 : Int) + 4 < 2 ^ 31; decide
  · omega
  · intro x hx; simp [tinyTimed] at hx
  · omega
  · show ((if bitSet 1 0 then ([(dur, ([] : Bytes))].map Prod.fst).sum else 1 * 0) : Nat) < 2 ^ 32
    rw [if_pos (by decide)]
    simpa using hd

/-- The server decides to send a segment: what it found out about the request, and the bytes it makes. -/
def decided (fs : Files) (vodOf : Text → Py VodCfg) (parts : List Text) (now : Int) : Option (Cfg × Served) :=
  match processUrl examplePf vodOf parts now with
  | .ok c =>
    match getMedia examplePf c now with
    | .ok (.media w) => some (c, w)
    | _ => none
  | .error _ => none

/-- The hypotheses of `C79_sent_partial` hold for `tinyContent` with advertising markers, a last-segment message and an
index, two thousand loops from the start. -/
example : ∃ c w, (∃ opts file, (∀ p ∈ opts, (partSlot p).isSome) ∧
      processUrl examplePf tinyVod (opts ++ ["tiny".toList, "V1".toList, file]) 12010 = .ok c) ∧
    getMedia examplePf c 12010 = .ok (.media w) ∧
    (∀ k : Nat, c.vodFirst ≤ k → (k : Int) < c.vodFirst + c.vodNr → (tinySeg k).Room) ∧ c.chunkDur = none ∧
    0 < c.scte35 ∧ w.segNr * c.segDur < 2 ^ 32 ∧ w.segNr = 6002 ∧
    (tinySeg w.vodNr.toNat).time + w.offset * 90000 = 6002 * 180000 := by
  have h : (decided tinyFiles tinyVod (["tsbd_40".toList, "scte35_1".toList, "sidx_1".toList] ++
      ["tiny".toList, "V1".toList, "6002.m4s".toList]) 12010).map (fun x => (x.1.chunkDur, x.1.scte35, x.1.segDur,
        x.2.segNr, x.2.vodNr, x.2.offset)) = some (none, 1, 2, 6002, 3, 12000) := by decide +kernel
  obtain ⟨⟨c, w⟩, hd, hx⟩ := Option.map_eq_some_iff.mp h
  unfold decided at hd
  split at hd
  · rename_i c' hc
    split at hd
    · rename_i w' hw
      cases hd
      simp only [Prod.mk.injEq] at hx
      obtain ⟨x1, x2, x3, x4, x5, x6⟩ := hx
      refine ⟨c, w, ⟨["tsbd_40".toList, "scte35_1".toList, "sidx_1".toList], "6002.m4s".toList, by decide +kernel, hc⟩, hw,
        fun k _ _ => tinyTimed_room (by decide), x1, by omega, ?_, x4, ?_⟩
      · rw [x3, x4]; decide
      · rw [x5, x6]; decide
    · cases hd
  · cases hd

/-- Stored content whose movie header is cut off after three bytes. -/
def shortInit : Forest := .node [109, 111, 111, 118] (.leaf [109, 118, 104, 100] [0, 0, 0] .nil) (infoInit false)
def shortFiles : Files := filesOf [("V1".toList, [("init.mp4".toList, shortInit.bytes),
  ("1.m4s".toList, tinySegment 1 0 180000), ("2.m4s".toList, tinySegment 2 180000 180000),
  ("3.m4s".toList, tinySegment 3 360000 180000)])]
def shortContent : Xml := tinyMpd [tinySet "video" "$RepresentationID$/$Number$.m4s" fromOne ["V1"]]

def initReply (fs : Files) (vodOf : Text → Py VodCfg) (parts : List Text) (now : Int) : Py (Option Bytes) := do
  let c ← processUrl examplePf vodOf parts now
  initBody fs c

/-- An initialization segment with complete headers, all with durations. -/
def wholeInit : Forest :=
  .node [109, 111, 111, 118]
    (.leaf [109, 118, 104, 100] [0, 0, 0, 0, 1, 1, 1, 1, 2, 2, 2, 2, 0, 0, 3, 232, 0, 0, 0, 9, 7, 7] <|
     .node [116, 114, 97, 107]
       (.leaf [116, 107, 104, 100] (tkhdPayload true [0, 0, 7] 5 6 2 ([0, 0, 0, 0] ++ [0, 0, 0, 0, 0, 0, 0, 9, 6])) <|
        .node [109, 100, 105, 97]
          (.leaf [109, 100, 104, 100] (mdhdPayload false [0, 0, 0] 5 6 90000 [0, 0, 0, 9]) <|
           .leaf [104, 100, 108, 114] (hdlrPayload [0, 0, 0, 0] 0 [118, 105, 100, 101] [0]) .nil) .nil) <|
     .node [109, 118, 101, 120]
       (.leaf [116, 114, 101, 120] (trexPayload [0, 0, 0, 0] 2 1 1800 0 65536) .nil) .nil) .nil

def wholeFiles : Files := filesOf [("V1".toList, [("init.mp4".toList, wholeInit.bytes),
  ("1.m4s".toList, tinySegment 1 0 180000), ("2.m4s".toList, tinySegment 2 180000 180000),
  ("3.m4s".toList, tinySegment 3 360000 180000)])]

/-- The hypotheses of `C79_init_partial` hold for `wholeInit`, which is not sent as it is stored. -/
example : Analysed "tiny".toList wholeFiles shortContent (vodAfter "tiny".toList wholeFiles shortContent) "tiny".toList ∧
    (∀ a ∈ adaptationSets shortContent, InitTemplate a "init.mp4".toList) ∧
    InitOk wholeInit ∧ wholeFiles.file "V1/init.mp4".toList = some wholeInit.bytes ∧
    initReply wholeFiles (vodAfter "tiny".toList wholeFiles shortContent) (tinyAsk "V1" "init.mp4") 20 =
      .ok (some wholeInit.liveInit.bytes) ∧ wholeInit.liveInit.bytes ≠ wholeInit.bytes := by
  refine ⟨analysed_after (by decide +kernel) (by decide +kernel) (by decide +kernel),
    by unfold InitTemplate; decide +kernel, ⟨?_, ?_⟩, by decide +kernel, by decide +kernel, by decide +kernel⟩
  · unfold wholeInit initLiveRules
    simp only [Forest.Ok]
    decide +kernel
  · unfold wholeInit
    simp only [Forest.AllInside, Forest.AllLeaves, InitBoxOk, HeaderComplete]
    refine ⟨fun _ => ⟨⟨?_, by decide +kernel⟩,
      ⟨⟨⟨?_, by decide +kernel⟩, ⟨⟨⟨?_, by decide +kernel⟩, ⟨?_, by decide +kernel⟩, trivial⟩, trivial⟩⟩,
        ⟨⟨⟨?_, by decide +kernel⟩, trivial⟩, trivial⟩⟩⟩, trivial⟩
    all_goals
      intro w hw
      cases hw
      try decide

/-- **C79 fails** for initialization segments: the analyser does not look at the movie header.  Content whose movie header
is cut off is accepted and its manifest is served, but the request for the initialization segment raises. -/
theorem C79_init_violation :
    Analysed "tiny".toList shortFiles shortContent (vodAfter "tiny".toList shortFiles shortContent) "tiny".toList ∧
    (∀ a ∈ adaptationSets shortContent, NumberTemplate a ∧ InitTemplate a "init.mp4".toList) ∧
    initReply shortFiles (vodAfter "tiny".toList shortFiles shortContent) (tinyAsk "V1" "init.mp4") 20 = .error .structError :=
  ⟨analysed_after (by decide +kernel) (by decide +kernel) (by decide +kernel),
    by unfold NumberTemplate InitTemplate; decide +kernel, by decide +kernel⟩

/-- **C79 fails** for early segments: with a time offset after the start of the session the first segment has a negative
number and decode time.  Segment -45 is the latest that is available at 10 s and the server decides to send it, but
making it raises, because neither value has a place in the segment. -/
theorem C79_early_violation :
    ((decided tinyFiles tinyVod ["timeoffset_100".toList, "tsbd_40".toList, "tiny".toList, "V1".toList, "-45.m4s".toList] 12).map
      fun x => (x.1.adjustedStartNumber, x.2.segNr, x.2.vodNr, x.2.offset)) = some (.ok (-50), -45, 1, -90) ∧
    replyBody tinyFiles tinyVod ["timeoffset_100".toList, "tsbd_40".toList, "tiny".toList, "V1".toList, "-45.m4s".toList] 12 =
      .error .structError := by decide +kernel

end Verif
