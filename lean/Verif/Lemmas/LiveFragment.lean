import Verif.Lemmas.Deliver
import Verif.Props.ChunkFormat
/-
Segments as both the media segment filter and the chunker see them.
-/
namespace Verif

/-- A stored segment with one fragment that has one track fragment with one header and one run, with any other boxes
around them. -/
structure LiveFragment where
  front : List (Bytes × Bytes)
  vf : Bytes
  seq : Nat
  a : List FragBox
  p1 : List FragBox
  head : FragHeader
  p2 : List FragBox
  wide : Bool
  f2 : UInt8
  f1 : UInt8
  f0 : UInt8
  time : Nat
  q1 : List FragBox
  run : SampleRun
  q2 : List FragBox
  b : List FragBox
  back : List (Bytes × Bytes)

/-- As the chunker sees it. -/
def LiveFragment.seg (f : LiveFragment) : FragSegment :=
  { front := f.front, vf := f.vf, seq := f.seq, a := f.a.map FragBox.parts, p1 := f.p1.map FragBox.parts, head := f.head
    p2 := f.p2.map FragBox.parts, wide := f.wide, f2 := f.f2, f1 := f.f1, f0 := f.f0, time := f.time
    q1 := f.q1.map FragBox.parts, run := f.run, q2 := f.q2.map FragBox.parts, b := f.b.map FragBox.parts, back := f.back }

/-- The run as a box. -/
def LiveFragment.runBox (f : LiveFragment) : FragBox :=
  .run f.run.v f.run.f2 f.run.f1 f.run.f0 (beBytes 4 f.run.rows.length) f.run.offset
    (field (bitSet f.run.f0 2) (beBytes 4 f.run.first) ++ f.run.rows.flatMap f.run.rowBytes)

/-- As the filter sees it. -/
def LiveFragment.one (f : LiveFragment) : OneFragment :=
  { front := f.front, vf := f.vf, seq := beBytes 4 f.seq, a := f.a
    pre := f.p1 ++ .other tyTfhd f.head.payload :: f.p2
    wide := f.wide, f2 := f.f2, f1 := f.f1, f0 := f.f0, t := f.time
    post := f.q1 ++ f.runBox :: f.q2, b := f.b, back := f.back }

/-- As far as times go. -/
def LiveFragment.timed (f : LiveFragment) : TimedFragment :=
  { g := f.one, p1 := f.p1, p2 := f.p2, q1 := f.q1, q2 := f.q2, x := .other tyTfhd f.head.payload, y := f.runBox
    hdr := { v := f.head.v, f2 := f.head.f2, f1 := f.head.f1, f0 := f.head.f0, track := beBytes 4 f.head.track
             desc := field (bitSet f.head.f0 1) (beBytes 4 f.head.desc)
             dur := if bitSet f.head.f0 3 then some f.head.dur else none
             rest := field (bitSet f.head.f0 4) (beBytes 4 f.head.size) ++
               field (bitSet f.head.f0 5) (beBytes 4 f.head.flags) ++ f.head.rest }
    run := { v := f.run.v, f2 := f.run.f2, f1 := f.run.f1, f0 := f.run.f0, offset := signedBytes f.run.offset
             first := field (bitSet f.run.f0 2) (beBytes 4 f.run.first)
             rows := f.run.rows.map fun x => (x.dur, field (bitSet f.run.f1 1) (beBytes 4 x.size) ++
               field (bitSet f.run.f1 2) (beBytes 4 x.flags) ++ field (bitSet f.run.f1 3) (signedBytes x.off)) } }

/-- All boxes beside the ones that matter. -/
def LiveFragment.others (f : LiveFragment) : List FragBox := f.a ++ f.p1 ++ f.p2 ++ f.q1 ++ f.q2 ++ f.b

/-- A segment within its fields: no base data offset, the run has a data offset behind the fragment, all boxes are plain
ones that mean nothing to the reader, and there is room for four more bytes. -/
structure LiveFragment.Ok (f : LiveFragment) : Prop where
  vf : f.vf.length = 4
  seq : f.seq < 2 ^ 32
  head : f.head.Ok
  base : bitSet f.head.f0 0 = false
  run : f.run.Ok
  offset : bitSet f.run.f0 0 = true
  data : (f.one.moof.length : Int) ≤ f.run.offset
  room : f.run.offset + 4 < 2 ^ 31
  time : f.time < (if f.wide then 2 ^ 64 else 2 ^ 32)
  front : ∀ x ∈ f.front, PlainType x.1 ∧ x.1 ≠ tyMdat ∧ 16 + x.2.length < 2 ^ 32 ∧ (x.1 = tyStyp → 4 ∣ x.2.length)
  others : ∀ x ∈ f.others, x.Ok ∧ x.Room ∧ PlainType x.parts.1 ∧ 8 + x.parts.2.length < 2 ^ 32 ∧
    x.parts.1 ∉ [tyTfhd, tyTfdt, tyTrun]
  back : ∀ x ∈ f.back, PlainType x.1 ∧ x.1 ∉ [tyStyp, tySidx] ∧ 8 + x.2.length < 2 ^ 32

/-! ### The two views -/

theorem LiveFragment.runBox_parts (f : LiveFragment) (h : bitSet f.run.f0 0 = true) :
    f.runBox.parts = (tyTrun, f.run.payload) := by
  simp [LiveFragment.runBox, FragBox.parts, SampleRun.payload, field, h]

theorem withBoxes_parts (l : List FragBox) (f : Forest) :
    Forest.withBoxes (l.map FragBox.parts) f = Forest.withLeaves l f := by
  induction l with
  | nil => rfl
  | cons b l ih => rw [List.map_cons, Forest.withBoxes, Forest.withLeaves, ih]

theorem LiveFragment.forest (f : LiveFragment) (h : bitSet f.run.f0 0 = true) : f.seg.forest = f.one.forest := by
  have hr := f.runBox_parts h
  simp only [FragSegment.forest, FragSegment.moof, FragSegment.traf, LiveFragment.seg, withBoxes_parts, OneFragment.forest,
    segmentOf, LiveFragment.one, withLeaves_append]
  simp only [Forest.withLeaves, hr]
  rfl

theorem OneFragment.forest_bytes (g : OneFragment) : g.forest.bytes = g.bytes := by
  rw [OneFragment.bytes, OneFragment.forest, segmentOf_bytes, OneFragment.moof]

theorem LiveFragment.bytes_eq (f : LiveFragment) (h : bitSet f.run.f0 0 = true) : f.seg.bytes = f.one.bytes := by
  rw [FragSegment.bytes, f.forest h, OneFragment.forest_bytes]

theorem LiveFragment.moof_bytes (f : LiveFragment) (h : bitSet f.run.f0 0 = true) :
    f.one.moof = boxBytes tyMoof f.seg.moof.bytes := by
  have hr := f.runBox_parts h
  simp only [OneFragment.moof, fragment, Forest.bytes, FragSegment.moof, FragSegment.traf, LiveFragment.seg, withBoxes_parts,
    LiveFragment.one, withLeaves_append]
  simp only [Forest.withLeaves, hr, List.append_nil]
  rfl

theorem LiveFragment.moof_length (f : LiveFragment) (h : bitSet f.run.f0 0 = true) :
    f.one.moof.length = 8 + f.seg.moof.bytes.length := by
  rw [f.moof_bytes h, boxBytes_len rfl]

theorem LiveFragment.Ok.moof_lt {f : LiveFragment} (h : f.Ok) : f.one.moof.length + 4 < 2 ^ 31 := by
  have := h.data
  have := h.room
  omega

theorem LiveFragment.Ok.seg {f : LiveFragment} (h : f.Ok) : f.seg.Ok := by
  have hm := h.moof_lt
  rw [f.moof_length h.offset] at hm
  have ho : ∀ (l : List FragBox), (∀ x ∈ l, x ∈ f.others) → ∀ y ∈ l.map FragBox.parts, PlainType y.1 ∧ 8 + y.2.length < 2 ^ 32 ∧
      y.1 ∉ [tyTfhd, tyTfdt, tyTrun] := by
    intro l hl y hy
    obtain ⟨x, hx, rfl⟩ := List.mem_map.mp hy
    exact (h.others x (hl x hx)).2.2
  refine ⟨h.vf, h.seq, h.head, h.run, h.time, ?_, ?_, ?_, ?_, ?_, ?_, ?_, ?_, by omega⟩
  · intro x hx
    obtain ⟨h1, -, h2, -⟩ := h.front x hx
    exact ⟨h1, by omega⟩
  · intro x hx
    obtain ⟨h1, h2, -⟩ := ho f.a (fun x hx => by simp [LiveFragment.others, hx]) x hx
    exact ⟨h1, h2⟩
  · intro x hx
    obtain ⟨h1, h2, -⟩ := ho f.b (fun x hx => by simp [LiveFragment.others, hx]) x hx
    exact ⟨h1, h2⟩
  · exact ho f.p1 (fun x hx => by simp [LiveFragment.others, hx])
  · intro x hx
    obtain ⟨h1, h2, h3⟩ := ho f.p2 (fun x hx => by simp [LiveFragment.others, hx]) x hx
    simp only [List.mem_cons, not_or] at h3 ⊢
    exact ⟨h1, h2, h3.2.1, h3.2.2.1, by simp⟩
  · intro x hx
    obtain ⟨h1, h2, h3⟩ := ho f.q1 (fun x hx => by simp [LiveFragment.others, hx]) x hx
    simp only [List.mem_cons, not_or] at h3 ⊢
    exact ⟨h1, h2, h3.2.2.1, by simp⟩
  · intro x hx
    obtain ⟨h1, h2, -⟩ := ho f.q2 (fun x hx => by simp [LiveFragment.others, hx]) x hx
    exact ⟨h1, h2⟩
  · intro x hx
    obtain ⟨h1, -, h2⟩ := h.back x hx
    exact ⟨h1, h2⟩

theorem plain_not_fragment {ty : Bytes} (h : PlainType ty) : ty ∉ [tyMoof, tyTraf] := by
  simp only [List.mem_cons, List.not_mem_nil, or_false, not_or]
  exact ⟨plain_ne_container h moof_container, plain_ne_container h traf_container⟩

theorem withBoxes_ok {l : List (Bytes × Bytes)} {f : Forest} (hl : ∀ x ∈ l, PlainType x.1 ∧ 8 + x.2.length < 2 ^ 32)
    (hf : f.Ok [tyMoof, tyTraf]) : (Forest.withBoxes l f).Ok [tyMoof, tyTraf] := by
  induction l with
  | nil => exact hf
  | cons b bs ih =>
    obtain ⟨h1, h2⟩ := hl b (by simp)
    exact ⟨h1.1, plain_not_fragment h1, h2, ih (fun x hx => hl x (by simp [hx]))⟩

theorem FragSegment.Ok.forest {g : FragSegment} (h : g.Ok) : g.forest.Ok [tyMoof, tyTraf] := by
  obtain ⟨s1, s2, s3⟩ := g.traf_len h
  have hv := h.vf
  have p : ∀ {ty : Bytes}, ty ∈ [tyMfhd, tyTfhd, tyTfdt, tyTrun, tyMdat] → ty.length = 4 ∧ ty ∉ [tyMoof, tyTraf] := by
    intro ty ht
    have := plain_known ht
    exact ⟨this.1, plain_not_fragment this⟩
  refine withBoxes_ok h.front ⟨rfl, by simp, h.size, ⟨(p (by simp)).1, (p (by simp)).2, by simp [hv], withBoxes_ok h.a
    ⟨rfl, by simp, s1, ?_, withBoxes_ok h.b trivial⟩⟩, withBoxes_ok h.back trivial⟩
  refine withBoxes_ok (fun x hx => ⟨(h.p1 x hx).1, (h.p1 x hx).2.1⟩) ⟨(p (by simp)).1, (p (by simp)).2, s2,
    withBoxes_ok (fun x hx => ⟨(h.p2 x hx).1, (h.p2 x hx).2.1⟩) ⟨(p (by simp)).1, (p (by simp)).2, ?_,
    withBoxes_ok (fun x hx => ⟨(h.q1 x hx).1, (h.q1 x hx).2.1⟩) ⟨(p (by simp)).1, (p (by simp)).2, s3,
      withBoxes_ok h.q2 trivial⟩⟩⟩
  have := tfdtPayload_length g.wide g.f2 g.f1 g.f0 g.time
  omega

theorem LiveFragment.Ok.one {f : LiveFragment} (h : f.Ok) : f.one.Ok := by
  have hpre : ∀ x ∈ f.one.pre, x.Ok := by
    intro x hx
    simp only [LiveFragment.one, List.mem_append, List.mem_cons] at hx
    rcases hx with hx | rfl | hx
    · exact (h.others x (by simp [LiveFragment.others, hx])).1
    · exact ⟨rfl, by decide, fun he => absurd he (by decide)⟩
    · exact (h.others x (by simp [LiveFragment.others, hx])).1
  have hpost : ∀ x ∈ f.one.post, x.Ok := by
    intro x hx
    simp only [LiveFragment.one, List.mem_append, List.mem_cons] at hx
    rcases hx with hx | rfl | hx
    · exact (h.others x (by simp [LiveFragment.others, hx])).1
    · have := h.offset
      refine ⟨?_, beBytes_length 4 _, h.run.offset.1, h.run.offset.2⟩
      simpa [bitSet] using this
    · exact (h.others x (by simp [LiveFragment.others, hx])).1
  refine ⟨h.vf, beBytes_length 4 _, ?_, ?_, ?_, hpre, hpost, ?_, h.time, ?_⟩
  · intro x hx
    obtain ⟨h1, h2, -⟩ := h.front x hx
    have := plain_not_fragment h1
    simp only [List.mem_cons, List.not_mem_nil, or_false, not_or] at this ⊢
    exact ⟨this.1, this.2, h2⟩
  · intro x hx
    obtain ⟨h1, h2, -⟩ := h.back x hx
    have := plain_not_fragment h1
    simp only [List.mem_cons, List.not_mem_nil, or_false, not_or] at this h2 ⊢
    exact ⟨this.1, this.2, h2.1, h2.2⟩
  · intro x hx; exact (h.others x (by simp [LiveFragment.others, LiveFragment.one] at hx ⊢; simp [hx])).1
  · intro x hx; exact (h.others x (by simp [LiveFragment.others, LiveFragment.one] at hx ⊢; simp [hx])).1
  · rw [← f.forest h.offset]
    exact h.seg.forest

theorem LiveFragment.Ok.timed {f : LiveFragment} (h : f.Ok) : f.timed.Ok := by
  have hl : ∀ (b : Bool) (l : Bytes), l.length = 4 → (field b l).length = if b then 4 else 0 := by
    intro b l hl; cases b <;> simp [field, hl]
  refine ⟨h.one, ⟨h.base, beBytes_length 4 _, hl _ _ (beBytes_length 4 _), ?_, ?_⟩,
    ⟨?_, ?_, hl _ _ (beBytes_length 4 _), ?_⟩, ?_, ?_, rfl, rfl, ?_⟩
  · show (if bitSet f.head.f0 3 then some f.head.dur else none).isSome = _
    cases h3 : bitSet f.head.f0 3 <;> simp [LiveFragment.timed, h3]
  · intro d hd
    have hd : (if bitSet f.head.f0 3 then some f.head.dur else none) = some d := hd
    split at hd
    · cases hd; exact h.head.dur
    · cases hd
  · show (f.run.rows.map _).length < 2 ^ 32
    rw [List.length_map]; exact h.run.count
  · show (signedBytes f.run.offset).length = if bitSet f.run.f0 0 then 4 else 0
    rw [h.offset]; exact beBytes_length 4 _
  · intro x hx
    obtain ⟨y, hy, rfl⟩ := List.mem_map.mp hx
    refine ⟨(h.run.rows y hy).1, ?_⟩
    simp only [List.length_append, hl _ _ (beBytes_length 4 _)]
    rw [hl _ _ (show (signedBytes y.off).length = 4 from beBytes_length 4 _)]
    rfl
  · show (tyTfhd, f.head.payload) = (tyTfhd, TrackHeader.payload _)
    congr 1
    simp only [LiveFragment.timed, TrackHeader.payload, FragHeader.payload, h.base]
    cases h3 : bitSet f.head.f0 3 <;> simp [field]
  · show f.runBox.parts = _
    rw [f.runBox_parts h.offset]
    congr 1
    have e : ∀ l : List RunRow, (l.map fun x => (x.dur, field (bitSet f.run.f1 1) (beBytes 4 x.size) ++
               field (bitSet f.run.f1 2) (beBytes 4 x.flags) ++ field (bitSet f.run.f1 3) (signedBytes x.off))).flatMap
          f.timed.run.rowBytes = l.flatMap f.run.rowBytes := by
      intro l
      induction l with
      | nil => rfl
      | cons x l ih =>
        rw [List.map_cons, List.flatMap_cons, List.flatMap_cons, ih]
        congr 1
        simp [Run.rowBytes, SampleRun.rowBytes, LiveFragment.timed, field]
    have e' := e f.run.rows
    simp only [Run.payload, SampleRun.payload]
    show _ = [f.run.v, f.run.f2, f.run.f1, f.run.f0] ++ beBytes 4 (f.run.rows.map _).length ++ signedBytes f.run.offset ++
      field (bitSet f.run.f0 2) (beBytes 4 f.run.first) ++ (f.run.rows.map fun x => (x.dur, _)).flatMap f.timed.run.rowBytes
    rw [e', List.length_map, h.offset]
    rfl
  · intro x hx
    have hx' : x ∈ f.others := hx
    have := (h.others x hx').2.2.2.2
    simp only [List.mem_cons, List.not_mem_nil, or_false, not_or] at this ⊢
    exact ⟨this.2.2, this.1⟩

/-! ### The segment in the live session -/

/-- The segment as it is sent: other boxes before it, number `n`, decode time `new`, positions moved by `d`. -/
def LiveFragment.live (f : LiveFragment) (front : List (Bytes × Bytes)) (n new d : Int) : LiveFragment :=
  { f with front := front, seq := n.toNat, wide := f.wide || decide (2 ^ 32 ≤ new), time := new.toNat
           q1 := f.q1.map (FragBox.shift d), run := { f.run with offset := f.run.offset + d }
           q2 := f.q2.map (FragBox.shift d), b := f.b.map (FragBox.shift d) }

theorem LiveFragment.moved (f : LiveFragment) (front : List (Bytes × Bytes)) (n new d : Int) :
    (f.one.moved n new d).moof = (f.live front n new d).one.moof := by
  have e : ((f.runBox).shift d) = (f.live front n new d).runBox := rfl
  simp only [OneFragment.moof, OneFragment.moved, LiveFragment.one, List.map_append, List.map_cons, e]
  rfl

theorem shift_parts (d : Int) (x : FragBox) :
    (x.shift d).parts.1 = x.parts.1 ∧ (x.shift d).parts.2.length = x.parts.2.length := by
  have h := shift_length d x
  have h1 : (x.shift d).parts.1 = x.parts.1 := by cases x <;> rfl
  refine ⟨h1, ?_⟩
  simp only [FragBox.bytes, boxBytes_length, h1] at h
  omega

theorem LiveFragment.Ok.live {f : LiveFragment} (h : f.Ok) {front : List (Bytes × Bytes)} {n new d : Int}
    (hn0 : 0 ≤ n) (hn1 : n < 2 ^ 32) (ht0 : 0 ≤ new) (ht1 : new < 2 ^ 64) (hd : d = growth f.wide new)
    (hfront : ∀ x ∈ front, PlainType x.1 ∧ 8 + x.2.length < 2 ^ 32) : (f.live front n new d).seg.Ok := by
  have hd4 : 0 ≤ d ∧ d ≤ 4 := by rw [hd]; unfold growth; split <;> omega
  have hlen : (f.live front n new d).one.moof.length = f.one.moof.length + d.toNat := by
    rw [← f.moved front, hd]
    exact moved_length f.one h.one n new
  have hm := h.moof_lt
  have hsz := (f.live front n new d).moof_length h.offset
  have ho : ∀ (l : List FragBox), (∀ x ∈ l, x ∈ f.others) → ∀ y ∈ l.map FragBox.parts, PlainType y.1 ∧ 8 + y.2.length < 2 ^ 32 ∧
      y.1 ∉ [tyTfhd, tyTfdt, tyTrun] := by
    intro l hl y hy
    obtain ⟨x, hx, rfl⟩ := List.mem_map.mp hy
    exact (h.others x (hl x hx)).2.2
  have hs : ∀ (l : List FragBox), (∀ x ∈ l, x ∈ f.others) → ∀ y ∈ (l.map (FragBox.shift d)).map FragBox.parts,
      PlainType y.1 ∧ 8 + y.2.length < 2 ^ 32 ∧ y.1 ∉ [tyTfhd, tyTfdt, tyTrun] := by
    intro l hl y hy
    rw [List.map_map] at hy
    obtain ⟨x, hx, rfl⟩ := List.mem_map.mp hy
    have := (h.others x (hl x hx)).2.2
    rw [Function.comp, (shift_parts d x).1, (shift_parts d x).2]
    exact this
  refine ⟨h.vf, by show n.toNat < 2 ^ 32; omega, h.head, ⟨h.run.count, ?_, h.run.first, h.run.rows⟩, ?_, hfront, ?_, ?_, ?_, ?_,
    ?_, ?_, ?_, by omega⟩
  · have r1 := h.data
    have r2 := h.room
    show -2 ^ 31 ≤ f.run.offset + d ∧ f.run.offset + d < 2 ^ 31
    omega
  · show new.toNat < if (f.wide || decide (2 ^ 32 ≤ new)) then 2 ^ 64 else 2 ^ 32
    by_cases hw : (2 ^ 32 : Int) ≤ new
    · simp only [hw, decide_true, Bool.or_true, if_true]; omega
    · simp only [hw, decide_false, Bool.or_false]
      split <;> omega
  · intro x hx
    obtain ⟨h1, h2, -⟩ := ho f.a (fun x hx => by simp [LiveFragment.others, hx]) x hx
    exact ⟨h1, h2⟩
  · intro x hx
    obtain ⟨h1, h2, -⟩ := hs f.b (fun x hx => by simp [LiveFragment.others, hx]) x hx
    exact ⟨h1, h2⟩
  · exact ho f.p1 (fun x hx => by simp [LiveFragment.others, hx])
  · intro x hx
    obtain ⟨h1, h2, h3⟩ := ho f.p2 (fun x hx => by simp [LiveFragment.others, hx]) x hx
    simp only [List.mem_cons, not_or] at h3 ⊢
    exact ⟨h1, h2, h3.2.1, h3.2.2.1, by simp⟩
  · intro x hx
    obtain ⟨h1, h2, h3⟩ := hs f.q1 (fun x hx => by simp [LiveFragment.others, hx]) x hx
    simp only [List.mem_cons, not_or] at h3 ⊢
    exact ⟨h1, h2, h3.2.2.1, by simp⟩
  · intro x hx
    obtain ⟨h1, h2, -⟩ := hs f.q2 (fun x hx => by simp [LiveFragment.others, hx]) x hx
    exact ⟨h1, h2⟩
  · intro x hx
    obtain ⟨h1, -, h2⟩ := h.back x hx
    exact ⟨h1, h2⟩

/-- The samples `ticks` later. -/
def Sample.later (ticks : Int) (s : Sample) : Sample := { s with time := (s.time + ticks).toNat }

theorem runSamples_later (t : FragHeader) (r : SampleRun) (x : Trex) (media : Bytes) (o ticks : Int) (rows : List RunRow) :
    ∀ (time start : Nat), 0 ≤ (time : Int) + ticks →
      runSamples t { r with offset := o } x media rows ((time : Int) + ticks).toNat start =
        (runSamples t r x media rows time start).map (Sample.later ticks) := by
  induction rows with
  | nil => intro _ _ _; rfl
  | cons row rows ih =>
    intro time start h
    rw [runSamples, runSamples, List.map_cons]
    have e1 : sampleDur t { r with offset := o } x row = sampleDur t r x row := rfl
    have e2 : sampleSize t { r with offset := o } x row = sampleSize t r x row := rfl
    rw [e1, e2]
    congr 1
    rw [← ih (time + sampleDur t r x row) (start + sampleSize t r x row) (by omega)]
    congr 1
    omega

theorem LiveFragment.media_eq {f : LiveFragment} (h : f.Ok) :
    sliceFrom f.seg.bytes f.seg.mediaPos = (boxesBytes f.back).drop (f.run.offset - f.one.moof.length).toNat := by
  have hp : f.seg.mediaPos = ((boxesBytes f.front).length : Int) + f.run.offset := by
    have e1 : bitSet f.seg.head.f0 0 = false := h.base
    have e2 : bitSet f.seg.run.f0 0 = true := h.offset
    unfold FragSegment.mediaPos
    rw [e1, e2]
    rfl
  have hd := h.data
  rw [hp, sliceFrom, if_pos (by omega), f.bytes_eq h.offset, OneFragment.bytes, List.append_assoc]
  have e : (((boxesBytes f.front).length : Int) + f.run.offset).toNat =
      (boxesBytes f.one.front).length + (f.one.moof.length + (f.run.offset - f.one.moof.length).toNat) := by
    show _ = (boxesBytes f.front).length + _
    omega
  rw [e, ← List.drop_drop, List.drop_left, ← List.drop_drop, List.drop_left]
  rfl

/-- The segment that is sent has the stored samples, at their times in the live session. -/
theorem LiveFragment.Ok.samples {f : LiveFragment} (h : f.Ok) {front : List (Bytes × Bytes)} {n ticks d : Int}
    (ht : 0 ≤ (f.time : Int) + ticks) (hd : d = growth f.wide ((f.time : Int) + ticks)) (trex : Trex) :
    (f.live front n ((f.time : Int) + ticks) d).seg.samples trex = (f.seg.samples trex).map (Sample.later ticks) := by
  have hd4 : 0 ≤ d ∧ d ≤ 4 := by rw [hd]; unfold growth; split <;> omega
  have hlen : (f.live front n ((f.time : Int) + ticks) d).one.moof.length = f.one.moof.length + d.toNat := by
    rw [← f.moved front, hd]
    exact moved_length f.one h.one n _
  have hm : sliceFrom (f.live front n ((f.time : Int) + ticks) d).seg.bytes (f.live front n ((f.time : Int) + ticks) d).seg.mediaPos =
      sliceFrom f.seg.bytes f.seg.mediaPos := by
    rw [f.media_eq h]
    have hp : (f.live front n ((f.time : Int) + ticks) d).seg.mediaPos = ((boxesBytes front).length : Int) + (f.run.offset + d) := by
      have e1 : bitSet (f.live front n ((f.time : Int) + ticks) d).seg.head.f0 0 = false := h.base
      have e2 : bitSet (f.live front n ((f.time : Int) + ticks) d).seg.run.f0 0 = true := h.offset
      unfold FragSegment.mediaPos
      rw [e1, e2]
      rfl
    have hdd := h.data
    have hb := (f.live front n ((f.time : Int) + ticks) d).bytes_eq
      (show bitSet (f.live front n ((f.time : Int) + ticks) d).run.f0 0 = true from h.offset)
    rw [hp, sliceFrom, if_pos (by omega), hb, OneFragment.bytes, List.append_assoc]
    have e : (((boxesBytes front).length : Int) + (f.run.offset + d)).toNat =
        (boxesBytes (f.live front n ((f.time : Int) + ticks) d).one.front).length +
          ((f.live front n ((f.time : Int) + ticks) d).one.moof.length + (f.run.offset - f.one.moof.length).toNat) := by
      rw [hlen]
      show _ = (boxesBytes front).length + _
      omega
    rw [e, ← List.drop_drop, List.drop_left, ← List.drop_drop, List.drop_left]
    rfl
  unfold FragSegment.samples
  rw [hm]
  exact runSamples_later f.head f.run trex _ _ _ _ _ _ ht

/-! ### The boxes before the fragment -/

/-- Some plain boxes of types that satisfy `P`. -/
def IsBoxes (P : Bytes → Prop) (b : Bytes) : Prop :=
  ∃ l : List (Bytes × Bytes), b = boxesBytes l ∧ ∀ x ∈ l, (PlainType x.1 ∧ 8 + x.2.length < 2 ^ 32) ∧ P x.1

theorem IsBoxes.nil {P : Bytes → Prop} : IsBoxes P [] := ⟨[], rfl, by simp⟩

theorem IsBoxes.append {P : Bytes → Prop} {a b : Bytes} (ha : IsBoxes P a) (hb : IsBoxes P b) : IsBoxes P (a ++ b) := by
  obtain ⟨l, rfl, hl⟩ := ha
  obtain ⟨m, rfl, hm⟩ := hb
  refine ⟨l ++ m, by simp [boxesBytes], ?_⟩
  intro x hx
  rcases List.mem_append.mp hx with h | h
  · exact hl x h
  · exact hm x h

theorem IsBoxes.box {P : Bytes → Prop} {ty p : Bytes} (h : PlainType ty) (hp : 8 + p.length < 2 ^ 32) (hP : P ty) :
    IsBoxes P (boxBytes ty p) :=
  ⟨[(ty, p)], by simp [boxesBytes], by simp only [List.mem_singleton, forall_eq]; exact ⟨⟨h, hp⟩, hP⟩⟩

abbrev tyEmsg : Bytes := [101, 109, 115, 103]

theorem plain_top {ty : Bytes} (h : ty ∈ [tyStyp, tySidx, tyEmsg]) : PlainType ty := by
  simp only [List.mem_cons, List.not_mem_nil, or_false] at h
  rcases h with rfl | rfl | rfl <;> exact ⟨rfl, by decide +kernel, by decide +kernel, by decide +kernel⟩

theorem uint32ToStr_inv {v : Int} {b : Bytes} (h : uint32ToStr v = .ok b) : 0 ≤ v ∧ v < 2 ^ 32 ∧ b = beBytes 4 v.toNat := by
  unfold uint32ToStr at h
  split at h
  · cases h; exact ⟨by omega, by omega, rfl⟩
  · cases h

theorem emsg_plain {P : Bytes → Prop} (hP : P tyEmsg) {e : Emsg} {b : Bytes} (h : e.getBox = .ok b) (h1 : Ascii e.scheme)
    (h2 : Ascii e.value) (h3 : Ascii e.message) : IsBoxes P b := by
  rw [Emsg.getBox] at h
  simp only [Py.bind_ok, Py.pure_ok] at h
  obtain ⟨p0, g0, p5, g5, p6, g6, p7, g7, p8, g8, rfl⟩ := h
  obtain ⟨z0, z1, rfl⟩ := uint32ToStr_inv g0
  obtain ⟨-, -, rfl⟩ := uint32ToStr_inv g5
  obtain ⟨-, -, rfl⟩ := uint32ToStr_inv g6
  obtain ⟨-, -, rfl⟩ := uint32ToStr_inv g7
  obtain ⟨-, -, rfl⟩ := uint32ToStr_inv g8
  have hlen : ([0, 0, 0, 0] ++ (utf8 e.scheme ++ [0]) ++
    (utf8 e.value ++ [0]) ++ beBytes 4 e.timescale.toNat ++ beBytes 4 e.delta.toNat ++ beBytes 4 e.duration.toNat ++
      beBytes 4 e.id.toNat ++ utf8 e.message : Bytes).length = 22 + e.scheme.length + e.value.length + e.message.length := by
    simp only [List.length_append, utf8_length h1, utf8_length h2, utf8_length h3, beBytes_length, List.length_cons,
      List.length_nil]
    omega
  have hp := IsBoxes.box (ty := tyEmsg) (plain_top (by simp)) (p := [0, 0, 0, 0] ++ (utf8 e.scheme ++ [0]) ++
    (utf8 e.value ++ [0]) ++ beBytes 4 e.timescale.toNat ++ beBytes 4 e.delta.toNat ++ beBytes 4 e.duration.toNat ++
      beBytes 4 e.id.toNat ++ utf8 e.message) (by rw [hlen]; omega) hP
  rw [boxBytes, hlen] at hp
  have e1 : ((12 + 4 * 4 + e.scheme.length + 1 + e.value.length + 1 + e.message.length : Nat) : Int).toNat =
      8 + (22 + e.scheme.length + e.value.length + e.message.length) := by omega
  convert hp using 1
  rw [← e1]
  simp only [List.append_assoc]

theorem ascii_append {a b : Text} (ha : Ascii a) (hb : Ascii b) : Ascii (a ++ b) := by
  intro c hc
  rcases List.mem_append.mp hc with h | h
  · exact ha c h
  · exact hb c h

theorem intText_ascii (n : Int) : Ascii (intText n) := by
  have hd : ∀ c, IsDigit c → c.toNat < 128 := by
    intro c hc
    obtain ⟨d, h1, rfl⟩ := hc
    exact (show ∀ d : Fin 10, (digitChar d).toNat < 128 by decide) ⟨d, h1⟩
  intro c hc
  unfold intText at hc
  split at hc
  · rcases List.mem_cons.mp hc with rfl | h
    · decide
    · exact hd c (natText_digits _ c h)
  · exact hd c (natText_digits _ c hc)

theorem insertMessage_ascii (a b d : Int) : Ascii (insertMessage a b d) := by
  unfold insertMessage
  refine ascii_append (ascii_append (ascii_append (ascii_append (ascii_append (ascii_append (ascii_append (ascii_append
    (ascii_append ?_ ?_) (intText_ascii _)) ?_) ?_) ?_) (intText_ascii _)) ?_) ?_) ?_
  all_goals first | (unfold Ascii; decide +kernel) | skip
  split
  · intro c hc; cases hc
  · refine ascii_append (ascii_append ?_ (intText_ascii _)) ?_ <;> (unfold Ascii; decide +kernel)

theorem scte_plain {P : Bytes → Prop} (hP : P tyEmsg) {c : MfCfg} {b : Bytes} (h : scteOfSegment c = .ok b) :
    IsBoxes P b := by
  unfold scteOfSegment at h
  split at h
  · split at h
    · cases h; exact .nil
    · cases h
  · unfold scteBox at h
    split at h
    · cases h
    · cases h; exact .nil
    · rename_i e he
      refine emsg_plain hP h ?_ ?_ ?_
      all_goals
        unfold scteOf at he
        split at he
        · cases he
        · dsimp only at he
          split at he
          · cases he
          · split at he
            · cases he
            · unfold scte35Emsg at he
              rw [if_neg (by decide)] at he
              cases he
              first
                | exact insertMessage_ascii _ _ _
                | (show Ascii scteScheme; unfold Ascii; decide +kernel)
                | (show Ascii "999".toList; unfold Ascii; decide +kernel)

theorem lastBox_plain {P : Bytes → Prop} (hP : P tyEmsg) {c : MfCfg} {b : Bytes} (h : lastBox c = .ok b)
    (hs : ∀ m, c.emsgLast = some m → Ascii m) : IsBoxes P b := by
  unfold lastBox at h
  split at h
  · cases h; exact .nil
  · rename_i m hm
    exact emsg_plain hP h (by show Ascii "urn:mpeg:dash:event:2012".toList; unfold Ascii; decide +kernel)
      (by show Ascii "1".toList; unfold Ascii; decide +kernel) (hs m hm)

theorem indexBox_plain {P : Bytes → Prop} (hP : P tySidx) {c : MfCfg} {s : MfState} {size : Nat} {b : Bytes}
    (h : indexBox c s size = .ok b) : IsBoxes P b := by
  unfold indexBox at h
  split at h
  · unfold createSidx at h
    split at h
    · simp only [Py.bind_ok, Py.pure_ok] at h
      obtain ⟨b1, h1, b2, h2, b3, h3, b4, h4, b5, h5, b6, h6, rfl⟩ := h
      obtain ⟨-, -, rfl⟩ := uint32ToStr_inv h1
      obtain ⟨-, -, rfl⟩ := uint32ToStr_inv h2
      obtain ⟨-, -, rfl⟩ := uint32ToStr_inv h5
      obtain ⟨-, -, rfl⟩ := uint32ToStr_inv h6
      have e3 : b3.length = 8 := by
        unfold uint64ToStr at h3
        split at h3
        · cases h3; exact beBytes_length 8 _
        · cases h3
      have e4 : b4.length = 8 := by
        unfold uint64ToStr at h4
        split at h4
        · cases h4; exact beBytes_length 8 _
        · cases h4
      rename_i ts t dd _ _ _
      have hp := IsBoxes.box (ty := tySidx) (plain_top (by simp)) (p := [1, 0, 0, 0] ++ [0, 0, 0, 1] ++ beBytes 4 ts.toNat ++
        b3 ++ b4 ++ [0, 0, 0, 1] ++ beBytes 4 (size : Int).toNat ++ beBytes 4 dd.toNat ++ [0x90, 0, 0, 0])
        (by simp [e3, e4]) hP
      rw [boxBytes] at hp
      have hl : ([1, 0, 0, 0] ++ [0, 0, 0, 1] ++ beBytes 4 ts.toNat ++
        b3 ++ b4 ++ [0, 0, 0, 1] ++ beBytes 4 (size : Int).toNat ++ beBytes 4 dd.toNat ++ [0x90, 0, 0, 0] : Bytes).length = 44 := by
        simp [e3, e4]
      rw [hl] at hp
      convert hp using 1
      simp
    · cases h
  · cases h; exact .nil

/-- Groups of four bytes. -/
theorem quads : ∀ (n : Nat) (b : Bytes), b.length = 4 * n → ∃ l : List Bytes, b = l.flatten ∧ l.length = n ∧ ∀ x ∈ l, x.length = 4 := by
  intro n
  induction n with
  | zero => intro b h; exact ⟨[], List.length_eq_zero_iff.mp (by omega), rfl, by simp⟩
  | succ n ih =>
    intro b h
    obtain ⟨l, h1, h2, h3⟩ := ih (b.drop 4) (by rw [List.length_drop]; omega)
    refine ⟨b.take 4 :: l, by rw [List.flatten_cons, ← h1, List.take_append_drop], by simp [h2], ?_⟩
    intro x hx
    rcases List.mem_cons.mp hx with rfl | hx
    · rw [List.length_take]; omega
    · exact h3 x hx

theorem quads_length {l : List Bytes} (h : ∀ x ∈ l, x.length = 4) : l.flatten.length = 4 * l.length := by
  induction l with
  | nil => rfl
  | cons x l ih =>
    rw [List.flatten_cons, List.length_append, ih (fun y hy => h y (by simp [hy])), h x (by simp), List.length_cons]
    omega

theorem front_plain {c : MfCfg} {l fr : List (Bytes × Bytes)} (h : FrontSteps c l fr)
    (hl : ∀ x ∈ l, PlainType x.1 ∧ x.1 ≠ tyMdat ∧ 16 + x.2.length < 2 ^ 32 ∧ (x.1 = tyStyp → 4 ∣ x.2.length)) :
    IsBoxes (fun _ => True) (fr.map Prod.snd).flatten := by
  induction h with
  | nil => exact .nil
  | @cons b o bs os hbo _ ih =>
    rw [List.map_cons, List.flatten_cons]
    refine .append ?_ (ih fun x hx => hl x (by simp [hx]))
    obtain ⟨-, h1, h2, h3⟩ := hbo
    obtain ⟨g1, -, g2, g3⟩ := hl b (by simp)
    by_cases hs : b.1 = tyStyp
    · obtain ⟨n, hn⟩ := g3 hs
      obtain ⟨brands, e1, e2, e3⟩ := quads n b.2 hn
      have h1 := h1 hs
      rw [hs, e1] at h1
      cases hsc : scteOfSegment c with
      | error e =>
        unfold processStyp at h1
        rw [hsc] at h1
        split at h1
        · cases h1
        · split at h1 <;> cases h1
      | ok e =>
        rw [processStyp_eq c brands e3 (by omega) e hsc] at h1
        rw [← Except.ok.inj h1]
        refine .append (.box (plain_top (by simp)) ?_ trivial) (scte_plain trivial hsc)
        rw [quads_length]
        · have := List.length_filter_le (fun b => decide (b ≠ lmsg)) brands
          rw [List.length_append]
          split <;> simp only [List.length_cons, List.length_nil] <;> omega
        · intro x hx
          rcases List.mem_append.mp hx with hx | hx
          · exact e3 x (List.mem_filter.mp hx).1
          · split at hx
            · rw [List.mem_singleton.mp hx]; rfl
            · cases hx
    · by_cases hx : b.1 = tySidx
      · rw [h2 hx]; exact .nil
      · rw [h3 hs hx]
        exact .box g1 (by omega) trivial

/-! ### The filter and the chunker -/

/-- What the filter returns is the segment at its place in the live session. -/
theorem LiveFragment.Ok.filtered {f : LiveFragment} (h : f.Ok) {c : MfCfg} {n ts : Int} (hn : c.segNr = some n)
    (hts : c.timescale = some ts) (hm : ∀ m, c.emsgLast = some m → Ascii m) {y : Bytes × MfState}
    (hy : filterMedia c f.seg.bytes = .ok y) :
    ∃ front d, 0 ≤ n ∧ n < 2 ^ 32 ∧ 0 ≤ (f.time : Int) + c.offset * ts ∧ (f.time : Int) + c.offset * ts < 2 ^ 64 ∧
      d = growth f.wide ((f.time : Int) + c.offset * ts) ∧
      y.1 = (f.live front n ((f.time : Int) + c.offset * ts) d).seg.bytes ∧
      (f.live front n ((f.time : Int) + c.offset * ts) d).seg.Ok := by
  rw [f.bytes_eq h.offset] at hy
  obtain ⟨g1, g2, g3, g4, -, d, front, size, emsg, sidx, g5, g6, g7, g8, g9, -, g10, -⟩ :=
    C11_segment c n ts hn hts f.one h.one y.1 y.2 hy
  have g3 : 0 ≤ (f.time : Int) + c.offset * ts := g3
  have g4 : (f.time : Int) + c.offset * ts < 2 ^ 64 := g4
  have g6 : d = 4 ↔ f.wide = false ∧ 2 ^ 32 ≤ (f.time : Int) + c.offset * ts := g6
  have hd : (d : Int) = growth f.wide ((f.time : Int) + c.offset * ts) := by
    unfold growth
    by_cases hw : f.wide = false ∧ 2 ^ 32 ≤ (f.time : Int) + c.offset * ts
    · rw [if_pos ⟨hw.1, hw.2⟩, g6.mpr hw]; rfl
    · rw [if_neg (fun h' => hw ⟨h'.1, h'.2⟩)]
      rcases g5 with h0 | h4
      · rw [h0]; rfl
      · exact absurd (g6.mp h4) hw
  obtain ⟨l, e, hl⟩ := ((front_plain g7 h.front).append (lastBox_plain trivial g8 hm)).append (indexBox_plain trivial g9)
  refine ⟨l, d, g1, g2, g3, g4, hd, ?_, h.live g1 g2 g3 g4 hd fun x hx => (hl x hx).1⟩
  rw [g10, e, f.moved l]
  have hb := (f.live l n ((f.time : Int) + c.offset * ts) d).bytes_eq (show _ = _ from h.offset)
  rw [hb]
  rfl

end Verif
