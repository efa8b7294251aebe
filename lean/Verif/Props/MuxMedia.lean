import Verif.Props.MuxInit
import Verif.Lemmas.DecodeSegment
/-
C15: multiplexed media segments.
-/
namespace Verif

/-- A run with data offset, as content of a trun box: version and flags with the offset bit, the
sample count, the offset, the rest. -/
structure OffsetRun where
  v : UInt8
  f2 : UInt8
  f1 : UInt8
  f0 : UInt8
  count : Nat
  offset : Nat
  rest : Bytes

def OffsetRun.payload (r : OffsetRun) : Bytes :=
  [r.v, r.f2, r.f1, r.f0] ++ beBytes 4 r.count ++ beBytes 4 r.offset ++ r.rest

/-- A media segment with one movie fragment that consists of its header and one track fragment
with one run, followed by the media data. -/
structure TrackSegment where
  front1 : List (Bytes × Bytes)
  styp : Bytes
  front2 : List (Bytes × Bytes)
  mfhd : Bytes
  pre : List (Bytes × Bytes)
  run : OffsetRun
  post : List (Bytes × Bytes)
  media : Bytes
  back : List (Bytes × Bytes)

/-- Content of the track fragment. -/
def TrackSegment.traf (g : TrackSegment) : Bytes :=
  boxesBytes g.pre ++ (boxBytes tyTrun g.run.payload ++ boxesBytes g.post)

/-- Content of the movie fragment. -/
def TrackSegment.moof (g : TrackSegment) : Bytes :=
  boxBytes tyMfhd g.mfhd ++ boxBytes tyTraf g.traf

def TrackSegment.bytes (g : TrackSegment) : Bytes :=
  boxesBytes g.front1 ++ (boxBytes tyStyp g.styp ++ (boxesBytes g.front2 ++
    (boxBytes tyMoof g.moof ++ (boxBytes tyMdat g.media ++ boxesBytes g.back))))

/-- Where the movie fragment starts. -/
def TrackSegment.moofPos (g : TrackSegment) : Nat :=
  (boxesBytes g.front1).length + (boxBytes tyStyp g.styp).length + (boxesBytes g.front2).length

/-- A box that can stand beside the ones that matter. -/
def BesideBox (x : Bytes × Bytes) : Prop :=
  x.1.length = 4 ∧ 8 + x.2.length < 2 ^ 32 ∧
  x.1 ∉ [tyStyp, tyMoof, tyMdat, tyMfhd, tyTraf, tyTrun]

structure TrackSegment.Ok (g : TrackSegment) : Prop where
  front1 : ∀ x ∈ g.front1, BesideBox x
  front2 : ∀ x ∈ g.front2, BesideBox x
  pre : ∀ x ∈ g.pre, BesideBox x
  post : ∀ x ∈ g.post, BesideBox x
  back : ∀ x ∈ g.back, BesideBox x
  styp : 8 + g.styp.length < 2 ^ 32
  moof : 8 + g.moof.length < 2 ^ 32
  media : 8 + g.media.length < 2 ^ 32
  flag : bitSet g.run.f0 0 = true
  offset : g.run.offset < 2 ^ 32

/-- The loop over the boxes ends with this result, whatever (sufficient) fuel it gets. -/
def Runs (visit : BoxType → Bytes → Nat → MediaParts → Py MediaParts) (data : Bytes) (pos : Nat)
    (s : MediaParts) (r : Py MediaParts) : Prop :=
  ∀ n, data.length ≤ n → seeLoop visit n data pos s = r

section
variable {visit : BoxType → Bytes → Nat → MediaParts → Py MediaParts}

theorem runs_nil (pos : Nat) (s : MediaParts) : Runs visit [] pos s (.ok s) := by
  intro n _
  cases n <;> rfl

theorem runs_box {ty p rest : Bytes} {pos : Nat} {s s' : MediaParts} {r : Py MediaParts}
    (ht : ty.length = 4) (hp : 8 + p.length < 2 ^ 32)
    (hv : visit ty (boxBytes ty p) pos s = .ok s') (hr : Runs visit rest (pos + (8 + p.length)) s' r) :
    Runs visit (boxBytes ty p ++ rest) pos s r := by
  intro n hn
  have hl := boxBytes_len ht p
  have e1 : strToUint32 (((boxBytes ty p ++ rest).take 8).take 4) = .ok (8 + p.length) := by
    have : ((boxBytes ty p ++ rest).take 8).take 4 = beBytes 4 (8 + p.length) := by
      rw [List.take_take]
      unfold boxBytes
      simp only [List.append_assoc]
      exact List.take_left' (by simp)
    rw [this, strToUint32_four (by simp), beVal_beBytes_of_lt (by omega)]
  have e2 : slice (boxBytes ty p ++ rest) 4 8 = ty := by
    have h := at_intro (beBytes 4 (8 + p.length)) ty (p ++ rest)
    unfold At at h
    rw [beBytes_length, ht] at h
    unfold boxBytes
    simp only [List.append_assoc]
    exact h
  have e3 : (boxBytes ty p ++ rest).take (8 + p.length) = boxBytes ty p := List.take_left' hl
  have e4 : (boxBytes ty p ++ rest).drop (8 + p.length) = rest := List.drop_left' hl
  have hlen : (boxBytes ty p ++ rest).length = 8 + p.length + rest.length := by
    rw [List.length_append, hl]
  generalize boxBytes ty p ++ rest = data at *
  cases data with
  | nil => simp at hlen; omega
  | cons b t =>
    cases n with
    | zero => simp at hn
    | succ n =>
      rw [seeLoop, e1]
      simp only
      rw [e2, e3, hv]
      simp only
      rw [e4]
      apply hr
      omega

theorem runs_last {ty p : Bytes} {pos : Nat} {s s' : MediaParts} (ht : ty.length = 4)
    (hp : 8 + p.length < 2 ^ 32) (hv : visit ty (boxBytes ty p) pos s = .ok s') :
    Runs visit (boxBytes ty p) pos s (.ok s') := by
  have := runs_box (rest := []) ht hp hv (runs_nil _ _)
  rwa [List.append_nil] at this

theorem runs_skip {l : List (Bytes × Bytes)} {rest : Bytes} {s : MediaParts} {r : Py MediaParts}
    (hl : ∀ x ∈ l, x.1.length = 4 ∧ 8 + x.2.length < 2 ^ 32 ∧
      ∀ pos, visit x.1 (boxBytes x.1 x.2) pos s = .ok s) :
    ∀ pos, Runs visit rest (pos + (boxesBytes l).length) s r →
      Runs visit (boxesBytes l ++ rest) pos s r := by
  induction l with
  | nil => intro pos h; simpa [boxesBytes] using h
  | cons x l ih =>
    intro pos h
    obtain ⟨h1, h2, h3⟩ := hl x (by simp)
    have e : boxesBytes (x :: l) ++ rest = boxBytes x.1 x.2 ++ (boxesBytes l ++ rest) := by
      simp [boxesBytes]
    rw [e]
    refine runs_box h1 h2 (h3 pos) (ih (fun y hy => hl y (by simp [hy])) _ ?_)
    have e2 : (boxesBytes (x :: l)).length = (8 + x.2.length) + (boxesBytes l).length := by
      simp [boxesBytes, boxBytes_len h1]
    rw [e2, ← Nat.add_assoc] at h
    exact h

end

theorem seeBox_beside {x : Bytes × Bytes} (h : BesideBox x) (pos : Nat) (s : MediaParts) :
    seeBox x.1 (boxBytes x.1 x.2) pos s = .ok s := by
  have := h.2.2
  simp only [List.mem_cons, List.not_mem_nil, or_false, not_or] at this
  obtain ⟨h1, h2, h3, h4, h5, h6⟩ := this
  unfold seeBox
  rw [if_neg h1, if_neg h2, if_neg h3, if_neg h4, if_neg h5, if_neg h6]

theorem seeTop_beside {x : Bytes × Bytes} (h : BesideBox x) (pos : Nat) (s : MediaParts) :
    seeTop x.1 (boxBytes x.1 x.2) pos s = .ok s := by
  have := h.2.2
  simp only [List.mem_cons, List.not_mem_nil, or_false, not_or] at this
  obtain ⟨h1, h2, h3, h4, h5, h6⟩ := this
  unfold seeTop
  rw [if_neg (by simp only [List.mem_cons, List.not_mem_nil, or_false, not_or]; exact ⟨h1, h2, h3⟩)]

theorem parseTrun_ok (r : OffsetRun) (pos t : Nat) (s : MediaParts) (hf : bitSet r.f0 0 = true)
    (ho : r.offset < 2 ^ 32) (ht : s.trafStart = some t) :
    parseTrun (boxBytes tyTrun r.payload) pos s =
      .ok { s with runOffset := some r.offset, runPos := some ((pos : Int) + 16 - t) } := by
  have ha := at_box_content (ty := tyTrun) rfl r.payload
  unfold OffsetRun.payload at ha
  have h1 := ha.left.left.left
  have h2 := ha.left.right.u32 ho
  simp only [List.length_append, beBytes_length, List.length_cons, List.length_nil, u32At] at h2
  unfold At at h1
  unfold parseTrun OffsetRun.payload
  simp only [List.length_cons, List.length_nil] at h1
  have h3 : strToUint32 (slice (boxBytes tyTrun ([r.v, r.f2, r.f1, r.f0] ++ beBytes 4 r.count ++
      beBytes 4 r.offset ++ r.rest)) 8 12) = .ok (beVal [r.v, r.f2, r.f1, r.f0]) := by
    rw [h1]; rfl
  rw [h3]
  have h4 : beVal [r.v, r.f2, r.f1, r.f0] % 2 = 1 := by
    have := flag_low r.v r.f2 r.f1 r.f0 0 (by decide)
    rw [hf] at this
    unfold hasFlag at this
    rw [Nat.testBit_eq_decide_div_mod_eq] at this
    simp at this
    omega
  simp only
  rw [if_pos h4, h2, ht]

theorem seeTop_styp (d : Bytes) (pos : Nat) (s : MediaParts) :
    seeTop tyStyp d pos s = .ok { s with styp := some d } := rfl

theorem seeTop_mdat (d : Bytes) (pos : Nat) (s : MediaParts) :
    seeTop tyMdat d pos s = .ok { s with mdat := some d } := rfl

theorem seeTop_moof (d : Bytes) (pos : Nat) (s : MediaParts) :
    seeTop tyMoof d pos s = seeLoop seeKid d.length (d.drop 8) (pos + 8) { s with moof := some d } := rfl

theorem seeKid_mfhd (d : Bytes) (pos : Nat) (s : MediaParts) :
    seeKid tyMfhd d pos s = .ok { s with mfhd := some d } := rfl

theorem seeKid_traf (d : Bytes) (pos : Nat) (s : MediaParts) :
    seeKid tyTraf d pos s = seeLoop seeBox d.length (d.drop 8) (pos + 8)
      { s with traf := some d, trafStart := some pos } := rfl

theorem seeBox_trun (d : Bytes) (pos : Nat) (s : MediaParts) :
    seeBox tyTrun d pos s = parseTrun d pos s := rfl

/-- What is kept from a segment. -/
theorem mediaParts_ok (g : TrackSegment) (hg : g.Ok) : mediaParts g.bytes = .ok {
    styp := some (boxBytes tyStyp g.styp), moof := some (boxBytes tyMoof g.moof)
    mdat := some (boxBytes tyMdat g.media), mfhd := some (boxBytes tyMfhd g.mfhd)
    traf := some (boxBytes tyTraf g.traf)
    trafStart := some (g.moofPos + 8 + (8 + g.mfhd.length))
    runOffset := some g.run.offset
    runPos := some (8 + (boxesBytes g.pre).length + 16 : Nat) } := by
  have hm := hg.moof
  have hml : g.moof.length = (8 + g.mfhd.length) + (8 + g.traf.length) := by
    unfold TrackSegment.moof
    rw [List.length_append, boxBytes_len rfl, boxBytes_len rfl]
  have htl : g.traf.length = (boxesBytes g.pre).length + ((8 + g.run.payload.length) +
      (boxesBytes g.post).length) := by
    unfold TrackSegment.traf
    rw [List.length_append, List.length_append, boxBytes_len rfl]
  have hskip : ∀ (l : List (Bytes × Bytes)) (s : MediaParts), (∀ x ∈ l, BesideBox x) →
      ∀ x ∈ l, x.1.length = 4 ∧ 8 + x.2.length < 2 ^ 32 ∧
        ∀ pos, seeBox x.1 (boxBytes x.1 x.2) pos s = .ok s :=
    fun l s h x hx => ⟨(h x hx).1, (h x hx).2.1, fun pos => seeBox_beside (h x hx) pos s⟩
  have htop : ∀ (l : List (Bytes × Bytes)) (s : MediaParts), (∀ x ∈ l, BesideBox x) →
      ∀ x ∈ l, x.1.length = 4 ∧ 8 + x.2.length < 2 ^ 32 ∧
        ∀ pos, seeTop x.1 (boxBytes x.1 x.2) pos s = .ok s :=
    fun l s h x hx => ⟨(h x hx).1, (h x hx).2.1, fun pos => seeTop_beside (h x hx) pos s⟩
  -- the track fragment
  have htraf : ∀ (s : MediaParts) (t : Nat), s.trafStart = some t →
      Runs seeBox g.traf (t + 8) s (.ok { s with
        runOffset := some g.run.offset, runPos := some (8 + (boxesBytes g.pre).length + 16 : Nat) }) := by
    intro s t hs
    refine runs_skip (hskip _ _ hg.pre) _ ?_
    refine runs_box rfl (by omega) (s' := { s with
        runOffset := some g.run.offset, runPos := some (8 + (boxesBytes g.pre).length + 16 : Nat) }) ?_ ?_
    · rw [seeBox_trun, parseTrun_ok g.run _ t s hg.flag hg.offset hs]
      congr 3
      omega
    · have := runs_skip (rest := []) (r := .ok { s with
        runOffset := some g.run.offset, runPos := some (8 + (boxesBytes g.pre).length + 16 : Nat) })
        (hskip g.post _ hg.post) (t + 8 + (boxesBytes g.pre).length + (8 + g.run.payload.length))
        (runs_nil _ _)
      rwa [List.append_nil] at this
  -- the movie fragment
  have hmoof : ∀ (s : MediaParts) (t : Nat),
      Runs seeKid g.moof t s (.ok { s with
        mfhd := some (boxBytes tyMfhd g.mfhd), traf := some (boxBytes tyTraf g.traf)
        trafStart := some (t + (8 + g.mfhd.length)), runOffset := some g.run.offset,
        runPos := some (8 + (boxesBytes g.pre).length + 16 : Nat) }) := by
    intro s t
    refine runs_box rfl (by omega) (s' := { s with mfhd := some (boxBytes tyMfhd g.mfhd) })
      (seeKid_mfhd _ _ _) ?_
    refine runs_last rfl (by omega) ?_
    rw [seeKid_traf]
    have e3 : (boxBytes tyTraf g.traf).drop 8 = g.traf := by
      unfold boxBytes; exact List.drop_left' (by simp [tyTraf])
    rw [e3]
    have hle : g.traf.length ≤ (boxBytes tyTraf g.traf).length := by rw [boxBytes_len rfl]; omega
    exact htraf ⟨s.styp, s.moof, s.mdat, some (boxBytes tyMfhd g.mfhd), some (boxBytes tyTraf g.traf),
      some (t + (8 + g.mfhd.length)), s.runOffset, s.runPos⟩ (t + (8 + g.mfhd.length)) rfl _ hle
  suffices h : Runs seeTop g.bytes 0 {} (.ok {
      styp := some (boxBytes tyStyp g.styp), moof := some (boxBytes tyMoof g.moof)
      mdat := some (boxBytes tyMdat g.media), mfhd := some (boxBytes tyMfhd g.mfhd)
      traf := some (boxBytes tyTraf g.traf)
      trafStart := some (g.moofPos + 8 + (8 + g.mfhd.length))
      runOffset := some g.run.offset
      runPos := some (8 + (boxesBytes g.pre).length + 16 : Nat) }) from h _ (Nat.le_refl _)
  refine runs_skip (htop g.front1 {} hg.front1) 0 ?_
  refine runs_box (ty := tyStyp) (s' := { styp := some (boxBytes tyStyp g.styp) }) rfl hg.styp
    (seeTop_styp _ _ _) ?_
  refine runs_skip (htop g.front2 _ hg.front2) _ ?_
  refine runs_box (ty := tyMoof) (s' := {
      styp := some (boxBytes tyStyp g.styp), moof := some (boxBytes tyMoof g.moof)
      mfhd := some (boxBytes tyMfhd g.mfhd), traf := some (boxBytes tyTraf g.traf)
      trafStart := some (g.moofPos + 8 + (8 + g.mfhd.length))
      runOffset := some g.run.offset
      runPos := some (8 + (boxesBytes g.pre).length + 16 : Nat) }) rfl hm ?_ ?_
  · rw [seeTop_moof]
    have e3 : (boxBytes tyMoof g.moof).drop 8 = g.moof := by
      unfold boxBytes; exact List.drop_left' (by simp [tyMoof])
    have hle : g.moof.length ≤ (boxBytes tyMoof g.moof).length := by rw [boxBytes_len rfl]; omega
    rw [e3, (hmoof _ _) _ hle]
    congr 3
    unfold TrackSegment.moofPos
    rw [boxBytes_len rfl]
    omega
  refine runs_box (ty := tyMdat) rfl hg.media (seeTop_mdat _ _ _) ?_
  rw [← List.append_nil (boxesBytes g.back)]
  exact runs_skip (htop g.back _ hg.back) _ (runs_nil _ _)

/-- The segment with the data offset of its run moved. -/
def TrackSegment.moved (g : TrackSegment) (d : Nat) : TrackSegment :=
  { g with run := { g.run with offset := g.run.offset + d } }

theorem traf_moved_length (g : TrackSegment) (d : Nat) : (g.moved d).traf.length = g.traf.length := by
  simp only [TrackSegment.traf, TrackSegment.moved, OffsetRun.payload, List.length_append,
    boxBytes_len (ty := tyTrun) rfl, beBytes_length]

theorem traf_split (g : TrackSegment) (d : Nat) :
    ∃ a b, a.length = 8 + (boxesBytes g.pre).length + 16 ∧
      boxBytes tyTraf g.traf = a ++ (beBytes 4 g.run.offset ++ b) ∧
      boxBytes tyTraf (g.moved d).traf = a ++ (beBytes 4 (g.run.offset + d) ++ b) := by
  have hp : (g.moved d).run.payload.length = g.run.payload.length := by
    simp [OffsetRun.payload, TrackSegment.moved]
  refine ⟨beBytes 4 (8 + g.traf.length) ++ tyTraf ++ (boxesBytes g.pre ++
    (beBytes 4 (8 + g.run.payload.length) ++ tyTrun ++
      ([g.run.v, g.run.f2, g.run.f1, g.run.f0] ++ beBytes 4 g.run.count))),
    g.run.rest ++ boxesBytes g.post, ?_, ?_, ?_⟩
  · simp only [List.length_append, beBytes_length, List.length_cons, List.length_nil]
    omega
  · have e : g.traf = boxesBytes g.pre ++ (beBytes 4 (8 + g.run.payload.length) ++ tyTrun ++
      ([g.run.v, g.run.f2, g.run.f1, g.run.f0] ++ beBytes 4 g.run.count) ++
      (beBytes 4 g.run.offset ++ (g.run.rest ++ boxesBytes g.post))) := by
      simp [TrackSegment.traf, boxBytes, OffsetRun.payload]
    conv => lhs; rw [boxBytes]
    conv => lhs; rhs; rw [e]
    simp only [List.append_assoc]
  · have e : (g.moved d).traf = boxesBytes g.pre ++ (beBytes 4 (8 + g.run.payload.length) ++ tyTrun ++
      ([g.run.v, g.run.f2, g.run.f1, g.run.f0] ++ beBytes 4 g.run.count) ++
      (beBytes 4 (g.run.offset + d) ++ (g.run.rest ++ boxesBytes g.post))) := by
      rw [← hp]
      simp [TrackSegment.traf, boxBytes, OffsetRun.payload, TrackSegment.moved]
    conv => lhs; rw [boxBytes, traf_moved_length]
    conv => lhs; rhs; rw [e]
    simp only [List.append_assoc]

theorem trafMoved_ok (g : TrackSegment) (d : Nat) (m : MediaParts)
    (h1 : m.runOffset = some g.run.offset)
    (h2 : m.runPos = some ((8 + (boxesBytes g.pre).length + 16 : Nat) : Int))
    (hd : g.run.offset + d < 2 ^ 32) :
    trafMoved m (boxBytes tyTraf g.traf) d = .ok (boxBytes tyTraf (g.moved d).traf) := by
  obtain ⟨a, b, ha, e1, e2⟩ := traf_split g d
  unfold trafMoved
  rw [h1, h2]
  simp only
  have e3 : uint32ToStr ((g.run.offset : Int) + (d : Int)) = .ok (beBytes 4 (g.run.offset + d)) := by
    have := uint32ToStr_nat hd
    rwa [Int.natCast_add] at this
  rw [e3, e1, e2, Int.toNat_natCast, ← ha, List.take_left]
  simp only
  congr 1
  rw [← List.drop_drop, List.drop_left, List.drop_left' (by simp)]
  simp

/-- **C15 (layout).** For every pair of segments that fit, the multiplexed segment is the styp of
the first, one movie fragment with the header of the first and both track fragments, and one mdat
with the media of both.  All sizes are exact.  The track fragments differ from the original ones
only in the data offsets. -/
theorem C15_layout (g h : TrackSegment) (hg : g.Ok) (hh : h.Ok)
    (h1 : g.run.offset + (8 + h.traf.length) < 2 ^ 32)
    (h2 : h.run.offset + (8 + g.traf.length + g.media.length) < 2 ^ 32)
    (hmoof : 8 + (8 + g.mfhd.length) + (8 + g.traf.length) + (8 + h.traf.length) < 2 ^ 32)
    (hmdat : 8 + g.media.length + h.media.length < 2 ^ 32) :
    muxMedia g.bytes h.bytes = .ok (boxBytes tyStyp g.styp ++
      (boxBytes tyMoof (boxBytes tyMfhd g.mfhd ++
        (boxBytes tyTraf (g.moved (8 + h.traf.length)).traf ++
         boxBytes tyTraf (h.moved (8 + g.traf.length + g.media.length)).traf)) ++
       boxBytes tyMdat (g.media ++ h.media))) := by
  unfold muxMedia
  rw [mediaParts_ok g hg, mediaParts_ok h hh, py_step, py_step]
  unfold muxSamples theBox
  simp only [py_step, boxBytes_len (ty := tyTraf) rfl, boxBytes_len (ty := tyMfhd) rfl,
    boxBytes_len (ty := tyMdat) rfl]
  rw [trafMoved_ok g _ _ rfl rfl h1, py_step]
  have e1 : ((8 + g.traf.length : Nat) : Int) + ((8 + g.media.length : Nat) : Int) - 8 =
      ((8 + g.traf.length + g.media.length : Nat) : Int) := by omega
  rw [e1, trafMoved_ok h _ _ rfl rfl h2, py_step]
  have e2 : ((8 + g.media.length : Nat) : Int) + ((8 + h.media.length : Nat) : Int) - 8 =
      ((8 + (g.media ++ h.media).length : Nat) : Int) := by rw [List.length_append]; omega
  rw [uint32ToStr_nat hmoof, py_step, e2, uint32ToStr_nat (by rw [List.length_append]; omega), py_step]
  have e3 : ∀ m : Bytes, (boxBytes tyMdat m).drop 8 = m := by
    intro m; unfold boxBytes; exact List.drop_left' (by simp [tyMdat])
  rw [e3, e3]
  have e4 := boxBytes_of_len tyMoof (boxBytes tyMfhd g.mfhd ++
        (boxBytes tyTraf (g.moved (8 + h.traf.length)).traf ++
         boxBytes tyTraf (h.moved (8 + g.traf.length + g.media.length)).traf))
    (8 + (8 + g.mfhd.length) + (8 + g.traf.length) + (8 + h.traf.length)) (by
      simp only [List.length_append, boxBytes_len (ty := tyTraf) rfl, boxBytes_len (ty := tyMfhd) rfl,
        traf_moved_length]
      omega)
  have e5 := boxBytes_of_len tyMdat (g.media ++ h.media) _ rfl
  rw [e4, e5]
  show Except.ok _ = Except.ok _
  simp only [List.append_assoc]

theorem slice_inside (pre m post : Bytes) (k n : Nat) (h : k + n ≤ m.length) :
    slice (pre ++ (m ++ post)) (pre.length + k) (pre.length + k + n) = slice m k (k + n) := by
  unfold slice
  rw [← List.drop_drop, List.drop_left, List.drop_append_of_le_length (by omega),
    List.take_append_of_le_length (by rw [List.length_drop]; omega)]
  congr 1
  omega

theorem moved_offset (g : TrackSegment) (d : Nat) : (g.moved d).run.offset = g.run.offset + d := rfl

/-- Reading in the media data of a segment. -/
theorem own_media (g : TrackSegment) (k n : Nat) (h : k + n ≤ g.media.length) :
    slice g.bytes (g.moofPos + (8 + g.moof.length + 8) + k)
      (g.moofPos + (8 + g.moof.length + 8) + k + n) = slice g.media k (k + n) := by
  have e : g.bytes = (boxesBytes g.front1 ++ boxBytes tyStyp g.styp ++ boxesBytes g.front2 ++
      boxBytes tyMoof g.moof ++ (beBytes 4 (8 + g.media.length) ++ tyMdat)) ++
      (g.media ++ boxesBytes g.back) := by
    simp only [TrackSegment.bytes, List.append_assoc]
    congr 4
  have hl : (boxesBytes g.front1 ++ boxBytes tyStyp g.styp ++ boxesBytes g.front2 ++
      boxBytes tyMoof g.moof ++ (beBytes 4 (8 + g.media.length) ++ tyMdat)).length =
      g.moofPos + (8 + g.moof.length + 8) := by
    simp only [TrackSegment.moofPos, List.length_append, boxBytes_len (ty := tyMoof) rfl,
      beBytes_length, show tyMdat.length = 4 from rfl]
    omega
  rw [e, ← hl]
  exact slice_inside _ _ _ _ _ h

/-- Reading in the media data that is a part of the mdat box. -/
theorem muxed_media (front moof a m b : Bytes) (k n : Nat) (h : k + n ≤ m.length) :
    slice (front ++ (boxBytes tyMoof moof ++ boxBytes tyMdat (a ++ (m ++ b))))
      (front.length + (8 + moof.length + 8) + a.length + k)
      (front.length + (8 + moof.length + 8) + a.length + k + n) = slice m k (k + n) := by
  have e : front ++ (boxBytes tyMoof moof ++ boxBytes tyMdat (a ++ (m ++ b))) =
      (front ++ boxBytes tyMoof moof ++ (beBytes 4 (8 + (a ++ (m ++ b)).length) ++ tyMdat) ++ a) ++
      (m ++ b) := by
    simp only [List.append_assoc]
    congr 2
  have hl : (front ++ boxBytes tyMoof moof ++
      (beBytes 4 (8 + (a ++ (m ++ b)).length) ++ tyMdat) ++ a).length =
      front.length + (8 + moof.length + 8) + a.length := by
    simp only [List.length_append, boxBytes_len (ty := tyMoof) rfl,
      beBytes_length, show tyMdat.length = 4 from rfl]
    omega
  rw [e, ← hl]
  exact slice_inside _ _ _ _ _ h

/-- **C15 (sample bytes).** For every pair of segments that fit, with headers of equal length and
data offsets that point into the media data: `n` bytes read in the multiplexed segment at the data
offset of a track, counted from the start of the fragment, plus any `j`, are the `n` bytes read
that way in the segment of the track alone, for both tracks, as long as they lie in its media
data. -/
theorem C15_samples (g h : TrackSegment) (hg : g.Ok) (hh : h.Ok)
    (h1 : g.run.offset + (8 + h.traf.length) < 2 ^ 32)
    (h2 : h.run.offset + (8 + g.traf.length + g.media.length) < 2 ^ 32)
    (hmoof : 8 + (8 + g.mfhd.length) + (8 + g.traf.length) + (8 + h.traf.length) < 2 ^ 32)
    (hmdat : 8 + g.media.length + h.media.length < 2 ^ 32)
    (hfh : g.mfhd.length = h.mfhd.length)
    (hgo : 8 + g.moof.length + 8 ≤ g.run.offset) (hho : 8 + h.moof.length + 8 ≤ h.run.offset) :
    ∃ out, muxMedia g.bytes h.bytes = .ok out ∧
      (∀ j n, g.run.offset + j + n ≤ 8 + g.moof.length + 8 + g.media.length →
        slice out ((8 + g.styp.length) + (g.moved (8 + h.traf.length)).run.offset + j)
          ((8 + g.styp.length) + (g.moved (8 + h.traf.length)).run.offset + j + n)
        = slice g.bytes (g.moofPos + g.run.offset + j) (g.moofPos + g.run.offset + j + n)) ∧
      (∀ j n, h.run.offset + j + n ≤ 8 + h.moof.length + 8 + h.media.length →
        slice out ((8 + g.styp.length) + (h.moved (8 + g.traf.length + g.media.length)).run.offset + j)
          ((8 + g.styp.length) + (h.moved (8 + g.traf.length + g.media.length)).run.offset + j + n)
        = slice h.bytes (h.moofPos + h.run.offset + j) (h.moofPos + h.run.offset + j + n)) := by
  refine ⟨_, C15_layout g h hg hh h1 h2 hmoof hmdat, ?_, ?_⟩
  · intro j n hj
    obtain ⟨k, hk⟩ := Nat.exists_eq_add_of_le hgo
    have e1 := own_media g (k + j) n (by omega)
    have e2 := muxed_media (boxBytes tyStyp g.styp) (boxBytes tyMfhd g.mfhd ++
        (boxBytes tyTraf (g.moved (8 + h.traf.length)).traf ++
         boxBytes tyTraf (h.moved (8 + g.traf.length + g.media.length)).traf)) [] g.media h.media
         (k + j) n (by omega)
    rw [show g.moofPos + g.run.offset + j = g.moofPos + (8 + g.moof.length + 8) + (k + j) by omega, e1]
    rw [← e2]
    have hl : (8 + g.styp.length) + (g.run.offset + (8 + h.traf.length)) + j =
        (boxBytes tyStyp g.styp).length + (8 + (boxBytes tyMfhd g.mfhd ++
        (boxBytes tyTraf (g.moved (8 + h.traf.length)).traf ++
         boxBytes tyTraf (h.moved (8 + g.traf.length + g.media.length)).traf)).length + 8) +
         ([] : Bytes).length + (k + j) := by
      simp only [List.length_append, boxBytes_len (ty := tyTraf) rfl, boxBytes_len (ty := tyMfhd) rfl,
        boxBytes_len (ty := tyStyp) rfl, traf_moved_length, List.length_nil]
      simp only [TrackSegment.moof, List.length_append, boxBytes_len (ty := tyTraf) rfl,
        boxBytes_len (ty := tyMfhd) rfl] at hk
      omega
    rw [moved_offset, hl, List.nil_append]
  · intro j n hj
    obtain ⟨k, hk⟩ := Nat.exists_eq_add_of_le hho
    have e1 := own_media h (k + j) n (by omega)
    have e2 := muxed_media (boxBytes tyStyp g.styp) (boxBytes tyMfhd g.mfhd ++
        (boxBytes tyTraf (g.moved (8 + h.traf.length)).traf ++
         boxBytes tyTraf (h.moved (8 + g.traf.length + g.media.length)).traf)) g.media h.media []
         (k + j) n (by omega)
    rw [show h.moofPos + h.run.offset + j = h.moofPos + (8 + h.moof.length + 8) + (k + j) by omega, e1]
    rw [← e2]
    have hl : (8 + g.styp.length) + (h.run.offset + (8 + g.traf.length + g.media.length)) + j =
        (boxBytes tyStyp g.styp).length + (8 + (boxBytes tyMfhd g.mfhd ++
        (boxBytes tyTraf (g.moved (8 + h.traf.length)).traf ++
         boxBytes tyTraf (h.moved (8 + g.traf.length + g.media.length)).traf)).length + 8) +
         g.media.length + (k + j) := by
      simp only [List.length_append, boxBytes_len (ty := tyTraf) rfl, boxBytes_len (ty := tyMfhd) rfl,
        boxBytes_len (ty := tyStyp) rfl, traf_moved_length]
      simp only [TrackSegment.moof, List.length_append, boxBytes_len (ty := tyTraf) rfl,
        boxBytes_len (ty := tyMfhd) rfl] at hk
      omega
    rw [moved_offset, hl, List.append_nil]

/-- **C15 (fragment level).** Multiplexed on fragment level, the result is the styp of the first
segment followed by the fragment of either segment, byte for byte, each followed by its media
data. -/
theorem C15_fragments (g h : TrackSegment) (hg : g.Ok) (hh : h.Ok) :
    (do let a ← mediaParts g.bytes
        let b ← mediaParts h.bytes
        muxFragments a b) =
      .ok (boxBytes tyStyp g.styp ++ (boxBytes tyMoof g.moof ++ (boxBytes tyMdat g.media ++
        (boxBytes tyMoof h.moof ++ boxBytes tyMdat h.media)))) := by
  rw [mediaParts_ok g hg, mediaParts_ok h hh, py_step, py_step]
  unfold muxFragments theBox
  simp only [py_step]
  show Except.ok _ = Except.ok _
  simp only [List.append_assoc]

/-- Track fragment header (type `tfhd`) with the given track. -/
def muxHead (track : UInt8) : Bytes × Bytes :=
  ([116, 102, 104, 100], [0, 2, 0, 0, 0, 0, 0, track])

/-- A segment with styp and sidx in front, one run of two samples and a free box after it. -/
def muxSegment (track : UInt8) (media : Bytes) : TrackSegment where
  front1 := []
  styp := [109, 115, 100, 104, 0, 0, 0, 0]
  front2 := [([115, 105, 100, 120], [0, 0, 0, 0])]
  mfhd := [0, 0, 0, 0, 0, 0, 0, 9]
  pre := [muxHead track]
  run := { v := 0, f2 := 0, f1 := 2, f0 := 1, count := 2, offset := 92, rest := [0, 0, 0, 1, 0, 0, 0, 2] }
  post := [([102, 114, 101, 101], [])]
  media := media
  back := []

theorem muxSegment_ok (t : UInt8) (m : Bytes) (hm : m.length < 100) : (muxSegment t m).Ok := by
  constructor
  case media => show 8 + m.length < 2 ^ 32; omega
  all_goals
    simp only [muxSegment, muxHead, BesideBox, List.mem_cons, List.not_mem_nil, or_false,
      false_imp_iff, implies_true, forall_eq]
    first | done | decide +kernel | skip
  all_goals simp [TrackSegment.moof, TrackSegment.traf, OffsetRun.payload, boxBytes, boxesBytes]

example : ∃ out, muxMedia (muxSegment 1 [1, 2, 3]).bytes (muxSegment 2 [4, 5, 6]).bytes = .ok out ∧
    slice out (16 + (92 + 60) + 0) (16 + (92 + 60) + 0 + 3) = [1, 2, 3] ∧
    slice out (16 + (92 + 63) + 0) (16 + (92 + 63) + 0 + 3) = [4, 5, 6] := by
  obtain ⟨out, e, p, q⟩ := C15_samples (muxSegment 1 [1, 2, 3]) (muxSegment 2 [4, 5, 6])
    (muxSegment_ok _ _ (by decide)) (muxSegment_ok _ _ (by decide))
    (by decide +kernel) (by decide +kernel) (by decide +kernel) (by decide +kernel) rfl
    (by decide +kernel) (by decide +kernel)
  refine ⟨out, e, ?_, ?_⟩
  · rw [show [1, 2, 3] = slice (muxSegment 1 [1, 2, 3]).bytes (28 + 92 + 0) (28 + 92 + 0 + 3) by decide +kernel]
    exact p 0 3 (by decide +kernel)
  · rw [show [4, 5, 6] = slice (muxSegment 2 [4, 5, 6]).bytes (28 + 92 + 0) (28 + 92 + 0 + 3) by decide +kernel]
    exact q 0 3 (by decide +kernel)

/-- A run of one sample of one byte with the given data offset. -/
def oneByteRun (offset : Nat) : Bytes :=
  boxBytes tyTrun ([0, 0, 2, 1] ++ beBytes 4 1 ++ beBytes 4 offset ++ beBytes 4 1)

/-- A segment of two bytes of media data whose track fragment has two runs, one byte each. -/
def twoRunSegment (a b : UInt8) : Bytes :=
  boxBytes tyStyp [109, 115, 100, 104, 0, 0, 0, 0] ++ boxBytes tyMoof
    (boxBytes tyMfhd (beBytes 4 0 ++ beBytes 4 9) ++
      boxBytes tyTraf (oneByteRun 88 ++ oneByteRun 89)) ++ boxBytes tyMdat [a, b]

/-- **C15 (violation).** With two runs in the track fragments only the data offset of the last one
is moved.  In the segments the first run starts with the first byte of the media data.  In the
multiplexed segment the data offset of the first run of the first track is unchanged, 88, and it
is the start of the second run inside the fragment that it leads to. -/
theorem C15_two_runs_violation :
    (∀ a b : UInt8, slice (twoRunSegment a b) (16 + 88) (16 + 89) = [a]) ∧
    ∃ out, muxMedia (twoRunSegment 1 2) (twoRunSegment 3 4) = .ok out ∧
      slice out (16 + 48) (16 + 52) = beBytes 4 88 ∧ slice out (16 + 88) (16 + 89) ≠ [1] := by
  refine ⟨fun a b => rfl, ?_⟩
  have e : ((muxMedia (twoRunSegment 1 2) (twoRunSegment 3 4)).toOption.any fun out =>
      slice out (16 + 48) (16 + 52) = beBytes 4 88 ∧ slice out (16 + 88) (16 + 89) ≠ [1]) = true := by
    decide +kernel
  cases hm : muxMedia (twoRunSegment 1 2) (twoRunSegment 3 4) with
  | error x => rw [hm] at e; cases e
  | ok out =>
    rw [hm] at e
    exact ⟨out, rfl, of_decide_eq_true e⟩

/-- **C15 (violation).** A segment without styp box cannot be multiplexed: `None` is joined. -/
theorem C15_no_styp_violation :
    muxMedia (boxBytes tyMoof (boxBytes tyMfhd (beBytes 4 0 ++ beBytes 4 9) ++
      boxBytes tyTraf (oneByteRun 60)) ++ boxBytes tyMdat [1]) (muxSegment 2 [4, 5, 6]).bytes =
      .error .typeError := by
  decide +kernel

end Verif
