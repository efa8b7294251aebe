import Verif.Lemmas.LiveFragment
import Verif.Props.MuxMedia
import Verif.Spec.Muxed
/-
Segments as both the media segment filter and the multiplexer see them.
-/
namespace Verif

/-- The track fragment of the segment. -/
def LiveFragment.track (f : LiveFragment) : TrackFragment :=
  { p1 := f.p1.map FragBox.parts, head := f.head, p2 := f.p2.map FragBox.parts, wide := f.wide, f2 := f.f2, f1 := f.f1
    f0 := f.f0, time := f.time, q1 := f.q1.map FragBox.parts, run := f.run, q2 := f.q2.map FragBox.parts }

/-- A track fragment whose media data is `d` bytes farther away. -/
def TrackFragment.shifted (t : TrackFragment) (d : Int) : TrackFragment :=
  { t with run := { t.run with offset := t.run.offset + d } }

/-- The bytes of all samples of the segment. -/
def LiveFragment.dataSize (f : LiveFragment) (x : Trex) : Nat := (f.run.rows.map (sampleSize f.head f.run x)).sum

/-- A segment with what the multiplexer needs: one segment type box, with the given brands; a fragment with nothing but
its header and the track fragment; then the media data. -/
structure LiveFragment.Muxable (f : LiveFragment) (brands : List Bytes) (media : Bytes) : Prop where
  front : ∃ l1 l2, f.front = l1 ++ (tyStyp, brands.flatten) :: l2 ∧ ∀ x ∈ l1 ++ l2, x.1 ∉ [tyStyp, tyMfhd, tyTrun]
  brands : ∀ b ∈ brands, b.length = 4
  plain : f.a = [] ∧ f.b = []
  others : ∀ x ∈ f.p1 ++ f.p2 ++ f.q1 ++ f.q2, x.parts.1 ∉ [tyStyp, tyMdat, tyMfhd]
  back : ∃ l, f.back = (tyMdat, media) :: l ∧ ∀ x ∈ l, x.1 ∉ [tyMdat, tyMfhd, tyTrun]
  data : (f.one.moof.length : Int) + 8 ≤ f.run.offset

/-- All samples lie in the media data. -/
def LiveFragment.Inside (f : LiveFragment) (media : Bytes) (x : Trex) : Prop :=
  f.run.offset + f.dataSize x ≤ (f.one.moof.length : Int) + 8 + media.length

theorem boxesBytes_append (a b : List (Bytes × Bytes)) : boxesBytes (a ++ b) = boxesBytes a ++ boxesBytes b := by
  simp [boxesBytes]

theorem boxesBytes_cons (x : Bytes × Bytes) (l : List (Bytes × Bytes)) :
    boxesBytes (x :: l) = boxBytes x.1 x.2 ++ boxesBytes l := rfl

/-! ### The boxes before the fragment -/

def Beside (ty : Bytes) : Prop := ty ∉ [tyStyp, tyMoof, tyMdat, tyMfhd, tyTraf, tyTrun]

theorem front_beside {c : MfCfg} {l fr : List (Bytes × Bytes)} (h : FrontSteps c l fr)
    (hl : ∀ x ∈ l, PlainType x.1 ∧ x.1 ≠ tyMdat ∧ 16 + x.2.length < 2 ^ 32 ∧ (x.1 = tyStyp → 4 ∣ x.2.length))
    (ht : ∀ x ∈ l, x.1 ∉ [tyStyp, tyMfhd, tyTrun]) : IsBoxes Beside (fr.map Prod.snd).flatten := by
  induction h with
  | nil => exact .nil
  | @cons b o bs os hbo _ ih =>
    rw [List.map_cons, List.flatten_cons]
    refine .append ?_ (ih (fun x hx => hl x (by simp [hx])) fun x hx => ht x (by simp [hx]))
    obtain ⟨-, -, h2, h3⟩ := hbo
    obtain ⟨g1, g0, g2, -⟩ := hl b (by simp)
    have hs := ht b (by simp)
    have hp := plain_not_fragment g1
    simp only [List.mem_cons, List.not_mem_nil, or_false, not_or] at hs hp
    by_cases hx : b.1 = tySidx
    · rw [h2 hx]; exact .nil
    · rw [h3 hs.1 hx]
      refine .box g1 (by omega) ?_
      simp only [Beside, List.mem_cons, List.not_mem_nil, or_false, not_or]
      exact ⟨hs.1, hp.1, g0, hs.2.1, hp.2, hs.2.2⟩

/-- What the filter makes of the boxes before the fragment when there is one segment type among them. -/
theorem front_styp {c : MfCfg} {brands : List Bytes} (hb : ∀ b ∈ brands, b.length = 4) :
    ∀ {l1 l2 fr : List (Bytes × Bytes)}, FrontSteps c (l1 ++ (tyStyp, brands.flatten) :: l2) fr →
    (∀ x ∈ l1 ++ (tyStyp, brands.flatten) :: l2, PlainType x.1 ∧ x.1 ≠ tyMdat ∧ 16 + x.2.length < 2 ^ 32 ∧
      (x.1 = tyStyp → 4 ∣ x.2.length)) →
    (∀ x ∈ l1 ++ l2, x.1 ∉ [tyStyp, tyMfhd, tyTrun]) →
    ∃ a b, IsBoxes Beside a ∧ IsBoxes Beside b ∧ (fr.map Prod.snd).flatten =
      a ++ (boxBytes tyStyp (brands.filter (fun b => decide (b ≠ lmsg)) ++ if c.lmsg then [lmsg] else []).flatten ++ b) := by
  intro l1
  induction l1 with
  | nil =>
    intro l2 fr h hl ht
    cases h with
    | @cons _ o _ os hbo hr =>
      obtain ⟨-, h1, -, -⟩ := hbo
      have h1 := h1 rfl
      have hq := quads_length hb
      have hz := (hl (tyStyp, brands.flatten) (by simp)).2.2.1
      cases hsc : scteOfSegment c with
      | error e =>
        unfold processStyp at h1
        rw [hsc] at h1
        split at h1
        · cases h1
        · split at h1 <;> cases h1
      | ok e =>
        rw [processStyp_eq c brands hb (by simp only at hz; omega) e hsc] at h1
        refine ⟨[], e ++ (os.map Prod.snd).flatten, .nil, .append (scte_plain (by unfold Beside; decide) hsc)
          (front_beside hr (fun x hx => hl x (by simp [hx])) fun x hx => ht x (by simp [hx])), ?_⟩
        rw [List.map_cons, List.flatten_cons, ← Except.ok.inj h1, List.nil_append, List.append_assoc]
  | cons x l1 ih =>
    intro l2 fr h hl ht
    cases h with
    | @cons _ o _ os hbo hr =>
      obtain ⟨a, b, ha, hb', e⟩ := ih hr (fun y hy => hl y (by simp only [List.cons_append, List.mem_cons]; exact Or.inr hy))
        (fun y hy => ht y (by simp only [List.cons_append, List.mem_cons]; exact Or.inr hy))
      have hx : IsBoxes Beside ((([o] : List (Bytes × Bytes)).map Prod.snd).flatten) :=
        front_beside (c := c) (l := [x]) (.cons hbo .nil) (fun y hy => hl y (by rw [List.mem_singleton.mp hy]; simp))
          (fun y hy => ht y (by rw [List.mem_singleton.mp hy]; simp))
      rw [List.map_cons, List.map_nil, List.flatten_cons, List.flatten_nil, List.append_nil] at hx
      exact ⟨o.2 ++ a, b, hx.append ha, hb', by rw [List.map_cons, List.flatten_cons, e, List.append_assoc]⟩

/-! ### The filtered segment as the multiplexer sees it -/

theorem LiveFragment.traf_bytes (f : LiveFragment) : f.seg.traf.bytes = f.track.content := by
  simp [FragSegment.traf, LiveFragment.seg, LiveFragment.track, TrackFragment.content, withBoxes_bytes, Forest.bytes]

/-- The boxes after the front. -/
structure LiveFragment.AsTrack (f : LiveFragment) (styp media : Bytes) (g : TrackSegment) : Prop where
  ok : g.Ok
  styp : g.styp = styp
  mfhd : g.mfhd = f.vf ++ beBytes 4 f.seq
  media : g.media = media
  offset : (g.run.offset : Int) = f.run.offset
  moof : 8 + g.moof.length = f.one.moof.length
  traf : ∀ e : Nat, f.run.offset + e < 2 ^ 31 → (g.moved e).traf = (f.track.shifted e).content

theorem signedBytes_nat {x : Int} (h0 : 0 ≤ x) (h1 : x < 2 ^ 31) : signedBytes x = beBytes 4 x.toNat := by
  unfold signedBytes
  rw [Int.emod_eq_of_lt h0 (by omega)]

/-- The multiplexer's view of a segment with the given boxes in front. -/
def LiveFragment.asTrack (f : LiveFragment) (front1 : List (Bytes × Bytes)) (styp : Bytes) (front2 : List (Bytes × Bytes))
    (media : Bytes) (back : List (Bytes × Bytes)) : TrackSegment :=
  { front1 := front1, styp := styp, front2 := front2, mfhd := f.vf ++ beBytes 4 f.seq
    pre := f.p1.map FragBox.parts ++ (tyTfhd, f.head.payload) :: (f.p2.map FragBox.parts ++
      (tyTfdt, tfdtPayload f.wide f.f2 f.f1 f.f0 f.time) :: f.q1.map FragBox.parts)
    run := { v := f.run.v, f2 := f.run.f2, f1 := f.run.f1, f0 := f.run.f0, count := f.run.rows.length
             offset := f.run.offset.toNat
             rest := field (bitSet f.run.f0 2) (beBytes 4 f.run.first) ++ f.run.rows.flatMap f.run.rowBytes }
    post := f.q2.map FragBox.parts, media := media, back := back }

theorem LiveFragment.asTrack_traf (f : LiveFragment) (ho : bitSet f.run.f0 0 = true) (h0 : 0 ≤ f.run.offset)
    (front1 : List (Bytes × Bytes)) (styp : Bytes) (front2 : List (Bytes × Bytes)) (media : Bytes)
    (back : List (Bytes × Bytes)) (e : Nat) (h1 : f.run.offset + e < 2 ^ 31) :
    ((f.asTrack front1 styp front2 media back).moved e).traf = (f.track.shifted e).content := by
  have hs : signedBytes (f.run.offset + e) = beBytes 4 (f.run.offset.toNat + e) := by
    rw [signedBytes_nat (by omega) h1]
    congr 1
    omega
  have hr : (f.track.shifted e).run.payload = ((f.asTrack front1 styp front2 media back).moved e).run.payload := by
    have e1 : (f.track.shifted e).run.payload = [f.run.v, f.run.f2, f.run.f1, f.run.f0] ++ beBytes 4 f.run.rows.length ++
        field (bitSet f.run.f0 0) (signedBytes (f.run.offset + e)) ++ field (bitSet f.run.f0 2) (beBytes 4 f.run.first) ++
        f.run.rows.flatMap f.run.rowBytes := rfl
    have e2 : ((f.asTrack front1 styp front2 media back).moved e).run.payload =
        [f.run.v, f.run.f2, f.run.f1, f.run.f0] ++ beBytes 4 f.run.rows.length ++ beBytes 4 (f.run.offset.toNat + e) ++
        (field (bitSet f.run.f0 2) (beBytes 4 f.run.first) ++ f.run.rows.flatMap f.run.rowBytes) := rfl
    rw [e1, e2, ho, hs, show field true (beBytes 4 (f.run.offset.toNat + e)) = beBytes 4 (f.run.offset.toNat + e) from rfl]
    simp only [List.append_assoc]
  rw [TrackSegment.traf, TrackFragment.content, hr]
  show boxesBytes (f.p1.map FragBox.parts ++ (tyTfhd, f.head.payload) :: (f.p2.map FragBox.parts ++
      (tyTfdt, tfdtPayload f.wide f.f2 f.f1 f.f0 f.time) :: f.q1.map FragBox.parts)) ++ (boxBytes tyTrun
        ((f.asTrack front1 styp front2 media back).moved e).run.payload ++ boxesBytes (f.q2.map FragBox.parts)) =
    boxesBytes (f.p1.map FragBox.parts) ++ (boxBytes tyTfhd f.head.payload ++ (boxesBytes (f.p2.map FragBox.parts) ++
      (boxBytes tyTfdt (tfdtPayload f.wide f.f2 f.f1 f.f0 f.time) ++ (boxesBytes (f.q1.map FragBox.parts) ++
        (boxBytes tyTrun ((f.asTrack front1 styp front2 media back).moved e).run.payload ++
          boxesBytes (f.q2.map FragBox.parts))))))
  simp only [boxesBytes_append, boxesBytes_cons, List.append_assoc]

theorem LiveFragment.asTrack_bytes (f : LiveFragment) (ho : bitSet f.run.f0 0 = true) (h0 : 0 ≤ f.run.offset)
    (h1 : f.run.offset < 2 ^ 31) (ha : f.a = []) (hb : f.b = []) {front1 : List (Bytes × Bytes)} {styp : Bytes}
    {front2 : List (Bytes × Bytes)} {media : Bytes} {back : List (Bytes × Bytes)}
    (hf : f.front = front1 ++ (tyStyp, styp) :: front2) (hbk : f.back = (tyMdat, media) :: back) :
    f.seg.bytes = (f.asTrack front1 styp front2 media back).bytes ∧
    f.seg.moof.bytes = (f.asTrack front1 styp front2 media back).moof := by
  have ht : f.seg.traf.bytes = (f.asTrack front1 styp front2 media back).traf := by
    rw [f.traf_bytes]
    have h := f.asTrack_traf ho h0 front1 styp front2 media back 0 (by omega)
    have e1 : f.track.shifted ((0 : Nat) : Int) = f.track := by
      rw [TrackFragment.shifted, Int.natCast_zero, Int.add_zero]
    have e2 : (f.asTrack front1 styp front2 media back).moved 0 = f.asTrack front1 styp front2 media back := by
      rw [TrackSegment.moved, Nat.add_zero]
    rw [e1, e2] at h
    exact h.symm
  have hmoof : f.seg.moof.bytes = (f.asTrack front1 styp front2 media back).moof := by
    rw [TrackSegment.moof, ← ht]
    simp only [FragSegment.moof, Forest.bytes, withBoxes_bytes]
    simp [LiveFragment.seg, ha, hb, boxesBytes, LiveFragment.asTrack]
  refine ⟨?_, hmoof⟩
  rw [TrackSegment.bytes, ← hmoof]
  simp only [FragSegment.bytes, FragSegment.forest, withBoxes_bytes, Forest.bytes]
  simp only [LiveFragment.seg, hf, hbk, boxesBytes_append, boxesBytes_cons, LiveFragment.asTrack, List.append_assoc,
    List.append_nil]

theorem beside_of {ty : Bytes} (h : PlainType ty) (h2 : ty ∉ [tyStyp, tyMdat, tyMfhd, tyTrun]) : Beside ty := by
  have hp := plain_not_fragment h
  simp only [Beside, List.mem_cons, List.not_mem_nil, or_false, not_or] at hp h2 ⊢
  exact ⟨h2.1, hp.1, h2.2.1, h2.2.2.1, hp.2, h2.2.2.2⟩

/-- What the filter returns, as the multiplexer sees it. -/
theorem LiveFragment.Ok.muxed {f : LiveFragment} (h : f.Ok) {brands : List Bytes} {media : Bytes}
    (hmux : f.Muxable brands media) {c : MfCfg} {n ts : Int} (hn : c.segNr = some n)
    (hts : c.timescale = some ts) (hm : ∀ m, c.emsgLast = some m → Ascii m) {y : Bytes × MfState}
    (hy : filterMedia c f.seg.bytes = .ok y) :
    ∃ front d g, d = growth f.wide ((f.time : Int) + c.offset * ts) ∧ 0 ≤ (f.time : Int) + c.offset * ts ∧
      y.1 = TrackSegment.bytes g ∧
      (f.live front n ((f.time : Int) + c.offset * ts) d).AsTrack
        (brands.filter (fun b => decide (b ≠ lmsg)) ++ if c.lmsg then [lmsg] else []).flatten media g := by
  rw [f.bytes_eq h.offset] at hy
  obtain ⟨g1, g2, g3, g4, -, d, front, size, emsg, sidx, g5, g6, g7, g8, g9, -, g10, -⟩ :=
    C11_segment c n ts hn hts f.one h.one y.1 y.2 hy
  have g3 : 0 ≤ (f.time : Int) + c.offset * ts := g3
  have g4 : (f.time : Int) + c.offset * ts < 2 ^ 64 := g4
  have g6 : d = 4 ↔ f.wide = false ∧ 2 ^ 32 ≤ (f.time : Int) + c.offset * ts := g6
  have g10 : y.1 = (front.map Prod.snd).flatten ++ emsg ++ sidx ++
    (f.one.moved n ((f.time : Int) + c.offset * ts) d).moof ++ boxesBytes f.back := g10
  have hd : (d : Int) = growth f.wide ((f.time : Int) + c.offset * ts) := by
    unfold growth
    by_cases hw : f.wide = false ∧ 2 ^ 32 ≤ (f.time : Int) + c.offset * ts
    · rw [if_pos ⟨hw.1, hw.2⟩, g6.mpr hw]; rfl
    · rw [if_neg (fun h' => hw ⟨h'.1, h'.2⟩)]
      rcases g5 with h0 | h4
      · rw [h0]; rfl
      · exact absurd (g6.mp h4) hw
  obtain ⟨l1, l2, hfr, hty⟩ := hmux.front
  obtain ⟨rest, hbk, hrest⟩ := hmux.back
  have g7' : FrontSteps c (l1 ++ (tyStyp, brands.flatten) :: l2) front := by rw [← hfr]; exact g7
  obtain ⟨a, b, ha, hb, hab⟩ := front_styp hmux.brands g7' (by rw [← hfr]; exact h.front) hty
  obtain ⟨m1, rfl, hm1⟩ := ha
  obtain ⟨m2, e2, hm2⟩ := (hb.append (lastBox_plain (by unfold Beside; decide) g8 hm)).append
    (indexBox_plain (by unfold Beside; decide) g9)
  generalize hst : (brands.filter (fun b => decide (b ≠ lmsg)) ++ if c.lmsg then [lmsg] else []).flatten = styp at hab ⊢
  have hd4 : (d : Int) ≤ 4 := by rcases g5 with h0 | h4 <;> omega
  have hdata := h.data
  have hroom := h.room
  have hstl : 8 + styp.length < 2 ^ 32 := by
    have hz := (h.front (tyStyp, brands.flatten) (by rw [hfr]; simp)).2.2.1
    have hq := quads_length hmux.brands
    have hq2 : styp.length ≤ 4 * brands.length + 4 := by
      rw [← hst, quads_length]
      · have := List.length_filter_le (fun b => decide (b ≠ lmsg)) brands
        rw [List.length_append]
        split <;> simp only [List.length_cons, List.length_nil] <;> omega
      · intro x hx
        rcases List.mem_append.mp hx with hx | hx
        · exact hmux.brands x (List.mem_filter.mp hx).1
        · split at hx
          · rw [List.mem_singleton.mp hx]; rfl
          · cases hx
    simp only at hz
    omega
  generalize hL : f.live (m1 ++ (tyStyp, styp) :: m2) n ((f.time : Int) + c.offset * ts) d = L
  have Lrun : L.run = { f.run with offset := f.run.offset + d } := by rw [← hL]; rfl
  have Loff : bitSet L.run.f0 0 = true := by rw [Lrun]; exact h.offset
  have L0 : 0 ≤ L.run.offset := by rw [Lrun]; show 0 ≤ f.run.offset + d; omega
  have L1 : L.run.offset < 2 ^ 31 := by rw [Lrun]; show f.run.offset + d < 2 ^ 31; omega
  obtain ⟨hbytes, hmoof⟩ := L.asTrack_bytes (front1 := m1) (styp := styp) (front2 := m2) (media := media) (back := rest) Loff L0
    L1 (by rw [← hL]; exact hmux.plain.1) (by rw [← hL]; show f.b.map _ = []; rw [hmux.plain.2]; rfl) (by rw [← hL]; rfl)
    (by rw [← hL]; exact hbk)
  have hLok : L.seg.Ok := by
    rw [← hL]
    refine h.live g1 g2 g3 g4 hd ?_
    intro x hx
    rcases List.mem_append.mp hx with hx | hx
    · exact (hm1 x hx).1
    · rcases List.mem_cons.mp hx with rfl | hx
      · exact ⟨plain_top (by simp), hstl⟩
      · exact (hm2 x hx).1
  refine ⟨m1 ++ (tyStyp, styp) :: m2, d, L.asTrack m1 styp m2 media rest, hd, g3, ?_, ?_⟩
  · rw [← hbytes, L.bytes_eq Loff, g10, hab]
    have e3 : boxesBytes m1 ++ (boxBytes tyStyp styp ++ b) ++ emsg ++ sidx =
        boxesBytes (m1 ++ (tyStyp, styp) :: m2) := by
      rw [boxesBytes_append, boxesBytes_cons, ← e2]
      simp only [List.append_assoc]
    rw [e3, f.moved (m1 ++ (tyStyp, styp) :: m2), hL, OneFragment.bytes]
    rw [← hL]
    rfl
  · rw [hL]
    have pb : ∀ x ∈ f.p1 ++ f.p2 ++ f.q1 ++ f.q2, Beside x.parts.1 ∧ x.parts.1.length = 4 ∧ 8 + x.parts.2.length < 2 ^ 32 := by
      intro x hx
      obtain ⟨-, -, o1, o2, o3⟩ := h.others x (by
        simp only [LiveFragment.others, List.mem_append] at hx ⊢
        rcases hx with ((hx | hx) | hx) | hx <;> simp [hx])
      have o4 := hmux.others x hx
      refine ⟨beside_of o1 ?_, o1.1, o2⟩
      simp only [List.mem_cons, List.not_mem_nil, or_false, not_or] at o3 o4 ⊢
      exact ⟨o4.1, o4.2.1, o4.2.2, o3.2.2⟩
    obtain ⟨s1, s2, s3⟩ := L.seg.traf_len hLok
    have ps : ∀ x ∈ f.q1 ++ f.q2, BesideBox ((x.shift d).parts) := by
      intro x hx
      obtain ⟨p1, p2, p3⟩ := pb x (by
        simp only [List.mem_append] at hx ⊢
        rcases hx with hx | hx <;> simp [hx])
      rw [BesideBox, (shift_parts d x).1, (shift_parts d x).2]
      exact ⟨p2, p3, p1⟩
    refine ⟨⟨?_, ?_, ?_, ?_, ?_, hstl, ?_, ?_, Loff, ?_⟩, rfl, rfl, rfl, ?_, ?_, ?_⟩
    · intro x hx; exact ⟨(hm1 x hx).1.1.1, (hm1 x hx).1.2, (hm1 x hx).2⟩
    · intro x hx; exact ⟨(hm2 x hx).1.1.1, (hm2 x hx).1.2, (hm2 x hx).2⟩
    · intro x hx
      have hx : x ∈ L.p1.map FragBox.parts ++ (tyTfhd, L.head.payload) :: (L.p2.map FragBox.parts ++
        (tyTfdt, tfdtPayload L.wide L.f2 L.f1 L.f0 L.time) :: L.q1.map FragBox.parts) := hx
      have e1 : L.p1 = f.p1 := by rw [← hL]; rfl
      have e2 : L.p2 = f.p2 := by rw [← hL]; rfl
      have e3 : L.q1 = f.q1.map (FragBox.shift d) := by rw [← hL]; rfl
      rw [e1, e2, e3] at hx
      simp only [List.mem_append, List.mem_cons, List.mem_map, List.map_map, Function.comp] at hx
      rcases hx with ⟨x, hq, rfl⟩ | rfl | ⟨x, hq, rfl⟩ | rfl | ⟨x, hq, rfl⟩
      · obtain ⟨p1, p2, p3⟩ := pb x (by simp [hq]); exact ⟨p2, p3, p1⟩
      · exact ⟨rfl, s2, show tyTfhd ∉ _ by decide⟩
      · obtain ⟨p1, p2, p3⟩ := pb x (by simp [hq]); exact ⟨p2, p3, p1⟩
      · refine ⟨rfl, ?_, show tyTfdt ∉ _ by decide⟩
        have := tfdtPayload_length L.wide L.f2 L.f1 L.f0 L.time
        simp only
        omega
      · exact ps x (by simp [hq])
    · intro x hx
      have hx : x ∈ L.q2.map FragBox.parts := hx
      have e3 : L.q2 = f.q2.map (FragBox.shift d) := by rw [← hL]; rfl
      rw [e3, List.map_map] at hx
      obtain ⟨x, hq, rfl⟩ := List.mem_map.mp hx
      exact ps x (by simp [hq])
    · intro x hx
      obtain ⟨b1, b2, b3⟩ := h.back x (by rw [hbk]; simp [show x ∈ rest from hx])
      have b4 := hrest x hx
      refine ⟨b1.1, b3, beside_of b1 ?_⟩
      simp only [List.mem_cons, List.not_mem_nil, or_false, not_or] at b2 b4 ⊢
      exact ⟨b2.1, b4.1, b4.2.1, b4.2.2⟩
    · rw [← hmoof]
      exact hLok.size
    · exact (h.back (tyMdat, media) (by rw [hbk]; simp)).2.2
    · show L.run.offset.toNat < 2 ^ 32
      omega
    · exact Int.toNat_of_nonneg L0
    · rw [← hmoof]; exact (L.moof_length Loff).symm
    · intro e he
      exact L.asTrack_traf Loff L0 _ _ _ _ _ e he

end Verif
