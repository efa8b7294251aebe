import Verif.Lemmas.MuxLive
import Verif.Props.LowLatency
/-
C84: replies with two tracks.
-/
namespace Verif
open Spec

/-! ### Reading the samples of one of two tracks -/

theorem slice_take {m : Bytes} {a b n : Nat} (h : b ≤ n) : slice (m.take n) a b = slice m a b := by
  unfold slice
  rw [List.drop_take, List.take_take, Nat.min_eq_left (by omega)]

theorem runSamples_prefix (t : FragHeader) (r : SampleRun) (x : Trex) {m m' : Bytes} {n : Nat} (h : m.take n = m'.take n)
    (rows : List RunRow) : ∀ time start, start + (rows.map (sampleSize t r x)).sum ≤ n →
      runSamples t r x m rows time start = runSamples t r x m' rows time start := by
  induction rows with
  | nil => intros; rfl
  | cons row rows ih =>
    intro time start hs
    rw [List.map_cons, List.sum_cons] at hs
    rw [runSamples, runSamples, ih _ _ (by omega), ← slice_take (m := m) (n := n) (by omega), h, slice_take (by omega)]

/-- Room for the second segment beside the first. -/
structure LiveFragment.Fits (f1 : LiveFragment) (m1 : Bytes) (f2 : LiveFragment) (m2 : Bytes) : Prop where
  first : f1.run.offset + f2.one.moof.length + 16 < 2 ^ 31
  second : f2.run.offset + f1.one.moof.length + m1.length + 16 < 2 ^ 31
  media : 8 + m1.length + m2.length < 2 ^ 32

theorem live_moof_length {f : LiveFragment} (h : f.Ok) (front : List (Bytes × Bytes)) (n : Int) {new d : Int}
    (hd : d = growth f.wide new) : (f.live front n new d).one.moof.length = f.one.moof.length + d.toNat := by
  rw [← f.moved front, hd]
  exact moved_length f.one h.one n new

theorem growth_bounds (w : Bool) (t : Int) : 0 ≤ growth w t ∧ growth w t ≤ 4 := by
  unfold growth; split <;> omega

theorem drop_box_front {a b m : Bytes} {k : Nat} (hk : 8 ≤ k) :
    (a ++ (b ++ boxBytes tyMdat m)).drop (a.length + b.length + k) = m.drop (k - 8) := by
  obtain ⟨j, rfl⟩ := Nat.exists_eq_add_of_le hk
  rw [← List.append_assoc, ← List.length_append, ← List.drop_drop, List.drop_left, ← List.drop_drop]
  have e : (boxBytes tyMdat m).drop 8 = m := by unfold boxBytes; exact List.drop_left' (by simp [tyMdat])
  rw [e]
  congr 1
  omega

/-- What the stored samples are read from. -/
theorem LiveFragment.stored_samples {f : LiveFragment} (h : f.Ok) {brands : List Bytes} {media : Bytes}
    (hm : f.Muxable brands media) {k : Nat} (hk : (f.one.moof.length : Int) + 8 + k = f.run.offset) (x : Trex)
    (hin : f.Inside media x) {data : Bytes} (hdata : (media.drop k).take (media.length - k) = data.take (media.length - k)) :
    f.seg.samples x = runSamples f.head f.run x data f.run.rows f.time 0 := by
  obtain ⟨rest, hb, -⟩ := hm.back
  unfold FragSegment.samples
  rw [f.media_eq h, hb]
  have e1 : (f.run.offset - f.one.moof.length).toNat = 8 + k := by omega
  have e2 : (boxesBytes ((tyMdat, media) :: rest)).drop (8 + k) = (media ++ boxesBytes rest).drop k := by
    rw [← List.drop_drop, boxesBytes_cons]
    congr 1
  rw [e1, e2]
  unfold LiveFragment.Inside at hin
  have hkm : k ≤ media.length := by omega
  refine runSamples_prefix _ _ _ (n := media.length - k) ?_ _ _ _ ?_
  · rw [List.drop_append_of_le_length hkm, List.take_append_of_le_length (by rw [List.length_drop]), hdata]
  · show 0 + (f.run.rows.map (sampleSize f.head f.run x)).sum ≤ _
    have : (f.run.rows.map (sampleSize f.head f.run x)).sum = f.dataSize x := rfl
    omega

/-- Two segments of the live session, multiplexed: both tracks have their stored samples. -/
theorem mux_live {f1 f2 : LiveFragment} (h1 : f1.Ok) (h2 : f2.Ok) {br1 br2 : List Bytes} {m1 m2 : Bytes}
    (u1 : f1.Muxable br1 m1) (u2 : f2.Muxable br2 m2) (hfit : f1.Fits m1 f2 m2) {n ticks1 ticks2 d1 d2 : Int}
    {fr1 fr2 : List (Bytes × Bytes)} {styp styp2 : Bytes} {g1 g2 : TrackSegment}
    (t1 : 0 ≤ (f1.time : Int) + ticks1) (t2 : 0 ≤ (f2.time : Int) + ticks2)
    (hd1 : d1 = growth f1.wide ((f1.time : Int) + ticks1)) (hd2 : d2 = growth f2.wide ((f2.time : Int) + ticks2))
    (a1 : (f1.live fr1 n ((f1.time : Int) + ticks1) d1).AsTrack styp m1 g1)
    (a2 : (f2.live fr2 n ((f2.time : Int) + ticks2) d2).AsTrack styp2 m2 g2) :
    ∃ e1 e2 : Nat, ∃ out,
      out = muxedBytes styp f1.vf n.toNat [(f1.live fr1 n ((f1.time : Int) + ticks1) d1).track.shifted e1,
        (f2.live fr2 n ((f2.time : Int) + ticks2) d2).track.shifted e2] (m1 ++ m2) ∧
      muxMedia g1.bytes g2.bytes = .ok out ∧
      (∀ x, f1.Inside m1 x → ((f1.live fr1 n ((f1.time : Int) + ticks1) d1).track.shifted e1).samples x out
        (muxedStart styp) = (f1.seg.samples x).map (Sample.later ticks1)) ∧
      (∀ x, f2.Inside m2 x → ((f2.live fr2 n ((f2.time : Int) + ticks2) d2).track.shifted e2).samples x out
        (muxedStart styp) = (f2.seg.samples x).map (Sample.later ticks2)) := by
  have b1 := growth_bounds f1.wide ((f1.time : Int) + ticks1)
  have b2 := growth_bounds f2.wide ((f2.time : Int) + ticks2)
  rw [← hd1] at b1
  rw [← hd2] at b2
  have l1 := live_moof_length h1 fr1 n hd1
  have l2 := live_moof_length h2 fr2 n hd2
  have o1 : (g1.run.offset : Int) = f1.run.offset + d1 := a1.offset
  have o2 : (g2.run.offset : Int) = f2.run.offset + d2 := a2.offset
  have q1 := a1.moof
  have q2 := a2.moof
  have hv1 : g1.mfhd.length = 8 := by
    rw [a1.mfhd, List.length_append, beBytes_length, show (f1.live fr1 n ((f1.time : Int) + ticks1) d1).vf = f1.vf from rfl, h1.vf]
  have hv2 : g2.mfhd.length = 8 := by
    rw [a2.mfhd, List.length_append, beBytes_length, show (f2.live fr2 n ((f2.time : Int) + ticks2) d2).vf = f2.vf from rfl, h2.vf]
  have w1 : g1.moof.length = 16 + (8 + g1.traf.length) := by
    unfold TrackSegment.moof
    rw [List.length_append, boxBytes_len rfl, boxBytes_len rfl, hv1]
  have w2 : g2.moof.length = 16 + (8 + g2.traf.length) := by
    unfold TrackSegment.moof
    rw [List.length_append, boxBytes_len rfl, boxBytes_len rfl, hv2]
  have f1' := hfit.first
  have f2' := hfit.second
  have f3' := hfit.media
  have z1 := u1.data
  have z2 := u2.data
  have hm1 : g1.media.length = m1.length := by rw [a1.media]
  have hmux := C15_layout g1 g2 a1.ok a2.ok (by omega) (by omega) (by omega) (by rw [a1.media, a2.media]; exact f3')
  have hoff1 : (f1.live fr1 n ((f1.time : Int) + ticks1) d1).run.offset = f1.run.offset + d1 := rfl
  have hoff2 : (f2.live fr2 n ((f2.time : Int) + ticks2) d2).run.offset = f2.run.offset + d2 := rfl
  have c1 := a1.traf (8 + g2.traf.length) (by rw [hoff1]; omega)
  have c2 := a2.traf (8 + g1.traf.length + g1.media.length) (by rw [hoff2]; omega)
  have k1 : (g1.moved (8 + g2.traf.length)).traf.length = g1.traf.length := traf_moved_length _ _
  have k2 : (g2.moved (8 + g1.traf.length + g1.media.length)).traf.length = g2.traf.length := traf_moved_length _ _
  have hseq : (f1.live fr1 n ((f1.time : Int) + ticks1) d1).seq = n.toNat := rfl
  have hvf : (f1.live fr1 n ((f1.time : Int) + ticks1) d1).vf = f1.vf := rfl
  rw [c1, c2, a1.mfhd, a1.styp, a1.media, a2.media, hseq, hvf] at hmux
  rw [c1] at k1
  rw [c2] at k2
  rw [← hm1] at f2'
  refine ⟨8 + g2.traf.length, 8 + g1.traf.length + m1.length, _, rfl, ?_, ?_, ?_⟩
  · rw [hmux, muxedBytes]
    simp only [List.flatMap_cons, List.flatMap_nil, List.append_nil]
  all_goals
    have hout : ∀ k : Nat, (muxedBytes styp f1.vf n.toNat [(f1.live fr1 n ((f1.time : Int) + ticks1) d1).track.shifted
        ((8 + g2.traf.length : Nat) : Int), (f2.live fr2 n ((f2.time : Int) + ticks2) d2).track.shifted
        ((8 + g1.traf.length + m1.length : Nat) : Int)] (m1 ++ m2)).drop
          (muxedStart styp + (8 + (16 + (8 + g1.traf.length) + (8 + g2.traf.length))) + (8 + k)) = (m1 ++ m2).drop k := by
      intro k
      rw [hm1] at k2
      have hs : muxedStart styp = (boxBytes tyStyp styp).length := by rw [muxedStart, boxBytes_len rfl]
      have hb : 8 + (16 + (8 + g1.traf.length) + (8 + g2.traf.length)) =
          (boxBytes tyMoof (boxBytes tyMfhd (f1.vf ++ beBytes 4 n.toNat) ++
            [(f1.live fr1 n ((f1.time : Int) + ticks1) d1).track.shifted
              ((8 + g2.traf.length : Nat) : Int), (f2.live fr2 n ((f2.time : Int) + ticks2) d2).track.shifted
              ((8 + g1.traf.length + m1.length : Nat) : Int)].flatMap fun t => boxBytes tyTraf t.content)).length := by
        simp only [List.flatMap_cons, List.flatMap_nil, List.append_nil, boxBytes_len (ty := tyMoof) rfl,
          boxBytes_len (ty := tyMfhd) rfl, boxBytes_len (ty := tyTraf) rfl, List.length_append, beBytes_length, h1.vf, k1, k2]
        omega
      rw [hs, hb, muxedBytes, drop_box_front (by omega)]
      congr 1
      omega
  · intro x hin
    obtain ⟨k, hk⟩ : ∃ k : Nat, (f1.one.moof.length : Int) + 8 + k = f1.run.offset :=
      ⟨(f1.run.offset - f1.one.moof.length - 8).toNat, by omega⟩
    have hin' := hin
    unfold LiveFragment.Inside at hin'
    rw [LiveFragment.stored_samples h1 u1 hk x hin (data := (m1 ++ m2).drop k) (by
      rw [List.drop_append_of_le_length (by omega), List.take_append_of_le_length (by rw [List.length_drop])])]
    rw [TrackFragment.samples, ← hout k]
    have hpos : ((muxedStart styp : Int) + ((f1.live fr1 n ((f1.time : Int) + ticks1) d1).track.shifted
        ((8 + g2.traf.length : Nat) : Int)).run.offset).toNat =
        muxedStart styp + (8 + (16 + (8 + g1.traf.length) + (8 + g2.traf.length))) + (8 + k) := by
      show ((muxedStart styp : Int) + (f1.run.offset + d1 + ((8 + g2.traf.length : Nat) : Int))).toNat = _
      omega
    rw [hpos]
    exact runSamples_later f1.head f1.run x _ _ _ _ _ _ t1
  · intro x hin
    obtain ⟨k, hk⟩ : ∃ k : Nat, (f2.one.moof.length : Int) + 8 + k = f2.run.offset :=
      ⟨(f2.run.offset - f2.one.moof.length - 8).toNat, by omega⟩
    have hin' := hin
    unfold LiveFragment.Inside at hin'
    rw [LiveFragment.stored_samples h2 u2 hk x hin (data := (m1 ++ m2).drop (m1.length + k)) (by
      rw [← List.drop_drop, List.drop_left])]
    rw [TrackFragment.samples, ← hout (m1.length + k)]
    have hpos : ((muxedStart styp : Int) + ((f2.live fr2 n ((f2.time : Int) + ticks2) d2).track.shifted
        ((8 + g1.traf.length + m1.length : Nat) : Int)).run.offset).toNat =
        muxedStart styp + (8 + (16 + (8 + g1.traf.length) + (8 + g2.traf.length))) + (8 + (m1.length + k)) := by
      show ((muxedStart styp : Int) + (f2.run.offset + d2 + ((8 + g1.traf.length + m1.length : Nat) : Int))).toNat = _
      omega
    rw [hpos]
    exact runSamples_later f2.head f2.run x _ _ _ _ _ _ t2

/-! ### The names in the request -/

/-- The directory name of a request for two representations. -/
def twoNames (a b : Text) : Text := a ++ '_' :: '_' :: b

theorem splitDivider_two {b : Text} (hb : ¬ ['_', '_'] <:+: b) : ∀ {a : Text}, ¬ ['_', '_'] <:+: a → a.getLast? ≠ some '_' →
    splitDivider (twoNames a b) = [a, b] := by
  intro a
  induction a with
  | nil =>
    intro _ _
    show splitDivider ('_' :: '_' :: b) = _
    rw [splitDivider, splitDivider_single hb]
  | cons x xs ih =>
    intro h hl
    have hxs : ¬ ['_', '_'] <:+: xs := fun hi => h (hi.trans (List.infix_cons (List.infix_refl xs)))
    have hlast : xs ≠ [] → xs.getLast? ≠ some '_' := by
      intro hne he
      apply hl
      rw [List.getLast?_cons, he]
      rfl
    have hsplit : splitDivider (twoNames xs b) = [xs, b] := by
      by_cases hne : xs = []
      · subst hne
        show splitDivider ('_' :: '_' :: b) = _
        rw [splitDivider, splitDivider_single hb]
      · exact ih hxs (hlast hne)
    show splitDivider (x :: (xs ++ '_' :: '_' :: b)) = _
    unfold splitDivider
    split
    · rename_i heq; cases heq
    · rename_i ys heq
      injection heq with e1 e2
      subst e1
      cases xs with
      | nil => exact absurd rfl hl
      | cons y ys' =>
        injection e2 with e3 e4
        subst e3
        exact absurd ⟨[], ys', rfl⟩ h
    · rename_i y ys _ heq
      injection heq with e1 e2
      rw [← e2, ← e1]
      show (match splitDivider (twoNames xs b) with | [] => [[x]] | y :: ys => (x :: y) :: ys) = _
      rw [hsplit]

theorem two_reps {v : VodCfg} {id1 id2 : Text} {reps : List Rep} (h1 : PlainId id1) (h2 : PlainId id2)
    (hl : id1.getLast? ≠ some '_') (hr : (splitDivider (twoNames id1 id2)).mapM v.repInfo = .ok reps) :
    ∃ r1 r2, reps = [r1, r2] ∧ r1.id = id1 ∧ r2.id = id2 ∧ v.repInfo id1 = .ok r1 ∧ v.repInfo id2 = .ok r2 := by
  rw [splitDivider_two h2.single h1.single hl] at hr
  simp only [List.mapM_cons, List.mapM_nil, Py.bind_ok, Py.pure_ok] at hr
  obtain ⟨r1, hr1, _, ⟨r2, hr2, _, rfl, rfl⟩, rfl⟩ := hr
  have hid : ∀ {id : Text} {r : Rep}, v.repInfo id = .ok r → r.id = id := by
    intro id r hr
    unfold VodCfg.repInfo at hr
    split at hr
    · cases hr
    · cases hr; rfl
  exact ⟨r1, r2, rfl, hid hr1, hid hr2, hr1, hr2⟩

theorem beside_two {a b : Text} (ha : '/' ∉ a) (hb : '/' ∉ b) (id : Text) : beside (twoNames a b) id = id := by
  unfold beside
  rw [splitChar_noSep (fun x hx e => by
    subst e
    rw [twoNames, List.mem_append] at hx
    rcases hx with hx | hx
    · exact ha hx
    · simp only [List.mem_cons] at hx
      rcases hx with hx | hx | hx
      · exact absurd hx (by decide)
      · exact absurd hx (by decide)
      · exact hb hx)]
  rfl

/-! ### The replies -/

/-- A stored segment that can be one of two in a reply: it can be multiplexed, and there is room for what the filter adds. -/
structure LiveFragment.Partner (f : LiveFragment) (brands : List Bytes) (media : Bytes) : Prop where
  ok : f.Ok
  mux : f.Muxable brands media
  room : f.timed.Room

/-- **C84.** Content that the analyser accepted: a request that names two representations, and for which the server decides
to send a media segment, is answered with one segment that has the tracks of both.  Its only fragment has the requested
number, and the track fragment of either representation holds exactly its stored samples, in order, with their bytes, moved
by the loop offset.  The segment type is the one of the first representation, with the mark of the last segment when it is
the last.  Missing: segments without segment type box and with several runs, for which it is false (C15), a second
representation whose headers do not say that offsets count from the fragment (`C84_base_violation`), fragments with other
boxes beside the track fragment (`C84_box_violation`), the events of either track (`C84_event_violation`). -/
theorem C84_media_partial {pf : Text → Option Rat} {base : Text} {fs : Files} {mpd : Xml} {vodOf : Text → Py VodCfg}
    {name : Text} {a1 a2 : Xml} {ifile1 ifile2 : Text} {x1 x2 : Xml} {id1 id2 : Text} {seg1 seg2 : Nat → LiveFragment}
    (hS1 : StoredRep base fs mpd vodOf name a1 ifile1 x1 id1 fun k => (seg1 k).timed)
    (hS2 : StoredRep base fs mpd vodOf name a2 ifile2 x2 id2 fun k => (seg2 k).timed)
    (hi1 : '/' ∉ id1) (hi2 : '/' ∉ id2) (hlast : id1.getLast? ≠ some '_')
    {now : Int} {t : Rat} {c : Cfg} {w : Served}
    (hurl : ∃ opts file, (∀ p ∈ opts, (partSlot p).isSome) ∧
      processUrl pf vodOf (opts ++ [name, twoNames id1 id2, file]) now = .ok c)
    (hw : getMedia pf c t = .ok (.media w))
    {br1 br2 : List Bytes} {m1 m2 : Bytes}
    (hp1 : (seg1 w.vodNr.toNat).Partner br1 m1) (hp2 : (seg2 w.vodNr.toNat).Partner br2 m2)
    (hfit : (seg1 w.vodNr.toNat).Fits m1 (seg2 w.vodNr.toNat) m2) (hbase : bitSet (seg2 w.vodNr.toNat).head.f2 1 = true)
    (hscte : 0 < c.scte35 → w.segNr * c.segDur < 2 ^ 32)
    {stamp : Text} (hstamp : w.emsgLast = true → Ascii stamp ∧ stamp.length < 2 ^ 30) :
    ∃ (init1 init2 : Bytes) (info1 info2 : InitInfo),
      fs.file (id1 ++ '/' :: ifile1) = some init1 ∧ initInfo init1 = .ok info1 ∧
      fs.file (id2 ++ '/' :: ifile2) = some init2 ∧ initInfo init2 = .ok info2 ∧
      (0 ≤ w.segNr → w.segNr < 2 ^ 32 →
        0 ≤ (seg1 w.vodNr.toNat).time + w.offset * info1.timescale →
        (seg1 w.vodNr.toNat).time + w.offset * info1.timescale < 2 ^ 64 →
        0 ≤ (seg2 w.vodNr.toNat).time + w.offset * info2.timescale →
        (seg2 w.vodNr.toNat).time + w.offset * info2.timescale < 2 ^ 64 →
        ∃ (out styp : Bytes) (T1 T2 : TrackFragment), mediaBody fs c w stamp = .ok (.whole out) ∧
          styp = (br1.filter (fun b => decide (b ≠ lmsg)) ++ if w.lmsg then [lmsg] else []).flatten ∧
          out = muxedBytes styp (seg1 w.vodNr.toNat).vf w.segNr.toNat [T1, T2] (m1 ++ m2) ∧
          T1.head = (seg1 w.vodNr.toNat).head ∧ T2.head = (seg2 w.vodNr.toNat).head ∧
          (T1.time : Int) = (seg1 w.vodNr.toNat).time + w.offset * info1.timescale ∧
          (T2.time : Int) = (seg2 w.vodNr.toNat).time + w.offset * info2.timescale ∧
          ∀ x1 x2, (seg1 w.vodNr.toNat).Inside m1 x1 → (seg2 w.vodNr.toNat).Inside m2 x2 →
            readTracks out (muxedStart styp) (muxedStart styp) [(T1, x1), (T2, x2)] =
              [((seg1 w.vodNr.toNat).seg.samples x1).map (Sample.later (w.offset * info1.timescale)),
                ((seg2 w.vodNr.toNat).seg.samples x2).map (Sample.later (w.offset * info2.timescale))]) := by
  obtain ⟨opts, file, ho, hu⟩ := hurl
  obtain ⟨v, reps, e1, e6, -, e2, -, -, e7, -⟩ := processUrl_files ho hS1.slot hu
  obtain ⟨r1, r2, rfl, q1, q2, hr1, hr2⟩ := two_reps (hS1.analysed.ids a1 hS1.set x1 hS1.rep id1 hS1.named)
    (hS2.analysed.ids a2 hS2.set x2 hS2.rep id2 hS2.named) hlast e6
  obtain ⟨init1, info1, k, z1, i1, i2, hk, -, -, -, i3, -, -, i4, -, -, -, i5, i6, i7, i8⟩ :=
    rep_decision hS1 ⟨opts, file, ho, hu⟩ hw (rp := r1) (fun v' hv' => by rw [e1] at hv'; cases hv'; exact hr1)
  obtain ⟨init2, info2, k', z2, j1, j2, hk', -, -, -, j3, -, -, -, -, -, -, j5, j6, j7, j8⟩ :=
    rep_decision hS2 ⟨opts, file, ho, hu⟩ hw (rp := r2) (fun v' hv' => by rw [e1] at hv'; cases hv'; exact hr2)
  refine ⟨init1, init2, info1, info2, i1, i2, j1, j2, ?_⟩
  intro n0 n1 s0 s1 t0 t1
  have hkk : w.vodNr.toNat = k := by omega
  have hkk' : k' = k := by omega
  subst hkk'
  rw [hkk] at hp1 hp2 hfit hbase s0 s1 t0 t1 ⊢
  have ts : ∀ {info : InitInfo} {init : Bytes} {X : Int}, initInfo init = .ok info → 10 * |X| < (info.timescale : Int) →
      0 < info.timescale ∧ info.timescale < 2 ^ 32 := by
    intro info init X h h'
    have := initInfo_timescale h
    have := abs_nonneg X
    omega
  obtain ⟨u1, u2⟩ := ts i2 i3
  obtain ⟨v1, v2⟩ := ts j2 j3
  have hemsg : ∀ r, ∀ m, (segmentFilter c r w stamp none).emsgLast = some m → Ascii m := by
    intro r m hm
    have hm : (if w.emsgLast then some stamp else none) = some m := hm
    split at hm
    · rename_i he; cases hm; exact (hstamp he).1
    · cases hm
  obtain ⟨y1, hy1⟩ := filter_sent (c := c) (w := w) (rp := r1) (dd := none) i6 i7 hp1.room.frag hp1.room.size hp1.room.dur
    i4.le (by omega) (by omega) hscte (fun he => (hstamp he).2) n0 n1 (by rw [i5]; exact s0) (by rw [i5]; exact s1)
  obtain ⟨y2, hy2⟩ := filter_sent (c := c) (w := w) (rp := r2) (dd := none) j6 j7 hp2.room.frag hp2.room.size hp2.room.dur
    i4.le (by omega) (by omega) hscte (fun he => (hstamp he).2) n0 n1 (by rw [j5]; exact t0) (by rw [j5]; exact t1)
  have off1 : (segmentFilter c r1 w stamp none).offset * r1.timescale = w.offset * info1.timescale := by rw [i5]; rfl
  have off2 : (segmentFilter c r2 w stamp none).offset * r2.timescale = w.offset * info2.timescale := by rw [j5]; rfl
  have b1 : (seg1 k').timed.bytes = (seg1 k').seg.bytes := ((seg1 k').bytes_eq hp1.ok.offset).symm
  have b2 : (seg2 k').timed.bytes = (seg2 k').seg.bytes := ((seg2 k').bytes_eq hp2.ok.offset).symm
  obtain ⟨fr1, d1, g1, hd1, -, o1, A1⟩ := hp1.ok.muxed hp1.mux (c := segmentFilter c r1 w stamp none) rfl rfl (hemsg r1)
    (by rw [← b1]; exact hy1)
  obtain ⟨fr2, d2, g2, hd2, -, o2, A2⟩ := hp2.ok.muxed hp2.mux (c := segmentFilter c r2 w stamp none) rfl rfl (hemsg r2)
    (by rw [← b2]; exact hy2)
  rw [off1] at hd1 A1
  rw [off2] at hd2 A2
  obtain ⟨e1', e2', out, hout, hmux, hs1, hs2⟩ := mux_live hp1.ok hp2.ok hp1.mux hp2.mux hfit s0 t0 hd1 hd2 A1 A2
  refine ⟨out, _, _, _, ?_, rfl, hout, rfl, rfl, Int.toNat_of_nonneg s0, Int.toNat_of_nonneg t0, ?_⟩
  swap
  · intro x1 x2 n1 n2
    have hb2 : (((seg2 k').live fr2 w.segNr (((seg2 k').time : Int) + w.offset * info2.timescale) d2).track.shifted e2').head = (seg2 k').head := rfl
    simp only [readTracks]
    rw [hb2, if_pos hbase, ite_self]
    exact congrArg₂ (fun a b => [a, b]) (hs1 x1 n1) (hs2 x2 n2)
  unfold mediaBody
  rw [e7]
  dsimp only
  rw [e2, q1, q2, beside_two hi1 hi2, beside_two hi1 hi2, i8, j8, hy1]
  dsimp only
  rw [hy2]
  dsimp only
  rw [o1, o2, hmux]

theorem muxedBytes_ne_nil (styp vf : Bytes) (n : Nat) (ts : List TrackFragment) (media : Bytes) :
    muxedBytes styp vf n ts media ≠ [] := by
  intro hc
  have := congrArg List.length hc
  rw [muxedBytes, List.length_append, boxBytes_length] at this
  simp at this

/-- **C84, over HTTP.** The server answers the request for a segment of two representations with 200 and this segment. -/
theorem C84_http_partial {u : Setup} {s : Site} {base : Text} {mpd : Xml}
    {name : Text} {a1 a2 : Xml} {ifile1 ifile2 : Text} {x1 x2 : Xml} {id1 id2 : Text} {seg1 seg2 : Nat → LiveFragment}
    (hS1 : StoredRep base (s.files name) mpd s.vodOf name a1 ifile1 x1 id1 fun k => (seg1 k).timed)
    (hS2 : StoredRep base (s.files name) mpd s.vodOf name a2 ifile2 x2 id2 fun k => (seg2 k).timed)
    (hi1 : '/' ∉ id1) (hi2 : '/' ∉ id2) (hlast : id1.getLast? ≠ some '_')
    {now : Rat} {c : Cfg} {w : Served} {first : Text} {opts : List Text} {file : Text} {r : Request}
    (hr : r.parts = [] :: first :: (opts ++ [name, twoNames id1 id2, file])) (ho : ∀ p ∈ opts, (partSlot p).isSome)
    (hext : (splitext file).2 = ".m4s".toList) (hrange : r.range = none)
    (hurl : processUrl s.pf s.vodOf (opts ++ [name, twoNames id1 id2, file]) (pyTrunc now) = .ok c)
    (hw : getMedia s.pf c now = .ok (.media w)) (hgate : gate u.maxLen r now = .pass)
    {br1 br2 : List Bytes} {m1 m2 : Bytes}
    (hp1 : (seg1 w.vodNr.toNat).Partner br1 m1) (hp2 : (seg2 w.vodNr.toNat).Partner br2 m2)
    (hfit : (seg1 w.vodNr.toNat).Fits m1 (seg2 w.vodNr.toNat) m2) (hbase : bitSet (seg2 w.vodNr.toNat).head.f2 1 = true)
    (hscte : 0 < c.scte35 → w.segNr * c.segDur < 2 ^ 32)
    (hstamp : w.emsgLast = true → (makeTimestamp (pyTrunc now : Int)).length < 2 ^ 30)
    {init1 init2 : Bytes} {info1 info2 : InitInfo} (hin1 : (s.files name).file (id1 ++ '/' :: ifile1) = some init1)
    (hinfo1 : initInfo init1 = .ok info1) (hin2 : (s.files name).file (id2 ++ '/' :: ifile2) = some init2)
    (hinfo2 : initInfo init2 = .ok info2) (n0 : 0 ≤ w.segNr) (n1 : w.segNr < 2 ^ 32)
    {start1 start2 : Int} (hs1 : start1 = (seg1 w.vodNr.toNat).time + w.offset * info1.timescale)
    (hs2 : start2 = (seg2 w.vodNr.toNat).time + w.offset * info2.timescale)
    (t0 : 0 ≤ start1) (t1 : start1 < 2 ^ 64) (u0 : 0 ≤ start2) (u1 : start2 < 2 ^ 64) (sid : Text) (dflt : Headers) :
    ∃ (out styp : Bytes) (T1 T2 : TrackFragment),
      Delivers (serve u s sid dflt r now).1 (mimeType ".m4s".toList) out ∧
      styp = (br1.filter (fun b => decide (b ≠ lmsg)) ++ if w.lmsg then [lmsg] else []).flatten ∧
      out = muxedBytes styp (seg1 w.vodNr.toNat).vf w.segNr.toNat [T1, T2] (m1 ++ m2) ∧
      T1.head = (seg1 w.vodNr.toNat).head ∧ T2.head = (seg2 w.vodNr.toNat).head ∧ T1.time = start1 ∧ T2.time = start2 ∧
      ∀ x1 x2, (seg1 w.vodNr.toNat).Inside m1 x1 → (seg2 w.vodNr.toNat).Inside m2 x2 →
        readTracks out (muxedStart styp) (muxedStart styp) [(T1, x1), (T2, x2)] =
          [((seg1 w.vodNr.toNat).seg.samples x1).map (Sample.later (w.offset * info1.timescale)),
            ((seg2 w.vodNr.toNat).seg.samples x2).map (Sample.later (w.offset * info2.timescale))] := by
  obtain ⟨i1, i2, j1, j2, e1, e2, e3, e4, hall⟩ := C84_media_partial hS1 hS2 hi1 hi2 hlast ⟨opts, file, ho, hurl⟩ hw hp1 hp2
    hfit hbase hscte (stamp := makeTimestamp (pyTrunc now : Int)) (fun he => ⟨makeTimestamp_ascii _, hstamp he⟩)
  rw [hin1] at e1
  cases e1
  rw [hinfo1] at e2
  cases e2
  rw [hin2] at e3
  cases e3
  rw [hinfo2] at e4
  cases e4
  subst hs1 hs2
  obtain ⟨out, styp, T1, T2, g1, g2, g3, g4, g5, g6, g7, g8⟩ := hall n0 n1 t0 t1 u0 u1
  obtain ⟨v', reps, -, -, d1, -, d3, d2, -⟩ := processUrl_files ho hS1.slot hurl
  rw [hext] at d2
  have hprov : provide s r now = .data out := by
    unfold provide
    rw [hr]
    simp only [List.drop_succ_cons, List.drop_zero, hurl]
    rw [if_pos d2]
    unfold provideMedia
    rw [hw]
    dsimp only
    rw [d1, g1]
  have hrext : r.ext = ".m4s".toList := by
    unfold Request.ext
    rw [hr]
    rw [show ([] :: first :: (opts ++ [name, twoNames id1 id2, file]) : List Text) =
      ([] :: first :: (opts ++ [name, twoNames id1 id2])) ++ [file] by simp, List.getLastD_concat, hext]
  have hserve := serve_pass (u := u) (s := s) (sid := sid) (dflt := dflt) hgate
  rw [hprov] at hserve
  refine ⟨out, styp, T1, T2, ?_, g2, g3, g4, g5, g6, g7, g8⟩
  rw [hserve, ← hrext]
  exact answer_data u.agent u.notFound hrange (by rw [g3]; exact muxedBytes_ne_nil _ _ _ _ _)

/-- **C84, init.** A request for the initialization segment of two representations, at a time when the server has one, is
answered with the file type and movie header of the first and the tracks of both, with their defaults, as they are stored.
(The durations are not set to 0: `C84_duration_violation`.) -/
theorem C84_init_partial {u : Setup} {s : Site} {base : Text} {mpd : Xml} {name : Text}
    (hA : Analysed base (s.files name) mpd s.vodOf name) (hn : partSlot name = none)
    {a1 a2 x1 x2 : Xml} {id1 id2 : Text} (ha1 : a1 ∈ adaptationSets mpd) (hx1 : x1 ∈ representations a1)
    (hid1 : x1.get "id".toList = some id1) (ha2 : a2 ∈ adaptationSets mpd) (hx2 : x2 ∈ representations a2)
    (hid2 : x2.get "id".toList = some id2) (hi1 : '/' ∉ id1) (hi2 : '/' ∉ id2) (hlast : id1.getLast? ≠ some '_')
    {now : Rat} {c : Cfg} {first : Text} {opts : List Text} {file : Text} {r : Request}
    (hr : r.parts = [] :: first :: (opts ++ [name, twoNames id1 id2, file])) (ho : ∀ p ∈ opts, (partSlot p).isSome)
    (hext : (splitext file).2 = ".mp4".toList) (hrange : r.range = none)
    (hurl : processUrl s.pf s.vodOf (opts ++ [name, twoNames id1 id2, file]) (pyTrunc now) = .ok c)
    (hgate : gate u.maxLen r now = .pass) (htime : c.ast - c.initOff ≤ pyTrunc now)
    {f g : Forest} {ft mv tx tk ft' mv' tx' tk' : Bytes}
    (hf : (s.files name).file (id1 ++ '/' :: file) = some f.bytes) (hg : (s.files name).file (id2 ++ '/' :: file) = some g.bytes)
    (h1 : InitInput f ft mv tx tk) (h2 : InitInput g ft' mv' tx' tk')
    (hsize : 56 + mv.length + tx.length + tx'.length + tk.length + tk'.length < 2 ^ 32) (sid : Text) (dflt : Headers) :
    Delivers (serve u s sid dflt r now).1 (mimeType ".mp4".toList) (muxedInit ft mv tx tx' tk tk').bytes := by
  obtain ⟨v, reps, e1, e6, d1, e2, d3, d2, e7, -⟩ := processUrl_files ho hn hurl
  obtain ⟨r1, r2, rfl, q1, q2, hr1, hr2⟩ := two_reps (hA.ids a1 ha1 x1 hx1 id1 hid1) (hA.ids a2 ha2 x2 hx2 id2 hid2) hlast e6
  rw [hext] at d2
  have hbody : initBody (s.files name) c = .ok (some (muxedInit ft mv tx tx' tk tk').bytes) := by
    unfold initBody
    rw [e7]
    dsimp only
    rw [e2, q1, q2, beside_two hi1 hi2, beside_two hi1 hi2, d3]
    unfold Files.read
    rw [hf]
    dsimp only
    rw [hg]
    dsimp only
    rw [C14_content f g ft mv tx tk ft' mv' tx' tk' h1 h2 hsize]
    rfl
  have hprov : provide s r now = .data (muxedInit ft mv tx tx' tk tk').bytes := by
    unfold provide
    rw [hr]
    simp only [List.drop_succ_cons, List.drop_zero, hurl]
    rw [if_neg (by rw [d2]; decide +kernel), if_neg (by rw [d2]; decide +kernel), if_pos d2]
    unfold provideInit getInit
    rw [if_neg (by rw [d2]; simp), if_neg (by omega), e7]
    dsimp only [List.length_cons, List.length_nil]
    rw [d1, hbody]
    rfl
  have hrext : r.ext = ".mp4".toList := by
    unfold Request.ext
    rw [hr]
    rw [show ([] :: first :: (opts ++ [name, twoNames id1 id2, file]) : List Text) =
      ([] :: first :: (opts ++ [name, twoNames id1 id2])) ++ [file] by simp, List.getLastD_concat, hext]
  have hserve := serve_pass (u := u) (s := s) (sid := sid) (dflt := dflt) hgate
  rw [hprov] at hserve
  rw [hserve, ← hrext]
  refine answer_data u.agent u.notFound hrange ?_
  intro hc
  have := congrArg List.length hc
  simp [muxedInit, Forest.bytes, boxBytes_length] at this

/-! ### Cases -/

/-- Segments of a second representation: three samples, with other sizes.  `flag` says what the offsets count from. -/
def audioLive (flag : UInt8) (nr time : Nat) : LiveFragment :=
  { quarterLive nr time with
    head := ⟨0, flag, 0, 0, 7, 0, 0, 0, 0, 0, []⟩
    run := ⟨0, 0, 3, 1, 120, 0, [⟨60000, 2, 0, 0⟩, ⟨60000, 1, 0, 0⟩, ⟨60000, 2, 0, 0⟩]⟩
    back := [(tyMdat, [50, 51, 60, 70, 71])] }

def audioSeg (k : Nat) : LiveFragment := audioLive 2 k ((k - 1) * 180000)

/-- An initialization segment with all the boxes that the multiplexer needs; the media and the movie have durations. -/
def partnerInit (track : Nat) (kind : Bytes) : Forest :=
  .leaf [102, 116, 121, 112] [105, 115, 111, 54, 0, 0, 0, 0] <|
  .node [109, 111, 111, 118]
    (.leaf [109, 118, 104, 100] [0, 0, 0, 0, 1, 1, 1, 1, 2, 2, 2, 2, 0, 0, 3, 232, 0, 0, 0, 9, 7, 7] <|
     .node [116, 114, 97, 107]
       (.leaf [116, 107, 104, 100] (tkhdPayload true [0, 0, 7] 5 6 track ([0, 0, 0, 0] ++ [0, 0, 0, 0, 0, 0, 0, 9, 6])) <|
        .node [109, 100, 105, 97]
          (.leaf [109, 100, 104, 100] (mdhdPayload false [0, 0, 0] 5 6 90000 [0, 0, 0, 9]) <|
           .leaf [104, 100, 108, 114] (hdlrPayload [0, 0, 0, 0] 0 kind [0]) .nil) .nil) <|
     .node [109, 118, 101, 120]
       (.leaf [116, 114, 101, 120] (trexPayload [0, 0, 0, 0] track 1 1800 0 65536) .nil) .nil) .nil

/-- A directory with three segments. -/
def partnerDir (id : String) (init : Forest) (seg : Nat → LiveFragment) : Text × List (Text × Bytes) :=
  (id.toList, ("init.mp4".toList, init.bytes) ::
    (List.range 3).map fun k => (m4s (natText (k + 1)), (seg (k + 1)).one.bytes))

def videoInit : Forest := partnerInit 2 [118, 105, 100, 101]
def audioInit : Forest := partnerInit 7 [115, 111, 117, 110]

def siteWith (fs : Files) : Site := { tinySite with
  files := fun _ => fs
  vodOf := vodAfter "tiny".toList fs tinyContent }

def partnerFiles : Files := filesOf [partnerDir "V1" videoInit quarterSeg, partnerDir "A1" audioInit audioSeg]

theorem audio_ok {k : Nat} (hk : k = 1 ∨ k = 2 ∨ k = 3) : (audioSeg k).Ok := by
  have hrow : ∀ x ∈ (⟨0, 0, 3, 1, 120, 0, [⟨60000, 2, 0, 0⟩, ⟨60000, 1, 0, 0⟩, ⟨60000, 2, 0, 0⟩]⟩ : SampleRun).rows,
      x.dur < 2 ^ 32 ∧ x.size < 2 ^ 32 ∧ x.flags < 2 ^ 32 ∧ -2 ^ 31 ≤ x.off ∧ x.off < 2 ^ 31 := by decide +kernel
  refine ⟨rfl, ?_, ⟨?_, ?_, ?_, ?_, ?_, ?_⟩, ?_, ⟨?_, ?_, ?_, hrow⟩, ?_, ?_, ?_, ?_, ?_,
    fun x hx => absurd hx List.not_mem_nil, ?_⟩
  case refine_16 =>
    intro x hx
    have hx : x = (tyStyp, [109, 115, 100, 104, 0, 0, 0, 0]) := List.mem_singleton.mp hx
    subst hx
    exact ⟨plain_top (by simp), by decide, by decide, fun _ => by decide⟩
  case refine_17 =>
    intro x hx
    have hx : x = (tyMdat, [50, 51, 60, 70, 71]) := List.mem_singleton.mp hx
    subst hx
    exact ⟨plain_known (by simp), by decide, by decide⟩
  all_goals rcases hk with rfl | rfl | rfl <;> decide +kernel

theorem quarter_partner : (quarterSeg 3).Partner [[109, 115, 100, 104], [0, 0, 0, 0]] [10, 20, 21, 30, 40, 41, 42] where
  ok := quarter_ok (by decide)
  mux := ⟨⟨[], [], rfl, fun x hx => absurd hx List.not_mem_nil⟩, by decide, ⟨rfl, rfl⟩,
    fun x hx => absurd hx List.not_mem_nil, ⟨[], rfl, fun x hx => absurd hx List.not_mem_nil⟩, by decide +kernel⟩
  room := by
    refine ⟨⟨?_, by decide +kernel, ?_⟩, by decide +kernel, by decide +kernel⟩
    · intro x hx
      have hx : x ∈ [FragBox.other tyTfhd (quarterSeg 3).head.payload, (quarterSeg 3).runBox] := hx
      simp only [List.mem_cons, List.not_mem_nil, or_false] at hx
      rcases hx with rfl | rfl
      · trivial
      · show (128 : Int) + 4 < 2 ^ 31; decide
    · intro x hx
      have hx : x = (tyStyp, [109, 115, 100, 104, 0, 0, 0, 0]) := List.mem_singleton.mp hx
      subst hx
      intro _; decide

theorem audio_partner : (audioSeg 3).Partner [[109, 115, 100, 104], [0, 0, 0, 0]] [50, 51, 60, 70, 71] where
  ok := audio_ok (by decide)
  mux := ⟨⟨[], [], rfl, fun x hx => absurd hx List.not_mem_nil⟩, by decide, ⟨rfl, rfl⟩,
    fun x hx => absurd hx List.not_mem_nil, ⟨[], rfl, fun x hx => absurd hx List.not_mem_nil⟩, by decide +kernel⟩
  room := by
    refine ⟨⟨?_, by decide +kernel, ?_⟩, by decide +kernel, by decide +kernel⟩
    · intro x hx
      have hx : x ∈ [FragBox.other tyTfhd (audioSeg 3).head.payload, (audioSeg 3).runBox] := hx
      simp only [List.mem_cons, List.not_mem_nil, or_false] at hx
      rcases hx with rfl | rfl
      · trivial
      · show (120 : Int) + 4 < 2 ^ 31; decide
    · intro x hx
      have hx : x = (tyStyp, [109, 115, 100, 104, 0, 0, 0, 0]) := List.mem_singleton.mp hx
      subst hx
      intro _; decide

theorem partner_analysed : Analysed "tiny".toList partnerFiles tinyContent (siteWith partnerFiles).vodOf "tiny".toList :=
  analysed_after (by decide +kernel) (by decide +kernel) (by decide +kernel)

theorem partner_video : StoredRep "tiny".toList partnerFiles tinyContent (siteWith partnerFiles).vodOf "tiny".toList
    (tinySet "video" "$RepresentationID$/$Number$.m4s" fromOne ["V1"]) "init.mp4".toList
    (.elem "Representation".toList [("id".toList, "V1".toList), ("bandwidth".toList, "9".toList)] [] []) "V1".toList
    fun k => (quarterSeg k).timed where
  analysed := partner_analysed
  unique := by decide +kernel
  set := by
    have : (adaptationSets tinyContent)[0]? = some (tinySet "video" "$RepresentationID$/$Number$.m4s" fromOne ["V1"]) := rfl
    exact List.mem_of_getElem? this
  media := by unfold NumberTemplate; decide +kernel
  init := by unfold InitTemplate; decide +kernel
  ifile := by decide +kernel
  rep := by
    have : (representations (tinySet "video" "$RepresentationID$/$Number$.m4s" fromOne ["V1"]))[0]? =
      some (.elem "Representation".toList [("id".toList, "V1".toList), ("bandwidth".toList, "9".toList)] [] []) := rfl
    exact List.mem_of_getElem? this
  named := by decide +kernel
  slot := by decide +kernel
  loop := by
    intro v hv k h1 h2
    have e : ((siteWith partnerFiles).vodOf "tiny".toList).toOption.map (fun v => (v.firstSeg, v.nrSegs)) = some (1, 3) := by
      decide +kernel
    rw [hv] at e
    have e' : (v.firstSeg, v.nrSegs) = (1, 3) := Option.some.inj e
    have e1 : v.firstSeg = 1 := congrArg Prod.fst e'
    have e2 : v.nrSegs = 3 := congrArg Prod.snd e'
    have : k = 1 ∨ k = 2 ∨ k = 3 := by omega
    rcases this with rfl | rfl | rfl <;>
      exact ⟨by decide +kernel, (quarter_ok (by decide)).timed⟩

theorem partner_audio : StoredRep "tiny".toList partnerFiles tinyContent (siteWith partnerFiles).vodOf "tiny".toList
    (tinySet "audio" "$RepresentationID$/$Number$.m4s" fromOne ["A1"]) "init.mp4".toList
    (.elem "Representation".toList [("id".toList, "A1".toList), ("bandwidth".toList, "9".toList)] [] []) "A1".toList
    fun k => (audioSeg k).timed where
  analysed := partner_analysed
  unique := by decide +kernel
  set := by
    have : (adaptationSets tinyContent)[1]? = some (tinySet "audio" "$RepresentationID$/$Number$.m4s" fromOne ["A1"]) := rfl
    exact List.mem_of_getElem? this
  media := by unfold NumberTemplate; decide +kernel
  init := by unfold InitTemplate; decide +kernel
  ifile := by decide +kernel
  rep := by
    have : (representations (tinySet "audio" "$RepresentationID$/$Number$.m4s" fromOne ["A1"]))[0]? =
      some (.elem "Representation".toList [("id".toList, "A1".toList), ("bandwidth".toList, "9".toList)] [] []) := rfl
    exact List.mem_of_getElem? this
  named := by decide +kernel
  slot := by decide +kernel
  loop := by
    intro v hv k h1 h2
    have e : ((siteWith partnerFiles).vodOf "tiny".toList).toOption.map (fun v => (v.firstSeg, v.nrSegs)) = some (1, 3) := by
      decide +kernel
    rw [hv] at e
    have e' : (v.firstSeg, v.nrSegs) = (1, 3) := Option.some.inj e
    have e1 : v.firstSeg = 1 := congrArg Prod.fst e'
    have e2 : v.nrSegs = 3 := congrArg Prod.snd e'
    have : k = 1 ∨ k = 2 ∨ k = 3 := by omega
    rcases this with rfl | rfl | rfl <;>
      exact ⟨by decide +kernel, (audio_ok (by decide)).timed⟩

/-- The hypotheses of `C84_media_partial` and `C84_http_partial` hold for segment 47. -/
example : twoNames "V1".toList "A1".toList = "V1__A1".toList ∧
    ((decided partnerFiles (siteWith partnerFiles).vodOf ["tsbd_40".toList, "tiny".toList, "V1__A1".toList, "47.m4s".toList]
      100).map fun x => ([x.1.scte35, x.2.segNr, x.2.vodNr, x.2.offset], (x.2.emsgLast, x.2.lmsg))) =
        some ([0, 47, 3, 90], (false, false)) ∧
    (initInfo videoInit.bytes).toOption.map (·.timescale) = some 90000 ∧
    (initInfo audioInit.bytes).toOption.map (·.timescale) = some 90000 ∧
    (quarterSeg 3).Partner [[109, 115, 100, 104], [0, 0, 0, 0]] [10, 20, 21, 30, 40, 41, 42] ∧
    (audioSeg 3).Partner [[109, 115, 100, 104], [0, 0, 0, 0]] [50, 51, 60, 70, 71] ∧
    (quarterSeg 3).Fits [10, 20, 21, 30, 40, 41, 42] (audioSeg 3) [50, 51, 60, 70, 71] ∧
    bitSet (audioSeg 3).head.f2 1 = true ∧ (quarterSeg 3).Inside [10, 20, 21, 30, 40, 41, 42] ⟨1800, 0, 65536⟩ ∧
    (audioSeg 3).Inside [50, 51, 60, 70, 71] ⟨1800, 0, 65536⟩ :=
  ⟨by decide +kernel, by decide +kernel, by decide +kernel, by decide +kernel, quarter_partner, audio_partner,
    ⟨by decide +kernel, by decide +kernel, by decide +kernel⟩, by decide, by unfold LiveFragment.Inside; decide +kernel,
    by unfold LiveFragment.Inside; decide +kernel⟩

/-- The segment with both tracks, as the theorem says it is. -/
def partnerReply (flag : UInt8) (track : Nat) : Bytes × List (TrackFragment × Trex) :=
  let a := { audioLive flag 47 (47 * 180000) with head := ⟨0, flag, 0, 0, track, 0, 0, 0, 0, 0, []⟩ }
  let ts := [((quarterLive 47 (47 * 180000)).track.shifted 88, ⟨1800, 0, 65536⟩), (a.track.shifted 103, ⟨1800, 0, 65536⟩)]
  (muxedBytes [109, 115, 100, 104, 0, 0, 0, 0] [0, 0, 0, 0] 47 (ts.map Prod.fst) [10, 20, 21, 30, 40, 41, 42, 50, 51, 60, 70, 71],
    ts)

/-- Start and bytes of the samples of the tracks of a reply. -/
def trackContent (x : Bytes × List (TrackFragment × Trex)) : List (List (Nat × Bytes)) :=
  (readTracks x.1 16 16 x.2).map fun l => l.map fun s => (s.time, s.data)

def partnerAsk (file : String) : Request := tinyGet ["livesim", "tsbd_40", "tiny", "V1__A1", file]

/-- The server sends it, and both tracks can be read from it. -/
example : got (siteWith partnerFiles) (partnerAsk "47.m4s") 100 =
      some (200, some "video/iso.segment".toList, (partnerReply 2 7).1) ∧
    trackContent (partnerReply 2 7) = [[(8460000, [10]), (8505000, [20, 21]), (8550000, [30]), (8595000, [40, 41, 42])],
      [(8460000, [50, 51]), (8520000, [60]), (8580000, [70, 71])]] := by
  decide +kernel

/-- The initialization segment as the multiplexer sees it: the track is one box. -/
def partnerParts (trak trex : Bytes) : Forest :=
  .leaf [102, 116, 121, 112] [105, 115, 111, 54, 0, 0, 0, 0] <|
  .node [109, 111, 111, 118]
    (.leaf [109, 118, 104, 100] [0, 0, 0, 0, 1, 1, 1, 1, 2, 2, 2, 2, 0, 0, 3, 232, 0, 0, 0, 9, 7, 7] <|
     .leaf [116, 114, 97, 107] trak <|
     .node [109, 118, 101, 120] (.leaf [116, 114, 101, 120] trex .nil) .nil) .nil

def partnerTrak (track : Nat) (kind : Bytes) : Bytes :=
  (Forest.leaf [116, 107, 104, 100] (tkhdPayload true [0, 0, 7] 5 6 track ([0, 0, 0, 0] ++ [0, 0, 0, 0, 0, 0, 0, 9, 6])) <|
    .node [109, 100, 105, 97]
      (.leaf [109, 100, 104, 100] (mdhdPayload false [0, 0, 0] 5 6 90000 [0, 0, 0, 9]) <|
       .leaf [104, 100, 108, 114] (hdlrPayload [0, 0, 0, 0] 0 kind [0]) .nil) .nil).bytes

theorem partnerParts_ok {trak trex : Bytes} (h1 : trak.length < 2 ^ 20) (h2 : trex.length < 2 ^ 20) :
    InitInput (partnerParts trak trex) [105, 115, 111, 54, 0, 0, 0, 0]
      [0, 0, 0, 0, 1, 1, 1, 1, 2, 2, 2, 2, 0, 0, 3, 232, 0, 0, 0, 9, 7, 7] trex trak where
  ok := by
    unfold partnerParts
    simp only [Forest.Ok, Forest.bytes, List.length_append, boxBytes_length, List.length_cons, List.length_nil]
    refine ⟨trivial, by decide, by decide, trivial, by decide, by omega, ⟨trivial, by decide, by decide, trivial, by decide,
      by omega, trivial, by decide, by omega, ⟨trivial, by decide, by omega, trivial⟩, trivial⟩, trivial⟩
  text := by
    intro x hx
    have : x.1 ∈ [([102, 116, 121, 112] : Bytes), [109, 118, 104, 100], [116, 114, 97, 107], [116, 114, 101, 120]] := by
      have hx : x ∈ [([102, 116, 121, 112], [105, 115, 111, 54, 0, 0, 0, 0]), ([109, 118, 104, 100],
        [0, 0, 0, 0, 1, 1, 1, 1, 2, 2, 2, 2, 0, 0, 3, 232, 0, 0, 0, 9, 7, 7]), ([116, 114, 97, 107], trak),
        ([116, 114, 101, 120], trex)] := hx
      simp only [List.mem_cons, List.not_mem_nil, or_false] at hx ⊢
      rcases hx with rfl | rfl | rfl | rfl <;> simp
    simp only [List.mem_cons, List.not_mem_nil, or_false] at this
    rcases this with h | h | h | h <;> rw [h] <;> decide +kernel
  ftyp := rfl
  mvhd := rfl
  trex := rfl
  trak := rfl

/-- The hypotheses of `C84_init_partial` hold, and the server sends what it says. -/
example : videoInit.bytes = (partnerParts (partnerTrak 2 [118, 105, 100, 101]) (trexPayload [0, 0, 0, 0] 2 1 1800 0 65536)).bytes ∧
    audioInit.bytes = (partnerParts (partnerTrak 7 [115, 111, 117, 110]) (trexPayload [0, 0, 0, 0] 7 1 1800 0 65536)).bytes ∧
    got (siteWith partnerFiles) (partnerAsk "init.mp4") 100 = some (200, some "video/mp4".toList,
      (muxedInit [105, 115, 111, 54, 0, 0, 0, 0] [0, 0, 0, 0, 1, 1, 1, 1, 2, 2, 2, 2, 0, 0, 3, 232, 0, 0, 0, 9, 7, 7]
        (trexPayload [0, 0, 0, 0] 2 1 1800 0 65536) (trexPayload [0, 0, 0, 0] 7 1 1800 0 65536)
        (partnerTrak 2 [118, 105, 100, 101]) (partnerTrak 7 [115, 111, 117, 110])).bytes) ∧
    (∃ ft mv tx tk, InitInput (partnerParts (partnerTrak 2 [118, 105, 100, 101]) (trexPayload [0, 0, 0, 0] 2 1 1800 0 65536))
      ft mv tx tk) :=
  ⟨by decide +kernel, by decide +kernel, by decide +kernel, _, _, _, _, partnerParts_ok (by decide +kernel) (by decide +kernel)⟩

/-- **C84 fails for a second representation whose offsets do not count from the fragment.** The header of its track fragments
does not have the flag `default-base-is-moof`.  Alone this means the same, as there is only one track fragment.  The
multiplexer keeps the header and counts from the fragment, but now a client has to count from the end of the data of the
first track: the samples of the second are not found. -/
theorem C84_base_violation :
    Analysed "tiny".toList (filesOf [partnerDir "V1" videoInit quarterSeg, partnerDir "A1" audioInit fun k =>
      audioLive 0 k ((k - 1) * 180000)]) tinyContent (siteWith (filesOf [partnerDir "V1" videoInit quarterSeg,
        partnerDir "A1" audioInit fun k => audioLive 0 k ((k - 1) * 180000)])).vodOf "tiny".toList ∧
    got (siteWith (filesOf [partnerDir "V1" videoInit quarterSeg, partnerDir "A1" audioInit fun k =>
      audioLive 0 k ((k - 1) * 180000)])) (partnerAsk "47.m4s") 100 =
        some (200, some "video/iso.segment".toList, (partnerReply 0 7).1) ∧
    ((audioLive 0 3 360000).seg.samples ⟨1800, 0, 65536⟩).map (·.data) = [[50, 51], [60], [70, 71]] ∧
    (trackContent (partnerReply 0 7)).map (fun l => l.map (·.2)) = [[[10], [20, 21], [30], [40, 41, 42]], [[], [], []]] :=
  ⟨analysed_after (by decide +kernel) (by decide +kernel) (by decide +kernel), by decide +kernel, by decide +kernel,
    by decide +kernel⟩

/-- Segments with a protection system header in the fragment, before the track fragment. -/
def psshSeg (k : Nat) : LiveFragment :=
  { quarterSeg k with
    a := [.other "pssh".toUTF8.toList [0, 0, 0, 0, 1, 2, 3, 4, 0, 0, 0, 0]]
    run := { (quarterSeg k).run with offset := 148 } }

/-- **C84 fails for fragments with other boxes.** The segments of the first representation have a protection system header of
20 bytes in their fragments.  The multiplexer leaves it out and moves the offset only by the size of the second track
fragment: the data of the first track is looked for 20 bytes behind where it is. -/
theorem C84_box_violation :
    Analysed "tiny".toList (filesOf [partnerDir "V1" videoInit psshSeg, partnerDir "A1" audioInit audioSeg]) tinyContent
      (siteWith (filesOf [partnerDir "V1" videoInit psshSeg, partnerDir "A1" audioInit audioSeg])).vodOf "tiny".toList ∧
    ((psshSeg 3).seg.samples ⟨1800, 0, 65536⟩).map (·.data) = [[10], [20, 21], [30], [40, 41, 42]] ∧
    got (siteWith (filesOf [partnerDir "V1" videoInit psshSeg, partnerDir "A1" audioInit audioSeg])) (partnerAsk "47.m4s") 100 =
        some (200, some "video/iso.segment".toList, muxedBytes [109, 115, 100, 104, 0, 0, 0, 0] [0, 0, 0, 0] 47
          [(quarterLive 47 (47 * 180000)).track.shifted 108, (audioLive 2 47 (47 * 180000)).track.shifted 103]
          [10, 20, 21, 30, 40, 41, 42, 50, 51, 60, 70, 71]) ∧
    (readTracks (muxedBytes [109, 115, 100, 104, 0, 0, 0, 0] [0, 0, 0, 0] 47
          [(quarterLive 47 (47 * 180000)).track.shifted 108, (audioLive 2 47 (47 * 180000)).track.shifted 103]
          [10, 20, 21, 30, 40, 41, 42, 50, 51, 60, 70, 71]) 16 16
        [((quarterLive 47 (47 * 180000)).track.shifted 108, ⟨1800, 0, 65536⟩)]).map (fun l => l.map (·.data)) =
      [[[], [], [], []]] :=
  ⟨analysed_after (by decide +kernel) (by decide +kernel) (by decide +kernel), by decide +kernel, by decide +kernel,
    by decide +kernel⟩

/-- **C84 fails for events.** With three ad breaks per minute segment 44 of the video carries an event message.  In the reply
with both tracks there is none: a client of such a representation sees no ad break. -/
theorem C84_event_violation :
    (got (siteWith partnerFiles) (tinyGet ["livesim", "tsbd_40", "scte35_3", "tiny", "V1", "44.m4s"]) 100).map
      (fun x => (x.1, decide (tyEmsg <:+: x.2.2))) = some (200, true) ∧
    (got (siteWith partnerFiles) (tinyGet ["livesim", "tsbd_40", "scte35_3", "tiny", "V1__A1", "44.m4s"]) 100).map
      (fun x => (x.1, decide (tyEmsg <:+: x.2.2))) = some (200, false) := by
  decide +kernel

/-- **C84 fails for durations.** The initialization segment of a live session must not say how long the stored content is,
and that of the video does not: its movie header is changed.  In the one with both tracks the movie header is the stored
one, with its duration of 9 ms. -/
theorem C84_duration_violation :
    (got (siteWith partnerFiles) (tinyGet ["livesim", "tiny", "V1", "init.mp4"]) 100).map
      (fun x => (x.1, decide (boxBytes [109, 118, 104, 100] [0, 0, 0, 0, 1, 1, 1, 1, 2, 2, 2, 2, 0, 0, 3, 232, 0, 0, 0, 9, 7, 7]
        <:+: x.2.2))) = some (200, false) ∧
    (got (siteWith partnerFiles) (tinyGet ["livesim", "tiny", "V1__A1", "init.mp4"]) 100).map
      (fun x => (x.1, decide (boxBytes [109, 118, 104, 100] [0, 0, 0, 0, 1, 1, 1, 1, 2, 2, 2, 2, 0, 0, 3, 232, 0, 0, 0, 9, 7, 7]
        <:+: x.2.2))) = some (200, true) := by
  decide +kernel

/-- **C84 fails for tracks with the same number.** Both representations call their track 2, as they may, being separate
files.  The multiplexer keeps the numbers: in the reply there are two tracks with the same number, and in its
initialization segment too. -/
theorem C84_track_violation :
    Analysed "tiny".toList (filesOf [partnerDir "V1" videoInit quarterSeg, partnerDir "A1" (partnerInit 2 [115, 111, 117, 110])
      fun k => { audioSeg k with head := ⟨0, 2, 0, 0, 2, 0, 0, 0, 0, 0, []⟩ }]) tinyContent
      (siteWith (filesOf [partnerDir "V1" videoInit quarterSeg, partnerDir "A1" (partnerInit 2 [115, 111, 117, 110])
        fun k => { audioSeg k with head := ⟨0, 2, 0, 0, 2, 0, 0, 0, 0, 0, []⟩ }])).vodOf "tiny".toList ∧
    got (siteWith (filesOf [partnerDir "V1" videoInit quarterSeg, partnerDir "A1" (partnerInit 2 [115, 111, 117, 110])
      fun k => { audioSeg k with head := ⟨0, 2, 0, 0, 2, 0, 0, 0, 0, 0, []⟩ }])) (partnerAsk "47.m4s") 100 =
        some (200, some "video/iso.segment".toList, (partnerReply 2 2).1) ∧
    (partnerReply 2 2).2.map (fun x => x.1.head.track) = [2, 2] :=
  ⟨analysed_after (by decide +kernel) (by decide +kernel) (by decide +kernel), by decide +kernel, by decide +kernel⟩

/-- **C84 fails for names that end with an underscore.** The representations `V_` and `A1` are accepted and each is sent, but
`V___A1` is taken for `V` and `_A1`: every segment of both gets 404. -/
theorem C84_name_violation :
    Analysed "tiny".toList (filesOf [partnerDir "V_" videoInit quarterSeg, partnerDir "A1" audioInit audioSeg])
      (tinyMpd [tinySet "video" "$RepresentationID$/$Number$.m4s" fromOne ["V_"],
        tinySet "audio" "$RepresentationID$/$Number$.m4s" fromOne ["A1"]])
      (vodAfter "tiny".toList (filesOf [partnerDir "V_" videoInit quarterSeg, partnerDir "A1" audioInit audioSeg])
        (tinyMpd [tinySet "video" "$RepresentationID$/$Number$.m4s" fromOne ["V_"],
          tinySet "audio" "$RepresentationID$/$Number$.m4s" fromOne ["A1"]])) "tiny".toList ∧
    (["V_", "A1", twoNames "V_".toList "A1".toList |> String.ofList].map fun d =>
      (got { siteWith (filesOf [partnerDir "V_" videoInit quarterSeg, partnerDir "A1" audioInit audioSeg]) with
        vodOf := vodAfter "tiny".toList (filesOf [partnerDir "V_" videoInit quarterSeg, partnerDir "A1" audioInit audioSeg])
          (tinyMpd [tinySet "video" "$RepresentationID$/$Number$.m4s" fromOne ["V_"],
            tinySet "audio" "$RepresentationID$/$Number$.m4s" fromOne ["A1"]]) }
        (tinyGet ["livesim", "tsbd_40", "tiny", d, "47.m4s"]) 100).map (·.1)) = [some 200, some 200, some 404] :=
  ⟨analysed_after (by decide +kernel) (by decide +kernel) (by decide +kernel), by decide +kernel⟩

end Verif
