import Verif.Props.MediaFilter
import Verif.Spec.Run
/-
C43: the segment index inserted by the media segment filter.
-/
namespace Verif

theorem flag_low (a b c d : UInt8) (k : Nat) (hk : k < 8) :
    hasFlag (beVal [a, b, c, d] % 2 ^ 24) k = bitSet d k := by
  unfold hasFlag bitSet
  rw [Nat.testBit_eq_decide_div_mod_eq]
  congr 1
  simp only [beVal, List.length_cons, List.length_nil]
  have := UInt8.toNat_lt d
  have := UInt8.toNat_lt c
  have := UInt8.toNat_lt b
  have e : (a.toNat * 256 ^ (0 + 1 + 1 + 1) + (b.toNat * 256 ^ (0 + 1 + 1) +
    (c.toNat * 256 ^ (0 + 1) + (d.toNat * 256 ^ 0 + 0)))) % 2 ^ 24
      = b.toNat * 65536 + c.toNat * 256 + d.toNat := by omega
  rw [e]
  have : k = 0 ∨ k = 1 ∨ k = 2 ∨ k = 3 ∨ k = 4 ∨ k = 5 ∨ k = 6 ∨ k = 7 := by omega
  rcases this with rfl | rfl | rfl | rfl | rfl | rfl | rfl | rfl <;>
    exact propext ⟨fun h => by omega, fun h => by omega⟩

theorem flag_mid (a b c d : UInt8) (k : Nat) (hk : k < 8) :
    hasFlag (beVal [a, b, c, d] % 2 ^ 24) (8 + k) = bitSet c k := by
  unfold hasFlag bitSet
  rw [Nat.testBit_eq_decide_div_mod_eq]
  congr 1
  simp only [beVal, List.length_cons, List.length_nil]
  have := UInt8.toNat_lt d
  have := UInt8.toNat_lt c
  have := UInt8.toNat_lt b
  have e : (a.toNat * 256 ^ (0 + 1 + 1 + 1) + (b.toNat * 256 ^ (0 + 1 + 1) +
    (c.toNat * 256 ^ (0 + 1) + (d.toNat * 256 ^ 0 + 0)))) % 2 ^ 24
      = b.toNat * 65536 + c.toNat * 256 + d.toNat := by omega
  rw [e]
  have : k = 0 ∨ k = 1 ∨ k = 2 ∨ k = 3 ∨ k = 4 ∨ k = 5 ∨ k = 6 ∨ k = 7 := by omega
  rcases this with rfl | rfl | rfl | rfl | rfl | rfl | rfl | rfl <;>
    exact propext ⟨fun h => by omega, fun h => by omega⟩

/-- The attributes from which the duration of the index comes. -/
def SameTiming (s s' : MfState) : Prop := s'.duration = s.duration ∧ s'.defaultDur = s.defaultDur

theorem SameTiming.refl (s : MfState) : SameTiming s s := ⟨rfl, rfl⟩

theorem SameTiming.trans {s t u : MfState} (h1 : SameTiming s t) (h2 : SameTiming t u) :
    SameTiming s u := ⟨h2.1.trans h1.1, h2.2.trans h1.2⟩

theorem processSaio_timing {d o : Bytes} {s s' : MfState} (h : processSaio d s = .ok (o, s')) :
    SameTiming s s' := by
  unfold processSaio at h
  split at h
  · cases h
  · simp only at h
    split at h
    · cases h
    · split at h
      · cases h
      · simp only [Except.ok.injEq, Prod.mk.injEq] at h
        rw [← h.2]; exact ⟨rfl, rfl⟩

theorem processTfdt_timing {c : MfCfg} {d o : Bytes} {s s' : MfState}
    (h : processTfdt c d s = .ok (o, s')) : SameTiming s s' := by
  unfold processTfdt at h
  simp only at h
  generalize (match c.timescale with | some ts => c.offset * ts | none => 0) = z at h
  (repeat' split at h) <;> first
    | (cases h; done)
    | (simp only [Except.ok.injEq, Prod.mk.injEq] at h; rw [← h.2]; exact ⟨rfl, rfl⟩)

theorem mediaLeaf_timing {c : MfCfg} {ty d o : Bytes} {s s' : MfState}
    (hty : ty ∉ [tyTrun, tyTfhd]) (h : mediaLeaf c ty d s = .ok (o, s')) : SameTiming s s' := by
  simp only [List.mem_cons, not_or] at hty
  unfold mediaLeaf at h
  split at h
  · split at h
    · cases h
    · simp only [Except.ok.injEq, Prod.mk.injEq] at h
      rw [← h.2]; exact ⟨rfl, rfl⟩
  split at h
  · simp only [Except.ok.injEq, Prod.mk.injEq] at h
    rw [← h.2]; exact ⟨rfl, rfl⟩
  rw [if_neg hty.2.1] at h
  split at h
  · split at h
    · cases h
    · simp only [Except.ok.injEq, Prod.mk.injEq] at h
      rw [← h.2]; exact ⟨rfl, rfl⟩
  rw [if_neg hty.1] at h
  split at h
  · exact processSaio_timing h
  split at h
  · exact processTfdt_timing h
  split at h
  · simp only [Except.ok.injEq, Prod.mk.injEq] at h
    rw [← h.2]; exact ⟨rfl, rfl⟩
  · cases h

/-- Boxes that are neither runs nor headers. -/
def Untimed (l : List FragBox) : Prop := ∀ b ∈ l, b.parts.1 ∉ [tyTrun, tyTfhd]

theorem withLeaves_timing {c : MfCfg} (bs : List FragBox) (hb : Untimed bs) (rest : Forest) :
    ∀ (s s' : MfState) (o : Bytes),
    (Forest.withLeaves bs rest).rewrite (mediaLeaf c) s = .ok (o, s') →
    ∃ s1 o2, SameTiming s s1 ∧ rest.rewrite (mediaLeaf c) s1 = .ok (o2, s') := by
  induction bs with
  | nil => intro s s' o h; exact ⟨s, o, .refl s, h⟩
  | cons b bs ih =>
    intro s s' o h
    rw [Forest.withLeaves] at h
    obtain ⟨o1, s1, o2, h1, h2, -⟩ := rewrite_leaf_cons h
    have e1 := mediaLeaf_timing (hb b (by simp)) h1
    obtain ⟨s2, o3, e2, h3⟩ := ih (fun x hx => hb x (by simp [hx])) s1 s' o2 h2
    exact ⟨s2, o3, e1.trans e2, h3⟩

theorem withLeaves_append (l1 l2 : List FragBox) (f : Forest) :
    Forest.withLeaves (l1 ++ l2) f = Forest.withLeaves l1 (Forest.withLeaves l2 f) := by
  induction l1 with
  | nil => rfl
  | cons b bs ih => simp only [List.cons_append, Forest.withLeaves, ih]

theorem trunDuration_rows (r : Run) (dflt : Option Nat) (row : Nat)
    (hrow : ∀ x ∈ r.rows, x.1 < 2 ^ 32 ∧ (r.rowBytes x).length = row) :
    ∀ (rows : List (Nat × Bytes)) (pre rest : Bytes), (∀ x ∈ rows, x ∈ r.rows) →
    trunDuration (pre ++ rows.flatMap r.rowBytes ++ rest) (bitSet r.f1 0) dflt row rows.length
      pre.length
      = .ok (if bitSet r.f1 0 then (rows.map Prod.fst).sum else rows.length * dflt.getD 0) := by
  intro rows
  induction rows with
  | nil => intro pre rest _; simp [trunDuration]
  | cons x xs ih =>
    intro pre rest hin
    obtain ⟨hx, hl⟩ := hrow x (hin x (by simp))
    have hcat : pre ++ (x :: xs).flatMap r.rowBytes ++ rest
        = (pre ++ r.rowBytes x) ++ xs.flatMap r.rowBytes ++ rest := by simp
    have ih' := ih (pre ++ r.rowBytes x) rest (fun y hy => hin y (by simp [hy]))
    rw [List.length_append, hl] at ih'
    rw [List.length_cons, hcat]
    simp only [trunDuration]
    rw [ih']
    cases hb : bitSet r.f1 0 with
    | false =>
      simp only [Bool.false_eq_true, if_false]
      cases dflt with
      | none => simp
      | some d => simp [Nat.add_mul, Nat.add_comm]
    | true =>
      have hsl : slice (pre ++ r.rowBytes x ++ xs.flatMap r.rowBytes ++ rest) pre.length
          (pre.length + 4) = beBytes 4 x.1 := by
        rw [Run.rowBytes, hb, if_pos rfl,
          show pre ++ (beBytes 4 x.1 ++ x.2) ++ xs.flatMap r.rowBytes ++ rest
          = pre ++ beBytes 4 x.1 ++ (x.2 ++ xs.flatMap r.rowBytes ++ rest) by simp]
        exact slice_eq_of_append _ _ _ rfl (by simp)
      rw [if_pos rfl, hsl, strToUint32, if_pos (by simp), beVal_beBytes_of_lt (by omega)]
      simp

theorem processTrun_state {d o : Bytes} {s s' : MfState} {vf count total pos : Nat}
    (h : processTrun d s = .ok (o, s'))
    (h1 : strToUint32 (slice d 8 12) = .ok vf) (h2 : strToUint32 (slice d 12 16) = .ok count)
    (hp : 16 + (if hasFlag (vf % 2 ^ 24) 0 then 4 else 0)
      + (if hasFlag (vf % 2 ^ 24) 2 then 4 else 0) = pos)
    (h3 : trunDuration d (hasFlag (vf % 2 ^ 24) 8) s.defaultDur (trunRow (vf % 2 ^ 24)) count pos
      = .ok total) :
    s'.duration = some (total : Int) ∧ s'.defaultDur = s.defaultDur := by
  unfold processTrun at h
  rw [h1] at h
  simp only at h
  rw [h2] at h
  simp only at h
  rw [hp, h3] at h
  simp only at h
  split at h
  · split at h
    · cases h
    · split at h
      · cases h
      · simp only [Except.ok.injEq, Prod.mk.injEq] at h
        rw [← h.2]; exact ⟨rfl, rfl⟩
  · simp only [Except.ok.injEq, Prod.mk.injEq] at h
    rw [← h.2]; exact ⟨rfl, rfl⟩

theorem processTrun_run (r : Run) (hr : r.Ok) {o : Bytes} {s s' : MfState}
    (h : processTrun (boxBytes tyTrun r.payload) s = .ok (o, s')) :
    s'.duration = some (r.total (s.defaultDur.getD 0) : Int) ∧ s'.defaultDur = s.defaultDur := by
  have s1 : slice (boxBytes tyTrun r.payload) 8 12 = [r.v, r.f2, r.f1, r.f0] := by
    rw [box_slice rfl _ _ _ (by omega)]
    exact slice_eq_of_append [] [r.v, r.f2, r.f1, r.f0] (beBytes 4 r.rows.length ++ r.offset ++ r.first ++
      r.rows.flatMap r.rowBytes) rfl rfl |> (by simpa [Run.payload] using ·)
  have s2 : slice (boxBytes tyTrun r.payload) 12 16 = beBytes 4 r.rows.length := by
    rw [box_slice rfl _ _ _ (by omega)]
    have := slice_eq_of_append [r.v, r.f2, r.f1, r.f0] (beBytes 4 r.rows.length)
      (r.offset ++ r.first ++ r.rows.flatMap r.rowBytes) (a := 4) (b := 8) rfl rfl
    simpa [Run.payload] using this
  refine processTrun_state h (vf := beVal [r.v, r.f2, r.f1, r.f0]) (count := r.rows.length)
    (by rw [s1]; rfl)
    (by rw [s2, strToUint32, if_pos (by simp), beVal_beBytes_of_lt (by have := hr.count; omega)])
    rfl ?_
  rw [flag_low _ _ _ _ 0 (by omega), flag_low _ _ _ _ 2 (by omega)]
  rw [show (8 : Nat) = 8 + 0 from rfl, flag_mid _ _ _ _ 0 (by omega)]
  have hrow : trunRow (beVal [r.v, r.f2, r.f1, r.f0] % 2 ^ 24)
      = (if bitSet r.f1 0 then 4 else 0) + (if bitSet r.f1 1 then 4 else 0) +
        (if bitSet r.f1 2 then 4 else 0) + (if bitSet r.f1 3 then 4 else 0) := by
    unfold trunRow
    rw [show (9 : Nat) = 8 + 1 from rfl, show (10 : Nat) = 8 + 2 from rfl,
      show (11 : Nat) = 8 + 3 from rfl, show (8 : Nat) = 8 + 0 from rfl,
      flag_mid _ _ _ _ 0 (by omega), flag_mid _ _ _ _ 1 (by omega), flag_mid _ _ _ _ 2 (by omega),
      flag_mid _ _ _ _ 3 (by omega)]
  rw [hrow]
  have hbytes : boxBytes tyTrun r.payload = (beBytes 4 (8 + r.payload.length) ++ tyTrun ++
      [r.v, r.f2, r.f1, r.f0] ++ beBytes 4 r.rows.length ++ r.offset ++ r.first) ++
      r.rows.flatMap r.rowBytes ++ [] := by
    simp [boxBytes, Run.payload]
  have := trunDuration_rows r s.defaultDur
    ((if bitSet r.f1 0 then 4 else 0) + (if bitSet r.f1 1 then 4 else 0) +
        (if bitSet r.f1 2 then 4 else 0) + (if bitSet r.f1 3 then 4 else 0))
    (fun x hx => ⟨(hr.rows x hx).1, by
      rw [Run.rowBytes, List.length_append, (hr.rows x hx).2]
      split <;> simp <;> omega⟩) r.rows (beBytes 4 (8 + r.payload.length) ++ tyTrun ++
      [r.v, r.f2, r.f1, r.f0] ++ beBytes 4 r.rows.length ++ r.offset ++ r.first) []
    (fun x hx => hx)
  rw [hbytes]
  refine Eq.trans ?_ this
  congr 1
  simp only [List.length_append, beBytes_length, hr.offset, hr.first, List.length_cons,
    List.length_nil]

theorem processTfhd_header (t : TrackHeader) (ht : t.Ok) {o : Bytes} {s s' : MfState}
    (h : processTfhd (boxBytes tyTfhd t.payload) s = .ok (o, s')) :
    s'.duration = s.duration ∧ s'.defaultDur = (match t.dur with
      | some d => some d
      | none => s.defaultDur) := by
  have s1 : slice (boxBytes tyTfhd t.payload) 8 12 = [t.v, t.f2, t.f1, t.f0] := by
    rw [box_slice rfl _ _ _ (by omega)]
    exact slice_eq_of_append [] [t.v, t.f2, t.f1, t.f0] _ rfl rfl |>
      (by simpa [TrackHeader.payload] using ·)
  have hvf : strToUint32 (slice (boxBytes tyTfhd t.payload) 8 12)
      = .ok (beVal [t.v, t.f2, t.f1, t.f0]) := by rw [s1]; rfl
  have b0 := flag_low t.v t.f2 t.f1 t.f0 0 (by omega)
  have b1 := flag_low t.v t.f2 t.f1 t.f0 1 (by omega)
  have b3 := flag_low t.v t.f2 t.f1 t.f0 3 (by omega)
  generalize beVal [t.v, t.f2, t.f1, t.f0] = vf at hvf b0 b1 b3
  unfold processTfhd at h
  rw [hvf] at h
  simp only [b0, b1, b3, ht.base, Bool.false_eq_true, if_false] at h
  have hpos : ∀ d, t.dur = some d → strToUint32 (slice (boxBytes tyTfhd t.payload)
      (if bitSet t.f0 1 then 20 else 16) ((if bitSet t.f0 1 then 20 else 16) + 4)) = .ok d := by
    intro d hd
    rw [box_slice rfl _ _ _ (by split <;> omega)]
    have e : slice t.payload ((if bitSet t.f0 1 then 20 else 16) - 8)
        ((if bitSet t.f0 1 then 20 else 16) + 4 - 8) = beBytes 4 d := by
      rw [TrackHeader.payload, hd]
      refine slice_eq_of_append ([t.v, t.f2, t.f1, t.f0] ++ t.track ++ t.desc) (beBytes 4 d) t.rest
        ?_ ?_
      · simp only [List.length_append, List.length_cons, List.length_nil, ht.track, ht.desc]
        split <;> rfl
      · simp only [List.length_append, List.length_cons, List.length_nil, ht.track, ht.desc,
          beBytes_length]
        split <;> rfl
    rw [e, strToUint32, if_pos (by simp), beVal_beBytes_of_lt (by have := ht.fits d hd; omega)]
  generalize s.ttmlActive = z at h
  cases hd : t.dur with
  | some d =>
    have h3 : bitSet t.f0 3 = true := by rw [← ht.dur, hd]; rfl
    rw [h3, if_pos rfl, hpos d hd] at h
    simp only at h
    cases z with
    | false =>
      simp only [Bool.false_eq_true, if_false, Except.ok.injEq, Prod.mk.injEq] at h
      rw [← h.2]; exact ⟨rfl, rfl⟩
    | true =>
      simp only [if_true] at h
      split at h
      · cases hu : uint32ToStr ((s.ttmlSize.getD 0 : Nat) : Int) with
        | error e => rw [hu] at h; cases h
        | ok w =>
          rw [hu] at h
          simp only [Except.ok.injEq, Prod.mk.injEq] at h
          rw [← h.2]; exact ⟨rfl, rfl⟩
      · cases h
  | none =>
    have h3 : bitSet t.f0 3 = false := by rw [← ht.dur, hd]; rfl
    rw [h3] at h
    cases z with
    | false =>
      simp only [Bool.false_eq_true, if_false, Except.ok.injEq, Prod.mk.injEq] at h
      rw [← h.2]; exact ⟨rfl, rfl⟩
    | true =>
      simp only [Bool.false_eq_true, if_false, if_true] at h
      cases h

/-- The duration of the fragment, in a track whose header may give a default duration and
whose initialisation segment may give another. -/
def fragDuration (t : TrackHeader) (r : Run) (trex : Option Nat) : Nat :=
  r.total (match t.dur with | some d => d | none => trex.getD 0)

theorem fragment_duration (c : MfCfg) (mfhd tfdt : Bytes) (a p1 p2 q1 q2 b : List FragBox)
    (ha : Untimed a) (hp1 : Untimed p1) (hp2 : Untimed p2) (hq1 : Untimed q1) (hq2 : Untimed q2)
    (hb : Untimed b) (t : TrackHeader) (ht : t.Ok) (r : Run) (hr : r.Ok) (x y : FragBox)
    (hx : x.parts = (tyTfhd, t.payload)) (hy : y.parts = (tyTrun, r.payload))
    (s s' : MfState) (o : Bytes)
    (h : (fragment mfhd a (p1 ++ x :: p2) tfdt (q1 ++ y :: q2) b).rewrite (mediaLeaf c) s
      = .ok (o, s')) :
    s'.duration = some (fragDuration t r s.defaultDur : Int) := by
  rw [fragment, withLeaves_append, withLeaves_append] at h
  simp only [Forest.withLeaves] at h
  rw [hx, hy] at h
  obtain ⟨k, s1, o2, hk, hr1, -, -⟩ := rewrite_node_cons h
  simp only [Forest.rewrite, Except.ok.injEq, Prod.mk.injEq] at hr1
  obtain ⟨-, rfl⟩ := hr1
  obtain ⟨m1, sm, k1, hm, hk1, -⟩ := rewrite_leaf_cons hk
  have e0 := mediaLeaf_timing (by decide) hm
  obtain ⟨sa, ka, ea, hka⟩ := withLeaves_timing a ha _ _ _ _ hk1
  obtain ⟨kt, st, kb, hkt, hkb, -, -⟩ := rewrite_node_cons hka
  obtain ⟨sp, kp, ep, hkp⟩ := withLeaves_timing p1 hp1 _ _ _ _ hkt
  obtain ⟨oh, sh, kh, hh, hkh, -⟩ := rewrite_leaf_cons hkp
  rw [mediaLeaf_tfhd] at hh
  have eh := processTfhd_header t ht hh
  obtain ⟨sp2, kp2, ep2, hkp2⟩ := withLeaves_timing p2 hp2 _ _ _ _ hkh
  obtain ⟨od, sd, kd, hd, hkd, -⟩ := rewrite_leaf_cons hkp2
  have ed := mediaLeaf_timing (by decide) hd
  obtain ⟨sq, kq, eq1, hkq⟩ := withLeaves_timing q1 hq1 _ _ _ _ hkd
  obtain ⟨orr, sr, kr, hrr, hkr, -⟩ := rewrite_leaf_cons hkq
  rw [mediaLeaf_trun] at hrr
  have er := processTrun_run r hr hrr
  obtain ⟨sq2, kq2, eq2, hkq2⟩ := withLeaves_timing q2 hq2 _ _ _ _ hkr
  simp only [Forest.rewrite, Except.ok.injEq, Prod.mk.injEq] at hkq2
  obtain ⟨-, rfl⟩ := hkq2
  obtain ⟨sb, kb2, eb, hkb2⟩ := withLeaves_timing b hb _ _ _ _ hkb
  simp only [Forest.rewrite, Except.ok.injEq, Prod.mk.injEq] at hkb2
  obtain ⟨-, rfl⟩ := hkb2
  rw [eb.1, eq2.1, er.1]
  have hdef : sq.defaultDur = (match t.dur with | some d => some d | none => s.defaultDur) := by
    rw [eq1.2, ed.2, ep2.2, eh.2, ep.2, ea.2, e0.2]
  rw [hdef, fragDuration]
  cases t.dur <;> rfl

/-- **C43 (single run).** When the index is enabled and the filter returns a segment, for every
segment with one fragment whose track fragment has one header and one run and that is followed
only by media data: the inserted index stands directly before the fragment, the referenced size
is exactly the number of bytes from the end of the index to the end of the segment, the
duration is the sum of the sample durations (own, from the header, or from the initialisation
segment), the earliest presentation time is the rewritten decode time in the track's timescale,
and what follows the index is the fragment and the unchanged media data.  Missing for the full
claim: several runs, where the duration is that of the last run only
(`C43_two_runs_violation`), and that the server passes on the duration from the initialisation
segment, which it does not do (`C43_default_violation`). -/
theorem C43_index_partial (c : MfCfg) (n ts : Int) (hn : c.segNr = some n)
    (hts : c.timescale = some ts) (hsx : c.insertSidx = true) (g : OneFragment) (hg : g.Ok)
    (p1 p2 q1 q2 : List FragBox) (x y : FragBox) (t : TrackHeader) (ht : t.Ok) (r : Run)
    (hr : r.Ok) (hx : x.parts = (tyTfhd, t.payload)) (hy : y.parts = (tyTrun, r.payload))
    (hpre : g.pre = p1 ++ x :: p2) (hpost : g.post = q1 ++ y :: q2)
    (hun : Untimed (g.a ++ p1 ++ p2 ++ q1 ++ q2 ++ g.b))
    (hmdat : ∀ z ∈ g.back, z.1 = tyMdat) (final : Bytes) (s' : MfState)
    (h : filterMedia c g.bytes = .ok (final, s')) :
    ∃ (head rest : Bytes) (d : Nat),
      final = head ++ sidxOne ts.toNat ((g.t : Int) + c.offset * ts).toNat rest.length
        (fragDuration t r c.defaultDur) ++ rest ∧
      0 ≤ ts ∧ ts < 2 ^ 32 ∧ rest.length < 2 ^ 32 ∧ fragDuration t r c.defaultDur < 2 ^ 32 ∧
      (d = 0 ∨ d = 4) ∧
      rest = (g.moved n ((g.t : Int) + c.offset * ts) d).moof ++ boxesBytes g.back := by
  obtain ⟨-, -, hnew0, hnew1, htf, d, front, size, emsg, sidx, hd, -, -, -, hidx, hsize, hfin, -⟩ :=
    C11_segment c n ts hn hts g hg final s' h
  have hdur : s'.duration = some (fragDuration t r c.defaultDur : Int) := by
    have hbytes : g.bytes = g.forest.bytes := by
      rw [OneFragment.bytes, OneFragment.forest, segmentOf_bytes, OneFragment.moof]
    unfold filterMedia at h
    rw [hbytes] at h
    cases hf : filterFile (mediaRules c) g.forest.bytes c.init with
    | error e => rw [hf] at h; cases h
    | ok z =>
      obtain ⟨⟨out, boxes⟩, s2⟩ := z
      rw [hf] at h
      simp only at h
      cases hm : mediaFinalize c out boxes s2 with
      | error e => rw [hm] at h; cases h
      | ok w =>
        rw [hm] at h
        simp only [Except.ok.injEq, Prod.mk.injEq] at h
        obtain ⟨-, rfl⟩ := h
        obtain ⟨-, -, -, -, -, ⟨s0, hs0⟩, -⟩ := segment_rewrite c n ts g.vf g.seq hg.vf
          hg.seq hn hts g.front g.back
          (fun x hx => by
            have := hg.front x hx
            simp only [List.mem_cons, not_or] at this ⊢
            exact ⟨this.1, this.2.1, by simp⟩) hg.back g.a g.pre g.post g.b hg.a hg.pre hg.post hg.b
          g.wide g.f2 g.f1 g.f0 g.t hg.t hg.sizes out boxes s2 hf
        rw [hpre, hpost] at hs0
        have un : ∀ l, (∀ b ∈ l, b ∈ g.a ++ p1 ++ p2 ++ q1 ++ q2 ++ g.b) → Untimed l :=
          fun l hl b hb => hun b (hl b hb)
        exact fragment_duration c _ _ g.a p1 p2 q1 q2 g.b
          (un _ fun b hb => by simp [hb]) (un _ fun b hb => by simp [hb])
          (un _ fun b hb => by simp [hb]) (un _ fun b hb => by simp [hb])
          (un _ fun b hb => by simp [hb]) (un _ fun b hb => by simp [hb])
          t ht r hr x y hx hy c.init s2 _ hs0
  have hsz := hsize hmdat
  rw [indexBox, if_pos hsx, createSidx, hts, htf, hdur] at hidx
  simp only at hidx
  generalize (g.t : Int) + c.offset * ts = new at *
  have h52 : uint32ToStr 52 = .ok (beBytes 4 52) := rfl
  have h64 : uint64ToStr 0 = .ok (beBytes 8 0) := rfl
  rw [h52, h64] at hidx
  cases e2 : uint32ToStr ts with
  | error e => rw [e2] at hidx; cases hidx
  | ok b2 =>
  cases e3 : uint64ToStr new with
  | error e => rw [e2, e3] at hidx; cases hidx
  | ok b3 =>
  cases e5 : uint32ToStr (size : Int) with
  | error e => rw [e2, e3, e5] at hidx; cases hidx
  | ok b5 =>
  cases e6 : uint32ToStr (fragDuration t r c.defaultDur : Int) with
  | error e => rw [e2, e3, e5, e6] at hidx; cases hidx
  | ok b6 =>
    rw [e2, e3, e5, e6] at hidx
    obtain ⟨t0, t1, rfl⟩ := uint32ToStr_eq_ok e2
    obtain ⟨-, -, rfl⟩ := uint64ToStr_eq_ok e3
    obtain ⟨-, z1, rfl⟩ := uint32ToStr_eq_ok e5
    obtain ⟨-, w1, rfl⟩ := uint32ToStr_eq_ok e6
    refine ⟨(front.map Prod.snd).flatten ++ emsg,
      (g.moved n new d).moof ++ boxesBytes g.back, d, ?_, t0, t1, ?_, ?_, hd, rfl⟩
    · rw [hfin]
      have : sidx = sidxOne ts.toNat new.toNat ((g.moved n new d).moof ++ boxesBytes g.back).length
          (fragDuration t r c.defaultDur) := by
        have h' := Except.ok.inj hidx
        rw [← h', List.length_append, ← hsz, sidxOne, boxBytes]
        simp only [List.length_append, List.length_cons, List.length_nil, beBytes_length,
          Int.toNat_natCast]
        rfl
      rw [this]
      simp
    · rw [List.length_append, ← hsz]; omega
    · omega

/-! ### cases -/

/-- The example filter with the index switched on. -/
def exampleIndexMf : MfCfg := { exampleMf with insertSidx := true }

/-- The header and run of `exampleFragment`: no default duration; two samples of durations 10
and 20, sizes 6 and 4. -/
def exampleHeader : TrackHeader :=
  { v := 0, f2 := 2, f1 := 0, f0 := 0, track := [0, 0, 0, 1], desc := [], dur := none, rest := [] }

def exampleRun : Run :=
  { v := 0, f2 := 0, f1 := 3, f0 := 1, offset := [0, 0, 0, 128], first := [],
    rows := [(10, [0, 0, 0, 6]), (20, [0, 0, 0, 4])] }

example : exampleHeader.Ok ∧ exampleRun.Ok ∧
    (FragBox.other tyTfhd [0, 2, 0, 0, 0, 0, 0, 1]).parts = (tyTfhd, exampleHeader.payload) ∧
    (FragBox.run 0 0 3 1 [0, 0, 0, 2] 128 [0, 0, 0, 10, 0, 0, 0, 6, 0, 0, 0, 20, 0, 0, 0, 4]).parts
      = (tyTrun, exampleRun.payload) ∧
    fragDuration exampleHeader exampleRun none = 30 ∧
    (filterMedia exampleIndexMf exampleFragment.bytes).toOption.any (fun x =>
      decide (x.1 = x.1.take 20 ++ sidxOne 90000 (4294900000 + 3600 * 90000) (x.1.drop 72).length 30
        ++ x.1.drop 72)) = true := by
  refine ⟨⟨by decide, rfl, rfl, rfl, by simp [exampleHeader]⟩, ⟨by decide, rfl, rfl, ?_⟩,
    by decide +kernel, by decide +kernel, by decide +kernel, by decide +kernel⟩
  intro x hx
  simp only [exampleRun, List.mem_cons, List.not_mem_nil, or_false] at hx
  rcases hx with rfl | rfl <;> exact ⟨by decide, by decide⟩

/-- A fragment with two runs of one sample each, durations 10 and 20. -/
def twoRuns : OneFragment :=
  { exampleFragment with
    post := [.run 0 0 3 1 [0, 0, 0, 1] 128 [0, 0, 0, 10, 0, 0, 0, 6],
      .run 0 0 3 1 [0, 0, 0, 1] 134 [0, 0, 0, 20, 0, 0, 0, 4]] }

/-- **C43 (disagreement).** With two runs the index announces the duration of the last run
(20) though the samples last 30. -/
theorem C43_two_runs_violation :
    (filterMedia exampleIndexMf twoRuns.bytes).toOption.any (fun x =>
      decide (x.1 = x.1.take 20 ++ sidxOne 90000 (4294900000 + 3600 * 90000) (x.1.drop 72).length 20
        ++ x.1.drop 72)) = true ∧ (10 + 20 : Nat) ≠ 20 := by
  constructor <;> decide +kernel

end Verif
