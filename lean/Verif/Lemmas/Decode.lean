import Verif.Spec.SampleRun
import Verif.Lemmas.Parser
import Verif.Lemmas.MediaFilter
import Verif.Lemmas.Config
import Verif.Props.MediaIndex
/-
The decoder of the chunker returns the samples that a fragment describes.
-/
namespace Verif

/-- At position `pos` of `data` stands `b`. -/
def At (data : Bytes) (pos : Nat) (b : Bytes) : Prop := slice data pos (pos + b.length) = b

theorem At.left {data : Bytes} {pos : Nat} {a b : Bytes} (h : At data pos (a ++ b)) :
    At data pos a := by
  unfold At at *
  rw [List.length_append] at h
  have e : slice data pos (pos + a.length)
      = (slice data pos (pos + (a.length + b.length))).take a.length := by
    unfold slice
    rw [List.take_take]
    congr 1
    omega
  rw [e, h, List.take_left]

theorem At.right {data : Bytes} {pos : Nat} {a b : Bytes} (h : At data pos (a ++ b)) :
    At data (pos + a.length) b := by
  unfold At at *
  rw [List.length_append] at h
  have e : slice data (pos + a.length) (pos + a.length + b.length)
      = (slice data pos (pos + (a.length + b.length))).drop a.length := by
    unfold slice
    rw [List.drop_take, List.drop_drop]
    congr 1
    omega
  rw [e, h, List.drop_left]

theorem at_intro (pre b post : Bytes) : At (pre ++ (b ++ post)) pre.length b := by
  unfold At
  rw [← List.append_assoc]
  exact slice_eq_of_append _ _ _ rfl rfl

theorem At.box {data : Bytes} {pos : Nat} {ty p : Bytes} (ht : ty.length = 4)
    (h : At data pos (boxBytes ty p)) : At data (pos + 8) p := by
  unfold boxBytes at h
  have := h.right
  rwa [List.length_append, beBytes_length, ht] at this

theorem At.u32 {data : Bytes} {pos n : Nat} (h : At data pos (beBytes 4 n)) (hn : n < 2 ^ 32) :
    u32At data pos = .ok n := by
  unfold At at h
  rw [beBytes_length] at h
  rw [u32At, h, strToUint32, if_pos (by simp), beVal_beBytes_of_lt (by omega)]

theorem At.u64 {data : Bytes} {pos n : Nat} (h : At data pos (beBytes 8 n)) (hn : n < 2 ^ 64) :
    u64At data pos = .ok n := by
  unfold At at h
  rw [beBytes_length] at h
  rw [u64At, h, strToUint64, if_pos (by simp), beVal_beBytes_of_lt (by omega)]

theorem At.i32 {data : Bytes} {pos : Nat} {x : Int} (h : At data pos (signedBytes x))
    (h0 : -2 ^ 31 ≤ x) (h1 : x < 2 ^ 31) : i32At data pos = .ok x := by
  unfold At at h
  have : (signedBytes x).length = 4 := by simp [signedBytes]
  rw [this] at h
  rw [i32At, h, strToSint32_signedBytes h0 h1]

theorem At.vf {data : Bytes} {pos : Nat} {a b c d : UInt8} (h : At data pos [a, b, c, d]) :
    u32At data pos = .ok (beVal [a, b, c, d]) := by
  unfold At at h
  have hl : ([a, b, c, d] : Bytes).length = 4 := rfl
  rw [hl] at h
  rw [u32At, h]; rfl

theorem optU32_field {data : Bytes} {pos n : Nat} {b : Bool}
    (h : At data pos (field b (beBytes 4 n))) (hn : n < 2 ^ 32) :
    optU32 data b pos = .ok (if b then some n else none, pos + (field b (beBytes 4 n)).length) := by
  cases b with
  | false => rfl
  | true =>
    have : u32At data pos = .ok n := At.u32 (by simpa [field] using h) hn
    simp [optU32, this, field]

theorem optU64_field {data : Bytes} {pos n : Nat} {b : Bool}
    (h : At data pos (field b (beBytes 8 n))) (hn : n < 2 ^ 64) :
    optU64 data b pos = .ok (if b then some n else none, pos + (field b (beBytes 8 n)).length) := by
  cases b with
  | false => rfl
  | true =>
    have : u64At data pos = .ok n := At.u64 (by simpa [field] using h) hn
    simp [optU64, this, field]

theorem flagBit_eq (v k : Nat) : flagBit v k = hasFlag v k := rfl

theorem readTfhd_ok (data : Bytes) (off : Nat) (t : FragHeader) (ht : t.Ok)
    (h : At data off (boxBytes tyTfhd t.payload)) :
    readTfhd data off = .ok ⟨if bitSet t.f0 0 then some t.base else none,
      if bitSet t.f0 3 then some t.dur else none, if bitSet t.f0 4 then some t.size else none,
      if bitSet t.f0 5 then some t.flags else none⟩ := by
  have hp := At.box rfl h
  unfold FragHeader.payload at hp
  have a5 := hp.left.right
  have a4 := hp.left.left.right
  have a3 := hp.left.left.left.right
  have a2 := hp.left.left.left.left.right
  have a1 := hp.left.left.left.left.left.right
  have a0 := hp.left.left.left.left.left.left.left
  have e0 := At.vf a0
  have b0 := flag_low t.v t.f2 t.f1 t.f0 0 (by omega)
  have b1 := flag_low t.v t.f2 t.f1 t.f0 1 (by omega)
  have b3 := flag_low t.v t.f2 t.f1 t.f0 3 (by omega)
  have b4 := flag_low t.v t.f2 t.f1 t.f0 4 (by omega)
  have b5 := flag_low t.v t.f2 t.f1 t.f0 5 (by omega)
  generalize beVal [t.v, t.f2, t.f1, t.f0] = vf at e0 b0 b1 b3 b4 b5
  have h1 := optU64_field a1 ht.base
  have h2 := optU32_field a2 ht.desc
  have h3 := optU32_field a3 ht.dur
  have h4 := optU32_field a4 ht.size
  have h5 := optU32_field a5 ht.flags
  simp only [List.length_append, beBytes_length, List.length_cons, List.length_nil] at h1 h2 h3 h4 h5
  unfold readTfhd versionFlags
  simp only [flagBit_eq]
  rw [e0]
  have s1 : off + 8 + (0 + 1 + 1 + 1 + 1 + 4) = off + 16 := by omega
  rw [s1] at h1
  have step : ∀ {α β : Type} (x : α) (f : α → Py β), (Except.ok x >>= f : Py β) = f x :=
    fun _ _ => rfl
  rw [step]
  simp only [b0, b1, b3, b4, b5]
  rw [h1, step]
  simp only
  rw [show off + 16 + (field (bitSet t.f0 0) (beBytes 8 t.base)).length
    = off + 8 + (0 + 1 + 1 + 1 + 1 + 4 + (field (bitSet t.f0 0) (beBytes 8 t.base)).length) by omega,
    h2, step]
  simp only
  rw [show off + 8 + (0 + 1 + 1 + 1 + 1 + 4 + (field (bitSet t.f0 0) (beBytes 8 t.base)).length) +
      (field (bitSet t.f0 1) (beBytes 4 t.desc)).length
    = off + 8 + (0 + 1 + 1 + 1 + 1 + 4 + (field (bitSet t.f0 0) (beBytes 8 t.base)).length +
      (field (bitSet t.f0 1) (beBytes 4 t.desc)).length) by omega, h3, step]
  simp only
  rw [show off + 8 + (0 + 1 + 1 + 1 + 1 + 4 + (field (bitSet t.f0 0) (beBytes 8 t.base)).length +
      (field (bitSet t.f0 1) (beBytes 4 t.desc)).length) +
      (field (bitSet t.f0 3) (beBytes 4 t.dur)).length
    = off + 8 + (0 + 1 + 1 + 1 + 1 + 4 + (field (bitSet t.f0 0) (beBytes 8 t.base)).length +
      (field (bitSet t.f0 1) (beBytes 4 t.desc)).length +
      (field (bitSet t.f0 3) (beBytes 4 t.dur)).length) by omega, h4, step]
  simp only
  rw [show off + 8 + (0 + 1 + 1 + 1 + 1 + 4 + (field (bitSet t.f0 0) (beBytes 8 t.base)).length +
      (field (bitSet t.f0 1) (beBytes 4 t.desc)).length +
      (field (bitSet t.f0 3) (beBytes 4 t.dur)).length) +
      (field (bitSet t.f0 4) (beBytes 4 t.size)).length
    = off + 8 + (0 + 1 + 1 + 1 + 1 + 4 + (field (bitSet t.f0 0) (beBytes 8 t.base)).length +
      (field (bitSet t.f0 1) (beBytes 4 t.desc)).length +
      (field (bitSet t.f0 3) (beBytes 4 t.dur)).length +
      (field (bitSet t.f0 4) (beBytes 4 t.size)).length) by omega, h5, step]
  rfl

/-- The entry of a row. -/
def rowEntry (r : SampleRun) (x : RunRow) : Entry :=
  ⟨if bitSet r.f1 0 then some x.dur else none, if bitSet r.f1 1 then some x.size else none,
   if bitSet r.f1 2 then some x.flags else none, if bitSet r.f1 3 then some x.off else none⟩

theorem sampleEntry_ok (data : Bytes) (pos flags : Nat) (r : SampleRun) (x : RunRow)
    (hx : x.dur < 2 ^ 32 ∧ x.size < 2 ^ 32 ∧ x.flags < 2 ^ 32 ∧ -2 ^ 31 ≤ x.off ∧ x.off < 2 ^ 31)
    (hf : ∀ k, k < 4 → flagBit flags (8 + k) = bitSet r.f1 k)
    (h : At data pos (r.rowBytes x)) : sampleEntry data flags pos = .ok (rowEntry r x) := by
  have step : ∀ {α β : Type} (x : α) (f : α → Py β), (Except.ok x >>= f : Py β) = f x :=
    fun _ _ => rfl
  unfold SampleRun.rowBytes at h
  have a0 := h.left.left.left
  have a1 := h.left.left.right
  have a2 := h.left.right
  have a3 := h.right
  have b0 := hf 0 (by omega)
  have b1 := hf 1 (by omega)
  have b2 := hf 2 (by omega)
  have b3 := hf 3 (by omega)
  have h0 := optU32_field a0 hx.1
  have h1 := optU32_field a1 hx.2.1
  have h2 := optU32_field a2 hx.2.2.1
  simp only [List.length_append] at h0 h1 h2 a3
  unfold sampleEntry
  simp only [b0, b1, b2, b3]
  rw [h0, step]
  simp only
  rw [h1, step]
  simp only
  rw [show pos + (field (bitSet r.f1 0) (beBytes 4 x.dur)).length +
      (field (bitSet r.f1 1) (beBytes 4 x.size)).length
    = pos + ((field (bitSet r.f1 0) (beBytes 4 x.dur)).length +
      (field (bitSet r.f1 1) (beBytes 4 x.size)).length) by omega, h2, step]
  simp only
  cases hb : bitSet r.f1 3 with
  | false =>
    simp only [Bool.false_eq_true, if_false]
    rw [step]
    simp only [rowEntry, hb]
    rfl
  | true =>
    simp only [if_true]
    rw [hb] at a3
    have := At.i32 (x := x.off) a3 hx.2.2.2.1 hx.2.2.2.2
    rw [show pos + ((field (bitSet r.f1 0) (beBytes 4 x.dur)).length +
      (field (bitSet r.f1 1) (beBytes 4 x.size)).length) +
      (field (bitSet r.f1 2) (beBytes 4 x.flags)).length
      = pos + ((field (bitSet r.f1 0) (beBytes 4 x.dur)).length +
      (field (bitSet r.f1 1) (beBytes 4 x.size)).length +
      (field (bitSet r.f1 2) (beBytes 4 x.flags)).length) by omega, this]
    simp only
    rw [step]
    simp only [rowEntry, hb]
    rfl

theorem field_length (b : Bool) (l : Bytes) (n : Nat) (h : l.length = n) :
    (field b l).length = if b then n else 0 := by
  cases b <;> simp [field, h]

theorem rowBytes_length (r : SampleRun) (x : RunRow) : (r.rowBytes x).length =
    (if bitSet r.f1 0 then 4 else 0) + (if bitSet r.f1 1 then 4 else 0) +
    (if bitSet r.f1 2 then 4 else 0) + (if bitSet r.f1 3 then 4 else 0) := by
  unfold SampleRun.rowBytes
  simp only [List.length_append]
  rw [field_length _ _ 4 (by simp), field_length _ _ 4 (by simp), field_length _ _ 4 (by simp),
    field_length _ _ 4 (by simp [signedBytes])]

theorem decodeRows_ok (data media : Bytes) (t : FragHeader) (r : SampleRun) (trex : Trex)
    (run : TrunFields)
    (hf : ∀ k, k < 4 → flagBit run.flags (8 + k) = bitSet r.f1 k)
    (hrow : run.rowSize = (if bitSet r.f1 0 then 4 else 0) + (if bitSet r.f1 1 then 4 else 0) +
      (if bitSet r.f1 2 then 4 else 0) + (if bitSet r.f1 3 then 4 else 0)) :
    ∀ (rows : List RunRow) (pos time start : Nat), (∀ x ∈ rows, x.dur < 2 ^ 32 ∧
      x.size < 2 ^ 32 ∧ x.flags < 2 ^ 32 ∧ -2 ^ 31 ≤ x.off ∧ x.off < 2 ^ 31) →
    At data pos (rows.flatMap r.rowBytes) →
    decodeRows data ⟨if bitSet t.f0 0 then some t.base else none,
      if bitSet t.f0 3 then some t.dur else none, if bitSet t.f0 4 then some t.size else none,
      if bitSet t.f0 5 then some t.flags else none⟩ run trex media rows.length pos time start
      = .ok (runSamples t r trex media rows time start) := by
  intro rows
  induction rows with
  | nil => intro pos time start _ _; rfl
  | cons x xs ih =>
    intro pos time start hx hat
    rw [List.flatMap_cons] at hat
    have hent := sampleEntry_ok data pos run.flags r x (hx x (by simp)) hf hat.left
    rw [List.length_cons, decodeRows, hent]
    simp only
    have hd : (rowEntry r x).dur.getD ((if bitSet t.f0 3 then some t.dur else none).getD trex.dur)
        = sampleDur t r trex x := by
      unfold rowEntry sampleDur
      cases bitSet r.f1 0 <;> cases bitSet t.f0 3 <;> rfl
    have hs : (rowEntry r x).size.getD ((if bitSet t.f0 4 then some t.size else none).getD trex.size)
        = sampleSize t r trex x := by
      unfold rowEntry sampleSize
      cases bitSet r.f1 1 <;> cases bitSet t.f0 4 <;> rfl
    rw [hd, hs]
    have hr := hat.right
    rw [rowBytes_length, ← hrow] at hr
    rw [ih _ _ _ (fun y hy => hx y (by simp [hy])) hr]
    simp only [runSamples, Except.ok.injEq]
    congr 1
    have hsync : (match (rowEntry r x).flags with
        | some _ => true
        | none => decide ((if bitSet t.f0 5 then some t.flags else none).getD trex.flags ≠ 0))
        = sampleSync t r trex := by
      unfold rowEntry sampleSync
      cases bitSet r.f1 2 <;> cases bitSet t.f0 5 <;> rfl
    have hoff : (rowEntry r x).offset.getD 0 = if bitSet r.f1 3 then x.off else 0 := by
      unfold rowEntry
      cases bitSet r.f1 3 <;> rfl
    rw [← hsync, hoff]
    rfl

theorem py_step {α β : Type} (x : α) (f : α → Py β) : (Except.ok x >>= f : Py β) = f x := rfl

theorem readTrun_ok (data : Bytes) (off : Nat) (r : SampleRun) (hr : r.Ok)
    (h : At data off (boxBytes tyTrun r.payload)) :
    ∃ run, readTrun data off = .ok run ∧
      (∀ k, k < 4 → flagBit run.flags (8 + k) = bitSet r.f1 k) ∧
      run.dataOffset = (if bitSet r.f0 0 then r.offset else 0) ∧
      run.rowSize = (if bitSet r.f1 0 then 4 else 0) + (if bitSet r.f1 1 then 4 else 0) +
        (if bitSet r.f1 2 then 4 else 0) + (if bitSet r.f1 3 then 4 else 0) ∧
      run.count = r.rows.length ∧ At data run.rows (r.rows.flatMap r.rowBytes) := by
  have hp := At.box rfl h
  unfold SampleRun.payload at hp
  have a0 := hp.left.left.left.left
  have a1 := hp.left.left.left.right
  have a2 := hp.left.left.right
  have a3 := hp.left.right
  have a4 := hp.right
  have e0 := At.vf a0
  have b0 := flag_low r.v r.f2 r.f1 r.f0 0 (by omega)
  have b2 := flag_low r.v r.f2 r.f1 r.f0 2 (by omega)
  have bm := flag_mid r.v r.f2 r.f1 r.f0
  generalize beVal [r.v, r.f2, r.f1, r.f0] = vf at e0 b0 b2 bm
  have b8 := bm 0 (by omega)
  have b9 := bm 1 (by omega)
  have b10 := bm 2 (by omega)
  have b11 := bm 3 (by omega)
  simp only [Nat.add_zero, Nat.reduceAdd] at b8 b9 b10 b11
  have e1 := At.u32 a1 hr.count
  have h3 := optU32_field a3 hr.first
  simp only [List.length_append, beBytes_length, List.length_cons, List.length_nil] at e1 a2 h3 a4
  rw [show off + 8 + (0 + 1 + 1 + 1 + 1) = off + 12 by omega] at e1
  rw [show off + 8 + (0 + 1 + 1 + 1 + 1 + 4) = off + 16 by omega] at a2
  have hoff : (if flagBit (vf % 2 ^ 24) 0 then i32At data (off + 16) else .ok 0 : Py Int)
      = .ok (if bitSet r.f0 0 then r.offset else 0) := by
    rw [flagBit_eq, b0]
    cases hb : bitSet r.f0 0 with
    | false => rfl
    | true =>
      rw [hb] at a2
      rw [if_pos rfl, if_pos rfl]
      exact At.i32 a2 hr.offset.1 hr.offset.2
  have hpos : (if flagBit (vf % 2 ^ 24) 0 then off + 20 else off + 16)
      = off + 8 + (0 + 1 + 1 + 1 + 1 + 4 + (field (bitSet r.f0 0) (signedBytes r.offset)).length) := by
    rw [flagBit_eq, b0, field_length _ _ 4 (by simp [signedBytes])]
    split <;> omega
  refine ⟨⟨vf % 2 ^ 24, if bitSet r.f0 0 then r.offset else 0,
    off + 8 + (0 + 1 + 1 + 1 + 1 + 4 + (field (bitSet r.f0 0) (signedBytes r.offset)).length +
      (field (bitSet r.f0 2) (beBytes 4 r.first)).length),
    (if bitSet r.f1 0 then 4 else 0) + (if bitSet r.f1 1 then 4 else 0) +
        (if bitSet r.f1 2 then 4 else 0) + (if bitSet r.f1 3 then 4 else 0), r.rows.length⟩,
    ?_, ?_, rfl, rfl, rfl, a4⟩
  · unfold readTrun versionFlags
    rw [e0, py_step]
    simp only
    rw [hoff, py_step, hpos, flagBit_eq _ 2, b2, h3, py_step]
    simp only
    rw [e1, py_step]
    simp only [flagBit_eq, b8, b9, b10, b11]
    rw [show off + 8 + (0 + 1 + 1 + 1 + 1 + 4 +
        (field (bitSet r.f0 0) (signedBytes r.offset)).length) +
        (field (bitSet r.f0 2) (beBytes 4 r.first)).length
      = off + 8 + (0 + 1 + 1 + 1 + 1 + 4 + (field (bitSet r.f0 0) (signedBytes r.offset)).length +
        (field (bitSet r.f0 2) (beBytes 4 r.first)).length) by omega]
    rfl
  · intro k hk
    exact bm k (by omega)

theorem readTfdt_ok (data : Bytes) (off : Nat) (wide : Bool) (f2 f1 f0 : UInt8) (t : Nat)
    (ht : t < (if wide then 2 ^ 64 else 2 ^ 32))
    (h : At data off (boxBytes tyTfdt (tfdtPayload wide f2 f1 f0 t))) :
    readTfdt data off (8 + (tfdtPayload wide f2 f1 f0 t).length) = .ok t := by
  have hp := At.box rfl h
  cases wide with
  | false =>
    simp only [tfdtPayload, Bool.false_eq_true, if_false] at hp ht ⊢
    have e0 := At.vf hp.left
    have a1 := hp.right
    unfold At at a1
    simp only [List.length_cons, List.length_nil, beBytes_length] at a1
    unfold readTfdt versionFlags
    rw [e0, py_step]
    have hz : beVal [0, f2, f1, f0] / 2 ^ 24 = 0 := (version_zero 0 f2 f1 f0).2 rfl
    have hc : slice data (off + 12) (off + (8 + ([0, f2, f1, f0] ++ beBytes 4 t).length))
        = beBytes 4 t := by
      refine Eq.trans ?_ a1
      congr 1
    simp only
    rw [hc, hz, if_neg (by intro hh; have := congrArg List.length hh; simp at this), if_pos rfl,
      List.take_of_length_le (by simp), strToUint32, if_pos (by simp),
      beVal_beBytes_of_lt (by omega)]
  | true =>
    simp only [tfdtPayload, if_true] at hp ht ⊢
    have e0 := At.vf hp.left
    have a1 := hp.right
    unfold At at a1
    simp only [List.length_cons, List.length_nil, beBytes_length] at a1
    unfold readTfdt versionFlags
    rw [e0, py_step]
    have hz : ¬ beVal [1, f2, f1, f0] / 2 ^ 24 = 0 := fun hh => by
      have := (version_zero 1 f2 f1 f0).1 hh
      exact absurd this (by decide)
    have hc : slice data (off + 12) (off + (8 + ([1, f2, f1, f0] ++ beBytes 8 t).length))
        = beBytes 8 t := by
      refine Eq.trans ?_ a1
      congr 1
    simp only
    rw [hc, if_neg (by intro hh; have := congrArg List.length hh; simp at this), if_neg hz,
      List.take_of_length_le (by simp), strToUint64, if_pos (by simp),
      beVal_beBytes_of_lt (by omega)]

end Verif
