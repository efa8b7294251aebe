import Verif.MediaFilter
import Verif.Spec.Fragment
import Verif.Lemmas.BoxTree
/- Helper lemmas about the per-box methods of the media segment filter. -/
namespace Verif

theorem uint32ToStr_nat {n : Nat} (h : n < 2 ^ 32) : uint32ToStr (n : Int) = .ok (beBytes 4 n) := by
  rw [uint32ToStr, if_pos (by omega)]; rfl

theorem uint32ToStr_eq_ok {v : Int} {b : Bytes} (h : uint32ToStr v = .ok b) :
    0 ≤ v ∧ v < 2 ^ 32 ∧ b = beBytes 4 v.toNat := by
  unfold uint32ToStr at h
  split at h
  · rename_i hv; cases h; exact ⟨hv.1, by omega, rfl⟩
  · cases h

theorem uint64ToStr_eq_ok {v : Int} {b : Bytes} (h : uint64ToStr v = .ok b) :
    0 ≤ v ∧ v < 2 ^ 64 ∧ b = beBytes 8 v.toNat := by
  unfold uint64ToStr at h
  split at h
  · rename_i hv; cases h; exact ⟨hv.1, by omega, rfl⟩
  · cases h

theorem sint32ToStr_eq_ok {v : Int} {b : Bytes} (h : sint32ToStr v = .ok b) :
    -2 ^ 31 ≤ v ∧ v < 2 ^ 31 ∧ b = signedBytes v := by
  unfold sint32ToStr at h
  split at h
  · rename_i hv
    cases h
    refine ⟨hv.1, by omega, ?_⟩
    unfold signedBytes
    congr 1
    split
    · rw [Int.emod_eq_of_lt (by assumption) (by omega)]
    · rw [← Int.add_emod_right, Int.emod_eq_of_lt (by omega) (by omega)]
  · cases h

theorem beVal_signedBytes (x : Int) : beVal (signedBytes x) = (x % 2 ^ 32).toNat := by
  unfold signedBytes
  rw [beVal_beBytes_of_lt]
  have := Int.emod_lt_of_pos x (show (0 : Int) < 2 ^ 32 by decide)
  have := Int.emod_nonneg x (show (2 ^ 32 : Int) ≠ 0 by decide)
  rw [show (256 : Nat) ^ 4 = 2 ^ 32 by decide]
  omega

theorem strToSint32_signedBytes {x : Int} (h0 : -2 ^ 31 ≤ x) (h1 : x < 2 ^ 31) :
    strToSint32 (signedBytes x) = .ok x := by
  rw [strToSint32, if_pos (by simp [signedBytes]), beVal_signedBytes]
  simp only
  by_cases hx : 0 ≤ x
  · rw [Int.emod_eq_of_lt hx (by omega), if_pos (by omega)]
    congr 1
    omega
  · have e : x % 2 ^ 32 = x + 2 ^ 32 := by
      rw [← Int.add_emod_right, Int.emod_eq_of_lt (by omega) (by omega)]
    rw [e, if_neg (by omega)]
    congr 1
    omega

theorem testBit_ofBytes (a b c d : UInt8) :
    hasFlag (beVal [a, b, c, d] % 2 ^ 24) 0 = decide (d.toNat % 2 = 1) := by
  unfold hasFlag
  rw [Nat.testBit_zero]
  congr 1
  simp only [beVal, List.length_cons, List.length_nil]
  have : (a.toNat * 256 ^ (0 + 1 + 1 + 1) + (b.toNat * 256 ^ (0 + 1 + 1) +
    (c.toNat * 256 ^ (0 + 1) + (d.toNat * 256 ^ 0 + 0)))) % 2 ^ 24 % 2 = d.toNat % 2 := by
    omega
  rw [this]

/-! Slices of `boxBytes ty (a ++ rest)` behind the eight header bytes. -/

theorem box_slice {ty : Bytes} (ht : ty.length = 4) (p : Bytes) (a b : Nat) (ha : 8 ≤ a) :
    slice (boxBytes ty p) a b = slice p (a - 8) (b - 8) := by
  have h := slice_append_right (d := beBytes 4 (8 + p.length) ++ ty) p (a := a) (b := b)
    (by simp [ht]; omega)
  simp only [List.length_append, beBytes_length, ht] at h
  exact h

theorem box_take {ty : Bytes} (ht : ty.length = 4) (p : Bytes) (a : Nat) (ha : 8 ≤ a) :
    (boxBytes ty p).take a = beBytes 4 (8 + p.length) ++ ty ++ p.take (a - 8) := by
  rw [boxBytes, List.take_append]
  simp only [List.length_append, beBytes_length, ht]
  rw [List.take_of_length_le (by simp [ht]; omega)]

theorem box_drop {ty : Bytes} (ht : ty.length = 4) (p : Bytes) (a : Nat) (ha : 8 ≤ a) :
    (boxBytes ty p).drop a = p.drop (a - 8) := by
  rw [boxBytes, List.drop_append]
  simp only [List.length_append, beBytes_length, ht]
  rw [List.drop_of_length_le (by simp [ht]; omega)]
  simp

theorem box_get8 {ty : Bytes} (ht : ty.length = 4) (p : Bytes) :
    (boxBytes ty p)[8]? = p[0]? := by
  rw [boxBytes, List.getElem?_append_right (by simp [ht])]
  simp [ht]

/-! ### the methods -/

theorem mediaLeaf_trun (c : MfCfg) (d : Bytes) (s : MfState) :
    mediaLeaf c tyTrun d s = processTrun d s := rfl

theorem mediaLeaf_saio (c : MfCfg) (d : Bytes) (s : MfState) :
    mediaLeaf c tySaio d s = processSaio d s := rfl

theorem mediaLeaf_tfdt (c : MfCfg) (d : Bytes) (s : MfState) :
    mediaLeaf c tyTfdt d s = processTfdt c d s := rfl

theorem mediaLeaf_tfhd (c : MfCfg) (d : Bytes) (s : MfState) :
    mediaLeaf c tyTfhd d s = processTfhd d s := rfl

theorem mediaLeaf_mfhd (c : MfCfg) (d : Bytes) (s : MfState) :
    mediaLeaf c tyMfhd d s = (match processMfhd c d with
      | .error e => .error e
      | .ok b => .ok (b, s)) := rfl

theorem mediaLeaf_styp (c : MfCfg) (d : Bytes) (s : MfState) :
    mediaLeaf c tyStyp d s = (match processStyp c d with
      | .error e => .error e
      | .ok b => .ok (b, s)) := rfl

theorem mediaLeaf_sidx (c : MfCfg) (d : Bytes) (s : MfState) :
    mediaLeaf c tySidx d s = .ok ([], s) := rfl

/-- The attributes that matter for data positions are the same in two states. -/
def SameShift (s s' : MfState) : Prop :=
  s'.sizeChange = s.sizeChange ∧ s'.tfdt = s.tfdt ∧ s'.ttmlSize = s.ttmlSize

theorem SameShift.refl (s : MfState) : SameShift s s := ⟨rfl, rfl, rfl⟩

theorem SameShift.trans {s t u : MfState} (h1 : SameShift s t) (h2 : SameShift t u) :
    SameShift s u := ⟨h2.1.trans h1.1, h2.2.1.trans h1.2.1, h2.2.2.trans h1.2.2⟩

theorem processTfhd_copy {d o : Bytes} {s s' : MfState} (hz : s.ttmlSize = none)
    (h : processTfhd d s = .ok (o, s')) : o = d ∧ SameShift s s' := by
  unfold processTfhd at h
  cases h1 : strToUint32 (slice d 8 12) with
  | error e => rw [h1] at h; cases h
  | ok vf =>
    rw [h1] at h
    simp only [MfState.ttmlActive, hz] at h
    split at h
    · cases h
    · split at h
      · cases h
      · simp only [Bool.false_eq_true, if_false, Except.ok.injEq, Prod.mk.injEq] at h
        refine ⟨h.1.symm, ?_⟩
        rw [← h.2]
        exact ⟨rfl, rfl, hz.symm⟩

/-- A run is copied except for the data offset. -/
theorem processTrun_ok {d o : Bytes} {s s' : MfState} (h : processTrun d s = .ok (o, s')) :
    SameShift s s' ∧
    (hasFlag (beVal (slice d 8 12) % 2 ^ 24) 0 = true ∧ 0 < s.sizeChange →
      ∃ off b, strToSint32 (slice d 16 20) = .ok off ∧ sint32ToStr (off + s.sizeChange) = .ok b ∧
        o = d.take 16 ++ b ++ d.drop 20) ∧
    (¬ (hasFlag (beVal (slice d 8 12) % 2 ^ 24) 0 = true ∧ 0 < s.sizeChange) → o = d) := by
  unfold processTrun at h
  cases h1 : strToUint32 (slice d 8 12) with
  | error e => rw [h1] at h; cases h
  | ok vf =>
    rw [h1] at h
    simp only at h
    obtain ⟨_, hvf⟩ := strToUint32_ok h1
    rw [← hvf]
    cases h2 : strToUint32 (slice d 12 16) with
    | error e => rw [h2] at h; cases h
    | ok count =>
      rw [h2] at h
      simp only at h
      split at h
      · cases h
      · split at h
        · rename_i hc
          cases h3 : strToSint32 (slice d 16 20) with
          | error e => rw [h3] at h; cases h
          | ok off =>
            rw [h3] at h
            simp only at h
            cases h4 : sint32ToStr (off + s.sizeChange) with
            | error e => rw [h4] at h; cases h
            | ok b =>
              rw [h4] at h
              simp only [Except.ok.injEq, Prod.mk.injEq] at h
              refine ⟨by rw [← h.2]; exact ⟨rfl, rfl, rfl⟩, fun _ => ⟨off, b, rfl, h4, h.1.symm⟩, ?_⟩
              intro hn; exact absurd hc hn
        · rename_i hc
          simp only [Except.ok.injEq, Prod.mk.injEq] at h
          refine ⟨by rw [← h.2]; exact ⟨rfl, rfl, rfl⟩, fun hn => absurd hn hc, ?_⟩
          intro _
          rw [← h.1]
          have : d.take 16 ++ slice d 16 20 = d.take 20 := by
            have := slice_split d (a := 0) (b := 16) (c := 20) (by omega) (by omega)
            simpa [slice] using this.symm
          rw [this, List.take_append_drop]

/-- The offset table is rewritten entry by entry. -/
theorem saioEntries_ok (w : Nat) (hw : w = 4 ∨ w = 8) (delta : Int) :
    ∀ (entries : List Nat) (pre rest : Bytes) (bs : Bytes) (os : List Int),
    (∀ e ∈ entries, e < 256 ^ w) →
    saioEntries (pre ++ entries.flatMap (beBytes w) ++ rest) w delta entries.length pre.length
      = .ok (bs, os) →
    bs = (entries.map (fun e : Nat => ((e : Int) + delta).toNat)).flatMap (beBytes w) ∧
    os = entries.map (fun e : Nat => (e : Int) + delta) ∧
    ∀ e ∈ entries, 0 ≤ (e : Int) + delta ∧ (e : Int) + delta < 256 ^ w := by
  intro entries
  induction entries with
  | nil =>
    intro pre rest bs os _ h
    simp only [List.length_nil, saioEntries, Except.ok.injEq, Prod.mk.injEq] at h
    refine ⟨h.1.symm, h.2.symm, ?_⟩
    intro e he; cases he
  | cons x xs ih =>
    intro pre rest bs os hb h
    have hx := hb x (by simp)
    simp only [List.length_cons, saioEntries, List.flatMap_cons] at h
    have hsl : slice (pre ++ (beBytes w x ++ xs.flatMap (beBytes w)) ++ rest) pre.length
        (pre.length + w) = beBytes w x := by
      rw [show pre ++ (beBytes w x ++ xs.flatMap (beBytes w)) ++ rest
        = pre ++ beBytes w x ++ (xs.flatMap (beBytes w) ++ rest) by simp]
      exact slice_eq_of_append _ _ _ rfl (by simp)
    have hrd : (if w = 4 then strToUint32 (slice (pre ++ (beBytes w x ++
        xs.flatMap (beBytes w)) ++ rest) pre.length (pre.length + 4))
        else strToUint64 (slice (pre ++ (beBytes w x ++ xs.flatMap (beBytes w)) ++ rest)
          pre.length (pre.length + 8))) = .ok x := by
      rcases hw with rfl | rfl
      · rw [if_pos rfl, hsl, strToUint32, if_pos (by simp), beVal_beBytes_of_lt hx]
      · rw [if_neg (by decide), hsl, strToUint64, if_pos (by simp), beVal_beBytes_of_lt hx]
    rw [hrd] at h
    simp only at h
    cases hwb : (if w = 4 then uint32ToStr ((x : Int) + delta)
        else uint64ToStr ((x : Int) + delta)) with
    | error e => rw [hwb] at h; cases h
    | ok b =>
      rw [hwb] at h
      simp only at h
      have hbv : 0 ≤ (x : Int) + delta ∧ (x : Int) + delta < 256 ^ w ∧
          b = beBytes w ((x : Int) + delta).toNat := by
        rcases hw with rfl | rfl
        · rw [if_pos rfl] at hwb
          obtain ⟨p, q, r⟩ := uint32ToStr_eq_ok hwb
          exact ⟨p, by simpa using q, r⟩
        · rw [if_neg (by decide)] at hwb
          obtain ⟨p, q, r⟩ := uint64ToStr_eq_ok hwb
          exact ⟨p, by simpa using q, r⟩
      have hre : pre ++ (beBytes w x ++ xs.flatMap (beBytes w)) ++ rest
          = (pre ++ beBytes w x) ++ xs.flatMap (beBytes w) ++ rest := by simp
      have hlen : pre.length + w = (pre ++ beBytes w x).length := by simp
      rw [hre, hlen] at h
      cases hk : saioEntries (pre ++ beBytes w x ++ xs.flatMap (beBytes w) ++ rest) w delta
          xs.length (pre ++ beBytes w x).length with
      | error e => rw [hk] at h; cases h
      | ok y =>
        obtain ⟨bs', os'⟩ := y
        rw [hk] at h
        simp only [Except.ok.injEq, Prod.mk.injEq] at h
        obtain ⟨i1, i2, i3⟩ := ih (pre ++ beBytes w x) rest bs' os'
          (fun e he => hb e (by simp [he])) hk
        refine ⟨?_, ?_, ?_⟩
        · rw [← h.1, hbv.2.2, i1]; rfl
        · rw [← h.2, i2]; rfl
        · intro e he
          rcases List.mem_cons.1 he with rfl | he
          · exact ⟨hbv.1, hbv.2.1⟩
          · exact i3 e he

theorem saioEntries_ok' {data pre rest : Bytes} {pos : Nat} (w : Nat) (hw : w = 4 ∨ w = 8)
    (delta : Int) (entries : List Nat) (hdata : data = pre ++ entries.flatMap (beBytes w) ++ rest)
    (hpos : pos = pre.length) {bs : Bytes} {os : List Int} (he : ∀ e ∈ entries, e < 256 ^ w)
    (h : saioEntries data w delta entries.length pos = .ok (bs, os)) :
    bs = (entries.map (fun e : Nat => ((e : Int) + delta).toNat)).flatMap (beBytes w) ∧
    os = entries.map (fun e : Nat => (e : Int) + delta) ∧
    ∀ e ∈ entries, 0 ≤ (e : Int) + delta ∧ (e : Int) + delta < 256 ^ w := by
  subst hdata hpos
  exact saioEntries_ok w hw delta entries pre rest bs os he h

theorem shift_zero (b : FragBox) : b.shift 0 = b := by
  cases b with
  | run => simp [FragBox.shift]
  | offsets => simp [FragBox.shift]
  | other => rfl

theorem mediaLeaf_shift_run (c : MfCfg) (v f2 f1 f0 : UInt8) (count : Bytes) (offset : Int) (rest : Bytes)
    (hb : (FragBox.run v f2 f1 f0 count offset rest).Ok) (s s' : MfState) (o : Bytes)
    (hd : 0 ≤ s.sizeChange)
    (h : mediaLeaf c (FragBox.run v f2 f1 f0 count offset rest).parts.1 (boxBytes (FragBox.run v f2 f1 f0 count offset rest).parts.1 (FragBox.run v f2 f1 f0 count offset rest).parts.2) s = .ok (o, s')) :
    o = ((FragBox.run v f2 f1 f0 count offset rest).shift s.sizeChange).bytes ∧ SameShift s s' ∧ ((FragBox.run v f2 f1 f0 count offset rest).shift s.sizeChange).Ok := by
  obtain ⟨hf, hc, h0, h1⟩ := hb
  simp only [FragBox.parts] at h
  rw [mediaLeaf_trun] at h
  obtain ⟨hs, hp, hn⟩ := processTrun_ok h
  have hsl : slice (boxBytes tyTrun ([v, f2, f1, f0] ++ count ++ signedBytes offset ++ rest)) 8 12
      = [v, f2, f1, f0] := by
    rw [box_slice rfl _ _ _ (by omega)]
    rfl
  have hflag : hasFlag (beVal (slice (boxBytes tyTrun ([v, f2, f1, f0] ++ count ++
      signedBytes offset ++ rest)) 8 12) % 2 ^ 24) 0 = true := by
    rw [hsl, testBit_ofBytes]; simp [hf]
  rcases Int.lt_or_eq_of_le hd with hd' | hd'
  · obtain ⟨off, b, ho, hb, hout⟩ := hp ⟨hflag, hd'⟩
    have hsl2 : slice (boxBytes tyTrun ([v, f2, f1, f0] ++ count ++ signedBytes offset ++ rest))
        16 20 = signedBytes offset := by
      rw [box_slice rfl _ _ _ (by omega)]
      exact slice_eq_of_append ([v, f2, f1, f0] ++ count) (signedBytes offset) rest
        (by simp [hc]) (by simp [hc, signedBytes])
    rw [hsl2, strToSint32_signedBytes h0 h1] at ho
    cases ho
    obtain ⟨g0, g1, rfl⟩ := sint32ToStr_eq_ok hb
    refine ⟨?_, hs, ⟨hf, hc, g0, g1⟩⟩
    rw [hout, box_take rfl _ _ (by omega), box_drop rfl _ _ (by omega)]
    simp only [FragBox.bytes, FragBox.shift, FragBox.parts, boxBytes]
    rw [show ([v, f2, f1, f0] ++ count ++ signedBytes offset ++ rest).take (16 - 8)
        = [v, f2, f1, f0] ++ count by
      rw [List.append_assoc ([v, f2, f1, f0] ++ count)]; exact List.take_left' (by simp [hc])]
    rw [show ([v, f2, f1, f0] ++ count ++ signedBytes offset ++ rest).drop (20 - 8)
        = rest by exact List.drop_left' (by simp [hc, signedBytes])]
    simp [signedBytes]
  · rw [← hd']
    rw [shift_zero]
    exact ⟨hn (by rw [← hd']; simp), hs, ⟨hf, hc, h0, h1⟩⟩

theorem version_zero (v f2 f1 f0 : UInt8) : (beVal [v, f2, f1, f0] / 2 ^ 24 = 0) ↔ v = 0 := by
  simp only [beVal, List.length_cons, List.length_nil]
  have a1 := UInt8.toNat_lt v
  have a2 := UInt8.toNat_lt f2
  have a3 := UInt8.toNat_lt f1
  have a4 := UInt8.toNat_lt f0
  have : v = 0 ↔ v.toNat = 0 := by
    constructor
    · rintro rfl; rfl
    · intro e; apply UInt8.toNat_inj.1; simpa using e
  rw [this]
  omega

theorem processSaio_eq {data : Bytes} {s : MfState} {vf count pos w : Nat}
    (h1 : strToUint32 (slice data 8 12) = .ok vf)
    (hp : (if hasFlag (vf % 2 ^ 24) 0 then 20 else 12) = pos)
    (h2 : strToUint32 (slice data pos (pos + 4)) = .ok count)
    (hw : (if vf / 2 ^ 24 = 0 then 4 else 8) = w) :
    processSaio data s = (match saioEntries data w s.sizeChange count (pos + 4) with
      | .error e => .error e
      | .ok (bs, os) =>
        .ok (data.take (pos + 4) ++ bs,
          { s with newSaio := match os with | [] => s.newSaio | o :: _ => some o })) := by
  subst hp hw
  unfold processSaio
  rw [h1]
  simp only [h2]
  rfl

theorem mediaLeaf_shift_offsets (c : MfCfg) (v f2 f1 f0 : UInt8) (info : Bytes) (entries : List Nat)
    (hb : (FragBox.offsets v f2 f1 f0 info entries).Ok) (s s' : MfState) (o : Bytes)
    (h : mediaLeaf c (FragBox.offsets v f2 f1 f0 info entries).parts.1 (boxBytes (FragBox.offsets v f2 f1 f0 info entries).parts.1 (FragBox.offsets v f2 f1 f0 info entries).parts.2) s = .ok (o, s')) :
    o = ((FragBox.offsets v f2 f1 f0 info entries).shift s.sizeChange).bytes ∧ SameShift s s' ∧ ((FragBox.offsets v f2 f1 f0 info entries).shift s.sizeChange).Ok := by
  obtain ⟨hi, hl, he⟩ := hb
  simp only [FragBox.parts] at h
  rw [mediaLeaf_saio] at h
  have hsl : slice (boxBytes tySaio ([v, f2, f1, f0] ++ info ++ beBytes 4 entries.length ++
      entries.flatMap (beBytes (saioWidth v)))) 8 12 = [v, f2, f1, f0] := by
    rw [box_slice rfl _ _ _ (by omega)]
    rfl
  have hver := version_zero v f2 f1 f0
  have hposlen : (if hasFlag (beVal [v, f2, f1, f0] % 2 ^ 24) 0 then 20 else 12)
      = 12 + info.length := by
    rw [testBit_ofBytes, hi]; by_cases hf : f0.toNat % 2 = 1 <;> simp [hf]
  have hcnt : slice (boxBytes tySaio ([v, f2, f1, f0] ++ info ++ beBytes 4 entries.length ++
      entries.flatMap (beBytes (saioWidth v)))) (12 + info.length) (12 + info.length + 4)
      = beBytes 4 entries.length := by
    rw [box_slice rfl _ _ _ (by omega)]
    exact slice_eq_of_append ([v, f2, f1, f0] ++ info) _ _ (by simp; omega) (by simp; omega)
  have hw : (if beVal [v, f2, f1, f0] / 2 ^ 24 = 0 then 4 else 8) = saioWidth v := by
    unfold saioWidth
    by_cases hv : v = 0
    · rw [if_pos hv, if_pos (hver.2 hv)]
    · rw [if_neg hv, if_neg (fun e => hv (hver.1 e))]
  have hu1 : strToUint32 [v, f2, f1, f0] = .ok (beVal [v, f2, f1, f0]) := by
    rw [strToUint32, if_pos (show [v, f2, f1, f0].length = 4 from rfl)]
  have hu2 : strToUint32 (beBytes 4 entries.length) = .ok entries.length := by
    rw [strToUint32, if_pos (by simp), beVal_beBytes_of_lt (by simpa using hl)]
  rw [processSaio_eq (by rw [hsl]; exact hu1) hposlen (by rw [hcnt]; exact hu2) hw] at h
  have hbox : boxBytes tySaio ([v, f2, f1, f0] ++ info ++ beBytes 4 entries.length ++
      entries.flatMap (beBytes (saioWidth v))) =
      (beBytes 4 (8 + ([v, f2, f1, f0] ++ info ++ beBytes 4 entries.length ++
        entries.flatMap (beBytes (saioWidth v))).length) ++ tySaio ++ [v, f2, f1, f0] ++ info ++
        beBytes 4 entries.length) ++ entries.flatMap (beBytes (saioWidth v)) ++ [] := by
    simp [boxBytes]
  have hpl : 12 + info.length + 4 = (beBytes 4 (8 + ([v, f2, f1, f0] ++ info ++
        beBytes 4 entries.length ++
        entries.flatMap (beBytes (saioWidth v))).length) ++ tySaio ++ [v, f2, f1, f0] ++ info ++
        beBytes 4 entries.length).length := by
    simp; omega
  have hw48 : saioWidth v = 4 ∨ saioWidth v = 8 := by unfold saioWidth; split <;> simp
  cases hk : saioEntries (boxBytes tySaio ([v, f2, f1, f0] ++ info ++ beBytes 4 entries.length ++
      entries.flatMap (beBytes (saioWidth v)))) (saioWidth v) s.sizeChange entries.length
      (12 + info.length + 4) with
  | error e => rw [hk] at h; cases h
  | ok y =>
    obtain ⟨bs, os⟩ := y
    rw [hk] at h
    simp only [Except.ok.injEq, Prod.mk.injEq] at h
    obtain ⟨i1, i2, i3⟩ := saioEntries_ok' (saioWidth v) hw48 s.sizeChange entries hbox hpl he hk
    refine ⟨?_, by rw [← h.2]; exact ⟨rfl, rfl, rfl⟩, ?_⟩
    · rw [← h.1, box_take rfl _ _ (by omega)]
      rw [show ([v, f2, f1, f0] ++ info ++ beBytes 4 entries.length ++
        entries.flatMap (beBytes (saioWidth v))).take (12 + info.length + 4 - 8)
        = [v, f2, f1, f0] ++ info ++ beBytes 4 entries.length by
        exact List.take_left' (by simp; omega)]
      simp only [FragBox.bytes, FragBox.shift, FragBox.parts, boxBytes, List.length_map]
      rw [i1]
      have hlen : ∀ l : List Nat, (l.flatMap (beBytes (saioWidth v))).length
          = l.length * saioWidth v := by
        intro l
        induction l with
        | nil => simp
        | cons a l ih => simp [ih, Nat.add_mul]; omega
      simp only [List.length_append, hlen, List.length_map]
      simp only [List.append_assoc]
    · refine ⟨hi, by simpa using hl, ?_⟩
      intro e hmem
      obtain ⟨a, ha, rfl⟩ := List.mem_map.1 hmem
      have := i3 a ha
      have h2 : (((256 : Nat) ^ saioWidth v : Nat) : Int) = (256 : Int) ^ saioWidth v := by
        simp
      omega

theorem mediaLeaf_shift_other (c : MfCfg) (ty p : Bytes)
    (hb : (FragBox.other ty p).Ok) (s s' : MfState) (o : Bytes)
    (hz : s.ttmlSize = none)
    (h : mediaLeaf c (FragBox.other ty p).parts.1 (boxBytes (FragBox.other ty p).parts.1 (FragBox.other ty p).parts.2) s = .ok (o, s')) :
    o = ((FragBox.other ty p).shift s.sizeChange).bytes ∧ SameShift s s' ∧ ((FragBox.other ty p).shift s.sizeChange).Ok := by
  obtain ⟨ht, hne, hrun⟩ := hb
  simp only [FragBox.parts] at h
  simp only [List.mem_cons, not_or] at hne
  obtain ⟨n1, n2, n3, n4, n5, n6, n7, -⟩ := hne
  simp only [FragBox.shift]
  by_cases htr : ty = tyTrun
  · subst htr
    rw [mediaLeaf_trun] at h
    obtain ⟨hs, _, hn⟩ := processTrun_ok h
    refine ⟨hn ?_, hs, ?_⟩
    · rintro ⟨hf, -⟩
      rw [box_slice rfl _ _ _ (by omega)] at hf
      unfold processTrun at h
      cases hu : strToUint32 (slice (boxBytes tyTrun p) 8 12) with
      | error e => rw [hu] at h; cases h
      | ok vf =>
        obtain ⟨hl4, -⟩ := strToUint32_ok hu
        rw [box_slice rfl _ _ _ (by omega)] at hl4
        match hm : slice p (8 - 8) (12 - 8), hl4 with
        | [x0, x1, x2, x3], _ =>
          rw [hm, testBit_ofBytes] at hf
          have hp3 : p[3]? = some x3 := by
            have : (slice p (8 - 8) (12 - 8))[3]? = some x3 := by rw [hm]; rfl
            simpa [slice] using this
          have := hrun rfl x3 hp3
          simp at hf
          omega
    · exact ⟨ht, by simp [n1, n2, n3, n4, n5, n6, n7], hrun⟩
  · by_cases htf : ty = tyTfhd
    · subst htf
      obtain ⟨ho, hs⟩ := processTfhd_copy hz (show processTfhd _ s = _ from h)
      exact ⟨ho, hs, ⟨ht, by decide, hrun⟩⟩
    · have : mediaLeaf c ty (boxBytes ty p) s = (if utf8Valid ty then .ok (boxBytes ty p, s)
          else .error .unicodeError) := by
        unfold mediaLeaf
        rw [if_neg n1, if_neg n2, if_neg htf, if_neg n5, if_neg htr, if_neg n6, if_neg n7]
      rw [this] at h
      split at h
      · simp only [Except.ok.injEq, Prod.mk.injEq] at h
        refine ⟨h.1.symm, by rw [← h.2]; exact SameShift.refl s, ?_⟩
        exact ⟨ht, by simp [n1, n2, n3, n4, n5, n6, n7], hrun⟩
      · cases h

/-- One box of the track fragment, read in a state with the size change `d`, comes out
shifted by `d`. -/
theorem mediaLeaf_shift (c : MfCfg) (b : FragBox) (hb : b.Ok) (s s' : MfState) (o : Bytes)
    (hz : s.ttmlSize = none) (hd : 0 ≤ s.sizeChange)
    (h : mediaLeaf c b.parts.1 (boxBytes b.parts.1 b.parts.2) s = .ok (o, s')) :
    o = (b.shift s.sizeChange).bytes ∧ SameShift s s' ∧ (b.shift s.sizeChange).Ok := by
  cases b with
  | run v f2 f1 f0 count offset rest =>
    exact mediaLeaf_shift_run c v f2 f1 f0 count offset rest hb s s' o hd h
  | offsets v f2 f1 f0 info entries =>
    exact mediaLeaf_shift_offsets c v f2 f1 f0 info entries hb s s' o h
  | other ty p => exact mediaLeaf_shift_other c ty p hb s s' o hz h

theorem rewrite_leaf_cons {f : Bytes → Bytes → σ → Py (Bytes × σ)} {ty p : Bytes} {rest : Forest}
    {s s' : σ} {o : Bytes} (h : (Forest.leaf ty p rest).rewrite f s = .ok (o, s')) :
    ∃ o1 s1 o2, f ty (boxBytes ty p) s = .ok (o1, s1) ∧ rest.rewrite f s1 = .ok (o2, s') ∧
      o = o1 ++ o2 := by
  rw [Forest.rewrite] at h
  cases h1 : f ty (boxBytes ty p) s with
  | error e => rw [h1] at h; cases h
  | ok x =>
    obtain ⟨o1, s1⟩ := x
    rw [h1] at h
    simp only at h
    cases h2 : rest.rewrite f s1 with
    | error e => rw [h2] at h; cases h
    | ok y =>
      obtain ⟨o2, s2⟩ := y
      rw [h2] at h
      simp only [Except.ok.injEq, Prod.mk.injEq] at h
      exact ⟨o1, s1, o2, rfl, by rw [h2, h.2], h.1.symm⟩

theorem rewrite_node_cons {f : Bytes → Bytes → σ → Py (Bytes × σ)} {ty : Bytes}
    {kids rest : Forest} {s s' : σ} {o : Bytes}
    (h : (Forest.node ty kids rest).rewrite f s = .ok (o, s')) :
    ∃ k s1 o2, kids.rewrite f s = .ok (k, s1) ∧ rest.rewrite f s1 = .ok (o2, s') ∧
      8 + k.length < 2 ^ 32 ∧ o = boxBytes ty k ++ o2 := by
  rw [Forest.rewrite] at h
  cases h1 : kids.rewrite f s with
  | error e => rw [h1] at h; cases h
  | ok x =>
    obtain ⟨k, s1⟩ := x
    rw [h1] at h
    simp only at h
    split at h
    · rename_i h32
      cases h2 : rest.rewrite f s1 with
      | error e => rw [h2] at h; cases h
      | ok y =>
        obtain ⟨o2, s2⟩ := y
        rw [h2] at h
        simp only [Except.ok.injEq, Prod.mk.injEq] at h
        exact ⟨k, s1, o2, rfl, by rw [h2, h.2], h32, h.1.symm⟩
    · cases h

/-- A list of fragment boxes is shifted box by box. -/
theorem rewrite_withLeaves (c : MfCfg) (bs : List FragBox) (rest : Forest) :
    ∀ (s s' : MfState) (o : Bytes), (∀ b ∈ bs, b.Ok) → s.ttmlSize = none → 0 ≤ s.sizeChange →
    (Forest.withLeaves bs rest).rewrite (mediaLeaf c) s = .ok (o, s') →
    ∃ s1 o2, SameShift s s1 ∧ rest.rewrite (mediaLeaf c) s1 = .ok (o2, s') ∧
      o = bs.flatMap (fun b => (b.shift s.sizeChange).bytes) ++ o2 ∧
      ∀ b ∈ bs, (b.shift s.sizeChange).Ok := by
  induction bs with
  | nil =>
    intro s s' o _ _ _ h
    exact ⟨s, o, SameShift.refl s, h, by simp, by simp⟩
  | cons b bs ih =>
    intro s s' o hb hz hd h
    obtain ⟨o1, s1, o2, h1, h2, rfl⟩ := rewrite_leaf_cons h
    obtain ⟨e1, e2, e3⟩ := mediaLeaf_shift c b (hb b (by simp)) s s1 o1 hz hd h1
    obtain ⟨s2, o3, g1, g2, g3, g4⟩ := ih s1 s' o2 (fun x hx => hb x (by simp [hx]))
      (by rw [e2.2.2]; exact hz) (by rw [e2.1]; exact hd) h2
    refine ⟨s2, o3, e2.trans g1, g2, ?_, ?_⟩
    · rw [e1, g3, e2.1]; simp
    · intro x hx
      rcases List.mem_cons.1 hx with rfl | hx
      · exact e3
      · rw [← e2.1]; exact g4 x hx

/-- The decode time box. -/
theorem processTfdt_ok (c : MfCfg) (wide : Bool) (f2 f1 f0 : UInt8) (t : Nat)
    (ht : t < (if wide then 2 ^ 64 else 2 ^ 32)) (s : MfState) (ts : Int)
    (hts : c.timescale = some ts) :
    processTfdt c (boxBytes tyTfdt (tfdtPayload wide f2 f1 f0 t)) s =
      (let new := (t : Int) + c.offset * ts
       if new < 0 ∨ 2 ^ 64 ≤ new then .error .structError
       else if wide ∨ 2 ^ 32 ≤ new then
        .ok (boxBytes tyTfdt (tfdtPayload true (if wide then f2 else f2) f1 f0 new.toNat),
          { s with tfdt := some new, sizeChange := if wide then s.sizeChange else 4 })
       else .ok (boxBytes tyTfdt (tfdtPayload false f2 f1 f0 new.toNat),
          { s with tfdt := some new })) := by
  cases wide with
  | true =>
    simp only [tfdtPayload, if_true]
    unfold processTfdt
    rw [box_get8 rfl]
    have h0 : ([1, f2, f1, f0] ++ beBytes 8 t)[0]? = some 1 := rfl
    have hs : slice (boxBytes tyTfdt ([1, f2, f1, f0] ++ beBytes 8 t)) 12 20 = beBytes 8 t := by
      rw [box_slice rfl _ _ _ (by omega)]
      have := slice_eq_of_append [1, f2, f1, f0] (beBytes 8 t) [] (a := 4) (b := 12) rfl (by simp)
      simpa using this
    rw [h0]
    simp only [hts]
    rw [if_neg (by decide), hs, strToUint64, if_pos (by simp),
      beVal_beBytes_of_lt (by simpa using ht)]
    simp only
    by_cases hr : (t : Int) + c.offset * ts < 0 ∨ 2 ^ 64 ≤ (t : Int) + c.offset * ts
    · rw [if_pos hr, uint64ToStr, if_neg (by omega)]
    · rw [if_neg hr, uint64ToStr, if_pos (by omega), if_pos (Or.inl trivial)]
      simp only
      rw [box_take rfl _ _ (by omega)]
      simp [boxBytes]
  | false =>
    simp only [tfdtPayload, Bool.false_eq_true, if_false, false_or, if_true]
    unfold processTfdt
    rw [box_get8 rfl]
    have h0 : ([0, f2, f1, f0] ++ beBytes 4 t)[0]? = some 0 := rfl
    have hs : slice (boxBytes tyTfdt ([0, f2, f1, f0] ++ beBytes 4 t)) 12 16 = beBytes 4 t := by
      rw [box_slice rfl _ _ _ (by omega)]
      have := slice_eq_of_append [0, f2, f1, f0] (beBytes 4 t) [] (a := 4) (b := 8) rfl (by simp)
      simpa using this
    rw [h0]
    simp only [hts]
    rw [if_pos trivial, hs, strToUint32, if_pos (by simp), beVal_beBytes_of_lt (by simpa using ht)]
    simp only
    by_cases hlt : (t : Int) + c.offset * ts < 4294967296
    · rw [if_pos hlt]
      by_cases hneg : (t : Int) + c.offset * ts < 0
      · rw [if_pos (Or.inl hneg), uint32ToStr, if_neg (by omega)]
      · rw [if_neg (by omega), if_neg (by omega), uint32ToStr, if_pos (by omega)]
        simp only
        rw [box_take rfl _ _ (by omega)]
        simp [boxBytes]
    · rw [if_neg hlt]
      have ht4 : (boxBytes tyTfdt ([0, f2, f1, f0] ++ beBytes 4 t)).take 4 = beBytes 4 16 := by
        have := boxBytes_take4 tyTfdt ([0, f2, f1, f0] ++ beBytes 4 t) []
        simpa using this
      rw [ht4, strToUint32, if_pos (by simp), beVal_beBytes_of_lt (by decide)]
      simp only
      by_cases hbig : 2 ^ 64 ≤ (t : Int) + c.offset * ts
      · rw [if_pos (Or.inr hbig), uint64ToStr, if_neg (by omega)]
        rfl
      · rw [if_neg (by omega), if_pos (by omega), uint64ToStr, if_pos (by omega)]
        have : uint32ToStr (((16 : Nat) : Int) + 4) = .ok (beBytes 4 20) := by decide
        rw [this]
        simp only
        have h48 : slice (boxBytes tyTfdt ([0, f2, f1, f0] ++ beBytes 4 t)) 4 8 = tyTfdt := by
          have := boxBytes_type (ty := tyTfdt) ([0, f2, f1, f0] ++ beBytes 4 t) [] rfl
          simpa using this
        have h912 : slice (boxBytes tyTfdt ([0, f2, f1, f0] ++ beBytes 4 t)) 9 12
            = [f2, f1, f0] := by
          rw [box_slice rfl _ _ _ (by omega)]; rfl
        rw [h48, h912]
        simp [boxBytes]

end Verif
