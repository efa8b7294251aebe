import Verif.Lemmas.Captions
import Verif.Lemmas.BoxTree
import Mathlib.Tactic.Linarith
import Mathlib.Algebra.Order.Field.Rat
/-
C44: inserting captions keeps the video.
-/
namespace Verif

theorem hasFlag_byte0 (a b c d : UInt8) (k : Nat) (hk : k < 8) :
    hasFlag (beVal [a, b, c, d] % 2 ^ 24) k = d.toNat.testBit k := by
  unfold hasFlag
  rw [Nat.testBit_mod_two_pow]
  have e : beVal [a, b, c, d] = 2 ^ 8 * (a.toNat * 256 ^ 2 + b.toNat * 256 + c.toNat) + d.toNat := by
    simp only [beVal, List.length_cons, List.length_nil]
    omega
  rw [e, Nat.testBit_two_pow_mul_add _ (by have := d.toNat_lt; omega), if_pos hk]
  simp
  omega

theorem hasFlag_byte1 (a b c d : UInt8) (k : Nat) (hk : k < 8) :
    hasFlag (beVal [a, b, c, d] % 2 ^ 24) (8 + k) = c.toNat.testBit k := by
  unfold hasFlag
  rw [Nat.testBit_mod_two_pow]
  have e : beVal [a, b, c, d] = 2 ^ 8 * (2 ^ 8 * (a.toNat * 256 + b.toNat) + c.toNat) + d.toNat := by
    simp only [beVal, List.length_cons, List.length_nil]
    omega
  rw [e, Nat.testBit_two_pow_mul_add _ (by have := d.toNat_lt; omega), if_neg (by omega), Nat.add_sub_cancel_left,
    Nat.testBit_two_pow_mul_add _ (by have := c.toNat_lt; omega), if_pos hk]
  simp
  omega

theorem ccTrun_eq {c : CcCfg} {data : Bytes} {s : CcState} {vf count off : Nat} {o out : Bytes}
    {entries : List CcEntry} (h1 : strToUint32 (slice data 8 12) = .ok vf)
    (h2 : strToUint32 (slice data 12 16) = .ok count) (g0 : hasFlag (vf % 2 ^ 24) 0 = true)
    (g2 : hasFlag (vf % 2 ^ 24) 2 = false) (h3 : strToUint32 (slice data 16 20) = .ok off)
    (h4 : uint32ToStr (off : Int) = .ok o)
    (h5 : ccSamples c data (vf % 2 ^ 24) count 20 c.tfdt 0 = .ok (out, entries)) :
    ccTrun c data s = .ok (data.take 16 ++ o ++ out, { trunOffset := off, map := s.map ++ entries }) := by
  unfold ccTrun
  rw [h1]
  simp only [h2, g0, g2, h3, h4, h5, if_true, Bool.false_eq_true, if_false]

theorem captioned_length {field : Nat} {caps : List Caption} {ts t : Nat} {ss ss' : List VideoSample}
    (h : Captioned field caps ts t ss ss') : ss'.length = ss.length := by
  induction h with
  | nil => rfl
  | cons t s new ss ss' hn h ih => simp [ih]

theorem runEntry_length (f1 : UInt8) (s : VideoSample) :
    (runEntry f1 s).length = 8 + (if f1.toNat.testBit 2 = true then 4 else 0) +
      (if f1.toNat.testBit 3 = true then 4 else 0) := by
  unfold runEntry
  simp only [List.length_append, beBytes_length]
  congr 1
  · congr 1
    split <;> simp
  · split <;> simp

theorem runEntries_length (f1 : UInt8) (ss : List VideoSample) :
    (ss.flatMap (runEntry f1)).length = ss.length * (8 + (if f1.toNat.testBit 2 = true then 4 else 0) +
      (if f1.toNat.testBit 3 = true then 4 else 0)) := by
  induction ss with
  | nil => simp
  | cons s ss ih => rw [List.flatMap_cons, List.length_append, ih, runEntry_length, List.length_cons, Nat.succ_mul]; omega

theorem runContent_length (v f2 f1 f0 : UInt8) (off : Nat) (ss : List VideoSample) :
    (runContent v f2 f1 f0 off ss).length = 12 + (ss.flatMap (runEntry f1)).length := by
  unfold runContent
  simp only [List.length_append, beBytes_length, List.length_cons, List.length_nil]

/-- The run box. -/
theorem ccTrun_run (c : CcCfg) (v f2 f1 f0 : UInt8) (off : Nat) (ss : List VideoSample) (st : CcState)
    (hs : ∀ s ∈ ss, s.Ok) (hts : 0 < c.timescale) (hf : c.field = 1 ∨ c.field = 2)
    (hl : ∀ x ∈ c.caps, x.words.length ≤ 31) (hw : ∀ x ∈ c.caps, ∀ w ∈ x.words, w < 65536)
    (hlen : captionedLength c.caps c.timescale c.tfdt ss < 2 ^ 32) (hoff : off < 2 ^ 32) (hn : ss.length < 2 ^ 32)
    (g0 : f0.toNat.testBit 0 = true) (g2 : f0.toNat.testBit 2 = false) (g8 : f1.toNat.testBit 0 = true)
    (g9 : f1.toNat.testBit 1 = true) :
    ∃ ss' entries, ccTrun c (boxBytes tyTrun (runContent v f2 f1 f0 off ss)) st =
        .ok (boxBytes tyTrun (runContent v f2 f1 f0 off ss'), { trunOffset := off, map := st.map ++ entries }) ∧
      Captioned c.field c.caps c.timescale c.tfdt ss ss' ∧ Inserts entries 0 ss ss' ∧
      (ss'.flatMap VideoSample.bytes).length = captionedLength c.caps c.timescale c.tfdt ss ∧
      (ss.flatMap VideoSample.bytes).length + (entries.map fun e => e.nalu.length).sum =
        captionedLength c.caps c.timescale c.tfdt ss := by
  have hdrop : (boxBytes tyTrun (runContent v f2 f1 f0 off ss)).drop 20 = ss.flatMap (runEntry f1) ++ [] := by
    rw [box_drop rfl _ _ (by omega), List.append_nil]
    unfold runContent
    rw [List.drop_left' (by simp)]
  obtain ⟨ss', entries, h1, h2, h3, h4, h5⟩ := ccSamples_run c (boxBytes tyTrun (runContent v f2 f1 f0 off ss))
    (beVal [v, f2, f1, f0] % 2 ^ 24) f1
    (by rw [hasFlag_byte1 v f2 f1 f0 0 (by decide), g8]) (by rw [hasFlag_byte1 v f2 f1 f0 1 (by decide), g9])
    (hasFlag_byte1 v f2 f1 f0 2 (by decide)) (hasFlag_byte1 v f2 f1 f0 3 (by decide)) hts hf hl hw ss hs 20 c.tfdt 0
    [] hdrop hlen
  refine ⟨ss', entries, ?_, h2, h3, h4, h5⟩
  have hle := captioned_length h2
  have e1 : slice (boxBytes tyTrun (runContent v f2 f1 f0 off ss)) 8 12 = [v, f2, f1, f0] := by
    rw [box_slice rfl _ _ _ (by omega)]; rfl
  have e2 : slice (boxBytes tyTrun (runContent v f2 f1 f0 off ss)) 12 16 = beBytes 4 ss.length := by
    rw [box_slice rfl _ _ _ (by omega)]
    have := slice_eq_of_append [v, f2, f1, f0] (beBytes 4 ss.length) (beBytes 4 off ++ ss.flatMap (runEntry f1))
      (a := 12 - 8) (b := 16 - 8) (by simp) (by simp)
    unfold runContent
    simpa using this
  have e3 : slice (boxBytes tyTrun (runContent v f2 f1 f0 off ss)) 16 20 = beBytes 4 off := by
    rw [box_slice rfl _ _ _ (by omega)]
    have := slice_eq_of_append ([v, f2, f1, f0] ++ beBytes 4 ss.length) (beBytes 4 off) (ss.flatMap (runEntry f1))
      (a := 16 - 8) (b := 20 - 8) (by simp) (by simp)
    unfold runContent
    simpa using this
  have u : ∀ n, n < 2 ^ 32 → strToUint32 (beBytes 4 n) = .ok n := by
    intro n hn
    unfold strToUint32
    rw [if_pos (by simp), beVal_beBytes_of_lt (by omega)]
  have e4 : strToUint32 [v, f2, f1, f0] = .ok (beVal [v, f2, f1, f0]) := by
    unfold strToUint32; rw [if_pos (by rfl)]
  rw [ccTrun_eq (by rw [e1, e4]) (by rw [e2, u _ hn]) (by rw [hasFlag_byte0 v f2 f1 f0 0 (by decide), g0])
    (by rw [hasFlag_byte0 v f2 f1 f0 2 (by decide), g2]) (by rw [e3, u _ hoff]) (uint32ToStr_nat hoff) h1]
  congr 2
  rw [box_take rfl _ _ (by omega)]
  have e5 : (runContent v f2 f1 f0 off ss).take (16 - 8) = [v, f2, f1, f0] ++ beBytes 4 ss.length := by
    unfold runContent
    rw [List.append_assoc ([v, f2, f1, f0] ++ beBytes 4 ss.length), List.take_left' (by simp)]
  have e6 : (runContent v f2 f1 f0 off ss).length = (runContent v f2 f1 f0 off ss').length := by
    rw [runContent_length, runContent_length, runEntries_length, runEntries_length, hle]
  rw [e5, e6]
  unfold boxBytes
  conv => rhs; arg 2; unfold runContent
  rw [hle]
  simp only [List.append_assoc]

/-! ### The moof box -/

/-- Plain boxes before a forest. -/
def plainForest : List (Bytes × Bytes) → Forest → Forest
  | [], f => f
  | b :: l, f => .leaf b.1 b.2 (plainForest l f)

theorem plainForest_bytes (l : List (Bytes × Bytes)) (f : Forest) :
    (plainForest l f).bytes = boxesBytes l ++ f.bytes := by
  induction l with
  | nil => rfl
  | cons b l ih =>
    unfold plainForest
    rw [Forest.bytes, ih]
    simp [boxesBytes]

theorem plain_cons {b : Bytes × Bytes} {l : List (Bytes × Bytes)} (h : PlainBoxes (b :: l)) :
    PlainBoxes l ∧ b.1.length = 4 ∧ b.1 ∉ [tyMoof, tyTraf, tyMdat, tyTrun] ∧ utf8Valid b.1 = true ∧
      8 + b.2.length < 2 ^ 32 :=
  ⟨fun x hx => h x (by simp [hx]), h b (by simp)⟩

theorem plainForest_ok {l : List (Bytes × Bytes)} (h : PlainBoxes l) {f : Forest}
    (hf : f.Ok [tyMoof, tyTraf]) : (plainForest l f).Ok [tyMoof, tyTraf] := by
  induction l with
  | nil => exact hf
  | cons b l ih =>
    obtain ⟨h1, h2, h3, _, h4⟩ := plain_cons h
    unfold plainForest
    refine ⟨h2, ?_, h4, ih h1⟩
    intro hc
    apply h3
    simp only [List.mem_cons, List.not_mem_nil, or_false] at hc ⊢
    tauto

theorem ccLeaf_plain (c : CcCfg) {ty : Bytes} (h : ty ∉ [tyMoof, tyTraf, tyMdat, tyTrun])
    (hu : utf8Valid ty = true) (d : Bytes) (s : CcState) : ccLeaf c ty d s = .ok (d, s) := by
  unfold ccLeaf
  rw [if_neg (by intro hc; apply h; rw [hc]; simp), if_pos hu]

theorem plainForest_rewrite (c : CcCfg) {l : List (Bytes × Bytes)} (h : PlainBoxes l) (f : Forest) (s s' : CcState)
    (o : Bytes) (hf : f.rewrite (ccLeaf c) s = .ok (o, s')) :
    (plainForest l f).rewrite (ccLeaf c) s = .ok (boxesBytes l ++ o, s') := by
  induction l with
  | nil => exact hf
  | cons b l ih =>
    obtain ⟨h1, h2, h3, h4, _⟩ := plain_cons h
    unfold plainForest
    rw [Forest.rewrite, ccLeaf_plain c h3 h4]
    simp only
    rw [ih h1]
    simp [boxesBytes]

theorem boxesBytes_length_ge (l : List (Bytes × Bytes)) : l.length ≤ (boxesBytes l).length := by
  induction l with
  | nil => simp [boxesBytes]
  | cons b l ih =>
    have : boxesBytes (b :: l) = boxBytes b.1 b.2 ++ boxesBytes l := rfl
    rw [this, List.length_append, boxBytes_length, List.length_cons]
    omega

theorem moof_length (g : RunSegment) (off off' : Nat) (ss ss' : List VideoSample) (h : ss'.length = ss.length) :
    (g.moof off ss).length = (g.moof off' ss').length := by
  unfold RunSegment.moof
  simp only [boxBytes_length, List.length_append, runContent_length, runEntries_length, h]

/-- The moof box through the filter. -/
theorem ccMoof (c : CcCfg) (g : RunSegment) (hg : g.Ok) (off : Nat) (ss : List VideoSample) (st : CcState)
    (hs : ∀ s ∈ ss, s.Ok) (hts : 0 < c.timescale) (hf : c.field = 1 ∨ c.field = 2)
    (hl : ∀ x ∈ c.caps, x.words.length ≤ 31) (hw : ∀ x ∈ c.caps, ∀ w ∈ x.words, w < 65536)
    (hlen : captionedLength c.caps c.timescale c.tfdt ss < 2 ^ 32) (hoff : off < 2 ^ 32)
    (hm : (g.moof off ss).length < 2 ^ 32) (n : Nat) (hn : (g.moof off ss).length < n) :
    ∃ ss' entries, filterBox (ccRules c) n tyMoof (g.moof off ss) st =
        .ok (g.moof off ss', { trunOffset := off, map := st.map ++ entries }) ∧
      Captioned c.field c.caps c.timescale c.tfdt ss ss' ∧ Inserts entries 0 ss ss' ∧
      (ss'.flatMap VideoSample.bytes).length = captionedLength c.caps c.timescale c.tfdt ss ∧
      (ss.flatMap VideoSample.bytes).length + (entries.map fun e => e.nalu.length).sum =
        captionedLength c.caps c.timescale c.tfdt ss := by
  obtain ⟨_, p1, p2, p3, p4, _, _, g0, g2, g8, g9⟩ := hg
  have hlm : (g.moof off ss).length = 8 + ((boxesBytes g.mfhd).length + (8 + ((boxesBytes g.tfhd).length +
      (8 + (runContent g.v g.f2 g.f1 g.f0 off ss).length) + (boxesBytes g.after).length)) +
      (boxesBytes g.last).length) := by
    unfold RunSegment.moof
    simp only [boxBytes_length, List.length_append]
    simp
  have hss : ss.length < 2 ^ 32 := by
    have h1 := runContent_length g.v g.f2 g.f1 g.f0 off ss
    rw [runEntries_length] at h1
    have : ss.length * 8 ≤ ss.length * (8 + (if g.f1.toNat.testBit 2 = true then 4 else 0) +
      (if g.f1.toNat.testBit 3 = true then 4 else 0)) := Nat.mul_le_mul_left _ (by omega)
    omega
  obtain ⟨ss', entries, h1, h2, h3, h4, h5⟩ := ccTrun_run c g.v g.f2 g.f1 g.f0 off ss st hs hts hf hl hw hlen hoff hss
    g0 g2 g8 g9
  refine ⟨ss', entries, ?_, h2, h3, h4, h5⟩
  have hleaf : ccLeaf c tyTrun (boxBytes tyTrun (runContent g.v g.f2 g.f1 g.f0 off ss)) st =
      ccTrun c (boxBytes tyTrun (runContent g.v g.f2 g.f1 g.f0 off ss)) st := by
    unfold ccLeaf; rw [if_pos rfl]
  have r1 : (plainForest g.after Forest.nil).rewrite (ccLeaf c) { trunOffset := off, map := st.map ++ entries } =
      .ok (boxesBytes g.after ++ [], { trunOffset := off, map := st.map ++ entries }) :=
    plainForest_rewrite c p3 _ _ _ _ rfl
  have r2 : (plainForest g.tfhd (.leaf tyTrun (runContent g.v g.f2 g.f1 g.f0 off ss)
      (plainForest g.after .nil))).rewrite (ccLeaf c) st = .ok (boxesBytes g.tfhd ++
        (boxBytes tyTrun (runContent g.v g.f2 g.f1 g.f0 off ss') ++ (boxesBytes g.after ++ [])),
        { trunOffset := off, map := st.map ++ entries }) := by
    apply plainForest_rewrite c p2
    rw [Forest.rewrite, hleaf, h1]
    simp only
    rw [r1]
  have hlen' := moof_length g off off ss ss' (captioned_length h2)
  have hlm' : (g.moof off ss').length = 8 + ((boxesBytes g.mfhd).length + (8 + ((boxesBytes g.tfhd).length +
      (8 + (runContent g.v g.f2 g.f1 g.f0 off ss').length) + (boxesBytes g.after).length)) +
      (boxesBytes g.last).length) := by
    unfold RunSegment.moof
    simp only [boxBytes_length, List.length_append]
    simp
  have r3 : (plainForest g.last Forest.nil).rewrite (ccLeaf c) { trunOffset := off, map := st.map ++ entries } =
      .ok (boxesBytes g.last ++ [], { trunOffset := off, map := st.map ++ entries }) :=
    plainForest_rewrite c p4 _ _ _ _ rfl
  have r4 : (plainForest g.mfhd (.node tyTraf (plainForest g.tfhd (.leaf tyTrun (runContent g.v g.f2 g.f1 g.f0 off ss)
      (plainForest g.after .nil))) (plainForest g.last .nil))).rewrite (ccLeaf c) st =
      .ok (boxesBytes g.mfhd ++ (boxBytes tyTraf (boxesBytes g.tfhd ++
        (boxBytes tyTrun (runContent g.v g.f2 g.f1 g.f0 off ss') ++ (boxesBytes g.after ++ []))) ++
          (boxesBytes g.last ++ [])), { trunOffset := off, map := st.map ++ entries }) := by
    apply plainForest_rewrite c p1
    rw [Forest.rewrite, r2]
    simp only
    rw [if_pos (by simp [boxBytes_length]; omega), r3]
  have hok : (plainForest g.mfhd (.node tyTraf (plainForest g.tfhd (.leaf tyTrun (runContent g.v g.f2 g.f1 g.f0 off ss)
      (plainForest g.after .nil))) (plainForest g.last .nil))).Ok [tyMoof, tyTraf] := by
    apply plainForest_ok p1
    refine ⟨rfl, by simp, ?_, ?_, plainForest_ok p4 trivial⟩
    · rw [plainForest_bytes, Forest.bytes, plainForest_bytes]
      simp [Forest.bytes, boxBytes_length]
      omega
    · apply plainForest_ok p2
      exact ⟨rfl, by decide, by omega, plainForest_ok p3 trivial⟩
  have hbytes : (plainForest g.mfhd (.node tyTraf (plainForest g.tfhd (.leaf tyTrun
      (runContent g.v g.f2 g.f1 g.f0 off ss) (plainForest g.after .nil))) (plainForest g.last .nil))).bytes =
      boxesBytes g.mfhd ++ boxBytes tyTraf (boxesBytes g.tfhd ++
        boxBytes tyTrun (runContent g.v g.f2 g.f1 g.f0 off ss) ++ boxesBytes g.after) ++ boxesBytes g.last := by
    simp [plainForest_bytes, Forest.bytes]
  obtain ⟨n, rfl⟩ : ∃ k, n = k + 1 := ⟨n - 1, by omega⟩
  unfold RunSegment.moof
  rw [filterBox_node (ccRules c) n _ st rfl (by simp [ccRules]) (by simp [boxBytes_length]; omega), ← hbytes,
    filterKids_forest (ccRules c) _ n st hok (by rw [hbytes]; simp [boxBytes_length]; omega)]
  rw [show (ccRules c).leaf = ccLeaf c from rfl, r4]
  simp only
  rw [if_pos (by simp [boxBytes_length]; omega)]
  simp

/-! ### The whole segment -/

theorem ccTop_box (c : CcCfg) (n : Nat) {ty : Bytes} (p rest : Bytes) (pos : Nat) (m : Option Nat) (s : CcState)
    (ht : ty.length = 4) (hl : 8 + p.length < 2 ^ 32) :
    ccTop c (n + 1) (boxBytes ty p ++ rest) pos m s =
      match (if ty = [109, 100, 97, 116] then
          match (if ty = [109, 111, 111, 102] then some pos else m) with
          | none => .error .unbound
          | some m =>
            match ccMdat s ((pos : Int) - m) (boxBytes ty p) with
            | .error e => .error e
            | .ok o => .ok (o, s)
        else if ty ∈ (ccRules c).top then filterBox (ccRules c) n ty (boxBytes ty p) s
        else .ok (boxBytes ty p, s) : Py (Bytes × CcState)) with
      | .error e => .error e
      | .ok (box, s') =>
        match ccTop c n rest (pos + box.length) (if ty = [109, 111, 111, 102] then some pos else m) s' with
        | .error e => .error e
        | .ok others => .ok (box ++ others) := by
  obtain ⟨b, l, hb⟩ := boxBytes_ne_nil ty p rest
  have h1 := boxBytes_size hl ty rest
  have h2 := boxBytes_type p rest ht
  have h3 := boxBytes_take p rest ht
  have h4 := boxBytes_drop p rest ht
  rw [hb] at h1 h2 h3 h4 ⊢
  conv => lhs; unfold ccTop
  rw [h1]
  simp only [h2, h3, h4]
  rfl

theorem ccTop_plain (c : CcCfg) {l : List (Bytes × Bytes)} (h : PlainBoxes l) (k : Nat) (hk : 1 ≤ k) (rest : Bytes)
    (pos : Nat) (m : Option Nat) (s : CcState) (out : Bytes)
    (hr : ccTop c k rest (pos + (boxesBytes l).length) m s = .ok out) :
    ccTop c (k + l.length) (boxesBytes l ++ rest) pos m s = .ok (boxesBytes l ++ out) := by
  induction l generalizing pos with
  | nil => simpa [boxesBytes] using hr
  | cons b l ih =>
    obtain ⟨h1, h2, h3, h4, h5⟩ := plain_cons h
    have e : boxesBytes (b :: l) = boxBytes b.1 b.2 ++ boxesBytes l := rfl
    rw [e] at hr ⊢
    rw [List.length_append, ← Nat.add_assoc] at hr
    rw [List.append_assoc, List.length_cons, ← Nat.add_assoc, ccTop_box c (k + l.length) _ _ pos m s h2 h5]
    have n1 : b.1 ≠ [109, 100, 97, 116] := by
      intro hc; apply h3; rw [hc]; simp
    have n2 : b.1 ≠ [109, 111, 111, 102] := by
      intro hc; apply h3; rw [hc]; simp
    have n3 : b.1 ∉ (ccRules c).composite := by
      intro hc
      apply h3
      simp only [ccRules, List.mem_cons, List.not_mem_nil, or_false] at hc ⊢
      tauto
    rw [if_neg n1, if_neg n2]
    have e2 : (if b.1 ∈ (ccRules c).top then filterBox (ccRules c) (k + l.length) b.1 (boxBytes b.1 b.2) s
        else .ok (boxBytes b.1 b.2, s) : Py (Bytes × CcState)) = .ok (boxBytes b.1 b.2, s) := by
      split
      · obtain ⟨j, hj⟩ : ∃ j, k + l.length = j + 1 := ⟨k + l.length - 1, by omega⟩
        rw [hj, filterBox, if_neg n3]
        exact ccLeaf_plain c h3 h4 _ s
      · rfl
    rw [e2]
    simp only
    rw [ih h1 _ hr]
    simp

theorem captionedLength_ge (caps : List Caption) (ts t : Nat) (ss : List VideoSample) :
    (ss.flatMap VideoSample.bytes).length ≤ captionedLength caps ts t ss := by
  induction ss generalizing t with
  | nil => simp
  | cons s ss ih =>
    unfold captionedLength
    have := ih (t + s.duration)
    rw [List.flatMap_cons, List.length_append]
    omega

/-- **C44.** In every segment with one run (data offset, durations and sizes given, no first-sample
flags), with any boxes around, any samples made of NAL units and any captions of at most 31 words:
the result is the segment of the same shape with, in every sample, the caption messages of its time
interval in order, placed before its first picture unit; run sizes, media data size and data offset
are those of the new samples, everything else is unchanged.  Missing: the other runs, see the
violations below. -/
theorem C44_segment_partial (c : CcCfg) (g : RunSegment) (hg : g.Ok) (ss : List VideoSample)
    (hs : ∀ s ∈ ss, s.Ok) (hts : 0 < c.timescale) (hf : c.field = 1 ∨ c.field = 2)
    (hl : ∀ x ∈ c.caps, x.words.length ≤ 31) (hw : ∀ x ∈ c.caps, ∀ w ∈ x.words, w < 65536)
    (hlen : 8 + g.pre.length + captionedLength c.caps c.timescale c.tfdt ss + g.post.length < 2 ^ 32)
    (hoff : g.offset ss < 2 ^ 32) :
    ∃ ss', Captioned c.field c.caps c.timescale c.tfdt ss ss' ∧ ccFilter c (g.bytes ss) = .ok (g.bytes ss') := by
  have hlm := moof_length g 0 (g.offset ss) ss ss rfl
  have hmo : (g.moof (g.offset ss) ss).length < 2 ^ 32 := by
    rw [← hlm]
    unfold RunSegment.offset at hoff
    omega
  have hge := captionedLength_ge c.caps c.timescale c.tfdt ss
  -- lengths
  have hD : (g.bytes ss).length = (boxesBytes g.front).length + (g.moof (g.offset ss) ss).length +
      (boxesBytes g.mid).length + (8 + (g.pre.length + (ss.flatMap VideoSample.bytes).length + g.post.length)) +
      (boxesBytes g.back).length := by
    unfold RunSegment.bytes
    simp only [List.length_append, boxBytes_length]
    rfl
  have q1 := boxesBytes_length_ge g.front
  have q2 := boxesBytes_length_ge g.mid
  have q3 := boxesBytes_length_ge g.back
  -- fuel
  obtain ⟨kb, hkb, hkb1⟩ : ∃ kb, 2 * (g.bytes ss).length + 1 =
      ((kb + g.back.length) + 1 + g.mid.length) + 1 + g.front.length ∧ 1 ≤ kb ∧ (g.moof (g.offset ss) ss).length <
      (kb + g.back.length) + 1 + g.mid.length :=
    ⟨2 * (g.bytes ss).length + 1 - (g.back.length + g.mid.length + g.front.length + 2), by omega, by omega, by omega⟩
  obtain ⟨hkb1, hkb2⟩ := hkb1
  obtain ⟨ss', entries, h1, h2, h3, h4, h5⟩ := ccMoof c g hg (g.offset ss) ss { trunOffset := 0, map := [] } hs hts hf
    hl hw (by omega) hoff hmo ((kb + g.back.length) + 1 + g.mid.length) hkb2
  refine ⟨ss', h2, ?_⟩
  have hoff' : g.offset ss' = g.offset ss := by
    unfold RunSegment.offset
    rw [moof_length g 0 0 ss ss' (captioned_length h2)]
  have hlm' := moof_length g (g.offset ss) (g.offset ss) ss ss' (captioned_length h2)
  obtain ⟨pf, _, _, _, _, pm, pb, _⟩ := hg
  -- the media data
  have hmd : ccMdat { trunOffset := g.offset ss, map := [] ++ entries }
      ((((boxesBytes g.front).length + (g.moof (g.offset ss) ss').length + (boxesBytes g.mid).length : Nat) : Int) -
        ((boxesBytes g.front).length : Nat))
      (boxBytes tyMdat (g.pre ++ ss.flatMap VideoSample.bytes ++ g.post)) =
      .ok (boxBytes tyMdat (g.pre ++ ss'.flatMap VideoSample.bytes ++ g.post)) := by
    have hbase : ((g.offset ss : Nat) : Int) - ((((boxesBytes g.front).length + (g.moof (g.offset ss) ss').length +
        (boxesBytes g.mid).length : Nat) : Int) - ((boxesBytes g.front).length : Nat)) =
        ((8 + g.pre.length : Nat) : Int) := by
      rw [← hlm', ← hlm]
      unfold RunSegment.offset
      push_cast
      omega
    have hdl : (boxBytes tyMdat (g.pre ++ ss.flatMap VideoSample.bytes ++ g.post)).length =
        8 + (g.pre.length + (ss.flatMap VideoSample.bytes).length + g.post.length) := by
      rw [boxBytes_length]
      simp only [List.length_append]
      rfl
    obtain ⟨out, final, i1, i2, i3⟩ := h3 (boxBytes tyMdat (g.pre ++ ss.flatMap VideoSample.bytes ++ g.post)) g.post
      (8 + g.pre.length) 0 (le_refl _)
      (by rw [box_drop rfl _ _ (by omega), Nat.add_zero, Nat.add_sub_cancel_left, List.append_assoc, List.drop_left])
      (by omega)
    unfold ccMdat
    simp only [List.nil_append]
    rw [hbase]
    have hsz : (boxBytes tyMdat (g.pre ++ ss.flatMap VideoSample.bytes ++ g.post)).length +
        (entries.map fun e => e.nalu.length).sum =
        8 + (g.pre ++ ss'.flatMap VideoSample.bytes ++ g.post).length := by
      rw [hdl]
      simp only [List.length_append]
      omega
    rw [hsz, uint32ToStr_nat (by simp only [List.length_append]; omega)]
    simp only
    rw [Nat.add_zero] at i1
    rw [i1]
    simp only
    have e1 : sliceAt (boxBytes tyMdat (g.pre ++ ss.flatMap VideoSample.bytes ++ g.post)) 4
        ((8 + g.pre.length : Nat) : Int) = tyMdat ++ g.pre := by
      have : (4 : Int) = ((4 : Nat) : Int) := rfl
      rw [this, sliceAt_nat]
      apply slice_of_drop (y := ss.flatMap VideoSample.bytes ++ g.post)
      · rw [boxBytes_drop4]
        simp
      · simp; omega
    have e2 : (if (final : Int) < ((boxBytes tyMdat (g.pre ++ ss.flatMap VideoSample.bytes ++ g.post)).length : Int)
        then (boxBytes tyMdat (g.pre ++ ss.flatMap VideoSample.bytes ++ g.post)).drop
          (pyIdx (boxBytes tyMdat (g.pre ++ ss.flatMap VideoSample.bytes ++ g.post)).length (final : Int)) else []) =
        (boxBytes tyMdat (g.pre ++ ss.flatMap VideoSample.bytes ++ g.post)).drop final := by
      rw [pyIdx_nat]
      split
      · rfl
      · rw [List.drop_of_length_le (by omega)]
    rw [e1, e2, List.append_assoc _ out, i3]
    have e3 : slice (boxBytes tyMdat (g.pre ++ ss.flatMap VideoSample.bytes ++ g.post)) (8 + g.pre.length + 0)
        (8 + g.pre.length + 0) = [] := by
      unfold slice; simp
    rw [e3]
    unfold boxBytes
    simp only [List.append_assoc, List.nil_append]
  -- the boxes after it
  have hback : ∀ pos m s, ccTop c (kb + g.back.length) (boxesBytes g.back ++ []) pos m s =
      .ok (boxesBytes g.back ++ []) := by
    intro pos m s
    apply ccTop_plain c pb kb hkb1
    unfold ccTop
    rfl
  have hfin : ccTop c (2 * (g.bytes ss).length + 1) (g.bytes ss) 0 none { trunOffset := 0, map := [] } =
      .ok (boxesBytes g.front ++ (g.moof (g.offset ss) ss' ++ (boxesBytes g.mid ++
        (boxBytes tyMdat (g.pre ++ ss'.flatMap VideoSample.bytes ++ g.post) ++ (boxesBytes g.back ++ []))))) := by
    have hb : g.bytes ss = boxesBytes g.front ++ (g.moof (g.offset ss) ss ++ (boxesBytes g.mid ++
        (boxBytes tyMdat (g.pre ++ ss.flatMap VideoSample.bytes ++ g.post) ++ (boxesBytes g.back ++ [])))) := by
      unfold RunSegment.bytes
      simp only [List.append_assoc, List.append_nil]
    rw [hkb, hb]
    apply ccTop_plain c pf _ (by omega)
    obtain ⟨content, hmoof⟩ : ∃ content, g.moof (g.offset ss) ss = boxBytes tyMoof content := ⟨_, rfl⟩
    have hcl : 8 + content.length < 2 ^ 32 := by
      rw [hmoof, boxBytes_length] at hmo
      exact hmo
    rw [hmoof, ccTop_box c _ content _ _ _ _ rfl hcl, ← hmoof]
    rw [if_neg (by decide), if_pos (by simp [ccRules]), h1]
    simp only
    rw [if_pos trivial, ccTop_plain c pm _ (by omega) _ _ _ _ (boxBytes tyMdat (g.pre ++ ss'.flatMap VideoSample.bytes ++
      g.post) ++ (boxesBytes g.back ++ []))]
    rw [ccTop_box c _ _ _ _ _ _ rfl (by simp only [List.length_append]; omega), if_pos rfl, if_neg (by decide)]
    simp only
    rw [Nat.zero_add, hmd]
    simp only
    rw [hback]
  unfold ccFilter
  rw [hfin]
  unfold RunSegment.bytes
  rw [hoff']
  simp only [List.append_assoc, List.append_nil]

/-! ### Every caption exactly once -/

theorem captionsIn_split (caps : List Caption) (ts t a b : Nat) :
    (captionsIn caps ts t a ++ captionsIn caps ts (t + a) b).Perm (captionsIn caps ts t (a + b)) := by
  induction caps with
  | nil => exact List.Perm.nil
  | cons c caps ih =>
    have hc : ∀ t d, captionsIn (c :: caps) ts t d =
        if (t : Rat) ≤ c.start * ts ∧ c.start * ts < t + d then c :: captionsIn caps ts t d
        else captionsIn caps ts t d := by
      intro t d
      unfold captionsIn
      rw [List.filter_cons]
      simp only [decide_eq_true_eq]
    have ha : (0 : Rat) ≤ a := by exact_mod_cast Nat.zero_le a
    have hb : (0 : Rat) ≤ b := by exact_mod_cast Nat.zero_le b
    rw [hc, hc, hc]
    push_cast
    by_cases h1 : (t : Rat) ≤ c.start * ts
    · by_cases h2 : c.start * ts < (t : Rat) + a
      · rw [if_pos ⟨h1, h2⟩, if_neg (fun h => absurd h.1 (not_le.2 h2)), if_pos ⟨h1, by linarith⟩]
        exact List.Perm.cons c ih
      · rw [if_neg (fun h => h2 h.2)]
        by_cases h3 : c.start * ts < (t : Rat) + a + b
        · rw [if_pos ⟨not_lt.1 h2, h3⟩, if_pos ⟨h1, by linarith⟩]
          exact (List.perm_middle).trans (List.Perm.cons c ih)
        · rw [if_neg (fun h => h3 h.2), if_neg (fun h => h3 (by linarith [h.2]))]
          exact ih
    · rw [if_neg (fun h => h1 h.1), if_neg (fun h => h1 (by linarith [h.1])), if_neg (fun h => h1 h.1)]
      exact ih

/-- **C44.** Over a whole run, the samples differ from the old ones only by inserted units, and the
inserted units are the caption messages of the run's interval, each caption exactly once. -/
theorem C44_once {field : Nat} {caps : List Caption} {ts t : Nat} {ss ss' : List VideoSample}
    (h : Captioned field caps ts t ss ss') :
    ∃ news : List (List Bytes), ss' = List.zipWith VideoSample.insert ss news ∧ news.length = ss.length ∧
      (news.flatten.map readCaption).Perm ((captionsIn caps ts t (ss.map VideoSample.duration).sum).map
        fun c => some (c.words.map fun w => (field, w))) := by
  induction h with
  | nil t =>
    refine ⟨[], rfl, rfl, ?_⟩
    have : captionsIn caps ts t ((List.map VideoSample.duration []).sum) = [] := by
      unfold captionsIn
      rw [List.filter_eq_nil_iff]
      intro c _
      simp
    rw [this]
    exact List.Perm.nil
  | cons t s new ss ss' hn h ih =>
    obtain ⟨news, h1, h2, h3⟩ := ih
    refine ⟨new :: news, by rw [h1]; rfl, by simp [h2], ?_⟩
    rw [List.flatten_cons, List.map_append, hn, List.map_cons, List.sum_cons]
    refine (List.Perm.append_left _ h3).trans ?_
    rw [← List.map_append]
    exact (captionsIn_split caps ts t s.duration _).map _

theorem takeWhile_all (p : Bytes → Bool) (l : List Bytes) : ∀ u ∈ l.takeWhile p, p u = true := by
  induction l with
  | nil => simp
  | cons a l ih =>
    intro u hu
    rw [List.takeWhile_cons] at hu
    split at hu
    · rename_i h
      rcases List.mem_cons.1 hu with rfl | h'
      · exact h
      · exact ih u h'
    · cases hu

/-- **C44.** The units of the old sample are all in the new one in the same order, and the picture
units come after the inserted ones. -/
theorem C44_kept (s : VideoSample) (new : List Bytes) (hn : ∀ u ∈ new, isPicture u = false) :
    s.units.Sublist (s.insert new).units ∧
      (s.insert new).units.filter isPicture = s.units.filter isPicture ∧
      ((s.insert new).units.takeWhile fun u => !isPicture u) = (s.units.takeWhile fun u => !isPicture u) ++ new := by
  have hsp := List.takeWhile_append_dropWhile (p := fun u => !isPicture u) (l := s.units)
  unfold VideoSample.insert
  refine ⟨?_, ?_, ?_⟩
  · conv => lhs; rw [← hsp]
    exact List.Sublist.append (List.sublist_append_left _ _) (List.Sublist.refl _)
  · conv => rhs; rw [← hsp]
    simp only [List.filter_append]
    have : new.filter isPicture = [] := by
      rw [List.filter_eq_nil_iff]
      intro u hu
      simp [hn u hu]
    rw [this, List.append_nil]
  · have h1 : ∀ u ∈ (s.units.takeWhile fun u => !isPicture u) ++ new, (!isPicture u) = true := by
      intro u hu
      rcases List.mem_append.1 hu with h | h
      · exact takeWhile_all _ _ u h
      · simp [hn u h]
    rw [List.takeWhile_append_of_pos h1]
    have h2 : (s.units.dropWhile fun u => !isPicture u).takeWhile (fun u => !isPicture u) = [] := by
      cases hd : s.units.dropWhile fun u => !isPicture u with
      | nil => rfl
      | cons u l =>
        have := List.head_dropWhile_not (fun u => !isPicture u) (l := s.units) (by rw [hd]; simp)
        simp only [hd, List.head_cons] at this
        simp [this]
    rw [h2, List.append_nil]

/-- A caption message is no picture unit. -/
theorem C44_message {u : Bytes} {ws : List (Nat × Nat)} (h : readCaption u = some ws) : isPicture u = false := by
  unfold readCaption at h
  split at h
  · rename_i hd size cc x
    split at h
    · rename_i hc
      unfold isPicture unitType
      simp [hc.1]
    · cases h
  · cases h

theorem noEmulation_words (field : Nat) (ws : List Nat) :
    NoEmulation (ws.flatMap (wordBytes field) ++ [0xff, 0x80]) ∧
      ∃ a x, ws.flatMap (wordBytes field) ++ [0xff, 0x80] = a :: x ∧ 3 < a.toNat := by
  induction ws with
  | nil => exact ⟨trivial, 0xff, [0x80], rfl, by decide⟩
  | cons w ws ih =>
    obtain ⟨h1, a, x, h2, h3⟩ := ih
    rw [List.flatMap_cons, List.append_assoc, h2]
    rw [h2] at h1
    have hf : 3 < (if field = 1 then (0xfc : UInt8) else 0xfd).toNat := by split <;> decide
    have hne : ∀ b : UInt8, 3 < b.toNat → b ≠ 0 := by
      rintro b hb rfl
      simp at hb
    refine ⟨?_, _, _, rfl, hf⟩
    show NoEmulation ((if field = 1 then 0xfc else 0xfd) :: UInt8.ofNat (w / 256) :: UInt8.ofNat w :: a :: x)
    refine ⟨fun h => hne _ hf h.1, fun h => absurd h.2.2 (by omega), ?_⟩
    cases x with
    | nil => trivial
    | cons b x => exact ⟨fun h => hne _ h3 h.2.1, h1⟩

/-- **C44.** A caption message needs no emulation prevention bytes, whatever its words are. -/
theorem C44_emulation (field : Nat) (c : Caption) (b : Bytes) (h : captionNal field c = .ok b) :
    NoEmulation (b.drop 4) := by
  unfold captionNal at h
  dsimp only at h
  split at h
  · cases h
  · split at h
    · cases h
    · rename_i h1 h2
      obtain ⟨h3, a, x, h4, h5⟩ := noEmulation_words field c.words
      simp only [Except.ok.injEq] at h
      rw [← h, List.drop_left' (by simp), List.append_assoc, h4]
      rw [h4] at h3
      have hcc : (UInt8.ofNat (0xc0 + c.words.length)).toNat = 0xc0 + c.words.length := by
        simp [UInt8.toNat_ofNat']
        omega
      generalize UInt8.ofNat (0xc0 + c.words.length) = cc at hcc ⊢
      refine ⟨by simp, by simp, by simp, by simp, by simp, by simp, by simp, by simp, by simp, by simp, by simp, ?_, ?_⟩
      · simp
      · cases x with
        | nil => trivial
        | cons b x => exact ⟨by simp, h3⟩

/-! ### Lines of a caption file -/

theorem chunksOf_spec (num : Nat) (hn : 0 < num) (f : Nat) (l : List α) (hf : l.length ≤ f) :
    (chunksOf num f l).flatten = l ∧ ∀ w ∈ chunksOf num f l, 0 < w.length ∧ w.length ≤ num := by
  induction f generalizing l with
  | zero =>
    have : l = [] := by cases l with
      | nil => rfl
      | cons a l => simp at hf
    subst this
    exact ⟨rfl, by simp [chunksOf]⟩
  | succ f ih =>
    cases l with
    | nil => exact ⟨rfl, by simp [chunksOf]⟩
    | cons a l =>
      unfold chunksOf
      obtain ⟨h1, h2⟩ := ih ((a :: l).drop num) (by simp at hf ⊢; omega)
      refine ⟨by rw [List.flatten_cons, h1, List.take_append_drop], ?_⟩
      intro w hw
      rcases List.mem_cons.1 hw with rfl | h
      · simp only [List.length_take, List.length_cons]
        omega
      · exact h2 w h

/-- **C44.** The words of a line are kept, in captions short enough for a message, at the time of
the line. -/
theorem C44_line (start : Rat) (words : List Nat) :
    ((lineCaptions start words).map Caption.words).flatten = words ∧
      ∀ c ∈ lineCaptions start words, c.start = start ∧ 0 < c.words.length ∧ c.words.length ≤ 31 := by
  obtain ⟨h1, h2⟩ := chunksOf_spec 31 (by decide) words.length words (le_refl _)
  unfold lineCaptions
  refine ⟨?_, ?_⟩
  · rw [List.map_map]
    simpa [Function.comp_def] using h1
  · intro c hc
    obtain ⟨w, hw, rfl⟩ := List.mem_map.1 hc
    exact ⟨rfl, h2 w hw⟩

/-! ### Concrete cases -/

/-- A segment with boxes around. -/
def exRun : RunSegment :=
  { front := [([115, 116, 121, 112], [1])], mfhd := [([109, 102, 104, 100], [0, 0, 0, 0, 0, 0, 0, 1])],
    tfhd := [([116, 102, 104, 100], [0, 2, 0, 0, 0, 0, 0, 1])], after := [], last := [],
    mid := [([102, 114, 101, 101], [])], back := [([102, 114, 101, 101], [7])],
    v := 0, f2 := 0, f1 := 3, f0 := 1, pre := [], post := [9] }

/-- Two samples: a delimiter and a picture, a picture. -/
def exVideo : List VideoSample :=
  [{ duration := 10, flags := 0, comp := 0, units := [[9, 16], [0x65, 1, 2]] },
   { duration := 10, flags := 0, comp := 0, units := [[0x41, 3]] }]

/-- One caption in the second sample, one after the segment. -/
def exCc : CcCfg :=
  { caps := [{ start := 11 / 2, words := [0x9420, 0x94ad] }, { start := 10, words := [1] }], timescale := 2, tfdt := 0,
    field := 1 }

example : exRun.Ok ∧ (∀ s ∈ exVideo, s.Ok) ∧ 0 < exCc.timescale ∧ (exCc.field = 1 ∨ exCc.field = 2) ∧
    (∀ x ∈ exCc.caps, x.words.length ≤ 31) ∧ (∀ x ∈ exCc.caps, ∀ w ∈ x.words, w < 65536) ∧
    8 + exRun.pre.length + captionedLength exCc.caps exCc.timescale exCc.tfdt exVideo + exRun.post.length < 2 ^ 32 ∧
    exRun.offset exVideo < 2 ^ 32 := by
  unfold RunSegment.Ok PlainBoxes VideoSample.Ok
  refine ⟨⟨?_, ?_, ?_, ?_, ?_, ?_, ?_, ?_⟩, ?_, ?_, ?_, ?_, ?_, ?_, ?_⟩ <;> decide +kernel

/-- The result of the example: the caption is in the second sample, before the picture. -/
example : ccFilter exCc (exRun.bytes exVideo) = .ok (exRun.bytes
    [{ duration := 10, flags := 0, comp := 0, units := [[9, 16], [0x65, 1, 2]] },
     { duration := 10, flags := 0, comp := 0,
       units := [[0x66, 4, 17, 0xb5, 0, 0x31, 0x47, 0x41, 0x39, 0x34, 3, 0xc2, 0xff, 0xfc, 0x94, 0x20, 0xfc, 0x94,
         0xad, 0xff, 0x80], [0x41, 3]] }]) := by decide +kernel

/-! ### Where the code fails -/

/-- Content of a run box with data offset and first-sample flags, durations and sizes. -/
def firstFlagsRun : Bytes := [0, 0, 3, 5] ++ beBytes 4 1 ++ beBytes 4 100 ++ beBytes 4 33554432 ++ beBytes 4 10 ++ beBytes 4 7

/-- **C44, violation.** First-sample flags are dropped, and the box keeps its size field and its
flags: the rest of the box is read wrongly by every reader. -/
theorem C44_first_flags_violation : ∃ out s, ccTrun exCc (boxBytes tyTrun firstFlagsRun) { trunOffset := 0, map := [] } =
      .ok (out, s) ∧ beVal (out.take 4) ≠ out.length ∧ slice out 8 12 = [0, 0, 3, 5] := by
  refine ⟨[0, 0, 0, 32, 116, 114, 117, 110] ++ [0, 0, 3, 5] ++ beBytes 4 1 ++ beBytes 4 100 ++ beBytes 4 10 ++ beBytes 4 7,
    { trunOffset := 100, map := [] }, ?_, ?_, ?_⟩ <;> decide +kernel

/-- A segment with one sample of default duration, which is in the tfhd box. -/
def exDefault : Bytes :=
  boxBytes tyMoof (boxBytes tyTraf (boxBytes [116, 102, 104, 100] ([0, 2, 0, 8] ++ beBytes 4 1 ++ beBytes 4 10) ++
    boxBytes tyTrun ([0, 0, 2, 1] ++ beBytes 4 1 ++ beBytes 4 68 ++ beBytes 4 6))) ++
  boxBytes tyMdat (unitBytes [0x65, 1])

/-- **C44, violation.** With the default duration of the track fragment no caption is inserted,
though the sample lasts from 0 to 5 seconds and there is a caption at second 2. -/
theorem C44_default_duration_violation :
    ccFilter { caps := [{ start := 2, words := [1] }], timescale := 2, tfdt := 0, field := 1 } exDefault =
      .ok exDefault := by decide +kernel

/-- A fragment with one sample of duration 10. -/
def exFragment : Bytes :=
  boxBytes tyMoof (boxBytes tyTraf (boxBytes tyTrun ([0, 0, 3, 1] ++ beBytes 4 1 ++ beBytes 4 52 ++ beBytes 4 10 ++
    beBytes 4 6))) ++ boxBytes tyMdat (unitBytes [0x65, 1])

/-- **C44, violation.** A segment of two fragments with a caption in the first is refused: the
captions of the first fragment are looked for again in the second one. -/
theorem C44_fragments_violation :
    ccFilter { caps := [{ start := 2, words := [1] }], timescale := 2, tfdt := 0, field := 1 }
      (exFragment ++ exFragment) = .error .structError ∧
    (ccFilter { caps := [{ start := 2, words := [1] }], timescale := 2, tfdt := 0, field := 1 }
      exFragment).isOk = true := by decide +kernel

/-- The example segment with an index box in front, of one reference. -/
def exIndexed : RunSegment :=
  { exRun with front := [([115, 105, 100, 120], [0, 0, 0, 0] ++ beBytes 4 1 ++ beBytes 4 2 ++ beBytes 4 0 ++ beBytes 4 0 ++
      [0, 0, 0, 1] ++ beBytes 4 129 ++ beBytes 4 20 ++ beBytes 4 0)] }

/-- **C44, violation.** The index box before a segment keeps the size of the old segment, though the
new one is longer. -/
theorem C44_index_violation : ∃ out, ccFilter exCc (exIndexed.bytes exVideo) = .ok out ∧
    beVal (slice (exIndexed.bytes exVideo) 32 36) = (exIndexed.bytes exVideo).length - 44 ∧
    beVal (slice out 32 36) < out.length - 44 := by
  refine ⟨exIndexed.bytes [{ duration := 10, flags := 0, comp := 0, units := [[9, 16], [0x65, 1, 2]] },
     { duration := 10, flags := 0, comp := 0,
       units := [[0x66, 4, 17, 0xb5, 0, 0x31, 0x47, 0x41, 0x39, 0x34, 3, 0xc2, 0xff, 0xfc, 0x94, 0x20, 0xfc, 0x94,
         0xad, 0xff, 0x80], [0x41, 3]] }], ?_, ?_, ?_⟩ <;> decide +kernel

end Verif
