import Verif.Lemmas.Segment
import Verif.Props.MediaFilter
/-
Helper lemmas: a segment that the media segment filter can rewrite with one configuration can be rewritten with another.
-/
namespace Verif

/-- A position that can grow by four. -/
def FragBox.Room : FragBox → Prop
  | .run _ _ _ _ _ offset _ => offset + 4 < 2 ^ 31
  | .offsets v _ _ _ _ entries => ∀ e ∈ entries, e + 4 < 256 ^ saioWidth v
  | .other _ _ => True

theorem trunDuration_transfer (data : Bytes) (dur : Bool) (d1 d2 : Option Nat) (row : Nat) :
    ∀ (n pos t : Nat), trunDuration data dur d1 row n pos = .ok t → ∃ t', trunDuration data dur d2 row n pos = .ok t' := by
  intro n
  induction n with
  | zero => intro pos t _; exact ⟨0, rfl⟩
  | succ n ih =>
    intro pos t h
    unfold trunDuration at h ⊢
    cases dur with
    | true =>
      simp only [if_true] at h ⊢
      cases hs : strToUint32 (slice data pos (pos + 4)) with
      | error e => rw [hs] at h; cases h
      | ok d =>
        rw [hs] at h
        simp only at h ⊢
        cases hk : trunDuration data true d1 row n (pos + row) with
        | error e => rw [hk] at h; cases h
        | ok k =>
          obtain ⟨k', hk'⟩ := ih _ _ hk
          rw [hk']
          exact ⟨_, rfl⟩
    | false =>
      simp only [Bool.false_eq_true, if_false] at h ⊢
      cases hk : trunDuration data false d1 row n (pos + row) with
      | error e => rw [hk] at h; cases h
      | ok k =>
        obtain ⟨k', hk'⟩ := ih _ _ hk
        rw [hk']
        exact ⟨_, rfl⟩

theorem sint32ToStr_of {v : Int} (h0 : -2 ^ 31 ≤ v) (h1 : v < 2 ^ 31) : ∃ b, sint32ToStr v = .ok b := by
  unfold sint32ToStr
  rw [if_pos (by omega)]
  exact ⟨_, rfl⟩

theorem uint32ToStr_of {v : Int} (h0 : 0 ≤ v) (h1 : v < 2 ^ 32) : ∃ b, uint32ToStr v = .ok b := by
  unfold uint32ToStr
  rw [if_pos (by omega)]
  exact ⟨_, rfl⟩

theorem uint64ToStr_of {v : Int} (h0 : 0 ≤ v) (h1 : v < 2 ^ 64) : ∃ b, uint64ToStr v = .ok b := by
  unfold uint64ToStr
  rw [if_pos (by omega)]
  exact ⟨_, rfl⟩

theorem processTrun_transfer {d o : Bytes} {s s' u : MfState} (h : processTrun d s = .ok (o, s'))
    (hoff : hasFlag (beVal (slice d 8 12) % 2 ^ 24) 0 = true → 0 < u.sizeChange →
      ∃ off b, strToSint32 (slice d 16 20) = .ok off ∧ sint32ToStr (off + u.sizeChange) = .ok b) :
    ∃ o' u', processTrun d u = .ok (o', u') := by
  unfold processTrun at h ⊢
  cases h1 : strToUint32 (slice d 8 12) with
  | error e => rw [h1] at h; cases h
  | ok vf =>
    rw [h1] at h
    obtain ⟨_, hvf⟩ := strToUint32_ok h1
    rw [← hvf] at hoff
    simp only at h ⊢
    cases h2 : strToUint32 (slice d 12 16) with
    | error e => rw [h2] at h; cases h
    | ok count =>
      rw [h2] at h
      simp only at h ⊢
      cases h3 : trunDuration d (hasFlag (vf % 2 ^ 24) 8) s.defaultDur (trunRow (vf % 2 ^ 24)) count
          (16 + (if hasFlag (vf % 2 ^ 24) 0 then 4 else 0) + (if hasFlag (vf % 2 ^ 24) 2 then 4 else 0)) with
      | error e => rw [h3] at h; cases h
      | ok t =>
        obtain ⟨t', h3'⟩ := trunDuration_transfer _ _ _ u.defaultDur _ _ _ _ h3
        rw [h3']
        simp only
        by_cases hc : hasFlag (vf % 2 ^ 24) 0 = true ∧ 0 < u.sizeChange
        · obtain ⟨off, b, e1, e2⟩ := hoff hc.1 hc.2
          rw [if_pos hc, e1]
          simp only [e2]
          exact ⟨_, _, rfl⟩
        · rw [if_neg hc]
          exact ⟨_, _, rfl⟩

theorem processTfhd_transfer {d o : Bytes} {s s' u : MfState} (hz : s.ttmlSize = none) (hu : u.ttmlSize = none)
    (h : processTfhd d s = .ok (o, s')) : ∃ o' u', processTfhd d u = .ok (o', u') := by
  unfold processTfhd at h ⊢
  cases h1 : strToUint32 (slice d 8 12) with
  | error e => rw [h1] at h; cases h
  | ok vf =>
    rw [h1] at h
    simp only [MfState.ttmlActive, hz, hu, Bool.false_eq_true, if_false] at h ⊢
    by_cases h0 : hasFlag (vf % 2 ^ 24) 0 = true
    · rw [if_pos h0] at h; cases h
    · rw [if_neg h0] at h ⊢
      by_cases h3 : hasFlag (vf % 2 ^ 24) 3 = true
      · simp only [h3, if_true] at h ⊢
        cases h4 : strToUint32 (slice d (if hasFlag (vf % 2 ^ 24) 1 then 20 else 16)
            ((if hasFlag (vf % 2 ^ 24) 1 then 20 else 16) + 4)) with
        | error e => rw [h4] at h; cases h
        | ok x => exact ⟨_, _, rfl⟩
      · simp only [h3]
        exact ⟨_, _, rfl⟩

theorem saioEntries_of (w : Nat) (hw : w = 4 ∨ w = 8) (delta : Int) :
    ∀ (entries : List Nat) (pre rest : Bytes),
    (∀ e ∈ entries, e < 256 ^ w ∧ 0 ≤ (e : Int) + delta ∧ (e : Int) + delta < 256 ^ w) →
    ∃ x, saioEntries (pre ++ entries.flatMap (beBytes w) ++ rest) w delta entries.length pre.length = .ok x := by
  intro entries
  induction entries with
  | nil => intro pre rest _; exact ⟨_, rfl⟩
  | cons x xs ih =>
    intro pre rest hb
    obtain ⟨hx, hx0, hx1⟩ := hb x (by simp)
    simp only [List.length_cons, saioEntries, List.flatMap_cons]
    have hsl : slice (pre ++ (beBytes w x ++ xs.flatMap (beBytes w)) ++ rest) pre.length
        (pre.length + w) = beBytes w x := by
      rw [show pre ++ (beBytes w x ++ xs.flatMap (beBytes w)) ++ rest
        = pre ++ beBytes w x ++ (xs.flatMap (beBytes w) ++ rest) by simp]
      exact slice_eq_of_append _ _ _ rfl (by simp)
    have hrd : (if w = 4 then strToUint32 (slice (pre ++ (beBytes w x ++
        xs.flatMap (beBytes w)) ++ rest) pre.length (pre.length + 4))
        else strToUint64 (slice (pre ++ (beBytes w x ++ xs.flatMap (beBytes w)) ++ rest)
          pre.length (pre.length + 8))) = .ok x := by
      rcases hw with rfl | rfl
      · rw [if_pos rfl, hsl, strToUint32, if_pos (by simp), beVal_beBytes_of_lt hx]
      · rw [if_neg (by decide), hsl, strToUint64, if_pos (by simp), beVal_beBytes_of_lt hx]
    rw [hrd]
    simp only
    obtain ⟨b, hwb⟩ : ∃ b, (if w = 4 then uint32ToStr ((x : Int) + delta)
        else uint64ToStr ((x : Int) + delta)) = .ok b := by
      rcases hw with rfl | rfl
      · rw [if_pos rfl]; exact uint32ToStr_of hx0 (by simpa using hx1)
      · rw [if_neg (by decide)]; exact uint64ToStr_of hx0 (by simpa using hx1)
    rw [hwb]
    simp only
    have hre : pre ++ (beBytes w x ++ xs.flatMap (beBytes w)) ++ rest
        = (pre ++ beBytes w x) ++ xs.flatMap (beBytes w) ++ rest := by simp
    have hlen : pre.length + w = (pre ++ beBytes w x).length := by simp
    rw [hre, hlen]
    obtain ⟨y, hy⟩ := ih (pre ++ beBytes w x) rest (fun e he => hb e (by simp [he]))
    rw [hy]
    exact ⟨_, rfl⟩

/-- One box of a track fragment. -/
theorem mediaLeaf_transfer (c c' : MfCfg) (b : FragBox) (hb : b.Ok) (hr : b.Room) (s s' u : MfState) (o : Bytes)
    (hz : s.ttmlSize = none) (hu : u.ttmlSize = none) (hd : u.sizeChange = 0 ∨ u.sizeChange = 4)
    (h : mediaLeaf c b.parts.1 (boxBytes b.parts.1 b.parts.2) s = .ok (o, s')) :
    ∃ o' u', mediaLeaf c' b.parts.1 (boxBytes b.parts.1 b.parts.2) u = .ok (o', u') := by
  cases b with
  | run v f2 f1 f0 count offset rest =>
    obtain ⟨hf, hc, h0, h1⟩ := hb
    simp only [FragBox.parts] at h ⊢
    rw [mediaLeaf_trun] at h ⊢
    refine processTrun_transfer h fun _ hpos => ?_
    have hsl2 : slice (boxBytes tyTrun ([v, f2, f1, f0] ++ count ++ signedBytes offset ++ rest))
        16 20 = signedBytes offset := by
      rw [box_slice rfl _ _ _ (by omega)]
      exact slice_eq_of_append ([v, f2, f1, f0] ++ count) (signedBytes offset) rest
        (by simp [hc]) (by simp [hc, signedBytes])
    rw [hsl2, strToSint32_signedBytes h0 h1]
    have hr' : offset + 4 < 2 ^ 31 := hr
    obtain ⟨b, e⟩ := sint32ToStr_of (v := offset + u.sizeChange) (by omega) (by omega)
    exact ⟨offset, b, rfl, e⟩
  | offsets v f2 f1 f0 info entries =>
    obtain ⟨hi, hl, he⟩ := hb
    simp only [FragBox.parts]
    rw [mediaLeaf_saio]
    have hsl : slice (boxBytes tySaio ([v, f2, f1, f0] ++ info ++ beBytes 4 entries.length ++
        entries.flatMap (beBytes (saioWidth v)))) 8 12 = [v, f2, f1, f0] := by
      rw [box_slice rfl _ _ _ (by omega)]
      rfl
    have hver := version_zero v f2 f1 f0
    have hposlen : (if hasFlag (beVal [v, f2, f1, f0] % 2 ^ 24) 0 then 20 else 12)
        = 12 + info.length := by
      rw [testBit_ofBytes, hi]; by_cases hf : f0.toNat % 2 = 1 <;> simp [hf]
    have hcnt : slice (boxBytes tySaio ([v, f2, f1, f0] ++ info ++ beBytes 4 entries.length ++
        entries.flatMap (beBytes (saioWidth v)))) (12 + info.length) (12 + info.length + 4)
        = beBytes 4 entries.length := by
      rw [box_slice rfl _ _ _ (by omega)]
      exact slice_eq_of_append ([v, f2, f1, f0] ++ info) _ _ (by simp; omega) (by simp; omega)
    have hw : (if beVal [v, f2, f1, f0] / 2 ^ 24 = 0 then 4 else 8) = saioWidth v := by
      unfold saioWidth
      by_cases hv : v = 0
      · rw [if_pos hv, if_pos (hver.2 hv)]
      · rw [if_neg hv, if_neg (fun e => hv (hver.1 e))]
    have hu1 : strToUint32 [v, f2, f1, f0] = .ok (beVal [v, f2, f1, f0]) := by
      rw [strToUint32, if_pos (show [v, f2, f1, f0].length = 4 from rfl)]
    have hu2 : strToUint32 (beBytes 4 entries.length) = .ok entries.length := by
      rw [strToUint32, if_pos (by simp), beVal_beBytes_of_lt (by simpa using hl)]
    rw [processSaio_eq (by rw [hsl]; exact hu1) hposlen (by rw [hcnt]; exact hu2) hw]
    have hbox : boxBytes tySaio ([v, f2, f1, f0] ++ info ++ beBytes 4 entries.length ++
        entries.flatMap (beBytes (saioWidth v))) =
        (beBytes 4 (8 + ([v, f2, f1, f0] ++ info ++ beBytes 4 entries.length ++
          entries.flatMap (beBytes (saioWidth v))).length) ++ tySaio ++ [v, f2, f1, f0] ++ info ++
          beBytes 4 entries.length) ++ entries.flatMap (beBytes (saioWidth v)) ++ [] := by
      simp [boxBytes]
    have hpl : 12 + info.length + 4 = (beBytes 4 (8 + ([v, f2, f1, f0] ++ info ++
          beBytes 4 entries.length ++
          entries.flatMap (beBytes (saioWidth v))).length) ++ tySaio ++ [v, f2, f1, f0] ++ info ++
          beBytes 4 entries.length).length := by
      simp; omega
    have hw48 : saioWidth v = 4 ∨ saioWidth v = 8 := by unfold saioWidth; split <;> simp
    have hr' : ∀ e ∈ entries, e + 4 < 256 ^ saioWidth v := hr
    obtain ⟨⟨bs, os⟩, hk⟩ : ∃ x, saioEntries (boxBytes tySaio ([v, f2, f1, f0] ++ info ++ beBytes 4 entries.length ++
        entries.flatMap (beBytes (saioWidth v)))) (saioWidth v) u.sizeChange entries.length
        (12 + info.length + 4) = .ok x := by
      rw [hbox, hpl]
      refine saioEntries_of (saioWidth v) hw48 u.sizeChange entries _ [] ?_
      intro e hmem
      have a1 := hr' e hmem
      have h2 : (((256 : Nat) ^ saioWidth v : Nat) : Int) = (256 : Int) ^ saioWidth v := by simp
      exact ⟨by omega, by omega, by rw [← h2]; omega⟩
    rw [hk]
    exact ⟨_, _, rfl⟩
  | other ty p =>
    obtain ⟨ht, hne, hrun⟩ := hb
    simp only [FragBox.parts] at h ⊢
    simp only [List.mem_cons, not_or] at hne
    obtain ⟨n1, n2, n3, n4, n5, n6, n7, -⟩ := hne
    by_cases htr : ty = tyTrun
    · subst htr
      rw [mediaLeaf_trun] at h ⊢
      refine processTrun_transfer h fun hf _ => ?_
      exfalso
      rw [box_slice rfl _ _ _ (by omega)] at hf
      unfold processTrun at h
      cases hu : strToUint32 (slice (boxBytes tyTrun p) 8 12) with
      | error e => rw [hu] at h; cases h
      | ok vf =>
        obtain ⟨hl4, -⟩ := strToUint32_ok hu
        rw [box_slice rfl _ _ _ (by omega)] at hl4
        match hm : slice p (8 - 8) (12 - 8), hl4 with
        | [x0, x1, x2, x3], _ =>
          rw [hm, testBit_ofBytes] at hf
          have hp3 : p[3]? = some x3 := by
            have : (slice p (8 - 8) (12 - 8))[3]? = some x3 := by rw [hm]; rfl
            simpa [slice] using this
          have := hrun rfl x3 hp3
          simp at hf
          omega
    · by_cases htf : ty = tyTfhd
      · subst htf
        exact processTfhd_transfer (u := u) hz hu (show processTfhd _ s = _ from h)
      · have : ∀ c s, mediaLeaf c ty (boxBytes ty p) s = (if utf8Valid ty then .ok (boxBytes ty p, s)
            else .error .unicodeError) := by
          intro c s
          unfold mediaLeaf
          rw [if_neg n1, if_neg n2, if_neg htf, if_neg n5, if_neg htr, if_neg n6, if_neg n7]
        rw [this] at h ⊢
        split at h
        · rename_i hv
          rw [if_pos hv]
          exact ⟨_, _, rfl⟩
        · cases h

theorem rewrite_leaf_of {σ : Type} {f : Bytes → Bytes → σ → Py (Bytes × σ)} {ty p : Bytes} {rest : Forest}
    {s s1 s' : σ} {o1 o2 : Bytes} (h1 : f ty (boxBytes ty p) s = .ok (o1, s1)) (h2 : rest.rewrite f s1 = .ok (o2, s')) :
    (Forest.leaf ty p rest).rewrite f s = .ok (o1 ++ o2, s') := by
  rw [Forest.rewrite, h1]
  simp only [h2]

theorem rewrite_node_of {σ : Type} {f : Bytes → Bytes → σ → Py (Bytes × σ)} {ty : Bytes} {kids rest : Forest} {s s1 s' : σ}
    {k o : Bytes} (h1 : kids.rewrite f s = .ok (k, s1)) (hl : 8 + k.length < 2 ^ 32)
    (h2 : rest.rewrite f s1 = .ok (o, s')) : (Forest.node ty kids rest).rewrite f s = .ok (boxBytes ty k ++ o, s') := by
  rw [Forest.rewrite, h1]
  simp only [if_pos hl, h2]

/-- A list of boxes of a track fragment, followed by something. -/
theorem withLeaves_transfer (c c' : MfCfg) (bs : List FragBox) (rest : Forest) :
    ∀ (s s' u : MfState) (o : Bytes), (∀ b ∈ bs, b.Ok ∧ b.Room) → s.ttmlSize = none → 0 ≤ s.sizeChange → u.ttmlSize = none →
    (u.sizeChange = 0 ∨ u.sizeChange = 4) →
    (Forest.withLeaves bs rest).rewrite (mediaLeaf c) s = .ok (o, s') →
    ∃ s1 o2, SameShift s s1 ∧ rest.rewrite (mediaLeaf c) s1 = .ok (o2, s') ∧
      ∃ u1 p, SameShift u u1 ∧ p.length = (bs.flatMap FragBox.bytes).length ∧
        ∀ p2 u', rest.rewrite (mediaLeaf c') u1 = .ok (p2, u') →
          (Forest.withLeaves bs rest).rewrite (mediaLeaf c') u = .ok (p ++ p2, u') := by
  induction bs with
  | nil =>
    intro s s' u o _ _ _ _ _ h
    exact ⟨s, o, SameShift.refl s, h, u, [], SameShift.refl u, rfl, fun p2 u' h => h⟩
  | cons b bs ih =>
    intro s s' u o hb hz hd hzu hdu h
    obtain ⟨o1, s1, o2, h1, h2, rfl⟩ := rewrite_leaf_cons h
    obtain ⟨bok, broom⟩ := hb b (by simp)
    obtain ⟨-, e2, -⟩ := mediaLeaf_shift c b bok s s1 o1 hz hd h1
    obtain ⟨q, u1, hq⟩ := mediaLeaf_transfer c c' b bok broom s s1 u o1 hz hzu hdu h1
    obtain ⟨k1, k2, -⟩ := mediaLeaf_shift c' b bok u u1 q hzu (by omega) hq
    obtain ⟨s2, o3, g1, g2, u2, p, g3, g4, g5⟩ := ih s1 s' u1 o2 (fun x hx => hb x (by simp [hx]))
      (by rw [e2.2.2]; exact hz) (by rw [e2.1]; exact hd) (by rw [k2.2.2]; exact hzu) (by rw [k2.1]; exact hdu) h2
    refine ⟨s2, o3, e2.trans g1, g2, u2, q ++ p, k2.trans g3, ?_, ?_⟩
    · rw [k1]
      simp [shift_length, g4]
    · intro p2 u' h
      rw [List.append_assoc]
      exact rewrite_leaf_of hq (g5 p2 u' h)

/-- The fragment. -/
theorem fragment_transfer (c c' : MfCfg) (n ts : Int) (vf seq : Bytes) (hvf : vf.length = 4) (hseq : seq.length = 4)
    (hn : c'.segNr = some n) (hts : c'.timescale = some ts) (hn0 : 0 ≤ n) (hn1 : n < 2 ^ 32)
    (hc : c.timescale = none) (a pre post b : List FragBox) (ha : ∀ x ∈ a, x.Ok ∧ x.Room) (hpre : ∀ x ∈ pre, x.Ok ∧ x.Room)
    (hpost : ∀ x ∈ post, x.Ok ∧ x.Room) (hb : ∀ x ∈ b, x.Ok ∧ x.Room)
    (wide : Bool) (f2 f1 f0 : UInt8) (t : Nat) (ht : t < (if wide then 2 ^ 64 else 2 ^ 32))
    (hnew0 : 0 ≤ (t : Int) + c'.offset * ts) (hnew1 : (t : Int) + c'.offset * ts < 2 ^ 64)
    (hroom : (fragment (vf ++ seq) a pre (tfdtPayload wide f2 f1 f0 t) post b).bytes.length + 4 < 2 ^ 32)
    (s s' u : MfState) (hz : s.ttmlSize = none) (h0 : s.sizeChange = 0) (hzu : u.ttmlSize = none)
    (h0u : u.sizeChange = 0 ∨ u.sizeChange = 4) (out : Bytes)
    (h : (fragment (vf ++ seq) a pre (tfdtPayload wide f2 f1 f0 t) post b).rewrite (mediaLeaf c) s = .ok (out, s')) :
    ∃ o u', (fragment (vf ++ seq) a pre (tfdtPayload wide f2 f1 f0 t) post b).rewrite (mediaLeaf c') u = .ok (o, u') ∧
      (u'.sizeChange = 0 ∨ u'.sizeChange = 4) ∧ u'.ttmlSize = none ∧ s'.sizeChange = 0 ∧ s'.ttmlSize = none := by
  obtain ⟨k, s1, o2, hk, hr, hlen, rfl⟩ := rewrite_node_cons h
  obtain ⟨m1, sm, k1, hm, hk1, rfl⟩ := rewrite_leaf_cons hk
  rw [mediaLeaf_mfhd] at hm
  have hsm : sm = s := by
    split at hm
    · cases hm
    · cases hm; rfl
  subst hsm
  obtain ⟨sa, ka, sama, hka, ua, pa, samua, la, fa⟩ :=
    withLeaves_transfer c c' a _ sm s1 u k1 ha hz (by omega) hzu h0u hk1
  obtain ⟨kt, st, kb, hkt, hkb, hlt, rfl⟩ := rewrite_node_cons hka
  have uz0 : ua.ttmlSize = none := by rw [samua.2.2]; exact hzu
  have us0 : ua.sizeChange = 0 ∨ ua.sizeChange = 4 := by rw [samua.1]; exact h0u
  obtain ⟨sp, kp, samp, hkp, up, pp, samup, lp, fp⟩ := withLeaves_transfer c c' pre _ sa st ua kt hpre
    (by rw [sama.2.2]; exact hz) (by rw [sama.1]; omega) uz0 us0 hkt
  obtain ⟨od, sd, kd, hd, hkd, rfl⟩ := rewrite_leaf_cons hkp
  have sap := sama.trans samp
  have e : processTfdt c = processTfdt { c with timescale := some 0 } := by
    unfold processTfdt
    rw [hc]
    simp
  rw [mediaLeaf_tfdt, e, processTfdt_ok _ wide f2 f1 f0 t ht sp 0 rfl] at hd
  simp only [Int.mul_zero, Int.add_zero] at hd
  have hsd : sd.sizeChange = 0 ∧ sd.ttmlSize = none := by
    have hs0 : sp.sizeChange = 0 := by rw [sap.1, h0]
    have hz0 : sp.ttmlSize = none := by rw [sap.2.2, hz]
    split at hd
    · cases hd
    · split at hd
      · cases hd
        refine ⟨?_, hz0⟩
        dsimp only
        split
        · exact hs0
        · rename_i hw hw'
          rw [if_neg hw'] at ht
          rcases hw with hw | hw
          · exact absurd hw hw'
          · omega
      · cases hd
        exact ⟨hs0, hz0⟩
  -- the decode time
  have uz1 : up.ttmlSize = none := by rw [samup.2.2]; exact uz0
  have us1 : up.sizeChange = 0 ∨ up.sizeChange = 4 := by rw [samup.1]; exact us0
  obtain ⟨qd, ud, hqd, hud, hudz, hql⟩ : ∃ qd ud, mediaLeaf c' tyTfdt (boxBytes tyTfdt (tfdtPayload wide f2 f1 f0 t)) up
      = .ok (qd, ud) ∧ (ud.sizeChange = 0 ∨ ud.sizeChange = 4) ∧ ud.ttmlSize = none ∧
      qd.length ≤ (boxBytes tyTfdt (tfdtPayload wide f2 f1 f0 t)).length + 4 := by
    rw [mediaLeaf_tfdt, processTfdt_ok c' wide f2 f1 f0 t ht up ts hts]
    dsimp only
    rw [if_neg (by omega)]
    split
    · refine ⟨_, _, rfl, ?_, uz1, ?_⟩
      · dsimp only
        split
        · exact us1
        · exact Or.inr rfl
      · cases wide <;> simp [boxBytes_length, tfdtPayload]
    · rename_i hw
      refine ⟨_, _, rfl, us1, uz1, ?_⟩
      cases wide <;> simp [boxBytes_length, tfdtPayload]
  obtain ⟨sq, kq, samq, hkq, uq, pq, samuq, lq, fq⟩ :=
    withLeaves_transfer c c' post _ sd st ud kd hpost hsd.2 hsd.1.ge hudz hud hkd
  simp only [Forest.rewrite, Except.ok.injEq, Prod.mk.injEq] at hkq
  obtain ⟨rfl, rfl⟩ := hkq
  obtain ⟨sr, kr, samr, hkr, ur, pr, samur, lr, fr⟩ := withLeaves_transfer c c' b _ sq s1 uq kb hb
    (by rw [samq.2.2]; exact hsd.2) (by rw [samq.1]; exact hsd.1.ge) (by rw [samuq.2.2]; exact hudz)
    (by rw [samuq.1]; exact hud) hkb
  -- put together
  obtain ⟨nb, hnb⟩ := uint32ToStr_of hn0 hn1
  have hm' : mediaLeaf c' tyMfhd (boxBytes tyMfhd (vf ++ seq)) u =
      .ok ((boxBytes tyMfhd (vf ++ seq)).take 12 ++ nb, u) := by
    rw [mediaLeaf_mfhd, processMfhd, hn]
    simp only [hnb]
  have hnbl : nb.length = 4 := by
    obtain ⟨-, -, rfl⟩ := uint32ToStr_eq_ok hnb
    simp
  have h12 : ((boxBytes tyMfhd (vf ++ seq)).take 12).length = 12 := by
    rw [List.length_take, boxBytes_length, List.length_append, hvf, hseq]
    rfl
  simp only [fragment, Forest.bytes, withLeaves_bytes, boxBytes_length, List.length_append, List.length_nil, hvf, hseq,
    List.append_nil] at hroom
  have hql' := hql
  rw [boxBytes_length] at hql'
  have x1 := fq [] uq rfl
  have x2 := rewrite_leaf_of hqd x1
  have x3 := fp _ _ x2
  have x4 := fr [] ur rfl
  have l1 : 8 + (pp ++ (qd ++ (pq ++ []))).length < 2 ^ 32 := by
    simp only [List.length_append, List.length_nil, lp, lq]
    simp only [List.length_cons, List.length_nil] at hroom hql'
    omega
  have x5 := rewrite_node_of (ty := tyTraf) x3 l1 x4
  have x6 := fa _ _ x5
  have x7 := rewrite_leaf_of hm' x6
  have l2 : 8 + ((boxBytes tyMfhd (vf ++ seq)).take 12 ++ nb ++ (pa ++ (boxBytes tyTraf (pp ++ (qd ++ (pq ++ []))) ++
      (pr ++ [])))).length < 2 ^ 32 := by
    simp only [List.length_append, List.length_nil, lp, lq, la, lr, h12, hnbl, boxBytes_length]
    simp only [List.length_cons, List.length_nil] at hroom hql'
    simp only [List.length_cons, List.length_nil]
    omega
  simp only [Forest.rewrite, Except.ok.injEq, Prod.mk.injEq] at hkr hr
  obtain ⟨rfl, rfl⟩ := hr
  obtain ⟨rfl, rfl⟩ := hkr
  have sb := samq.trans samr
  have ub := samuq.trans samur
  exact ⟨_, _, rewrite_node_of (ty := tyMoof) x7 l2 (o := []) (s' := ur) rfl, by rw [ub.1]; exact hud, by rw [ub.2.2]; exact hudz,
    by rw [sb.1]; exact hsd.1, by rw [sb.2.2]; exact hsd.2⟩

theorem keptBrands_length (data : Bytes) (size : Nat) : ∀ (fuel pos : Nat),
    4 * (keptBrands data size fuel pos).length ≤ size + 3 - pos := by
  intro fuel
  induction fuel with
  | zero => intro pos; simp [keptBrands]
  | succ fuel ih =>
    intro pos
    unfold keptBrands
    have := ih (pos + 4)
    by_cases hp : pos < size
    · rw [if_pos hp]
      dsimp only
      split
      · rw [List.length_cons]; omega
      · omega
    · rw [if_neg hp]; simp

theorem processStyp_of (c : MfCfg) {p e : Bytes} (hp : p.length + 16 < 2 ^ 32) (he : scteOfSegment c = .ok e) :
    ∃ o, processStyp c (boxBytes tyStyp p) = .ok o := by
  unfold processStyp
  have h4 : (boxBytes tyStyp p).take 4 = beBytes 4 (8 + p.length) := by
    have := boxBytes_take4 tyStyp p []
    simpa using this
  have hb : 4 * (newBrands c (boxBytes tyStyp p) (8 + p.length)).length ≤ 8 + p.length + 3 - 8 + 4 := by
    have := keptBrands_length (boxBytes tyStyp p) (8 + p.length) (8 + p.length) 8
    unfold newBrands
    split
    · simp only [List.length_append, List.length_cons, List.length_nil]; omega
    · omega
  rw [h4, strToUint32, if_pos (by simp), beVal_beBytes_of_lt (by rw [show (256 : Nat) ^ 4 = 2 ^ 32 by decide]; omega)]
  dsimp only
  obtain ⟨z, hz⟩ := uint32ToStr_of (v := ((8 + 4 * (newBrands c (boxBytes tyStyp p) (8 + p.length)).length : Nat) : Int))
    (by omega) (by omega)
  rw [hz]
  dsimp only
  rw [he]
  exact ⟨_, rfl⟩

theorem rewriteTop_leaf_of {σ : Type} {f : Bytes → Bytes → σ → Py (Bytes × σ)} {top : List Bytes} {ty p : Bytes} {rest : Forest}
    {s s1 s' : σ} {o : Bytes} {l : List (Bytes × Bytes)}
    (h1 : (if ty ∈ top then f ty (boxBytes ty p) s else .ok (boxBytes ty p, s)) = .ok (o, s1))
    (h2 : rest.rewriteTop f top s1 = .ok (l, s')) :
    (Forest.leaf ty p rest).rewriteTop f top s = .ok ((ty, o) :: l, s') := by
  rw [Forest.rewriteTop]
  have : (if ty ∈ top then (Forest.leaf ty p .nil).rewrite f s else .ok (boxBytes ty p, s)) = .ok (o, s1) := by
    split
    · rename_i ht
      rw [if_pos ht] at h1
      have := rewrite_leaf_of (rest := .nil) h1 rfl
      simpa using this
    · rename_i ht
      rw [if_neg ht] at h1
      exact h1
  rw [this]
  dsimp only
  rw [h2]

theorem frontBox_of (c : MfCfg) (ty p : Bytes) (s : MfState) (hne : ty ∉ [tyMoof, tyTraf])
    (hs : ty = tyStyp → ∃ o, processStyp c (boxBytes tyStyp p) = .ok o) :
    ∃ o, (if ty ∈ (mediaRules c).top then mediaLeaf c ty (boxBytes ty p) s else .ok (boxBytes ty p, s)) = .ok (o, s) := by
  by_cases h1 : ty = tyStyp
  · subst h1
    obtain ⟨o, ho⟩ := hs rfl
    refine ⟨o, ?_⟩
    rw [if_pos (by simp [mediaRules]), mediaLeaf_styp, ho]
  · by_cases h2 : ty = tySidx
    · subst h2
      refine ⟨[], ?_⟩
      rw [if_pos (by simp [mediaRules]), mediaLeaf_sidx]
    · by_cases h3 : ty = tyMdat
      · subst h3
        refine ⟨boxBytes tyMdat p, ?_⟩
        rw [if_pos (by simp [mediaRules])]
        rfl
      · refine ⟨boxBytes ty p, ?_⟩
        rw [if_neg]
        simp only [mediaRules, List.mem_cons, not_or] at hne ⊢
        exact ⟨h1, h2, hne.1, h3, by simp⟩

theorem withBoxes_of (c : MfCfg) (front : List (Bytes × Bytes)) (rest : Forest) :
    ∀ (s s' : MfState) (l : List (Bytes × Bytes)),
    (∀ b ∈ front, b.1 ∉ [tyMoof, tyTraf] ∧ (b.1 = tyStyp → ∃ o, processStyp c (boxBytes tyStyp b.2) = .ok o)) →
    rest.rewriteTop (mediaLeaf c) (mediaRules c).top s = .ok (l, s') →
    ∃ l', (Forest.withBoxes front rest).rewriteTop (mediaLeaf c) (mediaRules c).top s = .ok (l', s') := by
  induction front with
  | nil => intro s s' l _ h; exact ⟨l, h⟩
  | cons b front ih =>
    intro s s' l hb h
    obtain ⟨l', h'⟩ := ih s s' l (fun x hx => hb x (by simp [hx])) h
    obtain ⟨o, ho⟩ := frontBox_of c b.1 b.2 s (hb b (by simp)).1 (hb b (by simp)).2
    exact ⟨_, rewriteTop_leaf_of ho h'⟩

theorem moofScan_le : ∀ (l : List (Nat × Bytes)) (pos st sz : Nat),
    (moofScan l pos st sz).2 ≤ sz + (l.map Prod.fst).sum := by
  intro l
  induction l with
  | nil => intro pos st sz; simp [moofScan]
  | cons x l ih =>
    intro pos st sz
    obtain ⟨n, ty⟩ := x
    unfold moofScan
    simp only [List.map_cons, List.sum_cons]
    split
    · have := ih (pos + n) pos (sz + n); omega
    · split
      · have := ih (pos + n) st (sz + n); omega
      · have := ih (pos + n) st sz; omega

/-- Room for four more bytes in the fragment, and for one more brand and a rounded size before it. -/
structure OneFragment.Room (g : OneFragment) : Prop where
  boxes : ∀ x ∈ g.a ++ g.pre ++ g.post ++ g.b, x.Room
  moof : g.moof.length + 4 < 2 ^ 32
  front : ∀ x ∈ g.front, x.1 = tyStyp → x.2.length + 16 < 2 ^ 32

theorem moved_length (g : OneFragment) (hg : g.Ok) (n new : Int) :
    (g.moved n new (growth g.wide new)).moof.length = g.moof.length + (growth g.wide new).toNat := by
  simp only [OneFragment.moof, OneFragment.moved, fragment, Forest.bytes, withLeaves_bytes,
    boxBytes_length, List.length_append, shift_flatMap_length, List.length_nil, beBytes_length,
    hg.seq, hg.vf]
  have : (tfdtPayload (g.wide || decide (2 ^ 32 ≤ new)) g.f2 g.f1 g.f0 new.toNat).length
      = (tfdtPayload g.wide g.f2 g.f1 g.f0 g.t).length + (growth g.wide new).toNat := by
    unfold growth tfdtPayload
    cases g.wide <;> by_cases hw : (4294967296 : Int) ≤ new <;> simp [hw]
  rw [this]
  omega

/-- **Transfer.** A segment that was filtered without number and timescale can be filtered with a number and a decode time
that fit their fields, if the boxes to be inserted can be written. -/
theorem filterMedia_transfer (c c' : MfCfg) (n ts : Int) (hc : c.timescale = none)
    (hn : c'.segNr = some n) (hts : c'.timescale = some ts) (hn0 : 0 ≤ n) (hn1 : n < 2 ^ 32)
    (g : OneFragment) (hg : g.Ok) (hr : g.Room)
    (hnew0 : 0 ≤ (g.t : Int) + c'.offset * ts) (hnew1 : (g.t : Int) + c'.offset * ts < 2 ^ 64)
    {scte emsg : Bytes} (hs : scteOfSegment c' = .ok scte) (hl : lastBox c' = .ok emsg)
    (hi : ∀ s size, s.tfdt = some ((g.t : Int) + c'.offset * ts) →
      (∃ o, (fragment (g.vf ++ g.seq) g.a g.pre (tfdtPayload g.wide g.f2 g.f1 g.f0 g.t) g.post g.b).rewrite
        (mediaLeaf c') c'.init = .ok (o, s)) →
      size ≤ g.moof.length + 4 + (boxesBytes g.back).length → ∃ e, indexBox c' s size = .ok e)
    {x : Bytes × MfState} (h : filterMedia c g.bytes = .ok x) : ∃ y, filterMedia c' g.bytes = .ok y := by
  have hbytes : g.bytes = g.forest.bytes := by
    rw [OneFragment.bytes, OneFragment.forest, segmentOf_bytes, OneFragment.moof]
  rw [hbytes] at h ⊢
  have hfb : ∀ x ∈ g.front, x.1 ∉ [tyMoof, tyTraf] := fun x hx => by
    have := hg.front x hx
    simp only [List.mem_cons, not_or] at this ⊢
    exact ⟨this.1, this.2.1, by simp⟩
  have hbb : ∀ x ∈ g.back, x.1 ∉ [tyMoof, tyTraf] := fun x hx => by
    have := hg.back x hx
    simp only [List.mem_cons, not_or] at this ⊢
    exact ⟨this.1, this.2.1, by simp⟩
  unfold filterMedia at h
  cases hf : filterFile (mediaRules c) g.forest.bytes c.init with
  | error e => rw [hf] at h; cases h
  | ok q =>
    obtain ⟨qo, qs⟩ := q
    -- the fragment was rewritten
    have hrun : ∃ moof s1, (fragment (g.vf ++ g.seq) g.a g.pre (tfdtPayload g.wide g.f2 g.f1 g.f0 g.t) g.post g.b).rewrite
        (mediaLeaf c) c.init = .ok (moof, s1) := by
      unfold filterFile at hf
      rw [filterTop_forest (mediaRules c) _ _ c.init hg.sizes (by omega)] at hf
      cases hr : g.forest.rewriteTop (mediaRules c).leaf (mediaRules c).top c.init with
      | error e => rw [hr] at hf; cases hf
      | ok x =>
        obtain ⟨l, s2⟩ := x
        obtain ⟨l1, l2, e1, -, -⟩ := rewriteTop_withBoxes c g.front _ c.init s2 l hfb hr
        rw [Forest.rewriteTop, if_pos (by simp [mediaRules])] at e1
        cases hm : (fragment (g.vf ++ g.seq) g.a g.pre (tfdtPayload g.wide g.f2 g.f1 g.f0 g.t) g.post g.b).rewrite
            (mediaLeaf c) c.init with
        | error e =>
          rw [fragment] at hm
          rw [hm] at e1; cases e1
        | ok y => exact ⟨_, _, rfl⟩
    obtain ⟨moof, s1, hm⟩ := hrun
    have both : ∀ l : List FragBox, (∀ b ∈ l, b.Ok) → (∀ b ∈ l, b ∈ g.a ++ g.pre ++ g.post ++ g.b) →
        ∀ b ∈ l, b.Ok ∧ b.Room := fun l h1 h2 b hb => ⟨h1 b hb, hr.boxes b (h2 b hb)⟩
    obtain ⟨o, u, hu, -⟩ := fragment_transfer c c' n ts g.vf g.seq hg.vf hg.seq hn hts hn0 hn1 hc g.a g.pre g.post g.b
      (both _ hg.a fun b hb => by simp [hb]) (both _ hg.pre fun b hb => by simp [hb])
      (both _ hg.post fun b hb => by simp [hb]) (both _ hg.b fun b hb => by simp [hb])
      g.wide g.f2 g.f1 g.f0 g.t hg.t hnew0 hnew1 hr.moof c.init s1 c'.init rfl rfl rfl (Or.inl rfl) moof hm
    -- the boxes after and before it
    obtain ⟨lb, hlb⟩ := withBoxes_of c' g.back .nil u u [] (fun x hx => ⟨hbb x hx, fun he => by
      have := hg.back x hx
      simp only [List.mem_cons, not_or] at this
      exact absurd he this.2.2.1⟩) rfl
    have hmid : (Forest.node tyMoof (.leaf tyMfhd (g.vf ++ g.seq) (.withLeaves g.a
        (.node tyTraf (.withLeaves g.pre (.leaf tyTfdt (tfdtPayload g.wide g.f2 g.f1 g.f0 g.t) (.withLeaves g.post .nil)))
        (.withLeaves g.b .nil)))) (.withBoxes g.back .nil)).rewriteTop (mediaLeaf c') (mediaRules c').top c'.init
        = .ok ((tyMoof, o) :: lb, u) := by
      rw [Forest.rewriteTop, if_pos (by simp [mediaRules])]
      have hu' := hu
      rw [fragment] at hu'
      rw [hu']
      dsimp only
      rw [hlb]
    obtain ⟨l, hl'⟩ := withBoxes_of c' g.front _ c'.init u _ (fun x hx => ⟨hfb x hx, fun he =>
      processStyp_of c' (hr.front x hx he) hs⟩) hmid
    have hfile : filterFile (mediaRules c') g.forest.bytes c'.init = .ok (topResult l, u) := by
      unfold filterFile
      rw [filterTop_forest (mediaRules c') _ _ c'.init hg.sizes (by omega)]
      have : g.forest.rewriteTop (mediaRules c').leaf (mediaRules c').top c'.init = .ok (l, u) := hl'
      rw [this]
    -- the end
    obtain ⟨out, boxes, hres⟩ : ∃ out boxes, topResult l = (out, boxes) := ⟨_, _, rfl⟩
    obtain ⟨p1, p2, p3, p4, p5, p6, l1, mo, q1, q2, q3, q4⟩ := segment_rewrite c' n ts g.vf g.seq hg.vf
      hg.seq hn hts g.front g.back hfb hg.back g.a g.pre g.post g.b hg.a hg.pre hg.post hg.b
      g.wide g.f2 g.f1 g.f0 g.t hg.t hg.sizes out boxes u (by rw [hres] at hfile; exact hfile)
    have hmlen : mo.length = g.moof.length + (growth g.wide ((g.t : Int) + c'.offset * ts)).toNat := by
      rw [q2]
      exact moved_length g hg n _
    have hgr : (growth g.wide ((g.t : Int) + c'.offset * ts)).toNat ≤ 4 := by unfold growth; split <;> simp
    have hpos : 0 < mo.length := by
      rw [hmlen, OneFragment.moof, fragment, Forest.bytes, List.length_append, boxBytes_length]
      omega
    have hscan : (moofScan boxes 0 0 0).2 ≤ g.moof.length + 4 + (boxesBytes g.back).length := by
      rw [q4, List.filter_append, List.map_append, moofScan_front l1 _ 0 0 0
        (frontSteps_types q1 (fun x hx => by
          have := hg.front x hx
          simp only [List.mem_cons, not_or] at this ⊢
          exact ⟨this.1, this.2.2.1, by simp⟩))]
      refine (moofScan_le _ _ _ _).trans ?_
      rw [List.filter_cons, if_pos (by simpa using hpos), List.map_cons, backBoxes_ne]
      simp only [List.map_cons, List.map_map, List.sum_cons]
      have : ((g.back.map (Prod.fst ∘ (fun x : Bytes × Bytes => (x.2.length, x.1)) ∘ fun x => (x.1, boxBytes x.1 x.2))).sum)
          = (boxesBytes g.back).length := by
        unfold boxesBytes
        rw [List.length_flatMap]
        rfl
      rw [this]
      omega
    obtain ⟨e, he⟩ := hi u (moofScan boxes 0 0 0).2 p5 ⟨o, hu⟩ hscan
    unfold filterMedia
    rw [hfile, hres]
    dsimp only
    have hidx : ∃ out1, insertIndex c' out boxes u = .ok out1 := by
      unfold insertIndex
      unfold indexBox at he
      split
      · rename_i hc
        rw [if_pos hc] at he
        rw [he]
        exact ⟨_, rfl⟩
      · exact ⟨_, rfl⟩
    obtain ⟨out1, hidx⟩ := hidx
    have hlast : ∃ out2, insertLast c' out1 boxes = .ok out2 := by
      unfold insertLast
      unfold lastBox at hl
      cases hm : c'.emsgLast with
      | none => exact ⟨_, rfl⟩
      | some m =>
        rw [hm] at hl
        dsimp only at hl ⊢
        rw [hl]
        exact ⟨_, rfl⟩
    obtain ⟨out2, hlast⟩ := hlast
    unfold mediaFinalize
    rw [hidx]
    dsimp only
    rw [hlast]
    exact ⟨_, rfl⟩

end Verif
