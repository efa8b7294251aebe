import Verif.Lemmas.MediaFilter
import Verif.Props.BoxFilter
/- Helper lemmas: a whole media segment with one fragment through the media segment filter. -/
namespace Verif

theorem withLeaves_bytes (bs : List FragBox) (f : Forest) :
    (Forest.withLeaves bs f).bytes = bs.flatMap FragBox.bytes ++ f.bytes := by
  induction bs with
  | nil => simp [Forest.withLeaves]
  | cons b bs ih => simp [Forest.withLeaves, Forest.bytes, ih, FragBox.bytes]

theorem withBoxes_bytes (bs : List (Bytes × Bytes)) (f : Forest) :
    (Forest.withBoxes bs f).bytes = boxesBytes bs ++ f.bytes := by
  induction bs with
  | nil => simp [Forest.withBoxes, boxesBytes]
  | cons b bs ih =>
    simp only [Forest.withBoxes, Forest.bytes, ih]
    simp [boxesBytes]

theorem segmentOf_bytes (front : List (Bytes × Bytes)) (mfhd : Bytes) (a pre : List FragBox)
    (tfdt : Bytes) (post b : List FragBox) (back : List (Bytes × Bytes)) :
    (segmentOf front mfhd a pre tfdt post b back).bytes =
      boxesBytes front ++ (fragment mfhd a pre tfdt post b).bytes ++ boxesBytes back := by
  simp [segmentOf, fragment, withBoxes_bytes, Forest.bytes]

theorem flatMap_length_const (w : Nat) (l : List Nat) :
    (l.flatMap (beBytes w)).length = l.length * w := by
  induction l with
  | nil => simp
  | cons a l ih => simp [ih, Nat.add_mul]; omega

theorem shift_length (d : Int) (b : FragBox) : (b.shift d).bytes.length = b.bytes.length := by
  cases b with
  | run =>
    simp [FragBox.shift, FragBox.bytes, FragBox.parts, boxBytes_length, signedBytes]
  | offsets v f2 f1 f0 info entries =>
    simp only [FragBox.shift, FragBox.bytes, FragBox.parts, boxBytes_length, List.length_append,
      flatMap_length_const, List.length_map, beBytes_length]
  | other => rfl

theorem shift_flatMap_length (d : Int) (bs : List FragBox) :
    ((bs.map (FragBox.shift d)).flatMap FragBox.bytes).length
      = (bs.flatMap FragBox.bytes).length := by
  induction bs with
  | nil => rfl
  | cons b bs ih => simp only [List.map_cons, List.flatMap_cons, List.length_append, shift_length, ih]

/-- What the filter does to the decode time: by how much the box grows. -/
def growth (wide : Bool) (new : Int) : Int := if wide = false ∧ 2 ^ 32 ≤ new then 4 else 0

theorem map_shift_zero (bs : List FragBox) : bs.map (FragBox.shift 0) = bs := by
  induction bs with
  | nil => rfl
  | cons b bs ih => simp [shift_zero, ih]

/-- A fragment through the filter.  The boxes before it may have left a change of size, if it is that of this fragment and
moves nothing before the decode time. -/
theorem fragment_rewrite (c : MfCfg) (n ts : Int) (vf seq : Bytes) (hvf : vf.length = 4)
    (hseq : seq.length = 4) (hn : c.segNr = some n) (hts : c.timescale = some ts)
    (a pre post b : List FragBox) (ha : ∀ x ∈ a, x.Ok) (hpre : ∀ x ∈ pre, x.Ok)
    (hpost : ∀ x ∈ post, x.Ok) (hb : ∀ x ∈ b, x.Ok)
    (wide : Bool) (f2 f1 f0 : UInt8) (t : Nat) (ht : t < (if wide then 2 ^ 64 else 2 ^ 32))
    (s s' : MfState) (hz : s.ttmlSize = none) (hfix : ∀ x ∈ a ++ pre, x.shift s.sizeChange = x)
    (h0 : s.sizeChange = 0 ∨ s.sizeChange = growth wide ((t : Int) + c.offset * ts)) (out : Bytes)
    (h : (fragment (vf ++ seq) a pre (tfdtPayload wide f2 f1 f0 t) post b).rewrite
      (mediaLeaf c) s = .ok (out, s')) :
    0 ≤ n ∧ n < 2 ^ 32 ∧ 0 ≤ (t : Int) + c.offset * ts ∧ (t : Int) + c.offset * ts < 2 ^ 64 ∧
    s'.tfdt = some ((t : Int) + c.offset * ts) ∧
    s'.sizeChange = growth wide ((t : Int) + c.offset * ts) ∧ s'.ttmlSize = none ∧
    out = (fragment (vf ++ beBytes 4 n.toNat) a pre
      (tfdtPayload (wide || decide (2 ^ 32 ≤ (t : Int) + c.offset * ts)) f2 f1 f0
        ((t : Int) + c.offset * ts).toNat)
      (post.map (FragBox.shift (growth wide ((t : Int) + c.offset * ts))))
      (b.map (FragBox.shift (growth wide ((t : Int) + c.offset * ts))))).bytes := by
  generalize hnew : (t : Int) + c.offset * ts = new at h0 ⊢
  have hg4 : 0 ≤ growth wide new := by unfold growth; split <;> omega
  have hs4 : 0 ≤ s.sizeChange := by omega
  obtain ⟨k, s1, o2, hk, hr, hlen, rfl⟩ := rewrite_node_cons h
  simp only [Forest.rewrite, Except.ok.injEq, Prod.mk.injEq] at hr
  obtain ⟨rfl, rfl⟩ := hr
  obtain ⟨m1, sm, k1, hm, hk1, rfl⟩ := rewrite_leaf_cons hk
  rw [mediaLeaf_mfhd, processMfhd, hn] at hm
  simp only at hm
  cases hu : uint32ToStr n with
  | error e => rw [hu] at hm; cases hm
  | ok nb =>
    rw [hu] at hm
    simp only [Except.ok.injEq, Prod.mk.injEq] at hm
    obtain ⟨rfl, rfl⟩ := hm
    obtain ⟨hn0, hn1, rfl⟩ := uint32ToStr_eq_ok hu
    obtain ⟨sa, ka, sama, hka, rfl, -⟩ := rewrite_withLeaves c a _ s s1 k1 ha hz (by omega) hk1
    obtain ⟨kt, st, kb, hkt, hkb, hlt, rfl⟩ := rewrite_node_cons hka
    obtain ⟨sp, kp, samp, hkp, rfl, -⟩ := rewrite_withLeaves c pre _ sa st kt hpre
      (by rw [sama.2.2]; exact hz) (by rw [sama.1]; omega) hkt
    obtain ⟨od, sd, kd, hd, hkd, rfl⟩ := rewrite_leaf_cons hkp
    rw [mediaLeaf_tfdt, processTfdt_ok c wide f2 f1 f0 t ht sp ts hts] at hd
    have sap := sama.trans samp
    simp only [hnew] at hd
    by_cases hbad : new < 0 ∨ 2 ^ 64 ≤ new
    · rw [if_pos hbad] at hd; cases hd
    · rw [if_neg hbad] at hd
      have hgrow : sd.tfdt = some new ∧ sd.sizeChange = growth wide new ∧ sd.ttmlSize = none ∧
          od = boxBytes tyTfdt (tfdtPayload (wide || decide (2 ^ 32 ≤ new)) f2 f1 f0 new.toNat) := by
        have hs0 : sp.sizeChange = s.sizeChange := sap.1
        have hz0 : sp.ttmlSize = none := by rw [sap.2.2, hz]
        split at hd
        · rename_i hw
          simp only [Except.ok.injEq, Prod.mk.injEq] at hd
          obtain ⟨rfl, rfl⟩ := hd
          refine ⟨rfl, ?_, hz0, ?_⟩
          · unfold growth
            cases wide with
            | true =>
              have : growth true new = 0 := by unfold growth; simp
              simp only [Bool.true_eq_false, false_and, if_false, if_true]
              omega
            | false => simp at hw; simp [hw]
          · have : (wide || decide (2 ^ 32 ≤ new)) = true := by
              rcases hw with hw | hw
              · rw [hw]; rfl
              · rw [decide_eq_true hw, Bool.or_true]
            rw [this]; cases wide <;> rfl
        · rename_i hw
          simp only [Except.ok.injEq, Prod.mk.injEq] at hd
          obtain ⟨rfl, rfl⟩ := hd
          simp only [not_or, Bool.not_eq_true] at hw
          refine ⟨rfl, ?_, hz0, ?_⟩
          · have : growth wide new = 0 := by unfold growth; rw [if_neg (fun hx => hw.2 hx.2)]
            dsimp only
            omega
          · rw [hw.1, decide_eq_false hw.2]; rfl
      obtain ⟨g1, g2, g3, rfl⟩ := hgrow
      have hg0 : 0 ≤ growth wide new := by unfold growth; split <;> omega
      obtain ⟨sq, kq, samq, hkq, rfl, -⟩ := rewrite_withLeaves c post _ sd st kd hpost g3
        (by rw [g2]; exact hg0) hkd
      simp only [Forest.rewrite, Except.ok.injEq, Prod.mk.injEq] at hkq
      obtain ⟨rfl, rfl⟩ := hkq
      obtain ⟨sr, kr, samr, hkr, rfl, -⟩ := rewrite_withLeaves c b _ sq s1 kb hb
        (by rw [samq.2.2]; exact g3) (by rw [samq.1, g2]; exact hg0) hkb
      simp only [Forest.rewrite, Except.ok.injEq, Prod.mk.injEq] at hkr
      obtain ⟨rfl, rfl⟩ := hkr
      have sall := samq.trans samr
      refine ⟨hn0, hn1, by omega, by omega, by rw [sall.2.1, g1], by rw [sall.1, g2], by rw [sall.2.2, g3], ?_⟩
      simp only [fragment, Forest.bytes, withLeaves_bytes, List.append_nil]
      have hcopy : ∀ l : List FragBox, (∀ x ∈ l, x ∈ a ++ pre) →
          l.flatMap (fun x => (x.shift s.sizeChange).bytes) = l.flatMap FragBox.bytes := by
        intro l hl
        induction l with
        | nil => rfl
        | cons x l ih =>
          rw [List.flatMap_cons, List.flatMap_cons, ih fun y hy => hl y (by simp [hy]), hfix x (hl x (by simp))]
      rw [sama.1, samq.1, g2, hcopy a fun x hx => List.mem_append_left _ hx,
        hcopy pre fun x hx => List.mem_append_right _ hx]
      simp only [List.flatMap_map]
      congr 2
      rw [box_take rfl _ _ (by omega)]
      rw [show (vf ++ seq).take (12 - 8) = vf from List.take_left' hvf]
      simp [boxBytes, hseq]

/-- What the filter does to a top-level box that is not a fragment. -/
def FrontStep (c : MfCfg) (b o : Bytes × Bytes) : Prop :=
  o.1 = b.1 ∧ (b.1 = tyStyp → processStyp c (boxBytes b.1 b.2) = .ok o.2) ∧
  (b.1 = tySidx → o.2 = []) ∧ (b.1 ≠ tyStyp → b.1 ≠ tySidx → o.2 = boxBytes b.1 b.2)

/-- The same for a list of boxes, in order. -/
inductive FrontSteps (c : MfCfg) : List (Bytes × Bytes) → List (Bytes × Bytes) → Prop where
  | nil : FrontSteps c [] []
  | cons {b o : Bytes × Bytes} {bs os : List (Bytes × Bytes)} (h : FrontStep c b o)
      (hs : FrontSteps c bs os) : FrontSteps c (b :: bs) (o :: os)

theorem rewriteTop_leaf_cons {f : Bytes → Bytes → σ → Py (Bytes × σ)} {top : List Bytes}
    {ty p : Bytes} {rest : Forest} {s s' : σ} {l : List (Bytes × Bytes)}
    (h : (Forest.leaf ty p rest).rewriteTop f top s = .ok (l, s')) :
    ∃ o s1 l', (if ty ∈ top then f ty (boxBytes ty p) s else .ok (boxBytes ty p, s)) = .ok (o, s1) ∧
      rest.rewriteTop f top s1 = .ok (l', s') ∧ l = (ty, o) :: l' := by
  rw [Forest.rewriteTop] at h
  cases h1 : (if ty ∈ top then (Forest.leaf ty p .nil).rewrite f s
      else .ok (boxBytes ty p, s)) with
  | error e => rw [h1] at h; cases h
  | ok x =>
    obtain ⟨o, s1⟩ := x
    rw [h1] at h
    simp only at h
    cases h2 : rest.rewriteTop f top s1 with
    | error e => rw [h2] at h; cases h
    | ok y =>
      obtain ⟨l', s2⟩ := y
      rw [h2] at h
      simp only [Except.ok.injEq, Prod.mk.injEq] at h
      refine ⟨o, s1, l', ?_, by rw [h2, h.2], h.1.symm⟩
      split
      · rename_i ht
        rw [if_pos ht] at h1
        obtain ⟨o1, s3, o2, e1, e2, rfl⟩ := rewrite_leaf_cons h1
        simp only [Forest.rewrite, Except.ok.injEq, Prod.mk.injEq] at e2
        obtain ⟨rfl, rfl⟩ := e2
        rw [e1]; simp
      · rename_i ht
        rw [if_neg ht] at h1
        exact h1

theorem frontStep_mem (c : MfCfg) (ty p o : Bytes) (s s1 : MfState)
    (hne : ty ∉ [tyMoof, tyTraf])
    (h : (if ty ∈ (mediaRules c).top then mediaLeaf c ty (boxBytes ty p) s
      else .ok (boxBytes ty p, s)) = .ok (o, s1)) :
    s1 = s ∧ FrontStep c (ty, p) (ty, o) := by
  by_cases h1 : ty = tyStyp
  · subst h1
    rw [if_pos (by simp [mediaRules]), mediaLeaf_styp] at h
    cases h2 : processStyp c (boxBytes tyStyp p) with
    | error e => rw [h2] at h; cases h
    | ok b =>
      rw [h2] at h
      simp only [Except.ok.injEq, Prod.mk.injEq] at h
      obtain ⟨rfl, rfl⟩ := h
      refine ⟨rfl, rfl, fun _ => h2, fun e => absurd e ?_, fun e => absurd rfl e⟩
      show tyStyp ≠ tySidx
      decide
  · by_cases h2 : ty = tySidx
    · subst h2
      rw [if_pos (by simp [mediaRules]), mediaLeaf_sidx] at h
      simp only [Except.ok.injEq, Prod.mk.injEq] at h
      obtain ⟨rfl, rfl⟩ := h
      refine ⟨rfl, rfl, fun e => absurd e ?_, fun _ => rfl, fun _ e => absurd rfl e⟩
      show tySidx ≠ tyStyp
      decide
    · have hcopy : o = boxBytes ty p ∧ s1 = s := by
        by_cases h3 : ty = tyMdat
        · subst h3
          rw [if_pos (by simp [mediaRules])] at h
          have : mediaLeaf c tyMdat (boxBytes tyMdat p) s = .ok (boxBytes tyMdat p, s) := rfl
          rw [this] at h
          simp only [Except.ok.injEq, Prod.mk.injEq] at h
          exact ⟨h.1.symm, h.2.symm⟩
        · rw [if_neg] at h
          · simp only [Except.ok.injEq, Prod.mk.injEq] at h
            exact ⟨h.1.symm, h.2.symm⟩
          · simp only [mediaRules, List.mem_cons, not_or] at hne ⊢
            exact ⟨h1, h2, hne.1, h3, by simp⟩
      exact ⟨hcopy.2, rfl, fun e => absurd e h1, fun e => absurd e h2, fun _ _ => hcopy.1⟩

theorem rewriteTop_withBoxes (c : MfCfg) (front : List (Bytes × Bytes)) (rest : Forest) :
    ∀ (s s' : MfState) (l : List (Bytes × Bytes)),
    (∀ b ∈ front, b.1 ∉ [tyMoof, tyTraf]) →
    (Forest.withBoxes front rest).rewriteTop (mediaLeaf c) (mediaRules c).top s = .ok (l, s') →
    ∃ l1 l2, rest.rewriteTop (mediaLeaf c) (mediaRules c).top s = .ok (l2, s') ∧ l = l1 ++ l2 ∧
      FrontSteps c front l1 := by
  induction front with
  | nil =>
    intro s s' l _ h
    exact ⟨[], l, h, rfl, .nil⟩
  | cons b front ih =>
    intro s s' l hb h
    obtain ⟨o, s1, l', h1, h2, rfl⟩ := rewriteTop_leaf_cons h
    obtain ⟨rfl, hstep⟩ := frontStep_mem c b.1 b.2 o s s1 (hb b (by simp)) h1
    obtain ⟨l1, l2, e1, rfl, e3⟩ := ih s1 s' l' (fun x hx => hb x (by simp [hx])) h2
    exact ⟨(b.1, o) :: l1, l2, e1, rfl, .cons hstep e3⟩

/-- Boxes that are neither styp nor sidx come out unchanged. -/
theorem frontSteps_copy (c : MfCfg) : ∀ (back l : List (Bytes × Bytes)),
    (∀ b ∈ back, b.1 ∉ [tyStyp, tySidx]) → FrontSteps c back l →
    l = back.map (fun b => (b.1, boxBytes b.1 b.2)) := by
  intro back l hb h
  induction h with
  | nil => rfl
  | @cons b o bs os hbo _ ih =>
    have := hb b (by simp)
    simp only [List.mem_cons, not_or] at this
    rw [List.map_cons, ih (fun x hx => hb x (by simp [hx])), ← hbo.2.2.2 this.1 this.2.1, ← hbo.1]

/-- A segment with one fragment through the filter, before `finalize`. -/
theorem segment_rewrite (c : MfCfg) (n ts : Int) (vf seq : Bytes) (hvf : vf.length = 4)
    (hseq : seq.length = 4) (hn : c.segNr = some n) (hts : c.timescale = some ts)
    (front back : List (Bytes × Bytes)) (hfront : ∀ x ∈ front, x.1 ∉ [tyMoof, tyTraf])
    (hback : ∀ x ∈ back, x.1 ∉ [tyMoof, tyTraf, tyStyp, tySidx])
    (a pre post b : List FragBox) (ha : ∀ x ∈ a, x.Ok) (hpre : ∀ x ∈ pre, x.Ok)
    (hpost : ∀ x ∈ post, x.Ok) (hb : ∀ x ∈ b, x.Ok)
    (wide : Bool) (f2 f1 f0 : UInt8) (t : Nat) (ht : t < (if wide then 2 ^ 64 else 2 ^ 32))
    (hok : (segmentOf front (vf ++ seq) a pre (tfdtPayload wide f2 f1 f0 t) post b back).Ok
      [tyMoof, tyTraf])
    (out : Bytes) (boxes : List (Nat × Bytes)) (s' : MfState)
    (h : filterFile (mediaRules c)
      (segmentOf front (vf ++ seq) a pre (tfdtPayload wide f2 f1 f0 t) post b back).bytes c.init
      = .ok ((out, boxes), s')) :
    0 ≤ n ∧ n < 2 ^ 32 ∧ 0 ≤ (t : Int) + c.offset * ts ∧ (t : Int) + c.offset * ts < 2 ^ 64 ∧
    s'.tfdt = some ((t : Int) + c.offset * ts) ∧
    (∃ s0, (fragment (vf ++ seq) a pre (tfdtPayload wide f2 f1 f0 t) post b).rewrite
      (mediaLeaf c) c.init = .ok (s0, s')) ∧
    ∃ (l1 : List (Bytes × Bytes)) (moof : Bytes), FrontSteps c front l1 ∧
      moof = (fragment (vf ++ beBytes 4 n.toNat) a pre
        (tfdtPayload (wide || decide (2 ^ 32 ≤ (t : Int) + c.offset * ts)) f2 f1 f0
          ((t : Int) + c.offset * ts).toNat)
        (post.map (FragBox.shift (growth wide ((t : Int) + c.offset * ts))))
        (b.map (FragBox.shift (growth wide ((t : Int) + c.offset * ts))))).bytes ∧
      out = (l1.map Prod.snd).flatten ++ moof ++ boxesBytes back ∧
      boxes = ((l1 ++ (tyMoof, moof) :: back.map (fun x => (x.1, boxBytes x.1 x.2))).filter
        (fun x => decide (0 < x.2.length))).map (fun x => (x.2.length, x.1)) := by
  unfold filterFile at h
  rw [filterTop_forest (mediaRules c) _ _ c.init hok (by omega)] at h
  cases hr : (segmentOf front (vf ++ seq) a pre (tfdtPayload wide f2 f1 f0 t) post b back).rewriteTop
      (mediaRules c).leaf (mediaRules c).top c.init with
  | error e => rw [hr] at h; cases h
  | ok x =>
    obtain ⟨l, s2⟩ := x
    rw [hr] at h
    simp only [Except.ok.injEq, Prod.mk.injEq] at h
    obtain ⟨h1, rfl⟩ := h
    obtain ⟨l1, l2, e1, rfl, e3⟩ := rewriteTop_withBoxes c front _ c.init s2 l hfront hr
    rw [Forest.rewriteTop, if_pos (by simp [mediaRules])] at e1
    cases hm : (fragment (vf ++ seq) a pre (tfdtPayload wide f2 f1 f0 t) post b).rewrite
        (mediaLeaf c) c.init with
    | error e =>
      rw [fragment] at hm
      rw [hm] at e1; cases e1
    | ok y =>
      obtain ⟨moof, s3⟩ := y
      have hm' := hm
      rw [fragment] at hm
      rw [hm] at e1
      simp only at e1
      obtain ⟨p1, p2, p3, p4, p5, p6, -, p7⟩ := fragment_rewrite c n ts vf seq hvf hseq hn hts a pre post b
        ha hpre hpost hb wide f2 f1 f0 t ht c.init s3 rfl (fun x _ => shift_zero x) (Or.inl rfl) moof hm'
      cases hb2 : (Forest.withBoxes back .nil).rewriteTop (mediaLeaf c) (mediaRules c).top s3 with
      | error e => rw [hb2] at e1; cases e1
      | ok z =>
        obtain ⟨l3, s4⟩ := z
        rw [hb2] at e1
        simp only [Except.ok.injEq, Prod.mk.injEq] at e1
        obtain ⟨rfl, rfl⟩ := e1
        obtain ⟨l5, l6, q1, rfl, q3⟩ := rewriteTop_withBoxes c back .nil s3 s4 l3
          (fun x hx => by
            have := hback x hx
            simp only [List.mem_cons, not_or] at this ⊢
            exact ⟨this.1, this.2.1, by simp⟩) hb2
        simp only [Forest.rewriteTop, Except.ok.injEq, Prod.mk.injEq] at q1
        obtain ⟨rfl, rfl⟩ := q1
        have hl5 := frontSteps_copy c back l5 (fun x hx => by
            have := hback x hx
            simp only [List.mem_cons, not_or] at this ⊢
            exact ⟨this.2.2.1, this.2.2.2.1, by simp⟩) q3
        refine ⟨p1, p2, p3, p4, p5, ⟨moof, rfl⟩, l1, moof, e3, p7, ?_, ?_⟩
        · rw [← (Prod.mk.inj h1).1, hl5]
          simp [boxesBytes, List.flatMap_def, Function.comp_def]
        · rw [← (Prod.mk.inj h1).2, hl5]
          simp

end Verif
