import Verif.Lemmas.TtmlLive
import Verif.Props.Delivered
import Verif.Spec.Chain
/-
Helper lemmas: segments of several movie fragments through the media segment filter.
-/
namespace Verif
open Spec

/-! ### The boxes -/

/-- All boxes of the fragments. -/
def chainForest : List LiveFragment → Forest
  | [] => .nil
  | f :: fs => .withBoxes f.front (.node tyMoof f.seg.moof (.withBoxes f.back (chainForest fs)))

/-- The file. -/
def chainFile (fs : List LiveFragment) : Bytes := chainBytes (fs.map LiveFragment.seg)

theorem seg_bytes (f : LiveFragment) : f.seg.bytes = boxesBytes f.front ++ (boxBytes tyMoof f.seg.moof.bytes ++ boxesBytes f.back) := by
  unfold FragSegment.bytes FragSegment.forest
  rw [withBoxes_bytes, Forest.bytes, withBoxes_bytes, Forest.bytes, List.append_nil]
  rfl

theorem chainFile_cons (f : LiveFragment) (fs : List LiveFragment) : chainFile (f :: fs) = f.seg.bytes ++ chainFile fs := by
  simp [chainFile, chainBytes]

theorem chainForest_bytes (fs : List LiveFragment) : (chainForest fs).bytes = chainFile fs := by
  induction fs with
  | nil => rfl
  | cons f fs ih =>
    rw [chainForest, withBoxes_bytes, Forest.bytes, withBoxes_bytes, ih, chainFile_cons, seg_bytes]
    simp only [List.append_assoc]

theorem withBoxes_ok_inv {l : List (Bytes × Bytes)} {f : Forest} {comp : List Bytes} (h : (Forest.withBoxes l f).Ok comp) :
    f.Ok comp := by
  induction l with
  | nil => exact h
  | cons b l ih => exact ih h.2.2.2

theorem chainForest_ok {fs : List LiveFragment} (h : ∀ f ∈ fs, f.Ok) : (chainForest fs).Ok [tyMoof, tyTraf] := by
  induction fs with
  | nil => trivial
  | cons f fs ih =>
    have hf := h f (by simp)
    obtain ⟨h1, h2, h3, h4, -⟩ := withBoxes_ok_inv hf.seg.forest
    refine withBoxes_ok (fun x hx => ?_) ⟨h1, h2, h3, h4, withBoxes_ok (fun x hx => ?_) (ih fun g hg => h g (by simp [hg]))⟩
    · have := hf.front x hx
      exact ⟨this.1, by omega⟩
    · have := hf.back x hx
      exact ⟨this.1, this.2.2⟩

theorem LiveFragment.fragment_eq (f : LiveFragment) (h : bitSet f.run.f0 0 = true) :
    fragment (f.one.vf ++ f.one.seq) f.one.a f.one.pre (tfdtPayload f.one.wide f.one.f2 f.one.f1 f.one.f0 f.one.t) f.one.post
      f.one.b = .node tyMoof f.seg.moof .nil := by
  have hr := f.runBox_parts h
  simp only [fragment, FragSegment.moof, FragSegment.traf, LiveFragment.seg, withBoxes_parts, LiveFragment.one, withLeaves_append]
  simp only [Forest.withLeaves, hr]
  rfl

/-! ### The filter -/

/-- What the change of size that an earlier fragment has left means for a later one. -/
def Steady (ticks : Int) : Int → List LiveFragment → Prop
  | _, [] => True
  | d, f :: fs => (∀ x ∈ f.one.a ++ f.one.pre, x.shift d = x) ∧ (d = 0 ∨ d = growth f.wide ((f.time : Int) + ticks)) ∧
      Steady ticks (growth f.wide ((f.time : Int) + ticks)) fs

/-- The fragment as it is sent. -/
structure SentAs (n ticks : Int) (f g : LiveFragment) : Prop where
  live : ∃ front, g = f.live front n ((f.time : Int) + ticks) (growth f.wide ((f.time : Int) + ticks))
  ok : g.seg.Ok
  nr : 0 ≤ n ∧ n < 2 ^ 32
  time : 0 ≤ (f.time : Int) + ticks ∧ (f.time : Int) + ticks < 2 ^ 64

theorem LiveFragment.Ok.step {f : LiveFragment} (h : f.Ok) {c : MfCfg} {n ts : Int} (hn : c.segNr = some n)
    (hts : c.timescale = some ts) {s s' : MfState} (hz : s.ttmlSize = none)
    (hfix : ∀ x ∈ f.one.a ++ f.one.pre, x.shift s.sizeChange = x)
    (h0 : s.sizeChange = 0 ∨ s.sizeChange = growth f.wide ((f.time : Int) + c.offset * ts)) {rest : Forest}
    {l : List (Bytes × Bytes)}
    (hr : (Forest.withBoxes f.front (.node tyMoof f.seg.moof (.withBoxes f.back rest))).rewriteTop (mediaLeaf c)
      (mediaRules c).top s = .ok (l, s')) :
    ∃ s1 l1 m l2, rest.rewriteTop (mediaLeaf c) (mediaRules c).top s1 = .ok (l2, s') ∧
      l = l1 ++ (tyMoof, m) :: (f.back.map (fun b => (b.1, boxBytes b.1 b.2)) ++ l2) ∧
      s1.sizeChange = growth f.wide ((f.time : Int) + c.offset * ts) ∧ s1.ttmlSize = none ∧
      0 < m.length ∧
      ∀ e, IsBoxes (fun _ => True) e → ∃ g, SentAs n (c.offset * ts) f g ∧
        (l1.map Prod.snd).flatten ++ e ++ m ++ boxesBytes f.back = g.seg.bytes := by
  have hone := h.one
  obtain ⟨l1, k1, e1, rfl, e3⟩ := rewriteTop_withBoxes c f.front _ s s' l (fun x hx => plain_not_fragment (h.front x hx).1) hr
  obtain ⟨k, s1, l', g1, g2, g3, rfl⟩ := rewriteTop_node_cons (by simp [mediaRules]) e1
  obtain ⟨l3, l2, e4, rfl, e5⟩ := rewriteTop_withBoxes c f.back _ s1 s' l' (fun x hx => plain_not_fragment (h.back x hx).1) g3
  have hl3 := frontSteps_copy c f.back l3 (fun x hx => (h.back x hx).2.1) e5
  have hfrag := rewrite_node_of (ty := tyMoof) g1 g2 (rest := .nil) rfl
  rw [← f.fragment_eq h.offset] at hfrag
  obtain ⟨p1, p2, p3, p4, p5, p6, p7, p8⟩ := fragment_rewrite c n ts f.one.vf f.one.seq hone.vf hone.seq hn hts f.one.a f.one.pre
    f.one.post f.one.b hone.a hone.pre hone.post hone.b f.one.wide f.one.f2 f.one.f1 f.one.f0 f.one.t hone.t s s1 hz hfix h0
    _ hfrag
  refine ⟨s1, l1, boxBytes tyMoof k, l2, e4, by rw [hl3], p6, p7, ?_, ?_⟩
  · rw [boxBytes_length]; omega
  · intro e he
    obtain ⟨fr, hfr, hpl⟩ := (front_plain e3 h.front).append he
    refine ⟨f.live fr n ((f.time : Int) + c.offset * ts) (growth f.wide ((f.time : Int) + c.offset * ts)), ⟨⟨fr, rfl⟩,
      h.live p1 p2 p3 p4 rfl fun x hx => (hpl x hx).1, ⟨p1, p2⟩, p3, p4⟩, ?_⟩
    have hb := (f.live fr n ((f.time : Int) + c.offset * ts) (growth f.wide ((f.time : Int) + c.offset * ts))).bytes_eq
      (show _ = _ from h.offset)
    rw [hb, OneFragment.bytes, hfr]
    have hm : boxBytes tyMoof k = (f.live fr n ((f.time : Int) + c.offset * ts)
        (growth f.wide ((f.time : Int) + c.offset * ts))).one.moof := by
      rw [← f.moved fr]
      rw [List.append_nil] at p8
      exact p8
    rw [hm]
    rfl

/-- All fragments through the filter.  A message can be put before the last of them. -/
theorem chain_rewrite {c : MfCfg} {n ts : Int} (hn : c.segNr = some n) (hts : c.timescale = some ts) :
    ∀ (fs : List LiveFragment) (s s' : MfState) (l : List (Bytes × Bytes)), (∀ f ∈ fs, f.Ok) → fs ≠ [] → s.ttmlSize = none →
    Steady (c.offset * ts) s.sizeChange fs → (chainForest fs).rewriteTop (mediaLeaf c) (mediaRules c).top s = .ok (l, s') →
    ∃ A m B, l = A ++ (tyMoof, m) :: B ∧ (∀ x ∈ B, x.1 ≠ tyMoof ∧ 0 < x.2.length) ∧ 0 < m.length ∧
      ∀ e, IsBoxes (fun _ => True) e → ∃ gs, List.Forall₂ (SentAs n (c.offset * ts)) fs gs ∧
        (A.map Prod.snd).flatten ++ e ++ m ++ (B.map Prod.snd).flatten = chainFile gs := by
  intro fs
  induction fs with
  | nil => intro _ _ _ _ h; exact absurd rfl h
  | cons f fs ih =>
    intro s s' l hok _ hz hst hr
    have hf := hok f (by simp)
    obtain ⟨s1, l1, m, l2, g1, rfl, g3, g4, hm, g6⟩ := hf.step hn hts hz hst.1 hst.2.1 hr
    have hback : ((f.back.map (fun b : Bytes × Bytes => (b.1, boxBytes b.1 b.2))).map Prod.snd).flatten = boxesBytes f.back := by
      rw [List.map_map, boxesBytes, List.flatMap_def]
      rfl
    cases fs with
    | nil =>
      cases g1
      refine ⟨l1, m, f.back.map (fun b => (b.1, boxBytes b.1 b.2)), by simp, ?_, hm, ?_⟩
      · intro x hx
        obtain ⟨y, hy, rfl⟩ := List.mem_map.mp hx
        refine ⟨fun hc => ?_, by simp [boxBytes_length]⟩
        have := plain_not_fragment (hf.back y hy).1
        exact this (by rw [show y.1 = tyMoof from hc]; simp)
      · intro e he
        obtain ⟨g, hg, hb⟩ := g6 e he
        exact ⟨[g], .cons hg .nil, by rw [hback, hb, chainFile_cons]; simp [chainFile, chainBytes]⟩
    | cons f' fs =>
      obtain ⟨A, m', B, rfl, h2, h3, h4⟩ := ih s1 s' l2 (fun x hx => hok x (by simp [hx])) (by simp) g4 (by rw [g3]; exact hst.2.2) g1
      refine ⟨l1 ++ (tyMoof, m) :: (f.back.map (fun b => (b.1, boxBytes b.1 b.2)) ++ A), m', B, by simp, h2, h3, ?_⟩
      intro e he
      obtain ⟨gs, hgs, hb⟩ := h4 e he
      obtain ⟨g, hg, hb1⟩ := g6 [] .nil
      refine ⟨g :: gs, .cons hg hgs, ?_⟩
      rw [chainFile_cons, ← hb, ← hb1]
      simp only [List.map_append, List.map_cons, List.flatten_append, List.flatten_cons, hback, List.append_assoc, List.nil_append]

theorem moofScan_skip : ∀ (A : List (Nat × Bytes)) (rest : List (Nat × Bytes)) (pos st sz : Nat),
    ∃ st' sz', moofScan (A ++ rest) pos st sz = moofScan rest (pos + (A.map Prod.fst).sum) st' sz' := by
  intro A
  induction A with
  | nil => intro rest pos st sz; exact ⟨st, sz, by simp⟩
  | cons x A ih =>
    intro rest pos st sz
    obtain ⟨k, ty⟩ := x
    rw [List.cons_append, moofScan, List.map_cons, List.sum_cons, ← Nat.add_assoc]
    split
    · exact ih _ _ _ _
    · split
      · exact ih _ _ _ _
      · exact ih _ _ _ _

theorem filter_sum (l : List (Bytes × Bytes)) :
    (((l.filter (fun x => decide (0 < x.2.length))).map (fun x => (x.2.length, x.1))).map Prod.fst).sum =
      (l.map Prod.snd).flatten.length := by
  induction l with
  | nil => rfl
  | cons x l ih =>
    rw [List.filter_cons, List.map_cons, List.flatten_cons, List.length_append, ← ih]
    by_cases h : 0 < x.2.length
    · rw [if_pos (by simpa using h)]
      simp
    · rw [if_neg (by simpa using h)]
      omega

/-- The place of the last fragment. -/
theorem moofScan_last (A B : List (Bytes × Bytes)) (m : Bytes) (hm : 0 < m.length) (hB : ∀ x ∈ B, x.1 ≠ tyMoof ∧ 0 < x.2.length) :
    (moofScan (((A ++ (tyMoof, m) :: B).filter (fun x => decide (0 < x.2.length))).map (fun x => (x.2.length, x.1))) 0 0 0).1 =
      (A.map Prod.snd).flatten.length := by
  rw [List.filter_append, List.map_append]
  obtain ⟨st, sz, h⟩ := moofScan_skip
    ((A.filter (fun x : Bytes × Bytes => decide (0 < x.2.length))).map (fun x : Bytes × Bytes => (x.2.length, x.1)))
    ((((tyMoof, m) :: B).filter (fun x : Bytes × Bytes => decide (0 < x.2.length))).map
      (fun x : Bytes × Bytes => (x.2.length, x.1))) 0 0 0
  rw [h, List.filter_cons, if_pos (by simpa using hm), List.map_cons, moofScan, if_pos rfl,
    List.filter_eq_self.mpr (fun x hx => by simpa using (hB x hx).2), (moofScan_back B _ _ _ fun x hx => (hB x hx).1).1,
    filter_sum, Nat.zero_add]

/-- What the filter returns is the fragments at their place in the live session. -/
theorem chain_filtered {fs : List LiveFragment} (h : ∀ f ∈ fs, f.Ok) (hne : fs ≠ []) {c : MfCfg} {n ts : Int}
    (hn : c.segNr = some n) (hts : c.timescale = some ts) (hm : ∀ m, c.emsgLast = some m → Ascii m) (hi : c.insertSidx = false)
    (hst : Steady (c.offset * ts) 0 fs) {y : Bytes × MfState} (hy : filterMedia c (chainFile fs) = .ok y) :
    ∃ gs, List.Forall₂ (SentAs n (c.offset * ts)) fs gs ∧ y.1 = chainFile gs := by
  unfold filterMedia filterFile at hy
  rw [← chainForest_bytes, filterTop_forest (mediaRules c) _ _ c.init (chainForest_ok h) (by omega)] at hy
  cases hr : (chainForest fs).rewriteTop (mediaRules c).leaf (mediaRules c).top c.init with
  | error e => rw [hr] at hy; cases hy
  | ok x =>
    obtain ⟨l, s'⟩ := x
    rw [hr] at hy
    obtain ⟨A, m, B, rfl, hB, hm0, hall⟩ := chain_rewrite hn hts fs c.init s' l h hne rfl hst hr
    dsimp only at hy
    unfold mediaFinalize insertIndex at hy
    rw [if_neg (by rw [hi]; simp)] at hy
    dsimp only at hy
    unfold insertLast at hy
    have hout : (topResult (A ++ (tyMoof, m) :: B)).1 = (A.map Prod.snd).flatten ++ (m ++ (B.map Prod.snd).flatten) := by
      simp [topResult]
    have hpos := moofScan_last A B m hm0 hB
    cases hmsg : c.emsgLast with
    | none =>
      rw [hmsg] at hy
      cases hy
      obtain ⟨gs, hgs, hb⟩ := hall [] .nil
      refine ⟨gs, hgs, ?_⟩
      rw [← hb]
      show (topResult _).1 = _
      rw [hout]
      simp
    | some msg =>
      rw [hmsg] at hy
      dsimp only at hy
      cases hg : (lastSegEmsg msg).getBox with
      | error e => rw [hg] at hy; cases hy
      | ok e =>
        rw [hg] at hy
        cases hy
        obtain ⟨gs, hgs, hb⟩ := hall e (lastBox_plain trivial (c := c) (by unfold lastBox; rw [hmsg]; exact hg) hm)
        refine ⟨gs, hgs, ?_⟩
        rw [← hb]
        show (topResult _).1.take (moofScan (topResult (A ++ (tyMoof, m) :: B)).2 0 0 0).1 ++ e ++
          (topResult _).1.drop (moofScan (topResult (A ++ (tyMoof, m) :: B)).2 0 0 0).1 = _
        have hpos' : (moofScan (topResult (A ++ (tyMoof, m) :: B)).2 0 0 0).1 = (A.map Prod.snd).flatten.length := hpos
        rw [hpos', hout, List.take_left, List.drop_left]
        simp only [List.append_assoc]

/-! ### The filter does not fail -/

/-- Room in every fragment for what the server adds. -/
def LiveFragment.Roomy (f : LiveFragment) : Prop := f.one.Room

/-- What could be filtered without number and timescale can be filtered with them. -/
theorem chain_transfer {c c' : MfCfg} {n ts : Int} (hc : c.timescale = none) (hn : c'.segNr = some n) (hts : c'.timescale = some ts)
    (hn0 : 0 ≤ n) (hn1 : n < 2 ^ 32) {scte : Bytes} (hs : scteOfSegment c' = .ok scte) :
    ∀ (fs : List LiveFragment) (s s' u : MfState) (l : List (Bytes × Bytes)), (∀ f ∈ fs, f.Ok ∧ f.Roomy ∧
      0 ≤ (f.time : Int) + c'.offset * ts ∧ (f.time : Int) + c'.offset * ts < 2 ^ 64) → s.ttmlSize = none → s.sizeChange = 0 →
    u.ttmlSize = none → (u.sizeChange = 0 ∨ u.sizeChange = 4) →
    (chainForest fs).rewriteTop (mediaLeaf c) (mediaRules c).top s = .ok (l, s') →
    ∃ l' u', (chainForest fs).rewriteTop (mediaLeaf c') (mediaRules c').top u = .ok (l', u') := by
  intro fs
  induction fs with
  | nil => intro _ _ u _ _ _ _ _ _ _; exact ⟨[], u, rfl⟩
  | cons f fs ih =>
    intro s s' u l hok hz h0 hzu h0u hr
    obtain ⟨h, hroom, ht0, ht1⟩ := hok f (by simp)
    have hone := h.one
    obtain ⟨l1, k1, e1, -, -⟩ := rewriteTop_withBoxes c f.front _ s s' l (fun x hx => plain_not_fragment (h.front x hx).1) hr
    obtain ⟨k, s1, l', g1, g2, g3, -⟩ := rewriteTop_node_cons (by simp [mediaRules]) e1
    obtain ⟨l3, l2, e4, -, -⟩ := rewriteTop_withBoxes c f.back _ s1 s' l' (fun x hx => plain_not_fragment (h.back x hx).1) g3
    have hfrag := rewrite_node_of (ty := tyMoof) g1 g2 (rest := .nil) rfl
    rw [← f.fragment_eq h.offset] at hfrag
    have both : ∀ l : List FragBox, (∀ b ∈ l, b.Ok) → (∀ b ∈ l, b ∈ f.one.a ++ f.one.pre ++ f.one.post ++ f.one.b) →
        ∀ b ∈ l, b.Ok ∧ b.Room := fun l h1 h2 b hb => ⟨h1 b hb, hroom.boxes b (h2 b hb)⟩
    obtain ⟨o, u1, w1, w2, w3, w4, w5⟩ := fragment_transfer c c' n ts f.one.vf f.one.seq hone.vf hone.seq hn hts hn0 hn1 hc f.one.a
      f.one.pre f.one.post f.one.b (both _ hone.a fun b hb => by simp [hb]) (both _ hone.pre fun b hb => by simp [hb])
      (both _ hone.post fun b hb => by simp [hb]) (both _ hone.b fun b hb => by simp [hb])
      f.one.wide f.one.f2 f.one.f1 f.one.f0 f.one.t hone.t ht0 ht1 hroom.moof s s1 u hz h0 hzu h0u _ hfrag
    obtain ⟨lr, u', hrest⟩ := ih s1 s' u1 l2 (fun x hx => hok x (by simp [hx])) w5 w4 w3 w2 e4
    obtain ⟨lb, hlb⟩ := withBoxes_of c' f.back _ u1 u' lr (fun x hx => ⟨plain_not_fragment (h.back x hx).1, fun he => by
      have := (h.back x hx).2.1
      rw [he] at this
      exact absurd (by simp) this⟩) hrest
    rw [f.fragment_eq h.offset] at w1
    obtain ⟨k', s2, o2, x1, x2, x3, x4⟩ := rewrite_node_cons w1
    cases x2
    have hmid := rewriteTop_node_of (ty := tyMoof) (top := (mediaRules c').top) (by simp [mediaRules]) x1 x3 hlb
    obtain ⟨lf, hlf⟩ := withBoxes_of c' f.front _ u u' _ (fun x hx => ⟨plain_not_fragment (h.front x hx).1, fun he =>
      processStyp_of c' (hroom.front x hx he) hs⟩) hmid
    exact ⟨lf, u', hlf⟩

/-- The filter makes a segment of what the analyser could read. -/
theorem chain_sent {c : Cfg} {w : Served} {rp : Rep} {fs : List LiveFragment} {dd0 dd : Option Nat} {z : AnaSeg}
    (hread : readSegment dd0 (chainFile fs) = .ok z) (hok : ∀ f ∈ fs, f.Ok ∧ f.Roomy ∧
      0 ≤ (f.time : Int) + w.offset * rp.timescale ∧ (f.time : Int) + w.offset * rp.timescale < 2 ^ 64)
    (hsd : 0 ≤ c.segDur) (hscte : 0 < c.scte35 → w.segNr * c.segDur < 2 ^ 32) {stamp : Text}
    (hstamp : w.emsgLast = true → stamp.length < 2 ^ 30) (hi : c.insertSidx = false) (n0 : 0 ≤ w.segNr) (n1 : w.segNr < 2 ^ 32) :
    ∃ y, filterMedia (segmentFilter c rp w stamp dd) (chainFile fs) = .ok y := by
  obtain ⟨y0, hbase⟩ : ∃ y, filterMedia (analyzerFilter dd0) (chainFile fs) = .ok y := by
    unfold readSegment at hread
    cases hf : filterMedia (analyzerFilter dd0) (chainFile fs) with
    | error e => rw [hf] at hread; cases hread
    | ok y => exact ⟨y, rfl⟩
  have hsc : ∃ b, scteOfSegment (segmentFilter c rp w stamp dd) = .ok b := by
    show ∃ b, scteBox (if rp.contentType = "video".toList then c.scte35 else 0) w.segNr c.segDur = .ok b
    by_cases hp : 0 < c.scte35
    · exact scteBox_of (Int.mul_nonneg n0 (by omega)) (hscte hp)
    · refine ⟨[], ?_⟩
      unfold scteBox scteOf
      rw [if_pos (Or.inl (by split <;> omega))]
  obtain ⟨sb, hsc⟩ := hsc
  obtain ⟨lb, hlb⟩ := lastBox_of (segmentFilter c rp w stamp dd) (by
    intro m hm
    have hm : (if w.emsgLast then some stamp else none) = some m := hm
    split at hm
    · rename_i he; cases hm; exact hstamp he
    · cases hm)
  have hforest := chainForest_ok fun f hf => (hok f hf).1
  unfold filterMedia filterFile at hbase
  rw [← chainForest_bytes, filterTop_forest (mediaRules (analyzerFilter dd0)) _ _ _ hforest (by omega)] at hbase
  cases hr : (chainForest fs).rewriteTop (mediaRules (analyzerFilter dd0)).leaf (mediaRules (analyzerFilter dd0)).top
      (analyzerFilter dd0).init with
  | error e => rw [hr] at hbase; cases hbase
  | ok x =>
    obtain ⟨l', u', hu⟩ := chain_transfer (c := analyzerFilter dd0) (c' := segmentFilter c rp w stamp dd) rfl rfl rfl n0 n1 hsc fs
      (analyzerFilter dd0).init x.2 (segmentFilter c rp w stamp dd).init x.1 hok rfl rfl rfl (Or.inl rfl) hr
    unfold filterMedia filterFile
    rw [← chainForest_bytes, filterTop_forest (mediaRules (segmentFilter c rp w stamp dd)) _ _ _ hforest (by omega)]
    have hu : (chainForest fs).rewriteTop (mediaRules (segmentFilter c rp w stamp dd)).leaf
      (mediaRules (segmentFilter c rp w stamp dd)).top (segmentFilter c rp w stamp dd).init = .ok (l', u') := hu
    rw [hu]
    dsimp only
    unfold mediaFinalize insertIndex
    rw [if_neg (by show ¬ c.insertSidx = true; rw [hi]; simp)]
    dsimp only
    unfold insertLast
    unfold lastBox at hlb
    cases hm : (segmentFilter c rp w stamp dd).emsgLast with
    | none => exact ⟨_, rfl⟩
    | some m =>
      rw [hm] at hlb
      dsimp only at hlb ⊢
      rw [hlb]
      exact ⟨_, rfl⟩

end Verif
