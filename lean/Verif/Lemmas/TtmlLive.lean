import Verif.Lemmas.LiveFragment
import Verif.Props.TtmlSegment
/-
Helper lemmas: a subtitle segment goes through the filter as the segment with the new text and its size would.
-/
namespace Verif

/-! ### Two forests of the same shape -/

/-- The same boxes, with payloads related by `L`. -/
inductive Forest.Sim (L : Bytes → Bytes → Bytes → Prop) : Forest → Forest → Prop
  | nil : Forest.Sim L .nil .nil
  | leaf {ty p p' : Bytes} {r r' : Forest} (h : L ty p p') (hr : Forest.Sim L r r') : Forest.Sim L (.leaf ty p r) (.leaf ty p' r')
  | node {ty : Bytes} {k k' r r' : Forest} (hk : Forest.Sim L k k') (hr : Forest.Sim L r r') :
      Forest.Sim L (.node ty k r) (.node ty k' r')

/-- If every box can be rewritten on the one side as on the other, so can the forest. -/
theorem rewrite_sim {σ τ : Type} {f : Bytes → Bytes → σ → Py (Bytes × σ)} {g : Bytes → Bytes → τ → Py (Bytes × τ)}
    {L : Bytes → Bytes → Bytes → Prop} {R : σ → τ → Prop} {O : Bytes → Bytes → Prop} (h0 : O [] [])
    (hadd : ∀ {a b a' b'}, O a a' → O b b' → O (a ++ b) (a' ++ b')) (hlen : ∀ {a a'}, O a a' → a.length = a'.length)
    (hbox : ∀ {ty a a'}, O a a' → O (boxBytes ty a) (boxBytes ty a'))
    (hleaf : ∀ {ty p p' s t o' t'}, L ty p p' → R s t → g ty (boxBytes ty p') t = .ok (o', t') →
      ∃ o s', f ty (boxBytes ty p) s = .ok (o, s') ∧ R s' t' ∧ O o o')
    {F G : Forest} (hs : Forest.Sim L F G) : ∀ {s : σ} {t : τ} {o' : Bytes} {t' : τ}, R s t → G.rewrite g t = .ok (o', t') →
      ∃ o s', F.rewrite f s = .ok (o, s') ∧ R s' t' ∧ O o o' := by
  induction hs with
  | nil =>
    intro s t o' t' hR h
    cases h
    exact ⟨_, _, rfl, hR, h0⟩
  | leaf hL _ ih =>
    intro s t o' t' hR h
    obtain ⟨o1, t1, os, g1, g2, rfl⟩ := rewrite_leaf_cons h
    obtain ⟨o, s1, e1, r1, w1⟩ := hleaf hL hR g1
    obtain ⟨oo, s2, e2, r2, w2⟩ := ih r1 g2
    exact ⟨_, _, rewrite_leaf_of e1 e2, r2, hadd w1 w2⟩
  | node _ _ ih1 ih2 =>
    intro s t o' t' hR h
    obtain ⟨o1, t1, os, g1, g2, g3, rfl⟩ := rewrite_node_cons h
    obtain ⟨o, s1, e1, r1, w1⟩ := ih1 hR g1
    obtain ⟨oo, s2, e2, r2, w2⟩ := ih2 r1 g2
    exact ⟨_, _, rewrite_node_of e1 (by rw [hlen w1]; exact g3) e2, r2, hadd (hbox w1) w2⟩

/-- The same boxes at top level, with payloads related by `T` there and by `L` in the containers. -/
inductive Forest.TopSim (T L : Bytes → Bytes → Bytes → Prop) (top : List Bytes) : Forest → Forest → Prop
  | nil : Forest.TopSim T L top .nil .nil
  | leaf {ty p p' : Bytes} {r r' : Forest} (h : T ty p p') (hr : Forest.TopSim T L top r r') :
      Forest.TopSim T L top (.leaf ty p r) (.leaf ty p' r')
  | node {ty : Bytes} {k k' r r' : Forest} (ht : ty ∈ top) (hk : Forest.Sim L k k') (hr : Forest.TopSim T L top r r') :
      Forest.TopSim T L top (.node ty k r) (.node ty k' r')

theorem rewriteTop_leaf_inv {σ : Type} {f : Bytes → Bytes → σ → Py (Bytes × σ)} {top : List Bytes} {ty p : Bytes}
    {rest : Forest} {s s' : σ} {l : List (Bytes × Bytes)} (h : (Forest.leaf ty p rest).rewriteTop f top s = .ok (l, s')) :
    ∃ o s1 l', (if ty ∈ top then f ty (boxBytes ty p) s else .ok (boxBytes ty p, s)) = .ok (o, s1) ∧
      rest.rewriteTop f top s1 = .ok (l', s') ∧ l = (ty, o) :: l' := by
  rw [Forest.rewriteTop] at h
  have e : ∀ x, (if ty ∈ top then (Forest.leaf ty p .nil).rewrite f s else .ok (boxBytes ty p, s)) = .ok x →
      (if ty ∈ top then f ty (boxBytes ty p) s else .ok (boxBytes ty p, s)) = .ok x := by
    intro x hx
    split at hx
    · rename_i ht
      rw [if_pos ht]
      obtain ⟨o1, s1, o2, g1, g2, g3⟩ := rewrite_leaf_cons (o := x.1) (s' := x.2) hx
      cases g2
      rw [List.append_nil] at g3
      rw [g1, ← g3]
    · rename_i ht
      rw [if_neg ht]
      exact hx
  split at h
  · cases h
  · rename_i o s1 h1
    split at h
    · cases h
    · rename_i l' s2 h2
      cases h
      exact ⟨_, _, _, e _ h1, h2, rfl⟩

theorem rewriteTop_node_cons {σ : Type} {f : Bytes → Bytes → σ → Py (Bytes × σ)} {top : List Bytes} {ty : Bytes} (ht : ty ∈ top)
    {kids rest : Forest} {s s' : σ} {l : List (Bytes × Bytes)} (h : (Forest.node ty kids rest).rewriteTop f top s = .ok (l, s')) :
    ∃ k s1 l', kids.rewrite f s = .ok (k, s1) ∧ 8 + k.length < 2 ^ 32 ∧ rest.rewriteTop f top s1 = .ok (l', s') ∧
      l = (ty, boxBytes ty k) :: l' := by
  rw [Forest.rewriteTop, if_pos ht] at h
  split at h
  · cases h
  · rename_i o s1 h1
    obtain ⟨k, s2, o2, g1, g2, g3, g4⟩ := rewrite_node_cons h1
    cases g2
    rw [List.append_nil] at g4
    split at h
    · cases h
    · rename_i l' s2 h2
      cases h
      exact ⟨_, _, _, g1, g3, h2, by rw [g4]⟩

theorem rewriteTop_node_of {σ : Type} {f : Bytes → Bytes → σ → Py (Bytes × σ)} {top : List Bytes} {ty : Bytes} (ht : ty ∈ top)
    {kids rest : Forest} {s s1 s' : σ} {k : Bytes} {l : List (Bytes × Bytes)} (h1 : kids.rewrite f s = .ok (k, s1))
    (hl : 8 + k.length < 2 ^ 32) (h2 : rest.rewriteTop f top s1 = .ok (l, s')) :
    (Forest.node ty kids rest).rewriteTop f top s = .ok ((ty, boxBytes ty k) :: l, s') := by
  rw [Forest.rewriteTop, if_pos ht, rewrite_node_of h1 hl rfl]
  simp only [h2, List.append_nil]

theorem rewriteTop_sim {σ τ : Type} {f : Bytes → Bytes → σ → Py (Bytes × σ)} {g : Bytes → Bytes → τ → Py (Bytes × τ)}
    {T L : Bytes → Bytes → Bytes → Prop} {R : σ → τ → Prop} {O OT : Bytes → Bytes → Prop} {top : List Bytes} (h0 : O [] [])
    (hadd : ∀ {a b a' b'}, O a a' → O b b' → O (a ++ b) (a' ++ b')) (hlen : ∀ {a a'}, O a a' → a.length = a'.length)
    (hbox : ∀ {ty a a'}, O a a' → O (boxBytes ty a) (boxBytes ty a'))
    (hleaf : ∀ {ty p p' s t o' t'}, L ty p p' → R s t → g ty (boxBytes ty p') t = .ok (o', t') →
      ∃ o s', f ty (boxBytes ty p) s = .ok (o, s') ∧ R s' t' ∧ O o o') (hsub : ∀ {a a'}, O a a' → OT a a')
    (htop : ∀ {ty p p' s t o' t'}, ty ∈ top → T ty p p' → R s t → g ty (boxBytes ty p') t = .ok (o', t') →
      ∃ o s', f ty (boxBytes ty p) s = .ok (o, s') ∧ R s' t' ∧ OT o o')
    (hcopy : ∀ {ty p p'}, T ty p p' → OT (boxBytes ty p) (boxBytes ty p'))
    {F G : Forest} (hs : Forest.TopSim T L top F G) : ∀ {s : σ} {t : τ} {l' : List (Bytes × Bytes)} {t' : τ}, R s t →
      G.rewriteTop g top t = .ok (l', t') →
      ∃ l s', F.rewriteTop f top s = .ok (l, s') ∧ R s' t' ∧ List.Forall₂ (fun a b => a.1 = b.1 ∧ OT a.2 b.2) l l' := by
  induction hs with
  | nil =>
    intro s t l' t' hR h
    cases h
    exact ⟨_, _, rfl, hR, .nil⟩
  | @leaf ty p p' r r' hT _ ih =>
    intro s t l' t' hR h
    obtain ⟨o1, t1, l1, g1, g2, rfl⟩ := rewriteTop_leaf_inv h
    by_cases ht : ty ∈ top
    · rw [if_pos ht] at g1
      obtain ⟨o, s1, e1, r1, w1⟩ := htop ht hT hR g1
      obtain ⟨l, s2, e2, r2, w2⟩ := ih r1 g2
      exact ⟨(ty, o) :: l, s2, rewriteTop_leaf_of (by rw [if_pos ht]; exact e1) e2, r2, .cons ⟨rfl, w1⟩ w2⟩
    · rw [if_neg ht] at g1
      cases g1
      obtain ⟨l, s2, e2, r2, w2⟩ := ih hR g2
      exact ⟨(ty, boxBytes ty p) :: l, s2, rewriteTop_leaf_of (by rw [if_neg ht]) e2, r2, .cons ⟨rfl, hcopy hT⟩ w2⟩
  | node ht hk _ ih =>
    intro s t l' t' hR h
    obtain ⟨k, t1, l1, g1, g2, g3, rfl⟩ := rewriteTop_node_cons ht h
    obtain ⟨o, s1, e1, r1, w1⟩ := rewrite_sim h0 hadd hlen hbox hleaf hk hR g1
    obtain ⟨l, s2, e2, r2, w2⟩ := ih r1 g3
    exact ⟨(_, boxBytes _ o) :: l, s2, rewriteTop_node_of ht e1 (by rw [hlen w1]; exact g2) e2, r2, .cons ⟨rfl, hsub (hbox w1)⟩ w2⟩

theorem Forest.Sim.refl {L : Bytes → Bytes → Bytes → Prop} : ∀ {F : Forest} (h : ∀ ty p, L ty p p), Forest.Sim L F F
  | .nil, _ => .nil
  | .leaf _ _ _, h => .leaf (h _ _) (Forest.Sim.refl h)
  | .node _ _ _, h => .node (Forest.Sim.refl h) (Forest.Sim.refl h)

theorem sim_withLeaves {L : Bytes → Bytes → Bytes → Prop} {l l' : List FragBox}
    (h : List.Forall₂ (fun a b => a.parts.1 = b.parts.1 ∧ L a.parts.1 a.parts.2 b.parts.2) l l') {F G : Forest}
    (hr : Forest.Sim L F G) : Forest.Sim L (.withLeaves l F) (.withLeaves l' G) := by
  induction h with
  | nil => exact hr
  | cons hx _ ih =>
    rw [Forest.withLeaves, Forest.withLeaves, ← hx.1]
    exact .leaf hx.2 ih

theorem sim_withBoxes {T L : Bytes → Bytes → Bytes → Prop} {top : List Bytes} {l l' : List (Bytes × Bytes)}
    (h : List.Forall₂ (fun a b => a.1 = b.1 ∧ T a.1 a.2 b.2) l l') {F G : Forest}
    (hr : Forest.TopSim T L top F G) : Forest.TopSim T L top (.withBoxes l F) (.withBoxes l' G) := by
  induction h with
  | nil => exact hr
  | cons hx _ ih =>
    rw [Forest.withBoxes, Forest.withBoxes, ← hx.1]
    exact .leaf hx.2 ih

/-! ### The boxes that do not care for the text -/

theorem processTrun_size {d o : Bytes} {t t' : MfState} (z : Option Nat) (h : processTrun d t = .ok (o, t')) :
    processTrun d { t with ttmlSize := z } = .ok (o, { t' with ttmlSize := z }) ∧ t'.ttmlSize = t.ttmlSize := by
  unfold processTrun at h ⊢
  dsimp only at h ⊢
  cases h1 : strToUint32 (slice d 8 12) with
  | error e => rw [h1] at h; cases h
  | ok vf =>
    rw [h1] at h
    dsimp only at h ⊢
    cases h2 : strToUint32 (slice d 12 16) with
    | error e => rw [h2] at h; cases h
    | ok count =>
      rw [h2] at h
      dsimp only at h ⊢
      cases h3 : trunDuration d (hasFlag (vf % 2 ^ 24) 8) t.defaultDur (trunRow (vf % 2 ^ 24)) count
          (16 + (if hasFlag (vf % 2 ^ 24) 0 then 4 else 0) + (if hasFlag (vf % 2 ^ 24) 2 then 4 else 0)) with
      | error e => rw [h3] at h; cases h
      | ok total =>
        rw [h3] at h
        dsimp only at h ⊢
        by_cases hc : hasFlag (vf % 2 ^ 24) 0 = true ∧ 0 < t.sizeChange
        · rw [if_pos hc] at h ⊢
          cases h4 : strToSint32 (slice d 16 20) with
          | error e => rw [h4] at h; cases h
          | ok off =>
            rw [h4] at h
            dsimp only at h ⊢
            cases h5 : sint32ToStr (off + t.sizeChange) with
            | error e => rw [h5] at h; cases h
            | ok b =>
              rw [h5] at h
              cases h
              exact ⟨rfl, rfl⟩
        · rw [if_neg hc] at h ⊢
          cases h
          exact ⟨rfl, rfl⟩

theorem processSaio_size {d o : Bytes} {t t' : MfState} (z : Option Nat) (h : processSaio d t = .ok (o, t')) :
    processSaio d { t with ttmlSize := z } = .ok (o, { t' with ttmlSize := z }) ∧ t'.ttmlSize = t.ttmlSize := by
  unfold processSaio at h ⊢
  dsimp only at h ⊢
  cases h1 : strToUint32 (slice d 8 12) with
  | error e => rw [h1] at h; cases h
  | ok vf =>
    rw [h1] at h
    dsimp only at h ⊢
    generalize (if hasFlag (vf % 2 ^ 24) 0 then 20 else 12) = pos at h ⊢
    cases h2 : strToUint32 (slice d pos (pos + 4)) with
    | error e => rw [h2] at h; cases h
    | ok count =>
      rw [h2] at h
      dsimp only at h ⊢
      cases h3 : saioEntries d (if vf / 2 ^ 24 = 0 then 4 else 8) t.sizeChange count (pos + 4) with
      | error e => rw [h3] at h; cases h
      | ok x =>
        rw [h3] at h
        cases h
        exact ⟨rfl, rfl⟩

theorem processTfdt_size (c : MfCfg) {d o : Bytes} {t t' : MfState} (z : Option Nat) (h : processTfdt c d t = .ok (o, t')) :
    processTfdt c d { t with ttmlSize := z } = .ok (o, { t' with ttmlSize := z }) ∧ t'.ttmlSize = t.ttmlSize := by
  unfold processTfdt at h ⊢
  dsimp only at h ⊢
  cases hts : c.timescale <;> simp only [hts] at h ⊢
  all_goals
    repeat' split at h
    all_goals first | cases h | skip
    all_goals simp_all

theorem mediaLeaf_size (c : MfCfg) {ty : Bytes} (hty : ty ≠ tyTfhd) {d o : Bytes} {t t' : MfState} (z : Option Nat)
    (h : mediaLeaf c ty d t = .ok (o, t')) :
    mediaLeaf c ty d { t with ttmlSize := z } = .ok (o, { t' with ttmlSize := z }) ∧ t'.ttmlSize = t.ttmlSize := by
  unfold mediaLeaf at h ⊢
  rw [if_neg (show ¬ ty = [116, 102, 104, 100] from hty)] at h ⊢
  by_cases h1 : ty = [115, 116, 121, 112]
  · rw [if_pos h1] at h ⊢
    split at h
    · cases h
    · cases h; exact ⟨rfl, rfl⟩
  rw [if_neg h1] at h ⊢
  by_cases h2 : ty = [115, 105, 100, 120]
  · rw [if_pos h2] at h ⊢
    cases h; exact ⟨rfl, rfl⟩
  rw [if_neg h2] at h ⊢
  by_cases h3 : ty = [109, 102, 104, 100]
  · rw [if_pos h3] at h ⊢
    split at h
    · cases h
    · cases h; exact ⟨rfl, rfl⟩
  rw [if_neg h3] at h ⊢
  by_cases h4 : ty = [116, 114, 117, 110]
  · rw [if_pos h4] at h ⊢
    exact processTrun_size z h
  rw [if_neg h4] at h ⊢
  by_cases h5 : ty = [115, 97, 105, 111]
  · rw [if_pos h5] at h ⊢
    exact processSaio_size z h
  rw [if_neg h5] at h ⊢
  by_cases h6 : ty = [116, 102, 100, 116]
  · rw [if_pos h6] at h ⊢
    exact processTfdt_size c z h
  rw [if_neg h6] at h ⊢
  by_cases h7 : utf8Valid ty = true
  · rw [if_pos h7] at h ⊢
    cases h; exact ⟨rfl, rfl⟩
  · rw [if_neg h7] at h
    cases h

/-! ### The track header -/

theorem testBit_bitSet (b : UInt8) (k : Nat) : b.toNat.testBit k = bitSet b k := by
  rw [Nat.testBit_eq_decide_div_mod_eq]
  rfl

/-- A header with default duration and default size, no base offset. -/
structure FragHeader.Textual (t : FragHeader) : Prop where
  ok : t.Ok
  base : bitSet t.f0 0 = false
  dur : bitSet t.f0 3 = true
  size : bitSet t.f0 4 = true

theorem FragHeader.Textual.resize {t : FragHeader} (h : t.Textual) {z : Nat} (hz : z < 2 ^ 32) :
    ({ t with size := z } : FragHeader).Textual :=
  ⟨⟨h.ok.track, h.ok.base, h.ok.desc, h.ok.dur, hz, h.ok.flags⟩, h.base, h.dur, h.size⟩

theorem FragHeader.Textual.payload {t : FragHeader} (h : t.Textual) :
    t.payload = [t.v, t.f2, t.f1, t.f0] ++ beBytes 4 t.track ++ field (bitSet t.f0 1) (beBytes 4 t.desc) ++ beBytes 4 t.dur ++
      beBytes 4 t.size ++ (field (bitSet t.f0 5) (beBytes 4 t.flags) ++ t.rest) := by
  unfold FragHeader.payload
  rw [h.base, h.dur, h.size]
  simp [field]

theorem FragHeader.resize_length (t : FragHeader) (z : Nat) : ({ t with size := z } : FragHeader).payload.length = t.payload.length := by
  unfold FragHeader.payload
  simp only [List.length_append]
  cases bitSet t.f0 4 <;> simp [field]

theorem FragHeader.Textual.text {t : FragHeader} (h : t.Textual) {s : MfState} {z : Nat} (hz : s.ttmlSize = some z)
    (h0 : 0 < z) (h1 : z < 2 ^ 32) : processTfhd (boxBytes tyTfhd t.payload) s =
      .ok (boxBytes tyTfhd ({ t with size := z } : FragHeader).payload, { s with defaultDur := some t.dur }) := by
  rw [h.payload, (h.resize h1).payload]
  have := C40_tfhd t.v t.f2 t.f1 t.f0 (beBytes 4 t.track) (field (bitSet t.f0 1) (beBytes 4 t.desc)) (beBytes 4 t.dur)
    (beBytes 4 t.size) (field (bitSet t.f0 5) (beBytes 4 t.flags) ++ t.rest) s z hz h0 h1 (by rw [testBit_bitSet]; exact h.base)
    (by rw [testBit_bitSet]; exact h.dur) (by rw [testBit_bitSet]; exact h.size) (by simp)
    (by unfold field; rw [testBit_bitSet]; split <;> simp) (by simp) (by simp)
  rw [this, beVal_beBytes_of_lt (by have := h.ok.dur; omega)]

theorem FragHeader.Textual.plain {t : FragHeader} (h : t.Textual) {s : MfState} (hz : s.ttmlSize = none) :
    processTfhd (boxBytes tyTfhd t.payload) s = .ok (boxBytes tyTfhd t.payload, { s with defaultDur := some t.dur }) := by
  have e1 : slice (boxBytes tyTfhd t.payload) 8 12 = [t.v, t.f2, t.f1, t.f0] := by
    rw [box_slice rfl _ _ _ (by omega), h.payload]
    rfl
  have e2 : strToUint32 [t.v, t.f2, t.f1, t.f0] = .ok (beVal [t.v, t.f2, t.f1, t.f0]) := by
    unfold strToUint32; rw [if_pos (by rfl)]
  have g0 : hasFlag (beVal [t.v, t.f2, t.f1, t.f0] % 2 ^ 24) 0 = false := by
    rw [hasFlag_low _ _ _ _ _ (by decide), testBit_bitSet]; exact h.base
  have g3 : hasFlag (beVal [t.v, t.f2, t.f1, t.f0] % 2 ^ 24) 3 = true := by
    rw [hasFlag_low _ _ _ _ _ (by decide), testBit_bitSet]; exact h.dur
  have g1 : hasFlag (beVal [t.v, t.f2, t.f1, t.f0] % 2 ^ 24) 1 = bitSet t.f0 1 := by
    rw [hasFlag_low _ _ _ _ _ (by decide), testBit_bitSet]
  have hp : (if bitSet t.f0 1 = true then 20 else 16) = 16 + (field (bitSet t.f0 1) (beBytes 4 t.desc)).length := by
    cases bitSet t.f0 1 <;> simp [field]
  have e3 : slice (boxBytes tyTfhd t.payload) (16 + (field (bitSet t.f0 1) (beBytes 4 t.desc)).length)
      (16 + (field (bitSet t.f0 1) (beBytes 4 t.desc)).length + 4) = beBytes 4 t.dur := by
    rw [box_slice rfl _ _ _ (by omega), h.payload]
    have := slice_eq_of_append ([t.v, t.f2, t.f1, t.f0] ++ beBytes 4 t.track ++ field (bitSet t.f0 1) (beBytes 4 t.desc))
      (beBytes 4 t.dur) (beBytes 4 t.size ++ (field (bitSet t.f0 5) (beBytes 4 t.flags) ++ t.rest))
      (a := 16 + (field (bitSet t.f0 1) (beBytes 4 t.desc)).length - 8)
      (b := 16 + (field (bitSet t.f0 1) (beBytes 4 t.desc)).length + 4 - 8) (by simp; omega) (by simp; omega)
    simpa using this
  have e4 : strToUint32 (beBytes 4 t.dur) = .ok t.dur := by
    unfold strToUint32
    rw [if_pos (by simp), beVal_beBytes_of_lt (by have := h.ok.dur; omega)]
  unfold processTfhd
  rw [e1, e2]
  simp only [MfState.ttmlActive, hz, g0, g3, g1, hp, e3, e4, Bool.false_eq_true, if_false, if_true]

/-! ### The segment -/

/-- The segment with another text (and its size in the track header). -/
def LiveFragment.texted (f : LiveFragment) (text : Bytes) (more : List (Bytes × Bytes)) : LiveFragment :=
  { f with head := { f.head with size := text.length }, back := (tyMdat, text) :: more }

/-- A subtitle segment: the media data is one text, and the track header has a default duration and a default size. -/
structure LiveFragment.Subtitle (f : LiveFragment) (text : Bytes) (more : List (Bytes × Bytes)) : Prop where
  ok : f.Ok
  dur : bitSet f.head.f0 3 = true
  size : bitSet f.head.f0 4 = true
  back : f.back = (tyMdat, text) :: more
  more : ∀ x ∈ more, x.1 ≠ tyMdat

theorem LiveFragment.Subtitle.head {f : LiveFragment} {text : Bytes} {more : List (Bytes × Bytes)} (h : f.Subtitle text more) :
    f.head.Textual := ⟨h.ok.head, h.ok.base, h.dur, h.size⟩

theorem LiveFragment.texted_moof (f : LiveFragment) (new : Bytes) (more : List (Bytes × Bytes)) :
    (f.texted new more).one.moof.length = f.one.moof.length := by
  have e := f.head.resize_length new.length
  simp only [OneFragment.moof, fragment, Forest.bytes, withLeaves_bytes, LiveFragment.one, LiveFragment.texted,
    List.flatMap_append, List.flatMap_cons, List.length_append, boxBytes_length, FragBox.bytes, FragBox.parts, e]
  rfl

theorem LiveFragment.Subtitle.texted {f : LiveFragment} {text : Bytes} {more : List (Bytes × Bytes)} (h : f.Subtitle text more)
    {new : Bytes} (hn : 8 + new.length < 2 ^ 32) : (f.texted new more).Subtitle new more := by
  have hh := h.head.resize (z := new.length) (by omega)
  refine ⟨⟨h.ok.vf, h.ok.seq, hh.ok, hh.base, h.ok.run, h.ok.offset, ?_, h.ok.room, h.ok.time, h.ok.front, h.ok.others, ?_⟩,
    hh.dur, hh.size, rfl, h.more⟩
  · rw [f.texted_moof]
    exact h.ok.data
  · intro x hx
    have hx : x ∈ (tyMdat, new) :: more := hx
    rcases List.mem_cons.mp hx with rfl | hx
    · have := (h.ok.back (tyMdat, text) (by rw [h.back]; simp)).1
      exact ⟨this, by show tyMdat ∉ [tyStyp, tySidx]; decide, hn⟩
    · exact h.ok.back x (by rw [h.back]; simp [hx])

/-- The boxes of a segment. -/
theorem LiveFragment.boxes (f : LiveFragment) (h : bitSet f.run.f0 0 = true) :
    f.seg.bytes = (f.front ++ (tyMoof, f.seg.moof.bytes) :: f.back).flatMap fun b => boxBytes b.1 b.2 := by
  rw [f.bytes_eq h, OneFragment.bytes, f.moof_bytes h]
  simp [boxesBytes, LiveFragment.one]

theorem LiveFragment.Subtitle.processed {f : LiveFragment} {text : Bytes} {more : List (Bytes × Bytes)} (h : f.Subtitle text more)
    (u : Bytes → Bytes) (hn : 8 + (u text).length < 2 ^ 32) :
    processTtml (fun x => .ok (u x)) (2 * f.seg.bytes.length + 1) f.seg.bytes none =
      .ok (({ f with back := (tyMdat, u text) :: more } : LiveFragment).seg.bytes, some (u text).length) := by
  have hm := h.ok.moof_lt
  rw [f.moof_length h.ok.offset] at hm
  have hfr : ∀ x ∈ f.front, x.1 ≠ tyMdat := fun x hx => (h.ok.front x hx).2.1
  have hbx : ∀ x ∈ f.front ++ (tyMoof, f.seg.moof.bytes) :: f.back, x.1.length = 4 ∧ 8 + x.2.length < 2 ^ 32 ∧
      (x.1 = tyMdat → x.2 = text) := by
    intro x hx
    rcases List.mem_append.mp hx with hx | hx
    · have := h.ok.front x hx
      exact ⟨this.1.1, by omega, fun e => absurd e this.2.1⟩
    · rcases List.mem_cons.mp hx with rfl | hx
      · exact ⟨rfl, by show 8 + f.seg.moof.bytes.length < _; omega, fun e => absurd e (by show ¬ tyMoof = tyMdat; decide)⟩
      · have := h.ok.back x hx
        refine ⟨this.1.1, this.2.2, fun e => ?_⟩
        rw [h.back] at hx
        rcases List.mem_cons.mp hx with rfl | hx
        · rfl
        · exact absurd e (h.more x hx)
  have hlen : ∀ l : List (Bytes × Bytes), l.length ≤ (l.flatMap fun b => boxBytes b.1 b.2).length := by
    intro l
    induction l with
    | nil => simp
    | cons x l ih => simp only [List.flatMap_cons, List.length_append, List.length_cons, boxBytes_length]; omega
  have key := processTtml_boxes u (f.front ++ (tyMoof, f.seg.moof.bytes) :: f.back) (fun b hb => (hbx b hb).1)
    (fun b hb => (hbx b hb).2.1) (fun b hb e => by rw [(hbx b hb).2.2 e]; exact hn)
    (2 * f.seg.bytes.length + 1) (by rw [f.boxes h.ok.offset]; have := hlen (f.front ++ (tyMoof, f.seg.moof.bytes) :: f.back); omega) none
  rw [← f.boxes h.ok.offset] at key
  have id1 : ∀ l : List (Bytes × Bytes), (∀ x ∈ l, x.1 ≠ tyMdat) → withText u l = l := by
    intro l hl
    unfold withText
    conv => rhs; rw [← List.map_id l]
    refine List.map_congr_left fun x hx => ?_
    rw [if_neg (hl x hx)]
    rfl
  have id2 : ∀ l : List (Bytes × Bytes), (∀ x ∈ l, x.1 ≠ tyMdat) → l.filter (fun b => decide (b.1 = tyMdat)) = [] := by
    intro l hl
    rw [List.filter_eq_nil_iff]
    intro x hx
    simpa using hl x hx
  have e1 : withText u (f.front ++ (tyMoof, f.seg.moof.bytes) :: f.back) =
      f.front ++ (tyMoof, f.seg.moof.bytes) :: (tyMdat, u text) :: more := by
    rw [h.back]
    have a1 := id1 f.front hfr
    have a2 := id1 more h.more
    unfold withText at a1 a2 ⊢
    rw [List.map_append, List.map_cons, List.map_cons, a1, a2, if_neg (by show ¬ tyMoof = tyMdat; decide), if_pos rfl]
  have e2 : textSize u (f.front ++ (tyMoof, f.seg.moof.bytes) :: f.back) = some (u text).length := by
    unfold textSize
    rw [h.back, List.filter_append, id2 _ hfr, List.filter_cons_of_neg (by simp), List.filter_cons_of_pos (by simp),
      id2 _ h.more]
    rfl
  rw [key, e1, e2]
  have := ({ f with back := (tyMdat, u text) :: more } : LiveFragment).boxes h.ok.offset
  rw [this]
  rfl

/-! ### The filter on the text -/

/-- What may differ inside the fragment: the size in the track header. -/
def SizedLeaf (t : FragHeader) (z : Nat) (ty p p' : Bytes) : Prop :=
  (ty ≠ tyTfhd ∧ p = p') ∨ (ty = tyTfhd ∧ p = t.payload ∧ p' = ({ t with size := z } : FragHeader).payload)

theorem LiveFragment.Ok.sim {f : LiveFragment} (h : f.Ok) {T : Bytes → Bytes → Bytes → Prop} (hT : ∀ ty p, T ty p p) (z : Nat)
    {b1 b2 : List (Bytes × Bytes)} (hb : List.Forall₂ (fun a b => a.1 = b.1 ∧ T a.1 a.2 b.2) b1 b2) :
    Forest.TopSim T (SizedLeaf f.head z) [tyStyp, tySidx, tyMoof, tyMdat] ({ f with back := b1 } : LiveFragment).one.forest
      ({ f with head := { f.head with size := z }, back := b2 } : LiveFragment).one.forest := by
  have same : ∀ l : List FragBox, (∀ x ∈ l, x.parts.1 ≠ tyTfhd) →
      List.Forall₂ (fun a b : FragBox => a.parts.1 = b.parts.1 ∧ SizedLeaf f.head z a.parts.1 a.parts.2 b.parts.2) l l := by
    intro l hl
    rw [List.forall₂_same]
    intro x hx
    exact ⟨rfl, Or.inl ⟨hl x hx, rfl⟩⟩
  have ho : ∀ l : List FragBox, (∀ x ∈ l, x ∈ f.others) → ∀ x ∈ l, x.parts.1 ≠ tyTfhd := by
    intro l hl x hx e
    exact (h.others x (hl x hx)).2.2.2.2 (by rw [e]; simp)
  refine sim_withBoxes (List.forall₂_same.mpr fun x _ => ⟨rfl, hT _ _⟩) (.node (by decide) (.leaf (Or.inl ⟨by decide, rfl⟩)
    (sim_withLeaves (same f.a (ho _ fun x hx => by simp [LiveFragment.others, hx])) (.node (sim_withLeaves
      ?_ (.leaf (Or.inl ⟨by decide, rfl⟩) (sim_withLeaves ?_ .nil))) (sim_withLeaves (same f.b (ho _ fun x hx => by
        simp [LiveFragment.others, hx])) .nil)))) (sim_withBoxes hb .nil))
  · refine List.rel_append (same f.p1 (ho _ fun x hx => by simp [LiveFragment.others, hx])) (.cons ⟨rfl, Or.inr ⟨rfl, rfl, rfl⟩⟩
      (same f.p2 (ho _ fun x hx => by simp [LiveFragment.others, hx])))
  · refine same _ ?_
    intro x hx
    rcases List.mem_append.mp hx with hx | hx
    · exact ho f.q1 (fun x hx => by simp [LiveFragment.others, hx]) x hx
    · rcases List.mem_cons.mp hx with rfl | hx
      · show tyTrun ≠ tyTfhd
        decide
      · exact ho f.q2 (fun x hx => by simp [LiveFragment.others, hx]) x hx

theorem forall₂_eq_snd {l l' : List (Bytes × Bytes)} (h : List.Forall₂ (fun a b : Bytes × Bytes => a.1 = b.1 ∧ a.2 = b.2) l l') :
    l = l' := by
  induction h with
  | nil => rfl
  | cons hx _ ih => rw [ih, Prod.ext hx.1 hx.2]

/-- **The text goes through the filter.** Subtitles are filtered as the segment with the new text and its size is. -/
theorem LiveFragment.Subtitle.filterTtml {f : LiveFragment} {text : Bytes} {more : List (Bytes × Bytes)}
    (h : f.Subtitle text more) (u : Bytes → Bytes) (h0 : 0 < (u text).length) (hn : 8 + (u text).length < 2 ^ 32) {c : MfCfg}
    {y : Bytes × MfState} (hy : filterMedia c (f.texted (u text) more).seg.bytes = .ok y) :
    ∃ s, Verif.filterTtml (fun x => .ok (u x)) c f.seg.bytes = .ok (y.1, s) := by
  have h2 := h.texted hn
  have h1 : ({ f with back := (tyMdat, u text) :: more } : LiveFragment).Ok :=
    ⟨h.ok.vf, h.ok.seq, h.ok.head, h.ok.base, h.ok.run, h.ok.offset, h.ok.data, h.ok.room, h.ok.time, h.ok.front, h.ok.others,
      h2.ok.back⟩
  unfold Verif.filterTtml
  rw [h.processed u hn]
  dsimp only
  unfold filterMedia at hy
  rw [LiveFragment.bytes_eq _ h2.ok.offset, ← OneFragment.forest_bytes, C08_refines _ _ _ h2.ok.one.sizes] at hy
  rw [LiveFragment.bytes_eq _ h1.offset, ← OneFragment.forest_bytes, C08_refines _ _ _ h1.one.sizes]
  cases hr : (f.texted (u text) more).one.forest.rewriteTop (mediaRules c).leaf (mediaRules c).top c.init with
  | error e => rw [hr] at hy; cases hy
  | ok x =>
    obtain ⟨l', t'⟩ := x
    have hsim := h.ok.sim (T := fun _ p p' => p = p') (fun _ _ => rfl) (u text).length
      (List.forall₂_same.mpr fun (x : Bytes × Bytes) (_ : x ∈ (tyMdat, u text) :: more) => ⟨rfl, rfl⟩)
    obtain ⟨l, s', hl, hR, hO⟩ := rewriteTop_sim (f := mediaLeaf c) (g := mediaLeaf c) (O := Eq) (OT := Eq)
      (R := fun s t : MfState => s = { t with ttmlSize := some (u text).length } ∧ t.ttmlSize = none)
      rfl (fun h1 h2 => by rw [h1, h2]) (fun h1 => by rw [h1]) (fun h1 => by rw [h1])
      (by
        intro ty p p' s t o' t' hL hR hg
        rcases hL with ⟨g1, rfl⟩ | ⟨rfl, rfl, rfl⟩
        · obtain ⟨k1, k2⟩ := mediaLeaf_size c g1 (some (u text).length) hg
          rw [hR.1]
          exact ⟨_, _, k1, ⟨rfl, k2.trans hR.2⟩, rfl⟩
        · have k1 := (h.head.resize (z := (u text).length) (by omega)).plain hR.2
          have k2 := h.head.text (s := s) (by rw [hR.1]) h0 (by omega)
          rw [mediaLeaf_tfhd] at hg ⊢
          rw [k1] at hg
          cases hg
          rw [k2, hR.1]
          exact ⟨_, _, rfl, ⟨rfl, hR.2⟩, rfl⟩)
      (fun h1 => h1)
      (by
        intro ty p p' s t o' t' hty hp hR hg
        subst hp
        obtain ⟨k1, k2⟩ := mediaLeaf_size c (fun e => by rw [e] at hty; revert hty; decide) (some (u text).length) hg
        rw [hR.1]
        exact ⟨_, _, k1, ⟨rfl, k2.trans hR.2⟩, rfl⟩)
      (fun h1 => by rw [h1]) hsim (s := { c.init with ttmlSize := some (u text).length }) ⟨rfl, rfl⟩ hr
    have hl' : ({ f with back := (tyMdat, u text) :: more } : LiveFragment).one.forest.rewriteTop (mediaRules c).leaf
        (mediaRules c).top { c.init with ttmlSize := some (u text).length } = .ok (l, s') := hl
    rw [hr] at hy
    rw [hl', forall₂_eq_snd hO, hR.1]
    simp only [Except.map] at hy ⊢
    have e : ∀ out boxes, mediaFinalize c out boxes { t' with ttmlSize := some (u text).length } = mediaFinalize c out boxes t' :=
      fun _ _ => rfl
    rw [e]
    cases hm : mediaFinalize c (l'.map Prod.snd).flatten
        ((l'.filter fun b => decide (0 < b.2.length)).map fun b => (b.2.length, b.1)) t' with
    | error e => rw [hm] at hy; cases hy
    | ok final =>
      rw [hm] at hy
      cases hy
      exact ⟨_, rfl⟩

/-- The segment with another text can be read as the stored one can. -/
theorem LiveFragment.Subtitle.readable {f : LiveFragment} {text : Bytes} {more : List (Bytes × Bytes)} (h : f.Subtitle text more)
    {new : Bytes} (hn : 8 + new.length < 2 ^ 32) {dd : Option Nat} {z : AnaSeg} (hr : readSegment dd f.seg.bytes = .ok z) :
    readSegment dd (f.texted new more).seg.bytes = .ok z := by
  have h2 := h.texted hn
  unfold readSegment at hr ⊢
  unfold filterMedia at hr ⊢
  rw [LiveFragment.bytes_eq _ h.ok.offset, ← OneFragment.forest_bytes, C08_refines _ _ _ h.ok.one.sizes] at hr
  rw [LiveFragment.bytes_eq _ h2.ok.offset, ← OneFragment.forest_bytes, C08_refines _ _ _ h2.ok.one.sizes]
  cases hq : f.one.forest.rewriteTop (mediaRules (analyzerFilter dd)).leaf (mediaRules (analyzerFilter dd)).top
      (analyzerFilter dd).init with
  | error e => rw [hq] at hr; cases hr
  | ok x =>
    obtain ⟨l', t'⟩ := x
    have hsim := h2.ok.sim (T := fun ty p p' => p = p' ∨ ty = tyMdat) (fun _ _ => Or.inl rfl) f.head.size
      (b1 := (tyMdat, new) :: more) (b2 := (tyMdat, text) :: more)
      (.cons ⟨rfl, Or.inr rfl⟩ (List.forall₂_same.mpr fun x _ => ⟨rfl, Or.inl rfl⟩))
    have ef : ({ f.texted new more with head := { (f.texted new more).head with size := f.head.size }, back := (tyMdat, text) :: more } :
        LiveFragment) = f := by
      have := h.back
      cases f
      simp only at this
      rw [this]
      rfl
    rw [ef] at hsim
    obtain ⟨l, s', hl, hR, hO⟩ := rewriteTop_sim (f := mediaLeaf (analyzerFilter dd)) (g := mediaLeaf (analyzerFilter dd))
      (O := fun a b => a.length = b.length) (OT := fun _ _ => True) (R := fun s t : MfState => s = t ∧ t.ttmlSize = none)
      rfl (fun h1 h2 => by rw [List.length_append, List.length_append, h1, h2]) (fun h1 => h1)
      (fun h1 => by rw [boxBytes_length, boxBytes_length, h1])
      (by
        intro ty p p' s t o' t' hL hR hg
        obtain ⟨rfl, hz⟩ := hR
        rcases hL with ⟨g1, rfl⟩ | ⟨rfl, rfl, rfl⟩
        · exact ⟨_, _, hg, ⟨rfl, (mediaLeaf_size _ g1 none hg).2.trans hz⟩, rfl⟩
        · have k1 := h2.head.plain hz
          have k2 := (h2.head.resize (z := f.head.size) h.head.ok.size).plain hz
          rw [mediaLeaf_tfhd] at hg ⊢
          rw [k2] at hg
          cases hg
          rw [k1]
          refine ⟨_, _, rfl, ⟨rfl, hz⟩, ?_⟩
          have := FragHeader.resize_length (f.texted new more).head f.head.size
          rw [boxBytes_length, boxBytes_length]
          omega)
      (fun _ => trivial)
      (by
        intro ty p p' s t o' t' hty hp hR hg
        obtain ⟨rfl, hz⟩ := hR
        have ht : ty ≠ tyTfhd := fun e => by rw [e] at hty; revert hty; decide
        rcases hp with rfl | rfl
        · exact ⟨_, _, hg, ⟨rfl, (mediaLeaf_size _ ht none hg).2.trans hz⟩, trivial⟩
        · have e : ∀ d, mediaLeaf (analyzerFilter dd) tyMdat d s = .ok (d, s) := fun d => rfl
          rw [e] at hg
          cases hg
          exact ⟨_, _, e _, ⟨rfl, hz⟩, trivial⟩)
      (fun _ => trivial) hsim (s := (analyzerFilter dd).init) ⟨rfl, rfl⟩ hq
    have hl' : (f.texted new more).one.forest.rewriteTop (mediaRules (analyzerFilter dd)).leaf
        (mediaRules (analyzerFilter dd)).top (analyzerFilter dd).init = .ok (l, s') := hl
    rw [hq] at hr
    rw [hl', hR.1]
    have e : ∀ out boxes s, mediaFinalize (analyzerFilter dd) out boxes s = .ok out := fun _ _ _ => rfl
    simp only [Except.map, e] at hr ⊢
    exact hr

end Verif
