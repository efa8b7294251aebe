import Verif.Props.BoxFilter
import Verif.InitFilter
import Verif.Spec.Init
import Verif.Lemmas.Parser
/-
C13: the live init segment.
-/
namespace Verif

theorem withoutDuration_length (ty p : Bytes) (h : HeaderComplete ty p) :
    (withoutDuration ty p).length = p.length := by
  unfold withoutDuration
  cases hw : headerWords ty with
  | none => rfl
  | some w =>
    have := h w hw
    simp only [List.length_append, List.length_take, beBytes_length, List.length_drop]
    omega

theorem beBytes_zero (k : Nat) : beBytes k 0 = List.replicate k 0 := by
  induction k with
  | zero => rfl
  | succ k ih => rw [beBytes, ih, List.replicate_succ]; simp

theorem boxBytes_header {ty : Bytes} (ht : ty.length = 4) (p : Bytes) :
    ∃ h, h.length = 8 ∧ boxBytes ty p = h ++ p :=
  ⟨beBytes 4 (8 + p.length) ++ ty, by simp [ht], rfl⟩

theorem zeroSlice_box {ty : Bytes} (ht : ty.length = 4) (p : Bytes) (a n : Nat) (h : a + n ≤ p.length) :
    zeroSlice (boxBytes ty p) (8 + a) (8 + a + n)
      = boxBytes ty (p.take a ++ beBytes n 0 ++ p.drop (a + n)) := by
  have hl : (p.take a ++ beBytes n 0 ++ p.drop (a + n)).length = p.length := by
    simp only [List.length_append, List.length_take, beBytes_length, List.length_drop]; omega
  unfold boxBytes
  rw [hl]
  generalize hh : beBytes 4 (8 + p.length) ++ ty = hd
  have h8 : hd.length = 8 := by rw [← hh]; simp [ht]
  unfold zeroSlice
  rw [beBytes_zero]
  have e1 : (hd ++ p).take (8 + a) = hd ++ p.take a := by
    rw [← h8, List.take_length_add_append]
  have e2 : (hd ++ p).drop (8 + a + n) = p.drop (a + n) := by
    rw [Nat.add_assoc, ← h8, List.drop_length_add_append]
  rw [e1, e2]
  have e3 : 8 + a + n - (8 + a) = n := by omega
  rw [e3]
  simp

theorem byteAt_box {ty : Bytes} (ht : ty.length = 4) (p : Bytes) (v : UInt8) (h : p.head? = some v) :
    byteAt (boxBytes ty p) 8 = .ok v := by
  obtain ⟨hd, h8, e⟩ := boxBytes_header ht p
  cases p with
  | nil => cases h
  | cons x p =>
    have hx : x = v := by simpa using h
    subst hx
    rw [byteAt, e, List.getElem?_append_right (by omega), h8]
    rfl

theorem strToUint32_four {b : Bytes} (h : b.length = 4) : strToUint32 b = .ok (beVal b) := by
  rw [strToUint32, if_pos h]

/-- One header box. -/
theorem initLiveLeaf_box {ty : Bytes} (ht : ty.length = 4) (p : Bytes) (s : Int)
    (hc : HeaderComplete ty p) (hu : utf8Valid ty = true) :
    ∃ s', initLiveLeaf ty (boxBytes ty p) s = .ok (boxBytes ty (withoutDuration ty p), s') := by
  have hlen : (boxBytes ty p).length = 8 + p.length := boxBytes_len ht p
  unfold initLiveLeaf
  split
  · rename_i e
    have hw : headerWords ty = some 1 := by rw [e]; rfl
    have h1 := hc 1 hw
    unfold durationPos at h1
    obtain ⟨v, hv⟩ : ∃ v, p.head? = some v := by
      cases p with
      | nil => simp at h1
      | cons x p => exact ⟨x, rfl⟩
    unfold processMvhd
    rw [byteAt_box ht p v hv]
    simp only
    unfold withoutDuration
    rw [hw]
    simp only
    have hz := zeroSlice_box ht p (durationPos 1 p) (timeWidth p) (hc 1 hw)
    by_cases h : v = 1
    · have tw : timeWidth p = 8 := by rw [timeWidth, hv, h]; rfl
      rw [tw] at h1
      rw [if_pos h, strToUint32_four (by simp only [slice, List.length_take, List.length_drop, hlen]; omega)]
      rw [durationPos, tw] at hz ⊢
      exact ⟨_, congrArg (fun x => Except.ok (x, _)) hz⟩
    · have tw : timeWidth p = 4 := by rw [timeWidth, hv, if_neg (by simpa using h)]
      rw [tw] at h1
      rw [if_neg h, strToUint32_four (by simp only [slice, List.length_take, List.length_drop, hlen]; omega)]
      rw [durationPos, tw] at hz ⊢
      exact ⟨_, congrArg (fun x => Except.ok (x, _)) hz⟩
  · split
    · rename_i e
      have hw : headerWords ty = some 2 := by rw [e]; rfl
      have h1 := hc 2 hw
      unfold durationPos at h1
      obtain ⟨v, hv⟩ : ∃ v, p.head? = some v := by
        cases p with
        | nil => simp at h1
        | cons x p => exact ⟨x, rfl⟩
      unfold processTkhdLive
      rw [byteAt_box ht p v hv]
      simp only
      unfold withoutDuration
      rw [hw]
      simp only
      have hz := zeroSlice_box ht p (durationPos 2 p) (timeWidth p) (hc 2 hw)
      by_cases h : v = 1
      · have tw : timeWidth p = 8 := by rw [timeWidth, hv, h]; rfl
        rw [if_pos h]
        rw [durationPos, tw] at hz ⊢
        exact ⟨_, congrArg (fun x => Except.ok (x, _)) hz⟩
      · have tw : timeWidth p = 4 := by rw [timeWidth, hv, if_neg (by simpa using h)]
        rw [if_neg h]
        rw [durationPos, tw] at hz ⊢
        exact ⟨_, congrArg (fun x => Except.ok (x, _)) hz⟩
    · split
      · rename_i e
        have hw : headerWords ty = some 1 := by rw [e]; rfl
        have h1 := hc 1 hw
        unfold durationPos at h1
        obtain ⟨v, hv⟩ : ∃ v, p.head? = some v := by
          cases p with
          | nil => simp at h1
          | cons x p => exact ⟨x, rfl⟩
        unfold processMdhdLive
        rw [byteAt_box ht p v hv]
        simp only
        unfold withoutDuration
        rw [hw]
        simp only
        have hz := zeroSlice_box ht p (durationPos 1 p) (timeWidth p) (hc 1 hw)
        by_cases h : v = 1
        · have tw : timeWidth p = 8 := by rw [timeWidth, hv, h]; rfl
          rw [if_pos h]
          rw [durationPos, tw] at hz ⊢
          exact ⟨_, congrArg (fun x => Except.ok (x, _)) hz⟩
        · have tw : timeWidth p = 4 := by rw [timeWidth, hv, if_neg (by simpa using h)]
          rw [if_neg h]
          rw [durationPos, tw] at hz ⊢
          exact ⟨_, congrArg (fun x => Except.ok (x, _)) hz⟩
      · rename_i e1 e2 e3
        rw [withoutDuration]
        have hw : headerWords ty = none := by
          unfold headerWords
          rw [if_neg (by simp [e1, e3]), if_neg e2]
        rw [hw]
        exact ⟨s, rfl⟩

/-! ### Rewriting every plain box in place -/

section
variable {σ : Type} {leaf : Bytes → Bytes → σ → Py (Bytes × σ)} {g : Bytes → Bytes → Bytes}
  {P : Bytes → Bytes → Prop}

theorem mapLeaves_length (hlen : ∀ ty p, P ty p → (g ty p).length = p.length) (f : Forest)
    (hp : f.AllLeaves P) : (f.mapLeaves g).bytes.length = f.bytes.length := by
  induction f with
  | nil => rfl
  | leaf ty p rest ih =>
    simp only [Forest.mapLeaves, Forest.bytes, List.length_append, boxBytes, beBytes_length, ih hp.2,
      hlen ty p hp.1]
  | node ty kids rest ih1 ih2 =>
    simp only [Forest.mapLeaves, Forest.bytes, List.length_append, boxBytes, beBytes_length, ih1 hp.1,
      ih2 hp.2]

theorem rewrite_mapLeaves {comp : List Bytes}
    (hleaf : ∀ ty p s, ty.length = 4 → P ty p →
      ∃ s', leaf ty (boxBytes ty p) s = .ok (boxBytes ty (g ty p), s'))
    (hlen : ∀ ty p, P ty p → (g ty p).length = p.length) (f : Forest) :
    ∀ s, f.Ok comp → f.AllLeaves P → ∃ s', f.rewrite leaf s = .ok ((f.mapLeaves g).bytes, s') := by
  induction f with
  | nil => intro s _ _; exact ⟨s, rfl⟩
  | leaf ty p rest ih =>
    intro s ok hp
    obtain ⟨s1, h1⟩ := hleaf ty p s ok.1 hp.1
    obtain ⟨s2, h2⟩ := ih s1 ok.2.2.2 hp.2
    exact ⟨s2, by rw [Forest.rewrite, h1]; simp only [h2]; rfl⟩
  | node ty kids rest ih1 ih2 =>
    intro s ok hp
    obtain ⟨s1, h1⟩ := ih1 s ok.2.2.2.1 hp.1
    obtain ⟨s2, h2⟩ := ih2 s1 ok.2.2.2.2 hp.2
    have hl := mapLeaves_length hlen kids hp.1
    refine ⟨s2, ?_⟩
    rw [Forest.rewrite, h1]
    simp only
    rw [if_pos (by rw [hl]; exact ok.2.2.1), h2]
    rfl

theorem rewriteTop_mapInside {comp : List Bytes} {top : Bytes}
    (hleaf : ∀ ty p s, ty.length = 4 → P ty p →
      ∃ s', leaf ty (boxBytes ty p) s = .ok (boxBytes ty (g ty p), s'))
    (hlen : ∀ ty p, P ty p → (g ty p).length = p.length) (f : Forest) :
    ∀ s, f.Ok comp → f.AllInside P top → ∃ l s', f.rewriteTop leaf [top] s = .ok (l, s') ∧
      (l.map Prod.snd).flatten = (f.mapInside g top).bytes := by
  induction f with
  | nil => intro s _ _; exact ⟨[], s, rfl, rfl⟩
  | leaf ty p rest ih =>
    intro s ok hp
    have h1 : ∃ s1, (if ty ∈ [top] then (Forest.leaf ty p .nil).rewrite leaf s
        else .ok (boxBytes ty p, s)) = .ok (boxBytes ty (if ty = top then g ty p else p), s1) := by
      by_cases h : ty = top
      · obtain ⟨s1, e⟩ := hleaf ty p s ok.1 (hp.1 h)
        rw [if_pos (by simp [h]), if_pos h]
        exact ⟨s1, by rw [Forest.rewrite, e]; simp [Forest.rewrite]⟩
      · rw [if_neg (by simp [h]), if_neg h]
        exact ⟨s, rfl⟩
    obtain ⟨s1, h1⟩ := h1
    obtain ⟨l, s2, h2, h3⟩ := ih s1 ok.2.2.2 hp.2
    exact ⟨(ty, boxBytes ty (if ty = top then g ty p else p)) :: l, s2,
      by rw [Forest.rewriteTop, h1]; simp only [h2], by simp [Forest.mapInside, Forest.bytes, h3]⟩
  | node ty kids rest _ ih =>
    intro s ok hp
    have h1 : ∃ s1, (if ty ∈ [top] then (Forest.node ty kids .nil).rewrite leaf s
        else .ok (boxBytes ty kids.bytes, s)) =
          .ok (boxBytes ty (if ty = top then kids.mapLeaves g else kids).bytes, s1) := by
      by_cases h : ty = top
      · obtain ⟨s1, e⟩ := rewrite_mapLeaves hleaf hlen kids s ok.2.2.2.1 (hp.1 h)
        have hl := mapLeaves_length hlen kids (hp.1 h)
        rw [if_pos (by simp [h]), if_pos h]
        refine ⟨s1, ?_⟩
        rw [Forest.rewrite, e]
        simp only
        rw [if_pos (by rw [hl]; exact ok.2.2.1)]
        simp [Forest.rewrite]
      · rw [if_neg (by simp [h]), if_neg h]
        exact ⟨s, rfl⟩
    obtain ⟨s1, h1⟩ := h1
    obtain ⟨l, s2, h2, h3⟩ := ih s1 ok.2.2.2.2 hp.2
    exact ⟨(ty, boxBytes ty (if ty = top then kids.mapLeaves g else kids).bytes) :: l, s2,
      by rw [Forest.rewriteTop, h1]; simp only [h2], by simp [Forest.mapInside, Forest.bytes, h3]⟩

theorem mapLeaves_allLeaves {Q : Bytes → Bytes → Prop} (h : ∀ ty p, P ty p → Q ty (g ty p))
    (f : Forest) (hp : f.AllLeaves P) : (f.mapLeaves g).AllLeaves Q := by
  induction f with
  | nil => trivial
  | leaf ty p rest ih => exact ⟨h ty p hp.1, ih hp.2⟩
  | node ty kids rest ih1 ih2 => exact ⟨ih1 hp.1, ih2 hp.2⟩

theorem mapInside_allInside {Q : Bytes → Bytes → Prop} {top : Bytes}
    (h : ∀ ty p, P ty p → Q ty (g ty p)) (f : Forest) (hp : f.AllInside P top) :
    (f.mapInside g top).AllInside Q top := by
  induction f with
  | nil => trivial
  | leaf ty p rest ih =>
    refine ⟨fun e => ?_, ih hp.2⟩
    rw [if_pos e]
    exact h ty p (hp.1 e)
  | node ty kids rest ih1 ih2 =>
    refine ⟨fun e => ?_, ih2 hp.2⟩
    rw [if_pos e]
    exact mapLeaves_allLeaves h kids (hp.1 e)

theorem mapLeaves_ok {comp : List Bytes} (hlen : ∀ ty p, P ty p → (g ty p).length = p.length)
    (f : Forest) (hf : f.Ok comp) (hp : f.AllLeaves P) : (f.mapLeaves g).Ok comp := by
  induction f with
  | nil => trivial
  | leaf ty p rest ih =>
    exact ⟨hf.1, hf.2.1, by rw [hlen ty p hp.1]; exact hf.2.2.1, ih hf.2.2.2 hp.2⟩
  | node ty kids rest ih1 ih2 =>
    exact ⟨hf.1, hf.2.1, by rw [mapLeaves_length hlen kids hp.1]; exact hf.2.2.1,
      ih1 hf.2.2.2.1 hp.1, ih2 hf.2.2.2.2 hp.2⟩

theorem mapInside_length {top : Bytes} (hlen : ∀ ty p, P ty p → (g ty p).length = p.length)
    (f : Forest) (hp : f.AllInside P top) : (f.mapInside g top).bytes.length = f.bytes.length := by
  induction f with
  | nil => rfl
  | leaf ty p rest ih =>
    by_cases h : ty = top
    · simp only [Forest.mapInside, Forest.bytes, List.length_append, boxBytes, beBytes_length,
        ih hp.2, if_pos h, hlen ty p (hp.1 h)]
    · simp only [Forest.mapInside, Forest.bytes, List.length_append, boxBytes, beBytes_length,
        ih hp.2, if_neg h]
  | node ty kids rest ih1 ih2 =>
    by_cases h : ty = top
    · simp only [Forest.mapInside, Forest.bytes, List.length_append, boxBytes, beBytes_length,
        ih2 hp.2, if_pos h, mapLeaves_length hlen kids (hp.1 h)]
    · simp only [Forest.mapInside, Forest.bytes, List.length_append, boxBytes, beBytes_length,
        ih2 hp.2, if_neg h]

theorem mapInside_ok {comp : List Bytes} {top : Bytes}
    (hlen : ∀ ty p, P ty p → (g ty p).length = p.length)
    (f : Forest) (hf : f.Ok comp) (hp : f.AllInside P top) : (f.mapInside g top).Ok comp := by
  induction f with
  | nil => trivial
  | leaf ty p rest ih =>
    refine ⟨hf.1, hf.2.1, ?_, ih hf.2.2.2 hp.2⟩
    split
    · rename_i h; rw [hlen ty p (hp.1 h)]; exact hf.2.2.1
    · exact hf.2.2.1
  | node ty kids rest ih1 ih2 =>
    refine ⟨hf.1, hf.2.1, ?_, ?_, ih2 hf.2.2.2.2 hp.2⟩
    · split
      · rename_i h; rw [mapLeaves_length hlen kids (hp.1 h)]; exact hf.2.2.1
      · exact hf.2.2.1
    · split
      · rename_i h; exact mapLeaves_ok hlen kids hf.2.2.2.1 (hp.1 h)
      · exact hf.2.2.2.1

theorem mapLeaves_idem (h : ∀ ty p, P ty p → g ty (g ty p) = g ty p) (f : Forest)
    (hp : f.AllLeaves P) : (f.mapLeaves g).mapLeaves g = f.mapLeaves g := by
  induction f with
  | nil => rfl
  | leaf ty p rest ih => simp only [Forest.mapLeaves, h ty p hp.1, ih hp.2]
  | node ty kids rest ih1 ih2 => simp only [Forest.mapLeaves, ih1 hp.1, ih2 hp.2]

theorem mapInside_idem {top : Bytes} (h : ∀ ty p, P ty p → g ty (g ty p) = g ty p) (f : Forest)
    (hp : f.AllInside P top) : (f.mapInside g top).mapInside g top = f.mapInside g top := by
  induction f with
  | nil => rfl
  | leaf ty p rest ih =>
    by_cases e : ty = top
    · simp only [Forest.mapInside, if_pos e, h ty p (hp.1 e), ih hp.2]
    · simp only [Forest.mapInside, if_neg e, ih hp.2]
  | node ty kids rest ih1 ih2 =>
    by_cases e : ty = top
    · simp only [Forest.mapInside, if_pos e, mapLeaves_idem h kids (hp.1 e), ih2 hp.2]
    · simp only [Forest.mapInside, if_neg e, ih2 hp.2]

end

/-! ### C13 -/

/-- What the filter needs of the boxes inside the movie box: headers complete up to the
duration, box types that are text. -/
def InitBoxOk (ty p : Bytes) : Prop := HeaderComplete ty p ∧ utf8Valid ty = true

/-- An init segment the filter accepts. -/
structure InitOk (f : Forest) : Prop where
  ok : f.Ok initLiveRules.composite
  boxes : f.AllInside InitBoxOk [109, 111, 111, 118]

/-- **C13 (only durations).** For every init segment with complete headers, in either header
version, the live init segment is the stored one with the duration fields of the movie, track
and media headers set to 0 and nothing else changed. -/
theorem C13_only_durations (f : Forest) (h : InitOk f) : liveInit f.bytes = .ok f.liveInit.bytes := by
  obtain ⟨l, s', h1, h2⟩ := rewriteTop_mapInside (leaf := initLiveLeaf) (g := withoutDuration)
    (P := InitBoxOk) (fun ty p s ht hp => initLiveLeaf_box ht p s hp.1 hp.2)
    (fun ty p hp => withoutDuration_length ty p hp.1) f (-1) h.ok h.boxes
  have h3 := C08_refines initLiveRules f (-1) h.ok
  unfold liveInit
  rw [h3]
  have h1' : f.rewriteTop initLiveRules.leaf initLiveRules.top (-1) = .ok (l, s') := h1
  rw [h1']
  simp only [Except.map]
  rw [h2]
  rfl

/-- **C13 (length).** The live init segment is as long as the stored one. -/
theorem C13_length (f : Forest) (h : InitOk f) (out : Bytes) (ho : liveInit f.bytes = .ok out) :
    out.length = f.bytes.length := by
  rw [C13_only_durations f h] at ho
  cases ho
  exact mapInside_length (fun ty p hp => withoutDuration_length ty p hp.1) f h.boxes

theorem withoutDuration_parts (ty p : Bytes) (w : Nat) (hw : headerWords ty = some w)
    (h : HeaderComplete ty p) :
    timeWidth (withoutDuration ty p) = timeWidth p ∧
    durationPos w (withoutDuration ty p) = durationPos w p ∧
    (withoutDuration ty p).take (durationPos w p) = p.take (durationPos w p) ∧
    slice (withoutDuration ty p) (durationPos w p) (durationPos w p + timeWidth p)
      = beBytes (timeWidth p) 0 ∧
    (withoutDuration ty p).drop (durationPos w p + timeWidth p)
      = p.drop (durationPos w p + timeWidth p) := by
  have hc := h w hw
  have e : withoutDuration ty p = p.take (durationPos w p) ++ beBytes (timeWidth p) 0 ++
      p.drop (durationPos w p + timeWidth p) := by unfold withoutDuration; rw [hw]
  have hl : (p.take (durationPos w p)).length = durationPos w p := by
    rw [List.length_take]; omega
  have e0 : (withoutDuration ty p).head? = p.head? := by
    rw [e]
    cases p with
    | nil => simp [durationPos] at hc
    | cons x p =>
      simp only [durationPos]
      rw [show 4 + 2 * timeWidth (x :: p) + 4 * w = (3 + 2 * timeWidth (x :: p) + 4 * w) + 1 by omega,
        List.take_succ_cons]
      rfl
  have e1 : timeWidth (withoutDuration ty p) = timeWidth p := by
    unfold timeWidth; rw [e0]
  refine ⟨e1, by unfold durationPos; rw [e1], ?_, ?_, ?_⟩
  · rw [e, List.append_assoc, List.take_left' hl]
  · rw [e, List.append_assoc, slice, List.drop_left' hl, Nat.add_sub_cancel_left,
      List.take_left' (by simp)]
  · rw [e, List.drop_left' (by rw [List.length_append, hl, beBytes_length])]

theorem withoutDuration_complete (ty p : Bytes) (h : HeaderComplete ty p) :
    HeaderComplete ty (withoutDuration ty p) := by
  intro w hw
  obtain ⟨e1, e2, -⟩ := withoutDuration_parts ty p w hw h
  rw [e1, e2, withoutDuration_length ty p h]
  exact h w hw

theorem withoutDuration_idem (ty p : Bytes) (h : HeaderComplete ty p) :
    withoutDuration ty (withoutDuration ty p) = withoutDuration ty p := by
  cases hw : headerWords ty with
  | none =>
    have e : ∀ q, withoutDuration ty q = q := fun q => by unfold withoutDuration; rw [hw]
    rw [e, e]
  | some w =>
    obtain ⟨e1, e2, e3, -, e5⟩ := withoutDuration_parts ty p w hw h
    have e : ∀ q, withoutDuration ty q = q.take (durationPos w q) ++ beBytes (timeWidth q) 0 ++
      q.drop (durationPos w q + timeWidth q) := fun q => by unfold withoutDuration; rw [hw]
    rw [e (withoutDuration ty p), e1, e2, e3, e5, ← e p]

/-- **C13 (durations).** In the live init segment the durations of the movie, track and media
headers are 0, and every other field of these headers is as stored. -/
theorem C13_durations_zero (f : Forest) (h : InitOk f) :
    f.liveInit.AllInside (fun ty q => ∀ w, headerWords ty = some w → durationOf w q = 0)
      [109, 111, 111, 118] := by
  refine mapInside_allInside (P := InitBoxOk) ?_ f h.boxes
  intro ty p hp w hw
  obtain ⟨e1, e2, -, e4, -⟩ := withoutDuration_parts ty p w hw hp.1
  rw [durationOf, e1, e2, e4, beVal_beBytes_of_lt (Nat.pow_pos (by decide))]

/-- **C13 (other bytes).** Outside the duration field a header keeps every byte. -/
theorem C13_other_bytes (ty p : Bytes) (h : HeaderComplete ty p) (i : Nat)
    (hi : ∀ w, headerWords ty = some w → i < durationPos w p ∨ durationPos w p + timeWidth p ≤ i) :
    (withoutDuration ty p)[i]? = p[i]? := by
  cases hw : headerWords ty with
  | none => unfold withoutDuration; rw [hw]
  | some w =>
    obtain ⟨-, -, e3, -, e5⟩ := withoutDuration_parts ty p w hw h
    rcases hi w hw with hi | hi
    · rw [← List.getElem?_take_of_lt hi, e3, List.getElem?_take_of_lt hi]
    · have := congrArg (fun l => l[i - (durationPos w p + timeWidth p)]?) e5
      simp only [List.getElem?_drop] at this
      rwa [Nat.add_sub_cancel' hi] at this

/-- **C13 (twice).** Filtering the live init segment again returns it unchanged. -/
theorem C13_idempotent (f : Forest) (h : InitOk f) (out : Bytes) (ho : liveInit f.bytes = .ok out) :
    liveInit out = .ok out := by
  rw [C13_only_durations f h] at ho
  cases ho
  have h2 : InitOk f.liveInit :=
    ⟨mapInside_ok (fun ty p hp => withoutDuration_length ty p hp.1) f h.ok h.boxes,
     mapInside_allInside (fun ty p hp => ⟨withoutDuration_complete ty p hp.1, hp.2⟩) f h.boxes⟩
  rw [C13_only_durations _ h2]
  congr 2
  exact mapInside_idem (P := InitBoxOk) (fun ty p hp => withoutDuration_idem ty p hp.1) f h.boxes

/-- An init segment with a version 0 movie header and version 1 track and media headers. -/
def exampleInit : Forest :=
  .leaf [102, 116, 121, 112] [105, 115, 111, 54] <|
  .node [109, 111, 111, 118]
    (.leaf [109, 118, 104, 100] [0, 0, 0, 0, 1, 1, 1, 1, 2, 2, 2, 2, 0, 0, 3, 232, 0, 0, 0, 9, 7, 7] <|
     .node [116, 114, 97, 107]
       (.leaf [116, 107, 104, 100] [1, 0, 0, 7, 1, 1, 1, 1, 1, 1, 1, 1, 2, 2, 2, 2, 2, 2, 2, 2,
          0, 0, 0, 1, 0, 0, 0, 0, 0, 0, 0, 0, 0, 0, 0, 9, 6, 6] <|
        .node [109, 100, 105, 97]
          (.leaf [109, 100, 104, 100] [1, 0, 0, 7, 1, 1, 1, 1, 1, 1, 1, 1, 2, 2, 2, 2, 2, 2, 2, 2,
             0, 1, 95, 144, 0, 0, 0, 0, 0, 0, 0, 9, 5, 5] .nil) .nil) .nil) .nil

theorem exampleInit_ok : InitOk exampleInit := by
  refine ⟨?_, ?_⟩
  · unfold exampleInit initLiveRules
    simp only [Forest.Ok]
    decide +kernel
  · unfold exampleInit
    simp only [Forest.AllInside, Forest.AllLeaves, InitBoxOk, HeaderComplete]
    refine ⟨fun h => absurd h (by decide), fun _ => ⟨⟨?_, by decide +kernel⟩,
      ⟨⟨⟨?_, by decide +kernel⟩, ⟨⟨⟨?_, by decide +kernel⟩, trivial⟩, trivial⟩⟩, trivial⟩⟩, trivial⟩
    · intro w hw; cases hw; decide
    · intro w hw; cases hw; decide
    · intro w hw; cases hw; decide

/-- The hypothesis of the theorems holds for `exampleInit`, whose durations are 9; the live init
segment has 0 there. -/
example : InitOk exampleInit ∧ liveInit exampleInit.bytes ≠ .ok exampleInit.bytes :=
  ⟨exampleInit_ok, by decide +kernel⟩

end Verif
