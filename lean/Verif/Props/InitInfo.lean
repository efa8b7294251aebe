import Verif.Props.InitSegment
import Verif.Lemmas.Decode
/-
C53: what is read from init segments.
-/
namespace Verif

/-! ### A filter that only reads -/

section
variable {σ : Type} {leaf : Bytes → Bytes → σ → Py (Bytes × σ)}

/-- Running the rules over a list of boxes for their state alone. -/
def readAll (leaf : Bytes → Bytes → σ → Py (Bytes × σ)) : List (Bytes × Bytes) → σ → Py σ
  | [], s => .ok s
  | x :: l, s =>
    match leaf x.1 (boxBytes x.1 x.2) s with
    | .error e => .error e
    | .ok (_, s') => readAll leaf l s'

theorem readAll_append (l1 l2 : List (Bytes × Bytes)) : ∀ s, readAll leaf (l1 ++ l2) s =
    match readAll leaf l1 s with
    | .error e => .error e
    | .ok s' => readAll leaf l2 s' := by
  induction l1 with
  | nil => intro s; rfl
  | cons x l ih =>
    intro s
    simp only [List.cons_append, readAll]
    cases leaf x.1 (boxBytes x.1 x.2) s with
    | error e => rfl
    | ok y => exact ih _

theorem rewrite_read {comp : List Bytes}
    (hr : ∀ ty d s o s', leaf ty d s = .ok (o, s') → o = d) (f : Forest) :
    ∀ s, f.Ok comp → f.rewrite leaf s = (readAll leaf f.leaves s).map (fun s' => (f.bytes, s')) := by
  induction f with
  | nil => intro s _; rfl
  | leaf ty p rest ih =>
    intro s ok
    rw [Forest.rewrite, Forest.leaves, readAll]
    cases h : leaf ty (boxBytes ty p) s with
    | error e => rfl
    | ok y =>
      obtain ⟨o, s1⟩ := y
      simp only
      rw [ih s1 ok.2.2.2, hr _ _ _ _ _ h]
      cases readAll leaf rest.leaves s1 <;> rfl
  | node ty kids rest ih1 ih2 =>
    intro s ok
    rw [Forest.rewrite, Forest.leaves, readAll_append, ih1 s ok.2.2.2.1]
    cases readAll leaf kids.leaves s with
    | error e => rfl
    | ok s1 =>
      simp only [Except.map]
      rw [if_pos ok.2.2.1, ih2 s1 ok.2.2.2.2]
      cases readAll leaf rest.leaves s1 <;> rfl

theorem rewriteTop_read {comp : List Bytes} (top : List Bytes)
    (hr : ∀ ty d s o s', leaf ty d s = .ok (o, s') → o = d) (f : Forest) :
    ∀ s, f.Ok comp → (f.rewriteTop leaf top s).map Prod.snd
      = readAll leaf (f.leavesInside top) s := by
  induction f with
  | nil => intro s _; rfl
  | leaf ty p rest ih =>
    intro s ok
    rw [Forest.rewriteTop, Forest.leavesInside, readAll_append]
    by_cases h : ty ∈ top
    · rw [if_pos h, if_pos h]
      rw [rewrite_read (comp := comp) hr (.leaf ty p .nil) s ⟨ok.1, ok.2.1, ok.2.2.1, trivial⟩]
      have e : (Forest.leaf ty p .nil).leaves = [(ty, p)] := rfl
      rw [e]
      cases readAll leaf [(ty, p)] s with
      | error e => rfl
      | ok s1 =>
        simp only [Except.map]
        rw [← ih s1 ok.2.2.2]
        cases rest.rewriteTop leaf top s1 <;> rfl
    · rw [if_neg h, if_neg h]
      simp only [readAll]
      rw [← ih s ok.2.2.2]
      cases rest.rewriteTop leaf top s <;> rfl
  | node ty kids rest _ ih =>
    intro s ok
    rw [Forest.rewriteTop, Forest.leavesInside, readAll_append]
    by_cases h : ty ∈ top
    · rw [if_pos h, if_pos h]
      rw [rewrite_read (comp := comp) hr (.node ty kids .nil) s
        ⟨ok.1, ok.2.1, ok.2.2.1, ok.2.2.2.1, trivial⟩]
      have e : (Forest.node ty kids .nil).leaves = kids.leaves := by simp [Forest.leaves]
      rw [e]
      cases readAll leaf kids.leaves s with
      | error e => rfl
      | ok s1 =>
        simp only [Except.map]
        rw [← ih s1 ok.2.2.2.2]
        cases rest.rewriteTop leaf top s1 <;> rfl
    · rw [if_neg h, if_neg h]
      simp only [readAll]
      rw [← ih s ok.2.2.2.2]
      cases rest.rewriteTop leaf top s <;> rfl

/-- A part of the state that only boxes of type `ty` set. -/
theorem readAll_only {β : Type} (π : σ → β) (ty : Bytes)
    (hother : ∀ u d s o s', u ≠ ty → leaf u d s = .ok (o, s') → π s' = π s) (l : List (Bytes × Bytes)) :
    ∀ s s', (∀ x ∈ l, x.1 ≠ ty) → readAll leaf l s = .ok s' → π s' = π s := by
  induction l with
  | nil => intro s s' _ h; cases h; rfl
  | cons x l ih =>
    intro s s' hne h
    rw [readAll] at h
    cases hx : leaf x.1 (boxBytes x.1 x.2) s with
    | error e => rw [hx] at h; cases h
    | ok y =>
      obtain ⟨o, s1⟩ := y
      rw [hx] at h
      rw [ih s1 s' (fun z hz => hne z (by simp [hz])) h, hother _ _ _ _ _ (hne x (by simp)) hx]

theorem readAll_one {β : Type} (π : σ → β) (ty p : Bytes) (b : β)
    (hother : ∀ u d s o s', u ≠ ty → leaf u d s = .ok (o, s') → π s' = π s)
    (hthis : ∀ s o s', leaf ty (boxBytes ty p) s = .ok (o, s') → π s' = b) (l : List (Bytes × Bytes)) :
    ∀ s s', OnlyBox l ty p → readAll leaf l s = .ok s' → π s' = b := by
  induction l with
  | nil => intro s s' h; simp [OnlyBox] at h
  | cons x l ih =>
    intro s s' hl h
    rw [readAll] at h
    cases hx : leaf x.1 (boxBytes x.1 x.2) s with
    | error e => rw [hx] at h; cases h
    | ok y =>
      obtain ⟨o, s1⟩ := y
      rw [hx] at h
      unfold OnlyBox at hl
      by_cases hty : x.1 = ty
      · rw [List.filter_cons, if_pos (by simpa using hty)] at hl
        have h1 : x = (ty, p) := (List.cons.inj hl).1
        have h2 := (List.cons.inj hl).2
        have h3 : ∀ z ∈ l, z.1 ≠ ty := by
          intro z hz he
          have : z ∈ l.filter (fun x => decide (x.1 = ty)) := by simp [List.mem_filter, hz, he]
          rw [h2] at this
          cases this
        rw [readAll_only π ty hother l s1 s' h3 h]
        rw [h1] at hx
        exact hthis s o s1 hx
      · rw [List.filter_cons, if_neg (by simpa using hty)] at hl
        exact ih s1 s' hl h

end

/-! ### C53 -/

theorem initLeaf_reads (ty d : Bytes) (s : InitInfo) (o : Bytes) (s' : InitInfo)
    (h : initLeaf ty d s = .ok (o, s')) : o = d := by
  unfold initLeaf at h
  split at h
  · cases h; rfl
  split at h
  · unfold processTkhd at h
    (repeat' split at h) <;> first | (cases h; done) | (cases h; rfl)
  split at h
  · unfold processMdhd at h
    split at h
    · cases h
    · cases h; rfl
  split at h
  · unfold processTrex at h
    cases h1 : strToUint32 (slice d 16 20) with
    | error e => rw [h1] at h; cases h
    | ok a =>
      cases h2 : strToUint32 (slice d 20 24) with
      | error e => rw [h1, h2] at h; cases h
      | ok b =>
        cases h3 : strToUint32 (slice d 24 28) with
        | error e => rw [h1, h2, h3] at h; cases h
        | ok c =>
          cases h4 : strToUint32 (slice d 28 32) with
          | error e => rw [h1, h2, h3, h4] at h; cases h
          | ok f => rw [h1, h2, h3, h4] at h; cases h; rfl
  split at h
  · cases h; rfl
  · cases h

/-- The plain boxes in the movie box of an init segment. -/
def movieBoxes (f : Forest) : List (Bytes × Bytes) := f.leavesInside [[109, 111, 111, 118]]

theorem initInfo_eq (f : Forest) (hf : f.Ok initRules.composite) :
    initInfo f.bytes = readAll initLeaf (movieBoxes f) {} := by
  unfold initInfo
  rw [C08_refines initRules f {} hf]
  have h := rewriteTop_read (comp := initRules.composite) [[109, 111, 111, 118]] initLeaf_reads f {} hf
  have e : f.rewriteTop initRules.leaf initRules.top {} = f.rewriteTop initLeaf [[109, 111, 111, 118]] {} := rfl
  rw [e, movieBoxes, ← h]
  cases f.rewriteTop initLeaf [[109, 111, 111, 118]] {} <;> rfl

theorem processTrex_ok {d : Bytes} {s : InitInfo} {x : Bytes × InitInfo}
    (h : processTrex d s = .ok x) : ∃ i a z f, strToUint32 (slice d 16 20) = .ok i ∧
      strToUint32 (slice d 20 24) = .ok a ∧ strToUint32 (slice d 24 28) = .ok z ∧
      strToUint32 (slice d 28 32) = .ok f ∧
      x = (d, { s with descIndex := some i, defDur := some a, defSize := some z, defFlags := some f }) := by
  unfold processTrex at h
  cases h1 : strToUint32 (slice d 16 20) with
  | error e => rw [h1] at h; cases h
  | ok a =>
    cases h2 : strToUint32 (slice d 20 24) with
    | error e => rw [h1, h2] at h; cases h
    | ok b =>
      cases h3 : strToUint32 (slice d 24 28) with
      | error e => rw [h1, h2, h3] at h; cases h
      | ok c =>
        cases h4 : strToUint32 (slice d 28 32) with
        | error e => rw [h1, h2, h3, h4] at h; cases h
        | ok f => rw [h1, h2, h3, h4] at h; cases h; exact ⟨a, b, c, f, rfl, rfl, rfl, rfl, rfl⟩

/-- What a box of each type may change. -/
theorem initLeaf_frame (ty d : Bytes) (s : InitInfo) (o : Bytes) (s' : InitInfo)
    (h : initLeaf ty d s = .ok (o, s')) :
    (ty ≠ [104, 100, 108, 114] → s'.handler = s.handler) ∧
    (ty ≠ [116, 107, 104, 100] → s'.trackId = s.trackId) ∧
    (ty ≠ [109, 100, 104, 100] → s'.timescale = s.timescale) ∧
    (ty ≠ [116, 114, 101, 120] → (s'.descIndex, s'.defDur, s'.defSize, s'.defFlags)
      = (s.descIndex, s.defDur, s.defSize, s.defFlags)) := by
  unfold initLeaf at h
  split at h
  · rename_i e
    cases h
    exact ⟨fun he => absurd e he, fun _ => rfl, fun _ => rfl, fun _ => rfl⟩
  split at h
  · rename_i e
    have hs : s'.handler = s.handler ∧ s'.timescale = s.timescale ∧
        (s'.descIndex, s'.defDur, s'.defSize, s'.defFlags)
          = (s.descIndex, s.defDur, s.defSize, s.defFlags) := by
      unfold processTkhd at h
      (repeat' split at h) <;> first | (cases h; done) | (cases h; exact ⟨rfl, rfl, rfl⟩)
    exact ⟨fun _ => hs.1, fun he => absurd e he, fun _ => hs.2.1, fun _ => hs.2.2⟩
  split at h
  · rename_i e
    have hs : s'.handler = s.handler ∧ s'.trackId = s.trackId ∧
        (s'.descIndex, s'.defDur, s'.defSize, s'.defFlags)
          = (s.descIndex, s.defDur, s.defSize, s.defFlags) := by
      unfold processMdhd at h
      (repeat' split at h) <;> first | (cases h; done) | (cases h; exact ⟨rfl, rfl, rfl⟩)
    exact ⟨fun _ => hs.1, fun _ => hs.2.1, fun he => absurd e he, fun _ => hs.2.2⟩
  split at h
  · rename_i e
    obtain ⟨i, a, z, f, -, -, -, -, hx⟩ := processTrex_ok h
    cases hx
    exact ⟨fun _ => rfl, fun _ => rfl, fun _ => rfl, fun he => absurd e he⟩
  split at h
  · cases h
    exact ⟨fun _ => rfl, fun _ => rfl, fun _ => rfl, fun _ => rfl⟩
  · cases h

theorem at_box_content {ty : Bytes} (ht : ty.length = 4) (p : Bytes) : At (boxBytes ty p) 8 p := by
  have h := at_intro [] (boxBytes ty p) []
  simp only [List.nil_append, List.append_nil, List.length_nil] at h
  have := At.box ht h
  rwa [Nat.zero_add] at this

/-- **C53 (track number).** For every init segment with one track header, of either version, the
track number read is the one in the header. -/
theorem C53_track (f : Forest) (hf : f.Ok initRules.composite) (info : InitInfo)
    (h : initInfo f.bytes = .ok info) (v1 : Bool) (flags : Bytes) (c m track : Nat) (rest : Bytes)
    (hfl : flags.length = 3) (ht : track < 2 ^ 32)
    (hone : OnlyBox (movieBoxes f) [116, 107, 104, 100] (tkhdPayload v1 flags c m track rest)) :
    info.trackId = some track := by
  rw [initInfo_eq f hf] at h
  refine readAll_one InitInfo.trackId [116, 107, 104, 100] (tkhdPayload v1 flags c m track rest)
    (some track) (fun u d s o s' hu hl => (initLeaf_frame u d s o s' hl).2.1 hu) ?_ _ _ _ hone h
  intro s o s' hl
  have hl' : processTkhd (boxBytes [116, 107, 104, 100] (tkhdPayload v1 flags c m track rest)) s
      = .ok (o, s') := by
    simpa [initLeaf] using hl
  have ha := at_box_content (ty := [116, 107, 104, 100]) rfl (tkhdPayload v1 flags c m track rest)
  have hv : byteAt (boxBytes [116, 107, 104, 100] (tkhdPayload v1 flags c m track rest)) 8
      = .ok (if v1 then 1 else 0) := by
    apply byteAt_box rfl
    cases v1 <;> rfl
  unfold processTkhd at hl'
  split at hl'
  · cases hl'
  · rw [hv] at hl'
    unfold tkhdPayload at ha
    have hr := ha.left.right
    cases v1 with
    | false =>
      simp only [Bool.false_eq_true, if_false, List.length_append, beBytes_length, hfl,
        List.length_cons, List.length_nil] at hr
      have := hr.u32 ht
      simp only [Bool.false_eq_true, if_false, if_true] at hl'
      unfold u32At at this
      unfold tkhdPayload at hl'
      simp only [Bool.false_eq_true, if_false] at hl' this
      rw [this] at hl'
      cases hl'
      rfl
    | true =>
      simp only [if_true, List.length_append, beBytes_length, hfl,
        List.length_cons, List.length_nil] at hr
      have := hr.u32 ht
      simp only [if_true] at hl'
      rw [if_neg (by decide)] at hl'
      unfold u32At at this
      unfold tkhdPayload at hl'
      simp only [if_true] at hl' this
      rw [this] at hl'
      cases hl'
      rfl

/-- **C53 (timescale).** For every init segment with one media header, of version 0, the
timescale read is the one in the header.  Missing for the full claim: version 1 headers, for
which `C53_timescale_violation` shows it false. -/
theorem C53_timescale_partial (f : Forest) (hf : f.Ok initRules.composite) (info : InitInfo)
    (h : initInfo f.bytes = .ok info) (flags : Bytes) (c m ts : Nat) (rest : Bytes)
    (hfl : flags.length = 3) (ht : ts < 2 ^ 32)
    (hone : OnlyBox (movieBoxes f) [109, 100, 104, 100] (mdhdPayload false flags c m ts rest)) :
    info.timescale = ts := by
  rw [initInfo_eq f hf] at h
  refine readAll_one InitInfo.timescale [109, 100, 104, 100] (mdhdPayload false flags c m ts rest)
    ts (fun u d s o s' hu hl => (initLeaf_frame u d s o s' hl).2.2.1 hu) ?_ _ _ _ hone h
  intro s o s' hl
  have hl' : processMdhd (boxBytes [109, 100, 104, 100] (mdhdPayload false flags c m ts rest)) s
      = .ok (o, s') := by
    simpa [initLeaf] using hl
  have ha := at_box_content (ty := [109, 100, 104, 100]) rfl (mdhdPayload false flags c m ts rest)
  unfold mdhdPayload at ha
  have hr := ha.left.right
  simp only [Bool.false_eq_true, if_false, List.length_append, beBytes_length, hfl,
    List.length_cons, List.length_nil] at hr
  have := hr.u32 ht
  unfold u32At at this
  unfold processMdhd mdhdPayload at hl'
  simp only [Bool.false_eq_true, if_false] at hl' this
  rw [this] at hl'
  cases hl'
  rfl

/-- **C53 (handler).** For every init segment with one handler box, the handler type read is the
one in the box. -/
theorem C53_handler (f : Forest) (hf : f.Ok initRules.composite) (info : InitInfo)
    (h : initInfo f.bytes = .ok info) (vf : Bytes) (r : Nat) (handler rest : Bytes)
    (hvf : vf.length = 4) (hh : handler.length = 4)
    (hone : OnlyBox (movieBoxes f) [104, 100, 108, 114] (hdlrPayload vf r handler rest)) :
    info.handler = some handler := by
  rw [initInfo_eq f hf] at h
  refine readAll_one InitInfo.handler [104, 100, 108, 114] (hdlrPayload vf r handler rest)
    (some handler) (fun u d s o s' hu hl => (initLeaf_frame u d s o s' hl).1 hu) ?_ _ _ _ hone h
  intro s o s' hl
  have hl' : processHdlr (boxBytes [104, 100, 108, 114] (hdlrPayload vf r handler rest)) s
      = .ok (o, s') := by
    simpa [initLeaf] using hl
  have ha := at_box_content (ty := [104, 100, 108, 114]) rfl (hdlrPayload vf r handler rest)
  unfold hdlrPayload at ha
  have hr := ha.left.right
  simp only [List.length_append, beBytes_length, hvf] at hr
  unfold At at hr
  rw [hh] at hr
  unfold processHdlr hdlrPayload at hl'
  cases hl'
  simp only
  congr 1

/-- **C53 (defaults).** For every init segment with one track extends box, the sample defaults
read are the ones in the box. -/
theorem C53_defaults (f : Forest) (hf : f.Ok initRules.composite) (info : InitInfo)
    (h : initInfo f.bytes = .ok info) (vf : Bytes) (track desc dur size flags : Nat)
    (hvf : vf.length = 4) (h1 : desc < 2 ^ 32) (h2 : dur < 2 ^ 32) (h3 : size < 2 ^ 32)
    (h4 : flags < 2 ^ 32)
    (hone : OnlyBox (movieBoxes f) [116, 114, 101, 120] (trexPayload vf track desc dur size flags)) :
    (info.descIndex, info.defDur, info.defSize, info.defFlags)
      = (some desc, some dur, some size, some flags) := by
  rw [initInfo_eq f hf] at h
  refine readAll_one (fun s => (s.descIndex, s.defDur, s.defSize, s.defFlags)) [116, 114, 101, 120]
    (trexPayload vf track desc dur size flags) _
    (fun u d s o s' hu hl => (initLeaf_frame u d s o s' hl).2.2.2 hu) ?_ _ _ _ hone h
  intro s o s' hl
  have hl' : processTrex (boxBytes [116, 114, 101, 120] (trexPayload vf track desc dur size flags)) s
      = .ok (o, s') := by
    simpa [initLeaf] using hl
  have ha := at_box_content (ty := [116, 114, 101, 120]) rfl (trexPayload vf track desc dur size flags)
  unfold trexPayload at ha
  have r4 := ha.right.u32 h4
  have r3 := ha.left.right.u32 h3
  have r2 := ha.left.left.right.u32 h2
  have r1 := ha.left.left.left.right.u32 h1
  simp only [List.length_append, beBytes_length, hvf, u32At] at r1 r2 r3 r4
  obtain ⟨i, a, z, fl, e1, e2, e3, e4, hx⟩ := processTrex_ok hl'
  unfold trexPayload at e1 e2 e3 e4
  rw [r1] at e1
  rw [r2] at e2
  rw [r3] at e3
  rw [r4] at e4
  cases e1
  cases e2
  cases e3
  cases e4
  cases hx
  rfl

/-- An init segment with the four boxes, media header of version `v1`. -/
def infoInit (v1 : Bool) : Forest :=
  .node [109, 111, 111, 118]
    (.node [116, 114, 97, 107]
       (.leaf [116, 107, 104, 100] (tkhdPayload true [0, 0, 7] 5 6 2 [0, 0, 0, 0]) <|
        .node [109, 100, 105, 97]
          (.leaf [109, 100, 104, 100] (mdhdPayload v1 [0, 0, 0] 5 6 90000 [0, 0, 0, 0]) <|
           .leaf [104, 100, 108, 114] (hdlrPayload [0, 0, 0, 0] 0 [118, 105, 100, 101] [0]) .nil) .nil) <|
     .node [109, 118, 101, 120]
       (.leaf [116, 114, 101, 120] (trexPayload [0, 0, 0, 0] 2 1 1800 0 65536) .nil) .nil) .nil

/-- The hypotheses of the theorems hold for `infoInit false`. -/
example : (infoInit false).Ok initRules.composite ∧
    OnlyBox (movieBoxes (infoInit false)) [116, 107, 104, 100]
      (tkhdPayload true [0, 0, 7] 5 6 2 [0, 0, 0, 0]) ∧
    OnlyBox (movieBoxes (infoInit false)) [109, 100, 104, 100]
      (mdhdPayload false [0, 0, 0] 5 6 90000 [0, 0, 0, 0]) ∧
    initInfo (infoInit false).bytes =
      .ok ⟨90000, some 2, some [118, 105, 100, 101], some 1, some 1800, some 0, some 65536⟩ := by
  unfold OnlyBox infoInit initRules
  simp only [Forest.Ok]
  decide +kernel

/-- **C53 fails for version 1 media headers.** The timescale is read from the upper half of the
modification time: 0 instead of 90000. -/
theorem C53_timescale_violation :
    (infoInit true).Ok initRules.composite ∧
    OnlyBox (movieBoxes (infoInit true)) [109, 100, 104, 100]
      (mdhdPayload true [0, 0, 0] 5 6 90000 [0, 0, 0, 0]) ∧
    initInfo (infoInit true).bytes =
      .ok ⟨0, some 2, some [118, 105, 100, 101], some 1, some 1800, some 0, some 65536⟩ := by
  unfold OnlyBox infoInit initRules
  simp only [Forest.Ok]
  decide +kernel

end Verif
