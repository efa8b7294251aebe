import Verif.Lemmas.Decode
/-
The decoder of the chunker on whole segments.
-/
namespace Verif

/-- A segment with one movie fragment that has one track fragment, with all boxes around the
ones that matter. -/
structure FragSegment where
  front : List (Bytes × Bytes)
  vf : Bytes
  seq : Nat
  a : List (Bytes × Bytes)
  p1 : List (Bytes × Bytes)
  head : FragHeader
  p2 : List (Bytes × Bytes)
  wide : Bool
  f2 : UInt8
  f1 : UInt8
  f0 : UInt8
  time : Nat
  q1 : List (Bytes × Bytes)
  run : SampleRun
  q2 : List (Bytes × Bytes)
  b : List (Bytes × Bytes)
  back : List (Bytes × Bytes)

/-- The boxes of the track fragment. -/
def FragSegment.traf (g : FragSegment) : Forest :=
  .withBoxes g.p1 (.leaf tyTfhd g.head.payload (.withBoxes g.p2
    (.leaf tyTfdt (tfdtPayload g.wide g.f2 g.f1 g.f0 g.time)
      (.withBoxes g.q1 (.leaf tyTrun g.run.payload (.withBoxes g.q2 .nil))))))

/-- The boxes of the movie fragment. -/
def FragSegment.moof (g : FragSegment) : Forest :=
  .leaf tyMfhd (g.vf ++ beBytes 4 g.seq) (.withBoxes g.a
    (.node tyTraf g.traf (.withBoxes g.b .nil)))

/-- The boxes of the segment. -/
def FragSegment.forest (g : FragSegment) : Forest :=
  .withBoxes g.front (.node tyMoof g.moof (.withBoxes g.back .nil))

/-- The segment. -/
def FragSegment.bytes (g : FragSegment) : Bytes := g.forest.bytes

/-- Where the movie fragment starts. -/
def FragSegment.moofPos (g : FragSegment) : Nat := (boxesBytes g.front).length

structure FragSegment.Ok (g : FragSegment) : Prop where
  vf : g.vf.length = 4
  seq : g.seq < 2 ^ 32
  head : g.head.Ok
  run : g.run.Ok
  time : g.time < (if g.wide then 2 ^ 64 else 2 ^ 32)
  front : ∀ x ∈ g.front, PlainType x.1 ∧ 8 + x.2.length < 2 ^ 32
  a : ∀ x ∈ g.a, PlainType x.1 ∧ 8 + x.2.length < 2 ^ 32
  b : ∀ x ∈ g.b, PlainType x.1 ∧ 8 + x.2.length < 2 ^ 32
  p1 : ∀ x ∈ g.p1, PlainType x.1 ∧ 8 + x.2.length < 2 ^ 32 ∧ x.1 ∉ [tyTfhd, tyTfdt, tyTrun]
  p2 : ∀ x ∈ g.p2, PlainType x.1 ∧ 8 + x.2.length < 2 ^ 32 ∧ x.1 ∉ [tyTfdt, tyTrun]
  q1 : ∀ x ∈ g.q1, PlainType x.1 ∧ 8 + x.2.length < 2 ^ 32 ∧ x.1 ∉ [tyTrun]
  q2 : ∀ x ∈ g.q2, PlainType x.1 ∧ 8 + x.2.length < 2 ^ 32
  back : ∀ x ∈ g.back, PlainType x.1 ∧ 8 + x.2.length < 2 ^ 32
  size : 8 + g.moof.bytes.length < 2 ^ 32

theorem withBoxes_parsed (l : List (Bytes × Bytes)) (f : Forest)
    (hl : ∀ x ∈ l, PlainType x.1 ∧ 8 + x.2.length < 2 ^ 32) (hf : f.Parsed) :
    (Forest.withBoxes l f).Parsed := by
  induction l with
  | nil => exact hf
  | cons b bs ih =>
    exact ⟨(hl b (by simp)).1, (hl b (by simp)).2, ih (fun x hx => hl x (by simp [hx]))⟩

theorem withBoxes_ne (l : List (Bytes × Bytes)) (f : Forest) (h : f ≠ .nil) :
    Forest.withBoxes l f ≠ .nil := by
  cases l with
  | nil => exact h
  | cons b bs => simp [Forest.withBoxes]

theorem plain_ne_container {ty t : Bytes} (h : PlainType ty) (ht : t ∈ containerBoxes) : ty ≠ t :=
  fun he => h.2.2.1 (he ▸ ht)

theorem moof_container : tyMoof ∈ containerBoxes := by decide +kernel
theorem traf_container : tyTraf ∈ containerBoxes := by decide +kernel

theorem plain_known {ty : Bytes} (h : ty ∈ [tyMfhd, tyTfhd, tyTfdt, tyTrun, tyMdat]) :
    PlainType ty := by
  simp only [List.mem_cons, List.not_mem_nil, or_false] at h
  rcases h with rfl | rfl | rfl | rfl | rfl <;>
    exact ⟨rfl, by decide +kernel, by decide +kernel, by decide +kernel⟩

theorem FragSegment.traf_len (g : FragSegment) (hg : g.Ok) :
    8 + g.traf.bytes.length < 2 ^ 32 ∧ 8 + g.head.payload.length < 2 ^ 32 ∧
    8 + g.run.payload.length < 2 ^ 32 := by
  have h := hg.size
  have l1 := boxBytes_len (ty := tyTraf) rfl g.traf.bytes
  have l2 := boxBytes_len (ty := tyTfhd) rfl g.head.payload
  have l3 := boxBytes_len (ty := tyTrun) rfl g.run.payload
  have e1 : g.moof.bytes.length = (boxBytes tyMfhd (g.vf ++ beBytes 4 g.seq)).length +
      ((boxesBytes g.a).length + ((boxBytes tyTraf g.traf.bytes).length + (boxesBytes g.b).length)) := by
    simp [FragSegment.moof, Forest.bytes, withBoxes_bytes]
  have e2 : g.traf.bytes.length = (boxesBytes g.p1).length + ((boxBytes tyTfhd g.head.payload).length +
      ((boxesBytes g.p2).length + ((boxBytes tyTfdt (tfdtPayload g.wide g.f2 g.f1 g.f0 g.time)).length +
      ((boxesBytes g.q1).length + ((boxBytes tyTrun g.run.payload).length +
      (boxesBytes g.q2).length))))) := by
    simp [FragSegment.traf, Forest.bytes, withBoxes_bytes]
  omega

theorem tfdtPayload_length (w : Bool) (a b c : UInt8) (t : Nat) :
    (tfdtPayload w a b c t).length ≤ 12 := by
  cases w <;> simp [tfdtPayload]

theorem FragSegment.parsed (g : FragSegment) (hg : g.Ok) : g.forest.Parsed := by
  obtain ⟨s1, s2, s3⟩ := g.traf_len hg
  have hv := hg.vf
  refine withBoxes_parsed _ _ hg.front ⟨rfl, by decide +kernel, moof_container, by decide +kernel,
    by simp [FragSegment.moof], hg.size, ?_, withBoxes_parsed _ _ hg.back trivial⟩
  refine ⟨plain_known (by simp), by simp [hv], withBoxes_parsed _ _ hg.a ⟨rfl, by decide +kernel,
    traf_container, by decide +kernel, ?_, s1, ?_, withBoxes_parsed _ _ hg.b trivial⟩⟩
  · exact withBoxes_ne _ _ (by simp)
  · refine withBoxes_parsed _ _ (fun x hx => ⟨(hg.p1 x hx).1, (hg.p1 x hx).2.1⟩)
      ⟨plain_known (by simp), s2, withBoxes_parsed _ _
        (fun x hx => ⟨(hg.p2 x hx).1, (hg.p2 x hx).2.1⟩) ⟨plain_known (by simp), ?_,
        withBoxes_parsed _ _ (fun x hx => ⟨(hg.q1 x hx).1, (hg.q1 x hx).2.1⟩)
        ⟨plain_known (by simp), s3, withBoxes_parsed _ _ hg.q2 trivial⟩⟩⟩
    have := tfdtPayload_length g.wide g.f2 g.f1 g.f0 g.time
    omega

theorem FragSegment.parse (g : FragSegment) (hg : g.Ok) :
    parseFile g.bytes = .ok (g.forest.tree 0) :=
  parseFile_forest _ (withBoxes_ne _ _ (by simp)) (g.parsed hg)

/-- Positions of the boxes. -/
def FragSegment.trafPos (g : FragSegment) : Nat :=
  g.moofPos + 8 + (8 + (g.vf ++ beBytes 4 g.seq).length) + (boxesBytes g.a).length

def FragSegment.tfhdPos (g : FragSegment) : Nat := g.trafPos + 8 + (boxesBytes g.p1).length

def FragSegment.tfdtPos (g : FragSegment) : Nat :=
  g.tfhdPos + (8 + g.head.payload.length) + (boxesBytes g.p2).length

def FragSegment.trunPos (g : FragSegment) : Nat :=
  g.tfdtPos + (8 + (tfdtPayload g.wide g.f2 g.f1 g.f0 g.time).length) + (boxesBytes g.q1).length

theorem FragSegment.find_moof (g : FragSegment) (hg : g.Ok) :
    (g.forest.tree 0).find [tyMoof] = some ⟨g.moofPos, 8 + g.moof.bytes.length,
      g.moof.tree (g.moofPos + 8)⟩ := by
  rw [FragSegment.forest, find_withBoxes _ _ _ _
    (fun x hx => ⟨(hg.front x hx).1.1, plain_ne_container (hg.front x hx).1 moof_container⟩),
    find_hit_node]
  simp only [Nat.zero_add]
  rfl

theorem FragSegment.find_in_moof (g : FragSegment) (hg : g.Ok) {u : Bytes} {us : List Bytes}
    {x : Found} (h : (g.moof.tree (g.moofPos + 8)).find (u :: us) = some x) :
    (g.forest.tree 0).find (tyMoof :: u :: us) = some x := by
  rw [FragSegment.forest, find_withBoxes _ _ _ _
    (fun x hx => ⟨(hg.front x hx).1.1, plain_ne_container (hg.front x hx).1 moof_container⟩)]
  apply find_into_node
  simp only [Nat.zero_add]
  exact h

theorem FragSegment.find_mfhd (g : FragSegment) :
    (g.moof.tree (g.moofPos + 8)).find [tyMfhd]
      = some ⟨g.moofPos + 8, 8 + (g.vf ++ beBytes 4 g.seq).length, .nil⟩ := by
  rw [FragSegment.moof, find_hit_leaf]

theorem FragSegment.find_in_traf (g : FragSegment) (hg : g.Ok) {u : Bytes} {us : List Bytes}
    {x : Found} (h : (g.traf.tree (g.trafPos + 8)).find (u :: us) = some x) :
    (g.moof.tree (g.moofPos + 8)).find (tyTraf :: u :: us) = some x := by
  rw [FragSegment.moof, find_skip_leaf (by decide), find_withBoxes _ _ _ _
    (fun x hx => ⟨(hg.a x hx).1.1, plain_ne_container (hg.a x hx).1 traf_container⟩)]
  apply find_into_node
  exact h

theorem FragSegment.find_tfhd (g : FragSegment) (hg : g.Ok) :
    (g.traf.tree (g.trafPos + 8)).find [tyTfhd]
      = some ⟨g.tfhdPos, 8 + g.head.payload.length, .nil⟩ := by
  rw [FragSegment.traf, find_withBoxes _ _ _ _
    (fun x hx => ⟨(hg.p1 x hx).1.1, fun he => (hg.p1 x hx).2.2 (by simp [he])⟩), find_hit_leaf]
  rfl

theorem FragSegment.find_tfdt (g : FragSegment) (hg : g.Ok) :
    (g.traf.tree (g.trafPos + 8)).find [tyTfdt]
      = some ⟨g.tfdtPos, 8 + (tfdtPayload g.wide g.f2 g.f1 g.f0 g.time).length, .nil⟩ := by
  rw [FragSegment.traf, find_withBoxes _ _ _ _
    (fun x hx => ⟨(hg.p1 x hx).1.1, fun he => (hg.p1 x hx).2.2 (by simp [he])⟩),
    find_skip_leaf (by decide), find_withBoxes _ _ _ _
    (fun x hx => ⟨(hg.p2 x hx).1.1, fun he => (hg.p2 x hx).2.2 (by simp [he])⟩), find_hit_leaf]
  rfl

theorem FragSegment.find_trun (g : FragSegment) (hg : g.Ok) :
    (g.traf.tree (g.trafPos + 8)).find [tyTrun]
      = some ⟨g.trunPos, 8 + g.run.payload.length, .nil⟩ := by
  rw [FragSegment.traf, find_withBoxes _ _ _ _
    (fun x hx => ⟨(hg.p1 x hx).1.1, fun he => (hg.p1 x hx).2.2 (by simp [he])⟩),
    find_skip_leaf (by decide), find_withBoxes _ _ _ _
    (fun x hx => ⟨(hg.p2 x hx).1.1, fun he => (hg.p2 x hx).2.2 (by simp [he])⟩),
    find_skip_leaf (by decide), find_withBoxes _ _ _ _
    (fun x hx => ⟨(hg.q1 x hx).1.1, fun he => (hg.q1 x hx).2.2 (by simp [he])⟩), find_hit_leaf]
  rfl

theorem FragSegment.at_moof (g : FragSegment) : At g.bytes (g.moofPos + 8) g.moof.bytes := by
  have h : g.bytes = boxesBytes g.front ++ (boxBytes tyMoof g.moof.bytes ++ boxesBytes g.back) := by
    simp [FragSegment.bytes, FragSegment.forest, withBoxes_bytes, Forest.bytes]
  rw [h]
  exact At.box rfl (at_intro (boxesBytes g.front) (boxBytes tyMoof g.moof.bytes) (boxesBytes g.back))

theorem FragSegment.at_mfhd (g : FragSegment) :
    At g.bytes (g.moofPos + 8) (boxBytes tyMfhd (g.vf ++ beBytes 4 g.seq)) := by
  have h := g.at_moof
  rw [FragSegment.moof, Forest.bytes] at h
  exact h.left

theorem FragSegment.at_traf (g : FragSegment) : At g.bytes (g.trafPos + 8) g.traf.bytes := by
  have h := g.at_moof
  rw [FragSegment.moof, Forest.bytes] at h
  have h2 := h.right
  rw [withBoxes_bytes, boxBytes_len rfl] at h2
  have h3 := h2.right
  rw [Forest.bytes] at h3
  exact At.box rfl h3.left

theorem FragSegment.at_boxes (g : FragSegment) :
    At g.bytes g.tfhdPos (boxBytes tyTfhd g.head.payload) ∧
    At g.bytes g.tfdtPos (boxBytes tyTfdt (tfdtPayload g.wide g.f2 g.f1 g.f0 g.time)) ∧
    At g.bytes g.trunPos (boxBytes tyTrun g.run.payload) := by
  have h := g.at_traf
  rw [FragSegment.traf, withBoxes_bytes] at h
  have h1 := h.right
  rw [Forest.bytes, withBoxes_bytes] at h1
  have h2 := h1.right
  rw [boxBytes_len rfl] at h2
  have h3 := h2.right
  rw [Forest.bytes, withBoxes_bytes] at h3
  have h4 := h3.right
  rw [boxBytes_len rfl] at h4
  have h5 := h4.right
  rw [Forest.bytes] at h5
  exact ⟨h1.left, h3.left, h5.left⟩

/-- The first byte the samples are read from. -/
def FragSegment.mediaPos (g : FragSegment) : Int :=
  (if bitSet g.head.f0 0 then g.head.base else g.moofPos : Nat) +
    (if bitSet g.run.f0 0 then g.run.offset else 0)

/-- Decoding returns the samples of the run. -/
theorem FragSegment.decode (g : FragSegment) (hg : g.Ok) (trex : Trex) :
    decodeFragment g.bytes trex = .ok (runSamples g.head g.run trex
      (sliceFrom g.bytes g.mediaPos) g.run.rows g.time 0) := by
  obtain ⟨a1, a2, a3⟩ := g.at_boxes
  obtain ⟨run, hrun, hf, hoff, hrow, hcount, hrows⟩ := readTrun_ok g.bytes g.trunPos g.run hg.run a3
  have hmoof := g.find_moof hg
  have h1 := g.find_in_traf hg (g.find_tfhd hg)
  have h2 := g.find_in_traf hg (g.find_tfdt hg)
  have h3 := g.find_in_traf hg (g.find_trun hg)
  have hb : fragmentBoxes (g.forest.tree 0) = .ok
      (⟨g.moofPos, 8 + g.moof.bytes.length, g.moof.tree (g.moofPos + 8)⟩,
       ⟨g.tfhdPos, 8 + g.head.payload.length, .nil⟩,
       ⟨g.tfdtPos, 8 + (tfdtPayload g.wide g.f2 g.f1 g.f0 g.time).length, .nil⟩,
       ⟨g.trunPos, 8 + g.run.payload.length, .nil⟩) := by
    unfold fragmentBoxes
    rw [hmoof, needBox, py_step]
    simp only
    rw [h1, needBox, py_step, h2, needBox, py_step, h3, needBox, py_step]
    rfl
  unfold decodeFragment
  rw [g.parse hg, py_step, hb, py_step]
  simp only
  rw [readTfhd_ok g.bytes g.tfhdPos g.head hg.head a1, py_step,
    readTfdt_ok g.bytes g.tfdtPos g.wide g.f2 g.f1 g.f0 g.time hg.time a2, py_step, hrun, py_step]
  simp only
  rw [hcount, hoff, decodeRows_ok g.bytes _ g.head g.run trex run hf hrow g.run.rows run.rows g.time 0
    hg.run.rows hrows]
  congr 3
  unfold FragSegment.mediaPos
  cases bitSet g.head.f0 0 <;> rfl

end Verif
