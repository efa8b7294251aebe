import Verif.Props.InitInfo
import Verif.Muxer
/-
C14: multiplexed init segments.
-/
namespace Verif

theorem partsLeaf_reads (ty d : Bytes) (s : InitParts) (o : Bytes) (s' : InitParts)
    (h : partsLeaf ty d s = .ok (o, s')) : o = d := by
  unfold partsLeaf at h
  (repeat' split at h) <;> first | (cases h; done) | (cases h; rfl)

theorem partsLeaf_frame (ty d : Bytes) (s : InitParts) (o : Bytes) (s' : InitParts)
    (h : partsLeaf ty d s = .ok (o, s')) :
    (ty ≠ [102, 116, 121, 112] → s'.ftyp = s.ftyp) ∧
    (ty ≠ [109, 118, 104, 100] → s'.mvhd = s.mvhd) ∧
    (ty ≠ [116, 114, 101, 120] → s'.trex = s.trex) ∧
    (ty ≠ [116, 114, 97, 107] → s'.trak = s.trak) := by
  unfold partsLeaf at h
  (repeat' split at h) <;> first
    | (cases h; done)
    | (cases h; subst_vars; refine ⟨?_, ?_, ?_, ?_⟩ <;> intro hh <;> first | rfl | exact absurd rfl hh)

theorem initParts_eq (f : Forest) (hf : f.Ok partsRules.composite) :
    initParts f.bytes = readAll partsLeaf (f.leavesInside partsRules.top) {} := by
  unfold initParts
  rw [C08_refines partsRules f {} hf]
  have h := rewriteTop_read (comp := partsRules.composite) partsRules.top partsLeaf_reads f {} hf
  rw [← h]
  have e : partsRules.leaf = partsLeaf := rfl
  rw [e]
  cases f.rewriteTop partsLeaf partsRules.top {} <;> rfl

/-- An init segment with exactly one of each box the multiplexer needs: file type and movie
header, track defaults and track. -/
structure InitInput (f : Forest) (ftyp mvhd trex trak : Bytes) : Prop where
  ok : f.Ok [[109, 111, 111, 118], [109, 118, 101, 120]]
  text : ∀ x ∈ f.leavesInside [[102, 116, 121, 112], [109, 111, 111, 118]], utf8Valid x.1 = true
  ftyp : OnlyBox (f.leavesInside [[102, 116, 121, 112], [109, 111, 111, 118]]) [102, 116, 121, 112] ftyp
  mvhd : OnlyBox (f.leavesInside [[102, 116, 121, 112], [109, 111, 111, 118]]) [109, 118, 104, 100] mvhd
  trex : OnlyBox (f.leavesInside [[102, 116, 121, 112], [109, 111, 111, 118]]) [116, 114, 101, 120] trex
  trak : OnlyBox (f.leavesInside [[102, 116, 121, 112], [109, 111, 111, 118]]) [116, 114, 97, 107] trak

theorem readAll_parts (l : List (Bytes × Bytes)) (h : ∀ x ∈ l, utf8Valid x.1 = true) :
    ∀ s, ∃ s', readAll partsLeaf l s = .ok s' := by
  induction l with
  | nil => intro s; exact ⟨s, rfl⟩
  | cons x l ih =>
    intro s
    have : ∃ s1, partsLeaf x.1 (boxBytes x.1 x.2) s = .ok (boxBytes x.1 x.2, s1) := by
      unfold partsLeaf
      rw [if_pos (h x (by simp))]
      repeat' split
      all_goals exact ⟨_, rfl⟩
    obtain ⟨s1, h1⟩ := this
    obtain ⟨s2, h2⟩ := ih (fun y hy => h y (by simp [hy])) s1
    exact ⟨s2, by rw [readAll, h1]; exact h2⟩

theorem initParts_input {f : Forest} {ftyp mvhd trex trak : Bytes} (h : InitInput f ftyp mvhd trex trak) :
    initParts f.bytes = .ok ⟨some (boxBytes [102, 116, 121, 112] ftyp),
      some (boxBytes [109, 118, 104, 100] mvhd), some (boxBytes [116, 114, 101, 120] trex),
      some (boxBytes [116, 114, 97, 107] trak)⟩ := by
  rw [initParts_eq f h.ok]
  obtain ⟨s, hs⟩ := readAll_parts _ h.text {}
  have hs' : readAll partsLeaf (f.leavesInside partsRules.top) {} = .ok s := hs
  have e1 : s.ftyp = _ := readAll_one InitParts.ftyp [102, 116, 121, 112] ftyp
    (some (boxBytes [102, 116, 121, 112] ftyp))
    (fun u d s o s' hu hl => (partsLeaf_frame u d s o s' hl).1 hu)
    (by intro s o s' hl; simp [partsLeaf] at hl; rw [← hl.2]) _ _ _ h.ftyp hs
  have e2 : s.mvhd = _ := readAll_one InitParts.mvhd [109, 118, 104, 100] mvhd
    (some (boxBytes [109, 118, 104, 100] mvhd))
    (fun u d s o s' hu hl => (partsLeaf_frame u d s o s' hl).2.1 hu)
    (by intro s o s' hl; simp [partsLeaf] at hl; rw [← hl.2]) _ _ _ h.mvhd hs
  have e3 : s.trex = _ := readAll_one InitParts.trex [116, 114, 101, 120] trex
    (some (boxBytes [116, 114, 101, 120] trex))
    (fun u d s o s' hu hl => (partsLeaf_frame u d s o s' hl).2.2.1 hu)
    (by intro s o s' hl; simp [partsLeaf] at hl; rw [← hl.2]) _ _ _ h.trex hs
  have e4 : s.trak = _ := readAll_one InitParts.trak [116, 114, 97, 107] trak
    (some (boxBytes [116, 114, 97, 107] trak))
    (fun u d s o s' hu hl => (partsLeaf_frame u d s o s' hl).2.2.2 hu)
    (by intro s o s' hl; simp [partsLeaf] at hl; rw [← hl.2]) _ _ _ h.trak hs
  rw [hs']
  congr 1
  cases s
  simp only at e1 e2 e3 e4
  rw [e1, e2, e3, e4]

/-- The multiplexed init segment as boxes. -/
def muxedInit (ftyp mvhd trex1 trex2 trak1 trak2 : Bytes) : Forest :=
  .leaf [102, 116, 121, 112] ftyp <|
  .node [109, 111, 111, 118]
    (.leaf [109, 118, 104, 100] mvhd <|
     .node [109, 118, 101, 120]
       (.leaf [116, 114, 101, 120] trex1 (.leaf [116, 114, 101, 120] trex2 .nil)) <|
     .leaf [116, 114, 97, 107] trak1 (.leaf [116, 114, 97, 107] trak2 .nil)) .nil

theorem boxBytes_of_len (ty c : Bytes) (n : Nat) (h : 8 + c.length = n) :
    boxBytes ty c = beBytes 4 n ++ ty ++ c := by subst h; rfl

/-- **C14 (content).** For every pair of init segments with the required boxes whose
multiplexed form fits 32-bit sizes, the result is the file type box of the first, then one movie
box with the movie header of the first, one extends box with both track defaults, and both
tracks.  Every size field is the length of its box. -/
theorem C14_content (f g : Forest) (ft mv tx tk ft' mv' tx' tk' : Bytes)
    (h1 : InitInput f ft mv tx tk) (h2 : InitInput g ft' mv' tx' tk')
    (hsize : 56 + mv.length + tx.length + tx'.length + tk.length + tk'.length < 2 ^ 32) :
    muxInits f.bytes g.bytes = .ok (muxedInit ft mv tx tx' tk tk').bytes := by
  have hr : ∀ {α β : Type} (x : α) (k : α → Py β), (Except.ok x >>= k : Py β) = k x := fun _ _ => rfl
  unfold muxInits
  rw [initParts_input h1, initParts_input h2, hr, hr]
  unfold constructMuxed theBox
  simp only [hr]
  simp only [boxBytes_len (ty := [116, 114, 101, 120]) rfl, boxBytes_len (ty := [109, 118, 104, 100]) rfl,
    boxBytes_len (ty := [116, 114, 97, 107]) rfl]
  have e1 : uint32ToStr ((8 + (8 + mv.length) + (8 + (8 + tx.length) + (8 + tx'.length)) +
      (8 + tk.length) + (8 + tk'.length) : Nat) : Int) = .ok (beBytes 4 _) :=
    uint32ToStr_nat (by omega)
  have e2 : uint32ToStr ((8 + (8 + tx.length) + (8 + tx'.length) : Nat) : Int) = .ok (beBytes 4 _) :=
    uint32ToStr_nat (by omega)
  rw [e1, hr, e2, hr]
  show Except.ok _ = Except.ok _
  congr 1
  have hA : (boxBytes [109, 118, 104, 100] mv ++ (boxBytes [109, 118, 101, 120]
      (boxBytes [116, 114, 101, 120] tx ++ boxBytes [116, 114, 101, 120] tx') ++
      (boxBytes [116, 114, 97, 107] tk ++ boxBytes [116, 114, 97, 107] tk'))).length =
      (8 + mv.length) + (8 + (8 + tx.length) + (8 + tx'.length)) + (8 + tk.length) + (8 + tk'.length) := by
    simp only [List.length_append, boxBytes_len (ty := [116, 114, 101, 120]) rfl,
      boxBytes_len (ty := [109, 118, 104, 100]) rfl, boxBytes_len (ty := [109, 118, 101, 120]) rfl,
      boxBytes_len (ty := [116, 114, 97, 107]) rfl]
    omega
  have hB : (boxBytes [116, 114, 101, 120] tx ++ boxBytes [116, 114, 101, 120] tx').length =
      (8 + tx.length) + (8 + tx'.length) := by
    simp only [List.length_append, boxBytes_len (ty := [116, 114, 101, 120]) rfl]
  have hB' := boxBytes_of_len [109, 118, 101, 120] _ (8 + (8 + tx.length) + (8 + tx'.length))
    (by rw [hB]; omega)
  have hA' := boxBytes_of_len [109, 111, 111, 118] _ (8 + (8 + mv.length) +
    (8 + (8 + tx.length) + (8 + tx'.length)) + (8 + tk.length) + (8 + tk'.length))
    (by rw [hA]; omega)
  simp only [muxedInit, Forest.bytes, List.append_nil]
  rw [hA', hB']
  simp only [List.append_assoc]

theorem boxBytes_append_inj {ty ty' c c' r r' : Bytes} (h1 : ty.length = 4) (h2 : ty'.length = 4)
    (l1 : 8 + c.length < 2 ^ 32) (l2 : 8 + c'.length < 2 ^ 32)
    (h : boxBytes ty c ++ r = boxBytes ty' c' ++ r') : ty = ty' ∧ c = c' ∧ r = r' := by
  unfold boxBytes at h
  simp only [List.append_assoc] at h
  obtain ⟨e1, h⟩ := List.append_inj h (by simp)
  obtain ⟨e2, h⟩ := List.append_inj h (by rw [h1, h2])
  have e3 : c.length = c'.length := by
    have := beBytes_inj (k := 4) (by omega) (by omega) e1
    omega
  obtain ⟨e4, e5⟩ := List.append_inj h e3
  exact ⟨e2, e4, e5⟩

/-- A file can be read as boxes in only one way. -/
theorem forest_bytes_inj {comp : List Bytes} (f : Forest) : ∀ g : Forest, f.Ok comp → g.Ok comp →
    f.bytes = g.bytes → f = g := by
  have hne : ∀ ty c r, boxBytes ty c ++ r ≠ [] := by
    intro ty c r h
    have := congrArg List.length h
    simp [boxBytes] at this
  induction f with
  | nil =>
    intro g _ _ h
    cases g with
    | nil => rfl
    | leaf ty p rest => exact absurd h.symm (hne ty p _)
    | node ty kids rest => exact absurd h.symm (hne ty _ _)
  | leaf ty p rest ih =>
    intro g hf hg h
    cases g with
    | nil => exact absurd h (hne ty p _)
    | leaf ty' p' rest' =>
      obtain ⟨e1, e2, e3⟩ := boxBytes_append_inj hf.1 hg.1 hf.2.2.1 hg.2.2.1 h
      rw [e1, e2, ih rest' hf.2.2.2 hg.2.2.2 e3]
    | node ty' kids' rest' =>
      obtain ⟨e1, e2, e3⟩ := boxBytes_append_inj hf.1 hg.1 hf.2.2.1 hg.2.2.1 h
      exact absurd (e1 ▸ hg.2.1) hf.2.1
  | node ty kids rest ih1 ih2 =>
    intro g hf hg h
    cases g with
    | nil => exact absurd h (hne ty _ _)
    | leaf ty' p' rest' =>
      obtain ⟨e1, e2, e3⟩ := boxBytes_append_inj hf.1 hg.1 hf.2.2.1 hg.2.2.1 h
      exact absurd (e1 ▸ hf.2.1) hg.2.1
    | node ty' kids' rest' =>
      obtain ⟨e1, e2, e3⟩ := boxBytes_append_inj hf.1 hg.1 hf.2.2.1 hg.2.2.1 h
      rw [e1, ih1 kids' hf.2.2.2.1 hg.2.2.2.1 e2, ih2 rest' hf.2.2.2.2 hg.2.2.2.2 e3]

/-- **C14 (reading back).** Whoever reads the multiplexed init segment as a sequence of boxes,
looking into the movie box and the extends box, finds exactly these boxes. -/
theorem C14_reading (f g r : Forest) (ft mv tx tk ft' mv' tx' tk' : Bytes)
    (h1 : InitInput f ft mv tx tk) (h2 : InitInput g ft' mv' tx' tk') (hft : 8 + ft.length < 2 ^ 32)
    (hsize : 56 + mv.length + tx.length + tx'.length + tk.length + tk'.length < 2 ^ 32)
    (hr : r.Ok [[109, 111, 111, 118], [109, 118, 101, 120]])
    (hout : muxInits f.bytes g.bytes = .ok r.bytes) : r = muxedInit ft mv tx tx' tk tk' := by
  rw [C14_content f g ft mv tx tk ft' mv' tx' tk' h1 h2 hsize] at hout
  have e : (muxedInit ft mv tx tx' tk tk').bytes = r.bytes := by injection hout
  refine forest_bytes_inj r _ hr ?_ e.symm
  unfold muxedInit
  simp only [Forest.Ok, Forest.bytes, List.length_append, List.append_nil,
    boxBytes_len (ty := [116, 114, 101, 120]) rfl,
    boxBytes_len (ty := [109, 118, 104, 100]) rfl, boxBytes_len (ty := [109, 118, 101, 120]) rfl,
    boxBytes_len (ty := [116, 114, 97, 107]) rfl]
  refine ⟨rfl, by decide, hft, rfl, by decide, by omega, ⟨rfl, by decide, by omega, rfl, by decide,
    by omega, ⟨rfl, by decide, by omega, rfl, by decide, by omega, trivial⟩, rfl, by decide,
    by omega, rfl, by decide, by omega, trivial⟩, trivial⟩

/-- Two small init segments that meet the hypotheses. -/
def muxInput (n : UInt8) : Forest :=
  .leaf [102, 116, 121, 112] [105, 115, 111, 54] <|
  .node [109, 111, 111, 118]
    (.leaf [109, 118, 104, 100] [n, 1] <|
     .leaf [116, 114, 97, 107] [n, 2, 3] <|
     .node [109, 118, 101, 120] (.leaf [116, 114, 101, 120] [n] .nil) <|
     .leaf [117, 100, 116, 97] [9] .nil) .nil

theorem muxInput_ok (n : UInt8) : InitInput (muxInput n) [105, 115, 111, 54] [n, 1] [n] [n, 2, 3] where
  ok := by
    unfold muxInput
    simp only [Forest.Ok, Forest.bytes, List.length_append, boxBytes, beBytes_length, List.length_cons,
      List.length_nil]
    decide
  text := by
    intro x hx
    have : x ∈ [([102, 116, 121, 112], [105, 115, 111, 54]), ([109, 118, 104, 100], [n, 1]),
      ([116, 114, 97, 107], [n, 2, 3]), ([116, 114, 101, 120], [n]), ([117, 100, 116, 97], [9])] := hx
    simp only [List.mem_cons, List.not_mem_nil, or_false] at this
    rcases this with rfl | rfl | rfl | rfl | rfl <;> (simp only; decide +kernel)
  ftyp := rfl
  mvhd := rfl
  trex := rfl
  trak := rfl

example : muxInits (muxInput 1).bytes (muxInput 2).bytes =
    .ok (muxedInit [105, 115, 111, 54] [1, 1] [1] [2] [1, 2, 3] [2, 2, 3]).bytes :=
  C14_content _ _ _ _ _ _ _ _ _ _ (muxInput_ok 1) (muxInput_ok 2) (by decide)

end Verif
