import Verif.Spec.Encryption
import Verif.Lemmas.MovieBox
/-
C59: fragments with auxiliary information for encrypted samples, and the fragments without.
-/
namespace Verif

/-- As `encryptor.encrypt` returns it. -/
def AuxSample.given (a : AuxSample) : SencSample := ⟨a.iv, a.subsamples.map (fun u => ((u.1 : Int), (u.2 : Int)))⟩

theorem serializeU64_nat {n : Nat} (h : n < 2 ^ 64) : serializeU64 (n : Int) = .ok (beBytes 8 n) := by
  unfold serializeU64 uint64ToStr
  rw [if_pos (by omega)]
  rfl

theorem joinPy_append_ok {l1 l2 : List (Py Bytes)} {p q : Bytes} (h1 : joinPy l1 = .ok p)
    (h2 : joinPy l2 = .ok q) : joinPy (l1 ++ l2) = .ok (p ++ q) := by
  induction l1 generalizing p with
  | nil => cases h1; exact h2
  | cons x l ih =>
    obtain ⟨a, b, rfl, hb, rfl⟩ := joinPy_cons h1
    rw [List.cons_append, List.append_assoc]
    exact joinPy_cons_ok rfl (ih hb)

theorem joinPy_flatMap {α : Type} (f : α → List (Py Bytes)) (g : α → Bytes) (l : List α)
    (h : ∀ x ∈ l, joinPy (f x) = .ok (g x)) : joinPy (l.flatMap f) = .ok (l.flatMap g) := by
  induction l with
  | nil => rfl
  | cons x l ih =>
    rw [List.flatMap_cons, List.flatMap_cons]
    exact joinPy_append_ok (h x (by simp)) (ih (fun y hy => h y (by simp [hy])))

theorem pairs_iter (l : List (Nat × Nat)) (hl : l.length < 2 ^ 16) (h : ∀ u ∈ l, u.1 < 2 ^ 16 ∧ u.2 < 2 ^ 32) :
    joinPy (y16 ((l.map (fun u => ((u.1 : Int), (u.2 : Int)))).length : Nat) ::
      (l.map (fun u => ((u.1 : Int), (u.2 : Int)))).flatMap (fun u => [y16 u.1, y32 u.2]))
      = .ok (pairBytes l) := by
  rw [List.length_map, y16_nat hl]
  refine joinPy_cons_ok rfl ?_
  rw [List.flatMap_map]
  apply joinPy_flatMap
  intro u hu
  simp only []
  rw [y16_nat (h u hu).1, y32_nat (h u hu).2]
  simp [joinPy]

/-- The content of the encryption box. -/
def sencContent (l : List AuxSample) : Bytes :=
  beBytes 4 (if l.any (fun a => decide (a.subsamples ≠ [])) then 2 else 0) ++
    (beBytes 4 l.length ++ l.flatMap AuxSample.bytes)

theorem given_kind {l : List AuxSample} (h : OneKind l) : SameKind (l.map AuxSample.given) := by
  rcases h with h | h
  · left
    intro s hs
    obtain ⟨a, ha, rfl⟩ := List.mem_map.mp hs
    have := h a ha
    simpa [AuxSample.given] using this
  · right
    intro s hs
    obtain ⟨a, ha, rfl⟩ := List.mem_map.mp hs
    simp [AuxSample.given, h a ha]

theorem given_any (l : List AuxSample) :
    (l.map AuxSample.given).any (fun s => decide (s.subsamples ≠ []))
      = l.any (fun a => decide (a.subsamples ≠ [])) := by
  rw [List.any_map]
  congr 1
  funext a
  simp [AuxSample.given]

theorem senc_iter (l : List AuxSample) (hk : OneKind l) (hf : ∀ a ∈ l, a.Fits) (hl : l.length < 2 ^ 32)
    (hlt : 8 + (sencContent l).length < 2 ^ 32) :
    (sencObj 8 (l.map AuxSample.given)).iter = .ok (boxBytes [115, 101, 110, 99] (sencContent l)) := by
  have hg := (good_senc _ (given_kind hk)).exact
  obtain ⟨h1, h2, h3⟩ := senc_fields (l.map AuxSample.given) { ivSize := 8 }
  have hj : joinPy (y32 (if (l.map AuxSample.given).any (fun s => decide (s.subsamples ≠ [])) then 2 else 0) ::
      y32 ((l.map AuxSample.given).length : Nat) :: (l.map AuxSample.given).flatMap (sencEntry
        (if (l.map AuxSample.given).any (fun s => decide (s.subsamples ≠ [])) then 2 else 0)))
      = .ok (sencContent l) := by
    rw [given_any, List.length_map, y32_nat hl]
    have e0 : y32 (if l.any (fun a => decide (a.subsamples ≠ [])) then 2 else 0)
        = .ok (beBytes 4 (if l.any (fun a => decide (a.subsamples ≠ [])) then 2 else 0)) := by
      cases l.any (fun a => decide (a.subsamples ≠ [])) <;> rfl
    rw [e0]
    refine joinPy_cons_ok rfl (joinPy_cons_ok rfl ?_)
    rw [List.flatMap_map]
    apply joinPy_flatMap
    intro a ha
    obtain ⟨f1, f2, f3⟩ := hf a ha
    unfold sencEntry AuxSample.bytes
    show joinPy (serializeU64 (a.iv : Int) :: _) = _
    rw [serializeU64_nat f1]
    refine joinPy_cons_ok rfl ?_
    rcases hk with hk | hk
    · have hany : l.any (fun a => decide (a.subsamples ≠ [])) = true := by
        rw [List.any_eq_true]; exact ⟨a, ha, by simpa using hk a ha⟩
      rw [hany, if_pos rfl, if_neg (hk a ha)]
      exact pairs_iter a.subsamples f2 f3
    · have hany : l.any (fun a => decide (a.subsamples ≠ [])) = false := by
        rw [List.any_eq_false]; intro z hz; simp [hk z hz]
      rw [hany, if_pos (hk a ha)]
      rfl
  have hsz : (sencObj 8 (l.map AuxSample.given)).size = 8 + (sencContent l).length := by
    have hi : (sencObj 8 (l.map AuxSample.given)).iter = .ok (serializeU32 (sencObj 8 (l.map AuxSample.given)).size
        ++ (serializeName [115, 101, 110, 99] ++ sencContent l)) := by
      unfold sencObj SencBox.obj
      rw [h1, h2]
      exact joinPy_cons_ok rfl (joinPy_cons_ok rfl hj)
    have := hg _ hi
    rw [List.length_append, List.length_append, serializeName_length] at this
    simp only [serializeU32, beBytes_length] at this
    omega
  have : sencObj 8 (l.map AuxSample.given) = boxObj (sencObj 8 (l.map AuxSample.given)).size [115, 101, 110, 99]
      (y32 (if (l.map AuxSample.given).any (fun s => decide (s.subsamples ≠ [])) then 2 else 0) ::
      y32 ((l.map AuxSample.given).length : Nat) :: (l.map AuxSample.given).flatMap (sencEntry
        (if (l.map AuxSample.given).any (fun s => decide (s.subsamples ≠ [])) then 2 else 0))) := by
    conv => lhs; unfold sencObj SencBox.obj
    rw [h1, h2]
    rfl
  rw [this]
  exact boxObj_box hj rfl hsz hlt

/-! ### The run -/

/-- The content of the run. -/
def madeRun (samples : List Sample) (off : Nat) : Bytes :=
  beBytes 4 (if useComp samples then 0xf01 else 0x701) ++ (beBytes 4 samples.length ++ (beBytes 4 off ++
    samples.flatMap (trunEntry (useComp samples))))

theorem runRows_length (comp : Bool) (l : List Sample) :
    (l.flatMap (trunEntry comp)).length = l.length * (12 + if comp then 4 else 0) := by
  induction l with
  | nil => simp
  | cons x l ih =>
    rw [List.flatMap_cons, List.length_append, ih, trunEntry_len, List.length_cons, Nat.succ_mul]
    omega

theorem madeRun_length (samples : List Sample) (off : Nat) :
    8 + (madeRun samples off).length = trunSize samples := by
  unfold madeRun trunSize
  simp only [List.length_append, beBytes_length, runRows_length]
  omega

theorem run_iter (samples : List Sample) (off : Nat) (hlt : trunSize samples < 2 ^ 32) (ho : off < 2 ^ 32) :
    (trunObj samples off).iter = .ok (boxBytes [116, 114, 117, 110] (madeRun samples off)) := by
  have hn : samples.length < 2 ^ 32 := by
    unfold trunSize at hlt
    have := Nat.le_mul_of_pos_right samples.length (show 0 < 12 + (if useComp samples then 4 else 0) by omega)
    omega
  refine boxObj_box (r := madeRun samples off) ?_ rfl (madeRun_length samples off).symm
    (by rw [madeRun_length]; exact hlt)
  rw [y32_nat hn, y32_nat ho]
  have e0 : y32 (if useComp samples then 0xf01 else 0x701)
      = .ok (beBytes 4 (if useComp samples then 0xf01 else 0x701)) := by
    cases useComp samples <;> rfl
  rw [e0]
  refine joinPy_cons_ok rfl (joinPy_cons_ok rfl (joinPy_cons_ok rfl ?_))
  have := joinPy_flatMap (fun s => [.ok (trunEntry (useComp samples) s)]) (trunEntry (useComp samples)) samples
    (fun x _ => by simp [joinPy])
  rwa [List.map_eq_flatMap]

theorem drop_rows {α : Type} (f : α → Bytes) (w : Nat) (l : List α) (hw : ∀ x ∈ l, (f x).length = w) :
    ∀ k x, l[k]? = some x → ∃ rest, (l.flatMap f).drop (k * w) = f x ++ rest := by
  induction l with
  | nil => intro k x h; simp at h
  | cons y l ih =>
    intro k x h
    cases k with
    | zero =>
      simp only [List.getElem?_cons_zero, Option.some.injEq] at h
      subst h
      exact ⟨l.flatMap f, by rw [Nat.zero_mul, List.drop_zero, List.flatMap_cons]⟩
    | succ k =>
      rw [List.getElem?_cons_succ] at h
      obtain ⟨rest, hr⟩ := ih (fun z hz => hw z (by simp [hz])) k x h
      refine ⟨rest, ?_⟩
      rw [List.flatMap_cons, Nat.succ_mul, Nat.add_comm, List.drop_append, ← hr, hw y (by simp)]
      simp [hw y (by simp)]

theorem run_row (samples : List Sample) (off k : Nat) (s : Sample) (hk : samples[k]? = some s)
    (hd : s.duration < 2 ^ 32) (hs : s.data.length < 2 ^ 32) :
    fieldAt (madeRun samples off) (12 + k * (12 + if useComp samples then 4 else 0)) 4 = s.duration ∧
    fieldAt (madeRun samples off) (16 + k * (12 + if useComp samples then 4 else 0)) 4 = s.data.length := by
  obtain ⟨rest, hr⟩ := drop_rows (trunEntry (useComp samples)) _ samples
    (fun x _ => trunEntry_len (useComp samples) x) k s hk
  have e : (madeRun samples off).drop (12 + k * (12 + if useComp samples then 4 else 0))
      = beBytes 4 s.duration ++ (beBytes 4 s.data.length ++ ((serializeU32 (if s.sync then 0x02000000 else 0x01010000) ++
        (if useComp samples then serializeU32 s.offset else [])) ++ rest)) := by
    have e1 : madeRun samples off = (beBytes 4 (if useComp samples then 0xf01 else 0x701) ++
      (beBytes 4 samples.length ++ beBytes 4 off)) ++ samples.flatMap (trunEntry (useComp samples)) := by
      simp [madeRun]
    rw [e1, ← List.drop_drop, List.drop_left' (by simp), hr]
    unfold trunEntry
    rw [serializeU32_nat hd, serializeU32_nat hs]
    simp only [List.append_assoc]
  constructor
  · unfold fieldAt slice
    rw [e, Nat.add_sub_cancel_left, List.take_left' (by simp)]
    exact beVal_beBytes_of_lt hd
  · unfold fieldAt slice
    rw [show 16 + k * (12 + if useComp samples then 4 else 0) = (12 + k * (12 + if useComp samples then 4 else 0)) + 4
      by omega, ← List.drop_drop, e, List.drop_left' (by simp), Nat.add_sub_cancel_left, List.take_left' (by simp)]
    exact beVal_beBytes_of_lt hs

theorem mdat_iter (samples : List Sample) (hlt : 8 + (samples.flatMap Sample.data).length < 2 ^ 32) :
    (createMdatObj samples).iter = .ok (boxBytes [109, 100, 97, 116] (samples.flatMap Sample.data)) := by
  refine boxObj_box ?_ rfl ?_ hlt
  · have := joinPy_flatMap (fun s => [.ok (Sample.data s)]) Sample.data samples (fun x _ => by simp [joinPy])
    rw [List.map_map, List.map_eq_flatMap]
    exact this
  · rw [List.length_flatMap, List.map_map]
    rfl

/-! ### The fragment -/

/-- The boxes of an encrypted fragment, by their contents. -/
structure EncryptedBoxes where
  mfhd : Bytes
  tfhd : Bytes
  tfdt : Bytes
  saiz : Bytes
  saio : Bytes
  senc : Bytes
  trun : Bytes

/-- The movie fragment box with these contents. -/
def EncryptedBoxes.forest (e : EncryptedBoxes) : Forest :=
  .node [109, 111, 111, 102]
    (.leaf [109, 102, 104, 100] e.mfhd <|
     .node [116, 114, 97, 102]
      (.leaf [116, 102, 104, 100] e.tfhd <|
       .leaf [116, 102, 100, 116] e.tfdt <|
       .leaf [115, 97, 105, 122] e.saiz <|
       .leaf [115, 97, 105, 111] e.saio <|
       .leaf [115, 101, 110, 99] e.senc <|
       .leaf [116, 114, 117, 110] e.trun .nil) .nil) .nil

/-- What `create_moof` writes. -/
def madeEncrypted (seq track time : Nat) (samples : List Sample) (aux : List AuxSample) : EncryptedBoxes where
  mfhd := beBytes 4 0 ++ beBytes 4 seq
  tfhd := beBytes 4 0x20000 ++ beBytes 4 track
  tfdt := beBytes 4 0x01000000 ++ beBytes 8 time
  saiz := beBytes 4 0 ++ (beBytes 1 8 ++ beBytes 4 0)
  saio := beBytes 4 0 ++ (beBytes 4 1 ++ beBytes 4 121)
  senc := sencContent aux
  trun := madeRun samples (121 + (aux.flatMap AuxSample.bytes).length + trunSize samples + 8)

theorem sencContent_length (l : List AuxSample) : (sencContent l).length = 8 + (l.flatMap AuxSample.bytes).length := by
  simp only [sencContent, List.length_append, beBytes_length]
  omega

theorem moof_encrypted (seq track : Nat) (s : Sample) (l : List Sample) (aux : List AuxSample)
    (hseq : seq < 2 ^ 32) (htrack : track < 2 ^ 32) (htime : s.time < 2 ^ 64) (hk : OneKind aux)
    (hf : ∀ a ∈ aux, a.Fits) (haux : aux.length < 2 ^ 32)
    (hlt : (aux.flatMap AuxSample.bytes).length + trunSize (s :: l) + 200 < 2 ^ 32) :
    ∃ b, createMoofObj seq track (s :: l) (some (aux.map AuxSample.given)) = .ok b ∧
      b.iter = .ok (madeEncrypted seq track s.time (s :: l) aux).forest.bytes := by
  have hsl := sencContent_length aux
  have hse := senc_iter aux hk hf haux (by omega)
  have hsz : (sencObj 8 (aux.map AuxSample.given)).size = 16 + (aux.flatMap AuxSample.bytes).length := by
    have := (good_senc _ (given_kind hk)).exact _ hse
    rw [boxBytes_lens] at this
    simp only [List.length_cons, List.length_nil] at this
    omega
  have hsum : ∀ off : Int, (boxContainer [109, 111, 111, 102] [mfhdObj seq, boxContainer [116, 114, 97, 102]
      ([tfhdObj track, tfdtObj s.time] ++ [saizObj 8 [], saioObj 121, sencObj 8 (aux.map AuxSample.given)] ++
        [trunObj (s :: l) off])]).size = 121 + (aux.flatMap AuxSample.bytes).length + trunSize (s :: l) := by
    intro off
    show 8 + (16 + (8 + (16 + (20 + (17 + (20 + ((sencObj 8 (aux.map AuxSample.given)).size + (trunSize (s :: l) + 0))))))
      + 0)) = _
    omega
  have hsum0 := hsum 0
  have e121 : ((boxContainer [109, 111, 111, 102] [mfhdObj seq, boxContainer [116, 114, 97, 102]
      ([tfhdObj track, tfdtObj s.time] ++ [saizObj 8 []])]).size : Int) + 16 + 20 = 121 := rfl
  have hoff : ((121 + (aux.flatMap AuxSample.bytes).length + trunSize (s :: l) : Nat) : Int) + 8
      = ((121 + (aux.flatMap AuxSample.bytes).length + trunSize (s :: l) + 8 : Nat) : Int) := by omega
  refine ⟨boxContainer [109, 111, 111, 102] [mfhdObj seq, boxContainer [116, 114, 97, 102]
      ([tfhdObj track, tfdtObj s.time] ++ [saizObj 8 [], saioObj 121, sencObj 8 (aux.map AuxSample.given)] ++
        [trunObj (s :: l) ((121 + (aux.flatMap AuxSample.bytes).length + trunSize (s :: l) + 8 : Nat) : Int)])], ?_, ?_⟩
  · rw [← hoff, ← hsum0, ← e121]
    rfl
  have hrun := run_iter (s :: l) (121 + (aux.flatMap AuxSample.bytes).length + trunSize (s :: l) + 8)
    (by omega) (by omega)
  have hmf : (mfhdObj seq).iter = .ok (boxBytes [109, 102, 104, 100] (beBytes 4 0 ++ beBytes 4 seq)) := by
    refine boxObj_box ?_ rfl rfl (by simp only [List.length_append, beBytes_length]; decide)
    rw [y32_nat hseq]
    rfl
  have htf : (tfhdObj track).iter = .ok (boxBytes [116, 102, 104, 100] (beBytes 4 0x20000 ++ beBytes 4 track)) := by
    refine boxObj_box ?_ rfl rfl (by simp only [List.length_append, beBytes_length]; decide)
    rw [y32_nat htrack]
    rfl
  have htd : (tfdtObj s.time).iter = .ok (boxBytes [116, 102, 100, 116] (beBytes 4 0x01000000 ++ beBytes 8 s.time)) := by
    refine boxObj_box ?_ rfl rfl (by simp only [List.length_append, beBytes_length]; decide)
    rw [serializeU64_nat htime]
    rfl
  have hsa : (saizObj 8 []).iter = .ok (boxBytes [115, 97, 105, 122] (beBytes 4 0 ++ (beBytes 1 8 ++ beBytes 4 0))) := by
    decide +kernel
  have hso : (saioObj 121).iter = .ok (boxBytes [115, 97, 105, 111] (beBytes 4 0 ++ (beBytes 4 1 ++ beBytes 4 121))) := by
    decide +kernel
  have hk1 := kids_leaf htf (kids_leaf htd (kids_leaf hsa (kids_leaf hso (kids_leaf hse (kids_leaf hrun kids_nil)))))
  have hb1 : ∀ b ∈ [tfhdObj track, tfdtObj s.time, saizObj 8 [], saioObj 121, sencObj 8 (aux.map AuxSample.given),
      trunObj (s :: l) ((121 + (aux.flatMap AuxSample.bytes).length + trunSize (s :: l) + 8 : Nat) : Int)], Built b := by
    intro b hb
    simp only [List.mem_cons, List.not_mem_nil, or_false] at hb
    rcases hb with rfl | rfl | rfl | rfl | rfl | rfl
    · exact .tfhd _
    · exact .tfdt _
    · exact .saiz _ _
    · exact .saio _
    · exact .senc _ (given_kind hk)
    · exact .trun _ _
  have hrl := madeRun_length (s :: l) (121 + (aux.flatMap AuxSample.bytes).length + trunSize (s :: l) + 8)
  have ht := container_box (name := [116, 114, 97, 102]) hk1 rfl hb1 (by
    simp only [length_leaf, length_nil, List.length_append, beBytes_length, List.length_cons, List.length_nil]
    omega)
  have hk2 := kids_leaf hmf (kids_node ht kids_nil)
  have hroot : (madeEncrypted seq track s.time (s :: l) aux).forest.bytes = boxBytes [109, 111, 111, 102] _ :=
    List.append_nil _
  rw [hroot]
  refine container_box (name := [109, 111, 111, 102]) hk2 rfl ?_ ?_
  · intro b hb
    simp only [List.mem_cons, List.not_mem_nil, or_false] at hb
    rcases hb with rfl | rfl
    · exact .mfhd _
    · exact .container _ _ (by decide +kernel) hb1
  · simp only [madeEncrypted, length_leaf, length_node, length_nil, List.length_append, beBytes_length,
      List.length_cons, List.length_nil]
    omega

theorem data_le {x : Sample} {l : List Sample} (h : x ∈ l) : x.data.length ≤ (l.flatMap Sample.data).length := by
  induction l with
  | nil => cases h
  | cons y l ih =>
    rw [List.flatMap_cons, List.length_append]
    rcases List.mem_cons.mp h with rfl | h
    · omega
    · have := ih h
      omega

/-- **C59.** For every non-empty list of samples and all auxiliary information of one kind that
fits its fields, the movie fragment is written, followed by the media data box.  The offset in
`saio` points, counted from the start of the fragment, to the auxiliary information of the first
sample, that of the others follows, and after it the run; the data offset in `trun` points to the
data of the first sample, that of the others follows up to the end of the segment; the run states
number, durations and sizes of the samples, `senc` their number, and the headers sequence number,
track and time. -/
theorem C59_offsets_partial (seq track : Nat) (s : Sample) (l : List Sample) (aux : List AuxSample)
    (hseq : seq < 2 ^ 32) (htrack : track < 2 ^ 32) (htime : s.time < 2 ^ 64) (hk : OneKind aux)
    (hf : ∀ a ∈ aux, a.Fits) (haux : aux.length < 2 ^ 32)
    (hlt : (aux.flatMap AuxSample.bytes).length + trunSize (s :: l) + 200 < 2 ^ 32)
    (hdata : 8 + ((s :: l).flatMap Sample.data).length < 2 ^ 32)
    (hrow : ∀ x ∈ s :: l, x.duration < 2 ^ 32) :
    ∃ b moof, ∃ e : EncryptedBoxes, ∃ mdat, ∃ w, createMoofObj seq track (s :: l) (some (aux.map AuxSample.given)) = .ok b ∧
      b.iter = .ok moof ∧ moof = e.forest.bytes ∧ (createMdatObj (s :: l)).iter = .ok mdat ∧
      moof.drop (fieldAt e.saio 8 4) = aux.flatMap AuxSample.bytes ++ boxBytes [116, 114, 117, 110] e.trun ∧
      (moof ++ mdat).drop (fieldAt e.trun 8 4) = (s :: l).flatMap Sample.data ∧
      fieldAt e.saio 0 4 = 0 ∧ fieldAt e.saio 4 4 = 1 ∧
      fieldAt e.senc 4 4 = aux.length ∧ fieldAt e.trun 4 4 = (s :: l).length ∧
      (∀ k x, (s :: l)[k]? = some x →
        fieldAt e.trun (12 + k * w) 4 = x.duration ∧ fieldAt e.trun (16 + k * w) 4 = x.data.length) ∧
      fieldAt e.mfhd 4 4 = seq ∧ fieldAt e.tfhd 4 4 = track ∧ fieldAt e.tfdt 4 8 = s.time := by
  obtain ⟨b, hb, hi⟩ := moof_encrypted seq track s l aux hseq htrack htime hk hf haux hlt
  have hn : (s :: l).length < 2 ^ 32 := by
    have : (s :: l).length ≤ trunSize (s :: l) := by
      unfold trunSize
      have := Nat.le_mul_of_pos_right (s :: l).length (show 0 < 12 + (if useComp (s :: l) then 4 else 0) by omega)
      omega
    omega
  let e := madeEncrypted seq track s.time (s :: l) aux
  let off := 121 + (aux.flatMap AuxSample.bytes).length + trunSize (s :: l) + 8
  have ho : fieldAt e.trun 8 4 = off := by
    refine field_of (v := off) ?_ (by omega)
    show slice (madeRun (s :: l) off) 8 12 = _
    unfold madeRun slice
    rw [← List.append_assoc, List.drop_left' (by simp), List.take_left' (by simp)]
  have hrl := madeRun_length (s :: l) off
  obtain ⟨front, hfl, hsplit⟩ : ∃ front : Bytes, front.length = 121 ∧
      e.forest.bytes = front ++ (aux.flatMap AuxSample.bytes ++ boxBytes [116, 114, 117, 110] e.trun) := by
    obtain ⟨h1, l1, e1⟩ := box_head (ty := [109, 111, 111, 102]) rfl (Forest.bytes
      (.leaf [109, 102, 104, 100] e.mfhd <|
       .node [116, 114, 97, 102]
        (.leaf [116, 102, 104, 100] e.tfhd <|
         .leaf [116, 102, 100, 116] e.tfdt <|
         .leaf [115, 97, 105, 122] e.saiz <|
         .leaf [115, 97, 105, 111] e.saio <|
         .leaf [115, 101, 110, 99] e.senc <|
         .leaf [116, 114, 117, 110] e.trun .nil) .nil))
    obtain ⟨h2, l2, e2⟩ := box_head (ty := [116, 114, 97, 102]) rfl (Forest.bytes
        (.leaf [116, 102, 104, 100] e.tfhd <|
         .leaf [116, 102, 100, 116] e.tfdt <|
         .leaf [115, 97, 105, 122] e.saiz <|
         .leaf [115, 97, 105, 111] e.saio <|
         .leaf [115, 101, 110, 99] e.senc <|
         .leaf [116, 114, 117, 110] e.trun .nil))
    obtain ⟨h3, l3, e3⟩ := box_head (ty := [115, 101, 110, 99]) rfl e.senc
    refine ⟨h1 ++ (boxBytes [109, 102, 104, 100] e.mfhd ++ (h2 ++ (boxBytes [116, 102, 104, 100] e.tfhd ++
      (boxBytes [116, 102, 100, 116] e.tfdt ++ (boxBytes [115, 97, 105, 122] e.saiz ++
      (boxBytes [115, 97, 105, 111] e.saio ++ (h3 ++
      (beBytes 4 (if aux.any (fun a => decide (a.subsamples ≠ [])) then 2 else 0) ++ beBytes 4 aux.length)))))))),
      ?_, ?_⟩
    · simp only [List.length_append, beBytes_length, l1, l2, l3, boxBytes_lens]
      rfl
    · unfold EncryptedBoxes.forest
      rw [Forest.bytes, e1, Forest.bytes, Forest.bytes, Forest.bytes, e2]
      simp only [Forest.bytes]
      rw [e3]
      show _ ++ _ = _
      simp only [List.append_assoc, List.append_nil]
      rfl
  have hml : e.forest.bytes.length = off - 8 := by
    rw [hsplit, List.length_append, List.length_append, boxBytes_lens, hfl]
    show 121 + (_ + (4 + 4 + (madeRun (s :: l) off).length)) = _
    omega
  refine ⟨b, _, e, _, 12 + (if useComp (s :: l) then 4 else 0), hb, hi, rfl, mdat_iter _ hdata, ?_, ?_,
    field_of rfl (by decide), field_of rfl (by decide), ?_, ?_, ?_, ?_, ?_, ?_⟩
  · show e.forest.bytes.drop 121 = _
    rw [hsplit, List.drop_left' hfl]
  · rw [ho]
    show (e.forest.bytes ++ _).drop _ = _
    rw [boxBytes, ← List.append_assoc, List.drop_left']
    rw [List.length_append, List.length_append, hml, beBytes_length]
    simp only [List.length_cons, List.length_nil, off]
    omega
  · refine field_of (v := aux.length) ?_ (by omega)
    show slice (sencContent aux) 4 8 = _
    unfold sencContent slice
    rw [List.drop_left' (by simp), List.take_left' (by simp)]
  · refine field_of (v := (s :: l).length) ?_ (by omega)
    show slice (madeRun (s :: l) off) 4 8 = _
    unfold madeRun slice
    rw [List.drop_left' (by simp), List.take_left' (by simp)]
  · intro k x hx
    refine run_row (s :: l) off k x hx (hrow x (List.mem_of_getElem? hx)) ?_
    have := data_le (List.mem_of_getElem? hx)
    omega
  · exact field_of rfl (by omega)
  · exact field_of rfl (by omega)
  · exact field_of rfl (by omega)

/-- **C59 fails for the sizes.** However many samples are encrypted, `saiz` states the size of
the auxiliary information of no sample. -/
theorem C59_saiz_violation (seq track : Nat) (s : Sample) (l : List Sample) (aux : List AuxSample)
    (hseq : seq < 2 ^ 32) (htrack : track < 2 ^ 32) (htime : s.time < 2 ^ 64) (hk : OneKind aux)
    (hf : ∀ a ∈ aux, a.Fits) (haux : aux.length < 2 ^ 32)
    (hlt : (aux.flatMap AuxSample.bytes).length + trunSize (s :: l) + 200 < 2 ^ 32) :
    ∃ b, ∃ e : EncryptedBoxes, createMoofObj seq track (s :: l) (some (aux.map AuxSample.given)) = .ok b ∧
      b.iter = .ok e.forest.bytes ∧ fieldAt e.saiz 5 4 = 0 := by
  obtain ⟨b, hb, hi⟩ := moof_encrypted seq track s l aux hseq htrack htime hk hf haux hlt
  exact ⟨b, _, hb, hi, field_of rfl (by decide)⟩

/-- Two samples. -/
def exClear : List Sample := [⟨[1, 2, 3, 4], 90000, 3000, true, 6⟩, ⟨[5, 6], 93000, 3000, false, 0⟩]

/-- With pairs for each. -/
def exAux : List AuxSample := [⟨7, [(1, 3)]⟩, ⟨8, [(1, 0), (0, 1)]⟩]

/-- They meet the hypotheses. -/
example : OneKind exAux ∧ (∀ a ∈ exAux, a.Fits) ∧ exAux.length < 2 ^ 32 ∧
    (exAux.flatMap AuxSample.bytes).length + trunSize exClear + 200 < 2 ^ 32 ∧
    8 + (exClear.flatMap Sample.data).length < 2 ^ 32 ∧ (∀ x ∈ exClear, x.duration < 2 ^ 32) := by
  refine ⟨.inl (by decide), ?_, by decide, by decide +kernel, by decide, by decide⟩
  unfold AuxSample.Fits
  decide

/-- **C59 fails for samples of both kinds.** One sample with pairs and one without: the data
offset is 205, the media data begins at 207. -/
theorem C59_mixed_violation :
    (do
      let b ← createMoofObj 1 1 exClear (some [⟨7, [(1, 3)]⟩, ⟨8, []⟩])
      let moof ← b.iter
      let mdat ← (createMdatObj exClear).iter
      return (b.size, moof.length, (moof ++ mdat).drop (b.size + 8), (moof ++ mdat).drop (moof.length + 8)))
      = (.ok (197, 199, [97, 116, 1, 2, 3, 4, 5, 6], [1, 2, 3, 4, 5, 6]) : Py (Nat × Nat × Bytes × Bytes)) := by
  decide +kernel

theorem flat_singles (samples : List Sample) (f : Sample → Bytes) :
    joinPy (samples.map (fun s => .ok (f s))) = .ok (samples.flatMap f) := by
  rw [List.map_eq_flatMap]
  exact joinPy_flatMap _ f samples (fun x _ => by simp [joinPy])

theorem trun_bytes (samples : List Sample) (off : Int) : (trunObj samples off).iter = .ok (trunBox samples off) := by
  have h : joinPy (y32 (if useComp samples then 0xf01 else 0x701) :: y32 samples.length :: y32 off ::
      samples.map (fun s => .ok (trunEntry (useComp samples) s)))
      = .ok (serializeU32 (if useComp samples then 0xf01 else 0x701) ++ (serializeU32 samples.length ++
        (serializeU32 off ++ samples.flatMap (trunEntry (useComp samples))))) :=
    joinPy_cons_ok rfl (joinPy_cons_ok rfl (joinPy_cons_ok rfl (flat_singles samples _)))
  have := joinPy_cons_ok (x := .ok (serializeU32 (trunSize samples))) rfl
    (joinPy_cons_ok (x := .ok (serializeName [116, 114, 117, 110])) rfl h)
  refine this.trans ?_
  simp only [trunBox, List.append_assoc]
  rfl

theorem trunBox_len (samples : List Sample) (off : Int) : (trunBox samples off).length = trunSize samples := by
  simp only [trunBox, List.length_append, serializeU32, beBytes_length, runRows_length, trunSize,
    List.length_cons, List.length_nil]

/-- **C59 (without encryption).** The box object made for a fragment without encryption writes
exactly the bytes of the chunks in C19, and fails with the same exception. -/
theorem C59_plain (seq track : Int) (samples : List Sample) :
    (do (← createMoofObj seq track samples none).iter) = createMoof seq track samples := by
  cases samples with
  | nil => rfl
  | cons s l =>
    show (boxContainer [109, 111, 111, 102] [mfhdObj seq, boxContainer [116, 114, 97, 102]
      [tfhdObj track, tfdtObj s.time, trunObj (s :: l) (((8 + (16 + (8 + (16 + (20 + (trunSize (s :: l) + 0))) + 0)) : Nat) : Int) + 8)]]).iter
      = createMoof seq track (s :: l)
    have hoff : (((8 + (16 + (8 + (16 + (20 + (trunSize (s :: l) + 0))) + 0)) : Nat) : Int) + 8)
        = ((8 + 16 + 8 + 16 + 20 + trunSize (s :: l) : Nat) : Int) + 8 := by omega
    rw [hoff]
    unfold createMoof tfdtBox
    generalize ((8 + 16 + 8 + 16 + 20 + trunSize (s :: l) : Nat) : Int) + 8 = off
    have ht := trun_bytes (s :: l) off
    have hl := trunBox_len (s :: l) off
    cases hu : serializeU64 s.time with
    | error e =>
      simp only [boxContainer, boxObj, List.map, tfdtObj, hu, joinPy, y32, mfhdObj, tfhdObj]
    | ok tb =>
      have htl : tb.length = 8 := len64 _ _ hu
      simp only [boxContainer, boxObj, List.map, tfdtObj, hu, joinPy, y32, mfhdObj, tfhdObj]
      rw [ht]
      simp only [joinPy]
      have l1 : (tfhdBox track ++ (serializeU32 20 ++ [116, 102, 100, 116] ++ serializeU32 16777216 ++ tb) ++
          trunBox (s :: l) off).length = 36 + trunSize (s :: l) := by
        simp only [tfhdBox, List.length_append, serializeU32, beBytes_length, htl, hl, List.length_cons, List.length_nil]
      have l2 : (mfhdBox seq ++ container [116, 114, 97, 102] (tfhdBox track ++ (serializeU32 20 ++
          [116, 102, 100, 116] ++ serializeU32 16777216 ++ tb) ++ trunBox (s :: l) off)).length
          = 60 + trunSize (s :: l) := by
        rw [container, List.length_append, List.length_append, List.length_append, l1]
        simp only [mfhdBox, List.length_append, serializeU32, beBytes_length, List.length_cons, List.length_nil]
        omega
      rw [container, l2, container, l1]
      have s1 : 8 + [16, 8 + [16, 20, (trunObj (s :: l) off).size].sum].sum = 8 + (60 + trunSize (s :: l)) := by
        show 8 + (16 + (8 + (16 + (20 + (trunSize (s :: l) + 0))) + 0)) = _
        omega
      have s2 : 8 + [16, 20, (trunObj (s :: l) off).size].sum = 8 + (36 + trunSize (s :: l)) := by
        show 8 + (16 + (20 + (trunSize (s :: l) + 0))) = _
        omega
      rw [s1, s2, mfhdBox, tfhdBox]
      simp only [List.append_assoc, List.append_nil]
      rfl

end Verif
