import Verif.Lemmas.BoxWriter
/-
C57: every box object writes what its size says.
-/
namespace Verif

/-- A box name that is not one of the container names. -/
def PlainName (name : Bytes) : Prop := name.length = 4 ∧ name ∉ writerContainers

/-- The samples of a `senc` all have subsamples, or none has. -/
def SameKind (l : List SencSample) : Prop :=
  (∀ s ∈ l, s.subsamples ≠ []) ∨ (∀ s ∈ l, s.subsamples = [])

/-- The box objects that can be made with the classes of boxes.py, one constructor per class,
containers with any boxes in them.  What is asked of the arguments: a handler type and the names
of sample entries have four bytes, key ids have 16 bytes, an encryption box has 8-byte vectors
and samples of one kind, and the version of a segment index is 0 or 1. -/
inductive Built : BoxObj → Prop where
  | container (name : Bytes) (boxes : List BoxObj) (hn : name ∈ writerContainers)
      (h : ∀ b ∈ boxes, Built b) : Built (boxContainer name boxes)
  | ftyp (major : Bytes) (minor : Int) (brands : List Bytes) (styp : Bool) :
      Built (ftypObj major minor brands styp)
  | mvhd (ts d next : Int) : Built (mvhdObj ts d next)
  | trex (track : Int) : Built (trexObj track)
  | tkhd (track d vol w h : Int) : Built (tkhdObj track d vol w h)
  | mdhd (ts d : Int) (lang : Text) : Built (mdhdObj ts d lang)
  | hdlr (ty name : Bytes) (h : ty.length = 4) : Built (hdlrObj ty name)
  | url : Built urlObj
  | dref : Built drefObj
  | vmhd : Built vmhdObj
  | smhd : Built smhdObj
  | nmhd : Built nmhdObj
  | visual (coding : Bytes) (w h : Int) (config : BoxObj) (hn : PlainName coding)
      (hc : Built config) : Built (visualObj coding w h config)
  | audio (coding : Bytes) (ch size rate : Int) (esds : Bytes) (hn : PlainName coding) :
      Built (audioObj coding ch size rate esds)
  | vttConfig (text : Bytes) : Built (vttConfigObj text)
  | wvtt : Built wvttObj
  | vtte : Built vtteObj
  | payl (text : Bytes) : Built (paylObj text)
  | stsd (boxes : List BoxObj) (h : ∀ b ∈ boxes, Built b) : Built (stsdObj boxes)
  | avcc (profile compat level : Int) (sps pps : Bytes) : Built (avccObj profile compat level sps pps)
  | hvcc (vps sps pps : Bytes) : Built (hvccObj vps sps pps)
  | esds (config : Bytes) : Built (esdsObj config)
  | pasp : Built paspObj
  | stts : Built sttsObj
  | stsc : Built stscObj
  | stsz : Built stszObj
  | stco : Built stcoObj
  | tfhd (track : Int) : Built (tfhdObj track)
  | tfdt (t : Int) : Built (tfdtObj t)
  | trun (samples : List Sample) (off : Int) : Built (trunObj samples off)
  | mfhd (seq : Int) : Built (mfhdObj seq)
  | mdat (data : List Bytes) : Built (mdatObj data)
  | saiz (default : Int) (samples : List Int) : Built (saizObj default samples)
  | saio (off : Int) : Built (saioObj off)
  | sbgp (groups : List (Int × Int)) : Built (sbgpObj groups)
  | sgpd (grouping : Int) (groups : List SgpdGroup) (h : ∀ g ∈ groups, g.kid.length = 16) :
      Built (sgpdObj grouping groups)
  | senc (samples : List SencSample) (h : SameKind samples) : Built (sencObj 8 samples)
  | sidx (refId ts earliest : Int) (version : Nat) (refs : List SidxRef) (h : version ≤ 1) :
      Built (sidxObj refId ts earliest version refs)

theorem plainName_ser {name : Bytes} (h : PlainName name) : serializeName name ∉ writerContainers := by
  rw [serializeName_four h.1]; exact h.2

theorem trunEntry_len (comp : Bool) (s : Sample) :
    (trunEntry comp s).length = 12 + if comp then 4 else 0 := by
  unfold trunEntry
  cases comp <;> simp [serializeU32]

theorem mdat_len (data : List Bytes) : Len (joinPy (data.map .ok)) (data.map List.length).sum := by
  induction data with
  | nil => exact lens_nil
  | cons x l ih => exact lens_cons (len_ok x) ih

theorem sencEntry_len (flags : Int) (s : SencSample) :
    Len (joinPy (sencEntry flags s)) (8 + if flags = 2 then 2 + s.subsamples.length * 6 else 0) := by
  unfold sencEntry
  refine lens_cons (len64 _) ?_
  split
  · refine lens_cons (len16 _) ?_
    have h := lens_flatMap (fun u : Int × Int => [y16 u.1, y32 u.2]) (fun _ => 6) s.subsamples
      (fun u _ => lens_cons (len16 _) (lens_cons (len32 _) lens_nil))
    have e : (s.subsamples.map (fun _ => 6)).sum = s.subsamples.length * 6 := by
      rw [List.map_const', List.sum_replicate_nat]
    rwa [e] at h
  · exact lens_nil

/-- The fields of a `senc` after any number of `add_sample` calls. -/
theorem senc_fields (l : List SencSample) : ∀ b : SencBox,
    (l.foldl SencBox.addSample b).samples = b.samples ++ l ∧
    (l.foldl SencBox.addSample b).flags = (if l.any (fun s => decide (s.subsamples ≠ [])) then 2 else b.flags) ∧
    (l.foldl SencBox.addSample b).sz = b.sz +
      (l.map (fun s => b.ivSize + if s.subsamples = [] then 0 else 2 + s.subsamples.length * 6)).sum := by
  induction l with
  | nil => intro b; simp
  | cons s l ih =>
    intro b
    obtain ⟨h1, h2, h3⟩ := ih (b.addSample s)
    simp only [List.foldl_cons, List.map_cons, List.sum_cons, List.any_cons]
    rw [h1, h2, h3]
    unfold SencBox.addSample
    by_cases hs : s.subsamples = []
    · simp [hs]; omega
    · simp [hs]; omega

theorem good_senc (samples : List SencSample) (h : SameKind samples) : Good (sencObj 8 samples) := by
  obtain ⟨h1, h2, h3⟩ := senc_fields samples { ivSize := 8 }
  unfold sencObj SencBox.obj
  rw [h1, h2, h3]
  simp only [List.nil_append]
  apply good_leaf (m := 8 + (samples.map
      (fun s => 8 + if s.subsamples = [] then 0 else 2 + s.subsamples.length * 6)).sum)
  · have e : ∀ x ∈ samples, Len (joinPy (sencEntry
        (if samples.any (fun s => decide (s.subsamples ≠ [])) then 2 else 0) x))
        (8 + if x.subsamples = [] then 0 else 2 + x.subsamples.length * 6) := by
      intro x hx
      have hl := sencEntry_len (if samples.any (fun s => decide (s.subsamples ≠ [])) then 2 else 0) x
      rcases h with h | h
      · have ha : samples.any (fun s => decide (s.subsamples ≠ [])) = true := by
          rw [List.any_eq_true]; exact ⟨x, hx, by simpa using h x hx⟩
        rw [ha] at hl ⊢
        rw [if_neg (h x hx)]
        exact hl
      · have ha : samples.any (fun s => decide (s.subsamples ≠ [])) = false := by
          rw [List.any_eq_false]; intro z hz; simp [h z hz]
        rw [ha] at hl ⊢
        rw [if_pos (h x hx)]
        exact hl
    have := lens_cons (len32 (if samples.any (fun s => decide (s.subsamples ≠ [])) then 2 else 0))
      (lens_cons (len32 samples.length) (lens_flatMap _ _ samples e))
    rwa [← Nat.add_assoc] at this
  · omega
  · decide +kernel

/-- The yields of a class with fixed fields, one after another. -/
macro "yields" : tactic => `(tactic| repeat' with_reducible (first
  | exact lens_nil | exact len32 _ | exact len16 _ | exact len8 _ | exact len64 _
  | exact len_name _ | exact len_bytes _ _ | exact len_ok _ | exact len_error _ 0 | apply lens_cons))

theorem good_url : Good urlObj := by
  unfold urlObj; apply good_leaf; yields; rfl; decide +kernel

theorem good_vttConfig (text : Bytes) : Good (vttConfigObj text) := by
  unfold vttConfigObj; apply good_leaf; yields; simp; decide +kernel

theorem Built.good {b : BoxObj} (h : Built b) : Good b := by
  induction h with
  | container name boxes hn _ ih => exact good_container boxes hn ih
  | ftyp major minor brands styp =>
    unfold ftypObj
    apply good_leaf
    · exact lens_cons (len_name _) (lens_cons (len32 _) (lens_map _ 4 brands (fun x _ => len_name x)))
    · omega
    · cases styp <;> decide +kernel
  | mvhd ts d next => unfold mvhdObj; apply good_leaf; yields; rfl; decide +kernel
  | trex track => unfold trexObj; apply good_leaf; yields; rfl; decide +kernel
  | tkhd track d vol w h => unfold tkhdObj; apply good_leaf; yields; rfl; decide +kernel
  | mdhd ts d lang => unfold mdhdObj; apply good_leaf; yields; rfl; decide +kernel
  | hdlr ty name h =>
    unfold hdlrObj; apply good_leaf; yields; simp [h]; omega; decide +kernel
  | url => exact good_url
  | dref =>
    unfold drefObj
    apply good_leaf
    · exact lens_cons (len32 _) (lens_cons (len32 _) (lens_cons good_url.exact lens_nil))
    · rfl
    · decide +kernel
  | vmhd => unfold vmhdObj; apply good_leaf; yields; rfl; decide +kernel
  | smhd => unfold smhdObj; apply good_leaf; yields; rfl; decide +kernel
  | nmhd => unfold nmhdObj; apply good_leaf; yields; rfl; decide +kernel
  | visual coding w h config hn _ ih =>
    unfold visualObj
    apply good_leaf
    · repeat' with_reducible (first
        | exact ih.exact | exact lens_nil | exact len32 _ | exact len16 _ | exact len_bytes _ _
        | apply lens_cons)
    · omega
    · exact plainName_ser hn
  | audio coding ch size rate esds hn =>
    unfold audioObj; apply good_leaf; yields; omega; exact plainName_ser hn
  | vttConfig text => exact good_vttConfig text
  | wvtt =>
    unfold wvttObj
    apply good_leaf
    · exact lens_cons (len_ok _) (lens_cons (len16 _) (lens_cons (good_vttConfig _).exact lens_nil))
    · rfl
    · decide +kernel
  | vtte => unfold vtteObj; apply good_leaf; yields; rfl; decide +kernel
  | payl text => unfold paylObj; apply good_leaf; yields; simp; decide +kernel
  | stsd boxes _ ih =>
    unfold stsdObj
    apply good_leaf
    · exact lens_cons (len32 _) (lens_cons (len32 _) (good_kids boxes ih).1)
    · omega
    · decide +kernel
  | avcc profile compat level sps pps =>
    unfold avccObj; apply good_leaf; yields; omega; decide +kernel
  | hvcc vps sps pps =>
    unfold hvccObj
    apply good_leaf (m := 38 + vps.length + sps.length + pps.length)
    · intro b h; cases h
    · omega
    · decide +kernel
  | esds config => unfold esdsObj; apply good_leaf; yields; omega; decide +kernel
  | pasp => unfold paspObj; apply good_leaf; yields; rfl; decide +kernel
  | stts => unfold sttsObj; apply good_leaf; yields; rfl; decide +kernel
  | stsc => unfold stscObj; apply good_leaf; yields; rfl; decide +kernel
  | stsz => unfold stszObj; apply good_leaf; yields; rfl; decide +kernel
  | stco => unfold stcoObj; apply good_leaf; yields; rfl; decide +kernel
  | tfhd track => unfold tfhdObj; apply good_leaf; yields; rfl; decide +kernel
  | tfdt t => unfold tfdtObj; apply good_leaf; yields; rfl; decide +kernel
  | trun samples off =>
    unfold trunObj
    apply good_leaf
    · exact lens_cons (len32 _) (lens_cons (len32 _) (lens_cons (len32 _)
        (lens_map _ (12 + if useComp samples then 4 else 0) samples
          (fun x _ => by intro b h; cases h; exact trunEntry_len _ x))))
    · unfold trunSize; rw [Nat.mul_comm samples.length]; omega
    · decide +kernel
  | mfhd seq => unfold mfhdObj; apply good_leaf; yields; rfl; decide +kernel
  | mdat data => unfold mdatObj; apply good_leaf (mdat_len data) rfl; decide +kernel
  | saiz default samples =>
    unfold saizObj
    apply good_leaf
    · exact lens_cons (len32 _) (lens_cons (len8 _) (lens_cons (len32 _)
        (lens_map _ 1 samples (fun x _ => len8 x))))
    · omega
    · decide +kernel
  | saio off => unfold saioObj; apply good_leaf; yields; rfl; decide +kernel
  | sbgp groups =>
    unfold sbgpObj
    apply good_leaf
    · exact lens_cons (len32 _) (lens_cons (len32 _)
        (lens_flatMap (fun g : Int × Int => [y32 g.1, y32 g.2]) (fun _ => 8) groups
          (fun g _ => lens_cons (len32 _) (lens_cons (len32 _) lens_nil))))
    · rw [List.map_const', List.sum_replicate_nat]; omega
    · decide +kernel
  | sgpd grouping groups h =>
    unfold sgpdObj
    apply good_leaf
    · exact lens_cons (len32 _) (lens_cons (len32 _) (lens_cons (len32 _)
        (lens_flatMap _ (fun _ => 20) groups (fun g hg => by
          have := lens_cons (len8 0) (lens_cons (len8 0) (lens_cons
            (len8 (if g.encrypted then 1 else 0)) (lens_cons (len8 g.ivSize)
              (lens_cons (len_ok g.kid) lens_nil))))
          rwa [h g hg] at this))))
    · rw [List.map_const', List.sum_replicate_nat]; omega
    · decide +kernel
  | senc samples h => exact good_senc samples h
  | sidx refId ts earliest version refs h =>
    unfold sidxObj
    have hv : Len (joinPy (if version = 0 then [y32 earliest, y32 0]
        else [serializeU64 earliest, serializeU64 0])) (8 + 8 * version) := by
      rcases Nat.le_one_iff_eq_zero_or_eq_one.mp h with rfl | rfl
      · have := lens_cons (len32 earliest) (lens_cons (len32 0) lens_nil)
        exact this
      · have := lens_cons (len64 earliest) (lens_cons (len64 0) lens_nil)
        exact this
    have h1 : Len (joinPy [y8 version, y16 0, y8 0, y32 refId, y32 ts]) 12 :=
      lens_cons (len8 _) (lens_cons (len16 _) (lens_cons (len8 _) (lens_cons (len32 _)
          (lens_cons (len32 _) lens_nil))))
    have h2 : Len (joinPy [y16 0, y16 refs.length]) 4 :=
      lens_cons (len16 _) (lens_cons (len16 _) lens_nil)
    apply good_leaf
    · exact lens_append (lens_append (lens_append h1 hv) h2)
        (lens_flatMap _ (fun _ => 12) refs (fun r _ =>
          lens_cons (len32 _) (lens_cons (len32 _) (lens_cons (len32 _) lens_nil))))
    · rw [List.map_const', List.sum_replicate_nat]; omega
    · decide +kernel

/-- **C57 (sizes).** For every box object that can be made with the classes of boxes.py, nested
to any depth: when it can be written, exactly `size()` bytes are written; up to `2^32` bytes they
are one box, whose size field is its length, and every container in it is filled exactly by a
sequence of boxes.  Missing for the full claim: encryption boxes with mixed samples or other
vector sizes, key ids of other lengths, segment indexes of version 2 (`C57_senc_violation`,
`C57_sgpd_violation`, `C57_sidx_violation`). -/
theorem C57_sizes_partial (b : BoxObj) (h : Built b) (bs : Bytes) (hw : b.iter = .ok bs) :
    bs.length = b.size ∧
    (bs.length < 2 ^ 32 → (∃ ty p, ty.length = 4 ∧ bs = boxBytes ty p) ∧ BoxSeq writerContainers bs) := by
  have hg := h.good
  have hl := hg.exact bs hw
  exact ⟨hl, fun hlt => ⟨hg.box bs hw (hl ▸ hlt), hg.seq bs hw (hl ▸ hlt)⟩⟩

/-- **C57 (sequences).** The same for `BoxSequence`: the sizes add up and the bytes are a
sequence of boxes. -/
theorem C57_sequence (boxes : List BoxObj) (h : ∀ b ∈ boxes, Built b) (bs : Bytes)
    (hw : (boxSequence boxes).iter = .ok bs) :
    bs.length = (boxSequence boxes).size ∧ (bs.length < 2 ^ 32 → BoxSeq writerContainers bs) := by
  obtain ⟨h1, h2⟩ := good_kids boxes (fun b hb => (h b hb).good)
  have hl := h1 bs hw
  exact ⟨hl, fun hlt => h2 bs hw (by omega)⟩

/-- **C57 (brands).** The file type box of made init segments and the segment type box are boxes with a CMAF brand,
version 0 and the compatible brands `iso9` and `dash`. -/
theorem C57_brands :
    createFtyp.iter = .ok (boxBytes "ftyp".toUTF8.toList
      ("cmfc".toUTF8.toList ++ beBytes 4 0 ++ "iso9".toUTF8.toList ++ "dash".toUTF8.toList)) ∧
    createStyp.iter = .ok (boxBytes "styp".toUTF8.toList
      ("cmfs".toUTF8.toList ++ beBytes 4 0 ++ "iso9".toUTF8.toList ++ "dash".toUTF8.toList)) ∧
    createFtyp.size = 24 ∧ createStyp.size = 24 := by
  refine ⟨by decide +kernel, by decide +kernel, by decide +kernel, by decide +kernel⟩

/-- **C57 (sample descriptions).** A sample description box holds the number of its entries and
then the entries, each one box. -/
theorem C57_entries (boxes : List BoxObj) (h : ∀ b ∈ boxes, Built b) (bs : Bytes)
    (hw : (stsdObj boxes).iter = .ok bs) (hlt : bs.length < 2 ^ 32) :
    ∃ kids, BoxSeq writerContainers kids ∧
      bs = boxBytes [115, 116, 115, 100] (beBytes 4 0 ++ beBytes 4 boxes.length ++ kids) := by
  have hg := (Built.stsd boxes h).good
  have hl := hg.exact bs hw
  have hsz : 16 + (boxes.map BoxObj.size).sum < 2 ^ 32 := by rw [hl] at hlt; exact hlt
  obtain ⟨r, hr, rfl⟩ := boxObj_iter hw
  obtain ⟨p, q, h1, h2, rfl⟩ := joinPy_cons hr
  obtain ⟨p', kids, h3, h4, rfl⟩ := joinPy_cons h2
  cases h1
  cases h3
  obtain ⟨k1, k2⟩ := good_kids boxes (fun b hb => (h b hb).good)
  have hk := k1 kids h4
  have hn : boxes.length < 2 ^ 32 := by
    have hs : ∀ l : List BoxObj, (∀ b ∈ l, Built b) → ∀ r, joinPy (l.map BoxObj.iter) = .ok r →
        (l.map BoxObj.size).sum < 2 ^ 32 → l.length ≤ (l.map BoxObj.size).sum := by
      intro l
      induction l with
      | nil => intro _ _ _ _; simp
      | cons b l ih =>
        intro hb r hr hlt
        simp only [List.map_cons, List.sum_cons, List.length_cons] at hr hlt ⊢
        obtain ⟨p, q, e1, e2, rfl⟩ := joinPy_cons hr
        have := ih (fun z hz => hb z (by simp [hz])) q e2 (by omega)
        have hgb := (hb b (by simp)).good
        obtain ⟨ty, pp, ht, e⟩ := hgb.box p e1 (by omega)
        have hx := hgb.exact p e1
        rw [e, boxBytes_len ht] at hx
        omega
    have := hs boxes h kids h4 (by omega)
    omega
  refine ⟨kids, k2 kids h4 (by omega), ?_⟩
  rw [boxBytes, show serializeU32 0 = beBytes 4 0 from rfl, serializeU32_nat hn,
    serializeName_four (by rfl), serializeU32_nat hsz]
  simp only [List.length_append, beBytes_length]
  rw [hk]
  simp only [List.append_assoc]
  congr 2
  omega

/-- The same for the sample entry of a video track: 78 bytes of fields, then the decoder
configuration. -/
theorem C57_video_entry (coding : Bytes) (w h : Int) (config : BoxObj) (hn : PlainName coding)
    (hc : Built config) (bs : Bytes) (hw : (visualObj coding w h config).iter = .ok bs)
    (hlt : bs.length < 2 ^ 32) :
    ∃ fields cfg, fields.length = 78 ∧ config.iter = .ok cfg ∧ BoxSeq writerContainers cfg ∧
      bs = boxBytes coding (fields ++ cfg) := by
  have hg := (Built.visual coding w h config hn hc).good
  have hl := hg.exact bs hw
  have hsz : 86 + config.size < 2 ^ 32 := by rw [hl] at hlt; exact hlt
  obtain ⟨r, hr, rfl⟩ := boxObj_iter hw
  have hr' : joinPy ([.ok (serializeBytes 0 6), y16 1, y16 0, y16 0, .ok (serializeBytes 0 12),
     y16 w, y16 h, y32 0x00480000, y32 0x00480000,
     .ok (serializeBytes 0 4), y16 1, .ok (serializeBytes 0 32), y16 0x18, y16 0xffff] ++ [config.iter])
     = .ok r := hr
  obtain ⟨p, q, h1, h2, rfl⟩ := joinPy_append hr'
  obtain ⟨cfg, q', h3, h4, rfl⟩ := joinPy_cons h2
  cases h4
  have hp : p.length = 78 := by
    have : Len (joinPy [.ok (serializeBytes 0 6), y16 1, y16 0, y16 0, .ok (serializeBytes 0 12),
     y16 w, y16 h, y32 0x00480000, y32 0x00480000,
     .ok (serializeBytes 0 4), y16 1, .ok (serializeBytes 0 32), y16 0x18, y16 0xffff])
      (6 + (2 + (2 + (2 + (12 + (2 + (2 + (4 + (4 + (4 + (2 + (32 + (2 + (2 + 0)))))))))))))) := by
      yields
    exact this p h1
  have hcl := hc.good.exact cfg h3
  refine ⟨p, cfg, hp, h3, hc.good.seq cfg h3 (by omega), ?_⟩
  rw [boxBytes, serializeName_four hn.1, serializeU32_nat hsz, List.append_nil, List.length_append,
    hp, hcl]
  congr 3
  omega

/-- **C57 (place holder).** The segment index made as a place holder for `n` references has the
same size as any segment index with `n` references and 64-bit times. -/
theorem C57_placeholder (track ts : Int) (n : Nat) (refId ts' earliest : Int) (refs : List SidxRef)
    (h : refs.length = n) : (createEmptySidx track ts n).size = (sidxObj refId ts' earliest 1 refs).size := by
  simp [createEmptySidx, sidxObj, boxObj, h]

/-- A tree with most kinds of boxes. -/
def exBoxes : BoxObj :=
  boxContainer [109, 111, 111, 102]
    [mfhdObj 7, boxContainer [116, 114, 97, 102]
      [tfhdObj 1, tfdtObj 90000, saizObj 8 [], saioObj 100,
       sencObj 8 [⟨1, [(5, 100)]⟩, ⟨2, [(5, 100), (7, 30)]⟩],
       trunObj [⟨[1, 2, 3], 90000, 3000, true, 6⟩, ⟨[4], 93000, 3000, false, 0⟩] 200]]

/-- Its parts meet the hypotheses, and it can be written. -/
example : Built exBoxes ∧ exBoxes.size = 211 ∧ ∃ bs, exBoxes.iter = .ok bs ∧ bs.length = 211 := by
  refine ⟨?_, by decide +kernel, ?_⟩
  · refine .container _ _ (by decide +kernel) ?_
    intro b hb
    simp only [List.mem_cons, List.not_mem_nil, or_false] at hb
    rcases hb with rfl | rfl
    · exact .mfhd _
    · refine .container _ _ (by decide +kernel) ?_
      intro b hb
      simp only [List.mem_cons, List.not_mem_nil, or_false] at hb
      rcases hb with rfl | rfl | rfl | rfl | rfl | rfl
      · exact .tfhd _
      · exact .tfdt _
      · exact .saiz _ _
      · exact .saio _
      · exact .senc _ (Or.inl (by decide +kernel))
      · exact .trun _ _
  · have h : (match exBoxes.iter with | .ok b => decide (b.length = 211) | .error _ => false) = true := by
      decide +kernel
    cases hb : exBoxes.iter with
    | error e => rw [hb] at h; cases h
    | ok b => rw [hb] at h; exact ⟨b, rfl, by simpa using h⟩

/-- **C57 fails for encryption boxes with mixed samples.** One sample with a subsample and one
without: 42 bytes are written, the size says 40. -/
theorem C57_senc_violation :
    (sencObj 8 [⟨1, [(5, 100)]⟩, ⟨2, []⟩]).size = 40 ∧
    (sencObj 8 [⟨1, [(5, 100)]⟩, ⟨2, []⟩]).iter.map List.length = .ok 42 ∧
    (sencObj 16 [⟨1, []⟩]).size = 32 ∧ (sencObj 16 [⟨1, []⟩]).iter.map List.length = .ok 24 := by
  decide +kernel

/-- **C57 fails for key ids that are not 16 bytes long.** -/
theorem C57_sgpd_violation :
    (sgpdObj 0 [⟨true, 8, [1, 2, 3]⟩]).size = 40 ∧
    (sgpdObj 0 [⟨true, 8, [1, 2, 3]⟩]).iter.map List.length = .ok 27 := by
  decide +kernel

/-- **C57 fails for segment indexes of a version over 1.** -/
theorem C57_sidx_violation :
    (sidxObj 1 90000 0 2 []).size = 48 ∧ (sidxObj 1 90000 0 2 []).iter.map List.length = .ok 40 := by
  decide +kernel

end Verif
