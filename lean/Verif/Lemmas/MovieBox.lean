import Verif.Props.BoxSizes
import Verif.Spec.Movie
import Verif.Props.InitInfo
/-
The movie boxes made by boxes.py (for C58).
-/
namespace Verif

/-! ### Boxes -/

theorem boxObj_box {size : Nat} {name : Bytes} {rest : List (Py Bytes)} {r : Bytes}
    (hr : joinPy rest = .ok r) (h4 : name.length = 4) (hs : size = 8 + r.length)
    (hlt : 8 + r.length < 2 ^ 32) : (boxObj size name rest).iter = .ok (boxBytes name r) := by
  have h1 : (boxObj size name rest).iter = .ok (serializeU32 size ++ (serializeName name ++ r)) :=
    joinPy_cons_ok rfl (joinPy_cons_ok rfl hr)
  rw [h1, serializeName_four h4, hs, serializeU32_nat hlt, boxBytes, List.append_assoc]

theorem boxBytes_lens (ty p : Bytes) : (boxBytes ty p).length = 4 + ty.length + p.length := by
  simp only [boxBytes, List.length_append, beBytes_length]

/-- What a list of boxes writes. -/
theorem joinPy_boxes {b : BoxObj} {l : List BoxObj} {p q : Bytes} (hb : b.iter = .ok p)
    (hl : joinPy (l.map BoxObj.iter) = .ok q) : joinPy ((b :: l).map BoxObj.iter) = .ok (p ++ q) :=
  joinPy_cons_ok hb hl

theorem container_box {name : Bytes} {boxes : List BoxObj} {r : Bytes}
    (hr : joinPy (boxes.map BoxObj.iter) = .ok r) (h4 : name.length = 4)
    (hb : ∀ b ∈ boxes, Built b) (hlt : 8 + r.length < 2 ^ 32) :
    (boxContainer name boxes).iter = .ok (boxBytes name r) := by
  have hl := (good_kids boxes (fun b h => (hb b h).good)).1 r hr
  exact boxObj_box hr h4 (by rw [hl]) hlt

theorem y32_nat {n : Nat} (h : n < 2 ^ 32) : y32 (n : Int) = .ok (beBytes 4 n) := by
  rw [y32, serializeU32_nat h]

theorem y16_nat {n : Nat} (h : n < 2 ^ 16) : y16 (n : Int) = .ok (beBytes 2 n) := by
  unfold y16 serializeU16
  have e : (n : Int) % 2 ^ 20 = n := Int.emod_eq_of_lt (by omega) (by omega)
  simp only [e]
  rw [if_pos (by omega)]
  simp

theorem y8_nat {n : Nat} (h : n < 2 ^ 8) : y8 (n : Int) = .ok (beBytes 1 n) := by
  unfold y8 serializeU8
  have e : (n : Int) % 2 ^ 8 = n := Int.emod_eq_of_lt (by omega) (by omega)
  rw [e]
  simp

/-- Content of the movie header. -/
def mvhdContent (d next : Nat) : Bytes :=
  beBytes 4 0 ++ beBytes 4 0 ++ beBytes 4 0 ++ beBytes 4 90000 ++ beBytes 4 d ++
    [0, 1, 0, 0, 1, 0, 0, 0, 0, 0, 0, 0, 0, 0, 0, 0] ++
    [0, 1, 0, 0, 0, 0, 0, 0, 0, 0, 0, 0, 0, 0, 0, 0, 0, 1, 0, 0, 0, 0, 0, 0, 0, 0, 0, 0, 0, 0, 0, 0,
     64, 0, 0, 0] ++ List.replicate 24 0 ++ beBytes 4 next

theorem mvhd_iter (d next : Nat) (hd : d < 2 ^ 32) (hn : next < 2 ^ 32) :
    (mvhdObj movieTimescale d next).iter = .ok (boxBytes [109, 118, 104, 100] (mvhdContent d next)) := by
  refine boxObj_box (r := mvhdContent d next) ?_ rfl rfl ?_
  · rw [y32_nat hd, y32_nat hn]
    rfl
  · show (108 : Nat) < _
    decide

/-- Content of the track header. -/
def tkhdContent (track d vol w h : Nat) : Bytes :=
  beBytes 4 7 ++ beBytes 4 0 ++ beBytes 4 0 ++ beBytes 4 track ++ beBytes 4 0 ++ beBytes 4 d ++
    List.replicate 8 0 ++ List.replicate 4 0 ++ beBytes 2 vol ++ [0, 0] ++
    [0, 1, 0, 0, 0, 0, 0, 0, 0, 0, 0, 0, 0, 0, 0, 0, 0, 1, 0, 0, 0, 0, 0, 0, 0, 0, 0, 0, 0, 0, 0, 0,
     64, 0, 0, 0] ++ beBytes 4 (w * 2 ^ 16) ++ beBytes 4 (h * 2 ^ 16)

theorem tkhd_iter (track d vol w h : Nat) (ht : track < 2 ^ 32) (hd : d < 2 ^ 32) (hv : vol < 2 ^ 16)
    (hw : w < 2 ^ 16) (hh : h < 2 ^ 16) :
    (tkhdObj track d vol w h).iter = .ok (boxBytes [116, 107, 104, 100] (tkhdContent track d vol w h)) := by
  refine boxObj_box (r := tkhdContent track d vol w h) ?_ rfl rfl ?_
  · have e1 : ((w : Int) * 2 ^ 16) = ((w * 2 ^ 16 : Nat) : Int) := by simp
    have e2 : ((h : Int) * 2 ^ 16) = ((h * 2 ^ 16 : Nat) : Int) := by simp
    rw [e1, e2, y32_nat ht, y32_nat hd, y16_nat hv, y32_nat (n := w * 2 ^ 16) (by omega),
      y32_nat (n := h * 2 ^ 16) (by omega)]
    rfl
  · show (92 : Nat) < _
    decide

/-- Content of the media header. -/
def mdhdContent (ts d lang : Nat) : Bytes :=
  beBytes 4 0 ++ beBytes 4 0 ++ beBytes 4 0 ++ beBytes 4 ts ++ beBytes 4 d ++ beBytes 2 lang ++ [0, 0]

theorem mdhd_iter (ts d code : Nat) (lang : Text) (ht : ts < 2 ^ 32) (hd : d < 2 ^ 32)
    (hl : langCode lang = code) (hc : code < 2 ^ 16) :
    (mdhdObj ts d lang).iter = .ok (boxBytes [109, 100, 104, 100] (mdhdContent ts d code)) := by
  refine boxObj_box (r := mdhdContent ts d code) ?_ rfl rfl ?_
  · rw [y32_nat ht, y32_nat hd, hl, y16_nat hc]
    rfl
  · show (32 : Nat) < _
    decide

/-- Content of the handler box. -/
def hdlrContent (ty name : Bytes) : Bytes :=
  beBytes 4 0 ++ (beBytes 4 0 ++ (ty ++ (List.replicate 12 0 ++ (name ++ [0]))))

theorem hdlr_iter (ty name : Bytes) (ht : ty.length = 4) (hn : name.length < 1000) :
    (hdlrObj ty name).iter = .ok (boxBytes [104, 100, 108, 114] (hdlrContent ty name)) := by
  refine boxObj_box (r := hdlrContent ty name) ?_ rfl ?_ ?_
  · have : joinPy [y32 0, y32 0, .ok ty, y32 0, y32 0, y32 0, .ok name, y8 0]
        = .ok (beBytes 4 0 ++ (beBytes 4 0 ++ (ty ++ (beBytes 4 0 ++ (beBytes 4 0 ++ (beBytes 4 0 ++
          (name ++ ([0] ++ [])))))))) := rfl
    rw [this]
    rfl
  · simp [hdlrContent, ht]; omega
  · simp [hdlrContent, ht]; omega

/-- Content of the track extends box. -/
def trexContent (track : Nat) : Bytes :=
  beBytes 4 0 ++ beBytes 4 track ++ beBytes 4 1 ++ beBytes 4 0 ++ beBytes 4 0 ++ beBytes 4 0

theorem trex_iter (track : Nat) (h : track < 2 ^ 32) :
    (trexObj track).iter = .ok (boxBytes [116, 114, 101, 120] (trexContent track)) := by
  refine boxObj_box (r := trexContent track) ?_ rfl rfl ?_
  · rw [y32_nat h]
    rfl
  · show (32 : Nat) < _
    decide

/-! ### The tree -/

theorem length_leaf (ty p : Bytes) (rest : Forest) :
    (Forest.leaf ty p rest).bytes.length = 4 + ty.length + p.length + rest.bytes.length := by
  rw [Forest.bytes, List.length_append, boxBytes_lens]

theorem length_node (ty : Bytes) (kids rest : Forest) :
    (Forest.node ty kids rest).bytes.length = 4 + ty.length + kids.bytes.length + rest.bytes.length := by
  rw [Forest.bytes, List.length_append, boxBytes_lens]

theorem length_nil : Forest.nil.bytes.length = 0 := rfl

/-- What a list of boxes writes, as a forest. -/
theorem kids_leaf {b : BoxObj} {l : List BoxObj} {ty p : Bytes} {f : Forest}
    (hb : b.iter = .ok (boxBytes ty p)) (hl : joinPy (l.map BoxObj.iter) = .ok f.bytes) :
    joinPy ((b :: l).map BoxObj.iter) = .ok (Forest.leaf ty p f).bytes := joinPy_cons_ok hb hl

theorem kids_node {b : BoxObj} {l : List BoxObj} {ty : Bytes} {k f : Forest}
    (hb : b.iter = .ok (boxBytes ty k.bytes)) (hl : joinPy (l.map BoxObj.iter) = .ok f.bytes) :
    joinPy ((b :: l).map BoxObj.iter) = .ok (Forest.node ty k f).bytes := joinPy_cons_ok hb hl

theorem kids_nil : joinPy (([] : List BoxObj).map BoxObj.iter) = .ok Forest.nil.bytes := rfl

theorem built_stbl (stsd : BoxObj) (hs : Built stsd) :
    ∀ b ∈ [stsd, sttsObj, stscObj, stszObj, stcoObj], Built b := by
  intro b hb
  simp only [List.mem_cons, List.not_mem_nil, or_false] at hb
  rcases hb with rfl | rfl | rfl | rfl | rfl
  · exact hs
  · exact .stts
  · exact .stsc
  · exact .stsz
  · exact .stco

theorem built_dinf : ∀ b ∈ [drefObj], Built b := by
  intro b hb; rw [List.mem_singleton.mp hb]; exact .dref

theorem built_minfKids (stsd mh : BoxObj) (hs : Built stsd) (hm : Built mh) :
    ∀ b ∈ [mh, boxContainer [100, 105, 110, 102] [drefObj],
     boxContainer [115, 116, 98, 108] [stsd, sttsObj, stscObj, stszObj, stcoObj]], Built b := by
  intro b hb
  simp only [List.mem_cons, List.not_mem_nil, or_false] at hb
  rcases hb with rfl | rfl | rfl
  · exact hm
  · exact .container _ _ (by decide +kernel) built_dinf
  · exact .container _ _ (by decide +kernel) (built_stbl stsd hs)

theorem built_mdiaKids (mt h : Bytes) (ts d : Int) (lang : Text) (stsd mh : BoxObj) (h4 : mt.length = 4)
    (hs : Built stsd) (hm : Built mh) :
    ∀ b ∈ [mdhdObj ts d lang, hdlrObj mt h, createMinf stsd mh], Built b := by
  intro b hb
  simp only [List.mem_cons, List.not_mem_nil, or_false] at hb
  rcases hb with rfl | rfl | rfl
  · exact .mdhd _ _ _
  · exact .hdlr _ _ h4
  · exact .container _ _ (by decide +kernel) (built_minfKids stsd mh hs hm)

theorem dref_iter : drefObj.iter = .ok (boxBytes [100, 114, 101, 102]
    (beBytes 4 0 ++ beBytes 4 1 ++ boxBytes [117, 114, 108, 32] (beBytes 4 1))) := by decide +kernel
theorem stts_iter : sttsObj.iter = .ok (boxBytes [115, 116, 116, 115] (beBytes 4 0 ++ beBytes 4 0)) := by
  decide +kernel
theorem stsc_iter : stscObj.iter = .ok (boxBytes [115, 116, 115, 99] (beBytes 4 0 ++ beBytes 4 0)) := by
  decide +kernel
theorem stsz_iter : stszObj.iter = .ok (boxBytes [115, 116, 115, 122]
    (beBytes 4 0 ++ beBytes 4 0 ++ beBytes 4 0)) := by decide +kernel
theorem stco_iter : stcoObj.iter = .ok (boxBytes [115, 116, 99, 111] (beBytes 4 0 ++ beBytes 4 0)) := by
  decide +kernel

theorem stbl_length (m : MovieBoxes) : m.stbl.bytes.length = 76 + m.stsd.length := by
  simp only [MovieBoxes.stbl, length_leaf, length_nil, List.length_append, beBytes_length,
    List.length_cons, List.length_nil]
  omega

theorem minf_length (m : MovieBoxes) (h4 : m.mediaHeader.1.length = 4) :
    m.minf.bytes.length = 128 + m.mediaHeader.2.length + m.stsd.length := by
  simp only [MovieBoxes.minf, length_leaf, length_node, length_nil, List.length_append, beBytes_length,
    List.length_cons, List.length_nil, stbl_length, boxBytes_lens, h4]
  omega

theorem mdia_length (m : MovieBoxes) (h4 : m.mediaHeader.1.length = 4) :
    m.mdia.bytes.length = 152 + m.mdhd.length + m.hdlr.length + m.mediaHeader.2.length + m.stsd.length := by
  simp only [MovieBoxes.mdia, length_leaf, length_node, length_nil, List.length_cons, List.length_nil,
    minf_length m h4]
  omega

theorem trakKids_length (m : MovieBoxes) (h4 : m.mediaHeader.1.length = 4) :
    m.trakKids.bytes.length = 168 + m.tkhd.length + m.mdhd.length + m.hdlr.length +
      m.mediaHeader.2.length + m.stsd.length := by
  simp only [MovieBoxes.trakKids, length_leaf, length_node, length_nil, List.length_cons, List.length_nil,
    mdia_length m h4]
  omega

/-- The parts of the media information box that are the same for all tracks, around the sample
description. -/
theorem minf_iter (m : MovieBoxes) (mh stsd : BoxObj)
    (hm : mh.iter = .ok (boxBytes m.mediaHeader.1 m.mediaHeader.2)) (hmb : Built mh)
    (hs : stsd.iter = .ok (boxBytes [115, 116, 115, 100] m.stsd))
    (hsb : Built stsd) (h4 : m.mediaHeader.1.length = 4)
    (hlt : m.mediaHeader.2.length + m.stsd.length + 1000 < 2 ^ 32) :
    (createMinf stsd mh).iter = .ok (boxBytes [109, 105, 110, 102] m.minf.bytes) := by
  have hdinf := container_box (name := [100, 105, 110, 102]) (kids_leaf dref_iter kids_nil) rfl
    built_dinf (by decide +kernel)
  have hk : joinPy ([stsd, sttsObj, stscObj, stszObj, stcoObj].map BoxObj.iter) = .ok m.stbl.bytes :=
    kids_leaf hs (kids_leaf stts_iter (kids_leaf stsc_iter (kids_leaf stsz_iter
      (kids_leaf stco_iter kids_nil))))
  have hstbl := container_box (name := [115, 116, 98, 108]) hk rfl (built_stbl stsd hsb)
    (by rw [stbl_length]; omega)
  exact container_box (kids_leaf hm (kids_node hdinf (kids_node hstbl kids_nil))) rfl
    (built_minfKids stsd mh hsb hmb) (by
      have := minf_length m h4
      show 8 + m.minf.bytes.length < _
      omega)

/-- The numbers that fit into the fields of the headers. -/
structure TrackFits (i : TrackInfo) (w h : Nat) : Prop where
  track : i.track + 1 < 2 ^ 32
  scalePos : 0 < i.timescale
  scale : i.timescale < 2 ^ 32
  duration : i.duration < 2 ^ 32
  movieDuration : i.duration * 90000 / i.timescale < 2 ^ 32
  width : w < 2 ^ 16
  height : h < 2 ^ 16

/-- The contents of the boxes of a movie made from a description. -/
def madeMovie (i : TrackInfo) (vol w h : Nat) (mt hn : Bytes) (code : Nat) (mh : Bytes × Bytes)
    (sp : Bytes) : MovieBoxes where
  mvhd := mvhdContent (i.duration * 90000 / i.timescale) (i.track + 1)
  tkhd := tkhdContent i.track (i.duration * 90000 / i.timescale) vol w h
  mdhd := mdhdContent i.timescale i.duration code
  hdlr := hdlrContent mt hn
  mediaHeader := mh
  stsd := sp
  trex := trexContent i.track

/-- Choice between the two orders of the boxes in the movie box. -/
def createMoov (trakFirst : Bool) (i : TrackInfo) (trak : Py BoxObj) : Py BoxObj :=
  if trakFirst then createMoovVideo i trak else createMoovOther i trak

theorem moov_iter (trakFirst : Bool) (i : TrackInfo) (vol w h : Nat) (mt hn : Bytes) (lang : Text)
    (code : Nat) (stsd mh : BoxObj) (mty mp sp : Bytes) (fits : TrackFits i w h) (hvol : vol < 2 ^ 16)
    (hmt : mt.length = 4) (hhn : hn.length < 1000) (hcode : langCode lang = code) (hc : code < 2 ^ 16)
    (hm : mh.iter = .ok (boxBytes mty mp)) (hmb : Built mh)
    (hs : stsd.iter = .ok (boxBytes [115, 116, 115, 100] sp)) (hsb : Built stsd)
    (h4 : mty.length = 4) (hlt : mp.length + sp.length + 3000 < 2 ^ 32) :
    ∃ b, createMoov trakFirst i (createTrak i vol w h
        (createMdia mt hn i.timescale i.duration lang stsd mh)) = .ok b ∧ Built b ∧
      b.iter = .ok ((madeMovie i vol w h mt hn code (mty, mp) sp).forest trakFirst).bytes := by
  have hd : movieDuration i.duration i.timescale = .ok (i.duration * 90000 / i.timescale) := by
    rw [movieDuration, if_neg (by have := fits.scalePos; omega)]
    rfl
  have hmd := fits.movieDuration
  have htrack : i.track < 2 ^ 32 := Nat.lt_of_succ_lt fits.track
  generalize hm' : madeMovie i vol w h mt hn code (mty, mp) sp = m
  have e1 : m.mvhd = mvhdContent (i.duration * 90000 / i.timescale) (i.track + 1) := by rw [← hm']; rfl
  have e2 : m.tkhd = tkhdContent i.track (i.duration * 90000 / i.timescale) vol w h := by rw [← hm']; rfl
  have e3 : m.mdhd = mdhdContent i.timescale i.duration code := by rw [← hm']; rfl
  have e4 : m.hdlr = hdlrContent mt hn := by rw [← hm']; rfl
  have e5 : m.trex = trexContent i.track := by rw [← hm']; rfl
  have e6 : m.mediaHeader = (mty, mp) := by rw [← hm']; rfl
  have e7 : m.stsd = sp := by rw [← hm']; rfl
  generalize hdd : i.duration * 90000 / i.timescale = d at *
  have hmvhd := mvhd_iter d (i.track + 1) hmd fits.track
  have htkhd := tkhd_iter i.track d vol w h htrack hmd hvol fits.width fits.height
  have hmdhd := mdhd_iter i.timescale i.duration code lang fits.scale fits.duration hcode hc
  have hhdlr := hdlr_iter mt hn hmt hhn
  have htrex := trex_iter i.track htrack
  have l1 : m.mvhd.length = 100 := by rw [e1]; rfl
  have l2 : m.tkhd.length = 84 := by rw [e2]; rfl
  have l3 : m.mdhd.length = 24 := by rw [e3]; rfl
  have l4 : m.hdlr.length = 25 + hn.length := by rw [e4]; simp [hdlrContent, hmt]; omega
  have l5 : m.trex.length = 24 := by rw [e5]; rfl
  rw [← e1] at hmvhd
  rw [← e2] at htkhd
  rw [← e3] at hmdhd
  rw [← e4] at hhdlr
  rw [← e5] at htrex
  have h4' : m.mediaHeader.1.length = 4 := by rw [e6]; exact h4
  have l6 : m.mediaHeader.2.length = mp.length := by rw [e6]
  have l7 : m.stsd.length = sp.length := by rw [e7]
  have hminf := minf_iter m mh stsd (by rw [e6]; exact hm) hmb (by rw [e7]; exact hs) hsb h4'
    (by omega)
  have bmdia := built_mdiaKids mt hn i.timescale i.duration lang stsd mh hmt hsb hmb
  have kmdia : joinPy ([mdhdObj i.timescale i.duration lang, hdlrObj mt hn, createMinf stsd mh].map
      BoxObj.iter) = .ok m.mdia.bytes := kids_leaf hmdhd (kids_leaf hhdlr (kids_node hminf kids_nil))
  have hmdia : (createMdia mt hn i.timescale i.duration lang stsd mh).iter
      = .ok (boxBytes [109, 100, 105, 97] m.mdia.bytes) :=
    container_box kmdia rfl bmdia (by rw [mdia_length m h4']; omega)
  have hbm : Built (createMdia mt hn i.timescale i.duration lang stsd mh) :=
    .container _ _ (by decide +kernel) bmdia
  generalize createMdia mt hn i.timescale i.duration lang stsd mh = mdia at *
  have htb : ∀ b ∈ [tkhdObj i.track d vol w h, mdia], Built b := by
    intro b hb
    simp only [List.mem_cons, List.not_mem_nil, or_false] at hb
    rcases hb with rfl | rfl
    · exact .tkhd _ _ _ _ _
    · exact hbm
  have ktrak : joinPy ([tkhdObj i.track d vol w h, mdia].map BoxObj.iter) = .ok m.trakKids.bytes :=
    kids_leaf htkhd (kids_node hmdia kids_nil)
  have htrak := container_box (name := [116, 114, 97, 107]) ktrak rfl htb
    (by rw [trakKids_length m h4']; omega)
  have hmvex := container_box (name := [109, 118, 101, 120]) (kids_leaf htrex kids_nil)
    rfl (by intro b hb; rw [List.mem_singleton.mp hb]; exact .trex _)
    (by simp only [length_leaf, length_nil, List.length_cons, List.length_nil, l5]; omega)
  have bmvex : Built (boxContainer [109, 118, 101, 120] [trexObj i.track]) :=
    .container _ _ (by decide +kernel) (by intro b hb; rw [List.mem_singleton.mp hb]; exact .trex _)
  have btrak := Built.container [116, 114, 97, 107] _ (by decide +kernel) htb
  have hmv : createMvhd i = .ok (mvhdObj movieTimescale d (i.track + 1 : Nat)) := by
    unfold createMvhd
    rw [hd]
  have htr : createTrak i vol w h mdia
      = .ok (boxContainer [116, 114, 97, 107] [tkhdObj i.track d vol w h, mdia]) := by
    unfold createTrak
    rw [hd]
  cases trakFirst with
  | true =>
    have hb3 : ∀ b ∈ [mvhdObj movieTimescale d (i.track + 1 : Nat),
        boxContainer [116, 114, 97, 107] [tkhdObj i.track d vol w h, mdia],
        boxContainer [109, 118, 101, 120] [trexObj i.track]], Built b := by
      intro b hb
      simp only [List.mem_cons, List.not_mem_nil, or_false] at hb
      rcases hb with rfl | rfl | rfl
      · exact .mvhd _ _ _
      · exact btrak
      · exact bmvex
    refine ⟨_, ?_, Built.container [109, 111, 111, 118] _ (by decide +kernel) hb3, ?_⟩
    · unfold createMoov createMoovVideo
      rw [if_pos rfl, hmv, htr]
      rfl
    · rw [container_box (kids_leaf hmvhd (kids_node htrak (kids_node hmvex kids_nil))) rfl hb3 (by
          simp only [length_leaf, length_node, length_nil, List.length_cons, List.length_nil,
            trakKids_length m h4', l1, l2, l3, l4, l5, l6, l7]
          omega)]
      simp only [MovieBoxes.forest, MovieBoxes.trak, MovieBoxes.mvex, Forest.bytes, if_true,
        List.append_nil]
  | false =>
    have hb3 : ∀ b ∈ [mvhdObj movieTimescale d (i.track + 1 : Nat),
        boxContainer [109, 118, 101, 120] [trexObj i.track],
        boxContainer [116, 114, 97, 107] [tkhdObj i.track d vol w h, mdia]], Built b := by
      intro b hb
      simp only [List.mem_cons, List.not_mem_nil, or_false] at hb
      rcases hb with rfl | rfl | rfl
      · exact .mvhd _ _ _
      · exact bmvex
      · exact btrak
    refine ⟨_, ?_, Built.container [109, 111, 111, 118] _ (by decide +kernel) hb3, ?_⟩
    · unfold createMoov createMoovOther
      rw [if_neg (by decide), hmv, htr]
      rfl
    · rw [container_box (kids_leaf hmvhd (kids_node hmvex (kids_node htrak kids_nil))) rfl hb3 (by
          simp only [length_leaf, length_node, length_nil, List.length_cons, List.length_nil,
            trakKids_length m h4', l1, l2, l3, l4, l5, l6, l7]
          omega)]
      simp only [MovieBoxes.forest, MovieBoxes.trak, MovieBoxes.mvex, Forest.bytes,
        Bool.false_eq_true, if_false, List.append_nil]

/-! ### What the headers say -/

theorem field_of {p : Bytes} {pos n v : Nat} (h : slice p pos (pos + n) = beBytes n v)
    (hv : v < 256 ^ n) : fieldAt p pos n = v := by
  rw [fieldAt, h, beVal_beBytes_of_lt hv]

theorem madeMovie_says (i : TrackInfo) (vol w h : Nat) (mt hn : Bytes) (lang : List Char)
    (mh : Bytes × Bytes) (sp : Bytes) (fits : TrackFits i w h) (hvol : vol < 2 ^ 16)
    (hmt : mt.length = 4) (hl : packedLanguage lang < 2 ^ 16) :
    (madeMovie i vol w h mt hn (packedLanguage lang) mh sp).Says
      ⟨i.track, i.timescale, i.duration, mt, lang, vol, w, h⟩ := by
  have hmd := fits.movieDuration
  have htrack : i.track < 2 ^ 32 := Nat.lt_of_succ_lt fits.track
  have hw := fits.width
  have hh := fits.height
  unfold madeMovie
  generalize hdd : i.duration * 90000 / i.timescale = d at *
  constructor
  · rfl
  · exact field_of rfl (by decide)
  · exact field_of (v := 90000) rfl (by decide)
  · rw [hdd]; exact field_of (v := d) rfl (by simpa using hmd)
  · exact field_of rfl (by simpa using fits.track)
  · rfl
  · exact field_of rfl (by decide)
  · exact field_of (v := 7) rfl (by decide)
  · exact field_of rfl (by simpa using htrack)
  · rw [hdd]; exact field_of (v := d) rfl (by simpa using hmd)
  · exact field_of rfl (by simpa using hvol)
  · exact field_of (v := w * 2 ^ 16) rfl (by omega)
  · exact field_of (v := h * 2 ^ 16) rfl (by omega)
  · rfl
  · exact field_of rfl (by decide)
  · exact field_of rfl (by simpa using fits.scale)
  · exact field_of rfl (by simpa using fits.duration)
  · exact field_of rfl (by simpa using hl)
  · show slice (hdlrContent mt hn) 8 12 = mt
    unfold hdlrContent slice
    rw [← List.append_assoc, show 8 = (beBytes 4 0 ++ beBytes 4 0).length from rfl, List.drop_left,
      show 12 - (beBytes 4 0 ++ beBytes 4 0).length = mt.length by rw [hmt]; rfl, List.take_left]
  · rfl
  · exact field_of rfl (by simpa using htrack)
  · exact field_of rfl (by decide)
  · exact field_of rfl (by decide)
  · exact field_of rfl (by decide)
  · exact field_of rfl (by decide)

/-! ### Languages -/

theorem langBits_letter (c : Char) (h1 : 0x60 ≤ c.toNat) (h2 : c.toNat ≤ 0x7f) :
    langBits c = .ok ((c.toNat - 0x60 : Nat) : Int) := by
  unfold langBits
  have e : ((c.toNat : Int) - 0x60) % 32 = ((c.toNat - 0x60 : Nat) : Int) := by omega
  simp only [e]
  rw [if_neg (by omega)]

theorem langBits_other (c : Char) (h : ¬ (0x60 ≤ c.toNat ∧ c.toNat ≤ 0x7f)) :
    langBits c = .error .valueError := by
  unfold langBits
  simp only
  rw [if_pos (by omega)]

theorem langCode_codable (lang : Text) (h : Codable lang) : langCode lang = packedLanguage lang := by
  obtain ⟨h3, hc⟩ := h
  match lang, h3 with
  | [a, b, c], _ =>
    have ha := hc a (by simp)
    have hb := hc b (by simp)
    have hcc := hc c (by simp)
    unfold langCode
    simp only [langBits_letter a ha.1 ha.2, langBits_letter b hb.1 hb.2, langBits_letter c hcc.1 hcc.2]
    show _ = ((((0 * 32 + (a.toNat - 0x60)) * 32 + (b.toNat - 0x60)) * 32 + (c.toNat - 0x60) : Nat) : Int)
    show (_ : Int) * 2 ^ 10 + _ * 2 ^ 5 + _ = _
    omega

theorem langCode_other (lang : Text) (h : ¬ Codable lang) : langCode lang = packedLanguage ['u', 'n', 'd'] := by
  have hu : ((packedLanguage ['u', 'n', 'd'] : Nat) : Int) = 0x55c4 := by decide
  rw [hu]
  unfold langCode
  match lang, h with
  | [], _ => rfl
  | [_], _ => rfl
  | [_, _], _ => rfl
  | _ :: _ :: _ :: _ :: _, _ => rfl
  | [a, b, c], h =>
    simp only
    by_cases ha : 0x60 ≤ a.toNat ∧ a.toNat ≤ 0x7f
    · rw [langBits_letter a ha.1 ha.2]
      by_cases hb : 0x60 ≤ b.toNat ∧ b.toNat ≤ 0x7f
      · rw [langBits_letter b hb.1 hb.2]
        by_cases hc : 0x60 ≤ c.toNat ∧ c.toNat ≤ 0x7f
        · exact absurd ⟨rfl, by
            intro z hz
            simp only [List.mem_cons, List.not_mem_nil, or_false] at hz
            rcases hz with rfl | rfl | rfl
            · exact ha
            · exact hb
            · exact hc⟩ h
        · rw [langBits_other c hc]; rfl
      · rw [langBits_other b hb]; rfl
    · rw [langBits_other a ha]; rfl

theorem packed_lt (lang : Text) (h : Codable lang) : packedLanguage lang < 2 ^ 16 := by
  obtain ⟨h3, hc⟩ := h
  match lang, h3 with
  | [a, b, c], _ =>
    have ha := hc a (by simp)
    have hb := hc b (by simp)
    have hcc := hc c (by simp)
    show ((0 * 32 + (a.toNat - 0x60)) * 32 + (b.toNat - 0x60)) * 32 + (c.toNat - 0x60) < _
    omega

theorem writtenLanguage_code (lang : Text) : langCode lang = packedLanguage (writtenLanguage lang) ∧
    packedLanguage (writtenLanguage lang) < 2 ^ 16 := by
  unfold writtenLanguage
  have hiff : (lang.length = 3 ∧ lang.all (fun c => decide (0x60 ≤ c.toNat ∧ c.toNat ≤ 0x7f)) = true)
      ↔ Codable lang := by
    unfold Codable
    rw [List.all_eq_true]
    simp
  by_cases h : Codable lang
  · rw [if_pos (hiff.mpr h)]
    exact ⟨langCode_codable lang h, packed_lt lang h⟩
  · rw [if_neg (fun hh => h (hiff.mp hh))]
    exact ⟨langCode_other lang h, by decide⟩

end Verif
