import Verif.Lemmas.MovieBox
import Verif.Props.InitInfo
import Verif.Props.InitSegment
/-
C58: init segments made from descriptions of tracks.
-/
namespace Verif

theorem forest_ok (m : MovieBoxes) (first : Bool) (h4 : m.mediaHeader.1.length = 4)
    (hp : m.mediaHeader.1 ∉ writerContainers)
    (hlt : m.mvhd.length + m.tkhd.length + m.mdhd.length + m.hdlr.length + m.mediaHeader.2.length +
      m.stsd.length + m.trex.length + 1000 < 2 ^ 32) :
    (m.forest first).Ok writerContainers := by
  have hs : m.stbl.Ok writerContainers := by
    refine ⟨rfl, by decide +kernel, by omega, rfl, by decide +kernel, by decide +kernel, rfl,
      by decide +kernel, by decide +kernel, rfl, by decide +kernel, by decide +kernel, rfl,
      by decide +kernel, by decide +kernel, trivial⟩
  have hmi : m.minf.Ok writerContainers := by
    refine ⟨h4, hp, by omega, rfl, by decide +kernel, by decide +kernel, ⟨rfl, by decide +kernel,
      by decide +kernel, trivial⟩, rfl, by decide +kernel, ?_, hs, trivial⟩
    rw [stbl_length]; omega
  have hmd : m.mdia.Ok writerContainers := by
    refine ⟨rfl, by decide +kernel, by omega, rfl, by decide +kernel, by omega, rfl,
      by decide +kernel, ?_, hmi, trivial⟩
    rw [minf_length m h4]; omega
  have htk : m.trakKids.Ok writerContainers := by
    refine ⟨rfl, by decide +kernel, by omega, rfl, by decide +kernel, ?_, hmd, trivial⟩
    rw [mdia_length m h4]; omega
  have htx : (Forest.leaf [116, 114, 101, 120] m.trex .nil).Ok writerContainers :=
    ⟨rfl, by decide +kernel, by omega, trivial⟩
  have lt := trakKids_length m h4
  have lx : (Forest.leaf [116, 114, 101, 120] m.trex .nil).bytes.length = 8 + m.trex.length := by
    rw [length_leaf]; rfl
  cases first with
  | true =>
    refine ⟨rfl, by decide +kernel, ?_, ⟨rfl, by decide +kernel, by omega, ?_⟩, trivial⟩
    · simp only [if_true, MovieBoxes.trak, MovieBoxes.mvex, length_leaf, length_node, length_nil,
        List.length_cons, List.length_nil, lt]
      omega
    · refine ⟨rfl, by decide +kernel, ?_, htk, rfl, by decide +kernel, ?_, htx, trivial⟩
      · rw [lt]; omega
      · rw [lx]; omega
  | false =>
    refine ⟨rfl, by decide +kernel, ?_, ⟨rfl, by decide +kernel, by omega, ?_⟩, trivial⟩
    · simp only [Bool.false_eq_true, if_false, MovieBoxes.trak, MovieBoxes.mvex, length_leaf,
        length_node, length_nil, List.length_cons, List.length_nil, lt]
      omega
    · refine ⟨rfl, by decide +kernel, ?_, htx, rfl, by decide +kernel, ?_, htk, trivial⟩
      · rw [lx]; omega
      · rw [lt]; omega

/-! ### Sample descriptions -/

theorem stsd_iter (entry : BoxObj) (coding ep : Bytes) (hb : Built entry)
    (he : entry.iter = .ok (boxBytes coding ep)) (h4 : coding.length = 4) (hlt : ep.length + 100 < 2 ^ 32) :
    (stsdObj [entry]).iter = .ok (boxBytes [115, 116, 115, 100] (oneEntry coding ep)) := by
  have hl : entry.size = 8 + ep.length := by
    have := hb.good.exact _ he
    rw [boxBytes_lens, h4] at this
    omega
  refine boxObj_box (r := oneEntry coding ep) ?_ rfl ?_ ?_
  · have e : joinPy (y32 0 :: y32 ([entry] : List BoxObj).length :: [entry].map BoxObj.iter)
        = .ok (beBytes 4 0 ++ (beBytes 4 1 ++ (boxBytes coding ep ++ []))) :=
      joinPy_cons_ok rfl (joinPy_cons_ok rfl (joinPy_cons_ok he rfl))
    rw [e, oneEntry, List.append_nil, List.append_assoc]
  · simp only [oneEntry, List.length_append, beBytes_length, boxBytes_lens, h4, List.map_cons,
      List.map_nil, List.sum_cons, List.sum_nil, hl]
    omega
  · simp only [oneEntry, List.length_append, beBytes_length, boxBytes_lens, h4]
    omega

/-- Content of the AVC sample entry before the configuration. -/
def visualFields (w h : Nat) : Bytes :=
  List.replicate 6 0 ++ [0, 1] ++ List.replicate 16 0 ++ beBytes 2 w ++ beBytes 2 h ++
    [0, 72, 0, 0, 0, 72, 0, 0, 0, 0, 0, 0, 0, 1] ++ List.replicate 32 0 ++ [0, 24, 255, 255]

theorem visual_iter (coding : Bytes) (w h : Nat) (config : BoxObj) (cb : Bytes) (h4 : coding.length = 4)
    (hw : w < 2 ^ 16) (hh : h < 2 ^ 16) (hb : Built config) (hc : config.iter = .ok cb)
    (hlt : cb.length + 100 < 2 ^ 32) :
    (visualObj coding w h config).iter = .ok (boxBytes coding (visualFields w h ++ cb)) := by
  have hl := hb.good.exact _ hc
  refine boxObj_box (r := visualFields w h ++ cb) ?_ h4 ?_ ?_
  · rw [y16_nat hw, y16_nat hh, hc]
    have : joinPy [.ok (serializeBytes 0 6), y16 1, y16 0, y16 0, .ok (serializeBytes 0 12),
        .ok (beBytes 2 w), .ok (beBytes 2 h), y32 0x00480000, y32 0x00480000,
        .ok (serializeBytes 0 4), y16 1, .ok (serializeBytes 0 32), y16 0x18, y16 0xffff, .ok cb]
        = .ok (visualFields w h ++ (cb ++ [])) := rfl
    rw [this, List.append_nil]
  · rw [List.length_append, hl]
    show 86 + _ = 8 + (78 + _)
    omega
  · rw [List.length_append]
    show 8 + (78 + _) < _
    omega

theorem avcc_iter (profile compat level : Nat) (sps pps : Bytes) (h1 : profile < 2 ^ 8) (h2 : compat < 2 ^ 8)
    (h3 : level < 2 ^ 8) (hs : sps.length < 2 ^ 16) (hp : pps.length < 2 ^ 16) :
    (avccObj profile compat level sps pps).iter
      = .ok (boxBytes [97, 118, 99, 67] (avcConfig profile compat level sps pps)) := by
  refine boxObj_box (r := avcConfig profile compat level sps pps) ?_ rfl ?_ ?_
  · rw [y8_nat h1, y8_nat h2, y8_nat h3, y16_nat hs, y16_nat hp]
    have : joinPy [y8 1, .ok (beBytes 1 profile), .ok (beBytes 1 compat), .ok (beBytes 1 level), y8 0xff,
        y8 0xe1, .ok (beBytes 2 sps.length), .ok sps, y8 1, .ok (beBytes 2 pps.length), .ok pps]
        = .ok (beBytes 1 1 ++ (beBytes 1 profile ++ (beBytes 1 compat ++ (beBytes 1 level ++
          (beBytes 1 255 ++ (beBytes 1 225 ++ (beBytes 2 sps.length ++ (sps ++
          (beBytes 1 1 ++ (beBytes 2 pps.length ++ (pps ++ []))))))))))) := rfl
    rw [this]
    simp only [avcConfig, List.append_assoc, List.append_nil]
  · simp only [avcConfig, List.length_append, beBytes_length]
    omega
  · simp only [avcConfig, List.length_append, beBytes_length]
    omega

/-- Content of an audio sample entry before the configuration. -/
def audioFields (ch size rate : Nat) : Bytes :=
  List.replicate 6 0 ++ [0, 1] ++ List.replicate 8 0 ++ beBytes 2 ch ++ beBytes 2 size ++ [0, 0, 0, 0] ++
    beBytes 4 (rate * 2 ^ 16)

theorem audio_iter (coding : Bytes) (ch size rate : Nat) (esds : Bytes) (h4 : coding.length = 4)
    (h1 : ch < 2 ^ 16) (h2 : size < 2 ^ 16) (h3 : rate < 2 ^ 16) (hlt : esds.length + 100 < 2 ^ 32) :
    (audioObj coding ch size rate esds).iter = .ok (boxBytes coding (audioFields ch size rate ++ esds)) := by
  refine boxObj_box (r := audioFields ch size rate ++ esds) ?_ h4 ?_ ?_
  · have e1 : ((rate : Int) * 2 ^ 16) = ((rate * 2 ^ 16 : Nat) : Int) := by simp
    rw [y16_nat h1, y16_nat h2, e1, y32_nat (n := rate * 2 ^ 16) (by omega)]
    have : joinPy [.ok (serializeBytes 0 6), y16 1, .ok (serializeBytes 0 8), .ok (beBytes 2 ch),
        .ok (beBytes 2 size), y16 0, y16 0, .ok (beBytes 4 (rate * 2 ^ 16)), .ok esds]
        = .ok (audioFields ch size rate ++ (esds ++ [])) := rfl
    rw [this, List.append_nil]
  · rw [List.length_append]
    show 36 + _ = 8 + (28 + _)
    omega
  · rw [List.length_append]
    show 8 + (28 + _) < _
    omega

/-! ### C58 -/

theorem made_ok (i : TrackInfo) (vol w h : Nat) (mt hn : Bytes) (code : Nat) (mty mp : Bytes) (sp : Bytes)
    (first : Bool) (hmt : mt.length = 4) (hhn : hn.length < 1000) (h4 : mty.length = 4)
    (hp : mty ∉ writerContainers) (hlt : mp.length + sp.length + 3000 < 2 ^ 32) :
    ((madeMovie i vol w h mt hn code (mty, mp) sp).forest first).Ok writerContainers := by
  refine forest_ok _ first h4 hp ?_
  show 100 + 84 + 24 + (hdlrContent mt hn).length + mp.length + sp.length + 24 + 1000 < _
  have : (hdlrContent mt hn).length = 25 + hn.length := by simp [hdlrContent, hmt]; omega
  omega

/-- **C58 (video).** For every description of an AVC track whose numbers fit the fields, the
movie box made from it is the box tree of a movie with one track, its headers say what the
description says, and the sample description has one `avc1` entry with the width, the height and
the decoder configuration with the two parameter sets. -/
theorem C58_video (i : H264Info) (fits : TrackFits i.toTrackInfo i.width i.height)
    (h1 : i.profile < 2 ^ 8) (h2 : i.compat < 2 ^ 8) (h3 : i.level < 2 ^ 8)
    (hs : i.sps.length < 2 ^ 16) (hp : i.pps.length < 2 ^ 16) :
    ∃ b, ∃ m : MovieBoxes, ∃ entry, createMoovH264 i = .ok b ∧ b.iter = .ok (m.forest true).bytes ∧
      (m.forest true).Ok writerContainers ∧
      m.Says ⟨i.track, i.timescale, i.duration, [118, 105, 100, 101], ['u', 'n', 'd'], 0, i.width, i.height⟩ ∧
      m.mediaHeader = ([118, 109, 104, 100], beBytes 4 0 ++ List.replicate 8 0) ∧
      m.stsd = oneEntry [97, 118, 99, 49] entry ∧
      fieldAt entry 6 2 = 1 ∧ fieldAt entry 24 2 = i.width ∧ fieldAt entry 26 2 = i.height ∧
      entry.drop 78 = boxBytes [97, 118, 99, 67] (avcConfig i.profile i.compat i.level i.sps i.pps) := by
  have ha := avcc_iter i.profile i.compat i.level i.sps i.pps h1 h2 h3 hs hp
  have hcl : (boxBytes [97, 118, 99, 67] (avcConfig i.profile i.compat i.level i.sps i.pps)).length
      = 19 + i.sps.length + i.pps.length := by
    simp only [boxBytes_lens, avcConfig, List.length_append, beBytes_length, List.length_cons, List.length_nil]
    omega
  have hv := visual_iter [97, 118, 99, 49] i.width i.height _ _ rfl fits.width fits.height
    (.avcc _ _ _ _ _) ha (by omega)
  have hvb : Built (visualObj [97, 118, 99, 49] i.width i.height
      (avccObj i.profile i.compat i.level i.sps i.pps)) :=
    .visual _ _ _ _ ⟨rfl, by decide +kernel⟩ (.avcc _ _ _ _ _)
  have hvl : (visualFields i.width i.height).length = 78 := rfl
  have hst := stsd_iter _ _ _ hvb hv rfl (by rw [List.length_append, hcl, hvl]; omega)
  have hsb : Built (createStsdVideo [97, 118, 99, 49] i.width i.height
      (avccObj i.profile i.compat i.level i.sps i.pps)) :=
    .stsd _ (by intro b hb; rw [List.mem_singleton.mp hb]; exact hvb)
  have hsl : (oneEntry [97, 118, 99, 49] (visualFields i.width i.height ++
      boxBytes [97, 118, 99, 67] (avcConfig i.profile i.compat i.level i.sps i.pps))).length
      = 113 + i.sps.length + i.pps.length := by
    simp only [oneEntry, List.length_append, beBytes_length, boxBytes_lens (ty := [97, 118, 99, 49]), hcl, hvl,
      List.length_cons, List.length_nil]
    omega
  have hu : langCode ['u', 'n', 'd'] = (packedLanguage ['u', 'n', 'd'] : Nat) := by decide
  obtain ⟨b, hb, _, hw⟩ := moov_iter true i.toTrackInfo 0 i.width i.height [118, 105, 100, 101]
    videoHandlerName ['u', 'n', 'd'] (packedLanguage ['u', 'n', 'd']) _ vmhdObj [118, 109, 104, 100]
    (beBytes 4 0 ++ List.replicate 8 0) _ fits (by decide) rfl (by decide) hu (by decide)
    (by decide +kernel) .vmhd hst hsb rfl (by rw [hsl]; simp only [List.length_append, beBytes_length, List.length_replicate]; omega)
  refine ⟨b, _, _, hb, hw, ?_, madeMovie_says i.toTrackInfo 0 i.width i.height _ _ ['u', 'n', 'd'] _ _ fits
    (by decide) rfl (by decide), rfl, rfl, ?_, ?_, ?_, ?_⟩
  · exact made_ok _ _ _ _ _ _ _ _ _ _ _ rfl (by decide) rfl (by decide +kernel)
      (by rw [hsl]; simp only [List.length_append, beBytes_length, List.length_replicate]; omega)
  · exact field_of rfl (by decide)
  · exact field_of rfl (by simpa using fits.width)
  · exact field_of rfl (by simpa using fits.height)
  · rw [← hvl, List.drop_left]

theorem audio_made (coding : Bytes) (i : AudioInfo) (fits : TrackFits i.toTrackInfo 0 0)
    (h4 : coding.length = 4) (hc : coding ∉ writerContainers)
    (h1 : i.channels < 2 ^ 16) (h2 : i.sampleSize < 2 ^ 16) (h3 : i.sampleRate < 2 ^ 16)
    (he : i.esds.length < 2 ^ 31) :
    ∃ b, ∃ m : MovieBoxes, ∃ entry, createMoovOther i.toTrackInfo (createTrakAudio coding i) = .ok b ∧
      b.iter = .ok (m.forest false).bytes ∧ (m.forest false).Ok writerContainers ∧
      m.Says ⟨i.track, i.timescale, i.duration, [115, 111, 117, 110], writtenLanguage i.lang, 0x100, 0, 0⟩ ∧
      m.mediaHeader = ([115, 109, 104, 100], beBytes 4 0 ++ List.replicate 4 0) ∧
      m.stsd = oneEntry coding entry ∧
      fieldAt entry 6 2 = 1 ∧ fieldAt entry 16 2 = i.channels ∧ fieldAt entry 18 2 = i.sampleSize ∧
      fieldAt entry 24 4 = i.sampleRate * 2 ^ 16 ∧ entry.drop 28 = i.esds := by
  have ha := audio_iter coding i.channels i.sampleSize i.sampleRate i.esds h4 h1 h2 h3 (by omega)
  have hab : Built (audioObj coding i.channels i.sampleSize i.sampleRate i.esds) :=
    .audio _ _ _ _ _ ⟨h4, hc⟩
  have hal : (audioFields i.channels i.sampleSize i.sampleRate).length = 28 := rfl
  have hst := stsd_iter _ _ _ hab ha h4 (by rw [List.length_append, hal]; omega)
  have hsb : Built (createStsdAudio coding i.channels i.sampleSize i.sampleRate i.esds) :=
    .stsd _ (by intro b hb; rw [List.mem_singleton.mp hb]; exact hab)
  have hsl : (oneEntry coding (audioFields i.channels i.sampleSize i.sampleRate ++ i.esds)).length
      = 44 + i.esds.length := by
    simp only [oneEntry, List.length_append, beBytes_length, boxBytes_lens, h4, hal]
    omega
  obtain ⟨hlc, hll⟩ := writtenLanguage_code i.lang
  obtain ⟨b, hb, _, hw⟩ := moov_iter false i.toTrackInfo 0x100 0 0 [115, 111, 117, 110]
    audioHandlerName i.lang (packedLanguage (writtenLanguage i.lang)) _ smhdObj [115, 109, 104, 100]
    (beBytes 4 0 ++ List.replicate 4 0) _ fits (by decide) rfl (by decide) hlc hll
    (by decide +kernel) .smhd hst hsb rfl (by rw [hsl]; simp only [List.length_append, beBytes_length, List.length_replicate]; omega)
  refine ⟨b, _, _, hb, hw, ?_, madeMovie_says i.toTrackInfo 0x100 0 0 _ _ (writtenLanguage i.lang) _ _ fits
    (by decide) rfl hll, rfl, rfl, ?_, ?_, ?_, ?_, ?_⟩
  · exact made_ok _ _ _ _ _ _ _ _ _ _ _ rfl (by decide) rfl (by decide +kernel)
      (by rw [hsl]; simp only [List.length_append, beBytes_length, List.length_replicate]; omega)
  · exact field_of rfl (by decide)
  · exact field_of rfl (by simpa using h1)
  · exact field_of rfl (by simpa using h2)
  · exact field_of (v := i.sampleRate * 2 ^ 16) rfl (by omega)
  · rw [← hal, List.drop_left]

/-- **C58 (AAC audio).** The same for every description of an audio track with sample rate below
65536: one `mp4a` entry with channels, sample size, rate and the given descriptor box, the given
language or "und".  Missing for the full claim: higher rates (`C58_rate_violation`). -/
theorem C58_audio_partial (i : AudioInfo) (fits : TrackFits i.toTrackInfo 0 0)
    (h1 : i.channels < 2 ^ 16) (h2 : i.sampleSize < 2 ^ 16) (h3 : i.sampleRate < 2 ^ 16)
    (he : i.esds.length < 2 ^ 31) :
    ∃ b, ∃ m : MovieBoxes, ∃ entry, createMoovMp4a i = .ok b ∧
      b.iter = .ok (m.forest false).bytes ∧ (m.forest false).Ok writerContainers ∧
      m.Says ⟨i.track, i.timescale, i.duration, [115, 111, 117, 110], writtenLanguage i.lang, 0x100, 0, 0⟩ ∧
      m.mediaHeader = ([115, 109, 104, 100], beBytes 4 0 ++ List.replicate 4 0) ∧
      m.stsd = oneEntry [109, 112, 52, 97] entry ∧
      fieldAt entry 6 2 = 1 ∧ fieldAt entry 16 2 = i.channels ∧ fieldAt entry 18 2 = i.sampleSize ∧
      fieldAt entry 24 4 = i.sampleRate * 2 ^ 16 ∧ entry.drop 28 = i.esds :=
  audio_made [109, 112, 52, 97] i fits rfl (by decide +kernel) h1 h2 h3 he

/-- **C58 (AC-3 audio).** The same for the AC-3 codecs: `ac-3` makes an `ac-3` entry, `ec-3` and
`ec+3` an `ec-3` entry, any other name is refused. -/
theorem C58_ac3_partial (codec : Text) (i : AudioInfo) (fits : TrackFits i.toTrackInfo 0 0)
    (h1 : i.channels < 2 ^ 16) (h2 : i.sampleSize < 2 ^ 16) (h3 : i.sampleRate < 2 ^ 16)
    (he : i.esds.length < 2 ^ 31) :
    (∀ coding : Bytes, (codec = ['a', 'c', '-', '3'] ∧ coding = [97, 99, 45, 51]) ∨
        ((codec = ['e', 'c', '-', '3'] ∨ codec = ['e', 'c', '+', '3']) ∧ coding = [101, 99, 45, 51]) →
      ∃ b, ∃ m : MovieBoxes, ∃ entry, createMoovAc3 codec i = .ok b ∧
        b.iter = .ok (m.forest false).bytes ∧ (m.forest false).Ok writerContainers ∧
        m.Says ⟨i.track, i.timescale, i.duration, [115, 111, 117, 110], writtenLanguage i.lang, 0x100, 0, 0⟩ ∧
        m.mediaHeader = ([115, 109, 104, 100], beBytes 4 0 ++ List.replicate 4 0) ∧
        m.stsd = oneEntry coding entry ∧
        fieldAt entry 6 2 = 1 ∧ fieldAt entry 16 2 = i.channels ∧ fieldAt entry 18 2 = i.sampleSize ∧
        fieldAt entry 24 4 = i.sampleRate * 2 ^ 16 ∧ entry.drop 28 = i.esds) ∧
    (codec ≠ ['a', 'c', '-', '3'] → codec ≠ ['e', 'c', '-', '3'] → codec ≠ ['e', 'c', '+', '3'] →
      createMoovAc3 codec i = .error .valueError) := by
  refine ⟨?_, ?_⟩
  · intro coding hcod
    have hac : ac3Coding codec = .ok coding ∧ coding.length = 4 ∧ coding ∉ writerContainers := by
      unfold ac3Coding
      rcases hcod with ⟨rfl, rfl⟩ | ⟨rfl | rfl, rfl⟩
      · exact ⟨rfl, rfl, by decide +kernel⟩
      · exact ⟨rfl, rfl, by decide +kernel⟩
      · exact ⟨rfl, rfl, by decide +kernel⟩
    have h := audio_made coding i fits hac.2.1 hac.2.2 h1 h2 h3 he
    have e : createMoovAc3 codec i = createMoovOther i.toTrackInfo (createTrakAudio coding i) := by
      unfold createMoovAc3
      rw [hac.1]
      rfl
    rwa [e]
  · intro n1 n2 n3
    have hac : ac3Coding codec = .error .valueError := by
      unfold ac3Coding
      rw [if_neg n1, if_neg (by simp [n2, n3])]
    have hmv : ∃ b, createMvhd i.toTrackInfo = .ok b := by
      unfold createMvhd movieDuration
      rw [if_neg (by have := fits.scalePos; omega)]
      exact ⟨_, rfl⟩
    obtain ⟨b, hb⟩ := hmv
    unfold createMoovAc3 createMoovOther
    rw [hac, hb]
    rfl

/-- **C58 (subtitles).** The same for every description of a WebVTT track: one `wvtt` entry with
the configuration "WEBVTT". -/
theorem C58_text (i : TextInfo) (fits : TrackFits i.toTrackInfo 0 0) :
    ∃ b, ∃ m : MovieBoxes, createMoovText i = .ok b ∧
      b.iter = .ok (m.forest false).bytes ∧ (m.forest false).Ok writerContainers ∧
      m.Says ⟨i.track, i.timescale, i.duration, [116, 101, 120, 116], writtenLanguage i.lang, 0, 0, 0⟩ ∧
      m.mediaHeader = ([110, 109, 104, 100], beBytes 4 0) ∧
      m.stsd = oneEntry [119, 118, 116, 116]
        (List.replicate 6 0 ++ [0, 1] ++ boxBytes [118, 116, 116, 67] [87, 69, 66, 86, 84, 84]) := by
  have hst : createStsdText.iter = .ok (boxBytes [115, 116, 115, 100] (oneEntry [119, 118, 116, 116]
        (List.replicate 6 0 ++ [0, 1] ++ boxBytes [118, 116, 116, 67] [87, 69, 66, 86, 84, 84]))) := by
    decide +kernel
  have hsb : Built createStsdText := .stsd _ (by intro b hb; rw [List.mem_singleton.mp hb]; exact .wvtt)
  obtain ⟨hlc, hll⟩ := writtenLanguage_code i.lang
  obtain ⟨b, hb, _, hw⟩ := moov_iter false i.toTrackInfo 0 0 0 [116, 101, 120, 116]
    textHandlerName i.lang (packedLanguage (writtenLanguage i.lang)) _ nmhdObj [110, 109, 104, 100]
    (beBytes 4 0) _ fits (by decide) rfl (by decide) hlc hll
    (by decide +kernel) .nmhd hst hsb rfl (by decide +kernel)
  exact ⟨b, _, hb, hw, made_ok _ _ _ _ _ _ _ _ _ _ _ rfl (by decide) rfl (by decide +kernel)
      (by decide +kernel), madeMovie_says i.toTrackInfo 0 0 0 _ _ (writtenLanguage i.lang) _ _ fits
    (by decide) rfl hll, rfl, rfl⟩

/-- **C58 (language).** Every language code of three lower-case letters is written as it is, and
the three letters can be read back from the header; anything else is written as "und". -/
theorem C58_language (a b c : Char) (h : ∀ x ∈ [a, b, c], 'a'.toNat ≤ x.toNat ∧ x.toNat ≤ 'z'.toNat) :
    writtenLanguage [a, b, c] = [a, b, c] ∧
    (packedLanguage [a, b, c] / 32 / 32 + 0x60 = a.toNat ∧
     packedLanguage [a, b, c] / 32 % 32 + 0x60 = b.toNat ∧ packedLanguage [a, b, c] % 32 + 0x60 = c.toNat) := by
  have ha := h a (by simp)
  have hb := h b (by simp)
  have hc := h c (by simp)
  have e1 : 'a'.toNat = 97 := rfl
  have e2 : 'z'.toNat = 122 := rfl
  rw [e1, e2] at ha hb hc
  refine ⟨?_, ?_⟩
  · unfold writtenLanguage
    rw [if_pos]
    refine ⟨rfl, ?_⟩
    rw [List.all_eq_true]
    intro x hx
    have := h x hx
    rw [e1, e2] at this
    simp only [decide_eq_true_eq]
    omega
  · show (((0 * 32 + (a.toNat - 0x60)) * 32 + (b.toNat - 0x60)) * 32 + (c.toNat - 0x60)) / 32 / 32 + 0x60 = _ ∧
      (((0 * 32 + (a.toNat - 0x60)) * 32 + (b.toNat - 0x60)) * 32 + (c.toNat - 0x60)) / 32 % 32 + 0x60 = _ ∧
      (((0 * 32 + (a.toNat - 0x60)) * 32 + (b.toNat - 0x60)) * 32 + (c.toNat - 0x60)) % 32 + 0x60 = _
    omega

/-! ### Reading what was made -/

theorem coarsen_bytes (comp : List Bytes) (f : Forest) : (f.coarsen comp).bytes = f.bytes := by
  induction f with
  | nil => rfl
  | leaf ty p rest ih => rw [Forest.coarsen, Forest.bytes, Forest.bytes, ih]
  | node ty kids rest ihk ih =>
    rw [Forest.coarsen]
    split
    · rw [Forest.bytes, Forest.bytes, ihk, ih]
    · rw [Forest.bytes, Forest.bytes, ih]

theorem coarsen_ok {comp all : List Bytes} (hsub : ∀ x ∈ comp, x ∈ all) (f : Forest) :
    f.Ok all → (f.coarsen comp).Ok comp := by
  induction f with
  | nil => intro _; trivial
  | leaf ty p rest ih =>
    intro h
    exact ⟨h.1, fun hm => h.2.1 (hsub _ hm), h.2.2.1, ih h.2.2.2⟩
  | node ty kids rest ihk ih =>
    intro h
    rw [Forest.coarsen]
    split
    · rename_i hm
      exact ⟨h.1, hm, by rw [coarsen_bytes]; exact h.2.2.1, ihk h.2.2.2.1, ih h.2.2.2.2⟩
    · rename_i hm
      exact ⟨h.1, hm, h.2.2.1, ih h.2.2.2.2⟩

/-- The movie as `InitFilter` and `InitLiveFilter` see it. -/
def seenMovie (m : MovieBoxes) (trakFirst : Bool) : Forest :=
  let mvex := fun rest => Forest.node [109, 118, 101, 120] (.leaf [116, 114, 101, 120] m.trex .nil) rest
  let trak := fun rest => Forest.node [116, 114, 97, 107]
    (.leaf [116, 107, 104, 100] m.tkhd <|
     .node [109, 100, 105, 97]
      (.leaf [109, 100, 104, 100] m.mdhd <|
       .leaf [104, 100, 108, 114] m.hdlr <|
       .leaf [109, 105, 110, 102] m.minf.bytes .nil) .nil) rest
  .node [109, 111, 111, 118]
    (.leaf [109, 118, 104, 100] m.mvhd
      (if trakFirst then trak (mvex .nil) else mvex (trak .nil))) .nil

theorem coarsen_movie (m : MovieBoxes) (first : Bool) :
    (m.forest first).coarsen initRules.composite = seenMovie m first := by
  cases first <;> rfl

theorem initContainers_sub : ∀ x ∈ initRules.composite, x ∈ writerContainers := by
  unfold initRules
  decide +kernel

/-- The file with a brand box in front. -/
theorem seen_file (m : MovieBoxes) (first : Bool) (brand : Bytes) (hb : 8 + brand.length < 2 ^ 32)
    (ok : (m.forest first).Ok writerContainers) :
    (Forest.leaf [102, 116, 121, 112] brand (seenMovie m first)).Ok initRules.composite ∧
    (Forest.leaf [102, 116, 121, 112] brand (seenMovie m first)).bytes
      = boxBytes [102, 116, 121, 112] brand ++ (m.forest first).bytes := by
  refine ⟨⟨rfl, ?_, hb, ?_⟩, ?_⟩
  · unfold initRules
    decide +kernel
  · rw [← coarsen_movie]
    exact coarsen_ok initContainers_sub _ ok
  · rw [Forest.bytes, ← coarsen_movie, coarsen_bytes]

theorem box_part {ty : Bytes} (h4 : ty.length = 4) (p : Bytes) (a b : Nat) :
    slice (boxBytes ty p) (8 + a) (8 + b) = slice p a b := by
  have e : boxBytes ty p = (beBytes 4 (4 + ty.length + p.length) ++ ty) ++ p := by
    rw [boxBytes, h4]
  rw [e, slice_append_right _ (by simp [h4])]
  congr 1 <;> simp [h4]

theorem box_field {ty p : Bytes} (h4 : ty.length = 4) (a : Nat) (h : a + 4 ≤ p.length) :
    strToUint32 (slice (boxBytes ty p) (8 + a) (8 + (a + 4))) = .ok (fieldAt p a 4) := by
  rw [box_part h4, strToUint32_four (by rw [slice_length]; omega)]
  rfl

theorem box_version {ty p : Bytes} (h4 : ty.length = 4) (h : 1 ≤ p.length) (h0 : fieldAt p 0 1 = 0) :
    byteAt (boxBytes ty p) 8 = .ok 0 := by
  match p, h with
  | v :: q, _ =>
    have hv : v = 0 := by
      have e : fieldAt (v :: q) 0 1 = v.toNat * 256 ^ 0 + 0 := rfl
      rw [e] at h0
      exact UInt8.toNat.inj (by simpa using h0)
    rw [byteAt_box h4 (v :: q) v rfl, hv]

/-- **C58 (read).** Every init segment made of a brand box and such a movie box is read by the
init segment reader as what its headers say: timescale, track, handler, no sample defaults. -/
theorem C58_read (m : MovieBoxes) (t : TrackFacts) (first : Bool) (brand : Bytes)
    (hb : 8 + brand.length < 2 ^ 32) (ok : (m.forest first).Ok writerContainers) (facts : m.Says t) :
    initInfo (boxBytes [102, 116, 121, 112] brand ++ (m.forest first).bytes)
      = .ok ⟨t.timescale, some t.track, some t.handler, some 1, some 0, some 0, some 0⟩ := by
  obtain ⟨hok, hbytes⟩ := seen_file m first brand hb ok
  rw [← hbytes, initInfo_eq _ hok]
  have hv : byteAt (boxBytes [116, 107, 104, 100] m.tkhd) 8 = .ok 0 :=
    box_version rfl (by rw [facts.tkhdLen]; omega) facts.tkhdVersion
  have ht : strToUint32 (slice (boxBytes [116, 107, 104, 100] m.tkhd) 20 24) = .ok t.track := by
    rw [← facts.track]
    exact box_field rfl 12 (by rw [facts.tkhdLen]; omega)
  have hm : strToUint32 (slice (boxBytes [109, 100, 104, 100] m.mdhd) 20 24) = .ok t.timescale := by
    rw [← facts.timescale]
    exact box_field rfl 12 (by rw [facts.mdhdLen]; omega)
  have hh : slice (boxBytes [104, 100, 108, 114] m.hdlr) 16 20 = t.handler := by
    rw [← facts.handler]
    exact box_part rfl m.hdlr 8 12
  have x1 : strToUint32 (slice (boxBytes [116, 114, 101, 120] m.trex) 16 20) = .ok 1 := by
    rw [← facts.extIndex]
    exact box_field rfl 8 (by rw [facts.trexLen]; omega)
  have x2 : strToUint32 (slice (boxBytes [116, 114, 101, 120] m.trex) 20 24) = .ok 0 := by
    rw [← facts.extDuration]
    exact box_field rfl 12 (by rw [facts.trexLen]; omega)
  have x3 : strToUint32 (slice (boxBytes [116, 114, 101, 120] m.trex) 24 28) = .ok 0 := by
    rw [← facts.extSize]
    exact box_field rfl 16 (by rw [facts.trexLen]; omega)
  have x4 : strToUint32 (slice (boxBytes [116, 114, 101, 120] m.trex) 28 32) = .ok 0 := by
    rw [← facts.extFlags]
    exact box_field rfl 20 (by rw [facts.trexLen])
  have l1 : ∀ d s, initLeaf [109, 118, 104, 100] d s = .ok (d, s) := fun d s => rfl
  have l2 : ∀ s : InitInfo, s.trackId = none → initLeaf [116, 107, 104, 100] (boxBytes [116, 107, 104, 100] m.tkhd) s
      = .ok (boxBytes [116, 107, 104, 100] m.tkhd, { s with trackId := some t.track }) := by
    intro s hs
    show processTkhd _ s = _
    unfold processTkhd
    rw [hs, hv, ht]
    rfl
  have l3 : ∀ s : InitInfo, initLeaf [109, 100, 104, 100] (boxBytes [109, 100, 104, 100] m.mdhd) s
      = .ok (boxBytes [109, 100, 104, 100] m.mdhd, { s with timescale := t.timescale }) := by
    intro s
    show processMdhd _ s = _
    unfold processMdhd
    rw [hm]
  have l4 : ∀ s : InitInfo, initLeaf [104, 100, 108, 114] (boxBytes [104, 100, 108, 114] m.hdlr) s
      = .ok (boxBytes [104, 100, 108, 114] m.hdlr, { s with handler := some t.handler }) := by
    intro s
    show processHdlr _ s = _
    unfold processHdlr
    rw [hh]
  have l5 : ∀ d s, initLeaf [109, 105, 110, 102] d s = .ok (d, s) := fun d s => rfl
  have l6 : ∀ s : InitInfo, initLeaf [116, 114, 101, 120] (boxBytes [116, 114, 101, 120] m.trex) s
      = .ok (boxBytes [116, 114, 101, 120] m.trex,
        { s with descIndex := some 1, defDur := some 0, defSize := some 0, defFlags := some 0 }) := by
    intro s
    show processTrex _ s = _
    unfold processTrex
    rw [x1, x2, x3, x4]
    rfl
  cases first with
  | true =>
    have e : movieBoxes (Forest.leaf [102, 116, 121, 112] brand (seenMovie m true))
        = [([109, 118, 104, 100], m.mvhd), ([116, 107, 104, 100], m.tkhd), ([109, 100, 104, 100], m.mdhd),
           ([104, 100, 108, 114], m.hdlr), ([109, 105, 110, 102], m.minf.bytes),
           ([116, 114, 101, 120], m.trex)] := rfl
    rw [e]
    simp only [readAll, l1, l2, l3, l4, l5, l6]
  | false =>
    have e : movieBoxes (Forest.leaf [102, 116, 121, 112] brand (seenMovie m false))
        = [([109, 118, 104, 100], m.mvhd), ([116, 114, 101, 120], m.trex), ([116, 107, 104, 100], m.tkhd),
           ([109, 100, 104, 100], m.mdhd),
           ([104, 100, 108, 114], m.hdlr), ([109, 105, 110, 102], m.minf.bytes)] := rfl
    rw [e]
    simp only [readAll, l1, l2, l3, l4, l5, l6]

theorem timeWidth_of_version {p : Bytes} (h : 4 ≤ p.length) (h0 : fieldAt p 0 1 = 0 ∨ fieldAt p 0 4 = 0) :
    timeWidth p = 4 := by
  match p, h with
  | a :: b :: c :: d :: q, _ =>
    have ha : a = 0 := by
      have e1 : fieldAt (a :: b :: c :: d :: q) 0 1 = a.toNat * 256 ^ 0 + 0 := rfl
      have e4 : fieldAt (a :: b :: c :: d :: q) 0 4
          = a.toNat * 256 ^ 3 + (b.toNat * 256 ^ 2 + (c.toNat * 256 ^ 1 + (d.toNat * 256 ^ 0 + 0))) := rfl
      rw [e1, e4] at h0
      refine UInt8.toNat.inj ?_
      show a.toNat = 0
      omega
    rw [ha]
    rfl

/-- Fields of a header that are not the duration, and the duration. -/
theorem cleared_field {ty p : Bytes} {w : Nat} (hw : headerWords ty = some w) (ht : timeWidth p = 4)
    (hl : 12 + 4 * w + 4 ≤ p.length) :
    (withoutDuration ty p).length = p.length ∧
    (∀ a n, a + n ≤ 12 + 4 * w ∨ 12 + 4 * w + 4 ≤ a → fieldAt (withoutDuration ty p) a n = fieldAt p a n) ∧
    fieldAt (withoutDuration ty p) (12 + 4 * w) 4 = 0 := by
  have hpos : durationPos w p = 12 + 4 * w := by unfold durationPos; rw [ht]
  have hc : HeaderComplete ty p := by
    intro w' hw'
    rw [hw] at hw'
    cases hw'
    rw [hpos, ht]
    omega
  obtain ⟨-, -, e3, e4, e5⟩ := withoutDuration_parts ty p w hw hc
  rw [hpos] at e3
  rw [hpos, ht] at e4 e5
  refine ⟨withoutDuration_length ty p hc, ?_, ?_⟩
  · intro a n h
    unfold fieldAt
    congr 1
    unfold slice
    rcases h with h | h
    · have k : ∀ q : Bytes, (q.drop a).take (a + n - a) = ((q.take (12 + 4 * w)).drop a).take (a + n - a) := by
        intro q
        rw [List.drop_take, List.take_take]
        congr 1
        omega
      rw [k, e3, ← k]
    · have k : ∀ q : Bytes, q.drop a = (q.drop (12 + 4 * w + 4)).drop (a - (12 + 4 * w + 4)) := by
        intro q
        rw [List.drop_drop]
        congr 1
        omega
      rw [k, e5, ← k]
  · unfold fieldAt
    rw [e4]
    rfl

/-- **C58 (live).** The live init segment made from such an init segment is the same movie with
all durations 0: every other field, the sample description and the media header are as written. -/
theorem C58_live (m : MovieBoxes) (t : TrackFacts) (first : Bool) (brand : Bytes)
    (hb : 8 + brand.length < 2 ^ 32) (ok : (m.forest first).Ok writerContainers) (facts : m.Says t) :
    ∃ m' : MovieBoxes, liveInit (boxBytes [102, 116, 121, 112] brand ++ (m.forest first).bytes)
        = .ok (boxBytes [102, 116, 121, 112] brand ++ (m'.forest first).bytes) ∧
      m'.Says { t with duration := 0 } ∧ m'.mediaHeader = m.mediaHeader ∧ m'.stsd = m.stsd := by
  obtain ⟨hok, hbytes⟩ := seen_file m first brand hb ok
  have tm := timeWidth_of_version (p := m.mvhd) (by rw [facts.mvhdLen]; omega) (.inr facts.mvhdVersion)
  have tt := timeWidth_of_version (p := m.tkhd) (by rw [facts.tkhdLen]; omega) (.inl facts.tkhdVersion)
  have td := timeWidth_of_version (p := m.mdhd) (by rw [facts.mdhdLen]; omega) (.inr facts.mdhdVersion)
  obtain ⟨cm1, cm2, cm3⟩ := cleared_field (ty := [109, 118, 104, 100]) (w := 1) rfl tm (by rw [facts.mvhdLen]; omega)
  obtain ⟨ct1, ct2, ct3⟩ := cleared_field (ty := [116, 107, 104, 100]) (w := 2) rfl tt (by rw [facts.tkhdLen]; omega)
  obtain ⟨cd1, cd2, cd3⟩ := cleared_field (ty := [109, 100, 104, 100]) (w := 1) rfl td (by rw [facts.mdhdLen]; omega)
  have other : ∀ ty p, headerWords ty = none → utf8Valid ty = true → InitBoxOk ty p := by
    intro ty p h hu
    refine ⟨?_, hu⟩
    intro w hw
    rw [h] at hw
    cases hw
  have header : ∀ ty p w, headerWords ty = some w → timeWidth p = 4 → 12 + 4 * w + 4 ≤ p.length →
      utf8Valid ty = true → InitBoxOk ty p := by
    intro ty p w hw ht hl hu
    refine ⟨?_, hu⟩
    intro w' hw'
    rw [hw] at hw'
    cases hw'
    unfold durationPos
    rw [ht]
    omega
  have b1 := header [109, 118, 104, 100] m.mvhd 1 rfl tm (by rw [facts.mvhdLen]; omega) (by decide +kernel)
  have b2 := header [116, 107, 104, 100] m.tkhd 2 rfl tt (by rw [facts.tkhdLen]; omega) (by decide +kernel)
  have b3 := header [109, 100, 104, 100] m.mdhd 1 rfl td (by rw [facts.mdhdLen]; omega) (by decide +kernel)
  have b4 := other [104, 100, 108, 114] m.hdlr rfl (by decide +kernel)
  have b5 := other [109, 105, 110, 102] m.minf.bytes rfl (by decide +kernel)
  have b6 := other [116, 114, 101, 120] m.trex rfl (by decide +kernel)
  have hi : InitOk (Forest.leaf [102, 116, 121, 112] brand (seenMovie m first)) := by
    refine ⟨hok, ?_, ?_⟩
    · intro h
      exact absurd h (by decide)
    · cases first
      · exact ⟨fun _ => ⟨b1, ⟨b6, trivial⟩, ⟨b2, ⟨b3, b4, b5, trivial⟩, trivial⟩, trivial⟩, trivial⟩
      · exact ⟨fun _ => ⟨b1, ⟨b2, ⟨b3, b4, b5, trivial⟩, trivial⟩, ⟨b6, trivial⟩, trivial⟩, trivial⟩
  let m' : MovieBoxes := { m with
    mvhd := withoutDuration [109, 118, 104, 100] m.mvhd
    tkhd := withoutDuration [116, 107, 104, 100] m.tkhd
    mdhd := withoutDuration [109, 100, 104, 100] m.mdhd }
  have hz : (0 : Nat) * 90000 / t.timescale = 0 := by rw [Nat.zero_mul, Nat.zero_div]
  refine ⟨m', ?_, ?_, rfl, rfl⟩
  · rw [← hbytes, C13_only_durations _ hi]
    have e : (Forest.leaf [102, 116, 121, 112] brand (seenMovie m first)).liveInit
        = Forest.leaf [102, 116, 121, 112] brand (seenMovie m' first) := by
      cases first <;> rfl
    rw [e, Forest.bytes, ← coarsen_movie, coarsen_bytes]
  · exact {
      mvhdLen := cm1.trans facts.mvhdLen
      mvhdVersion := (cm2 0 4 (by omega)).trans facts.mvhdVersion
      movieScale := (cm2 12 4 (by omega)).trans facts.movieScale
      movieDuration := cm3.trans hz.symm
      nextTrack := (cm2 96 4 (by omega)).trans facts.nextTrack
      tkhdLen := ct1.trans facts.tkhdLen
      tkhdVersion := (ct2 0 1 (by omega)).trans facts.tkhdVersion
      tkhdFlags := (ct2 1 3 (by omega)).trans facts.tkhdFlags
      track := (ct2 12 4 (by omega)).trans facts.track
      trackDuration := ct3.trans hz.symm
      volume := (ct2 36 2 (by omega)).trans facts.volume
      width := (ct2 76 4 (by omega)).trans facts.width
      height := (ct2 80 4 (by omega)).trans facts.height
      mdhdLen := cd1.trans facts.mdhdLen
      mdhdVersion := (cd2 0 4 (by omega)).trans facts.mdhdVersion
      timescale := (cd2 12 4 (by omega)).trans facts.timescale
      duration := cd3
      language := (cd2 20 2 (by omega)).trans facts.language
      handler := facts.handler
      trexLen := facts.trexLen
      extTrack := facts.extTrack
      extIndex := facts.extIndex
      extDuration := facts.extDuration
      extSize := facts.extSize
      extFlags := facts.extFlags }

/-! ### What goes wrong -/

theorem joinPy_error {l : List (Py Bytes)} {x : Py Bytes} (hx : x ∈ l) (h : ∀ r, x ≠ .ok r) :
    ∀ r, joinPy l ≠ .ok r := by
  induction l with
  | nil => cases hx
  | cons y l ih =>
    intro r hr
    rcases List.mem_cons.mp hx with rfl | hx'
    · cases x with
      | error e => cases hr
      | ok b => exact h b rfl
    · cases y with
      | error e => cases hr
      | ok b =>
        rw [joinPy] at hr
        cases hj : joinPy l with
        | error e => rw [hj] at hr; cases hr
        | ok q => exact ih hx' q hj

/-- A box one of whose parts cannot be written cannot be written. -/
theorem boxObj_error {size : Nat} {name : Bytes} {rest : List (Py Bytes)} {x : Py Bytes} (hx : x ∈ rest)
    (h : ∀ r, x ≠ .ok r) : ∀ r, (boxObj size name rest).iter ≠ .ok r :=
  joinPy_error (List.mem_cons_of_mem _ (List.mem_cons_of_mem _ hx)) h

theorem container_error {name : Bytes} {boxes : List BoxObj} {b : BoxObj} (hb : b ∈ boxes)
    (h : ∀ r, b.iter ≠ .ok r) : ∀ r, (boxContainer name boxes).iter ≠ .ok r :=
  boxObj_error (List.mem_map_of_mem hb) h

/-- **C58 fails for HEVC.** For every description of an HEVC track with a timescale a movie box
is made, and it can never be written. -/
theorem C58_hevc_violation (i : HevcInfo) (hpos : 0 < i.timescale) :
    ∃ b, createMoovHevc i = .ok b ∧ ∀ bytes, b.iter ≠ .ok bytes := by
  have e : createMoovHevc i = .ok (boxContainer [109, 111, 111, 118]
      [mvhdObj movieTimescale (i.duration * movieTimescale / i.timescale : Nat) (i.track + 1 : Nat),
       boxContainer [116, 114, 97, 107]
        [tkhdObj i.track (i.duration * movieTimescale / i.timescale : Nat) 0 i.width i.height,
         createMdia [118, 105, 100, 101] videoHandlerName i.timescale i.duration ['u', 'n', 'd']
          (createStsdVideo [104, 101, 118, 49] i.width i.height (hvccObj i.vps i.sps i.pps)) vmhdObj],
       boxContainer [109, 118, 101, 120] [trexObj i.track]]) := by
    unfold createMoovHevc createMoovVideo createTrakHevc createTrak createMvhd movieDuration
    rw [if_neg (by omega)]
    rfl
  refine ⟨_, e, ?_⟩
  have h1 : ∀ r, (hvccObj i.vps i.sps i.pps).iter ≠ .ok r :=
    boxObj_error (x := .error .unbound) (by simp) (fun r h => by cases h)
  have h2 : ∀ r, (visualObj [104, 101, 118, 49] i.width i.height (hvccObj i.vps i.sps i.pps)).iter ≠ .ok r :=
    boxObj_error (x := (hvccObj i.vps i.sps i.pps).iter) (by simp) h1
  have h3 : ∀ r, (createStsdVideo [104, 101, 118, 49] i.width i.height
      (hvccObj i.vps i.sps i.pps)).iter ≠ .ok r :=
    boxObj_error (x := (visualObj [104, 101, 118, 49] i.width i.height (hvccObj i.vps i.sps i.pps)).iter)
      (by simp) h2
  have h4 : ∀ r, (boxContainer [115, 116, 98, 108] [createStsdVideo [104, 101, 118, 49] i.width i.height
      (hvccObj i.vps i.sps i.pps), sttsObj, stscObj, stszObj, stcoObj]).iter ≠ .ok r :=
    container_error (List.mem_cons_self ..) h3
  refine container_error (b := _) (List.mem_cons_of_mem _ (List.mem_cons_self ..)) ?_
  refine container_error (b := _) (List.mem_cons_of_mem _ (List.mem_cons_self ..)) ?_
  refine container_error (b := _) (List.mem_cons_of_mem _ (List.mem_cons_of_mem _ (List.mem_cons_self ..))) ?_
  exact container_error (b := _) (List.mem_cons_of_mem _ (List.mem_cons_of_mem _ (List.mem_cons_self ..))) h4

/-- **C58 fails for sample rates from 65536 Hz.** A 96 kHz track: the rate written is 30464. -/
theorem C58_rate_violation : ((audioObj [109, 112, 52, 97] 2 16 96000 []).iter.map
    (fun bytes => fieldAt (bytes.drop 8) 24 4)) = .ok (30464 * 2 ^ 16) := by
  decide +kernel

/-- **C58, refusals.** A track with timescale 0 is refused. -/
theorem C58_no_timescale (i : H264Info) (h : i.timescale = 0) : createMoovH264 i = .error .zeroDivision := by
  unfold createMoovH264 createMoovVideo createMvhd movieDuration
  rw [if_pos h]
  rfl

/-! ### Concrete cases -/

/-- A full HD track of ten seconds in 90 kHz. -/
def exAvcTrack : H264Info :=
  { track := 1, timescale := 90000, duration := 900000, width := 1920, height := 1080,
    profile := 100, compat := 0, level := 40, sps := [103, 100, 0, 40], pps := [104, 238] }

/-- A stereo track in 48 kHz with language Swedish. -/
def exAacTrack : AudioInfo :=
  { track := 2, timescale := 48000, duration := 480256, channels := 2, sampleSize := 16,
    sampleRate := 48000, esds := [0, 0, 0, 8, 101, 115, 100, 115], lang := ['s', 'w', 'e'] }

example : TrackFits exAvcTrack.toTrackInfo exAvcTrack.width exAvcTrack.height := by
  constructor <;> decide

example : TrackFits exAacTrack.toTrackInfo 0 0 ∧ writtenLanguage exAacTrack.lang = ['s', 'w', 'e'] ∧
    writtenLanguage ['s', 'v'] = ['u', 'n', 'd'] := by
  refine ⟨?_, by decide, by decide⟩
  constructor <;> decide

/-- The bytes of the two examples, read again. -/
example :
    (do initInfo (← (← createMoovH264 exAvcTrack).iter)) =
      .ok ⟨90000, some 1, some [118, 105, 100, 101], some 1, some 0, some 0, some 0⟩ ∧
    (do initInfo (← (← createMoovMp4a exAacTrack).iter)) =
      .ok ⟨48000, some 2, some [115, 111, 117, 110], some 1, some 0, some 0, some 0⟩ := by
  decide +kernel

end Verif
