import Verif.Lemmas.SegmentFiles
import Verif.Props.AnalyzerFiles
/-
C90: the analyser finds missing segments.
-/
namespace Verif
open Spec

/-- **C90.** When the analyser accepts content with ordinary representation names and the template
`$RepresentationID$/$Number$.m4s`, then for every representation whose directory has no files that only begin like
segments: no segment is missing between two segments that are there, and the loop that the server reads from the
configuration begins with the lowest number.  What is missing from the full claim: directories with other files,
for which it is false (violations below). -/
theorem C90_numbers_partial {base : Text} {fs : Files} {mpd : Xml} {vodOf : Text → Py VodCfg} {name : Text}
    (h : Analysed base fs mpd vodOf name) {a : Xml} (ha : a ∈ adaptationSets mpd) (ht : NumberTemplate a) {x : Xml}
    (hx : x ∈ representations a) {id : Text} (hid : x.get "id".toList = some id) {files : List Text}
    (hf : fs.list id = some files) (ho : OnlySegments files) :
    NoGap files ∧ ∃ (v : VodCfg) (first : Nat), vodOf name = .ok v ∧ v.firstSeg = first ∧ segmentName first ∈ files ∧
      ∀ i, segmentName i ∈ files → first ≤ i := by
  obtain ⟨l, r, v, hl, -, hr, hv, rfl, -⟩ := h.known
  obtain ⟨y, q, qs, -, -, h1, -, -, -, -, h2, -⟩ := analysed_first hl hr ha
  obtain ⟨j, hj⟩ := List.mem_iff_getElem?.mp hx
  obtain ⟨b, hb, hsee⟩ := forall2_get h1 (i := j) (by rw [parseAs_reps, List.getElem?_map, hj]; rfl)
  obtain ⟨-, -, -, -, -, f1, -⟩ := seeRep_ok hsee
  obtain ⟨path, range, f2, f3, f4⟩ := seeRep_range hsee
  have hidq : b.id = id := by
    have := repNode_id f1
    rw [hid] at this
    cases this
    rfl
  rw [hidq] at f1
  have hplain := h.ids a ha x hx id hid
  have hp := mediaPath_number (fun m hm => parseAs_media ht hm) f1 hplain.dollar f2
  rw [hp] at f3
  obtain ⟨files', g1, ⟨n0, g2, g3⟩, g4⟩ := segmentRange_ok f3
  rw [hf] at g1
  cases g1
  have hfirst : range.1 = r.first := by rw [← f4, h2 b (List.mem_of_getElem? hb)]
  refine ⟨?_, _, r.first, hv, rfl, ?_, ?_⟩
  · intro i k m hi hk him hmk
    obtain ⟨e1, -⟩ := g4 _ hi i (fileNumber_segment i)
    obtain ⟨-, e2⟩ := g4 _ hk k (fileNumber_segment k)
    obtain ⟨name', e3, e4⟩ := e2 m (by omega) hmk
    rw [← fileNumber_some ho e3 e4]
    exact e3
  · rw [← hfirst, ← fileNumber_some ho g2 g3]
    exact g2
  · intro i hi
    rw [← hfirst]
    exact (g4 _ hi i (fileNumber_segment i)).1

/-- **C90, no false alarm.** A directory without other files in which no segment is missing passes the check of the
segment numbers. -/
theorem C90_complete {fs : Files} {id : Text} {files : List Text} (hl : fs.list id = some files)
    (hn : files.Nodup) (ho : OnlySegments files) (hg : NoGap files) {n : Nat} (hs : segmentName n ∈ files) :
    ∃ lo hi, segmentRange fs (id ++ "/%d.m4s".toList) = .ok (lo, hi) ∧ segmentName lo ∈ files ∧
      ∀ i, segmentName i ∈ files → lo ≤ i := by
  obtain ⟨⟨lo, hi⟩, h⟩ := segmentRange_complete hl hn ho hg hs
  obtain ⟨files', g1, ⟨n0, g2, g3⟩, g4⟩ := segmentRange_ok h
  rw [hl] at g1
  cases g1
  refine ⟨lo, hi, h, ?_, fun i hi => (g4 _ hi i (fileNumber_segment i)).1⟩
  rw [← fileNumber_some ho g2 g3]
  exact g2

/-- A directory with given segments and other files. -/
def someDir (id : String) (segs : List Nat) (others : List String) : Text × List (Text × Bytes) :=
  (id.toList, ("init.mp4".toList, (infoInit false).bytes) ::
    (segs.map fun k => (segmentName k, tinySegment k ((k - 1) * 180000) 180000)) ++
      others.map fun n => (n.toList, []))

def oneContent : Xml := tinyMpd [tinySet "video" "$RepresentationID$/$Number$.m4s" fromOne ["V1"]]

/-- The hypotheses hold for `tinyContent`. -/
example : Analysed "tiny".toList tinyFiles tinyContent (vodAfter "tiny".toList tinyFiles tinyContent) "tiny".toList ∧
    (∀ a ∈ adaptationSets tinyContent, NumberTemplate a) ∧
    tinyFiles.list "V1".toList = some ["init.mp4".toList, "1.m4s".toList, "2.m4s".toList, "3.m4s".toList] ∧
    OnlySegments ["init.mp4".toList, "1.m4s".toList, "2.m4s".toList, "3.m4s".toList] ∧
    NoGap ["init.mp4".toList, "1.m4s".toList, "2.m4s".toList, "3.m4s".toList] := by
  have ho : OnlySegments ["init.mp4".toList, "1.m4s".toList, "2.m4s".toList, "3.m4s".toList] := by
    intro name hn ds rest hd hds he
    rcases List.mem_cons.mp hn with rfl | hn
    · cases ds with
      | nil => exact absurd rfl hd
      | cons c cs =>
        have hc := hds c List.mem_cons_self
        rw [List.cons_append, List.cons_append, show "init.mp4".toList = 'i' :: "nit.mp4".toList from rfl] at he
        rw [← (List.cons.inj he).1] at hc
        exact absurd hc (by decide)
    · have hall : ∀ nm ∈ ["1.m4s".toList, "2.m4s".toList, "3.m4s".toList], nm = segmentName 1 ∨ nm = segmentName 2 ∨
          nm = segmentName 3 := by decide +kernel
      rcases hall name hn with h | h | h
      · exact ⟨1, h⟩
      · exact ⟨2, h⟩
      · exact ⟨3, h⟩
  have han := analysed_after (base := "tiny".toList) (fs := tinyFiles) (mpd := tinyContent) (by decide +kernel)
    (by decide +kernel) (by decide +kernel)
  have ht : ∀ a ∈ adaptationSets tinyContent, NumberTemplate a := by unfold NumberTemplate; decide +kernel
  refine ⟨han, ht, by decide +kernel, ho, ?_⟩
  have ha : (adaptationSets tinyContent)[0]? = some (tinySet "video" "$RepresentationID$/$Number$.m4s" fromOne ["V1"]) := by
    decide +kernel
  refine (C90_numbers_partial (id := "V1".toList) (x := .elem "Representation".toList
    [("id".toList, "V1".toList), ("bandwidth".toList, "9".toList)] [] []) han (List.mem_of_getElem? ha)
    (ht _ (List.mem_of_getElem? ha)) (by decide +kernel) (by decide +kernel) (by decide +kernel) ho).1

/-- **C90 fails** when there is a copy of the missing segment under another name: the expression for file names is not
anchored at the end, so `2.m4s.bak` counts as segment 2.  Segment 2 is missing, the analyser accepts the content with
no word about it, and the loop has segment 1 alone. -/
theorem C90_copy_violation :
    (filesOf [someDir "V1" [1, 3] ["2.m4s.bak"]]).list "V1".toList =
      some ["init.mp4".toList, "1.m4s".toList, "3.m4s".toList, "2.m4s.bak".toList] ∧
    ¬ NoGap ["init.mp4".toList, "1.m4s".toList, "3.m4s".toList, "2.m4s.bak".toList] ∧
    Analysed "tiny".toList (filesOf [someDir "V1" [1, 3] ["2.m4s.bak"]]) oneContent
      (vodAfter "tiny".toList (filesOf [someDir "V1" [1, 3] ["2.m4s.bak"]]) oneContent) "tiny".toList ∧
    (vodAfter "tiny".toList (filesOf [someDir "V1" [1, 3] ["2.m4s.bak"]]) oneContent "tiny".toList).map
      (fun v => (v.firstSeg, v.nrSegs)) = .ok (1, 1) := by
  refine ⟨by decide +kernel, ?_, analysed_after (by decide +kernel) (by decide +kernel) (by decide +kernel),
    by decide +kernel⟩
  intro h
  have := h 1 3 2 (by decide +kernel) (by decide +kernel) (by decide) (by decide)
  exact absurd this (by decide +kernel)

/-- **C90 fails** in the other direction too: complete content is refused, with a message that a segment is missing,
when the directory has a copy of one of its segments. -/
theorem C90_refused_violation :
    (analyzeContent "tiny".toList (filesOf [someDir "V1" [1, 2, 3] []]) oneContent).isOk = true ∧
    analyzeContent "tiny".toList (filesOf [someDir "V1" [1, 2, 3] ["2.m4s.bak"]]) oneContent = .error .analyzerError :=
  ⟨by decide +kernel, by decide +kernel⟩

/-- A missing segment is found where there are no other files. -/
example : analyzeContent "tiny".toList (filesOf [someDir "V1" [1, 3] []]) oneContent = .error .analyzerError := by
  decide +kernel

end Verif
