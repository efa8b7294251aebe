import Verif.Lemmas.CaptionFile
import Verif.Float
/-
C89: the caption tool puts the captions of a file into the segments.
-/
namespace Verif
open Spec

/-- The simplification in `transformTime`: rounding does not change the milliseconds of a frame. -/
theorem frameMs_float (f : Nat) (h : f < 30) :
    pyTrunc (fl (fl ((f * 1000 : Nat) : Rat) / fl (2997 / 100))) = pyTrunc (((f * 1000 : Nat) : Rat) / (2997 / 100)) := by
  have key : ∀ f : Fin 30, pyTrunc (fl (fl ((f.val * 1000 : Nat) : Rat) / fl (2997 / 100))) =
      pyTrunc (((f.val * 1000 : Nat) : Rat) / (2997 / 100)) := by decide +kernel
  exact key ⟨f, h⟩

/-- **C89, reading.** For every caption file, whatever lines without a colon and blanks at line ends it has, and
however long its lines are: it is read without an error, to the captions of its cues in order; those of a cue have its
words in order, in messages of at most 31, at its time cut to milliseconds. -/
theorem C89_file {lines : List Text} {cues : List Cue} (h : CueFile lines cues) :
    ∃ raw groups, sccParse lines = .ok raw ∧ readCaps raw = .ok groups.flatten ∧
      List.Forall₂ CaptionsOf cues groups := cueFile_read h

/-! ### The segments -/

theorem readCaps_filter {raw : List SccCap} {caps : List Caption} (h : readCaps raw = .ok caps) (p : Rat → Bool) :
    readCaps (raw.filter fun c => p c.start) = .ok (caps.filter fun c => p c.start) := by
  induction raw generalizing caps with
  | nil => cases h; rfl
  | cons c raw ih =>
    rw [readCaps] at h
    cases h1 : readWords c.words with
    | error e => rw [h1] at h; cases h
    | ok ws =>
      rw [h1] at h
      simp only at h
      cases h2 : readCaps raw with
      | error e => rw [h2] at h; cases h
      | ok r =>
        rw [h2] at h
        cases h
        rw [List.filter_cons, List.filter_cons]
        cases hp : p c.start with
        | false => simp only [Bool.false_eq_true, if_false]; exact ih h2
        | true =>
          simp only [if_true]
          rw [readCaps, h1]
          simp only
          rw [ih h2]

theorem readCaps_length {raw : List SccCap} {caps : List Caption} (h : readCaps raw = .ok caps) : raw.length = caps.length := by
  induction raw generalizing caps with
  | nil => cases h; rfl
  | cons c raw ih =>
    rw [readCaps] at h
    cases h1 : readWords c.words with
    | error e => rw [h1] at h; cases h
    | ok ws =>
      rw [h1] at h
      simp only at h
      cases h2 : readCaps raw with
      | error e => rw [h2] at h; cases h
      | ok r =>
        rw [h2] at h
        cases h
        simp [ih h2]

theorem window_eq (caps : List Caption) {ts : Nat} (hts : 0 < ts) (t d : Nat) :
    (caps.filter fun c => decide ((t : Rat) / ts ≤ c.start ∧ c.start < (t : Rat) / ts + (d : Rat) / ts)) =
      captionsIn caps ts t d := by
  have h0 : (0 : Rat) < ts := by exact_mod_cast hts
  unfold captionsIn
  congr 1
  funext c
  rw [decide_eq_decide, ← add_div, div_le_iff₀ h0, lt_div_iff₀ h0]

theorem captionsIn_window (caps : List Caption) (ts t d a b : Nat) (h1 : t ≤ a) (h2 : a + b ≤ t + d) :
    captionsIn (captionsIn caps ts t d) ts a b = captionsIn caps ts a b := by
  unfold captionsIn
  rw [List.filter_filter]
  congr 1
  funext c
  have e1 : (t : Rat) ≤ a := by exact_mod_cast h1
  have e2 : (a : Rat) + b ≤ (t : Rat) + d := by exact_mod_cast h2
  rw [← Bool.decide_and, decide_eq_decide]
  constructor
  · exact fun h => h.1
  · exact fun h => ⟨h, le_trans e1 h.1, lt_of_lt_of_le h.2 e2⟩

theorem captioned_window {field : Nat} {caps : List Caption} {ts t d : Nat} {a : Nat} {ss ss' : List VideoSample}
    (h : Captioned field (captionsIn caps ts t d) ts a ss ss') (h1 : t ≤ a)
    (h2 : a + (ss.map VideoSample.duration).sum ≤ t + d) : Captioned field caps ts a ss ss' := by
  induction h with
  | nil => exact .nil _
  | cons a s new ss ss' hn h ih =>
    rw [List.map_cons, List.sum_cons] at h2
    refine .cons a s new ss ss' ?_ (ih (by omega) (by omega))
    rw [hn, captionsIn_window caps ts t d a s.duration h1 (by omega)]

theorem captionedLength_window {caps : List Caption} {ts t d : Nat} (ss : List VideoSample) (a : Nat) (h1 : t ≤ a)
    (h2 : a + (ss.map VideoSample.duration).sum ≤ t + d) :
    captionedLength (captionsIn caps ts t d) ts a ss = captionedLength caps ts a ss := by
  induction ss generalizing a with
  | nil => rfl
  | cons s ss ih =>
    rw [List.map_cons, List.sum_cons] at h2
    rw [captionedLength, captionedLength, captionsIn_window caps ts t d a s.duration h1 (by omega), ih _ (by omega) (by omega)]

/-- A stored segment as the tool sees it. -/
def Spec.StoredRun.seg (s : StoredRun) : CcSeg := ⟨s.tfdt, s.dur, s.g.bytes s.ss⟩

/-- What the file of a segment is to be. -/
def Spec.CaptionedFile (field : Nat) (caps : List Caption) (ts : Nat) (s : StoredRun) (file : Option Bytes) : Prop :=
  (captionsIn caps ts s.tfdt s.dur = [] ∧ file = none) ∨
    (captionsIn caps ts s.tfdt s.dur ≠ [] ∧
      ∃ ss', Captioned field caps ts s.tfdt s.ss ss' ∧ file = some (s.g.bytes ss'))

/-- The file of a number among the files written. -/
def fileOf (w : List (Nat × Bytes)) (nr : Nat) : Option Bytes :=
  (w.reverse.find? fun x => decide (x.1 = nr)).map Prod.snd

theorem fileOf_append (a b : List (Nat × Bytes)) (nr : Nat) : fileOf (a ++ b) nr = (fileOf b nr).or (fileOf a nr) := by
  unfold fileOf
  rw [List.reverse_append, List.find?_append]
  cases (List.find? (fun x => decide (x.1 = nr)) b.reverse) <;> rfl

theorem fileOf_none {a : List (Nat × Bytes)} {nr : Nat} (h : ∀ x ∈ a, x.1 ≠ nr) : fileOf a nr = none := by
  unfold fileOf
  rw [Option.map_eq_none_iff, List.find?_eq_none]
  intro x hx
  simpa using h x (List.mem_reverse.1 hx)

theorem ccLoop_files {ts field : Nat} {raw : List SccCap} {caps : List Caption} (hr : readCaps raw = .ok caps)
    (hts : 0 < ts) (hf : field = 1 ∨ field = 2) (hl : ∀ x ∈ caps, x.words.length ≤ 31)
    (hw : ∀ x ∈ caps, ∀ w ∈ x.words, w < 65536) (first : Nat) (max : Int) (segs : List StoredRun)
    (hok : ∀ s ∈ segs, s.Ok caps ts) (nr : Nat) (hnr : first ≤ nr)
    (hm0 : max ≤ 0 ∨ (nr : Int) ≤ first + max) :
    (ccLoop ts field raw first max (segs.map StoredRun.seg) nr).2 = .ok () ∧
    (∀ i (hi : i < segs.length), ((max ≤ 0 ∨ ((nr + i : Nat) : Int) - first ≤ max) →
        CaptionedFile field caps ts segs[i]
          (fileOf (ccLoop ts field raw first max (segs.map StoredRun.seg) nr).1 (nr + i)))) ∧
    (∀ x ∈ (ccLoop ts field raw first max (segs.map StoredRun.seg) nr).1, nr ≤ x.1 ∧ x.1 < nr + segs.length ∧
      (max ≤ 0 ∨ (x.1 : Int) ≤ first + max)) := by
  induction segs generalizing nr with
  | nil =>
    refine ⟨rfl, fun i hi => absurd hi (Nat.not_lt_zero _), ?_⟩
    intro x hx
    cases hx
  | cons s segs ih =>
    obtain ⟨o1, o2, o3, o4⟩ := hok s (List.mem_cons_self ..)
    have hsel : readCaps (sccSelect raw ((s.tfdt : Rat) / ts) ((s.tfdt : Rat) / ts + (s.dur : Rat) / ts)) =
        .ok (captionsIn caps ts s.tfdt s.dur) := by
      rw [← window_eq caps hts]
      exact readCaps_filter hr (fun x => decide ((s.tfdt : Rat) / ts ≤ x ∧ x < (s.tfdt : Rat) / ts + (s.dur : Rat) / ts))
    have hlen := readCaps_length hsel
    -- what is written for the segment
    have hwr : ∃ w, (if (sccSelect raw ((s.tfdt : Rat) / ts) ((s.tfdt : Rat) / ts + (s.dur : Rat) / ts)).length ≠ 0 then
          match readCaps (sccSelect raw ((s.tfdt : Rat) / ts) ((s.tfdt : Rat) / ts + (s.dur : Rat) / ts)) with
          | .error e => .error e
          | .ok cs =>
            match ccFilter ⟨cs, ts, s.tfdt, field⟩ (s.g.bytes s.ss) with
            | .error e => .error e
            | .ok out => .ok [(nr, out)]
        else .ok [] : Py (List (Nat × Bytes))) = .ok w ∧ CaptionedFile field caps ts s (fileOf w nr) ∧ ∀ x ∈ w, x.1 = nr := by
      by_cases hz : captionsIn caps ts s.tfdt s.dur = []
      · refine ⟨[], ?_, Or.inl ⟨hz, rfl⟩, by simp⟩
        rw [if_neg]
        rw [hlen, hz]
        simp
      · obtain ⟨ss', k1, k2⟩ := C44_segment_partial ⟨captionsIn caps ts s.tfdt s.dur, ts, s.tfdt, field⟩ s.g o1 s.ss o2 hts hf
          (fun x hx => hl x (List.mem_of_mem_filter hx)) (fun x hx => hw x (List.mem_of_mem_filter hx))
          (by
            show 8 + s.g.pre.length + captionedLength (captionsIn caps ts s.tfdt s.dur) ts s.tfdt s.ss + s.g.post.length < 2 ^ 32
            rw [captionedLength_window s.ss s.tfdt (le_refl _) (show _ ≤ s.tfdt + s.dur from le_refl _)]
            exact o4) o3
        refine ⟨[(nr, s.g.bytes ss')], ?_, Or.inr ⟨hz, ss', captioned_window k1 (le_refl _) (le_refl _), ?_⟩, ?_⟩
        · rw [if_pos (by rw [hlen]; simpa using hz), hsel]
          simp only
          rw [k2]
        · simp [fileOf]
        · simp
    obtain ⟨w, w1, w2, w3⟩ := hwr
    have hstep : ccLoop ts field raw first max ((s :: segs).map StoredRun.seg) nr =
        if ((nr + 1 : Nat) : Int) - first > max ∧ max > 0 then (w, .ok ())
        else (w ++ (ccLoop ts field raw first max (segs.map StoredRun.seg) (nr + 1)).1,
          (ccLoop ts field raw first max (segs.map StoredRun.seg) (nr + 1)).2) := by
      rw [List.map_cons, ccLoop, if_neg (by omega)]
      show (match (if (sccSelect raw ((s.tfdt : Rat) / ts) ((s.tfdt : Rat) / ts + (s.dur : Rat) / ts)).length ≠ 0 then
          match readCaps (sccSelect raw ((s.tfdt : Rat) / ts) ((s.tfdt : Rat) / ts + (s.dur : Rat) / ts)) with
          | .error e => .error e
          | .ok cs =>
            match ccFilter ⟨cs, ts, s.tfdt, field⟩ (s.g.bytes s.ss) with
            | .error e => .error e
            | .ok out => .ok [(nr, out)]
        else .ok [] : Py (List (Nat × Bytes))) with
        | .error e => (([], .error e) : List (Nat × Bytes) × Py Unit)
        | .ok w => if ((nr + 1 : Nat) : Int) - first > max ∧ max > 0 then (w, .ok ())
          else (w ++ (ccLoop ts field raw first max (segs.map StoredRun.seg) (nr + 1)).1,
            (ccLoop ts field raw first max (segs.map StoredRun.seg) (nr + 1)).2)) = _
      rw [w1]
    rw [hstep]
    by_cases hm : ((nr + 1 : Nat) : Int) - first > max ∧ max > 0
    · rw [if_pos hm]
      refine ⟨rfl, ?_, ?_⟩
      · intro i hi hc
        have : i = 0 := by
          rcases hc with hc | hc
          · omega
          · push_cast at hc hm; omega
        subst this
        exact w2
      · intro x hx
        rw [w3 x hx, List.length_cons]
        omega
    · rw [if_neg hm]
      obtain ⟨i1, i2, i3⟩ := ih (fun x hx => hok x (List.mem_cons_of_mem _ hx)) (nr + 1) (by omega) (by push_cast at hm ⊢; omega)
      refine ⟨i1, ?_, ?_⟩
      · intro i hi hc
        simp only
        rw [fileOf_append]
        cases i with
        | zero =>
          rw [fileOf_none (nr := nr + 0) (fun x hx => by have := (i3 x hx).1; omega)]
          exact w2
        | succ i =>
          rw [fileOf_none (a := w) (fun x hx => by rw [w3 x hx]; omega), Option.or_none,
            show nr + (i + 1) = nr + 1 + i by omega]
          exact i2 i (by simpa using hi) (by rwa [show nr + 1 + i = nr + (i + 1) by omega])
      · intro x hx
        rw [List.length_cons]
        rcases List.mem_append.1 hx with hx | hx
        · rw [w3 x hx]; omega
        · have := i3 x hx; omega

theorem captions_words {cues : List Cue} {groups : List (List Caption)} (h : List.Forall₂ CaptionsOf cues groups)
    (hc : ∀ c ∈ cues, c.Ok) :
    (∀ x ∈ groups.flatten, x.words.length ≤ 31) ∧ ∀ x ∈ groups.flatten, ∀ w ∈ x.words, w < 65536 := by
  induction h with
  | nil => simp
  | cons h1 h ih =>
    rename_i c g cs gs
    obtain ⟨k1, k2⟩ := ih (fun x hx => hc x (List.mem_cons_of_mem _ hx))
    obtain ⟨_, _, _, _, _, hw⟩ := hc c (List.mem_cons_self ..)
    rw [List.flatten_cons]
    constructor
    · intro x hx
      rcases List.mem_append.1 hx with hx | hx
      · exact (h1.2 x hx).2.1
      · exact k1 x hx
    · intro x hx w hm
      rcases List.mem_append.1 hx with hx | hx
      · have : w ∈ (g.map Caption.words).flatten := List.mem_flatten.2 ⟨_, List.mem_map.2 ⟨x, hx, rfl⟩, hm⟩
        rw [h1.1] at this
        obtain ⟨v, hv, rfl⟩ := List.mem_map.1 this
        exact (hw v hv).2
      · exact k2 x hx w hm

theorem cueFile_ok {lines : List Text} {cues : List Cue} (h : CueFile lines cues) : ∀ c ∈ cues, c.Ok := by
  induction h with
  | nil => simp
  | other l ls cs hl h ih => exact ih
  | cue c tail ls cs hc ht h ih =>
    intro x hx
    rcases List.mem_cons.1 hx with rfl | hx
    · exact hc
    · exact ih x hx

/-- **C89.** For every caption file and every list of segments of one run each, from any first number on: the tool
ends without an error, and every segment (with a limit `max > 0`: up to number `first + max`) with a caption of the
file in its time is written under its number, as it was except that every sample has the caption messages of its time
in order, before its first picture unit.  A segment without captions, and any other number, has no file.  Missing:
several representations, and files for all segments, see the violations. -/
theorem C89_tool_partial {lines : List Text} {cues : List Cue} (hfile : CueFile lines cues) {ts field : Nat}
    (hts : 0 < ts) (hf : field = 1 ∨ field = 2) (max : Int) (first : Nat) (segs : List StoredRun) :
    ∃ groups, List.Forall₂ CaptionsOf cues groups ∧
      ((∀ s ∈ segs, s.Ok groups.flatten ts) →
        (ccTool ts field max lines [(first, segs.map StoredRun.seg)]).2 = .ok () ∧
        (∀ i (hi : i < segs.length), (max ≤ 0 ∨ (i : Int) ≤ max) →
          CaptionedFile field groups.flatten ts segs[i]
            ((ccTool ts field max lines [(first, segs.map StoredRun.seg)]).1 (first + i))) ∧
        ∀ nr, (nr < first ∨ first + segs.length ≤ nr ∨ (0 < max ∧ (first : Int) + max < nr)) →
          (ccTool ts field max lines [(first, segs.map StoredRun.seg)]).1 nr = none) := by
  obtain ⟨raw, groups, h1, h2, h3⟩ := cueFile_read hfile
  obtain ⟨w1, w2⟩ := captions_words h3 (cueFile_ok hfile)
  refine ⟨groups, h3, fun hok => ?_⟩
  obtain ⟨k1, k2, k3⟩ := ccLoop_files h2 hts hf w1 w2 first max segs hok first (le_refl _) (by omega)
  have he : ccTool ts field max lines [(first, segs.map StoredRun.seg)] =
      (fun nr => fileOf (ccLoop ts field raw first max (segs.map StoredRun.seg) first).1 nr, .ok ()) := by
    unfold ccTool
    rw [h1]
    simp only [ccReps, Option.any_none, Bool.false_eq_true, if_false]
    rw [k1]
    simp only [List.append_nil]
    rfl
  rw [he]
  refine ⟨rfl, ?_, ?_⟩
  · intro i hi hm
    apply k2 i hi
    rcases hm with hm | hm
    · exact Or.inl hm
    · right; push_cast; omega
  · intro nr hnr
    apply fileOf_none
    intro x hx
    have := k3 x hx
    omega

/-- **C89, once.** In segments that follow each other in time every caption between the start of the first and the
end of the last is in exactly one segment. -/
theorem C89_once (caps : List Caption) (ts : Nat) (s : StoredRun) (segs : List StoredRun) (h : BackToBack (s :: segs)) :
    ((s :: segs).flatMap fun x => captionsIn caps ts x.tfdt x.dur).Perm
      (captionsIn caps ts s.tfdt ((s :: segs).map StoredRun.dur).sum) := by
  induction segs generalizing s with
  | nil => simp
  | cons b segs ih =>
    obtain ⟨h1, h2⟩ := h
    rw [List.flatMap_cons, List.map_cons, List.sum_cons]
    refine (List.Perm.append_left _ (ih b h2)).trans ?_
    rw [h1]
    exact captionsIn_split caps ts s.tfdt s.dur _

/-! ### An example -/

/-- A file with a header, an empty line and two cues. -/
def exScc : List Text :=
  ["Scenarist_SCC V1.0\n".toList, "\n".toList, "00:00:05:15 9420 94ad\r\n".toList, "00:00:31:00 942C\n".toList]

/-- Its cues. -/
def exCues : List Cue :=
  [⟨"00".toList, "00".toList, "05".toList, "15".toList, ["9420".toList, "94ad".toList]⟩,
   ⟨"00".toList, "00".toList, "31".toList, "00".toList, ["942C".toList]⟩]

theorem exScc_cues : CueFile exScc exCues := by
  have d : ∀ t ∈ ["00".toList, "05".toList, "15".toList, "31".toList], Decimal t := by
    unfold Decimal; decide +kernel
  have x : ∀ t ∈ ["9420".toList, "94ad".toList, "942C".toList], Hexadecimal t ∧ baseVal 16 t < 65536 := by
    unfold Hexadecimal; decide +kernel
  apply CueFile.other _ _ _ (by decide +kernel)
  apply CueFile.other _ _ _ (by decide +kernel)
  refine CueFile.cue ⟨"00".toList, "00".toList, "05".toList, "15".toList, ["9420".toList, "94ad".toList]⟩
    "\r\n".toList _ _ ⟨d _ (by simp), d _ (by simp), d _ (by simp), d _ (by simp), by decide +kernel, ?_⟩
    (by unfold Blank; decide +kernel) ?_
  · intro w hw
    exact x w (by simp only [List.mem_cons, List.not_mem_nil, or_false] at hw ⊢; tauto)
  refine CueFile.cue ⟨"00".toList, "00".toList, "31".toList, "00".toList, ["942C".toList]⟩
    "\n".toList _ _ ⟨d _ (by simp), d _ (by simp), d _ (by simp), d _ (by simp), by decide +kernel, ?_⟩
    (by unfold Blank; decide +kernel) CueFile.nil
  intro w hw
  exact x w (by simp only [List.mem_cons, List.not_mem_nil, or_false] at hw ⊢; tauto)

/-- Four segments of ten seconds. -/
def exStored : List StoredRun := [⟨exRun, exVideo, 0⟩, ⟨exRun, exVideo, 20⟩, ⟨exRun, exVideo, 40⟩, ⟨exRun, exVideo, 60⟩]

/-- The captions of the file. -/
def exCaptions : List Caption := [⟨11 / 2, [0x9420, 0x94ad]⟩, ⟨31, [0x942c]⟩]

theorem exStored_continuous : BackToBack exStored :=
  ⟨by decide +kernel, by decide +kernel, by decide +kernel, trivial⟩

theorem exStored_ok : ∀ s ∈ exStored, s.Ok exCaptions 2 := by
  have h1 : exRun.Ok := by
    unfold RunSegment.Ok PlainBoxes
    refine ⟨?_, ?_, ?_, ?_, ?_, ?_, ?_, ?_⟩ <;> decide +kernel
  have h2 : ∀ s ∈ exVideo, s.Ok := by
    unfold VideoSample.Ok
    decide +kernel
  have h3 : ∀ t ∈ [0, 20, 40, 60], 8 + exRun.pre.length + captionedLength exCaptions 2 t exVideo + exRun.post.length < 2 ^ 32 := by
    decide +kernel
  intro s hs
  simp only [exStored, List.mem_cons, List.not_mem_nil, or_false] at hs
  rcases hs with rfl | rfl | rfl | rfl
  all_goals exact ⟨h1, h2, by decide +kernel, h3 _ (by simp)⟩

/-- The file is read to these captions. -/
example : sccParse exScc = .ok [⟨11 / 2, ["9420".toList, "94ad".toList]⟩, ⟨31, ["942C".toList]⟩] ∧
    readCaps [⟨11 / 2, ["9420".toList, "94ad".toList]⟩, ⟨31, ["942C".toList]⟩] = .ok exCaptions := by
  constructor
  · decide +kernel
  · rfl

/-- Segments 1 and 4 have a caption and are written. -/
example : (List.range 6).map (fun i => ((ccTool 2 1 (-1) exScc [(1, exStored.map StoredRun.seg)]).1 i).isSome) =
      [false, true, false, false, true, false] := by
  decide +kernel

/-! ### Where the code fails -/

/-- **C89 fails** for segments without captions: they are not written, so the output directory is not a
representation that can be played. -/
theorem C89_gaps_violation : ∃ segs : List StoredRun, BackToBack segs ∧ (∀ s ∈ segs, s.Ok exCaptions 2) ∧
    ∃ i, i < segs.length ∧ (ccTool 2 1 (-1) exScc [(1, segs.map StoredRun.seg)]).1 (1 + i) = none := by
  exact ⟨exStored, exStored_continuous, exStored_ok, 1, by decide, by decide +kernel⟩

/-- A second representation: the same times, another picture. -/
def exOther : List StoredRun := [⟨exRun, [{ duration := 20, flags := 0, comp := 0, units := [[0x65, 77]] }], 0⟩]

/-- **C89 fails** for two representations: both are written under the same names, so that only the segments of the
last one are there in the end. -/
theorem C89_representations_violation :
    (ccTool 2 1 (-1) exScc [(1, exStored.map StoredRun.seg), (1, exOther.map StoredRun.seg)]).2 = .ok () ∧
    (ccTool 2 1 (-1) exScc [(1, exStored.map StoredRun.seg), (1, exOther.map StoredRun.seg)]).1 1 =
      (ccTool 2 1 (-1) exScc [(1, exOther.map StoredRun.seg)]).1 1 ∧
    (ccTool 2 1 (-1) exScc [(1, exStored.map StoredRun.seg)]).1 1 ≠
      (ccTool 2 1 (-1) exScc [(1, exOther.map StoredRun.seg)]).1 1 := by decide +kernel

/-- **C89 fails** for the limit: with `--max 1` two segments are processed. -/
theorem C89_max_violation : ∃ segs : List StoredRun, segs.length = 2 ∧
    ((ccTool 2 1 1 exScc [(1, segs.map StoredRun.seg)]).1 1).isSome = true ∧
    ((ccTool 2 1 1 exScc [(1, segs.map StoredRun.seg)]).1 2).isSome = true := by
  refine ⟨[⟨exRun, exVideo, 0⟩, ⟨exRun, exVideo, 60⟩], rfl, ?_, ?_⟩ <;> decide +kernel

/-- **C89 fails** for the files that captioning programs write: the time and the words are separated by a tab there,
and drop-frame times have a semicolon before the frames.  Neither is read. -/
theorem C89_format_violation :
    sccParse ["Scenarist_SCC V1.0\n".toList, "00:00:05:15\t9420 94ad\n".toList] = .error .valueError ∧
    sccParse ["Scenarist_SCC V1.0\n".toList, "00:00:05;15 9420 94ad\n".toList] = .error .valueError := by
  constructor <;> decide +kernel

end Verif
