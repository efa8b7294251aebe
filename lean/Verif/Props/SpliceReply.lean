import Verif.Spec.Splice
import Verif.Lemmas.LiveFragment
import Verif.Props.LiveTimes
/-
C95: the splices that a service announces are in its replies.
-/
namespace Verif
open Spec

/-! ### The message -/

theorem textOf_ascii {t : Text} (h : Ascii t) : textOf (t.map fun c => UInt8.ofNat c.toNat) = t := by
  unfold textOf
  rw [List.map_map]
  induction t with
  | nil => rfl
  | cons c t ih =>
    rw [List.map_cons, ih fun x hx => h x (List.mem_cons_of_mem _ hx)]
    congr 1
    have hc := h c List.mem_cons_self
    show Char.ofNat (UInt8.ofNat c.toNat).toNat = c
    rw [UInt8.toNat_ofNat', Nat.mod_eq_of_lt (by omega), Char.ofNat_toNat]

theorem scteOf_ascii {pm n d : Int} {e : Emsg} (he : scteOf pm n d = .ok (some e)) :
    Ascii e.message ∧ e.scheme = scteScheme ∧ e.value = "999".toList ∧ e.timescale = 90000 := by
  unfold scteOf at he
  split at he
  · cases he
  · dsimp only at he
    split at he
    · cases he
    · split at he
      · cases he
      · unfold scte35Emsg at he
        rw [if_neg (by decide)] at he
        cases he
        exact ⟨insertMessage_ascii _ _ _, rfl, rfl, rfl⟩

/-- The box of a message about a splice tells the client about the splice. -/
theorem tells_splice {pm n d t : Int} {e : Emsg} {box : Bytes} (he : scteOf pm n d = .ok (some e))
    (hb : e.getBox = .ok box) (hdelta : n * d * 90000 + e.delta = t * 90000) (hid : e.id = t / 10) {len : Int}
    (hlen : e.duration = len * 90000) : TellsSplice box (n * d) t len := by
  obtain ⟨ham, hsc, hval, hts⟩ := scteOf_ascii he
  obtain ⟨m1, m2, m3, m4⟩ := C36_message pm d n e he
  have hfits := C37_no_truncation e box hb
  have hsize : 30 + e.scheme.length + e.value.length + e.message.length < 2 ^ 32 := by
    have h := hb
    rw [Emsg.getBox] at h
    simp only [Py.bind_ok, Py.pure_ok] at h
    obtain ⟨p0, g0, -⟩ := h
    have := (uint32ToStr_inv g0).2.1
    omega
  obtain ⟨box', h1, h2, h3, h4⟩ := C37_round_trip_partial e hfits
    (by rw [hsc]; unfold Ascii; decide +kernel) (by rw [hval]; unfold Ascii; decide +kernel) ham
    (by rw [hsc]; unfold NoNul; decide +kernel) (by rw [hval]; unfold NoNul; decide +kernel) hsize
  rw [hb] at h1
  cases h1
  obtain ⟨-, -, f1, -, f2, -, f3, -⟩ := hfits
  refine ⟨h2, h3, _, h4, m1, hval, ?_, ?_, ?_, ?_, ?_, ?_, ?_⟩
  · rw [hts]; rfl
  · dsimp only; omega
  · dsimp only; omega
  · dsimp only; omega
  · dsimp only; rw [textOf_ascii ham, m2, hid]
  · dsimp only; rw [textOf_ascii ham, m3, hdelta]
  · dsimp only; rw [textOf_ascii ham, m4, hlen]

/-! ### Stored segments that begin with a type box -/

/-- The segment begins with a box of types, whose major brand is not the mark of last segments, and has no other box before
the fragment. -/
def TimedFragment.Typed (f : TimedFragment) : Prop :=
  ∃ (major minor : Bytes) (compat : List Bytes), f.g.front = [(tyStyp, major ++ minor ++ compat.flatten)] ∧
    major.length = 4 ∧ minor.length = 4 ∧ (∀ b ∈ compat, b.length = 4) ∧ 20 + 4 * compat.length < 2 ^ 32 ∧
    major ≠ lmsg ∧ minor ≠ lmsg

/-- The reply for a segment of this form: the type box, then the message of the segment. -/
theorem typed_out {pf : Text → Option Rat} {base : Text} {fs : Files} {mpd : Xml} {vodOf : Text → Py VodCfg}
    {name : Text} {a : Xml} {ifile : Text} {x : Xml} {id : Text} {seg : Nat → TimedFragment}
    (hS : StoredRep base fs mpd vodOf name a ifile x id seg) (hT : ∀ k, (seg k).Typed)
    {now : Int} {t : Rat} {c : Cfg} {w : Served} {out : Bytes} (hR : WholeReply pf fs vodOf name id now t c w out) :
    ∃ (rp : Rep) (k : Nat) (major minor : Bytes) (compat new : List Bytes) (msg rest : Bytes), c.reps = [rp] ∧ w.vodNr = k ∧
      (seg k).g.front = [(tyStyp, major ++ minor ++ compat.flatten)] ∧ out = stypBox major minor new ++ msg ++ rest ∧
      (∀ b ∈ new, b.length = 4) ∧ (lmsg ∈ new ↔ w.lmsg = true) ∧
      new.filter (fun b => decide (b ≠ lmsg)) = compat.filter (fun b => decide (b ≠ lmsg)) ∧
      scteBox (if rp.contentType = "video".toList then c.scte35 else 0) w.segNr c.segDur = .ok msg ∧
      w.segTime = mediaTime c w.segNr ∧ 0 < c.segDur ∧ 0 < c.vodNr ∧ ∃ v, vodOf name = .ok v ∧ c.segDur = v.segDurS := by
  obtain ⟨hurl, hw, stamp, hb⟩ := hR
  obtain ⟨init, info, k, rp, z, h1, h2, h3, h4, h5, h6, h7, ⟨v, hv, -, -, hvd⟩, h9, h10, h11, h12, h13, hreps, hts, hok, -, hfs⟩ :=
    live_decision hS hurl hw
  have hfm : ∃ s', filterMedia (segmentFilter c rp w stamp none) (seg k).bytes = .ok (out, s') := by
    unfold mediaBody at hb
    rw [hreps] at hb
    dsimp only at hb
    rw [hfs] at hb
    split at hb
    · split at hb
      · split at hb
        · cases hb
        · split at hb
          · cases hb
          · split at hb
            · split at hb <;> cases hb
            · cases hb
      · split at hb
        · cases hb
        · rename_i hf
          cases hb
          exact ⟨_, hf⟩
    · split at hb
      · cases hb
      · rename_i hf
        cases hb
        exact ⟨_, hf⟩
  obtain ⟨s', hfm⟩ := hfm
  obtain ⟨-, -, -, -, -, d, front, size, emsg, sidx, -, -, hfront, -, -, -, hfin, -⟩ :=
    C11_segment (segmentFilter c rp w stamp none) w.segNr rp.timescale rfl rfl (seg k).g hok.frag out s' hfm
  obtain ⟨major, minor, compat, hf, l1, l2, l3, l4, n1, n2⟩ := hT k
  rw [hf] at hfront
  cases hfront with
  | cons hstep hrest =>
    cases hrest
    rename_i o
    have hst := hstep.2.1 rfl
    have hmsg : ∃ msg, scteOfSegment (segmentFilter c rp w stamp none) = .ok msg := by
      unfold processStyp at hst
      split at hst
      · cases hst
      · split at hst
        · cases hst
        · split at hst
          · cases hst
          · rename_i m hm
            exact ⟨m, hm⟩
    obtain ⟨msg, hmsg⟩ := hmsg
    obtain ⟨new, hnew, w1, w2, w3, -⟩ := C07_styp_partial (segmentFilter c rp w stamp none) major minor compat l1 l2 l3 l4 n1 n2 msg hmsg
    have hsame : processStyp (segmentFilter c rp w stamp none) (stypBox major minor compat) = .ok o.2 := hst
    rw [hnew] at hsame
    refine ⟨rp, k, major, minor, compat, new, msg, emsg ++ sidx ++ ((seg k).g.moved w.segNr
      (((seg k).g.t : Int) + (segmentFilter c rp w stamp none).offset * rp.timescale) d).moof ++
      boxesBytes (seg k).g.back, hreps, h3, hf, ?_, w1, w2, w3, ?_, h5, h10, h11, v, hv, hvd⟩
    · rw [hfin]
      have : o.2 = stypBox major minor new ++ msg := (Except.ok.inj hsame).symm
      simp only [List.map_cons, List.map_nil, List.flatten_cons, List.flatten_nil, List.append_nil, this, List.append_assoc]
    · exact hmsg

/-- The same for video, as far as the message is concerned. -/
theorem typed_reply {pf : Text → Option Rat} {base : Text} {fs : Files} {mpd : Xml} {vodOf : Text → Py VodCfg}
    {name : Text} {a : Xml} {ifile : Text} {x : Xml} {id : Text} {seg : Nat → TimedFragment}
    (hS : StoredRep base fs mpd vodOf name a ifile x id seg) (hT : ∀ k, (seg k).Typed)
    {now : Int} {t : Rat} {c : Cfg} {w : Served} {out : Bytes} (hR : WholeReply pf fs vodOf name id now t c w out)
    (hvideo : ∀ r ∈ c.reps, r.contentType = "video".toList) :
    ∃ (major minor : Bytes) (new : List Bytes) (msg rest : Bytes), out = stypBox major minor new ++ msg ++ rest ∧
      scteBox c.scte35 w.segNr c.segDur = .ok msg ∧ w.segTime = mediaTime c w.segNr ∧
      ∃ v, vodOf name = .ok v ∧ c.segDur = v.segDurS := by
  obtain ⟨rp, -, major, minor, -, new, msg, rest, h1, -, -, h2, -, -, -, h3, h4, -, -, h5⟩ := typed_out hS hT hR
  rw [if_pos (hvideo rp (by rw [h1]; exact List.mem_cons_self))] at h3
  exact ⟨major, minor, new, msg, rest, h2, h3, h4, h5⟩

/-- How long a break is (seconds). -/
def breakLength (pm : Int) : Int := if pm = 8 then 20 else 10

/-- **C95, every splice is told.** A service with `scte35_pm` of analysed video whose stored segments begin with a type box,
with segment durations as in `C36_announced_partial`: for every splice point of every minute there is a number such that every
reply with the segment of that number, whatever the other options and the time of the request, has directly behind its type
box the event message of the splice, and the segment starts six seconds or more before the splice.  What is missing from the
full claim: stored segments without type box, sessions in which the segment with number 0 is not at media time 0, and
replies in chunks (violations below); other segment durations (`C36_missed_violation`). -/
theorem C95_told_partial {pf : Text → Option Rat} {base : Text} {fs : Files} {mpd : Xml} {vodOf : Text → Py VodCfg}
    {name : Text} {a : Xml} {ifile : Text} {x : Xml} {id : Text} {seg : Nat → TimedFragment}
    (hS : StoredRep base fs mpd vodOf name a ifile x id seg) (hT : ∀ k, (seg k).Typed)
    {d : Int} (hdur : ∀ v, vodOf name = .ok v → v.segDurS = d) (hd : 1 ≤ d) (hd2 : d ≤ 5 ∨ (d ≤ 12 ∧ d ∣ 60))
    {pm offset k : Int} (hs : SpliceOffset pm offset) (hk : 0 ≤ k) :
    ∃ n, 0 ≤ n ∧ n * d + 6 ≤ 60 * k + offset ∧ 60 * k + offset ≤ (n + 1) * d + 8 ∧
      ∀ (now : Int) (t : Rat) (c : Cfg) (w : Served) (out : Bytes), WholeReply pf fs vodOf name id now t c w out →
        (∀ r ∈ c.reps, r.contentType = "video".toList) → c.scte35 = pm → mediaTime c 0 = 0 → w.segNr = n →
        w.segTime = n * d ∧ ∃ (major minor : Bytes) (new : List Bytes) (box rest : Bytes),
          out = stypBox major minor new ++ box ++ rest ∧
          TellsSplice box w.segTime (60 * k + offset) (breakLength pm) := by
  obtain ⟨n, hn, e, he, hlt, hts, hdelta, hid⟩ := C36_announced_partial pm offset d k hs hk hd hd2
  obtain ⟨o', -, ⟨e', he', -, -, hdelta', -⟩, hlen, hwarn⟩ := C36_only_splices pm d n e he
  rw [he] at he'
  cases he'
  have hsame : 60 * (n * d / 60) + o' = 60 * k + offset := by omega
  rw [hsame] at hwarn
  refine ⟨n, hn, by omega, by rw [add_mul, one_mul]; omega, ?_⟩
  rintro now t c w out hR hv rfl h0 rfl
  obtain ⟨major, minor, new, msg, rest, h1, h2, h3, v, h4, h5⟩ := typed_reply hS hT hR hv
  rw [hdur v h4] at h5
  have htime : w.segTime = w.segNr * d := by
    rw [h3, ← h5]
    unfold mediaTime at h0 ⊢
    rw [sub_mul] at h0 ⊢
    omega
  refine ⟨htime, major, minor, new, msg, rest, h1, ?_⟩
  rw [htime]
  unfold scteBox at h2
  rw [h5, he] at h2
  exact tells_splice he h2 hdelta hid (by unfold breakLength; exact hlen)

/-- **C95, nothing else is told.** In every reply of such a service, for every segment duration, there is either nothing behind
the type box from this option, or the message of a splice point of the minute in which the segment starts, six seconds or
more ahead. -/
theorem C95_only_partial {pf : Text → Option Rat} {base : Text} {fs : Files} {mpd : Xml} {vodOf : Text → Py VodCfg}
    {name : Text} {a : Xml} {ifile : Text} {x : Xml} {id : Text} {seg : Nat → TimedFragment}
    (hS : StoredRep base fs mpd vodOf name a ifile x id seg) (hT : ∀ k, (seg k).Typed)
    {now : Int} {t : Rat} {c : Cfg} {w : Served} {out : Bytes} (hR : WholeReply pf fs vodOf name id now t c w out)
    (hvideo : ∀ r ∈ c.reps, r.contentType = "video".toList) (h0 : mediaTime c 0 = 0) :
    ∃ (major minor : Bytes) (new : List Bytes) (msg rest : Bytes), out = stypBox major minor new ++ msg ++ rest ∧
      (msg = [] ∨ ∃ offset, SpliceOffset c.scte35 offset ∧ w.segTime + 6 ≤ 60 * (w.segTime / 60) + offset ∧
        TellsSplice msg w.segTime (60 * (w.segTime / 60) + offset) (breakLength c.scte35)) := by
  obtain ⟨major, minor, new, msg, rest, h1, h2, h3, v, h4, h5⟩ := typed_reply hS hT hR hvideo
  refine ⟨major, minor, new, msg, rest, h1, ?_⟩
  have htime : w.segTime = w.segNr * c.segDur := by
    rw [h3]
    unfold mediaTime at h0 ⊢
    rw [sub_mul] at h0 ⊢
    omega
  unfold scteBox at h2
  split at h2
  · cases h2
  · cases h2; exact Or.inl rfl
  · rename_i e he
    obtain ⟨o, ho, ⟨e', he', -, -, hdelta, hid⟩, hlen, hwarn⟩ := C36_only_splices c.scte35 c.segDur w.segNr e he
    rw [he] at he'
    cases he'
    refine Or.inr ⟨o, ho, ?_, ?_⟩
    · rw [htime]; omega
    · rw [htime]
      exact tells_splice he h2 hdelta hid (by unfold breakLength; exact hlen)

/-! ### Cases -/

def typedTypes : List Bytes := [[109, 115, 105, 120]]

/-- A segment of two seconds that begins with a type box (`msdh`, with the brand `msix`). -/
def typedSegment (nr time dur : Nat) : Bytes := stypBox [109, 115, 100, 104] [0, 0, 0, 0] typedTypes ++ tinySegment nr time dur

def typedTimed (nr time dur : Nat) : TimedFragment :=
  { tinyTimed nr time dur with
    g := { (tinyTimed nr time dur).g with front := [(tyStyp, [109, 115, 100, 104] ++ [0, 0, 0, 0] ++ typedTypes.flatten)] } }

theorem typedTimed_typed (nr time dur : Nat) : (typedTimed nr time dur).Typed :=
  ⟨[109, 115, 100, 104], [0, 0, 0, 0], typedTypes, rfl, rfl, rfl, by decide, by decide, by decide, by decide⟩

theorem typedTimed_ok {nr time dur : Nat} (ht : time < 2 ^ 64) (hd : dur < 2 ^ 32) : (typedTimed nr time dur).Ok := by
  obtain ⟨f, h1, h2, h3, h4, h5, h6, h7⟩ := tinyTimed_ok (nr := nr) ht hd
  refine ⟨⟨f.vf, f.seq, ?_, f.back, f.a, f.pre, f.post, f.b, f.t, ?_⟩, h1, h2, h3, h4, h5, h6, h7⟩
  · intro x hx
    simp only [typedTimed, List.mem_singleton] at hx
    subst hx
    decide
  · have := f.sizes
    exact ⟨rfl, by decide, by decide, this⟩

theorem typedTimed_bytes (nr time dur : Nat) : (typedTimed nr time dur).bytes = typedSegment nr time dur := by
  have := tinyTimed_bytes nr time dur
  unfold typedSegment
  rw [← this]
  simp only [TimedFragment.bytes, typedTimed, OneFragment.bytes, stypBox, tinyTimed, boxesBytes, List.flatMap_cons,
    List.flatMap_nil, List.append_nil, List.nil_append, List.append_assoc]
  rfl

def typedFiles : Files := filesOf [("V1".toList, ("init.mp4".toList, (infoInit false).bytes) ::
  (List.range 3).map fun k => (m4s (natText (k + 1)), typedSegment (k + 1) (k * 180000) 180000))]
def typedContent : Xml := tinyMpd [tinySet "video" "$RepresentationID$/$Number$.m4s" fromOne ["V1"]]
def typedVod : Text → Py VodCfg := vodAfter "tiny".toList typedFiles typedContent
def typedSeg (k : Nat) : TimedFragment := typedTimed k ((k - 1) * 180000) 180000

/-- `typedContent` meets the hypotheses. -/
theorem typed_stored : StoredRep "tiny".toList typedFiles typedContent typedVod "tiny".toList
    (tinySet "video" "$RepresentationID$/$Number$.m4s" fromOne ["V1"]) "init.mp4".toList
    (.elem "Representation".toList [("id".toList, "V1".toList), ("bandwidth".toList, "9".toList)] [] []) "V1".toList typedSeg where
  analysed := analysed_after (by decide +kernel) (by decide +kernel) (by decide +kernel)
  unique := by decide +kernel
  set := by
    have : (adaptationSets typedContent)[0]? = some (tinySet "video" "$RepresentationID$/$Number$.m4s" fromOne ["V1"]) := rfl
    exact List.mem_of_getElem? this
  media := by unfold NumberTemplate; decide +kernel
  init := by unfold InitTemplate; decide +kernel
  ifile := by decide +kernel
  rep := by
    have : (representations (tinySet "video" "$RepresentationID$/$Number$.m4s" fromOne ["V1"]))[0]? =
      some (.elem "Representation".toList [("id".toList, "V1".toList), ("bandwidth".toList, "9".toList)] [] []) := rfl
    exact List.mem_of_getElem? this
  named := by decide +kernel
  slot := by decide +kernel
  loop := by
    intro v hv k h1 h2
    have e : (typedVod "tiny".toList).toOption.map (fun v => (v.firstSeg, v.nrSegs)) = some (1, 3) := by decide +kernel
    rw [hv] at e
    have e' : (v.firstSeg, v.nrSegs) = (1, 3) := Option.some.inj e
    have e1 : v.firstSeg = 1 := congrArg Prod.fst e'
    have e2 : v.nrSegs = 3 := congrArg Prod.snd e'
    have : k = 1 ∨ k = 2 ∨ k = 3 := by omega
    rcases this with rfl | rfl | rfl <;> rw [typedSeg, typedTimed_bytes] <;>
      exact ⟨by decide +kernel, typedTimed_ok (by decide) (by decide)⟩

/-- The message of the splice at `t` (seconds), in a segment that starts at `start`, as bytes. -/
def spliceBytes (start t : Int) : Py Bytes := do
  (← scte35Emsg 90000 (start * 90000) (t * 90000) 900000 (t / 10) (t / 10)).getBox

/-- The reply to a request at `now`, with what `scteBox` is expected to have put behind the type box. -/
def toldReply (fs : Files) (vodOf : Text → Py VodCfg) (parts : List Text) (now : Int) (msg : Py Bytes) (tail : Bytes) : Bool :=
  match replyBody fs vodOf parts now, msg with
  | .ok (some (.whole b)), .ok m => decide (b = stypBox [109, 115, 100, 104] [0, 0, 0, 0] typedTypes ++ m ++ tail)
  | _, _ => false

/-- The hypotheses hold for `typedContent`, and with `scte35_1` the segment from 4 s to 6 s tells about the splice at 10 s;
the segment from 5404 s, many loops later, about the splice at 5410 s. -/
example : (∀ k, (typedSeg k).Typed) ∧ (typedVod "tiny".toList).toOption.map (·.segDurS) = some 2 ∧ SpliceOffset 1 10 ∧
    (processUrl examplePf typedVod ("scte35_1".toList :: tinyAsk "V1" "2.m4s") 20).toOption.map
      (fun c => (c.reps.map (·.contentType), c.scte35, mediaTime c 0)) = some (["video".toList], 1, 0) ∧
    toldReply typedFiles typedVod ("scte35_1".toList :: tinyAsk "V1" "2.m4s") 20 (spliceBytes 4 10)
      (tinySegment 2 360000 180000) = true ∧
    toldReply typedFiles typedVod ("scte35_1".toList :: tinyAsk "V1" "2702.m4s") 5420 (spliceBytes 5404 5410)
      (tinySegment 2702 (2702 * 180000) 180000) = true :=
  ⟨fun _ => typedTimed_typed _ _ _, by decide +kernel, by unfold SpliceOffset; decide, by decide +kernel, by decide +kernel,
    by decide +kernel⟩

/-- **C95 fails** for stored segments without type box: the message is written behind the type box only.  With `scte35_1` the
replies for the content `tiny`, which the analyser accepts, are those without the option, also for the segments that should
tell about the splice at 10 s. -/
theorem C95_type_violation :
    Analysed "tiny".toList tinyFiles tinyContent (vodAfter "tiny".toList tinyFiles tinyContent) "tiny".toList ∧
    Announces 1 2 1 10 ∧ Announces 1 2 2 10 ∧
    replyBody tinyFiles tinyVod ("scte35_1".toList :: tinyAsk "V1" "1.m4s") 20 =
      .ok (some (.whole (tinySegment 1 180000 180000))) ∧
    replyBody tinyFiles tinyVod ("scte35_1".toList :: tinyAsk "V1" "2.m4s") 20 =
      .ok (some (.whole (tinySegment 2 360000 180000))) := by
  refine ⟨analysed_after (by decide +kernel) (by decide +kernel) (by decide +kernel), ?_, ?_, by decide +kernel,
    by decide +kernel⟩
  · refine ⟨_, rfl, ?_, ?_, ?_, ?_⟩ <;> decide +kernel
  · refine ⟨_, rfl, ?_, ?_, ?_, ?_⟩ <;> decide +kernel

/-- **C95 fails** for sessions whose numbers do not start with 0 at media time 0: the times of the splices are computed from
the number of the segment alone.  With `snr_1` the segment with number 2 is at media time 2 and its message says that the
splice is 6 s after its start, at 8 s; the segment at the same media time in the session without the option says 8 s after
its start, at 10 s, for a splice with the same id. -/
theorem C95_number_violation :
    toldReply typedFiles typedVod ("snr_1".toList :: "scte35_1".toList :: tinyAsk "V1" "2.m4s") 20 (spliceBytes 4 10)
      (tinySegment 2 180000 180000) = true ∧
    toldReply typedFiles typedVod ("scte35_1".toList :: tinyAsk "V1" "1.m4s") 20 (spliceBytes 2 10)
      (tinySegment 1 180000 180000) = true := by
  constructor <;> decide +kernel

/-- **C95 fails** for replies in chunks, in which nothing before the fragment is sent (`C52_front_dropped_violation`): with
`chunkdur_1` the segment that should tell about the splice at 10 s is sent as if there were no splices. -/
theorem C95_chunk_violation :
    Announces 1 2 2 10 ∧
    (match replyBody typedFiles typedVod ("chunkdur_1".toList :: "scte35_1".toList :: tinyAsk "V1" "2.m4s") 20 with
      | .ok (some (.chunked t l)) => decide (t = 4 ∧ l ≠ [])
      | _ => false) = true ∧
    replyBody typedFiles typedVod ("chunkdur_1".toList :: "scte35_1".toList :: tinyAsk "V1" "2.m4s") 20 =
      replyBody typedFiles typedVod ("chunkdur_1".toList :: tinyAsk "V1" "2.m4s") 20 := by
  refine ⟨?_, by decide +kernel, by decide +kernel⟩
  refine ⟨_, rfl, ?_, ?_, ?_, ?_⟩ <;> decide +kernel

end Verif
