import Verif.Props.SpliceReply
import Verif.Props.Sessions
/-
C96: the end of a session is marked in the replies.
-/
namespace Verif
open Spec

/-- What is sent is marked as last when its number is in the list of last numbers, and is not beyond the last of them. -/
theorem getMedia_last {pf : Text → Option Rat} {c : Cfg} {t : Rat} {w : Served} (h : getMedia pf c t = .ok (.media w)) :
    w.lmsg = c.lastNrs.contains (w.segNr : Rat) ∧ ∀ l ∈ c.lastNrs.getLast?, (w.segNr : Rat) ≤ l := by
  have hnr : ∀ (c : Cfg) n, processMediaNr c t n = .ok (.media w) →
      w.lmsg = c.lastNrs.contains (w.segNr : Rat) ∧ ∀ l ∈ c.lastNrs.getLast?, (w.segNr : Rat) ≤ l := by
    intro c n hp
    unfold processMediaNr at hp
    simp only [Py.bind_ok] at hp
    obtain ⟨st, -, hp⟩ := hp
    split at hp
    · cases hp
    · simp only [Py.bind_ok] at hp
      obtain ⟨sp, -, hp⟩ := hp
      split at hp
      · cases hp
      · split at hp
        · cases hp
        · rename_i hb
          simp only [Py.bind_ok] at hp
          obtain ⟨o, ho, hp⟩ := hp
          split at hp
          · cases hp
            exfalso
            unfold windowCheck at ho
            split at ho
            · cases ho
            · split at ho
              · cases ho
              · split at ho
                · cases ho
                · split at ho <;> cases ho
          · simp only [Py.bind_ok] at hp
            obtain ⟨q, hq, hp⟩ := hp
            obtain ⟨a, b⟩ := q
            cases hp
            refine ⟨rfl, ?_⟩
            intro l hl
            unfold beyondLastNr at hb
            rw [Option.mem_def.mp hl] at hb
            dsimp only at hb
            split at hb
            · cases hb
            · rename_i hgt
              exact not_lt.mp hgt
  have hm : ∀ c : Cfg, processMedia pf c t = .ok (.media w) →
      w.lmsg = c.lastNrs.contains (w.segNr : Rat) ∧ ∀ l ∈ c.lastNrs.getLast?, (w.segNr : Rat) ≤ l := by
    intro c hp
    unfold processMedia at hp
    simp only [Py.bind_ok] at hp
    obtain ⟨n, -, hp⟩ := hp
    exact hnr c n hp
  have hx := (getMedia_range h).2.2
  unfold getMedia at h
  split at h
  · cases h
  · dsimp only at h
    generalize (if c.ato = -1 then (c.ast : Rat) else c.ast + c.segDur - c.ato) = g at h
    split at h
    · cases h
    · split at h
      · cases h
      · simp only [Py.bind_ok] at h
        obtain ⟨act, -, h⟩ := h
        cases act with
        | down => cases h
        | emsg => exact hm { c with emsgLastSeg := true } h
        | plain => exact hm _ h

/-- **C96.** A session with a start time `s` and durations: the URL options leave `st`, no other session option is given.  For
analysed content, audio or video, whose stored segments begin with a type box, every reply has the stored type box with the
other brands unchanged, in it the mark of the last segment exactly when the segment ends where the last duration ends (on
the grid of segments), and no reply has a segment that ends later.  What is missing from the full claim: sessions whose
numbers do not start with 0, sessions that end because of a stop time, and replies in chunks (violations below). -/
theorem C96_last_partial {pf : Text → Option Rat} {base : Text} {fs : Files} {mpd : Xml} {vodOf : Text → Py VodCfg}
    {name : Text} {a : Xml} {ifile : Text} {x : Xml} {id : Text} {seg : Nat → TimedFragment}
    (hS : StoredRep base fs mpd vodOf name a ifile x id seg) (hT : ∀ k, (seg k).Typed)
    {now : Int} {t : Rat} {c : Cfg} {w : Served} {out : Bytes} (hR : WholeReply pf fs vodOf name id now t c w out)
    {st : UrlState} {rest : List Text} {s : Int} (hU : finishUrl vodOf now st rest = .ok c) (hv : GoodVod vodOf)
    (hs : st.start = some s) (hm : st.modulo = none) (hc : st.cont = false) (ht : st.cfg.tfdt32 = false)
    (hsp : st.stop = none) (hdur : st.durations ≠ []) (hl : st.cfg.lastNrs = []) (h0 : mediaTime c 0 = 0) :
    ∃ (k : Nat) (major minor : Bytes) (compat new : List Bytes) (rest : Bytes), w.vodNr = k ∧
      (seg k).g.front = [(tyStyp, major ++ minor ++ compat.flatten)] ∧ out = stypBox major minor new ++ rest ∧
      (∀ b ∈ new, b.length = 4) ∧
      new.filter (fun b => decide (b ≠ lmsg)) = compat.filter (fun b => decide (b ≠ lmsg)) ∧
      (lmsg ∈ new ↔ c.ast + w.segTime + c.segDur = prefixEnd s c.segDur st.durations st.durations.length) ∧
      c.ast + w.segTime + c.segDur ≤ prefixEnd s c.segDur st.durations st.durations.length := by
  obtain ⟨rp, k, major, minor, compat, new, msg, tail, -, h2, h3, h4, h5, h6, h7, -, h8, hd, -⟩ := typed_out hS hT hR
  obtain ⟨-, hast, -, -, hlast, -⟩ := finishUrl_durs hs hm hc ht hsp hdur hv hU
  rw [hl, List.nil_append] at hlast
  obtain ⟨g1, g2⟩ := getMedia_last hR.media
  have htime : w.segTime = w.segNr * c.segDur := by
    rw [h8]
    unfold mediaTime at h0 ⊢
    rw [sub_mul] at h0 ⊢
    omega
  -- the end is on the grid
  have hend : prefixEnd s c.segDur st.durations st.durations.length - c.ast =
      (prefixEnd s c.segDur st.durations st.durations.length - c.ast) / c.segDur * c.segDur := by
    rw [hast]
    unfold prefixEnd
    rw [← sub_mul, Int.mul_ediv_cancel _ (ne_of_gt hd)]
  generalize prefixEnd s c.segDur st.durations st.durations.length = e at hlast hend ⊢
  generalize hq : (e - c.ast) / c.segDur = q at hlast hend
  have hval : c.ast + w.segTime + c.segDur = c.ast + (w.segNr + 1) * c.segDur := by rw [htime]; ring
  have he : e = c.ast + q * c.segDur := by omega
  rw [hval, he]
  refine ⟨k, major, minor, compat, new, msg ++ tail, h2, h3, by rw [h4, List.append_assoc], h5, h7, ?_, ?_⟩
  · rw [h6, g1, hlast, List.contains_iff_mem, List.mem_singleton]
    constructor
    · intro h
      have h' : w.segNr = q - 1 := by exact_mod_cast h
      rw [h']; ring
    · intro h
      have h' : (w.segNr + 1) * c.segDur = q * c.segDur := by omega
      have := Int.eq_of_mul_eq_mul_right (ne_of_gt hd) h'
      have h'' : w.segNr = q - 1 := by omega
      rw [h'']
  · have : (w.segNr : Rat) ≤ ((q - 1 : Int) : Rat) := g2 _ (by rw [hlast]; rfl)
    have h' : w.segNr ≤ q - 1 := by exact_mod_cast this
    have := Int.mul_le_mul_of_nonneg_right (show w.segNr + 1 ≤ q by omega) (le_of_lt hd)
    omega

/-! ### Cases -/

/-- The brands behind the minor version in the type box that a whole reply begins with. -/
def replyBrands (opts : List String) (file : String) (now : Int) : Option (List Bytes) :=
  match replyBody typedFiles typedVod (opts.map String.toList ++ tinyAsk "V1" file) now with
  | .ok (some (.whole b)) =>
    if b.take 4 = beBytes 4 20 then some [slice b 16 20]
    else if b.take 4 = beBytes 4 24 then some [slice b 16 20, slice b 20 24]
    else none
  | _ => none

/-- The hypotheses hold for `typedContent` and the session from 1000 s with one duration of 20 s: segment 8 is not marked,
segment 9 is, and there is no segment 10. -/
example : GoodVod typedVod ∧
    (match parseOpts examplePf 1021 (["start_1000", "dur_20"].map String.toList ++ tinyAsk "V1" "9.m4s") {} with
      | .ok (st, rest) => decide (st.start = some 1000 ∧ st.modulo = none ∧ st.cont = false ∧ st.cfg.tfdt32 = false ∧
          st.stop = none ∧ st.durations = [20] ∧ st.cfg.lastNrs = []) &&
        ((finishUrl typedVod 1021 st rest).toOption.map fun c => (mediaTime c 0, c.ast)) == some (0, 1000)
      | _ => false) = true ∧
    replyBrands ["start_1000", "dur_20"] "8.m4s" 1021 = some typedTypes ∧
    replyBrands ["start_1000", "dur_20"] "9.m4s" 1021 = some (typedTypes ++ [lmsg]) ∧
    replyBody typedFiles typedVod (["start_1000", "dur_20"].map String.toList ++ tinyAsk "V1" "10.m4s") 1030 = .ok none := by
  refine ⟨?_, by decide +kernel, by decide +kernel, by decide +kernel, by decide +kernel⟩
  intro n v hv
  have hn : n = "tiny".toList := by
    by_contra hne
    unfold typedVod vodAfter at hv
    rw [if_neg hne] at hv
    cases hv
  subst hn
  have e : (typedVod "tiny".toList).toOption.map (fun v => decide (0 < v.segDurS ∧ 0 < v.nrSegs)) = some true := by
    decide +kernel
  rw [hv] at e
  exact of_decide_eq_true (Option.some.inj e)

/-- **C96 fails** for sessions whose numbers do not start with 0: the last number is computed as if they did.  With `snr_1` the
session from 1000 s to 1020 s has the segments 1 to 10; the mark is in segment 9, which ends at 1018 s, and segment 10 is
refused. -/
theorem C96_number_violation :
    (processUrl examplePf typedVod (["start_1000", "dur_20", "snr_1"].map String.toList ++ tinyAsk "V1" "9.m4s") 1021).toOption.map
      (fun c => c.ast + mediaTime c 9 + c.segDur) = some 1018 ∧
    replyBrands ["start_1000", "dur_20", "snr_1"] "9.m4s" 1021 = some (typedTypes ++ [lmsg]) ∧
    replyBody typedFiles typedVod (["start_1000", "dur_20", "snr_1"].map String.toList ++ tinyAsk "V1" "10.m4s") 1021 =
      .ok none := by
  refine ⟨?_, ?_, ?_⟩ <;> decide +kernel

/-- **C96 fails** for sessions that end because of a stop time: the segment that ends at the stop time, behind which there is
none, is not marked. -/
theorem C96_stop_violation :
    (processUrl examplePf typedVod (["start_1000", "stop_1020"].map String.toList ++ tinyAsk "V1" "9.m4s") 1021).toOption.map
      (fun c => (c.ast + mediaTime c 9 + c.segDur, c.stopTime)) = some (1020, some 1020) ∧
    replyBrands ["start_1000", "stop_1020"] "9.m4s" 1021 = some typedTypes ∧
    replyBody typedFiles typedVod (["start_1000", "stop_1020"].map String.toList ++ tinyAsk "V1" "10.m4s") 1030 = .ok none := by
  refine ⟨?_, ?_, ?_⟩ <;> decide +kernel

/-- **C96 fails** for replies in chunks: the last segment is sent like one of a session without end (see
`C52_last_segment_violation`). -/
theorem C96_chunk_violation :
    replyBrands ["start_1000", "dur_20"] "9.m4s" 1021 = some (typedTypes ++ [lmsg]) ∧
    (match replyBody typedFiles typedVod (["chunkdur_1", "start_1000", "dur_20"].map String.toList ++ tinyAsk "V1" "9.m4s") 1021 with
      | .ok (some (.chunked t l)) => decide (t = 18 ∧ l ≠ [])
      | _ => false) = true ∧
    replyBody typedFiles typedVod (["chunkdur_1", "start_1000", "dur_20"].map String.toList ++ tinyAsk "V1" "9.m4s") 1021 =
      replyBody typedFiles typedVod (["chunkdur_1", "start_1000"].map String.toList ++ tinyAsk "V1" "9.m4s") 1021 := by
  refine ⟨?_, ?_, ?_⟩ <;> decide +kernel

end Verif
