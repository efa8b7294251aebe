import Verif.Lemmas.LiveFragment
import Verif.Props.Delivered
import Verif.Props.Server
import Verif.Props.Timestamp
import Mathlib.Tactic.FieldSimp
import Mathlib.Tactic.Linarith
/-
C82: low-latency delivery from the request to the last sample.
-/
namespace Verif
open Spec

/-- A chunk as a client reads it: a segment with one fragment with number `n` of the track, that describes the given
samples; all of them are marked as sync samples (C51). -/
def IsChunk (n : Int) (track : Nat) (samples : List Sample) (b : Bytes) : Prop :=
  ∃ g : FragSegment, b = g.bytes ∧ g.Ok ∧ (g.seq : Int) = n ∧ g.head.track = track ∧
    ∀ trex, g.samples trex = samples.map Sample.synced

theorem chunk_parts (g : FragSegment) (hg : g.Ok) {dur : Int} (hd : 0 < dur) (trex : Trex)
    (hfit : FitSegment (g.samples trex)) :
    ∃ cs, chunk g.bytes dur trex = .ok cs ∧ cs.length = (partition (g.samples trex) dur).length ∧
      ∀ (i : Nat) p, (partition (g.samples trex) dur)[i]? = some p →
        ∃ b, cs[i]? = some b ∧ IsChunk g.seq g.head.track p b := by
  obtain ⟨cs, parts, h1, h2, rfl, h4, h5⟩ := C19_chunks g hg dur hd trex hfit
  refine ⟨cs, h1, h2, fun i p hp => ?_⟩
  obtain ⟨b, s, rest, e1, rfl, e2, e3⟩ := h5 i p hp
  have hf : FitChunk (s :: rest) := hfit.part (by rw [← h4]; exact List.sublist_flatten_of_mem (List.mem_of_getElem? hp))
  rw [encodeChunk_eq _ _ s rest hg.seq hg.head.track hf] at e2
  have hk := chunkSegment_ok g.seq g.head.track s rest hg.seq hg.head.track hf
  refine ⟨b, e1, chunkSegment g.seq g.head.track s.time (s :: rest), (Except.ok.inj e2).symm, hk, rfl, rfl, fun trex' => ?_⟩
  have h6 := FragSegment.decode _ hk trex'
  have h7 := e3 trex'
  rw [← Except.ok.inj e2] at h7
  exact Except.ok.inj (h6.symm.trans h7)

theorem partLoop_map (dur : Int) (f : Sample → Sample) (hf : ∀ s, (f s).duration = s.duration) (l : List Sample) :
    ∀ (d0 d1 : Int) (part : List Sample),
      partLoop dur (l.map f) d0 d1 (part.map f) = (partLoop dur l d0 d1 part).map (List.map f) := by
  induction l with
  | nil =>
    intro d0 d1 part
    simp only [List.map_nil, partLoop]
    cases part <;> simp
  | cons s l ih =>
    intro d0 d1 part
    simp only [List.map_cons, partLoop, hf]
    split
    · rw [show [f s] = [s].map f from rfl, ih, List.map_cons]
    · rw [show part.map f ++ [f s] = (part ++ [s]).map f by simp, ih]

theorem partition_map (dur : Int) (f : Sample → Sample) (hf : ∀ s, (f s).duration = s.duration) (l : List Sample) :
    partition (l.map f) dur = (partition l dur).map (List.map f) :=
  partLoop_map dur f hf l 0 dur []

theorem grid_part {o step : Nat} (hs : 0 < step) {samples : List Sample} (hd : ∀ s ∈ samples, s.duration ≤ step)
    (hc : ContiguousFrom o samples) {k : Nat} {p : List Sample} (hp : (partition samples step)[k]? = some p) :
    p = samples.filter fun s => gridCell o step s = k := by
  rw [C17_grid o step hs samples hd hc k] at hp
  split at hp
  · cases hp
  · split at hp
    · exact (Option.some.inj hp).symm
    · cases hp

theorem growth_natCast (wide : Bool) (new : Int) : ∃ d : Nat, (d : Int) = growth wide new := by
  unfold growth
  split
  · exact ⟨4, rfl⟩
  · exact ⟨0, rfl⟩

/-- A stored segment that can be sent in chunks at its place in the live session (`ticks` later), by the defaults of the
track: its samples fit into chunks, and what is added fits. -/
structure LiveFragment.Chunkable (f : LiveFragment) (trex : Trex) (ticks : Int) : Prop where
  samples : FitSegment ((f.seg.samples trex).map (Sample.later ticks))
  size : f.one.moof.length + 4 + (boxesBytes f.back).length < 2 ^ 32
  dur : f.timed.duration (some trex.dur) < 2 ^ 32

theorem LiveFragment.Ok.oneRoom {f : LiveFragment} (h : f.Ok) : f.one.Room := by
  have hm := h.moof_lt
  refine ⟨?_, by omega, fun x hx _ => by have := (h.front x hx).2.2.1; omega⟩
  intro x hx
  have ho : ∀ x, x ∈ f.others → x.Room := fun x hx => (h.others x hx).2.1
  simp only [LiveFragment.one, List.mem_append, List.mem_cons] at hx
  rcases hx with ((hx | hx | rfl | hx) | hx | rfl | hx) | hx
  · exact ho x (by simp [LiveFragment.others, hx])
  · exact ho x (by simp [LiveFragment.others, hx])
  · trivial
  · exact ho x (by simp [LiveFragment.others, hx])
  · exact ho x (by simp [LiveFragment.others, hx])
  · exact h.room
  · exact ho x (by simp [LiveFragment.others, hx])
  · exact ho x (by simp [LiveFragment.others, hx])

/-- **C82.** Content that the analyser accepted, in a service with a chunk duration: if the server decides to send a media
segment, and number and decode time fit their fields, then it sends chunks.  Together they hold exactly the samples of the
stored segment, in order, each once, moved by the loop offset and otherwise unchanged (but for the sync marks, C51).  Every
chunk is a complete fragment with the number of the requested segment and the stored track.  If no sample is longer than a
chunk, chunk `i` holds the samples that start between `i` and `i + 1` chunk durations after the start of the segment.
Missing: initialization segments with another name (`C82_init_name_violation`), chunks of less than one tick
(`C82_ticks_violation`), segments with several fragments or runs. -/
theorem C82_chunks_partial {pf : Text → Option Rat} {base : Text} {fs : Files} {mpd : Xml} {vodOf : Text → Py VodCfg}
    {name : Text} {a : Xml} {x : Xml} {id : Text} {seg : Nat → LiveFragment}
    (hS : StoredRep base fs mpd vodOf name a "init.mp4".toList x id fun k => (seg k).timed)
    {now : Int} {t : Rat} {c : Cfg} {w : Served}
    (hurl : ∃ opts file, (∀ p ∈ opts, (partSlot p).isSome) ∧ processUrl pf vodOf (opts ++ [name, id, file]) now = .ok c)
    (hw : getMedia pf c t = .ok (.media w))
    (hok : ∀ k : Nat, c.vodFirst ≤ k → (k : Int) < c.vodFirst + c.vodNr → (seg k).Ok)
    {d : Rat} (hchunk : c.chunkDur = some d) (hd : 0 < d) (hscte : 0 < c.scte35 → w.segNr * c.segDur < 2 ^ 32)
    {stamp : Text} (hstamp : w.emsgLast = true → Ascii stamp ∧ stamp.length < 2 ^ 30) :
    ∃ (init : Bytes) (info : InitInfo), fs.file (id ++ '/' :: "init.mp4".toList) = some init ∧ initInfo init = .ok info ∧
      ∀ trex : Trex, info.defDur = some trex.dur → info.defSize = some trex.size → info.defFlags = some trex.flags →
      0 < chunkTicks d info.timescale → 0 ≤ w.segNr → w.segNr < 2 ^ 32 →
      0 ≤ (seg w.vodNr.toNat).time + w.offset * info.timescale →
      (seg w.vodNr.toNat).time + w.offset * info.timescale < 2 ^ 64 →
      (seg w.vodNr.toNat).Chunkable trex (w.offset * info.timescale) →
      ∃ (cs : List Bytes) (parts : List (List Sample)), mediaBody fs c w stamp = .ok (.chunked w.segTime cs) ∧
        parts.flatten = (seg w.vodNr.toNat).seg.samples trex ∧ cs.length = parts.length ∧
        (∀ (i : Nat) p, parts[i]? = some p → p ≠ [] ∧ ∃ b, cs[i]? = some b ∧
          IsChunk w.segNr (seg w.vodNr.toNat).head.track (p.map (Sample.later (w.offset * info.timescale))) b) ∧
        ((∀ s ∈ (seg w.vodNr.toNat).seg.samples trex, (s.duration : Int) ≤ chunkTicks d info.timescale) →
          ∀ (i : Nat) p, parts[i]? = some p → ∀ s, s ∈ p ↔ s ∈ (seg w.vodNr.toNat).seg.samples trex ∧
            i * chunkTicks d info.timescale ≤ (s.time : Int) - (seg w.vodNr.toNat).time ∧
            (s.time : Int) - (seg w.vodNr.toNat).time < (i + 1) * chunkTicks d info.timescale) := by
  obtain ⟨init, info, k, rp, z, h1, h2, h3, h4, h5, h6, h7, h8, h9, h10, h11, h12, h13, hreps, hts, htok, hread, hfs⟩ :=
    live_decision hS hurl hw
  refine ⟨init, info, h1, h2, ?_⟩
  have hk : w.vodNr.toNat = k := by omega
  rw [hk]
  have hf : (seg k).Ok := by
    have l1 := Int.emod_nonneg (w.segTime / c.segDur) (b := c.vodNr) (by omega)
    have l2 := Int.emod_lt_of_pos (w.segTime / c.segDur) h11
    exact hok k (by omega) (by omega)
  intro trex q1 q2 q3 hticks n0 n1 t0 t1 hfit
  have hrel : c.relPath = id := by
    obtain ⟨opts, file, ho, hu⟩ := hurl
    obtain ⟨v', reps, -, -, -, e, -⟩ := processUrl_files ho hS.slot hu
    exact e
  have hid : id ≠ [] := by
    have := hS.analysed.ids a hS.set x hS.rep id hS.named
    exact this.1
  have htrex : trexData fs c.relPath = .ok info := by
    unfold trexData
    rw [hrel, if_neg hid, show id ++ ['/'] ++ "init.mp4".toList = id ++ '/' :: "init.mp4".toList by simp, Files.read, h1]
    exact h2
  have r3 := initInfo_timescale h2
  have r4 : 0 < info.timescale := by
    have := abs_nonneg (((seg c.vodFirst.toNat).timed.time + (w.segTime / c.segDur + 1) * c.segDur * info.timescale) -
      (((seg k).timed.time + w.offset * info.timescale) + (seg k).timed.duration info.defDur))
    omega
  have hoff : (segmentFilter c rp w stamp info.defDur).offset * rp.timescale = w.offset * info.timescale := by
    rw [hts]; rfl
  obtain ⟨y, hy⟩ := filter_sent (c := c) (w := w) (rp := rp) (dd := info.defDur) htok hread hf.oneRoom hfit.size
    (by rw [q1]; exact hfit.dur) h10.le (by omega) (by omega) hscte (fun he => (hstamp he).2) n0 n1
    (by rw [hts]; exact t0) (by rw [hts]; exact t1)
  have hbytes : (seg k).timed.bytes = (seg k).seg.bytes := ((seg k).bytes_eq hf.offset).symm
  rw [hbytes] at hy
  obtain ⟨front, g, -, -, -, -, hg, hy1, hseg⟩ := hf.filtered (c := segmentFilter c rp w stamp info.defDur) rfl rfl (by
    intro m hm
    have hm : (if w.emsgLast then some stamp else none) = some m := hm
    split at hm
    · rename_i he; cases hm; exact (hstamp he).1
    · cases hm) hy
  rw [hoff] at hg hy1 hseg
  have hsamples := hf.samples (front := front) (n := w.segNr) t0 hg trex
  obtain ⟨cs, c1, c2, c3⟩ := chunk_parts _ hseg hticks trex (by rw [hsamples]; exact hfit.samples)
  rw [hsamples, partition_map _ (Sample.later (w.offset * info.timescale)) (fun _ => rfl)] at c2 c3
  refine ⟨cs, partition ((seg k).seg.samples trex) (chunkTicks d info.timescale), ?_, C16_lossless _ _, by simpa using c2,
    ?_, ?_⟩
  · unfold mediaBody
    rw [hreps]
    dsimp only
    rw [hchunk]
    dsimp only
    rw [if_pos hd, htrex]
    dsimp only
    rw [hfs, hbytes, hy]
    dsimp only
    rw [q1, q2, q3, hts, hy1]
    dsimp only
    rw [show (⟨trex.dur, trex.size, trex.flags⟩ : Trex) = trex from rfl, c1]
  · intro i p hp
    obtain ⟨b, b1, b2⟩ := c3 i (p.map (Sample.later (w.offset * info.timescale))) (by rw [List.getElem?_map, hp]; rfl)
    refine ⟨C16_nonempty _ _ hticks p (List.mem_of_getElem? hp), b, b1, ?_⟩
    have e : ((((seg k).live front w.segNr ((seg k).time + w.offset * info.timescale) g).seg.seq : Nat) : Int) = w.segNr :=
      Int.toNat_of_nonneg n0
    rw [e] at b2
    exact b2
  · intro hdur i p hp
    obtain ⟨step, hstep⟩ := Int.eq_ofNat_of_zero_le hticks.le
    rw [hstep] at hp hticks hdur ⊢
    have hs : 0 < step := by omega
    have hcont : ContiguousFrom (seg k).time ((seg k).seg.samples trex) := runSamples_contiguous _ _ _ _ _ _ _
    have hge := contiguous_ge _ _ hcont
    intro s
    rw [grid_part hs (fun s hs' => by have := hdur s hs'; omega) hcont hp, List.mem_filter]
    refine and_congr_right fun hm => ?_
    have h0 := hge s hm
    rw [decide_eq_true_iff, gridCell, Nat.div_eq_iff hs]
    obtain ⟨r, hr⟩ := Nat.exists_eq_add_of_le h0
    rw [hr, Nat.add_sub_cancel_left, Nat.cast_add, add_sub_cancel_left]
    rw [← Nat.cast_mul, ← Nat.cast_succ, ← Nat.cast_mul, Nat.cast_le, Nat.cast_lt, Nat.succ_mul]
    omega

/-! ### Over HTTP, in time -/

theorem makeTimestamp_ascii (x : Rat) : Ascii (makeTimestamp x) := by
  obtain ⟨year, m1, m2, d1, d2, h1, h2, n1, n2, s1, s2, y, m, d, h, n, s, e, -, e1, e2, e3, e4, e5, -⟩ := C60_timestamp x
  have two : ∀ {a b : Char} {v : Int}, twoDigitValue a b = some v → a.toNat < 128 ∧ b.toNat < 128 := by
    intro a b v hv
    have one : ∀ {a : Char} {v : Nat}, digitVal a = some v → a.toNat < 128 := by
      intro a v hv
      unfold digitVal at hv
      split at hv
      · rename_i hc
        have h9 : a.toNat ≤ '9'.toNat := hc.2
        exact lt_of_le_of_lt h9 (by decide)
      · cases hv
    unfold twoDigitValue at hv
    split at hv
    · rename_i h1 h2; exact ⟨one h1, one h2⟩
    · cases hv
  have hs : makeTimestamp x = intText (gmtime x.floor).year ++ ['-', m1, m2, '-', d1, d2, 'T', h1, h2, ':', n1, n2, ':', s1, s2, 'Z'] := by
    have hm : makeTimestamp x = intText (gmtime x.floor).year ++ ('-' :: digits2 (gmtime x.floor).month ++ '-' ::
        digits2 (gmtime x.floor).day ++ 'T' :: digits2 (gmtime x.floor).hour ++ ':' :: digits2 (gmtime x.floor).minute ++
        ':' :: digits2 (gmtime x.floor).second ++ "Z".toList) := by
      simp [makeTimestamp]
    rw [hm] at e ⊢
    rw [(List.append_inj' e rfl).2]
  rw [hs]
  refine ascii_append (intText_ascii _) ?_
  intro c hc
  simp only [List.mem_cons, List.not_mem_nil, or_false] at hc
  have := two e1
  have := two e2
  have := two e3
  have := two e4
  have := two e5
  rcases hc with rfl | rfl | rfl | rfl | rfl | rfl | rfl | rfl | rfl | rfl | rfl | rfl | rfl | rfl | rfl | rfl <;>
    first | decide | omega

/-- The chunks of a reply as they leave the server: the clock reads `now` when the reply starts, chunks are given out a
tenth of a second before their time (mod_dashlivesim.py 213-227). -/
def stream (segStart dur : Rat) (now : Rat) (cs : List Bytes) (es : List Step) : List Delivery :=
  deliver segStart dur (1 / 10) 1 now cs es

/-- **C82, over HTTP.** Under the hypotheses of `C82_chunks_partial`, for any time at which the session is open: the request
is answered with 200 and a stream, whatever the speed of the client and the precision of the clock.  Every chunk that leaves
is a fragment of the requested segment, and together they hold its samples, in order.  If no sample is longer than a chunk, no sample leaves more than a tenth of a second
before it starts, and if the chunk duration is a whole number of ticks and sleeping is exact, none leaves later than a chunk
duration after its start minus a tenth of a second, unless the client was late.  Times are relative to the start of the
segment, which is at `w.segTime` on the clock (C18). -/
theorem C82_stream_partial {u : Setup} {s : Site} {base : Text} {mpd : Xml}
    {name : Text} {a : Xml} {x : Xml} {id : Text} {seg : Nat → LiveFragment}
    (hS : StoredRep base (s.files name) mpd s.vodOf name a "init.mp4".toList x id fun k => (seg k).timed)
    {now : Rat} {c : Cfg} {w : Served} {first : Text} {opts : List Text} {file : Text} {r : Request}
    (hr : r.parts = [] :: first :: (opts ++ [name, id, file])) (ho : ∀ p ∈ opts, (partSlot p).isSome)
    (hext : (splitext file).2 = ".m4s".toList)
    (hurl : processUrl s.pf s.vodOf (opts ++ [name, id, file]) (pyTrunc now) = .ok c)
    (hw : getMedia s.pf c now = .ok (.media w)) (hgate : gate u.maxLen r now = .pass)
    (hok : ∀ k : Nat, c.vodFirst ≤ k → (k : Int) < c.vodFirst + c.vodNr → (seg k).Ok)
    {d : Rat} (hchunk : c.chunkDur = some d) (hd : 0 < d) (hscte : 0 < c.scte35 → w.segNr * c.segDur < 2 ^ 32)
    (hstamp : w.emsgLast = true → (makeTimestamp (pyTrunc now : Int)).length < 2 ^ 30)
    {init : Bytes} {info : InitInfo} (hinit : (s.files name).file (id ++ '/' :: "init.mp4".toList) = some init)
    (hinfo : initInfo init = .ok info) {trex : Trex}
    (q1 : info.defDur = some trex.dur) (q2 : info.defSize = some trex.size) (q3 : info.defFlags = some trex.flags)
    (hticks : 0 < chunkTicks d info.timescale) (n0 : 0 ≤ w.segNr) (n1 : w.segNr < 2 ^ 32)
    {start : Int} (hstart : start = (seg w.vodNr.toNat).time + w.offset * info.timescale) (t0 : 0 ≤ start) (t1 : start < 2 ^ 64)
    (hfit : (seg w.vodNr.toNat).Chunkable trex (w.offset * info.timescale)) (sid : Text) (dflt : Headers) :
    ∃ (rep : Reply) (cs : List Bytes) (parts : List (List Sample)),
      (serve u s sid dflt r now).1 = .ok (rep, .chunks w.segTime d cs) ∧
      rep.status = 200 ∧ getHeader rep.headers "Content-Type".toList = some (mimeType ".m4s".toList) ∧
      parts.flatten = (seg w.vodNr.toNat).seg.samples trex ∧ cs.length = parts.length ∧
      ∀ es : List Step, cs.length ≤ es.length → (∀ e ∈ es, 0 ≤ e.idle ∧ 0 ≤ e.over) →
        (stream w.segTime d now cs es).map (·.chunk) = cs ∧
        ∀ (i : Nat) (g : Delivery), (stream w.segTime d now cs es)[i]? = some g →
          ∃ p, parts[i]? = some p ∧ p ≠ [] ∧
            IsChunk w.segNr (seg w.vodNr.toNat).head.track (p.map (Sample.later (w.offset * info.timescale))) g.chunk ∧
            ((∀ z ∈ (seg w.vodNr.toNat).seg.samples trex, (z.duration : Int) ≤ chunkTicks d info.timescale) →
              ∀ z ∈ p.map (Sample.later (w.offset * info.timescale)), w.segTime + ((z.time : Rat) - start) / info.timescale - 1 / 10 < g.sent ∧
                (d * info.timescale = chunkTicks d info.timescale → (∀ e ∈ es, e.over = 0) →
                  g.sent ≤ max g.read (w.segTime + ((z.time : Rat) - start) / info.timescale + d - 1 / 10))) := by
  obtain ⟨init', info', e1, e2, hall⟩ := C82_chunks_partial hS ⟨opts, file, ho, hurl⟩ hw hok hchunk hd hscte
    (stamp := makeTimestamp (pyTrunc now : Int)) (fun he => ⟨makeTimestamp_ascii _, hstamp he⟩)
  rw [hinit] at e1
  cases e1
  rw [hinfo] at e2
  cases e2
  subst hstart
  obtain ⟨cs, parts, g1, g2, g3, g4, g5⟩ := hall trex q1 q2 q3 hticks n0 n1 t0 t1 hfit
  obtain ⟨v', reps, -, -, d1, -, d3, d2, -⟩ := processUrl_files ho hS.slot hurl
  rw [hext] at d2
  have hprov : provide s r now = .chunked w.segTime d cs := by
    unfold provide
    rw [hr]
    simp only [List.drop_succ_cons, List.drop_zero, hurl]
    rw [if_pos d2]
    unfold provideMedia
    rw [hw]
    dsimp only
    rw [d1, g1]
    dsimp only
    rw [hchunk]
    rfl
  have hrext : r.ext = ".m4s".toList := by
    unfold Request.ext
    rw [hr]
    rw [show ([] :: first :: (opts ++ [name, id, file]) : List Text) =
      ([] :: first :: (opts ++ [name, id])) ++ [file] by simp, List.getLastD_concat, hext]
  have hserve := serve_pass (u := u) (s := s) (sid := sid) (dflt := dflt) hgate
  rw [hprov] at hserve
  refine ⟨_, cs, parts, hserve, rfl, by rw [hrext]; rfl, g2, g3, fun es hl he => ?_⟩
  obtain ⟨s1, -, -, s4⟩ := C18_schedule w.segTime d (1 / 10) cs es 1 now hl he
  refine ⟨s1, fun i g hg => ?_⟩
  have hci : cs[i]? = some g.chunk := by
    rw [← s1, List.getElem?_map]
    show ((stream w.segTime d now cs es)[i]?).map _ = _
    rw [hg]; rfl
  have hi : i < parts.length := by
    rw [← g3]
    exact (List.getElem?_eq_some_iff.mp hci).1
  obtain ⟨hne, b, b1, b2⟩ := g4 i parts[i] (List.getElem?_eq_getElem hi)
  rw [hci] at b1
  cases b1
  refine ⟨parts[i], List.getElem?_eq_getElem hi, hne, b2, ?_⟩
  intro hdur z hz
  obtain ⟨z0, hz0, rfl⟩ := List.mem_map.mp hz
  obtain ⟨hm, lo, hi'⟩ := (g5 hdur i parts[i] (List.getElem?_eq_getElem hi) z0).mp hz0
  have hts : (0 : Rat) < info.timescale := by
    by_contra hc
    have h0 : d * info.timescale ≤ 0 := mul_nonpos_of_nonneg_of_nonpos hd.le (not_lt.mp hc)
    have : chunkTicks d info.timescale ≤ 0 := by
      unfold chunkTicks pyTrunc
      split
      · rename_i h1
        rw [le_antisymm h0 h1]; rfl
      · exact Rat.ceil_le_iff.mpr (by simpa using h0)
    omega
  have hstep : (chunkTicks d info.timescale : Rat) ≤ d * info.timescale := (pyTrunc_bounds (mul_nonneg hd.le hts.le)).1
  have hz : ((Sample.later (w.offset * info.timescale) z0).time : Rat) -
      (((seg w.vodNr.toNat).time + w.offset * info.timescale : Int) : Rat) = ((z0.time : Int) - (seg w.vodNr.toNat).time : Int) := by
    have h1 : (((Sample.later (w.offset * info.timescale) z0).time : Nat) : Int) = z0.time + w.offset * info.timescale := by
      have : ((seg w.vodNr.toNat).time : Int) ≤ z0.time := by
        have := mul_nonneg (Int.natCast_nonneg i) hticks.le
        omega
      exact Int.toNat_of_nonneg (by omega)
    rw [← Int.cast_natCast (R := Rat), h1]
    push_cast
    ring
  rw [hz]
  generalize hq : (z0.time : Int) - (seg w.vodNr.toNat).time = q at lo hi' ⊢
  obtain ⟨a1, -, a3⟩ := s4 i g hg
  have lo' : (i : Rat) * chunkTicks d info.timescale ≤ q := by exact_mod_cast lo
  have hi'' : (q : Rat) < ((i : Rat) + 1) * chunkTicks d info.timescale := by exact_mod_cast hi'
  have hi0 : (0 : Rat) ≤ (i : Rat) + 1 := by positivity
  have up : (q : Rat) / info.timescale < ((i : Rat) + 1) * d := by
    rw [div_lt_iff₀ hts]
    nlinarith [mul_le_mul_of_nonneg_left hstep hi0]
  push_cast at a1 a3
  refine ⟨by linarith, fun hexact hover => ?_⟩
  have hil : i < es.length := by
    have : i < cs.length := by rw [g3]; exact hi
    omega
  rw [a3 es[i] (List.getElem?_eq_getElem hil) (hover _ (List.getElem_mem hil))]
  apply max_le_max le_rfl
  have down : (i : Rat) * d ≤ (q : Rat) / info.timescale := by
    rw [le_div_iff₀ hts]
    rw [← hexact] at lo'
    nlinarith
  linarith

/-! ### Cases -/

/-- A segment with a segment type box and four samples of half a second (45000 ticks). -/
def quarterLive (nr time : Nat) : LiveFragment where
  front := [(tyStyp, [109, 115, 100, 104, 0, 0, 0, 0])]
  vf := [0, 0, 0, 0]
  seq := nr
  a := []
  p1 := []
  head := ⟨0, 2, 0, 0, 2, 0, 0, 0, 0, 0, []⟩
  p2 := []
  wide := true
  f2 := 0
  f1 := 0
  f0 := 0
  time := time
  q1 := []
  run := ⟨0, 0, 3, 1, 128, 0, [⟨45000, 1, 0, 0⟩, ⟨45000, 2, 0, 0⟩, ⟨45000, 1, 0, 0⟩, ⟨45000, 3, 0, 0⟩]⟩
  q2 := []
  b := []
  back := [(tyMdat, [10, 20, 21, 30, 40, 41, 42])]

def quarterSeg (k : Nat) : LiveFragment := quarterLive k ((k - 1) * 180000)

theorem quarter_ok {k : Nat} (hk : k = 1 ∨ k = 2 ∨ k = 3) : (quarterSeg k).Ok := by
  have hrow : ∀ x ∈ (⟨0, 0, 3, 1, 128, 0, [⟨45000, 1, 0, 0⟩, ⟨45000, 2, 0, 0⟩, ⟨45000, 1, 0, 0⟩, ⟨45000, 3, 0, 0⟩]⟩ : SampleRun).rows,
      x.dur < 2 ^ 32 ∧ x.size < 2 ^ 32 ∧ x.flags < 2 ^ 32 ∧ -2 ^ 31 ≤ x.off ∧ x.off < 2 ^ 31 := by decide +kernel
  refine ⟨rfl, ?_, ⟨?_, ?_, ?_, ?_, ?_, ?_⟩, ?_, ⟨?_, ?_, ?_, hrow⟩, ?_, ?_, ?_, ?_, ?_,
    fun x hx => absurd hx List.not_mem_nil, ?_⟩
  case refine_16 =>
    intro x hx
    have hx : x = (tyStyp, [109, 115, 100, 104, 0, 0, 0, 0]) := List.mem_singleton.mp hx
    subst hx
    exact ⟨plain_top (by simp), by decide, by decide, fun _ => by decide⟩
  case refine_17 =>
    intro x hx
    have hx : x = (tyMdat, [10, 20, 21, 30, 40, 41, 42]) := List.mem_singleton.mp hx
    subst hx
    exact ⟨plain_known (by simp), by decide, by decide⟩
  all_goals rcases hk with rfl | rfl | rfl <;> decide +kernel

def quarterFiles : Files := filesOf [("V1".toList, ("init.mp4".toList, (infoInit false).bytes) ::
  (List.range 3).map fun k => (m4s (natText (k + 1)), (quarterSeg (k + 1)).one.bytes))]

def quarterVod : Text → Py VodCfg := vodAfter "tiny".toList quarterFiles shortContent

theorem quarter_stored : StoredRep "tiny".toList quarterFiles shortContent quarterVod "tiny".toList
    (tinySet "video" "$RepresentationID$/$Number$.m4s" fromOne ["V1"]) "init.mp4".toList
    (.elem "Representation".toList [("id".toList, "V1".toList), ("bandwidth".toList, "9".toList)] [] []) "V1".toList
    fun k => (quarterSeg k).timed where
  analysed := analysed_after (by decide +kernel) (by decide +kernel) (by decide +kernel)
  unique := by decide +kernel
  set := by
    have : (adaptationSets shortContent)[0]? = some (tinySet "video" "$RepresentationID$/$Number$.m4s" fromOne ["V1"]) := rfl
    exact List.mem_of_getElem? this
  media := by unfold NumberTemplate; decide +kernel
  init := by unfold InitTemplate; decide +kernel
  ifile := by decide +kernel
  rep := by
    have : (representations (tinySet "video" "$RepresentationID$/$Number$.m4s" fromOne ["V1"]))[0]? =
      some (.elem "Representation".toList [("id".toList, "V1".toList), ("bandwidth".toList, "9".toList)] [] []) := rfl
    exact List.mem_of_getElem? this
  named := by decide +kernel
  slot := by decide +kernel
  loop := by
    intro v hv k h1 h2
    have e : (quarterVod "tiny".toList).toOption.map (fun v => (v.firstSeg, v.nrSegs)) = some (1, 3) := by decide +kernel
    rw [hv] at e
    have e' : (v.firstSeg, v.nrSegs) = (1, 3) := Option.some.inj e
    have e1 : v.firstSeg = 1 := congrArg Prod.fst e'
    have e2 : v.nrSegs = 3 := congrArg Prod.snd e'
    have : k = 1 ∨ k = 2 ∨ k = 3 := by omega
    rcases this with rfl | rfl | rfl <;>
      exact ⟨by decide +kernel, (quarter_ok (by decide)).timed⟩

def quarterSite : Site := { tinySite with
  files := fun _ => quarterFiles
  vodOf := quarterVod
  manifest := fun _ f => if f = "Manifest.mpd".toList then .ok shortContent else .error .osError }

/-- What the server sends in chunks. -/
structure Streamed where
  status : Nat
  start : Rat
  dur : Rat
  chunks : List Bytes
  deriving DecidableEq

def streamed (s : Site) (r : Request) (now : Rat) : Option Streamed :=
  match (serve tinySetup s [] [] r now).1 with
  | .ok (rep, .chunks t d cs) => some ⟨rep.status, t, d, cs⟩
  | _ => none

/-- Start and bytes of the samples of a chunk, read with other defaults. -/
def chunkContent (b : Bytes) : List (Nat × Bytes) :=
  ((decodeFragment b ⟨0, 0, 0⟩).toOption.getD []).map fun s => (s.time, s.data)

def quarterAsk : Request := tinyGet ["livesim", "ato_2", "chunkdur_1", "tsbd_40", "tiny", "V1", "50.m4s"]

/-- The client asks for segment 50 when it begins: two chunks with two samples each, which leave a tenth of a second before
their ends. -/
example : (streamed quarterSite quarterAsk 100).map (fun x => (x.status, x.start, x.dur)) = some (200, 100, 1) ∧
    (streamed quarterSite quarterAsk 100).map (fun x => x.chunks.map chunkContent) =
      some [[(9000000, [10]), (9045000, [20, 21])], [(9090000, [30]), (9135000, [40, 41, 42])]] ∧
    (stream 100 1 100 [[1], [2]] [⟨0, 0⟩, ⟨0, 0⟩]).map (·.sent) = [1009 / 10, 1019 / 10] := by
  decide +kernel

theorem quarter_samples : (quarterSeg 3).seg.samples ⟨1800, 0, 65536⟩ =
    [⟨[10], 360000, 45000, true, 0⟩, ⟨[20, 21], 405000, 45000, true, 0⟩, ⟨[30], 450000, 45000, true, 0⟩,
      ⟨[40, 41, 42], 495000, 45000, true, 0⟩] := by
  decide +kernel

theorem quarter_chunkable : (quarterSeg 3).Chunkable ⟨1800, 0, 65536⟩ (96 * 90000) := by
  have e : ((quarterSeg 3).seg.samples ⟨1800, 0, 65536⟩).map (Sample.later (96 * 90000)) =
    [⟨[10], 9000000, 45000, true, 0⟩, ⟨[20, 21], 9045000, 45000, true, 0⟩, ⟨[30], 9090000, 45000, true, 0⟩,
      ⟨[40, 41, 42], 9135000, 45000, true, 0⟩] := by
    rw [quarter_samples]; decide +kernel
  refine ⟨?_, by decide +kernel, by decide +kernel⟩
  rw [e]
  refine ⟨?_, by decide, by decide, by decide⟩
  intro s hs
  have : s.duration < 2 ^ 32 ∧ -2 ^ 31 ≤ s.offset ∧ s.offset < 2 ^ 31 := by
    revert s
    decide
  exact ⟨this.1, this.2⟩

/-- The hypotheses of `C82_stream_partial` hold for this request. -/
example : ∃ c w info,
    processUrl examplePf quarterVod (["ato_2".toList, "chunkdur_1".toList, "tsbd_40".toList] ++
      ["tiny".toList, "V1".toList, "50.m4s".toList]) 100 = .ok c ∧
    getMedia examplePf c 100 = .ok (.media w) ∧ c.chunkDur = some 1 ∧ w.emsgLast = false ∧ c.scte35 = 0 ∧
    (∀ k : Nat, c.vodFirst ≤ k → (k : Int) < c.vodFirst + c.vodNr → (quarterSeg k).Ok) ∧
    quarterFiles.file ("V1".toList ++ '/' :: "init.mp4".toList) = some (infoInit false).bytes ∧
    initInfo (infoInit false).bytes = .ok info ∧ info.defDur = some 1800 ∧ info.defSize = some 0 ∧
    info.defFlags = some 65536 ∧ chunkTicks 1 info.timescale = 90000 ∧ w.segNr = 50 ∧
    (quarterSeg w.vodNr.toNat).Chunkable ⟨1800, 0, 65536⟩ (w.offset * info.timescale) ∧
    ∀ z ∈ (quarterSeg w.vodNr.toNat).seg.samples ⟨1800, 0, 65536⟩, (z.duration : Int) ≤ chunkTicks 1 info.timescale := by
  have h : (decided quarterFiles quarterVod (["ato_2".toList, "chunkdur_1".toList, "tsbd_40".toList] ++
      ["tiny".toList, "V1".toList, "50.m4s".toList]) 100).map (fun x => ((x.1.chunkDur, x.2.emsgLast), [x.1.scte35, x.1.vodFirst,
        x.1.vodNr, x.2.segNr, x.2.vodNr, x.2.offset])) = some ((some 1, false), [0, 1, 3, 50, 3, 96]) := by decide +kernel
  have hi : (initInfo (infoInit false).bytes).toOption.map (fun i => ((i.defDur, i.defSize, i.defFlags), i.timescale)) =
      some ((some 1800, some 0, some 65536), 90000) := by decide +kernel
  obtain ⟨⟨c, w⟩, hd, hx⟩ := Option.map_eq_some_iff.mp h
  unfold decided at hd
  split at hd
  · rename_i c' hc
    split at hd
    · rename_i w' hw
      cases hd
      cases hin : initInfo (infoInit false).bytes with
      | error e => rw [hin] at hi; cases hi
      | ok info =>
        rw [hin] at hi
        have hi := Option.some.inj hi
        simp only [Prod.mk.injEq] at hi
        obtain ⟨⟨i1, i2, i3⟩, i4⟩ := hi
        simp only [Prod.mk.injEq, List.cons.injEq, and_true] at hx
        obtain ⟨⟨x1, x2⟩, x3, x4, x5, x6, x7, x8⟩ := hx
        refine ⟨c, w, info, hc, hw, x1, x2, x3, ?_, by decide +kernel, rfl, i1, i2, i3, ?_, x6, ?_, ?_⟩
        · intro k h1 h2
          exact quarter_ok (by omega)
        · rw [i4]; decide +kernel
        · rw [x7, x8, i4]; exact quarter_chunkable
        · rw [x7, i4, show (3 : Int).toNat = 3 from rfl, quarter_samples]
          decide +kernel
    · cases hd
  · cases hd

/-- Content whose manifest calls the initialization segment `head.mp4`. -/
def headFiles : Files := filesOf [("V1".toList, ("head.mp4".toList, (infoInit false).bytes) ::
  (List.range 3).map fun k => (m4s (natText (k + 1)), (quarterSeg (k + 1)).one.bytes))]

def headSet : Xml :=
  .elem "AdaptationSet".toList [("contentType".toList, "video".toList)] []
    [.elem "SegmentTemplate".toList [("media".toList, "$RepresentationID$/$Number$.m4s".toList),
      ("initialization".toList, "$RepresentationID$/head.mp4".toList), ("duration".toList, "2".toList),
      ("startNumber".toList, "1".toList)] [] [],
     .elem "Representation".toList [("id".toList, "V1".toList), ("bandwidth".toList, "9".toList)] [] []]

def headSite : Site := { tinySite with
  files := fun _ => headFiles
  vodOf := vodAfter "tiny".toList headFiles (tinyMpd [headSet]) }

/-- **C82 fails for initialization segments with another name.** The manifest calls it `head.mp4`, the analyser reads it, and
whole segments are sent; but for a reply in chunks the server opens `init.mp4`, which raises, and every segment gets 404. -/
theorem C82_init_name_violation :
    Analysed "tiny".toList headFiles (tinyMpd [headSet]) headSite.vodOf "tiny".toList ∧ InitTemplate headSet "head.mp4".toList ∧
    (got headSite (tinyGet ["livesim", "tsbd_40", "tiny", "V1", "47.m4s"]) 100).map (·.1) = some 200 ∧
    (got headSite (tinyGet ["livesim", "ato_2", "chunkdur_1", "tsbd_40", "tiny", "V1", "47.m4s"]) 100).map (·.1) = some 404 := by
  refine ⟨analysed_after (by decide +kernel) (by decide +kernel) (by decide +kernel), by unfold InitTemplate; decide +kernel,
    by decide +kernel, by decide +kernel⟩

/-- A parser of floats that knows `0.00001`. -/
def smallPf (t : Text) : Option Rat := if t = "0.00001".toList then some (1 / 100000) else examplePf t

/-- **C82 fails for chunks of less than one tick.** A chunk duration of 10 µs is accepted by the URL parser, but
it is 0 ticks of 1/90000 s: the chunker makes an empty chunk first, which raises, and every segment gets
404. -/
theorem C82_ticks_violation :
    chunkTicks (1 / 100000) 90000 = 0 ∧
    (processUrl smallPf quarterVod ["ato_2".toList, "chunkdur_0.00001".toList, "tiny".toList, "V1".toList, "50.m4s".toList]
      100).toOption.map (·.chunkDur) = some (some (1 / 100000)) ∧
    (got { quarterSite with pf := smallPf } (tinyGet ["livesim", "ato_2", "chunkdur_0.00001", "tiny", "V1", "50.m4s"]) 100).map
      (·.1) = some 404 ∧
    (streamed { quarterSite with pf := smallPf } quarterAsk 100).map (·.status) = some 200 := by
  decide +kernel

end Verif
