import Verif.Lemmas.TtmlLive
import Verif.Props.MuxedReply
import Verif.Spec.Subtitles
/-
C85: replies with subtitles.
-/
namespace Verif
open Spec

/-! ### The text is never emptied -/

theorem rewrites_ne_nil {m : Bytes → Bytes → Bytes → Prop} (hm : ∀ old rest new, m old rest new → new ≠ []) {x y : Bytes}
    (h : Rewrites m x y) (hx : x ≠ []) : y ≠ [] := by
  cases h with
  | nil => exact absurd rfl hx
  | keep => exact List.cons_ne_nil _ _
  | replace old rest new rest' h _ => exact List.append_ne_nil_of_left_ne_nil (hm _ _ _ h) _

theorem textLater_ne_nil {offset nr : Nat} {x y : Bytes} (h : TextLater offset nr x y) (hx : x ≠ []) : y ≠ [] := by
  obtain ⟨a, b, h1, h2, h3⟩ := h
  refine rewrites_ne_nil ?_ h3 (rewrites_ne_nil ?_ h2 (rewrites_ne_nil ?_ h1 hx))
  · rintro old rest new ⟨ds, ds', -, -, -, -, rfl, -, h, -⟩ hc
    exact h (List.append_eq_nil_iff.mp hc).2
  · rintro old rest new ⟨w, t, f, n, -, h, -, -, -, date, rfl, -⟩ hc
    exact h (List.append_eq_nil_iff.mp (List.append_eq_nil_iff.mp hc).1).1
  · rintro old rest new ⟨a, t, t', n, ha, -, rfl, -⟩ hc
    have := (List.append_eq_nil_iff.mp hc).1
    rcases ha with rfl | rfl <;> cases this

/-! ### The samples -/

/-- The only sample of the segment is the text. -/
structure LiveFragment.OneText (f : LiveFragment) (text : Bytes) : Prop where
  row : ∃ row, f.run.rows = [row]
  own : bitSet f.run.f1 1 = false
  offset : f.run.offset = f.one.moof.length + 8
  size : f.head.size = text.length

theorem LiveFragment.OneText.sample {f : LiveFragment} {text : Bytes} {more : List (Bytes × Bytes)} (h : f.Subtitle text more)
    (ho : f.OneText text) {row : RunRow} (hrow : f.run.rows = [row]) (x : Trex) : f.seg.samples x =
      [⟨text, f.time, sampleDur f.head f.run x row, sampleSync f.head f.run x, if bitSet f.run.f1 3 then row.off else 0⟩] := by
  unfold FragSegment.samples
  rw [f.media_eq h.ok, h.back]
  have e : (f.run.offset - f.one.moof.length).toNat = 8 := by rw [ho.offset]; omega
  have e2 : (boxesBytes ((tyMdat, text) :: more)).drop 8 = text ++ boxesBytes more := by
    rw [boxesBytes_cons]
    rfl
  rw [e, e2]
  have hr : f.seg.run.rows = [row] := hrow
  have hz : sampleSize f.head f.run x row = text.length := by
    unfold sampleSize
    rw [ho.own, h.size]
    simpa using ho.size
  rw [hr]
  show [_] = [_]
  have : slice (text ++ boxesBytes more) 0 (0 + sampleSize f.head f.run x row) = text := by
    rw [hz]
    simp [slice]
  exact congrArg (fun d => [(⟨d, f.time, sampleDur f.head f.run x row, sampleSync f.head f.run x,
    if bitSet f.run.f1 3 then row.off else 0⟩ : Sample)]) this

theorem LiveFragment.OneText.texted {f : LiveFragment} {text : Bytes} (ho : f.OneText text) (new : Bytes)
    (more : List (Bytes × Bytes)) : (f.texted new more).OneText new :=
  ⟨ho.row, ho.own, by rw [f.texted_moof]; exact ho.offset, rfl⟩

/-! ### The replies -/

/-- A stored subtitle segment: one text in one sample, readable, with room for what the filter adds. -/
structure StoredText (f : LiveFragment) (text : Bytes) (more : List (Bytes × Bytes)) : Prop where
  format : f.Subtitle text more
  one : f.OneText text
  nonempty : text ≠ []
  read : ∃ z, readSegment none f.seg.bytes = .ok z
  room : f.timed.Room

/-- A representation that the configuration of the content calls subtitles, with all files of the loop. -/
structure StoredSubtitles (fs : Files) (v : VodCfg) (id : Text) (rp : Rep) (seg : Nat → LiveFragment) (text : Nat → Bytes)
    (more : Nat → List (Bytes × Bytes)) : Prop where
  plain : PlainId id
  rep : v.repInfo id = .ok rp
  kind : rp.contentType = "subtitles".toList
  scale : 0 ≤ rp.timescale ∧ rp.timescale < 2 ^ 32
  dur : 0 < v.segDurS
  files : ∀ k : Nat, v.firstSeg ≤ k → k < v.firstSeg + v.nrSegs →
    fs.file (storedFile id k) = some (seg k).seg.bytes ∧ StoredText (seg k) (text k) (more k)
  first : 0 ≤ v.firstSeg

theorem StoredText.room_texted {f : LiveFragment} {text new : Bytes} {more : List (Bytes × Bytes)} (h : StoredText f text more)
    (hn : f.one.moof.length + 4 + (8 + new.length + (boxesBytes more).length) < 2 ^ 32) : (f.texted new more).timed.Room where
  frag := by
    refine ⟨?_, ?_, h.room.frag.front⟩
    · intro x hx
      have hx : x ∈ f.a ++ (f.p1 ++ .other tyTfhd ({ f.head with size := new.length } : FragHeader).payload :: f.p2) ++
        f.one.post ++ f.b := hx
      by_cases he : x = .other tyTfhd ({ f.head with size := new.length } : FragHeader).payload
      · subst he; trivial
      · refine h.room.frag.boxes x ?_
        show x ∈ f.a ++ (f.p1 ++ .other tyTfhd f.head.payload :: f.p2) ++ f.one.post ++ f.b
        simp only [List.mem_append, List.mem_cons, he, false_or] at hx ⊢
        tauto
    · show (f.texted new more).one.moof.length + 4 < 2 ^ 32
      rw [f.texted_moof]
      exact h.room.frag.moof
  size := by
    show (f.texted new more).one.moof.length + 4 + (boxesBytes ((tyMdat, new) :: more)).length < 2 ^ 32
    rw [f.texted_moof, boxesBytes_cons, List.length_append, boxBytes_len rfl]
    exact hn
  dur := h.room.dur

/-- **C85.** A representation that the configuration calls subtitles, each stored segment of which is one text: when the
server decides to send a media segment of it, the reply is a segment with the requested number and exactly one sample.  The
sample is the stored one, moved by the loop offset; its data is the whole stored text with all cues moved by the loop offset,
so that every cue has the place relative to the sample that it has in the stored segment.  Missing: segments with several
samples or with the size in the run, texts with hours of more than two digits and other kinds of times, headers without
default duration and size, for which it is false (violations below and in C40). -/
theorem C85_media_partial {pf : Text → Option Rat} {fs : Files} {vodOf : Text → Py VodCfg} {name id : Text} {v : VodCfg}
    {rp : Rep} {seg : Nat → LiveFragment} {text : Nat → Bytes} {more : Nat → List (Bytes × Bytes)}
    (hv : vodOf name = .ok v) (hS : StoredSubtitles fs v id rp seg text more) (hslot : partSlot name = none)
    {now : Int} {t : Rat} {c : Cfg} {w : Served}
    (hurl : ∃ opts file, (∀ p ∈ opts, (partSlot p).isSome) ∧ processUrl pf vodOf (opts ++ [name, id, file]) now = .ok c)
    (hw : getMedia pf c t = .ok (.media w)) (hchunk : c.chunkDur = none) (n0 : 0 ≤ w.segNr) (n1 : w.segNr < 2 ^ 32)
    (o0 : 0 ≤ w.offset) (t1 : (seg w.vodNr.toNat).time + w.offset * rp.timescale < 2 ^ 64)
    (hscte : 0 < c.scte35 → w.segNr * c.segDur < 2 ^ 32)
    (hlen : (seg w.vodNr.toNat).one.moof.length + 4 + (8 + (adjustTtml w.offset w.segNr (text w.vodNr.toNat)).length +
      (boxesBytes (more w.vodNr.toNat)).length) < 2 ^ 32)
    {stamp : Text} (hstamp : w.emsgLast = true → Ascii stamp ∧ stamp.length < 2 ^ 30) :
    ∃ (g : LiveFragment) (new : Bytes), mediaBody fs c w stamp = .ok (.whole g.seg.bytes) ∧ g.seg.Ok ∧ (g.seq : Int) = w.segNr ∧
      TextLater w.offset.toNat w.segNr.toNat (text w.vodNr.toNat) new ∧
      ∀ x, ∃ s, (seg w.vodNr.toNat).seg.samples x = [s] ∧ s.data = text w.vodNr.toNat ∧
        g.seg.samples x = [{ s with data := new, time := (s.time + w.offset * rp.timescale).toNat }] ∧
        ((∀ a ∈ attrTimes s.data, a.2.1 = 2) → ∀ s' ∈ g.seg.samples x, cuePlaces rp.timescale s' = cuePlaces rp.timescale s) := by
  obtain ⟨opts, file, ho, hu⟩ := hurl
  obtain ⟨v', reps, e1, e6, -, e2, -, e3, e7, e4, e5, e10⟩ := processUrl_files ho hslot hu
  rw [hv] at e1
  cases e1
  obtain ⟨r, rfl, q1, q2⟩ := single_rep hS.plain e6
  rw [hS.rep] at q2
  cases q2
  obtain ⟨g1, g2, g3⟩ := getMedia_range hw
  rw [e4] at g1 g2
  rw [e5] at g2
  have hfirst := hS.first
  obtain ⟨k, hk⟩ : ∃ k : Nat, w.vodNr = k := ⟨w.vodNr.toNat, by omega⟩
  rw [hk] at hlen t1 ⊢
  rw [Int.toNat_natCast] at hlen t1 ⊢
  obtain ⟨hfile, hT⟩ := hS.files k (by omega) (by omega)
  have hoff : w.offset = (w.offset.toNat : Int) := by omega
  have hnr : w.segNr = (w.segNr.toNat : Int) := by omega
  have hlater : TextLater w.offset.toNat w.segNr.toNat (text k) (adjustTtml w.offset w.segNr (text k)) := by
    have := C40_rewrites w.offset.toNat w.segNr.toNat (text k)
    rw [← hoff, ← hnr] at this
    exact this
  have hne := textLater_ne_nil hlater hT.nonempty
  have hpos : 0 < (adjustTtml w.offset w.segNr (text k)).length := List.length_pos_iff.mpr hne
  have h8 : 8 + (adjustTtml w.offset w.segNr (text k)).length < 2 ^ 32 := by omega
  have hsub := hT.format.texted h8
  obtain ⟨z, hz⟩ := hT.read
  have hread := hT.format.readable h8 hz
  rw [LiveFragment.bytes_eq _ hsub.ok.offset] at hread
  have hroom := hT.room_texted hlen
  have hts0 := hS.scale.1
  have hmul : 0 ≤ w.offset * rp.timescale := Int.mul_nonneg o0 hts0
  have hD : 0 ≤ c.segDur := by rw [e10]; exact hS.dur.le
  obtain ⟨y, hy⟩ := filter_sent (c := c) (w := w) (rp := rp) (dd := none) hsub.ok.timed hread hroom.frag hroom.size hroom.dur
    hD hS.scale.1 hS.scale.2 hscte (fun he => (hstamp he).2) n0 n1
    (show 0 ≤ ((seg k).time : Int) + w.offset * rp.timescale by omega) t1
  have hy' : filterMedia (segmentFilter c rp w stamp none) ((seg k).texted (adjustTtml w.offset w.segNr (text k))
      (more k)).seg.bytes = .ok y := by
    rw [LiveFragment.bytes_eq _ hsub.ok.offset]
    exact hy
  obtain ⟨st, hfin⟩ := hT.format.filterTtml (adjustTtml w.offset w.segNr) hpos h8 hy'
  obtain ⟨front, d, -, -, -, -, hd, hout, hok⟩ := hsub.ok.filtered (c := segmentFilter c rp w stamp none) rfl rfl (by
    intro m hm
    have hm : (if w.emsgLast then some stamp else none) = some m := hm
    split at hm
    · rename_i he; cases hm; exact (hstamp he).1
    · cases hm) hy'
  have hread' : fs.read (segmentFile c.relPath w.vodNr c.ext) = .ok (seg k).seg.bytes := by
    have : segmentFile c.relPath w.vodNr c.ext = storedFile id k := by
      unfold segmentFile storedFile
      rw [e2, g3, hk, if_neg hS.plain.nonempty]
      rfl
    unfold Files.read
    rw [this, hfile]
  obtain ⟨row, hrow⟩ := hT.one.row
  have hticks : (segmentFilter c rp w stamp none).offset * rp.timescale = w.offset * rp.timescale := rfl
  rw [hticks] at hd hout hok
  refine ⟨_, _, ?_, hok, ?_, hlater, fun x => ⟨_, hT.one.sample hT.format hrow x, rfl, ?_⟩⟩
  · unfold mediaBody
    rw [e7, hchunk]
    dsimp only
    unfold filterSegment
    rw [hread']
    dsimp only
    rw [if_pos hS.kind, hfin]
    dsimp only
    rw [hout]
  · exact Int.toNat_of_nonneg n0
  have hsamp := hsub.ok.samples (front := front) (n := w.segNr) (ticks := w.offset * rp.timescale) (d := d)
    (show 0 ≤ ((seg k).time : Int) + w.offset * rp.timescale by omega) hd x
  rw [(hT.one.texted _ (more k)).sample hsub hrow x] at hsamp
  refine ⟨hsamp, ?_⟩
  intro h2 s' hs'
  rw [hsamp] at hs'
  rw [List.mem_singleton.mp hs']
  have hshift := C40_shift_partial w.offset.toNat w.segNr.toNat (text k) h2
  rw [← hoff, ← hnr] at hshift
  unfold cuePlaces
  have e : ∀ (l : List (Bool × Nat × Nat)) (T : Int), (l.map fun a => (a.1, (a.2.2 : Int) * rp.timescale - T)) =
      (l.map fun a => (a.1, a.2.2)).map fun b => (b.1, (b.2 : Int) * rp.timescale - T) := by
    intro l T
    rw [List.map_map]
    rfl
  rw [e, e]
  show ((attrTimes (adjustTtml w.offset w.segNr (text k))).map fun a => (a.1, a.2.2)).map _ = _
  rw [hshift, List.map_map, List.map_map]
  refine List.map_congr_left fun a _ => ?_
  show (a.1, ((a.2.2 + w.offset.toNat : Nat) : Int) * rp.timescale - ((((seg k).time : Int) + w.offset * rp.timescale).toNat : Int)) =
    (a.1, (a.2.2 : Int) * rp.timescale - ((seg k).time : Int))
  rw [Int.toNat_of_nonneg (by omega), Nat.cast_add, ← hoff]
  congr 1
  ring

/-- **C85, over HTTP.** The server answers the request for a subtitle segment with 200 and this segment. -/
theorem C85_http_partial {u : Setup} {s : Site} {name id : Text} {v : VodCfg} {rp : Rep} {seg : Nat → LiveFragment}
    {text : Nat → Bytes} {more : Nat → List (Bytes × Bytes)}
    (hv : s.vodOf name = .ok v) (hS : StoredSubtitles (s.files name) v id rp seg text more) (hslot : partSlot name = none)
    {now : Rat} {c : Cfg} {w : Served} {first : Text} {opts : List Text} {file : Text} {r : Request}
    (hr : r.parts = [] :: first :: (opts ++ [name, id, file])) (ho : ∀ p ∈ opts, (partSlot p).isSome)
    (hext : (splitext file).2 = ".m4s".toList) (hrange : r.range = none)
    (hurl : processUrl s.pf s.vodOf (opts ++ [name, id, file]) (pyTrunc now) = .ok c)
    (hw : getMedia s.pf c now = .ok (.media w)) (hgate : gate u.maxLen r now = .pass)
    (hchunk : c.chunkDur = none) (n0 : 0 ≤ w.segNr) (n1 : w.segNr < 2 ^ 32)
    (o0 : 0 ≤ w.offset) (t1 : (seg w.vodNr.toNat).time + w.offset * rp.timescale < 2 ^ 64)
    (hscte : 0 < c.scte35 → w.segNr * c.segDur < 2 ^ 32)
    (hlen : (seg w.vodNr.toNat).one.moof.length + 4 + (8 + (adjustTtml w.offset w.segNr (text w.vodNr.toNat)).length +
      (boxesBytes (more w.vodNr.toNat)).length) < 2 ^ 32)
    (hstamp : w.emsgLast = true → (makeTimestamp (pyTrunc now : Int)).length < 2 ^ 30) (sid : Text) (dflt : Headers) :
    ∃ (g : LiveFragment) (new : Bytes), Delivers (serve u s sid dflt r now).1 (mimeType ".m4s".toList) g.seg.bytes ∧
      g.seg.Ok ∧ (g.seq : Int) = w.segNr ∧ TextLater w.offset.toNat w.segNr.toNat (text w.vodNr.toNat) new ∧
      ∀ x, ∃ s, (seg w.vodNr.toNat).seg.samples x = [s] ∧ s.data = text w.vodNr.toNat ∧
        g.seg.samples x = [{ s with data := new, time := (s.time + w.offset * rp.timescale).toNat }] ∧
        ((∀ a ∈ attrTimes s.data, a.2.1 = 2) → ∀ s' ∈ g.seg.samples x, cuePlaces rp.timescale s' = cuePlaces rp.timescale s) := by
  obtain ⟨g, new, g1, g2, g3, g4, g5⟩ := C85_media_partial hv hS hslot ⟨opts, file, ho, hurl⟩ hw hchunk n0 n1 o0 t1 hscte hlen
    (stamp := makeTimestamp (pyTrunc now : Int)) (fun he => ⟨makeTimestamp_ascii _, hstamp he⟩)
  obtain ⟨v', reps, -, -, d1, -, d3, d2, -⟩ := processUrl_files ho hslot hurl
  rw [hext] at d2
  have hprov : provide s r now = .data g.seg.bytes := by
    unfold provide
    rw [hr]
    simp only [List.drop_succ_cons, List.drop_zero, hurl]
    rw [if_pos d2]
    unfold provideMedia
    rw [hw]
    dsimp only
    rw [d1, g1]
  have hrext : r.ext = ".m4s".toList := by
    unfold Request.ext
    rw [hr]
    rw [show ([] :: first :: (opts ++ [name, id, file]) : List Text) =
      ([] :: first :: (opts ++ [name, id])) ++ [file] by simp, List.getLastD_concat, hext]
  have hserve := serve_pass (u := u) (s := s) (sid := sid) (dflt := dflt) hgate
  rw [hprov] at hserve
  refine ⟨g, new, ?_, g2, g3, g4, g5⟩
  rw [hserve, ← hrext]
  refine answer_data u.agent u.notFound hrange ?_
  intro hc
  have := congrArg List.length hc
  unfold FragSegment.bytes FragSegment.forest at this
  simp only [withBoxes_bytes, Forest.bytes, List.length_append, boxBytes_length, List.length_nil] at this
  omega

/-! ### Cases -/

/-- A subtitle segment of two seconds, timescale 1000. -/
def textLive (flag : UInt8) (rows : List RunRow) (offset : Int) (size nr time : Nat) (text : Bytes) : LiveFragment where
  front := [(tyStyp, [109, 115, 100, 104, 0, 0, 0, 0])]
  vf := [0, 0, 0, 0]
  seq := nr
  a := []
  p1 := []
  head := ⟨0, 2, 0, flag, 3, 0, 0, 2000, size, 0, []⟩
  p2 := []
  wide := true
  f2 := 0
  f1 := 0
  f0 := 0
  time := time
  q1 := []
  run := ⟨0, 0, 0, 1, offset, 0, rows⟩
  q2 := []
  b := []
  back := [(tyMdat, text)]

/-- `<p begin="00:00:0x" end="00:00:0y">` for the odd second of the segment. -/
def cueText (k : Nat) : Bytes :=
  "<p begin=\"00:00:0".toUTF8.toList ++ [48 + (2 * k - 1).toUInt8] ++ "\" end=\"00:00:0".toUTF8.toList ++ [48 + (2 * k).toUInt8] ++
    "\">".toUTF8.toList

def cueSeg (k : Nat) : LiveFragment := textLive 24 [⟨0, 0, 0, 0⟩] 104 35 k ((k - 1) * 2000) (cueText k)

def cueFiles (seg : Nat → LiveFragment) : Files := filesOf [("S1".toList, ("init.mp4".toList, []) ::
  (List.range 3).map fun k => (m4s (natText (k + 1)), (seg (k + 1)).seg.bytes))]

def textSite (seg : Nat → LiveFragment) : Site := { tinySite with
  files := fun _ => cueFiles seg
  vodOf := fun n => if n = "tiny".toList then .ok ⟨1, 3, 2, 60, [("subtitles".toList, 1000, ["S1".toList])]⟩ else .error .osError }

def textAsk (file : String) : Request := tinyGet ["livesim", "tsbd_40", "tiny", "S1", file]

theorem cue_ok {k : Nat} (hk : k = 1 ∨ k = 2 ∨ k = 3) : (cueSeg k).Ok := by
  have hrow : ∀ x ∈ (⟨0, 0, 0, 1, 104, 0, [⟨0, 0, 0, 0⟩]⟩ : SampleRun).rows,
      x.dur < 2 ^ 32 ∧ x.size < 2 ^ 32 ∧ x.flags < 2 ^ 32 ∧ -2 ^ 31 ≤ x.off ∧ x.off < 2 ^ 31 := by decide +kernel
  refine ⟨rfl, ?_, ⟨?_, ?_, ?_, ?_, ?_, ?_⟩, ?_, ⟨?_, ?_, ?_, hrow⟩, ?_, ?_, ?_, ?_, ?_,
    fun x hx => absurd hx List.not_mem_nil, ?_⟩
  case refine_16 =>
    intro x hx
    have hx : x = (tyStyp, [109, 115, 100, 104, 0, 0, 0, 0]) := List.mem_singleton.mp hx
    subst hx
    exact ⟨plain_top (by simp), by decide, by decide, fun _ => by decide⟩
  case refine_17 =>
    intro x hx
    have hx : x = (tyMdat, cueText k) := List.mem_singleton.mp hx
    subst hx
    refine ⟨plain_known (by simp), (by decide : tyMdat ∉ [tyStyp, tySidx]), ?_⟩
    rcases hk with rfl | rfl | rfl <;> decide +kernel
  all_goals rcases hk with rfl | rfl | rfl <;> decide +kernel

theorem cue_text {k : Nat} (hk : k = 1 ∨ k = 2 ∨ k = 3) : StoredText (cueSeg k) (cueText k) [] where
  format := ⟨cue_ok hk, (by decide +kernel : bitSet 24 3 = true), (by decide +kernel : bitSet 24 4 = true), rfl, fun x hx => absurd hx List.not_mem_nil⟩
  one := ⟨⟨_, rfl⟩, (by decide +kernel : bitSet 0 1 = false), by rcases hk with rfl | rfl | rfl <;> decide +kernel,
    by rcases hk with rfl | rfl | rfl <;> decide +kernel⟩
  nonempty := by rcases hk with rfl | rfl | rfl <;> decide +kernel
  read := by
    have h : (readSegment none (cueSeg k).seg.bytes).isOk = true := by rcases hk with rfl | rfl | rfl <;> decide +kernel
    cases hr : readSegment none (cueSeg k).seg.bytes with
    | error e => rw [hr] at h; cases h
    | ok z => exact ⟨z, rfl⟩
  room := by
    refine ⟨⟨?_, by rcases hk with rfl | rfl | rfl <;> decide +kernel, ?_⟩, by rcases hk with rfl | rfl | rfl <;> decide +kernel,
      by rcases hk with rfl | rfl | rfl <;> decide +kernel⟩
    · intro x hx
      have hx : x ∈ [FragBox.other tyTfhd (cueSeg k).head.payload, (cueSeg k).runBox] := hx
      simp only [List.mem_cons, List.not_mem_nil, or_false] at hx
      rcases hx with rfl | rfl
      · trivial
      · show (104 : Int) + 4 < 2 ^ 31; decide
    · intro x hx
      have hx : x = (tyStyp, [109, 115, 100, 104, 0, 0, 0, 0]) := List.mem_singleton.mp hx
      subst hx
      intro _; decide

theorem cue_stored : StoredSubtitles (cueFiles cueSeg) ⟨1, 3, 2, 60, [("subtitles".toList, 1000, ["S1".toList])]⟩ "S1".toList
    ⟨"S1".toList, "subtitles".toList, 1000⟩ cueSeg cueText fun _ => [] where
  plain := by decide +kernel
  rep := by decide +kernel
  kind := rfl
  scale := by decide
  dur := by decide
  files := by
    intro k h1 h2
    have h1 : (1 : Int) ≤ k := h1
    have h2 : (k : Int) < 1 + 3 := h2
    have : k = 1 ∨ k = 2 ∨ k = 3 := by omega
    refine ⟨?_, cue_text this⟩
    rcases this with rfl | rfl | rfl <;> decide +kernel
  first := by decide

/-- The other hypotheses of `C85_media_partial` and `C85_http_partial` hold for segment 47. -/
example : ((decided (cueFiles cueSeg) (textSite cueSeg).vodOf ["tsbd_40".toList, "tiny".toList, "S1".toList, "47.m4s".toList]
      100).map fun x => ([x.1.scte35, x.2.segNr, x.2.vodNr, x.2.offset], (x.2.emsgLast, x.1.chunkDur))) =
        some ([0, 47, 3, 90], (false, none)) ∧
    partSlot "tiny".toList = none ∧ (partSlot "tsbd_40".toList).isSome = true ∧ (splitext "47.m4s".toList).2 = ".m4s".toList ∧
    (cueSeg 3).one.moof.length + 4 + (8 + (adjustTtml 90 47 (cueText 3)).length + (boxesBytes []).length) < 2 ^ 32 ∧
    (∀ a ∈ attrTimes (cueText 3), a.2.1 = 2) ∧ gate 0 (textAsk "47.m4s") 100 = .pass := by
  decide +kernel

/-- The stored cue is shown from second 5 to second 6; the reply has it from second 95 to 96.  The sample starts with second
4, in the reply with second 94. -/
example : cueText 3 = "<p begin=\"00:00:05\" end=\"00:00:06\">".toUTF8.toList ∧
    got (textSite cueSeg) (textAsk "47.m4s") 100 = some (200, some "video/iso.segment".toList,
      (textLive 24 [⟨0, 0, 0, 0⟩] 104 35 47 94000 "<p begin=\"00:01:35\" end=\"00:01:36\">".toUTF8.toList).seg.bytes) ∧
    ((cueSeg 3).seg.samples ⟨0, 0, 0⟩).map (fun s => (s.time, cuePlaces 1000 s)) = [(4000, [(true, 1000), (false, 2000)])] ∧
    ((textLive 24 [⟨0, 0, 0, 0⟩] 104 35 47 94000 "<p begin=\"00:01:35\" end=\"00:01:36\">".toUTF8.toList).seg.samples
      ⟨0, 0, 0⟩).map (fun s => (s.time, cuePlaces 1000 s)) = [(94000, [(true, 1000), (false, 2000)])] := by
  decide +kernel

/-- **C85 fails for segments with two samples.** Each of them is a text of its own, of 35 bytes, as the track header says.
The filter takes the media data for one text and makes the size of all of it the size of every sample: the first sample of
the reply has both texts, the second none. -/
theorem C85_two_violation :
    let stored := fun k => textLive 24 [⟨0, 0, 0, 0⟩, ⟨0, 0, 0, 0⟩] 104 35 k ((k - 1) * 2000) (cueText k ++ cueText k)
    let t := "<p begin=\"00:01:35\" end=\"00:01:36\">".toUTF8.toList
    let reply := textLive 24 [⟨0, 0, 0, 0⟩, ⟨0, 0, 0, 0⟩] 104 70 47 94000 (t ++ t)
    got (textSite stored) (textAsk "47.m4s") 100 = some (200, some "video/iso.segment".toList, reply.seg.bytes) ∧
      ((stored 3).seg.samples ⟨0, 0, 0⟩).map (·.data) = [cueText 3, cueText 3] ∧
      (reply.seg.samples ⟨0, 0, 0⟩).map (·.data) = [t ++ t, []] := by
  decide +kernel

/-- **C85 fails for times in seconds.** TTML has clock times and offset times.  `begin="5s"` says the same as
`begin="00:00:05"`, but the server does not move it: the sample of the reply starts with second 94, its cue ended with
second 6. -/
theorem C85_seconds_violation :
    let cue := "<p begin=\"5s\" end=\"6s\">".toUTF8.toList
    let stored := fun k => textLive 24 [⟨0, 0, 0, 0⟩] 104 23 k ((k - 1) * 2000) cue
    let reply := textLive 24 [⟨0, 0, 0, 0⟩] 104 23 47 94000 cue
    got (textSite stored) (textAsk "47.m4s") 100 = some (200, some "video/iso.segment".toList, reply.seg.bytes) ∧
      ((stored 3).seg.samples ⟨0, 0, 0⟩).map (fun s => (s.time, s.data)) = [(4000, cue)] ∧
      (reply.seg.samples ⟨0, 0, 0⟩).map (fun s => (s.time, s.data)) = [(94000, cue)] := by
  decide +kernel

/-- **C85 fails for cues after a hundred hours.** The stored sample starts with the cue.  The server moves only times with two
digits of hours: the sample of the reply starts 90 seconds after its cue. -/
theorem C85_hours_violation :
    let cue := "<p begin=\"100:00:04\">".toUTF8.toList
    let stored := fun k => textLive 24 [⟨0, 0, 0, 0⟩] 104 21 k (360000000 + (k - 1) * 2000) cue
    let reply := textLive 24 [⟨0, 0, 0, 0⟩] 104 21 47 360094000 cue
    got (textSite stored) (textAsk "47.m4s") 100 = some (200, some "video/iso.segment".toList, reply.seg.bytes) ∧
      ((stored 3).seg.samples ⟨0, 0, 0⟩).map (cuePlaces 1000) = [[(true, 0)]] ∧
      (reply.seg.samples ⟨0, 0, 0⟩).map (cuePlaces 1000) = [[(true, -90000)]] := by
  decide +kernel

/-- **C85 fails for track headers without a default size.** The size of the sample is said by the initialization segment, as
the format allows.  The filter has to write the new size, finds no room for it and raises an error: the server says that
there is no such segment.  So it does without a default duration. -/
theorem C85_header_violation :
    let stored := fun (flag : UInt8) k => textLive flag [⟨0, 0, 0, 0⟩] 100 35 k ((k - 1) * 2000) (cueText k)
    (got (textSite (stored 8)) (textAsk "47.m4s") 100).map (·.1) = some 404 ∧
      (got (textSite (stored 16)) (textAsk "47.m4s") 100).map (·.1) = some 404 ∧
      ((stored 8 3).seg.samples ⟨2000, 35, 0⟩).map (fun s => (s.time, s.duration, s.data)) = [(4000, 2000, cueText 3)] ∧
      ((stored 16 3).seg.samples ⟨2000, 35, 0⟩).map (fun s => (s.time, s.duration, s.data)) = [(4000, 2000, cueText 3)] := by
  decide +kernel

end Verif
