import Verif.Lemmas.Fragments
import Verif.Props.MuxedReply
/-
C86: replies with several movie fragments.
-/
namespace Verif
open Spec

/-! ### Reading the samples -/

/-- A fragment whose samples lie in the boxes behind it. -/
structure LiveFragment.Local (f : LiveFragment) (x : Trex) : Prop where
  base : bitSet f.head.f0 0 = false
  offset : bitSet f.run.f0 0 = true
  data : (f.one.moof.length : Int) ≤ f.run.offset
  inside : f.run.offset + f.dataSize x ≤ (f.one.moof.length : Int) + (boxesBytes f.back).length

theorem LiveFragment.drop_media (f : LiveFragment) (h : bitSet f.run.f0 0 = true) (P R : Bytes) (k : Nat) :
    (P ++ (f.seg.bytes ++ R)).drop (P.length + (boxesBytes f.front).length + (f.one.moof.length + k)) =
      (boxesBytes f.back ++ R).drop k := by
  rw [f.bytes_eq h, OneFragment.bytes]
  simp only [List.append_assoc]
  have e : P.length + (boxesBytes f.front).length + (f.one.moof.length + k) =
      P.length + ((boxesBytes f.one.front).length + (f.one.moof.length + k)) := by
    show _ = P.length + ((boxesBytes f.front).length + _)
    omega
  rw [e, ← List.drop_drop, List.drop_left, ← List.drop_drop, List.drop_left, ← List.drop_drop, List.drop_left]
  rfl

theorem LiveFragment.Local.read {f : LiveFragment} {x : Trex} (h : f.Local x) (P R : Bytes) :
    runSamples f.seg.head f.seg.run x (sliceFrom (P ++ (f.seg.bytes ++ R)) (dataPos f.seg P.length)) f.seg.run.rows f.seg.time 0 =
      f.seg.samples x := by
  have hd := h.data
  have hin := h.inside
  have hp : dataPos f.seg P.length = ((P.length + (boxesBytes f.front).length +
      (f.one.moof.length + (f.run.offset - f.one.moof.length).toNat) : Nat) : Int) := by
    have e1 : bitSet f.seg.head.f0 0 = false := h.base
    have e2 : bitSet f.seg.run.f0 0 = true := h.offset
    unfold dataPos
    rw [e1, e2]
    show (((P.length + (boxesBytes f.front).length : Nat)) : Int) + f.run.offset = _
    omega
  have hm : f.seg.mediaPos = ((0 + (boxesBytes f.front).length +
      (f.one.moof.length + (f.run.offset - f.one.moof.length).toNat) : Nat) : Int) := by
    have e1 : bitSet f.seg.head.f0 0 = false := h.base
    have e2 : bitSet f.seg.run.f0 0 = true := h.offset
    unfold FragSegment.mediaPos FragSegment.moofPos
    rw [e1, e2]
    show (((boxesBytes f.front).length : Nat) : Int) + f.run.offset = _
    omega
  unfold FragSegment.samples
  rw [hp, hm, sliceFrom, sliceFrom, if_pos (by omega), if_pos (by omega), Int.toNat_natCast, Int.toNat_natCast,
    f.drop_media h.offset]
  have h0 := f.drop_media h.offset [] [] (f.run.offset - f.one.moof.length).toNat
  rw [List.nil_append, List.append_nil, List.append_nil, List.length_nil] at h0
  rw [h0]
  refine runSamples_prefix f.seg.head f.seg.run x (n := (boxesBytes f.back).length - (f.run.offset - f.one.moof.length).toNat)
    ?_ _ _ _ ?_
  · rw [List.drop_append_of_le_length (by omega), List.take_append_of_le_length (by rw [List.length_drop])]
  · show 0 + f.dataSize x ≤ _
    omega

theorem readChain_local (x : Trex) : ∀ (fs : List LiveFragment) (P : Bytes), (∀ f ∈ fs, f.Local x) →
    readChain (P ++ chainFile fs) x P.length (fs.map LiveFragment.seg) = fs.flatMap fun f => f.seg.samples x := by
  intro fs
  induction fs with
  | nil => intro P _; rfl
  | cons f fs ih =>
    intro P h
    rw [List.map_cons, readChain, chainFile_cons, (h f (by simp)).read P (chainFile fs), List.flatMap_cons]
    congr 1
    have := ih (P ++ f.seg.bytes) fun g hg => h g (by simp [hg])
    rw [List.append_assoc, List.length_append] at this
    exact this

/-- Each fragment can be read for itself. -/
theorem chainSamples_local {x : Trex} {fs : List LiveFragment} (h : ∀ f ∈ fs, f.Local x) :
    chainSamples x (fs.map LiveFragment.seg) = fs.flatMap fun f => f.seg.samples x := by
  have := readChain_local x fs [] h
  rw [List.nil_append] at this
  exact this

theorem SentAs.local {n ticks : Int} {f g : LiveFragment} (hf : f.Ok) (h : SentAs n ticks f g) {x : Trex} (hl : f.Local x) :
    g.Local x := by
  obtain ⟨front, rfl⟩ := h.live
  have hlen := live_moof_length hf front n (new := (f.time : Int) + ticks) rfl
  have hb := growth_bounds f.wide ((f.time : Int) + ticks)
  have hd := hl.data
  have hin := hl.inside
  refine ⟨hl.base, hl.offset, ?_, ?_⟩
  · rw [hlen]
    show _ ≤ f.run.offset + _
    omega
  · rw [hlen]
    show f.run.offset + growth f.wide _ + f.dataSize x ≤ _ + ((boxesBytes f.back).length : Int)
    omega

theorem sent_samples {n ticks : Int} {fs gs : List LiveFragment} (h : List.Forall₂ (SentAs n ticks) fs gs)
    (hok : ∀ f ∈ fs, f.Ok) {x : Trex} (hl : ∀ f ∈ fs, f.Local x) : (∀ g ∈ gs, g.Local x) ∧
      (gs.flatMap fun g => g.seg.samples x) = (fs.flatMap fun f => f.seg.samples x).map (Sample.later ticks) := by
  induction h with
  | nil => exact ⟨fun g hg => absurd hg List.not_mem_nil, rfl⟩
  | @cons f g fs gs hfg _ ih =>
    obtain ⟨i1, i2⟩ := ih (fun y hy => hok y (by simp [hy])) (fun y hy => hl y (by simp [hy]))
    have hf := hok f (by simp)
    refine ⟨fun y hy => ?_, ?_⟩
    · rcases List.mem_cons.mp hy with rfl | hy
      · exact hfg.local hf (hl f (by simp))
      · exact i1 y hy
    · obtain ⟨front, rfl⟩ := hfg.live
      rw [List.flatMap_cons, List.flatMap_cons, List.map_append, i2, hf.samples hfg.time.1 rfl x]

theorem forall₂_source {α β : Type} {R : α → β → Prop} {l : List α} {l' : List β} (h : List.Forall₂ R l l') {b : β} (hb : b ∈ l') :
    ∃ a ∈ l, R a b := by
  induction h with
  | nil => cases hb
  | @cons a b' l l' hab _ ih =>
    rcases List.mem_cons.mp hb with rfl | hb
    · exact ⟨a, by simp, hab⟩
    · obtain ⟨a', ha, h⟩ := ih hb
      exact ⟨a', by simp [ha], h⟩

/-! ### The stored segments -/

/-- A segment of several movie fragments: the decode times have all the same width and do not decrease, no positions stand
before the decode times, the analyser could read it, and there is room for what the server adds. -/
structure StoredChain (fs : List LiveFragment) (wide : Bool) : Prop where
  nonempty : fs ≠ []
  ok : ∀ f ∈ fs, f.Ok
  room : ∀ f ∈ fs, f.one.Room
  width : ∀ f ∈ fs, f.wide = wide
  times : fs.Pairwise fun f g => f.time ≤ g.time
  plain : ∀ f ∈ fs, ∀ x ∈ f.a ++ f.p1 ++ f.p2, ∃ ty p, x = .other ty p
  read : ∃ z, readSegment none (chainFile fs) = .ok z

theorem steady_of (ticks : Int) (wide : Bool) : ∀ (fs : List LiveFragment) (d : Int), (∀ f ∈ fs, f.wide = wide) →
    (fs.Pairwise fun f g => f.time ≤ g.time) → (∀ f ∈ fs, ∀ x ∈ f.a ++ f.p1 ++ f.p2, ∃ ty p, x = .other ty p) →
    (d = 0 ∨ ∀ f ∈ fs, d = growth wide ((f.time : Int) + ticks)) → Steady ticks d fs := by
  intro fs
  induction fs with
  | nil => intros; trivial
  | cons f fs ih =>
    intro d hw ht hp hd
    rw [List.pairwise_cons] at ht
    refine ⟨?_, ?_, ih _ (fun g hg => hw g (by simp [hg])) ht.2 (fun g hg => hp g (by simp [hg])) ?_⟩
    · intro x hx
      have hx : x ∈ f.a ++ (f.p1 ++ .other tyTfhd f.head.payload :: f.p2) := hx
      by_cases he : x = .other tyTfhd f.head.payload
      · subst he; rfl
      · obtain ⟨ty, p, rfl⟩ := hp f (by simp) x (by
          simp only [List.mem_append, List.mem_cons, he, false_or] at hx ⊢
          tauto)
        rfl
    · rw [hw f (by simp)]
      rcases hd with h | h
      · exact Or.inl h
      · exact Or.inr (h f (by simp))
    · rw [hw f (by simp)]
      by_cases hg : wide = false ∧ 2 ^ 32 ≤ (f.time : Int) + ticks
      · refine Or.inr fun g hg' => ?_
        have := ht.1 g hg'
        unfold growth
        rw [if_pos hg, if_pos ⟨hg.1, by omega⟩]
      · exact Or.inl (by unfold growth; rw [if_neg hg])

/-- A representation with all files of the loop, each of several movie fragments. -/
structure StoredChains (fs : Files) (v : VodCfg) (id : Text) (rp : Rep) (seg : Nat → List LiveFragment) (wide : Bool) : Prop where
  plain : PlainId id
  rep : v.repInfo id = .ok rp
  kind : rp.contentType ≠ "subtitles".toList
  scale : 0 ≤ rp.timescale
  dur : 0 < v.segDurS
  files : ∀ k : Nat, v.firstSeg ≤ k → k < v.firstSeg + v.nrSegs →
    fs.file (storedFile id k) = some (chainFile (seg k)) ∧ StoredChain (seg k) wide
  first : 0 ≤ v.firstSeg

/-- **C86.** A representation each segment of which is made of several movie fragments: when the server decides to send a
media segment of it, the reply has as many fragments, all of them with the requested number, and a player that reads all
fragments of the reply gets exactly the stored samples, moved by the loop offset.  Missing: decode times of different widths
or that go back, positions before the decode time, inserted indexes, increasing sequence numbers, and that the analyser
accepts such content, for which it is false (violations below). -/
theorem C86_media_partial {pf : Text → Option Rat} {fs : Files} {vodOf : Text → Py VodCfg} {name id : Text} {v : VodCfg}
    {rp : Rep} {seg : Nat → List LiveFragment} {wide : Bool}
    (hv : vodOf name = .ok v) (hS : StoredChains fs v id rp seg wide) (hslot : partSlot name = none)
    {now : Int} {t : Rat} {c : Cfg} {w : Served}
    (hurl : ∃ opts file, (∀ p ∈ opts, (partSlot p).isSome) ∧ processUrl pf vodOf (opts ++ [name, id, file]) now = .ok c)
    (hw : getMedia pf c t = .ok (.media w)) (hchunk : c.chunkDur = none) (hindex : c.insertSidx = false)
    (n0 : 0 ≤ w.segNr) (n1 : w.segNr < 2 ^ 32) (o0 : 0 ≤ w.offset)
    (t1 : ∀ f ∈ seg w.vodNr.toNat, f.time + w.offset * rp.timescale < 2 ^ 64)
    (hscte : 0 < c.scte35 → w.segNr * c.segDur < 2 ^ 32)
    {stamp : Text} (hstamp : w.emsgLast = true → Ascii stamp ∧ stamp.length < 2 ^ 30) :
    ∃ gs : List FragSegment, mediaBody fs c w stamp = .ok (.whole (chainBytes gs)) ∧
      gs.length = (seg w.vodNr.toNat).length ∧ (∀ g ∈ gs, g.Ok ∧ (g.seq : Int) = w.segNr) ∧
      ∀ x, (∀ f ∈ seg w.vodNr.toNat, f.Local x) → chainSamples x gs =
        (chainSamples x ((seg w.vodNr.toNat).map LiveFragment.seg)).map (Sample.later (w.offset * rp.timescale)) := by
  obtain ⟨opts, file, ho, hu⟩ := hurl
  obtain ⟨v', reps, e1, e6, -, e2, -, e3, e7, e4, e5, e10⟩ := processUrl_files ho hslot hu
  rw [hv] at e1
  cases e1
  obtain ⟨r, rfl, q1, q2⟩ := single_rep hS.plain e6
  rw [hS.rep] at q2
  cases q2
  obtain ⟨g1, g2, g3⟩ := getMedia_range hw
  rw [e4] at g1 g2
  rw [e5] at g2
  have hfirst := hS.first
  obtain ⟨k, hk⟩ : ∃ k : Nat, w.vodNr = k := ⟨w.vodNr.toNat, by omega⟩
  rw [hk] at t1 ⊢
  rw [Int.toNat_natCast] at t1 ⊢
  obtain ⟨hfile, hT⟩ := hS.files k (by omega) (by omega)
  obtain ⟨z, hz⟩ := hT.read
  have hmul : 0 ≤ w.offset * rp.timescale := Int.mul_nonneg o0 hS.scale
  obtain ⟨y, hy⟩ := chain_sent (c := c) (w := w) (rp := rp) (dd := none) hz
    (fun f hf => ⟨hT.ok f hf, hT.room f hf, by omega, t1 f hf⟩) (by rw [e10]; exact hS.dur.le) hscte (fun he => (hstamp he).2)
    hindex n0 n1
  obtain ⟨gs, hgs, hout⟩ := chain_filtered hT.ok hT.nonempty (c := segmentFilter c rp w stamp none) rfl rfl (by
    intro m hm
    have hm : (if w.emsgLast then some stamp else none) = some m := hm
    split at hm
    · rename_i he; cases hm; exact (hstamp he).1
    · cases hm) hindex (steady_of (w.offset * rp.timescale) wide _ 0 hT.width hT.times hT.plain (Or.inl rfl)) hy
  have hgs : List.Forall₂ (SentAs w.segNr (w.offset * rp.timescale)) (seg k) gs := hgs
  have hread' : fs.read (segmentFile c.relPath w.vodNr c.ext) = .ok (chainFile (seg k)) := by
    have : segmentFile c.relPath w.vodNr c.ext = storedFile id k := by
      unfold segmentFile storedFile
      rw [e2, g3, hk, if_neg hS.plain.nonempty]
      rfl
    unfold Files.read
    rw [this, hfile]
  refine ⟨gs.map LiveFragment.seg, ?_, by rw [List.length_map]; exact hgs.length_eq.symm, ?_, ?_⟩
  · unfold mediaBody
    rw [e7, hchunk]
    dsimp only
    unfold filterSegment
    rw [hread']
    dsimp only
    rw [if_neg hS.kind, hy]
    dsimp only
    rw [hout]
    rfl
  · intro g hg
    obtain ⟨g', hg', rfl⟩ := List.mem_map.mp hg
    obtain ⟨f, -, hs⟩ := forall₂_source hgs hg'
    refine ⟨hs.ok, ?_⟩
    obtain ⟨front, rfl⟩ := hs.live
    exact Int.toNat_of_nonneg n0
  · intro x hl
    obtain ⟨hl', hs⟩ := sent_samples hgs hT.ok hl
    rw [chainSamples_local hl', chainSamples_local hl, hs]

theorem chainBytes_ne {gs : List FragSegment} (h : gs ≠ []) : chainBytes gs ≠ [] := by
  cases gs with
  | nil => exact absurd rfl h
  | cons g gs =>
    intro hc
    have := congrArg List.length hc
    unfold chainBytes at this
    rw [List.flatMap_cons, List.length_append] at this
    unfold FragSegment.bytes FragSegment.forest at this
    simp only [withBoxes_bytes, Forest.bytes, List.length_append, boxBytes_length, List.length_nil] at this
    omega

/-- **C86, over HTTP.** The server answers the request with 200 and this segment. -/
theorem C86_http_partial {u : Setup} {s : Site} {name id : Text} {v : VodCfg} {rp : Rep} {seg : Nat → List LiveFragment}
    {wide : Bool} (hv : s.vodOf name = .ok v) (hS : StoredChains (s.files name) v id rp seg wide) (hslot : partSlot name = none)
    {now : Rat} {c : Cfg} {w : Served} {first : Text} {opts : List Text} {file : Text} {r : Request}
    (hr : r.parts = [] :: first :: (opts ++ [name, id, file])) (ho : ∀ p ∈ opts, (partSlot p).isSome)
    (hext : (splitext file).2 = ".m4s".toList) (hrange : r.range = none)
    (hurl : processUrl s.pf s.vodOf (opts ++ [name, id, file]) (pyTrunc now) = .ok c)
    (hw : getMedia s.pf c now = .ok (.media w)) (hgate : gate u.maxLen r now = .pass)
    (hchunk : c.chunkDur = none) (hindex : c.insertSidx = false) (n0 : 0 ≤ w.segNr) (n1 : w.segNr < 2 ^ 32) (o0 : 0 ≤ w.offset)
    (t1 : ∀ f ∈ seg w.vodNr.toNat, f.time + w.offset * rp.timescale < 2 ^ 64)
    (hscte : 0 < c.scte35 → w.segNr * c.segDur < 2 ^ 32)
    (hstamp : w.emsgLast = true → (makeTimestamp (pyTrunc now : Int)).length < 2 ^ 30) (sid : Text) (dflt : Headers) :
    ∃ gs : List FragSegment, Delivers (serve u s sid dflt r now).1 (mimeType ".m4s".toList) (chainBytes gs) ∧
      gs.length = (seg w.vodNr.toNat).length ∧ (∀ g ∈ gs, g.Ok ∧ (g.seq : Int) = w.segNr) ∧
      ∀ x, (∀ f ∈ seg w.vodNr.toNat, f.Local x) → chainSamples x gs =
        (chainSamples x ((seg w.vodNr.toNat).map LiveFragment.seg)).map (Sample.later (w.offset * rp.timescale)) := by
  obtain ⟨gs, g1, g2, g3, g4⟩ := C86_media_partial hv hS hslot ⟨opts, file, ho, hurl⟩ hw hchunk hindex n0 n1 o0 t1 hscte
    (stamp := makeTimestamp (pyTrunc now : Int)) (fun he => ⟨makeTimestamp_ascii _, hstamp he⟩)
  obtain ⟨v', reps, e1, -, d1, -, d3, d2, -, d4, d5, -⟩ := processUrl_files ho hslot hurl
  rw [hext] at d2
  have hprov : provide s r now = .data (chainBytes gs) := by
    unfold provide
    rw [hr]
    simp only [List.drop_succ_cons, List.drop_zero, hurl]
    rw [if_pos d2]
    unfold provideMedia
    rw [hw]
    dsimp only
    rw [d1, g1]
  have hrext : r.ext = ".m4s".toList := by
    unfold Request.ext
    rw [hr]
    rw [show ([] :: first :: (opts ++ [name, id, file]) : List Text) =
      ([] :: first :: (opts ++ [name, id])) ++ [file] by simp, List.getLastD_concat, hext]
  have hserve := serve_pass (u := u) (s := s) (sid := sid) (dflt := dflt) hgate
  rw [hprov] at hserve
  refine ⟨gs, ?_, g2, g3, g4⟩
  rw [hserve, ← hrext]
  refine answer_data u.agent u.notFound hrange (chainBytes_ne fun hc => ?_)
  rw [hv] at e1
  cases e1
  obtain ⟨r1, r2, -⟩ := getMedia_range hw
  have hfirst := hS.first
  obtain ⟨-, hT⟩ := hS.files w.vodNr.toNat (by omega) (by omega)
  refine hT.nonempty (List.length_eq_zero_iff.mp ?_)
  rw [← g2, hc]
  rfl

/-! ### Cases -/

/-- A movie fragment of one second, timescale 90000, with two samples of two bytes. -/
def secondFrag (front : List (Bytes × Bytes)) (wide : Bool) (nr time : Nat) (offset : Int) (data : Bytes) : LiveFragment where
  front := front
  vf := [0, 0, 0, 0]
  seq := nr
  a := []
  p1 := []
  head := ⟨0, 2, 0, 24, 1, 0, 0, 45000, 2, 0, []⟩
  p2 := []
  wide := wide
  f2 := 0
  f1 := 0
  f0 := 0
  time := time
  q1 := []
  run := ⟨0, 0, 0, 1, offset, 0, [⟨0, 0, 0, 0⟩, ⟨0, 0, 0, 0⟩]⟩
  q2 := []
  b := []
  back := [(tyMdat, data)]

def msdhBox : Bytes × Bytes := (tyStyp, [109, 115, 100, 104, 0, 0, 0, 0])

/-- Segment `k` of a loop of three, two seconds long, of two movie fragments. -/
def halves (w1 w2 : Bool) (k : Nat) : List LiveFragment :=
  [secondFrag [msdhBox] w1 (2 * k - 1) ((k - 1) * 180000) (if w1 then 104 else 100) [k.toUInt8, 1, k.toUInt8, 2],
   secondFrag [] w2 (2 * k) ((k - 1) * 180000 + 90000) (if w2 then 104 else 100) [k.toUInt8, 3, k.toUInt8, 4]]

def chainFiles (seg : Nat → List LiveFragment) : Files := filesOf [("V1".toList, ("init.mp4".toList, []) ::
  (List.range 3).map fun k => (m4s (natText (k + 1)), chainFile (seg (k + 1))))]

def chainSite (seg : Nat → List LiveFragment) : Site := { tinySite with
  files := fun _ => chainFiles seg
  vodOf := fun n => if n = "tiny".toList then .ok ⟨1, 3, 2, 60, [("video".toList, 90000, ["V1".toList])]⟩ else .error .osError }

def chainAsk (opt file : String) : Request := tinyGet ["livesim", opt, "tiny", "V1", file]

theorem halves_mem {k : Nat} {f : LiveFragment} (hf : f ∈ halves false false k) :
    f = secondFrag [msdhBox] false (2 * k - 1) ((k - 1) * 180000) 100 [k.toUInt8, 1, k.toUInt8, 2] ∨
      f = secondFrag [] false (2 * k) ((k - 1) * 180000 + 90000) 100 [k.toUInt8, 3, k.toUInt8, 4] := by
  rcases List.mem_cons.mp hf with h | h
  · exact Or.inl h
  · exact Or.inr (List.mem_singleton.mp h)

theorem halves_ok {k : Nat} (hk : k = 1 ∨ k = 2 ∨ k = 3) : StoredChain (halves false false k) false := by
  have hrow : ∀ x ∈ (⟨0, 0, 0, 1, 100, 0, [⟨0, 0, 0, 0⟩, ⟨0, 0, 0, 0⟩]⟩ : SampleRun).rows,
      x.dur < 2 ^ 32 ∧ x.size < 2 ^ 32 ∧ x.flags < 2 ^ 32 ∧ -2 ^ 31 ≤ x.off ∧ x.off < 2 ^ 31 := by decide +kernel
  have hok : ∀ f ∈ halves false false k, f.Ok := by
    intro f hf
    have hf := halves_mem hf
    rcases hf with rfl | rfl
    all_goals refine ⟨rfl, ?_, ⟨?_, ?_, ?_, ?_, ?_, ?_⟩, ?_, ⟨?_, ?_, ?_, hrow⟩, ?_, ?_, ?_, ?_, ?_,
      fun x hx => absurd hx List.not_mem_nil, ?_⟩
    case inl.refine_16 =>
      intro x hx
      have hx : x = msdhBox := List.mem_singleton.mp hx
      subst hx
      exact ⟨plain_top (by simp [msdhBox]), by decide, by decide, fun _ => by decide⟩
    case inr.refine_16 => exact fun x hx => absurd hx List.not_mem_nil
    case inl.refine_17 | inr.refine_17 =>
      intro x hx
      have hx := List.mem_singleton.mp hx
      subst hx
      exact ⟨plain_known (by simp), (by decide : tyMdat ∉ [tyStyp, tySidx]), (by decide : 8 + 4 < 2 ^ 32)⟩
    all_goals rcases hk with rfl | rfl | rfl <;> decide +kernel
  refine ⟨by simp [halves], hok, ?_, ?_, ?_, ?_, ?_⟩
  · intro f hf
    have hf := halves_mem hf
    refine ⟨?_, ?_, ?_⟩
    · intro x hx
      have hx : x ∈ [FragBox.other tyTfhd f.head.payload, f.runBox] := by rcases hf with rfl | rfl <;> exact hx
      simp only [List.mem_cons, List.not_mem_nil, or_false] at hx
      rcases hx with rfl | rfl
      · trivial
      · rcases hf with rfl | rfl <;> exact (by decide : (100 : Int) + 4 < 2 ^ 31)
    · have := (hok f (by rcases hf with rfl | rfl <;> simp [halves])).moof_lt
      omega
    · intro x hx
      rcases hf with rfl | rfl
      · have hx : x = msdhBox := List.mem_singleton.mp hx
        subst hx
        intro _; decide
      · exact absurd hx List.not_mem_nil
  · rcases hk with rfl | rfl | rfl <;> decide +kernel
  · rcases hk with rfl | rfl | rfl <;> decide +kernel
  · intro f hf x hx
    have hf := halves_mem hf
    rcases hf with rfl | rfl <;> cases hx
  · have h : (readSegment none (chainFile (halves false false k))).isOk = true := by rcases hk with rfl | rfl | rfl <;> decide +kernel
    cases hr : readSegment none (chainFile (halves false false k)) with
    | error e => rw [hr] at h; cases h
    | ok z => exact ⟨z, rfl⟩

theorem halves_stored : StoredChains (chainFiles (halves false false)) ⟨1, 3, 2, 60, [("video".toList, 90000, ["V1".toList])]⟩
    "V1".toList ⟨"V1".toList, "video".toList, 90000⟩ (halves false false) false where
  plain := by decide +kernel
  rep := by decide +kernel
  kind := by decide +kernel
  scale := by decide
  dur := by decide
  files := by
    intro k h1 h2
    have h1 : (1 : Int) ≤ k := h1
    have h2 : (k : Int) < 1 + 3 := h2
    have : k = 1 ∨ k = 2 ∨ k = 3 := by omega
    refine ⟨?_, halves_ok this⟩
    rcases this with rfl | rfl | rfl <;> decide +kernel
  first := by decide

theorem halves_local : ∀ f ∈ halves false false 3, f.Local ⟨0, 0, 0⟩ := by
  intro f hf
  have hf := halves_mem hf
  rcases hf with rfl | rfl <;> refine ⟨?_, ?_, ?_, ?_⟩ <;> decide +kernel

/-- The other hypotheses of `C86_media_partial` and `C86_http_partial` hold for segment 29990, in which the decode times
no longer fit 32 bits. -/
example : ((decided (chainFiles (halves false false)) (chainSite (halves false false)).vodOf
      ["tsbd_40".toList, "tiny".toList, "V1".toList, "29990.m4s".toList] 60000).map fun x =>
        ([x.1.scte35, x.2.segNr, x.2.vodNr, x.2.offset], (x.2.emsgLast, x.1.chunkDur, x.1.insertSidx))) =
        some ([0, 29990, 3, 59976], (false, none, false)) ∧
    partSlot "tiny".toList = none ∧ (partSlot "tsbd_40".toList).isSome = true ∧ (splitext "29990.m4s".toList).2 = ".m4s".toList ∧
    gate 0 (chainAsk "tsbd_40" "29990.m4s") 60000 = .pass := by
  decide +kernel

/-- The reply to this request; the samples are those of the stored segment, 59976 seconds later. -/
example :
    let reply := [secondFrag [msdhBox] true 29990 5398200000 104 [3, 1, 3, 2], secondFrag [] true 29990 5398290000 104 [3, 3, 3, 4]]
    got (chainSite (halves false false)) (chainAsk "tsbd_40" "29990.m4s") 60000 =
      some (200, some "video/iso.segment".toList, chainFile reply) ∧
    (chainSamples ⟨0, 0, 0⟩ ((halves false false 3).map LiveFragment.seg)).map (fun s => (s.time, s.data)) =
      [(360000, [3, 1]), (405000, [3, 2]), (450000, [3, 3]), (495000, [3, 4])] ∧
    (chainSamples ⟨0, 0, 0⟩ (reply.map LiveFragment.seg)).map (fun s => (s.time, s.data)) =
      [(5398200000, [3, 1]), (5398245000, [3, 2]), (5398290000, [3, 3]), (5398335000, [3, 4])] := by
  decide +kernel

/-- **C86 fails for decode times of different widths.** The first fragment has a decode time of 32 bits and grows by four
bytes.  The second one has 64 bits and does not grow, but the filter still knows of the four bytes and moves its data offset:
the player looks for the samples four bytes too late, where the file ends. -/
theorem C86_width_violation :
    let reply := [secondFrag [msdhBox] true 29990 5398200000 104 [3, 1, 3, 2], secondFrag [] true 29990 5398290000 108 [3, 3, 3, 4]]
    got (chainSite (halves false true)) (chainAsk "tsbd_40" "29990.m4s") 60000 =
      some (200, some "video/iso.segment".toList, chainFile reply) ∧
    (chainSamples ⟨0, 0, 0⟩ ((halves false true 3).map LiveFragment.seg)).map (·.data) = [[3, 1], [3, 2], [3, 3], [3, 4]] ∧
    (chainSamples ⟨0, 0, 0⟩ (reply.map LiveFragment.seg)).map (·.data) = [[3, 1], [3, 2], [], []] := by
  decide +kernel

/-- **C86 fails for sequence numbers.** In a file the numbers of the movie fragments increase, as they do in the stored
segment (5 and 6).  In the reply both fragments have the number of the segment. -/
theorem C86_number_violation :
    let reply := [secondFrag [msdhBox] true 29990 5398200000 104 [3, 1, 3, 2], secondFrag [] true 29990 5398290000 104 [3, 3, 3, 4]]
    got (chainSite (halves false false)) (chainAsk "tsbd_40" "29990.m4s") 60000 =
      some (200, some "video/iso.segment".toList, chainFile reply) ∧
    (halves false false 3).map (·.seq) = [5, 6] ∧ reply.map (·.seq) = [29990, 29990] := by
  decide +kernel

/-- **C86 fails for inserted indexes.** With `sidx_1` the index stands before the last fragment and describes that fragment:
its decode time and its duration of one second; but the size is that of both fragments, 216 bytes, of which only 108
follow. -/
theorem C86_index_violation :
    let sidx : Bytes := [1, 0, 0, 0] ++ [0, 0, 0, 1] ++ beBytes 4 90000 ++ beBytes 8 5398290000 ++ beBytes 8 0 ++ [0, 0, 0, 1] ++
      beBytes 4 216 ++ beBytes 4 90000 ++ [0x90, 0, 0, 0]
    let last := secondFrag [] true 29990 5398290000 104 [3, 3, 3, 4]
    got (chainSite (halves false false)) (chainAsk "sidx_1" "29990.m4s") 60000 =
      some (200, some "video/iso.segment".toList, chainFile [secondFrag [msdhBox] true 29990 5398200000 104 [3, 1, 3, 2],
        { last with front := [(tySidx, sidx)] }]) ∧ last.seg.bytes.length = 108 := by
  decide +kernel

/-- **C86 fails in the analyser.** It takes the time and the duration of the last fragment for those of the segment and
refuses the content, though the segments are two seconds long and follow each other without gaps. -/
theorem C86_analyser_violation :
    (readSegments (chainFiles (halves false false)) "V1/%d.m4s".toList none 5 1).toOption =
      some [⟨90000, 90000⟩, ⟨270000, 90000⟩, ⟨450000, 90000⟩] ∧
    anaRep false 1 2 90000 [⟨90000, 90000⟩, ⟨270000, 90000⟩, ⟨450000, 90000⟩] = .error .analyzerError ∧
    anaRep false 1 2 90000 [⟨0, 180000⟩, ⟨180000, 180000⟩, ⟨360000, 180000⟩] ≠ .error .analyzerError ∧
    ([1, 2, 3].flatMap fun k => (chainSamples ⟨0, 0, 0⟩ ((halves false false k).map LiveFragment.seg)).map
      (fun s => (s.time, s.duration))) = (List.range 12).map fun i => (i * 45000, 45000) := by
  decide +kernel

end Verif
