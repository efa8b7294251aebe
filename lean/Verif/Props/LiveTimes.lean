import Verif.Props.AnalyzerFiles
import Verif.Props.MediaIndex
import Mathlib.Tactic.FieldSimp
import Mathlib.Tactic.Linarith
import Mathlib.Data.Rat.Cast.Order
import Mathlib.Algebra.Order.Field.Basic
/-
C78: the decode times of a live session with analysed content.
-/
namespace Verif
open Spec

/-! ### A stored segment -/

/-- A segment with one fragment whose track fragment has one header and one run. -/
structure TimedFragment where
  g : OneFragment
  p1 : List FragBox
  p2 : List FragBox
  q1 : List FragBox
  q2 : List FragBox
  x : FragBox
  y : FragBox
  hdr : TrackHeader
  run : Run

structure TimedFragment.Ok (f : TimedFragment) : Prop where
  frag : f.g.Ok
  hdr : f.hdr.Ok
  run : f.run.Ok
  x : f.x.parts = (tyTfhd, f.hdr.payload)
  y : f.y.parts = (tyTrun, f.run.payload)
  pre : f.g.pre = f.p1 ++ f.x :: f.p2
  post : f.g.post = f.q1 ++ f.y :: f.q2
  others : Untimed (f.g.a ++ f.p1 ++ f.p2 ++ f.q1 ++ f.q2 ++ f.g.b)

/-- The bytes of the file. -/
def TimedFragment.bytes (f : TimedFragment) : Bytes := f.g.bytes

/-- The decode time of the first sample. -/
def TimedFragment.time (f : TimedFragment) : Nat := f.g.t

/-- The duration of all samples, where the initialization segment gives `dflt` for those without. -/
def TimedFragment.duration (f : TimedFragment) (dflt : Option Nat) : Nat := fragDuration f.hdr f.run dflt

/-- A segment with one fragment through the filter, whatever its configuration. -/
theorem segment_run (c : MfCfg) (front back : List (Bytes × Bytes)) (mfhd tfdt : Bytes)
    (hfront : ∀ x ∈ front, x.1 ∉ [tyMoof, tyTraf]) (hback : ∀ x ∈ back, x.1 ∉ [tyMoof, tyTraf])
    (a pre post b : List FragBox)
    (hok : (segmentOf front mfhd a pre tfdt post b back).Ok [tyMoof, tyTraf]) (out : Bytes × List (Nat × Bytes))
    (s' : MfState)
    (h : filterFile (mediaRules c) (segmentOf front mfhd a pre tfdt post b back).bytes c.init = .ok (out, s')) :
    ∃ moof, (fragment mfhd a pre tfdt post b).rewrite (mediaLeaf c) c.init = .ok (moof, s') := by
  unfold filterFile at h
  rw [filterTop_forest (mediaRules c) _ _ c.init hok (by omega)] at h
  cases hr : (segmentOf front mfhd a pre tfdt post b back).rewriteTop (mediaRules c).leaf (mediaRules c).top c.init with
  | error e => rw [hr] at h; cases h
  | ok x =>
    obtain ⟨l, s2⟩ := x
    rw [hr] at h
    simp only [Except.ok.injEq, Prod.mk.injEq] at h
    obtain ⟨h1, rfl⟩ := h
    obtain ⟨l1, l2, e1, rfl, e3⟩ := rewriteTop_withBoxes c front _ c.init s2 l hfront hr
    rw [Forest.rewriteTop, if_pos (by simp [mediaRules])] at e1
    cases hm : (fragment mfhd a pre tfdt post b).rewrite (mediaLeaf c) c.init with
    | error e =>
      rw [fragment] at hm
      rw [hm] at e1; cases e1
    | ok y =>
      obtain ⟨moof, s3⟩ := y
      rw [fragment] at hm
      rw [hm] at e1
      simp only at e1
      cases hb2 : (Forest.withBoxes back .nil).rewriteTop (mediaLeaf c) (mediaRules c).top s3 with
      | error e => rw [hb2] at e1; cases e1
      | ok z =>
        obtain ⟨l3, s4⟩ := z
        rw [hb2] at e1
        simp only [Except.ok.injEq, Prod.mk.injEq] at e1
        obtain ⟨rfl, rfl⟩ := e1
        obtain ⟨l5, l6, q1, rfl, q3⟩ := rewriteTop_withBoxes c back .nil s3 s4 l3 hback hb2
        simp only [Forest.rewriteTop, Except.ok.injEq, Prod.mk.injEq] at q1
        obtain ⟨rfl, rfl⟩ := q1
        exact ⟨moof, rfl⟩

/-- Without a timescale the decode time that the filter notes is the one in the file. -/
theorem fragment_time (c : MfCfg) (hts : c.timescale = none) (mfhd : Bytes)
    (a pre post b : List FragBox) (ha : ∀ x ∈ a, x.Ok) (hpre : ∀ x ∈ pre, x.Ok)
    (hpost : ∀ x ∈ post, x.Ok) (hb : ∀ x ∈ b, x.Ok)
    (wide : Bool) (f2 f1 f0 : UInt8) (t : Nat) (ht : t < (if wide then 2 ^ 64 else 2 ^ 32))
    (s s' : MfState) (hz : s.ttmlSize = none) (h0 : s.sizeChange = 0) (out : Bytes)
    (h : (fragment mfhd a pre (tfdtPayload wide f2 f1 f0 t) post b).rewrite (mediaLeaf c) s = .ok (out, s')) :
    s'.tfdt = some (t : Int) := by
  obtain ⟨k, s1, o2, hk, hr, hlen, rfl⟩ := rewrite_node_cons h
  simp only [Forest.rewrite, Except.ok.injEq, Prod.mk.injEq] at hr
  obtain ⟨rfl, rfl⟩ := hr
  obtain ⟨m1, sm, k1, hm, hk1, rfl⟩ := rewrite_leaf_cons hk
  rw [mediaLeaf_mfhd] at hm
  have hsm : sm = s := by
    split at hm
    · cases hm
    · cases hm; rfl
  subst hsm
  obtain ⟨sa, ka, sama, hka, rfl, -⟩ := rewrite_withLeaves c a _ sm s1 k1 ha hz (by omega) hk1
  obtain ⟨kt, st, kb, hkt, hkb, hlt, rfl⟩ := rewrite_node_cons hka
  obtain ⟨sp, kp, samp, hkp, rfl, -⟩ := rewrite_withLeaves c pre _ sa st kt hpre
    (by rw [sama.2.2]; exact hz) (by rw [sama.1]; omega) hkt
  obtain ⟨od, sd, kd, hd, hkd, rfl⟩ := rewrite_leaf_cons hkp
  have e : processTfdt c = processTfdt { c with timescale := some 0 } := by
    unfold processTfdt
    rw [hts]
    simp
  rw [mediaLeaf_tfdt, e, processTfdt_ok _ wide f2 f1 f0 t ht sp 0 rfl] at hd
  have sap := sama.trans samp
  simp only [Int.mul_zero, Int.add_zero] at hd
  split at hd
  · cases hd
  · have hgrow : sd.tfdt = some (t : Int) ∧ 0 ≤ sd.sizeChange ∧ sd.ttmlSize = none := by
      have hs0 : sp.sizeChange = 0 := by rw [sap.1, h0]
      have hz0 : sp.ttmlSize = none := by rw [sap.2.2, hz]
      split at hd
      · cases hd
        refine ⟨rfl, ?_, hz0⟩
        dsimp only
        split <;> omega
      · cases hd
        exact ⟨rfl, by dsimp only; omega, hz0⟩
    obtain ⟨g1, g2, g3⟩ := hgrow
    obtain ⟨sq, kq, samq, hkq, rfl, -⟩ := rewrite_withLeaves c post _ sd st kd hpost g3 g2 hkd
    simp only [Forest.rewrite, Except.ok.injEq, Prod.mk.injEq] at hkq
    obtain ⟨rfl, rfl⟩ := hkq
    obtain ⟨sr, kr, samr, hkr, rfl, -⟩ := rewrite_withLeaves c b _ sq s1 kb hb
      (by rw [samq.2.2]; exact g3) (by rw [samq.1]; exact g2) hkb
    simp only [Forest.rewrite, Except.ok.injEq, Prod.mk.injEq] at hkr
    obtain ⟨rfl, rfl⟩ := hkr
    rw [(samq.trans samr).2.1, g1]

/-- The analyser reads time and duration of such a segment. -/
theorem readSegment_timed {dd : Option Nat} {f : TimedFragment} (hf : f.Ok) {z : AnaSeg}
    (h : readSegment dd f.bytes = .ok z) : z.tfdt = f.time ∧ z.dur = f.duration dd := by
  have hbytes : f.bytes = f.g.forest.bytes := by
    rw [TimedFragment.bytes, OneFragment.bytes, OneFragment.forest, segmentOf_bytes, OneFragment.moof]
  unfold readSegment filterMedia at h
  rw [hbytes] at h
  cases hr : filterFile (mediaRules (analyzerFilter dd)) f.g.forest.bytes (analyzerFilter dd).init with
  | error e => rw [hr] at h; cases h
  | ok q =>
    obtain ⟨⟨out, boxes⟩, st⟩ := q
    rw [hr] at h
    have hfin : mediaFinalize (analyzerFilter dd) out boxes st = .ok out := rfl
    simp only [hfin] at h
    obtain ⟨moof, hm⟩ := segment_run _ f.g.front f.g.back _ _
      (fun x hx => by
        have := hf.frag.front x hx
        simp only [List.mem_cons, not_or] at this ⊢
        exact ⟨this.1, this.2.1, by simp⟩)
      (fun x hx => by
        have := hf.frag.back x hx
        simp only [List.mem_cons, not_or] at this ⊢
        exact ⟨this.1, this.2.1, by simp⟩) f.g.a f.g.pre f.g.post f.g.b hf.frag.sizes _ _ hr
    have ht := fragment_time _ rfl _ f.g.a f.g.pre f.g.post f.g.b hf.frag.a hf.frag.pre hf.frag.post hf.frag.b
      f.g.wide f.g.f2 f.g.f1 f.g.f0 f.g.t hf.frag.t _ _ rfl rfl _ hm
    rw [hf.pre, hf.post] at hm
    have un : ∀ l, (∀ b ∈ l, b ∈ f.g.a ++ f.p1 ++ f.p2 ++ f.q1 ++ f.q2 ++ f.g.b) → Untimed l :=
      fun l hl b hb => hf.others b (hl b hb)
    have hd := fragment_duration _ _ _ f.g.a f.p1 f.p2 f.q1 f.q2 f.g.b
      (un _ fun b hb => by simp [hb]) (un _ fun b hb => by simp [hb])
      (un _ fun b hb => by simp [hb]) (un _ fun b hb => by simp [hb])
      (un _ fun b hb => by simp [hb]) (un _ fun b hb => by simp [hb])
      f.hdr hf.hdr f.run hf.run f.x f.y hf.x hf.y _ _ _ hm
    rw [ht, hd] at h
    cases h
    exact ⟨rfl, rfl⟩

/-! ### The position in the loop -/

/-- What the server decides to send, for every kind of request. -/
theorem getMedia_loop {pf : Text → Option Rat} {c : Cfg} (hd : 0 < c.segDur) (hn : 0 < c.vodNr) {t : Rat} {w : Served}
    (h : getMedia pf c t = .ok (.media w)) :
    c.requestedNr pf = .ok w.segNr ∧ w.segTime = mediaTime c w.segNr ∧
      w.vodNr = w.segTime / c.segDur % c.vodNr + c.vodFirst ∧
      w.offset = w.segTime / (c.segDur * c.vodNr) * (c.segDur * c.vodNr) := by
  have hm : ∀ c' : Cfg, c' = c ∨ c' = { c with emsgLastSeg := true } → processMedia pf c' t = .ok (.media w) →
      c.requestedNr pf = .ok w.segNr ∧ w.segTime = mediaTime c w.segNr ∧
      w.vodNr = w.segTime / c.segDur % c.vodNr + c.vodFirst ∧
      w.offset = w.segTime / (c.segDur * c.vodNr) * (c.segDur * c.vodNr) := by
    intro c' hc hp
    unfold processMedia at hp
    simp only [Py.bind_ok] at hp
    obtain ⟨n, h1, hp⟩ := hp
    have e := processMediaNr_media (c := c') (by rcases hc with rfl | rfl <;> exact hd)
      (by rcases hc with rfl | rfl <;> exact hn) hp
    subst e
    rcases hc with rfl | rfl
    · exact ⟨h1, rfl, rfl, rfl⟩
    · exact ⟨h1, rfl, rfl, rfl⟩
  have hth : processThumb pf c t ≠ .ok (.media w) := by
    intro hp
    unfold processThumb at hp
    simp only [Py.bind_ok] at hp
    obtain ⟨n, -, hp⟩ := hp
    unfold processThumbNr at hp
    dsimp only at hp
    generalize (if c.startNr = -1 then 1 else c.startNr) = st at hp
    split at hp
    · cases hp
    · split at hp
      · cases hp
      · simp only [Py.bind_ok] at hp
        obtain ⟨o, -, hp⟩ := hp
        split at hp
        · cases hp
        · simp only [Py.bind_ok] at hp
          obtain ⟨q, -, hp⟩ := hp
          cases hp
  unfold getMedia at h
  split at h
  · cases h
  · dsimp only at h
    generalize (if c.ato = -1 then (c.ast : Rat) else c.ast + c.segDur - c.ato) = g at h
    split at h
    · cases h
    · split at h
      · cases h
      · split at h
        · simp only [Py.bind_ok] at h
          obtain ⟨act, -, h⟩ := h
          cases act with
          | down => cases h
          | emsg => exact hm _ (Or.inr rfl) h
          | plain => exact hm _ (Or.inl rfl) h
        · exact absurd h hth

/-- The end of the segment at media time `T`, in the loop and outside. -/
theorem loop_end {T D N first nr off : Int} (hD : 0 < D) (h1 : nr = T / D % N + first)
    (h2 : off = T / (D * N) * (D * N)) : off + (nr - first) * D = T / D * D := by
  subst h1 h2
  rw [← Int.ediv_ediv_of_nonneg (by omega)]
  have := Int.emod_add_mul_ediv (T / D) N
  generalize T / D / N = u at *
  generalize T / D % N = v at *
  rw [← this]
  ring

/-! ### What the server knows of a representation -/

theorem pairwise_get {α : Type} {R : α → α → Prop} {l : List α} (h : l.Pairwise R) {i j : Nat} {a b : α}
    (hi : l[i]? = some a) (hj : l[j]? = some b) (hlt : i < j) : R a b := by
  obtain ⟨hi', rfl⟩ := List.getElem?_eq_some_iff.mp hi
  obtain ⟨hj', rfl⟩ := List.getElem?_eq_some_iff.mp hj
  exact List.pairwise_iff_getElem.mp h i j hi' hj' hlt

/-- The type and timescale that the server uses are those of the adaptation set. -/
theorem known_rep {base : Text} {fs : Files} {mpd : Xml} {l : List SetSeen} {r : AnaResult} {f : Int}
    (hl : List.Forall₂ (fun a b => seeSet fs a = .ok b) ((adaptationSets mpd).map parseAs) l)
    (hu : UniqueIds mpd) {i : Nat} {a : Xml} (ha : (adaptationSets mpd)[i]? = some a)
    {y : SetSeen} (hy : l[i]? = some y) {x : Xml} (hx : x ∈ representations a) {id : Text}
    (hid : x.get "id".toList = some id) {rp : Rep}
    (hr : (readBack (describe base l r) f).toCfg.repInfo id = .ok rp) :
    rp.timescale = y.set.timescale ∧ (rp.contentType = "video".toList ∨ rp.contentType = "audio".toList) := by
  unfold VodCfg.repInfo at hr
  split at hr
  · cases hr
  · rename_i m hm
    cases hr
    have hmem := List.mem_of_find?_eq_some hm
    have hcon : id ∈ m.2.2 := by simpa using List.find?_some hm
    obtain ⟨e, he, rfl⟩ := List.mem_map.mp hmem
    obtain ⟨k, hk, he⟩ := List.mem_flatMap.mp he
    unfold entryList at he
    simp only [Option.mem_toList] at he
    obtain ⟨e', he', rfl⟩ := Option.map_eq_some_iff.mp he
    have h1 := List.mem_of_find?_eq_some he'
    obtain ⟨k', hk', h2⟩ := List.mem_filterMap.mp h1
    have h3 := List.mem_of_find?_eq_some h2
    unfold seenEntries at h3
    obtain ⟨z, hz, rfl⟩ := List.mem_map.mp h3
    have hz1 : z.1 ∈ l := (List.of_mem_zip hz).1
    obtain ⟨j, hj⟩ := List.mem_iff_getElem?.mp hz1
    obtain ⟨s, hs, hsee⟩ := forall2_get' hl hj
    obtain ⟨q, qs, -, hreps, -, -, hids, -, -⟩ := seeSet_ok hsee
    rw [List.getElem?_map] at hs
    obtain ⟨b, hb, rfl⟩ := Option.map_eq_some_iff.mp hs
    dsimp only at hcon
    rw [hids] at hcon
    obtain ⟨q', hq', rfl⟩ := List.mem_map.mp hcon
    obtain ⟨u, hu'⟩ := List.mem_iff_getElem?.mp hq'
    obtain ⟨rep, hrep, hseen⟩ := forall2_get' hreps hu'
    obtain ⟨-, -, -, -, -, g1, -⟩ := seeRep_ok hseen
    rw [parseAs_reps, List.getElem?_map] at hrep
    obtain ⟨x', hx', rfl⟩ := Option.map_eq_some_iff.mp hrep
    have hid' := repNode_id g1
    have hx'' : x' ∈ representations b := List.mem_iff_getElem?.mpr ⟨u, hx'⟩
    have hij : i = j := by
      rcases Nat.lt_trichotomy i j with h | h | h
      · exact absurd (hid.trans hid'.symm) (pairwise_get hu ha hb h x hx x' hx'')
      · exact h
      · exact absurd (hid'.trans hid.symm) (pairwise_get hu hb ha h x' hx'' x hx)
    subst hij
    rw [hj] at hy
    cases hy
    refine ⟨rfl, ?_⟩
    dsimp only
    have a1 : z.1.kind = k := by
      have := List.find?_some he'
      exact of_decide_eq_true this
    have a2 : z.1.kind = k' := by
      have := List.find?_some h2
      exact of_decide_eq_true this
    rw [← a1, a2]
    rcases List.mem_cons.mp hk' with h | h
    · exact Or.inl h
    · exact Or.inr (List.mem_singleton.mp h)

/-! ### The theorem -/

theorem readSegments_end {fs : Files} {path : Text} {dd : Option Nat} :
    ∀ {fuel nr : Nat} {l : List AnaSeg}, readSegments fs path dd fuel nr = .ok l →
      ∃ p, formatNr path (nr + l.length) = .ok p ∧ fs.file p = none := by
  intro fuel
  induction fuel with
  | zero =>
    intro nr l h
    unfold readSegments at h
    cases hf : formatNr path nr with
    | error e => rw [hf] at h; cases h
    | ok p =>
      rw [hf] at h
      dsimp only at h
      cases hp : fs.file p with
      | none => rw [hp] at h; cases h; exact ⟨p, hf, hp⟩
      | some data => rw [hp] at h; cases h
  | succ fuel ih =>
    intro nr l h
    unfold readSegments at h
    cases hf : formatNr path nr with
    | error e => rw [hf] at h; cases h
    | ok p =>
      rw [hf] at h
      dsimp only at h
      cases hp : fs.file p with
      | none => rw [hp] at h; cases h; exact ⟨p, hf, hp⟩
      | some data =>
        rw [hp] at h
        dsimp only at h
        cases hs : readSegment dd data with
        | error e => rw [hs] at h; cases h
        | ok s =>
          rw [hs] at h
          dsimp only at h
          cases hr : readSegments fs path dd fuel (nr + 1) with
          | error e => rw [hr] at h; cases h
          | ok l' =>
            rw [hr] at h
            cases h
            obtain ⟨p', a, b⟩ := ih hr
            exact ⟨p', by rw [List.length_cons, show nr + (l'.length + 1) = nr + 1 + l'.length by omega]; exact a, b⟩

/-- The stored segments of a loop: `seg k` is the content of the file with number `k`. -/
def StoredLoop (fs : Files) (id : Text) (first n : Int) (seg : Nat → TimedFragment) : Prop :=
  ∀ k : Nat, first ≤ k → k < first + n → fs.file (storedFile id k) = some (seg k).bytes ∧ (seg k).Ok

/-- A representation `id` of analysed content, described by the element `x` in the adaptation set `a` with the templates
`$RepresentationID$/$Number$.m4s` and `$RepresentationID$/ifile`, whose segments in the loop are files with one fragment
and one run each. -/
structure StoredRep (base : Text) (fs : Files) (mpd : Xml) (vodOf : Text → Py VodCfg) (name : Text) (a : Xml)
    (ifile : Text) (x : Xml) (id : Text) (seg : Nat → TimedFragment) : Prop where
  analysed : Analysed base fs mpd vodOf name
  unique : UniqueIds mpd
  set : a ∈ adaptationSets mpd
  media : NumberTemplate a
  init : InitTemplate a ifile
  ifile : '$' ∉ ifile
  rep : x ∈ representations a
  named : x.get "id".toList = some id
  slot : partSlot name = none
  loop : ∀ v, vodOf name = .ok v → StoredLoop fs id v.firstSeg v.nrSegs seg

/-- A request for a file of the representation, with some options, evaluated at `now` and answered at `t` with the whole
segment `b`: the configuration is `c` and the decision `w`. -/
structure WholeReply (pf : Text → Option Rat) (fs : Files) (vodOf : Text → Py VodCfg) (name id : Text) (now : Int) (t : Rat)
    (c : Cfg) (w : Served) (b : Bytes) : Prop where
  url : ∃ opts file, (∀ p ∈ opts, (partSlot p).isSome) ∧ processUrl pf vodOf (opts ++ [name, id, file]) now = .ok c
  media : getMedia pf c t = .ok (.media w)
  body : ∃ stamp, mediaBody fs c w stamp = .ok (.whole b)

/-- What the server decides for a segment of such a representation, when it is one of those that the request names: which
file, where it is in the loops, and how its part of the reply is made from it. -/
theorem rep_decision {pf : Text → Option Rat} {base : Text} {fs : Files} {mpd : Xml} {vodOf : Text → Py VodCfg}
    {name : Text} {a : Xml} {ifile : Text} {x : Xml} {id : Text} {seg : Nat → TimedFragment}
    (hS : StoredRep base fs mpd vodOf name a ifile x id seg) {now : Int} {t : Rat} {c : Cfg} {w : Served}
    {names : Text} (hurl : ∃ opts file, (∀ p ∈ opts, (partSlot p).isSome) ∧
      processUrl pf vodOf (opts ++ [name, names, file]) now = .ok c)
    (hw : getMedia pf c t = .ok (.media w)) {rp : Rep} (hrp : ∀ v, vodOf name = .ok v → v.repInfo id = .ok rp) :
    ∃ (init : Bytes) (info : InitInfo) (k : Nat) (z : AnaSeg),
      fs.file (id ++ '/' :: ifile) = some init ∧ initInfo init = .ok info ∧ w.vodNr = k ∧ c.requestedNr pf = .ok w.segNr ∧
      w.segTime = mediaTime c w.segNr ∧ w.offset % (c.segDur * c.vodNr) = 0 ∧
      10 * |((seg c.vodFirst.toNat).time + (w.segTime / c.segDur + 1) * c.segDur * info.timescale) -
        (((seg k).time + w.offset * info.timescale) + (seg k).duration info.defDur)| < info.timescale ∧
      (∃ v, vodOf name = .ok v ∧ c.vodFirst = v.firstSeg ∧ c.vodNr = v.nrSegs ∧ c.segDur = v.segDurS) ∧
      0 ≤ c.vodFirst ∧ 0 < c.segDur ∧ 0 < c.vodNr ∧ w.vodNr = w.segTime / c.segDur % c.vodNr + c.vodFirst ∧
      w.offset = w.segTime / (c.segDur * c.vodNr) * (c.segDur * c.vodNr) ∧
      rp.timescale = info.timescale ∧ (seg k).Ok ∧ readSegment info.defDur (seg k).bytes = .ok z ∧
      ∀ stamp dd, filterSegment fs c rp id w stamp dd = filterMedia (segmentFilter c rp w stamp dd) (seg k).bytes := by
  obtain ⟨h, huniq, ha, ht, hi, hif, hx, hid, hn, hseg0⟩ := hS
  obtain ⟨opts, file, ho, hu⟩ := hurl
  obtain ⟨l, r, v, hl, -, hr, hv, rfl, hdur⟩ := h.known
  obtain ⟨v', reps, e1, e6, -, e2, -, e3, e7, e4, e5, e10⟩ := processUrl_files ho hn hu
  rw [hv] at e1
  cases e1
  have e4' : c.vodFirst = r.first := e4
  have e5' : c.vodNr = r.nrInLoop := e5
  have e10' : c.segDur = r.segDur := e10
  have hseg : StoredLoop fs id c.vodFirst c.vodNr seg := by
    rw [e4, e5]
    exact hseg0 _ hv
  have hplain := h.ids a ha x hx id hid
  replace hrp := hrp _ hv
  -- the adaptation set
  obtain ⟨i, hi'⟩ := List.mem_iff_getElem?.mp ha
  obtain ⟨y, hy, hsee⟩ := forall2_get hl (i := i) (a := parseAs a) (by rw [List.getElem?_map, hi']; rfl)
  obtain ⟨kts, kkind⟩ := known_rep hl huniq hi' hy hx hid hrp
  obtain ⟨q, qs, -, hreps, hscale, hset, -, -, -⟩ := seeSet_ok hsee
  have hne : ∀ b ∈ l.map (·.set), b.reps ≠ [] := by
    intro b hb
    obtain ⟨y, hy, rfl⟩ := List.mem_map.mp hb
    obtain ⟨j, hj⟩ := List.mem_iff_getElem?.mp hy
    obtain ⟨s, -, hs⟩ := forall2_get' hl hj
    obtain ⟨q', qs', -, -, -, e, -, -, -⟩ := seeSet_ok hs
    rw [e]
    simp
  have hyset : y.set ∈ l.map (·.set) := List.mem_map.mpr ⟨y, List.mem_iff_getElem?.mpr ⟨i, hy⟩, rfl⟩
  -- the representation
  obtain ⟨j, hj⟩ := List.mem_iff_getElem?.mp hx
  obtain ⟨b, hbj, hsr⟩ := forall2_get hreps (i := j) (by rw [parseAs_reps, List.getElem?_map, hj]; rfl)
  have hbm : b ∈ q :: qs := List.mem_iff_getElem?.mpr ⟨j, hbj⟩
  obtain ⟨ip, init, info, path, fuel, f1, f2, f3, f4, f5, f6, f7, f8⟩ := seeRep_ok hsr
  have hidb : b.id = id := by
    have := repNode_id f1
    rw [hid] at this
    cases this
    rfl
  rw [hidb] at f1
  have hinit := initPath_file (fun m hm => parseAs_init hi hm) f1 hplain.dollar hif f2
  subst hinit
  have hp := mediaPath_number (fun m hm => parseAs_media ht hm) f1 hplain.dollar f5
  have hscaleb : (info.timescale : Int) = y.set.timescale := by
    rw [← hscale b hbm, f7]
    omega
  have hrts : rp.timescale = info.timescale := by rw [hscaleb, kts]
  -- the loop
  have hpos : 0 < r.nrInLoop := by
    unfold analyze at hr
    split at hr
    · cases hr
    · split at hr
      · cases hr; simp only; omega
      · cases hr
  have hD : 0 < c.segDur := by omega
  have hN : 0 < c.vodNr := by omega
  obtain ⟨k1, k2, k3, k4⟩ := getMedia_loop hD hN hw
  have hm0 := Int.emod_nonneg (w.segTime / c.segDur) (show c.vodNr ≠ 0 by omega)
  have hm1 := Int.emod_lt_of_pos (w.segTime / c.segDur) hN
  have hkey := loop_end hD k3 k4
  obtain ⟨u, hu'⟩ : ∃ u : Nat, w.vodNr = ((r.first + u : Nat) : Int) := ⟨(w.vodNr - r.first).toNat, by push_cast; omega⟩
  have hun : (u : Int) < r.nrInLoop := by omega
  -- the segments that were read
  have hbf : b.first = r.first := by
    obtain ⟨-, kk⟩ := analyze_file _ r hr hne
    obtain ⟨-, k2, -⟩ := kk i y.set (by rw [List.getElem?_map, hy]; rfl)
    refine (k2 b.first b.segs ?_).1
    rw [hset]
    exact List.mem_map.mpr ⟨b, hbm, rfl⟩
  have hlen : r.nrInLoop ≤ b.segs.length := by
    obtain ⟨p, d1, d2⟩ := readSegments_end f8
    rw [hp, formatNr_number hplain.percent, hbf] at d1
    cases d1
    by_contra hlt
    have := (hseg (r.first + b.segs.length) (by omega) (by push_cast; omega)).1
    rw [d2] at this
    cases this
  have hread : ∀ j z, b.segs[j]? = some z → j < r.nrInLoop →
      z.tfdt = (seg (r.first + j)).time ∧ z.dur = (seg (r.first + j)).duration info.defDur ∧
      readSegment info.defDur (seg (r.first + j)).bytes = .ok z := by
    intro j z hz hjn
    obtain ⟨p, data, d1, d2, d3⟩ := readSegments_ok f8 j z hz
    rw [hp, formatNr_number hplain.percent, hbf] at d1
    cases d1
    obtain ⟨s1, s2⟩ := hseg (r.first + j) (by omega) (by push_cast; omega)
    rw [s1] at d2
    cases d2
    exact ⟨(readSegment_timed s2 d3).1, (readSegment_timed s2 d3).2, d3⟩
  obtain ⟨s0, segs, hsegs⟩ : ∃ s0 segs, b.segs = s0 :: segs := by
    cases hb : b.segs with
    | nil => rw [hb] at hlen; simp at hlen; omega
    | cons s0 segs => exact ⟨s0, segs, rfl⟩
  have hul : u < b.segs.length := by omega
  obtain ⟨-, -, drift⟩ := C54_drift _ r hr hne y.set hyset b.first s0 segs (by
    rw [hset, ← hsegs]
    exact List.mem_map.mpr ⟨b, hbm, rfl⟩)
  have hdrift := drift u b.segs[u] (by rw [← hsegs, List.getElem?_eq_getElem hul])
  have t0 := (hread 0 s0 (by rw [hsegs]; rfl) hpos).1
  obtain ⟨tu, du, ru⟩ := hread u b.segs[u] (List.getElem?_eq_getElem hul) (by omega)
  rw [t0, tu, du, Nat.add_zero] at hdrift
  -- the reply
  obtain ⟨s1, s2⟩ := hseg (r.first + u) (by push_cast; omega) (by push_cast; omega)
  have hext : c.ext = ".m4s".toList := (getMedia_range hw).2.2
  have hfile : segmentFile id w.vodNr c.ext = storedFile id (r.first + u) := by
    unfold segmentFile storedFile
    rw [hext, hu', if_neg hplain.nonempty]
    rfl
  have hreadf : fs.read (segmentFile id w.vodNr c.ext) = .ok (seg (r.first + u)).bytes := by
    unfold Files.read
    rw [hfile, s1]
  have hst : ¬ rp.contentType = "subtitles".toList := by
    rcases kkind with h | h <;> rw [h] <;> decide +kernel
  refine ⟨init, info, r.first + u, b.segs[u], f3, f4, hu', k1, k2, by rw [k4]; exact Int.mul_emod_left _ _, ?_,
    ⟨_, hv, e4, e5, e10⟩, by omega, hD, hN, k3, k4, hrts, s2, ru, fun stamp dd => ?_⟩
  · rw [hscaleb]
    have hf' : c.vodFirst.toNat = r.first := by omega
    rw [hf']
    have : ((seg r.first).time + (w.segTime / c.segDur + 1) * c.segDur * (y.set.timescale : Int)) -
        (((seg (r.first + u)).time + w.offset * (y.set.timescale : Int)) + ((seg (r.first + u)).duration info.defDur : Int)) =
        ((seg r.first).time : Int) + ((u : Int) + 1) * ((r.segDur : Int) * y.set.timescale) -
          (((seg (r.first + u)).time : Int) + ((seg (r.first + u)).duration info.defDur : Int)) := by
      have hu2 : w.vodNr - c.vodFirst = u := by rw [hu', e4']; push_cast; omega
      rw [hu2] at hkey
      rw [← e10', add_mul, add_mul, ← hkey]
      ring
    rw [this]
    exact hdrift
  · unfold filterSegment
    rw [hreadf]
    dsimp only
    rw [if_neg hst]

/-- The same for a request for this representation alone. -/
theorem live_decision {pf : Text → Option Rat} {base : Text} {fs : Files} {mpd : Xml} {vodOf : Text → Py VodCfg}
    {name : Text} {a : Xml} {ifile : Text} {x : Xml} {id : Text} {seg : Nat → TimedFragment}
    (hS : StoredRep base fs mpd vodOf name a ifile x id seg) {now : Int} {t : Rat} {c : Cfg} {w : Served}
    (hurl : ∃ opts file, (∀ p ∈ opts, (partSlot p).isSome) ∧ processUrl pf vodOf (opts ++ [name, id, file]) now = .ok c)
    (hw : getMedia pf c t = .ok (.media w)) :
    ∃ (init : Bytes) (info : InitInfo) (k : Nat) (rp : Rep) (z : AnaSeg),
      fs.file (id ++ '/' :: ifile) = some init ∧ initInfo init = .ok info ∧ w.vodNr = k ∧ c.requestedNr pf = .ok w.segNr ∧
      w.segTime = mediaTime c w.segNr ∧ w.offset % (c.segDur * c.vodNr) = 0 ∧
      10 * |((seg c.vodFirst.toNat).time + (w.segTime / c.segDur + 1) * c.segDur * info.timescale) -
        (((seg k).time + w.offset * info.timescale) + (seg k).duration info.defDur)| < info.timescale ∧
      (∃ v, vodOf name = .ok v ∧ c.vodFirst = v.firstSeg ∧ c.vodNr = v.nrSegs ∧ c.segDur = v.segDurS) ∧
      0 ≤ c.vodFirst ∧ 0 < c.segDur ∧ 0 < c.vodNr ∧ w.vodNr = w.segTime / c.segDur % c.vodNr + c.vodFirst ∧
      w.offset = w.segTime / (c.segDur * c.vodNr) * (c.segDur * c.vodNr) ∧
      c.reps = [rp] ∧ rp.timescale = info.timescale ∧ (seg k).Ok ∧ readSegment info.defDur (seg k).bytes = .ok z ∧
      ∀ stamp dd, filterSegment fs c rp c.relPath w stamp dd = filterMedia (segmentFilter c rp w stamp dd) (seg k).bytes := by
  obtain ⟨opts, file, ho, hu⟩ := hurl
  obtain ⟨v, reps, e1, e6, -, e2, -, -, e7, -⟩ := processUrl_files ho hS.slot hu
  obtain ⟨rp, e8, -, hrp⟩ := single_rep (hS.analysed.ids a hS.set x hS.rep id hS.named) e6
  obtain ⟨init, info, k, z, h1, h2, h3, h4, h5, h6, h7, h8, h9, h10, h11, h12, h13, h14, h15, h16, h17⟩ :=
    rep_decision hS ⟨opts, file, ho, hu⟩ hw (rp := rp) (fun v' hv' => by rw [e1] at hv'; cases hv'; exact hrp)
  exact ⟨init, info, k, rp, z, h1, h2, h3, h4, h5, h6, h7, h8, h9, h10, h11, h12, h13, by rw [e7, e8], h14, h15, h16,
    by rw [e2]; exact h17⟩

/-- What is sent, and where it is in the loops. -/
theorem live_reply {pf : Text → Option Rat} {base : Text} {fs : Files} {mpd : Xml} {vodOf : Text → Py VodCfg}
    {name : Text} {a : Xml} {ifile : Text} {x : Xml} {id : Text} {seg : Nat → TimedFragment}
    (hS : StoredRep base fs mpd vodOf name a ifile x id seg) {now : Int} {t : Rat} {c : Cfg} {w : Served} {out : Bytes}
    (hR : WholeReply pf fs vodOf name id now t c w out) :
    ∃ (init : Bytes) (info : InitInfo) (k : Nat) (d : Nat) (head : Bytes),
      fs.file (id ++ '/' :: ifile) = some init ∧ initInfo init = .ok info ∧ w.vodNr = k ∧ c.requestedNr pf = .ok w.segNr ∧
      w.segTime = mediaTime c w.segNr ∧ w.offset % (c.segDur * c.vodNr) = 0 ∧
      out = head ++ ((seg k).g.moved w.segNr ((seg k).time + w.offset * info.timescale) d).moof ++
        boxesBytes (seg k).g.back ∧
      10 * |((seg c.vodFirst.toNat).time + (w.segTime / c.segDur + 1) * c.segDur * info.timescale) -
        (((seg k).time + w.offset * info.timescale) + (seg k).duration info.defDur)| < info.timescale ∧
      (∃ v, vodOf name = .ok v ∧ c.vodFirst = v.firstSeg ∧ c.vodNr = v.nrSegs ∧ c.segDur = v.segDurS) ∧
      0 ≤ c.vodFirst ∧ 0 < c.segDur ∧ 0 < c.vodNr ∧ w.vodNr = w.segTime / c.segDur % c.vodNr + c.vodFirst ∧
      w.offset = w.segTime / (c.segDur * c.vodNr) * (c.segDur * c.vodNr) := by
  obtain ⟨hurl, hw, stamp, hb⟩ := hR
  obtain ⟨init, info, k, rp, z, h1, h2, h3, h4, h5, h6, h7, h8, h9, h10, h11, h12, h13, hreps, hts, hok, -, hfs⟩ :=
    live_decision hS hurl hw
  have hfm : ∃ s', filterMedia (segmentFilter c rp w stamp none) (seg k).bytes = .ok (out, s') := by
    unfold mediaBody at hb
    rw [hreps] at hb
    dsimp only at hb
    rw [hfs] at hb
    split at hb
    · split at hb
      · split at hb
        · cases hb
        · split at hb
          · cases hb
          · split at hb
            · split at hb <;> cases hb
            · cases hb
      · split at hb
        · cases hb
        · rename_i hf
          cases hb
          exact ⟨_, hf⟩
    · split at hb
      · cases hb
      · rename_i hf
        cases hb
        exact ⟨_, hf⟩
  obtain ⟨s', hfm⟩ := hfm
  obtain ⟨-, -, -, -, -, d, front, size, emsg, sidx, -, -, -, -, -, -, hfin, -⟩ :=
    C11_segment (segmentFilter c rp w stamp none) w.segNr rp.timescale rfl rfl (seg k).g hok.frag out s' hfm
  refine ⟨init, info, k, d, (front.map Prod.snd).flatten ++ emsg ++ sidx, h1, h2, h3, h4, h5, h6, ?_, h7, h8, h9, h10, h11,
    h12, h13⟩
  rw [hfin]
  have : (segmentFilter c rp w stamp none).offset * rp.timescale = w.offset * info.timescale := by
    rw [hts]; rfl
  rw [this]
  rfl

/-- **C78.** Content that the analyser accepted is served without drift.  Whatever options a request has, by number or by
time, and whenever it comes: if a media segment is sent as a whole, it is the stored segment with the number requested as
sequence number and with all data unchanged, its decode time is moved by a whole number of loops, and it ends, in the
timescale of the initialization segment, within a tenth of a second of the start of the stored content plus the media
time of the end of the segment, however many loops have passed. -/
theorem C78_drift {pf : Text → Option Rat} {base : Text} {fs : Files} {mpd : Xml} {vodOf : Text → Py VodCfg}
    {name : Text} {a : Xml} {ifile : Text} {x : Xml} {id : Text} {seg : Nat → TimedFragment}
    (hS : StoredRep base fs mpd vodOf name a ifile x id seg) {now : Int} {t : Rat} {c : Cfg} {w : Served} {out : Bytes}
    (hR : WholeReply pf fs vodOf name id now t c w out) :
    ∃ (init : Bytes) (info : InitInfo) (k : Nat) (d : Nat) (head : Bytes),
      fs.file (id ++ '/' :: ifile) = some init ∧ initInfo init = .ok info ∧ w.vodNr = k ∧ c.requestedNr pf = .ok w.segNr ∧
      w.segTime = mediaTime c w.segNr ∧ w.offset % (c.segDur * c.vodNr) = 0 ∧
      out = head ++ ((seg k).g.moved w.segNr ((seg k).time + w.offset * info.timescale) d).moof ++
        boxesBytes (seg k).g.back ∧
      10 * |((seg c.vodFirst.toNat).time + (w.segTime / c.segDur + 1) * c.segDur * info.timescale) -
        (((seg k).time + w.offset * info.timescale) + (seg k).duration info.defDur)| < info.timescale := by
  obtain ⟨init, info, k, d, head, h1, h2, h3, h4, h5, h6, h7, h8, -⟩ := live_reply hS hR
  exact ⟨init, info, k, d, head, h1, h2, h3, h4, h5, h6, h7, h8⟩

/-- **C78.** Consecutive segments follow each other.  Two requests, whatever their options and times, whose media times
are one segment duration apart: when the stored segments of the loop follow each other without gap, so do the two
replies, except where the second starts the loop again; there the gap or overlap is less than a tenth of a second.  Missing: accepted content whose stored segments do not follow
each other (`C78_gap_violation`); segments with several fragments or runs; replies in chunks. -/
theorem C78_continuous_partial {pf : Text → Option Rat} {base : Text} {fs : Files} {mpd : Xml} {vodOf : Text → Py VodCfg}
    {name : Text} {a : Xml} {ifile : Text} {x : Xml} {id : Text} {seg : Nat → TimedFragment}
    (hS : StoredRep base fs mpd vodOf name a ifile x id seg)
    {now₁ : Int} {t₁ : Rat} {c₁ : Cfg} {w₁ : Served} {out₁ : Bytes} (h₁ : WholeReply pf fs vodOf name id now₁ t₁ c₁ w₁ out₁)
    {now₂ : Int} {t₂ : Rat} {c₂ : Cfg} {w₂ : Served} {out₂ : Bytes} (h₂ : WholeReply pf fs vodOf name id now₂ t₂ c₂ w₂ out₂)
    (hnext : w₂.segTime = w₁.segTime + c₁.segDur) :
    ∃ (init : Bytes) (info : InitInfo) (k₁ k₂ d₁ d₂ : Nat) (head₁ head₂ : Bytes) (start₁ start₂ : Int),
      fs.file (id ++ '/' :: ifile) = some init ∧ initInfo init = .ok info ∧
      out₁ = head₁ ++ ((seg k₁).g.moved w₁.segNr start₁ d₁).moof ++ boxesBytes (seg k₁).g.back ∧
      out₂ = head₂ ++ ((seg k₂).g.moved w₂.segNr start₂ d₂).moof ++ boxesBytes (seg k₂).g.back ∧
      (k₂ = k₁ + 1 ∧ ((seg (k₁ + 1)).time = (seg k₁).time + (seg k₁).duration info.defDur →
          start₂ = start₁ + (seg k₁).duration info.defDur) ∨
        (k₁ : Int) = c₁.vodFirst + c₁.vodNr - 1 ∧ (k₂ : Int) = c₁.vodFirst ∧
          10 * |start₂ - (start₁ + (seg k₁).duration info.defDur)| < info.timescale) := by
  obtain ⟨init, info, k₁, d₁, head₁, a1, a2, a3, a4, a5, a6, a7, a8, ⟨v, av, a9, a10, a11⟩, a12, a13, a14, a15, a16⟩ :=
    live_reply hS h₁
  obtain ⟨init', info', k₂, d₂, head₂, b1, b2, b3, b4, b5, b6, b7, b8, ⟨v', bv, b9, b10, b11⟩, b12, b13, b14, b15, b16⟩ :=
    live_reply hS h₂
  rw [a1] at b1
  cases b1
  rw [a2] at b2
  cases b2
  rw [av] at bv
  cases bv
  have e1 : c₂.vodFirst = c₁.vodFirst := by rw [b9, a9]
  have e2 : c₂.vodNr = c₁.vodNr := by rw [b10, a10]
  have e3 : c₂.segDur = c₁.segDur := by rw [b11, a11]
  rw [e1, e2, e3] at b15
  rw [e2, e3] at b16
  have hq : w₂.segTime / c₁.segDur = w₁.segTime / c₁.segDur + 1 := by
    rw [hnext]
    exact Int.add_ediv_of_dvd_right (Int.dvd_refl _) |>.trans (by rw [Int.ediv_self (by omega)])
  have hdiv : ∀ T : Int, T / (c₁.segDur * c₁.vodNr) = T / c₁.segDur / c₁.vodNr := fun T =>
    (Int.ediv_ediv_of_nonneg (by omega)).symm
  rw [hdiv] at a16 b16
  rw [hq] at b15 b16
  generalize hQ : w₁.segTime / c₁.segDur = Q at *
  have hm0 := Int.emod_nonneg Q (show c₁.vodNr ≠ 0 by omega)
  have hm1 := Int.emod_lt_of_pos Q a14
  refine ⟨init, info, k₁, k₂, d₁, d₂, head₁, head₂, _, _, a1, a2, a7, b7, ?_⟩
  have hsplit := Int.mul_ediv_add_emod Q c₁.vodNr
  by_cases hl : Q % c₁.vodNr + 1 < c₁.vodNr
  · left
    have m : (Q + 1) % c₁.vodNr = Q % c₁.vodNr + 1 := by
      conv_lhs => rw [← hsplit, add_assoc, Int.add_comm, Int.add_mul_emod_self_left]
      exact Int.emod_eq_of_lt (by omega) hl
    have qd : (Q + 1) / c₁.vodNr = Q / c₁.vodNr := by
      have h2 := Int.mul_ediv_add_emod (Q + 1) c₁.vodNr
      rw [m] at h2
      have : c₁.vodNr * ((Q + 1) / c₁.vodNr) = c₁.vodNr * (Q / c₁.vodNr) := by omega
      exact Int.eq_of_mul_eq_mul_left (by omega) this
    have hk : k₂ = k₁ + 1 := by
      rw [m] at b15
      omega
    subst hk
    refine ⟨rfl, fun hg => ?_⟩
    rw [b16, a16, qd, hg]
    push_cast
    ring
  · right
    have hlast : Q % c₁.vodNr = c₁.vodNr - 1 := by omega
    have hQ1 : Q + 1 = c₁.vodNr * (Q / c₁.vodNr + 1) := by
      rw [mul_add, mul_one]
      omega
    have m : (Q + 1) % c₁.vodNr = 0 := by rw [hQ1]; exact Int.mul_emod_right _ _
    have qd : (Q + 1) / c₁.vodNr = Q / c₁.vodNr + 1 := by
      rw [hQ1]
      exact Int.mul_ediv_cancel_left _ (by omega)
    have hk2 : (k₂ : Int) = c₁.vodFirst := by rw [m] at b15; omega
    refine ⟨by omega, hk2, ?_⟩
    have hkn : k₂ = c₁.vodFirst.toNat := by omega
    have : ((seg k₂).time + w₂.offset * (info.timescale : Int)) -
        (((seg k₁).time + w₁.offset * (info.timescale : Int)) + ((seg k₁).duration info.defDur : Int)) =
        ((seg c₁.vodFirst.toNat).time + (Q + 1) * c₁.segDur * (info.timescale : Int)) -
        (((seg k₁).time + w₁.offset * (info.timescale : Int)) + ((seg k₁).duration info.defDur : Int)) := by
      have : w₂.offset = (Q + 1) * c₁.segDur := by
        rw [b16, qd, hQ1]
        ring
      rw [this, hkn]
    rw [this]
    exact a8

/-- **C78.** Representations stay together.  Replies of two representations for the same media time end, each counted in
seconds from the start of its own stored content, less than a fifth of a second apart, however many loops have passed. -/
theorem C78_sync {pf : Text → Option Rat} {base : Text} {fs : Files} {mpd : Xml} {vodOf : Text → Py VodCfg} {name : Text}
    {a₁ : Xml} {ifile₁ : Text} {x₁ : Xml} {id₁ : Text} {seg₁ : Nat → TimedFragment}
    (s₁ : StoredRep base fs mpd vodOf name a₁ ifile₁ x₁ id₁ seg₁)
    {a₂ : Xml} {ifile₂ : Text} {x₂ : Xml} {id₂ : Text} {seg₂ : Nat → TimedFragment}
    (s₂ : StoredRep base fs mpd vodOf name a₂ ifile₂ x₂ id₂ seg₂)
    {now₁ : Int} {t₁ : Rat} {c₁ : Cfg} {w₁ : Served} {out₁ : Bytes} (h₁ : WholeReply pf fs vodOf name id₁ now₁ t₁ c₁ w₁ out₁)
    {now₂ : Int} {t₂ : Rat} {c₂ : Cfg} {w₂ : Served} {out₂ : Bytes} (h₂ : WholeReply pf fs vodOf name id₂ now₂ t₂ c₂ w₂ out₂)
    (hsame : w₂.segTime = w₁.segTime) :
    ∃ (init₁ init₂ : Bytes) (info₁ info₂ : InitInfo) (k first d₁ d₂ : Nat) (head₁ head₂ : Bytes) (start₁ start₂ : Int),
      fs.file (id₁ ++ '/' :: ifile₁) = some init₁ ∧ initInfo init₁ = .ok info₁ ∧
      fs.file (id₂ ++ '/' :: ifile₂) = some init₂ ∧ initInfo init₂ = .ok info₂ ∧ c₁.vodFirst = first ∧
      out₁ = head₁ ++ ((seg₁ k).g.moved w₁.segNr start₁ d₁).moof ++ boxesBytes (seg₁ k).g.back ∧
      out₂ = head₂ ++ ((seg₂ k).g.moved w₂.segNr start₂ d₂).moof ++ boxesBytes (seg₂ k).g.back ∧
      |(start₁ + (seg₁ k).duration info₁.defDur - (seg₁ first).time : ℚ) / info₁.timescale -
        (start₂ + (seg₂ k).duration info₂.defDur - (seg₂ first).time) / info₂.timescale| < 1 / 5 := by
  obtain ⟨init₁, info₁, k₁, d₁, head₁, a1, a2, a3, a4, a5, a6, a7, a8, ⟨v, av, a9, a10, a11⟩, a12, a13, a14, a15, a16⟩ :=
    live_reply s₁ h₁
  obtain ⟨init₂, info₂, k₂, d₂, head₂, b1, b2, b3, b4, b5, b6, b7, b8, ⟨v', bv, b9, b10, b11⟩, b12, b13, b14, b15, b16⟩ :=
    live_reply s₂ h₂
  rw [av] at bv
  cases bv
  have e1 : c₂.vodFirst = c₁.vodFirst := by rw [b9, a9]
  have e2 : c₂.vodNr = c₁.vodNr := by rw [b10, a10]
  have e3 : c₂.segDur = c₁.segDur := by rw [b11, a11]
  rw [e1, e2, e3, hsame] at b15
  have hk : k₂ = k₁ := by omega
  subst hk
  rw [e1, e3, hsame] at b8
  refine ⟨init₁, init₂, info₁, info₂, k₂, c₁.vodFirst.toNat, d₁, d₂, head₁, head₂, _, _, a1, a2, b1, b2, by omega, a7, b7, ?_⟩
  have key : ∀ (ts : Int) (s m e : Int), 10 * |s + m * ts - e| < ts →
      |((e - s : Int) : ℚ) / ts - m| < 1 / 10 := by
    intro ts s m e h
    have hts : (0 : ℚ) < ts := by
      have : (0 : Int) < ts := by
        have := abs_nonneg (s + m * ts - e)
        omega
      exact_mod_cast this
    have h' : (10 : ℚ) * |(s : ℚ) + m * ts - e| < ts := by exact_mod_cast h
    have hm : ((e - s : Int) : ℚ) / ts - m = -((s : ℚ) + m * ts - e) / ts := by
      field_simp
      push_cast
      ring
    rw [hm, abs_div, abs_neg, abs_of_pos hts, div_lt_div_iff₀ hts (by norm_num)]
    linarith
  have r1 := key _ _ _ _ a8
  have r2 := key _ _ _ _ b8
  rw [abs_lt] at r1 r2 ⊢
  push_cast at r1 r2 ⊢
  constructor <;> linarith [r1.1, r1.2, r2.1, r2.2]

/-! ### Cases -/

/-- `tinySegment` as a fragment. -/
def tinyTimed (nr time dur : Nat) : TimedFragment where
  g := { front := [], vf := [0, 0, 0, 0], seq := beBytes 4 nr, a := []
         pre := [.other tyTfhd ([0, 2, 0, 0] ++ beBytes 4 2)]
         wide := true, f2 := 0, f1 := 0, f0 := 0, t := time
         post := [.run 0 0 1 1 (beBytes 4 1) 96 (beBytes 4 dur)], b := []
         back := [(tyMdat, [1, 2, 3])] }
  p1 := []
  p2 := []
  q1 := []
  q2 := []
  x := .other tyTfhd ([0, 2, 0, 0] ++ beBytes 4 2)
  y := .run 0 0 1 1 (beBytes 4 1) 96 (beBytes 4 dur)
  hdr := ⟨0, 2, 0, 0, beBytes 4 2, [], none, []⟩
  run := ⟨0, 0, 1, 1, beBytes 4 96, [], [(dur, [])]⟩

theorem tinyTimed_ok {nr time dur : Nat} (ht : time < 2 ^ 64) (hd : dur < 2 ^ 32) : (tinyTimed nr time dur).Ok := by
  have h4 : ∀ n, (beBytes 4 n).length = 4 := fun n => beBytes_length 4 n
  have h8 : ∀ n, (beBytes 8 n).length = 8 := fun n => beBytes_length 8 n
  have hs : (signedBytes 96).length = 4 := by decide +kernel
  refine ⟨⟨rfl, h4 _, ?_, ?_, ?_, ?_, ?_, ?_, ht, ?_⟩, ⟨?_, h4 _, ?_, ?_, ?_⟩, ⟨?_, ?_, ?_, ?_⟩, rfl, ?_, rfl, rfl, ?_⟩
  · simp [tinyTimed]
  · intro x hx
    simp only [tinyTimed, List.mem_singleton] at hx
    subst hx
    decide
  · simp [tinyTimed]
  · intro x hx
    simp only [tinyTimed, List.mem_singleton] at hx
    subst hx
    exact ⟨rfl, by decide, by decide⟩
  · intro x hx
    simp only [tinyTimed, List.mem_singleton] at hx
    subst hx
    exact ⟨rfl, h4 _, by decide, by decide⟩
  · simp [tinyTimed]
  · simp only [tinyTimed, OneFragment.forest, segmentOf, Forest.withBoxes, Forest.withLeaves, Forest.Ok, FragBox.parts,
      tfdtPayload, if_true, Forest.bytes, List.length_append, boxBytes_length, h4, h8, hs, List.length_cons, List.length_nil]
    decide +kernel
  · show bitSet 0 0 = false; decide
  · show (0 : Nat) = if bitSet 0 1 then 4 else 0; decide
  · show false = bitSet 0 3; decide
  · intro d h; cases h
  · show (1 : Nat) < 2 ^ 32; decide
  · show (beBytes 4 96).length = if bitSet 1 0 then 4 else 0; decide
  · show (0 : Nat) = if bitSet 1 2 then 4 else 0; decide
  · intro x hx
    simp only [tinyTimed, List.mem_singleton] at hx
    subst hx
    exact ⟨hd, by show (0 : Nat) = (if bitSet 1 1 then 4 else 0) + (if bitSet 1 2 then 4 else 0) + (if bitSet 1 3 then 4 else 0); decide⟩
  · simp only [tinyTimed, FragBox.parts, Run.payload, List.length_singleton, List.flatMap_cons, List.flatMap_nil, Run.rowBytes]
    have e1 : signedBytes 96 = beBytes 4 96 := by decide +kernel
    have e2 : bitSet 1 0 = true := by decide
    rw [e1, e2]
    simp
  · intro b hb
    simp [tinyTimed] at hb

theorem tinyTimed_bytes (nr time dur : Nat) : (tinyTimed nr time dur).bytes = tinySegment nr time dur := by
  have e1 : signedBytes 96 = beBytes 4 96 := by decide +kernel
  simp only [TimedFragment.bytes, tinyTimed, OneFragment.bytes, OneFragment.moof, fragment, Forest.withLeaves, Forest.bytes,
    FragBox.parts, tfdtPayload, if_true, boxesBytes, List.flatMap_nil, List.flatMap_cons, tinySegment, e1,
    List.nil_append, List.append_nil, List.append_assoc]

theorem whole_of_replyBody {fs : Files} {vodOf : Text → Py VodCfg} {opts : List Text} {name id file : Text} {now : Int}
    {out : Bytes} (ho : ∀ p ∈ opts, (partSlot p).isSome)
    (h : replyBody fs vodOf (opts ++ [name, id, file]) now = .ok (some (.whole out))) :
    ∃ c w, WholeReply examplePf fs vodOf name id now now c w out := by
  unfold replyBody at h
  simp only [Py.bind_ok] at h
  obtain ⟨c, h1, r, h2, h⟩ := h
  split at h
  · rename_i w
    simp only [Py.bind_ok, Py.pure_ok] at h
    obtain ⟨b, h3, h4⟩ := h
    cases h4
    exact ⟨c, w, ⟨opts, file, ho, h1⟩, h2, [], h3⟩
  · cases h

/-- The segments of `tinyFiles`. -/
def tinySeg (k : Nat) : TimedFragment := tinyTimed k ((k - 1) * 180000) 180000

def tinyVod : Text → Py VodCfg := vodAfter "tiny".toList tinyFiles tinyContent

/-- `tinyContent` meets the hypotheses. -/
theorem tiny_stored : StoredRep "tiny".toList tinyFiles tinyContent tinyVod "tiny".toList
    (tinySet "video" "$RepresentationID$/$Number$.m4s" fromOne ["V1"]) "init.mp4".toList
    (.elem "Representation".toList [("id".toList, "V1".toList), ("bandwidth".toList, "9".toList)] [] []) "V1".toList tinySeg where
  analysed := analysed_after (by decide +kernel) (by decide +kernel) (by decide +kernel)
  unique := by decide +kernel
  set := by
    have : (adaptationSets tinyContent)[0]? = some (tinySet "video" "$RepresentationID$/$Number$.m4s" fromOne ["V1"]) := rfl
    exact List.mem_of_getElem? this
  media := by unfold NumberTemplate; decide +kernel
  init := by unfold InitTemplate; decide +kernel
  ifile := by decide +kernel
  rep := by
    have : (representations (tinySet "video" "$RepresentationID$/$Number$.m4s" fromOne ["V1"]))[0]? =
      some (.elem "Representation".toList [("id".toList, "V1".toList), ("bandwidth".toList, "9".toList)] [] []) := rfl
    exact List.mem_of_getElem? this
  named := by decide +kernel
  slot := by decide +kernel
  loop := by
    intro v hv k h1 h2
    have e : (tinyVod "tiny".toList).toOption.map (fun v => (v.firstSeg, v.nrSegs)) = some (1, 3) := by decide +kernel
    rw [hv] at e
    have e' : (v.firstSeg, v.nrSegs) = (1, 3) := Option.some.inj e
    have e1 : v.firstSeg = 1 := congrArg Prod.fst e'
    have e2 : v.nrSegs = 3 := congrArg Prod.snd e'
    have : k = 1 ∨ k = 2 ∨ k = 3 := by omega
    rcases this with rfl | rfl | rfl <;> rw [tinySeg, tinyTimed_bytes] <;>
      exact ⟨by decide +kernel, tinyTimed_ok (by decide) (by decide)⟩

/-- Segments 6002 and 6003: the last of a loop and the first of the next one, two thousand loops from the start. -/
example : (∃ c w, WholeReply examplePf tinyFiles tinyVod "tiny".toList "V1".toList 12010 12010 c w
      (tinySegment 6002 (6002 * 180000) 180000)) ∧
    ∃ c w, WholeReply examplePf tinyFiles tinyVod "tiny".toList "V1".toList 12010 12010 c w
      (tinySegment 6003 (6003 * 180000) 180000) :=
  ⟨whole_of_replyBody (opts := ["tsbd_40".toList]) (file := "6002.m4s".toList) (by decide +kernel) (by decide +kernel),
    whole_of_replyBody (opts := ["tsbd_40".toList]) (file := "6003.m4s".toList) (by decide +kernel) (by decide +kernel)⟩

def gapFiles : Files := filesOf [("V1".toList, [("init.mp4".toList, (infoInit false).bytes),
  ("1.m4s".toList, tinySegment 1 0 180000), ("2.m4s".toList, tinySegment 2 300000 60000),
  ("3.m4s".toList, tinySegment 3 360000 180000)])]
def gapContent : Xml := tinyMpd [tinySet "video" "$RepresentationID$/$Number$.m4s" fromOne ["V1"]]

/-- **C78 fails** for continuity: the analyser compares only the ends of the stored segments with the segment duration.
Content whose second segment starts more than a second late is accepted, and of the segments 6 and 7, which are two
seconds apart in the manifest, the first ends at 1260000 and the second starts at 1380000 in units of 1/90000 s. -/
theorem C78_gap_violation :
    Analysed "tiny".toList gapFiles gapContent (vodAfter "tiny".toList gapFiles gapContent) "tiny".toList ∧
    (∀ a ∈ adaptationSets gapContent, NumberTemplate a ∧ InitTemplate a "init.mp4".toList) ∧
    replyBody gapFiles (vodAfter "tiny".toList gapFiles gapContent) (tinyAsk "V1" "6.m4s") 20 =
      .ok (some (.whole (tinySegment 6 1080000 180000))) ∧
    replyBody gapFiles (vodAfter "tiny".toList gapFiles gapContent) (tinyAsk "V1" "7.m4s") 20 =
      .ok (some (.whole (tinySegment 7 1380000 60000))) :=
  ⟨analysed_after (by decide +kernel) (by decide +kernel) (by decide +kernel),
    by unfold NumberTemplate InitTemplate; decide +kernel, by decide +kernel, by decide +kernel⟩

end Verif
