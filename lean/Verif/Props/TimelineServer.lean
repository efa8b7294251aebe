import Verif.TableFile
import Verif.Props.Server
import Mathlib.Data.List.Chain
/-
C81: the timelines of analysed content, over HTTP.
-/
namespace Verif
open Spec

/-! ### The tables -/

/-- The table of a content type, read from the files that the analyser left. -/
def tableOf (f : VodFile) (out : AnaOutput) (kind : Text) : Option SegTable :=
  (openTable f (fun n => (out.tables.find? fun x => decide (x.1 = n)).map (·.2)) kind).toOption

/-- The server has the configuration and the tables of the content as the analyser wrote them. -/
def Tabled (base : Text) (mpd : Xml) (s : Site) (name : Text) : Prop :=
  ∃ out f, analyzeContent base (s.files name) mpd = .ok out ∧ readConfig (some out.config) = .ok f ∧
    s.vodOf name = .ok f.toCfg ∧ s.tables name = (tableOf f out "video".toList, tableOf f out "audio".toList)

theorem find_nodup {α β : Type} [DecidableEq β] {key : α → β} {l : List α} (h : (l.map key).Nodup) {z : α} (hz : z ∈ l) :
    l.find? (fun x => decide (key x = key z)) = some z := by
  induction l with
  | nil => cases hz
  | cons a l ih =>
    rw [List.map_cons, List.nodup_cons] at h
    rcases List.mem_cons.mp hz with rfl | hz
    · simp
    · rw [List.find?_cons_of_neg, ih h.2 hz]
      simp only [decide_eq_true_eq]
      intro he
      exact h.1 (List.mem_map.mpr ⟨z, hz, he.symm⟩)

theorem find_filterMap {kind : Text} (g : Text → Option (Text × MediaEntry)) (hg : ∀ k m, g k = some m → m.1 = k) :
    ∀ ks : List Text, kind ∈ ks → ((ks.filterMap g).find? fun m => decide (m.1 = kind)) = g kind := by
  intro ks
  induction ks with
  | nil => intro h; cases h
  | cons k ks ih =>
    intro hm
    rw [List.filterMap_cons]
    cases hgk : g k with
    | none =>
      dsimp only
      by_cases hyk : kind ∈ ks
      · exact ih hyk
      · have hkk : kind = k := by
          rcases List.mem_cons.mp hm with h | h
          · exact h
          · exact absurd h hyk
        rw [hkk, hgk, List.find?_eq_none]
        intro m hm' hd
        obtain ⟨k', hk', e⟩ := List.mem_filterMap.mp hm'
        have := hg _ _ e
        simp only [decide_eq_true_eq] at hd
        apply hyk
        rw [hkk, ← hd, this]
        exact hk'
    | some m =>
      dsimp only
      have hmk := hg _ _ hgk
      by_cases he : k = kind
      · rw [List.find?_cons_of_pos (by simp [hmk, he]), ← he, hgk]
      · rw [List.find?_cons_of_neg (by simp [hmk, he])]
        refine ih ?_
        rcases List.mem_cons.mp hm with h | h
        · exact absurd h.symm he
        · exact h

theorem find_described {base : Text} {l : List SetSeen} {r : AnaResult} (hn : (l.map (·.kind)).Nodup)
    (hlen : l.length = r.files.length) {i : Nat} {y : SetSeen} {b : Bytes × Nat} (hy : l[i]? = some y)
    (hb : r.files[i]? = some b) (hk : y.kind = "video".toList ∨ y.kind = "audio".toList) :
    ((describe base l r).media.find? fun m => decide (m.1 = y.kind)) =
      some (y.kind, ⟨y.ids, y.set.timescale, some (b.2 : Int), some (datName base y.kind)⟩) := by
  have hz : (y, b) ∈ l.zip r.files := List.mem_iff_getElem?.mpr ⟨i, by
    rw [List.getElem?_zip_eq_some]; exact ⟨hy, hb⟩⟩
  have hn' : ((seenEntries base l r).map (·.1)).Nodup := by
    unfold seenEntries
    rw [List.map_map]
    have : ((fun x : Text × MediaEntry => x.1) ∘ fun x : SetSeen × Bytes × Nat => (x.1.kind,
        (⟨x.1.ids, x.1.set.timescale, some (x.2.2 : Int), some (datName base x.1.kind)⟩ : MediaEntry))) =
        (fun x : SetSeen => x.kind) ∘ Prod.fst := rfl
    rw [this, ← List.map_map, List.map_fst_zip (by omega)]
    exact hn
  have h1 : ((seenEntries base l r).find? fun m => decide (m.1 = y.kind)) =
      some (y.kind, ⟨y.ids, y.set.timescale, some (b.2 : Int), some (datName base y.kind)⟩) :=
    find_nodup (key := fun m : Text × MediaEntry => m.1) hn'
      (z := (y.kind, ⟨y.ids, y.set.timescale, some (b.2 : Int), some (datName base y.kind)⟩))
      (List.mem_map.mpr ⟨(y, b), hz, rfl⟩)
  show (List.find? _ (List.filterMap (fun k => (seenEntries base l r).find? fun y => decide (y.1 = k))
    ["video".toList, "audio".toList])) = _
  rw [find_filterMap _ (fun k m h => by
    have := List.find?_some h
    exact of_decide_eq_true this) _ (by rcases hk with h | h <;> rw [h] <;> simp), h1]

theorem find_media {base : Text} {l : List SetSeen} {r : AnaResult} (hn : (l.map (·.kind)).Nodup)
    (hlen : l.length = r.files.length) {i : Nat} {y : SetSeen} {b : Bytes × Nat} (hy : l[i]? = some y)
    (hb : r.files[i]? = some b) (hk : y.kind = "video".toList ∨ y.kind = "audio".toList) (first : Int) :
    ((readBack (describe base l r) first).media.find? fun m => decide (m.1 = y.kind)) =
      some (y.kind, ⟨y.ids, y.set.timescale, some (b.2 : Int), some (datName base y.kind)⟩) := by
  show (List.find? _ (writtenTypes.flatMap (entryList (describe base l r).media))) = _
  have hflat : writtenTypes.flatMap (entryList (describe base l r).media) = writtenTypes.filterMap fun k =>
      ((describe base l r).media.find? fun y => decide (y.1 = k)).map fun y => (k, y.2) := by
    rw [List.filterMap_eq_flatMap_toList]
    rfl
  rw [hflat, find_filterMap _ (by
    intro k m h
    obtain ⟨q, -, rfl⟩ := Option.map_eq_some_iff.mp h
    rfl) _ (by rcases hk with h | h <;> rw [h] <;> unfold writtenTypes <;> simp), find_described hn hlen hy hb hk]
  rfl

theorem scale_media {base : Text} {l : List SetSeen} {r : AnaResult} (hn : (l.map (·.kind)).Nodup)
    (hlen : l.length = r.files.length) {i : Nat} {y : SetSeen} {b : Bytes × Nat} (hy : l[i]? = some y)
    (hb : r.files[i]? = some b) (hk : y.kind = "video".toList ∨ y.kind = "audio".toList) {first : Int} :
    ∀ m ∈ (readBack (describe base l r) first).toCfg.media, m.1 = y.kind → m.2.1 = y.set.timescale := by
  intro m hm he
  obtain ⟨e, hm1, rfl⟩ := List.mem_map.mp hm
  obtain ⟨k, -, hm2⟩ := List.mem_flatMap.mp hm1
  unfold entryList at hm2
  simp only [Option.mem_toList] at hm2
  obtain ⟨q, hq, rfl⟩ := Option.map_eq_some_iff.mp hm2
  have he : k = y.kind := he
  subst he
  rw [find_described hn hlen hy hb hk] at hq
  cases hq
  rfl

theorem datName_inj {base a b : Text} (h : datName base a = datName base b) : a = b := by
  unfold datName at h
  simp only [List.append_assoc] at h
  have := List.append_cancel_left h
  simp only [List.cons_append, List.cons.injEq, true_and] at this
  exact List.append_cancel_right this

/-- The table of an adaptation set of analysed content. -/
theorem table_known {base : Text} {mpd : Xml} {s : Site} {name : Text} (hA : Analysed base (s.files name) mpd s.vodOf name)
    (hT : Tabled base mpd s name) :
    ∃ l r v, List.Forall₂ (fun a b => seeSet (s.files name) a = .ok b) ((adaptationSets mpd).map parseAs) l ∧
      (l.map (·.kind)).Nodup ∧ analyze (l.map (·.set)) = .ok r ∧ s.vodOf name = .ok v ∧
      v = (readBack (describe base l r) r.first).toCfg ∧ r.segDur ≠ 0 ∧
      ∀ (i : Nat) (y : SetSeen) (b : Bytes × Nat) (es : List SegEntry), l[i]? = some y → r.files[i]? = some b →
        readDat b.1 = .ok es → l.length = r.files.length →
        (y.kind = "video".toList → (s.tables name).1 = some ⟨es, y.set.timescale, r.nrInLoop * r.segDur, r.nrInLoop, r.first⟩) ∧
        (y.kind = "audio".toList → (s.tables name).2 = some ⟨es, y.set.timescale, r.nrInLoop * r.segDur, r.nrInLoop, r.first⟩) := by
  obtain ⟨out, f, h1, h2, h3, h4⟩ := hT
  obtain ⟨sets, l, r, g1, g2, g3, g4, g5, g6⟩ := analyzeContent_ok h1
  rw [parseVodMpd_ok g1] at g2
  have hok := describe_ok (r := r) hA.base hA.ids g2
  obtain ⟨e1, e2⟩ := readConfig_back (f := r.first) (d := describe base l r) rfl hok g5 h2
  refine ⟨l, r, f.toCfg, g2, g3, g4, h3, by rw [e1], ?_, ?_⟩
  · intro h0
    apply e2
    show ((some (r.segDur : Int)).getD 0) = 0
    rw [h0]
    rfl
  · intro i y b es hy hb hes hlen
    have hz : (y, b) ∈ l.zip r.files := List.mem_iff_getElem?.mpr ⟨i, by
      rw [List.getElem?_zip_eq_some]; exact ⟨hy, hb⟩⟩
    have hnames : (out.tables.map (·.1)).Nodup := by
      rw [g6, List.map_map]
      have : ((fun x : Text × Bytes => x.1) ∘ fun x : SetSeen × Bytes × Nat => (datName base x.1.kind, x.2.1)) =
          datName base ∘ (fun x : SetSeen => x.kind) ∘ Prod.fst := rfl
      rw [this, ← List.map_map, ← List.map_map, List.map_fst_zip (by omega)]
      exact g3.map (fun a b h => datName_inj h)
    have hfile : (out.tables.find? fun x => decide (x.1 = datName base y.kind)) = some (datName base y.kind, b.1) :=
      find_nodup (key := fun m : Text × Bytes => m.1) hnames (z := (datName base y.kind, b.1)) (by
        rw [g6]
        exact List.mem_map.mpr ⟨(y, b), hz, rfl⟩)
    have hopen : (y.kind = "video".toList ∨ y.kind = "audio".toList) → tableOf f out y.kind =
        some ⟨es, y.set.timescale, r.nrInLoop * r.segDur, r.nrInLoop, r.first⟩ := by
      intro hk
      unfold tableOf openTable
      rw [e1, find_media g3 hlen hy hb hk r.first]
      dsimp only
      rw [hfile]
      dsimp only [Option.map_some]
      rw [hes]
      show some (SegTable.mk es _ ((r.segDur : Int) * (r.nrInLoop : Int)).toNat _ _) = _
      congr 2
      rw [mul_comm]
      omega
    constructor
    · intro hk
      rw [h4, ← hk]
      exact hopen (Or.inl hk)
    · intro hk
      rw [h4, ← hk]
      exact hopen (Or.inr hk)

/-! ### The table describes the stored segments -/

/-- The stored segments of a loop: they have the durations `durs`, follow each other from time 0 without gaps, and fill
the loop. -/
structure LoopOf (v : VodCfg) (scale : Int) (dflt : Option Nat) (seg : Nat → TimedFragment) (durs : List Nat) : Prop where
  count : (durs.length : Int) = v.nrSegs
  time : ∀ i < durs.length, (seg (v.firstSeg.toNat + i)).time = (durs.take i).sum
  dur : ∀ i d, durs[i]? = some d → (seg (v.firstSeg.toNat + i)).duration dflt = d
  positive : ∀ d ∈ durs, 0 < d
  whole : (durs.sum : Int) = v.segDurS * v.nrSegs * scale

theorem noGaps_of {segs : List AnaSeg} {t0 : Nat}
    (h : ∀ (i : Nat) z, segs[i]? = some z → z.tfdt = t0 + ((segs.map AnaSeg.dur).take i).sum) : NoGaps segs := by
  induction segs generalizing t0 with
  | nil => trivial
  | cons a l ih =>
    have h' : ∀ (i : Nat) z, l[i]? = some z → z.tfdt = (t0 + a.dur) + ((l.map AnaSeg.dur).take i).sum := by
      intro i z hz
      have := h (i + 1) z (by rw [List.getElem?_cons_succ]; exact hz)
      rw [this]
      simp only [List.map_cons, List.take_succ_cons, List.sum_cons]
      omega
    cases l with
    | nil => trivial
    | cons b l =>
      refine ⟨?_, ih h'⟩
      have h0 := h 0 a rfl
      have h1 := h' 0 b rfl
      simp only [List.take_zero, List.sum_nil] at h0 h1
      omega

theorem parseAs_kind {a : Xml} {k k' : Text} (h : a.get "contentType".toList = some k)
    (h' : (parseAs a).attribs.look "contentType".toList = some (some k')) : k' = k := by
  have key : ∀ (xs : List Xml) (s : AsNode), s.attribs.look "contentType".toList = some (some k) →
      (asKids xs s).attribs.look "contentType".toList = some (some k) := by
    intro xs
    induction xs with
    | nil => intro s h; exact h
    | cons x xs ih =>
      intro s h
      unfold asKids
      split
      · apply ih
        dsimp only
        rw [look_add tmplKeys_nodup, if_neg (by decide +kernel)]
        exact h
      · split
        · exact ih _ h
        · exact ih _ h
  have h0 : (NodeAttrs.add a ["contentType".toList, "mimeType".toList] []).look "contentType".toList = some (some k) := by
    rw [look_add (by decide +kernel), if_pos (by decide +kernel), h]
  have := key a.kids ⟨NodeAttrs.add a ["contentType".toList, "mimeType".toList] [], []⟩ h0
  have e : (parseAs a).attribs.look "contentType".toList = some (some k) := this
  rw [e] at h'
  cases h'
  rfl

/-- The table of a content type is right for the first representation, if its stored segments fill the loop and there are
no others. -/
theorem table_fits {base : Text} {mpd : Xml} {s : Site} {name : Text} {a : Xml} {ifile : Text} {x : Xml} {id : Text}
    {seg : Nat → TimedFragment} (hS : StoredRep base (s.files name) mpd s.vodOf name a ifile x id seg)
    (hT : Tabled base mpd s name) (hx : (representations a).head? = some x) {kind : Text}
    (hc : a.get "contentType".toList = some kind) (hk : kind = "video".toList ∨ kind = "audio".toList)
    {v : VodCfg} (hvod : s.vodOf name = .ok v) {init : Bytes} {info : InitInfo}
    (hinit : (s.files name).file (id ++ '/' :: ifile) = some init) (hinfo : initInfo init = .ok info) {durs : List Nat}
    (hL : LoopOf v info.timescale info.defDur seg durs)
    (hend : (s.files name).file (storedFile id (v.firstSeg + v.nrSegs).toNat) = none) :
    ∃ tab, (kind = "video".toList → (s.tables name).1 = some tab) ∧ (kind = "audio".toList → (s.tables name).2 = some tab) ∧
      tab.Describes durs ∧ (tab.timescale : Int) = info.timescale ∧ (tab.nrInLoop : Int) = v.nrSegs ∧
      0 < tab.timescale ∧ NearNominal v.segDurS tab.timescale durs ∧ 0 < v.segDurS ∧ 0 ≤ v.firstSeg ∧
      (∀ m ∈ v.media, m.1 = kind → m.2.1 = tab.timescale) := by
  obtain ⟨l, r, v', hl, hnod, hr, hv', hveq, hdur, htab⟩ := table_known hS.analysed hT
  rw [hvod] at hv'
  cases hv'
  obtain ⟨i, hi⟩ := List.mem_iff_getElem?.mp hS.set
  obtain ⟨y, hy, hsee⟩ := forall2_get hl (i := i) (a := parseAs a) (by rw [List.getElem?_map, hi]; rfl)
  obtain ⟨q, qs, hkind, hreps, hscale, hset, -, -, -⟩ := seeSet_ok hsee
  have hyk := parseAs_kind hc hkind
  have hne : ∀ b ∈ l.map (·.set), b.reps ≠ [] := by
    intro b hb
    obtain ⟨y, hy, rfl⟩ := List.mem_map.mp hb
    obtain ⟨j, hj⟩ := List.mem_iff_getElem?.mp hy
    obtain ⟨s, -, hs⟩ := forall2_get' hl hj
    obtain ⟨q', qs', -, -, -, e, -, -, -⟩ := seeSet_ok hs
    rw [e]
    simp
  have hys : (l.map (·.set))[i]? = some y.set := by rw [List.getElem?_map, hy]; rfl
  have hyset : y.set ∈ l.map (·.set) := List.mem_iff_getElem?.mpr ⟨i, hys⟩
  have hplain := hS.analysed.ids a hS.set x hS.rep id hS.named
  -- the first representation
  have hsr : seeRep (s.files name) (parseAs a) (NodeAttrs.add x ["id".toList, "bandwidth".toList] []) = .ok q := by
    obtain ⟨b, hb, h⟩ := forall2_get hreps (i := 0)
      (a := NodeAttrs.add x ["id".toList, "bandwidth".toList] []) (by
        rw [parseAs_reps, List.getElem?_map, ← List.head?_eq_getElem?, hx]; rfl)
    cases hb
    exact h
  obtain ⟨ip, init', info', path, fuel, f1, f2, f3, f4, f5, f6, f7, f8⟩ := seeRep_ok hsr
  have hidb : q.id = id := by
    have := repNode_id f1
    rw [hS.named] at this
    cases this
    rfl
  rw [hidb] at f1
  have hip := initPath_file (fun m hm => parseAs_init hS.init hm) f1 hplain.dollar hS.ifile f2
  subst hip
  rw [hinit] at f3
  cases f3
  rw [hinfo] at f4
  cases f4
  have hp := mediaPath_number (fun m hm => parseAs_media hS.media hm) f1 hplain.dollar f5
  have hts : (y.set.timescale : Int) = info.timescale := by
    rw [← hscale q List.mem_cons_self, f7]
    omega
  have hv1 : v.firstSeg = r.first := by rw [hveq]; rfl
  have hv2 : v.nrSegs = r.nrInLoop := by rw [hveq]; rfl
  have hv3 : v.segDurS = r.segDur := by rw [hveq]; rfl
  obtain ⟨hlf, hkk⟩ := analyze_file _ r hr hne
  obtain ⟨-, k2, -⟩ := hkk i y.set hys
  have hqf : q.first = r.first := by
    refine (k2 q.first q.segs ?_).1
    rw [hset]
    simp
  have hseg := hS.loop v hvod
  have hlen1 : r.nrInLoop ≤ q.segs.length := by
    obtain ⟨p, d1, d2⟩ := readSegments_end f8
    rw [hp, formatNr_number hplain.percent, hqf] at d1
    cases d1
    by_contra hlt
    have := (hseg (r.first + q.segs.length) (by omega) (by push_cast; omega)).1
    rw [d2] at this
    cases this
  have hlen2 : q.segs.length ≤ r.nrInLoop := by
    by_contra hlt
    obtain ⟨p, data, d1, d2, -⟩ := readSegments_ok f8 r.nrInLoop _ (List.getElem?_eq_getElem (by omega))
    rw [hp, formatNr_number hplain.percent, hqf] at d1
    cases d1
    rw [hv1, hv2, show ((r.first : Int) + (r.nrInLoop : Int)).toNat = r.first + r.nrInLoop by omega] at hend
    rw [hend] at d2
    cases d2
  have hlen : q.segs.length = r.nrInLoop := by omega
  have hdl : durs.length = r.nrInLoop := by have := hL.count; omega
  have hread : ∀ j z, q.segs[j]? = some z → z.tfdt = (durs.take j).sum ∧ durs[j]? = some z.dur := by
    intro j z hz
    have hj : j < r.nrInLoop := by
      obtain ⟨hj, -⟩ := List.getElem?_eq_some_iff.mp hz
      omega
    obtain ⟨p, data, d1, d2, d3⟩ := readSegments_ok f8 j z hz
    rw [hp, formatNr_number hplain.percent, hqf] at d1
    cases d1
    obtain ⟨s1, s2⟩ := hseg (r.first + j) (by omega) (by push_cast; omega)
    rw [s1] at d2
    cases d2
    obtain ⟨t1, t2⟩ := readSegment_timed s2 d3
    have e : v.firstSeg.toNat = r.first := by omega
    have hjd : j < durs.length := by omega
    have h1 := hL.time j hjd
    have h2 := hL.dur j durs[j] (List.getElem?_eq_getElem hjd)
    rw [e] at h1 h2
    rw [List.getElem?_eq_getElem hjd, t1, t2, h1, h2]
    exact ⟨rfl, rfl⟩
  have hds : q.segs.map AnaSeg.dur = durs := by
    apply List.ext_getElem?
    intro j
    rw [List.getElem?_map]
    cases hz : q.segs[j]? with
    | none =>
      have := List.getElem?_eq_none_iff.mp hz
      rw [List.getElem?_eq_none (by omega)]
      rfl
    | some z => exact (hread j z hz).2.symm
  have hqr : y.set.reps = (r.first, q.segs) :: qs.map (fun q => (q.first, q.segs)) := by
    rw [hset, List.map_cons, hqf]
  have hpos : ∀ s ∈ q.segs, 0 < s.dur := by
    intro z hz
    apply hL.positive
    rw [← hds]
    exact List.mem_map.mpr ⟨z, hz, rfl⟩
  have hgap : NoGaps q.segs := noGaps_of (t0 := 0) (by
    intro j z hz
    rw [hds, Nat.zero_add]
    exact (hread j z hz).1)
  have hsum : durs.sum = r.nrInLoop * r.segDur * y.set.timescale := by
    have := hL.whole
    rw [hv2, hv3, ← hts] at this
    have h2 : ((durs.sum : Nat) : Int) = ((r.nrInLoop * r.segDur * y.set.timescale : Nat) : Int) := by
      rw [this]; push_cast; ring
    exact_mod_cast h2
  obtain ⟨bytes, ticks, es, hb, hes, hdesc⟩ := C41_describes_partial _ r hr hne i y.set hys r.first q.segs _ hqr hpos hgap
    (by
      intro z hz
      have := (hread 0 z (by rw [← List.head?_eq_getElem?]; exact hz)).1
      simpa using this) hlen (by rw [hds]; exact hsum)
  rw [hds] at hdesc
  have hll : l.length = r.files.length := by rw [hlf, List.length_map]
  obtain ⟨t1, t2⟩ := htab i y (bytes, ticks) es hy hb hes hll
  rw [hyk] at t1 t2
  have hnn : 0 < r.nrInLoop := by
    have := List.length_pos_iff.mpr (durs_ne hdesc)
    omega
  obtain ⟨s0, segs, hs0⟩ : ∃ s0 segs, q.segs = s0 :: segs := by
    cases hb : q.segs with
    | nil => rw [hb] at hlen; simp at hlen; omega
    | cons s0 segs => exact ⟨s0, segs, rfl⟩
  obtain ⟨-, -, drift⟩ := C54_drift _ r hr hne y.set hyset r.first s0 segs (by rw [hqr, hs0]; simp)
  have hz0 : s0.tfdt = 0 := by
    have := (hread 0 s0 (by rw [hs0]; rfl)).1
    simpa using this
  have hD : 0 < r.segDur := Nat.pos_of_ne_zero hdur
  have hdr : ∀ j, j < durs.length → 10 * |((j : Int) + 1) * (r.segDur * y.set.timescale) - ((durs.take (j + 1)).sum : Int)| <
      y.set.timescale := by
    intro j hj
    have hjq : j < q.segs.length := by omega
    have h1 := drift j q.segs[j] (by rw [← hs0]; exact List.getElem?_eq_getElem hjq)
    obtain ⟨u1, u2⟩ := hread j _ (List.getElem?_eq_getElem hjq)
    have : (durs.take (j + 1)).sum = q.segs[j].tfdt + q.segs[j].dur := by
      rw [List.take_add_one, u2, u1]
      simp
    rw [hz0] at h1
    rw [this]
    simpa using h1
  have hscpos : 0 < y.set.timescale := by
    have h1 := hdr 0 (by omega)
    have := abs_nonneg ((((0 : Nat) : Int) + 1) * (r.segDur * y.set.timescale) - ((durs.take (0 + 1)).sum : Int))
    omega
  refine ⟨_, t1, t2, hdesc, hts, by rw [hv2], hscpos, ?_, by omega, by omega, ?_⟩
  · rw [hv3]
    refine nearNominal_of_loop (durs_ne hdesc) (by rw [hsum, hdl]; push_cast; ring) ?_
    intro j hj
    have hDs : (y.set.timescale : Int) ≤ (r.segDur : Int) * y.set.timescale := by
      have : y.set.timescale * 1 ≤ y.set.timescale * r.segDur := Nat.mul_le_mul_left _ hD
      have h2 : ((y.set.timescale * r.segDur : Nat) : Int) = (r.segDur : Int) * y.set.timescale := by push_cast; ring
      omega
    have hb : 10 * |((durs.take j).sum : Int) - j * (r.segDur * y.set.timescale)| < y.set.timescale := by
      cases j with
      | zero => simp; omega
      | succ j =>
        have := hdr j (by omega)
        rw [abs_sub_comm]
        push_cast at this ⊢
        exact this
    have := abs_nonneg (((durs.take j).sum : Int) - j * (r.segDur * y.set.timescale))
    dsimp only
    constructor <;> omega
  · rw [← hyk, hveq]
    exact scale_media hnod hll hy hb (by rw [hyk]; exact hk)

/-! ### The buffer -/

theorem entryOf_lt {es : List SegEntry} {j : Nat} (h : j < (expandEntries es).length) : entryOf es j < es.length := by
  induction es generalizing j with
  | nil => simp [expandEntries] at h
  | cons e l ih =>
    unfold entryOf
    split
    · simp
    · rename_i hj
      have : j - (e.repeats + 1) < (expandEntries l).length := by
        simp only [expandEntries, List.flatMap_cons, List.length_append, List.length_replicate] at h ⊢
        omega
      have := ih this
      simp only [List.length_cons]
      omega

/-- A window inside one loop; the first loop has nothing before it. -/
theorem near_of_inside {t : SegTable} {durs : List Nat} (hd : t.Describes durs) {start stop m : Int}
    (h1 : m * t.wrap < start ∨ m = 0) (h2 : stop < (m + 1) * t.wrap) : t.Near durs start stop := by
  intro a b ha hb
  have hne := durs_ne hd
  have hpos := durs_pos hd
  have hn : 0 < durs.length := List.length_pos_iff.mpr hne
  have hw : 0 < t.wrap := by
    rw [← hd.wrap]
    cases durs with
    | nil => exact absurd rfl hne
    | cons x l =>
      have := hpos x (by simp)
      simp only [List.sum_cons]
      omega
  have e1 := loopStart_succ durs hne a
  have e2 := loopStart_succ durs hne b
  have hb1 : (loopEnd durs b : Int) ≤ stop := hb.1
  have ha1 : start ≤ loopEnd durs a := ha.2
  have hm : 0 ≤ m := by
    by_contra hc
    have : (m + 1) * (t.wrap : Int) ≤ 0 := Int.mul_nonpos_of_nonpos_of_nonneg (by omega) (by omega)
    omega
  obtain ⟨k, rfl⟩ := Int.eq_ofNat_of_zero_le hm
  have hk : ∀ k, loopStart durs (k * durs.length) = k * t.wrap := by
    intro k
    have := loopStart_split durs k 0 hn
    rw [hd.wrap] at this
    simpa using this
  have hA : k ≤ a / durs.length := by
    rcases h1 with h1 | h1
    swap
    · have : k = 0 := by exact_mod_cast h1
      rw [this]
      exact Nat.zero_le _
    rw [Nat.le_div_iff_mul_le hn]
    have : loopStart durs (k * durs.length) < loopStart durs (a + 1) := by
      rw [hk, e1]
      have : ((k * t.wrap : Nat) : Int) < loopEnd durs a := by push_cast; omega
      exact_mod_cast this
    by_contra hc
    have := (loopStart_le_iff durs hne hpos (a + 1) (k * durs.length)).mpr (by omega)
    omega
  have hB : b / durs.length ≤ k := by
    have : loopStart durs (b + 1) < loopStart durs ((k + 1) * durs.length) := by
      rw [hk, e2]
      have : (loopEnd durs b : Int) < ((k + 1) * t.wrap : Nat) := by push_cast; omega
      exact_mod_cast this
    by_contra hc
    have h3 : (k + 1) * durs.length ≤ b := by
      rw [← Nat.le_div_iff_mul_le hn]
      omega
    have := (loopStart_le_iff durs hne hpos ((k + 1) * durs.length) (b + 1)).mpr (by omega)
    omega
  have hlt := entryOf_lt (es := t.entries) (j := b % t.nrInLoop) (by
    rw [hd.expands, hd.count]
    exact Nat.mod_lt _ (by rw [← hd.count]; exact hn))
  unfold SegTable.entryCount
  rw [← hd.count] at hlt ⊢
  have h3 := Nat.mul_le_mul_right t.entries.length hB
  have h4 := Nat.mul_le_mul_right t.entries.length hA
  omega

/-- Within the buffer of `tsbd` seconds before `now` no run of segments of the same duration occurs a second time: the
buffer lies inside one loop (the first loop has nothing before it), or every run is shorter than the rest of the loop. -/
def Unrepeated (loop tsbd now : Int) (scale : Nat) (durs : List Nat) : Prop :=
  (∃ m : Int, (m * loop < now - tsbd ∨ m = 0) ∧ now < (m + 1) * loop) ∨
  ∀ (p q : List Nat) (n d : Nat), durs = p ++ List.replicate n d ++ q → n * d + tsbd * scale ≤ durs.sum

theorem unrepeated_near {t : SegTable} {durs : List Nat} (hd : t.Describes durs) (hs : 0 < t.timescale) {tsbd now : Int}
    (h : Unrepeated t.wrapSeconds tsbd now t.timescale durs) {a b : Int} (ha : now - tsbd ≤ a) (hb : b ≤ now) :
    t.Near durs (a * t.timescale) (b * t.timescale) := by
  have hs' : (0 : Int) < t.timescale := by omega
  rcases h with ⟨m, h1, h2⟩ | h
  · refine near_of_inside hd (m := m) ?_ ?_
    · have e : m * (t.wrap : Int) = m * t.wrapSeconds * t.timescale := by unfold SegTable.wrap; push_cast; ring
      rw [e]
      exact h1.imp_left fun h1 => mul_lt_mul_of_pos_right (by omega) hs'
    · have e : (m + 1) * (t.wrap : Int) = (m + 1) * t.wrapSeconds * t.timescale := by unfold SegTable.wrap; push_cast; ring
      rw [e]
      exact mul_lt_mul_of_pos_right (by omega) hs'
  · refine near_of_short t durs hd _ _ ?_
    intro e he
    obtain ⟨l1, l2, hl⟩ := List.append_of_mem he
    have hx := h (expandEntries l1) (expandEntries l2) (e.repeats + 1) e.dur (by
      rw [← hd.expands, hl]
      simp [expandEntries])
    rw [hd.wrap] at hx
    have h3 : b * (t.timescale : Int) - a * t.timescale ≤ tsbd * t.timescale := by
      rw [← sub_mul]
      exact mul_le_mul_of_nonneg_right (by omega) hs'.le
    push_cast at hx
    omega

/-! ### The server -/

/-- The first representation of the content type `kind`, from which the analyser made the table: its stored segments
have the durations `durs`, follow each other from time 0 without gaps, fill the loop, and there are no others. -/
def Source (base : Text) (mpd : Xml) (s : Site) (name : Text) (v : VodCfg) (kind : Text) (scale : Nat) (durs : List Nat) :
    Prop :=
  ∃ a ifile x id seg init info, StoredRep base (s.files name) mpd s.vodOf name a ifile x id seg ∧
    (representations a).head? = some x ∧ a.get "contentType".toList = some kind ∧
    (s.files name).file (id ++ '/' :: ifile) = some init ∧ initInfo init = .ok info ∧ info.timescale = scale ∧
    LoopOf v info.timescale info.defDur seg durs ∧
    (s.files name).file (storedFile id (v.firstSeg + v.nrSegs).toNat) = none

theorem getMedia_emsg {pf : Text → Option Rat} {c : Cfg} (hd : 0 < c.segDur) (hn : 0 < c.vodNr) (hm : c.multiUrl = [])
    {t : Rat} {w : Served} (h : getMedia pf c t = .ok (.media w)) : w.emsgLast = c.emsgLastSeg := by
  have hext := (getMedia_range h).2.2
  unfold getMedia at h
  rw [if_neg (by rw [hext]; simp)] at h
  dsimp only at h
  generalize (if c.ato = -1 then (c.ast : Rat) else c.ast + c.segDur - c.ato) = g at h
  split at h
  · cases h
  · split at h
    · cases h
    · rw [hm] at h
      have h : processMedia pf c t = .ok (.media w) := h
      unfold processMedia at h
      simp only [Py.bind_ok] at h
      obtain ⟨n, -, hp⟩ := h
      rw [processMediaNr_media (c := c) hd hn hp]

/-- **C81.** Content that the analyser accepted, with the tables that it wrote, served over HTTP with timelines: whatever
segment a timeline of the manifest lists, a client that asks for it by the URL that the manifest gives, by time or by
number, until a segment duration after the manifest, is answered 200 with a complete media segment whose decode time is
the listed time and whose duration is the listed duration, in the timescale that the manifest gives.
The stored segments of video and audio are without gaps, fill the loop and are the same in all representations asked for;
in the buffer no run of segments of the same duration occurs twice.
The service may be young, and it may have a stop that has not passed yet.
Missing: other content (`C81_wrap_violation`), start numbers, time offsets and other ends (C74), low latency, several BaseURLs. -/
theorem C81_timeline_partial {u : Setup} {s : Site} (hpf : ∀ n : Nat, s.pf (natText n) = some (n : Rat)) {base name : Text}
    {vod a : Xml} {ifile : Text} {x : Xml} {id : Text}
    {seg : Nat → TimedFragment} {v : VodCfg} {rp : Rep} {init : Bytes} {info : InitInfo}
    -- the representation, as the analyser left it
    (hS : StoredRep base (s.files name) vod s.vodOf name a ifile x id seg) (hslash : '/' ∉ id)
    (hvod : s.vodOf name = .ok v) (hrp : v.repInfo id = .ok rp)
    (hinit : (s.files name).file (id ++ '/' :: ifile) = some init) (hinfo : initInfo init = .ok info)
    (hroom : ∀ k : Nat, v.firstSeg ≤ k → (k : Int) < v.firstSeg + v.nrSegs → (seg k).Room)
    -- the tables
    (hT : Tabled base vod s name) {sv sa : Nat} {dv da durs : List Nat}
    (hv : Source base vod s name v "video".toList sv dv) (ha : Source base vod s name v "audio".toList sa da)
    (hdurs : durs = if rp.contentType = "video".toList then dv else da)
    (hL : LoopOf v info.timescale info.defDur seg durs)
    -- its manifest
    {file : Text} (hman : s.manifest name file = .ok vod) {infos rest : List Xml} {ownBase : Option Xml} {period : Xml}
    (hs : VodShape vod.kids infos ownBase period rest) (hrb : ∀ x ∈ rest, x.tag ≠ "BaseURL".toList) (hr : VodRoot vod)
    (hvt : VodTemplates period) (hpd : period.get "duration".toList = none)
    (hmedia : ∀ t ∈ templates period, t.get "media".toList = some "$RepresentationID$/$Number$.m4s".toList)
    -- the client
    {first : Text} {opts : List Text} {r0 : Request} {t0 : Rat} {c : Cfg} {text : Bytes}
    (hO : Opened u s first opts name file r0 t0 c text)
    -- the service
    (h : Running c) (htl : (c.segTimeline || c.segTimelineNr) = true) (hl : c.addLocation = false)
    (hm : c.multiUrl = []) (hch : c.chunkDur = none) (hx : c.xlink ≤ 0) (had : c.insertAd ≤ 0) (hsnr : c.startNr = 0)
    (hto : c.timeoffset = none) (hdend : ∀ d ∈ c.mpdDur, ((pyTrunc t0 - c.ast : Int) : Rat) ≤ d)
    (hetp : c.etpDuration = -1 ∨ 0 ≤ c.etpDuration)
    {tsbd : Int} (ht : c.tsbd = some tsbd) (hb : 0 ≤ tsbd) (hnow : c.ast ≤ pyTrunc t0)
    (hfull : 0 < c.periods → tsbd + v.segDurS ≤ pyTrunc t0)
    (hruns : Unrepeated (v.nrSegs * v.segDurS) tsbd (pyTrunc t0 - c.ast) sv dv ∧
      Unrepeated (v.nrSegs * v.segDurS) tsbd (pyTrunc t0 - c.ast) sa da) :
    ∃ out b, ReadsAs c vod r0 text out ∧ named "BaseURL" out = [b] ∧
      ∀ x ∈ named "Period" out, ∀ y ∈ named "AdaptationSet" x, ∀ t ∈ named "SegmentTemplate" y,
        y.get "contentType".toList = some rp.contentType →
        ∃ m tl segs, IntAttr t "timescale" (some info.timescale) ∧ t.get "media".toList = some m ∧
          named "SegmentTimeline" t = [tl] ∧ Lists 0 tl.kids segs ∧
          ∀ (i : Nat) (T : Int) (d : Nat), segs[i]? = some (T, d) →
          ∀ nr : Int, (∀ n ∈ t.get "startNumber".toList, pyInt n = .ok nr) →
          T < 2 ^ 64 → T + v.segDurS * info.timescale < 2 ^ 32 * info.timescale →
          ∀ r : Request, Asks r (b.text ++ fillTemplate id (intText (nr + i)) (intText T) m) →
          ∀ (now : Rat), pyTrunc t0 ≤ now → now ≤ pyTrunc t0 + v.segDurS →
          Means s.pf s.vodOf (opts ++ [name, file]) (pyTrunc now) c →
          gate u.maxLen r now = .pass → ∀ (sid : Text) (dflt : Headers),
            ∃ (k : Nat) (n loops : Int) (head : Bytes) (off : Nat), v.firstSeg ≤ k ∧ (k : Int) < v.firstSeg + v.nrSegs ∧
              T = (seg k).time + loops * (v.segDurS * v.nrSegs) * info.timescale ∧
              (seg k).duration info.defDur = d ∧
              Delivers (serve u s sid dflt r now).1 "video/iso.segment".toList
                (head ++ ((seg k).g.moved n T off).moof ++ boxesBytes (seg k).g.back) := by
  obtain ⟨e, out, hg, -, e1, e2, e3, e4, e5, hreads⟩ := hO.made hman hx had hm
  obtain ⟨s1, s2, s3⟩ := hO.slash
  obtain ⟨v', hv', -, -, -, c1, c2, c3⟩ := processUrl_manifest hO.options hO.content hO.means
  rw [hvod] at hv'
  cases hv'
  obtain ⟨av, fv, xv, iv, gv, nv, ov, V1, V2, V3, V4, V5, V6, V7, V8⟩ := hv
  obtain ⟨aa, fa, xa, ia, ga, na, oa, A1, A2, A3, A4, A5, A6, A7, A8⟩ := ha
  obtain ⟨tv, V9, -, Vd, Vt, Vc, Vp, Vn, hD, hF, Vm⟩ := table_fits V1 hT V2 V3 (Or.inl rfl) hvod V4 V5 V7 V8
  obtain ⟨ta, -, A9, Ad, At, Ac, Ap, An, -, -, Am⟩ := table_fits A1 hT A2 A3 (Or.inr rfl) hvod A4 A5 A7 A8
  have V9 := V9 rfl
  have A9 := A9 rfl
  have hwrap : ∀ {tab : SegTable} {ds : List Nat} {o : InitInfo} {g : Nat → TimedFragment}, tab.Describes ds →
      (tab.timescale : Int) = o.timescale → 0 < tab.timescale → LoopOf v o.timescale o.defDur g ds →
      (tab.wrapSeconds : Int) = v.nrSegs * v.segDurS := by
    intro tab ds o g hd ht hp hl
    have q1 := hd.wrap
    have q2 := hl.whole
    rw [q1, ← ht] at q2
    unfold SegTable.wrap at q2
    push_cast at q2
    have := mul_right_cancel₀ (show (tab.timescale : Int) ≠ 0 by omega) q2
    rw [this]
    ring
  have hsv : tv.timescale = sv := by omega
  have hsa : ta.timescale = sa := by omega
  have hfv : TableFits c (pyTrunc t0) tsbd tv dv := ⟨Vd, Vp, by rw [Vc, c2], by rw [c3]; exact Vn, by
    intro p q _ hp hq
    refine unrepeated_near Vd Vp (tsbd := tsbd) (now := pyTrunc t0 - c.ast) ?_ (by omega) hq
    rw [hwrap Vd Vt Vp V7, hsv]
    exact hruns.1⟩
  have hfa : TableFits c (pyTrunc t0) tsbd ta da := ⟨Ad, Ap, by rw [Ac, c2], by rw [c3]; exact An, by
    intro p q _ hp hq
    refine unrepeated_near Ad Ap (tsbd := tsbd) (now := pyTrunc t0 - c.ast) ?_ (by omega) hq
    rw [hwrap Ad At Ap A7, hsa]
    exact hruns.2⟩
  obtain ⟨b, hb1, hall⟩ := C74_fetch_partial hpf (vodOf := s.vodOf) hs hrb hr hvt hpd hmedia (more := [file])
    hO.options hO.content s3 e1 e2 e3 hvod h htl hl hm hsnr hto hdend hetp ht hb hnow (by rw [c3]; exact hfull)
    (e4.trans V9) (e5.trans A9) hfv hfa Vm Am hg
  have hplain := hS.analysed.ids a hS.set x hS.rep id hS.named
  refine ⟨out, b, hreads, hb1, ?_⟩
  intro p hp y hy t ht' hct
  obtain ⟨tab, ds, m, tl, segs, g1, g2, g3, g4, g5, g6⟩ := hall p hp y hy t ht'
  -- the table is that of the representation
  have hnva : "video".toList ≠ "audio".toList := by decide +kernel
  have htab : ds = durs ∧ tab.Describes durs ∧ 0 < tab.timescale ∧ NearNominal v.segDurS tab.timescale durs := by
    rw [hct] at g1
    rcases g1 with ⟨q1, rfl, rfl⟩ | ⟨q1, rfl, rfl⟩
    · have q2 : rp.contentType = "video".toList := Option.some.inj q1
      rw [if_pos q2] at hdurs
      subst hdurs
      exact ⟨rfl, Vd, Vp, Vn⟩
    · have q2 : rp.contentType = "audio".toList := Option.some.inj q1
      rw [if_neg (by rw [q2]; exact hnva.symm)] at hdurs
      subst hdurs
      exact ⟨rfl, Ad, Ap, An⟩
  obtain ⟨rfl, hd1, hd2, hd3⟩ := htab
  have hnr : 0 < v.nrSegs := by
    have := List.length_pos_iff.mpr (durs_ne hd1)
    have := hL.count
    omega
  have hsc : (tab.timescale : Int) = info.timescale := by
    have q1 := near_sum (durs_ne hd1) hd2 hd3
    rw [hL.whole, hL.count] at q1
    have : v.segDurS * v.nrSegs ≠ 0 := (Int.mul_pos hD hnr).ne'
    exact (mul_left_cancel₀ this q1).symm
  refine ⟨m, tl, segs, by rw [← hsc]; exact g2, g3, g4, g5, ?_⟩
  intro i T d hi nr hnr' hT64 hT32 r hask now ht1 ht2 hu hgate sid dflt
  obtain ⟨fname, hlead, hfext, hserve⟩ :=
    g6 i T d hi nr hnr' id rp hslash (splitDivider_single hplain.single) hrp hct
  have hpath : opts ++ [name] ++ [file] = opts ++ [name, file] := by simp
  have hpath' : opts ++ [name] ++ [id, fname] = opts ++ [name, id, fname] := by simp
  rw [hpath'] at hlead
  obtain ⟨c', hpu, hses, w, j, hgm, w1, w2, w3, w4⟩ := hserve (pyTrunc now) now (by rw [hpath]; exact hu) ht1 (by rw [c3]; exact ht2)
  rw [hpath'] at hpu
  have hparts := asks_parts s1 s2 hlead hask
  obtain ⟨v', reps, hv', -, d1, -, d6, d2, -, d3, d4, d5⟩ := processUrl_files hO.options hO.content hpu
  rw [hvod] at hv'
  cases hv'
  rw [hfext] at d2
  have hext : r.ext = ".m4s".toList := by
    unfold Request.ext
    rw [hparts]
    have : ([] :: first :: (opts ++ [name, id, fname]) : List Text).getLastD [] = fname := by
      rw [show ([] :: first :: (opts ++ [name, id, fname]) : List Text) =
        ([] :: first :: (opts ++ [name, id])) ++ [fname] by simp, List.getLastD_concat]
    rw [this, hfext]
  have hprov : provide s r now = provideMedia s r c' now := by
    unfold provide
    rw [hparts]
    simp only [List.drop_succ_cons, List.drop_zero, hpu]
    rw [if_pos d2]
  rw [serve_pass hgate, hprov]
  have hurl : ∃ opts file, (∀ p ∈ opts, (partSlot p).isSome) ∧
      processUrl s.pf s.vodOf (opts ++ [name, id, file]) (pyTrunc now) = .ok c' := ⟨opts, _, hO.options, hpu⟩
  have hq : ∀ {α : Type} (f : Cfg → α), (f (service c') = f (service c)) := fun f => by rw [hses]
  have q1 : c'.chunkDur = c.chunkDur := hq Cfg.chunkDur
  have q4 : c'.multiUrl = c.multiUrl := hq Cfg.multiUrl
  have q5 : c'.startNr = c.startNr := hq Cfg.startNr
  have q6 : c'.timeoffset = c.timeoffset := hq Cfg.timeoffset
  have hem : w.emsgLast = false := by
    rw [getMedia_emsg (by rw [d5]; exact hD) (by rw [d4]; exact hnr) (by rw [q4]; exact hm) hgm]
    exact processUrl_emsg hpu
  -- the number is small
  have hspos : (0 : Int) < info.timescale := by omega
  have hj : (j : Int) * v.segDurS < 2 ^ 32 := by
    have n1 := (hd3 j).2
    rw [w2] at n1
    have n2 := neg_abs_le (T - (j : Int) * (v.segDurS * tab.timescale))
    have n3 : (j : Int) * (v.segDurS * tab.timescale) = (j : Int) * v.segDurS * info.timescale := by rw [hsc]; ring
    rw [n3] at n1 n2
    rw [hsc] at n1
    have n4 : (j : Int) * v.segDurS * info.timescale < 2 ^ 32 * info.timescale := by
      have n5 := Int.mul_pos hD hspos
      omega
    exact lt_of_mul_lt_mul_right n4 hspos.le
  have hj32 : (j : Int) < 2 ^ 32 := by
    have : (j : Int) * 1 ≤ j * v.segDurS := mul_le_mul_of_nonneg_left (by omega) (by omega)
    omega
  obtain ⟨init', info', f1, f2, f3⟩ := C79_sent_partial hS hurl hgm (by
      intro k a1 a2
      rw [d3] at a1 a2
      rw [d4] at a2
      exact hroom k a1 a2) (by rw [q1]; exact hch) (by rw [d5, w1]; intro _; exact hj)
      (stamp := makeTimestamp (pyTrunc now)) (by rw [hem]; intro hc; cases hc)
  rw [hinit] at f1
  cases f1
  rw [hinfo] at f2
  cases f2
  obtain ⟨init', info', k, rp', z, l1, l2, l3, -, l5, -, -, -, l9, l10, l11, l12, l13, -⟩ := live_decision hS hurl hgm
  rw [hinit] at l1
  cases l1
  rw [hinfo] at l2
  cases l2
  have hmt : w.segTime = j * v.segDurS := by
    rw [l5, w1]
    unfold mediaTime firstNumber
    rw [q6, hto, q5, hsnr, d5, if_neg (by decide)]
    simp
  have hdiv : w.segTime / c'.segDur = j := by
    rw [hmt, d5]
    exact Int.mul_ediv_cancel _ (by omega)
  rw [hdiv, d3, d4] at l12
  have hk : k = v.firstSeg.toNat + j % ds.length := by
    have := hL.count
    have : ((j % ds.length : Nat) : Int) = (j : Int) % v.nrSegs := by rw [← hL.count]; push_cast; rfl
    omega
  have hjl : j % ds.length < ds.length := Nat.mod_lt _ (List.length_pos_iff.mpr (durs_ne hd1))
  obtain ⟨w5, -⟩ := w4 (fun z => (seg z.toNat).time) (by
    intro i hi
    rw [c1, show (v.firstSeg + (i : Int)).toNat = v.firstSeg.toNat + i by omega]
    exact hL.time i hi)
  have hkn : w.vodNr.toNat = k := by omega
  rw [hkn, hsc] at w5
  have hT0 : 0 ≤ T := by omega
  obtain ⟨body, hbody⟩ := f3.mpr (by
    rw [w1, hkn, w5]
    exact ⟨by omega, hj32, hT0, hT64⟩)
  obtain ⟨init', info', k2, off, head, m1, m2, m3, -, -, -, m7, -⟩ := live_reply hS ⟨hurl, hgm, _, hbody⟩
  rw [hinit] at m1
  cases m1
  rw [hinfo] at m2
  cases m2
  have hk2 : k2 = k := by omega
  subst hk2
  rw [w5] at m7
  refine ⟨k2, w.segNr, w.segTime / (c'.segDur * c'.vodNr), head, off, by omega, ?_, ?_, ?_, ?_⟩
  · have := hL.count
    omega
  · rw [← w5, l13, d4, d5]
  · rw [hk]
    refine hL.dur _ d ?_
    rw [List.getElem?_eq_getElem hjl]
    rw [← w3]
    unfold loopDur
    rw [List.getElem?_eq_getElem hjl]
    rfl
  · have hp : provideMedia s r c' now = .data body := by
      unfold provideMedia
      rw [hgm]
      dsimp only
      rw [d1, hbody]
    rw [hp, ← m7]
    have := answer_data u.agent u.notFound hask.2.1 (b := body) (by rw [m7]; exact moof_ne_nil _ _ _)
    rw [hext] at this
    exact this

/-! ### Cases -/

/-- The tables that the analyser writes. -/
def tablesAfter (base : Text) (fs : Files) (mpd : Xml) : Text → Option SegTable × Option SegTable := fun n =>
  if n = base then
    match analyzeContent base fs mpd with
    | .error _ => (none, none)
    | .ok out =>
      match readConfig (some out.config) with
      | .error _ => (none, none)
      | .ok f => (tableOf f out "video".toList, tableOf f out "audio".toList)
  else (none, none)

theorem tabled_after {base : Text} {mpd : Xml} {fs : Files} {s : Site} (hf : s.files base = fs)
    (hv : s.vodOf = vodAfter base fs mpd) (ht : s.tables = tablesAfter base fs mpd)
    (h : (vodAfter base fs mpd base).isOk = true) : Tabled base mpd s base := by
  unfold Tabled
  rw [hv, ht, hf]
  unfold vodAfter tablesAfter at *
  rw [if_pos rfl] at h ⊢
  rw [if_pos rfl]
  cases h1 : analyzeContent base fs mpd with
  | error e => rw [h1] at h; cases h
  | ok out =>
    rw [h1] at h
    cases h2 : readConfig (some out.config) with
    | error e =>
      simp only [bind, Except.bind, h2] at h
      cases h
    | ok f => exact ⟨out, f, rfl, h2, by simp only [bind, Except.bind, h2]; rfl, by simp only [h2]⟩

/-- A directory with segments of different durations. -/
def variedDir (id : String) : Text × List (Text × Bytes) :=
  (id.toList, [("init.mp4".toList, (infoInit false).bytes), ("1.m4s".toList, tinySegment 1 0 185000),
    ("2.m4s".toList, tinySegment 2 185000 175000), ("3.m4s".toList, tinySegment 3 360000 180000)])

def variedDurs : List Nat := [185000, 175000, 180000]

def variedSeg (k : Nat) : TimedFragment :=
  tinyTimed k (variedDurs.take (k - 1)).sum (variedDurs.getD (k - 1) 0)

def variedFiles : Files := filesOf [variedDir "V1", variedDir "A1"]

def variedSite : Site := { tinySite with
  files := fun _ => variedFiles
  vodOf := vodAfter "tiny".toList variedFiles tinyContent
  tables := tablesAfter "tiny".toList variedFiles tinyContent }

def variedSet (kind id : String) : Xml := tinySet kind "$RepresentationID$/$Number$.m4s" fromOne [id]

def variedRep (id : String) : Xml :=
  .elem "Representation".toList [("id".toList, id.toList), ("bandwidth".toList, "9".toList)] [] []

theorem varied_ok : (vodAfter "tiny".toList variedFiles tinyContent "tiny".toList).isOk = true := by decide +kernel

def variedTable : VodCfg := ((variedSite.vodOf "tiny".toList)).toOption.getD ⟨0, 0, 0, 0, []⟩

theorem varied_table : variedSite.vodOf "tiny".toList = .ok variedTable := by
  show vodAfter "tiny".toList variedFiles tinyContent "tiny".toList = _
  decide +kernel

theorem varied_values : (variedTable.firstSeg = 1 ∧ variedTable.nrSegs = 3 ∧ variedTable.segDurS = 2) ∧
    variedTable.repInfo "V1".toList = .ok ⟨"V1".toList, "video".toList, 90000⟩ := by decide +kernel

theorem varied_tabled : Tabled "tiny".toList tinyContent variedSite "tiny".toList := by
  have h1 : variedSite.files "tiny".toList = variedFiles := rfl
  have h2 : variedSite.vodOf = vodAfter "tiny".toList variedFiles tinyContent := rfl
  have h3 : variedSite.tables = tablesAfter "tiny".toList variedFiles tinyContent := rfl
  exact tabled_after h1 h2 h3 varied_ok

/-- The content type and the representation. -/
def variedKind (b : Bool) : String := if b then "video" else "audio"
def variedId (b : Bool) : String := if b then "V1" else "A1"

theorem varied_stored (b : Bool) :
    StoredRep "tiny".toList (variedSite.files "tiny".toList) tinyContent variedSite.vodOf "tiny".toList
      (variedSet (variedKind b) (variedId b)) "init.mp4".toList (variedRep (variedId b)) (variedId b).toList variedSeg where
  analysed := analysed_after (by decide +kernel) (by decide +kernel) varied_ok
  unique := by decide +kernel
  set := by
    cases b
    · have : (adaptationSets tinyContent)[1]? = some (variedSet (variedKind false) (variedId false)) := rfl
      exact List.mem_of_getElem? this
    · have : (adaptationSets tinyContent)[0]? = some (variedSet (variedKind true) (variedId true)) := rfl
      exact List.mem_of_getElem? this
  media := by unfold NumberTemplate; revert b; decide +kernel
  init := by unfold InitTemplate; revert b; decide +kernel
  ifile := by decide +kernel
  rep := by
    cases b
    · have : (representations (variedSet (variedKind false) (variedId false)))[0]? = some (variedRep (variedId false)) := rfl
      exact List.mem_of_getElem? this
    · have : (representations (variedSet (variedKind true) (variedId true)))[0]? = some (variedRep (variedId true)) := rfl
      exact List.mem_of_getElem? this
  named := by revert b; decide +kernel
  slot := by decide +kernel
  loop := by
    intro v hv k h1 h2
    have := Except.ok.inj (varied_table.symm.trans hv)
    subst this
    obtain ⟨⟨e1, e2, -⟩, -⟩ := varied_values
    have hk : k = 1 ∨ k = 2 ∨ k = 3 := by omega
    have ok : ∀ k : Fin 4, (variedDurs.take (k - 1)).sum < 2 ^ 64 ∧ variedDurs.getD (k - 1) 0 < 2 ^ 32 := by decide +kernel
    refine ⟨?_, tinyTimed_ok (ok ⟨k, by omega⟩).1 (ok ⟨k, by omega⟩).2⟩
    rw [variedSeg, tinyTimed_bytes]
    revert b
    rcases hk with rfl | rfl | rfl <;> decide +kernel

theorem varied_small (k : Nat) : variedDurs.getD (k - 1) 0 < 2 ^ 32 := by
  have : ∀ i : Fin 3, variedDurs.getD i 0 < 2 ^ 32 := by decide
  by_cases h : k - 1 < 3
  · exact this ⟨k - 1, h⟩
  · rw [List.getD_eq_getElem?_getD, List.getElem?_eq_none (by have : variedDurs.length = 3 := rfl; omega)]
    decide

theorem varied_init (b : Bool) :
    (variedSite.files "tiny".toList).file ((variedId b).toList ++ '/' :: "init.mp4".toList) = some (infoInit false).bytes ∧
      (variedSite.files "tiny".toList).file (storedFile (variedId b).toList 4) = none ∧
      (variedSet (variedKind b) (variedId b)).get "contentType".toList = some (variedKind b).toList := by
  revert b; decide +kernel

theorem varied_info : ∃ info, initInfo (infoInit false).bytes = .ok info ∧ info.timescale = (90000 : Nat) := by
  have : (initInfo (infoInit false).bytes).toOption.map (·.timescale) = some 90000 := by decide +kernel
  cases h : initInfo (infoInit false).bytes with
  | error e => rw [h] at this; cases this
  | ok i =>
    rw [h] at this
    exact ⟨i, rfl, Option.some.inj this⟩

theorem varied_loop (d : Option Nat) : LoopOf variedTable (90000 : Nat) d variedSeg variedDurs := by
  obtain ⟨⟨e1, e2, e3⟩, -⟩ := varied_values
  refine ⟨by rw [e2]; rfl, ?_, ?_, by decide, by rw [e2, e3]; decide⟩
  · intro i hi
    rw [e1]
    have : i = 0 ∨ i = 1 ∨ i = 2 := by have : variedDurs.length = 3 := rfl; omega
    rcases this with rfl | rfl | rfl <;> rfl
  · intro i x hx
    rw [e1]
    have hi := (List.getElem?_eq_some_iff.mp hx).1
    have : i = 0 ∨ i = 1 ∨ i = 2 := by have : variedDurs.length = 3 := rfl; omega
    rcases this with rfl | rfl | rfl <;> (cases hx; rfl)

theorem varied_source (b : Bool) : Source "tiny".toList tinyContent variedSite "tiny".toList variedTable
    (variedKind b).toList 90000 variedDurs := by
  obtain ⟨info, h1, h2⟩ := varied_info
  obtain ⟨g1, g2, g3⟩ := varied_init b
  obtain ⟨⟨e1, e2, e3⟩, -⟩ := varied_values
  refine ⟨_, _, _, _, _, _, info, varied_stored b, ?_, g3, g1, h1, h2, ?_, ?_⟩
  · cases b <;> rfl
  · rw [h2]; exact varied_loop _
  · rw [e1, e2]; exact g2

theorem short_runs {durs p q : List Nat} {n d : Nat} (hne : durs.IsChain (· ≠ ·)) (h : durs = p ++ List.replicate n d ++ q) :
    n ≤ 1 := by
  by_contra hc
  obtain ⟨m, rfl⟩ : ∃ m, n = m + 2 := ⟨n - 2, by omega⟩
  rw [h, List.append_assoc] at hne
  have := (List.IsChain.left_of_append (List.IsChain.right_of_append hne))
  simp [List.replicate_succ] at this

theorem varied_runs (now : Int) : Unrepeated (variedTable.nrSegs * variedTable.segDurS) 3 now 90000 variedDurs := by
  right
  intro p q n d h
  have h1 := short_runs (by decide) h
  have h2 : n = 0 ∨ d ≤ 185000 := by
    by_cases hn : n = 0
    · exact Or.inl hn
    · right
      have : ∀ x ∈ variedDurs, x ≤ 185000 := by decide
      apply this
      rw [h]
      simp [hn]
  have h3 : variedDurs.sum = 540000 := rfl
  rw [h3]
  rcases h2 with rfl | h2
  · simp
  · have : n * d ≤ 1 * d := Nat.mul_le_mul_right d h1
    push_cast
    have : ((n * d : Nat) : Int) ≤ d := by exact_mod_cast (by omega)
    push_cast at this
    omega

def variedManifest : Request := tinyGet ["livesim", "segtimeline_1", "tsbd_3", "tiny", "Manifest.mpd"]

/-- What the options of the manifest mean. -/
def variedCfg : Cfg := (processUrl examplePf variedSite.vodOf
  ["segtimeline_1".toList, "tsbd_3".toList, "tiny".toList, "Manifest.mpd".toList] 100).toOption.getD {}

theorem varied_opened : ∃ text, Opened tinySetup variedSite "livesim".toList ["segtimeline_1".toList, "tsbd_3".toList]
    "tiny".toList "Manifest.mpd".toList variedManifest 100 variedCfg text := by
  have h : (got variedSite variedManifest 100).map (fun x => (x.1, x.2.1)) = some (200, some "application/dash+xml".toList) := by
    decide +kernel
  obtain ⟨⟨n, ty, b⟩, hg, hx⟩ := Option.map_eq_some_iff.mp h
  cases hx
  obtain ⟨rep, h1, h2⟩ := got_ok hg
  refine ⟨b, ⟨"http://h/livesim/segtimeline_1/tsbd_3/tiny/Manifest.mpd".toList, ?_⟩, rfl, by decide +kernel, by decide +kernel,
    by decide +kernel, by decide +kernel, [], [], rep, h1, h2⟩
  exact ⟨by decide +kernel, rfl, "livesim/segtimeline_1/tsbd_3/tiny/Manifest.mpd".toList, by decide +kernel, by decide +kernel⟩

theorem varied_cfg :
    [variedCfg.segDur, variedCfg.vodNr, variedCfg.insertAd, variedCfg.xlink, variedCfg.startNr, variedCfg.etpDuration,
      variedCfg.ast] = [2, 3, -1, -1, 0, -1, 0] ∧
    (variedCfg.ato = 0 ∧ variedCfg.stopTime = none ∧ variedCfg.lastNrs = [] ∧ variedCfg.aet = none ∧ variedCfg.multiUrl = [] ∧
      variedCfg.tsbd = some 3 ∧ variedCfg.timeoffset = none) ∧
    ((variedCfg.segTimeline || variedCfg.segTimelineNr) = true ∧ variedCfg.addLocation = false) ∧ variedCfg.mpdDur = none ∧
    variedCfg.chunkDur = none := by
  decide +kernel

theorem varied_period : VodTemplates tinyPeriod ∧ tinyPeriod.get "duration".toList = none ∧
    ∀ t ∈ templates tinyPeriod, t.get "media".toList = some "$RepresentationID$/$Number$.m4s".toList := by
  refine ⟨⟨by decide +kernel, ?_⟩, by decide +kernel, by decide +kernel⟩
  have : ∀ t ∈ templates tinyPeriod, (named "SegmentTimeline" t).length = 0 := by decide +kernel
  exact fun t ht => List.length_eq_zero_iff.mp (this t ht)

theorem varied_readable : Readable variedCfg tinyContent variedManifest :=
  ⟨by decide +kernel, by decide +kernel, by decide +kernel, by decide +kernel⟩

theorem varied_manifest : variedSite.manifest "tiny".toList "Manifest.mpd".toList = .ok tinyContent := by
  show (if "Manifest.mpd".toList = "Manifest.mpd".toList then (.ok tinyContent : Py Xml) else .error .osError) = .ok tinyContent
  exact if_pos rfl

/-- `C81_timeline_partial` applies to a client of this server. -/
example : ∃ text out b, Opened tinySetup variedSite "livesim".toList ["segtimeline_1".toList, "tsbd_3".toList]
      "tiny".toList "Manifest.mpd".toList variedManifest 100 variedCfg text ∧
      (∃ t, text = utf8 t ∧ readXml t = some (treeEvents dashUri out)) ∧ named "BaseURL" out = [b] := by
  obtain ⟨text, hO⟩ := varied_opened
  obtain ⟨info, hinfo, hts⟩ := varied_info
  obtain ⟨v1, v2, v3, v4, v5⟩ := varied_cfg
  simp only [List.cons.injEq, and_true] at v1
  obtain ⟨a1, a2, a3, a4, a5, a6, a7⟩ := v1
  obtain ⟨b1, b2, b3, b4, b5, b6, b7⟩ := v2
  obtain ⟨c1, c3⟩ := v3
  obtain ⟨⟨e1, e2, e3⟩, hrp⟩ := varied_values
  obtain ⟨p1, p2, p3⟩ := varied_period
  have hplain : Plain variedCfg := ⟨by omega, by omega, by rw [b1], b2, b3, b4, by rw [b5]; decide, by rw [b6]; rfl⟩
  have h11 : variedCfg.ast ≤ pyTrunc 100 := by rw [a7]; decide +kernel
  have h12 : 0 < variedCfg.periods → 3 + variedTable.segDurS ≤ pyTrunc 100 := by rw [e3]; decide +kernel
  obtain ⟨out, b, g1, g2, -⟩ := C81_timeline_partial (s := variedSite) examplePf_nat (varied_stored true) (by decide +kernel)
    varied_table hrp (varied_init true).1 hinfo (fun k h1 h2 => tinyTimed_room (varied_small k)) varied_tabled
    (varied_source true) (varied_source false) (durs := variedDurs) (by simp) (by rw [hts]; exact varied_loop _)
    varied_manifest tiny_shape (by simp) tiny_root p1 p2 p3 hO hplain.running c1 c3 b5 v5 (by omega) (by omega) a5 b7
    (by rw [v4]; simp) (Or.inl a6) b6 (by decide) h11 h12 ⟨varied_runs _, varied_runs _⟩
  obtain ⟨t, ht, hread⟩ := g1
  exact ⟨text, out, b, hO, ⟨t, ht, hread varied_readable⟩, g2⟩

/-- At 100 s the manifest lists the segments 48 and 49, of different durations (8640000 and 8825000 in units of 1/90000 s).
A client gets them by these times, and segment 50, which ends at 102 s, is not there yet. -/
example : got variedSite (tinyGet ["livesim", "segtimeline_1", "tsbd_3", "tiny", "V1", "t8640000.m4s"]) 100 =
      some (200, some "video/iso.segment".toList, tinySegment 48 8640000 185000) ∧
    got variedSite (tinyGet ["livesim", "segtimeline_1", "tsbd_3", "tiny", "A1", "t8825000.m4s"]) 101 =
      some (200, some "video/iso.segment".toList, tinySegment 49 8825000 175000) ∧
    (got variedSite (tinyGet ["livesim", "segtimeline_1", "tsbd_3", "tiny", "V1", "t9000000.m4s"]) 101).map (·.1) = some 404 := by
  decide +kernel

/-! A presentation from 96 s to 108 s. -/

def stoppingManifest : Request := tinyGet ["livesim", "segtimeline_1", "start_96", "stop_108", "tiny", "Manifest.mpd"]

def stoppingOpts : List Text := ["segtimeline_1".toList, "start_96".toList, "stop_108".toList]

/-- What the options of the manifest mean. -/
def stoppingCfg : Cfg :=
  (processUrl examplePf variedSite.vodOf (stoppingOpts ++ ["tiny".toList, "Manifest.mpd".toList]) 100).toOption.getD {}

theorem stopping_opened : ∃ text, Opened tinySetup variedSite "livesim".toList stoppingOpts
    "tiny".toList "Manifest.mpd".toList stoppingManifest 100 stoppingCfg text := by
  have h : (got variedSite stoppingManifest 100).map (fun x => (x.1, x.2.1)) = some (200, some "application/dash+xml".toList) := by
    decide +kernel
  obtain ⟨⟨n, ty, b⟩, hg, hx⟩ := Option.map_eq_some_iff.mp h
  cases hx
  obtain ⟨rep, h1, h2⟩ := got_ok hg
  refine ⟨b, ⟨"http://h/livesim/segtimeline_1/start_96/stop_108/tiny/Manifest.mpd".toList, ?_⟩, rfl, by decide +kernel,
    by decide +kernel, by decide +kernel, by decide +kernel, [], [], rep, h1, h2⟩
  exact ⟨by decide +kernel, rfl, "livesim/segtimeline_1/start_96/stop_108/tiny/Manifest.mpd".toList, by decide +kernel,
    by decide +kernel⟩

theorem stopping_cfg :
    [stoppingCfg.segDur, stoppingCfg.vodNr, stoppingCfg.insertAd, stoppingCfg.xlink, stoppingCfg.startNr,
      stoppingCfg.etpDuration, stoppingCfg.ast, stoppingCfg.periods] = [2, 3, -1, -1, 0, -1, 96, -1] ∧
    (stoppingCfg.ato = 0 ∧ stoppingCfg.stopTime = some 108 ∧ stoppingCfg.lastNrs = [] ∧ stoppingCfg.aet = none ∧
      stoppingCfg.multiUrl = [] ∧ stoppingCfg.tsbd = some 12 ∧ stoppingCfg.timeoffset = none) ∧
    ((stoppingCfg.segTimeline || stoppingCfg.segTimelineNr) = true ∧ stoppingCfg.addLocation = false) ∧
    stoppingCfg.mpdDur = some 12 ∧ stoppingCfg.chunkDur = none := by
  decide +kernel

/-- `C81_timeline_partial` applies to a client of it, 4 s after its start. -/
example : ∃ text out b, Opened tinySetup variedSite "livesim".toList stoppingOpts
      "tiny".toList "Manifest.mpd".toList stoppingManifest 100 stoppingCfg text ∧
      ReadsAs stoppingCfg tinyContent stoppingManifest text out ∧ named "BaseURL" out = [b] := by
  obtain ⟨text, hO⟩ := stopping_opened
  obtain ⟨info, hinfo, hts⟩ := varied_info
  obtain ⟨v1, v2, v3, v4, v5⟩ := stopping_cfg
  simp only [List.cons.injEq, and_true] at v1
  obtain ⟨a1, a2, a3, a4, a5, a6, a7, a8⟩ := v1
  obtain ⟨b1, b2, b3, b4, b5, b6, b7⟩ := v2
  obtain ⟨c1, c3⟩ := v3
  obtain ⟨⟨e1, e2, e3⟩, hrp⟩ := varied_values
  obtain ⟨p1, p2, p3⟩ := varied_period
  have h100 : pyTrunc 100 = 100 := by decide +kernel
  have hrun : Running stoppingCfg := ⟨by omega, by omega, by rw [b1], b3, b4, by rw [b5]; decide, by rw [b6]; rfl, by
    intro z hz
    rw [b2] at hz
    cases hz
    rw [a1, a7, v4]
    decide +kernel⟩
  have hruns : Unrepeated (variedTable.nrSegs * variedTable.segDurS) 12 (pyTrunc 100 - stoppingCfg.ast) 90000 variedDurs := by
    refine Or.inl ⟨0, Or.inr rfl, ?_⟩
    rw [e2, e3, a7, h100]
    decide
  obtain ⟨out, b, g1, g2, -⟩ := C81_timeline_partial (s := variedSite) examplePf_nat (varied_stored true) (by decide +kernel)
    varied_table hrp (varied_init true).1 hinfo (fun k h1 h2 => tinyTimed_room (varied_small k)) varied_tabled
    (varied_source true) (varied_source false) (durs := variedDurs) (by simp) (by rw [hts]; exact varied_loop _)
    varied_manifest tiny_shape (by simp) tiny_root p1 p2 p3 hO hrun c1 c3 b5 v5 (by omega) (by omega) a5 b7
    (by rw [v4, a7, h100]; intro d hd; cases hd; decide +kernel) (Or.inl a6) b6 (by decide) (by rw [a7, h100]; decide) (by omega) ⟨hruns, hruns⟩
  exact ⟨text, out, b, hO, g1, g2⟩

/-- Its manifest lists two segments, which a client gets; the third has not ended. -/
example :
    ((got variedSite stoppingManifest 100).map fun x =>
      (x.1, decide (utf8 "<S t=\"0\" d=\"185000\" /><S d=\"175000\" /></SegmentTimeline>".toList <:+: x.2.2))) =
      some (200, true) ∧
    (got variedSite (tinyGet ["livesim", "segtimeline_1", "start_96", "stop_108", "tiny", "V1", "t185000.m4s"]) 100).map
      (·.1) = some 200 ∧
    (got variedSite (tinyGet ["livesim", "segtimeline_1", "start_96", "stop_108", "tiny", "V1", "t360000.m4s"]) 100).map
      (·.1) = some 404 := by
  decide +kernel

/-- The server with `tinyContent` and its tables. -/
def evenSite : Site := { tinySite with tables := tablesAfter "tiny".toList tinyFiles tinyContent }

/-- **C81 fails** when the buffer reaches over the end of the loop and all segments have the same duration (C28): at 106 s
with a buffer of 5 s the manifest lists four segments from 100 s on, the last of which, from 106 s to 108 s, has not
begun.  A client that asks for it is answered 404. -/
theorem C81_wrap_violation :
    ((got evenSite (tinyGet ["livesim", "segtimeline_1", "tsbd_5", "tiny", "Manifest.mpd"]) 106).map fun x =>
      (x.1, decide (utf8 "<S t=\"9000000\" d=\"180000\" r=\"1\" /><S d=\"180000\" r=\"1\" />".toList <:+: x.2.2))) =
      some (200, true) ∧
    (9540000 : Int) = 9000000 + 3 * 180000 ∧
    (got evenSite (tinyGet ["livesim", "segtimeline_1", "tsbd_5", "tiny", "V1", "t9540000.m4s"]) 106).map (·.1) = some 404 ∧
    got evenSite (tinyGet ["livesim", "segtimeline_1", "tsbd_5", "tiny", "V1", "t9360000.m4s"]) 106 =
      some (200, some "video/iso.segment".toList, tinySegment 52 9360000 180000) := by
  decide +kernel

end Verif
