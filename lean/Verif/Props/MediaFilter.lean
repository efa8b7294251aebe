import Verif.Lemmas.Segment
import Verif.Props.Availability
/-
C05, C07, C10, C11, C12, C43: what the media segment filter does to a segment.
-/
namespace Verif

/-! ### C07: brands -/

/-- The brand of a last segment. -/
abbrev lmsg : Bytes := [108, 109, 115, 103]

theorem keptBrands_eq : ∀ (brands : List Bytes) (pre : Bytes) (fuel : Nat),
    (∀ b ∈ brands, b.length = 4) → brands.length ≤ fuel →
    keptBrands (pre ++ brands.flatten) (pre.length + 4 * brands.length) fuel pre.length
      = brands.filter (fun b => decide (b ≠ lmsg)) := by
  intro brands
  induction brands with
  | nil =>
    intro pre fuel _ _
    cases fuel <;> simp [keptBrands]
  | cons b bs ih =>
    intro pre fuel hb hf
    obtain ⟨k, rfl⟩ : ∃ k, fuel = k + 1 := ⟨fuel - 1, by simp at hf; omega⟩
    have hb4 := hb b (by simp)
    have hsl : slice (pre ++ (b :: bs).flatten) pre.length (pre.length + 4) = b := by
      rw [List.flatten_cons, ← List.append_assoc]
      exact slice_eq_of_append pre b bs.flatten rfl (by rw [hb4])
    rw [keptBrands, if_pos (by simp), hsl]
    have hrec : keptBrands (pre ++ (b :: bs).flatten) (pre.length + 4 * (b :: bs).length) k
        (pre.length + 4) = bs.filter (fun b => decide (b ≠ lmsg)) := by
      have := ih (pre ++ b) k (fun x hx => hb x (by simp [hx])) (by simpa using hf)
      rw [← this]
      congr 1
      · simp
      · simp [hb4]; omega
      · simp [hb4]
    simp only [hrec]
    by_cases hx : b = lmsg
    · simp [hx]
    · rw [List.filter_cons, if_pos (show decide (b ≠ lmsg) = true by simpa using hx)]
      rw [if_pos (show b ≠ [108, 109, 115, 103] from hx)]

theorem processStyp_step {c : MfCfg} {data e z : Bytes} {size : Nat} {new : List Bytes}
    (hs : strToUint32 (data.take 4) = .ok size) (hk : newBrands c data size = new)
    (hu : uint32ToStr ((8 + 4 * new.length : Nat) : Int) = .ok z) (he : scteOfSegment c = .ok e) :
    processStyp c data = .ok (z ++ tyStyp ++ new.flatten ++ e) := by
  unfold processStyp
  rw [hs]
  simp only [hk]
  rw [hu]
  simp only [he]

theorem processStyp_eq (c : MfCfg) (brands : List Bytes) (hb : ∀ b ∈ brands, b.length = 4)
    (hl : 8 + 4 * brands.length + 4 < 2 ^ 32) (e : Bytes) (he : scteOfSegment c = .ok e) :
    processStyp c (boxBytes tyStyp brands.flatten) =
      .ok (boxBytes tyStyp (brands.filter (fun b => decide (b ≠ lmsg)) ++
        (if c.lmsg then [lmsg] else [])).flatten ++ e) := by
  have hlen : ∀ l : List Bytes, (∀ b ∈ l, b.length = 4) → l.flatten.length = 4 * l.length := by
    intro l hl
    induction l with
    | nil => rfl
    | cons a l ih =>
      rw [List.flatten_cons, List.length_append, ih (fun x hx => hl x (by simp [hx])),
        hl a (by simp), List.length_cons]
      omega
  have hsz : strToUint32 ((boxBytes tyStyp brands.flatten).take 4)
      = .ok (8 + 4 * brands.length) := by
    have := boxBytes_size (c := brands.flatten) (by rw [hlen brands hb]; omega) tyStyp []
    rw [List.append_nil, hlen brands hb] at this
    exact this
  have hkept : keptBrands (boxBytes tyStyp brands.flatten) (8 + 4 * brands.length)
      (8 + 4 * brands.length) 8 = brands.filter (fun b => decide (b ≠ lmsg)) := by
    have := keptBrands_eq brands (beBytes 4 (8 + brands.flatten.length) ++ tyStyp)
      (8 + 4 * brands.length) hb (by omega)
    simpa [boxBytes] using this
  have hout : newBrands c (boxBytes tyStyp brands.flatten) (8 + 4 * brands.length)
      = brands.filter (fun b => decide (b ≠ lmsg)) ++ (if c.lmsg then [lmsg] else []) := by
    unfold newBrands
    rw [hkept]
    cases c.lmsg <;> simp
  have hfl := List.length_filter_le (fun b => decide (b ≠ lmsg)) brands
  have h4 : ∀ b ∈ brands.filter (fun b => decide (b ≠ lmsg)) ++ (if c.lmsg then [lmsg] else []),
      b.length = 4 := by
    intro b hbm
    rcases List.mem_append.1 hbm with h | h
    · exact hb b (List.mem_filter.1 h).1
    · split at h
      · simp at h; rw [h]; rfl
      · simp at h
  have hnl : (brands.filter (fun b => decide (b ≠ lmsg)) ++
      (if c.lmsg then [lmsg] else [])).length ≤ brands.length + 1 := by
    rw [List.length_append]
    have : (if c.lmsg then [lmsg] else []).length ≤ 1 := by split <;> simp
    omega
  rw [processStyp_step hsz hout (uint32ToStr_nat (by omega)) he]
  rw [boxBytes, hlen _ h4]

/-- A styp box: major brand, minor version, compatible brands (ISO/IEC 14496-12 clause 8.16.2). -/
def stypBox (major minor : Bytes) (compat : List Bytes) : Bytes :=
  boxBytes tyStyp (major ++ minor ++ compat.flatten)

/-- **C07.** For every styp box whose major brand is not `lmsg` (and whose minor version does
not spell it): the result is a styp box with the same major brand and minor version, followed
by the event message box if there is one; its brands contain `lmsg` iff the segment is marked
as last, and the other brands are unchanged and in order.

Missing for the full statement: `lmsg` as major brand, see `C07_major_violation`. -/
theorem C07_styp_partial (c : MfCfg) (major minor : Bytes) (compat : List Bytes)
    (hma : major.length = 4) (hmi : minor.length = 4) (hc : ∀ b ∈ compat, b.length = 4)
    (hl : 20 + 4 * compat.length < 2 ^ 32) (hm1 : major ≠ lmsg) (hm2 : minor ≠ lmsg)
    (e : Bytes) (he : scteOfSegment c = .ok e) :
    ∃ new, processStyp c (stypBox major minor compat) = .ok (stypBox major minor new ++ e) ∧
      (∀ b ∈ new, b.length = 4) ∧ (lmsg ∈ new ↔ c.lmsg = true) ∧
      new.filter (fun b => decide (b ≠ lmsg)) = compat.filter (fun b => decide (b ≠ lmsg)) ∧
      (c.lmsg = true → new.count lmsg = 1) := by
  refine ⟨compat.filter (fun b => decide (b ≠ lmsg)) ++ (if c.lmsg then [lmsg] else []), ?_, ?_, ?_,
    ?_, ?_⟩
  · have := processStyp_eq c (major :: minor :: compat)
      (by simpa [hma, hmi] using hc) (by simp; omega) e he
    simpa [stypBox, hm1, hm2, List.filter_cons] using this
  · intro b hb
    rcases List.mem_append.1 hb with h | h
    · exact hc b (List.mem_filter.1 h).1
    · split at h
      · simp at h; rw [h]; rfl
      · simp at h
  · cases c.lmsg <;> simp
  · rw [List.filter_append, List.filter_filter]
    cases c.lmsg <;> simp
  · intro h
    rw [h, List.count_append]
    have : (compat.filter (fun b => decide (b ≠ lmsg))).count lmsg = 0 := by
      rw [List.count_eq_zero]
      simp
    rw [this]; decide

/-- **C07 (idempotent).** Rewriting the rewritten box changes nothing, for every brand list. -/
theorem C07_idempotent (c : MfCfg) (brands : List Bytes) (hb : ∀ b ∈ brands, b.length = 4)
    (hl : 16 + 4 * brands.length < 2 ^ 32) (he : scteOfSegment c = .ok []) :
    ∃ out, processStyp c (boxBytes tyStyp brands.flatten) = .ok out ∧
      processStyp c out = .ok out := by
  have h1 := processStyp_eq c brands hb (by omega) [] he
  refine ⟨_, h1, ?_⟩
  have hfl := List.length_filter_le (fun b => decide (b ≠ lmsg)) brands
  rw [List.append_nil, processStyp_eq c _ _ _ [] he, List.append_nil]
  · rw [List.filter_append, List.filter_filter]
    cases c.lmsg <;> simp
  · intro b hbm
    rcases List.mem_append.1 hbm with h | h
    · exact hb b (List.mem_filter.1 h).1
    · split at h
      · simp at h; rw [h]; rfl
      · simp at h
  · rw [List.length_append]
    have : (if c.lmsg then [lmsg] else []).length ≤ 1 := by split <;> simp
    omega

/-- **C07 (which segments).** A served segment is marked as last iff its number is in the list
of last segment numbers of the configuration. -/
theorem C07_last_segments (pf : Text → Option Rat) {c : Cfg} (h : WellFormed c) (n : Int)
    (now : Rat) {v : Served} (hv : getMedia pf (c.forNr n) now = .ok (.media v)) :
    v.lmsg = true ↔ (n : Rat) ∈ c.lastNrs := by
  rw [served_eq h hv]
  simp

/-- **C07 violated** for `lmsg` as major brand: the minor version becomes the major brand and
the first compatible brand the minor version. -/
theorem C07_major_violation :
    ∃ c : MfCfg, scteOfSegment c = .ok [] ∧ c.lmsg = false ∧
      processStyp c (stypBox lmsg [0, 0, 0, 0] [[109, 115, 100, 104], [109, 115, 105, 120]]) =
        .ok (stypBox [0, 0, 0, 0] [109, 115, 100, 104] [[109, 115, 105, 120]]) :=
  ⟨{ segNr := some 7, segDur := 2, offset := 0, lmsg := false, timescale := some 90000,
     perMinute := 0, insertSidx := false, emsgLast := none, defaultDur := none },
    by decide +kernel, rfl, by decide +kernel⟩

/-- A filter for segment 7 of 2 s, marked last, one loop of 3600 s after the start. -/
def exampleMf : MfCfg :=
  { segNr := some 7, segDur := 2, offset := 3600, lmsg := true, timescale := some 90000,
    perMinute := 0, insertSidx := false, emsgLast := none, defaultDur := none }

example : scteOfSegment exampleMf = .ok [] ∧
    processStyp exampleMf (stypBox [109, 115, 100, 104] [0, 0, 0, 0]
      [[109, 115, 100, 104], lmsg, [109, 115, 105, 120]]) =
    .ok (stypBox [109, 115, 100, 104] [0, 0, 0, 0]
      [[109, 115, 100, 104], [109, 115, 105, 120], lmsg]) := by
  constructor <;> decide +kernel

/-! ### C10: decode time -/

/-- The decode time a client reads from a tfdt box (ISO/IEC 14496-12 clause 8.8.12). -/
def decodeTimeOf (box : Bytes) : Option Nat :=
  match box[8]? with
  | none => none
  | some v =>
    if v = 0 then (if 16 ≤ box.length then some (beVal (slice box 12 16)) else none)
    else (if 20 ≤ box.length then some (beVal (slice box 12 20)) else none)

theorem decodeTimeOf_payload (wide : Bool) (f2 f1 f0 : UInt8) (t : Nat)
    (ht : t < (if wide then 2 ^ 64 else 2 ^ 32)) :
    decodeTimeOf (boxBytes tyTfdt (tfdtPayload wide f2 f1 f0 t)) = some t := by
  unfold decodeTimeOf
  rw [box_get8 rfl]
  cases wide with
  | true =>
    have h0 : (tfdtPayload true f2 f1 f0 t)[0]? = some 1 := rfl
    rw [h0]
    simp only
    rw [if_neg (by decide), if_pos (by simp [boxBytes_length, tfdtPayload]),
      box_slice rfl _ _ _ (by omega)]
    have := slice_eq_of_append [1, f2, f1, f0] (beBytes 8 t) [] (a := 4) (b := 12) rfl (by simp)
    rw [List.append_nil] at this
    simp only [tfdtPayload, if_true]
    rw [this, beVal_beBytes_of_lt (by simpa using ht)]
  | false =>
    have h0 : (tfdtPayload false f2 f1 f0 t)[0]? = some 0 := rfl
    rw [h0]
    simp only
    rw [if_pos trivial, if_pos (by simp [boxBytes_length, tfdtPayload]),
      box_slice rfl _ _ _ (by omega)]
    have := slice_eq_of_append [0, f2, f1, f0] (beBytes 4 t) [] (a := 4) (b := 8) rfl (by simp)
    rw [List.append_nil] at this
    simp only [tfdtPayload, Bool.false_eq_true, if_false]
    rw [this, beVal_beBytes_of_lt (by simpa using ht)]

/-- **C10.** Every decode time box (32 or 64 bit), every offset and timescale.  With `new` the
input time plus offset times timescale:
* a result below 2^32 of a 32-bit box keeps the 32-bit form (same length, flags kept);
* from 2^32 on it has the 64-bit form and is four bytes longer;
* a 64-bit box stays 64-bit with the same length;
* in all these cases a client reads `new`;
* a result that does not fit (negative or from 2^64 on) raises. -/
theorem C10_exact (c : MfCfg) (ts : Int) (hts : c.timescale = some ts) (wide : Bool)
    (f2 f1 f0 : UInt8) (t : Nat) (ht : t < (if wide then 2 ^ 64 else 2 ^ 32)) (s : MfState) :
    let box := boxBytes tyTfdt (tfdtPayload wide f2 f1 f0 t)
    let new := (t : Int) + c.offset * ts
    (0 ≤ new → new < 2 ^ 64 → ∃ out s', processTfdt c box s = .ok (out, s') ∧
      decodeTimeOf out = some new.toNat ∧ s'.tfdt = some new ∧
      (wide = false → new < 2 ^ 32 →
        out = boxBytes tyTfdt (tfdtPayload false f2 f1 f0 new.toNat) ∧ out.length = box.length) ∧
      (wide = false → 2 ^ 32 ≤ new →
        out = boxBytes tyTfdt (tfdtPayload true f2 f1 f0 new.toNat) ∧
        out.length = box.length + 4) ∧
      (wide = true → out = boxBytes tyTfdt (tfdtPayload true f2 f1 f0 new.toNat) ∧
        out.length = box.length)) ∧
    (new < 0 ∨ 2 ^ 64 ≤ new → processTfdt c box s = .error .structError) := by
  intro box new
  rw [processTfdt_ok c wide f2 f1 f0 t ht s ts hts]
  constructor
  · intro h0 h1
    simp only
    rw [if_neg (by omega)]
    by_cases hw : wide = true ∨ 2 ^ 32 ≤ (t : Int) + c.offset * ts
    · rw [if_pos hw]
      refine ⟨_, _, rfl, ?_, rfl, ?_, ?_, ?_⟩
      · rw [show (if wide then f2 else f2) = f2 by cases wide <;> rfl]
        exact decodeTimeOf_payload true f2 f1 f0 _ (by simp; omega)
      · intro a b
        rcases hw with hw | hw
        · rw [a] at hw; cases hw
        · exact absurd b (by omega)
      · intro a b
        subst a
        exact ⟨rfl, by simp [box, boxBytes_length, tfdtPayload]⟩
      · intro a
        subst a
        exact ⟨rfl, by simp [box, boxBytes_length, tfdtPayload]⟩
    · rw [if_neg hw]
      simp only [not_or, Bool.not_eq_true] at hw
      obtain ⟨rfl, hw⟩ := hw
      refine ⟨_, _, rfl, ?_, rfl, ?_, ?_, ?_⟩
      · exact decodeTimeOf_payload false f2 f1 f0 _ (by simp; omega)
      · intro _ _
        exact ⟨rfl, by simp [box, boxBytes_length, tfdtPayload]⟩
      · intro _ b; exact absurd b hw
      · intro a; cases a
  · intro h
    simp only
    rw [if_pos h]

/-- 32-bit time 4294967290 plus 3600 s of 90 kHz needs 64 bits. -/
example : (processTfdt exampleMf (boxBytes tyTfdt (tfdtPayload false 0 0 0 4294967290))
    exampleMf.init).map (fun r => (decodeTimeOf r.1, r.1.length)) =
      .ok (some 4618967290, 20) ∧
    (processTfdt exampleMf (boxBytes tyTfdt (tfdtPayload false 0 0 0 180000))
    exampleMf.init).map (fun r => (decodeTimeOf r.1, r.1.length)) =
      .ok (some 324180000, 16) := by
  constructor <;> decide +kernel

/-! ### C12: sequence number -/

/-- **C12.** The sequence number box gets the number of the filter (the live number), all
other bytes stay; a number that does not fit 32 bits raises. -/
theorem C12_mfhd (c : MfCfg) (n : Int) (hn : c.segNr = some n) (vf seq : Bytes)
    (hvf : vf.length = 4) (hseq : seq.length = 4) :
    processMfhd c (boxBytes tyMfhd (vf ++ seq)) =
      if 0 ≤ n ∧ n < 2 ^ 32 then .ok (boxBytes tyMfhd (vf ++ beBytes 4 n.toNat))
      else .error .structError := by
  unfold processMfhd
  rw [hn]
  simp only
  by_cases hr : 0 ≤ n ∧ n < 2 ^ 32
  · rw [uint32ToStr, if_pos (by omega), if_pos hr]
    simp only
    rw [box_take rfl _ _ (by omega), show (vf ++ seq).take (12 - 8) = vf from List.take_left' hvf]
    simp [boxBytes, hseq]
  · rw [uint32ToStr, if_neg (by omega), if_neg hr]

/-- **C12 (live number).** The number handed to the filter is the requested number. -/
theorem C12_number (pf : Text → Option Rat) {c : Cfg} (h : WellFormed c) (n : Int)
    (now : Rat) {v : Served} (hv : getMedia pf (c.forNr n) now = .ok (.media v)) :
    v.segNr = n := by
  rw [served_eq h hv]

example : processMfhd exampleMf (boxBytes tyMfhd ([0, 0, 0, 0] ++ [0, 0, 1, 2]))
    = .ok (boxBytes tyMfhd [0, 0, 0, 0, 0, 0, 0, 7]) := by decide +kernel

/-! ### C11: the whole segment -/

theorem moofScan_front (l : List (Bytes × Bytes)) (rest : List (Nat × Bytes)) :
    ∀ (pos st sz : Nat), (∀ x ∈ l, x.1 ∉ [tyMoof, tyMdat]) →
    moofScan ((l.filter (fun x => decide (0 < x.2.length))).map (fun x => (x.2.length, x.1)) ++ rest)
      pos st sz = moofScan rest (pos + (l.map Prod.snd).flatten.length) st sz := by
  induction l with
  | nil => intro pos st sz _; simp
  | cons x l ih =>
    intro pos st sz hx
    have h1 := hx x (by simp)
    simp only [List.mem_cons, not_or] at h1
    have ih' := fun pos => ih pos st sz (fun y hy => hx y (by simp [hy]))
    by_cases hl : 0 < x.2.length
    · rw [List.filter_cons, if_pos (by simpa using hl), List.map_cons, List.cons_append, moofScan,
        if_neg h1.1, if_neg h1.2.1, ih']
      rw [List.map_cons, List.flatten_cons, List.length_append, Nat.add_assoc]
    · rw [List.filter_cons, if_neg (by simpa using hl), ih', List.map_cons, List.flatten_cons,
        List.length_append, Nat.eq_zero_of_not_pos hl, Nat.zero_add]

theorem moofScan_back (l : List (Bytes × Bytes)) :
    ∀ (pos st sz : Nat), (∀ x ∈ l, x.1 ≠ tyMoof) →
    (moofScan (l.map (fun x => (x.2.length, x.1))) pos st sz).1 = st ∧
    ((∀ x ∈ l, x.1 = tyMdat) → (moofScan (l.map (fun x => (x.2.length, x.1))) pos st sz).2
      = sz + (l.map Prod.snd).flatten.length) := by
  induction l with
  | nil => intro pos st sz _; simp [moofScan]
  | cons x l ih =>
    intro pos st sz hx
    have h1 := hx x (by simp)
    rw [List.map_cons, moofScan, if_neg h1]
    by_cases hm : x.1 = tyMdat
    · rw [if_pos hm]
      obtain ⟨i1, i2⟩ := ih (pos + x.2.length) st (sz + x.2.length) (fun y hy => hx y (by simp [hy]))
      refine ⟨i1, fun hall => ?_⟩
      rw [i2 (fun y hy => hall y (by simp [hy]))]
      simp; omega
    · rw [if_neg hm]
      obtain ⟨i1, i2⟩ := ih (pos + x.2.length) st sz (fun y hy => hx y (by simp [hy]))
      refine ⟨i1, fun hall => ?_⟩
      exact absurd (hall x (by simp)) hm

theorem frontSteps_types {c : MfCfg} {l l1 : List (Bytes × Bytes)} (h : FrontSteps c l l1)
    {bad : List Bytes} (hl : ∀ x ∈ l, x.1 ∉ bad) : ∀ x ∈ l1, x.1 ∉ bad := by
  induction h with
  | nil => simp
  | @cons b o bs os hbo _ ih =>
    intro x hx
    rcases List.mem_cons.1 hx with rfl | hx
    · rw [hbo.1]; exact hl b (by simp)
    · exact ih (fun y hy => hl y (by simp [hy])) x hx

/-- The index box `finalize` inserts, or nothing. -/
def indexBox (c : MfCfg) (s : MfState) (size : Nat) : Py Bytes :=
  if c.insertSidx then createSidx c s size else .ok []

/-- The event message `finalize` inserts, or nothing. -/
def lastBox (c : MfCfg) : Py Bytes :=
  match c.emsgLast with
  | none => .ok []
  | some m => (lastSegEmsg m).getBox

/-- The input of the theorems on whole segments: one fragment with one track fragment, other
boxes before and after it, all of them within their 32-bit sizes. -/
structure OneFragment where
  front : List (Bytes × Bytes)
  vf : Bytes
  seq : Bytes
  a : List FragBox
  pre : List FragBox
  wide : Bool
  f2 : UInt8
  f1 : UInt8
  f0 : UInt8
  t : Nat
  post : List FragBox
  b : List FragBox
  back : List (Bytes × Bytes)

/-- The boxes of the segment. -/
def OneFragment.forest (g : OneFragment) : Forest :=
  segmentOf g.front (g.vf ++ g.seq) g.a g.pre (tfdtPayload g.wide g.f2 g.f1 g.f0 g.t) g.post g.b
    g.back

/-- The movie fragment. -/
def OneFragment.moof (g : OneFragment) : Bytes :=
  (fragment (g.vf ++ g.seq) g.a g.pre (tfdtPayload g.wide g.f2 g.f1 g.f0 g.t) g.post g.b).bytes

/-- The segment. -/
def OneFragment.bytes (g : OneFragment) : Bytes := boxesBytes g.front ++ g.moof ++ boxesBytes g.back

structure OneFragment.Ok (g : OneFragment) : Prop where
  vf : g.vf.length = 4
  seq : g.seq.length = 4
  front : ∀ x ∈ g.front, x.1 ∉ [tyMoof, tyTraf, tyMdat]
  back : ∀ x ∈ g.back, x.1 ∉ [tyMoof, tyTraf, tyStyp, tySidx]
  a : ∀ x ∈ g.a, x.Ok
  pre : ∀ x ∈ g.pre, x.Ok
  post : ∀ x ∈ g.post, x.Ok
  b : ∀ x ∈ g.b, x.Ok
  t : g.t < (if g.wide then 2 ^ 64 else 2 ^ 32)
  sizes : g.forest.Ok [tyMoof, tyTraf]

/-- The same fragment with sequence number `n`, decode time `new` (in 64-bit form if needed)
and everything behind the decode time box that refers to data positions moved by `d`. -/
def OneFragment.moved (g : OneFragment) (n new d : Int) : OneFragment :=
  { g with seq := beBytes 4 n.toNat, wide := g.wide || decide (2 ^ 32 ≤ new), t := new.toNat,
           post := g.post.map (FragBox.shift d), b := g.b.map (FragBox.shift d) }

theorem backBoxes_ne (back : List (Bytes × Bytes)) :
    (back.map (fun x => (x.1, boxBytes x.1 x.2))).filter (fun x => decide (0 < x.2.length))
      = back.map (fun x => (x.1, boxBytes x.1 x.2)) := by
  rw [List.filter_eq_self]
  intro x hx
  obtain ⟨y, _, rfl⟩ := List.mem_map.1 hx
  simp [boxBytes_length]

/-- **C11 (shape of the result).** If the filter returns a segment then: the sequence number
and the new decode time fit their fields; the result consists of the boxes before the fragment
(styp rewritten, sidx removed, others copied), possibly an event message and an index, the
fragment with the new sequence number and decode time in which every run offset and every
auxiliary offset behind the decode time box has grown by exactly the growth of the fragment
(0 or 4), and the unchanged boxes after it. -/
theorem C11_segment (c : MfCfg) (n ts : Int) (hn : c.segNr = some n) (hts : c.timescale = some ts)
    (g : OneFragment) (hg : g.Ok) (final : Bytes) (s' : MfState)
    (h : filterMedia c g.bytes = .ok (final, s')) :
    let new := (g.t : Int) + c.offset * ts
    0 ≤ n ∧ n < 2 ^ 32 ∧ 0 ≤ new ∧ new < 2 ^ 64 ∧ s'.tfdt = some new ∧
    ∃ (d : Nat) (front : List (Bytes × Bytes)) (size : Nat) (emsg sidx : Bytes),
      (d = 0 ∨ d = 4) ∧ (d = 4 ↔ g.wide = false ∧ 2 ^ 32 ≤ new) ∧
      FrontSteps c g.front front ∧ lastBox c = .ok emsg ∧ indexBox c s' size = .ok sidx ∧
      ((∀ x ∈ g.back, x.1 = tyMdat) →
        size = (g.moved n new d).moof.length + (boxesBytes g.back).length) ∧
      final = (front.map Prod.snd).flatten ++ emsg ++ sidx ++ (g.moved n new d).moof ++
        boxesBytes g.back ∧
      (g.moved n new d).moof.length = g.moof.length + d := by
  intro new
  have hbytes : g.bytes = g.forest.bytes := by
    rw [OneFragment.bytes, OneFragment.forest, segmentOf_bytes, OneFragment.moof]
  unfold filterMedia at h
  rw [hbytes] at h
  cases hf : filterFile (mediaRules c) g.forest.bytes c.init with
  | error e => rw [hf] at h; cases h
  | ok x =>
    obtain ⟨⟨out, boxes⟩, s2⟩ := x
    rw [hf] at h
    simp only at h
    obtain ⟨p1, p2, p3, p4, p5, -, l1, moof, q1, q2, q3, q4⟩ := segment_rewrite c n ts g.vf g.seq hg.vf
      hg.seq hn hts g.front g.back
      (fun x hx => by
        have := hg.front x hx
        simp only [List.mem_cons, not_or] at this ⊢
        exact ⟨this.1, this.2.1, by simp⟩) hg.back g.a g.pre g.post g.b hg.a hg.pre hg.post hg.b
      g.wide g.f2 g.f1 g.f0 g.t hg.t hg.sizes out boxes s2 hf
    have hmoof : moof = (g.moved n new (growth g.wide new)).moof := by rw [q2]; rfl
    have hmlen : (g.moved n new (growth g.wide new)).moof.length
        = g.moof.length + (growth g.wide new).toNat := by
      simp only [OneFragment.moof, OneFragment.moved, fragment, Forest.bytes, withLeaves_bytes,
        boxBytes_length, List.length_append, shift_flatMap_length, List.length_nil, beBytes_length,
        hg.seq, hg.vf]
      have : (tfdtPayload (g.wide || decide (2 ^ 32 ≤ new)) g.f2 g.f1 g.f0 new.toNat).length
          = (tfdtPayload g.wide g.f2 g.f1 g.f0 g.t).length + (growth g.wide new).toNat := by
        unfold growth tfdtPayload
        cases g.wide <;> by_cases hw : (4294967296 : Int) ≤ new <;> simp [hw]
      rw [this]
      omega
    have hpos : 0 < moof.length := by
      rw [hmoof, OneFragment.moof, fragment, Forest.bytes, List.length_append, boxBytes_length]
      omega
    have hscan : moofScan boxes 0 0 0 = moofScan (g.back.map (fun x =>
        ((boxBytes x.1 x.2).length, x.1))) ((l1.map Prod.snd).flatten.length + moof.length)
        (l1.map Prod.snd).flatten.length moof.length := by
      rw [q4, List.filter_append, List.map_append, moofScan_front l1 _ 0 0 0
        (frontSteps_types q1 (fun x hx => by
          have := hg.front x hx
          simp only [List.mem_cons, not_or] at this ⊢
          exact ⟨this.1, this.2.2.1, by simp⟩))]
      rw [List.filter_cons, if_pos (by simpa using hpos), List.map_cons, moofScan, if_pos rfl,
        backBoxes_ne, List.map_map]
      simp only [Nat.zero_add]
      rfl
    have hback := moofScan_back (g.back.map (fun x => (x.1, boxBytes x.1 x.2)))
      ((l1.map Prod.snd).flatten.length + moof.length) (l1.map Prod.snd).flatten.length moof.length
      (fun x hx => by
        obtain ⟨y, hy, rfl⟩ := List.mem_map.1 hx
        have := hg.back y hy
        simp only [List.mem_cons, not_or] at this
        exact this.1)
    rw [List.map_map] at hback
    change (moofScan (g.back.map (fun x => ((boxBytes x.1 x.2).length, x.1))) _ _ _).1 = _ ∧
      _ at hback
    have hdn : ((growth g.wide new).toNat : Int) = growth g.wide new := by
      unfold growth; split <;> rfl
    have hst : (moofScan boxes 0 0 0).1 = (l1.map Prod.snd).flatten.length := by
      rw [hscan]; exact hback.1
    -- finalize
    unfold mediaFinalize at h
    cases hi : insertIndex c out boxes s2 with
    | error e => rw [hi] at h; cases h
    | ok out1 =>
      rw [hi] at h
      simp only at h
      cases hl : insertLast c out1 boxes with
      | error e => rw [hl] at h; cases h
      | ok out2 =>
        rw [hl] at h
        simp only [Except.ok.injEq, Prod.mk.injEq] at h
        obtain ⟨rfl, rfl⟩ := h
        obtain ⟨sidx, hsx, hout1⟩ : ∃ sidx, indexBox c s2 (moofScan boxes 0 0 0).2 = .ok sidx ∧
            out1 = (l1.map Prod.snd).flatten ++ sidx ++ moof ++ boxesBytes g.back := by
          unfold insertIndex at hi
          unfold indexBox
          split
          · rename_i hc
            rw [if_pos hc] at hi
            cases hcs : createSidx c s2 (moofScan boxes 0 0 0).2 with
            | error e => rw [hcs] at hi; cases hi
            | ok sidx =>
              rw [hcs] at hi
              simp only [Except.ok.injEq] at hi
              refine ⟨sidx, rfl, ?_⟩
              rw [← hi, hst, q3]; simp
          · rename_i hc
            rw [if_neg hc] at hi
            simp only [Except.ok.injEq] at hi
            refine ⟨[], rfl, ?_⟩
            rw [← hi, q3]; simp
        obtain ⟨emsg, hlb, hfin⟩ : ∃ emsg, lastBox c = .ok emsg ∧
            out2 = (l1.map Prod.snd).flatten ++ emsg ++ sidx ++ moof ++ boxesBytes g.back := by
          unfold insertLast at hl
          unfold lastBox
          cases hm : c.emsgLast with
          | none =>
            rw [hm] at hl
            simp only [Except.ok.injEq] at hl
            exact ⟨[], rfl, by rw [← hl, hout1]; simp⟩
          | some m =>
            rw [hm] at hl
            simp only at hl
            cases hgb : (lastSegEmsg m).getBox with
            | error e => rw [hgb] at hl; cases hl
            | ok emsg =>
              rw [hgb] at hl
              simp only [Except.ok.injEq] at hl
              exact ⟨emsg, hgb, by rw [← hl, hout1, hst]; simp⟩
        refine ⟨p1, p2, p3, p4, p5, (growth g.wide new).toNat, l1, (moofScan boxes 0 0 0).2, emsg, sidx,
          ?_, ?_, q1, hlb, hsx, ?_, ?_, ?_⟩
        · unfold growth; split <;> simp
        · unfold growth
          by_cases hw : g.wide = false ∧ 2 ^ 32 ≤ new
          · rw [if_pos hw]; exact ⟨fun _ => hw, fun _ => rfl⟩
          · rw [if_neg hw]; exact ⟨fun e => absurd e (by decide), fun e => absurd e hw⟩
        · intro hall
          rw [hscan, hdn, ← hmoof]
          refine (hback.2 (fun x hx => by
            obtain ⟨y, hy, rfl⟩ := List.mem_map.1 hx
            exact hall y hy)).trans ?_
          rw [List.map_map, boxesBytes, List.flatMap_def]
          rfl
        · rw [hfin, hdn, hmoof]
        · rw [hdn]; exact hmlen

/-- What a client reads for a data offset `off` in a fragment that starts at `base`: `len`
bytes from position `k` of the data on. -/
def readAt (file : Bytes) (base off k len : Nat) : Bytes :=
  slice file (base + off + k) (base + off + k + len)

/-- **C11 (samples).** In the setting of `C11_segment`, for every run behind the decode time box
whose data lies behind the fragment (offset at least the fragment length): the result has that
run with an offset larger by the growth, and whatever a client reads there is what it reads in
the input, for every position and length.  The fragment starts at `start` in the result. -/
theorem C11_samples (c : MfCfg) (n ts : Int) (hn : c.segNr = some n) (hts : c.timescale = some ts)
    (g : OneFragment) (hg : g.Ok) (final : Bytes) (s' : MfState)
    (h : filterMedia c g.bytes = .ok (final, s')) :
    ∃ start d : Nat, (slice final start (start + g.moof.length + d)
        = (g.moved n ((g.t : Int) + c.offset * ts) d).moof) ∧
      ∀ (v f2 f1 f0 : UInt8) (count rest : Bytes) (off : Nat),
        FragBox.run v f2 f1 f0 count off rest ∈ g.post → g.moof.length ≤ off →
        FragBox.run v f2 f1 f0 count ((off + d : Nat) : Int) rest ∈
          (g.moved n ((g.t : Int) + c.offset * ts) d).post ∧
        ∀ k len, readAt final start (off + d) k len
          = readAt g.bytes (boxesBytes g.front).length off k len := by
  obtain ⟨-, -, -, -, -, d, front, size, emsg, sidx, hd, hd4, -, -, -, -, hfin, hlen⟩ :=
    C11_segment c n ts hn hts g hg final s' h
  refine ⟨((front.map Prod.snd).flatten ++ emsg ++ sidx).length, d, ?_, ?_⟩
  · rw [hfin]
    exact slice_eq_of_append _ _ _ rfl (by rw [hlen]; omega)
  · intro v f2 f1 f0 count rest off hmem hoff
    constructor
    · show _ ∈ g.post.map (FragBox.shift d)
      refine List.mem_map.2 ⟨_, hmem, ?_⟩
      simp [FragBox.shift]
    · intro k len
      unfold readAt
      rw [hfin, OneFragment.bytes]
      rw [slice_append_right _ (by rw [List.length_append, hlen]; omega),
        slice_append_right _ (by rw [List.length_append]; omega)]
      simp only [List.length_append, hlen]
      congr 1 <;> omega

theorem box_head {ty : Bytes} (ht : ty.length = 4) (X : Bytes) :
    ∃ h, h.length = 8 ∧ boxBytes ty X = h ++ X :=
  ⟨beBytes 4 (8 + X.length) ++ ty, by simp [ht], rfl⟩

theorem moof_split (mfhd : Bytes) (a pre : List FragBox) (tfdt : Bytes) (q1 q2 b : List FragBox)
    (ty p : Bytes) :
    ∃ head, (fragment mfhd a pre tfdt (q1 ++ FragBox.other ty p :: q2) b).bytes =
      head ++ boxBytes ty p ++ (q2.flatMap FragBox.bytes ++ b.flatMap FragBox.bytes) ∧
      head.length = 8 + (8 + mfhd.length) + (a.flatMap FragBox.bytes).length + 8 +
        (pre.flatMap FragBox.bytes).length + (8 + tfdt.length) +
        (q1.flatMap FragBox.bytes).length := by
  simp only [fragment, Forest.bytes, withLeaves_bytes]
  have : ∀ l, (FragBox.other ty p :: l).flatMap FragBox.bytes
      = boxBytes ty p ++ l.flatMap FragBox.bytes := fun l => rfl
  obtain ⟨ht, lt, et⟩ := box_head (ty := tyTraf) rfl (pre.flatMap FragBox.bytes ++
    (boxBytes tyTfdt tfdt ++ ((q1 ++ FragBox.other ty p :: q2).flatMap FragBox.bytes ++ [])))
  rw [et]
  obtain ⟨hm, lm, em⟩ := box_head (ty := tyMoof) rfl (boxBytes tyMfhd mfhd ++
    (a.flatMap FragBox.bytes ++ (ht ++ (pre.flatMap FragBox.bytes ++
    (boxBytes tyTfdt tfdt ++ ((q1 ++ FragBox.other ty p :: q2).flatMap FragBox.bytes ++ []))) ++
    (b.flatMap FragBox.bytes ++ []))))
  rw [em]
  refine ⟨hm ++ boxBytes tyMfhd mfhd ++ a.flatMap FragBox.bytes ++ ht ++ pre.flatMap FragBox.bytes ++
    boxBytes tyTfdt tfdt ++ q1.flatMap FragBox.bytes, ?_, ?_⟩
  · simp only [List.flatMap_append, this, List.append_nil, List.append_assoc]
  · simp only [List.length_append, lm, lt, boxBytes_length]
    simp

/-- **C11 (auxiliary information).** A box of the track fragment behind the decode time box,
other than runs and offset tables, lies in the result exactly the growth further from the start
of the fragment than in the input, which is what the auxiliary offsets are moved by. -/
theorem C11_aux (c : MfCfg) (n ts : Int) (hn : c.segNr = some n) (hts : c.timescale = some ts)
    (g : OneFragment) (hg : g.Ok) (final : Bytes) (s' : MfState)
    (h : filterMedia c g.bytes = .ok (final, s')) :
    ∃ start d : Nat, (slice final start (start + g.moof.length + d)
        = (g.moved n ((g.t : Int) + c.offset * ts) d).moof) ∧
      ∀ (p1 p2 : List FragBox) (ty p : Bytes), g.post = p1 ++ FragBox.other ty p :: p2 →
        ∃ (A B A' B' : Bytes), g.bytes = A ++ boxBytes ty p ++ B ∧
          final = A' ++ boxBytes ty p ++ B' ∧ (boxesBytes g.front).length ≤ A.length ∧
          (A'.length : Int) - start = A.length - (boxesBytes g.front).length + d := by
  obtain ⟨-, -, -, -, -, d, front, size, emsg, sidx, hd, hd4, -, -, -, -, hfin, hlen⟩ :=
    C11_segment c n ts hn hts g hg final s' h
  refine ⟨((front.map Prod.snd).flatten ++ emsg ++ sidx).length, d, ?_, ?_⟩
  · rw [hfin]
    exact slice_eq_of_append _ _ _ rfl (by rw [hlen]; omega)
  · intro p1 p2 ty p hpost
    obtain ⟨h1, e1, l1⟩ := moof_split (g.vf ++ g.seq) g.a g.pre
      (tfdtPayload g.wide g.f2 g.f1 g.f0 g.t) p1 p2 g.b ty p
    obtain ⟨h2, e2, l2⟩ := moof_split (g.vf ++ beBytes 4 n.toNat) g.a g.pre
      (tfdtPayload (g.wide || decide (2 ^ 32 ≤ (g.t : Int) + c.offset * ts)) g.f2 g.f1 g.f0
      ((g.t : Int) + c.offset * ts).toNat) (p1.map (FragBox.shift d)) (p2.map (FragBox.shift d))
      (g.b.map (FragBox.shift d)) ty p
    have m1 : g.moof = h1 ++ boxBytes ty p ++ (p2.flatMap FragBox.bytes ++
        g.b.flatMap FragBox.bytes) := by rw [OneFragment.moof, hpost]; exact e1
    have m2 : (g.moved n ((g.t : Int) + c.offset * ts) d).moof = h2 ++ boxBytes ty p ++
        ((p2.map (FragBox.shift d)).flatMap FragBox.bytes ++
        (g.b.map (FragBox.shift d)).flatMap FragBox.bytes) := by
      rw [OneFragment.moof]
      simp only [OneFragment.moved, hpost, List.map_append, List.map_cons]
      exact e2
    refine ⟨boxesBytes g.front ++ h1, (p2.flatMap FragBox.bytes ++
        g.b.flatMap FragBox.bytes) ++ boxesBytes g.back,
      (front.map Prod.snd).flatten ++ emsg ++ sidx ++ h2,
      ((p2.map (FragBox.shift d)).flatMap FragBox.bytes ++
        (g.b.map (FragBox.shift d)).flatMap FragBox.bytes) ++ boxesBytes g.back, ?_, ?_, ?_, ?_⟩
    · rw [OneFragment.bytes, m1]
      simp only [List.append_assoc]
    · rw [hfin, m2]
      simp only [List.append_assoc]
    · simp
    · rw [m1, m2] at hlen
      simp only [List.length_append, shift_flatMap_length] at hlen ⊢
      omega

/-- **C11 (nothing else changes).** When the decode time box does not grow, the result differs
from the input only in the sequence number, the decode time and the boxes before the fragment. -/
theorem C11_unchanged (c : MfCfg) (n ts : Int) (hn : c.segNr = some n) (hts : c.timescale = some ts)
    (g : OneFragment) (hg : g.Ok) (final : Bytes) (s' : MfState)
    (h : filterMedia c g.bytes = .ok (final, s'))
    (hstay : g.wide = true ∨ (g.t : Int) + c.offset * ts < 2 ^ 32) :
    ∃ head, final = head ++ (fragment (g.vf ++ beBytes 4 n.toNat) g.a g.pre
      (tfdtPayload g.wide g.f2 g.f1 g.f0 ((g.t : Int) + c.offset * ts).toNat) g.post g.b).bytes ++
      boxesBytes g.back := by
  obtain ⟨-, -, -, -, -, d, front, size, emsg, sidx, hd, hd4, -, -, -, -, hfin, hlen⟩ :=
    C11_segment c n ts hn hts g hg final s' h
  refine ⟨(front.map Prod.snd).flatten ++ emsg ++ sidx, ?_⟩
  have hnot : ¬ (g.wide = false ∧ 2 ^ 32 ≤ (g.t : Int) + c.offset * ts) := by
    rintro ⟨h1, h2⟩
    rcases hstay with h3 | h3
    · rw [h1] at h3; cases h3
    · omega
  have hd0 : d = 0 := by
    rcases hd with h0 | h4
    · exact h0
    · exact absurd (hd4.1 h4) hnot
  subst hd0
  rw [hfin, OneFragment.moof]
  simp only [OneFragment.moved, Int.natCast_zero, map_shift_zero]
  have hw : (g.wide || decide (2 ^ 32 ≤ (g.t : Int) + c.offset * ts)) = g.wide := by
    rcases hstay with h3 | h3
    · rw [h3]; rfl
    · rw [decide_eq_false (by omega), Bool.or_false]
  rw [hw]

/-- A fragment at decode time 4294900000 with a run of two samples, an auxiliary offset and
ten bytes of media data. -/
def exampleFragment : OneFragment :=
  { front := [(tyStyp, [109, 115, 100, 104, 0, 0, 0, 0]), (tySidx, [1, 2, 3])]
    vf := [0, 0, 0, 0], seq := [0, 0, 0, 1], a := []
    pre := [.other tyTfhd [0, 2, 0, 0, 0, 0, 0, 1]]
    wide := false, f2 := 0, f1 := 0, f0 := 0, t := 4294900000
    post := [.run 0 0 3 1 [0, 0, 0, 2] 128 [0, 0, 0, 10, 0, 0, 0, 6, 0, 0, 0, 20, 0, 0, 0, 4],
      .offsets 0 0 0 0 [] [112]]
    b := []
    back := [(tyMdat, [1, 2, 3, 4, 5, 6, 7, 8, 9, 10])] }

theorem exampleFragment_ok : exampleFragment.Ok where
  vf := rfl
  seq := rfl
  front := by unfold exampleFragment; decide
  back := by unfold exampleFragment; decide
  a := by simp [exampleFragment]
  pre := by
    intro x hx
    simp only [exampleFragment, List.mem_singleton] at hx
    subst hx
    exact ⟨rfl, by decide, by decide⟩
  post := by
    intro x hx
    simp only [exampleFragment, List.mem_cons, List.not_mem_nil, or_false] at hx
    rcases hx with rfl | rfl
    · exact ⟨rfl, rfl, by decide, by decide⟩
    · exact ⟨rfl, by decide, by decide⟩
  b := by simp [exampleFragment]
  t := by decide
  sizes := by
    simp only [OneFragment.forest, exampleFragment, segmentOf, Forest.withBoxes, Forest.withLeaves,
      Forest.Ok, FragBox.parts]
    decide +kernel

example : exampleMf.segNr = some 7 ∧ exampleMf.timescale = some 90000 ∧ exampleFragment.Ok ∧
    exampleFragment.moof.length = 120 ∧
    (∃ final s', filterMedia exampleMf exampleFragment.bytes = .ok (final, s') ∧
      final.length = exampleFragment.bytes.length - 11 + 4 + 4 ∧
      readAt final 20 132 0 6 = [1, 2, 3, 4, 5, 6] ∧
      readAt exampleFragment.bytes 27 128 0 6 = [1, 2, 3, 4, 5, 6]) := by
  refine ⟨rfl, rfl, exampleFragment_ok, by decide +kernel, ?_⟩
  cases hr : filterMedia exampleMf exampleFragment.bytes with
  | error e =>
    have : (filterMedia exampleMf exampleFragment.bytes).isOk = true := by decide +kernel
    rw [hr] at this; cases this
  | ok x =>
    refine ⟨x.1, x.2, rfl, ?_⟩
    have hx : x = ((filterMedia exampleMf exampleFragment.bytes).toOption).getD x := by
      rw [hr]; rfl
    have : (filterMedia exampleMf exampleFragment.bytes).toOption.any (fun x =>
      decide (x.1.length = exampleFragment.bytes.length - 11 + 4 + 4 ∧
      readAt x.1 20 132 0 6 = [1, 2, 3, 4, 5, 6] ∧
      readAt exampleFragment.bytes 27 128 0 6 = [1, 2, 3, 4, 5, 6])) = true := by
      decide +kernel
    rw [hr] at this
    simpa [Except.toOption] using this

end Verif
