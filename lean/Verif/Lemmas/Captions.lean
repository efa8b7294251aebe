import Verif.Spec.Captions
import Verif.Lemmas.MediaFilter
import Mathlib.Algebra.Order.Field.Rat
import Mathlib.Algebra.Order.Field.Basic
import Mathlib.Tactic.NormNum
/-
Lemmas about the caption inserter.
-/
namespace Verif

/-! ### Caption messages -/

theorem readTriplets_words (field : Nat) (hf : field = 1 ∨ field = 2) (ws : List Nat) (hw : ∀ w ∈ ws, w < 65536)
    (x : Bytes) : readTriplets ws.length (ws.flatMap (wordBytes field) ++ x) =
      some (ws.map fun w => (field, w), x) := by
  induction ws with
  | nil => rfl
  | cons w ws ih =>
    have h1 := hw w (by simp)
    have e1 : (UInt8.ofNat (w / 256)).toNat = w / 256 := by
      rw [UInt8.toNat_ofNat']; omega
    have e2 : (UInt8.ofNat w).toNat = w % 256 := by
      rw [UInt8.toNat_ofNat']
    have e3 : ((if field = 1 then 0xfc else 0xfd : UInt8)).toNat / 4 = 63 ∧
        ((if field = 1 then 0xfc else 0xfd : UInt8)).toNat % 4 + 1 = field := by
      rcases hf with rfl | rfl <;> decide
    have e : (w :: ws).flatMap (wordBytes field) ++ x = (if field = 1 then 0xfc else 0xfd) ::
        UInt8.ofNat (w / 256) :: UInt8.ofNat w :: (ws.flatMap (wordBytes field) ++ x) := rfl
    rw [e, List.length_cons]
    unfold readTriplets
    rw [if_pos e3.1, ih (fun v hv => hw v (by simp [hv]))]
    simp only [e1, e2, e3.2, List.map_cons]
    rw [show w / 256 * 256 + w % 256 = w by omega]

theorem wordBytes_length (field : Nat) (ws : List Nat) : (ws.flatMap (wordBytes field)).length = ws.length * 3 := by
  induction ws with
  | nil => rfl
  | cons w ws ih =>
    rw [List.flatMap_cons, List.length_append, ih, List.length_cons]
    simp [wordBytes]
    omega

/-- A caption gives a unit that reads back. -/
theorem captionNal_unit (field : Nat) (hf : field = 1 ∨ field = 2) (c : Caption) (hl : c.words.length ≤ 31)
    (hw : ∀ w ∈ c.words, w < 65536) :
    ∃ u, captionNal field c = .ok (unitBytes u) ∧
      readCaption u = some (c.words.map fun w => (field, w)) ∧ u.length = 15 + c.words.length * 3 := by
  have hlen := wordBytes_length field c.words
  refine ⟨[0x66, 0x04, UInt8.ofNat (11 + c.words.length * 3), 0xb5, 0x00, 0x31, 0x47, 0x41, 0x39, 0x34, 0x03,
      UInt8.ofNat (0xc0 + c.words.length), 0xff] ++ c.words.flatMap (wordBytes field) ++ [0xff, 0x80], ?_, ?_, ?_⟩
  · unfold captionNal
    simp only
    rw [if_neg (by omega), if_neg (by omega)]
    rfl
  · have e1 : (UInt8.ofNat (11 + c.words.length * 3)).toNat = 11 + c.words.length * 3 := by
      rw [UInt8.toNat_ofNat']; omega
    have e2 : (UInt8.ofNat (0xc0 + c.words.length)).toNat = 0xc0 + c.words.length := by
      rw [UInt8.toNat_ofNat']; omega
    simp only [List.cons_append, List.nil_append, readCaption]
    rw [if_pos ⟨by decide, by simp [hlen]; omega, by rw [e2]; omega⟩, e2,
      show (192 + c.words.length) % 32 = c.words.length by omega, readTriplets_words field hf _ hw]
    rfl
  · simp [hlen]; omega

theorem unitBytes_length (u : Bytes) : (unitBytes u).length = 4 + u.length := by
  simp [unitBytes]

theorem generateData_units (field : Nat) (hf : field = 1 ∨ field = 2) (caps : List Caption)
    (hl : ∀ c ∈ caps, c.words.length ≤ 31) (hw : ∀ c ∈ caps, ∀ w ∈ c.words, w < 65536) :
    ∃ us : List Bytes, generateData field caps = .ok (us.flatMap unitBytes) ∧
      us.map readCaption = caps.map (fun c => some (c.words.map fun w => (field, w))) ∧
      (us.flatMap unitBytes).length = (caps.map fun c => 19 + 3 * c.words.length).sum := by
  induction caps with
  | nil => exact ⟨[], rfl, rfl, rfl⟩
  | cons c caps ih =>
    obtain ⟨u, h1, h2, h5⟩ := captionNal_unit field hf c (hl c (by simp)) (hw c (by simp))
    obtain ⟨us, h3, h4, h6⟩ := ih (fun d hd => hl d (by simp [hd])) (fun d hd => hw d (by simp [hd]))
    refine ⟨u :: us, ?_, ?_, ?_⟩
    · unfold generateData
      rw [h1]
      simp only
      rw [h3]
      rfl
    · rw [List.map_cons, h2, h4]; rfl
    · rw [List.flatMap_cons, List.length_append, h6, unitBytes_length, h5, List.map_cons, List.sum_cons]
      omega

theorem sccData_eq (caps : List Caption) (ts t d : Nat) (hts : 0 < ts) :
    sccData caps ((t : Rat) / ts) (((t + d : Nat) : Rat) / ts) = captionsIn caps ts t d := by
  unfold sccData captionsIn
  congr 1
  funext c
  have h : (0 : Rat) < (ts : Rat) := by exact_mod_cast hts
  congr 1
  rw [div_le_iff₀ h, lt_div_iff₀ h]
  push_cast
  rfl

/-! ### Finding the first picture -/

theorem pyIdx_nat (len n : Nat) : pyIdx len (n : Int) = n := by
  unfold pyIdx
  rw [if_neg (by omega)]
  simp

theorem sliceAt_nat (data : Bytes) (a b : Nat) : sliceAt data (a : Int) (b : Int) = slice data a b := by
  unfold sliceAt
  rw [pyIdx_nat, pyIdx_nat]

theorem slice_of_drop {data x y : Bytes} {a b : Nat} (h : data.drop a = x ++ y) (hb : b = a + x.length) :
    slice data a b = x := by
  unfold slice
  rw [h, hb, Nat.add_sub_cancel_left, List.take_left]

theorem drop_of_drop {data x y : Bytes} {a b : Nat} (h : data.drop a = x ++ y) (hb : b = a + x.length) :
    data.drop b = y := by
  rw [hb, ← List.drop_drop, h, List.drop_left]

theorem unitType_lt6 {u : Bytes} (h0 : unitType u ≠ 0) : unitType u < 6 ↔ isPicture u = true := by
  unfold isPicture
  simp only [Bool.and_eq_true, decide_eq_true_eq]
  omega

theorem findVideo_units (data : Bytes) (us : List Bytes)
    (hu : ∀ u ∈ us, u.length < 2 ^ 32 ∧ unitType u ≠ 0) (rest : Bytes) (p f : Nat)
    (hd : data.drop p = us.flatMap unitBytes ++ rest) (hf : (us.flatMap unitBytes).length < f) :
    findVideo data f (p : Int) ((p + (us.flatMap unitBytes).length : Nat) : Int) =
      .ok (((p + ((us.takeWhile fun u => !isPicture u).flatMap unitBytes).length : Nat)) : Int) := by
  induction us generalizing p f with
  | nil =>
    obtain ⟨f, rfl⟩ : ∃ k, f = k + 1 := ⟨f - 1, by omega⟩
    simp [findVideo]
  | cons u us ih =>
    obtain ⟨f, rfl⟩ : ∃ k, f = k + 1 := ⟨f - 1, by omega⟩
    obtain ⟨h1, h2⟩ := hu u (by simp)
    have hlen : ((u :: us).flatMap unitBytes).length = 4 + u.length + (us.flatMap unitBytes).length := by
      rw [List.flatMap_cons, List.length_append, unitBytes_length]
    rw [hlen] at hf ⊢
    have hd' : data.drop p = unitBytes u ++ (us.flatMap unitBytes ++ rest) := by
      rw [hd, List.flatMap_cons, List.append_assoc]
    obtain ⟨b, r, rfl⟩ : ∃ b r, u = b :: r := by
      cases u with
      | nil => exact absurd rfl h2
      | cons b r => exact ⟨b, r, rfl⟩
    have e1 : sliceAt data (p : Int) ((p : Int) + 4) = beBytes 4 (b :: r).length := by
      have : ((p : Int) + 4) = ((p + 4 : Nat) : Int) := by push_cast; rfl
      rw [this, sliceAt_nat]
      exact slice_of_drop (x := beBytes 4 (b :: r).length) (y := (b :: r) ++ (us.flatMap unitBytes ++ rest))
        (by rw [hd', unitBytes, List.append_assoc]) (by simp)
    have e2 : strToUint32 (beBytes 4 (b :: r).length) = .ok (b :: r).length := by
      unfold strToUint32
      rw [if_pos (by simp), beVal_beBytes_of_lt (by omega)]
    have e3 : pyByte data ((p : Int) + 4) = .ok b := by
      have : ((p : Int) + 4) = ((p + 4 : Nat) : Int) := by push_cast; rfl
      unfold pyByte
      rw [this, pyIdx_nat, if_neg (by omega)]
      have hdd : data.drop (p + 4) = b :: (r ++ (us.flatMap unitBytes ++ rest)) :=
        drop_of_drop (x := beBytes 4 (b :: r).length)
          (by rw [hd', unitBytes, List.append_assoc]; rfl) (by simp)
      have : data[p + 4]? = some b := by
        rw [← List.head?_drop, hdd]
        rfl
      rw [this]
    conv => lhs; unfold findVideo
    rw [if_pos (by omega), e1, e2]
    simp only
    rw [e3]
    simp only
    have ht : unitType (b :: r) = b.toNat % 32 := rfl
    by_cases hp : isPicture (b :: r) = true
    · rw [if_pos (by rw [← ht]; exact (unitType_lt6 h2).mpr hp)]
      rw [List.takeWhile_cons_of_neg (by simp [hp])]
      simp
    · rw [if_neg (by rw [← ht]; exact fun h => hp ((unitType_lt6 h2).mp h))]
      rw [List.takeWhile_cons_of_pos (by simpa using hp)]
      have hd2 : data.drop (p + (4 + (b :: r).length)) = us.flatMap unitBytes ++ rest :=
        drop_of_drop hd' (by rw [unitBytes_length])
      have := ih (fun v hv => hu v (by simp [hv])) (p + (4 + (b :: r).length)) f hd2
        (by omega)
      rw [List.flatMap_cons, List.length_append, unitBytes_length]
      have c1 : ((p : Int) + ((b :: r).length : Nat) + 4) = ((p + (4 + (b :: r).length) : Nat) : Int) := by
        push_cast; omega
      have c2 : p + (4 + (b :: r).length + (us.flatMap unitBytes).length) =
          p + (4 + (b :: r).length) + (us.flatMap unitBytes).length := by omega
      rw [c1, c2, this]
      congr 2
      omega

/-! ### The run -/

theorem insert_nil (s : VideoSample) : s.insert [] = s := by
  unfold VideoSample.insert
  simp [List.takeWhile_append_dropWhile]

theorem insert_bytes (s : VideoSample) (new : List Bytes) :
    (s.insert new).bytes = (s.units.takeWhile fun u => !isPicture u).flatMap unitBytes ++ new.flatMap unitBytes ++
      (s.units.dropWhile fun u => !isPicture u).flatMap unitBytes := by
  unfold VideoSample.bytes VideoSample.insert
  simp only [List.flatMap_append]

theorem bytes_split (s : VideoSample) :
    s.bytes = (s.units.takeWhile fun u => !isPicture u).flatMap unitBytes ++
      (s.units.dropWhile fun u => !isPicture u).flatMap unitBytes := by
  have := insert_bytes s []
  rw [insert_nil] at this
  simpa using this

theorem insert_length (s : VideoSample) (new : List Bytes) :
    (s.insert new).bytes.length = s.bytes.length + (new.flatMap unitBytes).length := by
  rw [insert_bytes, bytes_split s]
  simp only [List.length_append]
  omega

theorem ccField_present {data : Bytes} {pos v : Nat} {rest : Bytes} (hv : v < 2 ^ 32)
    (h : data.drop pos = beBytes 4 v ++ rest) :
    ccField true data pos = .ok (v, pos + 4) ∧ data.drop (pos + 4) = rest := by
  refine ⟨?_, drop_of_drop h (by simp)⟩
  unfold ccField
  rw [if_pos rfl, slice_of_drop h (by simp)]
  unfold strToUint32
  rw [if_pos (by simp), beVal_beBytes_of_lt (by omega)]

theorem ccField_optional {data : Bytes} {pos v : Nat} {rest : Bytes} (b : Bool) (hv : v < 2 ^ 32)
    (h : data.drop pos = (if b = true then beBytes 4 v else []) ++ rest) :
    ∃ v' pos', ccField b data pos = .ok (v', pos') ∧ (b = true → v' = v) ∧ data.drop pos' = rest := by
  cases b with
  | true =>
    obtain ⟨h1, h2⟩ := ccField_present hv h
    exact ⟨v, pos + 4, h1, fun _ => rfl, h2⟩
  | false => exact ⟨0, pos, rfl, by simp, h⟩

theorem ccWrite_optional (b : Bool) (v v' : Nat) (hv : v < 2 ^ 32) (h : b = true → v' = v) :
    ccWrite b v' = .ok (if b = true then beBytes 4 v else []) := by
  cases b with
  | true =>
    rw [h rfl]
    unfold ccWrite
    rw [if_pos rfl, uint32ToStr_nat hv]
    rfl
  | false => rfl

/-- What the elements of `scc_map` do with the media data. -/
def Inserts (entries : List CcEntry) (orig : Nat) (ss ss' : List VideoSample) : Prop :=
  ∀ (data tail : Bytes) (base o : Nat), o ≤ orig →
    data.drop (base + orig) = ss.flatMap VideoSample.bytes ++ tail → base + orig ≤ data.length →
    ∃ (out : Bytes) (final : Nat), insertLoop data (base : Int) entries ((base + o : Nat) : Int) = .ok (out, (final : Int)) ∧
      final ≤ data.length ∧
      out ++ data.drop final = slice data (base + o) (base + orig) ++ ss'.flatMap VideoSample.bytes ++ tail

theorem inserts_nil (orig : Nat) : Inserts [] orig [] [] := by
  intro data tail base o ho hd hl
  refine ⟨[], base + o, rfl, by omega, ?_⟩
  simp only [List.flatMap_nil, List.nil_append, List.append_nil] at hd ⊢
  have e : data.drop (base + orig) = (data.drop (base + o)).drop (orig - o) := by
    rw [List.drop_drop]; congr 1; omega
  rw [← hd, e]
  unfold slice
  rw [show base + orig - (base + o) = orig - o by omega, List.take_append_drop]

theorem inserts_skip {entries : List CcEntry} {orig : Nat} {s : VideoSample} {ss ss' : List VideoSample}
    (h : Inserts entries (orig + s.bytes.length) ss ss') : Inserts entries orig (s :: ss) (s :: ss') := by
  intro data tail base o ho hd hl
  rw [List.flatMap_cons, List.append_assoc] at hd
  have hd2 := drop_of_drop hd (b := base + (orig + s.bytes.length)) (by omega)
  have hlen : base + (orig + s.bytes.length) ≤ data.length := by
    have := congrArg List.length hd
    simp only [List.length_drop, List.length_append] at this
    omega
  obtain ⟨out, final, h1, h2, h3⟩ := h data tail base o (by omega) hd2 hlen
  refine ⟨out, final, h1, h2, ?_⟩
  rw [h3, slice_split data (a := base + o) (b := base + orig) (c := base + (orig + s.bytes.length)) (by omega)
    (by omega), slice_of_drop (a := base + orig) hd (by omega)]
  simp

theorem inserts_take {entries : List CcEntry} {orig : Nat} {s : VideoSample} {ss ss' : List VideoSample}
    (new : List Bytes) (hs : s.Ok) (h : Inserts entries (orig + s.bytes.length) ss ss') :
    Inserts (⟨orig, s.bytes.length, new.flatMap unitBytes⟩ :: entries) orig (s :: ss) (s.insert new :: ss') := by
  intro data tail base o ho hd hl
  rw [List.flatMap_cons, List.append_assoc] at hd
  have hd2 := drop_of_drop hd (b := base + (orig + s.bytes.length)) (by omega)
  have hlen : base + (orig + s.bytes.length) ≤ data.length := by
    have := congrArg List.length hd
    simp only [List.length_drop, List.length_append] at this
    omega
  obtain ⟨out, final, h1, h2, h3⟩ := h data tail base (orig + s.bytes.length) (by omega) hd2 hlen
  have e0 : slice data (base + (orig + s.bytes.length)) (base + (orig + s.bytes.length)) = [] := by
    unfold slice; simp
  rw [e0, List.nil_append] at h3
  have hfv := findVideo_units data s.units hs.2.2.2 (ss.flatMap VideoSample.bytes ++ tail) (base + orig)
    (s.bytes.length + 1) hd (by unfold VideoSample.bytes; omega)
  have hsplit := bytes_split s
  generalize ha : (s.units.takeWhile fun u => !isPicture u).flatMap unitBytes = a at hfv hsplit
  generalize hb : (s.units.dropWhile fun u => !isPicture u).flatMap unitBytes = b at hsplit
  have hbytes : (s.insert new).bytes = a ++ new.flatMap unitBytes ++ b := by rw [insert_bytes, ha, hb]
  have hda : data.drop (base + orig) = a ++ (b ++ (ss.flatMap VideoSample.bytes ++ tail)) := by
    rw [hd, hsplit, List.append_assoc]
  have hdb := drop_of_drop hda (b := base + orig + a.length) rfl
  refine ⟨slice data (base + o) (base + orig) ++ a ++ new.flatMap unitBytes ++ b ++ out, final, ?_, h2, ?_⟩
  · unfold insertLoop
    simp only
    have c1 : ((orig : Nat) : Int) + (base : Int) = ((base + orig : Nat) : Int) := by push_cast; omega
    rw [c1]
    have step1 : (if ((base + o : Nat) : Int) < ((base + orig : Nat) : Int) then
        (sliceAt data ((base + o : Nat) : Int) ((base + orig : Nat) : Int), ((base + orig : Nat) : Int))
        else ([], ((base + o : Nat) : Int))) =
        (slice data (base + o) (base + orig), ((base + orig : Nat) : Int)) := by
      split
      · rw [sliceAt_nat]
      · have : o = orig := by omega
        subst this
        congr 1
        unfold slice; simp
    rw [step1]
    simp only
    have c2 : ((base + orig : Nat) : Int) + ((s.bytes.length : Nat) : Int) =
        ((base + orig + (s.units.flatMap unitBytes).length : Nat) : Int) := by
      unfold VideoSample.bytes; push_cast; omega
    rw [c2, hfv]
    simp only
    have step2 : (if ((base + orig : Nat) : Int) < ((base + orig + a.length : Nat) : Int) then
        (sliceAt data ((base + orig : Nat) : Int) ((base + orig + a.length : Nat) : Int),
          ((base + orig + a.length : Nat) : Int))
        else ([], ((base + orig : Nat) : Int))) = (a, ((base + orig + a.length : Nat) : Int)) := by
      split
      · rw [sliceAt_nat, slice_of_drop hda rfl]
      · have : a = [] := by
          apply List.eq_nil_of_length_eq_zero
          omega
        rw [this]
        rfl
    rw [step2]
    simp only
    have c3 : base + orig + (s.units.flatMap unitBytes).length = base + (orig + s.bytes.length) := by
      unfold VideoSample.bytes; omega
    rw [c3, h1]
    simp only
    rw [sliceAt_nat, slice_of_drop (x := b) hdb (by rw [hsplit]; simp; omega)]
  · rw [List.append_assoc _ out, h3, List.flatMap_cons, hbytes]
    simp

/-- The samples of a run. -/
theorem ccSamples_run (c : CcCfg) (data : Bytes) (fl : Nat) (f1 : UInt8)
    (h8 : hasFlag fl 8 = true) (h9 : hasFlag fl 9 = true) (h10 : hasFlag fl 10 = f1.toNat.testBit 2)
    (h11 : hasFlag fl 11 = f1.toNat.testBit 3) (hts : 0 < c.timescale) (hf : c.field = 1 ∨ c.field = 2)
    (hl : ∀ x ∈ c.caps, x.words.length ≤ 31) (hw : ∀ x ∈ c.caps, ∀ w ∈ x.words, w < 65536)
    (ss : List VideoSample) (hs : ∀ s ∈ ss, s.Ok) (pos t orig : Nat) (tail : Bytes)
    (hd : data.drop pos = ss.flatMap (runEntry f1) ++ tail)
    (hlen : captionedLength c.caps c.timescale t ss < 2 ^ 32) :
    ∃ ss' entries, ccSamples c data fl ss.length pos t orig = .ok (ss'.flatMap (runEntry f1), entries) ∧
      Captioned c.field c.caps c.timescale t ss ss' ∧ Inserts entries orig ss ss' ∧
      (ss'.flatMap VideoSample.bytes).length = captionedLength c.caps c.timescale t ss ∧
      (ss.flatMap VideoSample.bytes).length + (entries.map fun e => e.nalu.length).sum =
        captionedLength c.caps c.timescale t ss := by
  induction ss generalizing pos t orig with
  | nil => exact ⟨[], [], rfl, Captioned.nil t, inserts_nil orig, rfl, rfl⟩
  | cons s ss ih =>
    have hso := hs s (by simp)
    obtain ⟨o1, o2, o3, _⟩ := hso
    unfold captionedLength at hlen
    have hd1 : data.drop pos = beBytes 4 s.duration ++ (beBytes 4 s.bytes.length ++
        ((if f1.toNat.testBit 2 = true then beBytes 4 s.flags else []) ++
        ((if f1.toNat.testBit 3 = true then beBytes 4 s.comp else []) ++ (ss.flatMap (runEntry f1) ++ tail)))) := by
      rw [hd, List.flatMap_cons, runEntry]
      simp only [List.append_assoc]
    obtain ⟨a1, hd2⟩ := ccField_present o1 hd1
    obtain ⟨a2, hd3⟩ := ccField_present (by omega) hd2
    obtain ⟨fv, pos3, a3, b3, hd4⟩ := ccField_optional (f1.toNat.testBit 2) o2 hd3
    obtain ⟨cv, pos4, a4, b4, hd5⟩ := ccField_optional (f1.toNat.testBit 3) o3 hd4
    have hsub : ∀ x ∈ captionsIn c.caps c.timescale t s.duration, x ∈ c.caps := by
      intro x hx
      exact (List.mem_filter.mp hx).1
    obtain ⟨us, g1, g2, g3⟩ := generateData_units c.field hf (captionsIn c.caps c.timescale t s.duration)
      (fun x hx => hl x (hsub x hx)) (fun x hx => hw x (hsub x hx))
    obtain ⟨ss', entries, i1, i2, i3, i4, i5⟩ := ih (fun x hx => hs x (by simp [hx])) pos4 (t + s.duration)
      (orig + s.bytes.length) hd5 (by omega)
    have hcase : ∃ entry, ccEntry c.field (captionsIn c.caps c.timescale t s.duration) s.bytes.length orig = .ok ((s.insert us).bytes.length, entry) ∧
        Inserts (entry ++ entries) orig (s :: ss) (s.insert us :: ss') ∧
        (entry.map fun e => e.nalu.length).sum = (us.flatMap unitBytes).length := by
      unfold ccEntry
      by_cases hc : (captionsIn c.caps c.timescale t s.duration).length ≠ 0
      · rw [if_pos hc, g1]
        simp only
        exact ⟨_, by rw [insert_length], inserts_take us (hs s (by simp)) i3, by simp⟩
      · rw [if_neg hc]
        have hnil : captionsIn c.caps c.timescale t s.duration = [] :=
          List.eq_nil_of_length_eq_zero (by omega)
        rw [hnil] at g2
        have hus : us = [] := by
          cases us with
          | nil => rfl
          | cons u us => simp at g2
        subst hus
        rw [insert_nil]
        exact ⟨[], rfl, inserts_skip i3, rfl⟩
    obtain ⟨entry, e1, e2, e3⟩ := hcase
    refine ⟨s.insert us :: ss', entry ++ entries, ?_, Captioned.cons t s us ss ss' g2 i2, e2, ?_, ?_⟩
    · rw [List.length_cons]
      unfold ccSamples
      rw [h8, a1]
      simp only
      rw [h9, a2]
      simp only
      rw [h10, a3]
      simp only
      rw [h11, a4]
      simp only
      rw [if_neg (by omega), sccData_eq _ _ _ _ hts, e1]
      simp only
      rw [ccWrite_optional true s.duration s.duration o1 (fun _ => rfl)]
      simp only
      rw [ccWrite_optional true (s.insert us).bytes.length (s.insert us).bytes.length
        (by rw [insert_length]; omega) (fun _ => rfl)]
      simp only
      rw [ccWrite_optional _ s.flags fv o2 b3]
      simp only
      rw [ccWrite_optional _ s.comp cv o3 b4]
      simp only
      rw [i1]
      simp only [if_true]
      rw [List.flatMap_cons, runEntry]
      rfl
    · rw [List.flatMap_cons, List.length_append, i4, insert_length]
      conv => rhs; unfold captionedLength
      omega
    · rw [List.flatMap_cons, List.length_append, List.map_append, List.sum_append, e3]
      conv => rhs; unfold captionedLength
      omega

end Verif
