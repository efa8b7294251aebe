import Verif.Emsg
import Verif.Lemmas.Bytes
import Verif.Lemmas.Text
import Verif.Lemmas.Config
import Verif.Spec.Attribute
/- C36 and C37: SCTE-35 announcements and emsg boxes. -/
namespace Verif

/-! ### C37 -/

/-- All characters are in the ASCII range. -/
def Ascii (t : Text) : Prop := ∀ c ∈ t, c.toNat < 128

/-- No zero character. -/
def NoNul (t : Text) : Prop := ∀ c ∈ t, c ≠ Char.ofNat 0

theorem utf8_cons_ascii {c : Char} (h : c.toNat < 128) (t : Text) :
    utf8 (c :: t) = UInt8.ofNat c.toNat :: utf8 t := by
  have hv : c.val.toNat ≤ 127 := Nat.le_of_lt_succ h
  simp only [utf8, List.flatMap_cons, String.utf8EncodeChar]
  rw [if_pos hv]
  rfl

theorem utf8_length {t : Text} (h : Ascii t) : (utf8 t).length = t.length := by
  induction t with
  | nil => rfl
  | cons c t ih =>
    rw [utf8_cons_ascii (h c (by simp)), List.length_cons, List.length_cons,
      ih (fun d hd => h d (by simp [hd]))]

theorem readString_utf8 {t : Text} (h : Ascii t) (hn : NoNul t) (rest : Bytes) :
    readString (utf8 t ++ 0 :: rest) = .ok (t, rest) := by
  induction t with
  | nil => simp [utf8, readString]
  | cons c t ih =>
    have hc := h c (by simp)
    rw [utf8_cons_ascii hc, List.cons_append, readString]
    have h0 : c.toNat ≠ 0 := by
      intro e
      apply hn c (by simp)
      rw [← Char.ofNat_toNat c, e]
    have hm : c.toNat % 256 = c.toNat := Nat.mod_eq_of_lt (by omega)
    rw [if_neg]
    · rw [ih (fun d hd => h d (by simp [hd])) (fun d hd => hn d (by simp [hd]))]
      simp only [UInt8.toNat_ofNat', Nat.reducePow, hm, Char.ofNat_toNat]
    · intro e
      have := congrArg UInt8.toNat e
      simp [hm] at this
      exact h0 this

theorem readU32_beBytes {v : Int} (h0 : 0 ≤ v) (h1 : v < 2 ^ 32) (rest : Bytes) :
    readU32 (beBytes 4 v.toNat ++ rest) = .ok (v.toNat, rest) := by
  have ht : (beBytes 4 v.toNat ++ rest).take 4 = beBytes 4 v.toNat :=
    List.take_left' (by simp)
  have hd : (beBytes 4 v.toNat ++ rest).drop 4 = rest := List.drop_left' (by simp)
  rw [readU32, ht, hd, strToUint32, if_pos (by simp),
    beVal_beBytes_of_lt (by rw [show (256 : Nat) ^ 4 = 2 ^ 32 by decide]; omega)]

theorem uint32ToStr_ok {v : Int} (h0 : 0 ≤ v) (h1 : v < 2 ^ 32) :
    uint32ToStr v = .ok (beBytes 4 v.toNat) := by
  rw [uint32ToStr, if_pos (by omega)]

/-- The numeric fields fit 32 bits. -/
def Emsg.Fits (e : Emsg) : Prop :=
  0 ≤ e.timescale ∧ e.timescale < 2 ^ 32 ∧ 0 ≤ e.delta ∧ e.delta < 2 ^ 32 ∧
  0 ≤ e.duration ∧ e.duration < 2 ^ 32 ∧ 0 ≤ e.id ∧ e.id < 2 ^ 32

/-- C37 for ASCII strings: the box is written, its size field is its length, its type is
`emsg`, and reading it gives back every field.  Missing for the full claim: strings with
characters outside ASCII, see `C37_size_violation`. -/
theorem C37_round_trip_partial (e : Emsg) (hf : e.Fits) (hs : Ascii e.scheme) (hv : Ascii e.value)
    (hm : Ascii e.message) (hns : NoNul e.scheme) (hnv : NoNul e.value)
    (hl : 30 + e.scheme.length + e.value.length + e.message.length < 2 ^ 32) :
    ∃ box, e.getBox = .ok box ∧
      beVal (box.take 4) = box.length ∧ slice box 4 8 = "emsg".toList.map (fun c => UInt8.ofNat c.toNat) ∧
      readEmsg box = .ok
        { scheme := e.scheme, value := e.value, timescale := e.timescale.toNat,
          delta := e.delta.toNat, duration := e.duration.toNat, id := e.id.toNat,
          message := e.message.map (fun c => UInt8.ofNat c.toNat) } := by
  obtain ⟨t0, t1, d0, d1, u0, u1, i0, i1⟩ := hf
  have hmsg : utf8 e.message = e.message.map (fun c => UInt8.ofNat c.toNat) := by
    generalize e.message = t at hm
    induction t with
    | nil => rfl
    | cons c t ih =>
      rw [utf8_cons_ascii (hm c (by simp)), List.map_cons, ih (fun d hd => hm d (by simp [hd]))]
  have hz : uint32ToStr ((12 + 4 * 4 + e.scheme.length + 1 + e.value.length + 1 +
      e.message.length : Nat) : Int) = .ok (beBytes 4 (30 + e.scheme.length + e.value.length +
      e.message.length)) := by
    rw [uint32ToStr_ok (by omega) (by omega)]
    congr 2
    omega
  refine ⟨beBytes 4 (30 + e.scheme.length + e.value.length + e.message.length) ++
    [101, 109, 115, 103] ++ [0, 0, 0, 0] ++ (utf8 e.scheme ++ [0]) ++
    (utf8 e.value ++ [0]) ++ beBytes 4 e.timescale.toNat ++ beBytes 4 e.delta.toNat ++
    beBytes 4 e.duration.toNat ++ beBytes 4 e.id.toNat ++ utf8 e.message, ?_, ?_, ?_, ?_⟩
  · rw [Emsg.getBox, hz, uint32ToStr_ok t0 t1, uint32ToStr_ok d0 d1, uint32ToStr_ok u0 u1,
      uint32ToStr_ok i0 i1]
    rfl
  · simp only [List.append_assoc]
    rw [List.take_left' (by simp), beVal_beBytes_of_lt
      (by rw [show (256 : Nat) ^ 4 = 2 ^ 32 by decide]; exact hl)]
    simp only [List.length_append, beBytes_length, utf8_length hs, utf8_length hv,
      utf8_length hm, List.length_cons, List.length_nil]
    omega
  · simp only [List.append_assoc]
    rw [← List.append_assoc]
    rw [slice_eq_of_append (beBytes 4 _) [101, 109, 115, 103] _ (by simp) (by simp)]
    decide
  · have h8 : (beBytes 4 (30 + e.scheme.length + e.value.length + e.message.length) ++
        [101, 109, 115, 103] ++ [0, 0, 0, 0] ++ (utf8 e.scheme ++ [0]) ++
        (utf8 e.value ++ [0]) ++ beBytes 4 e.timescale.toNat ++ beBytes 4 e.delta.toNat ++
        beBytes 4 e.duration.toNat ++ beBytes 4 e.id.toNat ++ utf8 e.message)[8]? = some 0 := by
      simp [beBytes]
    have h12 : (beBytes 4 (30 + e.scheme.length + e.value.length + e.message.length) ++
        [101, 109, 115, 103] ++ [0, 0, 0, 0] ++ (utf8 e.scheme ++ [0]) ++
        (utf8 e.value ++ [0]) ++ beBytes 4 e.timescale.toNat ++ beBytes 4 e.delta.toNat ++
        beBytes 4 e.duration.toNat ++ beBytes 4 e.id.toNat ++ utf8 e.message).drop 12 =
        utf8 e.scheme ++ 0 :: (utf8 e.value ++ 0 :: (beBytes 4 e.timescale.toNat ++
          (beBytes 4 e.delta.toNat ++ (beBytes 4 e.duration.toNat ++
          (beBytes 4 e.id.toNat ++ utf8 e.message))))) := by
      rw [show beBytes 4 (30 + e.scheme.length + e.value.length + e.message.length) ++
        [101, 109, 115, 103] ++ [0, 0, 0, 0] ++ (utf8 e.scheme ++ [0]) ++
        (utf8 e.value ++ [0]) ++ beBytes 4 e.timescale.toNat ++ beBytes 4 e.delta.toNat ++
        beBytes 4 e.duration.toNat ++ beBytes 4 e.id.toNat ++ utf8 e.message =
        (beBytes 4 (30 + e.scheme.length + e.value.length + e.message.length) ++
        [101, 109, 115, 103] ++ [0, 0, 0, 0]) ++ (utf8 e.scheme ++ 0 :: (utf8 e.value ++
          0 :: (beBytes 4 e.timescale.toNat ++
          (beBytes 4 e.delta.toNat ++ (beBytes 4 e.duration.toNat ++
          (beBytes 4 e.id.toNat ++ utf8 e.message)))))) by simp]
      exact List.drop_left' (by simp)
    rw [readEmsg, h8, h12, readString_utf8 hs hns]
    simp only [ne_eq, not_true_eq_false, if_false, bind, Except.bind, pure, Except.pure,
      readString_utf8 hv hnv, readU32_beBytes t0 t1, readU32_beBytes d0 d1,
      readU32_beBytes u0 u1, readU32_beBytes i0 i1, hmsg]

/-- C37: a field outside 32 bits raises, it is not truncated. -/
theorem C37_no_truncation (e : Emsg) (box : Bytes) (h : e.getBox = .ok box) : e.Fits := by
  rw [Emsg.getBox] at h
  simp only [Py.bind_ok, Py.pure_ok] at h
  obtain ⟨p0, _, p5, h5, p6, h6, p7, h7, p8, h8, _⟩ := h
  have hin : ∀ {v : Int} {b : Bytes}, uint32ToStr v = .ok b → 0 ≤ v ∧ v < 2 ^ 32 := by
    intro v b hv
    unfold uint32ToStr at hv
    split at hv
    · omega
    · cases hv
  exact ⟨(hin h5).1, (hin h5).2, (hin h6).1, (hin h6).2, (hin h7).1, (hin h7).2,
    (hin h8).1, (hin h8).2⟩

/-- C37 does not hold for all strings: the size is computed from the number of characters, so
with a character outside ASCII the size field is smaller than the box. -/
theorem C37_size_violation : ∃ (e : Emsg) (box : Bytes), e.Fits ∧ e.getBox = .ok box ∧
    beVal (box.take 4) ≠ box.length :=
  ⟨{ scheme := ['u'], value := ['1'], timescale := 1, delta := 2, duration := 0,
     id := 0, message := ['é'] },
   [0, 0, 0, 33, 101, 109, 115, 103, 0, 0, 0, 0, 117, 0, 49, 0, 0, 0, 0, 1, 0, 0, 0, 2,
    0, 0, 0, 0, 0, 0, 0, 0, 195, 169], by unfold Emsg.Fits; decide, by decide +kernel,
    by decide⟩

example : ∃ e : Emsg, e.Fits ∧ Ascii e.scheme ∧ Ascii e.value ∧ Ascii e.message ∧
    NoNul e.scheme ∧ NoNul e.value ∧ e.delta = 720000 ∧ e.value = "999".toList :=
  ⟨{ scheme := scteScheme, value := "999".toList, timescale := 90000, delta := 720000,
     duration := 900000, id := 13, message := "<SpliceInsert/>".toList },
    by unfold Emsg.Fits; decide, by unfold Ascii; decide, by unfold Ascii; decide, by unfold Ascii; decide,
    by unfold NoNul; decide, by unfold NoNul; decide, rfl, rfl⟩

/-! ### C36 -/

/-- The configured splice points of every minute, in seconds after the full minute. -/
def SpliceOffset (perMinute offset : Int) : Prop :=
  (1 ≤ perMinute ∧ perMinute ≤ 8 ∧ offset = 10) ∨ (perMinute = 2 ∧ offset = 40) ∨
  (perMinute = 3 ∧ (offset = 36 ∨ offset = 46)) ∨ (perMinute = 8 ∧ offset = 30)

/-- Segment `n` carries an announcement of a splice at time `t` (seconds): a message whose
time is `t` and which comes in a segment starting before `t`. -/
def Announces (perMinute segDur n t : Int) : Prop :=
  ∃ e, scteOf perMinute n segDur = .ok (some e) ∧ n * segDur < t ∧ e.timescale = 90000 ∧
    n * segDur * 90000 + e.delta = t * 90000 ∧ e.id = t / 10

private theorem findSplice_some {a b t : Int} {l : List Int} (h : findSplice a b l = some t) :
    t ∈ l ∧ ((a ≤ t - 6 ∧ t - 6 ≤ b) ∨ (a ≤ t - 8 ∧ t - 8 ≤ b)) := by
  induction l with
  | nil => cases h
  | cons x xs ih =>
    rw [findSplice] at h
    split at h
    · cases h; exact ⟨by simp, by assumption⟩
    · exact ⟨by simp [(ih h).1], (ih h).2⟩

private theorem announces_of {pm d n t : Int} (h1 : 1 ≤ pm) (h8 : pm ≤ 8) (ht : 0 ≤ t)
    (hf : findSplice (n * d) (n * d + d) (spliceTimes pm (n * d - n * d % 60)).1 = some t)
    : Announces pm d n t := by
  have hbound := findSplice_some hf
  unfold Announces scteOf
  rw [if_neg (by omega)]
  simp only [hf, if_neg (Int.not_lt.2 ht), scte35Emsg]
  refine ⟨_, rfl, by omega, rfl, by simp only; omega, ?_⟩
  simp only [Int.fdiv_eq_ediv_of_nonneg _ (show (0 : Int) ≤ 10 by decide)]

/-- C36 for segment durations that divide the minute and are at most 12 s, and for all
durations up to 5 s: every splice point of every minute is announced by some segment, before
the splice, with its time and id.  Missing for the full claim: other durations, see
`C36_missed_violation` and `C36_missed_second_violation`. -/
theorem C36_announced_partial (pm offset d k : Int) (hs : SpliceOffset pm offset) (hk : 0 ≤ k)
    (hd : 1 ≤ d) (hd2 : d ≤ 5 ∨ (d ≤ 12 ∧ d ∣ 60)) :
    ∃ n, 0 ≤ n ∧ Announces pm d n (60 * k + offset) := by
  have ho : offset = 10 ∨ offset = 40 ∨ offset = 36 ∨ offset = 46 ∨ offset = 30 := by
    unfold SpliceOffset at hs; omega
  have hpm : 1 ≤ pm ∧ pm ≤ 8 := by unfold SpliceOffset at hs; omega
  refine ⟨(60 * k + offset - 6) / d, Int.ediv_nonneg (by omega) (by omega), ?_⟩
  apply announces_of hpm.1 hpm.2 (by omega)
  have e1 := Int.mul_ediv_add_emod (60 * k + offset - 6) d
  have e2 := Int.emod_nonneg (60 * k + offset - 6) (show d ≠ 0 by omega)
  have e3 := Int.emod_lt_of_pos (60 * k + offset - 6) (show 0 < d by omega)
  have e4 : (60 * k + offset - 6) / d * d = d * ((60 * k + offset - 6) / d) := Int.mul_comm _ _
  have hres : d ∣ 60 → (60 * k + offset - 6) % d = (offset - 6) % d := by
    rintro ⟨c, hc⟩
    rw [hc, show d * c * k + offset - 6 = (offset - 6) + d * (c * k) by
      rw [Int.mul_assoc]; omega, Int.add_mul_emod_self_left]
  generalize (60 * k + offset - 6) / d * d = s at e4 ⊢
  generalize d * ((60 * k + offset - 6) / d) = s' at e1 e4
  generalize hr : (60 * k + offset - 6) % d = r at e1 e2 e3 hres
  have hsv : s = 60 * k + offset - 6 - r := by omega
  have hstart : 60 * k ≤ s ∧ s < 60 * k + 60 ∧ (offset = 10 → True) := by
    rcases hd2 with h5 | ⟨h12, hdv⟩
    · rcases ho with rfl | rfl | rfl | rfl | rfl <;> refine ⟨by omega, by omega, fun _ => trivial⟩
    · have hr' := hres hdv
      have hc : d = 1 ∨ d = 2 ∨ d = 3 ∨ d = 4 ∨ d = 5 ∨ d = 6 ∨ d = 10 ∨ d = 12 := by
        have h7 : d ≠ 7 := by rintro rfl; revert hdv; decide
        have h8 : d ≠ 8 := by rintro rfl; revert hdv; decide
        have h9 : d ≠ 9 := by rintro rfl; revert hdv; decide
        have h11 : d ≠ 11 := by rintro rfl; revert hdv; decide
        omega
      rcases hc with rfl | rfl | rfl | rfl | rfl | rfl | rfl | rfl <;>
      rcases ho with rfl | rfl | rfl | rfl | rfl <;>
      refine ⟨by omega, by omega, fun _ => trivial⟩
  have hmin : s - s % 60 = 60 * k := by omega
  rw [hmin]
  have hrd : d ≤ 5 → r ≤ 4 := by omega
  unfold SpliceOffset at hs
  rcases hs with ⟨h1, h8, rfl⟩ | ⟨rfl, rfl⟩ | ⟨rfl, rfl | rfl⟩ | ⟨rfl, rfl⟩
  · have : ∃ l, (spliceTimes pm (60 * k)).1 = (60 * k + 10) :: l := by
      unfold spliceTimes; split
      · exact ⟨_, rfl⟩
      · split
        · exact ⟨_, rfl⟩
        · split <;> exact ⟨_, rfl⟩
    obtain ⟨l, hl⟩ := this
    rw [hl, findSplice, if_pos (by omega)]
  · rw [show (spliceTimes 2 (60 * k)).1 = [60 * k + 10, 60 * k + 40] from rfl, findSplice,
      if_neg (by omega), findSplice, if_pos (by omega)]
  · rw [show (spliceTimes 3 (60 * k)).1 = [60 * k + 10, 60 * k + 36, 60 * k + 46] from rfl,
      findSplice, if_neg (by omega), findSplice, if_pos (by omega)]
  · rw [show (spliceTimes 3 (60 * k)).1 = [60 * k + 10, 60 * k + 36, 60 * k + 46] from rfl,
      findSplice, if_neg (by omega), findSplice, if_neg ?_, findSplice, if_pos (by omega)]
    rcases hd2 with h5 | ⟨h12, hdv⟩
    · omega
    · have hr' := hres hdv
      have hc : d = 1 ∨ d = 2 ∨ d = 3 ∨ d = 4 ∨ d = 5 ∨ d = 6 ∨ d = 10 ∨ d = 12 := by
        have h7 : d ≠ 7 := by rintro rfl; revert hdv; decide
        have h8 : d ≠ 8 := by rintro rfl; revert hdv; decide
        have h9 : d ≠ 9 := by rintro rfl; revert hdv; decide
        have h11 : d ≠ 11 := by rintro rfl; revert hdv; decide
        omega
      rcases hc with rfl | rfl | rfl | rfl | rfl | rfl | rfl | rfl <;> omega
  · rw [show (spliceTimes 8 (60 * k)).1 = [60 * k + 10, 60 * k + 30] from rfl, findSplice,
      if_neg (by omega), findSplice, if_pos (by omega)]

/-- C36, the other direction, for every duration: whatever a segment announces is a splice
point of its minute, not yet reached when the segment starts, with its time and id; the
announcing segment touches one of the two warning instants. -/
theorem C36_only_splices (pm d n : Int) (e : Emsg)
    (h : scteOf pm n d = .ok (some e)) :
    ∃ offset, SpliceOffset pm offset ∧
      Announces pm d n (60 * (n * d / 60) + offset) ∧
      e.duration = (if pm = 8 then 20 else 10) * 90000 ∧
      (n * d ≤ 60 * (n * d / 60) + offset - 6 ∧ 60 * (n * d / 60) + offset - 6 ≤ n * d + d ∨
       n * d ≤ 60 * (n * d / 60) + offset - 8 ∧ 60 * (n * d / 60) + offset - 8 ≤ n * d + d) := by
  have h0 := h
  unfold scteOf at h
  split at h
  · cases h
  · rename_i hpm
    have hmin : n * d - n * d % 60 = 60 * (n * d / 60) := by omega
    simp only [hmin] at h
    cases hf : findSplice (n * d) (n * d + d) (spliceTimes pm (60 * (n * d / 60))).1 with
    | none => rw [hf] at h; cases h
    | some t =>
      rw [hf] at h
      simp only at h
      split at h
      · cases h
      · rename_i ht
        simp only [scte35Emsg] at h
        obtain ⟨hmem, hb⟩ := findSplice_some hf
        have hoff : SpliceOffset pm (t - 60 * (n * d / 60)) := by
          unfold spliceTimes at hmem
          unfold SpliceOffset
          split at hmem
          · simp at hmem; omega
          · split at hmem
            · simp at hmem; omega
            · split at hmem
              · simp at hmem; omega
              · simp at hmem; omega
        refine ⟨t - 60 * (n * d / 60), hoff, ?_, ?_, ?_⟩
        · rw [show 60 * (n * d / 60) + (t - 60 * (n * d / 60)) = t by omega]
          exact announces_of (by omega) (by omega) (by omega) (by rw [hmin]; exact hf)
        · simp only [ne_eq, not_true_eq_false, if_false,
            Except.ok.injEq, Option.some.injEq] at h
          rw [← h]
          simp only [spliceTimes]
          by_cases h2 : pm = 2
          · subst h2; rfl
          · by_cases h3 : pm = 3
            · subst h3; rfl
            · by_cases h8 : pm = 8
              · subst h8; rfl
              · simp [h2, h3, h8]
        · rw [show 60 * (n * d / 60) + (t - 60 * (n * d / 60)) = t by omega]
          exact hb

/-! #### The message text -/

/-- No place in the piece of text is, or could be completed to, the start of the attribute. -/
def clearOf (key : Text) : Text → Bool
  | [] => true
  | c :: cs => !key.isPrefixOf (c :: cs) && !(c :: cs).isPrefixOf key && clearOf key cs

private theorem prefix_append {k a : Text} : ∀ {b : Text},
    k.isPrefixOf (a ++ b) = true → k.isPrefixOf a = true ∨ a.isPrefixOf k = true := by
  induction k generalizing a with
  | nil => intro b _; left; cases a <;> rfl
  | cons x k ih =>
    intro b h
    cases a with
    | nil => right; rfl
    | cons y a =>
      simp only [List.cons_append, List.isPrefixOf, Bool.and_eq_true, beq_iff_eq] at h ⊢
      rcases ih h.2 with h2 | h2
      · exact Or.inl ⟨h.1, h2⟩
      · exact Or.inr ⟨h.1.symm, h2⟩

private theorem attrValue_skip {name : Text} : ∀ {a : Text} (b : Text),
    clearOf (name ++ "=\"".toList) a = true → attrValue name (a ++ b) = attrValue name b := by
  intro a
  induction a with
  | nil => intro b _; rfl
  | cons c cs ih =>
    intro b h
    simp only [clearOf, Bool.and_eq_true, Bool.not_eq_true'] at h
    have hn : (name ++ "=\"".toList).isPrefixOf (c :: cs ++ b) = false := by
      by_contra hc
      rcases prefix_append (Bool.not_eq_false _ ▸ hc) with h1 | h1
      · rw [h.1.1] at h1; cases h1
      · rw [h.1.2] at h1; cases h1
    rw [List.cons_append] at hn ⊢
    rw [attrValue, hn]
    exact ih b h.2

private theorem attrValue_at {name : Text} {v b : Text} (hq : ∀ c ∈ v, c ≠ '"') :
    name ≠ [] → attrValue name (name ++ ("=\"".toList ++ (v ++ '"' :: b))) = some v := by
  intro hne
  obtain ⟨x, xs, rfl⟩ := List.exists_cons_of_ne_nil hne
  rw [List.cons_append, attrValue, if_pos]
  · congr 1
    rw [show x :: (xs ++ ("=\"".toList ++ (v ++ '"' :: b))) =
        (x :: xs ++ "=\"".toList) ++ (v ++ '"' :: b) by simp,
      List.drop_left' (by simp), List.takeWhile_append_of_pos (by simpa using hq)]
    simp
  · rw [show x :: (xs ++ ("=\"".toList ++ (v ++ '"' :: b))) =
        (x :: xs ++ "=\"".toList) ++ (v ++ '"' :: b) by simp]
    simp

private theorem clear_noneOf {k : Char} {ks : Text} : ∀ {a : Text}, (∀ c ∈ a, c ≠ k) →
    clearOf (k :: ks) a = true := by
  intro a
  induction a with
  | nil => intro _; rfl
  | cons c cs ih =>
    intro h
    have h1 : (k == c) = false := by simpa using fun e => h c (by simp) e.symm
    have h2 : (c == k) = false := by simpa using h c (by simp)
    simp only [clearOf, List.isPrefixOf, h1, h2, Bool.false_and, Bool.not_false, Bool.true_and]
    exact ih (fun x hx => h x (by simp [hx]))

private theorem intText_chars (v : Int) : ∀ c ∈ intText v, c ≠ '"' ∧ c ≠ 'p' ∧ c ≠ 'd' := by
  have hn : ∀ n : Nat, ∀ c ∈ natText n, c ≠ '"' ∧ c ≠ 'p' ∧ c ≠ 'd' := by
    intro n c hc
    obtain ⟨d, hd, rfl⟩ := natText_digits n c hc
    clear hc
    revert hd d
    decide
  intro c hc
  unfold intText at hc
  split at hc
  · rcases List.mem_cons.1 hc with rfl | hc
    · decide
    · exact hn _ c hc
  · exact hn _ c hc

private theorem insertMessage_read (id pts dur : Int) (hd : dur ≠ 0) :
    attrValue "spliceEventId".toList (insertMessage id pts dur) = some (intText id) ∧
    attrValue "ptsTime".toList (insertMessage id pts dur) = some (intText pts) ∧
    attrValue "duration".toList (insertMessage id pts dur) = some (intText dur) := by
  have q := fun v => fun c hc => (intText_chars v c hc).1
  have p := fun v => fun c hc => (intText_chars v c hc).2.1
  have d := fun v => fun c hc => (intText_chars v c hc).2.2
  unfold insertMessage
  rw [if_neg hd]
  simp only [List.append_assoc]
  refine ⟨?_, ?_, ?_⟩
  · rw [attrValue_skip _ (by decide +kernel)]
    rw [show "<SpliceInsert spliceEventId=\"".toList =
      "<SpliceInsert ".toList ++ ("spliceEventId".toList ++ "=\"".toList) from rfl]
    simp only [List.append_assoc]
    rw [attrValue_skip _ (by decide +kernel)]
    exact attrValue_at (q id) (by decide)
  · rw [attrValue_skip _ (by decide +kernel), attrValue_skip _ (by decide +kernel),
      attrValue_skip _ (clear_noneOf (p id)), attrValue_skip _ (by decide +kernel),
      attrValue_skip _ (by decide +kernel)]
    rw [show "<Program><SpliceTime ptsTime=\"".toList =
      "<Program><SpliceTime ".toList ++ ("ptsTime".toList ++ "=\"".toList) from rfl]
    simp only [List.append_assoc]
    rw [attrValue_skip _ (by decide +kernel)]
    exact attrValue_at (q pts) (by decide)
  · rw [attrValue_skip _ (by decide +kernel), attrValue_skip _ (by decide +kernel),
      attrValue_skip _ (clear_noneOf (d id)), attrValue_skip _ (by decide +kernel),
      attrValue_skip _ (by decide +kernel), attrValue_skip _ (by decide +kernel),
      attrValue_skip _ (clear_noneOf (d pts)), attrValue_skip _ (by decide +kernel)]
    rw [show "<BreakDuration autoReturn=\"true\" duration=\"".toList =
      "<BreakDuration autoReturn=\"true\" ".toList ++ ("duration".toList ++ "=\"".toList) from rfl]
    simp only [List.append_assoc]
    rw [attrValue_skip _ (by decide +kernel)]
    exact attrValue_at (q dur) (by decide)

/-- C36, the text of the message: it is of the SCTE-35 scheme, and what a client reads in it agrees
with the fields of the box: the event id is the id, the splice time (a 33-bit clock of 90 kHz) is
the time the box announces, and the break lasts as long as the event. -/
theorem C36_message (pm d n : Int) (e : Emsg) (h : scteOf pm n d = .ok (some e)) :
    e.scheme = "urn:scte:scte35:2013:xml".toList ∧
    attrValue "spliceEventId".toList e.message = some (intText e.id) ∧
    attrValue "ptsTime".toList e.message =
      some (intText ((n * d * 90000 + e.delta) % 2 ^ 33)) ∧
    attrValue "duration".toList e.message = some (intText e.duration) := by
  unfold scteOf at h
  split at h
  · cases h
  · simp only at h
    split at h
    · cases h
    · rename_i t hf
      split at h
      · cases h
      · simp only [scte35Emsg, ne_eq, not_true_eq_false, if_false, Except.ok.injEq,
          Option.some.injEq] at h
        subst h
        have hdur : (spliceTimes pm (n * d - n * d % 60)).2 * 90000 ≠ 0 := by
          unfold spliceTimes
          repeat' split
          all_goals simp only; decide
        refine ⟨rfl, (insertMessage_read _ _ _ hdur).1, ?_, (insertMessage_read _ _ _ hdur).2.2⟩
        rw [(insertMessage_read _ _ _ hdur).2.1]
        congr 3
        simp only
        omega

example : (scteOf 1 2 2).toOption.join.map (fun e =>
    (attrValue "ptsTime".toList e.message, attrValue "duration".toList e.message)) =
    some (some "900000".toList, some "900000".toList) := by decide +kernel

/-- C36: distinct splices have distinct ids, equal splices the same id. -/
theorem C36_distinct_ids (pm d1 d2 n1 n2 t1 t2 : Int) (e1 e2 : Emsg)
    (k1 k2 o1 o2 : Int) (ho1 : SpliceOffset pm o1) (ho2 : SpliceOffset pm o2)
    (ht1 : t1 = 60 * k1 + o1) (ht2 : t2 = 60 * k2 + o2)
    (a1 : scteOf pm n1 d1 = .ok (some e1)) (a2 : scteOf pm n2 d2 = .ok (some e2))
    (h1 : Announces pm d1 n1 t1) (h2 : Announces pm d2 n2 t2) :
    e1.id = e2.id ↔ t1 = t2 := by
  obtain ⟨f1, g1, -, -, -, i1⟩ := h1
  obtain ⟨f2, g2, -, -, -, i2⟩ := h2
  rw [a1] at g1; rw [a2] at g2
  cases g1; cases g2
  unfold SpliceOffset at ho1 ho2
  omega

/-- C36 fails for a duration that does not divide the minute: with 7 s segments the splice at
second 130 is announced by no segment. -/
theorem C36_missed_violation : SpliceOffset 1 10 ∧ ∀ n, ¬ Announces 1 7 n (60 * 2 + 10) := by
  refine ⟨by unfold SpliceOffset; omega, ?_⟩
  rintro n ⟨e, he, hlt, -, hdelta, -⟩
  unfold scteOf at he
  rw [if_neg (by decide)] at he
  simp only [show ∀ m, spliceTimes 1 m = ([m + 10], 10) from fun _ => rfl] at he
  cases hf : findSplice (n * 7) (n * 7 + 7) [n * 7 - n * 7 % 60 + 10] with
  | none => rw [hf] at he; cases he
  | some t =>
    obtain ⟨hm, hb⟩ := findSplice_some hf
    rw [hf] at he
    simp only at he
    split at he
    · cases he
    · simp only [scte35Emsg, ne_eq, not_true_eq_false, if_false, Except.ok.injEq, Option.some.injEq] at he
      rw [← he] at hdelta
      simp only at hdelta
      simp at hm
      omega

/-- C36 fails for a duration that divides the minute but is longer than 12 s: with 15 s
segments and three splices a minute the third one is announced by no segment. -/
theorem C36_missed_second_violation :
    SpliceOffset 3 46 ∧ ∀ n, ¬ Announces 3 15 n (60 * 1 + 46) := by
  refine ⟨by unfold SpliceOffset; omega, ?_⟩
  rintro n ⟨e, he, hlt, -, hdelta, -⟩
  unfold scteOf at he
  rw [if_neg (by decide)] at he
  simp only [show ∀ m, spliceTimes 3 m = ([m + 10, m + 36, m + 46], 10) from fun _ => rfl] at he
  cases hf : findSplice (n * 15) (n * 15 + 15) [n * 15 - n * 15 % 60 + 10,
      n * 15 - n * 15 % 60 + 36, n * 15 - n * 15 % 60 + 46] with
  | none => rw [hf] at he; cases he
  | some t =>
    have hf' := hf
    obtain ⟨hm, hb⟩ := findSplice_some hf
    rw [hf] at he
    simp only at he
    split at he
    · cases he
    · simp only [scte35Emsg, ne_eq, not_true_eq_false, if_false, Except.ok.injEq, Option.some.injEq] at he
      rw [← he] at hdelta
      simp only at hdelta
      have ht : t = 106 := by omega
      have hn : n * 15 = 90 := by simp at hm; omega
      rw [hn, ht] at hf'
      revert hf'
      decide

example : (scteOf 3 17 4).toOption.map (Option.map (fun e => (e.id, e.delta)))
    = some (none) := by decide +kernel
example : (scteOf 3 22 4).toOption.map (Option.map (fun e => (e.id, e.delta)))
    = some (some (9, 8 * 90000)) := by decide +kernel

end Verif
