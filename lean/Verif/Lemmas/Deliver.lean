import Verif.Lemmas.FilterTransfer
import Verif.Props.LiveTimes
import Verif.Props.Emsg
/-
Helper lemmas: when the boxes that the media segment filter inserts can be written.
-/
namespace Verif
open Spec

/-! ### What a filter notes -/

theorem filter_inv {σ : Type} (r : FilterRules σ) (P : σ → Prop)
    (hr : ∀ ty data s o s', r.leaf ty data s = .ok (o, s') → P s → P s') : ∀ n : Nat,
    (∀ ty data s o s', filterBox r n ty data s = .ok (o, s') → P s → P s') ∧
    (∀ rest s o s', filterKids r n rest s = .ok (o, s') → P s → P s') := by
  intro n
  induction n with
  | zero =>
    refine ⟨fun ty data s o s' h _ => ?_, fun rest s o s' h hp => ?_⟩
    · unfold filterBox at h
      cases h
    · cases rest with
      | nil => unfold filterKids at h; cases h; exact hp
      | cons b rest => unfold filterKids at h; cases h
  | succ n ih =>
    refine ⟨fun ty data s o s' h hp => ?_, fun rest s o s' h hp => ?_⟩
    · unfold filterBox at h
      split at h
      · cases hk : filterKids r n (data.drop 8) s with
        | error e => rw [hk] at h; cases h
        | ok x =>
          obtain ⟨k, s1⟩ := x
          rw [hk] at h
          dsimp only at h
          have := ih.2 _ _ _ _ hk hp
          split at h
          · split at h
            · cases h
            · cases h; exact this
          · cases h; exact this
      · exact hr _ _ _ _ _ h hp
    · cases rest with
      | nil => unfold filterKids at h; cases h; exact hp
      | cons b rest =>
        unfold filterKids at h
        cases h1 : strToUint32 (((b :: rest).take 8).take 4) with
        | error e => rw [h1] at h; cases h
        | ok size =>
          rw [h1] at h
          dsimp only at h
          cases h2 : filterBox r n (slice (b :: rest) 4 8) ((b :: rest).take size) s with
          | error e => rw [h2] at h; cases h
          | ok x =>
            obtain ⟨k, s1⟩ := x
            rw [h2] at h
            dsimp only at h
            cases h3 : filterKids r n ((b :: rest).drop size) s1 with
            | error e => rw [h3] at h; cases h
            | ok y =>
              obtain ⟨k2, s2⟩ := y
              rw [h3] at h
              cases h
              exact ih.2 _ _ _ _ h3 (ih.1 _ _ _ _ _ h2 hp)

theorem filterTop_inv {σ : Type} (r : FilterRules σ) (P : σ → Prop)
    (hr : ∀ ty data s o s', r.leaf ty data s = .ok (o, s') → P s → P s') : ∀ (n : Nat) (rest : Bytes) (s : σ) o s',
    filterTop r n rest s = .ok (o, s') → P s → P s' := by
  intro n
  induction n with
  | zero =>
    intro rest s o s' h hp
    cases rest with
    | nil => unfold filterTop at h; cases h; exact hp
    | cons b rest => unfold filterTop at h; cases h
  | succ n ih =>
    intro rest s o s' h hp
    cases rest with
    | nil => unfold filterTop at h; cases h; exact hp
    | cons b rest =>
      unfold filterTop at h
      cases h1 : strToUint32 (((b :: rest).take 8).take 4) with
      | error e => rw [h1] at h; cases h
      | ok size =>
        rw [h1] at h
        dsimp only at h
        cases h2 : (if slice (b :: rest) 4 8 ∈ r.top then filterBox r n (slice (b :: rest) 4 8) ((b :: rest).take size) s
            else .ok ((b :: rest).take size, s)) with
        | error e => rw [h2] at h; cases h
        | ok x =>
          obtain ⟨k, s1⟩ := x
          rw [h2] at h
          dsimp only at h
          have hp1 : P s1 := by
            split at h2
            · exact (filter_inv r P hr n).1 _ _ _ _ _ h2 hp
            · cases h2; exact hp
          cases h3 : filterTop r n ((b :: rest).drop size) s1 with
          | error e => rw [h3] at h; cases h
          | ok y =>
            obtain ⟨k2, s2⟩ := y
            rw [h3] at h
            cases h
            exact ih _ _ _ _ h3 hp1

theorem strToUint32_lt {d : Bytes} {n : Nat} (h : strToUint32 d = .ok n) : n < 2 ^ 32 := by
  obtain ⟨h4, rfl⟩ := strToUint32_ok h
  have := beVal_lt d
  rw [h4] at this
  exact this

/-- A timescale is a 32-bit number. -/
theorem initInfo_timescale {b : Bytes} {info : InitInfo} (h : initInfo b = .ok info) : info.timescale < 2 ^ 32 := by
  unfold initInfo filterFile at h
  cases hf : filterTop initRules (2 * b.length + 1) b {} with
  | error e => rw [hf] at h; cases h
  | ok x =>
    obtain ⟨o, s⟩ := x
    rw [hf] at h
    cases h
    refine filterTop_inv initRules (fun s => s.timescale < 2 ^ 32) ?_ _ _ _ _ _ hf (by decide)
    intro ty data s o s' hl hp
    have hl : initLeaf ty data s = .ok (o, s') := hl
    unfold initLeaf at hl
    split at hl
    · unfold processHdlr at hl; cases hl; exact hp
    · split at hl
      · unfold processTkhd at hl
        split at hl
        · cases hl
        · split at hl
          · cases hl
          · split at hl
            · split at hl <;> cases hl
              exact hp
            · split at hl
              · split at hl <;> cases hl
                exact hp
              · cases hl; exact hp
      · split at hl
        · unfold processMdhd at hl
          split at hl
          · cases hl
          · rename_i t ht
            cases hl
            have := strToUint32_lt ht
            dsimp only
            omega
        · split at hl
          · unfold processTrex at hl
            simp only [Py.bind_ok, Py.pure_ok] at hl
            obtain ⟨_, -, _, -, _, -, _, -, hl⟩ := hl
            cases hl
            exact hp
          · split at hl
            · cases hl; exact hp
            · cases hl

/-! ### The boxes that can be inserted -/

theorem getBox_of {e : Emsg} (h : e.Fits) (hl : e.scheme.length + e.value.length + e.message.length < 2 ^ 31) :
    ∃ b, e.getBox = .ok b := by
  obtain ⟨h1, h2, h3, h4, h5, h6, h7, h8⟩ := h
  unfold Emsg.getBox
  obtain ⟨b0, e0⟩ := uint32ToStr_of (v := ((12 + 4 * 4 + e.scheme.length + 1 + e.value.length + 1 + e.message.length : Nat) : Int))
    (by omega) (by omega)
  obtain ⟨b1, e1⟩ := uint32ToStr_of h1 h2
  obtain ⟨b2, e2⟩ := uint32ToStr_of h3 h4
  obtain ⟨b3, e3⟩ := uint32ToStr_of h5 h6
  obtain ⟨b4, e4⟩ := uint32ToStr_of h7 h8
  dsimp only
  rw [e0, e1, e2, e3, e4]
  exact ⟨_, rfl⟩

/-- The message at the end of a period of availability can be written. -/
theorem lastBox_of (c : MfCfg) (h : ∀ m, c.emsgLast = some m → m.length < 2 ^ 30) : ∃ b, lastBox c = .ok b := by
  unfold lastBox
  cases hm : c.emsgLast with
  | none => exact ⟨_, rfl⟩
  | some m =>
    have := h m hm
    have l1 : "urn:mpeg:dash:event:2012".toList.length < 100 := by decide +kernel
    have l2 : "1".toList.length < 100 := by decide +kernel
    refine getBox_of (e := lastSegEmsg m) ⟨?_, ?_, ?_, ?_, ?_, ?_, ?_, ?_⟩ ?_
    · show (0 : Int) ≤ 1; decide
    · show (1 : Int) < 2 ^ 32; decide
    · show (0 : Int) ≤ 2; decide
    · show (2 : Int) < 2 ^ 32; decide
    · show (0 : Int) ≤ 0; decide
    · show (0 : Int) < 2 ^ 32; decide
    · show (0 : Int) ≤ 0; decide
    · show (0 : Int) < 2 ^ 32; decide
    · show "urn:mpeg:dash:event:2012".toList.length + "1".toList.length + m.length < 2 ^ 31
      omega

theorem natText_length : ∀ (k n : Nat), n < 10 ^ (k + 1) → (natText n).length ≤ k + 1 := by
  intro k
  induction k with
  | zero =>
    intro n h
    unfold natText
    rw [if_pos (by simpa using h)]
    simp
  | succ k ih =>
    intro n h
    unfold natText
    split
    · simp
    · have := ih (n / 10) (by rw [Nat.pow_succ] at h; omega)
      simp only [List.length_append, List.length_cons, List.length_nil]
      omega

theorem intText_length {v : Int} (h0 : 0 ≤ v) (h1 : v < 10 ^ 12) : (intText v).length ≤ 12 := by
  unfold intText
  rw [if_neg (by omega)]
  exact natText_length 11 v.natAbs (by omega)

theorem insertMessage_length {a b d : Int} (ha : 0 ≤ a ∧ a < 10 ^ 12) (hb : 0 ≤ b ∧ b < 10 ^ 12)
    (hd : 0 ≤ d ∧ d < 10 ^ 12) : (insertMessage a b d).length < 2000 := by
  have l1 := intText_length ha.1 ha.2
  have l2 := intText_length hb.1 hb.2
  have l3 := intText_length hd.1 hd.2
  unfold insertMessage
  generalize intText a = ta at *
  generalize intText b = tb at *
  generalize intText d = td at *
  have k1 : "<SpliceInfoSection ptsAdjustment=\"0\" scte35:tier=\"4095\">\n".toList.length < 200 := by decide +kernel
  have k2 : "<SpliceInsert spliceEventId=\"".toList.length < 200 := by decide +kernel
  have k3 : "\" spliceEventCancelIndicator=\"false\" outOfNetworkIndicator=\"false\" ".toList.length < 200 := by decide +kernel
  have k4 : "uniqueProgramId=\"0\" availNum=\"0\" availsExpected=\"0\" spliceImmediateFlag=\"false\" >\n".toList.length < 200 := by
    decide +kernel
  have k5 : "<Program><SpliceTime ptsTime=\"".toList.length < 200 := by decide +kernel
  have k6 : "\"/></Program>\n".toList.length < 200 := by decide +kernel
  have k7 : "<BreakDuration autoReturn=\"true\" duration=\"".toList.length < 200 := by decide +kernel
  have k8 : "\"/>\n".toList.length < 200 := by decide +kernel
  have k9 : "</SpliceInsert>\n</SpliceInfoSection>".toList.length < 200 := by decide +kernel
  generalize "<SpliceInfoSection ptsAdjustment=\"0\" scte35:tier=\"4095\">\n".toList = x1 at *
  generalize "<SpliceInsert spliceEventId=\"".toList = x2 at *
  generalize "\" spliceEventCancelIndicator=\"false\" outOfNetworkIndicator=\"false\" ".toList = x3 at *
  generalize "uniqueProgramId=\"0\" availNum=\"0\" availsExpected=\"0\" spliceImmediateFlag=\"false\" >\n".toList = x4 at *
  generalize "<Program><SpliceTime ptsTime=\"".toList = x5 at *
  generalize "\"/></Program>\n".toList = x6 at *
  generalize "<BreakDuration autoReturn=\"true\" duration=\"".toList = x7 at *
  generalize "\"/>\n".toList = x8 at *
  generalize "</SpliceInsert>\n</SpliceInfoSection>".toList = x9 at *
  have : (if d = 0 then [] else x7 ++ td ++ x8 : Text).length < 500 := by
    split
    · simp
    · simp only [List.length_append]; omega
  generalize (if d = 0 then [] else x7 ++ td ++ x8 : Text) = y at *
  simp only [List.length_append]
  omega

theorem findSplice_spec {a b t : Int} : ∀ {l : List Int}, findSplice a b l = some t → t ∈ l ∧ a + 6 ≤ t := by
  intro l
  induction l with
  | nil => intro h; cases h
  | cons x l ih =>
    intro h
    unfold findSplice at h
    split at h
    · cases h
      exact ⟨by simp, by omega⟩
    · obtain ⟨h1, h2⟩ := ih h
      exact ⟨by simp [h1], h2⟩

theorem spliceTimes_spec (pm m : Int) : (∀ t ∈ (spliceTimes pm m).1, t ≤ m + 46) ∧
    ((spliceTimes pm m).2 = 10 ∨ (spliceTimes pm m).2 = 20) := by
  unfold spliceTimes
  split
  · refine ⟨?_, Or.inl rfl⟩
    intro t ht
    simp at ht
    omega
  · split
    · refine ⟨?_, Or.inl rfl⟩
      intro t ht
      simp at ht
      omega
    · split
      · refine ⟨?_, Or.inr rfl⟩
        intro t ht
        simp at ht
        omega
      · refine ⟨?_, Or.inl rfl⟩
        intro t ht
        simp at ht
        omega

/-- An advertisement message can be written. -/
theorem scteBox_of {pm nr dur : Int} (h0 : 0 ≤ nr * dur) (h1 : nr * dur < 2 ^ 32) : ∃ b, scteBox pm nr dur = .ok b := by
  unfold scteBox
  cases hs : scteOf pm nr dur with
  | error e =>
    exfalso
    unfold scteOf at hs
    split at hs
    · cases hs
    · dsimp only at hs
      split at hs
      · cases hs
      · split at hs
        · cases hs
        · unfold scte35Emsg at hs
          rw [if_neg (by decide)] at hs
          cases hs
  | ok o =>
    cases o with
    | none => exact ⟨_, rfl⟩
    | some e =>
      dsimp only
      unfold scteOf at hs
      split at hs
      · cases hs
      · dsimp only at hs
        split at hs
        · cases hs
        · rename_i t ht
          obtain ⟨t1, t2⟩ := findSplice_spec ht
          obtain ⟨s1, s2⟩ := spliceTimes_spec pm (nr * dur - nr * dur % 60)
          have s3 := s1 t t1
          split at hs
          · cases hs
          · rename_i htn
            unfold scte35Emsg at hs
            rw [if_neg (by decide)] at hs
            simp only [Except.ok.injEq, Option.some.injEq] at hs
            subst hs
            have hm := Int.emod_nonneg (nr * dur) (show (60 : Int) ≠ 0 by decide)
            have hp0 := Int.emod_nonneg (t * 90000) (show (2 ^ 33 : Int) ≠ 0 by decide)
            have hp1 := Int.emod_lt_of_pos (t * 90000) (show (0 : Int) < 2 ^ 33 by decide)
            have hid : Int.fdiv t 10 = t / 10 := Int.fdiv_eq_ediv_of_nonneg _ (by decide)
            have hi0 : 0 ≤ t / 10 := Int.ediv_nonneg (by omega) (by decide)
            have hi1 : t / 10 < 2 ^ 32 := by omega
            generalize (spliceTimes pm (nr * dur - nr * dur % 60)).2 = ad at *
            have l1 : scteScheme.length < 100 := by decide +kernel
            have l2 : "999".toList.length < 100 := by decide +kernel
            refine getBox_of ⟨?_, ?_, ?_, ?_, ?_, ?_, ?_, ?_⟩ ?_
            · show (0 : Int) ≤ 90000; decide
            · show (90000 : Int) < 2 ^ 32; decide
            · dsimp only; omega
            · dsimp only; omega
            · dsimp only; omega
            · dsimp only; omega
            · dsimp only; rw [hid]; exact hi0
            · dsimp only; rw [hid]; exact hi1
            · dsimp only
              have := insertMessage_length (a := Int.fdiv t 10) (b := t * 90000 % 2 ^ 33) (d := ad * 90000)
                (by rw [hid]; omega) (by omega) (by omega)
              omega

end Verif
