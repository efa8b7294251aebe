import Verif.Props.Ttml
import Verif.Lemmas.MediaFilter
/-
C40 for segments: media data and sample size.
-/
namespace Verif

/-! ### The segment -/

/-- The boxes of a segment with the text of every mdat box adjusted. -/
def withText (f : Bytes → Bytes) (boxes : List (Bytes × Bytes)) : List (Bytes × Bytes) :=
  boxes.map fun b => if b.1 = tyMdat then (b.1, f b.2) else b

/-- Size of the last text. -/
def textSize (f : Bytes → Bytes) (boxes : List (Bytes × Bytes)) : Option Nat :=
  ((boxes.filter fun b => decide (b.1 = tyMdat)).getLast?).map fun b => (f b.2).length

theorem processTtml_boxes (f : Bytes → Bytes) (boxes : List (Bytes × Bytes))
    (ht : ∀ b ∈ boxes, b.1.length = 4) (hs : ∀ b ∈ boxes, 8 + b.2.length < 2 ^ 32)
    (hf : ∀ b ∈ boxes, b.1 = tyMdat → 8 + (f b.2).length < 2 ^ 32) (n : Nat) (hn : boxes.length ≤ n) (z : Option Nat) :
    processTtml (fun x => .ok (f x)) n (boxes.flatMap fun b => boxBytes b.1 b.2) z =
      .ok ((withText f boxes).flatMap fun b => boxBytes b.1 b.2, (textSize f boxes).or z) := by
  induction boxes generalizing n z with
  | nil =>
    have e : ([] : List (Bytes × Bytes)).flatMap (fun b => boxBytes b.1 b.2) = [] := rfl
    rw [e]
    unfold processTtml
    rfl
  | cons b boxes ih =>
    obtain ⟨ty, p⟩ := b
    obtain ⟨n, rfl⟩ : ∃ k, n = k + 1 := ⟨n - 1, by simp at hn; omega⟩
    have h1 := ht (ty, p) (by simp)
    have h2 := hs (ty, p) (by simp)
    have h3 := hf (ty, p) (by simp)
    simp only at h1 h2 h3
    have ih' := fun z' => ih (fun c hc => ht c (by simp [hc])) (fun c hc => hs c (by simp [hc]))
      (fun c hc => hf c (by simp [hc])) n (by simp at hn; omega) z'
    simp only [List.flatMap_cons]
    obtain ⟨c, l, e⟩ := boxBytes_ne_nil ty p (boxes.flatMap fun b => boxBytes b.1 b.2)
    rw [e]
    conv => lhs; unfold processTtml
    rw [← e, ← take8_take4, boxBytes_size h2]
    simp only
    rw [boxBytes_type _ _ h1, boxBytes_take _ _ h1, boxBytes_drop _ _ h1]
    by_cases hm : ty = tyMdat
    · have h3 := h3 hm
      subst hm
      simp only [ne_eq, not_true_eq_false, if_false]
      rw [boxBytes_drop8 _ rfl]
      have e2 : uint32ToStr (((f p).length + 8 : Nat) : Int) = .ok (beBytes 4 (8 + (f p).length)) := by
        rw [uint32ToStr_nat (by omega), Nat.add_comm]
      rw [e2]
      simp only
      rw [ih']
      simp only [withText, List.map_cons, List.flatMap_cons, if_true]
      congr 1
      congr 1
      unfold textSize
      rw [List.filter_cons_of_pos (by simp)]
      cases hl : boxes.filter (fun b => decide (b.1 = tyMdat)) with
      | nil => simp
      | cons a l =>
        rw [List.getLast?_cons_cons]
        cases hg : (a :: l).getLast? with
        | none => simp at hg
        | some v => simp
    · rw [if_pos hm]
      simp only
      rw [ih']
      simp only [withText, List.map_cons, List.flatMap_cons, if_neg hm]
      congr 2
      unfold textSize
      rw [List.filter_cons_of_neg (by simpa using hm)]

/-- **C40, the media data.** In a segment of boxes the text of every mdat box is adjusted, its size
field follows the new text, every other box is as it was, and the size used in the track header
below is that of the (last) new text. -/
theorem C40_mdat (offset segNr : Nat) (boxes : List (Bytes × Bytes))
    (ht : ∀ b ∈ boxes, b.1.length = 4) (hs : ∀ b ∈ boxes, 8 + b.2.length < 2 ^ 32)
    (hf : ∀ b ∈ boxes, b.1 = tyMdat → 8 + (adjustTtml offset segNr b.2).length < 2 ^ 32) (n : Nat) (hn : boxes.length ≤ n) :
    processTtml (fun x => .ok (adjustTtml offset segNr x)) n (boxes.flatMap fun b => boxBytes b.1 b.2) none =
      .ok ((boxes.map fun b => if b.1 = tyMdat then (b.1, adjustTtml offset segNr b.2) else b).flatMap
          fun b => boxBytes b.1 b.2,
        ((boxes.filter fun b => decide (b.1 = tyMdat)).getLast?).map
          fun b => (adjustTtml offset segNr b.2).length) := by
  rw [processTtml_boxes _ boxes ht hs hf n hn none]
  simp only [Option.or_none]
  rfl

theorem hasFlag_low (a b c d : UInt8) (k : Nat) (hk : k < 8) :
    hasFlag (beVal [a, b, c, d] % 2 ^ 24) k = d.toNat.testBit k := by
  unfold hasFlag
  rw [Nat.testBit_mod_two_pow]
  have e : beVal [a, b, c, d] = 2 ^ 8 * (a.toNat * 256 ^ 2 + b.toNat * 256 + c.toNat) + d.toNat := by
    simp only [beVal, List.length_cons, List.length_nil]
    omega
  rw [e, Nat.testBit_two_pow_mul_add _ (by have := d.toNat_lt; omega), if_pos hk]
  simp
  omega

theorem processTfhd_text {data : Bytes} {s : MfState} {vf pos dur : Nat} {size : Bytes}
    (h1 : strToUint32 (slice data 8 12) = .ok vf) (g0 : hasFlag (vf % 2 ^ 24) 0 = false)
    (g3 : hasFlag (vf % 2 ^ 24) 3 = true) (g4 : hasFlag (vf % 2 ^ 24) 4 = true)
    (hp : (if hasFlag (vf % 2 ^ 24) 1 = true then 20 else 16) = pos) (ha : s.ttmlActive = true)
    (h2 : strToUint32 (slice data pos (pos + 4)) = .ok dur)
    (h3 : uint32ToStr ((s.ttmlSize.getD 0 : Nat) : Int) = .ok size) :
    processTfhd data s = .ok (data.take (pos + 4) ++ size ++ data.drop (pos + 4 + 4),
      { s with defaultDur := some dur }) := by
  unfold processTfhd
  rw [h1]
  simp only [g0, g3, g4, hp, ha, h2, h3, if_true, Bool.false_eq_true, if_false]

/-- **C40, the sample size.** In a track fragment header with default duration and default size the
default sample size becomes that of the new text, and nothing else changes. -/
theorem C40_tfhd (v f2 f1 f0 : UInt8) (track sdi duration size rest : Bytes) (s : MfState) (z : Nat)
    (hz : s.ttmlSize = some z) (hz0 : 0 < z) (hz1 : z < 2 ^ 32)
    (h0 : f0.toNat.testBit 0 = false) (h3 : f0.toNat.testBit 3 = true) (h4 : f0.toNat.testBit 4 = true)
    (ht : track.length = 4) (hsdi : sdi.length = if f0.toNat.testBit 1 then 4 else 0)
    (hd : duration.length = 4) (hl : size.length = 4) :
    processTfhd (boxBytes tyTfhd ([v, f2, f1, f0] ++ track ++ sdi ++ duration ++ size ++ rest)) s =
      .ok (boxBytes tyTfhd ([v, f2, f1, f0] ++ track ++ sdi ++ duration ++ beBytes 4 z ++ rest),
        { s with defaultDur := some (beVal duration) }) := by
  have e1 : slice (boxBytes tyTfhd ([v, f2, f1, f0] ++ track ++ sdi ++ duration ++ size ++ rest)) 8 12 =
      [v, f2, f1, f0] := by
    rw [box_slice rfl _ _ _ (by omega)]
    rfl
  have e2 : strToUint32 [v, f2, f1, f0] = .ok (beVal [v, f2, f1, f0]) := by
    unfold strToUint32; rw [if_pos (by rfl)]
  have ha : s.ttmlActive = true := by
    unfold MfState.ttmlActive; rw [hz]; simp; omega
  have hp : (if f0.toNat.testBit 1 = true then 20 else 16) = 16 + sdi.length := by
    rw [hsdi]; split <;> rfl
  have e3 : slice (boxBytes tyTfhd ([v, f2, f1, f0] ++ track ++ sdi ++ duration ++ size ++ rest))
      (16 + sdi.length) (16 + sdi.length + 4) = duration := by
    rw [box_slice rfl _ _ _ (by omega)]
    have := slice_eq_of_append ([v, f2, f1, f0] ++ track ++ sdi) duration (size ++ rest)
      (a := 16 + sdi.length - 8) (b := 16 + sdi.length + 4 - 8) (by simp [ht]; omega) (by simp [ht, hd]; omega)
    simpa using this
  have e4 : strToUint32 duration = .ok (beVal duration) := by
    unfold strToUint32; rw [if_pos hd]
  rw [processTfhd_text (by rw [e1, e2]) (by rw [hasFlag_low _ _ _ _ _ (by decide), h0])
    (by rw [hasFlag_low _ _ _ _ _ (by decide), h3]) (by rw [hasFlag_low _ _ _ _ _ (by decide), h4])
    (by rw [hasFlag_low _ _ _ _ _ (by decide), hp]) ha (by rw [e3, e4])
    (by rw [hz, Option.getD_some, uint32ToStr_nat hz1])]
  rw [box_take rfl _ _ (by omega), box_drop rfl _ _ (by omega)]
  have e5 : ([v, f2, f1, f0] ++ track ++ sdi ++ duration ++ size ++ rest).take (16 + sdi.length + 4 - 8) =
      [v, f2, f1, f0] ++ track ++ sdi ++ duration := by
    rw [List.append_assoc, List.take_left']
    simp [ht, hd]; omega
  have e6 : ([v, f2, f1, f0] ++ track ++ sdi ++ duration ++ size ++ rest).drop (16 + sdi.length + 4 + 4 - 8) =
      rest := by
    rw [List.drop_left']
    simp [ht, hd, hl]; omega
  have e7 : 8 + ([v, f2, f1, f0] ++ track ++ sdi ++ duration ++ size ++ rest).length =
      8 + ([v, f2, f1, f0] ++ track ++ sdi ++ duration ++ beBytes 4 z ++ rest).length := by
    simp only [List.length_append, beBytes_length, hl]
  rw [e5, e6, e7]
  unfold boxBytes
  simp only [List.append_assoc]

/-- `<p begin="00:00:59.500" end="01:59:59">eng : 00:00:05.250 Segment # 7</p>` with offset 100 hours
and segment number 42: both times are found, two hour digits each, and both are shifted. -/
example :
    let x : Bytes := [60, 112, 32, 98, 101, 103, 105, 110, 61, 34, 48, 48, 58, 48, 48, 58, 53, 57, 46, 53, 48, 48,
      34, 32, 101, 110, 100, 61, 34, 48, 49, 58, 53, 57, 58, 53, 57, 34, 62, 101, 110, 103, 32, 58, 32, 48, 48, 58,
      48, 48, 58, 48, 53, 46, 50, 53, 48, 32, 83, 101, 103, 109, 101, 110, 116, 32, 35, 32, 55, 60, 47, 112, 62]
    attrTimes x = [(true, 2, 59), (false, 2, 7199)] ∧
      attrTimes (adjustTtml 360000 42 x) = [(true, 3, 360059), (false, 3, 367199)] := by decide +kernel

/-- **C40 fails** for a time with three digits for the hours: `begin="100:00:00"` stays, though its
segment is played an hour later. -/
theorem C40_hours_violation :
    ∃ x : Bytes, attrTimes x = [(true, 3, 360000)] ∧ attrTimes (adjustTtml 3600 42 x) = [(true, 3, 360000)] :=
  ⟨[98, 101, 103, 105, 110, 61, 34, 49, 48, 48, 58, 48, 48, 58, 48, 48, 34], by decide +kernel⟩

/-- A segment of one TTML sample, the size of which is given in the run; decode time 0, timescale 1000. -/
def sizedRunSegment : Bytes :=
  boxBytes tyMoof (boxBytes tyMfhd (beBytes 4 0 ++ beBytes 4 1) ++
    boxBytes tyTraf (boxBytes tyTfhd (beBytes 4 0x18 ++ beBytes 4 1 ++ beBytes 4 2000 ++ beBytes 4 20) ++
      boxBytes tyTfdt (beBytes 4 0 ++ beBytes 4 0) ++
      boxBytes tyTrun (beBytes 4 0x201 ++ beBytes 4 1 ++ beBytes 4 104 ++ beBytes 4 20))) ++
  boxBytes tyMdat [60, 112, 32, 98, 101, 103, 105, 110, 61, 34, 48, 48, 58, 48, 48, 58, 48, 49, 34, 62]

/-- **The sample size fails** where it is given in the run: the text (20 bytes before) has 22 bytes
after shifting it by 1000 hours, the default size in the track header says so, but the run that
takes precedence over it still says 20: the last two bytes of the text are lost. -/
theorem C40_run_violation :
    ∃ c out s pre text, filterTtml (fun x => .ok (adjustTtml 3600000 7 x)) c sizedRunSegment = .ok (out, s) ∧
      out = pre ++ boxBytes tyTrun (beBytes 4 0x201 ++ beBytes 4 1 ++ beBytes 4 104 ++ beBytes 4 20) ++
        boxBytes tyMdat text ∧ text.length = 22 :=
  ⟨{ segNr := some 7, segDur := 2, offset := 3600000, lmsg := false, timescale := some 1000, perMinute := 0,
     insertSidx := false, emsgLast := none, defaultDur := none },
   boxBytes tyMoof (boxBytes tyMfhd (beBytes 4 0 ++ beBytes 4 7) ++
    boxBytes tyTraf (boxBytes tyTfhd (beBytes 4 0x18 ++ beBytes 4 1 ++ beBytes 4 2000 ++ beBytes 4 22) ++
      boxBytes tyTfdt (beBytes 4 0 ++ beBytes 4 3600000000) ++
      boxBytes tyTrun (beBytes 4 0x201 ++ beBytes 4 1 ++ beBytes 4 104 ++ beBytes 4 20))) ++
    boxBytes tyMdat [60, 112, 32, 98, 101, 103, 105, 110, 61, 34, 49, 48, 48, 48, 58, 48, 48, 58, 48, 49, 34, 62],
   { sizeChange := 0, tfdt := some 3600000000, duration := some 2000, defaultDur := some 2000, ttmlSize := some 22,
     newSaio := none },
   beBytes 4 96 ++ tyMoof ++ boxBytes tyMfhd (beBytes 4 0 ++ beBytes 4 7) ++ beBytes 4 72 ++ tyTraf ++
     boxBytes tyTfhd (beBytes 4 0x18 ++ beBytes 4 1 ++ beBytes 4 2000 ++ beBytes 4 22) ++
      boxBytes tyTfdt (beBytes 4 0 ++ beBytes 4 3600000000),
   [60, 112, 32, 98, 101, 103, 105, 110, 61, 34, 49, 48, 48, 48, 58, 48, 48, 58, 48, 49, 34, 62],
   by decide +kernel⟩

/-- The hypotheses of `C40_mdat` and `C40_tfhd` hold for such a segment. -/
example : ([(tyStyp, [109, 115, 100, 104]), (tyMdat, [60, 112, 62])] : List (Bytes × Bytes)).length ≤ 5 ∧
    Nat.testBit 0x18 0 = false ∧ Nat.testBit 0x18 3 = true ∧ Nat.testBit 0x18 4 = true ∧
    (adjustTtml 3600 7 [60, 112, 62]).length = 3 := by decide +kernel

end Verif
