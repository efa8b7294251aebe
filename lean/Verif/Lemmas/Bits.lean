import Verif.Bits
import Verif.Spec.Bits
import Mathlib.Tactic.Ring
import Mathlib.Data.Nat.Bitwise
/-
Bit strings; the bit writer and the bit reader on them.
-/
namespace Verif

theorem bitString_length (n v : Nat) : (bitString n v).length = n := by
  induction n with
  | zero => rfl
  | succ n ih => simp [bitString, ih]

theorem bitString_append (a b v : Nat) :
    bitString (a + b) v = bitString a (v >>> b) ++ bitString b v := by
  induction a with
  | zero => simp [bitString]
  | succ a ih =>
    rw [Nat.succ_add, bitString, bitString, ih, List.cons_append, Nat.testBit_shiftRight, Nat.add_comm]

theorem bitString_mod (n k v : Nat) (h : n ≤ k) : bitString n (v % 2 ^ k) = bitString n v := by
  induction n with
  | zero => rfl
  | succ n ih =>
    rw [bitString, bitString, ih (by omega), Nat.testBit_mod_two_pow]
    simp [show n < k by omega]

theorem bitFold (l : List Bool) (a : Nat) :
    l.foldl (fun a b => 2 * a + b.toNat) a = a * 2 ^ l.length + bitValue l := by
  induction l generalizing a with
  | nil => simp [bitValue]
  | cons x l ih =>
    unfold bitValue
    rw [List.foldl_cons, List.foldl_cons, ih, ih (2 * 0 + x.toNat), List.length_cons, Nat.pow_succ]
    ring

theorem bitValue_cons (x : Bool) (l : List Bool) :
    bitValue (x :: l) = x.toNat * 2 ^ l.length + bitValue l := by
  conv => lhs; unfold bitValue
  rw [List.foldl_cons, bitFold]
  simp

theorem bitValue_bitString (n v : Nat) : bitValue (bitString n v) = v % 2 ^ n := by
  induction n with
  | zero => simp [bitString, bitValue, Nat.mod_one]
  | succ n ih =>
    rw [bitString, bitValue_cons, ih, bitString_length, Nat.testBit_eq_decide_div_mod_eq,
      Nat.mod_pow_succ]
    have : (decide (v / 2 ^ n % 2 = 1)).toNat = v / 2 ^ n % 2 := by
      rcases Nat.mod_two_eq_zero_or_one (v / 2 ^ n) with h | h <;> simp [h]
    rw [this]
    ring

theorem bytesBits_append (a b : Bytes) : bytesBits (a ++ b) = bytesBits a ++ bytesBits b := by
  simp [bytesBits]

theorem bytesBits_cons (a : UInt8) (b : Bytes) :
    bytesBits (a :: b) = bitString 8 a.toNat ++ bytesBits b := by
  simp [bytesBits]

theorem bytesBits_length (l : Bytes) : (bytesBits l).length = 8 * l.length := by
  induction l with
  | nil => rfl
  | cons a l ih => rw [bytesBits_cons, List.length_append, bitString_length, ih, List.length_cons]; omega

/-! ### The writer -/

/-- Fewer than eight bits wait, and they are in `cur`. -/
structure BitWriter.Ok (w : BitWriter) : Prop where
  cur : w.cur < 2 ^ w.inNew
  few : w.inNew < 8

/-- The bits written. -/
def BitWriter.bits (w : BitWriter) : List Bool := bytesBits w.bytes ++ bitString w.inNew w.cur

theorem shl_or {a b n : Nat} (h : b < 2 ^ n) : (a <<< n) ||| b = a * 2 ^ n + b := by
  rw [← Nat.shiftLeft_add_eq_or_of_lt h, Nat.shiftLeft_eq]

theorem bitString_join (a b n m : Nat) (h : b < 2 ^ n) :
    bitString (m + n) (a * 2 ^ n + b) = bitString m a ++ bitString n b := by
  rw [bitString_append]
  congr 1
  · rw [Nat.shiftRight_eq_div_pow]
    congr 1
    rw [Nat.mul_comm, Nat.mul_add_div (Nat.two_pow_pos n), Nat.div_eq_of_lt h, Nat.add_zero]
  · rw [← bitString_mod n n _ (Nat.le_refl _), Nat.mul_add_mod_of_lt' h]
where
  Nat.mul_add_mod_of_lt' {a b c : Nat} (h : b < c) : (a * c + b) % c = b := by
    rw [Nat.mul_comm, Nat.mul_add_mod, Nat.mod_eq_of_lt h]

theorem shr_lt {v a b : Nat} (h : v < 2 ^ (a + b)) : v >>> b < 2 ^ a := by
  rw [Nat.shiftRight_eq_div_pow]
  apply Nat.div_lt_of_lt_mul
  rwa [Nat.mul_comm, ← Nat.pow_add]

theorem fill_ok (w : BitWriter) (hw : w.Ok) (data left : Nat) (hd : data < 2 ^ left)
    (h8 : 8 ≤ left + w.inNew) (hl : left + w.inNew < 42) :
    ∃ w', w.fill data left = .ok (w', data % 2 ^ (left - (8 - w.inNew)), left - (8 - w.inNew)) ∧
      w'.Ok ∧ w'.inNew = 0 ∧
      w'.bits = w.bits ++ bitString (8 - w.inNew) (data >>> (left - (8 - w.inNew))) := by
  have hf := hw.few
  have hx : data >>> (left - (8 - w.inNew)) < 2 ^ (8 - w.inNew) := by
    apply shr_lt
    rwa [Nat.add_sub_cancel' (by omega)]
  have hb : w.cur * 2 ^ (8 - w.inNew) + data >>> (left - (8 - w.inNew)) < 256 := by
    have h1 : (w.cur + 1) * 2 ^ (8 - w.inNew) ≤ 2 ^ w.inNew * 2 ^ (8 - w.inNew) :=
      Nat.mul_le_mul_right _ hw.cur
    rw [← Nat.pow_add, Nat.add_sub_cancel' (by omega), Nat.add_mul] at h1
    omega
  refine ⟨⟨w.bytes ++ [UInt8.ofNat (w.cur * 2 ^ (8 - w.inNew) + data >>> (left - (8 - w.inNew)))], 0, 0⟩,
    ?_, ⟨by simp, by simp⟩, rfl, ?_⟩
  · unfold BitWriter.fill
    simp only
    rw [shl_or hx, if_neg (by omega)]
    unfold lowMask
    rw [if_pos (by omega)]
    simp only
    rw [Nat.and_two_pow_sub_one_eq_mod]
  · unfold BitWriter.bits
    simp only [bitString, List.append_nil]
    rw [bytesBits_append, List.append_assoc]
    congr 1
    rw [bytesBits_cons, show bytesBits [] = [] from rfl, List.append_nil, UInt8.toNat_ofNat']
    rw [Nat.mod_eq_of_lt (by simpa using hb)]
    have := bitString_join w.cur _ (8 - w.inNew) w.inNew hx
    rwa [Nat.add_sub_cancel' (by omega)] at this

theorem keep_ok (w : BitWriter) (hw : w.Ok) (data left : Nat) (hd : data < 2 ^ left)
    (h8 : left + w.inNew < 8) :
    ∃ w', w.keep data left = .ok w' ∧ w'.Ok ∧ w'.bits = w.bits ++ bitString left data := by
  unfold BitWriter.keep
  split
  · unfold lowMask
    rw [if_pos (by omega)]
    simp only
    rw [Nat.and_two_pow_sub_one_eq_mod, Nat.mod_eq_of_lt hd, shl_or hd]
    refine ⟨_, rfl, ⟨?_, by simp only; omega⟩, ?_⟩
    · simp only
      have h1 : (w.cur + 1) * 2 ^ left ≤ 2 ^ w.inNew * 2 ^ left := Nat.mul_le_mul_right _ hw.cur
      rw [← Nat.pow_add, Nat.add_mul] at h1
      omega
    · unfold BitWriter.bits
      simp only
      rw [bitString_join _ _ _ _ hd, List.append_assoc]
  · have : left = 0 := by omega
    subst this
    exact ⟨w, rfl, hw, by simp [bitString]⟩

theorem addLoop_ok (n : Nat) (w : BitWriter) (hw : w.Ok) (data left : Nat) (hd : data < 2 ^ left)
    (hn : left ≤ n) (hl : left + w.inNew < 42) :
    ∃ w', BitWriter.addLoop n w data left = .ok w' ∧ w'.Ok ∧ w'.bits = w.bits ++ bitString left data := by
  have hf := hw.few
  induction n generalizing w data left with
  | zero =>
    unfold BitWriter.addLoop
    rw [if_neg (by omega)]
    exact keep_ok w hw data left hd (by omega)
  | succ n ih =>
    unfold BitWriter.addLoop
    split
    · rename_i h8
      obtain ⟨w', e, hw', h0, hb⟩ := fill_ok w hw data left hd h8 hl
      rw [e]
      simp only
      obtain ⟨w2, e2, hw2, hb2⟩ := ih w' hw' (data % 2 ^ (left - (8 - w.inNew))) (left - (8 - w.inNew))
        (Nat.mod_lt _ (Nat.two_pow_pos _)) (by omega) (by omega) hw'.few
      refine ⟨w2, e2, hw2, ?_⟩
      rw [hb2, hb, bitString_mod _ _ _ (Nat.le_refl _), List.append_assoc, ← bitString_append,
        Nat.add_sub_cancel' (by omega)]
    · exact keep_ok w hw data left hd (by omega)

/-- A field that leaves more bits after its first byte than there are masks raises. -/
theorem addLoop_wide (n : Nat) (w : BitWriter) (hw : w.Ok) (data left : Nat) (hd : data < 2 ^ left)
    (hl : 42 ≤ left + w.inNew) : BitWriter.addLoop (n + 1) w data left = .error .indexError := by
  have hf := hw.few
  unfold BitWriter.addLoop
  rw [if_pos (by omega)]
  have hx : data >>> (left - (8 - w.inNew)) < 2 ^ (8 - w.inNew) := by
    apply shr_lt
    rwa [Nat.add_sub_cancel' (by omega)]
  have hb : w.cur * 2 ^ (8 - w.inNew) + data >>> (left - (8 - w.inNew)) < 256 := by
    have h1 : (w.cur + 1) * 2 ^ (8 - w.inNew) ≤ 2 ^ w.inNew * 2 ^ (8 - w.inNew) :=
      Nat.mul_le_mul_right _ hw.cur
    rw [← Nat.pow_add, Nat.add_sub_cancel' (by omega), Nat.add_mul] at h1
    omega
  unfold BitWriter.fill
  simp only
  rw [shl_or hx, if_neg (by omega)]
  unfold lowMask
  rw [if_neg (by omega)]

/-! ### The reader -/

/-- The reader of a buffer when `k` bits have been read. -/
def readerAt (b : Bytes) (k : Nat) : BitReader :=
  ⟨b, 7 - k % 8, (b[k / 8]?.getD 0).toNat, k / 8 + 1, k⟩

theorem bitString_get (n v i : Nat) (h : i < n) : (bitString n v)[i]? = some (v.testBit (n - 1 - i)) := by
  induction n generalizing i with
  | zero => omega
  | succ n ih =>
    cases i with
    | zero => simp [bitString]
    | succ i =>
      rw [bitString, List.getElem?_cons_succ, ih i (by omega)]
      congr 2
      omega

theorem bitAt_eq (b : Bytes) (k : Nat) :
    bitAt b k = (b[k / 8]?.getD 0).toNat.testBit (7 - k % 8) := by
  unfold bitAt
  induction b generalizing k with
  | nil => simp [bytesBits]
  | cons x l ih =>
    rw [bytesBits_cons]
    by_cases h : k < 8
    · rw [List.getElem?_append_left (by rw [bitString_length]; exact h), bitString_get 8 _ k h,
        Nat.div_eq_of_lt h, Nat.mod_eq_of_lt h]
      rfl
    · rw [List.getElem?_append_right (by rw [bitString_length]; omega), bitString_length, ih,
        show k / 8 = (k - 8) / 8 + 1 by omega, List.getElem?_cons_succ,
        show k % 8 = (k - 8) % 8 by omega]

theorem mask_bit (v i : Nat) : (if v &&& 1 <<< i ≠ 0 then 1 else 0) = (v.testBit i).toNat := by
  rw [Nat.shiftLeft_eq, Nat.one_mul, Nat.and_two_pow]
  cases v.testBit i <;> simp

theorem step_at (b : Bytes) (k num : Nat) :
    (readerAt b k).step num (1 <<< (7 - k % 8)) =
      (readerAt b (k + 1), 2 * num + (bitAt b k).toNat, 1 <<< (7 - (k + 1) % 8)) := by
  unfold BitReader.step
  simp only
  rw [show (readerAt b k).byte = (b[k / 8]?.getD 0).toNat from rfl, mask_bit, ← bitAt_eq]
  have hn : (num <<< 1) ||| (bitAt b k).toNat = 2 * num + (bitAt b k).toNat := by
    rw [shl_or (by cases bitAt b k <;> simp)]
    omega
  rw [hn]
  split
  · rename_i h
    have h7 : k % 8 = 7 := by
      have : 7 - k % 8 = 0 := h
      omega
    unfold readerAt
    simp only
    rw [show (k + 1) % 8 = 0 by omega, show (k + 1) / 8 = k / 8 + 1 by omega]
  · rename_i h
    have h7 : k % 8 < 7 := by
      have : 7 - k % 8 ≠ 0 := h
      omega
    unfold readerAt
    simp only
    rw [show (k + 1) % 8 = k % 8 + 1 by omega, show (k + 1) / 8 = k / 8 by omega,
      show 7 - (k % 8 + 1) = 7 - k % 8 - 1 by omega]
    congr 2
    rw [show 7 - k % 8 = (7 - k % 8 - 1) + 1 by omega]
    simp [Nat.shiftLeft_succ, Nat.shiftRight_succ]

theorem bitsFrom_length (b : Bytes) (k n : Nat) : (bitsFrom b k n).length = n := by
  induction n generalizing k with
  | zero => rfl
  | succ n ih => simp [bitsFrom, ih]

theorem getLoop_at (b : Bytes) (n k num : Nat) :
    BitReader.getLoop n (readerAt b k) num (1 <<< (7 - k % 8)) =
      (num * 2 ^ n + bitValue (bitsFrom b k n), readerAt b (k + n)) := by
  induction n generalizing k num with
  | zero => simp [BitReader.getLoop, bitsFrom, bitValue]
  | succ n ih =>
    unfold BitReader.getLoop
    rw [step_at, ih, bitsFrom, bitValue_cons, bitsFrom_length, Nat.pow_succ,
      show k + 1 + n = k + (n + 1) by omega]
    congr 1
    ring

theorem getBits_at (b : Bytes) (k n : Nat) :
    (readerAt b k).getBits n = (bitValue (bitsFrom b k n), readerAt b (k + n)) := by
  have := getLoop_at b n k 0
  rw [Nat.zero_mul, Nat.zero_add] at this
  exact this

theorem bitsFrom_eq (b : Bytes) (k : Nat) (l rest : List Bool) (h : (bytesBits b).drop k = l ++ rest) :
    bitsFrom b k l.length = l := by
  induction l generalizing k with
  | nil => rfl
  | cons x l ih =>
    rw [List.length_cons, bitsFrom]
    have h0 : (bytesBits b)[k]? = some x := by
      rw [show (bytesBits b)[k]? = ((bytesBits b).drop k)[0]? by rw [List.getElem?_drop, Nat.add_zero], h]
      rfl
    rw [ih (k + 1) (by rw [← List.drop_drop, h]; rfl)]
    unfold bitAt
    rw [h0]
    rfl

end Verif
