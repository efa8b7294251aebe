import Verif.Lemmas.Bytes
import Verif.Boxes
/-
C48: binary integers.
-/
namespace Verif

/-- **C48 (uint32).** Packing succeeds exactly on `[0, 2^32)`, yields four bytes, and
unpacking inverts it; every four-byte string is the packing of its value, other lengths
raise. -/
theorem C48_uint32 (v : Int) (b : Bytes) :
    (uint32ToStr v = .ok b ↔ b.length = 4 ∧ strToUint32 b = .ok v.toNat ∧ 0 ≤ v) ∧
    (¬ (0 ≤ v ∧ v < 2^32) → uint32ToStr v = .error .structError) ∧
    ((0 ≤ v ∧ v < 2^32) → ∃ b, uint32ToStr v = .ok b) ∧
    (b.length ≠ 4 → strToUint32 b = .error .structError) := by
  have hlt := beVal_lt b
  refine ⟨?_, ?_, ?_, ?_⟩
  · unfold uint32ToStr strToUint32
    constructor
    · intro h
      split at h
      · rename_i hr
        simp only [Except.ok.injEq] at h
        subst h
        simp only [beBytes_length, if_true, Except.ok.injEq]
        refine ⟨trivial, ?_, hr.1⟩
        exact beVal_beBytes_of_lt (by have := hr.2; omega)
      · simp at h
    · rintro ⟨h1, h2, h3⟩
      rw [if_pos h1] at h2
      simp only [Except.ok.injEq] at h2
      rw [h1] at hlt
      rw [if_pos ⟨h3, by omega⟩, ← h2, ← h1, beBytes_beVal]
  · intro h; exact if_neg (by omega)
  · intro h; exact ⟨_, if_pos (by omega)⟩
  · intro h; simp [strToUint32, h]

/-- **C48 (uint64).** -/
theorem C48_uint64 (v : Int) (b : Bytes) :
    (uint64ToStr v = .ok b ↔ b.length = 8 ∧ strToUint64 b = .ok v.toNat ∧ 0 ≤ v) ∧
    (¬ (0 ≤ v ∧ v < 2^64) → uint64ToStr v = .error .structError) ∧
    ((0 ≤ v ∧ v < 2^64) → ∃ b, uint64ToStr v = .ok b) ∧
    (b.length ≠ 8 → strToUint64 b = .error .structError) := by
  have hlt := beVal_lt b
  refine ⟨?_, ?_, ?_, ?_⟩
  · unfold uint64ToStr strToUint64
    constructor
    · intro h
      split at h
      · rename_i hr
        simp only [Except.ok.injEq] at h
        subst h
        simp only [beBytes_length, if_true, Except.ok.injEq]
        refine ⟨trivial, ?_, hr.1⟩
        exact beVal_beBytes_of_lt (by have := hr.2; omega)
      · simp at h
    · rintro ⟨h1, h2, h3⟩
      rw [if_pos h1] at h2
      simp only [Except.ok.injEq] at h2
      rw [h1] at hlt
      rw [if_pos ⟨h3, by omega⟩, ← h2, ← h1, beBytes_beVal]
  · intro h; exact if_neg (by omega)
  · intro h; exact ⟨_, if_pos (by omega)⟩
  · intro h; simp [strToUint64, h]

/-- **C48 (sint32).** Two's complement: packing and unpacking are inverse on
`[-2^31, 2^31)`, other values raise. -/
theorem C48_sint32 (v : Int) (b : Bytes) :
    (sint32ToStr v = .ok b ↔ b.length = 4 ∧ strToSint32 b = .ok v) ∧
    (¬ (-2^31 ≤ v ∧ v < 2^31) → sint32ToStr v = .error .structError) ∧
    ((-2^31 ≤ v ∧ v < 2^31) → ∃ b, sint32ToStr v = .ok b) := by
  have hlt := beVal_lt b
  refine ⟨?_, ?_, ?_⟩
  · unfold sint32ToStr strToSint32
    constructor
    · intro h
      split at h
      · rename_i hr
        simp only [Except.ok.injEq] at h
        have hb : (if 0 ≤ v then v.toNat else (v + 2^32).toNat) < 256^4 := by
          have := hr.1; have := hr.2; split <;> omega
        subst h
        simp only [beBytes_length, if_true, Except.ok.injEq, true_and]
        rw [beVal_beBytes_of_lt hb]
        have := hr.1; have := hr.2
        split <;> split at * <;> omega
      · simp at h
    · rintro ⟨h1, h2⟩
      rw [if_pos h1] at h2
      simp only [Except.ok.injEq] at h2
      rw [h1] at hlt
      have hv : -2^31 ≤ v ∧ v.toNat < 2^31 := by split at h2 <;> omega
      rw [if_pos hv]
      have : (if 0 ≤ v then v.toNat else (v + 2^32).toNat) = beVal b := by
        split at h2 <;> split <;> omega
      rw [this, ← h1, beBytes_beVal]
  · intro h; exact if_neg (by omega)
  · intro h; exact ⟨_, if_pos (by omega)⟩

example : sint32ToStr (-2) = .ok [255, 255, 255, 254] ∧ uint32ToStr 4294967295 = .ok [255, 255, 255, 255]
    ∧ uint64ToStr 4294967296 = .ok [0, 0, 0, 1, 0, 0, 0, 0] ∧ uint32ToStr 4294967296 = .error .structError := by
  decide

/-- **C48 (serialisers).** `serialize_u8`/`serialize_u32` write the value modulo 2^8/2^32 in
one/four bytes (never raise); `serialize_u16` writes two bytes for values that fit 16
bits. -/
theorem C48_serialize_partial (x : Int) :
    (serializeU8 x).length = 1 ∧ (beVal (serializeU8 x) : Int) = x % 2^8 ∧
    (serializeU32 x).length = 4 ∧ (beVal (serializeU32 x) : Int) = x % 2^32 ∧
    (0 ≤ x → x < 2^16 → ∃ b, serializeU16 x = .ok b ∧ b.length = 2 ∧ (beVal b : Int) = x) := by
  have h8 := Int.emod_nonneg x (by decide : (2^8 : Int) ≠ 0)
  have h8' := Int.emod_lt_of_pos x (by decide : (0 : Int) < 2^8)
  have h32 := Int.emod_nonneg x (by decide : (2^32 : Int) ≠ 0)
  have h32' := Int.emod_lt_of_pos x (by decide : (0 : Int) < 2^32)
  refine ⟨by simp [serializeU8], ?_, by simp [serializeU32], ?_, ?_⟩
  · unfold serializeU8
    rw [beVal_beBytes_of_lt (by omega)]
    omega
  · unfold serializeU32
    rw [beVal_beBytes_of_lt (by omega)]
    omega
  · intro h0 h1
    have hm : x % 2^20 = x := Int.emod_eq_of_lt h0 (by omega)
    unfold serializeU16
    simp only [hm, h1, if_true]
    refine ⟨_, rfl, by simp, ?_⟩
    rw [beVal_beBytes_of_lt (by omega)]
    omega

/-- **C48 (violation).** Unlike the 8- and 32-bit serialisers `serialize_u16` does not reduce
its argument to 16 bits: the mask has 20 bits, so 65536 raises, as does every value that is
negative and larger than -(2^20 - 2^16). -/
theorem C48_u16_violation :
    serializeU16 65536 = .error .structError ∧ serializeU16 (-1) = .error .structError ∧
    serializeU32 (-1) = [255, 255, 255, 255] := by decide

end Verif
