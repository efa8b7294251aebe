import Verif.Py
/- Helper lemmas about bytes, slices and big-endian numbers. -/
namespace Verif

@[simp] theorem beBytes_length (k n : Nat) : (beBytes k n).length = k := by
  induction k with
  | zero => rfl
  | succ k ih => simp [beBytes, ih]

theorem beVal_lt (s : Bytes) : beVal s < 256 ^ s.length := by
  induction s with
  | nil => simp [beVal]
  | cons b bs ih =>
    have hb : b.toNat < 256 := UInt8.toNat_lt b
    simp only [beVal, List.length_cons, Nat.pow_succ]
    have : b.toNat * 256 ^ bs.length ≤ 255 * 256 ^ bs.length :=
      Nat.mul_le_mul_right _ (by omega)
    omega

theorem beVal_append (s t : Bytes) : beVal (s ++ t) = beVal s * 256 ^ t.length + beVal t := by
  induction s with
  | nil => simp [beVal]
  | cons b bs ih =>
    simp only [List.cons_append, beVal, ih, List.length_append, Nat.pow_add]
    rw [Nat.add_mul, Nat.mul_assoc]
    omega

theorem beVal_beBytes (k n : Nat) : beVal (beBytes k n) = n % 256 ^ k := by
  induction k with
  | zero => simp [beBytes, beVal, Nat.mod_one]
  | succ k ih =>
    simp only [beBytes, beVal, beBytes_length, ih, UInt8.toNat_ofNat']
    have h := Nat.mod_mul (x := n) (a := 256 ^ k) (b := 256)
    have e : n % 256 ^ (k + 1) = n % (256 ^ k * 256) := by rw [Nat.pow_succ]
    have : n / 256 ^ k % 2 ^ 8 = n / 256 ^ k % 256 := rfl
    rw [e, h, this, Nat.mul_comm]
    omega

theorem beVal_beBytes_of_lt {k n : Nat} (h : n < 256 ^ k) : beVal (beBytes k n) = n := by
  rw [beVal_beBytes, Nat.mod_eq_of_lt h]

theorem beVal_inj : ∀ {s t : Bytes}, s.length = t.length → beVal s = beVal t → s = t
  | [], [], _, _ => rfl
  | b :: bs, c :: cs, hl, hv => by
    have hl' : bs.length = cs.length := by simpa using hl
    have h1 := beVal_lt bs
    have h2 := beVal_lt cs
    simp only [beVal] at hv
    rw [hl'] at hv h1
    have hpos : 0 < 256 ^ cs.length := Nat.pow_pos (by omega)
    have hbc : b.toNat = c.toNat := by
      have e1 : (b.toNat * 256 ^ cs.length + beVal bs) / 256 ^ cs.length = b.toNat := by
        rw [Nat.mul_comm, Nat.mul_add_div hpos, Nat.div_eq_of_lt h1]; rfl
      have e2 : (c.toNat * 256 ^ cs.length + beVal cs) / 256 ^ cs.length = c.toNat := by
        rw [Nat.mul_comm, Nat.mul_add_div hpos, Nat.div_eq_of_lt h2]; rfl
      rw [← e1, hv, e2]
    have hb : b = c := UInt8.toNat_inj.mp hbc
    rw [hbc] at hv
    have := beVal_inj hl' (by omega : beVal bs = beVal cs)
    rw [hb, this]

theorem beBytes_beVal (s : Bytes) : beBytes s.length (beVal s) = s := by
  apply beVal_inj (by simp)
  exact beVal_beBytes_of_lt (beVal_lt s)

theorem slice_length (d : List α) (a b : Nat) : (slice d a b).length = min (b - a) (d.length - a) := by
  simp [slice]

theorem slice_append_left {d : List α} (e : List α) {a b : Nat} (h : b ≤ d.length) :
    slice (d ++ e) a b = slice d a b := by
  simp only [slice]
  by_cases ha : a ≤ d.length
  · rw [List.drop_append_of_le_length ha, List.take_append_of_le_length (by simp; omega)]
  · have : b - a = 0 := by omega
    simp [this]

theorem slice_append_right {d : List α} (e : List α) {a b : Nat} (h : d.length ≤ a) :
    slice (d ++ e) a b = slice e (a - d.length) (b - d.length) := by
  simp only [slice]
  have : b - d.length - (a - d.length) = b - a := by omega
  rw [this, List.drop_append]
  have : List.drop a d = [] := List.drop_of_length_le h
  simp [this]

theorem slice_full {d : List α} {b : Nat} (h : d.length ≤ b) : slice d 0 b = d := by
  simp [slice, List.take_of_length_le h]

theorem slice_eq_of_append (p m s : List α) {a b : Nat} (ha : a = p.length) (hb : b = p.length + m.length) :
    slice (p ++ m ++ s) a b = m := by
  subst ha; subst hb
  simp [slice, List.append_assoc]

@[simp] theorem slice_nil (a b : Nat) : slice ([] : List α) a b = [] := by simp [slice]

theorem slice_slice (d : List α) {a b c e : Nat} (h : a + e ≤ b) :
    slice (slice d a b) c e = slice d (a + c) (a + e) := by
  simp only [slice, List.drop_take, List.drop_drop, List.take_take]
  congr 1
  omega

theorem slice_split (d : List α) {a b c : Nat} (h1 : a ≤ b) (h2 : b ≤ c) :
    slice d a c = slice d a b ++ slice d b c := by
  simp only [slice]
  have : d.drop b = (d.drop a).drop (b - a) := by rw [List.drop_drop]; congr 1; omega
  rw [this]
  have e : c - a = (b - a) + (c - b) := by omega
  rw [e, List.take_add]

theorem beBytes_inj {k a b : Nat} (ha : a < 256 ^ k) (hb : b < 256 ^ k)
    (h : beBytes k a = beBytes k b) : a = b := by
  have := congrArg beVal h
  rwa [beVal_beBytes_of_lt ha, beVal_beBytes_of_lt hb] at this

end Verif
