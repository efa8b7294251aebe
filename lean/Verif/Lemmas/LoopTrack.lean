import Verif.Spec.LoopTrack
import Mathlib.Tactic.Ring
/-
The looped track: starts are strictly increasing and follow each other without gaps.
-/
namespace Verif

theorem loopStart_split (durs : List Nat) (w j : Nat) (h : j < durs.length) :
    loopStart durs (w * durs.length + j) = w * durs.sum + (durs.take j).sum := by
  unfold loopStart
  have h0 : 0 < durs.length := by omega
  rw [Nat.mul_comm w, Nat.mul_add_div h0, Nat.mul_add_mod, Nat.div_eq_of_lt h, Nat.mod_eq_of_lt h,
    Nat.add_zero]

theorem loopDur_split (durs : List Nat) (w j : Nat) (h : j < durs.length) :
    loopDur durs (w * durs.length + j) = durs[j] := by
  unfold loopDur
  rw [Nat.mul_comm w, Nat.mul_add_mod, Nat.mod_eq_of_lt h, List.getElem?_eq_getElem h]
  rfl

theorem loopStart_succ (durs : List Nat) (h : durs ≠ []) (k : Nat) :
    loopStart durs (k + 1) = loopEnd durs k := by
  have h0 : 0 < durs.length := List.length_pos_iff.mpr h
  obtain ⟨w, j, hj, rfl⟩ : ∃ w j, j < durs.length ∧ k = w * durs.length + j :=
    ⟨k / durs.length, k % durs.length, Nat.mod_lt _ h0, by
      rw [Nat.mul_comm]; exact (Nat.div_add_mod k durs.length).symm⟩
  unfold loopEnd
  rw [loopStart_split _ _ _ hj, loopDur_split _ _ _ hj]
  have hs : (durs.take (j + 1)).sum = (durs.take j).sum + durs[j] := by
    rw [List.take_succ_eq_append_getElem hj, List.sum_append]
    simp
  by_cases h1 : j + 1 < durs.length
  · rw [Nat.add_assoc, loopStart_split _ _ _ h1, hs]
    omega
  · have h2 : j + 1 = durs.length := by omega
    rw [Nat.add_assoc, h2, show w * durs.length + durs.length = (w + 1) * durs.length + 0 by ring,
      loopStart_split _ _ _ h0]
    have : durs.sum = (durs.take j).sum + durs[j] := by
      rw [← hs, h2, List.take_length]
    simp only [List.take_zero, List.sum_nil]
    rw [Nat.add_mul, Nat.add_zero, Nat.one_mul]
    omega

theorem loopDur_pos (durs : List Nat) (h : durs ≠ []) (hp : ∀ d ∈ durs, 0 < d) (k : Nat) :
    0 < loopDur durs k := by
  have h0 : k % durs.length < durs.length := Nat.mod_lt _ (List.length_pos_iff.mpr h)
  unfold loopDur
  rw [List.getElem?_eq_getElem h0]
  exact hp _ (List.getElem_mem h0)

theorem loopStart_lt (durs : List Nat) (h : durs ≠ []) (hp : ∀ d ∈ durs, 0 < d) {a b : Nat}
    (hab : a < b) : loopStart durs a < loopStart durs b := by
  induction b with
  | zero => omega
  | succ b ih =>
    have hb : loopStart durs b < loopStart durs (b + 1) := by
      rw [loopStart_succ _ h]
      have := loopDur_pos durs h hp b
      unfold loopEnd
      omega
    rcases Nat.lt_or_eq_of_le (Nat.lt_succ_iff.mp hab) with h1 | h1
    · exact Nat.lt_trans (ih h1) hb
    · rw [h1]; exact hb

theorem loopStart_le_iff (durs : List Nat) (h : durs ≠ []) (hp : ∀ d ∈ durs, 0 < d) (a b : Nat) :
    loopStart durs a ≤ loopStart durs b ↔ a ≤ b := by
  constructor
  · intro hle
    by_contra hc
    have := loopStart_lt durs h hp (Nat.lt_of_not_le hc)
    omega
  · intro hle
    rcases Nat.lt_or_eq_of_le hle with h1 | h1
    · exact Nat.le_of_lt (loopStart_lt durs h hp h1)
    · rw [h1]

theorem loopSegments_append (durs : List Nat) (a n m : Nat) :
    loopSegments durs a (n + m) = loopSegments durs a n ++ loopSegments durs (a + n) m := by
  unfold loopSegments
  rw [← List.map_append, List.range'_append_1]

end Verif
