import Verif.Spec.Ttml
import Mathlib.Tactic.Linarith
import Mathlib.Tactic.Ring
/-
Matching and rewriting of TTML text.
-/
namespace Verif

theorem subAll_skip (m : Bytes → Option (Bytes × Nat)) (x : Bytes) (k : Nat) :
    subAll m x k = subAll m (x.drop k) 0 := by
  induction x generalizing k with
  | nil => simp [subAll]
  | cons b r ih =>
    cases k with
    | zero => rfl
    | succ k => rw [List.drop_succ_cons, ← ih k]; rfl

theorem subAll_none {m : Bytes → Option (Bytes × Nat)} {b : UInt8} {r : Bytes} (h : m (b :: r) = none) :
    subAll m (b :: r) 0 = b :: subAll m r 0 := by
  conv => lhs; unfold subAll
  rw [h]

theorem subAll_some {m : Bytes → Option (Bytes × Nat)} {old rest new : Bytes} (h0 : old ≠ [])
    (h : m (old ++ rest) = some (new, old.length)) :
    subAll m (old ++ rest) 0 = new ++ subAll m rest 0 := by
  cases old with
  | nil => exact absurd rfl h0
  | cons b r =>
    rw [List.cons_append] at h ⊢
    conv => lhs; unfold subAll
    rw [h]
    simp only [List.length_cons, Nat.add_sub_cancel]
    rw [subAll_skip, List.drop_left]

/-- The scan does what the relation says. -/
theorem subAll_rewrites (m : Bytes → Option (Bytes × Nat)) (M : Bytes → Bytes → Bytes → Prop)
    (hs : ∀ x new n, m x = some (new, n) → ∃ old rest, x = old ++ rest ∧ old.length = n ∧ old ≠ [] ∧ M old rest new)
    (hc : ∀ x, m x = none → ∀ old rest new, x = old ++ rest → ¬ M old rest new) (x : Bytes) :
    Rewrites M x (subAll m x 0) := by
  induction hn : x.length using Nat.strong_induction_on generalizing x with
  | _ n ih =>
    cases x with
    | nil => exact .nil
    | cons b r =>
      cases hm : m (b :: r) with
      | none =>
        rw [subAll_none hm]
        exact .keep b r _ (hc _ hm) (ih r.length (by rw [← hn]; simp) r rfl)
      | some p =>
        obtain ⟨new, k⟩ := p
        obtain ⟨old, rest, h1, h2, h3, h4⟩ := hs _ _ _ hm
        subst h2
        rw [h1] at hm ⊢
        rw [subAll_some h3 hm]
        refine .replace old rest new _ h4 (ih rest.length ?_ rest rfl)
        rw [← hn, h1, List.length_append]
        have : 0 < old.length := List.length_pos_iff.mpr h3
        omega

theorem stripLit_iff (p x y : Bytes) : stripLit p x = some y ↔ x = p ++ y := by
  induction p generalizing x with
  | nil => simp [stripLit, eq_comm]
  | cons a p ih =>
    cases x with
    | nil => simp [stripLit]
    | cons b x =>
      unfold stripLit
      split
      · rename_i h; subst h; rw [ih]; simp
      · rename_i h
        constructor
        · intro hc; cases hc
        · intro hc
          rw [List.cons_append] at hc
          exact absurd (List.cons.inj hc).1.symm h

theorem isDigitB_iff (b : UInt8) : isDigitB b = true ↔ 48 ≤ b ∧ b ≤ 57 := by
  simp [isDigitB]

theorem digits_pair (a b : UInt8) : (isDigitB a && isDigitB b) = true ↔ Digits [a, b] := by
  rw [Bool.and_eq_true, isDigitB_iff, isDigitB_iff]
  simp [Digits]

theorem twoDigits_iff (x r : Bytes) (n : Nat) :
    twoDigits x = some (n, r) ↔ ∃ t, x = t ++ r ∧ Digits t ∧ t.length = 2 ∧ n = decVal t := by
  constructor
  · intro h
    unfold twoDigits at h
    split at h
    · split at h
      · rename_i a b r' hd
        cases h
        refine ⟨[a, b], rfl, (digits_pair a b).mp hd, rfl, ?_⟩
        simp [decVal]
      · cases h
    · cases h
  · rintro ⟨t, rfl, hd, hl, rfl⟩
    match t, hl with
    | [a, b], _ =>
      simp only [List.cons_append, List.nil_append, twoDigits]
      rw [if_pos ((digits_pair a b).mpr hd)]
      simp [decVal]

theorem clockAt_iff (x r : Bytes) (n : Nat) :
    clockAt x = some (n, r) ↔ ∃ t, x = t ++ r ∧ IsClock t n := by
  constructor
  · intro h
    unfold clockAt at h
    split at h
    · cases h
    · rename_i hh x1 h1
      split at h
      · cases h
      · rename_i x2 h2
        split at h
        · cases h
        · rename_i mm x3 h3
          split at h
          · cases h
          · rename_i x4 h4
            split at h
            · cases h
            · rename_i ss x5 h5
              cases h
              obtain ⟨t1, rfl, d1, l1, rfl⟩ := (twoDigits_iff _ _ _).mp h1
              rw [stripLit_iff] at h2
              subst h2
              obtain ⟨t2, rfl, d2, l2, rfl⟩ := (twoDigits_iff _ _ _).mp h3
              rw [stripLit_iff] at h4
              subst h4
              obtain ⟨t3, rfl, d3, l3, rfl⟩ := (twoDigits_iff _ _ _).mp h5
              exact ⟨t1 ++ [58] ++ t2 ++ [58] ++ t3, by simp, t1, t2, t3, rfl, d1, d2, d3, l1, l2, l3, by ring⟩
  · rintro ⟨t, rfl, t1, t2, t3, rfl, d1, d2, d3, l1, l2, l3, rfl⟩
    unfold clockAt
    have e1 : twoDigits (t1 ++ [58] ++ t2 ++ [58] ++ t3 ++ r) = some (decVal t1, [58] ++ (t2 ++ [58] ++ t3 ++ r)) :=
      (twoDigits_iff _ _ _).mpr ⟨t1, by simp, d1, l1, rfl⟩
    have e2 : stripLit [58] ([58] ++ (t2 ++ [58] ++ t3 ++ r)) = some (t2 ++ [58] ++ t3 ++ r) :=
      (stripLit_iff _ _ _).mpr rfl
    have e3 : twoDigits (t2 ++ [58] ++ t3 ++ r) = some (decVal t2, [58] ++ (t3 ++ r)) :=
      (twoDigits_iff _ _ _).mpr ⟨t2, by simp, d2, l2, rfl⟩
    have e4 : stripLit [58] ([58] ++ (t3 ++ r)) = some (t3 ++ r) := (stripLit_iff _ _ _).mpr rfl
    have e5 : twoDigits (t3 ++ r) = some (decVal t3, r) := (twoDigits_iff _ _ _).mpr ⟨t3, rfl, d3, l3, rfl⟩
    rw [e1]; simp only
    rw [e2]; simp only
    rw [e3]; simp only
    rw [e4]; simp only
    rw [e5]; simp only
    congr 2
    ring

theorem isClock_length {t : Bytes} {n : Nat} (h : IsClock t n) : t.length = 8 := by
  obtain ⟨h, m, s, rfl, _, _, _, l1, l2, l3, _⟩ := h
  simp [l1, l2, l3]

/-! ### Decimal numbers -/

theorem decVal_snoc (ds : Bytes) (b : UInt8) : decVal (ds ++ [b]) = decVal ds * 10 + (b.toNat - 48) := by
  simp [decVal]

theorem digit_toNat {d : Nat} (h : d < 10) : (UInt8.ofNat (48 + d)).toNat = 48 + d := by
  rw [UInt8.toNat_ofNat']
  omega

theorem digits_single {d : Nat} (h : d < 10) : Digits [UInt8.ofNat (48 + d)] := by
  intro b hb
  rw [List.mem_singleton] at hb
  subst hb
  have := digit_toNat h
  constructor
  · rw [UInt8.le_iff_toNat_le, this]; simp
  · rw [UInt8.le_iff_toNat_le, this]; simp; omega

theorem Digits.append {a b : Bytes} (ha : Digits a) (hb : Digits b) : Digits (a ++ b) := by
  intro x hx
  rcases List.mem_append.mp hx with h | h
  · exact ha x h
  · exact hb x h

theorem decLoop_spec (f n : Nat) (h : n < f) :
    Digits (decLoop f n) ∧ decVal (decLoop f n) = n ∧ decLoop f n ≠ [] ∧
      (n < 10 → (decLoop f n).length = 1) ∧ (10 ≤ n → 2 ≤ (decLoop f n).length) ∧
      (10 ≤ n → n < 100 → (decLoop f n).length = 2) ∧
      (1 ≤ n → (decLoop f n).head? ≠ some 48) := by
  induction f generalizing n with
  | zero => omega
  | succ f ih =>
    unfold decLoop
    split
    · rename_i hn
      refine ⟨digits_single hn, ?_, by simp, by simp, by omega, by omega, ?_⟩
      · simp [decVal, Nat.mod_eq_of_lt (show 48 + n < 256 by omega)]
      · intro h1 hc
        rw [List.head?_cons, Option.some_inj] at hc
        have := congrArg UInt8.toNat hc
        rw [digit_toNat hn] at this
        simp at this
        omega
    · rename_i hn
      obtain ⟨i1, i2, i3, i4, i5, i6, i7⟩ := ih (n / 10) (by omega)
      have hlen : 0 < (decLoop f (n / 10)).length := List.length_pos_iff.mpr i3
      refine ⟨i1.append (digits_single (Nat.mod_lt _ (by omega))), ?_, by simp, by omega, ?_, ?_, ?_⟩
      · rw [decVal_snoc, i2, digit_toNat (Nat.mod_lt _ (by omega))]
        omega
      · intro _; rw [List.length_append, List.length_singleton]; omega
      · intro _ h2
        rw [List.length_append, List.length_singleton, i4 (by omega)]
      · intro _
        obtain ⟨a, l, e⟩ := List.exists_cons_of_ne_nil i3
        have := i7 (by omega)
        rw [e] at this ⊢
        simpa using this

theorem decBytes_spec (n : Nat) : Digits (decBytes n) ∧ decVal (decBytes n) = n ∧ decBytes n ≠ [] := by
  obtain ⟨h1, h2, h3, _⟩ := decLoop_spec (n + 1) n (by omega)
  exact ⟨h1, h2, h3⟩

theorem decInt_nat (n : Nat) : decInt (n : Int) = decBytes n := by
  unfold decInt
  rw [if_neg (by omega), Int.natAbs_natCast]

theorem pad2_nat (n : Nat) :
    Digits (pad2 (n : Int)) ∧ decVal (pad2 (n : Int)) = n ∧ (n < 100 → (pad2 (n : Int)).length = 2) ∧
      ((pad2 (n : Int)).length = 2 ∨ 2 < (pad2 (n : Int)).length ∧ (pad2 (n : Int)).head? ≠ some 48) := by
  obtain ⟨h1, h2, h3, h4, h5, h6, h7⟩ := decLoop_spec (n + 1) n (by omega)
  unfold pad2
  rw [decInt_nat]
  split
  · rename_i hn
    have hl : (decBytes n).length = 1 := h4 (by omega)
    obtain ⟨a, ha⟩ := List.length_eq_one_iff.mp hl
    refine ⟨?_, ?_, by intro _; rw [List.length_cons, hl], Or.inl (by rw [List.length_cons, hl])⟩
    · intro b hb
      rcases List.mem_cons.mp hb with rfl | hb
      · decide
      · exact h1 b hb
    · have : decVal (48 :: decBytes n) = decVal (decBytes n) := by simp [decVal]
      rw [this]; exact h2
  · rename_i hn
    have hn' : 10 ≤ n := by omega
    refine ⟨h1, h2, fun h => h6 hn' h, ?_⟩
    have := h5 hn'
    rcases Nat.lt_or_eq_of_le this with h | h
    · exact Or.inr ⟨h, h7 (by omega)⟩
    · exact Or.inl h.symm

theorem shiftedTime_isTime (n : Nat) : IsTime (shiftedTime (n : Int)) n := by
  unfold shiftedTime
  have e1 : Int.fdiv (n : Int) 3600 = ((n / 3600 : Nat) : Int) := by
    rw [Int.fdiv_eq_ediv_of_nonneg _ (by omega)]; omega
  have e2 : Int.fmod (n : Int) 3600 = ((n % 3600 : Nat) : Int) := by
    rw [Int.fmod_eq_emod_of_nonneg _ (by omega)]; omega
  have e3 : Int.fdiv ((n % 3600 : Nat) : Int) 60 = ((n % 3600 / 60 : Nat) : Int) := by
    rw [Int.fdiv_eq_ediv_of_nonneg _ (by omega)]; omega
  have e4 : Int.fmod ((n % 3600 : Nat) : Int) 60 = ((n % 3600 % 60 : Nat) : Int) := by
    rw [Int.fmod_eq_emod_of_nonneg _ (by omega)]; omega
  simp only [e1, e2, e3, e4]
  obtain ⟨a1, a2, a3, a4⟩ := pad2_nat (n / 3600)
  obtain ⟨b1, b2, b3, b4⟩ := pad2_nat (n % 3600 / 60)
  obtain ⟨c1, c2, c3, c4⟩ := pad2_nat (n % 3600 % 60)
  refine ⟨_, _, _, rfl, a1, b1, c1, a4, b3 (by omega), c3 (by omega), ?_, ?_, ?_⟩
  · rw [b2]; omega
  · rw [c2]; omega
  · rw [a2, b2, c2]; omega

end Verif
