import Verif.TimeFormat
import Verif.Spec.IsoDuration
import Verif.Lemmas.Text
import Mathlib.Tactic.Linarith
import Mathlib.Tactic.Ring
import Mathlib.Algebra.Order.Field.Rat
/-
C24: ISO durations.
-/
namespace Verif
open Spec

theorem IsDigit.isSome {c : Char} (h : IsDigit c) : (digitVal c).isSome = true := by
  obtain ⟨d, hd, rfl⟩ := h
  rw [digitVal_digitChar hd]; rfl

theorem dropWhile_append_stop {p : α → Bool} {l r : List α} {x : α} (h : ∀ y ∈ l, p y = true)
    (hx : p x = false) : (l ++ x :: r).dropWhile p = x :: r := by
  induction l with
  | nil => simp [hx]
  | cons a l ih =>
    have := h a (by simp)
    simp [this, ih (fun y hy => h y (by simp [hy]))]

theorem isoField_hit (u : Char) (hu : (digitVal u).isSome = false) (n : Nat) (r : Text) :
    isoField u (natText n ++ u :: r) = (some n, r) := by
  have hd : ∀ c ∈ natText n, (digitVal c).isSome = true := fun c hc => (natText_digits n c hc).isSome
  unfold isoField
  rw [dropWhile_append_stop hd hu, takeWhile_append_stop hd hu]
  simp [intDigits_natText]

theorem isoField_miss (u v : Char) (hv : (digitVal v).isSome = false) (hne : v ≠ u) (n : Nat)
    (r : Text) : isoField u (natText n ++ v :: r) = (none, natText n ++ v :: r) := by
  have hd : ∀ c ∈ natText n, (digitVal c).isSome = true := fun c hc => (natText_digits n c hc).isSome
  unfold isoField
  rw [dropWhile_append_stop hd hv]
  simp [hne]

theorem isoField_nil (u : Char) : isoField u [] = (none, []) := rfl

/-- The parser inverts the rendering of the time components. -/
theorem isoToSeconds_comp (h m s : Option Nat) :
    isoToSeconds ('P' :: 'T' :: (comp 'H' h ++ comp 'M' m ++ comp 'S' s)) =
      .ok (h.getD 0 * 3600 + m.getD 0 * 60 + s.getD 0) := by
  have dH : (digitVal 'H').isSome = false := by decide
  have dM : (digitVal 'M').isSome = false := by decide
  have dS : (digitVal 'S').isSome = false := by decide
  unfold isoToSeconds
  cases h <;> cases m <;> cases s <;>
    simp [comp, isoField_nil, isoField_hit, isoField_miss, dH, dM, dS]

/-- The decomposition of the seconds used by the formatter. -/
theorem secondsToIso_shape {x : Rat} (hx : 0 ≤ x) :
    ∃ (d h m : Nat) (s : Rat), 0 ≤ s ∧ s < 60 ∧ h < 24 ∧ m < 60 ∧
      x = d * 86400 + h * 3600 + m * 60 + s ∧
      secondsToIso x = 'P' :: comp 'D' (if 0 < d then some d else none) ++
        'T' :: (comp 'H' (if 0 < h then some h else none) ++
          comp 'M' (if 0 < m then some m else none) ++
          comp 'S' (if 0 < s ∨ (d = 0 ∧ h = 0 ∧ m = 0) then some s.floor.toNat else none)) := by
  have fl : ∀ (y : Rat) (k : Rat), 0 < k → 0 ≤ y → 0 ≤ (y / k).floor ∧
      0 ≤ y - ((y / k).floor : Rat) * k ∧ y - ((y / k).floor : Rat) * k < k := by
    intro y k hk hy
    have h0 : (0 : Rat) ≤ y / k := div_nonneg hy hk.le
    have h1 := Rat.floor_le (y / k)
    have h2 := Rat.lt_floor_add_one (y / k)
    refine ⟨?_, ?_, ?_⟩
    · exact Rat.le_floor_iff.mpr (by simpa using h0)
    · have := (le_div_iff₀ hk).mp h1; linarith
    · push_cast at h2
      have := (div_lt_iff₀ hk).mp h2; linarith
  obtain ⟨d0, r0, r1⟩ := fl x 86400 (by norm_num) hx
  set D := (x / 86400).floor with hD
  obtain ⟨h0, s0, s1⟩ := fl (x - D * 86400) 3600 (by norm_num) r0
  set H := ((x - D * 86400) / 3600).floor with hH
  obtain ⟨m0, t0, t1⟩ := fl (x - D * 86400 - H * 3600) 60 (by norm_num) s0
  set M := ((x - D * 86400 - H * 3600) / 60).floor with hM
  set S := x - D * 86400 - H * 3600 - M * 60 with hS
  have bH : H < 24 := by
    have : (H : Rat) < (24 : Int) := by push_cast; linarith
    exact_mod_cast this
  have bM : M < 60 := by
    have : (M : Rat) < (60 : Int) := by push_cast; linarith
    exact_mod_cast this
  lift D to Nat using d0 with D'
  lift H to Nat using h0 with H'
  lift M to Nat using m0 with M'
  have hint : ∀ n : Nat, intText (n : Int) = natText n := by
    intro n; unfold intText; rw [if_neg (by omega)]; simp
  have htr : intText (pyTrunc S) = natText S.floor.toNat := by
    unfold pyTrunc
    rw [if_pos t0]
    have : 0 ≤ S.floor := Rat.le_floor_iff.mpr (by simpa using t0)
    conv_lhs => rw [← Int.toNat_of_nonneg this]
    exact hint _
  refine ⟨D', H', M', S, t0, t1, by omega, by omega, by rw [hS]; push_cast; linarith, ?_⟩
  unfold secondsToIso
  dsimp only
  rw [← hD, ← hH, ← hM, ← hS, htr]
  simp only [hint]
  have e : ∀ (n : Nat) (u : Char), (if (0 : Int) < (n : Int) then natText n ++ [u] else []) =
      comp u (if 0 < n then some n else none) := by
    intro n u
    by_cases hn : 0 < n
    · rw [if_pos (by omega), if_pos hn]; rfl
    · rw [if_neg (by omega), if_neg hn]; rfl
  have eD : "D".toList = ['D'] := rfl
  have eH : "H".toList = ['H'] := rfl
  have eM : "M".toList = ['M'] := rfl
  have eS : "S".toList = ['S'] := rfl
  have eT : "T".toList = ['T'] := rfl
  have eP : "P".toList = ['P'] := rfl
  have ePT : "PT".toList = ['P', 'T'] := rfl
  simp only [eD, eH, eM, eS, eT, eP, ePT, e]
  have hne : ∀ n, natText n ≠ [] := natText_ne_nil
  have cond : (['P'] ++ comp 'D' (if 0 < D' then some D' else none) ++ ['T'] ++
      comp 'H' (if 0 < H' then some H' else none) ++ comp 'M' (if 0 < M' then some M' else none)
      = ['P', 'T']) ↔ (D' = 0 ∧ H' = 0 ∧ M' = 0) := by
    constructor
    · intro hh
      have hl := congrArg List.length hh
      have ln : ∀ n, 0 < (natText n).length := fun n => List.length_pos_iff.mpr (hne n)
      refine ⟨?_, ?_, ?_⟩ <;> by_contra hc
      · rw [if_pos (show 0 < D' by omega)] at hl
        have := ln D'
        simp only [comp, List.length_append, List.length_cons, List.length_nil] at hl
        omega
      · rw [if_pos (show 0 < H' by omega)] at hl
        have := ln H'
        simp only [comp, List.length_append, List.length_cons, List.length_nil] at hl
        omega
      · rw [if_pos (show 0 < M' by omega)] at hl
        have := ln M'
        simp only [comp, List.length_append, List.length_cons, List.length_nil] at hl
        omega
    · rintro ⟨rfl, rfl, rfl⟩; rfl
  simp only [cond]
  have e2 : (if 0 < S ∨ D' = 0 ∧ H' = 0 ∧ M' = 0 then natText S.floor.toNat ++ ['S'] else []) =
      comp 'S' (if 0 < S ∨ D' = 0 ∧ H' = 0 ∧ M' = 0 then some S.floor.toNat else none) := by
    split <;> rfl
  rw [e2]
  simp only [List.append_assoc, List.cons_append, List.nil_append]

/-- **C24 (denotation).** The duration string written for a non-negative number of seconds is
a valid duration that denotes the whole seconds, unless it is a positive multiple of a day.
Missing: multiples of a day (`C24_day_violation`). -/
theorem C24_denotes_partial {x : Rat} (hx : 0 ≤ x)
    (hday : ∀ k : Nat, 0 < k → x ≠ k * 86400) :
    Denotes (secondsToIso x) x.floor.toNat := by
  obtain ⟨d, h, m, s, s0, s1, hh, hm, e, t⟩ := secondsToIso_shape hx
  have hf : x.floor.toNat = d * 86400 + h * 3600 + m * 60 + s.floor.toNat := by
    have h0 : 0 ≤ s.floor := Rat.le_floor_iff.mpr (by simpa using s0)
    have : x.floor = (d * 86400 + h * 3600 + m * 60 : Nat) + s.floor := by
      have h1 := Rat.floor_le s
      have h2 := Rat.lt_floor_add_one s
      push_cast at h2
      apply le_antisymm
      · have : (x.floor : Rat) < (((d * 86400 + h * 3600 + m * 60 : Nat) + s.floor + 1 : Int) : Rat) := by
          have := Rat.floor_le x; push_cast; linarith
        have := Rat.intCast_lt_intCast.mp this
        omega
      · rw [Rat.le_floor_iff]; push_cast; linarith
    omega
  refine ⟨_, _, _, _, ?_, Or.inl ⟨t, ?_⟩⟩
  · rw [hf]
    have c : ∀ n : Nat, (if 0 < n then some n else none : Option Nat).getD 0 = n := by
      intro n; split <;> simp; omega
    simp only [c]
    by_cases hs : 0 < s ∨ (d = 0 ∧ h = 0 ∧ m = 0)
    · rw [if_pos hs]; simp
    · rw [if_neg hs]
      have : s = 0 := by
        have : ¬ 0 < s := fun hc => hs (Or.inl hc)
        exact le_antisymm (not_lt.mp this) s0
      subst this; simp [show Rat.floor 0 = 0 from rfl]
  · by_contra hc
    simp only [not_or] at hc
    obtain ⟨c1, c2, c3⟩ := hc
    have h0 : h = 0 := by by_contra hn; simp [show 0 < h by omega] at c1
    have m0 : m = 0 := by by_contra hn; simp [show 0 < m by omega] at c2
    have hs : ¬ (0 < s ∨ (d = 0 ∧ h = 0 ∧ m = 0)) := by
      intro hn; rw [if_pos hn] at c3; simp at c3
    rw [not_or] at hs
    have s00 : s = 0 := le_antisymm (not_lt.mp hs.1) s0
    have dp : 0 < d := by
      by_contra hn; exact hs.2 ⟨by omega, h0, m0⟩
    exact hday d dp (by rw [e, h0, m0, s00]; push_cast; ring)

/-- **C24 (round trip).** Up to one day the package's own parser reads back the whole seconds.
Missing: durations of one day or more (`C24_day_violation`). -/
theorem C24_roundtrip_partial {x : Rat} (hx : 0 ≤ x) (h : x < 86400) :
    isoToSeconds (secondsToIso x) = .ok x.floor.toNat := by
  obtain ⟨d, hh, m, s, s0, s1, hh24, hm, e, t⟩ := secondsToIso_shape hx
  have d0 : d = 0 := by
    by_contra hn
    have : (1 : Rat) ≤ d := by exact_mod_cast (show 1 ≤ d by omega)
    have h1 : (0 : Rat) ≤ hh := by exact_mod_cast Nat.zero_le hh
    have h2 : (0 : Rat) ≤ m := by exact_mod_cast Nat.zero_le m
    linarith
  have hd := C24_denotes_partial hx (by
    intro k hk hc
    have : (1 : Rat) ≤ k := by exact_mod_cast hk
    linarith)
  rw [t, d0]
  simp only [Nat.lt_irrefl, if_false, comp, List.cons_append, List.nil_append]
  have key := isoToSeconds_comp (if 0 < hh then some hh else none) (if 0 < m then some m else none)
    (if 0 < s ∨ (0 = 0 ∧ hh = 0 ∧ m = 0) then some s.floor.toNat else none)
  simp only [comp] at key
  rw [key]
  congr 1
  have c : ∀ n : Nat, (if 0 < n then some n else none : Option Nat).getD 0 = n := by
    intro n; split <;> simp; omega
  rw [c, c]
  have hf : x.floor.toNat = hh * 3600 + m * 60 + s.floor.toNat := by
    have h0 : 0 ≤ s.floor := Rat.le_floor_iff.mpr (by simpa using s0)
    have : x.floor = (hh * 3600 + m * 60 : Nat) + s.floor := by
      have h1 := Rat.floor_le s
      have h2 := Rat.lt_floor_add_one s
      push_cast at h2
      rw [d0] at e
      apply le_antisymm
      · have : (x.floor : Rat) < (((hh * 3600 + m * 60 : Nat) + s.floor + 1 : Int) : Rat) := by
          have := Rat.floor_le x; push_cast at *; linarith
        have := Rat.intCast_lt_intCast.mp this
        omega
      · rw [Rat.le_floor_iff]; push_cast at *; linarith
    omega
  rw [hf]
  by_cases hs : 0 < s ∨ (True ∧ hh = 0 ∧ m = 0)
  · rw [if_pos hs]; simp
  · rw [if_neg hs]
    have : s = 0 := le_antisymm (not_lt.mp (fun hc => hs (Or.inl hc))) s0
    subst this; simp [show Rat.floor 0 = 0 from rfl]

example : secondsToIso 5402 = "PT1H30M2S".toList ∧ isoToSeconds "PT1H30M2S".toList = .ok 5402 ∧
    secondsToIso 0 = "PT0S".toList ∧ secondsToIso (605 / 10) = "PT1M0S".toList ∧
    secondsToIso 90061 = "P1DT1H1M1S".toList := by decide +kernel

/-- Two renderings can only agree if the strings do: `P1DT` is not a valid duration. -/
theorem not_denotes_P1DT (n : Nat) : ¬ Denotes "P1DT".toList n := by
  rintro ⟨d, h, m, s, -, ⟨e, hs⟩ | ⟨e, -⟩⟩
  · have hlast : (comp 'H' h ++ comp 'M' m ++ comp 'S' s).getLast? = some 'H' ∨
        (comp 'H' h ++ comp 'M' m ++ comp 'S' s).getLast? = some 'M' ∨
        (comp 'H' h ++ comp 'M' m ++ comp 'S' s).getLast? = some 'S' := by
      cases s <;> cases m <;> cases h <;>
        simp [comp, List.getLast?_append, -List.append_assoc] at hs ⊢
    have := congrArg List.getLast? e
    rw [show ("P1DT".toList : Text).getLast? = some 'T' from rfl] at this
    generalize comp 'H' h ++ comp 'M' m ++ comp 'S' s = r at *
    cases r with
    | nil => simp at hlast
    | cons a r =>
      rw [List.getLast?_append, List.getLast?_cons_cons] at this
      rcases hlast with hl | hl | hl <;> rw [hl] at this <;> simp at this
  · have := congrArg List.getLast? e
    rw [show ("P1DT".toList : Text).getLast? = some 'T' from rfl] at this
    cases d with
    | none => simp [comp] at this
    | some d =>
      rw [comp, ← List.cons_append, List.getLast?_append] at this
      simp at this

/-- **C24 (violation).** One day is written `P1DT`, which is not a valid duration, and the
parser of the package rejects every string with a day part. -/
theorem C24_day_violation :
    secondsToIso 86400 = "P1DT".toList ∧ (∀ n, ¬ Denotes (secondsToIso 86400) n) ∧
    secondsToIso 90000 = "P1DT1H".toList ∧ isoToSeconds (secondsToIso 90000) = .error .valueError := by
  have h1 : secondsToIso 86400 = "P1DT".toList := by decide +kernel
  refine ⟨h1, ?_, by decide +kernel, by decide +kernel⟩
  intro n; rw [h1]; exact not_denotes_P1DT n

end Verif
