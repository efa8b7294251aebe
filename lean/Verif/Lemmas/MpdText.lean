import Verif.MpdTree
import Verif.Spec.ManifestText
import Verif.Props.IsoDuration
import Verif.Props.Timestamp
import Mathlib.Tactic.Linarith
/-
What the texts of durations and offsets in the manifest denote.
-/
namespace Verif
open Spec

theorem ptText_denotes {n : Int} (h : 0 ≤ n) : Denotes (ptText n) n.toNat := by
  refine ⟨none, none, none, some n.toNat, by simp, Or.inl ⟨?_, Or.inr (Or.inr rfl)⟩⟩
  unfold ptText intText
  rw [if_neg (by omega)]
  have : n.natAbs = n.toNat := by omega
  rw [this]
  rfl

theorem pyInt_digits {cs : Text} (hne : cs ≠ []) (h : ∀ c ∈ cs, IsDigit c) :
    pyInt cs = .ok ((cs.foldl (fun a c => a * 10 + dval c) 0 : Nat) : Int) := by
  have hd : intDigits false 0 cs = some (cs.foldl (fun a c => a * 10 + dval c) 0) := by
    cases cs with
    | nil => exact absurd rfl hne
    | cons c r =>
      obtain ⟨d, hd, rfl⟩ := h c (List.mem_cons_self ..)
      have hu : digitChar d ≠ '_' := (isDigit_digitChar hd).ne (by decide)
      rw [List.foldl_cons, intDigits, if_neg hu, digitVal_digitChar hd, dval_digitChar hd]
      exact intDigits_digits r _ (fun x hx => h x (List.mem_cons_of_mem _ hx))
  unfold pyInt
  rw [pyStrip_of_noSpace (fun c hc => (h c hc).not_space)]
  cases cs with
  | nil => exact absurd rfl hne
  | cons c r =>
    have h1 : c ≠ '-' := (h c (List.mem_cons_self ..)).ne (by decide)
    have h2 : c ≠ '+' := (h c (List.mem_cons_self ..)).ne (by decide)
    split
    · rename_i e; cases e; exact absurd rfl h1
    · rename_i e; cases e; exact absurd rfl h2
    · rw [hd]

/-- The six decimals. -/
theorem six_digits (n : Nat) :
    pyInt ((List.range 6).map fun i => digitChar (n / 10 ^ (5 - i) % 10)) = .ok ((n % 1000000 : Nat) : Int) := by
  rw [pyInt_digits (by simp)]
  · congr 2
    simp only [List.range, List.range.loop, List.map_cons, List.map_nil, List.foldl_cons, List.foldl_nil]
    have hm : ∀ m : Nat, dval (digitChar (m % 10)) = m % 10 := fun m => dval_digitChar (by omega)
    simp only [hm]
    norm_num
    omega
  · intro c hc
    obtain ⟨i, -, rfl⟩ := List.mem_map.1 hc
    exact isDigit_digitChar (by omega)

theorem pyRound_half (x : Rat) : -(1 / 2 : Rat) ≤ x - pyRound x ∧ x - pyRound x ≤ 1 / 2 := by
  have h1 := Rat.floor_le x
  have h2 := Rat.lt_floor_add_one x
  push_cast at h2
  unfold pyRound
  dsimp only
  split
  · constructor <;> linarith
  · split
    · push_cast; constructor <;> linarith
    · split
      · constructor <;> linarith
      · push_cast; constructor <;> linarith

theorem fText_denotes (x : Rat) : DecimalDenotes (fText x) (pyRound (x * 1000000)) := by
  unfold fText
  dsimp only
  set n := pyRound (x * 1000000)
  refine ⟨if n < 0 then "-".toList else [], natText (n.natAbs / 1000000), _, n.natAbs / 1000000,
    n.natAbs % 1000000, rfl, by simp, pyInt_natText _, six_digits _, ?_⟩
  by_cases h : n < 0
  · right; rw [if_pos h]; exact ⟨rfl, by omega⟩
  · left; rw [if_neg h]; exact ⟨rfl, by omega⟩

theorem dictGet_same (k v : Text) (l : List (Text × Text)) : dictGet ((k, v) :: l) k = some v := by
  simp [dictGet]

theorem dictGet_ne {k k' : Text} (h : k' ≠ k) (v : Text) (l : List (Text × Text)) :
    dictGet ((k', v) :: l) k = dictGet l k := by
  simp [dictGet, h]

theorem dictGet_append (a b : List (Text × Text)) (k : Text) : dictGet (a ++ b) k = (dictGet a k).or (dictGet b k) := by
  unfold dictGet
  rw [List.find?_append]
  cases List.find? (fun p => decide (p.1 = k)) a <;> simp

theorem dictGet_opt_same (k : Text) (o : Option Text) : dictGet (o.toList.map fun v => (k, v)) k = o := by
  cases o <;> simp [dictGet]

theorem dictGet_opt_ne {k k' : Text} (h : k' ≠ k) (o : Option Text) :
    dictGet (o.toList.map fun v => (k', v)) k = none := by
  cases o <;> simp [dictGet, h]

end Verif
